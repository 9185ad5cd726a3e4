import Verif.Unity.SceneProps

/-! C149: transforms of a file that stand for transforms of an instance. -/

namespace Verif.Unity

open Verif.Geom

variable {F : Type} [Field F]

/-- C149. A transform of a file without a game object, made from a transform of the prefab of an instance, stands for
that transform of that instance: every reference to it by the file gives the transform in the scene of the instance.
In particular instances put under such a transform are children of the transform of the instance
(`instance_is_child`). -/
theorem placeholder_transform (trunc : F → Int) (assets : Str → Option (List (Int × Doc F)))
    (ha : ∀ g ds, assets g = some ds → (ds.map Prod.fst).Nodup) (fuel : Nat) (guid : Str) (docs : List (Int × Doc F))
    (hd : (docs.map Prod.fst).Nodup) (h : Heap F) (hl : loadScene trunc assets fuel guid docs emptyHeap = some h)
    (r : Ref) (hr : r.fileID ≠ 0) (hg : r.guid = [] ∨ r.guid = guid) (t : Transform F)
    (ht : (r.fileID, Doc.transform t) ∈ docs) (ho : t.gameObject.fileID = 0) (src : Ref) (hs : t.source = some src)
    (hs0 : src.fileID ≠ 0) (i : Ref) (hi : t.inst = some i) (hi0 : i.fileID ≠ 0) (p : PrefabDoc F)
    (hp : (i.fileID, Doc.prefab p) ∈ docs) (gd : Str) (ds : List (Int × Doc F))
    (hpd : prefabDocs assets p = some (gd, ds)) (hsg : src.guid ≠ [] ∧ src.guid ≠ guid) (t' : Transform F)
    (ht' : (src.fileID, Doc.transform t') ∈ ds) (inst : Option Ref) :
    ∃ s, sceneAt h 0 [i.fileID] = some s ∧ h.guid s = gd ∧ sceneTransform h 0 r inst = some (s, src.fileID) := by
  have L := loadScene_ok trunc assets ha fuel guid docs emptyHeap h emptyHeap_ok hd hl
  have hg0 : h.guid 0 = guid := L.guid
  obtain ⟨x, hx⟩ := L.own _ _ ht
  have hx' : h.transform (0, r.fileID) = some { t with added := x } := hx
  have hel : (h.elem (0, r.fileID)).isSome = true := by
    unfold Heap.transform at hx'
    cases he : h.elem (0, r.fileID) with
    | none => rw [he] at hx'; cases hx'
    | some e => rfl
  have hrv : r.valid = true := by simpa [Ref.valid] using hr
  have hown : getElement h 0 r inst = some (0, r.fileID) := by
    unfold getElement
    rw [if_neg (by rw [hrv]; simp), if_neg, if_pos hel]
    rintro ⟨h1, h2, -⟩
    rcases hg with hg | hg
    · exact h1 hg
    · exact h2 (hg.trans hg0.symm)
  have w := L.shows
  cases w with
  | mk _ _ _ _ f g range rootsIn own absent missing place sub apart =>
    obtain ⟨e1, e2, e3, e4⟩ := place _ _ _ _ hp hpd
    have e1' : h.elem (0, i.fileID) = some (.prefab (f i.fileID)) := e1
    have sb := sub _ _ _ _ hp hpd
    cases sb with
    | mk _ _ _ _ f2 g2 range2 rootsIn2 own2 absent2 missing2 place2 sub2 apart2 =>
      obtain ⟨e', k1, k2⟩ := own2 _ _ _ ht' rfl
      rw [modifyEach_transform] at k2
      obtain ⟨t2, rfl⟩ : ∃ t2, e' = .transform t2 := by
        cases e' <;> simp only [Elem.Like, reduceCtorEq] at k2
        exact ⟨_, rfl⟩
      refine ⟨f i.fileID, by simp only [sceneAt, e1'], e2, ?_⟩
      have hsrc : findTransform h 0 src (some i) = some (f i.fileID, src.fileID) := by
        unfold findTransform getElement
        have hsv : src.valid = true := by simpa [Ref.valid] using hs0
        rw [if_neg (by rw [hsv]; simp), if_pos ⟨hsg.1, by rw [hg0]; exact hsg.2, by simpa [validRef, Ref.valid] using hi0⟩]
        simp [e1', k1, Heap.transform]
      have hfind : findTransform h 0 r inst = some (0, r.fileID) := by
        unfold findTransform
        rw [hown]
        simp only [hx', Option.isSome_some, if_true]
      unfold sceneTransform
      rw [hfind]
      simp only [hx', hs, hi]
      rw [if_pos ⟨by simp [Ref.valid, ho], by simpa [Ref.valid] using hs0⟩, hsrc]

/-- The room of the samples with a second lamp that hangs on the bulb of the first one, by a transform that stands for
the one of the bulb. -/
def hungDocs : List (Int × Doc ℚ) :=
  [(1, .object ⟨"room".toList, 1, [here 2], none, none⟩), (2, .transform (plainTransform 1 0 [])),
   (5, .prefab ⟨[], some (here 2), some ⟨100, "lamp".toList, 3⟩⟩),
   (9, .transform { plainTransform 0 0 [] with source := some ⟨13, "lamp".toList, 3⟩, inst := some (here 5) }),
   (6, .prefab ⟨[], some (here 9), some ⟨100, "lamp".toList, 3⟩⟩)]

/-- The hypotheses of `placeholder_transform`, and the lamp on the bulb of the other one. -/
example : ∃ h, loadScene sampleTrunc sampleAssets 5 "room".toList hungDocs emptyHeap = some h ∧
    sceneTransform h 0 (here 9) none = some (1, 13) ∧ getChildren h (1, 13) = [(2, 11)] := by
  have hs : (loadScene sampleTrunc sampleAssets 5 "room".toList hungDocs emptyHeap).isSome = true := by decide +kernel
  obtain ⟨h, hh⟩ := Option.isSome_iff_exists.1 hs
  obtain ⟨s, h1, h2, h3⟩ := placeholder_transform sampleTrunc sampleAssets sampleAssets_nodup 5 "room".toList hungDocs
    (by decide) h hh (here 9) (by decide) (.inl rfl)
    { plainTransform 0 0 [] with source := some ⟨13, "lamp".toList, 3⟩, inst := some (here 5) }
    (by simp [hungDocs, here]) rfl ⟨13, "lamp".toList, 3⟩ rfl (by decide) (here 5) rfl (by decide)
    ⟨[], some (here 2), some ⟨100, "lamp".toList, 3⟩⟩ (by simp [hungDocs, here]) "lamp".toList lampDocs
    (by simp [prefabDocs, Ref.valid, sampleAssets]) (by decide) (plainTransform 12 11 []) (by simp [lampDocs]) none
  have e : (loadScene sampleTrunc sampleAssets 5 "room".toList hungDocs emptyHeap).map
      (fun h => (sceneAt h 0 [5], getChildren h (1, 13))) = some (some 1, [(2, 11)]) := by decide +kernel
  rw [hh] at e
  simp only [Option.map_some, Option.some.injEq, Prod.mk.injEq] at e
  have hs1 : s = 1 := by
    have : sceneAt h 0 [5] = some s := h1
    rw [e.1] at this
    exact (Option.some.inj this).symm
  subst hs1
  exact ⟨h, hh, h3, e.2⟩

end Verif.Unity
