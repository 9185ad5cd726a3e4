import Verif.Conv.FbxConvFindings
import Mathlib.Data.Finset.Card
import Mathlib.Data.Finset.Dedup
import Mathlib.Data.Finset.Erase

/-! Properties C135 (materials of converted documents), C136 (materials given from outside) and C137 (a given
place). -/

namespace Verif.Conv

open Verif.Geom
open Verif.Mqo (Str Object Face Bone MorphTargetList)

variable {F : Type}

/-! ### C136: the order of materials -/

/-- How many different numbers the list has. -/
def distinct (l : List Int) : Nat := l.dedup.length

theorem distinct_cons (a : Int) (l : List Int) : distinct (a :: l) = distinct (l.filter (· ≠ a)) + 1 := by
  unfold distinct
  rw [← List.card_toFinset, ← List.card_toFinset, List.toFinset_cons]
  have e : (l.filter (· ≠ a)).toFinset = l.toFinset.erase a := by
    ext x
    simp only [List.mem_toFinset, List.mem_filter, Finset.mem_erase, decide_eq_true_eq]
    exact and_comm
  rw [e]
  by_cases h : a ∈ l.toFinset
  · rw [Finset.insert_eq_of_mem h]
    exact (Finset.card_erase_add_one h).symm
  · rw [Finset.card_insert_of_notMem h, Finset.erase_eq_of_notMem h]

theorem overrideLoop_spec (n : Nat) : ∀ (mats seen ids over r : List Int), ids.length = n →
    (∀ s ∈ seen, 0 ≤ s ∧ s < n) → seen.Nodup → n ≤ over.length + seen.length →
    overrideLoop seen ids mats over = some r →
    r.length = n ∧ (∀ k : Nat, k < n → ((k : Int) ∈ seen ∨ (k : Int) ∉ mats) → r[k]? = ids[k]?) ∧
    ∀ (A B : List Int) (m : Int), mats = A ++ m :: B → 0 ≤ m → m < n → m ∉ A → m ∉ seen →
      r[m.toNat]? = over[distinct (A.filter fun a => a < n ∧ a ∉ seen)]? := by
  intro mats
  induction mats with
  | nil =>
    intro seen ids over r hl _ _ _ h
    simp only [overrideLoop, Option.some.injEq] at h
    subst h
    exact ⟨hl, fun _ _ _ => rfl, fun A B m h => by simp at h⟩
  | cons m0 mats ih =>
    intro seen ids over r hl hs hn ho h
    cases over with
    | nil =>
      simp only [overrideLoop, Option.some.injEq] at h
      subst h
      refine ⟨hl, fun _ _ _ => rfl, ?_⟩
      intro A B m _ h0 hm _ hns
      -- all numbers were seen
      exfalso
      have hsub : (m :: seen).Nodup := List.nodup_cons.mpr ⟨hns, hn⟩
      have hb : ∀ s ∈ m :: seen, s.toNat < n := by
        intro s hs'
        rcases List.mem_cons.mp hs' with rfl | hs'
        · omega
        · have := hs s hs'; omega
      have hnd : ((m :: seen).map Int.toNat).Nodup := by
        refine List.Nodup.map_on ?_ hsub
        intro x hx y hy hxy
        have p1 : ∀ s ∈ m :: seen, 0 ≤ s := by
          intro s hs'
          rcases List.mem_cons.mp hs' with rfl | hs'
          · exact h0
          · exact (hs s hs').1
        have := p1 x hx; have := p1 y hy; omega
      have hle : ((m :: seen).map Int.toNat).length ≤ (List.range n).length :=
        (List.Nodup.subperm hnd (by
          intro x hx
          obtain ⟨s, hs', rfl⟩ := List.mem_map.mp hx
          exact List.mem_range.mpr (hb s hs'))).length_le
      simp only [List.length_map, List.length_cons, List.length_range, List.length_nil] at hle ho
      omega
    | cons o over =>
      simp only [overrideLoop, hl] at h
      split at h
      · rename_i hc
        obtain ⟨a, b, c⟩ := ih seen ids (o :: over) r hl hs hn ho h
        refine ⟨a, ?_, ?_⟩
        · intro k hk hkk
          exact b k hk (hkk.imp id fun h => fun hm => h (List.mem_cons_of_mem _ hm))
        · intro A B m e h0 hm hA hns
          cases A with
          | nil =>
            simp only [List.nil_append, List.cons.injEq] at e
            rw [e.1] at hc
            rcases hc with hc | hc
            · exact absurd hc hns
            · omega
          | cons a0 A =>
            simp only [List.cons_append, List.cons.injEq] at e
            rw [c A B m e.2 h0 hm (fun h => hA (List.mem_cons_of_mem _ h)) hns]
            rw [List.filter_cons_of_neg]
            rw [← e.1]
            simp only [decide_eq_true_eq]
            rcases hc with hc | hc
            · exact fun h => h.2 hc
            · exact fun h => by omega
      · rename_i hc
        split at h
        · cases h
        · rename_i hneg
          have hc1 : m0 ∉ seen := fun h => hc (Or.inl h)
          have hc2 : m0 < n := by by_contra h; exact hc (Or.inr (by omega))
          obtain ⟨a, b, c⟩ := ih (m0 :: seen) (ids.set m0.toNat o) over r (by simpa using hl)
            (by
              intro s hs'
              rcases List.mem_cons.mp hs' with rfl | hs'
              · exact ⟨by omega, hc2⟩
              · exact hs s hs')
            (List.nodup_cons.mpr ⟨hc1, hn⟩) (by simp only [List.length_cons] at ho ⊢; omega) h
          refine ⟨a, ?_, ?_⟩
          · intro k hk hkk
            have hne : m0 ≠ (k : Int) := by
              rintro rfl
              rcases hkk with hkk | hkk
              · exact hc1 hkk
              · exact hkk List.mem_cons_self
            rw [b k hk (hkk.imp (List.mem_cons_of_mem _) fun h => fun hm => h (List.mem_cons_of_mem _ hm)),
              List.getElem?_set_ne (by omega)]
          · intro A B m e h0 hm hA hns
            cases A with
            | nil =>
              simp only [List.nil_append, List.cons.injEq] at e
              obtain ⟨rfl, rfl⟩ := e
              have e2 : ((m0.toNat : Nat) : Int) = m0 := Int.toNat_of_nonneg h0
              rw [b m0.toNat (by omega) (by rw [e2]; exact Or.inl List.mem_cons_self)]
              simp only [List.filter_nil, distinct, List.dedup_nil, List.length_nil, List.getElem?_cons_zero]
              rw [List.getElem?_set_self (by omega)]
            | cons a0 A =>
              simp only [List.cons_append, List.cons.injEq] at e
              obtain ⟨rfl, e⟩ := e
              have hne : m ≠ m0 := fun h => hA (h ▸ List.mem_cons_self)
              rw [c A B m e h0 hm (fun h => hA (List.mem_cons_of_mem _ h))
                (by simp only [List.mem_cons, not_or]; exact ⟨hne, hns⟩)]
              rw [List.filter_cons_of_pos (by simp [hc1, hc2]), distinct_cons, List.getElem?_cons_succ,
                List.filter_filter]
              congr 2
              apply List.filter_congr
              intro x _
              simp only [List.mem_cons, not_or, decide_not, Bool.decide_and]
              cases decide (x < (n : Int)) <;> cases decide (x = m0) <;> cases decide (x ∈ seen) <;> rfl

/-- C136. Materials given from outside are taken in the order in which the polygons first use their numbers: the
number `m` first used after `j` other numbers stands for the `j`-th given material. Numbers never used, if
any, stand for material 0. -/
theorem override_order (over mats r : List Int)
    (h : overrideLoop [] (over.map fun _ => 0) mats over = some r) :
    r.length = over.length ∧
    (∀ (A B : List Int) (m : Int), mats = A ++ m :: B → 0 ≤ m → m < over.length → m ∉ A →
      r[m.toNat]? = over[distinct (A.filter fun a => a < (over.length : Int))]?) ∧
    ∀ k : Nat, k < over.length → (k : Int) ∉ mats → r[k]? = some 0 := by
  obtain ⟨a, b, c⟩ := overrideLoop_spec over.length mats [] _ over r (by simp) (by simp) List.nodup_nil (by simp) h
  refine ⟨a, ?_, ?_⟩
  · intro A B m e h0 hm hA
    rw [c A B m e h0 hm hA (by simp)]
    simp
  · intro k hk hn
    rw [b k hk (Or.inr hn), List.getElem?_map, List.getElem?_eq_getElem hk]
    rfl

/-- `override_order`: five polygons with three numbers. -/
example : overrideLoop [] ([10, 11, 12].map fun _ => 0) [2, 2, 0, 2, 1] [10, 11, 12] = some [11, 12, 10] := by decide

section

variable [Add F] [Sub F] [Mul F] [Div F] [Zero F] [One F] [Neg F] [DecidableEq F] [FloatOps F]

/-! ### C135: materials of a document -/

omit [Add F] [Sub F] [Mul F] [Div F] [Zero F] [One F] [Neg F] [DecidableEq F] [FloatOps F] in
theorem matIdx_spec (g : FGeometry F) (i : Nat) (k : Int) (hk : g.matIdx i = some k) :
    (g.matMap = "ByPolygon".toList → g.polygons.length ≤ g.mats.length → g.mats[i]? = some k) ∧
    (g.matMap = "AllSame".toList → g.mats ≠ [] → g.mats[0]? = some k) ∧
    (g.matMap ≠ "ByPolygon".toList → g.matMap ≠ "AllSame".toList → k = 0) := by
  refine ⟨?_, ?_, ?_⟩
  · intro h1 h2
    rw [← hk]
    have h5 : g.matByPolygon = true := by
      unfold FGeometry.matByPolygon
      rw [decide_eq_true h1, decide_eq_true h2, Bool.true_and]
    unfold FGeometry.matIdx
    rw [if_pos h5]
  · intro h1 h2
    rw [← hk]
    have h3 : 0 < g.mats.length := List.length_pos_iff.2 h2
    have h4 : ¬ "AllSame".toList = "ByPolygon".toList := by decide
    have h5 : g.matByPolygon = false := by
      unfold FGeometry.matByPolygon
      rw [h1, decide_eq_false h4, Bool.false_and]
    unfold FGeometry.matIdx
    rw [h5, if_neg Bool.false_ne_true, if_pos ⟨h1, h3⟩]
  · intro h1 h2
    have h3 : g.matByPolygon = false := by
      unfold FGeometry.matByPolygon
      rw [decide_eq_false h1, Bool.false_and]
    unfold FGeometry.matIdx at hk
    rw [h3, if_neg Bool.false_ne_true, if_neg (fun e => h2 e.1)] at hk
    exact (Option.some.inj hk).symm

omit [Sub F] [Div F] [DecidableEq F] [FloatOps F] in
/-- Every visited model was set up by `modelSetup`. -/
theorem visits_setup (sc : FScene F) (opt : FOptions F) (base : Nat) : ∀ (fuel : Nat) (d : Int) (parent : Mat4 F)
    (m : Nat) (vs : List (Visit F)), visits sc opt base fuel d parent m = some vs →
    ∀ v ∈ vs, ∃ p, modelSetup sc opt base v.model v.depth p = some (v.transform, v.materials) := by
  intro fuel
  induction fuel with
  | zero => intro d parent m vs h; simp [visits] at h
  | succ fuel ih =>
    intro d parent m vs h v hv
    obtain ⟨t, ids, ls, h1, h2, rfl⟩ := visits_succ sc opt base fuel d parent m vs h
    rcases List.mem_cons.1 hv with rfl | hv
    · exact ⟨parent, h1⟩
    · obtain ⟨l, hl, hvl⟩ := List.mem_flatten.1 hv
      obtain ⟨c, _, hc⟩ := forall₂_mem_right h2 l hl
      exact ih _ _ _ _ hc v hvl

omit [Sub F] [Div F] [DecidableEq F] [FloatOps F] in
theorem modelSetup_ids (sc : FScene F) (opt : FOptions F) (base m : Nat) (d : Int) (p t : Mat4 F) (ids : List Int)
    (hno : opt.materialOverride = none) (h : modelSetup sc opt base m d p = some (t, ids)) :
    ids = (sc.model m).materials.map fun k => ((base + k : Nat) : Int) := by
  simp only [modelSetup, FOptions.override, hno, Option.isNone_none, if_true] at h
  split at h <;> simp only [Option.some.injEq, Prod.mk.injEq] at h <;> exact h.2.symm

/-- C135. Without materials given from outside each face of a converted mesh has the material its polygon names in
its model, counted behind the `base` materials the document had before. -/
theorem document_materials (facet : F) (sc : FScene F) (opt : FOptions F) (fuel base : Nat)
    (objects : List (Object F)) (morphs : List MorphTargetList) (r : FResult F) (hn : opt.targetModelName = [])
    (hno : opt.materialOverride = none) (h : fbxConvert facet sc opt fuel base objects morphs = some r) :
    ∃ tagged, r.objects = objects ++ tagged.map Prod.snd ∧ TreeOk sc opt tagged ∧
      ∀ x o g, (some x, o) ∈ tagged → (sc.model x).geometry = some g → o.faces.length = g.polygons.length ∧
        ∀ (i : Nat) (face : Face F), o.faces[i]? = some face → ∃ k : Int,
          (g.matMap = "ByPolygon".toList → g.polygons.length ≤ g.mats.length → g.mats[i]? = some k) ∧
          (g.matMap = "AllSame".toList → g.mats ≠ [] → g.mats[0]? = some k) ∧
          (g.matMap ≠ "ByPolygon".toList → g.matMap ≠ "AllSame".toList → k = 0) ∧
          ∀ j : Nat, (sc.model x).materials[k.toNat]? = some j → 0 ≤ k → face.material = ((base + j : Nat) : Int) := by
  obtain ⟨ms, ls, outs, order, st, hms, hvis, hgrow, rfl⟩ := fbxConvert_run facet sc opt fuel base objects morphs r hn h
  obtain ⟨h1, h2⟩ := tree_of_run facet sc opt fuel base objects morphs ms ls outs order st hms hvis hgrow
  refine ⟨_, h1, h2, ?_⟩
  intro x o g ho hg
  obtain ⟨z, hz, rfl, rfl⟩ := (mem_tagged _ x o).1 ho
  obtain ⟨k, _, hok⟩ := hgrow.made.mem z hz
  obtain ⟨faces, hf, e, _⟩ := hok.mesh g hg
  obtain ⟨l, hl, hvl⟩ := List.mem_flatten.1 (List.of_mem_zip (a := z.1) (b := z.2) hz).1
  obtain ⟨c, _, hcl⟩ := forall₂_mem_right hvis l hl
  obtain ⟨p, hp⟩ := visits_setup sc opt base _ _ _ _ _ hcl z.1 hvl
  have hids := modelSetup_ids sc opt base _ _ _ _ _ hno hp
  have ef : z.2.1.faces = faces := by rw [e]
  obtain ⟨hlen, hs⟩ := fbxFaces_spec g _ _ g.polygons 0 0 faces hf
  rw [ef]
  refine ⟨hlen, ?_⟩
  intro i face hi
  have hil : i < g.polygons.length := by rw [← hlen]; exact (List.getElem?_eq_some_iff.mp hi).1
  obtain ⟨face', h3, h4⟩ := hs i _ (List.getElem?_eq_getElem hil)
  rw [hi, Option.some.injEq] at h3
  subst h3
  obtain ⟨k, _, hk, hm, _⟩ := fbxFace_spec _ _ _ _ _ _ _ h4
  rw [Nat.zero_add] at hk
  obtain ⟨q1, q2, q3⟩ := matIdx_spec g i k hk
  refine ⟨k, q1, q2, q3, ?_⟩
  intro j hj h0
  have hkl : k.toNat < (sc.model z.1.model).materials.length := (List.getElem?_eq_some_iff.mp hj).1
  unfold faceMaterial at hm
  rw [hids, if_pos (by simp only [List.length_map]; omega), if_neg (by omega), List.getElem?_map, hj] at hm
  exact (Option.some.inj hm).symm

/-- C116. The bone plug-in is added only for documents that have bones. -/
theorem bones_nonempty (facet : F) (sc : FScene F) (opt : FOptions F) (fuel base : Nat)
    (objects : List (Object F)) (morphs : List MorphTargetList) (r : FResult F)
    (h : fbxConvert facet sc opt fuel base objects morphs = some r) : r.setBones ≠ some [] := by
  by_cases hn : opt.targetModelName = []
  · obtain ⟨_, _, _, _, st, _, _, _, rfl⟩ := fbxConvert_run facet sc opt fuel base objects morphs r hn h
    unfold withBones
    simp only
    split
    · simp
    · rename_i hne
      exact fun e => hne (Option.some.inj e)
  · rw [target_no_bones_false facet sc opt fuel base objects morphs r hn h]
    simp

/-! ### C136, C137: one model at a given place -/

/-- The object of the target model: where it is in the list and how it was set up. -/
theorem target_first (facet : F) (sc : FScene F) (opt : FOptions F) (fuel base : Nat) (objects : List (Object F))
    (morphs : List MorphTargetList) (r : FResult F) (m : Nat) (hn : opt.targetModelName ≠ [])
    (hm : (sc.model sc.scene).children.find? (fun m => (sc.model m).name = opt.targetModelName ++ "::Model".toList) = some m)
    (h : fbxConvert facet sc opt fuel base objects morphs = some r) :
    ∃ (o : Object F) (t : Mat4 F) (ids : List Int), r.objects[objects.length]? = some o ∧
      modelSetup sc opt base m opt.objectDepth (sc.coord.mul (sc.model sc.scene).matrix) = some (t, ids) ∧
      ∀ g, (sc.model m).geometry = some g → o.vertexes = g.vertices.map t.applyTo ∧
        fbxFaces g (fbxNormalMatrix t) ids 0 0 g.polygons = some o.faces := by
  simp only [fbxConvert] at h
  rw [if_pos hn, hm] at h
  simp only [Option.map_eq_some_iff] at h
  obtain ⟨st, hst, rfl⟩ := h
  have hinv : BInv sc (⟨objects, morphs, [], fun _ => none⟩ : FState F) [] [] [] :=
    ⟨rfl, List.nodup_nil, by simp, by simp, by simp, by simp, by simp, by simp⟩
  obtain ⟨vs, outs, new, hv, hgrow⟩ := convertModel_spec facet sc opt base _ _ _ _ _ _ _ _ hinv hst
  obtain ⟨⟨v, rest, e0, e1, e2, _⟩, _⟩ := visits_head sc opt base _ _ _ _ _ hv
  obtain ⟨p, hp⟩ := visits_setup sc opt base _ _ _ _ _ hv v (by rw [e0]; simp)
  obtain ⟨fuel', t, ids, hset, hvv⟩ : ∃ (fuel' : Nat) (t : Mat4 F) (ids : List Int),
      modelSetup sc opt base m opt.objectDepth (sc.coord.mul (sc.model sc.scene).matrix) = some (t, ids) ∧
      v = ⟨m, opt.objectDepth, t, ids⟩ := by
    cases fuel with
    | zero => simp [visits] at hv
    | succ fuel =>
      obtain ⟨t, ids, ls, h1, h2, h3⟩ := visits_succ sc opt base fuel _ _ m vs hv
      rw [e0, List.cons.injEq] at h3
      exact ⟨fuel, t, ids, h1, h3.1⟩
  have hlen := hgrow.made.length
  cases outs with
  | nil => rw [e0] at hlen; simp at hlen
  | cons out outs =>
    obtain ⟨k, _, hok⟩ := hgrow.made.mem (v, out) (by rw [e0]; simp)
    refine ⟨out.1, t, ids, ?_, hset, ?_⟩
    · simp only
      rw [hgrow.objects, List.getElem?_append_right (le_refl _), Nat.sub_self]
      simp [flatOuts]
    · intro g hg
      obtain ⟨faces, hf, e, _⟩ := hok.mesh g (by rw [hvv]; exact hg)
      simp only at e
      rw [hvv] at hf e
      simp only at hf e
      rw [e]
      exact ⟨rfl, hf⟩

/-- C136. One model converted with materials given from outside: a polygon whose number was first used after `j`
others gets the `j`-th given material. -/
theorem target_materials (facet : F) (sc : FScene F) (opt : FOptions F) (fuel base : Nat) (objects : List (Object F))
    (morphs : List MorphTargetList) (r : FResult F) (m : Nat) (hn : opt.targetModelName ≠ [])
    (hm : (sc.model sc.scene).children.find? (fun m => (sc.model m).name = opt.targetModelName ++ "::Model".toList) = some m)
    (h : fbxConvert facet sc opt fuel base objects morphs = some r) (hd : 0 < opt.objectDepth) (over : List Int)
    (hov : opt.materialOverride = some over) (ho1 : 1 < over.length) (g : FGeometry F)
    (hg : (sc.model m).geometry = some g) (hmap : g.matMap = "ByPolygon".toList)
    (hlen : g.polygons.length ≤ g.mats.length) (hm1 : 1 < g.mats.length)
    (hok : ∀ a ∈ g.mats, 0 ≤ a ∧ a < (over.length : Int)) :
    ∃ o : Object F, r.objects[objects.length]? = some o ∧ o.faces.length = g.polygons.length ∧
      ∀ (i : Nat) (face : Face F), o.faces[i]? = some face → ∃ (A B : List Int) (k : Int),
        g.mats[i]? = some k ∧ g.mats = A ++ k :: B ∧ k ∉ A ∧ over[distinct A]? = some face.material := by
  obtain ⟨o, t, ids, h1, h2, h3⟩ := target_first facet sc opt fuel base objects morphs r m hn hm h
  obtain ⟨_, hf⟩ := h3 g hg
  obtain ⟨hfl, hs⟩ := fbxFaces_spec g _ _ g.polygons 0 0 o.faces hf
  refine ⟨o, h1, hfl, ?_⟩
  intro i face hi
  have hil : i < g.polygons.length := by rw [← hfl]; exact (List.getElem?_eq_some_iff.mp hi).1
  obtain ⟨face', h4, h5⟩ := hs i _ (List.getElem?_eq_getElem hil)
  rw [hi, Option.some.injEq] at h4
  subst h4
  obtain ⟨k, _, hk, hmat, _⟩ := fbxFace_spec _ _ _ _ _ _ _ h5
  rw [Nat.zero_add] at hk
  have hk1 := (matIdx_spec g i k hk).1 hmap hlen
  have hkm : k ∈ g.mats := List.mem_of_getElem? hk1
  obtain ⟨A, B, e, hA⟩ := List.eq_append_cons_of_mem hkm
  refine ⟨A, B, k, hk1, e, hA, ?_⟩
  -- the materials of the set up
  have hover : opt.override = some over := by
    unfold FOptions.override
    rw [hov]
    cases over with
    | nil => simp at ho1
    | cons a l => rfl
  simp only [modelSetup] at h2
  rw [if_pos ⟨hd, trivial⟩, hover, hg] at h2
  simp only [overrideMaterials] at h2
  rw [if_pos ⟨ho1, hm1⟩, Option.map_eq_some_iff] at h2
  obtain ⟨ids', h6, h7⟩ := h2
  rw [Prod.mk.injEq] at h7
  obtain ⟨-, rfl⟩ := h7
  obtain ⟨q1, q2, -⟩ := override_order over g.mats ids' h6
  obtain ⟨k0, kn⟩ := hok k hkm
  have q3 := q2 A B k e k0 kn hA
  have hfil : (A.filter fun a => a < (over.length : Int)) = A := by
    rw [List.filter_eq_self]
    intro a ha
    exact decide_eq_true (hok a (by rw [e]; exact List.mem_append_left _ ha)).2
  rw [hfil] at q3
  unfold faceMaterial at hmat
  rw [if_pos (by rw [q1]; exact kn), if_neg (by omega), q3] at hmat
  exact hmat

end

section

variable [Field F] [DecidableEq F] [FloatOps F]

/-- C137. One model converted to a given place: its vertices are taken to the axes of the program, moved so that the
scaling pivot of the model lies at the origin, and then placed by the given transform; the transforms of the
FBX document do not matter. -/
theorem target_place (facet : F) (sc : FScene F) (opt : FOptions F) (fuel base : Nat) (objects : List (Object F))
    (morphs : List MorphTargetList) (r : FResult F) (m : Nat) (hn : opt.targetModelName ≠ [])
    (hm : (sc.model sc.scene).children.find? (fun m => (sc.model m).name = opt.targetModelName ++ "::Model".toList) = some m)
    (h : fbxConvert facet sc opt fuel base objects morphs = some r) (hd : 0 < opt.objectDepth) (root : Mat4 F)
    (hr : opt.rootTransform = some root) (hc : sc.coord.Affine) (g : FGeometry F) (hg : (sc.model m).geometry = some g) :
    ∃ o : Object F, r.objects[objects.length]? = some o ∧
      o.vertexes = g.vertices.map fun v => root.applyTo ((sc.coord.applyTo v).sub (sc.model m).pivot) := by
  obtain ⟨o, t, ids, h1, h2, h3⟩ := target_first facet sc opt fuel base objects morphs r m hn hm h
  obtain ⟨hv, _⟩ := h3 g hg
  refine ⟨o, h1, ?_⟩
  have ht : t = root.mul ((Mat4.translation (-(sc.model m).pivot.x) (-(sc.model m).pivot.y) (-(sc.model m).pivot.z)).mul sc.coord) := by
    simp only [modelSetup] at h2
    rw [if_pos ⟨hd, trivial⟩, hr] at h2
    cases ho : opt.override with
    | none =>
      rw [ho] at h2
      simp only [Option.some.injEq, Prod.mk.injEq] at h2
      exact h2.1.symm
    | some over =>
      rw [ho] at h2
      simp only [Option.map_eq_some_iff, Prod.mk.injEq] at h2
      obtain ⟨_, _, h2, _⟩ := h2
      exact h2.symm
  rw [hv, ht]
  apply List.map_congr_left
  intro v _
  have ha : (Mat4.translation (-(sc.model m).pivot.x) (-(sc.model m).pivot.y) (-(sc.model m).pivot.z)).Affine := by
    simp [Mat4.Affine, Mat4.translation]
  rw [applyTo_mul _ _ (affine_mul _ _ ha hc), applyTo_mul _ _ hc]
  congr 1
  ext <;> simp only [Mat4.applyTo, Mat4.translation, Vec3.sub] <;> ring

end

section

local instance ratOpsFbxUnity : FloatOps ℚ := ⟨id, fun a b => decide (a < b), fun a b => decide (a ≤ b)⟩

/-- The hypotheses of `target_materials` and `target_place` hold for the sample at a given place with two materials:
the first polygon has the number 1 and gets the first material. -/
example : (fbxConvert (119 / 2) { sampleScene with model := fun m => { sampleScene.model m with pivot := ⟨1, 0, 0⟩ } }
    { (FOptions.default : FOptions ℚ) with
      targetModelName := "Box".toList
      objectDepth := 2
      materialOverride := some [7, 8]
      rootTransform := some (Mat4.translation 5 5 5) } 4 0 [] []).map
    (fun r => r.objects.map fun o => (o.vertexes, o.faces.map fun f => f.material)) =
    some [([⟨4, 5, 5⟩, ⟨5, 5, 5⟩, ⟨5, 6, 5⟩, ⟨4, 6, 5⟩], [7, 8])] := by decide +kernel

/-- `document_materials`: the sample in a document with three materials. -/
example : (fbxConvert (119 / 2) sampleScene FOptions.default 4 3 [] []).map
    (fun r => r.objects.map fun o => o.faces.map fun f => f.material) = some [[4, 3]] := by decide +kernel

end

end Verif.Conv
