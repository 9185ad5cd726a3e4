import Verif.Unity.SceneLoad

/-! The loading of a Unity scene: the scenes of the instances of prefabs are as they were loaded. -/

namespace Verif.Unity

open Verif.Geom

variable {F : Type} [Field F]

set_option linter.unusedSectionVars false

/-- From scene `s` on, links, roots and children of the first heap are the same in the second. -/
structure Keeps (h h' : Heap F) (s : Nat) : Prop where
  count : h.count ≤ h'.count
  links : LinksFrom h h' s
  roots : ∀ i, s ≤ i → i < h.count → h'.roots i = h.roots i
  children : ∀ q : Ptr, s ≤ q.1 → q.1 < h.count → getChildren h' q = getChildren h q

theorem Keeps.refl (h : Heap F) (s : Nat) : Keeps h h s :=
  ⟨Nat.le_refl _, ⟨fun _ _ _ => rfl, fun _ _ _ => .of_eq rfl⟩, fun _ _ _ => rfl, fun _ _ _ => rfl⟩

theorem Keeps.trans {h h' h'' : Heap F} {s : Nat} (a : Keeps h h' s) (b : Keeps h' h'' s) : Keeps h h'' s := by
  have hc := a.count
  exact ⟨Nat.le_trans a.count b.count,
    ⟨fun i h1 h2 => (b.links.guid i h1 (by omega)).trans (a.links.guid i h1 h2),
      fun p h1 h2 => (a.links.elem p h1 h2).trans (b.links.elem p h1 (by omega))⟩,
    fun i h1 h2 => (b.roots i h1 (by omega)).trans (a.roots i h1 h2),
    fun q h1 h2 => (b.children q h1 (by omega)).trans (a.children q h1 h2)⟩

theorem Keeps.mono {h h' : Heap F} {s s' : Nat} (a : Keeps h h' s) (hs : s ≤ s') : Keeps h h' s' :=
  ⟨a.count, a.links.mono hs, fun i h1 h2 => a.roots i (by omega) h2, fun q h1 h2 => a.children q (by omega) h2⟩

theorem Step.keeps {h h' : Heap F} {n : Nat} {k : Int} (w : Step h h' n k) (ok : h.Ok) (s : Nat) (hs : n < s) : Keeps h h' s :=
  ⟨w.count, w.from s hs, fun i _ h2 => w.roots i h2, fun q h1 h2 => w.children ok q (by omega) h2⟩

/-- An instance is loaded, or there is nothing to load. -/
theorem loadInstance_keeps (trunc : F → Int) (assets : Str → Option (List (Int × Doc F)))
    (load : Str → List (Int × Doc F) → Heap F → Option (Heap F)) (hl : LoadOk trunc assets load)
    (ha : ∀ g ds, assets g = some ds → (ds.map Prod.fst).Nodup) (n : Nat) (st st' : Loading F) (k : Int) (p : PrefabDoc F)
    (ok : st.heap.Ok) (hn : n < st.heap.count) (hs : loadInstance trunc assets load n k p st = some st') :
    (prefabDocs assets p = none ∧ st' = st) ∨
    ∃ gd ds h1, prefabDocs assets p = some (gd, ds) ∧ load gd ds st.heap = some h1 ∧ Step st.heap st'.heap n k ∧
      Keeps h1 st'.heap st.heap.count ∧ st'.heap.elem (n, k) = some (.prefab st.heap.count) := by
  unfold loadInstance at hs
  cases hsrc : p.source with
  | none =>
    rw [hsrc] at hs
    exact Or.inl ⟨by simp [prefabDocs, hsrc], by simpa using hs.symm⟩
  | some src =>
    rw [hsrc] at hs
    simp only at hs
    split at hs
    · rename_i hv
      exact Or.inl ⟨by simp [prefabDocs, hsrc, hv], by simpa using hs.symm⟩
    · rename_i hv
      cases hds : assets src.guid with
      | none =>
        rw [hds] at hs
        exact Or.inl ⟨by simp [prefabDocs, hsrc, hds], by simpa using hs.symm⟩
      | some ds =>
        rw [hds] at hs
        simp only at hs
        cases hload : load src.guid ds st.heap with
        | none => rw [hload] at hs; cases hs
        | some h1 =>
          rw [hload] at hs
          simp only at hs
          have L := hl src.guid ds st.heap h1 ok (ha _ _ hds) hload
          cases hplace : placeRoot n st.heap.count p.parent { st with heap := h1 } with
          | none => rw [hplace] at hs; cases hs
          | some st2 =>
            rw [hplace] at hs
            simp only [Option.some.injEq] at hs
            have P := placeRoot_ok n st.heap.count p.parent { st with heap := h1 } st2 L.ok L.count hplace
            obtain ⟨m1, m2, m3⟩ := modifyAll_spec trunc st.heap.count p.mods st2.heap
            have ok2 : st2.heap.Ok := P.same.ok L.ok
            have ok3 := m1.ok ok2
            have c3 : (modifyAll trunc st.heap.count p.mods st2.heap).count = h1.count := m1.count.trans P.same.count
            have hlt := L.count
            obtain ⟨q1, q2, q3⟩ := put_ok { st2 with heap := modifyAll trunc st.heap.count p.mods st2.heap } n k
              (.prefab st.heap.count) ok3 (by simp only [c3]; omega) (by
                rintro s ⟨⟩
                exact ⟨hn, by simp only [c3]; omega⟩)
            rw [hs] at q1 q2 q3
            have c4 : st'.heap.count = h1.count := by rw [← hs]; exact c3
            have guid4 : st'.heap.guid = h1.guid := by rw [← hs]; exact m1.guid.trans P.same.guid
            have roots4 : st'.heap.roots = h1.roots := by rw [← hs]; exact m1.roots.trans P.same.roots
            have elem4 : ∀ q : Ptr, q ≠ (n, k) →
                st'.heap.elem q = (modifyAll trunc st.heap.count p.mods st2.heap).elem q := by
              intro q hq
              rw [← hs]
              exact Function.update_of_ne hq _ _
            have links : LinksFrom h1 st'.heap st.heap.count := by
              refine ⟨fun i _ _ => by rw [guid4], fun q hq _ => ?_⟩
              have e := elem4 q (by rintro rfl; simp only at hq; omega)
              exact ((P.same.links q).trans (m1.links q)).trans (.of_eq e)
            have step : Step st.heap st'.heap n k := by
              refine ⟨by omega, fun i hi => by rw [guid4]; exact L.guids i hi, fun i hi => by rw [roots4]; exact L.rootsBelow i hi, ?_⟩
              intro q hq hne
              rw [elem4 q hne, m2 q (by omega), P.same.below q hq]
              exact L.elems q hq
            refine Or.inr ⟨src.guid, ds, h1, by simp [prefabDocs, hsrc, hds, hv], hload, step, ⟨by omega, links, fun i _ _ => by rw [roots4], ?_⟩, q3⟩
            intro q hq hqc
            have hne : q ≠ (n, k) := by rintro rfl; simp only at hq; omega
            refine children_of_links q (links.mono hq) L.ok hqc ?_
            cases he : h1.elem q with
            | none => exact Or.inl rfl
            | some a =>
              right
              obtain ⟨b, hb, hab⟩ := P.like q a he
              have hel : ∃ b', st'.heap.elem q = some b' ∧ (b' = b ∨ b' = modifyEach trunc (modsFor p.mods q.2) b) := by
                rw [elem4 q hne]
                by_cases hqs : q.1 = st.heap.count
                · have e : q = (st.heap.count, q.2) := by rw [← hqs]
                  refine ⟨_, ?_, Or.inr rfl⟩
                  rw [e, m3, ← e, hb]
                  rfl
                · exact ⟨b, by rw [m2 q hqs]; exact hb, Or.inl rfl⟩
              obtain ⟨b', hb', hor⟩ := hel
              refine ⟨a, b', rfl, hb', ?_⟩
              cases a with
              | transform t =>
                obtain ⟨f, hf⟩ := P.kept q t ((transform_elem _ _ _).2 he)
                rw [transform_elem, hb] at hf
                cases hf
                rcases hor with rfl | rfl
                · exact Or.inl ⟨_, _, rfl, rfl, rfl, rfl, rfl⟩
                · obtain ⟨t', e1, e2, e3, e4, e5⟩ := modifyEach_father trunc (modsFor p.mods q.2)
                    { t with father := f }
                  exact Or.inl ⟨t, t', rfl, e1, e3, e4, e5⟩
              | _ =>
                have hnb : ∀ t, b ≠ .transform t := by
                  intro t hc
                  subst hc
                  simp [Elem.Like] at hab
                have hnb' : ∀ t, b' ≠ .transform t := by
                  rcases hor with rfl | rfl
                  · exact hnb
                  · exact modifyEach_kind trunc _ _ hnb
                refine Or.inr ⟨by simp [Heap.transform, he], ?_⟩
                cases ht : st'.heap.transform q with
                | none => rfl
                | some t =>
                  rw [transform_elem, hb'] at ht
                  exact absurd (by simpa using ht) (hnb' t)

/-- The instances among some documents of scene `n` have their scenes as they were loaded. -/
def KeptOf (assets : Str → Option (List (Int × Doc F))) (load : Str → List (Int × Doc F) → Heap F → Option (Heap F))
    (n : Nat) (docs : List (Int × Doc F)) (h : Heap F) : Prop :=
  ∀ k p gd ds, (k, Doc.prefab p) ∈ docs → prefabDocs assets p = some (gd, ds) → ∃ h1 h2, h1.Ok ∧ n < h1.count ∧
    load gd ds h1 = some h2 ∧ Keeps h2 h h1.count ∧ h.elem (n, k) = some (.prefab h1.count)

theorem loop_keeps (trunc : F → Int) (assets : Str → Option (List (Int × Doc F)))
    (load : Str → List (Int × Doc F) → Heap F → Option (Heap F)) (hl : LoadOk trunc assets load)
    (ha : ∀ g ds, assets g = some ds → (ds.map Prod.fst).Nodup) (guid : Str) (h : Heap F) (docs : List (Int × Doc F)) :
    ∀ (done : List (Int × Doc F)) (st st' : Loading F), Loop trunc assets guid h done st →
    ((done ++ docs).map Prod.fst).Nodup → KeptOf assets load h.count done st.heap →
    docs.foldlM (loadDoc trunc assets load h.count) st = some st' → KeptOf assets load h.count (done ++ docs) st'.heap := by
  induction docs with
  | nil =>
    intro done st st' w _ kp hs
    simp only [List.foldlM_nil, pure, Option.some.injEq] at hs
    subst hs
    simpa using kp
  | cons d ds ih =>
    intro done st st' w nd kp hs
    rw [List.foldlM_cons] at hs
    cases h1 : loadDoc trunc assets load h.count st d with
    | none => rw [h1] at hs; cases hs
    | some st1 =>
      rw [h1] at hs
      have hd : d.1 ∉ done.map Prod.fst := by
        rw [List.map_append, List.map_cons, List.nodup_append] at nd
        exact fun hc => nd.2.2 _ hc _ (by simp) rfl
      have old : Step st.heap st1.heap h.count d.1 → ∀ k p gd ds, (k, Doc.prefab p) ∈ done →
          prefabDocs assets p = some (gd, ds) → ∃ h1 h2, h1.Ok ∧ h.count < h1.count ∧
          load gd ds h1 = some h2 ∧ Keeps h2 st1.heap h1.count ∧ st1.heap.elem (h.count, k) = some (.prefab h1.count) := by
        intro step k p gd ds hk hp
        obtain ⟨a, b, e1, e2, e3, e4, e5⟩ := kp k p gd ds hk hp
        refine ⟨a, b, e1, e2, e3, e4.trans (step.keeps w.ok _ e2), ?_⟩
        rw [step.elem _ w.count (by rintro hc; cases hc; exact hd (List.mem_map.2 ⟨_, hk, rfl⟩))]
        exact e5
      have kp1 : KeptOf assets load h.count (done ++ [d]) st1.heap := by
        have simple : ∀ e : Elem F, (∀ s, e ≠ .prefab s) → (∀ p, d.2 ≠ .prefab p) → st1.heap = (st.put h.count d.1 e).heap →
            KeptOf assets load h.count (done ++ [d]) st1.heap := by
          intro e hne hnp hh k p gd ds hk hp
          obtain ⟨q1, q2, q3⟩ := put_ok st h.count d.1 e w.ok w.count (fun s hs => absurd hs (hne s))
          rw [← hh] at q2
          rcases List.mem_append.1 hk with hk | hk
          · exact old q2 k p gd ds hk hp
          · rw [List.mem_singleton] at hk
            subst hk
            exact absurd rfl (hnp p)
        obtain ⟨j, d⟩ := d
        cases d with
        | prefab p =>
          rcases loadInstance_keeps trunc assets load hl ha h.count st st1 j p w.ok w.count h1 with ⟨hp, rfl⟩ | ⟨gd, ds', h2, hp, e1, e2, e3, e4⟩
          · intro k p' gd ds' hk hp'
            rcases List.mem_append.1 hk with hk | hk
            · exact kp k p' gd ds' hk hp'
            · rw [List.mem_singleton] at hk
              cases hk
              rw [hp] at hp'
              cases hp'
          · intro k p' gd' ds'' hk hp'
            rcases List.mem_append.1 hk with hk | hk
            · exact old e2 k p' gd' ds'' hk hp'
            · rw [List.mem_singleton] at hk
              cases hk
              rw [hp] at hp'
              cases hp'
              exact ⟨st.heap, h2, w.ok, w.count, e1, e3, e4⟩
        | object o =>
          simp only [loadDoc, Option.some.injEq] at h1
          exact simple (.object o) (by simp) (by simp) (by rw [← h1])
        | transform t =>
          simp only [loadDoc, Option.some.injEq] at h1
          exact simple (.transform { t with added := [] }) (by simp) (by simp) (by rw [← h1])
        | renderer e ms =>
          simp only [loadDoc, Option.some.injEq] at h1
          exact simple (.renderer e ms) (by simp) (by simp) (by rw [← h1])
        | other c =>
          simp only [loadDoc, Option.some.injEq] at h1
          exact simple (.other c) (by simp) (by simp) (by rw [← h1])
      have := ih (done ++ [d]) st1 st' (loadDoc_ok trunc assets load hl ha guid h done st st1 d w hd h1)
        (by simpa using nd) kp1 hs
      simpa using this

/-- The parents of the instances are transforms of the same file that are no placeholders, or there are none. -/
def Local (docs : List (Int × Doc F)) : Prop :=
  ∀ k p par, (k, Doc.prefab p) ∈ docs → p.parent = some par → par.fileID ≠ 0 →
    ∃ t, (par.fileID, Doc.transform t) ∈ docs ∧ t.gameObject.fileID ≠ 0

theorem finish_keeps (trunc : F → Int) (assets : Str → Option (List (Int × Doc F))) (guid : Str) (h : Heap F)
    (docs : List (Int × Doc F)) (st : Loading F) (w : Loop trunc assets guid h docs st) (lc : Local docs) :
    Keeps st.heap (finish h.count st) (h.count + 1) ∧ ∀ p, LinksAt st.heap (finish h.count st) p := by
  have hc := w.count
  obtain ⟨h1, rfl'⟩ : ∃ h1 : Heap F, h1 = { st.heap with
      roots := Function.update st.heap.roots h.count (st.objects.filter (isRoot st.heap)) } := ⟨_, rfl⟩
  have ec : h1.count = st.heap.count := by rw [rfl']
  have eg : h1.guid = st.heap.guid := by rw [rfl']
  have ee : h1.elem = st.heap.elem := by rw [rfl']
  have er : ∀ i, i ≠ h.count → h1.roots i = st.heap.roots i := by
    intro i hi
    rw [rfl']
    exact Function.update_of_ne hi _ _
  have ern : h1.roots h.count = st.objects.filter (isRoot st.heap) := by
    rw [rfl']
    exact Function.update_self _ _ _
  have hobj : ∀ r ∈ st.objects, h.count ≤ r.1 ∧ r.1 < st.heap.count := by
    intro r hr
    rw [w.objects, List.mem_flatMap] at hr
    obtain ⟨d, _, hr⟩ := hr
    exact objectsOf_count st.heap w.ok h.count hc d r hr
  have ok1 : h1.Ok := by
    refine ⟨fun p hp => by rw [ee]; exact w.ok.fresh p (by omega), fun n id s hs => ?_, fun s r hr => ?_⟩
    · rw [ee] at hs
      rw [ec]
      exact w.ok.prefab n id s hs
    · rw [ec]
      by_cases hs : s = h.count
      · subst hs
        rw [ern] at hr
        exact hobj r (List.mem_filter.1 hr).1
      · rw [er s hs] at hr
        exact w.ok.roots s r hr
  have hfin : finish h.count st = st.added.foldl (addInstance h.count) h1 := by rw [rfl']; rfl
  have N := addInstances_near h.count st.added h1 ok1
  have C := addInstances_children h.count st.added h1 ok1 (by omega)
  rw [← hfin] at N C
  have links : ∀ p, LinksAt st.heap (finish h.count st) p := fun p => LinksAt.trans (.of_eq (by rw [ee])) (N.same.links p)
  refine ⟨⟨Nat.le_of_eq (N.same.count.trans ec).symm, ⟨fun i _ _ => by rw [N.same.guid, eg], fun p _ _ => links p⟩,
    fun i h1 _ => by rw [N.same.roots, er i (by omega)], ?_⟩, links⟩
  · intro q hq _
    have e1 : getChildren h1 q = getChildren st.heap q := by rw [rfl']; rfl
    rw [C, e1]
    have : (st.added.filter fun e => sceneTransform h1 h.count e.1 none = some q) = [] := by
      rw [List.filter_eq_nil_iff]
      intro e he hq'
      obtain ⟨d, hd, p, s, root, tr, par, o, c', k1, k2, k3, k4, k5, k6, k7, k8, rfl⟩ := (w.added e).1 he
      simp only [decide_eq_true_eq] at hq'
      have hs := hq'
      unfold sceneTransform findTransform getElement at hs
      by_cases hz : par.fileID = 0
      · rw [if_pos (by simp [Ref.valid, hz])] at hs
        simp at hs
      · obtain ⟨t, t1, t2⟩ := lc d.1 p par (by rw [← k1]; exact hd) k5 hz
        have own := w.own _ t t1
        have own1 : h1.transform (h.count, par.fileID) = some { t with added := [] } := by
          rw [transform_elem, ee, ← transform_elem]
          exact own
        have own2 : (h1.elem (h.count, par.fileID)).isSome = true := by
          rw [(transform_elem _ _ _).1 own1]
          rfl
        rw [if_neg (by simp [Ref.valid, hz]), if_neg (by simp [validRef]), if_pos own2] at hs
        simp only [own1, Option.isSome_some, if_true] at hs
        cases hsrc : t.source with
        | none =>
          rw [hsrc] at hs
          simp only [Option.some.injEq] at hs
          rw [← hs] at hq
          simp only at hq
          omega
        | some src =>
          rw [hsrc] at hs
          simp only at hs
          rw [if_neg (by simp [Ref.valid, t2])] at hs
          simp only [Option.some.injEq] at hs
          rw [← hs] at hq
          simp only at hq
          omega
    rw [this]
    rfl

/-- A scene of the heap as it was loaded. -/
def Recorded (trunc : F → Int) (assets : Str → Option (List (Int × Doc F))) (h : Heap F) (s : Nat) (guid : Str)
    (docs : List (Int × Doc F)) : Prop :=
  ∃ fuel h1 h2, h1.Ok ∧ h1.count = s ∧ loadScene trunc assets fuel guid docs h1 = some h2 ∧ Keeps h2 h s

theorem Recorded.sub {trunc : F → Int} {assets : Str → Option (List (Int × Doc F))}
    (ha : ∀ g ds, assets g = some ds → (ds.map Prod.fst).Nodup) {h : Heap F} {s : Nat} {guid : Str}
    {docs : List (Int × Doc F)} (r : Recorded trunc assets h s guid docs) (nd : (docs.map Prod.fst).Nodup) (lc : Local docs)
    (k : Int) (p : PrefabDoc F) (gd : Str) (ds : List (Int × Doc F)) (hk : (k, Doc.prefab p) ∈ docs)
    (hp : prefabDocs assets p = some (gd, ds)) :
    ∃ s', h.elem (s, k) = some (.prefab s') ∧ Recorded trunc assets h s' gd ds := by
  obtain ⟨fuel, h1, h2, ok, rfl, hl, kp⟩ := r
  have L := loadScene_ok trunc assets ha fuel guid docs h1 h2 ok nd hl
  cases fuel with
  | zero => simp [loadScene] at hl
  | succ fuel =>
    simp only [loadScene, Option.map_eq_some_iff] at hl
    obtain ⟨st, hst, rfl⟩ := hl
    have lp := loop_ok trunc assets _ (loadScene_ok trunc assets ha fuel) ha guid h1 docs [] _ st
      (loop_start trunc assets guid h1 ok) (by simpa using nd) hst
    have kl := loop_keeps trunc assets _ (loadScene_ok trunc assets ha fuel) ha guid h1 docs [] _ st
      (loop_start trunc assets guid h1 ok) (by simpa using nd) (by intro k p gd ds hk; cases hk) hst
    obtain ⟨fk, fl⟩ := finish_keeps trunc assets guid h1 docs st (by simpa using lp) lc
    obtain ⟨a, b, e1, e2, e3, e4, e5⟩ := kl k p gd ds (by simpa using hk) hp
    have N := (fk.trans (kp.mono (Nat.le_succ _)))
    refine ⟨a.count, ?_, fuel, a, b, e1, rfl, e3, e4.trans (N.mono e2)⟩
    have hl1 := kp.links.elem (h1.count, k) (Nat.le_refl _) L.count
    rw [hl1.prefab]
    exact ((fl _).prefab _).2 e5

end Verif.Unity
