import Verif.Mqo.MorphOption
import Verif.Mqo.MorphProps
import Mathlib.Data.List.Perm.Basic

/-! Theorems about the option `-morph` (C168). -/

namespace Verif.Mqo

open Verif.Geom

set_option linter.unusedSectionVars false

variable {F : Type} [CommRing F]

/-- The document fits the lists of morph targets: object names are distinct, every object is the base of one list or a
target in one list at most, and all objects of a list exist and have the same number of vertices. -/
structure Fitting (ls : List MorphTargetList) (objects : List (Object F)) : Prop where
  names : (objects.map Object.name).Nodup
  once : (ls.flatMap fun m => m.base :: m.target.map MorphTarget.name).Nodup
  sizes : ∀ m ∈ ls, ∃ n : Nat, ∀ x ∈ m.base :: m.target.map MorphTarget.name,
    ∃ o ∈ objects, o.name = x ∧ o.vertexes.length = n

/-- The objects with other vertices, given by name. -/
def withVertices (objects : List (Object F)) (V : Str → List (Vec3 F)) : List (Object F) :=
  objects.map fun o => { o with vertexes := V o.name }

theorem withVertices_self (objects : List (Object F)) (V : Str → List (Vec3 F))
    (h : ∀ o ∈ objects, o.vertexes = V o.name) : withVertices objects V = objects := by
  unfold withVertices
  conv_rhs => rw [← List.map_id objects]
  apply List.map_congr_left
  intro o ho
  rw [← h o ho]
  rfl

theorem withVertices_names (objects : List (Object F)) (V : Str → List (Vec3 F)) :
    (withVertices objects V).map Object.name = objects.map Object.name := by
  unfold withVertices
  rw [List.map_map]
  rfl

/-- Where a morph moves an object of the list `m`. -/
def stepV (m : MorphTargetList) (n : Str) (w : F) (V : Str → List (Vec3 F)) (x : Str) : List (Vec3 F) :=
  if x = m.base ∨ x ∈ m.target.map MorphTarget.name ∧ x ≠ n then
    (V x).zipWith Vec3.add ((V n).zipWith (fun tv bv => (tv.sub bv).scale w) (V m.base))
  else V x

theorem applyTargets_none (m : MorphTargetList) (n : Str) (w : F) : ∀ (ts : List MorphTarget) (k : Nat)
    (objs : List (Object F)), n ∉ ts.map MorphTarget.name → applyTargets m n w k ts objs = some objs := by
  intro ts
  induction ts with
  | nil => intro k objs _; rfl
  | cons t ts ih =>
    intro k objs h
    unfold applyTargets
    rw [if_neg (fun e => h (by simp [e])), ih (k + 1) objs fun hx => h (by
      rw [List.map_cons, List.mem_cons]; exact .inr hx)]

theorem applyTargets_at (m : MorphTargetList) (n : Str) (w : F) (r : List (Object F) × Bool) (j : Nat) :
    ∀ (ts : List MorphTarget) (k : Nat) (objs : List (Object F)), (ts.map MorphTarget.name).Nodup →
    (ts.map MorphTarget.name)[j]? = some n → m.apply objs (k + j) w = some r →
    applyTargets m n w k ts objs = some r.1 := by
  induction j with
  | zero =>
    intro ts k objs hn hj ha
    cases ts with
    | nil => simp at hj
    | cons t ts =>
      simp only [List.map_cons, List.getElem?_cons_zero, Option.some.injEq] at hj
      rw [List.map_cons, List.nodup_cons] at hn
      unfold applyTargets
      rw [if_pos hj]
      rw [Nat.add_zero] at ha
      rw [ha]
      exact applyTargets_none m n w ts (k + 1) r.1 (hj ▸ hn.1)
  | succ j ih =>
    intro ts k objs hn hj ha
    cases ts with
    | nil => simp at hj
    | cons t ts =>
      rw [List.map_cons, List.getElem?_cons_succ] at hj
      rw [List.map_cons, List.nodup_cons] at hn
      unfold applyTargets
      rw [if_neg (fun (e : t.name = n) => hn.1 (by rw [e]; exact List.mem_of_getElem? hj))]
      exact ih ts (k + 1) objs hn.2 hj (by rw [← ha]; congr 1; omega)

/-- The vertices of the objects of a list have one number. -/
def SizesV (ls : List MorphTargetList) (V : Str → List (Vec3 F)) : Prop :=
  ∀ m ∈ ls, ∃ n : Nat, ∀ x ∈ m.base :: m.target.map MorphTarget.name, (V x).length = n

/-- The names of the lists are all there. -/
def Known (ls : List MorphTargetList) (objects : List (Object F)) : Prop :=
  ∀ m ∈ ls, ∀ x ∈ m.base :: m.target.map MorphTarget.name, x ∈ objects.map Object.name

theorem applyTargets_one (ls : List MorphTargetList) (objects : List (Object F)) (V : Str → List (Vec3 F))
    (hn : (objects.map Object.name).Nodup)
    (hk : Known ls objects) (hs : SizesV ls V) (m : MorphTargetList) (hm : m ∈ ls)
    (hd : (m.base :: m.target.map MorphTarget.name).Nodup) (n : Str) (w : F)
    (hmem : n ∈ m.target.map MorphTarget.name) :
    applyTargets m n w 0 m.target (withVertices objects V) = some (withVertices objects (stepV m n w V)) := by
  obtain ⟨j, hj⟩ := List.mem_iff_getElem?.1 hmem
  rw [List.nodup_cons] at hd
  obtain ⟨b, hb, hbn⟩ := List.mem_map.1 (hk m hm m.base (by simp))
  obtain ⟨t, ht, htn⟩ := List.mem_map.1 (hk m hm n (List.mem_cons_of_mem _ hmem))
  obtain ⟨sz, hsz⟩ := hs m hm
  have hS : MorphSetting m (withVertices objects V) j { b with vertexes := V b.name } { t with vertexes := V t.name } :=
    { names := by rw [withVertices_names]; exact hn
      targets := hd.2
      notBase := hd.1
      base := ⟨List.mem_map.2 ⟨b, hb, rfl⟩, hbn⟩
      target := ⟨List.mem_map.2 ⟨t, ht, rfl⟩, by rw [hj]; exact congrArg some htn.symm⟩
      size := by
        show (V b.name).length = (V t.name).length
        rw [hbn, htn, hsz _ (by simp), hsz _ (List.mem_cons_of_mem _ hmem)] }
  have ha := morph_apply m _ j _ _ w hS
  rw [applyTargets_at m n w _ j m.target 0 _ hd.2 hj (by rw [Nat.zero_add]; exact ha)]
  simp only [Option.some.injEq]
  unfold withVertices
  rw [List.map_map]
  apply List.map_congr_left
  intro o _
  simp only [Function.comp]
  unfold stepV
  rw [htn, hbn]
  by_cases hc : o.name = m.base ∨ o.name ∈ m.target.map MorphTarget.name ∧ o.name ≠ n
  · have hl : (V o.name).length = (V m.base).length := by
      rw [hsz m.base (by simp)]
      rcases hc with e | e
      · rw [e]; exact hsz _ (by simp)
      · exact hsz _ (List.mem_cons_of_mem _ e.1)
    rw [if_pos ⟨hc, hl⟩, if_pos hc]
    simp only [movedBy, morphDiff]
  · rw [if_neg (fun h => hc h.1), if_neg hc]

theorem stepV_length (ls : List MorphTargetList) (V : Str → List (Vec3 F)) (hs : SizesV ls V) (m : MorphTargetList)
    (hm : m ∈ ls) (n : Str) (hmem : n ∈ m.target.map MorphTarget.name) (w : F) (x : Str) :
    (stepV m n w V x).length = (V x).length := by
  obtain ⟨sz, hsz⟩ := hs m hm
  unfold stepV
  split
  · rename_i hc
    have h1 : (V x).length = sz := by
      rcases hc with e | e
      · rw [e]; exact hsz _ (by simp)
      · exact hsz _ (List.mem_cons_of_mem _ e.1)
    have h2 := hsz m.base (by simp)
    have h3 := hsz n (List.mem_cons_of_mem _ hmem)
    rw [List.length_zipWith, List.length_zipWith]
    omega
  · rfl

theorem applyLists_none (ls : List MorphTargetList) (n : Str) (w : F) (objs : List (Object F))
    (h : ∀ m ∈ ls, n ∉ m.target.map MorphTarget.name) : applyLists ls n w objs = some objs := by
  unfold applyLists
  induction ls with
  | nil => rfl
  | cons m ls ih =>
    rw [List.foldlM_cons, applyTargets_none m n w m.target 0 objs (h m (by simp))]
    exact ih fun x hx => h x (by simp [hx])

theorem applyLists_one (objects : List (Object F)) (V : Str → List (Vec3 F)) (hn : (objects.map Object.name).Nodup)
    (n : Str) (w : F) (m : MorphTargetList) (hmem : n ∈ m.target.map MorphTarget.name) :
    ∀ (ls : List MorphTargetList), Known ls objects → SizesV ls V → m ∈ ls →
    (ls.flatMap fun m => m.base :: m.target.map MorphTarget.name).Nodup →
    applyLists ls n w (withVertices objects V) = some (withVertices objects (stepV m n w V)) := by
  intro ls
  induction ls with
  | nil => intro _ _ h; cases h
  | cons a ls ih =>
    intro hk hs hm hd
    rw [List.flatMap_cons, List.nodup_append] at hd
    have hrest : ∀ a' ∈ ls, n ∉ (m.base :: m.target.map MorphTarget.name) → False := by
      intro _ _ h
      exact h (List.mem_cons_of_mem _ hmem)
    by_cases he : m = a
    · subst he
      have h1 := applyTargets_one (m :: ls) objects V hn hk hs m (by simp) hd.1 n w hmem
      have h2 : ∀ m' ∈ ls, n ∉ m'.target.map MorphTarget.name := by
        intro m' hm' hx
        exact hd.2.2 n (List.mem_cons_of_mem _ hmem) n
          (List.mem_flatMap.2 ⟨m', hm', List.mem_cons_of_mem _ hx⟩) rfl
      unfold applyLists
      rw [List.foldlM_cons, h1]
      exact applyLists_none ls n w _ h2
    · have hm' : m ∈ ls := by
        rcases List.mem_cons.1 hm with e | e
        · exact absurd e he
        · exact e
      have h2 : n ∉ a.target.map MorphTarget.name := by
        intro hx
        exact hd.2.2 n (List.mem_cons_of_mem _ hx) n
          (List.mem_flatMap.2 ⟨m, hm', List.mem_cons_of_mem _ hmem⟩) rfl
      unfold applyLists
      rw [List.foldlM_cons, applyTargets_none a n w a.target 0 _ h2]
      exact ih (fun x hx => hk x (by simp [hx])) (fun x hx => hs x (by simp [hx])) hm' hd.2.1

/-- One rule: the weighted way from `b` to the target, if there is one. -/
def blendStep (b : Vec3 F) (T : Str → Option (Vec3 F)) (p : Vec3 F) (r : Str × F) : Vec3 F :=
  match T r.1 with
  | some t => p.add ((t.sub b).scale r.2)
  | none => p

/-- The place of a vertex after the rules: `b + Σ w·(t − b)`, for the rules with a target. -/
def blended (b : Vec3 F) (T : Str → Option (Vec3 F)) (rules : List (Str × F)) : Vec3 F :=
  rules.foldl (blendStep b T) b

/-- Vertex `i` of the target `n` of the list `m`, where `V` are the vertices by name. -/
def targetVertex (V : Str → List (Vec3 F)) (m : MorphTargetList) (i : Nat) (n : Str) : Option (Vec3 F) :=
  if n ∈ m.target.map MorphTarget.name then (V n)[i]? else none

theorem blend_cong (b b' : Vec3 F) (T T' : Str → Option (Vec3 F)) (rules : List (Str × F)) (p : Vec3 F)
    (h : ∀ r ∈ rules, (T r.1 = none ∧ T' r.1 = none) ∨
      ∃ t t', T r.1 = some t ∧ T' r.1 = some t' ∧ t.sub b = t'.sub b') :
    rules.foldl (blendStep b T) p = rules.foldl (blendStep b' T') p := by
  induction rules generalizing p with
  | nil => rfl
  | cons r rules ih =>
    rw [List.foldl_cons, List.foldl_cons]
    have e : blendStep b T p r = blendStep b' T' p r := by
      unfold blendStep
      rcases h r (by simp) with ⟨h1, h2⟩ | ⟨t, t', h1, h2, h3⟩
      · rw [h1, h2]
      · rw [h1, h2]
        simp only
        rw [h3]
    rw [e]
    exact ih _ fun x hx => h x (by simp [hx])

/-- The lists have no name in common. -/
theorem lists_disjoint : ∀ (ls : List MorphTargetList),
    (ls.flatMap fun m => m.base :: m.target.map MorphTarget.name).Nodup →
    ∀ m ∈ ls, ∀ m' ∈ ls, ∀ x, x ∈ m.base :: m.target.map MorphTarget.name →
      x ∈ m'.base :: m'.target.map MorphTarget.name → m = m' := by
  intro ls
  induction ls with
  | nil => intro _ m hm; cases hm
  | cons a ls ih =>
    intro hd m hm m' hm' x hx hx'
    rw [List.flatMap_cons, List.nodup_append] at hd
    rcases List.mem_cons.1 hm with e | e <;> rcases List.mem_cons.1 hm' with e' | e'
    · rw [e, e']
    · subst e
      exact (hd.2.2 x hx x (List.mem_flatMap.2 ⟨m', e', hx'⟩) rfl).elim
    · subst e'
      exact (hd.2.2 x hx' x (List.mem_flatMap.2 ⟨m, e, hx⟩) rfl).elim
    · exact ih hd.2.1 m e m' e' x hx hx'

theorem lists_nodup (ls : List MorphTargetList)
    (h : (ls.flatMap fun m => m.base :: m.target.map MorphTarget.name).Nodup) (m : MorphTargetList) (hm : m ∈ ls) :
    (m.base :: m.target.map MorphTarget.name).Nodup := by
  induction ls with
  | nil => cases hm
  | cons a ls ih =>
    rw [List.flatMap_cons, List.nodup_append] at h
    rcases List.mem_cons.1 hm with e | e
    · rw [e]; exact h.1
    · exact ih h.2.1 e

theorem rules_objects (ls : List MorphTargetList) (objects : List (Object F))
    (hn : (objects.map Object.name).Nodup) (hk : Known ls objects)
    (hd : (ls.flatMap fun m => m.base :: m.target.map MorphTarget.name).Nodup) :
    ∀ (rules : List (Str × F)) (V : Str → List (Vec3 F)), SizesV ls V → (rules.map Prod.fst).Nodup →
    ∃ V' : Str → List (Vec3 F),
      rules.foldlM (fun objs r => applyLists ls r.1 r.2 objs) (withVertices objects V) =
        some (withVertices objects V') ∧
      (∀ x, (∀ m ∈ ls, x ∉ m.base :: m.target.map MorphTarget.name) → V' x = V x) ∧
      ∀ m ∈ ls, (V' m.base).length = (V m.base).length ∧ ∀ (i : Nat) b, (V m.base)[i]? = some b →
        (V' m.base)[i]? = some (blended b (targetVertex V m i) rules) := by
  intro rules
  induction rules with
  | nil =>
    intro V _ _
    exact ⟨V, rfl, fun _ _ => rfl, fun m _ => ⟨rfl, fun i b h => h⟩⟩
  | cons r rules ih =>
    intro V hs hr
    rw [List.map_cons, List.nodup_cons] at hr
    by_cases hex : ∃ m0 ∈ ls, r.1 ∈ m0.target.map MorphTarget.name
    · obtain ⟨m0, hm0, hmem⟩ := hex
      have h1 := applyLists_one objects V hn r.1 r.2 m0 hmem ls hk hs hm0 hd
      have hlen := stepV_length ls V hs m0 hm0 r.1 hmem r.2
      have hs1 : SizesV ls (stepV m0 r.1 r.2 V) := by
        intro m hm
        obtain ⟨sz, hsz⟩ := hs m hm
        exact ⟨sz, fun x hx => by rw [hlen]; exact hsz x hx⟩
      obtain ⟨V', e1, e2, e3⟩ := ih _ hs1 hr.2
      refine ⟨V', ?_, ?_, ?_⟩
      · rw [List.foldlM_cons, h1]; exact e1
      · intro x hx
        rw [e2 x hx]
        unfold stepV
        rw [if_neg]
        have := hx m0 hm0
        rw [List.mem_cons] at this
        rintro (h | h)
        · exact this (.inl h)
        · exact this (.inr h.1)
      · intro m hm
        obtain ⟨l1, l2⟩ := e3 m hm
        refine ⟨by rw [l1, hlen], ?_⟩
        intro i b hb
        by_cases he : m = m0
        · subst he
          have hnd := lists_nodup ls hd m hm
          rw [List.nodup_cons] at hnd
          obtain ⟨sz, hsz⟩ := hs m hm
          have hi : i < sz := by
            rw [← hsz m.base (by simp)]; exact (List.getElem?_eq_some_iff.1 hb).1
          obtain ⟨t, ht⟩ : ∃ t, (V r.1)[i]? = some t :=
            ⟨_, List.getElem?_eq_getElem (by rw [hsz r.1 (List.mem_cons_of_mem _ hmem)]; exact hi)⟩
          have hmove : ∀ x v, x = m.base ∨ x ∈ m.target.map MorphTarget.name ∧ x ≠ r.1 → (V x)[i]? = some v →
              (stepV m r.1 r.2 V x)[i]? = some (v.add ((t.sub b).scale r.2)) := by
            intro x v hx hv
            unfold stepV
            rw [if_pos hx]
            exact zipWith_getElem _ _ _ i v _ hv (zipWith_getElem _ _ _ i t b ht hb)
          have hb1 := hmove m.base b (.inl rfl) hb
          rw [l2 i _ hb1]
          have e4 : blended b (targetVertex V m i) (r :: rules) =
              rules.foldl (blendStep b (targetVertex V m i)) (b.add ((t.sub b).scale r.2)) := by
            unfold blended
            rw [List.foldl_cons]
            congr 1
            unfold blendStep targetVertex
            rw [if_pos hmem, ht]
          rw [e4]
          unfold blended
          congr 1
          apply blend_cong
          intro r' hr'
          have hne : r'.1 ≠ r.1 := fun e => hr.1 (e ▸ List.mem_map_of_mem hr')
          unfold targetVertex
          by_cases hc : r'.1 ∈ m.target.map MorphTarget.name
          · rw [if_pos hc, if_pos hc]
            right
            obtain ⟨t', ht'⟩ : ∃ t', (V r'.1)[i]? = some t' :=
              ⟨_, List.getElem?_eq_getElem (by rw [hsz r'.1 (List.mem_cons_of_mem _ hc)]; exact hi)⟩
            refine ⟨_, t', hmove r'.1 t' (.inr ⟨hc, hne⟩) ht', ht', ?_⟩
            simp only [Vec3.add, Vec3.sub, Vec3.scale, Vec3.mk.injEq]
            exact ⟨by ring, by ring, by ring⟩
          · rw [if_neg hc, if_neg hc]
            exact .inl ⟨rfl, rfl⟩
        · have hsame : ∀ x ∈ m.base :: m.target.map MorphTarget.name, stepV m0 r.1 r.2 V x = V x := by
            intro x hx
            unfold stepV
            rw [if_neg]
            rintro (h | h)
            · exact he (lists_disjoint ls hd m hm m0 hm0 x hx (by rw [h]; simp))
            · exact he (lists_disjoint ls hd m hm m0 hm0 x hx (List.mem_cons_of_mem _ h.1))
          rw [l2 i b (by rw [hsame _ (by simp)]; exact hb)]
          have e5 : targetVertex (stepV m0 r.1 r.2 V) m i = targetVertex V m i := by
            funext n
            unfold targetVertex
            by_cases hc : n ∈ m.target.map MorphTarget.name
            · rw [if_pos hc, if_pos hc, hsame n (List.mem_cons_of_mem _ hc)]
            · rw [if_neg hc, if_neg hc]
          rw [e5]
          unfold blended
          rw [List.foldl_cons]
          congr 2
          unfold blendStep targetVertex
          rw [if_neg fun hx => he (lists_disjoint ls hd m hm m0 hm0 r.1 (List.mem_cons_of_mem _ hx)
            (List.mem_cons_of_mem _ hmem))]
    · have hno : ∀ m ∈ ls, r.1 ∉ m.target.map MorphTarget.name := fun m hm hx => hex ⟨m, hm, hx⟩
      obtain ⟨V', e1, e2, e3⟩ := ih V hs hr.2
      refine ⟨V', ?_, e2, ?_⟩
      · rw [List.foldlM_cons, applyLists_none ls r.1 r.2 _ hno]; exact e1
      · intro m hm
        refine ⟨(e3 m hm).1, ?_⟩
        intro i b hb
        rw [(e3 m hm).2 i b hb]
        unfold blended
        rw [List.foldl_cons]
        congr 2
        unfold blendStep targetVertex
        rw [if_neg (hno m hm)]

theorem morphOption_objects (ls : List MorphTargetList) : ∀ (rules : List (Str × F)) (os : List (Object F))
    (ms : List (Material F)) (r : List (Object F) × List (Material F)), morphOption ls rules (os, ms) = some r →
    rules.foldlM (fun objs r => applyLists ls r.1 r.2 objs) os = some r.1 := by
  intro rules
  induction rules with
  | nil => intro os ms r h; unfold morphOption at h; cases h; rfl
  | cons x rules ih =>
    intro os ms r h
    unfold morphOption at h
    rw [List.foldlM_cons] at h
    unfold applyMorph at h
    rw [List.foldlM_cons]
    simp only at h
    cases h1 : applyLists ls x.1 x.2 os with
    | none => rw [h1] at h; cases h
    | some os' =>
      cases h2 : applyMaterialMorph ms x.1 x.2 with
      | none => rw [h1, h2] at h; cases h
      | some ms' =>
        rw [h1, h2] at h
        exact ih os' ms' r h

theorem materialLoop_names (orig : List (Material F)) (name : Str) (w : F) : ∀ (todo : List Nat)
    (ms ms' : List (Material F)), materialMorphLoop orig name w todo ms = some ms' →
    ms'.map Material.name = ms.map Material.name := by
  intro todo
  induction todo with
  | nil => intro ms ms' h; cases h; rfl
  | cons i todo ih =>
    intro ms ms' h
    unfold materialMorphLoop at h
    cases hm : ms[i]? with
    | none => rw [hm] at h; cases h
    | some m =>
      rw [hm] at h
      simp only [Option.bind_eq_bind, Option.bind_some] at h
      split at h
      · split at h
        · cases h
        · rename_i j _
          rw [ih _ _ h]
          apply List.ext_getElem?
          intro k
          rw [List.getElem?_map, List.getElem?_map, List.getElem?_modify]
          cases ms[k]? with
          | none => rfl
          | some x =>
            simp only [Option.map_some]
            split <;> rfl
      · exact ih _ _ h

/-- The vertices of the object with a name. -/
def verticesOf (objects : List (Object F)) (n : Str) : List (Vec3 F) :=
  ((objects.find? fun o => o.name = n).map Object.vertexes).getD []

theorem verticesOf_mem (objects : List (Object F)) (hn : (objects.map Object.name).Nodup) (o : Object F)
    (ho : o ∈ objects) : verticesOf objects o.name = o.vertexes := by
  unfold verticesOf
  cases h : objects.find? fun x => decide (x.name = o.name) with
  | none =>
    have := List.find?_eq_none.1 h o ho
    simp at this
  | some x =>
    have h1 := List.mem_of_find?_eq_some h
    have h2 : x.name = o.name := by simpa using List.find?_some h
    have : x = o := List.inj_on_of_nodup_map hn h1 ho h2
    rw [this]
    rfl

theorem fitting_known (ls : List MorphTargetList) (objects : List (Object F)) (hf : Fitting ls objects) :
    Known ls objects ∧ SizesV ls (verticesOf objects) := by
  constructor
  · intro m hm x hx
    obtain ⟨n, hn⟩ := hf.sizes m hm
    obtain ⟨o, ho, h1, _⟩ := hn x hx
    exact List.mem_map.2 ⟨o, ho, h1⟩
  · intro m hm
    obtain ⟨n, hn⟩ := hf.sizes m hm
    refine ⟨n, fun x hx => ?_⟩
    obtain ⟨o, ho, h1, h2⟩ := hn x hx
    rw [← h1, verticesOf_mem objects hf.names o ho, h2]

theorem morphOption_runs_aux (ls : List MorphTargetList) : ∀ (rules : List (Str × F)) (os os' : List (Object F))
    (ms : List (Material F)), rules.foldlM (fun objs r => applyLists ls r.1 r.2 objs) os = some os' →
    (∀ r ∈ rules, ∀ x, morphPrefix r.1 ++ x ∈ ms.map Material.name → x ∈ ms.map Material.name) →
    ∃ r, morphOption ls rules (os, ms) = some r := by
  intro rules
  induction rules with
  | nil => intro os os' ms _ _; exact ⟨_, rfl⟩
  | cons x rules ih =>
    intro os os' ms h hall
    rw [List.foldlM_cons] at h
    unfold morphOption
    rw [List.foldlM_cons]
    unfold applyMorph
    simp only
    cases h1 : applyLists ls x.1 x.2 os with
    | none => rw [h1] at h; cases h
    | some o1 =>
      rw [h1] at h
      cases h2 : applyMaterialMorph ms x.1 x.2 with
      | none =>
        obtain ⟨y, h3, h4⟩ := (materialMorph_missing_false ms x.1 x.2).1 h2
        exact (h4 (hall x (by simp) y h3)).elim
      | some m1 =>
        have hn := materialLoop_names ms x.1 x.2 _ ms m1 h2
        exact ih o1 os' m1 h (by
          intro r hr
          rw [hn]
          exact hall r (by simp [hr]))

/-- C168: the option runs, unless a material for a morph in the rules has no material to act on (C28). -/
theorem morph_option_runs (ls : List MorphTargetList) (objects : List (Object F)) (hf : Fitting ls objects)
    (rules : List (Str × F)) (hr : (rules.map Prod.fst).Nodup) (ms : List (Material F))
    (hall : ∀ r ∈ rules, ∀ x, morphPrefix r.1 ++ x ∈ ms.map Material.name → x ∈ ms.map Material.name) :
    ∃ r, morphOption ls rules (objects, ms) = some r := by
  obtain ⟨hk, hs⟩ := fitting_known ls objects hf
  obtain ⟨V', e1, _⟩ := rules_objects ls objects hf.names hk hf.once rules (verticesOf objects) hs hr
  rw [withVertices_self objects (verticesOf objects) fun o ho => (verticesOf_mem objects hf.names o ho).symm] at e1
  exact morphOption_runs_aux ls rules objects _ ms e1 hall

theorem sample_fitting : Fitting [sampleMorph] sampleObjects where
  names := by decide
  once := by decide
  sizes := by
    intro m hm
    rw [List.mem_singleton] at hm
    subst hm
    refine ⟨1, fun x hx => ?_⟩
    have : x = "a".toList ∨ x = "b".toList ∨ x = "c".toList := by simpa [sampleMorph] using hx
    rcases this with rfl | rfl | rfl
    · exact ⟨intObject "a".toList [⟨0, 0, 0⟩], by simp [sampleObjects], rfl, rfl⟩
    · exact ⟨intObject "b".toList [⟨1, 0, 0⟩], by simp [sampleObjects], rfl, rfl⟩
    · exact ⟨intObject "c".toList [⟨0, 1, 0⟩], by simp [sampleObjects], rfl, rfl⟩

/-- Two morphs of the sample. -/
example : ∃ r, morphOption [sampleMorph] [("c".toList, 3), ("b".toList, 2)] (sampleObjects, ([] : List (Material Int))) = some r :=
  morph_option_runs _ _ sample_fitting _ (by decide) _ (by simp)

/-- C168: what the option does to the objects: every vertex `b` of the base of a list moves to `b + Σ w·(t − b)`, with
the targets `t` of the rules that are in the list, in the shape they had before; objects in no list stay as they are.
Only vertices change. -/
theorem morph_rules (ls : List MorphTargetList) (objects : List (Object F)) (hf : Fitting ls objects)
    (rules : List (Str × F)) (hr : (rules.map Prod.fst).Nodup) (ms : List (Material F))
    (r : List (Object F) × List (Material F)) (h : morphOption ls rules (objects, ms) = some r) :
    r.1.length = objects.length ∧ ∀ (j : Nat) o, objects[j]? = some o → ∃ vs, r.1[j]? = some { o with vertexes := vs } ∧
      ((∀ m ∈ ls, o.name ∉ m.base :: m.target.map MorphTarget.name) → vs = o.vertexes) ∧
      ∀ m ∈ ls, o.name = m.base → vs.length = o.vertexes.length ∧ ∀ (i : Nat) b, o.vertexes[i]? = some b →
        vs[i]? = some (blended b
          (fun n => if n ∈ m.target.map MorphTarget.name then (verticesOf objects n)[i]? else none) rules) := by
  obtain ⟨hk, hs⟩ := fitting_known ls objects hf
  obtain ⟨V', e1, e2, e3⟩ := rules_objects ls objects hf.names hk hf.once rules (verticesOf objects) hs hr
  rw [withVertices_self objects (verticesOf objects) fun o ho => (verticesOf_mem objects hf.names o ho).symm] at e1
  have e4 := morphOption_objects ls rules objects ms r h
  rw [e1, Option.some.injEq] at e4
  rw [← e4]
  refine ⟨by simp [withVertices], ?_⟩
  intro j o ho
  have hv := verticesOf_mem objects hf.names o (List.mem_of_getElem? ho)
  refine ⟨V' o.name, by simp [withVertices, ho], ?_, ?_⟩
  · intro hx
    rw [e2 _ hx, hv]
  · intro m hm he
    obtain ⟨l1, l2⟩ := e3 m hm
    rw [he]
    rw [he] at hv
    refine ⟨by rw [l1, hv], ?_⟩
    intro i b hb
    exact l2 i b (by rw [hv]; exact hb)

/-- Two morphs with weights: the base is at the sum. -/
example : (morphOption [sampleMorph] [("c".toList, 3), ("b".toList, 2)] (sampleObjects, ([] : List (Material Int)))).map
    (fun r => r.1.map Object.vertexes) = some [[⟨2, 3, 0⟩], [⟨1, 3, 0⟩], [⟨2, 1, 0⟩]] := by decide

/-- C168: the order of the rules does not matter for the shape. -/
theorem morph_order (b : Vec3 F) (T : Str → Option (Vec3 F)) (rules rules' : List (Str × F)) (h : rules.Perm rules') :
    blended b T rules = blended b T rules' := by
  have : RightCommutative (blendStep b T) := by
    constructor
    intro p r r'
    unfold blendStep
    cases T r.1 <;> cases T r'.1 <;> simp only [Vec3.add, Vec3.mk.injEq]
    exact ⟨by ring, by ring, by ring⟩
  exact h.foldl_eq b

example : [("c".toList, (3 : Int)), ("b".toList, 2)].Perm [("b".toList, 2), ("c".toList, 3)] := List.Perm.swap _ _ _

/-- Two materials of morphs for one material. -/
def twoMorphs : List (Material Int) :=
  [intMaterial "x".toList ⟨0, 0, 0, 1⟩, intMaterial "$MORPH:a:x".toList ⟨1, 0, 0, 1⟩,
    intMaterial "$MORPH:b:x".toList ⟨0, 1, 0, 1⟩]

/-- C168 does not hold for colors: the order of the rules matters, and a rule with weight 1 removes the effect of the
rules before it. -/
theorem material_order_false :
    (morphOption [] [("a".toList, 1), ("b".toList, 1)] (([] : List (Object Int)), twoMorphs)).map
        (fun r => r.2.map Material.color) = some [⟨0, 1, 0, 1⟩, ⟨1, 0, 0, 1⟩, ⟨0, 1, 0, 1⟩] ∧
      (morphOption [] [("b".toList, 1), ("a".toList, 1)] (([] : List (Object Int)), twoMorphs)).map
        (fun r => r.2.map Material.color) = some [⟨1, 0, 0, 1⟩, ⟨1, 0, 0, 1⟩, ⟨0, 1, 0, 1⟩] := by
  constructor <;> decide

/-- C168 does not hold for a morph given twice: the second rule only moves the rest of the way. -/
theorem morph_twice_false :
    (morphOption [sampleMorph] [("b".toList, 1), ("b".toList, 1)] (sampleObjects, [])).map
        (fun r => r.1.map Object.vertexes) = some [[⟨1, 0, 0⟩], [⟨1, 0, 0⟩], [⟨1, 1, 0⟩]] ∧
      (morphOption [sampleMorph] [("b".toList, 2)] (sampleObjects, [])).map
        (fun r => r.1.map Object.vertexes) = some [[⟨2, 0, 0⟩], [⟨1, 0, 0⟩], [⟨2, 1, 0⟩]] := by
  constructor <;> decide

end Verif.Mqo
