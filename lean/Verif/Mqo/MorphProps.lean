import Verif.Mqo.ObjectProps
import Mathlib.Tactic.Ring
import Mathlib.Tactic.LinearCombination
import Mathlib.Algebra.Ring.Int.Defs

/-! Properties C27 (vertex morphs) and C28 (material morphs). -/

namespace Verif.Mqo

open Verif.Geom

variable {F : Type}

/-! ## Finding by name -/

theorem lastNamed_some {α : Type} (l : List α) (p : α → Prop) [DecidablePred p] (i : Nat)
    (h : ((l.zipIdx.filter fun x => p x.1).map Prod.snd).getLast? = some i) : ∃ a, l[i]? = some a ∧ p a := by
  have := List.mem_of_getLast? h
  obtain ⟨⟨a, j⟩, hm, rfl⟩ := List.mem_map.1 this
  obtain ⟨h1, h2⟩ := List.mem_filter.1 hm
  exact ⟨a, List.mem_zipIdx_iff_getElem?.1 h1, by simpa using h2⟩

theorem lastNamed_none {α : Type} (l : List α) (p : α → Prop) [DecidablePred p] :
    ((l.zipIdx.filter fun x => p x.1).map Prod.snd).getLast? = none ↔ ∀ a ∈ l, ¬ p a := by
  rw [List.getLast?_eq_none_iff, List.map_eq_nil_iff, List.filter_eq_nil_iff]
  constructor
  · intro h a ha
    obtain ⟨i, hi⟩ := List.mem_iff_getElem?.1 ha
    simpa using h (a, i) (List.mem_zipIdx_iff_getElem?.2 hi)
  · rintro h ⟨a, i⟩ hm
    simpa using h a (List.mem_iff_getElem?.2 ⟨i, List.mem_zipIdx_iff_getElem?.1 hm⟩)

theorem objIndex_some (os : List (Object F)) (n : Str) (i : Nat) (h : objIndex os n = some i) :
    ∃ o, os[i]? = some o ∧ o.name = n := lastNamed_some os (fun o => o.name = n) i h

theorem objIndex_none (os : List (Object F)) (n : Str) : objIndex os n = none ↔ n ∉ os.map Object.name := by
  rw [objIndex, lastNamed_none os (fun o => o.name = n)]
  simp

theorem nodup_idx {α β : Type} (f : α → β) (l : List α) (h : (l.map f).Nodup) (i j : Nat) (a b : α)
    (hi : l[i]? = some a) (hj : l[j]? = some b) (hab : f a = f b) : i = j := by
  have e1 : (l.map f)[i]? = some (f a) := by simp [hi]
  have e2 : (l.map f)[j]? = some (f a) := by simp [hj, hab]
  exact (List.getElem?_inj (List.getElem?_eq_some_iff.1 e1).1 h).1 (e1.trans e2.symm)

theorem modify_eq_map {α β : Type} [DecidableEq β] (f : α → β) (g : α → α) (l : List α) (h : (l.map f).Nodup)
    (i : Nat) (a : α) (hi : l[i]? = some a) : l.modify i g = l.map fun x => if f x = f a then g x else x := by
  apply List.ext_getElem?
  intro j
  rw [List.getElem?_modify, List.getElem?_map]
  cases hj : l[j]? with
  | none => rfl
  | some b =>
    simp only [Option.map_eq_map, Option.map_some, Option.some.injEq]
    by_cases hij : i = j
    · subst hij
      rw [hi] at hj
      cases hj
      simp
    · rw [if_neg hij, if_neg fun he => hij (nodup_idx f l h i j a b hi hj he.symm)]

/-! ## C27 -/

variable [CommRing F]

/-- What a shift does to one object. -/
def shifted (diff : List (Vec3 F)) (o : Object F) : Object F :=
  if o.vertexes.length = diff.length then { o with vertexes := o.vertexes.zipWith Vec3.add diff } else o

omit [CommRing F] in
theorem shifted_name [Add F] (diff : List (Vec3 F)) (o : Object F) :
    (if o.vertexes.length = diff.length then { o with vertexes := o.vertexes.zipWith Vec3.add diff } else o : Object F).name = o.name := by
  split_ifs <;> rfl

open Classical in
theorem shiftTargets_spec (orig : List (Object F)) (hn : (orig.map Object.name).Nodup)
    (diff : List (Vec3 F)) (bi : Nat) (b : Object F) (hb : orig[bi]? = some b) (target : Nat) :
    ∀ (ts : List MorphTarget) (k : Nat) (objs : List (Object F)),
      objs.map Object.name = orig.map Object.name →
      (ts.map MorphTarget.name).Nodup → b.name ∉ ts.map MorphTarget.name →
      shiftTargets orig diff bi target k ts objs = objs.map fun o =>
        if (o.name = b.name ∧ k ≤ target ∧ target < k + ts.length) ∨
            (∃ j, ∃ t, ts[j]? = some t ∧ k + j ≠ target ∧ t.name = o.name) then shifted diff o else o := by
  intro ts
  induction ts with
  | nil =>
    intro k objs _ _ _
    rw [shiftTargets]
    conv_lhs => rw [← List.map_id objs]
    apply List.map_congr_left
    intro o _
    rw [if_neg]
    · rfl
    · rintro (⟨-, h1, h2⟩ | ⟨j, t, h, -⟩)
      · simp at h2; omega
      · simp at h
  | cons t ts ih =>
    intro k objs hnames hts hbn
    rw [shiftTargets]
    rw [List.map_cons, List.nodup_cons] at hts
    rw [List.map_cons, List.mem_cons, not_or] at hbn
    have key : ∀ (n : Str) (P : Prop) [Decidable P], (P → n ∉ ts.map MorphTarget.name) →
        ∀ objs' : List (Object F), (objs' = objs.map fun o => if o.name = n ∧ P then shifted diff o else o) →
        (P → n = b.name → k = target) → (P → n ≠ b.name → n = t.name ∧ k ≠ target) →
        (¬ P → k ≠ target ∧ ∀ o ∈ objs, t.name ≠ o.name) → 
        shiftTargets orig diff bi target (k + 1) ts objs' = objs.map fun o =>
        if (o.name = b.name ∧ k ≤ target ∧ target < k + (t :: ts).length) ∨
            (∃ j, ∃ t', (t :: ts)[j]? = some t' ∧ k + j ≠ target ∧ t'.name = o.name) then shifted diff o else o := by
      intro n P _ hnts objs' hobjs' h1 h2 h3
      have hnm : objs'.map Object.name = orig.map Object.name := by
        rw [← hnames, hobjs', List.map_map]
        apply List.map_congr_left
        intro o _
        simp only [Function.comp]
        split_ifs
        · exact shifted_name diff o
        · rfl
      rw [ih (k + 1) objs' hnm hts.2 hbn.2, hobjs', List.map_map]
      apply List.map_congr_left
      intro o ho
      simp only [Function.comp]
      by_cases hc : o.name = n ∧ P
      · rw [if_pos hc]
        have hname : (shifted diff o).name = o.name := shifted_name diff o
        rw [hname]
        rw [if_neg, if_pos]
        · by_cases hnb : n = b.name
          · left
            have := h1 hc.2 hnb
            exact ⟨hc.1.trans hnb, by omega, by simp; omega⟩
          · right
            obtain ⟨e1, e2⟩ := h2 hc.2 hnb
            exact ⟨0, t, rfl, by simpa using e2, by rw [hc.1, e1]⟩
        · rintro (⟨e1, e2, e3⟩ | ⟨j, t', e1, e2, e3⟩)
          · have := h1 hc.2 (hc.1.symm.trans e1)
            omega
          · exact hnts hc.2 (List.mem_map.2 ⟨t', List.mem_iff_getElem?.2 ⟨j, e1⟩, e3.trans hc.1⟩)
      · rw [if_neg hc]
        congr 1
        apply propext
        constructor
        · rintro (⟨e1, e2, e3⟩ | ⟨j, t', e1, e2, e3⟩)
          · exact Or.inl ⟨e1, by omega, by simp; omega⟩
          · exact Or.inr ⟨j + 1, t', by simpa using e1, by omega, e3⟩
        · rintro (⟨e1, e2, e3⟩ | ⟨j, t', e1, e2, e3⟩)
          · left
            refine ⟨e1, ?_, by simp at e3; omega⟩
            rcases Nat.lt_or_ge k target with h | h
            · omega
            · exfalso
              have hk : k = target := by omega
              by_cases hP : P
              · have hnn : n ≠ b.name := fun he => hc ⟨e1.trans he.symm, hP⟩
                exact (h2 hP hnn).2 hk
              · exact (h3 hP).1 hk
          · cases j with
            | zero =>
              exfalso
              simp only [List.getElem?_cons_zero, Option.some.injEq] at e1
              subst e1
              by_cases hP : P
              · by_cases hnb : n = b.name
                · have := h1 hP hnb; simp at e2; omega
                · exact hc ⟨by rw [← e3, (h2 hP hnb).1], hP⟩
              · exact (h3 hP).2 o ho e3
            | succ j => exact Or.inr ⟨j, t', by simpa using e1, by omega, e3⟩
    by_cases hk : k = target
    · have hb' : ∃ b', objs[bi]? = some b' ∧ b'.name = b.name := by
        have := congrArg (fun l => l[bi]?) hnames
        simp only [List.getElem?_map, hb, Option.map_some] at this
        obtain ⟨b', e1, e2⟩ := Option.map_eq_some_iff.1 this
        exact ⟨b', e1, e2⟩
      obtain ⟨b', e1, e2⟩ := hb'
      simp only [if_pos hk]
      refine key b.name True (fun _ => hbn.2) _ ?_ (fun _ _ => hk) (fun _ h => (h rfl).elim) (fun h => (h trivial).elim)
      unfold shiftObject
      rw [modify_eq_map Object.name _ objs (by rw [hnames]; exact hn) bi b' e1, e2]
      apply List.map_congr_left
      intro o _
      simp only [and_true]
      rfl
    · simp only [if_neg hk]
      cases hidx : objIndex orig t.name with
      | none =>
        refine key t.name False (fun h => h.elim) _ (by simp) (fun h => h.elim) (fun h => h.elim) (fun _ => ⟨hk, ?_⟩)
        intro o ho he
        rw [objIndex_none] at hidx
        exact hidx (hnames ▸ he ▸ List.mem_map_of_mem ho)
      | some i =>
        obtain ⟨o1, f1, f2⟩ := objIndex_some _ _ _ hidx
        have hb' : ∃ b', objs[i]? = some b' ∧ b'.name = t.name := by
          have := congrArg (fun l => l[i]?) hnames
          simp only [List.getElem?_map, f1, Option.map_some] at this
          obtain ⟨b', e1, e2⟩ := Option.map_eq_some_iff.1 this
          exact ⟨b', e1, e2.trans f2⟩
        obtain ⟨b', e1, e2⟩ := hb'
        refine key t.name True (fun _ => hts.1) _ ?_ (fun _ h => (hbn.1 h.symm).elim) (fun _ _ => ⟨rfl, hk⟩)
          (fun h => (h trivial).elim)
        simp only []
        unfold shiftObject
        rw [modify_eq_map Object.name _ objs (by rw [hnames]; exact hn) i b' e1, e2]
        apply List.map_congr_left
        intro o _
        simp only [and_true]
        rfl

/-- The setting of a morph: object names are distinct (as after `FixNames`), the targets are distinct
and differ from the base, base and target exist with the same number of vertices. -/
structure MorphSetting (m : MorphTargetList) (objects : List (Object F)) (k : Nat) (b t : Object F) : Prop where
  names : (objects.map Object.name).Nodup
  targets : (m.target.map MorphTarget.name).Nodup
  notBase : m.base ∉ m.target.map MorphTarget.name
  base : b ∈ objects ∧ b.name = m.base
  target : t ∈ objects ∧ (m.target.map MorphTarget.name)[k]? = some t.name
  size : b.vertexes.length = t.vertexes.length

/-- `v + d` for all vertices. -/
def movedBy (vs ds : List (Vec3 F)) : List (Vec3 F) := vs.zipWith Vec3.add ds

/-- `w · (t − b)` for all vertices. -/
def morphDiff (b t : Object F) (w : F) : List (Vec3 F) :=
  t.vertexes.zipWith (fun tv bv => (tv.sub bv).scale w) b.vertexes

/-- C27. What `Apply` does: the base moves by `w·(target − base)`, the other targets of the same size
move along by the same amount, all other objects (the target itself among them) are unchanged. -/
theorem morph_apply (m : MorphTargetList) (objects : List (Object F)) (k : Nat) (b t : Object F) (w : F)
    (h : MorphSetting m objects k b t) :
    m.apply objects k w = some (objects.map (fun o =>
      if (o.name = m.base ∨ o.name ∈ m.target.map MorphTarget.name ∧ o.name ≠ t.name) ∧
          o.vertexes.length = b.vertexes.length
      then { o with vertexes := movedBy o.vertexes (morphDiff b t w) } else o), true) := by
  classical
  obtain ⟨hn, hts, hnb, ⟨hb, hbn⟩, ⟨ht, htn⟩, hs⟩ := h
  rw [List.getElem?_map] at htn
  obtain ⟨tt, h1, h2⟩ := Option.map_eq_some_iff.1 htn
  obtain ⟨bi, hbi⟩ : ∃ bi, objIndex objects m.base = some bi := by
    cases hc : objIndex objects m.base with
    | none => exact ((objIndex_none _ _).1 hc (hbn ▸ List.mem_map_of_mem hb)).elim
    | some bi => exact ⟨bi, rfl⟩
  obtain ⟨ti, hti⟩ : ∃ ti, objIndex objects tt.name = some ti := by
    cases hc : objIndex objects tt.name with
    | none => exact ((objIndex_none _ _).1 hc (h2 ▸ List.mem_map_of_mem ht)).elim
    | some ti => exact ⟨ti, rfl⟩
  have uniq : ∀ (i : Nat) (n : Str) (o : Object F), objIndex objects n = some i → o ∈ objects → o.name = n →
      objects[i]? = some o := by
    intro i n o hi ho hon
    obtain ⟨o', e1, e2⟩ := objIndex_some _ _ _ hi
    obtain ⟨j, hj⟩ := List.mem_iff_getElem?.1 ho
    have := nodup_idx Object.name objects hn i j o' o e1 hj (e2.trans hon.symm)
    rwa [this]
  have eb := uniq bi m.base b hbi hb hbn
  have et := uniq ti tt.name t hti ht h2.symm
  unfold MorphTargetList.apply
  simp only [h1, hbi, hti, eb, et, Option.bind_eq_bind, Option.bind_some, if_pos hs]
  have spec := shiftTargets_spec objects hn (morphDiff b t w) bi b eb k m.target 0 objects rfl hts (by rw [hbn]; exact hnb)
  have hd : morphDiff b t w = t.vertexes.zipWith (fun tv bv => (tv.sub bv).scale w) b.vertexes := rfl
  rw [← hd, spec]
  have hlen : (morphDiff b t w).length = b.vertexes.length := by simp [morphDiff, hs]
  have hk : k < m.target.length := (List.getElem?_eq_some_iff.1 h1).1
  congr 2
  apply List.map_congr_left
  intro o _
  have hcond : ((o.name = b.name ∧ 0 ≤ k ∧ k < 0 + m.target.length) ∨
      ∃ j, ∃ t', m.target[j]? = some t' ∧ 0 + j ≠ k ∧ t'.name = o.name) ↔
      (o.name = m.base ∨ o.name ∈ m.target.map MorphTarget.name ∧ o.name ≠ t.name) := by
    constructor
    · rintro (⟨e1, -, -⟩ | ⟨j, t', e1, e2, e3⟩)
      · exact Or.inl (e1.trans hbn)
      · refine Or.inr ⟨List.mem_map.2 ⟨t', List.mem_iff_getElem?.2 ⟨j, e1⟩, e3⟩, fun he => e2 ?_⟩
        have := nodup_idx MorphTarget.name m.target hts j k t' tt e1 h1 (by rw [e3, he, h2])
        omega
    · rintro (e1 | ⟨e1, e2⟩)
      · exact Or.inl ⟨e1.trans hbn.symm, by omega, by omega⟩
      · obtain ⟨t', f1, f2⟩ := List.mem_map.1 e1
        obtain ⟨j, hj⟩ := List.mem_iff_getElem?.1 f1
        refine Or.inr ⟨j, t', hj, fun he => e2 ?_, f2⟩
        have : j = k := by omega
        subst this
        rw [h1] at hj
        cases hj
        rw [← f2, h2]
  simp only [hcond]
  unfold shifted
  rw [hlen]
  by_cases c1 : (o.name = m.base ∨ o.name ∈ m.target.map MorphTarget.name ∧ o.name ≠ t.name)
  · simp only [c1, true_and, if_true]
    rfl
  · simp only [c1, false_and, if_false]

theorem zipWith_getElem {α β γ : Type} (f : α → β → γ) (l : List α) (r : List β) (i : Nat) (a : α) (b : β)
    (h1 : l[i]? = some a) (h2 : r[i]? = some b) : (List.zipWith f l r)[i]? = some (f a b) := by
  simp [List.getElem?_zipWith, h1, h2]

/-- C27. Weight 0 changes nothing. -/
theorem morph_zero (m : MorphTargetList) (objects : List (Object F)) (k : Nat) (b t : Object F)
    (h : MorphSetting m objects k b t) : m.apply objects k 0 = some (objects, true) := by
  rw [morph_apply m objects k b t 0 h]
  congr 2
  conv_rhs => rw [← List.map_id objects]
  apply List.map_congr_left
  intro o _
  split_ifs with hc
  · have : movedBy o.vertexes (morphDiff b t 0) = o.vertexes := by
      have hl : (morphDiff b t (0 : F)).length = o.vertexes.length := by simp [morphDiff, hc.2, h.size]
      apply List.ext_getElem?
      intro i
      cases hv : o.vertexes[i]? with
      | none =>
        rw [movedBy, List.getElem?_eq_none_iff]
        rw [List.getElem?_eq_none_iff] at hv
        simp [hl, hv]
      | some v =>
        have hi := (List.getElem?_eq_some_iff.1 hv).1
        obtain ⟨bv, hb⟩ : ∃ bv, b.vertexes[i]? = some bv := ⟨_, List.getElem?_eq_getElem (by omega)⟩
        obtain ⟨tv, ht⟩ : ∃ tv, t.vertexes[i]? = some tv := ⟨_, List.getElem?_eq_getElem (by have := h.size; omega)⟩
        rw [movedBy, morphDiff, zipWith_getElem _ _ _ i v _ hv (zipWith_getElem _ _ _ i tv bv ht hb)]
        obtain ⟨x, y, z⟩ := v
        simp [Vec3.add, Vec3.scale]
    rw [this]; rfl
  · rfl

/-- C27. Weight 1 gives the base the shape of the target; any weight gives the point in between. -/
theorem morph_base (m : MorphTargetList) (objects : List (Object F)) (k : Nat) (b t : Object F) (w : F)
    (h : MorphSetting m objects k b t) : ∃ objs' b', m.apply objects k w = some (objs', true) ∧ b' ∈ objs' ∧
      b'.name = m.base ∧ b'.vertexes.length = b.vertexes.length ∧
      (∀ (i : Nat) (bv tv : Vec3 F), b.vertexes[i]? = some bv → t.vertexes[i]? = some tv →
        b'.vertexes[i]? = some ((bv.scale (1 - w)).add (tv.scale w))) ∧
      (w = 1 → b'.vertexes = t.vertexes) := by
  refine ⟨_, { b with vertexes := movedBy b.vertexes (morphDiff b t w) }, morph_apply m objects k b t w h,
    List.mem_map.2 ⟨b, h.base.1, ?_⟩, h.base.2, ?_, ?_, ?_⟩
  · rw [if_pos ⟨Or.inl h.base.2, rfl⟩]
  · simp [movedBy, morphDiff, h.size]
  · intro i bv tv hb ht
    simp only [movedBy, morphDiff]
    rw [zipWith_getElem _ _ _ i bv _ hb (zipWith_getElem _ _ _ i tv bv ht hb)]
    simp only [Vec3.add, Vec3.scale, Vec3.sub, Option.some.injEq, Vec3.mk.injEq]
    exact ⟨by ring, by ring, by ring⟩
  · rintro rfl
    apply List.ext_getElem?
    intro i
    cases hv : t.vertexes[i]? with
    | none =>
      rw [List.getElem?_eq_none_iff] at hv ⊢
      simp [movedBy, morphDiff, h.size, hv]
    | some tv =>
      have hi := (List.getElem?_eq_some_iff.1 hv).1
      obtain ⟨bv, hb⟩ : ∃ bv, b.vertexes[i]? = some bv := ⟨_, List.getElem?_eq_getElem (by have := h.size; omega)⟩
      simp only [movedBy, morphDiff]
      rw [zipWith_getElem _ _ _ i bv _ hb (zipWith_getElem _ _ _ i tv bv hv hb)]
      obtain ⟨x, y, z⟩ := tv
      simp only [Vec3.add, Vec3.scale, Vec3.sub, Option.some.injEq, Vec3.mk.injEq]
      exact ⟨by ring, by ring, by ring⟩

/-- C27. Applying two different targets one after the other adds up their effects on the base, in terms
of the shapes before: `b + w₁(t₁ − b) + w₂(t₂ − b)`. (Moving the other targets along makes this work.) -/
theorem morph_add (m : MorphTargetList) (objects : List (Object F)) (k₁ k₂ : Nat) (b t₁ t₂ : Object F) (w₁ w₂ : F)
    (h₁ : MorphSetting m objects k₁ b t₁) (h₂ : MorphSetting m objects k₂ b t₂) (hne : t₁.name ≠ t₂.name) :
    ∃ objs₁ objs₂ b', m.apply objects k₁ w₁ = some (objs₁, true) ∧ m.apply objs₁ k₂ w₂ = some (objs₂, true) ∧
      b' ∈ objs₂ ∧ b'.name = m.base ∧ b'.vertexes.length = b.vertexes.length ∧
      ∀ (i : Nat) (bv v₁ v₂ : Vec3 F), b.vertexes[i]? = some bv → t₁.vertexes[i]? = some v₁ → t₂.vertexes[i]? = some v₂ →
        b'.vertexes[i]? = some ((bv.add ((v₁.sub bv).scale w₁)).add ((v₂.sub bv).scale w₂)) := by
  set b1 : Object F := { b with vertexes := movedBy b.vertexes (morphDiff b t₁ w₁) } with hb1
  set t21 : Object F := { t₂ with vertexes := movedBy t₂.vertexes (morphDiff b t₁ w₁) } with ht21
  have hA := morph_apply m objects k₁ b t₁ w₁ h₁
  set objs₁ := objects.map (fun o =>
      if (o.name = m.base ∨ o.name ∈ m.target.map MorphTarget.name ∧ o.name ≠ t₁.name) ∧
          o.vertexes.length = b.vertexes.length
      then { o with vertexes := movedBy o.vertexes (morphDiff b t₁ w₁) } else o) with ho
  have hb1m : b1 ∈ objs₁ := List.mem_map.2 ⟨b, h₁.base.1, by rw [if_pos ⟨Or.inl h₁.base.2, rfl⟩]⟩
  have ht21m : t21 ∈ objs₁ := List.mem_map.2 ⟨t₂, h₂.target.1, by
    rw [if_pos ⟨Or.inr ⟨List.mem_iff_getElem?.2 ⟨k₂, h₂.target.2⟩, fun h => hne h.symm⟩, h₂.size.symm⟩]⟩
  have hnames : objs₁.map Object.name = objects.map Object.name := by
    rw [ho, List.map_map]
    apply List.map_congr_left
    intro o _
    simp only [Function.comp]
    split_ifs <;> rfl
  have hS : MorphSetting m objs₁ k₂ b1 t21 :=
    ⟨by rw [hnames]; exact h₁.names, h₁.targets, h₁.notBase, ⟨hb1m, h₁.base.2⟩, ⟨ht21m, h₂.target.2⟩, by
      simp [hb1, ht21, movedBy, morphDiff, h₁.size, ← h₂.size]⟩
  obtain ⟨objs₂, b', hB, hmem, hname, hlen, hv, -⟩ := morph_base m objs₁ k₂ b1 t21 w₂ hS
  refine ⟨objs₁, objs₂, b', hA, hB, hmem, hname, ?_, ?_⟩
  · rw [hlen, hb1]; simp [movedBy, morphDiff, h₁.size]
  · intro i bv v₁ v₂ e0 e1 e2
    have f1 : b1.vertexes[i]? = some (bv.add ((v₁.sub bv).scale w₁)) := by
      simp only [hb1, movedBy, morphDiff]
      rw [zipWith_getElem _ _ _ i bv _ e0 (zipWith_getElem _ _ _ i v₁ bv e1 e0)]
    have f2 : t21.vertexes[i]? = some (v₂.add ((v₁.sub bv).scale w₁)) := by
      simp only [ht21, movedBy, morphDiff]
      rw [zipWith_getElem _ _ _ i v₂ _ e2 (zipWith_getElem _ _ _ i v₁ bv e1 e0)]
    rw [hv i _ _ f1 f2]
    simp only [Vec3.add, Vec3.scale, Vec3.sub, Option.some.injEq, Vec3.mk.injEq]
    exact ⟨by ring, by ring, by ring⟩

def intObject (name : Str) (vs : List (Vec3 Int)) : Object Int :=
  ⟨0, name, vs, [], true, false, 0, false, 1, 0, 0, 0, 0, 0, none, none, none, none, [], none⟩

def sampleMorph : MorphTargetList := ⟨"a".toList, [⟨"b".toList, 0⟩, ⟨"c".toList, 0⟩]⟩

def sampleObjects : List (Object Int) :=
  [intObject "a".toList [⟨0, 0, 0⟩], intObject "b".toList [⟨1, 0, 0⟩], intObject "c".toList [⟨0, 1, 0⟩]]

theorem sampleMorph_b : MorphSetting sampleMorph sampleObjects 0 (intObject "a".toList [⟨0, 0, 0⟩]) (intObject "b".toList [⟨1, 0, 0⟩]) :=
  ⟨by decide, by decide, by decide, ⟨by simp [sampleObjects], by decide⟩, ⟨by simp [sampleObjects], by decide⟩, rfl⟩

theorem sampleMorph_c : MorphSetting sampleMorph sampleObjects 1 (intObject "a".toList [⟨0, 0, 0⟩]) (intObject "c".toList [⟨0, 1, 0⟩]) :=
  ⟨by decide, by decide, by decide, ⟨by simp [sampleObjects], by decide⟩, ⟨by simp [sampleObjects], by decide⟩, rfl⟩

example := morph_add sampleMorph sampleObjects 0 1 _ _ _ 2 3 sampleMorph_b sampleMorph_c (by decide)

/-! ## C28 -/

omit [CommRing F] in
theorem matIndex_some (ms : List (Material F)) (n : Str) (i : Nat) (h : matIndex ms n = some i) :
    ∃ o, ms[i]? = some o ∧ o.name = n := lastNamed_some ms (fun o => o.name = n) i h

omit [CommRing F] in
theorem matIndex_none (ms : List (Material F)) (n : Str) : matIndex ms n = none ↔ n ∉ ms.map Material.name := by
  rw [matIndex, lastNamed_none ms (fun o => o.name = n)]
  simp

theorem prefix_drop (p n : Str) : p.isPrefixOf n = true ↔ ∃ x, n = p ++ x := by
  rw [List.isPrefixOf_iff_prefix]
  exact ⟨fun ⟨x, h⟩ => ⟨x, h.symm⟩, fun ⟨x, h⟩ => ⟨x, h.symm⟩⟩

theorem materialLoop_none (orig : List (Material F)) (name : Str) (value : F) :
    ∀ (todo : List Nat) (ms : List (Material F)), ms.map Material.name = orig.map Material.name →
      (∀ i ∈ todo, i < orig.length) →
      (materialMorphLoop orig name value todo ms = none ↔
        ∃ i ∈ todo, ∃ x, (orig.map Material.name)[i]? = some (morphPrefix name ++ x) ∧ x ∉ orig.map Material.name) := by
  intro todo
  induction todo with
  | nil => intro ms _ _; simp [materialMorphLoop]
  | cons i todo ih =>
    intro ms hn hi
    have hlen : ms.length = orig.length := by simpa using congrArg List.length hn
    have hil := hi i (by simp)
    obtain ⟨m, hm⟩ : ∃ m, ms[i]? = some m := ⟨_, List.getElem?_eq_getElem (by omega)⟩
    have hname : (orig.map Material.name)[i]? = some m.name := by rw [← hn]; simp [hm]
    rw [materialMorphLoop]
    simp only [hm, Option.bind_eq_bind, Option.bind_some]
    by_cases hp : (morphPrefix name).isPrefixOf m.name = true
    · rw [if_pos hp]
      obtain ⟨x, hx⟩ := (prefix_drop _ _).1 hp
      rw [hx, List.drop_left]
      cases hj : matIndex orig x with
      | none =>
        simp only [true_iff]
        exact ⟨i, by simp, x, by rw [hname, hx], (matIndex_none _ _).1 hj⟩
      | some j =>
        simp only []
        rw [ih _ ?_ (fun i' h => hi i' (by simp [h]))]
        · have hxm : x ∈ orig.map Material.name := by
            obtain ⟨o, e1, e2⟩ := matIndex_some _ _ _ hj
            exact e2 ▸ List.mem_map_of_mem (List.mem_iff_getElem?.2 ⟨j, e1⟩)
          constructor
          · rintro ⟨i', h1, h2⟩; exact ⟨i', by simp [h1], h2⟩
          · rintro ⟨i', h1, x', h2, h3⟩
            rcases List.mem_cons.1 h1 with rfl | h1
            · rw [hname, hx] at h2
              have := List.append_cancel_left (Option.some.inj h2)
              exact (h3 (this ▸ hxm)).elim
            · exact ⟨i', h1, x', h2, h3⟩
        · rw [← hn]
          apply List.ext_getElem?
          intro q
          simp only [List.getElem?_map, List.getElem?_modify]
          cases ms[q]? with
          | none => rfl
          | some a => simp only [Option.map_some]; split_ifs <;> rfl
    · rw [if_neg hp, ih ms hn (fun i' h => hi i' (by simp [h]))]
      constructor
      · rintro ⟨i', h1, h2⟩; exact ⟨i', by simp [h1], h2⟩
      · rintro ⟨i', h1, x', h2, h3⟩
        rcases List.mem_cons.1 h1 with rfl | h1
        · rw [hname] at h2
          exact (hp ((prefix_drop _ _).2 ⟨x', Option.some.inj h2⟩)).elim
        · exact ⟨i', h1, x', h2, h3⟩

/-- C28 is false: the program stops exactly if some material is called `$MORPH:name:x` and there is no
material `x`. -/
theorem materialMorph_missing_false (ms : List (Material F)) (name : Str) (w : F) :
    applyMaterialMorph ms name w = none ↔
      ∃ x, (morphPrefix name ++ x) ∈ ms.map Material.name ∧ x ∉ ms.map Material.name := by
  unfold applyMaterialMorph
  rw [materialLoop_none ms name w _ ms rfl (by simp)]
  constructor
  · rintro ⟨i, -, x, h1, h2⟩; exact ⟨x, List.mem_iff_getElem?.2 ⟨i, h1⟩, h2⟩
  · rintro ⟨x, h1, h2⟩
    obtain ⟨i, hi⟩ := List.mem_iff_getElem?.1 h1
    refine ⟨i, ?_, x, hi, h2⟩
    have := (List.getElem?_eq_some_iff.1 hi).1
    simpa using this

theorem materialLoop_spec (orig : List (Material F)) (name : Str) (w : F)
    (hn : (orig.map Material.name).Nodup)
    (hno : ∀ x, morphPrefix name ++ x ∈ orig.map Material.name →
      morphPrefix name ++ (morphPrefix name ++ x) ∉ orig.map Material.name) :
    ∀ (todo : List Nat) (ms : List (Material F)) (done : List Nat),
      todo.Nodup → (∀ i ∈ todo, i ∉ done) → (∀ i ∈ todo, i < orig.length) →
      ms.length = orig.length →
      (∀ (j : Nat) (mo mj : Material F), orig[j]? = some mo → ms[j]? = some mj →
        mj = mo ∧ (∀ i ∈ done, ∀ mi, orig[i]? = some mi → mi.name ≠ morphPrefix name ++ mo.name) ∨
        ∃ i ∈ done, ∃ mi, orig[i]? = some mi ∧ mi.name = morphPrefix name ++ mo.name ∧
          mj = { mo with color := (mo.color.scale (1 - w)).add (mi.color.scale w) }) →
      ∀ ms', materialMorphLoop orig name w todo ms = some ms' →
        ms'.length = orig.length ∧
        ∀ (j : Nat) (mo mj : Material F), orig[j]? = some mo → ms'[j]? = some mj →
          mj = mo ∧ (∀ i ∈ done ++ todo, ∀ mi, orig[i]? = some mi → mi.name ≠ morphPrefix name ++ mo.name) ∨
          ∃ i ∈ done ++ todo, ∃ mi, orig[i]? = some mi ∧ mi.name = morphPrefix name ++ mo.name ∧
            mj = { mo with color := (mo.color.scale (1 - w)).add (mi.color.scale w) } := by
  intro todo
  induction todo with
  | nil =>
    intro ms done _ _ _ hlen hI ms' hms
    simp only [materialMorphLoop, Option.some.injEq] at hms
    subst hms
    simpa using ⟨hlen, hI⟩
  | cons i todo ih =>
    intro ms done hnd hdis hlt hlen hI ms' hms
    rw [List.nodup_cons] at hnd
    have hil := hlt i (by simp)
    obtain ⟨mo, hmo⟩ : ∃ m, orig[i]? = some m := ⟨_, List.getElem?_eq_getElem hil⟩
    obtain ⟨m, hm⟩ : ∃ m, ms[i]? = some m := ⟨_, List.getElem?_eq_getElem (by omega)⟩
    have hmn : m.name = mo.name := by
      rcases hI i mo m hmo hm with ⟨rfl, -⟩ | ⟨_, _, _, _, _, rfl⟩ <;> rfl
    rw [materialMorphLoop] at hms
    simp only [hm, Option.bind_eq_bind, Option.bind_some] at hms
    have happ : done ++ i :: todo = (done ++ [i]) ++ todo := by simp
    rw [happ]
    by_cases hp : (morphPrefix name).isPrefixOf m.name = true
    · rw [if_pos hp] at hms
      obtain ⟨x, hx⟩ := (prefix_drop _ _).1 hp
      rw [hx, List.drop_left] at hms
      -- the morph material itself has not been changed
      have hmeq : m = mo := by
        rcases hI i mo m hmo hm with ⟨h, -⟩ | ⟨i', _, mi, h1, h2, _⟩
        · exact h
        · exfalso
          refine hno x ?_ ?_
          · rw [← hx, hmn]; exact List.mem_map_of_mem (List.mem_iff_getElem?.2 ⟨i, hmo⟩)
          · rw [← hx, hmn, ← h2]; exact List.mem_map_of_mem (List.mem_iff_getElem?.2 ⟨i', h1⟩)
      subst hmeq
      cases hj : matIndex orig x with
      | none => rw [hj] at hms; cases hms
      | some j =>
        rw [hj] at hms
        simp only at hms
        obtain ⟨tj, htj, htn⟩ := matIndex_some _ _ _ hj
        refine ih _ (done ++ [i]) hnd.2 ?_ (fun i' h => hlt i' (by simp [h])) (by simp [hlen]) ?_ ms' hms
        · intro i' hi' hmem
          rcases List.mem_append.1 hmem with h | h
          · exact hdis i' (by simp [hi']) h
          · have : i' = i := by simpa using h
            subst this
            exact hnd.1 hi'
        · intro q qo qj hqo hqj
          rw [List.getElem?_modify] at hqj
          obtain ⟨a, ha, haq⟩ := Option.map_eq_some_iff.1 hqj
          by_cases hjq : j = q
          · subst hjq
            rw [htj] at hqo
            cases hqo
            rw [if_pos rfl] at haq
            rcases hI j tj a htj ha with ⟨rfl, h2⟩ | ⟨i', hi', mi, h1, h2, h3⟩
            · right
              exact ⟨i, by simp, m, hmo, by rw [hx, htn], haq.symm⟩
            · exfalso
              have : i' = i := nodup_idx Material.name orig hn i' i mi m h1 hmo (by rw [h2, hx, htn])
              subst this
              exact hdis i' (by simp) hi'
          · rw [if_neg hjq] at haq
            subst haq
            rcases hI q qo a hqo ha with ⟨rfl, h2⟩ | ⟨i', hi', mi, h1, h2, h3⟩
            · left
              refine ⟨rfl, fun i' hi' mi hmi he => ?_⟩
              rcases List.mem_append.1 hi' with h | h
              · exact h2 i' h mi hmi he
              · have : i' = i := by simpa using h
                subst this
                rw [hmo] at hmi
                cases hmi
                rw [hx] at he
                have : x = a.name := List.append_cancel_left he
                exact hjq (nodup_idx Material.name orig hn j q tj a htj hqo (by rw [htn, this]))
            · exact Or.inr ⟨i', by simp [hi'], mi, h1, h2, h3⟩
    · rw [if_neg hp] at hms
      refine ih _ (done ++ [i]) hnd.2 ?_ (fun i' h => hlt i' (by simp [h])) hlen ?_ ms' hms
      · intro i' hi' hmem
        rcases List.mem_append.1 hmem with h | h
        · exact hdis i' (by simp [hi']) h
        · have : i' = i := by simpa using h
          subst this
          exact hnd.1 hi'
      · intro q qo qj hqo hqj
        rcases hI q qo qj hqo hqj with ⟨rfl, h2⟩ | ⟨i', hi', mi, h1, h2, h3⟩
        · left
          refine ⟨rfl, fun i' hi' mi hmi he => ?_⟩
          rcases List.mem_append.1 hi' with h | h
          · exact h2 i' h mi hmi he
          · have : i' = i := by simpa using h
            subst this
            rw [hmo] at hmi
            cases hmi
            exact hp ((prefix_drop _ _).2 ⟨_, by rw [hmn, he]⟩)
        · exact Or.inr ⟨i', by simp [hi'], mi, h1, h2, h3⟩

/-- C28, the part that holds: if every material `$MORPH:name:x` has its material `x`, the call returns
and mixes colours: `x` gets `(1−w)·x + w·$MORPH:name:x`, materials without a morph material keep
theirs. (Names distinct, and no morph material is itself the target of another one of the same morph.)
Missing: missing target materials, where the program stops. -/
theorem materialMorph_partial (ms : List (Material F)) (name : Str) (w : F)
    (hn : (ms.map Material.name).Nodup)
    (hno : ∀ x, morphPrefix name ++ x ∈ ms.map Material.name →
      morphPrefix name ++ (morphPrefix name ++ x) ∉ ms.map Material.name)
    (hall : ∀ x, morphPrefix name ++ x ∈ ms.map Material.name → x ∈ ms.map Material.name) :
    ∃ ms', applyMaterialMorph ms name w = some ms' ∧ ms'.length = ms.length ∧
      ∀ (j : Nat) (m m' : Material F), ms[j]? = some m → ms'[j]? = some m' →
        ((∀ mi ∈ ms, mi.name ≠ morphPrefix name ++ m.name) → m' = m) ∧
        (∀ mi ∈ ms, mi.name = morphPrefix name ++ m.name →
          m' = { m with color := (m.color.scale (1 - w)).add (mi.color.scale w) }) := by
  cases hr : applyMaterialMorph ms name w with
  | none =>
    obtain ⟨x, h1, h2⟩ := (materialMorph_missing_false ms name w).1 hr
    exact (h2 (hall x h1)).elim
  | some ms' =>
    obtain ⟨h1, h2⟩ := materialLoop_spec ms name w hn hno (List.range ms.length) ms [] List.nodup_range (by simp)
      (by simp) rfl (by
        intro j mo mj h3 h4
        rw [h3] at h4
        cases h4
        exact Or.inl ⟨rfl, by simp⟩) ms' hr
    refine ⟨ms', rfl, h1, fun j m m' hj hj' => ?_⟩
    rcases h2 j m m' hj hj' with ⟨rfl, h3⟩ | ⟨i, -, mi, h3, h4, h5⟩
    · refine ⟨fun _ => rfl, fun mi hmi he => ?_⟩
      obtain ⟨i, hi⟩ := List.mem_iff_getElem?.1 hmi
      have := (List.getElem?_eq_some_iff.1 hi).1
      exact (h3 i (by simpa using this) mi hi he).elim
    · refine ⟨fun h => (h mi (List.mem_iff_getElem?.2 ⟨i, h3⟩) h4).elim, fun mi' hmi' he => ?_⟩
      obtain ⟨i', hi'⟩ := List.mem_iff_getElem?.1 hmi'
      have := nodup_idx Material.name ms hn i' i mi' mi hi' h3 (he.trans h4.symm)
      subst this
      rw [h3] at hi'
      cases hi'
      exact h5

def intMaterial (name : Str) (c : Vec4 Int) : Material Int :=
  ⟨name, 0, c, 0, 0, 0, 0, 0, [], [], [], none, false, 0, none⟩

/-- A material morph that works, and one that stops the program. -/
example : (applyMaterialMorph [intMaterial "skin".toList ⟨0, 0, 0, 1⟩, intMaterial "$MORPH:m:skin".toList ⟨1, 2, 3, 1⟩]
    "m".toList (1 : Int)).map (List.map Material.color) = some [⟨1, 2, 3, 1⟩, ⟨1, 2, 3, 1⟩] ∧
    applyMaterialMorph [intMaterial "$MORPH:m:skin".toList ⟨1, 2, 3, 1⟩] "m".toList (1 : Int) = none := by
  constructor <;> decide

example : ∃ ms : List (Material Int), (ms.map Material.name).Nodup ∧
    (∃ x, morphPrefix ['m'] ++ x ∈ ms.map Material.name) ∧
    (∀ x, morphPrefix ['m'] ++ x ∈ ms.map Material.name →
      morphPrefix ['m'] ++ (morphPrefix ['m'] ++ x) ∉ ms.map Material.name) ∧
    (∀ x, morphPrefix ['m'] ++ x ∈ ms.map Material.name → x ∈ ms.map Material.name) := by
  have hc : ∀ x, morphPrefix ['m'] ++ x ∈ [['s'], morphPrefix ['m'] ++ ['s']] → x = ['s'] := by
    intro x hx
    rcases List.mem_cons.1 hx with h | h
    · have := congrArg List.length h
      simp [morphPrefix] at this
    · exact List.append_cancel_left (List.mem_singleton.1 h)
  refine ⟨[intMaterial ['s'] ⟨0, 0, 0, 1⟩, intMaterial (morphPrefix ['m'] ++ ['s']) ⟨1, 2, 3, 1⟩], by decide,
    ⟨['s'], by simp [intMaterial]⟩, ?_, ?_⟩
  · intro x h1 h2
    have e1 := hc x h1
    have e2 := hc _ h2
    subst e1
    have := congrArg List.length e2
    simp [morphPrefix] at this
  · intro x h1
    rw [hc x h1]
    simp [intMaterial]

end Verif.Mqo
