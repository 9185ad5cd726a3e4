import Verif.Conv.GltfSkin
import Mathlib.Tactic.Ring
import Mathlib.Tactic.Linarith
import Mathlib.Tactic.FieldSimp
import Mathlib.Algebra.Order.Field.Basic
import Mathlib.Algebra.Order.BigOperators.Group.List
import Mathlib.Algebra.BigOperators.Group.List.Lemmas
import Mathlib.Data.Rat.Cast.Order

/-! C40: skin weights of glTF meshes. -/

namespace Verif.Conv

open Verif.Geom
open Verif.Mqo (Bone Object VertexWeight)

variable {F : Type}

/-- The weights a group has for the vertex with index `v`. -/
def groupWeights (o : Object F) (v : Nat) (g : List (VertexWeight F)) : List F :=
  (g.filter fun vw => o.getVertexIndexByID vw.vertexID = v).map (·.weight)

/-- All influences of a vertex: joint number and weight (times 0.01), in the order of the bones. -/
def skinInfluences [Mul F] (h : F) (o : Object F) (v : Nat) (j : Nat)
    (groups : List (Int × List (VertexWeight F))) : List (Nat × F) :=
  (groups.zipIdx j).flatMap fun p => (groupWeights o v p.1.2).map fun w => (p.2, w * h)

theorem forVertexes_spec (o : Object F) (f : F → VSkin F → VSkin F) (g : List (VertexWeight F)) :
    ∀ l l', forVertexes o f g l = some l' → l'.length = l.length ∧
      ∀ v : Nat, l'[v]? = (l[v]?).map fun s => (groupWeights o v g).foldl (fun s w => f w s) s := by
  induction g with
  | nil =>
    intro l l' h
    simp only [forVertexes, Option.some.injEq] at h
    subst h
    simp [groupWeights]
  | cons vw g ih =>
    intro l l' h
    simp only [forVertexes] at h
    split at h
    · rename_i hv
      obtain ⟨hl, hg⟩ := ih _ _ h
      refine ⟨by simpa using hl, ?_⟩
      intro v
      rw [hg, List.getElem?_modify]
      by_cases e : o.getVertexIndexByID vw.vertexID = v
      · have e' : (o.getVertexIndexByID vw.vertexID).toNat = v := by omega
        simp [groupWeights, e, Function.comp_def]
      · have e' : ¬ (o.getVertexIndexByID vw.vertexID).toNat = v := by omega
        simp [groupWeights, e, e']
    · simp at h

/-- A pass succeeds if all vertices are known. -/
theorem forVertexes_total (o : Object F) (f : F → VSkin F → VSkin F) (g : List (VertexWeight F)) :
    ∀ l : List (VSkin F), (∀ vw ∈ g, 0 ≤ o.getVertexIndexByID vw.vertexID ∧
      o.getVertexIndexByID vw.vertexID < l.length) → ∃ l', forVertexes o f g l = some l' := by
  induction g with
  | nil => intro l _; exact ⟨l, rfl⟩
  | cons vw g ih =>
    intro l h
    simp only [forVertexes]
    rw [if_pos (h vw (by simp))]
    exact ih _ (fun vw' hm => by simpa using h vw' (by simp [hm]))

section
variable [Add F] [Mul F] [Div F] [Zero F] [FloatOps F]

/-- One vertex, all groups. -/
def vertexRun (h : F) (o : Object F) (v : Nat) : Nat → List (Int × List (VertexWeight F)) → VSkin F → VSkin F
  | _, [], s => s
  | j, g :: gs, s =>
    vertexRun h o v (j + 1) gs ((groupWeights o v g.2).foldl (fun s _ => s.norm)
      ((groupWeights o v g.2).foldl (VSkin.put h j) s))

theorem skinLoop_spec (h : F) (o : Object F) (gs : List (Int × List (VertexWeight F))) :
    ∀ j l l', skinLoop h o j gs l = some l' → l'.length = l.length ∧
      ∀ v : Nat, l'[v]? = (l[v]?).map (vertexRun h o v j gs) := by
  induction gs with
  | nil =>
    intro j l l' e
    simp only [skinLoop, Option.some.injEq] at e
    subst e
    simp [vertexRun]
  | cons g gs ih =>
    intro j l l' e
    simp only [skinLoop] at e
    split at e
    · simp at e
    · rename_i l1 e1
      split at e
      · simp at e
      · rename_i l2 e2
        obtain ⟨a1, b1⟩ := forVertexes_spec o _ _ _ _ e1
        obtain ⟨a2, b2⟩ := forVertexes_spec o _ _ _ _ e2
        obtain ⟨a3, b3⟩ := ih _ _ _ e
        refine ⟨by omega, ?_⟩
        intro v
        rw [b3, b2, b1]
        simp only [Option.map_map, vertexRun]
        rfl

theorem skinLoop_total (h : F) (o : Object F) (gs : List (Int × List (VertexWeight F))) :
    ∀ j (l : List (VSkin F)), (∀ g ∈ gs, ∀ vw ∈ g.2, 0 ≤ o.getVertexIndexByID vw.vertexID ∧
      o.getVertexIndexByID vw.vertexID < l.length) → ∃ l', skinLoop h o j gs l = some l' := by
  induction gs with
  | nil => intro j l _; exact ⟨l, rfl⟩
  | cons g gs ih =>
    intro j l hv
    simp only [skinLoop]
    obtain ⟨l1, e1⟩ := forVertexes_total o (fun w s => s.put h j w) g.2 l (hv g (by simp))
    have a1 := (forVertexes_spec o _ _ _ _ e1).1
    obtain ⟨l2, e2⟩ := forVertexes_total o (fun _ s => s.norm) g.2 l1 (by rw [a1]; exact hv g (by simp))
    have a2 := (forVertexes_spec o _ _ _ _ e2).1
    rw [e1]
    simp only [e2]
    exact ih _ _ (by rw [a2, a1]; exact fun g' hg' => hv g' (by simp [hg']))

/-- The slots never number other than four, `n` counts the influences and every joint is below `k`. -/
structure SlotInv (k : Nat) (s : VSkin F) : Prop where
  four : s.slots.length = 4
  joints : ∀ e ∈ s.slots, e.1 < k

omit [Add F] [Div F] [Zero F] in
theorem put_inv {k : Nat} (h : F) (j : Nat) (s : VSkin F) (w : F) (hs : SlotInv k s) (hj : j < k) :
    SlotInv k (s.put h j w) := by
  have set : ∀ i, SlotInv k ⟨s.n + 1, s.slots.set i (j, w * h)⟩ := by
    intro i
    refine ⟨by simp [hs.four], ?_⟩
    intro e he
    rcases List.mem_or_eq_of_mem_set he with he | rfl
    · exact hs.joints e he
    · exact hj
  unfold VSkin.put
  split
  · exact set _
  · split
    · exact ⟨hs.four, hs.joints⟩
    · exact set _

omit [Mul F] in
theorem norm_inv {k : Nat} (s : VSkin F) (hs : SlotInv k s) : SlotInv k s.norm := by
  unfold VSkin.norm
  split
  · split
    · refine ⟨by simp [hs.four], ?_⟩
      intro e he
      simp only [List.mem_map] at he
      obtain ⟨e', he', rfl⟩ := he
      exact hs.joints e' he'
    · exact hs
  · exact hs

omit [Mul F] in
theorem norm_n (s : VSkin F) : s.norm.n = s.n := by
  unfold VSkin.norm
  split
  · split <;> rfl
  · rfl

omit [Add F] [Div F] [Zero F] in
theorem put_n (h : F) (j : Nat) (s : VSkin F) (w : F) : (s.put h j w).n = s.n + 1 := by
  unfold VSkin.put
  split
  · rfl
  · split <;> rfl

omit [Mul F] in
theorem norms_n (l : List F) : ∀ s : VSkin F, (l.foldl (fun s _ => s.norm) s).n = s.n := by
  induction l with
  | nil => intro s; rfl
  | cons a l ih => intro s; rw [List.foldl_cons, ih, norm_n]

omit [Add F] [Div F] [Zero F] in
theorem puts_n (h : F) (j : Nat) (l : List F) : ∀ s : VSkin F, (l.foldl (VSkin.put h j) s).n = s.n + l.length := by
  induction l with
  | nil => intro s; rfl
  | cons a l ih => intro s; rw [List.foldl_cons, ih, put_n]; simp; omega

omit [Mul F] in
theorem norms_inv {k : Nat} (l : List F) : ∀ s : VSkin F, SlotInv k s →
    SlotInv k (l.foldl (fun s _ => s.norm) s) := by
  induction l with
  | nil => intro s hs; exact hs
  | cons a l ih => intro s hs; exact ih _ (norm_inv s hs)

omit [Add F] [Div F] [Zero F] in
theorem puts_inv {k : Nat} (h : F) (j : Nat) (hj : j < k) (l : List F) : ∀ s : VSkin F, SlotInv k s →
    SlotInv k (l.foldl (VSkin.put h j) s) := by
  induction l with
  | nil => intro s hs; exact hs
  | cons a l ih => intro s hs; exact ih _ (put_inv h j s a hs hj)

theorem vertexRun_inv (h : F) (o : Object F) (v k : Nat) (gs : List (Int × List (VertexWeight F))) :
    ∀ j s, SlotInv k s → j + gs.length ≤ k → SlotInv k (vertexRun h o v j gs s) := by
  induction gs with
  | nil => intro j s hs _; exact hs
  | cons g gs ih =>
    intro j s hs hk
    simp only [List.length_cons] at hk
    exact ih _ _ (norms_inv _ _ (puts_inv h j (by omega) _ _ hs)) (by omega)

theorem vertexRun_n (h : F) (o : Object F) (v : Nat) (gs : List (Int × List (VertexWeight F))) :
    ∀ j s, (vertexRun h o v j gs s).n = s.n + (skinInfluences h o v j gs).length := by
  induction gs with
  | nil => intro j s; simp [vertexRun, skinInfluences]
  | cons g gs ih =>
    intro j s
    rw [vertexRun, ih, norms_n, puts_n]
    simp [skinInfluences, List.zipIdx_cons]
    omega

/-- C40: every vertex has four slots with existing joints. -/
theorem getWeights_joints (h : F) (bones : List (Bone F)) (o : Object F) (idToJoint : List (Int × Nat))
    (joints : List Nat) (skins : List (VSkin F)) (e : getWeights h bones o idToJoint = some (joints, skins)) :
    (joints = [] ∧ skins = [] ∧ skinGroups bones o = []) ∨
    (skins.length = o.vertexes.length ∧ joints.length = (skinGroups bones o).length ∧
      ∀ s ∈ skins, s.slots.length = 4 ∧ ∀ x ∈ s.slots, x.1 < joints.length) := by
  simp only [getWeights] at e
  split at e
  · rename_i hg
    simp only [Option.some.injEq, Prod.mk.injEq] at e
    exact .inl ⟨e.1.symm, e.2.symm, List.isEmpty_iff.mp hg⟩
  · rename_i hg
    right
    obtain ⟨l, hl, hr⟩ := Option.map_eq_some_iff.mp e
    simp only [Prod.mk.injEq] at hr
    obtain ⟨rfl, rfl⟩ := hr
    obtain ⟨a, b⟩ := skinLoop_spec h o _ _ _ _ hl
    refine ⟨by simpa using a, by simp, ?_⟩
    intro s hs
    obtain ⟨i, hi⟩ := List.mem_iff_getElem?.mp hs
    rw [b] at hi
    obtain ⟨s0, h0, rfl⟩ := Option.map_eq_some_iff.mp hi
    simp only [List.getElem?_map, Option.map_eq_some_iff] at h0
    obtain ⟨_, _, rfl⟩ := h0
    have hpos : 0 < (skinGroups bones o).length := by
      rw [List.length_pos_iff]
      simpa using hg
    have := vertexRun_inv h o i (skinGroups bones o).length (skinGroups bones o) 0 VSkin.empty
      ⟨rfl, by simpa [VSkin.empty] using hpos⟩ (by omega)
    exact ⟨this.four, by simpa using this.joints⟩

/-- C40: `getWeights` succeeds if every weight names an existing vertex. -/
theorem getWeights_total (h : F) (bones : List (Bone F)) (o : Object F) (idToJoint : List (Int × Nat))
    (hv : ∀ g ∈ skinGroups bones o, ∀ vw ∈ g.2, 0 ≤ o.getVertexIndexByID vw.vertexID ∧
      o.getVertexIndexByID vw.vertexID < o.vertexes.length) :
    ∃ r, getWeights h bones o idToJoint = some r := by
  simp only [getWeights]
  split
  · exact ⟨_, rfl⟩
  · obtain ⟨l, hl⟩ := skinLoop_total h o (skinGroups bones o) 0 (o.vertexes.map fun _ => VSkin.empty)
      (by simpa using hv)
    rw [hl]
    exact ⟨_, rfl⟩

theorem getWeights_vertex (h : F) (bones : List (Bone F)) (o : Object F) (idToJoint : List (Int × Nat))
    (joints : List Nat) (skins : List (VSkin F)) (e : getWeights h bones o idToJoint = some (joints, skins))
    (v : Nat) (s : VSkin F) (hs : skins[v]? = some s) :
    s = vertexRun h o v 0 (skinGroups bones o) VSkin.empty := by
  simp only [getWeights] at e
  split at e
  · simp only [Option.some.injEq, Prod.mk.injEq] at e
    simp [← e.2] at hs
  · obtain ⟨l, hl, hr⟩ := Option.map_eq_some_iff.mp e
    simp only [Prod.mk.injEq] at hr
    obtain ⟨rfl, rfl⟩ := hr
    rw [(skinLoop_spec h o _ _ _ _ hl).2] at hs
    simp only [List.getElem?_map, Option.map_map, Option.map_eq_some_iff] at hs
    obtain ⟨_, _, rfl⟩ := hs
    rfl

/-! ### Up to four influences -/

omit [Mul F] [FloatOps F] [Add F] [Div F] in
/-- The first influences in order, the rest of the four slots empty. -/
def slotsOf (l : List (Nat × F)) : List (Nat × F) := l ++ List.replicate (4 - l.length) (0, 0)

omit [Add F] [Div F] in
theorem puts_few (h : F) (j : Nat) (ws : List F) : ∀ l : List (Nat × F), l.length + ws.length ≤ 4 →
    ws.foldl (VSkin.put h j) ⟨l.length, slotsOf l⟩ =
      ⟨l.length + ws.length, slotsOf (l ++ ws.map fun w => (j, w * h))⟩ := by
  induction ws with
  | nil => intro l _; simp
  | cons w ws ih =>
    intro l hl
    simp only [List.length_cons] at hl
    have : VSkin.put h j ⟨l.length, slotsOf l⟩ w =
        ⟨(l ++ [(j, w * h)]).length, slotsOf (l ++ [(j, w * h)])⟩ := by
      unfold VSkin.put
      rw [if_pos (by simp; omega)]
      have e : 4 - l.length = (4 - (l.length + 1)) + 1 := by omega
      simp [slotsOf, List.set_append_right, e, List.replicate_succ]
    rw [List.foldl_cons, this, ih _ (by simp; omega)]
    simp only [List.length_append, List.length_cons, List.length_nil, List.append_assoc,
      List.cons_append, List.nil_append, List.map_cons, VSkin.mk.injEq, and_true]
    omega

omit [Mul F] in
theorem norms_few (ws : List F) : ∀ s : VSkin F, s.n ≤ 4 → ws.foldl (fun s _ => s.norm) s = s := by
  induction ws with
  | nil => intro s _; rfl
  | cons w ws ih =>
    intro s hs
    have : s.norm = s := by unfold VSkin.norm; rw [if_neg (by omega)]
    rw [List.foldl_cons, this]
    exact ih s hs

theorem vertexRun_few (h : F) (o : Object F) (v : Nat) (gs : List (Int × List (VertexWeight F))) :
    ∀ j (l : List (Nat × F)), l.length + (skinInfluences h o v j gs).length ≤ 4 →
      vertexRun h o v j gs ⟨l.length, slotsOf l⟩ =
        ⟨(l ++ skinInfluences h o v j gs).length, slotsOf (l ++ skinInfluences h o v j gs)⟩ := by
  induction gs with
  | nil => intro j l _; simp [vertexRun, skinInfluences]
  | cons g gs ih =>
    intro j l hl
    have e : skinInfluences h o v j (g :: gs) =
        (groupWeights o v g.2).map (fun w => (j, w * h)) ++ skinInfluences h o v (j + 1) gs := by
      simp [skinInfluences, List.zipIdx_cons]
    rw [e] at hl ⊢
    simp only [List.length_append, List.length_map] at hl
    rw [vertexRun, puts_few h j _ l (by omega), norms_few _ _ (by simp; omega)]
    have := ih (j + 1) (l ++ (groupWeights o v g.2).map fun w => (j, w * h)) (by simp; omega)
    simp only [List.length_append, List.length_map] at this
    rw [this]
    simp [Nat.add_assoc]

/-- C40: a vertex with at most four influences gets exactly them, in the order of the bones. -/
theorem getWeights_few (h : F) (bones : List (Bone F)) (o : Object F) (idToJoint : List (Int × Nat))
    (joints : List Nat) (skins : List (VSkin F)) (e : getWeights h bones o idToJoint = some (joints, skins))
    (v : Nat) (s : VSkin F) (hs : skins[v]? = some s)
    (hf : (skinInfluences h o v 0 (skinGroups bones o)).length ≤ 4) :
    s.slots = skinInfluences h o v 0 (skinGroups bones o) ++
      List.replicate (4 - (skinInfluences h o v 0 (skinGroups bones o)).length) (0, 0) := by
  rw [getWeights_vertex h bones o idToJoint joints skins e v s hs]
  have := vertexRun_few h o v (skinGroups bones o) 0 [] (by simpa using hf)
  have h0 : (⟨([] : List (Nat × F)).length, slotsOf []⟩ : VSkin F) = VSkin.empty := rfl
  rw [h0] at this
  rw [this]
  simp [slotsOf]

end

/-! ### More than four influences -/

section
variable [Field F] [LinearOrder F] [IsStrictOrderedRing F] [FloatOps F]

theorem sum_eq (s : VSkin F) : s.sum = (s.slots.map (·.2)).sum := by
  have : ∀ (l : List (Nat × F)) a, l.foldl (fun a e => a + e.2) a = a + (l.map (·.2)).sum := by
    intro l
    induction l with
    | nil => intro a; simp
    | cons e l ih => intro a; rw [List.foldl_cons, ih]; simp; ring
  unfold VSkin.sum
  rw [this]
  ring

theorem smallest_spec (hlt : ∀ a b : F, lt a b = decide (a < b)) (es : List (Nat × F)) :
    ∀ m best i, (∃ k e, smallest m best i es = some (i + k) ∧ es[k]? = some e ∧ e.2 < m ∧
        ∀ e' ∈ es, e.2 ≤ e'.2) ∨
      (smallest m best i es = best ∧ ∀ e' ∈ es, m ≤ e'.2) := by
  induction es with
  | nil => intro m best i; exact .inr ⟨rfl, by simp⟩
  | cons e es ih =>
    intro m best i
    simp only [smallest, hlt]
    by_cases he : e.2 < m
    · simp only [he, decide_true, if_true]
      left
      rcases ih e.2 (some i) (i + 1) with ⟨k, x, h1, h2, h3, h4⟩ | ⟨h1, h2⟩
      · refine ⟨k + 1, x, by rw [h1]; congr 1; omega, by simpa using h2, h3.trans he, ?_⟩
        intro e' he'
        rcases List.mem_cons.mp he' with rfl | he'
        · exact h3.le
        · exact h4 e' he'
      · refine ⟨0, e, by rw [h1]; simp, rfl, he, ?_⟩
        intro e' he'
        rcases List.mem_cons.mp he' with rfl | he'
        · exact le_rfl
        · exact h2 e' he'
    · simp only [he, decide_false, Bool.false_eq_true, if_false]
      rcases ih m best (i + 1) with ⟨k, x, h1, h2, h3, h4⟩ | ⟨h1, h2⟩
      · left
        refine ⟨k + 1, x, by rw [h1]; congr 1; omega, by simpa using h2, h3, ?_⟩
        intro e' he'
        rcases List.mem_cons.mp he' with rfl | he'
        · exact (h3.trans_le (not_lt.mp he)).le
        · exact h4 e' he'
      · right
        refine ⟨h1, ?_⟩
        intro e' he'
        rcases List.mem_cons.mp he' with rfl | he'
        · exact not_lt.mp he
        · exact h2 e' he'

/-- Weights are not negative, and the first is positive as soon as there is an influence. -/
structure PosInv (s : VSkin F) : Prop where
  four : s.slots.length = 4
  nonneg : ∀ e ∈ s.slots, 0 ≤ e.2
  first : 0 < s.n → ∀ e, s.slots[0]? = some e → 0 < e.2

theorem PosInv.sum_pos {s : VSkin F} (hs : PosInv s) (hn : 0 < s.n) : 0 < s.sum := by
  rw [sum_eq]
  obtain ⟨e, r, he⟩ : ∃ e r, s.slots = e :: r := by
    cases h : s.slots with
    | nil => have := hs.four; rw [h] at this; simp at this
    | cons e r => exact ⟨e, r, rfl⟩
  have h0 := hs.first hn e (by simp [he])
  have h1 : 0 ≤ (r.map (·.2)).sum := by
    apply List.sum_nonneg
    intro x hx
    simp only [List.mem_map] at hx
    obtain ⟨y, hy, rfl⟩ := hx
    exact hs.nonneg y (by simp [he, hy])
  rw [he]
  simp only [List.map_cons, List.sum_cons]
  linarith

theorem put_pos (hlt : ∀ a b : F, lt a b = decide (a < b)) (h : F) (hh : 0 < h) (j : Nat) (s : VSkin F)
    (w : F) (hw : 0 < w) (hs : PosInv s) : PosInv (s.put h j w) := by
  have hwh : 0 < w * h := mul_pos hw hh
  have set : ∀ i, (s.n = 0 → i = 0) → PosInv ⟨s.n + 1, s.slots.set i (j, w * h)⟩ := by
    intro i hi
    refine ⟨by simp [hs.four], ?_, ?_⟩
    · intro e he
      rcases List.mem_or_eq_of_mem_set he with he | rfl
      · exact hs.nonneg e he
      · exact hwh.le
    · intro _ e he
      by_cases h0 : i = 0
      · subst h0
        have : 0 < s.slots.length := by rw [hs.four]; omega
        rw [List.getElem?_set_self this] at he
        rw [← Option.some.inj he]
        exact hwh
      · rw [List.getElem?_set_ne (by omega)] at he
        exact hs.first (by omega) e he
  unfold VSkin.put
  split
  · exact set _ (fun e => e)
  · split
    · exact ⟨hs.four, hs.nonneg, fun _ e he => hs.first (by omega) e he⟩
    · exact set _ (fun e => by omega)

theorem norm_pos (hlt : ∀ a b : F, lt a b = decide (a < b)) (s : VSkin F) (hs : PosInv s) :
    PosInv s.norm ∧ (4 < s.n → s.norm.sum = 1) := by
  unfold VSkin.norm
  by_cases hn : 4 < s.n
  · have hp := hs.sum_pos (by omega)
    rw [if_pos hn, hlt, if_pos (by simpa using hp)]
    refine ⟨⟨by simp [hs.four], ?_, ?_⟩, ?_⟩
    · intro e he
      simp only [List.mem_map] at he
      obtain ⟨e', he', rfl⟩ := he
      exact div_nonneg (hs.nonneg e' he') hp.le
    · intro _ e he
      rw [List.getElem?_map] at he
      obtain ⟨e', he', rfl⟩ := Option.map_eq_some_iff.mp he
      exact div_pos (hs.first (by omega) e' he') hp
    · intro _
      rw [sum_eq]
      simp only [List.map_map]
      have : ∀ (l : List (Nat × F)) (c : F), (l.map ((fun e => e.2) ∘ fun e => (e.1, e.2 / c))).sum =
          (l.map (·.2)).sum / c := by
        intro l c
        induction l with
        | nil => simp
        | cons e l ih => simp only [List.map_cons, List.sum_cons, ih, Function.comp]; ring
      rw [this, ← sum_eq, div_self hp.ne']
  · rw [if_neg hn]
    exact ⟨hs, fun h => absurd h hn⟩

theorem puts_pos (hlt : ∀ a b : F, lt a b = decide (a < b)) (h : F) (hh : 0 < h) (j : Nat) (ws : List F)
    (hw : ∀ w ∈ ws, 0 < w) : ∀ s : VSkin F, PosInv s → PosInv (ws.foldl (VSkin.put h j) s) := by
  induction ws with
  | nil => intro s hs; exact hs
  | cons w ws ih =>
    intro s hs
    exact ih (fun w' hw' => hw w' (by simp [hw'])) _ (put_pos hlt h hh j s w (hw w (by simp)) hs)

theorem norms_pos (hlt : ∀ a b : F, lt a b = decide (a < b)) (ws : List F) :
    ∀ s : VSkin F, PosInv s → PosInv (ws.foldl (fun s _ => s.norm) s) ∧
      (4 < s.n → (ws ≠ [] ∨ s.sum = 1) → (ws.foldl (fun s _ => s.norm) s).sum = 1) := by
  induction ws with
  | nil => intro s hs; exact ⟨hs, fun _ h => h.resolve_left (fun h => h rfl)⟩
  | cons w ws ih =>
    intro s hs
    obtain ⟨h1, h2⟩ := norm_pos hlt s hs
    obtain ⟨h3, h4⟩ := ih _ h1
    exact ⟨h3, fun hn _ => h4 (by rwa [norm_n]) (.inr (h2 hn))⟩

theorem vertexRun_pos (hlt : ∀ a b : F, lt a b = decide (a < b)) (h : F) (hh : 0 < h) (o : Object F)
    (v : Nat) (gs : List (Int × List (VertexWeight F))) (hw : ∀ g ∈ gs, ∀ vw ∈ g.2, 0 < vw.weight) :
    ∀ j s, PosInv s → (4 < s.n → s.sum = 1) → (4 < (vertexRun h o v j gs s).n →
      (vertexRun h o v j gs s).sum = 1) := by
  induction gs with
  | nil => intro j s _ h1; exact h1
  | cons g gs ih =>
    intro j s hs h1
    have hws : ∀ w ∈ groupWeights o v g.2, 0 < w := by
      intro w hm
      simp only [groupWeights, List.mem_map, List.mem_filter] at hm
      obtain ⟨vw, ⟨hm, _⟩, rfl⟩ := hm
      exact hw g (by simp) vw hm
    have p1 := puts_pos hlt h hh j _ hws s hs
    obtain ⟨p2, p3⟩ := norms_pos hlt (groupWeights o v g.2) _ p1
    refine ih (fun g' hg' => hw g' (by simp [hg'])) _ _ p2 ?_
    intro hn
    rw [norms_n] at hn
    refine p3 hn ?_
    by_cases hne : groupWeights o v g.2 = []
    · right
      rw [hne] at hn ⊢
      exact h1 hn
    · exact .inl hne

/-- C40: if influences were dropped, the kept weights sum up to 1. -/
theorem getWeights_normalised (hlt : ∀ a b : F, lt a b = decide (a < b)) (h : F) (hh : 0 < h)
    (bones : List (Bone F)) (o : Object F) (idToJoint : List (Int × Nat)) (joints : List Nat)
    (skins : List (VSkin F)) (e : getWeights h bones o idToJoint = some (joints, skins))
    (hw : ∀ g ∈ skinGroups bones o, ∀ vw ∈ g.2, 0 < vw.weight)
    (v : Nat) (s : VSkin F) (hs : skins[v]? = some s)
    (hf : 4 < (skinInfluences h o v 0 (skinGroups bones o)).length) :
    (s.slots.map (·.2)).sum = 1 ∧ ∀ x ∈ s.slots, 0 ≤ x.2 := by
  have hsv := getWeights_vertex h bones o idToJoint joints skins e v s hs
  have h0 : PosInv (VSkin.empty : VSkin F) := by
    refine ⟨rfl, ?_, ?_⟩
    · simp [VSkin.empty]
    · simp [VSkin.empty]
  constructor
  · rw [← sum_eq, hsv]
    refine vertexRun_pos hlt h hh o v _ hw 0 VSkin.empty h0 (by simp [VSkin.empty]) ?_
    rw [vertexRun_n]
    omega
  · have key : ∀ (gs : List (Int × List (VertexWeight F))) j s, (∀ g ∈ gs, ∀ vw ∈ g.2, 0 < vw.weight) →
        PosInv s → PosInv (vertexRun h o v j gs s) := by
      intro gs
      induction gs with
      | nil => intro j s _ hs; exact hs
      | cons g gs ih =>
        intro j s hw hs
        refine ih _ _ (fun g' hg' => hw g' (by simp [hg'])) (norms_pos hlt _ _ (puts_pos hlt h hh j _ ?_ s hs)).1
        intro w hm
        simp only [groupWeights, List.mem_map, List.mem_filter] at hm
        obtain ⟨vw, ⟨hm, _⟩, rfl⟩ := hm
        exact hw g (by simp) vw hm
    rw [hsv]
    exact (key _ _ _ hw h0).nonneg

/-! ### Five influences -/

theorem set_perm {α : Type} (l : List α) (k : Nat) (x e : α) (h : l[k]? = some e) :
    (l.set k x ++ [e]).Perm (l ++ [x]) := by
  obtain ⟨hk, rfl⟩ := List.getElem?_eq_some_iff.mp h
  have h1 : l.set k x = l.take k ++ x :: l.drop (k + 1) := List.set_eq_take_append_cons_drop.trans (by simp [hk])
  have h2 : l = l.take k ++ l[k] :: l.drop (k + 1) := by simp
  rw [h1]
  conv_rhs => rw [h2]
  simp only [List.append_assoc, List.cons_append]
  apply List.Perm.append_left
  refine (List.Perm.cons x (List.perm_append_singleton _ _)).trans ?_
  refine (List.Perm.swap _ _ _).trans ?_
  exact (List.Perm.cons _ (List.perm_append_singleton _ _).symm)

/-- `kept` are the four largest of five influences. -/
def FourLargest (infl kept : List (Nat × F)) : Prop :=
  ∃ dropped, (kept ++ [dropped]).Perm infl ∧ kept.length = 4 ∧ ∀ e ∈ kept, dropped.2 ≤ e.2

theorem put_fifth (hlt : ∀ a b : F, lt a b = decide (a < b)) (h : F) (j : Nat) (l : List (Nat × F))
    (hl : l.length = 4) (w : F) : ∃ kept, VSkin.put h j ⟨4, l⟩ w = ⟨5, kept⟩ ∧
      FourLargest (l ++ [(j, w * h)]) kept := by
  unfold VSkin.put
  rw [if_neg (by simp)]
  rcases smallest_spec hlt l (w * h) none 0 with ⟨k, e, h1, h2, h3, h4⟩ | ⟨h1, h2⟩
  · rw [h1]
    refine ⟨_, rfl, e, set_perm _ _ _ _ (by simpa using h2), by simpa using hl, ?_⟩
    intro e' he'
    rcases List.mem_or_eq_of_mem_set he' with he' | rfl
    · exact h4 e' he'
    · exact h3.le
  · rw [h1]
    exact ⟨_, rfl, _, List.Perm.refl _, hl, h2⟩

theorem vertexRun_none (h : F) (o : Object F) (v : Nat) (gs : List (Int × List (VertexWeight F))) :
    ∀ j s, skinInfluences h o v j gs = [] → vertexRun h o v j gs s = s := by
  induction gs with
  | nil => intro j s _; rfl
  | cons g gs ih =>
    intro j s e
    simp only [skinInfluences, List.zipIdx_cons, List.flatMap_cons, List.append_eq_nil_iff,
      List.map_eq_nil_iff] at e
    rw [vertexRun, e.1]
    exact ih _ _ e.2

/-- The weights divided by their sum. -/
def normalisedSlots (l : List (Nat × F)) : List (Nat × F) :=
  l.map fun e => (e.1, e.2 / (l.map (·.2)).sum)

theorem norms_five (hlt : ∀ a b : F, lt a b = decide (a < b)) (l : List (Nat × F)) (hl : l.length = 4)
    (hpos : ∀ e ∈ l, 0 < e.2) (ws : List F) (hws : ws ≠ []) :
    ws.foldl (fun s _ => s.norm) (⟨5, l⟩ : VSkin F) = ⟨5, normalisedSlots l⟩ := by
  have hp : PosInv (⟨5, l⟩ : VSkin F) := ⟨hl, fun e he => (hpos e he).le,
    fun _ e he => hpos e (List.mem_of_getElem? he)⟩
  have h1 : (⟨5, l⟩ : VSkin F).norm = ⟨5, normalisedSlots l⟩ := by
    unfold VSkin.norm
    rw [if_pos (by simp), hlt, if_pos (by simpa using hp.sum_pos (by simp)), sum_eq]
    rfl
  have hq := norm_pos hlt _ hp
  rw [h1] at hq
  have h2 : (⟨5, normalisedSlots l⟩ : VSkin F).norm = ⟨5, normalisedSlots l⟩ := by
    unfold VSkin.norm
    rw [if_pos (by simp), hlt, if_pos (by rw [hq.2 (by simp)]; simp), hq.2 (by simp)]
    simp
  have h3 : ∀ ws : List F, ws.foldl (fun s _ => s.norm) (⟨5, normalisedSlots l⟩ : VSkin F) =
      (⟨5, normalisedSlots l⟩ : VSkin F) := by
    intro ws
    induction ws with
    | nil => rfl
    | cons w ws ih => rw [List.foldl_cons, h2, ih]
  cases ws with
  | nil => exact absurd rfl hws
  | cons w ws => rw [List.foldl_cons, h1, h3]

theorem vertexRun_five (hlt : ∀ a b : F, lt a b = decide (a < b)) (h : F) (hh : 0 < h) (o : Object F)
    (v : Nat) (gs : List (Int × List (VertexWeight F))) (hw : ∀ g ∈ gs, ∀ vw ∈ g.2, 0 < vw.weight) :
    ∀ j (l : List (Nat × F)), l.length ≤ 4 → (∀ e ∈ l, 0 < e.2) →
      l.length + (skinInfluences h o v j gs).length = 5 →
      ∃ kept, FourLargest (l ++ skinInfluences h o v j gs) kept ∧
        vertexRun h o v j gs ⟨l.length, slotsOf l⟩ = ⟨5, normalisedSlots kept⟩ := by
  induction gs with
  | nil => intro j l hl _ h5; simp [skinInfluences] at h5; omega
  | cons g gs ih =>
    intro j l hl hpos h5
    have hws : ∀ w ∈ groupWeights o v g.2, 0 < w := by
      intro w hm
      simp only [groupWeights, List.mem_map, List.mem_filter] at hm
      obtain ⟨vw, ⟨hm, _⟩, rfl⟩ := hm
      exact hw g (by simp) vw hm
    have e : skinInfluences h o v j (g :: gs) =
        (groupWeights o v g.2).map (fun w => (j, w * h)) ++ skinInfluences h o v (j + 1) gs := by
      simp [skinInfluences, List.zipIdx_cons]
    rw [e] at h5 ⊢
    simp only [List.length_append, List.length_map] at h5
    rw [vertexRun]
    by_cases h4 : l.length + (groupWeights o v g.2).length ≤ 4
    · rw [puts_few h j _ l h4, norms_few _ _ (by simpa using h4)]
      have := ih (fun g' hg' => hw g' (by simp [hg'])) (j + 1)
        (l ++ (groupWeights o v g.2).map fun w => (j, w * h)) (by simpa using h4) (by
          intro e he
          rcases List.mem_append.mp he with he | he
          · exact hpos e he
          · simp only [List.mem_map] at he
            obtain ⟨w, hw', rfl⟩ := he
            exact mul_pos (hws w hw') hh) (by simp; omega)
      simp only [List.length_append, List.length_map, List.append_assoc] at this
      exact this
    · have hrest : skinInfluences h o v (j + 1) gs = [] := by
        rw [← List.length_eq_zero_iff]; omega
      have hne : groupWeights o v g.2 ≠ [] := by
        intro e0; rw [e0] at h4; simp at h4; omega
      obtain ⟨ws, w, hwsw⟩ : ∃ ws w, groupWeights o v g.2 = ws ++ [w] :=
        ⟨_, _, (List.dropLast_append_getLast hne).symm⟩
      rw [vertexRun_none h o v gs _ _ hrest, hrest, List.append_nil]
      rw [hwsw] at hws h4 h5 hne ⊢
      simp only [List.length_append, List.length_cons, List.length_nil] at h4 h5
      rw [List.foldl_append (l := ws) (l' := [w]) (f := VSkin.put h j), puts_few h j ws l (by omega)]
      have hlen : (l ++ ws.map fun w => (j, w * h)).length = 4 := by simp; omega
      have hsl : slotsOf (l ++ ws.map fun w => (j, w * h)) = l ++ ws.map fun w => (j, w * h) := by
        unfold slotsOf
        rw [hlen]
        simp
      obtain ⟨kept, k1, k2⟩ := put_fifth hlt h j _ hlen w
      refine ⟨kept, by simpa using k2, ?_⟩
      rw [show l.length + ws.length = 4 by omega, hsl]
      simp only [List.foldl_cons, List.foldl_nil]
      rw [k1]
      obtain ⟨d, p1, p2, p3⟩ := k2
      refine norms_five hlt kept p2 ?_ _ (by simp)
      intro x hx
      have : x ∈ (l ++ ws.map fun w => (j, w * h)) ++ [(j, w * h)] := p1.subset (by simp [hx])
      simp only [List.mem_append, List.mem_map, List.mem_singleton] at this
      rcases this with (hx | ⟨w', hw', rfl⟩) | rfl
      · exact hpos x hx
      · exact mul_pos (hws w' (by simp [hw'])) hh
      · exact mul_pos (hws w (by simp)) hh

/-- C40, the part about the largest weights that holds: of five influences the smallest is dropped. -/
theorem getWeights_largest_partial (hlt : ∀ a b : F, lt a b = decide (a < b)) (h : F) (hh : 0 < h)
    (bones : List (Bone F)) (o : Object F) (idToJoint : List (Int × Nat)) (joints : List Nat)
    (skins : List (VSkin F)) (e : getWeights h bones o idToJoint = some (joints, skins))
    (hw : ∀ g ∈ skinGroups bones o, ∀ vw ∈ g.2, 0 < vw.weight)
    (v : Nat) (s : VSkin F) (hs : skins[v]? = some s)
    (hf : (skinInfluences h o v 0 (skinGroups bones o)).length = 5) :
    ∃ kept dropped, (kept ++ [dropped]).Perm (skinInfluences h o v 0 (skinGroups bones o)) ∧
      (∀ x ∈ kept, dropped.2 ≤ x.2) ∧
      s.slots = kept.map fun x => (x.1, x.2 / (kept.map (·.2)).sum) := by
  have hsv := getWeights_vertex h bones o idToJoint joints skins e v s hs
  obtain ⟨kept, ⟨d, p1, p2, p3⟩, k⟩ := vertexRun_five hlt h hh o v _ hw 0 [] (by simp) (by simp) (by simpa using hf)
  refine ⟨kept, d, by simpa using p1, p3, ?_⟩
  rw [hsv]
  have h0 : (⟨([] : List (Nat × F)).length, slotsOf []⟩ : VSkin F) = VSkin.empty := rfl
  rw [h0] at k
  rw [k]
  rfl

end

/-! ### Six influences -/

section
local instance : FloatOps ℚ := ⟨id, fun a b => decide (a < b), fun a b => decide (a ≤ b)⟩

def skinBone (id : Int) (ws : List ℚ) : Bone ℚ :=
  ⟨id, [], 0, 0, ⟨0, 0, 0⟩, 0, 0, 0, [], none, none, none,
    [⟨7, ws.zipIdx.map fun p => ⟨p.2 + 1, p.1⟩⟩], [], ⟨0, 0, 0⟩⟩

def skinObject : Object ℚ := ⟨7, [], [⟨0, 0, 0⟩, ⟨1, 0, 0⟩], [], true, false, 0, false, 0, 0, 0, 0, 0, 0,
  none, none, none, none, [], none⟩

/-- Six bones; vertex 0 has the weights 20, 20, 20, 20, 21 and 24, vertex 1 only one. -/
def skinBones : List (Bone ℚ) :=
  [skinBone 1 [20, 100], skinBone 2 [20], skinBone 3 [20], skinBone 4 [20], skinBone 5 [21], skinBone 6 [24]]

/-- C40 is false of the code: the weights are divided by their sum before the next bone is looked at, so
that of six influences the largest (24, joint 5) can be dropped while smaller ones (20) are kept. -/
theorem getWeights_largest_false :
    skinInfluences (1 / 100) skinObject 0 0 (skinGroups skinBones skinObject) =
      [(0, 1 / 5), (1, 1 / 5), (2, 1 / 5), (3, 1 / 5), (4, 21 / 100), (5, 24 / 100)] ∧
    ∃ joints skins, getWeights (1 / 100) skinBones skinObject [] = some (joints, skins) ∧
      (skins[0]?).map (·.slots) = some [(4, 7 / 27), (1, 20 / 81), (2, 20 / 81), (3, 20 / 81)] := by
  refine ⟨by decide +kernel, _, _, rfl, by decide +kernel⟩

/-- The hypotheses of the other theorems: five and fewer influences. -/
example : (∀ g ∈ skinGroups skinBones skinObject, ∀ vw ∈ g.2, 0 < vw.weight) ∧
    (∀ g ∈ skinGroups skinBones skinObject, ∀ vw ∈ g.2,
      0 ≤ skinObject.getVertexIndexByID vw.vertexID ∧
      skinObject.getVertexIndexByID vw.vertexID < skinObject.vertexes.length) ∧
    (skinInfluences (1 / 100) skinObject 0 0 (skinGroups (skinBones.take 5) skinObject)).length = 5 ∧
    (skinInfluences (1 / 100) skinObject 1 0 (skinGroups skinBones skinObject)).length ≤ 4 ∧
    ∀ a b : ℚ, lt a b = decide (a < b) := by
  refine ⟨by decide +kernel, by decide +kernel, by decide +kernel, by decide +kernel, fun _ _ => rfl⟩

example : (getWeights (1 / 100) (skinBones.take 5) skinObject []).map (·.2.map (·.slots)) =
    some [[(4, 7 / 27), (1, 20 / 81), (2, 20 / 81), (3, 20 / 81)], [(0, 1), (0, 0), (0, 0), (0, 0)]] := by
  decide +kernel

end

end Verif.Conv
