import Verif.Gltf.Joints
import Verif.Geom.MatProps
import Mathlib.Data.List.Nodup
import Mathlib.Tactic.Ring
import Mathlib.Tactic.LinearCombination

/-!
C47: `FixJointComponentType`; C49, C90: `ResetJointMatrix` (gltfutil/gltf_joint.go).
-/

namespace Verif.Gltf

open Verif.Geom

variable {F : Type}

/-! ### C49 -/

/-- Every child exists, no node is its own child, and every node has at most one parent. -/
structure Forest (l : List (JNode F)) : Prop where
  nodup : ∀ (i : Nat) (n : JNode F), l[i]? = some n → n.children.Nodup
  range : ∀ (i : Nat) (n : JNode F), l[i]? = some n → ∀ c ∈ n.children, c < l.length ∧ c ≠ i
  parent : ∀ (i j : Nat) (n m : JNode F), l[i]? = some n → l[j]? = some m → ∀ c ∈ n.children, c ∈ m.children → i = j

/-- The global position and rotation of node `i` (nodes without scale). -/
inductive World [Add F] [Sub F] [Mul F] [Neg F] (l : List (JNode F)) : Nat → Vec3 F → Vec4 F → Prop
  | root (i : Nat) (n : JNode F) : l[i]? = some n → (∀ (j : Nat) (m : JNode F), l[j]? = some m → i ∉ m.children) →
      World l i n.trans n.rot
  | child (p i : Nat) (m n : JNode F) (t : Vec3 F) (r : Vec4 F) : l[p]? = some m → i ∈ m.children → World l p t r →
      l[i]? = some n → World l i (t.add (r.applyTo n.trans)) (r.mul n.rot)

/-- Same children and skins. -/
def SameTree (l l' : List (JNode F)) : Prop :=
  ∀ j : Nat, (l'[j]?).map (fun n => (n.children, n.hasSkin)) = (l[j]?).map (fun n => (n.children, n.hasSkin))

theorem SameTree.length {l l' : List (JNode F)} (h : SameTree l l') : l'.length = l.length := by
  apply Nat.le_antisymm
  · by_contra hc
    have := h l.length
    rw [List.getElem?_eq_none (Nat.le_refl _), List.getElem?_eq_getElem (by omega)] at this
    simp at this
  · by_contra hc
    have := h l'.length
    rw [List.getElem?_eq_none (Nat.le_refl _), List.getElem?_eq_getElem (by omega)] at this
    simp at this

theorem SameTree.get {l l' : List (JNode F)} (h : SameTree l l') {j : Nat} {n' : JNode F} (hn : l'[j]? = some n') :
    ∃ n, l[j]? = some n ∧ n.children = n'.children ∧ n.hasSkin = n'.hasSkin := by
  have := h j
  rw [hn, Option.map_some] at this
  obtain ⟨n, h1, h2⟩ := Option.map_eq_some_iff.mp this.symm
  simp only [Prod.mk.injEq] at h2
  exact ⟨n, h1, h2.1, h2.2⟩

theorem SameTree.symm {l l' : List (JNode F)} (h : SameTree l l') : SameTree l' l := fun j => (h j).symm

theorem SameTree.forest {l l' : List (JNode F)} (h : SameTree l l') (hf : Forest l) : Forest l' := by
  refine ⟨?_, ?_, ?_⟩
  · intro i n hn
    obtain ⟨n0, h1, h2, _⟩ := h.get hn
    rw [← h2]
    exact hf.nodup i n0 h1
  · intro i n hn c hc
    obtain ⟨n0, h1, h2, _⟩ := h.get hn
    rw [← h2] at hc
    rw [h.length]
    exact hf.range i n0 h1 c hc
  · intro i j n m hn hm c hc hc'
    obtain ⟨n0, h1, h2, _⟩ := h.get hn
    obtain ⟨m0, h3, h4, _⟩ := h.get hm
    rw [← h2] at hc
    rw [← h4] at hc'
    exact hf.parent i j n0 m0 h1 h3 c hc hc'

section

variable [CommRing F]

theorem turnChild_eq (a : Vec4 F) (c : JNode F) :
    turnChild a c = { c with trans := a.applyTo c.trans, rot := a.mul c.rot } := by
  simp only [turnChild, JNode.mk.injEq, and_self, and_true]
  ext <;> simp only [Vec4.mul, Vec4.inverse, Vec4.applyTo] <;> ring

theorem turnChildren_spec (a : Vec4 F) (cs : List Nat) : ∀ l : List (JNode F), cs.Nodup → (∀ c ∈ cs, c < l.length) →
    ∃ l', turnChildren a cs l = some l' ∧
      ∀ j : Nat, l'[j]? = if j ∈ cs then (l[j]?).map (turnChild a) else l[j]? := by
  induction cs with
  | nil => intro l _ _; exact ⟨l, rfl, by simp⟩
  | cons c cs ih =>
    intro l hn hr
    rw [List.nodup_cons] at hn
    obtain ⟨l', e, h⟩ := ih (l.modify c (turnChild a)) hn.2 (by
      intro c' hc'
      rw [List.length_modify]
      exact hr c' (by simp [hc']))
    refine ⟨l', by rw [turnChildren, if_pos (hr c (by simp))]; exact e, ?_⟩
    intro j
    rw [h j, List.getElem?_modify]
    by_cases hjc : c = j
    · subst hjc
      simp [hn.1]
    · by_cases hj : j ∈ cs
      · simp [hj, hjc]
      · simp [hj, hjc, Ne.symm hjc]

variable [DecidableEq F]

theorem resetNode_spec (l : List (JNode F)) (hf : Forest l) (i : Nat) :
    ∃ l' b, resetNode l i = some (l', b) ∧ SameTree l l' ∧
      ((b = false ∧ l' = l ∧ ∀ n, l[i]? = some n → n.rot = noRot ∨ n.hasSkin = true) ∨
        (b = true ∧ ∃ n, l[i]? = some n ∧ n.hasSkin = false ∧ ∀ j : Nat, l'[j]? =
          if j = i then some { n with rot := noRot }
          else if j ∈ n.children then (l[j]?).map (turnChild n.rot) else l[j]?)) := by
  unfold resetNode
  cases hn : l[i]? with
  | none => exact ⟨l, false, rfl, fun _ => rfl, .inl ⟨rfl, rfl, by simp⟩⟩
  | some n =>
    simp only
    by_cases hc : n.rot = noRot ∨ n.hasSkin = true
    · rw [if_pos hc]
      exact ⟨l, false, rfl, fun _ => rfl, .inl ⟨rfl, rfl, by simpa using hc⟩⟩
    · rw [if_neg hc]
      have hil : i < l.length := (List.getElem?_eq_some_iff.mp hn).1
      obtain ⟨l', e, h⟩ := turnChildren_spec n.rot n.children (l.set i { n with rot := noRot }) (hf.nodup i n hn) (by
        intro c hc'
        rw [List.length_set]
        exact (hf.range i n hn c hc').1)
      rw [e]
      have hj : ∀ j : Nat, l'[j]? = if j = i then some { n with rot := noRot }
          else if j ∈ n.children then (l[j]?).map (turnChild n.rot) else l[j]? := by
        intro j
        rw [h j]
        by_cases hji : j = i
        · subst hji
          have : j ∉ n.children := fun hm => (hf.range j n hn j hm).2 rfl
          rw [if_neg this, if_pos rfl, List.getElem?_set_self hil]
        · rw [if_neg hji, List.getElem?_set_ne (Ne.symm hji)]
      refine ⟨l', true, rfl, ?_, .inr ⟨rfl, n, rfl, ?_, hj⟩⟩
      · intro j
        rw [hj j]
        by_cases hji : j = i
        · subst hji
          rw [if_pos rfl, hn]
          rfl
        · rw [if_neg hji]
          split
          · rw [Option.map_map]
            congr 1
          · rfl
      · simp only [not_or, Bool.not_eq_true] at hc
        exact hc.2

theorem noRot_mul (q : Vec4 F) : (noRot : Vec4 F).mul q = q ∧ q.mul noRot = q := by
  constructor <;> ext <;> simp [noRot, Vec4.mul]

/-- One step keeps all positions, and all rotations except that of the node itself. -/
theorem resetNode_world (l l' : List (JNode F)) (hf : Forest l) (k : Nat) (n : JNode F) (hn : l[k]? = some n)
    (hs : SameTree l l')
    (h : ∀ j : Nat, l'[j]? = if j = k then some { n with rot := noRot }
          else if j ∈ n.children then (l[j]?).map (turnChild n.rot) else l[j]?)
    (i : Nat) (t : Vec3 F) (r : Vec4 F) (hw : World l i t r) :
    ∃ r', World l' i t r' ∧ (i ≠ k → r' = r) ∧ (i = k → r'.mul n.rot = r) := by
  induction hw with
  | root i m hm hroot =>
    have hnc : i ∉ n.children := hroot k n hn
    have hroot' : ∀ (j : Nat) (m : JNode F), l'[j]? = some m → i ∉ m.children := by
      intro j m' hm'
      obtain ⟨m0, h1, h2, _⟩ := hs.get hm'
      rw [← h2]
      exact hroot j m0 h1
    have hi := h i
    by_cases hik : i = k
    · subst hik
      rw [if_pos rfl] at hi
      rw [hn] at hm
      have := Option.some.inj hm
      subst this
      exact ⟨noRot, World.root i _ hi hroot', fun h => absurd rfl h, fun _ => (noRot_mul _).1⟩
    · rw [if_neg hik, if_neg hnc, hm] at hi
      exact ⟨m.rot, World.root i _ hi hroot', fun _ => rfl, fun h => absurd h hik⟩
  | child p i m q t r hp hc hwp hq ih =>
    obtain ⟨r', h1, h2, h3⟩ := ih
    -- the parent in the new list
    have hp' : ∃ m', l'[p]? = some m' ∧ i ∈ m'.children := by
      have hpl : p < l'.length := by rw [hs.length]; exact (List.getElem?_eq_some_iff.mp hp).1
      have e := List.getElem?_eq_getElem hpl
      obtain ⟨m0, g1, g2, _⟩ := hs.get e
      rw [hp] at g1
      have := Option.some.inj g1
      subst this
      exact ⟨_, e, by rw [← g2]; exact hc⟩
    obtain ⟨m', hm', hc'⟩ := hp'
    have hi := h i
    by_cases hpk : p = k
    · subst hpk
      rw [hn] at hp
      have := Option.some.inj hp
      subst this
      have hik : i ≠ p := (hf.range p n hn i hc).2
      rw [if_neg hik, if_pos hc, hq, Option.map_some, turnChild_eq] at hi
      have hw' := World.child p i m' _ t r' hm' hc' h1 hi
      have hr := h3 rfl
      simp only at hw'
      rw [← quat_mul_applyTo, ← quat_mul_assoc, hr] at hw'
      exact ⟨_, hw', fun _ => rfl, fun h => absurd h hik⟩
    · have hr := h2 hpk
      subst hr
      have hnc : i ∉ n.children := fun hx => hpk (hf.parent p k m n hp hn i hc hx)
      by_cases hik : i = k
      · subst hik
        rw [if_pos rfl] at hi
        rw [hn] at hq
        have := Option.some.inj hq
        subst this
        have hw' := World.child p i m' _ t r' hm' hc' h1 hi
        simp only [(noRot_mul r').2] at hw'
        exact ⟨_, hw', fun h => absurd rfl h, fun _ => rfl⟩
      · rw [if_neg hik, if_neg hnc, hq] at hi
        exact ⟨_, World.child p i m' _ t r' hm' hc' h1 hi, fun _ => rfl, fun h => absurd h hik⟩

/-- Positions are kept, and rotations of nodes with a skin. -/
def WorldKept (l l' : List (JNode F)) : Prop :=
  ∀ i t r, World l i t r → ∃ r', World l' i t r' ∧ ((∃ n, l[i]? = some n ∧ n.hasSkin = true) → r' = r)

omit [DecidableEq F] in
theorem WorldKept.trans {a b c : List (JNode F)} (hs : SameTree a b) (h1 : WorldKept a b) (h2 : WorldKept b c) :
    WorldKept a c := by
  intro i t r hw
  obtain ⟨r1, w1, s1⟩ := h1 i t r hw
  obtain ⟨r2, w2, s2⟩ := h2 i t r1 w1
  refine ⟨r2, w2, ?_⟩
  rintro ⟨n, hn, hskin⟩
  obtain ⟨n', g1, _, g3⟩ := hs.symm.get hn
  rw [s2 ⟨n', g1, g3.trans hskin⟩, s1 ⟨n, hn, hskin⟩]

omit [DecidableEq F] in
theorem SameTree.trans {a b c : List (JNode F)} (h1 : SameTree a b) (h2 : SameTree b c) : SameTree a c :=
  fun j => (h2 j).trans (h1 j)

theorem resetNode_kept (l : List (JNode F)) (hf : Forest l) (i : Nat) :
    ∃ l' b, resetNode l i = some (l', b) ∧ SameTree l l' ∧ WorldKept l l' := by
  obtain ⟨l', b, e, hs, h⟩ := resetNode_spec l hf i
  refine ⟨l', b, e, hs, ?_⟩
  rcases h with ⟨_, rfl, _⟩ | ⟨_, n, hn, hskin, hj⟩
  · exact fun i t r hw => ⟨r, hw, fun _ => rfl⟩
  · intro j t r hw
    obtain ⟨r', h1, h2, _⟩ := resetNode_world l l' hf i n hn hs hj j t r hw
    refine ⟨r', h1, ?_⟩
    rintro ⟨m, hm, hms⟩
    apply h2
    rintro rfl
    rw [hn] at hm
    have := Option.some.inj hm
    subst this
    rw [hskin] at hms
    simp at hms

theorem resetPass_kept (is : List Nat) : ∀ (l : List (JNode F)) (fixed : Bool), Forest l →
    ∃ l' b, resetPass is l fixed = some (l', b) ∧ SameTree l l' ∧ WorldKept l l' := by
  induction is with
  | nil => intro l fixed _; exact ⟨l, fixed, rfl, fun _ => rfl, fun i t r hw => ⟨r, hw, fun _ => rfl⟩⟩
  | cons i is ih =>
    intro l fixed hf
    obtain ⟨l1, b1, e1, s1, k1⟩ := resetNode_kept l hf i
    obtain ⟨l2, b2, e2, s2, k2⟩ := ih l1 (fixed || b1) (s1.forest hf)
    exact ⟨l2, b2, by rw [resetPass, e1]; exact e2, s1.trans s2, WorldKept.trans s1 k1 k2⟩

theorem resetPasses_kept (k : Nat) : ∀ l : List (JNode F), Forest l →
    ∃ l', resetPasses k l = some l' ∧ SameTree l l' ∧ WorldKept l l' := by
  induction k with
  | zero => intro l _; exact ⟨l, rfl, fun _ => rfl, fun i t r hw => ⟨r, hw, fun _ => rfl⟩⟩
  | succ k ih =>
    intro l hf
    obtain ⟨l1, b1, e1, s1, k1⟩ := resetPass_kept (List.range l.length) l false hf
    rw [resetPasses, e1]
    simp only
    split
    · obtain ⟨l2, e2, s2, k2⟩ := ih l1 (s1.forest hf)
      exact ⟨l2, e2, s1.trans s2, WorldKept.trans s1 k1 k2⟩
    · exact ⟨l1, rfl, s1, k1⟩

/-- C49: for every forest of nodes (in any order) resetting succeeds, keeps the tree, keeps the global
position of every node, and keeps the global rotation of nodes with a skin. -/
theorem resetNodes_positions (l : List (JNode F)) (hf : Forest l) :
    ∃ l', resetNodes l = some l' ∧ l'.length = l.length ∧
      (∀ (i : Nat) (n' : JNode F), l'[i]? = some n' → ∃ n, l[i]? = some n ∧ n.children = n'.children ∧
        n.hasSkin = n'.hasSkin) ∧
      ∀ i t r, World l i t r → ∃ r', World l' i t r' ∧ ((∃ n, l[i]? = some n ∧ n.hasSkin = true) → r' = r) := by
  obtain ⟨l', e, hs, hk⟩ := resetPasses_kept 10 l hf
  exact ⟨l', e, hs.length, fun i n' h => hs.get h, hk⟩

/-- Parents before children. -/
def ParentsFirst (l : List (JNode F)) : Prop :=
  ∀ (i : Nat) (n : JNode F), l[i]? = some n → ∀ c ∈ n.children, i < c

theorem resetPass_rot (m : Nat) : ∀ (k : Nat) (l : List (JNode F)) (fixed : Bool), Forest l → ParentsFirst l →
    k + m = l.length →
    (∀ (j : Nat) (n : JNode F), j < k → l[j]? = some n → n.hasSkin = false → n.rot = noRot) →
    ∃ l' b, resetPass (List.range' k m) l fixed = some (l', b) ∧
      ∀ (j : Nat) (n : JNode F), l'[j]? = some n → n.hasSkin = false → n.rot = noRot := by
  induction m with
  | zero =>
    intro k l fixed _ _ hk h
    refine ⟨l, fixed, rfl, ?_⟩
    intro j n hn hsk
    exact h j n (by have := (List.getElem?_eq_some_iff.mp hn).1; omega) hn hsk
  | succ m ih =>
    intro k l fixed hf hp hk h
    obtain ⟨l1, b1, e1, s1, hor⟩ := resetNode_spec l hf k
    have hp1 : ParentsFirst l1 := by
      intro i n hn c hc
      obtain ⟨n0, g1, g2, _⟩ := s1.get hn
      exact hp i n0 g1 c (by rw [g2]; exact hc)
    obtain ⟨l2, b2, e2, h2⟩ := ih (k + 1) l1 (fixed || b1) (s1.forest hf) hp1 (by rw [s1.length]; omega) (by
      intro j n hj hn hsk
      rcases hor with ⟨_, rfl, hsame⟩ | ⟨_, q, hq, _, hall⟩
      · by_cases hjk : j = k
        · subst hjk
          rcases hsame n hn with h | h
          · exact h
          · rw [hsk] at h; simp at h
        · exact h j n (by omega) hn hsk
      · rw [hall j] at hn
        split at hn
        · have := Option.some.inj hn
          subst this
          rfl
        · rename_i hjk
          split at hn
          · rename_i hc
            have := hp k q hq j hc
            omega
          · exact h j n (by omega) hn hsk)
    refine ⟨l2, b2, ?_, h2⟩
    rw [List.range'_succ, resetPass, e1]
    exact e2

theorem resetPass_idle (is : List Nat) (l : List (JNode F)) (fixed : Bool)
    (h : ∀ (j : Nat) (n : JNode F), l[j]? = some n → n.hasSkin = false → n.rot = noRot) :
    resetPass is l fixed = some (l, fixed) := by
  induction is generalizing fixed with
  | nil => rfl
  | cons i is ih =>
    have : resetNode l i = some (l, false) := by
      unfold resetNode
      cases hn : l[i]? with
      | none => rfl
      | some n =>
        simp only
        rw [if_pos]
        cases hs : n.hasSkin with
        | false => exact .inl (h i n hn hs)
        | true => exact .inr rfl
    rw [resetPass, this]
    simpa using ih fixed

/-- C90: if parents come before their children, no node without a skin has a rotation afterwards. -/
theorem resetNodes_rotations (l : List (JNode F)) (hf : Forest l) (hp : ParentsFirst l) :
    ∃ l', resetNodes l = some l' ∧
      ∀ (j : Nat) (n : JNode F), l'[j]? = some n → n.hasSkin = false → n.rot = noRot := by
  obtain ⟨l1, b1, e1, h1⟩ := resetPass_rot l.length 0 l false hf hp (by simp) (by simp)
  rw [← List.range_eq_range'] at e1
  unfold resetNodes
  rw [resetPasses, e1]
  simp only
  split
  · refine ⟨l1, ?_, h1⟩
    rw [resetPasses, resetPass_idle _ _ _ h1]
    simp
  · exact ⟨l1, rfl, h1⟩

/-- C90: the new inverse bind matrix of a joint at `t` with unit rotation `r` is the inverse of moving to `t`. -/
theorem resetBind_spec (m : Mat4 F) (t : Vec3 F) (r : Vec4 F) (hr : r.Unit)
    (h : ∀ v, t.add (r.applyTo (m.applyTo v)) = v) (v : Vec3 F) : t.add ((resetBind m).applyTo v) = v := by
  have hri : r.inverse.Unit := by
    simp only [Vec4.Unit, Vec4.lenSqr, Vec4.inverse] at hr ⊢
    linear_combination hr
  -- the matrix is the rotation back
  have hm : ∀ v, m.applyTo v = r.inverse.applyTo (v.sub t) := by
    intro v
    have h1 : r.applyTo (m.applyTo v) = v.sub t := by
      have := h v
      generalize r.applyTo (m.applyTo v) = w at this
      rw [← this]
      ext <;> simp [Vec3.add, Vec3.sub]
    rw [← h1, (quat_inverse r hr).2.2]
  have hcol : ∀ e : Vec3 F, ((m.applyTo e).sub (m.applyTo ⟨0, 0, 0⟩)).dot (m.applyTo ⟨0, 0, 0⟩) = -(e.dot t) := by
    intro e
    have e1 : (m.applyTo e).sub (m.applyTo ⟨0, 0, 0⟩) = r.inverse.applyTo e := by
      rw [hm, hm]
      ext <;> simp only [Vec4.applyTo, Vec3.sub] <;> ring
    rw [e1, hm, quat_dot _ hri]
    simp only [Vec3.dot, Vec3.sub]
    ring
  have c0 := hcol ⟨1, 0, 0⟩
  have c1 := hcol ⟨0, 1, 0⟩
  have c2 := hcol ⟨0, 0, 1⟩
  simp only [Mat4.applyTo, Vec3.dot, Vec3.sub, mul_one, mul_zero, add_zero, zero_add, one_mul, zero_mul] at c0 c1 c2
  ext <;> simp only [Vec3.add, resetBind, Mat4.applyTo]
  · linear_combination c0
  · linear_combination c1
  · linear_combination c2

/-- The rotation of a node is none if none of its ancestors has one. -/
theorem world_noRot (l : List (JNode F)) (h : ∀ (j : Nat) (n : JNode F), l[j]? = some n → n.hasSkin = false → n.rot = noRot)
    (hs : ∀ (j : Nat) (n : JNode F), l[j]? = some n → n.hasSkin = true → n.children = [])
    (i : Nat) (t : Vec3 F) (r : Vec4 F) (hw : World l i t r) :
    ∀ n, l[i]? = some n → n.hasSkin = false → r = noRot := by
  induction hw with
  | root i m hm _ =>
    intro n hn hsk
    rw [hm] at hn
    have := Option.some.inj hn
    subst this
    exact h i m hm hsk
  | child p i m q t r hp hc hwp hq ih =>
    intro n hn hsk
    rw [hq] at hn
    have := Option.some.inj hn
    subst this
    have hms : m.hasSkin = false := by
      cases e : m.hasSkin with
      | false => rfl
      | true => rw [hs p m hp e] at hc; simp at hc
    rw [ih m hp hms, h i q hq hsk]
    exact (noRot_mul _).1

/-- C90: a skin at rest stays at rest. If a joint's inverse bind matrix undoes its global position and
rotation, the new matrix undoes the new ones. -/
theorem reset_bind_pose (l : List (JNode F)) (hf : Forest l) (hp : ParentsFirst l)
    (hs : ∀ (j : Nat) (n : JNode F), l[j]? = some n → n.hasSkin = true → n.children = [])
    (i : Nat) (n : JNode F) (hi : l[i]? = some n) (hsk : n.hasSkin = false)
    (t : Vec3 F) (r : Vec4 F) (hw : World l i t r) (hr : r.Unit) (m : Mat4 F)
    (hm : ∀ v, t.add (r.applyTo (m.applyTo v)) = v) :
    ∃ l' t' r', resetNodes l = some l' ∧ World l' i t' r' ∧
      ∀ v, t'.add (r'.applyTo ((resetBind m).applyTo v)) = v := by
  obtain ⟨l', e, hs', hk⟩ := resetPasses_kept 10 l hf
  obtain ⟨l2, e2, hrot⟩ := resetNodes_rotations l hf hp
  have : l2 = l' := by
    unfold resetNodes at e2
    rw [e] at e2
    exact (Option.some.inj e2).symm
  subst this
  obtain ⟨r', hw', _⟩ := hk i t r hw
  refine ⟨l2, t, r', e, hw', ?_⟩
  have hil : i < l2.length := by rw [hs'.length]; exact (List.getElem?_eq_some_iff.mp hi).1
  have hget := List.getElem?_eq_getElem hil
  obtain ⟨n0, g1, g2, g3⟩ := hs'.get hget
  rw [hi] at g1
  have := Option.some.inj g1
  subst this
  have hr' := world_noRot l2 hrot (by
    intro j m' hj hsm
    obtain ⟨m0, k1, k2, k3⟩ := hs'.get hj
    rw [← k2]
    exact hs j m0 k1 (k3.trans hsm)) i t r' hw' _ hget (g3.symm.trans hsk)
  intro v
  rw [hr']
  have : ∀ w : Vec3 F, (noRot : Vec4 F).applyTo w = w := by
    intro w
    ext <;> simp [noRot, Vec4.applyTo]
  rw [this]
  exact resetBind_spec m t r hr hm v

/-- C91 is false of the code: a point `p` of a mesh attached to a node without skin is at `t + r·p` before,
but at `t + p` afterwards. -/
theorem reset_unskinned_mesh_false (l : List (JNode F)) (hf : Forest l) (hp : ParentsFirst l)
    (hs : ∀ (j : Nat) (n : JNode F), l[j]? = some n → n.hasSkin = true → n.children = [])
    (i : Nat) (n : JNode F) (hi : l[i]? = some n) (hsk : n.hasSkin = false)
    (t : Vec3 F) (r : Vec4 F) (hw : World l i t r) :
    ∃ l' r', resetNodes l = some l' ∧ World l' i t r' ∧ ∀ p, t.add (r'.applyTo p) = t.add p := by
  obtain ⟨l', e, hs', hk⟩ := resetPasses_kept 10 l hf
  obtain ⟨l2, e2, hrot⟩ := resetNodes_rotations l hf hp
  have : l2 = l' := by
    unfold resetNodes at e2
    rw [e] at e2
    exact (Option.some.inj e2).symm
  subst this
  obtain ⟨r', hw', _⟩ := hk i t r hw
  refine ⟨l2, r', e, hw', ?_⟩
  have hil : i < l2.length := by rw [hs'.length]; exact (List.getElem?_eq_some_iff.mp hi).1
  have hget := List.getElem?_eq_getElem hil
  obtain ⟨n0, g1, g2, g3⟩ := hs'.get hget
  rw [hi] at g1
  have := Option.some.inj g1
  subst this
  have hr' := world_noRot l2 hrot (by
    intro j m' hj hsm
    obtain ⟨m0, k1, k2, k3⟩ := hs'.get hj
    rw [← k2]
    exact hs j m0 k1 (k3.trans hsm)) i t r' hw' _ hget (g3.symm.trans hsk)
  intro v
  rw [hr']
  congr 1
  ext <;> simp [noRot, Vec4.applyTo]

end

/-- A chain of three nodes with rotations, and a mesh node. -/
def chain3 : List (JNode Int) :=
  [⟨⟨1, 0, 0⟩, ⟨0, 0, 1, 0⟩, false, [1]⟩, ⟨⟨0, 1, 0⟩, ⟨1, 0, 0, 0⟩, false, [2]⟩, ⟨⟨0, 0, 1⟩, ⟨0, 0, 0, 1⟩, false, []⟩,
   ⟨⟨5, 5, 5⟩, ⟨0, 1, 0, 0⟩, true, []⟩]

example : resetNodes chain3 = some
    [⟨⟨1, 0, 0⟩, ⟨0, 0, 0, 1⟩, false, [1]⟩, ⟨⟨0, -1, 0⟩, ⟨0, 0, 0, 1⟩, false, [2]⟩,
     ⟨⟨0, 0, -1⟩, ⟨0, 0, 0, 1⟩, false, []⟩, ⟨⟨5, 5, 5⟩, ⟨0, 1, 0, 0⟩, true, []⟩] := by decide

theorem chain3_get (i : Nat) (n : JNode Int) (h : chain3[i]? = some n) :
    (i = 0 ∧ n.children = [1] ∧ n.hasSkin = false) ∨ (i = 1 ∧ n.children = [2] ∧ n.hasSkin = false) ∨
      n.children = [] := by
  match i, h with
  | 0, h => left; have := Option.some.inj h; subst this; exact ⟨rfl, rfl, rfl⟩
  | 1, h => right; left; have := Option.some.inj h; subst this; exact ⟨rfl, rfl, rfl⟩
  | 2, h => right; right; have := Option.some.inj h; subst this; rfl
  | 3, h => right; right; have := Option.some.inj h; subst this; rfl
  | (k + 4), h => simp [chain3] at h

example : Forest chain3 ∧ ParentsFirst chain3 ∧
    (∀ (j : Nat) (n : JNode Int), chain3[j]? = some n → n.hasSkin = true → n.children = []) ∧
    World chain3 2 ((⟨1, -1, 0⟩ : Vec3 Int).add ⟨0, 0, -1⟩) ⟨0, 1, 0, 0⟩ := by
  refine ⟨⟨?_, ?_, ?_⟩, ?_, ?_, ?_⟩
  · intro i n h
    rcases chain3_get i n h with ⟨_, h, _⟩ | ⟨_, h, _⟩ | h <;> simp [h]
  · intro i n h c hc
    rcases chain3_get i n h with ⟨e, h, _⟩ | ⟨e, h, _⟩ | h <;> simp [h] at hc <;> subst hc e <;> decide
  · intro i j n m hn hm c hc hc'
    rcases chain3_get i n hn with ⟨e, h, _⟩ | ⟨e, h, _⟩ | h <;> simp [h] at hc <;>
    rcases chain3_get j m hm with ⟨e', h', _⟩ | ⟨e', h', _⟩ | h' <;> simp [h'] at hc' <;> omega
  · intro i n h c hc
    rcases chain3_get i n h with ⟨e, h, _⟩ | ⟨e, h, _⟩ | h <;> simp [h] at hc <;> omega
  · intro i n h hs
    rcases chain3_get i n h with ⟨_, _, h⟩ | ⟨_, _, h⟩ | h
    · simp [h] at hs
    · simp [h] at hs
    · exact h
  · have h0 : World chain3 0 ⟨1, 0, 0⟩ ⟨0, 0, 1, 0⟩ := World.root 0 _ rfl (by
      intro j m hm hc
      rcases chain3_get j m hm with ⟨_, h, _⟩ | ⟨_, h, _⟩ | h <;> simp [h] at hc)
    have h1 := World.child 0 1 _ _ _ _ rfl (by simp [chain3]) h0 rfl
    exact World.child 1 2 _ _ _ _ rfl (by simp [chain3]) h1 rfl

/-- The last child of a chain of twelve nodes listed children first keeps a rotation: ten passes are not
enough. -/
theorem resetNodes_rotations_false :
    ((resetNodes (F := Int) ((List.range 12).map fun i =>
      ⟨⟨0, 0, 0⟩, if i = 11 then ⟨0, 0, 1, 0⟩ else ⟨0, 0, 0, 1⟩, false, if i = 0 then [] else [i - 1]⟩)).map
      fun l => (l.map (·.rot)).take 3) = some [⟨0, 0, 0, 1⟩, ⟨0, 0, 1, 0⟩, ⟨0, 0, 0, 1⟩] := by
  decide +kernel

end Verif.Gltf
