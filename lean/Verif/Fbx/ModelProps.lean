import Verif.Fbx.Model

/-!
C35: world matrices. C73: connecting models. C74: changing a model after reading its matrix.
-/

namespace Verif.Fbx

open Verif.Geom Real

/-- `path` leads from a root to `m` along the parent links: the list is nearest first, so it starts
with `m` and ends with the root. -/
inductive Chain (h : Heap) : Nat → List Nat → Prop
  | root {m : Nat} : (h m).parent = none → Chain h m [m]
  | step {m p : Nat} {l : List Nat} : (h m).parent = some p → Chain h p l → Chain h m (m :: l)

/-- Each cached matrix is the current one. -/
def Fresh (h : Heap) : Prop := ∀ m c, (h m).cached = some c → c = localMatrix (h m)

/-- Same models except for what is cached. -/
def SameButCache (h h' : Heap) : Prop :=
  ∀ m, { h' m with cached := (h m).cached } = h m

theorem SameButCache.local {h h' : Heap} (e : SameButCache h h') (m : Nat) :
    localMatrix (h' m) = localMatrix (h m) := by
  rw [← e m]; rfl

theorem SameButCache.parent {h h' : Heap} (e : SameButCache h h') (m : Nat) :
    (h' m).parent = (h m).parent := by
  rw [← e m]

theorem SameButCache.trans {h h' h'' : Heap} (e : SameButCache h h') (e' : SameButCache h' h'') :
    SameButCache h h'' := by
  intro m
  have h1 := e m
  have h2 := e' m
  rw [← h2] at h1
  exact h1

theorem getMatrix_spec (h : Heap) (m : Nat) (hf : Fresh h) :
    (getMatrix h m).1 = localMatrix (h m) ∧ Fresh (getMatrix h m).2 ∧
      SameButCache h (getMatrix h m).2 := by
  unfold getMatrix
  split
  · rename_i c hc
    exact ⟨hf m c hc, hf, fun _ => rfl⟩
  · rename_i hc
    refine ⟨rfl, ?_, ?_⟩
    · intro k c hk
      unfold updateMatrix at hk ⊢
      by_cases hkm : k = m
      · subst hkm
        simp only [Function.update_self, Option.some.injEq] at hk ⊢
        rw [← hk]; rfl
      · simp only [Function.update, hkm, dite_false] at hk ⊢
        exact hf k c hk
    · intro k
      unfold updateMatrix
      by_cases hkm : k = m
      · subst hkm; simp
      · simp [Function.update, hkm]

theorem getWorldMatrix_spec {h : Heap} {m : Nat} {l : List Nat} (hc : Chain h m l) :
    ∀ (fuel : Nat), l.length ≤ fuel → Fresh h →
    ∃ h', getWorldMatrix fuel h m =
      some (l.foldr (fun k w => w.mul (localMatrix (h k))) Mat4.one, h') ∧
      Fresh h' ∧ SameButCache h h' := by
  induction hc with
  | @root m hp =>
    intro fuel hl hf
    match fuel, hl with
    | f + 1, _ =>
      obtain ⟨h1, h2, h3⟩ := getMatrix_spec h m hf
      refine ⟨(getMatrix h m).2, ?_, h2, h3⟩
      simp only [getWorldMatrix, hp, List.foldr_cons, List.foldr_nil]
      rw [(mul_monoid (localMatrix (h m)) Mat4.one Mat4.one).2.1, ← h1]
  | @step m p l hp hc ih =>
    intro fuel hl hf
    match fuel, hl with
    | f + 1, hl =>
      obtain ⟨h', hw, hf', hs⟩ := ih f (by simpa using hl) hf
      obtain ⟨h1, h2, h3⟩ := getMatrix_spec h' m hf'
      refine ⟨(getMatrix h' m).2, ?_, h2, hs.trans h3⟩
      simp only [getWorldMatrix, hp, hw, Option.map_some, List.foldr_cons, h1, hs.local]

/-- C35. On a finite parent chain `GetWorldMatrix` ends, and its result is the product of the local
matrices from the root (left) to the model (right); reading it changes nothing but the caches. -/
theorem worldMatrix_product (h : Heap) (m : Nat) (l : List Nat) (hc : Chain h m l) (hf : Fresh h)
    (fuel : Nat) (hl : l.length ≤ fuel) :
    ∃ h', getWorldMatrix fuel h m =
      some ((l.reverse.map fun k => localMatrix (h k)).foldl Mat4.mul Mat4.one, h') ∧
      Fresh h' ∧ SameButCache h h' := by
  obtain ⟨h', hw, h1, h2⟩ := getWorldMatrix_spec hc fuel hl hf
  refine ⟨h', ?_, h1, h2⟩
  rw [hw, List.foldl_map, List.foldl_reverse]

theorem localMatrix_affine (m : ModelData) : (localMatrix m).Affine := by
  unfold localMatrix
  refine affine_mul _ _ (affine_mul _ _ (affine_mul _ _ ?_ ?_) ?_) ?_ <;>
    simp [Mat4.Affine, Mat4.translation, Mat4.rotation, Mat4.scaling]

/-- C35: a local matrix scales, rotates by `Lcl Rotation`, rotates by `PreRotation` and then moves
a point, in this order. -/
theorem localMatrix_applyTo (m : ModelData) (v : Vec3 ℝ) :
    (localMatrix m).applyTo v =
      m.translation.add ((eulerToQuat (m.preRotation.scale (π / 180)) .zyx).applyTo
        ((eulerToQuat (m.rotation.scale (π / 180)) .zyx).applyTo
          ⟨m.scaling.x * v.x, m.scaling.y * v.y, m.scaling.z * v.z⟩)) := by
  have hS : (Mat4.scaling m.scaling.x m.scaling.y m.scaling.z).Affine := by
    simp [Mat4.Affine, Mat4.scaling]
  have hR : ∀ q : Vec4 ℝ, (Mat4.rotation q).Affine := by
    intro q; simp [Mat4.Affine, Mat4.rotation]
  unfold localMatrix
  simp only
  rw [applyTo_mul _ _ hS, applyTo_mul _ _ (hR _), applyTo_mul _ _ (hR _),
    quat_applyTo_eq_matrix _ (eulerToQuat_unit _ _), quat_applyTo_eq_matrix _ (eulerToQuat_unit _ _)]
  have hs : (Mat4.scaling m.scaling.x m.scaling.y m.scaling.z).applyTo v =
      ⟨m.scaling.x * v.x, m.scaling.y * v.y, m.scaling.z * v.z⟩ := by
    ext <;> simp [Mat4.scaling, Mat4.applyTo]
  have ht : ∀ w : Vec3 ℝ, (Mat4.translation m.translation.x m.translation.y
      m.translation.z).applyTo w = m.translation.add w := by
    intro w; ext <;> simp [Mat4.translation, Mat4.applyTo, Vec3.add] <;> ring
  rw [hs, ht]

/-- C35: on points the world matrix applies the model's own matrix first and the root's last. -/
theorem worldMatrix_applyTo (h : Heap) (m : Nat) (l : List Nat) (hc : Chain h m l) (hf : Fresh h)
    (v : Vec3 ℝ) :
    ∃ w h', getWorldMatrix l.length h m = some (w, h') ∧
      w.applyTo v = l.foldl (fun x k => (localMatrix (h k)).applyTo x) v := by
  obtain ⟨h', hw, _, _⟩ := getWorldMatrix_spec hc l.length (Nat.le_refl _) hf
  refine ⟨_, h', hw, ?_⟩
  clear hw hc
  induction l generalizing v with
  | nil => ext <;> simp [Mat4.one, Mat4.applyTo]
  | cons k l ih =>
    simp only [List.foldr_cons, List.foldl_cons]
    rw [applyTo_mul _ _ (localMatrix_affine _), ih]

/-- A model with all properties at their defaults. -/
def plainModel (t : Vec3 ℝ) (parent : Option Nat) : ModelData :=
  ⟨⟨0, 0, 0⟩, t, ⟨0, 0, 0⟩, ⟨1, 1, 1⟩, parent, none, []⟩

/-- Three models: 2 below 1 below 0. -/
def chainHeap : Heap := fun k =>
  if k = 2 then plainModel ⟨0, 0, 1⟩ (some 1)
  else if k = 1 then plainModel ⟨0, 1, 0⟩ (some 0) else plainModel ⟨1, 0, 0⟩ none

example : Chain chainHeap 2 [2, 1, 0] ∧ Fresh chainHeap := by
  refine ⟨.step (p := 1) ?_ (.step (p := 0) ?_ (.root ?_)), ?_⟩
  · simp [chainHeap, plainModel]
  · simp [chainHeap, plainModel]
  · simp [chainHeap, plainModel]
  · intro m c hc
    simp only [chainHeap, plainModel] at hc
    split at hc <;> (try split at hc) <;> simp at hc

/-- A model connected to itself, or any ring of models, which a file can contain, makes
`GetWorldMatrix` recurse without end. -/
theorem worldMatrix_cycle_diverges (h : Heap) (s : Nat → Prop)
    (hs : ∀ m, s m → ∃ p, (h m).parent = some p ∧ s p) (m : Nat) (hm : s m) :
    ∀ fuel, getWorldMatrix fuel h m = none := by
  intro fuel
  induction fuel generalizing m with
  | zero => rfl
  | succ f ih =>
    obtain ⟨p, hp, hsp⟩ := hs m hm
    simp [getWorldMatrix, hp, ih p hsp]

/-- Two connections read from a file, 0 above 1 and 1 above 0, make such a ring. -/
example : ∀ fuel, getWorldMatrix fuel (loadConnection (loadConnection
    (fun _ => plainModel ⟨0, 0, 0⟩ none) 0 1) 1 0) 0 = none := by
  refine worldMatrix_cycle_diverges _ (fun k => k = 0 ∨ k = 1) ?_ 0 (.inl rfl)
  rintro m (rfl | rfl)
  · exact ⟨1, by simp [loadConnection, addConnection], .inr rfl⟩
  · exact ⟨0, by simp [loadConnection, addConnection, Function.update], .inl rfl⟩

/-! ## C73 -/

/-- C73 is false: `AddConnection` leaves the world matrix of every model as it was, in particular
that of the child. -/
theorem addConnection_parent_false (h : Heap) (parent child : Nat) (m fuel : Nat) :
    (getWorldMatrix fuel (addConnection h parent child) m).map Prod.fst =
      (getWorldMatrix fuel h m).map Prod.fst := by
  have key : ∀ fuel (h h' : Heap) m, (∀ k, { h' k with refs := (h k).refs } = h k) →
      (getWorldMatrix fuel h' m).map Prod.fst = (getWorldMatrix fuel h m).map Prod.fst ∧
      ∀ r r', getWorldMatrix fuel h' m = some r' → getWorldMatrix fuel h m = some r →
        ∀ k, { r'.2 k with refs := (r.2 k).refs } = r.2 k := by
    intro fuel
    induction fuel with
    | zero => intro h h' m _; simp [getWorldMatrix]
    | succ f ih =>
      intro h h' m he
      have hp : (h' m).parent = (h m).parent := by rw [← he m]
      have hg : ∀ (a a' : Heap), (∀ k, { a' k with refs := (a k).refs } = a k) →
          (getMatrix a' m).1 = (getMatrix a m).1 ∧
          ∀ k, { (getMatrix a' m).2 k with refs := ((getMatrix a m).2 k).refs } =
            (getMatrix a m).2 k := by
        intro a a' ha
        have hc : (a' m).cached = (a m).cached := by rw [← ha m]
        have hl : localMatrix (a' m) = localMatrix (a m) := by rw [← ha m]; rfl
        unfold getMatrix
        rw [hc]
        split
        · exact ⟨rfl, ha⟩
        · refine ⟨hl, ?_⟩
          intro k
          unfold updateMatrix
          by_cases hk : k = m
          · subst hk
            simp only [Function.update_self]
            rw [hl]
            have := ha k
            rw [← this]
          · simp only [Function.update, hk, dite_false]
            exact ha k
      simp only [getWorldMatrix, hp]
      cases hpar : (h m).parent with
      | none =>
        obtain ⟨h1, h2⟩ := hg h h' he
        refine ⟨by simp [h1], ?_⟩
        intro r r' e' e
        simp only [Option.some.injEq] at e e'
        subst e; subst e'
        exact h2
      | some p =>
        obtain ⟨i1, i2⟩ := ih h h' p he
        simp only
        cases hw : getWorldMatrix f h p with
        | none =>
          cases hw' : getWorldMatrix f h' p with
          | none => simp
          | some r' => simp [hw, hw'] at i1
        | some r =>
          cases hw' : getWorldMatrix f h' p with
          | none => simp [hw, hw'] at i1
          | some r' =>
            have hr := i2 r r' hw' hw
            obtain ⟨h1, h2⟩ := hg r.2 r'.2 hr
            simp only [hw, hw', Option.map_some, Option.some.injEq] at i1
            refine ⟨by simp [h1, i1], ?_⟩
            intro x x' e' e
            simp only [Option.map_some, Option.some.injEq] at e e'
            subst e; subst e'
            exact h2
  refine (key fuel h (addConnection h parent child) m ?_).1
  intro k
  unfold addConnection
  by_cases hk : k = parent
  · subst hk; simp
  · simp [Function.update, hk]

/-- C73, what holds: the same connection read from a file does make the child's world matrix the
parent's times the child's own — if neither was in the other's chain before. -/
theorem loadConnection_world_partial (h : Heap) (parent child : Nat) (l : List Nat)
    (hc : Chain h parent l) (hn : child ∉ l) (hf : Fresh h) :
    ∃ h', getWorldMatrix (l.length + 1) (loadConnection h parent child) child =
      some (((l.foldr (fun k w => w.mul (localMatrix (h k))) Mat4.one)).mul
        (localMatrix (h child)), h') := by
  have hloc : ∀ k, localMatrix (loadConnection h parent child k) = localMatrix (h k) := by
    intro k
    unfold loadConnection addConnection
    by_cases hk : k = child
    · subst hk
      by_cases hp : k = parent
      · subst hp; simp [localMatrix]
      · simp [localMatrix, Function.update, hp]
    · by_cases hp : k = parent
      · subst hp; simp [Function.update, hk, localMatrix]
      · simp [Function.update, hk, hp]
  have hpar : ∀ k, k ≠ child → (loadConnection h parent child k).parent = (h k).parent := by
    intro k hk
    unfold loadConnection addConnection
    by_cases hp : k = parent
    · subst hp; simp [Function.update, hk]
    · simp [Function.update, hk, hp]
  have hcached : ∀ k, (loadConnection h parent child k).cached = (h k).cached := by
    intro k
    unfold loadConnection addConnection
    by_cases hk : k = child
    · subst hk
      by_cases hp : k = parent
      · subst hp; simp
      · simp [Function.update, hp]
    · by_cases hp : k = parent
      · subst hp; simp [Function.update, hk]
      · simp [Function.update, hk, hp]
  have hf' : Fresh (loadConnection h parent child) := by
    intro k c hk
    rw [hcached] at hk
    rw [hloc]; exact hf k c hk
  have hchain : Chain (loadConnection h parent child) parent l := by
    clear hf hf'
    revert hloc hpar hcached
    generalize loadConnection h parent child = g
    intro _ hpar _
    induction hc with
    | @root m hp =>
      exact .root ((hpar m (fun e => hn (by simp [e]))).trans hp)
    | @step m p l hp _ ih =>
      exact .step ((hpar m (fun e => hn (by simp [e]))).trans hp)
        (ih (fun hx => hn (by simp [hx])))
  have hcp : (loadConnection h parent child child).parent = some parent := by
    simp [loadConnection]
  obtain ⟨h', hw, _, _⟩ := getWorldMatrix_spec (.step hcp hchain) (l.length + 1) (by simp) hf'
  refine ⟨h', ?_⟩
  rw [hw]
  simp only [List.foldr_cons, hloc]

example : Chain chainHeap 1 [1, 0] ∧ 2 ∉ [1, 0] := by
  refine ⟨.step (p := 0) ?_ (.root ?_), by decide⟩ <;> simp [chainHeap, plainModel]

/-! ## C74 -/

/-- C74 is false: once the matrix of a model has been read, moving, turning or scaling the model
has no effect on it. -/
theorem setTranslation_stale_false (h : Heap) (m : Nat) (v : Vec3 ℝ) :
    (getMatrix (setTranslation (getMatrix h m).2 m v) m).1 = (getMatrix h m).1 ∧
    (getMatrix (setRotation (getMatrix h m).2 m v) m).1 = (getMatrix h m).1 ∧
    (getMatrix (setScaling (getMatrix h m).2 m v) m).1 = (getMatrix h m).1 := by
  have hc : ((getMatrix h m).2 m).cached = some (getMatrix h m).1 := by
    unfold getMatrix
    split
    · rename_i c hc; exact hc
    · simp [updateMatrix]
  have hg : ∀ (g : Heap) (c : Mat4 ℝ), (g m).cached = some c → (getMatrix g m).1 = c := by
    intro g c hgc
    unfold getMatrix
    rw [hgc]
  generalize (getMatrix h m).1 = c at hc ⊢
  generalize (getMatrix h m).2 = g at hc ⊢
  exact ⟨hg _ _ (by simp [setTranslation, hc]), hg _ _ (by simp [setRotation, hc]),
    hg _ _ (by simp [setScaling, hc])⟩

/-- The stale matrix is wrong: here the model should be at x = 5 and the matrix still says 0. -/
theorem setTranslation_stale_witness :
    let h : Heap := fun _ => plainModel ⟨0, 0, 0⟩ none
    let h' := setTranslation (getMatrix h 0).2 0 ⟨5, 0, 0⟩
    (getMatrix h' 0).1.applyTo ⟨0, 0, 0⟩ = ⟨0, 0, 0⟩ ∧
      (localMatrix (h' 0)).applyTo ⟨0, 0, 0⟩ = ⟨5, 0, 0⟩ := by
  intro h h'
  constructor
  · have := (setTranslation_stale_false h 0 ⟨5, 0, 0⟩).1
    simp only [h'] at this ⊢
    rw [this]
    simp only [getMatrix, h, plainModel]
    rw [localMatrix_applyTo]
    ext <;> simp [Vec3.add, Vec4.applyTo]
  · rw [localMatrix_applyTo]
    simp only [h', setTranslation, Function.update_self, getMatrix, h, plainModel, updateMatrix]
    ext <;> simp [Vec3.add, Vec4.applyTo]

/-- C74, what holds: before the first read, and after every `UpdateMatrix`, the matrix is the one of
the current properties. -/
theorem getMatrix_current_partial (h : Heap) (m : Nat) :
    ((h m).cached = none → ∀ v,
      (getMatrix (setTranslation h m v) m).1 = localMatrix { h m with translation := v } ∧
      (getMatrix (setRotation h m v) m).1 = localMatrix { h m with rotation := v } ∧
      (getMatrix (setScaling h m v) m).1 = localMatrix { h m with scaling := v }) ∧
    (getMatrix (updateMatrix h m) m).1 = localMatrix (h m) := by
  refine ⟨?_, ?_⟩
  · intro hc v
    refine ⟨?_, ?_, ?_⟩ <;> unfold getMatrix <;>
      simp [setTranslation, setRotation, setScaling, hc]
  · unfold getMatrix; simp [updateMatrix]

example : (chainHeap 2).cached = none := by simp [chainHeap, plainModel]

end Verif.Fbx
