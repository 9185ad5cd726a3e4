import Verif.Mqo.DocTransform
import Verif.Mqo.ObjectProps
import Mathlib.Data.List.Forall2

/-! Property C156: transforms of whole documents. -/

namespace Verif.Mqo

open Verif.Geom Real

/-! ### Points -/

theorem moveObject_spec (m : Mat4 ℝ) (o o' : Object ℝ) (h : moveObject m o = some o') :
    o'.vertexes = o.vertexes.map m.applyTo ∧ o'.faces.length = o.faces.length ∧
    (∀ (i : Nat) (f f' : Face ℝ), o.faces[i]? = some f → o'.faces[i]? = some f' →
      f'.verts = f.verts ∧ f'.material = f.material ∧ f'.uvs = f.uvs) ∧
    o'.name = o.name ∧ o'.uid = o.uid ∧ o'.depth = o.depth ∧ o'.visible = o.visible ∧
    o'.internalTransform = o.internalTransform.map m.mul := by
  obtain ⟨l, hl, rfl⟩ := Option.map_eq_some_iff.1 h
  refine ⟨rfl, by simp [Object.applyTransform, Object.setLocalTransform, Object.setRotation], ?_, rfl, rfl, rfl, rfl, rfl⟩
  intro i f f' hf hf'
  simp only [Object.applyTransform, Object.setLocalTransform, Object.setRotation, List.getElem?_map, hf, Option.map_some,
    Option.some.injEq] at hf'
  rw [← hf']
  exact ⟨rfl, rfl, rfl⟩

theorem mapM_forall₂ {α β : Type} (f : α → Option β) : ∀ (l : List α) (l' : List β), l.mapM f = some l' →
    List.Forall₂ (fun a b => f a = some b) l l' := by
  intro l
  induction l with
  | nil => intro l' h; simp at h; subst h; exact .nil
  | cons a l ih =>
    intro l' h
    rw [List.mapM_cons] at h
    simp only [Option.bind_eq_bind, Option.bind_eq_some_iff, Option.pure_def, Option.some.injEq] at h
    obtain ⟨b, hb, bs, hbs, rfl⟩ := h
    exact .cons hb (ih bs hbs)

/-- C156. Every vertex, bone and centre of a physics shape goes to the place the matrix gives; the corners of faces, materials,
texture coordinates, names, ids, depths and flags of objects stay, and so do the tree of the bones and the list of materials. -/
theorem transform_points (m : Mat4 ℝ) (doc doc' : Document ℝ) (h : doc.applyTransform m = some doc') :
    doc'.materials = doc.materials ∧ doc'.morphPlugin = doc.morphPlugin ∧
    List.Forall₂ (fun o o' : Object ℝ =>
      o'.vertexes = o.vertexes.map m.applyTo ∧ o'.name = o.name ∧ o'.uid = o.uid ∧ o'.depth = o.depth ∧ o'.visible = o.visible ∧
      o'.faces.length = o.faces.length ∧ ∀ (i : Nat) (f f' : Face ℝ), o.faces[i]? = some f → o'.faces[i]? = some f' →
        f'.verts = f.verts ∧ f'.material = f.material ∧ f'.uvs = f.uvs) doc.objects doc'.objects ∧
    (∀ p, doc.bonePlugin = some p → ∃ p', doc'.bonePlugin = some p' ∧ List.Forall₂ (fun b b' : Bone ℝ =>
      b'.pos = m.applyTo b.pos ∧ b'.id = b.id ∧ b'.parent = b.parent ∧ b'.name = b.name ∧ b'.weights = b.weights) p.bones p'.bones) ∧
    (∀ p, doc.physicsPlugin = some p → ∃ p', doc'.physicsPlugin = some p' ∧ List.Forall₂ (fun b b' : PhysicsBody ℝ =>
      b'.mass = b.mass ∧ b'.targetBoneID = b.targetBoneID ∧ b'.targetObjID = b.targetObjID ∧
      List.Forall₂ (fun s s' : PhysicsShape ℝ => s'.position = m.applyTo s.position ∧ s'.type = s.type) b.shapes b'.shapes)
        p.bodies p'.bodies) := by
  obtain ⟨os, hos, rfl⟩ := Option.map_eq_some_iff.1 h
  refine ⟨rfl, rfl, ?_, ?_, ?_⟩
  · refine (mapM_forall₂ _ _ _ hos).imp ?_
    intro o o' ho
    obtain ⟨h1, h2, h3, h4, h5, h6, h7, -⟩ := moveObject_spec m o o' ho
    exact ⟨h1, h4, h5, h6, h7, h2, h3⟩
  · intro p hp
    refine ⟨p.applyTransform m, by simp [hp], ?_⟩
    rw [BonePlugin.applyTransform, List.forall₂_map_right_iff]
    exact List.forall₂_same.2 fun b _ => ⟨rfl, rfl, rfl, rfl, rfl⟩
  · intro p hp
    refine ⟨p.applyTransform m, by simp [hp], ?_⟩
    rw [PhysicsPlugin.applyTransform, List.forall₂_map_right_iff]
    refine List.forall₂_same.2 fun b _ => ⟨rfl, rfl, rfl, ?_⟩
    rw [List.forall₂_map_right_iff]
    exact List.forall₂_same.2 fun s _ => ⟨rfl, rfl⟩

/-- Documents whose objects come from `NewObject` or from a file can be transformed. -/
theorem transform_total (m : Mat4 ℝ) (doc : Document ℝ)
    (h : ∀ o ∈ doc.objects, o.translation.isSome ∧ o.rotation.isSome ∧ o.scale.isSome) : (doc.applyTransform m).isSome := by
  have key : ∀ os : List (Object ℝ), (∀ o ∈ os, o.translation.isSome ∧ o.rotation.isSome ∧ o.scale.isSome) →
      (os.mapM (moveObject m)).isSome := by
    intro os
    induction os with
    | nil => intro _; simp
    | cons o os ih =>
      intro ho
      obtain ⟨h1, h2, h3⟩ := ho o (by simp)
      obtain ⟨t, ht⟩ := Option.isSome_iff_exists.1 h1
      obtain ⟨r, hr⟩ := Option.isSome_iff_exists.1 h2
      obtain ⟨s, hs⟩ := Option.isSome_iff_exists.1 h3
      obtain ⟨os', hos'⟩ := Option.isSome_iff_exists.1 (ih fun o ho' => ho o (by simp [ho']))
      rw [List.mapM_cons]
      simp [moveObject, Object.localTransform, Object.getRotation, ht, hr, hs, hos']
  unfold Document.applyTransform
  rw [Option.isSome_map]
  exact key doc.objects h

/-- C156. An object without the parts of its place makes the program panic. -/
theorem transform_panics (m : Mat4 ℝ) (doc : Document ℝ) (o : Object ℝ) (ho : o ∈ doc.objects)
    (h : o.translation = none ∨ o.rotation = none ∨ o.scale = none) : doc.applyTransform m = none := by
  have hn : moveObject m o = none := by
    unfold moveObject Object.localTransform Object.getRotation
    rcases h with h | h | h <;> rw [h]
    · rfl
    · cases o.translation <;> rfl
    · cases o.translation <;> cases o.rotation <;> rfl
  cases hd : doc.applyTransform m with
  | none => rfl
  | some doc' =>
    exfalso
    obtain ⟨os, hos, -⟩ := Option.map_eq_some_iff.1 hd
    obtain ⟨i, hi⟩ := List.mem_iff_getElem?.1 ho
    have hf := mapM_forall₂ _ _ _ hos
    obtain ⟨hi1, hi2⟩ := List.getElem?_eq_some_iff.1 hi
    have := (List.forall₂_iff_get.1 hf).2 i hi1 (by rw [← hf.length_eq]; exact hi1)
    rw [List.get_eq_getElem, hi2, hn] at this
    cases this

/-! ### Shapes -/

/-- The point is in the box: `k` is 1 if sizes are half extents and 1/2 if they are extents. -/
def InBox (o : Order) (k : ℝ) (s : PhysicsShape ℝ) (p : Vec3 ℝ) : Prop :=
  let q := (Mat4.rotation (eulerToQuat s.rotation o)).transposed.applyTo (p.sub s.position)
  |q.x| ≤ k * s.size.x ∧ |q.y| ≤ k * s.size.y ∧ |q.z| ≤ k * s.size.z

/-- The point is in the ball. -/
def InBall (k : ℝ) (s : PhysicsShape ℝ) (p : Vec3 ℝ) : Prop := (p.sub s.position).lenSqr ≤ (k * s.size.x) ^ 2

theorem one_unit : (⟨0, 0, 0, 1⟩ : Vec4 ℝ).Unit := by simp [Vec4.Unit, Vec4.lenSqr]

theorem rotation_one : Mat4.rotation (⟨0, 0, 0, 1⟩ : Vec4 ℝ) = Mat4.one := by
  ext <;> simp [Mat4.rotation, Mat4.one]

theorem scaling_trs (x y z : ℝ) : Mat4.scaling x y z = Mat4.trs ⟨0, 0, 0⟩ ⟨0, 0, 0, 1⟩ ⟨x, y, z⟩ := by
  rw [trs_entries, rotation_one]
  ext <;> simp [Mat4.scaling, Mat4.one]

theorem scaling_scale (x y z : ℝ) : |(decomposeScale (Mat4.scaling x y z)).x| = |x| ∧
    |(decomposeScale (Mat4.scaling x y z)).y| = |y| ∧ |(decomposeScale (Mat4.scaling x y z)).z| = |z| := by
  rw [scaling_trs, trs_scale _ _ _ one_unit]
  refine ⟨?_, by simp, by simp⟩
  simp only
  split_ifs <;> simp

theorem scaled_size (v : Vec3 ℝ) (s : PhysicsShape ℝ) :
    (s.applyTransform (Mat4.scaling v.x v.y v.z)).size = ⟨|s.size.x| * |v.x|, |s.size.y| * |v.y|, |s.size.z| * |v.z|⟩ := by
  obtain ⟨h1, h2, h3⟩ := scaling_scale v.x v.y v.z
  simp [PhysicsShape.applyTransform, abs_mul, h1, h2, h3]

theorem no_rotation (o : Order) : (Mat4.rotation (eulerToQuat (⟨0, 0, 0⟩ : Vec3 ℝ) o)).transposed = Mat4.one := by
  have : eulerToQuat (⟨0, 0, 0⟩ : Vec3 ℝ) o = ⟨0, 0, 0, 1⟩ := by cases o <;> simp [eulerToQuat]
  rw [this, rotation_one]
  ext <;> simp [Mat4.transposed, Mat4.one]

theorem one_applyTo' (v : Vec3 ℝ) : (Mat4.one : Mat4 ℝ).applyTo v = v := by
  ext <;> simp [Mat4.applyTo, Mat4.one]

theorem abs_scaled (v a p k c : ℝ) (hv : v ≠ 0) (ha : 0 ≤ a) : |v * p - v * c| ≤ k * (|a| * |v|) ↔ |p - c| ≤ k * a := by
  rw [← mul_sub, abs_mul, abs_of_nonneg ha, show k * (a * |v|) = |v| * (k * a) by ring]
  exact mul_le_mul_iff_right₀ (abs_pos.2 hv)

/-- C156. When a document is scaled (also mirrored or turned by a half), boxes that are not rotated cover exactly the
transformed points. Missing: boxes that are rotated, for which it is false (`box_rotated_false`). -/
theorem box_scaled_partial (o : Order) (k : ℝ) (v : Vec3 ℝ) (hx : v.x ≠ 0) (hy : v.y ≠ 0) (hz : v.z ≠ 0) (s : PhysicsShape ℝ)
    (hr : s.rotation = ⟨0, 0, 0⟩) (h1 : 0 ≤ s.size.x) (h2 : 0 ≤ s.size.y) (h3 : 0 ≤ s.size.z) (p : Vec3 ℝ) :
    InBox o k (s.applyTransform (Mat4.scaling v.x v.y v.z)) ((Mat4.scaling v.x v.y v.z).applyTo p) ↔ InBox o k s p := by
  have e1 : (s.applyTransform (Mat4.scaling v.x v.y v.z)).rotation = ⟨0, 0, 0⟩ := hr
  have e2 : (s.applyTransform (Mat4.scaling v.x v.y v.z)).position = ⟨v.x * s.position.x, v.y * s.position.y, v.z * s.position.z⟩ := by
    ext <;> simp [PhysicsShape.applyTransform, Mat4.applyTo, Mat4.scaling, mul_comm]
  have e3 : (Mat4.scaling v.x v.y v.z).applyTo p = ⟨v.x * p.x, v.y * p.y, v.z * p.z⟩ := by
    ext <;> simp [Mat4.applyTo, Mat4.scaling, mul_comm]
  unfold InBox
  rw [e1, e2, e3, hr, no_rotation, one_applyTo', one_applyTo', scaled_size]
  simp only [Vec3.sub]
  rw [abs_scaled _ _ _ _ _ hx h1, abs_scaled _ _ _ _ _ hy h2, abs_scaled _ _ _ _ _ hz h3]

/-- C156. When a document is scaled by factors of one size (also mirrored or turned by a half), balls cover exactly the
transformed points. Missing: other factors, for which balls become no balls. -/
theorem ball_scaled_partial (k : ℝ) (v : Vec3 ℝ) (hx : v.x ≠ 0) (hxy : |v.x| = |v.y|) (hxz : |v.x| = |v.z|)
    (s : PhysicsShape ℝ) (p : Vec3 ℝ) :
    InBall k (s.applyTransform (Mat4.scaling v.x v.y v.z)) ((Mat4.scaling v.x v.y v.z).applyTo p) ↔ InBall k s p := by
  have e2 : (s.applyTransform (Mat4.scaling v.x v.y v.z)).position = ⟨v.x * s.position.x, v.y * s.position.y, v.z * s.position.z⟩ := by
    ext <;> simp [PhysicsShape.applyTransform, Mat4.applyTo, Mat4.scaling, mul_comm]
  have e3 : (Mat4.scaling v.x v.y v.z).applyTo p = ⟨v.x * p.x, v.y * p.y, v.z * p.z⟩ := by
    ext <;> simp [Mat4.applyTo, Mat4.scaling, mul_comm]
  unfold InBall
  rw [e2, e3, scaled_size]
  have hy2 : v.y ^ 2 = v.x ^ 2 := by rw [← sq_abs v.y, ← hxy, sq_abs]
  have hz2 : v.z ^ 2 = v.x ^ 2 := by rw [← sq_abs v.z, ← hxz, sq_abs]
  have l : (Vec3.sub ⟨v.x * p.x, v.y * p.y, v.z * p.z⟩ ⟨v.x * s.position.x, v.y * s.position.y, v.z * s.position.z⟩).lenSqr =
      v.x ^ 2 * (p.sub s.position).lenSqr := by
    simp only [Vec3.lenSqr, Vec3.sub]
    linear_combination (p.y - s.position.y) ^ 2 * hy2 + (p.z - s.position.z) ^ 2 * hz2
  have r : (k * (|s.size.x| * |v.x|)) ^ 2 = v.x ^ 2 * (k * s.size.x) ^ 2 := by
    rw [mul_pow, mul_pow, sq_abs, sq_abs]
    ring
  rw [l]
  simp only
  rw [r]
  exact mul_le_mul_iff_right₀ (by positivity)

/-- A box of the sizes 2, 2, 1/2 that is turned by an eighth about the x axis. -/
noncomputable def tiltedBox : PhysicsShape ℝ := ⟨[], ⟨1, 1, 1 / 4⟩, ⟨0, 0, 0⟩, ⟨π / 4, 0, 0⟩⟩

theorem tilted (o : Order) (ho : o ≠ .other) : Mat4.rotation (eulerToQuat (⟨π / 4, 0, 0⟩ : Vec3 ℝ) o) = rotX (π / 4) := by
  rw [eulerToQuat_rotation]
  cases o <;> first | exact absurd rfl ho | (ext <;> simp [composed, rotX, rotY, rotZ, Mat4.mul])

/-- C156 is false for boxes that are rotated: with a half turn (`-rot180`) the box keeps its rotation, so that it does not
cover the transformed points. -/
theorem box_rotated_false : ∃ (s : PhysicsShape ℝ) (p : Vec3 ℝ), ∀ o : Order, o ≠ .other → InBox o 1 s p ∧
    ¬ InBox o 1 (s.applyTransform (Mat4.scaling (-1) 1 (-1))) ((Mat4.scaling (-1) 1 (-1)).applyTo p) := by
  refine ⟨tiltedBox, ⟨0, √2 / 2, √2 / 2⟩, ?_⟩
  intro o ho
  have h2 : √2 * √2 = 2 := Real.mul_self_sqrt (by norm_num)
  constructor
  · unfold InBox
    simp only [tiltedBox]
    rw [tilted o ho]
    simp only [Mat4.transposed, rotX, Mat4.applyTo, Vec3.sub, cos_pi_div_four, sin_pi_div_four]
    have e1 : 0 * (0 - 0) + √2 / 2 * (√2 / 2 - 0) + √2 / 2 * (√2 / 2 - 0) + 0 = 1 := by nlinarith
    refine ⟨by simp, ?_, ?_⟩
    · ring_nf
      rw [Real.sq_sqrt (by norm_num)]
      norm_num
    · ring_nf
      norm_num
  · intro h
    unfold InBox at h
    have e1 : (tiltedBox.applyTransform (Mat4.scaling (-1) 1 (-1))).rotation = ⟨π / 4, 0, 0⟩ := rfl
    have e2 := scaled_size ⟨-1, 1, -1⟩ tiltedBox
    simp only at e2
    rw [e1, tilted o ho, e2] at h
    have hz := h.2.2
    simp only [tiltedBox, PhysicsShape.applyTransform, Mat4.transposed, rotX, Mat4.applyTo, Mat4.scaling, Vec3.sub, cos_pi_div_four,
      sin_pi_div_four] at hz
    ring_nf at hz
    rw [Real.sq_sqrt (by norm_num)] at hz
    norm_num [abs_of_pos] at hz

/-- C156 is false for joints: they stay, so that those not on a fixed point of the matrix are not at the place they belong. -/
theorem joints_false (m : Mat4 ℝ) (doc doc' : Document ℝ) (h : doc.applyTransform m = some doc') (p : PhysicsPlugin ℝ)
    (hp : doc.physicsPlugin = some p) (i : Nat) (j : PhysicsJoint ℝ) (hj : p.constraints[i]? = some j)
    (hm : m.applyTo j.position ≠ j.position) :
    ∃ p' j', doc'.physicsPlugin = some p' ∧ p'.constraints[i]? = some j' ∧ j'.position ≠ m.applyTo j.position := by
  obtain ⟨os, hos, rfl⟩ := Option.map_eq_some_iff.1 h
  exact ⟨p.applyTransform m, j, by simp [hp], hj, fun e => hm e.symm⟩

/-! ### Frames of objects -/

theorem trs_rotation (t s : Vec3 ℝ) (q q' : Vec4 ℝ) (h : Mat4.rotation q = Mat4.rotation q') : Mat4.trs t q s = Mat4.trs t q' s := by
  unfold Mat4.trs
  rw [h]

/-- Setting a matrix whose rotation is a turn about the y axis gives that matrix back. -/
theorem setLocal_yaw (o : Object ℝ) (t s : Vec3 ℝ) (q : Vec4 ℝ) (hq : q.Unit) (hx : s.x ≠ 0) (hy : s.y ≠ 0) (hz : s.z ≠ 0) (θ : ℝ)
    (h : Mat4.rotation (decomposeRotation (Mat4.trs t q s)) = Mat4.rotation (quatY θ)) :
    (o.setLocalTransform (Mat4.trs t q s)).localTransform = some (Mat4.trs t q s) := by
  have hre := recompose_trs t s q hq hx hy hz
  obtain ⟨q', h1, h2⟩ := (setRotation_axis_partial o θ).1
  rw [getRotation_setRotation] at h1
  have he : eulerFromQuat (decomposeRotation (Mat4.trs t q s)) .zxy = eulerFromQuat (quatY θ) .zxy := by
    unfold eulerFromQuat
    rw [h]
  unfold Object.localTransform Object.setLocalTransform
  rw [getRotation_setRotation, he, h1]
  simp only [Object.setRotation]
  rw [trs_rotation _ _ q' (decomposeRotation (Mat4.trs t q s)) (by rw [h2, h]), hre]

theorem quatY_zero : Mat4.rotation (quatY 0) = Mat4.one := by
  rw [rotation_quatY]
  ext <;> simp [rotY, Mat4.one]

theorem quatY_pi : Mat4.rotation (quatY π) = Mat4.scaling (-1) 1 (-1) := by
  rw [rotation_quatY]
  ext <;> simp [rotY, Mat4.scaling]

/-- C156. When a document is scaled (by positive factors, or with a half turn), the frame of an object that is not
rotated is the scaled one. Missing: objects with other rotations (see C22) and mirrored ones. -/
theorem frame_scaled_partial (o : Object ℝ) (t s v : Vec3 ℝ) (ht : o.translation = some t) (hs : o.scale = some s)
    (hr : o.rotation = some ⟨0, 0, 0⟩) (h1 : 0 < s.x) (h2 : 0 < s.y) (h3 : 0 < s.z)
    (hv : 0 < v.y ∧ (0 < v.x ∧ 0 < v.z ∨ v.x < 0 ∧ v.z < 0)) :
    ∃ l o', o.localTransform = some l ∧ moveObject (Mat4.scaling v.x v.y v.z) o = some o' ∧
      o'.localTransform = some ((Mat4.scaling v.x v.y v.z).mul l) := by
  have hq : o.getRotation = some ⟨0, 0, 0, 1⟩ := by simp [Object.getRotation, hr, Vec3.scale, eulerToQuat]
  have hl : o.localTransform = some (Mat4.trs t ⟨0, 0, 0, 1⟩ s) := by simp [Object.localTransform, ht, hq, hs]
  refine ⟨_, _, hl, by unfold moveObject; rw [hl]; rfl, ?_⟩
  have hm : (Mat4.scaling v.x v.y v.z).mul (Mat4.trs t ⟨0, 0, 0, 1⟩ s) =
      Mat4.trs ⟨v.x * t.x, v.y * t.y, v.z * t.z⟩ ⟨0, 0, 0, 1⟩ ⟨v.x * s.x, v.y * s.y, v.z * s.z⟩ := by
    rw [trs_entries, trs_entries, rotation_one]
    ext <;> simp [Mat4.scaling, Mat4.one, Mat4.mul, mul_comm]
  have happ : ∀ (o : Object ℝ) (m : Mat4 ℝ), (o.applyTransform m).localTransform = o.localTransform := fun _ _ => rfl
  rw [happ, hm]
  obtain ⟨hvy, hv⟩ := hv
  have nx : v.x ≠ 0 := by rcases hv with ⟨h, -⟩ | ⟨h, -⟩ <;> [exact h.ne'; exact h.ne]
  have nz : v.z ≠ 0 := by rcases hv with ⟨-, h⟩ | ⟨-, h⟩ <;> [exact h.ne'; exact h.ne]
  have m1 : v.x * s.x ≠ 0 := mul_ne_zero nx h1.ne'
  have m2 : v.y * s.y ≠ 0 := mul_ne_zero hvy.ne' h2.ne'
  have m3 : v.z * s.z ≠ 0 := mul_ne_zero nz h3.ne'
  have hre := recompose_trs ⟨v.x * t.x, v.y * t.y, v.z * t.z⟩ ⟨v.x * s.x, v.y * s.y, v.z * s.z⟩ ⟨0, 0, 0, 1⟩ one_unit m1 m2 m3
  have hsc := trs_scale ⟨v.x * t.x, v.y * t.y, v.z * t.z⟩ ⟨v.x * s.x, v.y * s.y, v.z * s.z⟩ ⟨0, 0, 0, 1⟩ one_unit
  have hpos : ¬ v.x * s.x * (v.y * s.y) * (v.z * s.z) < 0 := by
    have e : v.x * s.x * (v.y * s.y) * (v.z * s.z) = (v.x * v.z) * (v.y * (s.x * s.y * s.z)) := by ring
    have hxz : 0 < v.x * v.z := by
      rcases hv with ⟨a, b⟩ | ⟨a, b⟩
      · exact mul_pos a b
      · exact mul_pos_of_neg_of_neg a b
    rw [e]
    exact not_lt.2 (by positivity)
  simp only [hpos, if_false] at hsc
  have hrot : ∃ θ, Mat4.rotation (decomposeRotation (Mat4.trs ⟨v.x * t.x, v.y * t.y, v.z * t.z⟩ ⟨0, 0, 0, 1⟩
      ⟨v.x * s.x, v.y * s.y, v.z * s.z⟩)) = Mat4.rotation (quatY θ) := by
    rw [hsc] at hre
    generalize decomposeRotation (Mat4.trs ⟨v.x * t.x, v.y * t.y, v.z * t.z⟩ ⟨0, 0, 0, 1⟩ ⟨v.x * s.x, v.y * s.y, v.z * s.z⟩) = r at hre
    rw [trs_entries, trs_entries, rotation_one] at hre
    have a3 : (Mat4.rotation r).m3 = 0 := rfl
    have a7 : (Mat4.rotation r).m7 = 0 := rfl
    have a11 : (Mat4.rotation r).m11 = 0 := rfl
    have a12 : (Mat4.rotation r).m12 = 0 := rfl
    have a13 : (Mat4.rotation r).m13 = 0 := rfl
    have a14 : (Mat4.rotation r).m14 = 0 := rfl
    have a15 : (Mat4.rotation r).m15 = 1 := rfl
    generalize Mat4.rotation r = R at *
    have c0 := congrArg Mat4.m0 hre
    have c1 := congrArg Mat4.m1 hre
    have c2 := congrArg Mat4.m2 hre
    have c4 := congrArg Mat4.m4 hre
    have c5 := congrArg Mat4.m5 hre
    have c6 := congrArg Mat4.m6 hre
    have c8 := congrArg Mat4.m8 hre
    have c9 := congrArg Mat4.m9 hre
    have c10 := congrArg Mat4.m10 hre
    simp only [Mat4.one, one_mul, zero_mul] at c0 c1 c2 c4 c5 c6 c8 c9 c10
    have b1 := abs_pos.2 m1
    have b2 := abs_pos.2 m2
    have b3 := abs_pos.2 m3
    have z1 : R.m1 = 0 := (mul_eq_zero.1 c1).resolve_right b1.ne'
    have z2 : R.m2 = 0 := (mul_eq_zero.1 c2).resolve_right b1.ne'
    have z4 : R.m4 = 0 := (mul_eq_zero.1 c4).resolve_right b2.ne'
    have z6 : R.m6 = 0 := (mul_eq_zero.1 c6).resolve_right b2.ne'
    have z8 : R.m8 = 0 := (mul_eq_zero.1 c8).resolve_right b3.ne'
    have z9 : R.m9 = 0 := (mul_eq_zero.1 c9).resolve_right b3.ne'
    have z5 : R.m5 = 1 := by
      rw [abs_of_pos (mul_pos hvy h2)] at c5
      exact (mul_left_eq_self₀.1 c5).resolve_right m2
    rcases hv with ⟨vx, vz⟩ | ⟨vx, vz⟩
    · refine ⟨0, ?_⟩
      rw [quatY_zero]
      rw [abs_of_pos (mul_pos vx h1)] at c0
      rw [abs_of_pos (mul_pos vz h3)] at c10
      have z0 : R.m0 = 1 := (mul_left_eq_self₀.1 c0).resolve_right m1
      have z10 : R.m10 = 1 := (mul_left_eq_self₀.1 c10).resolve_right m3
      ext <;> simp [Mat4.one, *]
    · refine ⟨π, ?_⟩
      rw [quatY_pi]
      rw [abs_of_neg (mul_neg_of_neg_of_pos vx h1), mul_neg, ← neg_mul] at c0
      rw [abs_of_neg (mul_neg_of_neg_of_pos vz h3), mul_neg, ← neg_mul] at c10
      have z0 : R.m0 = -1 := by have := (mul_left_eq_self₀.1 c0).resolve_right m1; linarith
      have z10 : R.m10 = -1 := by have := (mul_left_eq_self₀.1 c10).resolve_right m3; linarith
      ext <;> simp [Mat4.scaling, *]
  obtain ⟨θ, hθ⟩ := hrot
  exact setLocal_yaw o _ _ _ one_unit m1 m2 m3 θ hθ

/-- C156 is false for objects below other objects: the matrix is applied to the frame of the parent and again to that of the
child, so that with a scale factor `k` the child is at `k²` times its distance from the parent. -/
theorem nested_frames_false (p c : Object ℝ) (tp tc : Vec3 ℝ) (k : ℝ) (hk : 0 < k) (hk1 : k ≠ 1) (hc : tc ≠ ⟨0, 0, 0⟩)
    (hp1 : p.translation = some tp) (hp2 : p.rotation = some ⟨0, 0, 0⟩) (hp3 : p.scale = some ⟨1, 1, 1⟩)
    (hc1 : c.translation = some tc) (hc2 : c.rotation = some ⟨0, 0, 0⟩) (hc3 : c.scale = some ⟨1, 1, 1⟩) :
    ∃ lp lc p' c' lp' lc', p.localTransform = some lp ∧ c.localTransform = some lc ∧
      moveObject (Mat4.scaling k k k) p = some p' ∧ moveObject (Mat4.scaling k k k) c = some c' ∧
      p'.localTransform = some lp' ∧ c'.localTransform = some lc' ∧
      lp'.mul lc' ≠ (Mat4.scaling k k k).mul (lp.mul lc) ∧
      (lp'.mul lc').applyTo ⟨0, 0, 0⟩ = ⟨k * tp.x + k ^ 2 * tc.x, k * tp.y + k ^ 2 * tc.y, k * tp.z + k ^ 2 * tc.z⟩ := by
  obtain ⟨lp, p', a1, a2, a3⟩ := frame_scaled_partial p tp ⟨1, 1, 1⟩ ⟨k, k, k⟩ hp1 hp3 hp2 one_pos one_pos one_pos ⟨hk, .inl ⟨hk, hk⟩⟩
  obtain ⟨lc, c', b1, b2, b3⟩ := frame_scaled_partial c tc ⟨1, 1, 1⟩ ⟨k, k, k⟩ hc1 hc3 hc2 one_pos one_pos one_pos ⟨hk, .inl ⟨hk, hk⟩⟩
  refine ⟨lp, lc, p', c', _, _, a1, b1, a2, b2, a3, b3, ?_⟩
  have e : ∀ (o : Object ℝ) (t : Vec3 ℝ) (l : Mat4 ℝ), o.translation = some t → o.rotation = some ⟨0, 0, 0⟩ →
      o.scale = some ⟨1, 1, 1⟩ → o.localTransform = some l → l = ⟨1, 0, 0, 0, 0, 1, 0, 0, 0, 0, 1, 0, t.x, t.y, t.z, 1⟩ := by
    intro o t l h1 h2 h3 h4
    have hq : o.getRotation = some ⟨0, 0, 0, 1⟩ := by simp [Object.getRotation, h2, Vec3.scale, eulerToQuat]
    simp only [Object.localTransform, h1, hq, h3, Option.some.injEq] at h4
    rw [← h4, trs_entries, rotation_one]
    ext <;> simp [Mat4.one]
  rw [e p tp lp hp1 hp2 hp3 a1, e c tc lc hc1 hc2 hc3 b1]
  constructor
  · intro h
    apply hc
    have x := congrArg Mat4.m12 h
    have y := congrArg Mat4.m13 h
    have z := congrArg Mat4.m14 h
    simp [Mat4.mul, Mat4.scaling] at x y z
    have hk2 : k * (k - 1) ≠ 0 := mul_ne_zero hk.ne' (sub_ne_zero.2 hk1)
    ext
    · exact (mul_eq_zero.1 (show k * (k - 1) * tc.x = 0 by linear_combination x)).resolve_left hk2
    · exact (mul_eq_zero.1 (show k * (k - 1) * tc.y = 0 by linear_combination y)).resolve_left hk2
    · exact (mul_eq_zero.1 (show k * (k - 1) * tc.z = 0 by linear_combination z)).resolve_left hk2
  · ext <;> simp [Mat4.mul, Mat4.scaling, Mat4.applyTo] <;> ring

/-! ### Examples -/

/-- An object at (1, 2, 3) and one at its place. -/
noncomputable def placedObject : Object ℝ := { newObject 59.5 "body".toList with translation := some ⟨1, 2, 3⟩, vertexes := [⟨1, 0, 0⟩] }

/-- A document with an object, a body and a joint. -/
noncomputable def physicsDocument : Document ℝ :=
  ⟨none, [], [placedObject], none, none,
    some ⟨[⟨[⟨"BOX".toList, ⟨1, 2, 3⟩, ⟨1, 1, 1⟩, ⟨0, 0, 0⟩⟩], 1, false, 0, 0, 0, 0, 0, 0, [], 0, 0⟩],
      [⟨[], 0, 0, [], ⟨1, 0, 0⟩, ⟨0, 0, 0⟩, ⟨0, 0, 0⟩, ⟨0, 0, 0⟩⟩]⟩⟩

example : (physicsDocument.applyTransform (Mat4.scaling 2 2 2)).isSome ∧
    ∃ p j, physicsDocument.physicsPlugin = some p ∧ p.constraints[0]? = some j ∧
      (Mat4.scaling 2 2 2).applyTo j.position ≠ j.position := by
  refine ⟨transform_total _ _ (by simp [physicsDocument, placedObject, newObject]), _, _, rfl, rfl, ?_⟩
  intro h
  have := congrArg Vec3.x h
  norm_num [Mat4.applyTo, Mat4.scaling] at this

example : placedObject.translation = some ⟨1, 2, 3⟩ ∧ placedObject.rotation = some ⟨0, 0, 0⟩ ∧ placedObject.scale = some ⟨1, 1, 1⟩ ∧
    (⟨1, 2, 3⟩ : Vec3 ℝ) ≠ ⟨0, 0, 0⟩ ∧ (0 : ℝ) < 2 ∧ (2 : ℝ) ≠ 1 :=
  ⟨rfl, rfl, rfl, by simp, by norm_num, by norm_num⟩

/-- The factors of the options `-scale 80 -rot180`. -/
example : (-80 : ℝ) ≠ 0 ∧ |(-80 : ℝ)| = |80| ∧ 0 < (80 : ℝ) ∧ (-80 : ℝ) < 0 := by norm_num

/-- An object without a translation. -/
example : ({ placedObject with translation := none } : Object ℝ).translation = none := rfl

end Verif.Mqo
