import Verif.Geom.Mat
import Mathlib.LinearAlgebra.Matrix.NonsingularInverse
import Mathlib.Tactic.NormNum
import Mathlib.Tactic.Ring
import Mathlib.Tactic.FieldSimp
import Mathlib.Tactic.LinearCombination

/-!
C03, C04, C05: algebra of `Matrix4` and `Quaternion`, in exact arithmetic.
-/

namespace Verif.Geom

open Matrix

variable {F : Type}

/-- Specification: the matrix denoted by the 16 numbers. Row `i`, column `j` is entry `4 * j + i`. -/
def Mat4.toMatrix (m : Mat4 F) : Matrix (Fin 4) (Fin 4) F :=
  !![m.m0, m.m4, m.m8, m.m12; m.m1, m.m5, m.m9, m.m13; m.m2, m.m6, m.m10, m.m14;
     m.m3, m.m7, m.m11, m.m15]

theorem Mat4.toMatrix_injective : Function.Injective (Mat4.toMatrix (F := F)) := by
  intro a b h
  have e := fun i j => congrFun (congrFun h i) j
  ext
  · exact e 0 0
  · exact e 1 0
  · exact e 2 0
  · exact e 3 0
  · exact e 0 1
  · exact e 1 1
  · exact e 2 1
  · exact e 3 1
  · exact e 0 2
  · exact e 1 2
  · exact e 2 2
  · exact e 3 2
  · exact e 0 3
  · exact e 1 3
  · exact e 2 3
  · exact e 3 3

/-- The bottom row is `0 0 0 1`, as for every matrix built from translations, rotations, scales. -/
def Mat4.Affine [Zero F] [One F] (m : Mat4 F) : Prop :=
  m.m3 = 0 ∧ m.m7 = 0 ∧ m.m11 = 0 ∧ m.m15 = 1

section Ring

variable [CommRing F]

/-! ### C03 -/

/-- C03. `Mul` is the matrix product. -/
theorem mul_toMatrix (a b : Mat4 F) : (a.mul b).toMatrix = a.toMatrix * b.toMatrix := by
  ext i j
  fin_cases i <;> fin_cases j <;>
    simp [Mat4.mul, Mat4.toMatrix, Matrix.mul_apply, Fin.sum_univ_four] <;> ring

/-- C03. `NewMatrix4` is the identity matrix. -/
theorem one_toMatrix : (Mat4.one : Mat4 F).toMatrix = 1 := by
  ext i j
  fin_cases i <;> fin_cases j <;> simp [Mat4.one, Mat4.toMatrix]

omit [CommRing F] in
/-- C03. `Transposed` is the transpose. -/
theorem transposed_toMatrix (a : Mat4 F) : a.transposed.toMatrix = a.toMatrixᵀ := by
  ext i j
  fin_cases i <;> fin_cases j <;> simp [Mat4.transposed, Mat4.toMatrix, Matrix.transpose_apply]

/-- C03. `Mul` is associative and `NewMatrix4()` is its unit on both sides. -/
theorem mul_monoid (a b c : Mat4 F) :
    (a.mul b).mul c = a.mul (b.mul c) ∧ Mat4.one.mul a = a ∧ a.mul Mat4.one = a := by
  refine ⟨Mat4.toMatrix_injective ?_, Mat4.toMatrix_injective ?_, Mat4.toMatrix_injective ?_⟩
  · simp only [mul_toMatrix, Matrix.mul_assoc]
  · rw [mul_toMatrix, one_toMatrix, Matrix.one_mul]
  · rw [mul_toMatrix, one_toMatrix, Matrix.mul_one]

/-- C03. Transposing reverses products and is an involution. -/
theorem transposed_mul (a b : Mat4 F) :
    (a.mul b).transposed = b.transposed.mul a.transposed ∧ a.transposed.transposed = a := by
  refine ⟨Mat4.toMatrix_injective ?_, rfl⟩
  simp only [mul_toMatrix, transposed_toMatrix, Matrix.transpose_mul]

/-- C03. Applying a product means applying the right factor first. Only the right factor has to
be affine. -/
theorem applyTo_mul (a b : Mat4 F) (hb : b.Affine) (v : Vec3 F) :
    (a.mul b).applyTo v = a.applyTo (b.applyTo v) := by
  obtain ⟨h1, h2, h3, h4⟩ := hb
  ext <;> simp only [Mat4.applyTo, Mat4.mul, h1, h2, h3, h4] <;> ring

/-- C03. Affine matrices are closed under `Mul`. -/
theorem affine_mul (a b : Mat4 F) (ha : a.Affine) (hb : b.Affine) : (a.mul b).Affine := by
  obtain ⟨h1, h2, h3, h4⟩ := ha
  obtain ⟨g1, g2, g3, g4⟩ := hb
  simp only [Mat4.Affine, Mat4.mul, h1, h2, h3, h4, g1, g2, g3, g4]
  refine ⟨?_, ?_, ?_, ?_⟩ <;> ring

/-- C03. Without the affinity assumption on the right factor the statement is false:
`ApplyTo` ignores the bottom row. -/
theorem applyTo_mul_needs_affine :
    ¬ ∀ (a b : Mat4 Int) (v : Vec3 Int), (a.mul b).applyTo v = a.applyTo (b.applyTo v) := by
  intro h
  have := h (Mat4.translation 1 0 0) { (Mat4.one : Mat4 Int) with m15 := 2 } ⟨0, 0, 0⟩
  revert this
  decide

/-- The hypothesis of `applyTo_mul` holds for a non-trivial translate-scale matrix. -/
example : ((Mat4.translation 1 2 3).mul (Mat4.scaling 2 3 4) : Mat4 Int).Affine ∧
    ((Mat4.translation 1 2 3).mul (Mat4.scaling 2 3 4)).applyTo (⟨1, 1, 1⟩ : Vec3 Int) =
      ⟨3, 5, 7⟩ := by
  constructor
  · exact ⟨rfl, rfl, rfl, rfl⟩
  · decide

/-! ### C04 -/

/-- C04. `Det` is the determinant. -/
theorem det_toMatrix (m : Mat4 F) : m.det = m.toMatrix.det := by
  rw [Matrix.det_succ_row_zero]
  simp only [Fin.sum_univ_four, Matrix.det_fin_three, Mat4.det, Mat4.t11, Mat4.t12, Mat4.t13,
    Mat4.t14, Mat4.toMatrix, Matrix.submatrix_apply]
  simp [Fin.succAbove, Fin.lt_def]
  ring

/-- C04. The determinant is multiplicative, invariant under transposition, and 1 for the
identity. -/
theorem det_mul (a b : Mat4 F) :
    (a.mul b).det = a.det * b.det ∧ a.transposed.det = a.det ∧ (Mat4.one : Mat4 F).det = 1 := by
  simp only [det_toMatrix, mul_toMatrix, Matrix.det_mul, transposed_toMatrix,
    Matrix.det_transpose, one_toMatrix, Matrix.det_one, and_self]

end Ring

section Field

variable [Field F] [DecidableEq F]

/-- C04. `Inverse` is a right inverse if `Det` is not zero. -/
theorem mul_inverse (m : Mat4 F) (h : m.det ≠ 0) : m.mul m.inverse = Mat4.one := by
  have hd : m.m0 * m.t11 + m.m1 * m.t12 + m.m2 * m.t13 + m.m3 * m.t14 = m.det := rfl
  simp only [Mat4.inverse, if_neg h]
  generalize m.det = d at h hd
  simp only [Mat4.t11, Mat4.t12, Mat4.t13, Mat4.t14] at hd
  simp only [Mat4.mul, Mat4.one, Mat4.t11, Mat4.t12, Mat4.t13, Mat4.t14]
  ext <;> simp only [div_mul_eq_mul_div, ← add_div] <;>
    first
    | (rw [div_eq_zero_iff]; left; ring)
    | (rw [div_eq_one_iff_eq h, ← hd]; ring)

/-- C04. `Inverse` is a two-sided inverse if `Det` is not zero. -/
theorem inverse_spec (m : Mat4 F) (h : m.det ≠ 0) :
    m.mul m.inverse = Mat4.one ∧ m.inverse.mul m = Mat4.one := by
  refine ⟨mul_inverse m h, ?_⟩
  apply Mat4.toMatrix_injective
  have := congrArg Mat4.toMatrix (mul_inverse m h)
  rw [mul_toMatrix, one_toMatrix] at this ⊢
  exact mul_eq_one_comm.1 this

/-- C04. A singular matrix gives the zero matrix. -/
theorem inverse_singular (m : Mat4 F) (h : m.det = 0) : m.inverse = Mat4.zero := by
  simp [Mat4.inverse, h]

/-- C04. For an affine matrix, applying the inverse undoes applying the matrix. -/
theorem inverse_applyTo (m : Mat4 F) (ha : m.Affine) (h : m.det ≠ 0) (v : Vec3 F) :
    m.inverse.applyTo (m.applyTo v) = v := by
  rw [← applyTo_mul _ _ ha, (inverse_spec m h).2]
  ext <;> simp [Mat4.one, Mat4.applyTo]

end Field

/-- A matrix with non-zero determinant and no zero pattern. -/
example : (⟨2, 1, 0, 1, 0, 3, 1, 0, 1, 0, 1, 2, 5, 0, 0, 1⟩ : Mat4 Int).det ≠ 0 := by decide

/-! ### C05 -/

section Quaternion

variable [CommRing F]

/-- Unit length. -/
def Vec4.Unit (q : Vec4 F) : Prop := q.lenSqr = 1

/-- C05. Rotating with the quaternion is applying the rotation matrix. -/
theorem quat_applyTo_eq_matrix (q : Vec4 F) (hq : q.Unit) (v : Vec3 F) :
    q.applyTo v = (Mat4.rotation q).applyTo v := by
  simp only [Vec4.Unit, Vec4.lenSqr] at hq
  ext <;> simp only [Vec4.applyTo, Mat4.rotation, Mat4.applyTo]
  · linear_combination v.x * hq
  · linear_combination v.y * hq
  · linear_combination v.z * hq

/-- C05. `Len²` is multiplicative, so products of unit quaternions are unit quaternions. -/
theorem quat_lenSqr_mul (p q : Vec4 F) : (p.mul q).lenSqr = p.lenSqr * q.lenSqr := by
  simp only [Vec4.lenSqr, Vec4.mul]; ring

theorem quat_mul_assoc (p q r : Vec4 F) : (p.mul q).mul r = p.mul (q.mul r) := by
  ext <;> simp only [Vec4.mul] <;> ring

/-- C05. Rotating with a product rotates with the right factor first. -/
theorem quat_mul_applyTo (p q : Vec4 F) (v : Vec3 F) :
    (p.mul q).applyTo v = p.applyTo (q.applyTo v) := by
  ext <;> simp only [Vec4.mul, Vec4.applyTo] <;> ring

/-- C05. The rotation matrix of a product is the product of the rotation matrices. -/
theorem rotation_mul (p q : Vec4 F) (hp : p.Unit) (hq : q.Unit) :
    Mat4.rotation (p.mul q) = (Mat4.rotation p).mul (Mat4.rotation q) := by
  simp only [Vec4.Unit] at hp hq
  have hpq : (p.mul q).Unit := by simp only [Vec4.Unit, quat_lenSqr_mul, hp, hq, mul_one]
  have key : ∀ v, (Mat4.rotation (p.mul q)).applyTo v =
      ((Mat4.rotation p).mul (Mat4.rotation q)).applyTo v := by
    intro v
    rw [← quat_applyTo_eq_matrix _ hpq, quat_mul_applyTo, quat_applyTo_eq_matrix p hp,
      quat_applyTo_eq_matrix q hq, applyTo_mul]
    exact ⟨rfl, rfl, rfl, rfl⟩
  have k0 := key ⟨0, 0, 0⟩
  have k1 := key ⟨1, 0, 0⟩
  have k2 := key ⟨0, 1, 0⟩
  have k3 := key ⟨0, 0, 1⟩
  have aff : ((Mat4.rotation p).mul (Mat4.rotation q)).Affine :=
    affine_mul _ _ ⟨rfl, rfl, rfl, rfl⟩ ⟨rfl, rfl, rfl, rfl⟩
  have aff' : (Mat4.rotation (p.mul q)).Affine := ⟨rfl, rfl, rfl, rfl⟩
  generalize Mat4.rotation (p.mul q) = A at *
  generalize (Mat4.rotation p).mul (Mat4.rotation q) = B at *
  simp only [Mat4.applyTo, Vec3.mk.injEq, mul_zero, mul_one, zero_add, add_zero] at k0 k1 k2 k3
  obtain ⟨a1, a2, a3, a4⟩ := aff
  obtain ⟨b1, b2, b3, b4⟩ := aff'
  obtain ⟨k01, k02, k03⟩ := k0
  obtain ⟨k11, k12, k13⟩ := k1
  obtain ⟨k21, k22, k23⟩ := k2
  obtain ⟨k31, k32, k33⟩ := k3
  rw [k01] at k11 k21 k31
  rw [k02] at k12 k22 k32
  rw [k03] at k13 k23 k33
  ext <;> simp_all

/-- C05. Rotations preserve dot products (so lengths and angles). -/
theorem quat_dot (q : Vec4 F) (hq : q.Unit) (v w : Vec3 F) :
    (q.applyTo v).dot (q.applyTo w) = v.dot w := by
  have h : (q.applyTo v).dot (q.applyTo w) = q.lenSqr * q.lenSqr * v.dot w := by
    simp only [Vec4.applyTo, Vec3.dot, Vec4.lenSqr]; ring
  rw [h, hq]; ring

/-- C05. Rotations preserve cross products (so orientation: no mirroring). -/
theorem quat_cross (q : Vec4 F) (hq : q.Unit) (v w : Vec3 F) :
    (q.applyTo v).cross (q.applyTo w) = q.applyTo (v.cross w) := by
  have h : (q.applyTo v).cross (q.applyTo w) = (q.applyTo (v.cross w)).scale q.lenSqr := by
    ext <;> simp only [Vec4.applyTo, Vec3.cross, Vec4.lenSqr, Vec3.scale] <;> ring
  rw [h, hq]
  ext <;> simp [Vec3.scale]

/-- C05. `Inverse` of a unit quaternion is its two-sided inverse and undoes the rotation. -/
theorem quat_inverse (q : Vec4 F) (hq : q.Unit) :
    q.mul q.inverse = ⟨0, 0, 0, 1⟩ ∧ q.inverse.mul q = ⟨0, 0, 0, 1⟩ ∧
      ∀ v, q.inverse.applyTo (q.applyTo v) = v := by
  simp only [Vec4.Unit, Vec4.lenSqr] at hq
  refine ⟨?_, ?_, ?_⟩
  · ext <;> simp only [Vec4.mul, Vec4.inverse]
    · ring
    · ring
    · ring
    · linear_combination hq
  · ext <;> simp only [Vec4.mul, Vec4.inverse]
    · ring
    · ring
    · ring
    · linear_combination hq
  · intro v
    have h : q.inverse.applyTo (q.applyTo v) = v.scale (q.lenSqr * q.lenSqr) := by
      ext <;> simp only [Vec4.applyTo, Vec4.inverse, Vec3.scale, Vec4.lenSqr] <;> ring
    rw [h, show q.lenSqr = 1 from hq]
    ext <;> simp [Vec3.scale]

/-- C05. For a quaternion that is not normalised, `Inverse` is not the inverse. -/
theorem quat_inverse_needs_unit :
    ¬ ∀ q : Vec4 Int, q.mul q.inverse = ⟨0, 0, 0, 1⟩ := by
  intro h
  have := h ⟨0, 0, 0, 2⟩
  revert this; decide

end Quaternion

/-- A generic unit quaternion and what it does to a vector. -/
example : (⟨1 / 5, 2 / 5, 2 / 5, 4 / 5⟩ : Vec4 Rat).Unit ∧
    (⟨1 / 5, 2 / 5, 2 / 5, 4 / 5⟩ : Vec4 Rat).applyTo ⟨1, 2, 3⟩ =
      (Mat4.rotation (⟨1 / 5, 2 / 5, 2 / 5, 4 / 5⟩ : Vec4 Rat)).applyTo ⟨1, 2, 3⟩ := by
  have h : (⟨1 / 5, 2 / 5, 2 / 5, 4 / 5⟩ : Vec4 Rat).Unit := by
    norm_num [Vec4.Unit, Vec4.lenSqr]
  exact ⟨h, quat_applyTo_eq_matrix _ h _⟩

end Verif.Geom
