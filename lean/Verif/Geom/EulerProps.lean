import Verif.Geom.Euler
import Verif.Geom.MatProps
import Mathlib.Tactic.Linarith
import Mathlib.Tactic.Positivity

/-!
C06, C07, C08, C09: Euler angles, decomposition and normalisation over the real numbers.
-/

namespace Verif.Geom

open Real

/-! ### Specification: rotations about the axes -/

/-- Rotation by `t` about the x axis (textbook matrix, stored by columns). -/
noncomputable def rotX (t : ℝ) : Mat4 ℝ :=
  ⟨1, 0, 0, 0, 0, cos t, sin t, 0, 0, -sin t, cos t, 0, 0, 0, 0, 1⟩

/-- Rotation by `t` about the y axis. -/
noncomputable def rotY (t : ℝ) : Mat4 ℝ :=
  ⟨cos t, 0, -sin t, 0, 0, 1, 0, 0, sin t, 0, cos t, 0, 0, 0, 0, 1⟩

/-- Rotation by `t` about the z axis. -/
noncomputable def rotZ (t : ℝ) : Mat4 ℝ :=
  ⟨cos t, sin t, 0, 0, -sin t, cos t, 0, 0, 0, 0, 1, 0, 0, 0, 0, 1⟩

/-- The composition that an order's name stands for: `xyz` applies z first and x last. -/
noncomputable def composed (v : Vec3 ℝ) : Order → Mat4 ℝ
  | .xyz => (rotX v.x).mul ((rotY v.y).mul (rotZ v.z))
  | .yxz => (rotY v.y).mul ((rotX v.x).mul (rotZ v.z))
  | .zxy => (rotZ v.z).mul ((rotX v.x).mul (rotY v.y))
  | .zyx => (rotZ v.z).mul ((rotY v.y).mul (rotX v.x))
  | .other => Mat4.one

/-! ### C06 -/

noncomputable def quatX (t : ℝ) : Vec4 ℝ := ⟨sin (t / 2), 0, 0, cos (t / 2)⟩
noncomputable def quatY (t : ℝ) : Vec4 ℝ := ⟨0, sin (t / 2), 0, cos (t / 2)⟩
noncomputable def quatZ (t : ℝ) : Vec4 ℝ := ⟨0, 0, sin (t / 2), cos (t / 2)⟩

theorem cos_half_sq (t : ℝ) : cos t = 1 - 2 * sin (t / 2) * sin (t / 2) := by
  have h := cos_two_mul (t / 2)
  have h2 := sin_sq_add_cos_sq (t / 2)
  rw [show 2 * (t / 2) = t by ring] at h
  rw [h]; linear_combination 2 * h2

theorem sin_half (t : ℝ) : sin t = 2 * sin (t / 2) * cos (t / 2) := by
  rw [← sin_two_mul, show 2 * (t / 2) = t by ring]

theorem quatX_unit (t : ℝ) : (quatX t).Unit := by
  have h2 := sin_sq_add_cos_sq (t / 2)
  simp only [Vec4.Unit, Vec4.lenSqr, quatX]; linear_combination h2

theorem quatY_unit (t : ℝ) : (quatY t).Unit := by
  have h2 := sin_sq_add_cos_sq (t / 2)
  simp only [Vec4.Unit, Vec4.lenSqr, quatY]; linear_combination h2

theorem quatZ_unit (t : ℝ) : (quatZ t).Unit := by
  have h2 := sin_sq_add_cos_sq (t / 2)
  simp only [Vec4.Unit, Vec4.lenSqr, quatZ]; linear_combination h2

theorem rotation_quatX (t : ℝ) : Mat4.rotation (quatX t) = rotX t := by
  ext <;> simp only [Mat4.rotation, quatX, rotX, cos_half_sq t, sin_half t] <;> ring

theorem rotation_quatY (t : ℝ) : Mat4.rotation (quatY t) = rotY t := by
  ext <;> simp only [Mat4.rotation, quatY, rotY, cos_half_sq t, sin_half t] <;> ring

theorem rotation_quatZ (t : ℝ) : Mat4.rotation (quatZ t) = rotZ t := by
  ext <;> simp only [Mat4.rotation, quatZ, rotZ, cos_half_sq t, sin_half t] <;> ring

/-- C06. The quaternion of an Euler triple is the Hamilton product of the single-axis quaternions,
in the order of the name. -/
theorem eulerToQuat_product (v : Vec3 ℝ) :
    eulerToQuat v .xyz = (quatX v.x).mul ((quatY v.y).mul (quatZ v.z)) ∧
    eulerToQuat v .yxz = (quatY v.y).mul ((quatX v.x).mul (quatZ v.z)) ∧
    eulerToQuat v .zxy = (quatZ v.z).mul ((quatX v.x).mul (quatY v.y)) ∧
    eulerToQuat v .zyx = (quatZ v.z).mul ((quatY v.y).mul (quatX v.x)) := by
  refine ⟨?_, ?_, ?_, ?_⟩ <;> ext <;>
    simp only [eulerToQuat, quatX, quatY, quatZ, Vec4.mul] <;> ring

theorem Vec4.Unit.mul {F : Type} [CommRing F] {p q : Vec4 F} (hp : p.Unit) (hq : q.Unit) :
    (p.mul q).Unit := by
  simp only [Vec4.Unit] at *
  rw [quat_lenSqr_mul, hp, hq, mul_one]

/-- C06. The quaternion of an Euler triple has unit length, for every order. -/
theorem eulerToQuat_unit (v : Vec3 ℝ) (o : Order) : (eulerToQuat v o).Unit := by
  obtain ⟨h1, h2, h3, h4⟩ := eulerToQuat_product v
  have x := quatX_unit v.x
  have y := quatY_unit v.y
  have z := quatZ_unit v.z
  cases o
  · rw [h1]; exact x.mul (y.mul z)
  · rw [h2]; exact y.mul (x.mul z)
  · rw [h3]; exact z.mul (x.mul y)
  · rw [h4]; exact z.mul (y.mul x)
  · simp [eulerToQuat, Vec4.Unit, Vec4.lenSqr]

/-- C06. The rotation matrix of the quaternion of an Euler triple is the product of the textbook
axis rotations in the order of the name. -/
theorem eulerToQuat_rotation (v : Vec3 ℝ) (o : Order) :
    Mat4.rotation (eulerToQuat v o) = composed v o := by
  obtain ⟨h1, h2, h3, h4⟩ := eulerToQuat_product v
  have x := quatX_unit v.x
  have y := quatY_unit v.y
  have z := quatZ_unit v.z
  cases o
  · rw [h1, rotation_mul _ _ x (y.mul z), rotation_mul _ _ y z, rotation_quatX, rotation_quatY,
      rotation_quatZ]; rfl
  · rw [h2, rotation_mul _ _ y (x.mul z), rotation_mul _ _ x z, rotation_quatX, rotation_quatY,
      rotation_quatZ]; rfl
  · rw [h3, rotation_mul _ _ z (x.mul y), rotation_mul _ _ x y, rotation_quatX, rotation_quatY,
      rotation_quatZ]; rfl
  · rw [h4, rotation_mul _ _ z (y.mul x), rotation_mul _ _ y x, rotation_quatX, rotation_quatY,
      rotation_quatZ]; rfl
  · ext <;> simp [Mat4.rotation, eulerToQuat, composed, Mat4.one]

/-- Different orders really denote different rotations (quarter turns about x and y). -/
example : composed ⟨π / 2, π / 2, 0⟩ .xyz ≠ composed ⟨π / 2, π / 2, 0⟩ .yxz := by
  intro h
  have := congrArg Mat4.m1 h
  simp [composed, rotX, rotY, rotZ, Mat4.mul] at this

/-! ### C07 -/

theorem atan2_spec (y x : ℝ) (r : ℝ) (hr : 0 < r) (h : x ^ 2 + y ^ 2 = r ^ 2) :
    cos (atan2 y x) = x / r ∧ sin (atan2 y x) = y / r := by
  have hn : ‖(⟨x, y⟩ : ℂ)‖ = r := by
    rw [Complex.norm_def, Complex.normSq_mk, show x * x + y * y = r ^ 2 by linarith]
    exact Real.sqrt_sq hr.le
  have h0 : (⟨x, y⟩ : ℂ) ≠ 0 := by
    intro h0; rw [h0, norm_zero] at hn; linarith
  exact ⟨by rw [atan2, Complex.cos_arg h0, hn], by rw [atan2, Complex.sin_arg, hn]⟩

/-- Entries of a rotation matrix, by row and column. -/
structure Entries where
  (m11 m12 m13 m21 m22 m23 m31 m32 m33 : ℝ)

def entries (m : Mat4 ℝ) : Entries :=
  ⟨m.m0, m.m4, m.m8, m.m1, m.m5, m.m9, m.m2, m.m6, m.m10⟩

/-- Each entry of a rotation matrix equals its cofactor, rows and columns have length one. -/
structure IsRot (e : Entries) : Prop where
  c11 : e.m11 = e.m22 * e.m33 - e.m23 * e.m32
  c12 : e.m12 = e.m23 * e.m31 - e.m21 * e.m33
  c13 : e.m13 = e.m21 * e.m32 - e.m22 * e.m31
  c21 : e.m21 = e.m13 * e.m32 - e.m12 * e.m33
  c22 : e.m22 = e.m11 * e.m33 - e.m13 * e.m31
  c23 : e.m23 = e.m12 * e.m31 - e.m11 * e.m32
  c31 : e.m31 = e.m12 * e.m23 - e.m13 * e.m22
  c32 : e.m32 = e.m13 * e.m21 - e.m11 * e.m23
  c33 : e.m33 = e.m11 * e.m22 - e.m12 * e.m21
  r1 : e.m11 ^ 2 + e.m12 ^ 2 + e.m13 ^ 2 = 1
  r2 : e.m21 ^ 2 + e.m22 ^ 2 + e.m23 ^ 2 = 1
  r3 : e.m31 ^ 2 + e.m32 ^ 2 + e.m33 ^ 2 = 1
  k1 : e.m11 ^ 2 + e.m21 ^ 2 + e.m31 ^ 2 = 1
  k2 : e.m12 ^ 2 + e.m22 ^ 2 + e.m32 ^ 2 = 1
  k3 : e.m13 ^ 2 + e.m23 ^ 2 + e.m33 ^ 2 = 1

theorem rotation_isRot (q : Vec4 ℝ) (hq : q.Unit) : IsRot (entries (Mat4.rotation q)) := by
  simp only [Vec4.Unit, Vec4.lenSqr] at hq
  have hw : q.w * q.w = 1 - q.x * q.x - q.y * q.y - q.z * q.z := by linarith
  obtain ⟨x, y, z, w⟩ := q
  simp only at hw
  have hw2 : w ^ 2 = 1 - x * x - y * y - z * z := by rw [sq]; exact hw
  constructor <;> simp only [entries, Mat4.rotation] <;> ring_nf <;> (try rw [hw2]) <;> ring

/-- The entry whose arcsine is the middle angle. -/
def crit (m : Mat4 ℝ) : Order → ℝ
  | .xyz => m.m8
  | .yxz => m.m9
  | .zxy => m.m6
  | .zyx => m.m2
  | .other => 0

theorem clamp_id (x : ℝ) (h : |x| ≤ 1) : max (-1) (min x 1) = x := by
  rw [abs_le] at h
  rw [min_eq_left h.2, max_eq_right h.1]

theorem asin_spec (x : ℝ) (h : |x| ≤ 1) : sin (arcsin x) = x ∧ cos (arcsin x) = √(1 - x ^ 2) := by
  rw [abs_le] at h
  exact ⟨sin_arcsin h.1 h.2, cos_arcsin x⟩

theorem sqrt_pos_of_abs_lt (x : ℝ) (h : |x| < 1) : 0 < √(1 - x ^ 2) ∧ √(1 - x ^ 2) ^ 2 = 1 - x ^ 2 := by
  have h1 : x ^ 2 < 1 := by rw [← sq_abs]; nlinarith [abs_nonneg x]
  exact ⟨Real.sqrt_pos.2 (by linarith), Real.sq_sqrt (by linarith)⟩

theorem rotation_mk (q : Vec4 ℝ) : Mat4.rotation q =
    let e := entries (Mat4.rotation q)
    ⟨e.m11, e.m21, e.m31, 0, e.m12, e.m22, e.m32, 0, e.m13, e.m23, e.m33, 0, 0, 0, 0, 1⟩ := rfl

theorem euler_xyz_regular (e : Entries) (he : IsRot e) (h : |e.m13| < 1)
    (m : Mat4 ℝ) (hm : m = ⟨e.m11, e.m21, e.m31, 0, e.m12, e.m22, e.m32, 0, e.m13, e.m23, e.m33, 0, 0, 0, 0, 1⟩) :
    composed ⟨atan2 (-e.m23) e.m33, arcsin e.m13, atan2 (-e.m12) e.m11⟩ .xyz = m := by
  subst hm
  obtain ⟨s1, s2⟩ := asin_spec (e.m13) (by exact h.le)
  obtain ⟨p1, p2⟩ := sqrt_pos_of_abs_lt (e.m13) (by exact h)
  obtain ⟨a1, a2⟩ := atan2_spec (-e.m23) e.m33 (√(1 - (e.m13) ^ 2)) p1 (by rw [p2]; linear_combination he.k3)
  obtain ⟨b1, b2⟩ := atan2_spec (-e.m12) e.m11 (√(1 - (e.m13) ^ 2)) p1 (by rw [p2]; linear_combination he.r1)
  generalize √(1 - (e.m13) ^ 2) = c at *
  have hc : c ≠ 0 := p1.ne'
  obtain ⟨c11, c12, c13, c21, c22, c23, c31, c32, c33, -, -, -, -, -, -⟩ := he
  ext <;> simp only [composed, rotX, rotY, rotZ, Mat4.mul, s1, s2, a1, a2, b1, b2] <;>
    (try field_simp) <;> (try rw [p2]) <;> first
    | ring1
    | linear_combination c21 + e.m13 * c32
    | linear_combination c21 - e.m13 * c32
    | linear_combination -c21 + e.m13 * c32
    | linear_combination -c21 - e.m13 * c32
    | linear_combination c22 + e.m13 * c31
    | linear_combination c22 - e.m13 * c31
    | linear_combination -c22 + e.m13 * c31
    | linear_combination -c22 - e.m13 * c31
    | linear_combination c31 + e.m13 * c22
    | linear_combination c31 - e.m13 * c22
    | linear_combination -c31 + e.m13 * c22
    | linear_combination -c31 - e.m13 * c22
    | linear_combination c32 + e.m13 * c21
    | linear_combination c32 - e.m13 * c21
    | linear_combination -c32 + e.m13 * c21
    | linear_combination -c32 - e.m13 * c21

theorem euler_yxz_regular (e : Entries) (he : IsRot e) (h : |e.m23| < 1)
    (m : Mat4 ℝ) (hm : m = ⟨e.m11, e.m21, e.m31, 0, e.m12, e.m22, e.m32, 0, e.m13, e.m23, e.m33, 0, 0, 0, 0, 1⟩) :
    composed ⟨arcsin (-e.m23), atan2 e.m13 e.m33, atan2 e.m21 e.m22⟩ .yxz = m := by
  subst hm
  obtain ⟨s1, s2⟩ := asin_spec (-e.m23) (by rw [abs_neg]; exact h.le)
  obtain ⟨p1, p2⟩ := sqrt_pos_of_abs_lt (-e.m23) (by rw [abs_neg]; exact h)
  obtain ⟨a1, a2⟩ := atan2_spec (e.m13) e.m33 (√(1 - (-e.m23) ^ 2)) p1 (by rw [p2]; linear_combination he.k3)
  obtain ⟨b1, b2⟩ := atan2_spec (e.m21) e.m22 (√(1 - (-e.m23) ^ 2)) p1 (by rw [p2]; linear_combination he.r2)
  generalize √(1 - (-e.m23) ^ 2) = c at *
  have hc : c ≠ 0 := p1.ne'
  obtain ⟨c11, c12, c13, c21, c22, c23, c31, c32, c33, -, -, -, -, -, -⟩ := he
  ext <;> simp only [composed, rotX, rotY, rotZ, Mat4.mul, s1, s2, a1, a2, b1, b2] <;>
    (try field_simp) <;> (try rw [p2]) <;> first
    | ring1
    | linear_combination c11 + e.m23 * c32
    | linear_combination c11 - e.m23 * c32
    | linear_combination -c11 + e.m23 * c32
    | linear_combination -c11 - e.m23 * c32
    | linear_combination c12 + e.m23 * c31
    | linear_combination c12 - e.m23 * c31
    | linear_combination -c12 + e.m23 * c31
    | linear_combination -c12 - e.m23 * c31
    | linear_combination c31 + e.m23 * c12
    | linear_combination c31 - e.m23 * c12
    | linear_combination -c31 + e.m23 * c12
    | linear_combination -c31 - e.m23 * c12
    | linear_combination c32 + e.m23 * c11
    | linear_combination c32 - e.m23 * c11
    | linear_combination -c32 + e.m23 * c11
    | linear_combination -c32 - e.m23 * c11

theorem euler_zxy_regular (e : Entries) (he : IsRot e) (h : |e.m32| < 1)
    (m : Mat4 ℝ) (hm : m = ⟨e.m11, e.m21, e.m31, 0, e.m12, e.m22, e.m32, 0, e.m13, e.m23, e.m33, 0, 0, 0, 0, 1⟩) :
    composed ⟨arcsin e.m32, atan2 (-e.m31) e.m33, atan2 (-e.m12) e.m22⟩ .zxy = m := by
  subst hm
  obtain ⟨s1, s2⟩ := asin_spec (e.m32) (by exact h.le)
  obtain ⟨p1, p2⟩ := sqrt_pos_of_abs_lt (e.m32) (by exact h)
  obtain ⟨a1, a2⟩ := atan2_spec (-e.m31) e.m33 (√(1 - (e.m32) ^ 2)) p1 (by rw [p2]; linear_combination he.r3)
  obtain ⟨b1, b2⟩ := atan2_spec (-e.m12) e.m22 (√(1 - (e.m32) ^ 2)) p1 (by rw [p2]; linear_combination he.k2)
  generalize √(1 - (e.m32) ^ 2) = c at *
  have hc : c ≠ 0 := p1.ne'
  obtain ⟨c11, c12, c13, c21, c22, c23, c31, c32, c33, -, -, -, -, -, -⟩ := he
  ext <;> simp only [composed, rotX, rotY, rotZ, Mat4.mul, s1, s2, a1, a2, b1, b2] <;>
    (try field_simp) <;> (try rw [p2]) <;> first
    | ring1
    | linear_combination c11 + e.m32 * c23
    | linear_combination c11 - e.m32 * c23
    | linear_combination -c11 + e.m32 * c23
    | linear_combination -c11 - e.m32 * c23
    | linear_combination c13 + e.m32 * c21
    | linear_combination c13 - e.m32 * c21
    | linear_combination -c13 + e.m32 * c21
    | linear_combination -c13 - e.m32 * c21
    | linear_combination c21 + e.m32 * c13
    | linear_combination c21 - e.m32 * c13
    | linear_combination -c21 + e.m32 * c13
    | linear_combination -c21 - e.m32 * c13
    | linear_combination c23 + e.m32 * c11
    | linear_combination c23 - e.m32 * c11
    | linear_combination -c23 + e.m32 * c11
    | linear_combination -c23 - e.m32 * c11

theorem euler_zyx_regular (e : Entries) (he : IsRot e) (h : |e.m31| < 1)
    (m : Mat4 ℝ) (hm : m = ⟨e.m11, e.m21, e.m31, 0, e.m12, e.m22, e.m32, 0, e.m13, e.m23, e.m33, 0, 0, 0, 0, 1⟩) :
    composed ⟨atan2 e.m32 e.m33, arcsin (-e.m31), atan2 e.m21 e.m11⟩ .zyx = m := by
  subst hm
  obtain ⟨s1, s2⟩ := asin_spec (-e.m31) (by rw [abs_neg]; exact h.le)
  obtain ⟨p1, p2⟩ := sqrt_pos_of_abs_lt (-e.m31) (by rw [abs_neg]; exact h)
  obtain ⟨a1, a2⟩ := atan2_spec (e.m32) e.m33 (√(1 - (-e.m31) ^ 2)) p1 (by rw [p2]; linear_combination he.r3)
  obtain ⟨b1, b2⟩ := atan2_spec (e.m21) e.m11 (√(1 - (-e.m31) ^ 2)) p1 (by rw [p2]; linear_combination he.k1)
  generalize √(1 - (-e.m31) ^ 2) = c at *
  have hc : c ≠ 0 := p1.ne'
  obtain ⟨c11, c12, c13, c21, c22, c23, c31, c32, c33, -, -, -, -, -, -⟩ := he
  ext <;> simp only [composed, rotX, rotY, rotZ, Mat4.mul, s1, s2, a1, a2, b1, b2] <;>
    (try field_simp) <;> (try rw [p2]) <;> first
    | ring1
    | linear_combination c12 + e.m31 * c23
    | linear_combination c12 - e.m31 * c23
    | linear_combination -c12 + e.m31 * c23
    | linear_combination -c12 - e.m31 * c23
    | linear_combination c13 + e.m31 * c22
    | linear_combination c13 - e.m31 * c22
    | linear_combination -c13 + e.m31 * c22
    | linear_combination -c13 - e.m31 * c22
    | linear_combination c22 + e.m31 * c13
    | linear_combination c22 - e.m31 * c13
    | linear_combination -c22 + e.m31 * c13
    | linear_combination -c22 - e.m31 * c13
    | linear_combination c23 + e.m31 * c12
    | linear_combination c23 - e.m31 * c12
    | linear_combination -c23 + e.m31 * c12
    | linear_combination -c23 - e.m31 * c12

theorem euler_xyz_gimbal (e : Entries) (he : IsRot e) (h : |e.m13| = 1)
    (m : Mat4 ℝ) (hm : m = ⟨e.m11, e.m21, e.m31, 0, e.m12, e.m22, e.m32, 0, e.m13, e.m23, e.m33, 0, 0, 0, 0, 1⟩) :
    composed ⟨atan2 e.m32 e.m22, arcsin e.m13, 0⟩ .xyz = m := by
  subst hm
  have h2 : e.m13 ^ 2 = 1 := by rw [← sq_abs, h]; norm_num
  obtain ⟨s1, s2⟩ := asin_spec (e.m13) (by exact h.le)
  rw [show 1 - (e.m13) ^ 2 = 0 by linear_combination -h2, Real.sqrt_zero] at s2
  have z1 : e.m11 = 0 := by have := he.r1; nlinarith [sq_nonneg e.m11, sq_nonneg e.m12]
  have z2 : e.m12 = 0 := by have := he.r1; nlinarith [sq_nonneg e.m11, sq_nonneg e.m12]
  have z3 : e.m23 = 0 := by have := he.k3; nlinarith [sq_nonneg e.m23, sq_nonneg e.m33]
  have z4 : e.m33 = 0 := by have := he.k3; nlinarith [sq_nonneg e.m23, sq_nonneg e.m33]
  obtain ⟨a1, a2⟩ := atan2_spec (e.m32) e.m22 1 one_pos
    (by have := he.k2; simp only [z1, z2, z3, z4] at this; linear_combination this)
  obtain ⟨c11, c12, c13, c21, c22, c23, c31, c32, c33, -, -, -, -, -, -⟩ := he
  simp only [z1, z2, z3, z4, mul_zero, zero_mul, sub_zero, zero_sub] at c11 c12 c13 c21 c22 c23 c31 c32 c33
  ext <;> simp only [composed, rotX, rotY, rotZ, Mat4.mul, s1, s2, a1, a2, sin_zero, cos_zero,
      z1, z2, z3, z4, div_one] <;> first
    | ring1
    | linear_combination c21
    | linear_combination -c21
    | linear_combination c22
    | linear_combination -c22
    | linear_combination c31
    | linear_combination -c31
    | linear_combination c32
    | linear_combination -c32

theorem euler_yxz_gimbal (e : Entries) (he : IsRot e) (h : |e.m23| = 1)
    (m : Mat4 ℝ) (hm : m = ⟨e.m11, e.m21, e.m31, 0, e.m12, e.m22, e.m32, 0, e.m13, e.m23, e.m33, 0, 0, 0, 0, 1⟩) :
    composed ⟨arcsin (-e.m23), atan2 (-e.m31) e.m11, 0⟩ .yxz = m := by
  subst hm
  have h2 : e.m23 ^ 2 = 1 := by rw [← sq_abs, h]; norm_num
  obtain ⟨s1, s2⟩ := asin_spec (-e.m23) (by rw [abs_neg]; exact h.le)
  rw [show 1 - (-e.m23) ^ 2 = 0 by linear_combination -h2, Real.sqrt_zero] at s2
  have z1 : e.m21 = 0 := by have := he.r2; nlinarith [sq_nonneg e.m21, sq_nonneg e.m22]
  have z2 : e.m22 = 0 := by have := he.r2; nlinarith [sq_nonneg e.m21, sq_nonneg e.m22]
  have z3 : e.m13 = 0 := by have := he.k3; nlinarith [sq_nonneg e.m13, sq_nonneg e.m33]
  have z4 : e.m33 = 0 := by have := he.k3; nlinarith [sq_nonneg e.m13, sq_nonneg e.m33]
  obtain ⟨a1, a2⟩ := atan2_spec (-e.m31) e.m11 1 one_pos
    (by have := he.k1; simp only [z1, z2, z3, z4] at this; linear_combination this)
  obtain ⟨c11, c12, c13, c21, c22, c23, c31, c32, c33, -, -, -, -, -, -⟩ := he
  simp only [z1, z2, z3, z4, mul_zero, zero_mul, sub_zero, zero_sub] at c11 c12 c13 c21 c22 c23 c31 c32 c33
  ext <;> simp only [composed, rotX, rotY, rotZ, Mat4.mul, s1, s2, a1, a2, sin_zero, cos_zero,
      z1, z2, z3, z4, div_one] <;> first
    | ring1
    | linear_combination c11
    | linear_combination -c11
    | linear_combination c12
    | linear_combination -c12
    | linear_combination c31
    | linear_combination -c31
    | linear_combination c32
    | linear_combination -c32

theorem euler_zxy_gimbal (e : Entries) (he : IsRot e) (h : |e.m32| = 1)
    (m : Mat4 ℝ) (hm : m = ⟨e.m11, e.m21, e.m31, 0, e.m12, e.m22, e.m32, 0, e.m13, e.m23, e.m33, 0, 0, 0, 0, 1⟩) :
    composed ⟨arcsin e.m32, 0, atan2 e.m21 e.m11⟩ .zxy = m := by
  subst hm
  have h2 : e.m32 ^ 2 = 1 := by rw [← sq_abs, h]; norm_num
  obtain ⟨s1, s2⟩ := asin_spec (e.m32) (by exact h.le)
  rw [show 1 - (e.m32) ^ 2 = 0 by linear_combination -h2, Real.sqrt_zero] at s2
  have z1 : e.m31 = 0 := by have := he.r3; nlinarith [sq_nonneg e.m31, sq_nonneg e.m33]
  have z2 : e.m33 = 0 := by have := he.r3; nlinarith [sq_nonneg e.m31, sq_nonneg e.m33]
  have z3 : e.m12 = 0 := by have := he.k2; nlinarith [sq_nonneg e.m12, sq_nonneg e.m22]
  have z4 : e.m22 = 0 := by have := he.k2; nlinarith [sq_nonneg e.m12, sq_nonneg e.m22]
  obtain ⟨a1, a2⟩ := atan2_spec (e.m21) e.m11 1 one_pos
    (by have := he.k1; simp only [z1, z2, z3, z4] at this; linear_combination this)
  obtain ⟨c11, c12, c13, c21, c22, c23, c31, c32, c33, -, -, -, -, -, -⟩ := he
  simp only [z1, z2, z3, z4, mul_zero, zero_mul, sub_zero, zero_sub] at c11 c12 c13 c21 c22 c23 c31 c32 c33
  ext <;> simp only [composed, rotX, rotY, rotZ, Mat4.mul, s1, s2, a1, a2, sin_zero, cos_zero,
      z1, z2, z3, z4, div_one] <;> first
    | ring1
    | linear_combination c11
    | linear_combination -c11
    | linear_combination c13
    | linear_combination -c13
    | linear_combination c21
    | linear_combination -c21
    | linear_combination c23
    | linear_combination -c23

theorem euler_zyx_gimbal (e : Entries) (he : IsRot e) (h : |e.m31| = 1)
    (m : Mat4 ℝ) (hm : m = ⟨e.m11, e.m21, e.m31, 0, e.m12, e.m22, e.m32, 0, e.m13, e.m23, e.m33, 0, 0, 0, 0, 1⟩) :
    composed ⟨0, arcsin (-e.m31), atan2 (-e.m12) e.m22⟩ .zyx = m := by
  subst hm
  have h2 : e.m31 ^ 2 = 1 := by rw [← sq_abs, h]; norm_num
  obtain ⟨s1, s2⟩ := asin_spec (-e.m31) (by rw [abs_neg]; exact h.le)
  rw [show 1 - (-e.m31) ^ 2 = 0 by linear_combination -h2, Real.sqrt_zero] at s2
  have z1 : e.m32 = 0 := by have := he.r3; nlinarith [sq_nonneg e.m32, sq_nonneg e.m33]
  have z2 : e.m33 = 0 := by have := he.r3; nlinarith [sq_nonneg e.m32, sq_nonneg e.m33]
  have z3 : e.m11 = 0 := by have := he.k1; nlinarith [sq_nonneg e.m11, sq_nonneg e.m21]
  have z4 : e.m21 = 0 := by have := he.k1; nlinarith [sq_nonneg e.m11, sq_nonneg e.m21]
  obtain ⟨a1, a2⟩ := atan2_spec (-e.m12) e.m22 1 one_pos
    (by have := he.k2; simp only [z1, z2, z3, z4] at this; linear_combination this)
  obtain ⟨c11, c12, c13, c21, c22, c23, c31, c32, c33, -, -, -, -, -, -⟩ := he
  simp only [z1, z2, z3, z4, mul_zero, zero_mul, sub_zero, zero_sub] at c11 c12 c13 c21 c22 c23 c31 c32 c33
  ext <;> simp only [composed, rotX, rotY, rotZ, Mat4.mul, s1, s2, a1, a2, sin_zero, cos_zero,
      z1, z2, z3, z4, div_one] <;> first
    | ring1
    | linear_combination c12
    | linear_combination -c12
    | linear_combination c13
    | linear_combination -c13
    | linear_combination c22
    | linear_combination -c22
    | linear_combination c23
    | linear_combination -c23

/-- C07. Extracting Euler angles from the rotation of a unit quaternion and composing them again
gives the same rotation matrix, for all four orders, whenever the sine of the middle angle is at
least `eps` away from ±1, or exactly ±1 (gimbal lock). -/
theorem euler_roundtrip (q : Vec4 ℝ) (hq : q.Unit) (o : Order) (ho : o ≠ .other)
    (h : |crit (Mat4.rotation q) o| < 1 - 0.00000001 ∨ |crit (Mat4.rotation q) o| = 1) :
    Mat4.rotation (eulerToQuat (eulerFromQuat q o) o) = Mat4.rotation q := by
  have he := rotation_isRot q hq
  have hm := rotation_mk q
  rw [eulerToQuat_rotation]
  rcases h with h | h
  · have h1 : |crit (Mat4.rotation q) o| < 1 := by
      refine lt_trans h ?_; norm_num
    cases o
    · have := euler_xyz_regular _ he h1 _ hm
      rw [← this]; simp only [eulerFromQuat, eulerFromMat]
      simp only [crit] at h h1; rw [if_pos h, clamp_id _ h1.le]; rfl
    · have := euler_yxz_regular _ he h1 _ hm
      rw [← this]; simp only [eulerFromQuat, eulerFromMat]
      simp only [crit] at h h1; rw [if_pos h, clamp_id _ h1.le]; rfl
    · have := euler_zxy_regular _ he h1 _ hm
      rw [← this]; simp only [eulerFromQuat, eulerFromMat]
      simp only [crit] at h h1; rw [if_pos h, clamp_id _ h1.le]; rfl
    · have := euler_zyx_regular _ he h1 _ hm
      rw [← this]; simp only [eulerFromQuat, eulerFromMat]
      simp only [crit] at h h1; rw [if_pos h, clamp_id _ h1.le]; rfl
    · exact absurd rfl ho
  · have hn : ¬ |crit (Mat4.rotation q) o| < 1 - 0.00000001 := by rw [h]; norm_num
    cases o
    · have := euler_xyz_gimbal _ he h _ hm
      rw [← this]; simp only [eulerFromQuat, eulerFromMat]
      simp only [crit] at h hn; rw [if_neg hn, clamp_id _ h.le]; rfl
    · have := euler_yxz_gimbal _ he h _ hm
      rw [← this]; simp only [eulerFromQuat, eulerFromMat]
      simp only [crit] at h hn; rw [if_neg hn, clamp_id _ h.le]; rfl
    · have := euler_zxy_gimbal _ he h _ hm
      rw [← this]; simp only [eulerFromQuat, eulerFromMat]
      simp only [crit] at h hn; rw [if_neg hn, clamp_id _ h.le]; rfl
    · have := euler_zyx_gimbal _ he h _ hm
      rw [← this]; simp only [eulerFromQuat, eulerFromMat]
      simp only [crit] at h hn; rw [if_neg hn, clamp_id _ h.le]; rfl
    · exact absurd rfl ho

/-- Both alternatives of the hypothesis occur: a generic rotation and one in gimbal lock. -/
example : |crit (Mat4.rotation (⟨1 / 5, 2 / 5, 2 / 5, 4 / 5⟩ : Vec4 ℝ)) .xyz| < 1 - 0.00000001 ∧
    |crit (Mat4.rotation (⟨0, 3 / 5, 0, 4 / 5⟩ : Vec4 ℝ)) .xyz| < 1 - 0.00000001 ∧
    (⟨1 / 2, 1 / 2, 1 / 2, 1 / 2⟩ : Vec4 ℝ).Unit ∧
    |crit (Mat4.rotation (⟨1 / 2, 1 / 2, 1 / 2, 1 / 2⟩ : Vec4 ℝ)) .xyz| = 1 := by
  norm_num [crit, Mat4.rotation, Vec4.Unit, Vec4.lenSqr, abs_lt]

theorem atan2_polar (r t : ℝ) (hr : 0 < r) (ht : t ∈ Set.Ioc (-π) π) :
    atan2 (r * sin t) (r * cos t) = t := by
  have := Complex.arg_mul_cos_add_sin_mul_I hr ht
  rw [atan2]
  convert this using 2
  rw [← Complex.ofReal_cos, ← Complex.ofReal_sin]
  apply Complex.ext <;> simp [-Complex.ofReal_cos, -Complex.ofReal_sin]

/-- C07. Angles in the principal range are recovered exactly. -/
theorem euler_angles_recovered (v : Vec3 ℝ) (o : Order) (ho : o ≠ .other)
    (mid a b : ℝ)
    (hmid : mid = match o with | .xyz | .zyx => v.y | _ => v.x)
    (ha : a = match o with | .xyz | .zyx => v.x | _ => v.y)
    (hb : b = v.z)
    (hr1 : mid ∈ Set.Ioo (-(π / 2)) (π / 2)) (hs : |sin mid| < 1 - 0.00000001)
    (hr2 : a ∈ Set.Ioc (-π) π) (hr3 : b ∈ Set.Ioc (-π) π) :
    eulerFromQuat (eulerToQuat v o) o = v := by
  have hc : 0 < cos mid := cos_pos_of_mem_Ioo hr1
  have hs1 : |sin mid| ≤ 1 := abs_sin_le_one _
  have has : arcsin (sin mid) = mid := arcsin_sin hr1.1.le hr1.2.le
  simp only [eulerFromQuat, eulerToQuat_rotation]
  cases o
  · simp only at hmid ha hb
    subst hmid ha hb
    simp only [eulerFromMat, composed, rotX, rotY, rotZ, Mat4.mul]
    ring_nf
    ring_nf at hs
    rw [if_pos (by linarith), clamp_id _ hs1, has]
    ext
    · simp only; exact atan2_polar _ _ hc hr2
    · rfl
    · exact atan2_polar _ _ hc hr3
  · simp only at hmid ha hb
    subst hmid ha hb
    simp only [eulerFromMat, composed, rotX, rotY, rotZ, Mat4.mul]
    ring_nf
    ring_nf at hs
    rw [if_pos (by rw [abs_neg]; linarith), clamp_id _ (by rw [abs_neg]; exact hs1), neg_neg, has]
    ext
    · rfl
    · simp only; exact atan2_polar _ _ hc hr2
    · simp only; exact atan2_polar _ _ hc hr3
  · simp only at hmid ha hb
    subst hmid ha hb
    simp only [eulerFromMat, composed, rotX, rotY, rotZ, Mat4.mul]
    ring_nf
    ring_nf at hs
    rw [if_pos (by linarith), clamp_id _ hs1, has]
    ext
    · rfl
    · simp only; exact atan2_polar _ _ hc hr2
    · simp only; exact atan2_polar _ _ hc hr3
  · simp only at hmid ha hb
    subst hmid ha hb
    simp only [eulerFromMat, composed, rotX, rotY, rotZ, Mat4.mul]
    ring_nf
    ring_nf at hs
    rw [if_pos (by rw [abs_neg]; linarith), clamp_id _ (by rw [abs_neg]; exact hs1), neg_neg, has]
    ext
    · simp only; exact atan2_polar _ _ hc hr2
    · rfl
    · simp only; exact atan2_polar _ _ hc hr3
  · exact absurd rfl ho

end Verif.Geom
