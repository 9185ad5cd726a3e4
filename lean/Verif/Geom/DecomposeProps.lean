import Verif.Geom.EulerProps

/-!
C08 (`Decompose` inverts `NewTRSMatrix4`) and C09 (`Normalize`).
-/

namespace Verif.Geom

open Real

/-- `quatFromEntries` applied to the upper left 3x3 block of a matrix. -/
noncomputable def quatOfMat (m : Mat4 ℝ) : Vec4 ℝ :=
  quatFromEntries m.m0 m.m4 m.m8 m.m1 m.m5 m.m9 m.m2 m.m6 m.m10

/-- The quaternion with all four components negated; it stands for the same rotation. -/
def negQ (q : Vec4 ℝ) : Vec4 ℝ := ⟨-q.x, -q.y, -q.z, -q.w⟩

theorem rotation_negQ (q : Vec4 ℝ) : Mat4.rotation (negQ q) = Mat4.rotation q := by
  ext <;> simp only [Mat4.rotation, negQ] <;> ring

theorem sqrt_four_sq (a : ℝ) (x : ℝ) (h : a = 4 * x ^ 2) : Real.sqrt a = 2 * |x| := by
  rw [h, show (4 : ℝ) * x ^ 2 = (2 * |x|) ^ 2 by rw [mul_pow, sq_abs]; ring]
  exact Real.sqrt_sq (by positivity)

theorem quatFromEntries_cases (m11 m12 m13 m21 m22 m23 m31 m32 m33 : ℝ) (r : Vec4 ℝ)
    (hr : quatFromEntries m11 m12 m13 m21 m22 m23 m31 m32 m33 = r) :
    (m11 + m22 + m33 > 0 ∧ r = ⟨(m32 - m23) * (0.5 / √(m11 + m22 + m33 + 1)),
        (m13 - m31) * (0.5 / √(m11 + m22 + m33 + 1)), (m21 - m12) * (0.5 / √(m11 + m22 + m33 + 1)),
        0.25 / (0.5 / √(m11 + m22 + m33 + 1))⟩) ∨
    (¬ m11 + m22 + m33 > 0 ∧ (m11 > m22 ∧ m11 > m33) ∧
      r = ⟨0.25 * (2 * √(1 + m11 - m22 - m33)), (m12 + m21) / (2 * √(1 + m11 - m22 - m33)),
        (m13 + m31) / (2 * √(1 + m11 - m22 - m33)), (m32 - m23) / (2 * √(1 + m11 - m22 - m33))⟩) ∨
    (¬ m11 + m22 + m33 > 0 ∧ ¬ (m11 > m22 ∧ m11 > m33) ∧ m22 > m33 ∧
      r = ⟨(m12 + m21) / (2 * √(1 + m22 - m11 - m33)), 0.25 * (2 * √(1 + m22 - m11 - m33)),
        (m23 + m32) / (2 * √(1 + m22 - m11 - m33)), (m13 - m31) / (2 * √(1 + m22 - m11 - m33))⟩) ∨
    (¬ m11 + m22 + m33 > 0 ∧ ¬ (m11 > m22 ∧ m11 > m33) ∧ ¬ m22 > m33 ∧
      r = ⟨(m13 + m31) / (2 * √(1 + m33 - m11 - m22)), (m23 + m32) / (2 * √(1 + m33 - m11 - m22)),
        0.25 * (2 * √(1 + m33 - m11 - m22)), (m21 - m12) / (2 * √(1 + m33 - m11 - m22))⟩) := by
  subst hr
  rw [quatFromEntries]
  by_cases h1 : m11 + m22 + m33 > 0
  · left; exact ⟨h1, if_pos h1⟩
  right
  by_cases h2 : m11 > m22 ∧ m11 > m33
  · left; exact ⟨h1, h2, by simp only [if_neg h1, if_pos h2]⟩
  right
  by_cases h3 : m22 > m33
  · left; exact ⟨h1, h2, h3, by simp only [if_neg h1, if_neg h2, if_pos h3]⟩
  · right; exact ⟨h1, h2, h3, by simp only [if_neg h1, if_neg h2, if_neg h3]⟩

theorem quatOfMat_rotation (q : Vec4 ℝ) (hq : q.Unit) :
    quatOfMat (Mat4.rotation q) = q ∨ quatOfMat (Mat4.rotation q) = negQ q := by
  obtain ⟨x, y, z, w⟩ := q
  simp only [Vec4.Unit, Vec4.lenSqr] at hq
  have hq' : w ^ 2 = 1 - x ^ 2 - y ^ 2 - z ^ 2 := by linarith
  generalize hr : quatOfMat (Mat4.rotation ⟨x, y, z, w⟩) = r
  rw [quatOfMat] at hr
  have := quatFromEntries_cases _ _ _ _ _ _ _ _ _ _ hr
  simp only [Mat4.rotation] at this
  clear hr
  rcases this with ⟨h1, hr⟩ | ⟨h1, h2, hr⟩ | ⟨h1, h2, h3, hr⟩ | ⟨h1, h2, h3, hr⟩
  · have hw : w ≠ 0 := by rintro rfl; nlinarith
    rw [sqrt_four_sq _ w (by linear_combination -4 * hq')] at hr
    subst hr
    rcases abs_choice w with h | h <;> rw [h]
    · left; ext <;> simp only <;> field_simp <;> ring
    · right; ext <;> simp only [negQ] <;> field_simp <;> ring
  · have hx : x ≠ 0 := by rintro rfl; nlinarith [h2.1, sq_nonneg y]
    rw [sqrt_four_sq _ x (by ring)] at hr
    subst hr
    rcases abs_choice x with h | h <;> rw [h]
    · left; ext <;> simp only <;> field_simp <;> ring
    · right; ext <;> simp only [negQ] <;> field_simp <;> ring
  · have hy : y ≠ 0 := by rintro rfl; nlinarith [sq_nonneg z]
    rw [sqrt_four_sq _ y (by ring)] at hr
    subst hr
    rcases abs_choice y with h | h <;> rw [h]
    · left; ext <;> simp only <;> field_simp <;> ring
    · right; ext <;> simp only [negQ] <;> field_simp <;> ring
  · have hz : z ≠ 0 := by
      rintro rfl
      have hy : y ^ 2 = 0 := by nlinarith [sq_nonneg y]
      apply h2
      constructor <;> nlinarith
    rw [sqrt_four_sq _ z (by ring)] at hr
    subst hr
    rcases abs_choice z with h | h <;> rw [h]
    · left; ext <;> simp only <;> field_simp <;> ring
    · right; ext <;> simp only [negQ] <;> field_simp <;> ring

theorem trs_entries (t s : Vec3 ℝ) (q : Vec4 ℝ) :
    Mat4.trs t q s =
      let r := Mat4.rotation q
      ⟨r.m0 * s.x, r.m1 * s.x, r.m2 * s.x, 0, r.m4 * s.y, r.m5 * s.y, r.m6 * s.y, 0,
       r.m8 * s.z, r.m9 * s.z, r.m10 * s.z, 0, t.x, t.y, t.z, 1⟩ := by
  ext <;> simp only [Mat4.trs, Mat4.mul, Mat4.translation, Mat4.rotation, Mat4.scaling] <;> ring

theorem len_column (a b c s : ℝ) (h : a ^ 2 + b ^ 2 + c ^ 2 = 1) :
    (⟨a * s, b * s, c * s⟩ : Vec3 ℝ).len = |s| := by
  show Real.sqrt _ = _
  rw [show a * s * (a * s) + b * s * (b * s) + c * s * (c * s) = s ^ 2 by
    linear_combination s ^ 2 * h]
  exact Real.sqrt_sq_eq_abs s

theorem trs_det (t s : Vec3 ℝ) (q : Vec4 ℝ) (hq : q.Unit) :
    (Mat4.trs t q s).det = s.x * s.y * s.z := by
  have he := rotation_isRot q hq
  rw [trs_entries]
  simp only [Mat4.det, Mat4.t11, Mat4.t12, Mat4.t13, Mat4.t14]
  have h1 := he.c11; have h2 := he.c21; have h3 := he.c31; have h4 := he.k1
  simp only [entries] at h1 h2 h3 h4
  generalize Mat4.rotation q = r at h1 h2 h3 h4 ⊢
  linear_combination s.x * s.y * s.z * (h4 - r.m0 * h1 - r.m1 * h2 - r.m2 * h3)

theorem trs_scale (t s : Vec3 ℝ) (q : Vec4 ℝ) (hq : q.Unit) :
    decomposeScale (Mat4.trs t q s) =
      ⟨if s.x * s.y * s.z < 0 then -|s.x| else |s.x|, |s.y|, |s.z|⟩ := by
  have he := rotation_isRot q hq
  have h1 := he.k1; have h2 := he.k2; have h3 := he.k3
  simp only [entries] at h1 h2 h3
  simp only [decomposeScale, trs_det t s q hq]
  rw [trs_entries]
  simp only [len_column _ _ _ _ h1, len_column _ _ _ _ h2, len_column _ _ _ _ h3]

/-- C08. With positive scale factors `Decompose` recovers translation and scale exactly and the
rotation quaternion up to sign (both signs are the same rotation). -/
theorem decompose_trs (t s : Vec3 ℝ) (q : Vec4 ℝ) (hq : q.Unit)
    (hx : 0 < s.x) (hy : 0 < s.y) (hz : 0 < s.z) :
    decomposeTranslation (Mat4.trs t q s) = t ∧
    decomposeScale (Mat4.trs t q s) = s ∧
    (decomposeRotation (Mat4.trs t q s) = q ∨ decomposeRotation (Mat4.trs t q s) = negQ q) := by
  have hs : decomposeScale (Mat4.trs t q s) = s := by
    have : ¬ s.x * s.y * s.z < 0 := not_lt.2 (by positivity)
    rw [trs_scale t s q hq, if_neg this, abs_of_pos hx, abs_of_pos hy, abs_of_pos hz]
  refine ⟨by rw [trs_entries]; rfl, hs, ?_⟩
  have : decomposeRotation (Mat4.trs t q s) = quatOfMat (Mat4.rotation q) := by
    rw [decomposeRotation, hs, quatOfMat, trs_entries]
    simp only [mul_div_assoc, div_self hx.ne', div_self hy.ne', div_self hz.ne', mul_one]
  rw [this]
  exact quatOfMat_rotation q hq

/-- The half turn quaternion that turns the frame so that the given signs of the axes change. -/
noncomputable def flipAxis (ex ey : ℝ) : Vec4 ℝ :=
  if ex = 1 ∧ ey = 1 then ⟨0, 0, 0, 1⟩
  else if ex = 1 then ⟨1, 0, 0, 0⟩
  else if ey = 1 then ⟨0, 1, 0, 0⟩
  else ⟨0, 0, 1, 0⟩

theorem flipAxis_spec (ex ey ez : ℝ) (hx : ex = 1 ∨ ex = -1) (hy : ey = 1 ∨ ey = -1)
    (hz : ez = 1 ∨ ez = -1) (h : ex * ey * ez = 1) :
    (flipAxis ex ey).Unit ∧ Mat4.rotation (flipAxis ex ey) = Mat4.scaling ex ey ez := by
  rcases hx with rfl | rfl <;> rcases hy with rfl | rfl <;> rcases hz with rfl | rfl <;>
    norm_num at h <;> norm_num [flipAxis, Vec4.Unit, Vec4.lenSqr, Mat4.rotation, Mat4.scaling]

/-- C08. For every invertible scale, also mirrored ones, recomposing the decomposition gives the
matrix back. -/
theorem recompose_trs (t s : Vec3 ℝ) (q : Vec4 ℝ) (hq : q.Unit)
    (hx : s.x ≠ 0) (hy : s.y ≠ 0) (hz : s.z ≠ 0) :
    Mat4.trs (decomposeTranslation (Mat4.trs t q s)) (decomposeRotation (Mat4.trs t q s))
      (decomposeScale (Mat4.trs t q s)) = Mat4.trs t q s := by
  have ht : decomposeTranslation (Mat4.trs t q s) = t := by rw [trs_entries]; rfl
  have hs := trs_scale t s q hq
  generalize hs' : decomposeScale (Mat4.trs t q s) = s' at hs
  have key : ∃ ex ey ez : ℝ, (ex = 1 ∨ ex = -1) ∧ (ey = 1 ∨ ey = -1) ∧ (ez = 1 ∨ ez = -1) ∧
      ex * ey * ez = 1 ∧ s.x = ex * s'.x ∧ s.y = ey * s'.y ∧ s.z = ez * s'.z := by
    subst hs
    rcases hx.lt_or_gt with h1 | h1 <;> rcases hy.lt_or_gt with h2 | h2 <;>
      rcases hz.lt_or_gt with h3 | h3
    · have h : s.x * s.y * s.z < 0 := mul_neg_of_pos_of_neg (mul_pos_of_neg_of_neg h1 h2) h3
      exact ⟨1, -1, -1, by simp, by simp, by simp, by norm_num,
        by simp [h, abs_of_neg h1], by simp [abs_of_neg h2], by simp [abs_of_neg h3]⟩
    · have h : ¬ s.x * s.y * s.z < 0 := not_lt.2 (mul_pos (mul_pos_of_neg_of_neg h1 h2) h3).le
      exact ⟨-1, -1, 1, by simp, by simp, by simp, by norm_num,
        by simp [h, abs_of_neg h1], by simp [abs_of_neg h2], by simp [abs_of_pos h3]⟩
    · have h : ¬ s.x * s.y * s.z < 0 :=
        not_lt.2 (mul_pos_of_neg_of_neg (mul_neg_of_neg_of_pos h1 h2) h3).le
      exact ⟨-1, 1, -1, by simp, by simp, by simp, by norm_num,
        by simp [h, abs_of_neg h1], by simp [abs_of_pos h2], by simp [abs_of_neg h3]⟩
    · have h : s.x * s.y * s.z < 0 := mul_neg_of_neg_of_pos (mul_neg_of_neg_of_pos h1 h2) h3
      exact ⟨1, 1, 1, by simp, by simp, by simp, by norm_num,
        by simp [h, abs_of_neg h1], by simp [abs_of_pos h2], by simp [abs_of_pos h3]⟩
    · have h : ¬ s.x * s.y * s.z < 0 :=
        not_lt.2 (mul_pos_of_neg_of_neg (mul_neg_of_pos_of_neg h1 h2) h3).le
      exact ⟨1, -1, -1, by simp, by simp, by simp, by norm_num,
        by simp [h, abs_of_pos h1], by simp [abs_of_neg h2], by simp [abs_of_neg h3]⟩
    · have h : s.x * s.y * s.z < 0 := mul_neg_of_neg_of_pos (mul_neg_of_pos_of_neg h1 h2) h3
      exact ⟨-1, -1, 1, by simp, by simp, by simp, by norm_num,
        by simp [h, abs_of_pos h1], by simp [abs_of_neg h2], by simp [abs_of_pos h3]⟩
    · have h : s.x * s.y * s.z < 0 := mul_neg_of_pos_of_neg (mul_pos h1 h2) h3
      exact ⟨-1, 1, -1, by simp, by simp, by simp, by norm_num,
        by simp [h, abs_of_pos h1], by simp [abs_of_pos h2], by simp [abs_of_neg h3]⟩
    · have h : ¬ s.x * s.y * s.z < 0 := not_lt.2 (mul_pos (mul_pos h1 h2) h3).le
      exact ⟨1, 1, 1, by simp, by simp, by simp, by norm_num,
        by simp [h, abs_of_pos h1], by simp [abs_of_pos h2], by simp [abs_of_pos h3]⟩
  obtain ⟨ex, ey, ez, hex, hey, hez, he, h1, h2, h3⟩ := key
  have n1 : s'.x ≠ 0 := by rintro h; rw [h, mul_zero] at h1; exact hx h1
  have n2 : s'.y ≠ 0 := by rintro h; rw [h, mul_zero] at h2; exact hy h2
  have n3 : s'.z ≠ 0 := by rintro h; rw [h, mul_zero] at h3; exact hz h3
  obtain ⟨fu, fr⟩ := flipAxis_spec ex ey ez hex hey hez he
  set p := q.mul (flipAxis ex ey) with hp
  have hpu : p.Unit := by
    simp only [Vec4.Unit] at *; rw [hp, quat_lenSqr_mul, hq, fu, mul_one]
  have hpr : Mat4.rotation p = (Mat4.rotation q).mul (Mat4.scaling ex ey ez) := by
    rw [hp, rotation_mul q _ hq fu, fr]
  have hrot : decomposeRotation (Mat4.trs t q s) = quatOfMat (Mat4.rotation p) := by
    rw [decomposeRotation, hs', quatOfMat, hpr, trs_entries]
    simp only [h1, h2, h3, ← mul_assoc, mul_div_assoc, div_self n1, div_self n2, div_self n3,
      mul_one, Mat4.mul, Mat4.scaling]
    congr 1 <;> ring
  have hrr : Mat4.rotation (quatOfMat (Mat4.rotation p)) = Mat4.rotation p := by
    rcases quatOfMat_rotation p hpu with h | h <;> rw [h]
    exact rotation_negQ p
  rw [ht, hrot, trs_entries, hrr, hpr, trs_entries]
  simp only [h1, h2, h3]
  ext <;> simp only [Mat4.mul, Mat4.scaling, Mat4.rotation] <;> ring

example : (⟨0, 3 / 5, 0, 4 / 5⟩ : Vec4 ℝ).Unit ∧ ((2 : ℝ) ≠ 0 ∧ (-3 : ℝ) ≠ 0 ∧ (5 : ℝ) ≠ 0) := by
  norm_num [Vec4.Unit, Vec4.lenSqr]

/-! ## C09 -/

theorem lt_real (a b : ℝ) : FloatOps.lt a b = true ↔ a < b := by
  show @decide (a < b) (Classical.propDecidable _) = true ↔ _
  simp

/-- C09. `Normalize` of a non-zero 3-vector has length one and the same direction. -/
theorem vec3_normalize (v : Vec3 ℝ) (hv : v ≠ ⟨0, 0, 0⟩) :
    v.normalize.len = 1 ∧ ∃ l > 0, v = ⟨l * v.normalize.x, l * v.normalize.y, l * v.normalize.z⟩ := by
  obtain ⟨x, y, z⟩ := v
  have hp : 0 < x * x + y * y + z * z := by
    by_contra h
    have hx : x = 0 := by nlinarith [mul_self_nonneg x, mul_self_nonneg y, mul_self_nonneg z]
    have hy : y = 0 := by nlinarith [mul_self_nonneg x, mul_self_nonneg y, mul_self_nonneg z]
    have hz : z = 0 := by nlinarith [mul_self_nonneg x, mul_self_nonneg y, mul_self_nonneg z]
    exact hv (by rw [hx, hy, hz])
  have hl : 0 < (⟨x, y, z⟩ : Vec3 ℝ).len := Real.sqrt_pos.2 hp
  have hl2 : (⟨x, y, z⟩ : Vec3 ℝ).len ^ 2 = x * x + y * y + z * z := Real.sq_sqrt hp.le
  simp only [Vec3.normalize, if_pos ((lt_real _ _).2 hl)]
  generalize (⟨x, y, z⟩ : Vec3 ℝ).len = l at hl hl2
  refine ⟨?_, l, hl, ?_⟩
  · show Real.sqrt _ = 1
    rw [Real.sqrt_eq_one]
    field_simp
    linarith
  · ext <;> simp only <;> field_simp

/-- C09. The zero vector becomes a fixed unit vector instead of NaN. -/
theorem vec3_normalize_zero : (⟨0, 0, 0⟩ : Vec3 ℝ).normalize = ⟨1, 0, 0⟩ := by
  have : ¬ (FloatOps.lt (0 : ℝ) (⟨0, 0, 0⟩ : Vec3 ℝ).len = true) := by
    rw [lt_real]; show ¬ (0 : ℝ) < Real.sqrt _; simp
  simp only [Vec3.normalize, if_neg this]

/-- C09, 2-vectors. -/
theorem vec2_normalize (v : Vec2 ℝ) (hv : v ≠ ⟨0, 0⟩) :
    v.normalize.len = 1 ∧ ∃ l > 0, v = ⟨l * v.normalize.x, l * v.normalize.y⟩ := by
  obtain ⟨x, y⟩ := v
  have hp : 0 < x * x + y * y := by
    by_contra h
    have hx : x = 0 := by nlinarith [mul_self_nonneg x, mul_self_nonneg y]
    have hy : y = 0 := by nlinarith [mul_self_nonneg x, mul_self_nonneg y]
    exact hv (by rw [hx, hy])
  have hl : 0 < (⟨x, y⟩ : Vec2 ℝ).len := Real.sqrt_pos.2 hp
  have hl2 : (⟨x, y⟩ : Vec2 ℝ).len ^ 2 = x * x + y * y := Real.sq_sqrt hp.le
  simp only [Vec2.normalize, if_pos ((lt_real _ _).2 hl)]
  generalize (⟨x, y⟩ : Vec2 ℝ).len = l at hl hl2
  refine ⟨?_, l, hl, ?_⟩
  · show Real.sqrt _ = 1
    rw [Real.sqrt_eq_one]
    field_simp
    linarith
  · ext <;> simp only <;> field_simp

theorem vec2_normalize_zero : (⟨0, 0⟩ : Vec2 ℝ).normalize = ⟨1, 0⟩ := by
  have : ¬ (FloatOps.lt (0 : ℝ) (⟨0, 0⟩ : Vec2 ℝ).len = true) := by
    rw [lt_real]; show ¬ (0 : ℝ) < Real.sqrt _; simp
  simp only [Vec2.normalize, if_neg this]

/-- C09, quaternions. -/
theorem quat_normalize (v : Vec4 ℝ) (hv : v ≠ ⟨0, 0, 0, 0⟩) :
    v.normalize.Unit ∧ ∃ l > 0, v = ⟨l * v.normalize.x, l * v.normalize.y, l * v.normalize.z,
      l * v.normalize.w⟩ := by
  obtain ⟨x, y, z, w⟩ := v
  have hp : 0 < x * x + y * y + z * z + w * w := by
    by_contra h
    have hx : x = 0 := by
      nlinarith [mul_self_nonneg x, mul_self_nonneg y, mul_self_nonneg z, mul_self_nonneg w]
    have hy : y = 0 := by
      nlinarith [mul_self_nonneg x, mul_self_nonneg y, mul_self_nonneg z, mul_self_nonneg w]
    have hz : z = 0 := by
      nlinarith [mul_self_nonneg x, mul_self_nonneg y, mul_self_nonneg z, mul_self_nonneg w]
    have hw : w = 0 := by
      nlinarith [mul_self_nonneg x, mul_self_nonneg y, mul_self_nonneg z, mul_self_nonneg w]
    exact hv (by rw [hx, hy, hz, hw])
  have hl : 0 < (⟨x, y, z, w⟩ : Vec4 ℝ).len := Real.sqrt_pos.2 hp
  have hl2 : (⟨x, y, z, w⟩ : Vec4 ℝ).len ^ 2 = x * x + y * y + z * z + w * w := Real.sq_sqrt hp.le
  simp only [Vec4.normalize, if_pos ((lt_real _ _).2 hl)]
  generalize (⟨x, y, z, w⟩ : Vec4 ℝ).len = l at hl hl2
  refine ⟨?_, l, hl, ?_⟩
  · simp only [Vec4.Unit, Vec4.lenSqr]
    field_simp
    linarith
  · ext <;> simp only <;> field_simp

/-- C09. The zero quaternion becomes the identity rotation. -/
theorem quat_normalize_zero : (⟨0, 0, 0, 0⟩ : Vec4 ℝ).normalize = ⟨0, 0, 0, 1⟩ := by
  have : ¬ (FloatOps.lt (0 : ℝ) (⟨0, 0, 0, 0⟩ : Vec4 ℝ).len = true) := by
    rw [lt_real]; show ¬ (0 : ℝ) < Real.sqrt _; simp
  simp only [Vec4.normalize, if_neg this]

example : (⟨1, 2, 2⟩ : Vec3 ℝ) ≠ ⟨0, 0, 0⟩ ∧ (⟨3, 4⟩ : Vec2 ℝ) ≠ ⟨0, 0⟩ ∧
    (⟨1, 0, 0, 2⟩ : Vec4 ℝ) ≠ ⟨0, 0, 0, 0⟩ := by simp

end Verif.Geom
