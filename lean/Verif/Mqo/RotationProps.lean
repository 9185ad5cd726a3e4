import Verif.Mqo.Core
import Verif.Geom.EulerProps
import Mathlib.Tactic.FieldSimp
import Mathlib.Tactic.LinearCombination

/-! Property C22: `SetRotation` and `GetRotation`, over the real numbers. -/

namespace Verif.Mqo

open Verif.Geom Real

/-- mqo/mqo.go:288-291 (`SetRotation`). -/
noncomputable def Object.setRotation (o : Object ℝ) (q : Vec4 ℝ) : Object ℝ :=
  { o with rotation := some ((eulerFromQuat q .zxy).scale (180 / π)) }

/-- mqo/mqo.go:293-295 (`GetRotation`); a nil pointer if the object has no rotation. -/
noncomputable def Object.getRotation (o : Object ℝ) : Option (Vec4 ℝ) :=
  o.rotation.map fun r => eulerToQuat (r.scale (π / 180)) .yxz

theorem degrees (v : Vec3 ℝ) : (v.scale (180 / π)).scale (π / 180) = v := by
  have := pi_ne_zero
  obtain ⟨x, y, z⟩ := v
  simp only [Vec3.scale, Vec3.mk.injEq]
  refine ⟨?_, ?_, ?_⟩ <;> field_simp

theorem getRotation_setRotation (o : Object ℝ) (q : Vec4 ℝ) :
    (o.setRotation q).getRotation = some (eulerToQuat (eulerFromQuat q .zxy) .yxz) := by
  simp [Object.setRotation, Object.getRotation, degrees]

/-- C22 is false: a rotation composed of a turn `y` about the y axis followed by a turn `z` about the z
axis comes back as a different rotation, unless `y` is no turn or `z` is no turn or a half turn. -/
theorem setRotation_false (o : Object ℝ) (y z : ℝ) (hy : y ∈ Set.Ioc (-π) π) (hz : z ∈ Set.Ioc (-π) π)
    (h1 : cos y ≠ 1) (h2 : sin z ≠ 0) :
    ∃ q', (o.setRotation (eulerToQuat ⟨0, y, z⟩ .zxy)).getRotation = some q' ∧
      Mat4.rotation q' ≠ Mat4.rotation (eulerToQuat ⟨0, y, z⟩ .zxy) := by
  refine ⟨_, getRotation_setRotation _ _, ?_⟩
  rw [euler_angles_recovered ⟨0, y, z⟩ .zxy (by decide) 0 y z rfl rfl rfl
    ⟨by have := pi_pos; simp [this], by have := pi_pos; simp [this]⟩ (by norm_num) hy hz]
  rw [eulerToQuat_rotation, eulerToQuat_rotation]
  intro h
  have := congrArg Mat4.m1 h
  simp [composed, rotX, rotY, rotZ, Mat4.mul] at this
  have h3 : (1 - cos y) * sin z = 0 := by linarith
  rcases mul_eq_zero.1 h3 with h4 | h4
  · exact h1 (by linarith)
  · exact h2 h4

/-- Quarter turns. -/
example : (π / 2 : ℝ) ∈ Set.Ioc (-π) π ∧ cos (π / 2) ≠ 1 ∧ sin (π / 2) ≠ 0 := by
  have := pi_pos
  exact ⟨⟨by linarith, by linarith⟩, by simp, by simp⟩

theorem atan2_zero : atan2 0 1 = 0 := Complex.arg_one

theorem cos_atan2 (t : ℝ) : cos (atan2 (sin t) (cos t)) = cos t ∧ sin (atan2 (sin t) (cos t)) = sin t := by
  have := atan2_spec (sin t) (cos t) 1 one_pos (by have := sin_sq_add_cos_sq t; linarith)
  simpa using this

/-- C22, the part that holds: turns about one of the axes come back as the same rotation (about the x
axis: except for angles whose sine is within 1e-8 of ±1 without being ±1, where the extraction of
angles is inexact). Missing: rotations about other axes, for which it is false in general. -/
theorem setRotation_axis_partial (o : Object ℝ) (t : ℝ) :
    (∃ q', (o.setRotation (quatY t)).getRotation = some q' ∧ Mat4.rotation q' = Mat4.rotation (quatY t)) ∧
    (∃ q', (o.setRotation (quatZ t)).getRotation = some q' ∧ Mat4.rotation q' = Mat4.rotation (quatZ t)) ∧
    (|sin t| < 1 - 0.00000001 ∨ |sin t| = 1 →
      ∃ q', (o.setRotation (quatX t)).getRotation = some q' ∧ Mat4.rotation q' = Mat4.rotation (quatX t)) := by
  obtain ⟨c, s⟩ := cos_atan2 t
  refine ⟨⟨_, getRotation_setRotation _ _, ?_⟩, ⟨_, getRotation_setRotation _ _, ?_⟩, fun h => ⟨_, getRotation_setRotation _ _, ?_⟩⟩
  · rw [eulerToQuat_rotation, rotation_quatY]
    have hv : eulerFromQuat (quatY t) .zxy = ⟨0, atan2 (sin t) (cos t), 0⟩ := by
      rw [eulerFromQuat, rotation_quatY]
      have hm : |(rotY t).m6| < 1 - 0.00000001 := by norm_num [rotY]
      simp only [eulerFromMat]
      rw [if_pos hm]
      simp [rotY, atan2_zero]
    rw [hv]
    ext <;> simp [composed, rotX, rotY, rotZ, Mat4.mul, c, s]
  · rw [eulerToQuat_rotation, rotation_quatZ]
    have hv : eulerFromQuat (quatZ t) .zxy = ⟨0, 0, atan2 (sin t) (cos t)⟩ := by
      rw [eulerFromQuat, rotation_quatZ]
      have hm : |(rotZ t).m6| < 1 - 0.00000001 := by norm_num [rotZ]
      simp only [eulerFromMat]
      rw [if_pos hm]
      simp [rotZ, atan2_zero]
    rw [hv]
    ext <;> simp [composed, rotX, rotY, rotZ, Mat4.mul, c, s]
  · -- the composition in the order of extraction is right; here it agrees with the other order
    have hu := euler_roundtrip (quatX t) (quatX_unit t) .zxy (by decide) (by
      rw [rotation_quatX]; simpa [crit, rotX] using h)
    rw [← hu, eulerToQuat_rotation, eulerToQuat_rotation]
    have hv : ∃ a b, eulerFromQuat (quatX t) .zxy = ⟨a, b, b⟩ ∧ sin b = 0 := by
      rw [eulerFromQuat, rotation_quatX]
      simp only [eulerFromMat]
      by_cases hc : |(rotX t).m6| < 1 - 0.00000001
      · rw [if_pos hc]
        refine ⟨arcsin (max (-1) (min (sin t) 1)), atan2 0 (cos t), by simp [rotX], ?_⟩
        unfold atan2
        rw [Complex.sin_arg]
        simp
      · rw [if_neg hc]
        exact ⟨arcsin (max (-1) (min (sin t) 1)), 0, by simp [rotX, atan2_zero], by simp⟩
    obtain ⟨a, b, hv, hb⟩ := hv
    rw [hv]
    have hcc : cos b * cos b = 1 := by
      have := sin_sq_add_cos_sq b
      rw [hb] at this
      linarith
    ext <;> simp [composed, rotX, rotY, rotZ, Mat4.mul, hb] <;>
      first
        | ring1
        | linear_combination sin a * hcc
        | linear_combination -sin a * hcc

end Verif.Mqo
