import Verif.Geom.Mat
import Mathlib.Analysis.SpecialFunctions.Complex.Arg

/-!
Model of geom/euler.go and of `Matrix4.Decompose` (geom/matrix4.go:166-217), over the real numbers.
float32/float64 rounding is not modelled.
-/

namespace Verif.Geom

open Real

/-- Real arithmetic as an instance of the abstract operations. -/
noncomputable instance instFloatOpsReal : FloatOps ℝ where
  sqrt := Real.sqrt
  lt a b := @decide (a < b) (Classical.propDecidable _)
  le a b := @decide (a ≤ b) (Classical.propDecidable _)

/-- geom/euler.go:5-12; `other` stands for any further integer value. -/
inductive Order
  | xyz | yxz | zxy | zyx | other
deriving DecidableEq

/-- `math.Atan2(y, x)`: the argument of `x + i y`. Go and Mathlib agree on all finite arguments
except for the sign of zero. -/
noncomputable def atan2 (y x : ℝ) : ℝ := Complex.arg ⟨x, y⟩

/-- geom/euler.go:79-115 (`ToQuaternion`). -/
noncomputable def eulerToQuat (v : Vec3 ℝ) (o : Order) : Vec4 ℝ :=
  let cx := cos (v.x / 2)
  let cy := cos (v.y / 2)
  let cz := cos (v.z / 2)
  let sx := sin (v.x / 2)
  let sy := sin (v.y / 2)
  let sz := sin (v.z / 2)
  match o with
  | .xyz => ⟨sx * cy * cz + cx * sy * sz, cx * sy * cz - sx * cy * sz,
             cx * cy * sz + sx * sy * cz, cx * cy * cz - sx * sy * sz⟩
  | .yxz => ⟨sx * cy * cz + cx * sy * sz, cx * sy * cz - sx * cy * sz,
             cx * cy * sz - sx * sy * cz, cx * cy * cz + sx * sy * sz⟩
  | .zxy => ⟨sx * cy * cz - cx * sy * sz, cx * sy * cz + sx * cy * sz,
             cx * cy * sz + sx * sy * cz, cx * cy * cz - sx * sy * sz⟩
  | .zyx => ⟨sx * cy * cz - cx * sy * sz, cx * sy * cz + sx * cy * sz,
             cx * cy * sz - sx * sy * cz, cx * cy * cz + sx * sy * sz⟩
  | .other => ⟨0, 0, 0, 1⟩

open Classical in
/-- geom/euler.go:27-77 (`NewEulerFromMatrix4`), `eps` is the constant of line 28. -/
noncomputable def eulerFromMat (mat : Mat4 ℝ) (o : Order) (eps : ℝ := 0.00000001) : Vec3 ℝ :=
  let m11 := mat.m0
  let m21 := mat.m1
  let m31 := mat.m2
  let m12 := mat.m4
  let m22 := mat.m5
  let m32 := mat.m6
  let m13 := mat.m8
  let m23 := mat.m9
  let m33 := mat.m10
  match o with
  | .xyz =>
    if |m13| < 1 - eps then ⟨atan2 (-m23) m33, arcsin (max (-1) (min m13 1)), atan2 (-m12) m11⟩
    else ⟨atan2 m32 m22, arcsin (max (-1) (min m13 1)), 0⟩
  | .yxz =>
    if |m23| < 1 - eps then ⟨arcsin (-max (-1) (min m23 1)), atan2 m13 m33, atan2 m21 m22⟩
    else ⟨arcsin (-max (-1) (min m23 1)), atan2 (-m31) m11, 0⟩
  | .zxy =>
    if |m32| < 1 - eps then ⟨arcsin (max (-1) (min m32 1)), atan2 (-m31) m33, atan2 (-m12) m22⟩
    else ⟨arcsin (max (-1) (min m32 1)), 0, atan2 m21 m11⟩
  | .zyx =>
    if |m31| < 1 - eps then ⟨atan2 m32 m33, arcsin (-max (-1) (min m31 1)), atan2 m21 m11⟩
    else ⟨0, arcsin (-max (-1) (min m31 1)), atan2 (-m12) m22⟩
  | .other => ⟨0, 0, 0⟩

/-- geom/euler.go:23-25 (`NewEulerFromQuaternion`). -/
noncomputable def eulerFromQuat (q : Vec4 ℝ) (o : Order) : Vec3 ℝ :=
  eulerFromMat (Mat4.rotation q) o

open Classical in
/-- geom/matrix4.go:167-174: the scale part of `Decompose`. -/
noncomputable def decomposeScale (mat : Mat4 ℝ) : Vec3 ℝ :=
  let sx := (⟨mat.m0, mat.m1, mat.m2⟩ : Vec3 ℝ).len
  let sy := (⟨mat.m4, mat.m5, mat.m6⟩ : Vec3 ℝ).len
  let sz := (⟨mat.m8, mat.m9, mat.m10⟩ : Vec3 ℝ).len
  ⟨if mat.det < 0 then -sx else sx, sy, sz⟩

open Classical in
/-- geom/matrix4.go:179-213: quaternion of a 3x3 rotation matrix (entries by row and column). -/
noncomputable def quatFromEntries (m11 m12 m13 m21 m22 m23 m31 m32 m33 : ℝ) : Vec4 ℝ :=
  let trace := m11 + m22 + m33
  if trace > 0 then
    let s := 0.5 / Real.sqrt (trace + 1)
    ⟨(m32 - m23) * s, (m13 - m31) * s, (m21 - m12) * s, 0.25 / s⟩
  else if m11 > m22 ∧ m11 > m33 then
    let s := 2 * Real.sqrt (1 + m11 - m22 - m33)
    ⟨0.25 * s, (m12 + m21) / s, (m13 + m31) / s, (m32 - m23) / s⟩
  else if m22 > m33 then
    let s := 2 * Real.sqrt (1 + m22 - m11 - m33)
    ⟨(m12 + m21) / s, 0.25 * s, (m23 + m32) / s, (m13 - m31) / s⟩
  else
    let s := 2 * Real.sqrt (1 + m33 - m11 - m22)
    ⟨(m13 + m31) / s, (m23 + m32) / s, 0.25 * s, (m21 - m12) / s⟩

/-- geom/matrix4.go:176-213. -/
noncomputable def decomposeRotation (mat : Mat4 ℝ) : Vec4 ℝ :=
  let s := decomposeScale mat
  quatFromEntries (mat.m0 / s.x) (mat.m4 / s.y) (mat.m8 / s.z)
    (mat.m1 / s.x) (mat.m5 / s.y) (mat.m9 / s.z)
    (mat.m2 / s.x) (mat.m6 / s.y) (mat.m10 / s.z)

/-- geom/matrix4.go:215. -/
def decomposeTranslation (mat : Mat4 ℝ) : Vec3 ℝ := ⟨mat.m12, mat.m13, mat.m14⟩

end Verif.Geom
