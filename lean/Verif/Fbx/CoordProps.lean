import Verif.Geom.MatProps
import Mathlib.Tactic.LinearCombination

/-!
C75: the axis conversion matrix of an FBX document (fbx/fbx_document.go:169-181).
-/

namespace Verif.Fbx

open Verif.Geom

variable {F : Type} [CommRing F]

/-- The six settings that `CoordMatrix` reads, defaults filled in. -/
structure Axes (F : Type) where
  coord : Int
  coordSign : F
  up : Int
  upSign : F
  front : Int
  frontSign : F

/-- `mat[i] = v` on a `[16]float32`; `none` is the index panic. -/
def setAt (m : Mat4 F) (i : Int) (v : F) : Option (Mat4 F) :=
  if i = 0 then some { m with m0 := v } else if i = 1 then some { m with m1 := v }
  else if i = 2 then some { m with m2 := v } else if i = 3 then some { m with m3 := v }
  else if i = 4 then some { m with m4 := v } else if i = 5 then some { m with m5 := v }
  else if i = 6 then some { m with m6 := v } else if i = 7 then some { m with m7 := v }
  else if i = 8 then some { m with m8 := v } else if i = 9 then some { m with m9 := v }
  else if i = 10 then some { m with m10 := v } else if i = 11 then some { m with m11 := v }
  else if i = 12 then some { m with m12 := v } else if i = 13 then some { m with m13 := v }
  else if i = 14 then some { m with m14 := v } else if i = 15 then some { m with m15 := v }
  else none

/-- fbx_document.go:169-181. -/
def coordMatrix (a : Axes F) : Option (Mat4 F) := do
  let m : Mat4 F := ⟨0, 0, 0, 0, 0, 0, 0, 0, 0, 0, 0, 0, 0, 0, 0, 1⟩
  let m ← setAt m (a.coord * 4) a.coordSign
  let m ← setAt m (a.up * 4 + 1) a.upSign
  setAt m (a.front * 4 + 2) a.frontSign

/-- Component of a vector by number. -/
def comp (v : Vec3 F) (i : Int) : F := if i = 0 then v.x else if i = 1 then v.y else v.z

/-- An axis number as FBX defines it. -/
def IsAxis (i : Int) : Prop := i = 0 ∨ i = 1 ∨ i = 2

/-- C75. The matrix takes the component named by each setting, with the sign of that setting: X
from the coordinate axis, Y from the up axis, Z from the front axis. -/
theorem coordMatrix_applyTo (a : Axes F) (hc : IsAxis a.coord) (hu : IsAxis a.up)
    (hf : IsAxis a.front) : ∃ m, coordMatrix a = some m ∧ ∀ v : Vec3 F, m.applyTo v =
      ⟨a.coordSign * comp v a.coord, a.upSign * comp v a.up, a.frontSign * comp v a.front⟩ := by
  obtain ⟨c, cs, u, us, f, fs⟩ := a
  simp only at hc hu hf
  rcases hc with rfl | rfl | rfl <;> rcases hu with rfl | rfl | rfl <;>
    rcases hf with rfl | rfl | rfl <;>
    exact ⟨_, rfl, fun v => by simp [Mat4.applyTo, comp]⟩

/-- C75. With three different axes and signs of ±1 no distance changes: squared distances between
converted points are those between the original ones. -/
theorem coordMatrix_isometry (a : Axes F) (hc : IsAxis a.coord) (hu : IsAxis a.up)
    (hf : IsAxis a.front) (h1 : a.coord ≠ a.up) (h2 : a.up ≠ a.front) (h3 : a.coord ≠ a.front)
    (s1 : a.coordSign * a.coordSign = 1) (s2 : a.upSign * a.upSign = 1)
    (s3 : a.frontSign * a.frontSign = 1) (m : Mat4 F) (hm : coordMatrix a = some m)
    (v w : Vec3 F) :
    ((m.applyTo v).x - (m.applyTo w).x) ^ 2 + ((m.applyTo v).y - (m.applyTo w).y) ^ 2 +
      ((m.applyTo v).z - (m.applyTo w).z) ^ 2 =
    (v.x - w.x) ^ 2 + (v.y - w.y) ^ 2 + (v.z - w.z) ^ 2 := by
  obtain ⟨m', e, h⟩ := coordMatrix_applyTo a hc hu hf
  rw [hm] at e
  obtain rfl := Option.some.inj e
  rw [h v, h w]
  have key : (comp v a.coord - comp w a.coord) ^ 2 + (comp v a.up - comp w a.up) ^ 2 +
      (comp v a.front - comp w a.front) ^ 2 =
      (v.x - w.x) ^ 2 + (v.y - w.y) ^ 2 + (v.z - w.z) ^ 2 := by
    obtain ⟨c, cs, u, us, f, fs⟩ := a
    simp only at *
    rcases hc with rfl | rfl | rfl <;> rcases hu with rfl | rfl | rfl <;>
      rcases hf with rfl | rfl | rfl <;> simp only [comp] <;>
      (first | (exfalso; omega) | (simp; done) | (simp; ring1))
  rw [← key]
  simp only
  linear_combination ((comp v a.coord - comp w a.coord) ^ 2) * s1 +
    ((comp v a.up - comp w a.up) ^ 2) * s2 + ((comp v a.front - comp w a.front) ^ 2) * s3

/-- An axis number outside 0..3 in the file is an index panic; 3 is taken as a translation. -/
theorem coordMatrix_panics (a : Axes F) (h : a.coord < 0 ∨ 3 < a.coord) : coordMatrix a = none := by
  unfold coordMatrix setAt
  simp only
  repeat rw [if_neg (by omega)]
  rfl

/-- Y-up, Z-up and mirrored settings all satisfy the hypotheses. -/
example : coordMatrix (⟨0, 1, 2, 1, 1, -1⟩ : Axes Int) =
    some ⟨1, 0, 0, 0, 0, 0, -1, 0, 0, 1, 0, 0, 0, 0, 0, 1⟩ := by decide

example : coordMatrix (⟨3, 1, 1, 1, 2, 1⟩ : Axes Int) =
    some ⟨0, 0, 0, 0, 0, 1, 0, 0, 0, 0, 1, 0, 1, 0, 0, 1⟩ := by decide

end Verif.Fbx
