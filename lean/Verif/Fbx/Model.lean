import Verif.Geom.EulerProps
import Verif.Geom.MatProps
import Mathlib.Logic.Function.Basic

/-!
fbx/fbx_model.go: local and world matrices, and the parent links made by fbx/fbx_document.go.
Numbers are reals; models are pointers (natural numbers) into a heap.
-/

namespace Verif.Fbx

open Verif.Geom Real

/-- The parts of `Model` (fbx_model.go:9-13) used here. The four vectors are the properties
`PreRotation`, `Lcl Translation`, `Lcl Rotation` (degrees) and `Lcl Scaling` as `GetProperty`
returns them. -/
structure ModelData where
  preRotation : Vec3 ℝ
  translation : Vec3 ℝ
  rotation : Vec3 ℝ
  scaling : Vec3 ℝ
  parent : Option Nat
  cached : Option (Mat4 ℝ)
  refs : List Nat

abbrev Heap := Nat → ModelData

/-- fbx_model.go:54-65: the matrix computed by `UpdateMatrix`. -/
noncomputable def localMatrix (m : ModelData) : Mat4 ℝ :=
  let prerot := Mat4.rotation (eulerToQuat (m.preRotation.scale (π / 180)) .zyx)
  let rot := Mat4.rotation (eulerToQuat (m.rotation.scale (π / 180)) .zyx)
  (((Mat4.translation m.translation.x m.translation.y m.translation.z).mul prerot).mul rot).mul
    (Mat4.scaling m.scaling.x m.scaling.y m.scaling.z)

/-- fbx_model.go:54-65. -/
noncomputable def updateMatrix (h : Heap) (m : Nat) : Heap :=
  Function.update h m { h m with cached := some (localMatrix (h m)) }

/-- fbx_model.go:67-72. -/
noncomputable def getMatrix (h : Heap) (m : Nat) : Mat4 ℝ × Heap :=
  match (h m).cached with
  | some c => (c, h)
  | none => (localMatrix (h m), updateMatrix h m)

/-- fbx_model.go:74-79. `none`: the recursion did not end within `fuel` calls. Go evaluates the
parent's matrix first. -/
noncomputable def getWorldMatrix : Nat → Heap → Nat → Option (Mat4 ℝ × Heap)
  | 0, _, _ => none
  | fuel + 1, h, m =>
    match (h m).parent with
    | none => some (getMatrix h m)
    | some p =>
      (getWorldMatrix fuel h p).map fun r =>
        let l := getMatrix r.2 m
        (r.1.mul l.1, l.2)

/-- fbx_model.go:30-32. -/
def setTranslation (h : Heap) (m : Nat) (v : Vec3 ℝ) : Heap :=
  Function.update h m { h m with translation := v }

/-- fbx_model.go:38-40. -/
def setRotation (h : Heap) (m : Nat) (v : Vec3 ℝ) : Heap :=
  Function.update h m { h m with rotation := v }

/-- fbx_model.go:50-52. -/
def setScaling (h : Heap) (m : Nat) (v : Vec3 ℝ) : Heap :=
  Function.update h m { h m with scaling := v }

/-- fbx_document.go:157-161, for two models: only the reference list changes (the connection node
that is also added is not part of this heap). -/
def addConnection (h : Heap) (parent child : Nat) : Heap :=
  Function.update h parent { h parent with refs := (h parent).refs ++ [child] }

/-- fbx_document.go:127-136: a connection between two models read from a file. -/
def loadConnection (h : Heap) (parent child : Nat) : Heap :=
  let h1 := addConnection h parent child
  Function.update h1 child { h1 child with parent := some parent }

end Verif.Fbx
