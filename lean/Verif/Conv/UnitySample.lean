import Verif.Conv.UnityToMqo
import Verif.Conv.FbxConvFindings

/-! A Unity scene for the examples beside the theorems on the Unity converter. -/

namespace Verif.Conv

open Verif.Geom
open Verif.Mqo (Str Object Face Bone MorphTargetList Material PhysicsShape PhysicsBody)

local instance ratOpsUnity0 : FloatOps ℚ := ⟨id, fun a b => decide (a < b), fun a b => decide (a ≤ b)⟩

/-- Arithmetic instead of the functions of `math`. -/
def sampleMath : UMath ℚ where
  trig := ⟨fun x => 1 - x, fun x => x, 3⟩
  euler := fun q => ⟨q.x, q.y, q.z⟩
  angle := fun _ => ⟨0, 0, 0⟩
  size := fun m => m.applyTo ⟨1, 1, 1⟩
  facet := 119 / 2
  diffuse := 4 / 5

def sampleBare (name : Str) (tr : Option (UTransform ℚ)) : UObject ℚ where
  name := name
  active := true
  transform := tr
  meshFilter := none
  meshRenderer := none
  light := none
  boxes := []
  spheres := []
  capsules := []
  meshColliders := []
  rigidbody := none

/-- A house with a box, a pole and an imported mesh below it, a lamp that is switched off and a second root. -/
def sampleUnity : UScene ℚ where
  object := fun k =>
    if k = 0 then
      sampleBare "House".toList (some ⟨⟨1, 2, 3⟩, ⟨0, 0, 0, 1⟩, ⟨2, 2, 2⟩, [some 1, some 2, some 3, none, some 4]⟩)
    else if k = 1 then
      { sampleBare "Box".toList (some ⟨⟨0, 0, 5⟩, ⟨0, 1, 0, 0⟩, ⟨1, 3, 1⟩, []⟩) with
        meshFilter := some (some ⟨10202, builtinGUID, 0⟩)
        meshRenderer := some ⟨true, ["aa".toList]⟩
        boxes := [(⟨0, 0, 1⟩, ⟨1, 1, 1⟩)]
        rigidbody := some ⟨7, 0, 1, false⟩ }
    else if k = 2 then
      { sampleBare "Pole".toList (some ⟨⟨4, 0, 0⟩, ⟨0, 0, 0, 1⟩, ⟨1, 1, 1⟩, []⟩) with
        meshFilter := some (some ⟨10206, builtinGUID, 0⟩)
        meshRenderer := some ⟨true, ["aa".toList]⟩
        meshColliders := [⟨10206, builtinGUID, 0⟩, ⟨5, "zz".toList, 3⟩] }
    else if k = 3 then
      { sampleBare "Door".toList (some ⟨⟨0, 1, 0⟩, ⟨0, 0, 0, 1⟩, ⟨1, 1, 1⟩, []⟩) with
        meshFilter := some (some ⟨4300000, "ff".toList, 3⟩)
        meshRenderer := some ⟨false, ["bb".toList, "aa".toList]⟩ }
    else if k = 4 then
      { sampleBare "Lamp".toList (some ⟨⟨0, 9, 1⟩, ⟨0, 0, 0, 1⟩, ⟨1, 1, 1⟩, []⟩) with
        active := false
        light := some ⟨2, ⟨1, 1, 0, 1⟩, 5, 10, 30, 20⟩
        spheres := [(⟨0, 1, 0⟩, 1 / 2)] }
    else
      { sampleBare "Tree".toList (some ⟨⟨0, 0, 0⟩, ⟨0, 0, 0, 1⟩, ⟨1, 1, 1⟩, []⟩) with
        meshFilter := some (some ⟨4300002, "ff".toList, 3⟩)
        meshRenderer := some ⟨true, []⟩ }
  roots := [0, 5]
  material := fun g =>
    if g = "aa".toList then
      some ⟨"Wood".toList, some ⟨1, 1 / 2, 0, 1⟩, some ⟨0, 0, 1, 1⟩, some ⟨some ⟨2800000, "tt".toList, 3⟩, ⟨2, 3⟩, ⟨0, 0⟩⟩, none⟩
    else none
  asset := fun g => if g = "tt".toList then some "Assets/Textures/wood.png".toList else none
  saved := fun _ => true
  fbx := fun g => if g = "ff".toList then
      some ⟨skinScene, [dummyUnity, dummyUnity], 100, fun k => if k = 4300000 then "Box".toList else []⟩ else none

def sampleOptions : UOptions ℚ := ⟨true, 10, true⟩

/-- The result of the sample. -/
def sampleUnityResult : Option (UState ℚ) := unityConvert sampleMath sampleUnity sampleOptions 6 3

/-- The conversion succeeds: all theorems on the converter apply to it. -/
example : sampleUnityResult.isSome = true := by decide +kernel

end Verif.Conv
