import Verif.Mqo.Pose
import Verif.Geom.Euler

/-! Model of `BoneAdjustX` (mqo/bone_plugin.go:319-349) and of the option `-autotpose` (cmd/modelconv/main.go:293-301),
over the real numbers. Simplified as in Verif/Mqo/Pose.lean: bones are identified by their ids. -/

namespace Verif.Mqo

open Verif.Geom Real

/-- mqo/bone_plugin.go:324-332: one bone; the state is `max` and `boneVec`. -/
noncomputable def longerChild (base : Bone ℝ) (st : ℝ × Option (Vec3 ℝ)) (b : Bone ℝ) : ℝ × Option (Vec3 ℝ) :=
  if b.parent = base.id then
    let v := b.pos.sub base.pos
    if FloatOps.lt st.1 v.lenSqr then (v.lenSqr, some v) else st
  else st

/-- mqo/bone_plugin.go:322-332: the vector to the farthest child. -/
noncomputable def boneVec (base : Bone ℝ) (bones : List (Bone ℝ)) : Option (Vec3 ℝ) :=
  (bones.foldl (longerChild base) (0, none)).2

open Classical in
/-- mqo/bone_plugin.go:337-344: the angle. -/
noncomputable def adjustAngle (v : Vec3 ℝ) : ℝ :=
  if |atan2 v.y v.x| < π / 2 then -atan2 v.y v.x else π - atan2 v.y v.x

/-- mqo/bone_plugin.go:345. -/
noncomputable def adjustQuat (r : ℝ) : Vec4 ℝ := eulerToQuat ⟨0, 0, r⟩ .xyz

/-- mqo/bone_plugin.go:346-348 with 253, 258: the offsets of the bones that turn. -/
noncomputable def addOffset (ts : List Int) (r : ℝ) (b : Bone ℝ) : Bone ℝ :=
  if b.id ∈ ts then { b with rotationOffset := { b.rotationOffset with x := b.rotationOffset.x + r } } else b

/-- mqo/bone_plugin.go:321-349 (`BoneAdjustX`): bones and objects. -/
noncomputable def boneAdjustX (base : Bone ℝ) (st : List (Bone ℝ) × List (Object ℝ)) : List (Bone ℝ) × List (Object ℝ) :=
  match boneVec base st.1 with
  | none => st
  | some v =>
    let q := adjustQuat (adjustAngle v)
    ((turnBones q base st.1).map (addOffset (turning base.id st.1) (adjustAngle v)),
      st.2.map (turnObject q base st.1))

/-- cmd/modelconv/main.go:293-301: one bone that matches, with its present place. -/
noncomputable def tposeStep (st : List (Bone ℝ) × List (Object ℝ)) (id : Int) : List (Bone ℝ) × List (Object ℝ) :=
  match st.1.find? fun b => b.id = id with
  | some b => boneAdjustX b st
  | none => st

/-- cmd/modelconv/main.go:293-301 (`-autotpose`); `m` tells the names that match. -/
noncomputable def autoTpose (m : Str → Bool) (st : List (Bone ℝ) × List (Object ℝ)) : List (Bone ℝ) × List (Object ℝ) :=
  ((st.1.filter fun b => m b.name).map Bone.id).foldl tposeStep st

end Verif.Mqo
