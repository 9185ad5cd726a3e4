import Verif.Mqo.RotationProps
import Verif.Geom.DecomposeProps

/-! Model of `Document.ApplyTransform` (mqo/utils.go:30-41) with the parts it is made of, and of the options that
scale a document (cmd/modelconv/main.go:255-263), over the real numbers. `Object.applyTransform` is in Verif/Mqo/Core.lean.
-/

namespace Verif.Mqo

open Verif.Geom Real

/-- mqo/mqo.go:297-299 (`GetLocalTransform`); a nil pointer if a part is missing. -/
noncomputable def Object.localTransform (o : Object ℝ) : Option (Mat4 ℝ) :=
  match o.translation, o.getRotation, o.scale with
  | some t, some r, some s => some (Mat4.trs t r s)
  | _, _, _ => none

/-- mqo/mqo.go:301-306 (`SetLocalTransform`). -/
noncomputable def Object.setLocalTransform (o : Object ℝ) (m : Mat4 ℝ) : Object ℝ :=
  { o with translation := some (decomposeTranslation m), scale := some (decomposeScale m) }.setRotation (decomposeRotation m)

/-- mqo/utils.go:32-35: one object. -/
noncomputable def moveObject (m : Mat4 ℝ) (o : Object ℝ) : Option (Object ℝ) :=
  o.localTransform.map fun l => (o.setLocalTransform (m.mul l)).applyTransform m

/-- mqo/bone_plugin.go:239-243 (`BonePlugin.ApplyTransform`). -/
def BonePlugin.applyTransform (m : Mat4 ℝ) (p : BonePlugin ℝ) : BonePlugin ℝ :=
  { p with bones := p.bones.map fun b => { b with pos := m.applyTo b.pos } }

/-- mqo/physics_plugin.go:96-100: one shape. -/
noncomputable def PhysicsShape.applyTransform (m : Mat4 ℝ) (s : PhysicsShape ℝ) : PhysicsShape ℝ :=
  { s with
    position := m.applyTo s.position
    size := ⟨|s.size.x * (decomposeScale m).x|, |s.size.y * (decomposeScale m).y|, |s.size.z * (decomposeScale m).z|⟩ }

/-- mqo/physics_plugin.go:93-102 (`PhysicsPlugin.ApplyTransform`). -/
noncomputable def PhysicsPlugin.applyTransform (m : Mat4 ℝ) (p : PhysicsPlugin ℝ) : PhysicsPlugin ℝ :=
  { p with bodies := p.bodies.map fun b => { b with shapes := b.shapes.map (PhysicsShape.applyTransform m) } }

/-- mqo/utils.go:31-41 (`Document.ApplyTransform`). Of the plugins only those for bones and bodies have such a method. -/
noncomputable def Document.applyTransform (m : Mat4 ℝ) (doc : Document ℝ) : Option (Document ℝ) :=
  (doc.objects.mapM (moveObject m)).map fun os =>
    { doc with
      objects := os
      bonePlugin := doc.bonePlugin.map (BonePlugin.applyTransform m)
      physicsPlugin := doc.physicsPlugin.map (PhysicsPlugin.applyTransform m) }

/-- cmd/modelconv/main.go:255-263: the options `-scale` and `-rot180` with the scale vector. Left out: an empty bone plugin
is added if there is none. -/
noncomputable def scaleDocument (v : Vec3 ℝ) (rot180 : Bool) (doc : Document ℝ) : Option (Document ℝ) :=
  (doc.applyTransform (Mat4.scaling v.x v.y v.z)).map fun d =>
    if rot180 then
      { d with bonePlugin := d.bonePlugin.map fun p =>
          { p with bones := p.bones.map fun b => { b with rotationOffset := { b.rotationOffset with y := π } } } }
    else d

end Verif.Mqo
