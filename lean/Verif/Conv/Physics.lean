import Verif.Conv.GltfNodes
import Verif.Conv.MqoToMmd
import Verif.Vrm.Config
import Mathlib.Logic.Function.Basic

/-! Model of the physics part of converter/mqo2gltf.go (rigid bodies as an extension of the nodes) and of
converter/vrmconfig.go (colliders of VRM). -/

namespace Verif.Conv

open Verif.Geom
open Verif.Mqo (Str Bone Object PhysicsBody PhysicsShape)

variable {F : Type}

/-! ### The extension of the nodes -/

/-- A shape of the extension (converter/mqo2gltf.go:935-945), a map with these entries. -/
structure NodeShape (F : Type) where
  boundingBox : Vec3 F
  shapeType : Str
  offsetTranslation : Vec3 F
  offsetScale : Vec3 F
deriving DecidableEq

/-- converter/mqo2gltf.go:100-106 (`BlenderPhysicsBody`). -/
structure NodeBody (F : Type) where
  shapes : List (NodeShape F)
  mass : F
  static : Bool
  collisionGroups : Int
  collisionMasks : Int
deriving DecidableEq

/-- converter/mqo2gltf.go:934-946. -/
def nodeShape [Sub F] [Mul F] (scale : F) (nodePos : Vec3 F) (s : PhysicsShape F) : NodeShape F where
  boundingBox := ⟨s.size.x * scale, s.size.y * scale, s.size.z * scale⟩
  shapeType := s.type
  offsetTranslation := ⟨(s.position.x - nodePos.x) * scale, (s.position.y - nodePos.y) * scale,
    (s.position.z - nodePos.z) * scale⟩
  offsetScale := ⟨s.size.x * scale, s.size.y * scale, s.size.z * scale⟩

/-- converter/mqo2gltf.go:931-965 (`addPhysicsBody`). `old` is the extension of the node, if there is one. -/
def addPhysicsBody [Add F] [Sub F] [Mul F] (scale : F) (nodePos : Vec3 F) (body : PhysicsBody F)
    (old : Option (NodeBody F)) : Option (NodeBody F) :=
  let shapes := body.shapes.map (nodeShape scale nodePos)
  if 0 < shapes.length then
    match old with
    | some p => some { p with
        shapes := p.shapes ++ shapes, mass := p.mass + body.mass, static := p.static || body.kinematic }
    | none => some ⟨shapes, body.mass, body.kinematic, body.collisionGroup, body.collisionMask⟩
  else old

/-- converter/mqo2gltf.go:796-803: one body, for the bones. The state is the extension of each bone node (numbered
without the nodes in front of them). -/
def addBoneBody [Add F] [Sub F] [Mul F] (scale : F) (bones : List (Bone F)) (ext : Nat → Option (NodeBody F))
    (body : PhysicsBody F) : Nat → Option (NodeBody F) :=
  if body.targetBoneID = 0 then ext
  else
    match findBone bones body.targetBoneID with
    | none => ext
    | some n =>
      match bones[n]? with
      | none => ext
      | some b => Function.update ext n (addPhysicsBody scale b.pos body (ext n))

/-- converter/mqo2gltf.go:794-804. -/
def boneBodies [Add F] [Sub F] [Mul F] (scale : F) (bones : List (Bone F)) (bodies : List (PhysicsBody F)) :
    Nat → Option (NodeBody F) :=
  bodies.foldl (addBoneBody scale bones) fun _ => none

/-- converter/mqo2gltf.go:891-898: the extension of the node of an object with this number. -/
def objectBody [Add F] [Sub F] [Mul F] [Zero F] (scale : F) (uid : Int) (bodies : List (PhysicsBody F)) :
    Option (NodeBody F) :=
  bodies.foldl (fun ext b =>
    if b.targetObjID ≠ 0 ∧ b.targetObjID = uid then addPhysicsBody scale ⟨0, 0, 0⟩ b ext else ext) none

/-! ### Colliders of VRM -/

/-- vrm/vrm.go:151-154. -/
structure Collider (F : Type) where
  radius : F
  offset : Vec3 F
deriving DecidableEq

/-- converter/vrmconfig.go:28-35 (`ColliderGroupSettings`) and vrm/vrm.go:146-149. -/
structure ColliderGroup (F : Type) where
  node : Nat
  colliders : List (Collider F)
  nodeName : Str
deriving DecidableEq

/-- converter/vrmconfig.go:453-466: the colliders of a body. The shapes made by the exporter have all entries. -/
def collidersOf [Zero F] [DecidableEq F] (shapes : List (NodeShape F)) : List (Collider F) :=
  shapes.filterMap fun s =>
    if (s.shapeType = "SPHERE".toList ∨ s.shapeType = "CAPSULE".toList) ∧ s.offsetScale.x ≠ 0 then
      some ⟨s.offsetScale.x, s.offsetTranslation⟩
    else none

/-- converter/vrmconfig.go:447-476: one node, number `i`. -/
def nodeColliders [Zero F] [DecidableEq F] (name : Str) (body : Option (NodeBody F)) (i : Nat) :
    List (ColliderGroup F) :=
  match body with
  | none => []
  | some p =>
    if p.static = true then
      let cs := collidersOf p.shapes
      if 0 < cs.length then [⟨i, cs, name⟩] else []
    else []

/-- converter/vrmconfig.go:446-477 (`ConvertColliders`): the groups added to the configuration. -/
def convertColliders [Zero F] [DecidableEq F] : Nat → List (Str × Option (NodeBody F)) → List (ColliderGroup F)
  | _, [] => []
  | i, (name, body) :: rest => nodeColliders name body i ++ convertColliders (i + 1) rest

/-- converter/vrmconfig.go:314-317: the last node with a name. -/
def lastNamed (names : List Str) (name : Str) : Option Nat :=
  ((names.zipIdx.filter fun p => p.1 = name).getLast?).map (·.2)

/-- converter/vrmconfig.go:236-248 (in `ApplyConfig`): the groups of the VRM document. -/
def applyColliders (names : List Str) (gs : List (ColliderGroup F)) : List (ColliderGroup F) :=
  gs.filterMap fun g => (lastNamed names g.nodeName).map fun id => { g with node := id }

/-- converter/vrmconfig.go:486-492: the collider groups of a VRM document made from these nodes, without any of the
configuration file. -/
def vrmColliders [Zero F] [DecidableEq F] (nodes : List (Str × Option (NodeBody F))) : List (ColliderGroup F) :=
  applyColliders (nodes.map (·.1)) (convertColliders 0 nodes)

/-- converter/vrmconfig.go:415-444 (`DetectSpringBones`), the end: the group of spring bones made for these roots,
as the numbers of its bones and of its collider groups. -/
def autoSpringGroup (roots : List Str) : List (List Str × List Nat) := if 0 < roots.length then [(roots, [])] else []

end Verif.Conv
