import Verif.Geom.Vec
import Verif.Geom.Mat

/-!
The data types of the mqo package (mqo/mqo.go, mqo/bone_plugin.go, mqo/morph_plugin.go,
mqo/physics_plugin.go). `F` is the number type.

Simplifications. Text is a list of characters (Go: bytes; invalid UTF-8 does not occur here). Vertex
indexes of faces are natural numbers (Go: `int`; no reader of the library produces a negative one).
Pointers to objects, faces, materials and vertices are values: a document does not share them.
`Object.Extra` is left out. The plugin list of a document is three optional plugins (the library
never puts two plugins of the same kind into a document).
-/

namespace Verif.Mqo

open Verif.Geom

abbrev Str := List Char

/-- mqo/mqo.go:90-100. -/
structure Scene (F : Type) where
  cameraPos : Vec3 F
  cameraLookAt : Vec3 F
  cameraRot : Vec3 F
  zoom2 : F
  frontClip : F
  backClip : F
  ortho : Bool
  ambientLight : Option (Vec3 F)
deriving DecidableEq

/-- A value of `MaterialEx2.ShaderParams`, mqo/mqo.go:170. -/
inductive Param (F : Type)
  | int (n : Int)
  | float (x : F)
  | bool (b : Bool)
  | str (s : Str)
  | color (c : List F)
deriving DecidableEq

/-- mqo/mqo.go:167-173. Go maps are association lists with distinct keys. -/
structure Ex2 (F : Type) where
  shaderType : Str
  shaderName : Str
  shaderParams : List (Str × Param F)
  shaderMapping : List (Str × Str)
  shaderMappingParams : List (Str × List (Str × Param F))
deriving DecidableEq

/-- mqo/mqo.go:102-123. -/
structure Material (F : Type) where
  name : Str
  uid : Int
  color : Vec4 F
  diffuse : F
  ambient : F
  emission : F
  specular : F
  power : F
  texture : Str
  bumpTexture : Str
  alphaTexture : Str
  emissionColor : Option (Vec3 F)
  doubleSided : Bool
  shader : Int
  ex2 : Option (Ex2 F)
deriving DecidableEq

/-- mqo/mqo.go:229-235. -/
structure Face (F : Type) where
  uid : Int
  verts : List Nat
  material : Int
  uvs : List (Vec2 F)
  normals : List (Option (Vec3 F))
deriving DecidableEq

/-- mqo/mqo.go:249-276. -/
structure Object (F : Type) where
  uid : Int
  name : Str
  vertexes : List (Vec3 F)
  faces : List (Face F)
  visible : Bool
  locked : Bool
  depth : Int
  folding : Bool
  shading : Int
  facet : F
  patch : Int
  patchSegment : Int
  mirror : Int
  mirrorDis : F
  scale : Option (Vec3 F)
  rotation : Option (Vec3 F)
  translation : Option (Vec3 F)
  color : Option (Vec3 F)
  /-- keys distinct -/
  vertexByUID : List (Int × Int)
  internalTransform : Option (Mat4 F)
deriving DecidableEq

/-- mqo/bone_plugin.go:172-175. -/
structure VertexWeight (F : Type) where
  vertexID : Int
  weight : F
deriving DecidableEq

/-- mqo/bone_plugin.go:167-170 (`BoneWeight2`). -/
structure WeightGroup (F : Type) where
  objectID : Int
  vertexes : List (VertexWeight F)
deriving DecidableEq

/-- mqo/bone_plugin.go:177-183. -/
structure BoneIK where
  chainCount : Int
  name : Str
  tipName : Str
deriving DecidableEq

/-- mqo/bone_plugin.go:117-138. `weightMap` maps an object id to the place of its group in `weights`
(Go: a pointer to the group); it is `[]` for the nil map. -/
structure Bone (F : Type) where
  id : Int
  name : Str
  group : Int
  parent : Int
  pos : Vec3 F
  movable : Int
  hide : Int
  dummy : Int
  color : Str
  upVector : Option (Vec3 F)
  rotate : Option (Vec3 F)
  ik : Option BoneIK
  weights : List (WeightGroup F)
  weightMap : List (Int × Nat)
  rotationOffset : Vec3 F
deriving DecidableEq

/-- mqo/bone_plugin.go:63-98 (`BoneOld`), only the parts the code uses: the object ids of the weights. -/
structure BoneOld where
  parent : Int
  children : List Int
  weightObjects : List Int
deriving DecidableEq

/-- mqo/bone_plugin.go:12-20; poses are left out. -/
structure BonePlugin (F : Type) where
  name : Str
  boneSet : List BoneOld
  bones : List (Bone F)
  obj : List Int
deriving DecidableEq

/-- mqo/morph_plugin.go:39-42. -/
structure MorphTarget where
  name : Str
  param : Int
deriving DecidableEq

/-- mqo/morph_plugin.go:34-37. -/
structure MorphTargetList where
  base : Str
  target : List MorphTarget
deriving DecidableEq

/-- mqo/physics_plugin.go:48-53. -/
structure PhysicsShape (F : Type) where
  type : Str
  size : Vec3 F
  position : Vec3 F
  rotation : Vec3 F
deriving DecidableEq

/-- mqo/physics_plugin.go:28-46. -/
structure PhysicsBody (F : Type) where
  shapes : List (PhysicsShape F)
  mass : F
  kinematic : Bool
  collisionGroup : Int
  collisionMask : Int
  restitution : F
  friction : F
  linearDamping : F
  angularDamping : F
  name : Str
  targetBoneID : Int
  targetObjID : Int
deriving DecidableEq

/-- mqo/physics_plugin.go:55-67. -/
structure PhysicsJoint (F : Type) where
  type : Str
  body1 : Int
  body2 : Int
  name : Str
  position : Vec3 F
  rotation : Vec3 F
  linerSpring : Vec3 F
  angulerSpring : Vec3 F
deriving DecidableEq

/-- mqo/physics_plugin.go:10-16. -/
structure PhysicsPlugin (F : Type) where
  bodies : List (PhysicsBody F)
  constraints : List (PhysicsJoint F)
deriving DecidableEq

/-- mqo/mqo.go:15-21. -/
structure Document (F : Type) where
  scene : Option (Scene F)
  materials : List (Material F)
  objects : List (Object F)
  bonePlugin : Option (BonePlugin F)
  morphPlugin : Option (List MorphTargetList)
  physicsPlugin : Option (PhysicsPlugin F)
deriving DecidableEq

/-- mqo/mqo.go:278-286 (`NewObject`). `facet` is the constant 59.5. -/
def newObject {F : Type} [Zero F] [One F] (facet : F) (name : Str) : Object F where
  uid := 0
  name := name
  vertexes := []
  faces := []
  visible := true
  locked := false
  depth := 0
  folding := false
  shading := 1
  facet := facet
  patch := 0
  patchSegment := 0
  mirror := 0
  mirrorDis := 0
  scale := some ⟨1, 1, 1⟩
  rotation := some ⟨0, 0, 0⟩
  translation := some ⟨0, 0, 0⟩
  color := none
  vertexByUID := []
  internalTransform := none

end Verif.Mqo
