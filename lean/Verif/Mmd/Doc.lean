import Verif.Mmd.Bytes

/-! The MMD document types, mmd/mmd.go. Strings are their bytes (Go strings). -/

namespace Verif.Mmd

open Verif.Geom

/-- mmd/mmd.go:38-42. -/
structure Header where
  format : Bytes
  version : UInt32
  info : Bytes
deriving DecidableEq, Repr

/-- mmd/mmd.go:44-54. -/
structure Vertex where
  pos : V3
  normal : V3
  uv : V2
  extUVs : List V4
  edgeScale : UInt32
  bones : List Int
  weights : List UInt32
deriving DecidableEq, Repr

/-- mmd/mmd.go:56-58. -/
structure Face where
  (a b c : Int)
deriving DecidableEq, Repr

/-- mmd/mmd.go:60-77. -/
structure Material where
  name : Bytes
  nameEn : Bytes
  color : V4
  specular : V3
  specularity : UInt32
  aColor : V3
  flags : UInt8
  edgeColor : V4
  edgeScale : UInt32
  textureID : Int
  envID : Int
  envMode : UInt8
  toonType : UInt8
  toon : Int
  memo : Bytes
  count : Int
deriving DecidableEq, Repr

/-- mmd/mmd.go:84-89. -/
structure Link where
  targetID : Int
  hasLimit : Bool
  limitMax : V3
  limitMin : V3
deriving DecidableEq, Repr

/-- The anonymous `IK` struct, mmd/mmd.go:106-111. -/
structure IK where
  targetID : Int
  loop : Int
  limitRad : UInt32
  links : List Link
deriving DecidableEq, Repr

/-- mmd/mmd.go:91-112. -/
structure Bone where
  name : Bytes
  nameEn : Bytes
  pos : V3
  parentID : Int
  layer : Int
  flags : UInt16
  tailID : Int
  tailPos : V3
  inheritParentID : Int
  inheritParentInfluence : UInt32
  fixedAxis : V3
  ik : IK
deriving DecidableEq, Repr

/-- mmd/mmd.go:133-136. -/
structure MorphGroup where
  target : Int
  weight : UInt32
deriving DecidableEq, Repr

/-- mmd/mmd.go:139-142. -/
structure MorphVertex where
  target : Int
  offset : V3
deriving DecidableEq, Repr

/-- mmd/mmd.go:145-148. -/
structure MorphUV where
  target : Int
  value : V4
deriving DecidableEq, Repr

/-- mmd/mmd.go:151-164. -/
structure MorphMaterial where
  target : Int
  flags : UInt8
  diffuse : V4
  specular : V3
  specularity : UInt32
  ambient : V3
  edgeColor : V4
  edgeSize : UInt32
  textureTint : V4
  environmentTint : V4
  toonTint : V4
deriving DecidableEq, Repr

/-- mmd/mmd.go:166-177. -/
structure Morph where
  name : Bytes
  nameEn : Bytes
  panelType : UInt8
  morphType : UInt8
  group : List MorphGroup
  vertex : List MorphVertex
  uv : List MorphUV
  material : List MorphMaterial
deriving DecidableEq, Repr

/-- mmd/mmd.go:179-199. -/
structure RigidBody where
  name : Bytes
  nameEn : Bytes
  bone : Int
  group : Int
  groupTarget : Int
  shape : UInt8
  size : V3
  position : V3
  rotation : V3
  mass : UInt32
  linearDamping : UInt32
  angularDamping : UInt32
  restitution : UInt32
  friction : UInt32
  mode : UInt8
deriving DecidableEq, Repr

/-- mmd/mmd.go:201-219. -/
structure Joint where
  name : Bytes
  nameEn : Bytes
  type : UInt8
  body1 : Int
  body2 : Int
  position : V3
  rotation : V3
  positionMin : V3
  positionMax : V3
  rotationMin : V3
  rotationMax : V3
  linerSpring : V3
  angulerSpring : V3
deriving DecidableEq, Repr

/-- mmd/mmd.go:14-28. -/
structure Document where
  header : Header
  name : Bytes
  nameEn : Bytes
  comment : Bytes
  commentEn : Bytes
  vertexes : List Vertex
  faces : List Face
  textures : List Bytes
  materials : List Material
  bones : List Bone
  morphs : List Morph
  bodies : List RigidBody
  joints : List Joint
deriving DecidableEq, Repr

/-- `"PMX "`. -/
def pmxMagic : Bytes := [80, 77, 88, 32]

/-- Positions in `Header.Info`, mmd/mmd.go:221-230. -/
def attrExtUV : Nat := 1
def attrVert : Nat := 2
def attrTex : Nat := 3
def attrMat : Nat := 4
def attrBone : Nat := 5
def attrMorph : Nat := 6
def attrRB : Nat := 7

/-- mmd/mmd.go:30-36 (`NewDocument`); version 2.0 is `0x40000000`. -/
def newDocument : Document :=
  ⟨⟨pmxMagic, 0x40000000, [1, 0, 2, 1, 1, 2, 1, 1]⟩, [], [], [], [], [], [], [], [], [], [], [], []⟩

end Verif.Mmd
