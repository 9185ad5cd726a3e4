import Verif.Mmd.BytesLemmas

/-!
Specification side of the PMX round trip: which documents fit the file format, and what a document
looks like after it went through a file. Nothing here mentions the parser or the writer.
-/

namespace Verif.Mmd

open Verif.Geom

/-- The value fits the signed index size declared at position `i` of the header. -/
def IdxOK (info : Bytes) (i : Nat) (v : Int) : Prop := ∃ sz, info[i]? = some sz ∧ SFits sz v

/-- The value fits the unsigned index size declared at position `i` of the header. -/
def UIdxOK (info : Bytes) (i : Nat) (v : Int) : Prop := ∃ sz, info[i]? = some sz ∧ UFits sz v

/-- A text or a list can be counted in 32 bits. -/
def LenOK {α : Type} (l : List α) : Prop := l.length < 2 ^ 32

/-- A number fits an unsigned 32 bit field. -/
def U32OK (v : Int) : Prop := 0 ≤ v ∧ v < 2 ^ 32

/-- The bone/weight lists after a file: missing entries are padded, a single weight becomes 1 and
the second of two weights becomes the complement of the first. -/
def weightsBack (sub1 : UInt32 → UInt32) (b : List Int) (w : List UInt32) :
    List Int × List UInt32 :=
  if w.length = 0 then ([-1], [oneBits])
  else if w.length = 1 then (b, [oneBits])
  else if w.length = 2 then (b, [w.headD 0, sub1 (w.headD 0)])
  else if w.length = 3 then (b ++ [-1], w ++ [0])
  else if w.length = 11 then (b, w.headD 0 :: sub1 (w.headD 0) :: w.drop 2)
  else (b, w)

def vertexBack (sub1 : UInt32 → UInt32) (v : Vertex) : Vertex :=
  { v with bones := (weightsBack sub1 v.bones v.weights).1
           weights := (weightsBack sub1 v.bones v.weights).2 }

structure VertexOK (info : Bytes) (v : Vertex) : Prop where
  ext : ∃ n, info[attrExtUV]? = some n ∧ v.extUVs.length = n.toNat
  shape : (v.weights.length ≤ 4 ∧ v.bones.length = v.weights.length) ∨
    (v.weights.length = 11 ∧ v.bones.length = 2)
  idx : ∀ b ∈ v.bones, IdxOK info attrBone b
  pad : v.weights.length = 0 ∨ v.weights.length = 3 → IdxOK info attrBone (-1)

structure FaceOK (info : Bytes) (f : Face) : Prop where
  a : UIdxOK info attrVert f.a
  b : UIdxOK info attrVert f.b
  c : UIdxOK info attrVert f.c

structure MaterialOK (info : Bytes) (m : Material) : Prop where
  name : LenOK m.name
  nameEn : LenOK m.nameEn
  texture : IdxOK info attrTex m.textureID
  env : IdxOK info attrTex m.envID
  toon : if m.toonType = 0 then IdxOK info attrTex m.toon else 0 ≤ m.toon ∧ m.toon < 256
  memo : LenOK m.memo
  count : U32OK m.count

def linkBack (l : Link) : Link := if l.hasLimit then l else ⟨l.targetID, false, V3.zero, V3.zero⟩

structure IKOK (info : Bytes) (k : IK) : Prop where
  target : IdxOK info attrBone k.targetID
  loop : U32OK k.loop
  len : LenOK k.links
  links : ∀ l ∈ k.links, IdxOK info attrBone l.targetID

/-- Fields that the flags declare absent come back as their defaults. -/
def boneBack (b : Bone) : Bone :=
  { b with
    tailID := if hasFlag b.flags 1 then b.tailID else -1
    tailPos := if hasFlag b.flags 1 then V3.zero else b.tailPos
    inheritParentID := if hasFlag b.flags 256 || hasFlag b.flags 512 then b.inheritParentID else 0
    inheritParentInfluence :=
      if hasFlag b.flags 256 || hasFlag b.flags 512 then b.inheritParentInfluence else 0
    fixedAxis := if hasFlag b.flags 1024 then b.fixedAxis else V3.zero
    ik := if hasFlag b.flags 32 then { b.ik with links := b.ik.links.map linkBack } else IK.none }

structure BoneOK (info : Bytes) (b : Bone) : Prop where
  name : LenOK b.name
  nameEn : LenOK b.nameEn
  parent : IdxOK info attrBone b.parentID
  layer : U32OK b.layer
  tail : hasFlag b.flags 1 → IdxOK info attrBone b.tailID
  inherit : hasFlag b.flags 256 || hasFlag b.flags 512 → IdxOK info attrBone b.inheritParentID
  ext : hasFlag b.flags 8192 → ∃ sz, info[attrBone]? = some sz
  ik : hasFlag b.flags 32 → IKOK info b.ik

/-- The elements of a morph are in the list that belongs to its type. -/
structure MorphOK (info : Bytes) (m : Morph) : Prop where
  name : LenOK m.name
  nameEn : LenOK m.nameEn
  group : (m.group = [] ∨ m.morphType = 0) ∧ LenOK m.group ∧
    ∀ g ∈ m.group, IdxOK info attrMorph g.target
  vertex : (m.vertex = [] ∨ m.morphType = 1) ∧ LenOK m.vertex ∧
    ∀ g ∈ m.vertex, UIdxOK info attrVert g.target
  uv : (m.uv = [] ∨ m.morphType = 3) ∧ LenOK m.uv ∧ ∀ g ∈ m.uv, UIdxOK info attrVert g.target
  material : (m.material = [] ∨ m.morphType = 8) ∧ LenOK m.material ∧
    ∀ g ∈ m.material, IdxOK info attrMat g.target

structure BodyOK (info : Bytes) (b : RigidBody) : Prop where
  name : LenOK b.name
  nameEn : LenOK b.nameEn
  bone : IdxOK info attrBone b.bone
  group : SFits 1 b.group
  groupTarget : SFits 2 b.groupTarget

structure JointOK (info : Bytes) (j : Joint) : Prop where
  name : LenOK j.name
  nameEn : LenOK j.nameEn
  body1 : IdxOK info attrRB j.body1
  body2 : IdxOK info attrRB j.body2
  /-- Not required by the file format: the writer uses the bone index size. -/
  sameSize : info[attrBone]? = info[attrRB]?

/-- The document fits the file format that its own header declares. -/
structure DocOK (d : Document) : Prop where
  info : 0 < d.header.info.length ∧ d.header.info.length < 256
  texts : LenOK d.name ∧ LenOK d.nameEn ∧ LenOK d.comment ∧ LenOK d.commentEn
  counts : LenOK d.vertexes ∧ d.faces.length * 3 < 2 ^ 32 ∧ LenOK d.textures ∧ LenOK d.materials ∧
    LenOK d.bones ∧ LenOK d.morphs ∧ LenOK d.bodies ∧ LenOK d.joints
  vertexes : ∀ v ∈ d.vertexes, VertexOK d.header.info v
  faces : ∀ v ∈ d.faces, FaceOK d.header.info v
  textures : ∀ v ∈ d.textures, LenOK v
  materials : ∀ v ∈ d.materials, MaterialOK d.header.info v
  bones : ∀ v ∈ d.bones, BoneOK d.header.info v
  morphs : ∀ v ∈ d.morphs, MorphOK d.header.info v
  bodies : ∀ v ∈ d.bodies, BodyOK d.header.info v
  joints : ∀ v ∈ d.joints, JointOK d.header.info v

/-- The document as it comes back from a file, whose format is `"PMX "`. -/
def docBack (sub1 : UInt32 → UInt32) (d : Document) : Document :=
  { d with
    header := ⟨[0x50, 0x4D, 0x58, 0x20], d.header.version, 1 :: d.header.info.tail⟩
    vertexes := d.vertexes.map (vertexBack sub1)
    bones := d.bones.map boneBack }

end Verif.Mmd
