import Verif.Mmd.Pmd

/-!
Specification side of the PMD reader: the PMD file layout as data and bytes, and the document that a
reader should deliver for it. Nothing here mentions the parser.
-/

namespace Verif.Mmd

open Verif.Geom

namespace PmdFile

structure Vert where
  pos : V3
  normal : V3
  uv : V2
  bone0 : Int
  bone1 : Int
  /-- weight of the first bone in percent -/
  weight : UInt8
  edge : UInt8
deriving DecidableEq

structure Mat where
  color : V4
  specularity : UInt32
  specular : V3
  ambient : V3
  toon : UInt8
  edge : UInt8
  count : Nat
  /-- 20 bytes -/
  texture : Bytes
deriving DecidableEq

structure Bn where
  /-- 20 bytes -/
  name : Bytes
  parent : Int
  tail : Int
  type : UInt8
  ikParent : UInt16
  pos : V3
deriving DecidableEq

structure Ik where
  bone : UInt16
  target : Int
  iterations : UInt16
  limit : UInt32
  links : List Int
deriving DecidableEq

structure Mo where
  /-- 20 bytes -/
  name : Bytes
  panel : UInt8
  verts : List (Int × V3)
deriving DecidableEq

end PmdFile

open PmdFile

structure PmdFile where
  version : UInt32
  /-- 20 bytes -/
  name : Bytes
  /-- 256 bytes -/
  comment : Bytes
  verts : List Vert
  faces : List (UInt16 × UInt16 × UInt16)
  mats : List Mat
  bones : List Bn
  iks : List Ik
  /-- The base morph and the others; `none`: no morph section entries. -/
  morphs : Option (Mo × List Mo)
deriving DecidableEq

namespace PmdFile

def u16 (n : Nat) : Bytes := leBytes 2 n
def u32 (n : Nat) : Bytes := leBytes 4 n
def i16 (v : Int) : Bytes := intBytes 2 v
def i32 (v : Int) : Bytes := intBytes 4 v

def Vert.bytes (v : Vert) : Bytes :=
  encV3 v.pos ++ (encV3 v.normal ++ (encV2 v.uv ++ (i16 v.bone0 ++ (i16 v.bone1 ++
    ([v.weight] ++ [v.edge])))))

def faceBytes (f : UInt16 × UInt16 × UInt16) : Bytes :=
  u16 f.1.toNat ++ (u16 f.2.1.toNat ++ u16 f.2.2.toNat)

def Mat.bytes (m : Mat) : Bytes :=
  encV4 m.color ++ (f32Bytes m.specularity ++ (encV3 m.specular ++ (encV3 m.ambient ++
    ([m.toon] ++ ([m.edge] ++ (u32 m.count ++ m.texture))))))

def Bn.bytes (b : Bn) : Bytes :=
  b.name ++ (i16 b.parent ++ (i16 b.tail ++ ([b.type] ++ (u16 b.ikParent.toNat ++ encV3 b.pos))))

def Ik.bytes (k : Ik) : Bytes :=
  u16 k.bone.toNat ++ (i16 k.target ++ ([UInt8.ofNat k.links.length] ++ (u16 k.iterations.toNat ++
    (f32Bytes k.limit ++ k.links.flatMap i16))))

def morphVertBytes (v : Int × V3) : Bytes := i32 v.1 ++ encV3 v.2

def Mo.bytes (m : Mo) : Bytes :=
  m.name ++ (u32 m.verts.length ++ ([m.panel] ++ m.verts.flatMap morphVertBytes))

def morphsBytes : Option (Mo × List Mo) → Bytes
  | none => u16 0
  | some (base, ms) => u16 (ms.length + 1) ++ (base.bytes ++ ms.flatMap Mo.bytes)

/-- The file after the tag `Pmd` and the version. -/
def content (f : PmdFile) : Bytes :=
  f.name ++ (f.comment ++ (u32 f.verts.length ++ (f.verts.flatMap Vert.bytes ++
    (u32 (f.faces.length * 3) ++ (f.faces.flatMap faceBytes ++
      (u32 f.mats.length ++ (f.mats.flatMap Mat.bytes ++
        (u16 f.bones.length ++ (f.bones.flatMap Bn.bytes ++
          (u16 f.iks.length ++ (f.iks.flatMap Ik.bytes ++ morphsBytes f.morphs)))))))))))

/-- The bytes of a PMD file; it begins with the letters `Pmd`. -/
def bytes (f : PmdFile) : Bytes := [0x50, 0x6D, 0x64] ++ (f32Bytes f.version ++ f.content)

def I16 (v : Int) : Prop := -32768 ≤ v ∧ v < 32768

structure MoOK (m : Mo) : Prop where
  name : m.name.length = 20
  count : m.verts.length < 2 ^ 32
  idx : ∀ v ∈ m.verts, -2147483648 ≤ v.1 ∧ v.1 < 2147483648

/-- Fields have the size the format prescribes, counts fit, and references that the format wants
resolved while loading exist: the bone of an IK entry, the base vertex of a morph vertex. -/
structure OK (f : PmdFile) : Prop where
  name : f.name.length = 20
  comment : f.comment.length = 256
  nverts : f.verts.length < 2 ^ 32
  verts : ∀ v ∈ f.verts, I16 v.bone0 ∧ I16 v.bone1
  nfaces : f.faces.length * 3 < 2 ^ 32
  nmats : f.mats.length < 2 ^ 32
  mats : ∀ m ∈ f.mats, m.texture.length = 20 ∧ m.count < 2 ^ 32
  nbones : f.bones.length < 65536
  bones : ∀ b ∈ f.bones, b.name.length = 20 ∧ I16 b.parent ∧ I16 b.tail
  niks : f.iks.length < 65536
  iks : ∀ k ∈ f.iks, k.bone.toNat < f.bones.length ∧ I16 k.target ∧ k.links.length < 256 ∧
    ∀ l ∈ k.links, I16 l
  morphs : ∀ base ms, f.morphs = some (base, ms) → ms.length + 1 < 65536 ∧ MoOK base ∧
    ∀ m ∈ ms, MoOK m ∧ ∀ v ∈ m.verts, 0 ≤ v.1 ∧ v.1 < base.verts.length

/-- The text of a fixed-size field: up to the first zero byte, decoded. -/
def text (env : PmdEnv) (b : Bytes) : Bytes := env.sjis (b.takeWhile (· != 0))

def vertDoc (env : PmdEnv) (v : Vert) : Vertex :=
  { pos := v.pos, normal := v.normal, uv := v.uv, extUVs := [], edgeScale := env.ofU8 v.edge
    bones := [v.bone0, v.bone1]
    weights := [env.percent v.weight, env.sub1 (env.percent v.weight)] }

def faceDoc (f : UInt16 × UInt16 × UInt16) : Face := ⟨f.1.toNat, f.2.1.toNat, f.2.2.toNat⟩

/-- The textures of a material: none when its field has no main texture, otherwise the parts around
the first `*`. -/
def matTextures (env : PmdEnv) (m : Mat) : List Bytes :=
  let t := text env m.texture
  if t.takeWhile (· != 42) = [] then []
  else if 42 ∈ t then [t.takeWhile (· != 42), (t.dropWhile (· != 42)).tail]
  else [t]

/-- Material number `i`, after `before` textures. -/
def matDoc (env : PmdEnv) (before i : Nat) (m : Mat) : Material :=
  { name := matName i, nameEn := [], color := m.color, specular := m.specular
    specularity := m.specularity, aColor := m.ambient
    flags := if env.ltOne m.color.w then 1 else 0
    edgeColor := V4.zero, edgeScale := env.ofU8 m.edge
    textureID := if matTextures env m = [] then -1 else before
    envID := 0, envMode := 0, toonType := 0, toon := m.toon.toNat, memo := [], count := m.count }

/-- All materials: material `i` refers to the first of its textures in the common list. -/
def matsDoc (env : PmdEnv) (ms : List Mat) : List Material :=
  ms.mapIdx fun i m => matDoc env ((ms.take i).flatMap (matTextures env)).length i m

def ikDoc (iks : List Ik) (i : Nat) : IK :=
  let mine := iks.filter fun k => k.bone.toNat = i
  { targetID := (mine.getLast?.map Ik.target).getD 0
    loop := ((mine.getLast?.map fun k => k.iterations.toNat).getD 0 : Nat)
    limitRad := 0
    links := mine.flatMap fun k => k.links.map fun t => ⟨t, false, V3.zero, V3.zero⟩ }

/-- Bone number `i`. -/
def boneDoc (env : PmdEnv) (iks : List Ik) (i : Nat) (b : Bn) : Bone :=
  { name := text env b.name, nameEn := [], pos := b.pos, parentID := b.parent, layer := 0, flags := 0
    tailID := if b.tail = 0 then -1 else b.tail, tailPos := V3.zero, inheritParentID := 0
    inheritParentInfluence := 0, fixedAxis := V3.zero, ik := ikDoc iks i }

/-- A morph; its vertices are found through the base morph. -/
def moDoc (env : PmdEnv) (base : Mo) (m : Mo) : Morph :=
  { name := text env m.name, nameEn := [], panelType := m.panel, morphType := 0, group := []
    vertex := m.verts.map fun v => ⟨((base.verts.map Prod.fst)[v.1.toNat]?).getD 0, v.2⟩
    uv := [], material := [] }

def morphsDoc (env : PmdEnv) : Option (Mo × List Mo) → List Morph
  | none => []
  | some (base, ms) => ms.map (moDoc env base)

/-- The document for a PMD file. -/
def doc (env : PmdEnv) (f : PmdFile) : Document :=
  { header := ⟨[0x50, 0x6D, 0x64], f.version, []⟩
    name := text env f.name, nameEn := [], comment := text env f.comment, commentEn := []
    vertexes := f.verts.map (vertDoc env), faces := f.faces.map faceDoc
    textures := f.mats.flatMap (matTextures env), materials := matsDoc env f.mats
    bones := f.bones.mapIdx (boneDoc env f.iks), morphs := morphsDoc env f.morphs
    bodies := [], joints := [] }

end PmdFile

end Verif.Mmd
