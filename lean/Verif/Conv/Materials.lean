import Verif.Mqo.Core
import Verif.Fbx.Document
import Verif.Fbx.Geometry
import Mathlib.Algebra.Field.Defs

/-! Model of the conversion of materials: converter/mmd2mqo.go, converter/mqo2mmd.go and converter/fbx2mqo.go. -/

namespace Verif.Conv

open Verif.Geom
open Verif.Mqo (Str Material Ex2 Param morphPrefix)

variable {F : Type}

/-! ### MMD materials -/

/-- mmd/mmd.go:60-77. `count` is the number of corners. -/
structure MmdMat (F : Type) where
  name : Str
  nameEn : Str
  color : Vec4 F
  specular : Vec3 F
  specularity : F
  aColor : Vec3 F
  flags : Nat
  edgeColor : Vec4 F
  edgeScale : F
  textureID : Int
  envID : Int
  envMode : Nat
  toonType : Nat
  toon : Int
  memo : Str
  count : Int
deriving DecidableEq

/-- converter/mmd2mqo.go:38-40. `none` is the panic for a number outside of the list. -/
def mmdTexture (textures : List Str) (id : Int) : Option Str :=
  if 0 ≤ id then textures[id.toNat]? else some []

/-- converter/mmd2mqo.go:29-50 (`convertMaterial`). -/
def mmdMaterial [Field F] [FloatOps F] (textures : List Str) (m : MmdMat F) : Option (Material F) :=
  (mmdTexture textures m.textureID).map fun texture =>
    { name := m.name, uid := 0, color := ⟨m.color.x, m.color.y, m.color.z, m.color.w⟩, diffuse := 1, ambient := 7 / 5
      emission := 0, specular := 0, power := m.specularity, texture := texture, bumpTexture := [], alphaTexture := []
      emissionColor := none, doubleSided := m.flags % 2 ≠ 0, shader := 0
      ex2 := some ⟨"hlsl".toList, "pmd".toList, [("Edge".toList, .bool (FloatOps.lt 0 m.edgeScale))], [], []⟩ }

/-- converter/mmd2mqo.go:248-250: the materials of a document, one after the other. -/
def mmdMaterialList [Field F] [FloatOps F] (textures : List Str) (ms : List (MmdMat F)) : Option (List (Material F)) :=
  ms.mapM (mmdMaterial textures)

/-- The parts of mmd/mmd.go:151-164 that are used. -/
structure MatOffset (F : Type) where
  target : Int
  flags : Nat
  diffuse : Vec4 F
  specularity : F
deriving DecidableEq

/-- The parts of mmd/mmd.go:166-177 that are used here. -/
structure MatMorph (F : Type) where
  name : Str
  offsets : List (MatOffset F)
deriving DecidableEq

/-- converter/mmd2mqo.go:341-351: the material for one offset. -/
def morphMaterial [Field F] (name : Str) (o : MatOffset F) (m : Material F) : Material F :=
  { m with
    name := morphPrefix name ++ m.name
    color := if o.flags % 2 = 1 then m.color.add ⟨o.diffuse.x, o.diffuse.y, o.diffuse.z, o.diffuse.w⟩
      else ⟨m.color.x * o.diffuse.x, m.color.y * o.diffuse.y, m.color.z * o.diffuse.z, m.color.w * o.diffuse.w⟩
    specular := 0, diffuse := 1, ambient := 7 / 5, power := o.specularity }

/-- converter/mmd2mqo.go:337-352: one offset. -/
def addMorphMaterial [Field F] (name : Str) (ms : List (Material F)) (o : MatOffset F) : List (Material F) :=
  if o.target < 0 then ms
  else
    match ms[o.target.toNat]? with
    | none => ms
    | some m => ms ++ [morphMaterial name o m]

/-- converter/mmd2mqo.go:335-353: the materials after all morphs. -/
def addMorphMaterials [Field F] (ms : List (Material F)) (morphs : List (MatMorph F)) : List (Material F) :=
  morphs.foldl (fun ms mo => mo.offsets.foldl (addMorphMaterial mo.name) ms) ms

/-- converter/mqo2mmd.go:165-174 (`convertMaterial`). -/
def mqoMaterial [Zero F] (m : Material F) (faceCount : Nat) (texture : Int) : MmdMat F where
  name := m.name
  nameEn := []
  color := ⟨m.color.x, m.color.y, m.color.z, m.color.w⟩
  specular := ⟨0, 0, 0⟩
  specularity := m.power
  aColor := ⟨0, 0, 0⟩
  flags := 0
  edgeColor := ⟨0, 0, 0, 0⟩
  edgeScale := 0
  textureID := texture
  envID := 0
  envMode := 0
  toonType := 0
  toon := -1
  memo := []
  count := faceCount * 3

/-- converter/mqo2mmd.go:117-122 for all materials, each with the number of its triangles: the list of textures and
the materials. -/
def mqoMaterials [Zero F] : List (Material F × Nat) → List Str → List Str × List (MmdMat F)
  | [], textures => (textures, [])
  | (m, n) :: ms, textures =>
    if m.texture = [] then
      let r := mqoMaterials ms textures
      (r.1, mqoMaterial m n (-1) :: r.2)
    else
      let r := mqoMaterials ms (textures ++ [m.texture])
      (r.1, mqoMaterial m n textures.length :: r.2)

/-! ### FBX materials -/

open Verif.Fbx (Value Node Property PropObj PropOp runProps toStr)
open Verif.Mmd (Bytes toSigned)

/-- Numbers of FBX files as floats: fbx/fbx_node.go:177-199 (`ToFloat32`), by the type of the number. -/
structure FbxNum (F : Type) where
  f32 : Nat → F
  f64 : Nat → F
  int : Int → F

/-- fbx/fbx_node.go:177-199 (`ToFloat32`) with a default. -/
def FbxNum.get (c : FbxNum F) (v : Option Value) (d : F) : F :=
  match v with
  | some (.num .f32 b) => c.f32 b
  | some (.num .f64 b) => c.f64 b
  | some (.num .i8 b) => c.int (toSigned 1 b)
  | some (.num .i16 b) => c.int (toSigned 2 b)
  | some (.num .i32 b) => c.int (toSigned 4 b)
  | some (.num .i64 b) => c.int (toSigned 8 b)
  | _ => d

/-- fbx/fbx_material.go:19-24 (`GetColor`) with fbx/fbx_node.go:145-147 (`ToVector3`), for the property found. -/
def fbxColor (c : FbxNum F) (p : Property) (d : Vec3 F) : Vec3 F :=
  ⟨c.get p.attrs[0]? d.x, c.get p.attrs[1]? d.y, c.get p.attrs[2]? d.z⟩

/-- fbx/fbx_material.go:30-32 (`GetFactor`) with fbx/fbx_node.go:137-139, for the property found. -/
def fbxFactor (c : FbxNum F) (p : Property) (d : F) : F := c.get p.attrs[0]? d

/-- The properties that converter/fbx2mqo.go:93-101 asks for, in this order. -/
def fbxMatProps : List Bytes :=
  [b! "DiffuseColor", b! "Opacity", b! "DiffuseFactor", b! "SpecularColor", b! "SpecularFactor", b! "EmissiveColor",
    b! "EmissiveFactor", b! "AmbientColor", b! "AmbientFactor", b! "ShininessExponent"]

/-- fbx/fbx_object.go:52-54 (`Name`): `strings.ReplaceAll` of the two bytes 0 and 1 by `::`. -/
def fbxName : Bytes → Bytes
  | [] => []
  | [b] => [b]
  | a :: b :: rest => if a = 0 ∧ b = 1 then 58 :: 58 :: fbxName rest else a :: fbxName (b :: rest)

/-- The numbers of a material (the parts of mqo/mqo.go:102-123 that are set), with the name and the texture as bytes. -/
structure FbxMatOut (F : Type) where
  name : Bytes
  color : Vec4 F
  diffuse : F
  specular : F
  emission : F
  ambient : F
  power : F
  texture : Bytes

/-- fbx/fbx_material.go:34-41 (`GetTexture`) with fbx/fbx_object.go:114-122 (`FindRefs`): the first object of that kind
that is connected. The parameter of the Go function, the name of the property, is not used. -/
def fbxTexture (refs : List Node) : Option Node := (refs.filter fun n => n.name = b! "Texture").head?

/-- converter/fbx2mqo.go:90-106 (`convertMaterial`). `nodes` are the children of `Properties70`, `tmpl` those of the
template for materials, `name` the second attribute, `refs` the nodes of the connected objects. `none` is a panic (a property with less than four attributes). -/
def fbxMaterial [Field F] (c : FbxNum F) (name : Bytes) (o : PropObj) (tmpl : Option PropObj) (refs : List Node) :
    Option (FbxMatOut F) :=
  match runProps o tmpl (fbxMatProps.map .get) with
  | some [dc, op, df, sc, sf, ec, ef, ac, af, se] =>
    let col := fbxColor c dc ⟨1, 1, 1⟩
    some {
      name := fbxName name
      color := ⟨col.x, col.y, col.z, fbxFactor c op 1⟩
      diffuse := fbxFactor c df 1
      specular := ((fbxColor c sc ⟨0, 0, 0⟩).scale (fbxFactor c sf 0)).x
      emission := ((fbxColor c ec ⟨0, 0, 0⟩).scale (fbxFactor c ef 0)).x * (1 / 10)
      ambient := ((fbxColor c ac ⟨0, 0, 0⟩).scale (fbxFactor c af 0)).x
      power := fbxFactor c se 0
      texture := match fbxTexture refs with
        | some t => toStr (Fbx.attr (Fbx.findChild (some t) b! "RelativeFilename") 0)
        | none => [] }
  | _ => none

end Verif.Conv
