import Verif.Mqo.Doc

/-! Model of the materials of converter/mqo2gltf.go and converter/gltf2mqo.go.

Images are given by the names of their files: `load name` says whether the file can be read (and, where
needed, decoded and encoded); it is taken to be the same each time. -/

namespace Verif.Gltf

open Verif.Geom
open Verif.Mqo (Str Param Material)

variable {F : Type}

/-- `gltf.AlphaMode`, a type of the glTF library of its own (not `int`). -/
inductive AlphaMode where
  | opaque
  | mask
  | blend
deriving DecidableEq

/-- A value of `ShaderParams` (`interface{}`). -/
inductive GValue (F : Type) where
  | param (p : Param F)
  | alphaMode (a : AlphaMode)
deriving DecidableEq

/-- The part of `mqo.MaterialEx2` (mqo/mqo.go:167-173) used here. -/
structure GEx2 (F : Type) where
  shaderName : Str
  params : List (Str × GValue F)
  mapping : List (Str × Str)
deriving DecidableEq

/-- The part of `mqo.Material` (mqo/mqo.go:102-123) used here. -/
structure GMaterial (F : Type) where
  name : Str
  color : Vec4 F
  emission : F
  specular : F
  texture : Str
  bumpTexture : Str
  emissionColor : Option (Vec3 F)
  doubleSided : Bool
  shader : Int
  ex2 : Option (GEx2 F)
deriving DecidableEq

/-- A material of an MQO document, for the functions of this file. -/
def ofMaterial (m : Material F) : GMaterial F where
  name := m.name
  color := m.color
  emission := m.emission
  specular := m.specular
  texture := m.texture
  bumpTexture := m.bumpTexture
  emissionColor := m.emissionColor
  doubleSided := m.doubleSided
  shader := m.shader
  ex2 := m.ex2.map fun e => ⟨e.shaderName, e.shaderParams.map fun p => (p.1, .param p.2), e.shaderMapping⟩

/-- mqo/mqo.go:135-152 (`GetShaderName`). -/
def GMaterial.shaderName (m : GMaterial F) : Str :=
  match m.ex2 with
  | some e => e.shaderName
  | none =>
    if m.shader = 0 then "Classic".toList
    else if m.shader = 1 then "Constant".toList
    else if m.shader = 2 then "Lambert".toList
    else if m.shader = 3 then "Phong".toList
    else if m.shader = 4 then "Blinn".toList
    else []

/-- mqo/mqo.go:191-196: the type must be `int`. -/
def GEx2.intParam (e : GEx2 F) (name : Str) : Int :=
  match e.params.lookup name with
  | some (.param (.int n)) => n
  | _ => 0

/-- mqo/mqo.go:198-206. -/
def GEx2.floatParam [Zero F] (e : GEx2 F) (name : Str) : F :=
  match e.params.lookup name with
  | some (.param (.float x)) => x
  | _ => 0

/-- mqo/mqo.go:208-213. -/
def GEx2.boolParam (e : GEx2 F) (name : Str) : Bool :=
  match e.params.lookup name with
  | some (.param (.bool b)) => b
  | _ => false

/-- mqo/mqo.go:215-220; `none` is nil. -/
def GEx2.colorParam (e : GEx2 F) (name : Str) : Option (List F) :=
  match e.params.lookup name with
  | some (.param (.color c)) => some c
  | _ => none

/-- mqo/mqo.go:222-227. -/
def GEx2.mappingOf (e : GEx2 F) (name : Str) : Str := (e.mapping.lookup name).getD []

/-- mqo/mqo.go:160-165 (`SetGltfAlphaMode`). -/
def GMaterial.setAlphaMode (m : GMaterial F) (mode : Int) : GMaterial F :=
  let e : GEx2 F := match m.ex2 with
    | some e => if e.shaderName = "glTF".toList then e else ⟨"glTF".toList, [], []⟩
    | none => ⟨"glTF".toList, [], []⟩
  { m with ex2 := some { e with
      params := ("AlphaMode".toList, .param (.int mode)) :: e.params.filter fun p => p.1 ≠ "AlphaMode".toList } }

/-! ### Textures -/

/-- converter/mqo2gltf.go:363-421 (`addTexture`) and 422-432 (`tryAddTexture`). The state is the list of textures of
the document, each given by the name of its file; the names with an id in the cache are those in the list.
`none` is nil. -/
def tryAddTexture (load : Str → Bool) (name : Str) (ts : List Str) : Option Nat × List Str :=
  if name = [] then (none, ts)
  else
    match ts.findIdx? (· = name) with
    | some i => (some i, ts)
    | none => if load name then (some ts.length, ts ++ [name]) else (none, ts)

/-! ### Extensions -/

/-- What one entry of an extension is made of: a number, a color or a texture of the source. -/
inductive ExtField where
  | num (key param : String)
  | color (key param : String)
  | tex (key mapping : String)

/-- A value in an exported extension. -/
inductive ExtValue (F : Type) where
  | num (x : F)
  | color (c : List F)
  | tex (i : Nat)
deriving DecidableEq

/-- converter/mqo2gltf.go:487-570: flag, name and entries of the extensions, in order. -/
def extTable : List (String × String × List ExtField) :=
  [("Extensions.SpecularExt", "KHR_materials_specular",
     [.num "specularFactor" "Extensions.SpecularFactor", .color "specularColorFactor" "Extensions.SpecularColorFactor",
      .tex "specularTexture" "Specular", .tex "specularColorTexture" "SpecularColor"]),
   ("Extensions.Clearcoat", "KHR_materials_clearcoat",
     [.num "clearcoatFactor" "Extensions.ClearcoatFactor",
      .num "clearcoatRoughnessFactor" "Extensions.ClearcoatRoughnessFactor",
      .tex "clearcoatTexture" "Clearcoat", .tex "clearcoatRoughnessTexture" "ClearcoatRoughness",
      .tex "clearcoatNormalTexture" "ClearcoatNormal"]),
   ("Extensions.Sheen", "KHR_materials_sheen",
     [.color "sheenColorFactor" "Extensions.SheenColorFactor",
      .num "sheenRoughnessFactor" "Extensions.SheenRoughnessFactor",
      .tex "sheenColorTexture" "SheenColor", .tex "sheenRoughnessTexture" "SheenRoughness"]),
   ("Extensions.IorExt", "KHR_materials_ior", [.num "ior" "Extensions.Ior"]),
   ("Extensions.Volume", "KHR_materials_volume",
     [.num "thicknessFactor" "Extensions.ThicknessFactor",
      .num "attenuationDistance" "Extensions.AttenuationDistance",
      .color "attenuationColor" "Extensions.AttenuationColor", .tex "thicknessTexture" "Thickness"]),
   ("Extensions.Transmission", "KHR_materials_transmission",
     [.num "transmissionFactor" "Extensions.TransmissionFactor", .tex "transmissionTexture" "Transmission"])]

/-- The body of one `if`, e.g. converter/mqo2gltf.go:488-500; `none` is the panic of `c[0:3]` (simplified: for
colors with fewer than three numbers, whatever the capacity of the slice). -/
def extFields [Zero F] [DecidableEq F] (load : Str → Bool) (e : GEx2 F) :
    List ExtField → List Str → Option (List (String × ExtValue F) × List Str)
  | [], ts => some ([], ts)
  | .num key p :: fs, ts =>
    let v := e.floatParam p.toList
    match extFields load e fs ts with
    | none => none
    | some (l, ts) => some (if v ≠ 0 then (key, .num v) :: l else l, ts)
  | .color key p :: fs, ts =>
    match e.colorParam p.toList with
    | none => extFields load e fs ts
    | some c =>
      if c.length < 3 then none
      else
        match extFields load e fs ts with
        | none => none
        | some (l, ts) => some ((key, .color (c.take 3)) :: l, ts)
  | .tex key m :: fs, ts =>
    let x := tryAddTexture load (e.mappingOf m.toList) ts
    match extFields load e fs x.2 with
    | none => none
    | some (l, ts) => some (match x.1 with | some i => (key, .tex i) :: l | none => l, ts)

/-- converter/mqo2gltf.go:487-570. -/
def extLoop [Zero F] [DecidableEq F] (load : Str → Bool) (e : GEx2 F) :
    List (String × String × List ExtField) → List Str →
      Option (List (String × List (String × ExtValue F)) × List Str)
  | [], ts => some ([], ts)
  | (flag, name, fields) :: rest, ts =>
    if e.boolParam flag.toList then
      match extFields load e fields ts with
      | none => none
      | some (l, ts) =>
        match extLoop load e rest ts with
        | none => none
        | some (r, ts) => some ((name, l) :: r, ts)
    else extLoop load e rest ts

/-! ### Export -/

/-- The exported parts of `gltf.Material`. `alphaMode` is the zero value (opaque) when not set. -/
structure OutMaterial (F : Type) where
  name : Str
  baseColor : Vec4 F
  metallic : F
  roughness : F
  doubleSided : Bool
  emissive : Vec3 F
  alphaMode : AlphaMode
  alphaCutoff : Option F
  extensions : List (String × List (String × ExtValue F))
  baseTexture : Option Nat
  normalTexture : Option Nat
deriving DecidableEq

/-- The options and numbers of the export; `rough` is 0.4, `limit` is 0.99. -/
structure MatOptions (F : Type) where
  forceUnlit : Bool
  detectAlpha : Bool
  rough : F
  limit : F

/-- geom/utils.go:17-22. -/
def gmax [FloatOps F] (a b : F) : F := if FloatOps.lt b a then a else b

/-- converter/mqo2gltf.go:447-459. -/
def emissiveFactor [Zero F] [One F] [Div F] [FloatOps F] (m : GMaterial F) : Vec3 F :=
  let clamp := fun v : Vec3 F =>
    let s := gmax (gmax v.x v.y) v.z
    if FloatOps.lt 1 s then ⟨v.x / s, v.y / s, v.z / s⟩ else v
  match m.emissionColor with
  | some c => clamp c
  | none => if FloatOps.lt 0 m.emission then clamp ⟨m.emission, m.emission, m.emission⟩ else ⟨0, 0, 0⟩

/-- converter/mqo2gltf.go:435. -/
def unlitName : String := "KHR_materials_unlit"

/-- `addExt`, converter/mqo2gltf.go:461-467: a map, so a name is entered once. -/
def addUnlit {α : Type} (l : List (String × List α)) : List (String × List α) :=
  if l.any fun p => p.1 = unlitName then l else (unlitName, []) :: l

/-- converter/mqo2gltf.go:435-459: the material before the shader is looked at. -/
def plainMaterial [Zero F] [One F] [Div F] [FloatOps F] (opt : MatOptions F) (m : GMaterial F) : OutMaterial F :=
  ⟨m.name, m.color, m.specular, opt.rough, m.doubleSided, emissiveFactor m, .opaque, none, [], none, none⟩

/-- converter/mqo2gltf.go:468-570 (the last step, the unlit extension, is line 484). -/
def gltfShader [Zero F] [One F] [DecidableEq F] (load : Str → Bool) (e : GEx2 F) (out : OutMaterial F)
    (ts : List Str) : Option (OutMaterial F × List Str) :=
  match extLoop load e extTable ts with
  | none => none
  | some (exts, ts) =>
    let mode := e.intParam "AlphaMode".toList
    some ({ out with
      metallic := e.floatParam "Metallic".toList
      roughness := e.floatParam "Roughness".toList
      alphaMode := if mode = 2 then .mask else if mode = 3 then .blend else .opaque
      alphaCutoff := if mode = 2 then some (e.floatParam "AlphaCutOff".toList) else none
      extensions := if e.boolParam "Extensions.Unlit".toList = true ∨
            (e.floatParam "Metallic".toList = 0 ∧ e.floatParam "Roughness".toList = 1) then
          addUnlit exts else exts }, ts)

/-- converter/mqo2gltf.go:571-573. -/
def plainShader [FloatOps F] (opt : MatOptions F) (alpha : Bool) (m : GMaterial F) (out : OutMaterial F) : OutMaterial F :=
  if FloatOps.lt m.color.w opt.limit || (opt.detectAlpha && alpha) then { out with alphaMode := .blend } else out

/-- converter/mqo2gltf.go:468-573. -/
def shadeMaterial [Zero F] [One F] [Div F] [DecidableEq F] [FloatOps F] (opt : MatOptions F)
    (load : Str → Bool) (alpha : Bool) (m : GMaterial F) (ts : List Str) : Option (OutMaterial F × List Str) :=
  match m.ex2 with
  | some e =>
    if e.shaderName = "glTF".toList then gltfShader load e (plainMaterial opt m) ts
    else some (plainShader opt alpha m (plainMaterial opt m), ts)
  | none => some (plainShader opt alpha m (plainMaterial opt m), ts)

/-- converter/mqo2gltf.go:574-581. -/
def finishMaterial (opt : MatOptions F) (load : Str → Bool) (m : GMaterial F) (out : OutMaterial F) (ts : List Str) :
    OutMaterial F × List Str :=
  let x := tryAddTexture load m.texture ts
  let y := tryAddTexture load m.bumpTexture x.2
  ({ out with
    extensions := if opt.forceUnlit = true ∨ m.shaderName = "Constant".toList then
        addUnlit out.extensions else out.extensions
    baseTexture := x.1
    normalTexture := y.1 }, y.2)

/-- converter/mqo2gltf.go:434-583 (`convertMaterial`). `alpha` is the result of `hasAlpha` (called only with the
option). The result is the material and the textures. `none` is a panic. -/
def exportMaterial [Zero F] [One F] [Div F] [DecidableEq F] [FloatOps F] (opt : MatOptions F)
    (load : Str → Bool) (alpha : Bool) (m : GMaterial F) (ts : List Str) : Option (OutMaterial F × List Str) :=
  (shadeMaterial opt load alpha m ts).map fun x => finishMaterial opt load m x.1 x.2

/-- converter/mqo2gltf.go:909-916 for the materials that are exported, each with the result of `hasAlpha`. -/
def exportMaterials [Zero F] [One F] [Div F] [DecidableEq F] [FloatOps F] (opt : MatOptions F) (load : Str → Bool) :
    List (GMaterial F × Bool) → List Str → Option (List (OutMaterial F) × List Str)
  | [], ts => some ([], ts)
  | (m, a) :: ms, ts =>
    match exportMaterial opt load a m ts with
    | none => none
    | some (o, ts) =>
      match exportMaterials opt load ms ts with
      | none => none
      | some (os, ts) => some (o :: os, ts)

/-- converter/mqo2gltf.go:466, 920-922: the extensions declared by the document for these materials (a set; here
with repetitions). Lights and physics add their own. -/
def extensionsUsed (os : List (OutMaterial F)) : List String := os.flatMap fun o => o.extensions.map (·.1)

/-! ### Import -/

/-- `gltf.PBRMetallicRoughness` with the defaults of the library filled in (`...OrDefault`): color, metallic and
roughness factors, and the URI of the image of the base texture if there is a texture. -/
structure InPbr (F : Type) where
  color : Vec4 F
  metallic : F
  roughness : F
  texture : Option Str

/-- The parts of `gltf.Material` read by the import; `cutoff` is `AlphaCutoffOrDefault()`. -/
structure InMaterial (F : Type) where
  name : Str
  doubleSided : Bool
  emissive : Vec3 F
  alphaMode : AlphaMode
  cutoff : F
  pbr : Option (InPbr F)

/-- converter/gltf2mqo.go:28-55 (`convertMaterial`). -/
def importMaterial [Zero F] (m : InMaterial F) : GMaterial F :=
  let params : List (Str × GValue F) :=
    [("AlphaMode".toList, .alphaMode m.alphaMode), ("AlphaCutoff".toList, .param (.float m.cutoff))]
  let pbr := m.pbr
  { name := m.name
    color := match pbr with | some p => p.color | none => ⟨0, 0, 0, 0⟩
    emission := 0
    specular := match pbr with | some p => p.metallic | none => 0
    texture := match pbr with | some p => p.texture.getD [] | none => []
    bumpTexture := []
    emissionColor := some m.emissive
    doubleSided := m.doubleSided
    shader := 2
    ex2 := some ⟨"glTF".toList, params ++ (match pbr with
      | some p => [("Metallic".toList, .param (.float p.metallic)), ("Roughness".toList, .param (.float p.roughness))]
      | none => []), []⟩ }

end Verif.Gltf
