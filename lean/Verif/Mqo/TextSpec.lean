import Verif.Mqo.TextLemmas

/-!
What survives writing an MQO text and reading it again: the documents that can be written (`DocOk`) and
the document that comes back (`normDoc`), described field by field.
-/

namespace Verif.Mqo

open Verif.Geom Verif.Text

variable {F : Type} [Zero F] [One F] [Neg F] [Mul F] [NumText F] [NumLaws F]

def FinV (v : Vec3 F) : Prop := NumLaws.fin v.x ∧ NumLaws.fin v.y ∧ NumLaws.fin v.z

def round3 (v : Vec3 F) : Vec3 F := ⟨NumLaws.r3 v.x, NumLaws.r3 v.y, NumLaws.r3 v.z⟩

/-- Numbers that are only written if positive. -/
def pos0 (i : Int) : Int := if 0 < i then i else 0

/-- A face that can be written and read. The material must not be negative: -1, no material, cannot be
read. -/
structure FaceTextOk (f : Face F) : Prop where
  count : f.verts.length ≤ maxInt
  verts : ∀ i ∈ f.verts, i ≤ maxInt
  material : IntOk f.material
  uid : f.uid ≤ maxInt
  uvs : ∀ t ∈ f.uvs, NumLaws.fin t.x ∧ NumLaws.fin t.y
  normals : ∀ v, some v ∈ f.normals → FinV v

/-- The face that is read: texture coordinates and normals come back if there is one per corner. -/
def normFace (f : Face F) : Face F where
  uid := pos0 f.uid
  verts := f.verts
  material := f.material
  uvs := if f.uvs.length = f.verts.length then f.uvs else []
  normals := if f.normals.length = f.verts.length then f.normals else []

/-- A material that can be written and read. -/
structure MaterialTextOk (m : Material F) : Prop where
  name : Plain m.name
  uid : m.uid ≤ maxInt
  shader : IntOk m.shader
  color : NumLaws.fin m.color.x ∧ NumLaws.fin m.color.y ∧ NumLaws.fin m.color.z ∧ NumLaws.fin m.color.w
  diffuse : NumLaws.fin m.diffuse
  ambient : NumLaws.fin m.ambient
  emission : NumLaws.fin m.emission
  specular : NumLaws.fin m.specular
  power : NumLaws.fin m.power
  texture : Plain (slashes m.texture)
  alphaTexture : Plain (slashes m.alphaTexture)
  bumpTexture : Plain (slashes m.bumpTexture)

/-- The material of the `Material` block. -/
def normMaterial0 (m : Material F) : Material F where
  name := m.name
  uid := pos0 m.uid
  color := ⟨NumLaws.r3 m.color.x, NumLaws.r3 m.color.y, NumLaws.r3 m.color.z, NumLaws.r3 m.color.w⟩
  diffuse := NumLaws.r3 m.diffuse
  ambient := NumLaws.r3 m.ambient
  emission := NumLaws.r3 m.emission
  specular := NumLaws.r3 m.specular
  power := NumLaws.r2 m.power
  texture := slashes m.texture
  bumpTexture := slashes m.bumpTexture
  alphaTexture := slashes m.alphaTexture
  emissionColor := none
  doubleSided := m.doubleSided
  shader := m.shader
  ex2 := none

/-- A name of a shader parameter that can be read: a word, or two words with a dot. -/
def ParamName (n : Str) : Prop :=
  isWord n = true ∨ ∃ a b, isWord a = true ∧ isWord b = true ∧ n = a ++ '.' :: b

/-- A shader parameter that can be read. Texts and colours are written with the type `int` and cannot. -/
def ParamOk : Param F → Prop
  | .int i => IntOk i
  | .float x => NumLaws.fin x
  | .bool _ => True
  | .str _ => False
  | .color _ => False

structure Ex2Ok (e : Ex2 F) : Prop where
  type : Plain e.shaderType
  name : Plain e.shaderName
  count : e.shaderParams.length ≤ maxInt
  params : ∀ p ∈ e.shaderParams, ParamName p.1 ∧ ParamOk p.2
  /-- keys of a Go map -/
  keys : (e.shaderParams.map Prod.fst).Nodup

/-- The mappings are not written. -/
def normEx2 (e : Ex2 F) : Ex2 F := ⟨e.shaderType, e.shaderName, e.shaderParams, [], []⟩

def normMaterial (m : Material F) : Material F := { normMaterial0 m with ex2 := m.ex2.map normEx2 }

/-- An object that can be written and read. -/
structure ObjectTextOk (o : Object F) : Prop where
  name : Plain o.name
  uid : o.uid ≤ maxInt
  depth : IntOk o.depth
  shading : IntOk o.shading
  facet : NumLaws.fin o.facet
  mirror : IntOk o.mirror
  mirrorDis : NumLaws.fin o.mirrorDis
  patch : o.patch ≤ maxInt
  segment : IntOk o.patchSegment
  scale : ∀ v, o.scale = some v → FinV v
  rotation : ∀ v, o.rotation = some v → FinV v
  translation : ∀ v, o.translation = some v → FinV v
  color : ∀ v, o.color = some v → FinV v
  vertexes : o.vertexes.length ≤ maxInt
  points : ∀ v ∈ o.vertexes, FinV v
  uids : ∀ i < o.vertexes.length, IntOk (uidLine o.vertexByUID i)
  faces : o.faces.length ≤ maxInt
  face : ∀ f ∈ o.faces, FaceTextOk f

/-- The vertex ids that come back: one per vertex. -/
def normUIDs (o : Object F) : List (Int × Int) :=
  if 0 < o.vertexByUID.length then
    (List.range o.vertexes.length).foldl (fun m i => setKey (uidLine o.vertexByUID i) (i : Int) m) []
  else []

/-- The object that is read. -/
def normObject [DecidableEq F] (o : Object F) : Object F where
  uid := pos0 o.uid
  name := o.name
  vertexes := o.vertexes
  faces := o.faces.map normFace
  visible := o.visible
  locked := false
  depth := o.depth
  folding := o.folding
  shading := o.shading
  facet := o.facet
  patch := pos0 o.patch
  patchSegment := if 0 < o.patch then o.patchSegment else 0
  mirror := o.mirror
  mirrorDis := if o.mirror ≠ 0 ∨ o.mirrorDis ≠ 0 then NumLaws.r6 o.mirrorDis else 0
  scale := some (o.scale.getD ⟨1, 1, 1⟩)
  rotation := some (o.rotation.getD ⟨0, 0, 0⟩)
  translation := some (o.translation.getD ⟨0, 0, 0⟩)
  color := o.color.map round3
  vertexByUID := normUIDs o
  internalTransform := none

structure SceneOk (s : Scene F) : Prop where
  pos : FinV s.cameraPos
  lookAt : FinV s.cameraLookAt
  rot : FinV s.cameraRot
  zoom2 : NumLaws.fin s.zoom2
  front : NumLaws.fin s.frontClip
  back : NumLaws.fin s.backClip
  ambient : ∀ v, s.ambientLight = some v → FinV v

def normScene [FloatOps F] (s : Scene F) : Scene F where
  cameraPos := s.cameraPos
  cameraLookAt := s.cameraLookAt
  cameraRot := ⟨NumLaws.r4 s.cameraRot.x, NumLaws.r4 s.cameraRot.y, NumLaws.r4 s.cameraRot.z⟩
  zoom2 := NumLaws.r4 s.zoom2
  frontClip := if FloatOps.lt 0 s.frontClip then s.frontClip else 0
  backClip := if FloatOps.lt 0 s.backClip then s.backClip else 0
  ortho := s.ortho
  ambientLight := s.ambientLight.map round3

/-- A document that can be written and read. -/
structure DocOk (d : Document F) : Prop where
  scene : ∀ s, d.scene = some s → SceneOk s
  count : d.materials.length ≤ maxInt
  material : ∀ m ∈ d.materials, MaterialTextOk m
  ex2 : ∀ m ∈ d.materials, ∀ e, m.ex2 = some e → Ex2Ok e
  object : ∀ o ∈ d.objects, ObjectTextOk o

/-- The document that is read: the plugins are in another file. -/
def normDoc [DecidableEq F] [FloatOps F] (d : Document F) : Document F where
  scene := d.scene.map normScene
  materials := d.materials.map normMaterial
  objects := d.objects.map normObject
  bonePlugin := none
  morphPlugin := none
  physicsPlugin := none

end Verif.Mqo
