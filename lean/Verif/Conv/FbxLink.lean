import Verif.Conv.FbxToMqo
import Verif.Conv.Materials
import Verif.Fbx.Build
import Verif.Fbx.CoordProps

/-!
What the accessors of fbx/fbx_model.go, fbx/fbx_geometry.go and fbx/fbx_document.go return for a
loaded FBX document: from the tree of a file to the document that the converter reads (C179, C180).
-/

namespace Verif.Conv

open Verif.Geom
open Verif.Mqo (Str)
open Verif.Mmd (Bytes toSigned V3)
open Verif.Fbx hiding Conv

variable {F : Type}

/-- What is not modelled of the numbers and strings of a file. `cv` and `value` give the value of a
number read as `float32`, `text` the characters of a string, `rot` the rotation by Euler angles in
degrees in the order ZYX (fbx/fbx_model.go:56-57 and 61; for the reals see Fbx/Model.lean). -/
structure FbxEnv (F : Type) where
  cv : Fbx.Conv
  value : UInt32 → F
  text : Bytes → Str
  rot : Vec3 F → Mat4 F

/-- fbx/fbx_node.go:177-199 (`ToFloat32`) with a default. -/
def FbxEnv.number (env : FbxEnv F) (v : Option Value) (d : F) : F :=
  match v with
  | some (.num .u8 _) => d
  | some (.num t b) => env.value (UInt32.ofNat (toFloat32 env.cv (.num t b)))
  | _ => d

/-- A vector of a file. -/
def FbxEnv.vec3 (env : FbxEnv F) (v : V3) : Vec3 F := ⟨env.value v.x, env.value v.y, env.value v.z⟩

/-- fbx/fbx_object.go:52-54 (`Name`). -/
def FbxEnv.name (env : FbxEnv F) (n : Node) : Str := env.text (fbxName (toStr (attr (some n) 1)))

/-! ### Properties -/

/-- The children of `Properties70` of a node that may be nil. -/
def propNodes (n : Option Node) : PropObj := ⟨(findChild n b! "Properties70").map Node.children, none⟩

/-- fbx/fbx_document.go:78-84: the template of a type of object; the last definition of a type counts. -/
def templateOf (root : Node) (typ : Bytes) : Option PropObj :=
  (((getChildren (findChild (some root) b! "Definitions")).filter fun n =>
    n.name == b! "ObjectType" && toStr (attr (some n) 0) == typ).getLast?).map fun n =>
      propNodes (findChild (some n) b! "PropertyTemplate")

/-- fbx/fbx_object.go:58-75 (`GetProperty`) of a node with the template of its type; `none` is the panic of
a property with less than four attributes. -/
def propertyOf (root : Node) (typ : Bytes) (n : Option Node) (name : Bytes) : Option Property :=
  (getProperty (propNodes n) (templateOf root typ) name).map fun r => r.1

/-- fbx/fbx_node.go:145-147 (`ToVector3`). -/
def FbxEnv.toVector3 (env : FbxEnv F) (p : Property) (d : Vec3 F) : Vec3 F :=
  ⟨env.number p.attrs[0]? d.x, env.number p.attrs[1]? d.y, env.number p.attrs[2]? d.z⟩

/-- fbx/fbx_model.go:54-72 (`GetMatrix`) of the node of a model in a file. -/
def FbxEnv.matrix [Add F] [Mul F] [Zero F] [One F] (env : FbxEnv F) (root : Node) (n : Node) : Option (Mat4 F) := do
  let pre ← propertyOf root n.name (some n) b! "PreRotation"
  let tr ← propertyOf root n.name (some n) b! "Lcl Translation"
  let rot ← propertyOf root n.name (some n) b! "Lcl Rotation"
  let sc ← propertyOf root n.name (some n) b! "Lcl Scaling"
  let t := env.toVector3 tr ⟨0, 0, 0⟩
  let s := env.toVector3 sc ⟨1, 1, 1⟩
  some ((((Mat4.translation t.x t.y t.z).mul (env.rot (env.toVector3 pre ⟨0, 0, 0⟩))).mul
    (env.rot (env.toVector3 rot ⟨0, 0, 0⟩))).mul (Mat4.scaling s.x s.y s.z))

/-- fbx/fbx_model.go:46-48 (`GetScalingPivot`). -/
def FbxEnv.pivot [Zero F] (env : FbxEnv F) (root : Node) (n : Node) : Option (Vec3 F) :=
  (propertyOf root n.name (some n) b! "ScalingPivot").map fun p => env.toVector3 p ⟨0, 0, 0⟩

/-! ### Meshes -/

/-- fbx/fbx_node.go:82-90 (`GetInt32Array`) as numbers. -/
def int32s (n : Option Node) : List Int := (getInt32Array n).map (toSigned 4)

/-- fbx/fbx_geometry.go:189-210 (`GeometryShape`). -/
def FbxEnv.shape (env : FbxEnv F) (n : Node) : FShape F where
  name := if 3 ≤ n.attrs.length then env.name n else env.text (toStr (attr (some n) 0))
  vertices := (vec3s (getFloat32Array env.cv (findChild (some n) b! "Vertices"))).map env.vec3
  indexes := int32s (findChild (some n) b! "Indexes")

/-- Sixteen numbers as a matrix, fbx/fbx_geometry.go:233-239; other lengths give the unit matrix. -/
def matrixOfList [Zero F] [One F] : List F → Mat4 F
  | [a, b, c, d, e, f, g, h, i, j, k, l, m, n, o, p] => ⟨a, b, c, d, e, f, g, h, i, j, k, l, m, n, o, p⟩
  | _ => Mat4.one

/-- The numbers of a node as floats, fbx/fbx_node.go:92-100. -/
def FbxEnv.floats (env : FbxEnv F) (n : Option Node) : List F :=
  (getFloat32Array env.cv n).map fun b => env.value (UInt32.ofNat b)

/-- fbx/fbx_geometry.go:212-258 (`Deformer`). -/
def FbxEnv.deformer [Zero F] [One F] (env : FbxEnv F) (d : FDoc) (k : Nat) : FDeformer F where
  channel := toStr (attr (some (d.node k)) 2) == b! "BlendShapeChannel"
  target := (d.refs k).find? d.isModel
  shapes := ((d.findRefs k b! "Geometry").filter fun g => toStr (attr (some (d.node g)) 2) == b! "Shape").map
    fun g => env.shape (d.node g)
  weights := env.floats (findChild (some (d.node k)) b! "Weights")
  indexes := int32s (findChild (some (d.node k)) b! "Indexes")
  link := matrixOfList (env.floats (findChild (some (d.node k)) b! "TransformLink"))

/-- fbx/fbx_geometry.go:80-90 (`GetDeformers`). -/
def FbxEnv.deformers [Zero F] [One F] (env : FbxEnv F) (d : FDoc) (k : Nat) : List (FDeformer F) :=
  (d.findRefs k b! "Deformer").flatMap fun s => (d.findRefs s b! "Deformer").map (env.deformer d)

/-- The mapping or reference type of a layer element, fbx/fbx_geometry.go:177-183. -/
def FbxEnv.layerText (env : FbxEnv F) (n : Node) (element what : Bytes) : Str :=
  env.text (toStr (attr (layerArray n element what) 0))

/-- fbx/fbx_geometry.go:59-100 and 148-187 (`Geometry`): the geometry of a node with its deformers. -/
def FbxEnv.geometry (env : FbxEnv F) (n : Node) (deformers : List (FDeformer F)) : FGeometry F where
  vertices := (geometryInit env.cv n).vertices.map env.vec3
  polygons := (geometryInit env.cv n).polygons.map fun f => f.map Int.toNat
  pvCount := (geometryInit env.cv n).polygonVertexCount
  matMap := env.layerText n b! "LayerElementMaterial" b! "MappingInformationType"
  mats := (materialsOf n).map (toSigned 4)
  nrmMap := env.layerText n b! "LayerElementNormal" b! "MappingInformationType"
  nrmRef := env.layerText n b! "LayerElementNormal" b! "ReferenceInformationType"
  nrmIndex := int32s (layerArray n b! "LayerElementNormal" b! "NormalsIndex")
  nrms := (normalsOf env.cv n).map env.vec3
  uvMap := env.layerText n b! "LayerElementUV" b! "MappingInformationType"
  uvRef := env.layerText n b! "LayerElementUV" b! "ReferenceInformationType"
  uvs := (uvsOf env.cv n).map fun v => ⟨env.value v.x, env.value v.y⟩
  uvIndex := int32s (layerArray n b! "LayerElementUV" b! "UVIndex")
  deformers := deformers
  shapes := (n.children.filter fun c => c.name == b! "Shape").map env.shape

/-- fbx/fbx_model.go:102-109 (`GetGeometry`): the geometry made of the node of a model of version 6100 comes
first; it has no references of its own. -/
def FbxEnv.meshOf [Zero F] [One F] (env : FbxEnv F) (d : FDoc) (k : Nat) : Option (FGeometry F) :=
  if d.ownGeometry k then some (env.geometry (d.node k) [])
  else ((d.findRefs k b! "Geometry").head?).map fun g => env.geometry (d.node g) (env.deformers d g)

/-! ### Models and the document -/

/-- The entry for objects that are no models. -/
def FModel.nothing [Zero F] [One F] : FModel F := ⟨[], false, Mat4.one, ⟨0, 0, 0⟩, none, [], none, []⟩

/-- fbx/fbx_model.go:9-13, 26-109 (`Model`). The places of materials are those in the list of
fbx/fbx_document.go:102-104. -/
def FbxEnv.modelOf [Add F] [Mul F] [Zero F] [One F] (env : FbxEnv F) (d : FDoc) (k : Nat) : Option (FModel F) :=
  if d.isModel k then do
    let m ← env.matrix d.raw (d.node k)
    let p ← env.pivot d.raw (d.node k)
    some {
      name := env.name (d.node k)
      limb := toStr (attr (some (d.node k)) 2) == b! "LimbNode"
      matrix := m
      pivot := p
      parent := d.parent k
      children := d.childModels k
      geometry := env.meshOf d k
      materials := (d.findRefs k b! "Material").map fun o => d.materials.idxOf o }
  else some .nothing

/-- The settings of fbx/fbx_document.go:170 and 177-179. -/
def FbxEnv.axes [One F] (env : FbxEnv F) (root : Node) : Option (Axes F) := do
  let get := propertyOf root b! "GlobalSettings" (findChild (some root) b! "GlobalSettings")
  let c ← get b! "CoordAxis"
  let cs ← get b! "CoordAxisSign"
  let u ← get b! "UpAxis"
  let us ← get b! "UpAxisSign"
  let f ← get b! "FrontAxis"
  let fs ← get b! "FrontAxisSign"
  some ⟨toInt64 (attr (some (.leaf [] c.attrs)) 0) 0, env.number cs.attrs[0]? 1,
    toInt64 (attr (some (.leaf [] u.attrs)) 0) 1, env.number us.attrs[0]? 1,
    toInt64 (attr (some (.leaf [] f.attrs)) 0) 2, env.number fs.attrs[0]? 1⟩

/-- fbx/fbx_document.go:5-18 as the converter sees a document made by `BuildDocument`; `none` is a panic.
Simplified: an object with a property of less than four attributes is a panic when the object is used;
here it is one whenever the object is a model. -/
def FbxEnv.sceneOf [CommRing F] (env : FbxEnv F) (d : FDoc) : Option (FScene F) := do
  let a ← env.axes d.raw
  let coord ← coordMatrix a
  let models ← (List.range d.objs.length).mapM (env.modelOf d)
  some {
    model := fun k => models.getD k .nothing
    count := d.objs.length
    scene := 0
    coord := coord
    materialCount := d.materials.length }

end Verif.Conv
