import Verif.Fbx.Node

/-!
fbx/fbx_geometry.go: how meshes are stored in node trees.
-/

namespace Verif.Fbx

open Verif.Mmd (Bytes toSigned V3)
open Verif.Geom

/-- Conversions to float32 done by Go (`float32(v)`), as arbitrary functions on bit patterns. -/
structure Conv where
  ofF64 : Nat → Nat
  ofInt : Int → Nat

/-- fbx_node.go:177-199 `ToFloat32` on a non-nil attribute, 0 for the other types (every caller
modelled here passes 0 as default). A float32 goes through float64 and back, which changes no
value. -/
def toFloat32 (cv : Conv) (v : Value) : Nat :=
  match v with
  | .num .f32 b => b
  | .num .f64 b => cv.ofF64 b
  | .num .i8 b => cv.ofInt (toSigned 1 b)
  | .num .i16 b => cv.ofInt (toSigned 2 b)
  | .num .i32 b => cv.ofInt (toSigned 4 b)
  | .num .i64 b => cv.ofInt (toSigned 8 b)
  | _ => 0

/-- fbx_node.go:237-259; `none` is a nil slice. -/
def toFloat32Array (cv : Conv) (v : Option Value) : Option (List Nat) :=
  match v with
  | some (.arr .f32 l) => some l
  | some (.arr .f64 l) => if l = [] then none else some (l.map cv.ofF64)
  | some (.arr .i32 l) => if l = [] then none else some (l.map fun b => cv.ofInt (toSigned 4 b))
  | some (.arr .i64 l) => if l = [] then none else some (l.map fun b => cv.ofInt (toSigned 8 b))
  | _ => none

/-- fbx_node.go:92-100. -/
def getFloat32Array (cv : Conv) (n : Option Node) : List Nat :=
  match toFloat32Array cv (attr n 0), attr n 0 with
  | some l, _ => l
  | none, none => []
  | none, some _ =>
    match n with
    | none => []
    | some n => n.attrs.map (toFloat32 cv)

/-- fbx_node.go:111-118, on the float array: groups of three, a rest is dropped. -/
def vec3s : List Nat → List V3
  | x :: y :: z :: l => ⟨UInt32.ofNat x, UInt32.ofNat y, UInt32.ofNat z⟩ :: vec3s l
  | _ => []

/-- fbx_node.go:102-109: groups of two. -/
def vec2s : List Nat → List (Vec2 UInt32)
  | x :: y :: l => ⟨UInt32.ofNat x, UInt32.ofNat y⟩ :: vec2s l
  | _ => []

/-- A slice built by `append` from nil: it is nil when nothing was appended. -/
def slice (ty : NumTy) (l : List Nat) : Value := if l = [] then .nilArr ty else .arr ty l

/-- fbx_object.go:33-41 `newObj`. -/
def newObj (typ name kind : Bytes) (nodes : List Node) : Node :=
  .mk typ [.int 0, .str name, .str kind] (nodes ++ [.leaf b! "Properties70" []])

/-- fbx_geometry.go:38-45, one face: its indices as `int32`, the last one complemented. -/
def faceIndices : List Int → List Nat
  | [] => []
  | [i] => [4294967295 - int32Bits i]
  | i :: l => int32Bits i :: faceIndices l

def vec3Floats (v : V3) : List Nat := [v.x.toNat, v.y.toNat, v.z.toNat]

/-- fbx_geometry.go:32-57, the node of the new geometry. -/
def newGeometry (name : Bytes) (verts : List V3) (faces : List (List Int)) : Node :=
  newObj b! "Geometry" (name ++ [0, 1] ++ b! "Geometry") b! "Mesh"
    [.leaf b! "Vertices" [slice .f32 (verts.flatMap vec3Floats)],
     .leaf b! "PolygonVertexIndex" [slice .i32 (faces.flatMap faceIndices)],
     .leaf b! "Layer" [.int 0]]

/-- The loop of fbx_geometry.go:64-73: `face` is the polygon under construction. A negative index
ends the polygon. -/
def decodePolygons (face : List Int) : List Nat → List (List Int)
  | [] => []
  | b :: l =>
    if toSigned 4 b < 0 then (face ++ [toSigned 4 (4294967295 - b)]) :: decodePolygons [] l
    else decodePolygons (face ++ [toSigned 4 b]) l

/-- What `Init` stores in a geometry (fbx_geometry.go:9-14). -/
structure GeometryData where
  vertices : List V3
  polygons : List (List Int)
  polygonVertexCount : Nat

/-- fbx_geometry.go:59-78 on a geometry without polygons, as `BuildDocument` creates it
(fbx_document.go:99-100). -/
def geometryInit (cv : Conv) (n : Node) : GeometryData :=
  let pv := getInt32Array (findChild (some n) b! "PolygonVertexIndex")
  { vertices := vec3s (getFloat32Array cv (findChild (some n) b! "Vertices"))
    polygons := decodePolygons [] pv
    polygonVertexCount := pv.length }

/-- fbx_object.go:127-136: replaces the first child of that name, or appends; the flag tells
whether it was appended. -/
def addOrReplaceChild (n c : Node) : Node × Bool :=
  let rec go : List Node → Option (List Node)
    | [] => none
    | x :: xs => if x.name = c.name then some (c :: xs) else (go xs).map (x :: ·)
  match go n.children with
  | some l => (.mk n.name n.attrs l, false)
  | none => (.mk n.name n.attrs (n.children ++ [c]), true)

/-- The first child called `name` replaced by `f` of it (the code changes it through a pointer);
`none` when there is no such child. -/
def updateChild (n : Node) (name : Bytes) (f : Node → Node) : Option Node :=
  let rec go : List Node → Option (List Node)
    | [] => none
    | x :: xs => if x.name = name then some (f x :: xs) else (go xs).map (x :: ·)
  (go n.children).map fun l => .mk n.name n.attrs l

/-- fbx_geometry.go:102-113. `none` is the nil dereference when the geometry has no `Layer` child.
The argument `values` is not used by the code. -/
def setLayerElementNode (g : Node) (name : Bytes) (typeIndex : Int) (_values : List Node) :
    Option Node :=
  match addOrReplaceChild g (.leaf name [.int 0]) with
  | (g', false) => some g'
  | (g', true) =>
    updateChild g' b! "Layer" fun layer =>
      layer.addChild (.mk b! "LayerElement" []
        [.leaf b! "Type" [.str name], .leaf b! "TypedIndex" [.int typeIndex]])

/-- fbx_geometry.go:136-146. -/
def setLayerElementNormal (g : Node) (normals : List V3) (mapping : Bytes) : Option Node :=
  setLayerElementNode g b! "LayerElementNormal" 0
    [.leaf b! "MappingInformationType" [.str mapping],
     .leaf b! "ReferenceInformationType" [.str b! "Direct"],
     .leaf b! "Normals" [slice .f32 (normals.flatMap vec3Floats)]]

/-- fbx_geometry.go:115-121. -/
def setLayerElementMaterialIndex (g : Node) (mat : List Nat) (mapping : Bytes) : Option Node :=
  setLayerElementNode g b! "LayerElementMaterial" 0
    [.leaf b! "MappingInformationType" [.str mapping],
     .leaf b! "ReferenceInformationType" [.str b! "IndexToDirect"],
     .leaf b! "Materials" [.arr .i32 mat]]

/-- fbx_geometry.go:123-134. The element is named `LayerElementNormal`, not `LayerElementUV`. -/
def setLayerElementUVIndexed (g : Node) (uv : List (Vec2 UInt32)) (indices : List Nat)
    (mapping : Bytes) : Option Node :=
  setLayerElementNode g b! "LayerElementNormal" 0
    [.leaf b! "MappingInformationType" [.str mapping],
     .leaf b! "ReferenceInformationType" [.str b! "IndexToDirect"],
     .leaf b! "UV" [slice .f32 (uv.flatMap fun v => [v.x.toNat, v.y.toNat])],
     .leaf b! "UVIndex" [.arr .i32 indices]]

/-- The array node of a layer element: fbx_geometry.go:148-175 (`GetLayerElementNormal().Array`,
`GetLayerElementUV().Array`, ...). -/
def layerArray (g : Node) (element array : Bytes) : Option Node :=
  findChild (findChild (some g) element) array

/-- fbx_geometry.go:161-163. -/
def normalsOf (cv : Conv) (g : Node) : List V3 :=
  vec3s (getFloat32Array cv (layerArray g b! "LayerElementNormal" b! "Normals"))

/-- fbx_geometry.go:157-159: the material index of each polygon. -/
def materialsOf (g : Node) : List Nat :=
  getInt32Array (layerArray g b! "LayerElementMaterial" b! "Materials")

/-- fbx_geometry.go:153-155. -/
def uvsOf (cv : Conv) (g : Node) : List (Vec2 UInt32) :=
  vec2s (getFloat32Array cv (layerArray g b! "LayerElementUV" b! "UV"))

end Verif.Fbx
