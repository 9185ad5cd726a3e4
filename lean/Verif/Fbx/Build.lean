import Verif.Fbx.Document
import Verif.Fbx.Geometry
import Verif.Fbx.Text

/-!
fbx/fbx_document.go: from the tree of a file to objects and connections (`BuildDocument`), and the
calls that add objects and connections to a document (C176, C177, C178).

Objects are pointers, here positions: 0 is the scene, the others follow in the order in which they
are added.
-/

namespace Verif.Fbx

open Verif.Mmd (Bytes)

/-- `"Scene\x00\x01Model"` of fbx_document.go:66 and 84. -/
def sceneName : Bytes := b! "Scene" ++ 0 :: 1 :: b! "Model"

/-- The node of the scene object, fbx_document.go:66. -/
def sceneNode : Node := .leaf sceneName []

/-- fbx_document.go:5-18 as far as objects and connections are concerned. `objs` are the nodes of the
objects. `ownGeometry k`: the object has a reference to a geometry made of its own node, in front of
`refs k` (only in documents of version 6100). The maps are lists whose first entry of a key counts. -/
structure FDoc where
  raw : Node
  version : Int
  objs : List Node
  byID : List (Int × Nat)
  byName : List (Bytes × Nat)
  nextID : Int
  materials : List Nat
  ownGeometry : Nat → Bool
  refs : Nat → List Nat
  parent : Nat → Option Nat

/-- fbx_object.go:49-51 on a node. -/
def nodeID (n : Node) : Int := toInt64 (attr (some n) 0) 0

/-- fbx_document.go:76. -/
def versionOf (root : Node) : Int :=
  toInt64 (attr (findChild (findChild (some root) b! "FBXHeaderExtension") b! "FBXVersion") 0) 0

namespace FDoc

/-- The node of an object. -/
def node (d : FDoc) (k : Nat) : Node := d.objs.getD k sceneNode

/-- Whether an object is a `*Model`: the scene (fbx_document.go:66) and the objects of line 105. -/
def isModel (d : FDoc) (k : Nat) : Bool := k == 0 || (d.node k).name == b! "Model"

/-- fbx_document.go:57-63. -/
def newID (d : FDoc) : Int := IdDoc.firstFree d.byID d.byID.length d.nextID

/-- fbx_document.go:86-116: one child of `Objects`. In a document of version 6100 a new id is put in
front of the attributes of a copy of the node. The templates of the properties (lines 78-83) are not
part of this model. -/
def loadObject (d : FDoc) (n : Node) : FDoc :=
  let old := d.version == 6100
  let n' := if old then Node.mk n.name (.num .i64 (int64Bits d.newID) :: n.attrs) n.children else n
  let k := d.objs.length
  { d with
    objs := d.objs ++ [n']
    byID := (nodeID n', k) :: d.byID
    byName := (toStr (attr (some n') 1), k) :: d.byName
    nextID := if old then d.newID + 1 else d.nextID
    materials := if n.name = b! "Material" then d.materials ++ [k] else d.materials
    ownGeometry := if old && n.name == b! "Model" && (findChild (some n') b! "Vertices").isSome then
        Function.update d.ownGeometry k true else d.ownGeometry }

/-- fbx_document.go:119: whether a child of `Connections` is used. -/
def usable (c : Node) : Bool :=
  (toStr (attr (some c) 0) == b! "OO" || toStr (attr (some c) 0) == b! "OP") && decide (3 ≤ c.attrs.length)

/-- fbx_document.go:121-126: the object at one end of a connection; `i` is 1 for the child and 2 for
the parent. -/
def endOf (d : FDoc) (c : Node) (i : Nat) : Option Nat :=
  if d.version = 6100 then d.byName.lookup (toStr (attr (some c) i))
  else d.byID.lookup (toInt64 (attr (some c) i) 0)

/-- fbx_document.go:118-137: one child of `Connections`. -/
def loadConnection (d : FDoc) (c : Node) : FDoc :=
  if usable c then
    match d.endOf c 1, d.endOf c 2 with
    | some child, some par =>
      { d with
        refs := Function.update d.refs par (d.refs par ++ [child])
        parent := if d.isModel par && d.isModel child then Function.update d.parent child (some par) else d.parent }
    | _, _ => d
  else d

/-- fbx_document.go:66-67 and 84: the document before its objects are read. -/
def start (root : Node) : FDoc :=
  { raw := root, version := versionOf root, objs := [sceneNode], byID := [(0, 0)], byName := [(sceneName, 0)],
    nextID := 0, materials := [], ownGeometry := fun _ => false, refs := fun _ => [], parent := fun _ => none }

/-- fbx_document.go:86-116: all objects. -/
def loadObjects (root : Node) : FDoc :=
  (getChildren (findChild (some root) b! "Objects")).foldl loadObject (start root)

/-- fbx_document.go:65-141 `BuildDocument`. -/
def build (root : Node) : FDoc :=
  (getChildren (findChild (some root) b! "Connections")).foldl loadConnection (loadObjects root)

/-- fbx_model.go:81-89. -/
def childModels (d : FDoc) (k : Nat) : List Nat := (d.refs k).filter d.isModel

/-- fbx_object.go:114-122 (the geometry made of the node of a 6100 model has the node name `Model`). -/
def findRefs (d : FDoc) (k : Nat) (typ : Bytes) : List Nat := (d.refs k).filter fun o => (d.node o).name == typ

/-- fbx_document.go:148-150: the node with another first attribute; `none` is the panic when there is
no attribute. -/
def setID (n : Node) (i : Int) : Option Node :=
  match n.attrs with
  | [] => none
  | _ :: as => some (.mk n.name (.num .i64 (int64Bits i) :: as) n.children)

/-- fbx_document.go:143-155 for an object that is not in the document (an object that is: C30); `none`
is a panic. The object is a position in the result, its node is part of the tree. -/
def addObject (d : FDoc) (n : Node) : Option FDoc :=
  let fresh := decide (nodeID n = 0) || (d.byID.lookup (nodeID n)).isSome
  match (if fresh then setID n d.newID else some n) with
  | none => none
  | some n' =>
    (updateChild d.raw b! "Objects" fun o => o.addChild n').map fun raw =>
      { d with
        raw := raw
        objs := d.objs ++ [n']
        byID := (nodeID n', d.objs.length) :: d.byID
        nextID := if fresh then d.newID + 1 else d.nextID }

/-- The node of a connection made by fbx_document.go:160 and 166. -/
def connectionNode (kind : Bytes) (child parent : Int) (more : List Value) : Node :=
  .leaf b! "C" (.str kind :: .num .i64 (int64Bits child) :: .num .i64 (int64Bits parent) :: more)

/-- fbx_document.go:157-161 (`prop = none`) and 163-167 (`prop = some p`) on objects of the document;
`none` is the panic when there is no node `Connections`. -/
def addConnection (d : FDoc) (parent child : Nat) (prop : Option Bytes) : Option FDoc :=
  let c := match prop with
    | none => connectionNode b! "OO" (nodeID (d.node child)) (nodeID (d.node parent)) []
    | some p => connectionNode b! "OP" (nodeID (d.node child)) (nodeID (d.node parent)) [.str p]
  (updateChild d.raw b! "Connections" fun o => o.addChild c).map fun raw =>
    { d with raw := raw, refs := Function.update d.refs parent (d.refs parent ++ [child]) }

/-- A call that changes a document. -/
inductive Edit
  | object (n : Node)
  | connect (parent child : Nat) (prop : Option Bytes)

/-- One call. -/
def edit (d : FDoc) : Edit → Option FDoc
  | .object n => d.addObject n
  | .connect p c prop => d.addConnection p c prop

/-- A sequence of calls. -/
def edits (d : FDoc) : List Edit → Option FDoc
  | [] => some d
  | e :: es => (d.edit e).bind fun d' => d'.edits es

end FDoc

/-- fbx_document.go:20-55 `NewDocument`: the tree. The values of the global settings are as
fbx_object.go:98-104 store them; `one` is the bit pattern of 1.0. -/
def newRoot (one : Nat) : Node :=
  let int (name : Bytes) (v : Int) : Node :=
    .leaf b! "P" (propAttrs name ⟨[.num .i64 (int64Bits v)], b! "int", b! "Integer", []⟩)
  .mk [] []
    [.mk b! "FBXHeaderExtension" []
      [.leaf b! "FBXHeaderVersion" [.int 1003], .leaf b! "FBXVersion" [.int 7500], .leaf b! "Creator" [.str b! "modelconv"]],
     .mk b! "GlobalSettings" []
      [.leaf b! "Version" [.int 1000],
       .mk b! "Properties70" []
        [int b! "UpAxis" 1, int b! "UpAxisSign" 1, int b! "FrontAxis" 2, int b! "FrontAxisSign" 1, int b! "CoordAxis" 0,
         int b! "CoordAxisSign" 1,
         .leaf b! "P" (propAttrs b! "UnitScaleFactor" ⟨[.num .f64 one], b! "double", b! "Number", []⟩)]],
     .mk b! "Definitions" []
      [.leaf b! "Version" [.int 100], .leaf b! "ObjectType" [.str b! "GlobalSettings"],
       .leaf b! "ObjectType" [.str b! "Model"], .leaf b! "ObjectType" [.str b! "Geometry"],
       .leaf b! "ObjectType" [.str b! "Material"]],
     .mk b! "Objects" [] [],
     .mk b! "Connections" [] []]

end Verif.Fbx
