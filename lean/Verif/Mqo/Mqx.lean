import Verif.Mqo.Writer
import Verif.Mqo.Core
import Verif.Cmd.Main
import Mathlib.Logic.Function.Basic

/-! Model of the files of a Metasequoia document: the `.mqx` file with the plugins (mqo/mqx_writer.go, mqo/mqx_parser.go, with
the field tags of mqo/bone_plugin.go and mqo/morph_plugin.go), and which files are written and read (mqo/mqo_writer.go:42-47,
236-280, mqo/mqo_parser.go:28-41, 381-440).

XML is a tree of elements; its text (with the escaping of names) is left to `encoding/xml`. Missing attributes are read as zero
values, as `encoding/xml` does. Left out: poses, the attribute `limit`, and the bones of the old format. -/

namespace Verif.Mqo

open Verif.Geom

variable {F : Type}

/-- An element with attributes and children. -/
inductive Xml where
  | node (name : Str) (attrs : List (Str × Str)) (children : List Xml)

def Xml.name : Xml → Str
  | .node n _ _ => n

def Xml.attrs : Xml → List (Str × Str)
  | .node _ a _ => a

def Xml.children : Xml → List Xml
  | .node _ _ c => c

/-- The children with a name. -/
def Xml.all (x : Xml) (n : Str) : List Xml := x.children.filter fun c => c.name = n

/-- The only child with a name. -/
def Xml.child (x : Xml) (n : Str) : Option Xml := (x.all n).getLast?

/-- Numbers as text: `%v` and `Sscanf` for the parts of vectors, `strconv.FormatFloat` and `ParseFloat` for other numbers,
`strconv.ParseInt`. -/
structure XmlNum (F : Type) where
  showV : F → Str
  readV : Str → Option F
  showG : F → Str
  readG : Str → Option F
  readI : Str → Option Int

/-- The parts of a text between commas. -/
def splitComma : Str → List Str
  | [] => [[]]
  | c :: cs =>
    if c = ',' then [] :: splitComma cs
    else match splitComma cs with
      | p :: ps => (c :: p) :: ps
      | [] => [[c]]

/-- mqo/bone_plugin.go:142-145. -/
def showVecAttr (num : XmlNum F) (v : Vec3 F) : Str := num.showV v.x ++ ',' :: (num.showV v.y ++ ',' :: num.showV v.z)

/-- mqo/bone_plugin.go:147-150: what cannot be read stays 0. -/
def readVecAttr [Zero F] (num : XmlNum F) (s : Str) : Vec3 F :=
  match (splitComma s).map num.readV with
  | some x :: some y :: some z :: _ => ⟨x, y, z⟩
  | some x :: some y :: _ => ⟨x, y, 0⟩
  | some x :: _ => ⟨x, 0, 0⟩
  | _ => ⟨0, 0, 0⟩

/-- An `int` with `attr,omitempty`. -/
def optInt (n : Str) (i : Int) : List (Str × Str) := if i = 0 then [] else [(n, showInt i)]

/-- A `string` with `attr,omitempty`. -/
def optStr (n s : Str) : List (Str × Str) := if s = [] then [] else [(n, s)]

/-- A pointer to a vector with `attr,omitempty`. -/
def optVec (num : XmlNum F) (n : Str) : Option (Vec3 F) → List (Str × Str)
  | none => []
  | some v => [(n, showVecAttr num v)]

/-- Reading an `int`; `none` is an error. -/
def Xml.int (num : XmlNum F) (x : Xml) (n : Str) : Option Int :=
  match x.attrs.lookup n with
  | none => some 0
  | some s => if s = [] then some 0 else num.readI s

/-- Reading a `float32`; `none` is an error. -/
def Xml.float [Zero F] (num : XmlNum F) (x : Xml) (n : Str) : Option F :=
  match x.attrs.lookup n with
  | none => some 0
  | some s => if s = [] then some 0 else num.readG s

/-- Reading a `string`. -/
def Xml.str (x : Xml) (n : Str) : Str := (x.attrs.lookup n).getD []

/-- Reading a vector. -/
def Xml.vec [Zero F] (num : XmlNum F) (x : Xml) (n : Str) : Vec3 F := ((x.attrs.lookup n).map (readVecAttr num)).getD ⟨0, 0, 0⟩

/-- Reading an element that may be missing: `none` is an error. -/
def decodeOpt {α : Type} (f : Xml → Option α) : Option Xml → Option (Option α)
  | none => some none
  | some x => (f x).map some

/-- mqo/bone_plugin.go:172-175. -/
def encodeVertexWeight (num : XmlNum F) (w : VertexWeight F) : Xml :=
  .node "V".toList [("v".toList, showInt w.vertexID), ("w".toList, num.showG w.weight)] []

def decodeVertexWeight [Zero F] (num : XmlNum F) (x : Xml) : Option (VertexWeight F) := do
  let v ← x.int num "v".toList
  let w ← x.float num "w".toList
  return ⟨v, w⟩

/-- mqo/bone_plugin.go:167-170. -/
def encodeWeightGroup (num : XmlNum F) (g : WeightGroup F) : Xml :=
  .node "W".toList [("obj".toList, showInt g.objectID)] (g.vertexes.map (encodeVertexWeight num))

def decodeWeightGroup [Zero F] (num : XmlNum F) (x : Xml) : Option (WeightGroup F) := do
  let o ← x.int num "obj".toList
  let vs ← (x.all "V".toList).mapM (decodeVertexWeight num)
  return ⟨o, vs⟩

/-- mqo/bone_plugin.go:177-183. -/
def encodeIK (k : BoneIK) : Xml :=
  .node "IK".toList [("chain".toList, showInt k.chainCount), ("name".toList, k.name), ("tipName".toList, k.tipName)] []

def decodeIK (num : XmlNum F) (x : Xml) : Option BoneIK := do
  let c ← x.int num "chain".toList
  return ⟨c, x.str "name".toList, x.str "tipName".toList⟩

/-- mqo/bone_plugin.go:117-138, writing. -/
def encodeBone (num : XmlNum F) (b : Bone F) : Xml :=
  .node "Bone".toList
    ([("id".toList, showInt b.id), ("name".toList, b.name)] ++ optInt "group".toList b.group ++ optInt "parent".toList b.parent ++
      [("pos".toList, showVecAttr num b.pos)] ++ optInt "movable".toList b.movable ++ optInt "hide".toList b.hide ++
      optInt "dummy".toList b.dummy ++ optStr "color".toList b.color ++ optVec num "upVector".toList b.upVector ++
      optVec num "rotate".toList b.rotate)
    (b.ik.toList.map encodeIK ++ b.weights.map (encodeWeightGroup num))

/-- mqo/bone_plugin.go:117-138, reading. -/
def decodeBone [Zero F] (num : XmlNum F) (x : Xml) : Option (Bone F) := do
  let id ← x.int num "id".toList
  let group ← x.int num "group".toList
  let parent ← x.int num "parent".toList
  let movable ← x.int num "movable".toList
  let hide ← x.int num "hide".toList
  let dummy ← x.int num "dummy".toList
  let ik ← decodeOpt (decodeIK num) (x.child "IK".toList)
  let weights ← (x.all "W".toList).mapM (decodeWeightGroup num)
  return {
    id := id
    name := x.str "name".toList
    group := group
    parent := parent
    pos := x.vec num "pos".toList
    movable := movable
    hide := hide
    dummy := dummy
    color := x.str "color".toList
    upVector := (x.attrs.lookup "upVector".toList).map (readVecAttr num)
    rotate := (x.attrs.lookup "rotate".toList).map (readVecAttr num)
    ik := ik
    weights := weights
    weightMap := []
    rotationOffset := ⟨0, 0, 0⟩ }

/-- mqo/bone_plugin.go:12-20, writing. -/
def encodeBonePlugin (num : XmlNum F) (p : BonePlugin F) : Xml :=
  .node "Plugin.56A31D20.71F282AB".toList [("name".toList, p.name)]
    ([.node "BoneSet".toList [] [], .node "BoneSet2".toList [] (p.bones.map (encodeBone num)), .node "Poses".toList [] []] ++
      p.obj.map fun i => .node "Obj".toList [("id".toList, showInt i)] [])

/-- mqo/bone_plugin.go:12-20, reading. -/
def decodeBonePlugin [Zero F] (num : XmlNum F) (x : Xml) : Option (BonePlugin F) := do
  let bones ← decodeOpt (fun s => (s.all "Bone".toList).mapM (decodeBone num)) (x.child "BoneSet2".toList)
  let obj ← (x.all "Obj".toList).mapM fun o => o.int num "id".toList
  return ⟨x.str "name".toList, [], bones.getD [], obj⟩

/-- mqo/morph_plugin.go:39-42. -/
def encodeTarget (t : MorphTarget) : Xml := .node "Target".toList [("name".toList, t.name), ("param".toList, showInt t.param)] []

def decodeTarget (num : XmlNum F) (x : Xml) : Option MorphTarget := do
  let p ← x.int num "param".toList
  return ⟨x.str "name".toList, p⟩

/-- mqo/morph_plugin.go:34-37. -/
def encodeTargetList (l : MorphTargetList) : Xml :=
  .node "TargetList".toList [("base".toList, l.base)] (l.target.map encodeTarget)

def decodeTargetList (num : XmlNum F) (x : Xml) : Option MorphTargetList := do
  let ts ← (x.all "Target".toList).mapM (decodeTarget num)
  return ⟨x.str "base".toList, ts⟩

/-- mqo/morph_plugin.go:8-13, writing. -/
def encodeMorphPlugin (l : List MorphTargetList) : Xml :=
  .node "Plugin.56A31D20.C452C6DB".toList [("name".toList, "Morph".toList)]
    [.node "MorphSet".toList [] (l.map encodeTargetList)]

/-- mqo/morph_plugin.go:8-13, reading. -/
def decodeMorphPlugin (num : XmlNum F) (x : Xml) : Option (List MorphTargetList) :=
  (decodeOpt (fun s => (s.all "TargetList".toList).mapM (decodeTargetList num)) (x.child "MorphSet".toList)).map (·.getD [])

/-- mqo/physics_plugin.go:10-16, writing; the contents, which are never read, are left out. -/
def encodePhysicsPlugin (_ : PhysicsPlugin F) : Xml := .node "Plugin.7A6E6962.43594850".toList [] []

/-- mqo/mqx_writer.go:15-25 (`WriteMQX`). The order of the plugins in the file does not matter for the reader. -/
def writeMQX (num : XmlNum F) (doc : Document F) : Xml :=
  .node "MetasequoiaDocument".toList []
    ([.node "IncludedBy".toList [] []] ++
      doc.bonePlugin.toList.map (fun p => encodeBonePlugin num (p.preSerialize doc.objects)) ++
      doc.morphPlugin.toList.map encodeMorphPlugin ++ doc.physicsPlugin.toList.map encodePhysicsPlugin)

/-- mqo/mqx_parser.go:8-26 (`ReadMQX`): the plugins; `none` is an error. -/
def readMQX [Zero F] (num : XmlNum F) (x : Xml) : Option (Option (BonePlugin F) × Option (List MorphTargetList)) :=
  if x.name = "MetasequoiaDocument".toList then do
    let b ← decodeOpt (decodeBonePlugin num) (x.child "Plugin.56A31D20.71F282AB".toList)
    let m ← decodeOpt (decodeMorphPlugin num) (x.child "Plugin.56A31D20.C452C6DB".toList)
    return (b, m)
  else none

/-- A file. The text of a document, which is the subject of Verif/Mqo/TextProps.lean, is given by what the parser reads
from it: the document without plugins and the name behind `IncludeXml`. -/
inductive FileData (F : Type) where
  | text (doc : Document F) (inc : Option Str)
  | xml (x : Xml)
  | zip (entries : List (Str × FileData F))

/-- The document without plugins. -/
def Document.bare (doc : Document F) : Document F := { doc with bonePlugin := none, morphPlugin := none, physicsPlugin := none }

/-- `len(mqo.Plugins) > 0`. -/
def Document.hasPlugins (doc : Document F) : Bool := doc.bonePlugin.isSome || doc.morphPlugin.isSome || doc.physicsPlugin.isSome

/-- `filepath.Base`, for the path of a file. -/
def baseName (path : Str) : Str := (path.reverse.takeWhile (· ≠ '/')).reverse

/-- `filepath.Dir(path) + "/" + name`, up to the spelling of the path. -/
def sibling (path name : Str) : Str := path.take (path.length - (baseName path).length) ++ name

/-- The path without its extension. -/
def stem (path : Str) : Str := path.take (path.length - (Verif.Cmd.ext path).length)

/-- mqo/mqo_writer.go:42-47: the name of the `.mqx` file. -/
def mqxName (path : Str) : Str := baseName (stem path ++ ".mqx".toList)

/-- mqo/mqo_writer.go:43-47: the name behind `IncludeXml`. -/
def includeOf (path : Str) (doc : Document F) : Option Str := if doc.hasPlugins then some (mqxName path) else none

/-- mqo/mqo_writer.go:269-280 (`Save`) and 246-267 (`SaveMQOZ`): the files after saving. `none` cannot happen (see
`fixNames` in C14). -/
def saveMQO (num : XmlNum F) (path : Str) (doc : Document F) (fs : Str → Option (FileData F)) : Option (Str → Option (FileData F)) :=
  if (".mqoz".toList).isSuffixOf path then
    some (Function.update fs path (some (.zip
      ([(stem (baseName path) ++ ".mqo".toList, .text doc.bare (includeOf path doc))] ++
        (if doc.hasPlugins then [(mqxName path, .xml (writeMQX num doc))] else [])))))
  else
    match doc.fixNames with
    | none => none
    | some doc =>
      let fs := Function.update fs path (some (.text doc.bare (includeOf path doc)))
      some (if doc.hasPlugins then Function.update fs (sibling path (mqxName path)) (some (.xml (writeMQX num doc))) else fs)

/-- mqo/mqo_parser.go:388-398: the document with the plugins of the `.mqx` file; files that are missing or cannot be read
are ignored. -/
def withPlugins [Zero F] (num : XmlNum F) (doc : Document F) (file : Option (FileData F)) : Document F :=
  match file with
  | some (.xml x) =>
    match readMQX num x with
    | some (b, m) => { doc with bonePlugin := b, morphPlugin := m }
    | none => doc
  | _ => doc

/-- mqo/mqo_parser.go:429-440 (`Load`) and 401-427 (`LoadMQOZ`). `none` is an error; a file of another kind, which the parser
would read as something else, is left out (`none`). -/
def loadMQO [Zero F] (num : XmlNum F) (path : Str) (fs : Str → Option (FileData F)) : Option (Document F) :=
  if (".mqoz".toList).isSuffixOf path then
    match fs path with
    | some (.zip es) =>
      match es.find? fun e => (".mqo".toList).isSuffixOf e.1 with
      | some (_, .text doc inc) => some (withPlugins num doc (inc.bind fun n => es.lookup n))
      | _ => none
    | _ => none
  else
    match fs path with
    | some (.text doc inc) => some (withPlugins num doc (inc.bind fun n => fs (sibling path n)))
    | _ => none

end Verif.Mqo
