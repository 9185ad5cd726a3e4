import Verif.Fbx.Node
import Mathlib.Logic.Function.Basic

/-!
fbx/fbx_document.go: object ids (C30), and fbx/fbx_object.go: properties (C31).

Objects are pointers, here natural numbers.
-/

namespace Verif.Fbx

open Verif.Mmd (Bytes)

/-! ## Object ids -/

/-- The parts of a document that `AddObject` reads and writes. `byID` is the map `ObjectByID` (first
entry of a key counts), `objects` the children of the node `Objects` (`none`: there is no such
node), `attr0 o` the id stored in the first attribute of the node of `o` as read by `ID()` (`none`:
the node has no attribute). Two objects with the same node are not modelled; ids do not overflow. -/
structure IdDoc where
  byID : List (Int × Nat)
  nextID : Int
  objects : Option (List Nat)
  attr0 : Nat → Option Int

namespace IdDoc

/-- fbx_object.go:49-51: `ID()`; 0 when there is no attribute. -/
def id (d : IdDoc) (o : Nat) : Int := (d.attr0 o).getD 0

/-- The map lookup `doc.ObjectByID[id]`. -/
def get (d : IdDoc) (i : Int) : Option Nat := d.byID.lookup i

/-- The loop of fbx_document.go:58-60. It ends because the map is finite; `fuel` bounds the number
of rounds. -/
def firstFree (m : List (Int × Nat)) : Nat → Int → Int
  | 0, i => i
  | fuel + 1, i => if (m.lookup i).isSome then firstFree m fuel (i + 1) else i

/-- fbx_document.go:57-63. -/
def newID (d : IdDoc) : Int × IdDoc :=
  let i := firstFree d.byID d.byID.length d.nextID
  (i, { d with nextID := i + 1 })

/-- fbx_document.go:143-155; `none` is a panic (no attribute to overwrite, or no `Objects` node). -/
def addObject (d : IdDoc) (o : Nat) : Option (Int × IdDoc) :=
  let existing := d.get (d.id o)
  if existing = some o then some (d.id o, d)
  else
    let d1 : Option IdDoc :=
      if d.id o = 0 ∨ existing ≠ none then
        match d.attr0 o with
        | none => none
        | some _ =>
          let (i, d') := d.newID
          some { d' with attr0 := Function.update d'.attr0 o (some i) }
      else some d
    match d1 with
    | none => none
    | some d1 =>
      match d1.objects with
      | none => none
      | some l =>
        some (d1.id o, { d1 with byID := (d1.id o, o) :: d1.byID, objects := some (l ++ [o]) })

/-- One step of fbx_document.go:86-116, as far as ids are concerned: a 6100 document has no ids, so
one is put in front of the attributes (on a copy of the node). -/
def loadObject (v6100 : Bool) (d : IdDoc) (o : Nat) : IdDoc :=
  if v6100 then
    let (i, d') := d.newID
    let d2 := { d' with attr0 := Function.update d'.attr0 o (some i) }
    { d2 with byID := (d2.id o, o) :: d2.byID }
  else { d with byID := (d.id o, o) :: d.byID }

/-- fbx_document.go:65-67 and 86-116: the scene is registered under 0, then every object of the
file in order. `attr0` gives the ids in the file; the scene's node has no attribute. -/
def build (v6100 : Bool) (scene : Nat) (attr0 : Nat → Option Int) (objs : List Nat)
    (objects : Option (List Nat)) : IdDoc :=
  objs.foldl (loadObject v6100)
    { byID := [(0, scene)], nextID := 0, objects := objects,
      attr0 := Function.update attr0 scene none }

/-- A sequence of `AddObject` calls. -/
def addAll (d : IdDoc) : List Nat → Option IdDoc
  | [] => some d
  | o :: os => (d.addObject o).bind fun r => r.2.addAll os

end IdDoc

/-! ## Properties -/

/-- fbx_object.go:7-12. -/
structure Property where
  attrs : List Value
  typ : Bytes
  label : Bytes
  flag : Bytes
deriving DecidableEq, Repr

/-- `&Property{}` of fbx_object.go:74. -/
def Property.empty : Property := ⟨[], [], [], []⟩

/-- The parts of `Obj` (fbx_object.go:26-31) used by properties: the children of `Properties70`
(`none`: no such child) and the lazily filled cache (`none`: nil map). -/
structure PropObj where
  nodes : Option (List Node)
  cache : Option (List (Bytes × Property))

/-- fbx_object.go:62-66: one entry of the cache; `none` is the slice bounds panic of
`node.Attributes[4:]`. -/
def propOfNode (n : Node) : Option (Bytes × Property) :=
  if n.attrs.length < 4 then none
  else some (toStr (attr (some n) 0),
    { attrs := n.attrs.drop 4
      typ := toStr (attr (some n) 1)
      label := toStr (attr (some n) 2)
      flag := toStr (attr (some n) 3) })

/-- fbx_object.go:59-68: the cache, newest entry first, so that a later node of the same name
replaces an earlier one. -/
def fillCache (o : PropObj) : Option PropObj :=
  match o.cache with
  | some _ => some o
  | none => ((o.nodes.getD []).mapM propOfNode).map fun l => { o with cache := some l.reverse }

/-- fbx_object.go:58-75 for an object and its optional template (templates have no template
themselves, fbx_document.go:82). -/
def getProperty (o : PropObj) (tmpl : Option PropObj) (name : Bytes) :
    Option (Property × PropObj × Option PropObj) :=
  match fillCache o with
  | none => none
  | some o' =>
    match (o'.cache.getD []).lookup name with
    | some p => some (p, o', tmpl)
    | none =>
      match tmpl with
      | none => some (.empty, o', none)
      | some t =>
        match fillCache t with
        | none => none
        | some t' => some (((t'.cache.getD []).lookup name).getD .empty, o', some t')

/-- fbx_object.go:80-86. -/
def propAttrs (name : Bytes) (p : Property) : List Value :=
  [.str name, .str p.typ, .str p.label, .str p.flag] ++ p.attrs

/-- fbx_object.go:88-94: overwrites the attributes of the first node of that name, or appends. -/
def setNode (name : Bytes) (p : Property) : List Node → List Node
  | [] => [.mk b! "P" (propAttrs name p) []]
  | n :: ns =>
    if toStr (attr (some n) 0) = name then .mk n.name (propAttrs name p) n.children :: ns
    else n :: setNode name p ns

/-- fbx_object.go:76-96; `none` is the nil dereference when there is no `Properties70` node. -/
def setProperty (o : PropObj) (name : Bytes) (p : Property) : Option PropObj :=
  match o.nodes with
  | none => none
  | some l =>
    some { nodes := some (setNode name p l)
           cache := o.cache.map fun c => (name, p) :: c }

/-- A caller's step. -/
inductive PropOp
  | get (name : Bytes)
  | set (name : Bytes) (p : Property)

/-- Runs a history of calls and collects what the gets return. -/
def runProps (o : PropObj) (tmpl : Option PropObj) : List PropOp → Option (List Property)
  | [] => some []
  | .get n :: ops =>
    (getProperty o tmpl n).bind fun r => (runProps r.2.1 r.2.2 ops).map (r.1 :: ·)
  | .set n p :: ops => (setProperty o n p).bind fun o' => runProps o' tmpl ops

end Verif.Fbx
