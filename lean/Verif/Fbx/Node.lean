import Verif.Mmd.BytesLemmas

/-!
FBX node trees: fbx/fbx_node.go and the parts of fbx/fbx_object.go that only look at nodes.

A Go string is its list of bytes. A number attribute is its Go type and its bit pattern
(little-endian value), so float32/float64 values are kept exactly. Nodes are values, not pointers;
where the code compares or shares pointers the definition says so.
-/

namespace Verif.Fbx

open Verif.Mmd (Bytes toSigned)

/-- `b! "abc"` is the byte list of a string literal, spelled out at elaboration time. -/
macro:max "b! " s:str : term => do
  let bs := s.getString.toUTF8.toList
  let elems ← bs.toArray.mapM fun b => do
    let n := Lean.Syntax.mkNumLit (toString b.toNat)
    `(($n : UInt8))
  `(([$elems,*] : List UInt8))

/-- The Go number types that occur as attribute values (binary_parser.go:143-182); `u8` is `byte`. -/
inductive NumTy
  | i8 | u8 | i16 | i32 | i64 | f32 | f64
deriving DecidableEq, Repr

/-- Size in bytes. -/
def NumTy.width : NumTy → Nat
  | i8 => 1 | u8 => 1 | i16 => 2 | i32 => 4 | i64 => 8 | f32 => 4 | f64 => 8

/-- `Attribute.Value` (fbx_node.go:121-123). `none'` is a nil `*Attribute` or a value of any other
type; `int` is Go's `int` (as in `NewNode("Layer", 0)`), which is not one of the types that
`ToInt64` knows. -/
inductive Value
  | num (ty : NumTy) (bits : Nat)
  | int (v : Int)
  | str (b : Bytes)
  | raw (b : Bytes)
  | arr (ty : NumTy) (bits : List Nat)
  | nilArr (ty : NumTy)
  | none'
deriving DecidableEq, Repr

/-- fbx_node.go:12-16. -/
inductive Node
  | mk (name : Bytes) (attrs : List Value) (children : List Node)

namespace Node

def name : Node → Bytes
  | mk n _ _ => n

def attrs : Node → List Value
  | mk _ a _ => a

def children : Node → List Node
  | mk _ _ c => c

@[simp] theorem name_mk (n a c) : (mk n a c).name = n := rfl
@[simp] theorem attrs_mk (n a c) : (mk n a c).attrs = a := rfl
@[simp] theorem children_mk (n a c) : (mk n a c).children = c := rfl

/-- fbx_node.go:18-24 `NewNode`. -/
def leaf (name : Bytes) (values : List Value) : Node := mk name values []

/-- fbx_node.go:26-28. -/
def addChild (n c : Node) : Node := mk n.name n.attrs (n.children ++ [c])

end Node

/-- fbx_node.go:40-50 on a possibly nil node: the first child with the name. -/
def findChild (n : Option Node) (name : Bytes) : Option Node :=
  match n with
  | none => none
  | some n => n.children.find? (fun c => c.name == name)

/-- fbx_node.go:52-57. -/
def getChildren (n : Option Node) : List Node :=
  match n with
  | none => []
  | some n => n.children

/-- fbx_node.go:59-64 with 126-131: `none` is a nil attribute. -/
def attr (n : Option Node) (i : Nat) : Option Value :=
  match n with
  | none => none
  | some n =>
    match n.attrs[i]? with
    | some .none' => none
    | v => v

/-- fbx_node.go:161-175. -/
def toInt64 (v : Option Value) (d : Int) : Int :=
  match v with
  | some (.num .i8 b) => toSigned 1 b
  | some (.num .i16 b) => toSigned 2 b
  | some (.num .i32 b) => toSigned 4 b
  | some (.num .i64 b) => toSigned 8 b
  | _ => d

/-- fbx_node.go:201-211. -/
def toStr (v : Option Value) : Bytes :=
  match v with
  | some (.str b) => b
  | some (.raw b) => b
  | _ => []

/-- Conversion of a signed number to `int32`, as a bit pattern. -/
def int32Bits (v : Int) : Nat := (v % 4294967296).toNat

/-- fbx_node.go:213-235: `none` is a nil slice. An empty slice of another element type gives nil
because nothing is appended to `r`. -/
def toInt32Array (v : Option Value) : Option (List Nat) :=
  match v with
  | some (.arr .i32 l) => some l
  | some (.arr .i8 l) => if l = [] then none else some (l.map fun b => int32Bits (toSigned 1 b))
  | some (.arr .i16 l) => if l = [] then none else some (l.map fun b => int32Bits (toSigned 2 b))
  | some (.arr .i64 l) => if l = [] then none else some (l.map fun b => int32Bits (toSigned 8 b))
  | _ => none

/-- fbx_node.go:82-90, as bit patterns. -/
def getInt32Array (n : Option Node) : List Nat :=
  match toInt32Array (attr n 0), attr n 0 with
  | some l, _ => l
  | none, none => []
  | none, some _ =>
    match n with
    | none => []
    | some n => n.attrs.map fun v => int32Bits (toInt64 (some v) 0)

end Verif.Fbx
