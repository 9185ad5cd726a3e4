import Verif.Fbx.Node

/-!
fbx/binary_parser.go: the reader of binary FBX files.

The input is a byte list; `seek` tells whether the underlying reader is an `io.Seeker`. Reads return
as many bytes as asked for unless the input ends. Memory is unlimited and 64 bit positions do not
overflow. zlib (compress/zlib, outside /repo) is an arbitrary function.
-/

namespace Verif.Fbx

open Verif.Mmd (Bytes ofLe leBytes toSigned)

/-- The distinction that matters: `io.EOF` is not reported to the caller, any other error is. -/
inductive Err
  | eof | other
deriving DecidableEq, Repr

/-- `binaryParser` with its `positionReader` (binary_parser.go:13-16, 38-42). `real` is the offset of
the underlying reader, `pos` the field `position`. -/
structure BR where
  data : Bytes
  seek : Bool
  real : Nat
  pos : Int
  version : Nat
  err : Option Err

/-- Outcome of decompressing: `zlib.NewReader` fails, reading fails, or the wanted bytes. -/
inductive ZRes
  | openErr (e : Err)
  | readErr (e : Err)
  | ok (b : Bytes)

/-- A decompressor: the result for an input and a number of wanted bytes, and how much of the
input it takes from the underlying reader. -/
structure Zlib where
  inflate : Bytes → Nat → ZRes
  used : Bytes → Nat → Nat
  used_le : ∀ b n, used b n ≤ b.length

/-- `p.read` of `n` bytes (binary_parser.go:44-49): `none` when nothing is stored in the
destination, which then keeps its zero value. -/
def BR.read (s : BR) (n : Nat) : Option Bytes × BR :=
  match s.err with
  | some _ => (none, s)
  | none =>
    if s.real + n ≤ s.data.length then
      (some ((s.data.drop s.real).take n), { s with real := s.real + n, pos := s.pos + n })
    else
      let k := s.data.length - s.real
      if n = 0 then (some [], s)
      else (none, { s with real := s.real + k, pos := s.pos + k,
                           err := some (if k = 0 then .eof else .other) })

/-- Unsigned little-endian number of `n` bytes (binary_parser.go:51-91). -/
def BR.readLE (s : BR) (n : Nat) : Nat × BR :=
  match s.read n with
  | (some b, s') => (ofLe b, s')
  | (none, s') => (0, s')

/-- binary_parser.go:93-97: zero bytes when the read fails. -/
def BR.readString (s : BR) (n : Nat) : Bytes × BR :=
  match s.read n with
  | (some b, s') => (b, s')
  | (none, s') => (List.replicate n 0, s')

/-- binary_parser.go:24-36: the returned error and the new state. Note that without a seeker
`io.CopyN` reads through the same `positionReader` whose position has already been set. -/
def BR.skipTo (s : BR) (p : Int) : Option Err × BR :=
  if p - s.pos < 0 then (some .other, s)
  else if s.seek then (none, { s with pos := p, real := p.toNat })
  else
    let offset := (p - s.pos).toNat
    let k := min offset (s.data.length - s.real)
    (if k < offset then some .eof else none, { s with pos := p + k, real := s.real + k })

/-- Splits a byte string into numbers of `w` bytes. -/
def splitLE (w : Nat) : Nat → Bytes → List Nat
  | 0, _ => []
  | n + 1, b => ofLe (b.take w) :: splitLE w n (b.drop w)

/-- The element type of an array attribute (binary_parser.go:108-123). -/
def arrayTy (typ : Nat) : Option NumTy :=
  if typ = 98 then some .i8 else if typ = 121 then some .i16 else if typ = 105 then some .i32
  else if typ = 108 then some .i64 else if typ = 102 then some .f32
  else if typ = 100 then some .f64 else none

/-- The type of a single number (binary_parser.go:147-170). -/
def scalarTy (typ : Nat) : Option NumTy :=
  if typ = 66 then some .i8 else if typ = 67 then some .u8 else if typ = 89 then some .i16
  else if typ = 73 then some .i32 else if typ = 76 then some .i64 else if typ = 70 then some .f32
  else if typ = 68 then some .f64 else none

/-- binary_parser.go:124-140: reads the elements, plain or compressed. -/
def readElems (z : Zlib) (s : BR) (w count encoding sz : Nat) : List Nat × BR :=
  if encoding = 0 then
    match s.read (count * w) with
    | (some b, s') => (splitLE w count b, s')
    | (none, s') => (List.replicate count 0, s')
  else
    let next := s.pos + sz
    let input := (s.data.drop s.real).take sz
    let u := z.used input (count * w)
    let s1 := { s with real := s.real + u, pos := s.pos + u }
    match z.inflate input (count * w) with
    | .openErr e => (List.replicate count 0, { s1 with err := some e })
    | .readErr e =>
      let s2 := { s1 with err := some (s.err.getD e) }
      (List.replicate count 0, (s2.skipTo next).2)
    | .ok b => (splitLE w count b, (s1.skipTo next).2)

/-- binary_parser.go:103-141. -/
def readPropArray (z : Zlib) (s : BR) (ty : NumTy) : Value × BR :=
  let (count, s) := s.readLE 4
  let (encoding, s) := s.readLE 4
  let (sz, s) := s.readLE 4
  let (l, s) := readElems z s ty.width count encoding sz
  (.arr ty l, s)

/-- binary_parser.go:143-182. -/
def readProp (z : Zlib) (s : BR) : Value × BR :=
  let (typ, s) := s.readLE 1
  match scalarTy typ with
  | some ty =>
    let (v, s) := s.readLE ty.width
    (.num ty v, s)
  | none =>
    if typ = 83 then
      let (n, s) := s.readLE 4
      let (b, s) := s.readString n
      (.str b, s)
    else if typ = 82 then
      let (n, s) := s.readLE 4
      let (b, s) := s.readString n
      (.raw b, s)
    else
      match arrayTy typ with
      | some ty => readPropArray z s ty
      | none => (.none', { s with err := some .other })

/-- The loop of binary_parser.go:210-216. -/
def readProps (z : Zlib) : Nat → BR → List Value × BR
  | 0, s => ([], s)
  | n + 1, s =>
    match s.err with
    | some _ => ([], s)
    | none =>
      let (v, s) := readProp z s
      let (vs, s) := readProps z n s
      (v :: vs, s)

/-- A header field as `int64` (binary_parser.go:189-197). -/
def BR.readField (s : BR) : Int × BR :=
  if 7500 ≤ s.version then
    let (v, s) := s.readLE 8
    (toSigned 8 v, s)
  else
    let (v, s) := s.readLE 4
    ((v : Int), s)

/-- `uint64(v)`. -/
def u64 (v : Int) : Nat := (v % 18446744073709551616).toNat

mutual
/-- binary_parser.go:184-235. The first component `none` is a nil node. The whole result is `none`
when the recursion needs more than `fuel` calls; `parse_total` shows that this does not happen. -/
def readNode (z : Zlib) : Nat → BR → Option (Option Node × BR)
  | 0, _ => none
  | fuel + 1, s =>
    let (next, s) := s.readField
    let (nprop, s) := s.readField
    let (propsz, s) := s.readField
    let (n, s) := s.readLE 1
    let (name, s) := s.readString n
    if u64 nprop * 2 % 18446744073709551616 > u64 propsz then
      let (e, s) := s.skipTo next
      some (none, { s with err := e })
    else if next = 0 then some (none, s)
    else
      let (attrs, s) := readProps z nprop.toNat s
      if s.err = some .other then some (none, s)
      else
        match readChildren z fuel next s with
        | none => none
        | some (children, s) =>
          let s :=
            match s.err with
            | some _ => s
            | none =>
              let (e, s) := s.skipTo next
              { s with err := e }
          if s.err = some .other then some (none, s)
          else some (some (.mk name attrs children), s)

/-- The loop of binary_parser.go:221-226. -/
def readChildren (z : Zlib) : Nat → Int → BR → Option (List Node × BR)
  | 0, _, _ => none
  | fuel + 1, next, s =>
    if s.pos < next ∧ s.err = none then
      match readNode z fuel s with
      | none => none
      | some (c, s) =>
        match readChildren z fuel next s with
        | none => none
        | some (cs, s) => some (c.toList ++ cs, s)
    else some ([], s)
end

/-- The loop of binary_parser.go:251-256. -/
def readRoots (z : Zlib) : Nat → BR → Option (List Node × BR)
  | 0, _ => none
  | fuel + 1, s =>
    match s.err with
    | some _ => some ([], s)
    | none =>
      match readNode z fuel s with
      | none => none
      | some (c, s) =>
        match readRoots z fuel s with
        | none => none
        | some (cs, s) => some (c.toList ++ cs, s)

/-- `"Kaydara FBX Binary  \x00"`. -/
def magic : Bytes := b! "Kaydara FBX Binary  " ++ [0]

/-- What `Parse` returns: the root node, an error, or the hand-over to the text parser
(binary_parser.go:239-246). -/
inductive Outcome
  | ok (root : Node)
  | error
  | text

/-- binary_parser.go:237-261. The fuel is more than the file can use (`parse_total`). -/
def parse (z : Zlib) (seek : Bool) (data : Bytes) : Option Outcome :=
  let s : BR := { data := data, seek := seek, real := 0, pos := 0, version := 0, err := none }
  let (m, s) := s.readString 21
  if m ≠ magic then
    if m.head? = some 59 then some .text else some .error
  else
    let (_, s) := s.readLE 2
    let (v, s) := s.readLE 4
    match readRoots z (data.length + 5) { s with version := v } with
    | none => none
    | some (nodes, s) =>
      if s.err = some .other then some .error
      else some (.ok (.mk b! "_FBX_ROOT" [] nodes))

end Verif.Fbx
