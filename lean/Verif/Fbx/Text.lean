import Verif.Fbx.Binary
import Verif.Fbx.Geometry

/-!
fbx/text_parser.go, the reader of FBX text files, and `Dump`/`Write` (fbx/fbx_node.go, fbx/fbx.go), the writer.

Bytes are read one at a time. Line numbers, which are only used in error messages, are left out, and of an
error only whether it is `io.EOF`.
-/

namespace Verif.Fbx

open Verif.Mmd (Bytes toSigned)

/-- What the code takes from `strconv` and `fmt`: `ParseFloat(s, 64)` as bit pattern and whether it fails,
`int32(v)` of a float64, `%v` of float32 and float64 values, and `%q` of strings. -/
structure TextEnv where
  parseF64 : Bytes → Nat × Bool
  toI32 : Nat → Nat
  showF32 : Nat → Bytes
  showF64 : Nat → Bytes
  quote : Bytes → Bytes

/-- fbx/text_parser.go:10-22. -/
inductive TTok
  | ident | number | string | blockStart | blockEnd | comma | colon | asterisk | eol
deriving DecidableEq, Repr

/-- fbx/text_parser.go:24-29. `buf` holds the bytes that were handed over or put back. -/
structure TS where
  buf : Bytes
  rest : Bytes
  err : Option Err
deriving DecidableEq, Repr

/-- Reading from the reader while `p` holds, fbx/text_parser.go:38-50: the bytes, the byte that stopped the
loop (`none`: the input ended), and the remaining input. -/
def spanRest (p : UInt8 → Bool) : Bytes → Bytes × Option UInt8 × Bytes
  | [] => ([], none, [])
  | b :: r =>
    if p b then
      let x := spanRest p r
      (b :: x.1, x.2)
    else ([], some b, r)

/-- The same loop from the beginning: first the buffer, then the reader. -/
def spanBuf (p : UInt8 → Bool) : Bytes → Bytes → Bytes × Option UInt8 × Bytes × Bytes
  | [], r =>
    let x := spanRest p r
    (x.1, x.2.1, [], x.2.2)
  | b :: bs, r =>
    if p b then
      let x := spanBuf p bs r
      (b :: x.1, x.2)
    else ([], some b, bs, r)

/-- A loop `for p(c) && p.err == nil { …; c = p.read() }` on a parser without error: the bytes, the byte that
stopped the loop and the state. At the end of the input `p.err` becomes `io.EOF`. -/
def TS.span (p : UInt8 → Bool) (s : TS) : Bytes × Option UInt8 × TS :=
  let x := spanBuf p s.buf s.rest
  (x.1, x.2.1, ⟨x.2.2.1, x.2.2.2, if x.2.1.isSome then s.err else some .eof⟩)

/-- `p.buf = append(p.buf, c)`: the byte is put behind the bytes that are still in the buffer. -/
def TS.unread (s : TS) (c : Option UInt8) : TS := { s with buf := s.buf ++ c.toList }

def isDigit (c : UInt8) : Bool := 48 ≤ c && c ≤ 57

/-- fbx/text_parser.go:72. -/
def startsNumber (c : UInt8) : Bool := isDigit c || c == 46 || c == 45

/-- fbx/text_parser.go:75. -/
def inNumber (c : UInt8) : Bool := isDigit c || c == 46 || c == 101 || c == 45

/-- fbx/text_parser.go:94. -/
def startsIdent (c : UInt8) : Bool := 65 ≤ c && c ≤ 122

/-- fbx/text_parser.go:96. -/
def inIdent (c : UInt8) : Bool := startsIdent c || isDigit c || c == 45

/-- The bytes at which `getToken` stops skipping (the conditions of fbx/text_parser.go:56-94). -/
def startsToken (c : UInt8) : Bool :=
  c == 59 || c == 123 || c == 125 || c == 44 || c == 58 || c == 42 || startsNumber c || c == 10 || c == 34 ||
    startsIdent c

/-- fbx/text_parser.go:56-104: the token that begins with `c`. -/
def tokenAt (c : UInt8) (s : TS) : TTok × Bytes × TS :=
  if c = 59 then (.eol, [], (s.span (· != 10)).2.2)
  else if c = 123 then (.blockStart, [c], s)
  else if c = 125 then (.blockEnd, [c], s)
  else if c = 44 then (.comma, [c], s)
  else if c = 58 then (.colon, [c], s)
  else if c = 42 then (.asterisk, [c], s)
  else if startsNumber c then
    let x := s.span inNumber
    (.number, c :: x.1, x.2.2.unread x.2.1)
  else if c = 10 then (.eol, [], s)
  else if c = 34 then
    let x := s.span (· != 34)
    (.string, x.1, x.2.2)
  else
    let x := s.span inIdent
    (.ident, c :: x.1, x.2.2.unread x.2.1)

/-- fbx/text_parser.go:52-107. -/
def getToken (s : TS) : TTok × Bytes × TS :=
  if s.err.isSome then (.eol, [], s)
  else
    let x := s.span fun c => !startsToken c
    match x.2.1 with
    | none => (.eol, [], x.2.2)
    | some c => tokenAt c x.2.2

/-- fbx/text_parser.go:31-36. -/
def TS.fail (s : TS) : TS := { s with err := some (s.err.getD .other) }

/-- fbx/text_parser.go:108-114. -/
def TS.skip (s : TS) (t : TTok) : TS :=
  let x := getToken s
  if x.1 = t then x.2.2 else x.2.2.fail

/-- The number of a text of digits. -/
def digitsVal (t : Bytes) : Nat := t.foldl (fun n c => 10 * n + (c.toNat - 48)) 0

/-- `strconv.ParseInt(s, 10, bits)` on a text of digits, dots, `e` and minus signs; `none` is an error. -/
def parseInt (bits : Nat) (t : Bytes) : Option Int :=
  let digits := if t.head? = some 45 then t.tail else t
  let v : Int := if t.head? = some 45 then -(digitsVal digits : Int) else digitsVal digits
  if digits ≠ [] ∧ digits.all isDigit = true ∧ -(2 ^ (bits - 1) : Int) ≤ v ∧ v < 2 ^ (bits - 1) then some v else none

/-- fbx/text_parser.go:123-127: everything up to a token with the text `:` (also a string `":"`). `none`:
out of fuel. -/
def toColon : Nat → TS → Option TS
  | 0, _ => none
  | fuel + 1, s =>
    if s.err.isSome then some s
    else
      let x := getToken s
      if x.2.1 = [58] then some x.2.2 else toColon fuel x.2.2

/-- fbx/text_parser.go:130-144. `i` is never incremented: with a positive size everything up to the closing
brace is read. -/
def arrayLoop (env : TextEnv) : Nat → TS → Option (List Bytes × TS)
  | 0, _ => none
  | fuel + 1, s =>
    if s.err.isSome then some ([], s)
    else
      let x := getToken s
      if x.1 = .eol ∨ x.1 = .comma then arrayLoop env fuel x.2.2
      else if x.1 = .blockEnd then some ([], x.2.2)
      else if x.1 = .number then (arrayLoop env fuel x.2.2).map fun r => (x.2.1 :: r.1, r.2)
      else some ([], x.2.2.fail)

/-- A slice built by `append`, as in fbx/text_parser.go:128-155. -/
def numbersValue (env : TextEnv) (l : List Bytes) : Value :=
  if l.any (·.contains 46) then .arr .f64 (l.map fun t => (env.parseF64 t).1)
  else slice .i32 (l.map fun t => env.toI32 (env.parseF64 t).1)

/-- The size of an array; after an error (`none`) the size does not matter any more. -/
def arraySize (t : Bytes) : Option Int := parseInt 32 t

/-- fbx/text_parser.go:116-157. -/
def parseArrayProp (env : TextEnv) (s : TS) : Option (Value × TS) :=
  let x := getToken s
  let s := if (arraySize x.2.1).isSome then x.2.2 else x.2.2.fail
  let size := (arraySize x.2.1).getD 0
  let s := s.skip .blockStart
  match toColon (s.buf.length + s.rest.length + 2) s with
  | none => none
  | some s =>
    if 0 < size then
      match arrayLoop env (s.buf.length + s.rest.length + 2) s with
      | none => none
      | some (l, s) => some (numbersValue env l, if (l.length : Int) = size then s else s.fail)
    else some (numbersValue env [], if size = 0 then s else s.fail)

/-- The bit pattern of an `int64`. -/
def int64Bits (v : Int) : Nat := (v % 18446744073709551616).toNat

/-- fbx/text_parser.go:182-194: the value of a number and whether it was read. After a failure the value does
not matter. -/
def numberValue (env : TextEnv) (t : Bytes) : Value × Bool :=
  if t.contains 46 then (.num .f64 (env.parseF64 t).1, !(env.parseF64 t).2)
  else
    match parseInt 64 t with
    | some v => (.num .i64 (int64Bits v), true)
    | none => (.num .i64 0, false)

/-- fbx/text_parser.go:201-203. -/
def TS.noEof (s : TS) : TS := if s.err = some .eof then { s with err := some .other } else s

mutual

/-- fbx/text_parser.go:159-210. `none`: out of fuel. -/
def nodeList (env : TextEnv) : Nat → TS → Option (List Node × TS)
  | 0, _ => none
  | fuel + 1, s =>
    if s.err.isSome then some ([], s)
    else
      let x := getToken s
      if x.1 = .eol then nodeList env fuel x.2.2
      else if x.1 = .blockEnd then some ([], x.2.2)
      else if x.1 = .ident then
        match attrLoop env fuel false (x.2.2.skip .colon) with
        | none => none
        | some (vs, cs, s) =>
          match nodeList env fuel s.noEof with
          | none => none
          | some (ns, s) => some (.mk x.2.1 vs cs :: ns, s)
      else some ([], x.2.2.fail)

/-- fbx/text_parser.go:172-200: the attributes and the children; `comma` tells that the last token was a
comma. -/
def attrLoop (env : TextEnv) : Nat → Bool → TS → Option (List Value × List Node × TS)
  | 0, _, _ => none
  | fuel + 1, comma, s =>
    if s.err.isSome then some ([], [], s)
    else
      let x := getToken s
      if x.1 = .eol ∧ comma = false then some ([], [], x.2.2)
      else if x.1 = .blockStart then (nodeList env fuel x.2.2).map fun r => ([], r.1, r.2)
      else if x.1 = .number then
        (attrLoop env fuel false (if (numberValue env x.2.1).2 then x.2.2 else x.2.2.fail)).map
          fun r => ((numberValue env x.2.1).1 :: r.1, r.2)
      else if x.1 = .string then
        (attrLoop env fuel false x.2.2).map fun r => (.str x.2.1 :: r.1, r.2)
      else if x.1 = .asterisk then
        match parseArrayProp env x.2.2 with
        | none => none
        | some (v, s) => (attrLoop env fuel false s).map fun r => (v :: r.1, r.2)
      else attrLoop env fuel (x.1 = .comma) x.2.2

end

/-- fbx/text_parser.go:212-222 on a parser with the given buffer; the inner `none` is an error, the outer one
means that the fuel was not enough (`parseText_total`: this does not happen). -/
def parseText (env : TextEnv) (buf rest : Bytes) : Option (Option Node) :=
  match nodeList env (buf.length + rest.length + 2) ⟨buf, rest, none⟩ with
  | none => none
  | some (ns, s) => if s.err = some .other then some none else some (some (.mk b! "_FBX_ROOT" [] ns))

/-- fbx/fbx.go:19-26 and fbx/binary_parser.go:237-246: a file, binary or text. The text parser gets the first
21 bytes as its buffer. -/
def parseFile (env : TextEnv) (z : Zlib) (seek : Bool) (data : Bytes) : Option (Option Node) :=
  match parse z seek data with
  | none => none
  | some (.ok root) => some (some root)
  | some .error => some none
  | some .text => parseText env (data.take 21) (data.drop 21)

/-! ## Writer -/

/-- `%v` of an unsigned number. -/
def decNat (n : Nat) : Bytes := (Nat.toDigits 10 n).map fun c => UInt8.ofNat c.toNat

/-- `%v` of an integer. -/
def decInt (v : Int) : Bytes := if v < 0 then 45 :: decNat v.natAbs else decNat v.toNat

/-- `strings.SplitN(v, "\x00\x01", 2)`: the part before and the part behind the first separator. -/
def splitName : Bytes → Option (Bytes × Bytes)
  | [] => none
  | a :: rest =>
    if a = 0 ∧ rest.head? = some 1 then some ([], rest.tail)
    else (splitName rest).map fun p => (a :: p.1, p.2)

/-- fbx/fbx_node.go:263-268: `name\0\1Type` becomes `Type::name`. -/
def textName (b : Bytes) : Bytes :=
  match splitName b with
  | some (name, typ) => typ ++ ([58, 58] ++ name)
  | none => b

/-- `%v` of one number. -/
def showNum (env : TextEnv) (ty : NumTy) (bits : Nat) : Bytes :=
  match ty with
  | .i8 => decInt (toSigned 1 bits)
  | .u8 => decNat bits
  | .i16 => decInt (toSigned 2 bits)
  | .i32 => decInt (toSigned 4 bits)
  | .i64 => decInt (toSigned 8 bits)
  | .f32 => env.showF32 bits
  | .f64 => env.showF64 bits

/-- Texts with a separator between them. -/
def joined (sep : Bytes) : List Bytes → Bytes
  | [] => []
  | [a] => a
  | a :: b :: r => a ++ (sep ++ joined sep (b :: r))

def indentation (d : Nat) : Bytes := List.replicate (2 * d) 32

/-- fbx/fbx_node.go:280-292, a slice that is not empty: `*n {`, the elements, `}`. -/
def showSlice (d : Nat) (l : List Bytes) : Bytes :=
  42 :: (decNat l.length ++ (b! " {\n      a:" ++ (joined [44, 32] l ++ (10 :: (indentation d ++ [125])))))

/-- fbx/fbx_node.go:261-275, 280-292: one attribute. A byte slice is printed as a quoted list. -/
def showValue (env : TextEnv) (d : Nat) : Value → Bytes
  | .num ty bits => showNum env ty bits
  | .int v => decInt v
  | .str b => env.quote (textName b)
  | .raw b =>
    if b = [] then b! "\"[]\""
    else
      42 :: (decNat b.length ++ (b! " \"{\n      a:" ++ (joined [44, 32] (b.map fun c => decNat c.toNat)
        ++ (10 :: (indentation d ++ b! "}\"")))))
  | .arr ty l => if l = [] then b! "[]" else showSlice d (l.map (showNum env ty))
  | .nilArr _ => b! "[]"
  | .none' => b! "<nil>"

/-- fbx/fbx_node.go:281-298: the attributes, separated by commas. -/
def showValues (env : TextEnv) (d : Nat) (vs : List Value) : Bytes :=
  if vs = [] then [] else 32 :: joined [44, 32] (vs.map (showValue env d))

mutual

/-- fbx/fbx_node.go:277-304 `Dump` with `full`. -/
def dump (env : TextEnv) (d : Nat) : Node → Bytes
  | .mk name attrs children =>
    indentation d ++ (name ++ (58 :: (showValues env d attrs ++
      (if children ≠ [] ∨ attrs = [] then b! " {\n" ++ (dumps env (d + 1) children ++ (indentation d ++ b! "}\n"))
       else [10]))))

def dumps (env : TextEnv) (d : Nat) : List Node → Bytes
  | [] => []
  | n :: ns => dump env d n ++ dumps env d ns

end

/-- fbx/fbx.go:38-41. -/
def textHeader : Bytes :=
  b! "; FBX 7.5.0 project file\n" ++ (b! "; Generator: https://github.com/binzume/modelconv\n"
    ++ (b! "; -----------------------------------------------\n" ++ [10]))

/-- fbx/fbx.go:37-48 `Write`, on the children of the root. -/
def writeText (env : TextEnv) (nodes : List Node) : Bytes :=
  textHeader ++ dumps env 0 (nodes.filter fun n => n.name ≠ b! "FileId")

end Verif.Fbx
