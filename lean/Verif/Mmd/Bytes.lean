import Verif.Geom.Vec

/-!
Byte-level reading and writing as done by mmd/base_parser.go and the first part of
mmd/pmx_writer.go (both wrap Go's `encoding/binary`, little endian).

A float32 is its 32 bit pattern (`UInt32`). A Go `int` is an `Int`; only values that fit 64 bits
occur. The underlying `io.Writer` does not fail and memory is unlimited.
-/

namespace Verif.Mmd

open Verif.Geom

abbrev Bytes := List UInt8

/-- How a run can end early: `log.Fatal`, a Go run-time panic, or an error value returned to the
caller. Errors that the code ignores are not of this kind. -/
inductive Stop
  | fatal | panic | error
deriving DecidableEq, Repr

/-- A parser step: the state is the rest of the input. -/
abbrev Rd := StateT Bytes (Except Stop)

/-- A writer step: the state is the output so far. -/
abbrev Wr := StateT Bytes (Except Stop)

/-- Little-endian number of a byte string. -/
def ofLe : Bytes → Nat
  | [] => 0
  | b :: bs => b.toNat + 256 * ofLe bs

/-- The `k` low bytes of `n`, little endian. -/
def leBytes : Nat → Nat → Bytes
  | 0, _ => []
  | k + 1, n => UInt8.ofNat n :: leBytes k (n / 256)

/-- `binary.Read` into `n` bytes: `none` is the error case, in which the rest of the input is
consumed and the destination is left unchanged (encoding/binary, io.ReadFull). -/
def readBuf (n : Nat) : Rd (Option Bytes) := fun s =>
  if n ≤ s.length then .ok (some (s.take n), s.drop n) else .ok (none, [])

/-- An unsigned little-endian number of `n` bytes, 0 past the end. -/
def readLE (n : Nat) : Rd Nat := do
  match ← readBuf n with
  | some b => return ofLe b
  | none => return 0

/-- mmd/base_parser.go:17-21 (also `p.read(&x)` for a `byte` field). -/
def readU8 : Rd UInt8 := do return UInt8.ofNat (← readLE 1)

/-- mmd/base_parser.go:23-27. -/
def readU16 : Rd UInt16 := do return UInt16.ofNat (← readLE 2)

/-- mmd/base_parser.go:29-33: an *unsigned* 32 bit number as `int`. -/
def readInt : Rd Nat := readLE 4

/-- mmd/base_parser.go:35-39 (also `p.read(&x)` for a `float32` field). -/
def readFloat : Rd UInt32 := do return UInt32.ofNat (← readLE 4)

/-- mmd/base_parser.go:41-58. -/
def readVUInt (sz : UInt8) : Rd Int :=
  if sz = 1 then do return ((← readLE 1 : Nat) : Int)
  else if sz = 2 then do return ((← readLE 2 : Nat) : Int)
  else if sz = 4 then do return ((← readLE 4 : Nat) : Int)
  else return 0

/-- The signed value of an unsigned `n`-byte number. -/
def toSigned (n : Nat) (u : Nat) : Int :=
  if 2 * u < 256 ^ n then (u : Int) else (u : Int) - (256 ^ n : Nat)

/-- mmd/base_parser.go:60-77. -/
def readVInt (sz : UInt8) : Rd Int :=
  if sz = 1 then do return toSigned 1 (← readLE 1)
  else if sz = 2 then do return toSigned 2 (← readLE 2)
  else if sz = 4 then do return toSigned 4 (← readLE 4)
  else return 0

/-- `binary.Write` of given bytes. -/
def emit (b : Bytes) : Wr Unit := fun out => .ok ((), out ++ b)

/-- The low `n` bytes of a Go `int` (conversion to a smaller integer type truncates). -/
def intBytes (n : Nat) (v : Int) : Bytes := leBytes n (v % (256 ^ n : Nat)).toNat

/-- mmd/pmx_writer.go:17-19 and `w.write(&x)` for a `byte` field. -/
def writeU8 (v : UInt8) : Wr Unit := emit [v]

/-- mmd/pmx_writer.go:21-23 and `w.write(&x)` for a `uint16` field. -/
def writeU16 (v : UInt16) : Wr Unit := emit (leBytes 2 v.toNat)

/-- mmd/pmx_writer.go:25-28. -/
def writeInt (v : Int) : Wr Unit := emit (intBytes 4 v)

/-- mmd/pmx_writer.go:30-32 and `w.write(&x)` for a `float32` field. -/
def writeFloat (v : UInt32) : Wr Unit := emit (leBytes 4 v.toNat)

/-- mmd/pmx_writer.go:53-70; the returned value is never used. `writeVUInt` (34-51) writes the
same bytes. -/
def writeVInt (sz : UInt8) (v : Int) : Wr Unit :=
  if sz = 1 then emit (intBytes 1 v)
  else if sz = 2 then emit (intBytes 2 v)
  else if sz = 4 then emit (intBytes 4 v)
  else pure ()

/-- The float at position `i` (counted in floats) of a buffer. -/
def f32At (b : Bytes) (i : Nat) : UInt32 := UInt32.ofNat (ofLe ((b.drop (4 * i)).take 4))

def f32Bytes (v : UInt32) : Bytes := leBytes 4 v.toNat

abbrev V2 := Vec2 UInt32
abbrev V3 := Vec3 UInt32
abbrev V4 := Vec4 UInt32

def V2.zero : V2 := ⟨0, 0⟩
def V3.zero : V3 := ⟨0, 0, 0⟩
def V4.zero : V4 := ⟨0, 0, 0, 0⟩

def decV2 (b : Bytes) : V2 := ⟨f32At b 0, f32At b 1⟩
def decV3 (b : Bytes) : V3 := ⟨f32At b 0, f32At b 1, f32At b 2⟩
def decV4 (b : Bytes) : V4 := ⟨f32At b 0, f32At b 1, f32At b 2, f32At b 3⟩

def encV2 (v : V2) : Bytes := f32Bytes v.x ++ f32Bytes v.y
def encV3 (v : V3) : Bytes := f32Bytes v.x ++ (f32Bytes v.y ++ f32Bytes v.z)
def encV4 (v : V4) : Bytes := f32Bytes v.x ++ (f32Bytes v.y ++ (f32Bytes v.z ++ f32Bytes v.w))

/-- `p.read(&v)` for a vector: all components are read at once; zero vector past the end. -/
def readV2 : Rd V2 := do
  match ← readBuf 8 with
  | some b => return decV2 b
  | none => return V2.zero

@[inherit_doc readV2]
def readV3 : Rd V3 := do
  match ← readBuf 12 with
  | some b => return decV3 b
  | none => return V3.zero

@[inherit_doc readV2]
def readV4 : Rd V4 := do
  match ← readBuf 16 with
  | some b => return decV4 b
  | none => return V4.zero

def writeV2 (v : V2) : Wr Unit := emit (encV2 v)
def writeV3 (v : V3) : Wr Unit := emit (encV3 v)
def writeV4 (v : V4) : Wr Unit := emit (encV4 v)

/-- A `for` loop that reads `n` elements. -/
def readN {α : Type} : Nat → Rd α → Rd (List α)
  | 0, _ => return []
  | n + 1, r => do
    let a ← r
    let as ← readN n r
    return a :: as

/-- A `for … range` loop that writes every element. -/
def writeAll {α : Type} : List α → (α → Wr Unit) → Wr Unit
  | [], _ => pure ()
  | a :: as, w => do
    w a
    writeAll as w

end Verif.Mmd
