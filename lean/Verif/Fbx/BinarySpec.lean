import Verif.Fbx.Binary

/-!
The binary FBX format, written down independently of the parser: which byte strings are encodings
of a value, of a node, of a file. Offsets are absolute, as in the format.
-/

namespace Verif.Fbx

open Verif.Mmd (Bytes leBytes)

/-- The letter of a number type. -/
def scalarCode : NumTy → UInt8
  | .i8 => 66 | .u8 => 67 | .i16 => 89 | .i32 => 73 | .i64 => 76 | .f32 => 70 | .f64 => 68

/-- The letter of an array type; there are no arrays of `byte`. -/
def arrayCode : NumTy → Option UInt8
  | .i8 => some 98 | .u8 => none | .i16 => some 121 | .i32 => some 105 | .i64 => some 108
  | .f32 => some 102 | .f64 => some 100

/-- Numbers one after another. -/
def packed (w : Nat) (l : List Nat) : Bytes := l.flatMap (leBytes w)

/-- Encodings of one attribute. An array may be stored plain (encoding 0) or compressed (any other
encoding number): then the stored bytes must decompress to the plain ones and, when the input
cannot be seeked (`seek = false`), the decompressor must take all of them. -/
inductive EncAttr (z : Zlib) (seek : Bool) : Value → Bytes → Prop
  | num (ty : NumTy) (b : Nat) : b < 256 ^ ty.width →
      EncAttr z seek (.num ty b) (scalarCode ty :: leBytes ty.width b)
  | str (b : Bytes) : b.length < 2 ^ 32 → EncAttr z seek (.str b) (83 :: (leBytes 4 b.length ++ b))
  | raw (b : Bytes) : b.length < 2 ^ 32 → EncAttr z seek (.raw b) (82 :: (leBytes 4 b.length ++ b))
  | plain (ty : NumTy) (c : UInt8) (l : List Nat) (sz : Nat) : arrayCode ty = some c →
      l.length < 2 ^ 32 → (∀ x ∈ l, x < 256 ^ ty.width) →
      EncAttr z seek (.arr ty l)
        (c :: (leBytes 4 l.length ++ (leBytes 4 0 ++ (leBytes 4 sz ++ packed ty.width l))))
  | deflated (ty : NumTy) (c : UInt8) (l : List Nat) (e : Nat) (zb : Bytes) :
      arrayCode ty = some c → l.length < 2 ^ 32 → (∀ x ∈ l, x < 256 ^ ty.width) →
      0 < e → e < 2 ^ 32 → zb.length < 2 ^ 32 →
      z.inflate zb (l.length * ty.width) = .ok (packed ty.width l) →
      (seek = true ∨ z.used zb (l.length * ty.width) = zb.length) →
      EncAttr z seek (.arr ty l)
        (c :: (leBytes 4 l.length ++ (leBytes 4 e ++ (leBytes 4 zb.length ++ zb))))

/-- Encodings of an attribute list. -/
inductive EncAttrs (z : Zlib) (seek : Bool) : List Value → Bytes → Prop
  | nil : EncAttrs z seek [] []
  | cons {v vs b bs} : EncAttr z seek v b → EncAttrs z seek vs bs → EncAttrs z seek (v :: vs) (b ++ bs)

/-- The record that ends a list of children: a header of zeros. `w` is the size of a header field,
4 or 8 bytes. -/
def nullRecord (w : Nat) : Bytes := List.replicate (3 * w + 1) 0

mutual
/-- Encodings of a node record that starts at offset `start` of the file: end offset, number and
size of the attributes, name, attributes, children and, optionally, a null record. -/
inductive EncNode (z : Zlib) (seek : Bool) (w : Nat) : Nat → Node → Bytes → Prop
  | mk (start stop : Nat) (name : Bytes) (attrs : List Value) (children : List Node)
      (props kids term out : Bytes) :
      name.length < 256 → attrs.length < 2 ^ 32 → EncAttrs z seek attrs props →
      EncNodes z seek w (start + (3 * w + 1 + name.length + props.length)) children kids →
      (term = [] ∨ term = nullRecord w) →
      stop = start + (3 * w + 1 + name.length + props.length + kids.length + term.length) →
      2 * stop < 256 ^ w ∨ (w = 4 ∧ stop < 256 ^ w) →
      out = leBytes w stop ++ (leBytes w attrs.length ++ (leBytes w props.length ++
        (UInt8.ofNat name.length :: (name ++ (props ++ (kids ++ term)))))) →
      EncNode z seek w start (.mk name attrs children) out

/-- Encodings of consecutive node records. -/
inductive EncNodes (z : Zlib) (seek : Bool) (w : Nat) : Nat → List Node → Bytes → Prop
  | nil (start : Nat) : EncNodes z seek w start [] []
  | cons (start : Nat) (n : Node) (ns : List Node) (b bs out : Bytes) :
      EncNode z seek w start n b → EncNodes z seek w (start + b.length) ns bs → out = b ++ bs →
      EncNodes z seek w start (n :: ns) out
end

/-- Size of the header fields in a format version. -/
def fieldWidth (version : Nat) : Nat := if 7500 ≤ version then 8 else 4

/-- What may follow the last top-level record of a file of `total` bytes: nothing, null records, or
a footer. The footer is not a node record; what makes it harmless is that, read as one, it
announces more attributes than it has room for and an end at or behind the end of the file. -/
inductive EncTail (w total : Nat) : Bytes → Prop
  | nil : EncTail w total []
  | null {t} : EncTail w total t → EncTail w total (nullRecord w ++ t)
  | footer (next nprop propsz : Nat) (name rest : Bytes) :
      total ≤ next → (2 * next < 256 ^ w ∨ (w = 4 ∧ next < 256 ^ w)) → nprop < 256 ^ w →
      propsz < 256 ^ w → propsz < nprop * 2 % 18446744073709551616 → name.length < 256 →
      EncTail w total (leBytes w next ++ (leBytes w nprop ++ (leBytes w propsz ++
        (UInt8.ofNat name.length :: (name ++ rest)))))

/-- Encodings of a file with the given top-level nodes. -/
inductive EncFile (z : Zlib) (seek : Bool) (version : Nat) : List Node → Bytes → Prop
  | mk (nodes : List Node) (u v body tail out : Bytes) :
      version < 2 ^ 32 → u.length = 2 → v = leBytes 4 version →
      EncNodes z seek (fieldWidth version) 27 nodes body → EncTail (fieldWidth version) out.length tail →
      out = (b! "Kaydara FBX Binary  " ++ [0]) ++ (u ++ (v ++ (body ++ tail))) →
      EncFile z seek version nodes out

end Verif.Fbx
