import Verif.Mqo.Parser
import Verif.Mqo.Writer

/-! Model of how the bytes of a document become text: mqo/mqo_parser.go:43-56 and 330-341. The decoders of golang.org/x/text are a
parameter, the decoding of UTF-8 (done by text/scanner in the program) is the one of Lean's library; text that is not UTF-8 is
left out (`none`). -/

namespace Verif.Mqo

open Verif.Geom Verif.Text

/-- `\s` of package regexp. -/
def isRegexpSpace (b : UInt8) : Bool := b == 9 || b == 10 || b == 12 || b == 13 || b == 32

/-- The bytes of a text in UTF-8. -/
def utf8 (t : Str) : List UInt8 := t.flatMap String.utf8EncodeChar

/-- The text of bytes in UTF-8. -/
def utf8Text (b : List UInt8) : Option Str := b.toByteArray.utf8Decode?.map (·.toList)

/-- Whether bytes begin with a match of `\s*utf8`. -/
def spaceUtf8 : List UInt8 → Bool
  | [] => false
  | b :: bs => (utf8 "utf8".toList).isPrefixOf (b :: bs) || (isRegexpSpace b && spaceUtf8 bs)

/-- Whether bytes begin with a match of `CodePage\s+utf8`. -/
def codePageAt (b : List UInt8) : Bool :=
  (utf8 "CodePage".toList).isPrefixOf b &&
    match b.drop 8 with
    | [] => false
    | c :: r => isRegexpSpace c && spaceUtf8 r

/-- `regexp.Match` with `CodePage\s+utf8` (mqo/mqo_parser.go:334): a match at any place. -/
def hasCodePage : List UInt8 → Bool
  | [] => false
  | b :: bs => codePageAt (b :: bs) || hasCodePage bs

/-- mqo/mqo_parser.go:43-56 (`basckSlashReplacer`). -/
def forwardSlashes (t : Str) : Str := t.map fun c => if c = '\\' then '/' else c

/-- mqo/mqo_parser.go:330-337 (`detectCodePage`): `n` is the number of bytes that the first call of `Read` returns, which is at most
128; `sjis` decodes Shift_JIS. -/
def decodeText (sjis : List UInt8 → Str) (n : Nat) (b : List UInt8) : Option Str :=
  if hasCodePage (b.take (min n 128)) then utf8Text b else some (forwardSlashes (sjis b))

/-- mqo/mqo_parser.go:339-399 (`Parse`) from bytes. -/
def parseBytes {F : Type} [Zero F] [One F] [Neg F] [Mul F] [NumText F] [Uni] (sjis : List UInt8 → Str) (n : Nat) (b : List UInt8) :
    Option (Document F × Nat) :=
  (decodeText sjis n b).bind parse

end Verif.Mqo
