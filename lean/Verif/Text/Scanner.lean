/-!
Model of Go's `text/scanner` with its default settings (`GoTokens`, `GoWhitespace`), the tokenizer that
mqo/mqo_parser.go:24 uses. The package belongs to Go's standard library and is not part of /repo; it is
modelled here after its documentation and source (Go 1.x, text/scanner/scanner.go).

Simplifications. The source is a list of characters (invalid UTF-8, a leading byte order mark and the
character NUL, which the scanner reports or drops, are left out). The position of the scanner is the rest
of the text; the line number is represented by the number of newlines in the rest: two positions are on
the same line exactly when these numbers are equal. The texts of error messages are left out, only their
number is kept.
-/

namespace Verif.Text

/-- The Unicode tables `unicode.IsLetter` and `unicode.IsDigit`; only their values on ASCII are fixed. -/
class Uni where
  letter : Char → Bool
  digit : Char → Bool
  letter_ascii : ∀ c : Char, c.toNat < 128 → letter c = c.isAlpha
  digit_ascii : ∀ c : Char, c.toNat < 128 → digit c = c.isDigit

/-- The token classes; `ch c` is a token that is a single character. -/
inductive Tok
  | eof | ident | int | float | char | string | raw
  | ch (c : Char)
deriving DecidableEq

/-- The scanner between two calls: `rest` begins with the look-ahead character (`Peek`), `tok` and `text`
are the last token (`TokenText`), `mute` tells that the error callback of mqo/mqo_parser.go:128-130,
which takes the error back, is installed. -/
structure St where
  rest : List Char
  errs : Nat
  mute : Bool
  tok : Tok
  text : List Char
deriving DecidableEq

/-- `Position.Line`, counted from the end of the text. -/
def St.lines (s : St) : Nat := s.rest.count '\n'

def isWs (c : Char) : Bool := c == '\t' || c == '\n' || c == '\r' || c == ' '

inductive Skip
  | ws | line | block

/-- Skips white space and comments; also gives the number of errors (unterminated comment). -/
def skipBlank : Skip → List Char → List Char × Nat
  | .ws, [] => ([], 0)
  | .ws, '/' :: '/' :: cs => skipBlank .line cs
  | .ws, '/' :: '*' :: cs => skipBlank .block cs
  | .ws, c :: cs => if isWs c then skipBlank .ws cs else (c :: cs, 0)
  | .line, [] => ([], 0)
  | .line, c :: cs => if c = '\n' then skipBlank .ws cs else skipBlank .line cs
  | .block, [] => ([], 1)
  | .block, '*' :: '/' :: cs => skipBlank .ws cs
  | .block, _ :: cs => skipBlank .block cs

/-- A token with its text, the rest and the number of errors. -/
structure Lexeme where
  tok : Tok
  text : List Char
  rest : List Char
  errs : Nat

def isIdent [Uni] (c : Char) : Bool := c == '_' || Uni.letter c || Uni.digit c

def isHex (c : Char) : Bool := c.isDigit || ('a' ≤ c && c ≤ 'f') || ('A' ≤ c && c ≤ 'F')

/-- The characters `digits` accepts. -/
def isDig (base : Nat) (c : Char) : Bool := (if base ≤ 10 then c.isDigit else isHex c) || c == '_'

/-- `invalidSep`: true if an underscore is not between digits. `d` is the class of the previous
character: a digit, an underscore or another one. -/
def badSep (hex : Bool) : Char → List Char → Bool
  | d, [] => d == '_'
  | d, c :: cs =>
    if c = '_' then (if d = '0' then badSep hex '_' cs else true)
    else if c.isDigit || (hex && isHex c) then badSep hex '0' cs
    else if d = '_' then true
    else badSep hex '.' cs

def invalidSep (x : List Char) : Bool :=
  match x with
  | '0' :: c :: r =>
    if c = 'x' || c = 'X' then badSep true '0' r
    else if c = 'o' || c = 'O' || c = 'b' || c = 'B' then badSep false '0' r
    else badSep false '.' x
  | _ => badSep false '.' x

/-- The exponent of a number: text and rest. -/
def exponent : List Char → List Char × List Char
  | e :: '+' :: t => (e :: '+' :: t.takeWhile (isDig 10), t.dropWhile (isDig 10))
  | e :: '-' :: t => (e :: '-' :: t.takeWhile (isDig 10), t.dropWhile (isDig 10))
  | e :: t => (e :: t.takeWhile (isDig 10), t.dropWhile (isDig 10))
  | [] => ([], [])

def isExp (c : Char) : Bool := c == 'e' || c == 'E' || c == 'p' || c == 'P'

def startsExp : List Char → Bool
  | c :: _ => isExp c
  | [] => false

def startsDigit : List Char → Bool
  | c :: _ => c.isDigit
  | [] => false

def btoi (b : Bool) : Nat := if b then 1 else 0

/-- The part of `scanNumber` behind the radix prefix `pre`. `kind` is the character of the prefix: `d`
for a decimal number, `0` for a leading zero, and `x`, `o`, `b`. `dot` tells that a dot was seen. -/
def numberTail (pre : List Char) (kind : Char) (base : Nat) (dot : Bool) (cs : List Char) : Lexeme :=
  let a := if dot then [] else cs.takeWhile (isDig base)
  let r1 := if dot then cs else cs.dropWhile (isDig base)
  let dotted := dot || r1.head? == some '.'
  let point := if dot then [] else if r1.head? == some '.' then ['.'] else []
  let r1' := r1.drop point.length
  let f := if dotted then r1'.takeWhile (isDig base) else []
  let r2 := if dotted then r1'.dropWhile (isDig base) else r1'
  let hasExp := startsExp r2
  let x := if hasExp then exponent r2 else ([], r2)
  let text := pre ++ a ++ point ++ f ++ x.1
  let isInt := !dotted && !hasExp
  let c := (x.1.headD ' ').toLower
  let errs :=
    btoi (dotted && (kind == 'o' || kind == 'b')) +
    btoi (!(kind == '0' || (a ++ f).any (· != '_'))) +
    (if hasExp then
      btoi ((c == 'e' && (kind == 'x' || kind == 'o' || kind == 'b')) || (c == 'p' && kind != 'x')) +
      btoi (!((x.1.drop 1).any (·.isDigit)))
    else btoi (kind == 'x' && dotted)) +
    btoi (isInt && a.any fun d => d.isDigit && base ≤ 10 && '0'.toNat + base ≤ d.toNat) +
    btoi (text.any (· == '_') && invalidSep text)
  ⟨if isInt then .int else .float, text, x.2, errs⟩

/-- `scanNumber` on a text that begins with a digit. -/
def scanNumber (cs : List Char) : Lexeme :=
  match cs with
  | '0' :: c :: r =>
    if c = 'x' || c = 'X' then numberTail ['0', c] 'x' 16 false r
    else if c = 'o' || c = 'O' then numberTail ['0', c] 'o' 8 false r
    else if c = 'b' || c = 'B' then numberTail ['0', c] 'b' 2 false r
    else numberTail ['0'] '0' 8 false (c :: r)
  | ['0'] => numberTail ['0'] '0' 8 false []
  | _ => numberTail [] 'd' 10 false cs

/-- States inside a quoted literal: plain, behind a backslash, inside a numeric escape with `n` digits to
come. -/
inductive Esc
  | plain | esc
  | num (base n : Nat)

def digitVal (c : Char) : Nat :=
  if c.isDigit then c.toNat - '0'.toNat
  else if 'a' ≤ c && c ≤ 'f' then c.toNat - 'a'.toNat + 10
  else if 'A' ≤ c && c ≤ 'F' then c.toNat - 'A'.toNat + 10
  else 16

/-- What one character of a quoted literal does: the next state (`none`: the literal ends), the errors
and the number of characters begun. -/
def plainStep (quote c : Char) : Option Esc × Nat × Nat :=
  if c = quote then (none, 0, 0)
  else if c = '\n' then (none, 1, 0)
  else if c = '\\' then (some .esc, 0, 1)
  else (some .plain, 0, 1)

def quoteStep (quote : Char) (m : Esc) (c : Char) : Option Esc × Nat × Nat :=
  match m with
  | .plain => plainStep quote c
  | .esc =>
    if c = 'a' || c = 'b' || c = 'f' || c = 'n' || c = 'r' || c = 't' || c = 'v' || c = '\\' || c = quote then
      (some .plain, 0, 0)
    else if '0' ≤ c && c ≤ '7' then (some (.num 8 2), 0, 0)
    else if c = 'x' then (some (.num 16 2), 0, 0)
    else if c = 'u' then (some (.num 16 4), 0, 0)
    else if c = 'U' then (some (.num 16 8), 0, 0)
    else
      let r := plainStep quote c
      (r.1, r.2.1 + 1, r.2.2)
  | .num base n =>
    if digitVal c < base then (some (if n ≤ 1 then .plain else .num base (n - 1)), 0, 0)
    else
      let r := plainStep quote c
      (r.1, r.2.1 + 1, r.2.2)

/-- `scanString` behind the opening quote: text with the closing quote, rest, errors, characters. -/
def quoted (quote : Char) : Esc → List Char → List Char × List Char × Nat × Nat
  | m, [] => ([], [], (match m with | .plain => 1 | _ => 2), 0)
  | m, c :: cs =>
    match quoteStep quote m c with
    | (none, e, n) => ([c], cs, e, n)
    | (some m', e, n) =>
      let r := quoted quote m' cs
      (c :: r.1, r.2.1, e + r.2.2.1, n + r.2.2.2)

/-- `scanRawString` behind the opening quote. -/
def rawString : List Char → List Char × List Char × Nat
  | [] => ([], [], 1)
  | c :: cs =>
    if c = '`' then ([c], cs, 0)
    else
      let r := rawString cs
      (c :: r.1, r.2.1, r.2.2)

/-- The token at the beginning of a text without leading white space. -/
def token [Uni] : List Char → Lexeme
  | [] => ⟨.eof, [], [], 0⟩
  | c :: cs =>
    if c == '_' || Uni.letter c then
      ⟨.ident, c :: cs.takeWhile isIdent, cs.dropWhile isIdent, 0⟩
    else if c.isDigit then scanNumber (c :: cs)
    else if c = '"' then
      let r := quoted '"' .plain cs
      ⟨.string, c :: r.1, r.2.1, r.2.2.1⟩
    else if c = '\'' then
      let r := quoted '\'' .plain cs
      ⟨.char, c :: r.1, r.2.1, r.2.2.1 + btoi (r.2.2.2 != 1)⟩
    else if c = '.' && startsDigit cs then
      numberTail ['.'] 'd' 10 true cs
    else if c = '`' then
      let r := rawString cs
      ⟨.raw, c :: r.1, r.2.1, r.2.2⟩
    else ⟨.ch c, [c], cs, 0⟩

/-- `Scanner.Scan`. -/
def scan [Uni] (s : St) : St :=
  let b := skipBlank .ws s.rest
  let t := token b.1
  { rest := t.rest
    errs := if s.mute then s.errs else s.errs + b.2 + t.errs
    mute := s.mute
    tok := t.tok
    text := t.text }

end Verif.Text
