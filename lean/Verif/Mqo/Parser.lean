import Verif.Mqo.Doc
import Verif.Text.Scanner

/-!
Model of mqo/mqo_parser.go (text without ShiftJIS conversion and without the .mqx file).

Simplifications. A parser is a function from the state of the scanner to a result and the next state;
loops that end at the end of the file run on fuel, `none` is lack of fuel (`parse_total` in
Mqo/ParserProps.lean: it never happens). `make` with a count from the file is unbounded memory here.
Arrays allocated with their final length and filled in order (mqo_parser.go:268-270, 275-278, 282, 289,
295-296) are built by appending. The log is left out. Go's `int` has 64 bits; `atoi` clamps like
`strconv.Atoi`, which returns the largest value together with its error.
-/

namespace Verif.Mqo

open Verif.Geom Verif.Text

/-- Numbers as text: `fmt` with the verbs `%v`, `%.2f`, `%.3f`, `%.4f`, `%f`, and `strconv.ParseFloat` with
32 bits. `facet` is 59.5, mqo/mqo.go:283. -/
class NumText (F : Type) where
  v : F → Str
  f2 : F → Str
  f3 : F → Str
  f4 : F → Str
  f6 : F → Str
  parse : Str → F
  facet : F

/-- A parser. -/
def P (α : Type) := St → Option (α × St)

instance : Monad P where
  pure a := fun s => some (a, s)
  bind x f := fun s => match x s with
    | none => none
    | some (a, s') => f a s'

/-- The largest 64-bit `int`. -/
def maxInt : Nat := 9223372036854775807

/-- `strconv.Atoi` with the error ignored, on a text without sign. -/
def atoi (t : Str) : Nat :=
  if t.all Char.isDigit then min (Nat.ofDigitChars 10 t 0) maxInt else 0

/-- `Scan` as a parser; the result is the token. -/
def next [Uni] : P Tok := fun s => some ((scan s).tok, scan s)

/-- `TokenText`. -/
def text : P Str := fun s => some (s.text, s)

section Reading
variable {F : Type} [Zero F] [One F] [Neg F] [Mul F] [NumText F] [Uni]

/-- mqo/mqo_parser.go:58-70. -/
def readFloat : P F := fun s =>
  let s1 := scan s
  let s2 := if s1.text = ['-'] then scan s1 else s1
  if s2.tok ≠ .int ∧ s2.tok ≠ .float then some (0, s2)
  else some (NumText.parse s2.text * (if s1.text = ['-'] then -1 else 1), s2)

omit [Zero F] [One F] [Neg F] [Mul F] [NumText F] in
/-- mqo/mqo_parser.go:72-80. -/
def readInt : P Int := fun s =>
  let s1 := scan s
  if s1.tok ≠ .int then some (0, s1) else some ((atoi s1.text : Int), s1)

/-- `strings.Trim(s, "\"")`. -/
def trimQuote (t : Str) : Str :=
  ((t.dropWhile (· == '"')).reverse.dropWhile (· == '"')).reverse

/-- mqo/mqo_parser.go:82-85. -/
def readStr : P Str := fun s => some (trimQuote (scan s).text, scan s)

/-- mqo/mqo_parser.go:87-90. -/
def readIdent : P Str := fun s => some ((scan s).text, scan s)

/-- mqo/mqo_parser.go:98-103: the token is only compared for the log. -/
def skip : P Unit := fun s => some ((), scan s)

/-- mqo/mqo_parser.go:92-96. -/
def skipN : Nat → P Unit
  | 0 => pure ()
  | n + 1 => do skip; skipN n

/-- mqo/mqo_parser.go:115-119: skips an unknown attribute up to its `)`; `s` is the state behind the
`Scan` of the loop. -/
def attrSkipLoop (line : Nat) : Nat → St → Option St
  | 0, _ => none
  | n + 1, s =>
    if s.lines = line ∧ s.tok ≠ .eof then
      if s.text = [')'] then some s else attrSkipLoop line n (scan s)
    else some s

def attrSkip (line : Nat) : P Unit := fun s =>
  match attrSkipLoop line (s.rest.length + 2) (scan s) with
  | none => none
  | some s => some ((), s)

/-- Handlers: the attribute name gives a parser that changes the value under construction. -/
abbrev Handlers (σ : Type) := Str → Option (σ → P σ)

/-- The body of the loop of `procAttrs`, mqo/mqo_parser.go:108-120. -/
def attrBody {σ : Type} (h : Handlers σ) (line : Nat) (name : Str) (x : σ) : P σ :=
  match h name with
  | some f => do
    skip
    let x ← f x
    skip
    return x
  | none => do
    skip
    attrSkip line
    return x

def endsLine (s : St) : Bool := s.rest.head? == some '\r' || s.rest.head? == some '\n'

/-- The loop of mqo/mqo_parser.go:107-124; `s` is the state behind the `Scan` of the loop. -/
def attrLoop {σ : Type} (h : Handlers σ) (line : Nat) : Nat → σ → St → Option (σ × St)
  | 0, _, _ => none
  | n + 1, x, s =>
    if s.lines = line ∧ s.tok ≠ .eof then
      match attrBody h line s.text x s with
      | none => none
      | some (x', s') => if endsLine s' then some (x', s') else attrLoop h line n x' (scan s')
    else some (x, s)

/-- mqo/mqo_parser.go:105-125. -/
def procAttrs {σ : Type} (h : Handlers σ) (x : σ) : P σ := fun s =>
  attrLoop h s.lines (s.rest.length + 2) x (scan s)

/-- mqo/mqo_parser.go:127-140. The nested calls are a counter. The error callback is set on every
entrance and removed on every return, also on the return of a nested call. -/
def skipBlockLoop : Nat → Nat → St → Option St
  | 0, _, _ => none
  | n + 1, depth, s =>
    let s := scan s
    if s.tok = .eof then some { s with mute := false }
    else if s.text = ['}'] then
      if depth = 0 then some { s with mute := false }
      else skipBlockLoop n (depth - 1) { s with mute := false }
    else if s.text = ['{'] then skipBlockLoop n (depth + 1) { s with mute := true }
    else skipBlockLoop n depth s

def skipBlock : P Unit := fun s =>
  match skipBlockLoop (s.rest.length + 2) 0 { s with mute := true } with
  | none => none
  | some s => some ((), s)

/-- The elements of `procArray`, mqo/mqo_parser.go:146-148. -/
def arrLoop {σ : Type} (elem : σ → P σ) : Nat → σ → P σ
  | 0, x => pure x
  | n + 1, x => do
    let x ← elem x
    arrLoop elem n x

/-- mqo/mqo_parser.go:142-150. -/
def procArray {σ : Type} (init : σ → σ) (elem : σ → P σ) (x : σ) : P σ := do
  let n ← readInt
  skip
  let x ← arrLoop elem n.toNat (init x)
  skip
  return x

/-- The body of the loop of `procObj`, mqo/mqo_parser.go:158-163. -/
def objBody {σ : Type} (h : Handlers σ) (x : σ) : P σ := fun s =>
  if s.text = ['{'] then
    match skipBlock s with
    | none => none
    | some (_, s) =>
      match h s.text with
      | some f => f x s
      | none => some (x, s)
  else
    match h s.text with
    | some f => f x s
    | none => some (x, s)

/-- The loop of mqo/mqo_parser.go:154-164; `s` is the state behind the `Scan` of the loop. -/
def objLoop {σ : Type} (h : Handlers σ) : Nat → σ → St → Option (σ × St)
  | 0, _, _ => none
  | n + 1, x, s =>
    if s.tok = .eof then some (x, s)
    else if s.text = ['}'] then some (x, s)
    else
      match objBody h x s with
      | none => none
      | some (x', s') => objLoop h n x' (scan s')

/-- mqo/mqo_parser.go:152-165. -/
def procObj {σ : Type} (h : Handlers σ) (x : σ) : P σ := fun s =>
  let s := scan s
  objLoop h (s.rest.length + 2) x (scan s)

/-- Three numbers in the order of the text. -/
def readVec3 : P (Vec3 F) := do
  let x ← readFloat
  let y ← readFloat
  let z ← readFloat
  return ⟨x, y, z⟩

def readVec4 : P (Vec4 F) := do
  let x ← readFloat
  let y ← readFloat
  let z ← readFloat
  let w ← readFloat
  return ⟨x, y, z, w⟩

/-- The zero value of `Material`. -/
def emptyMaterial : Material F :=
  ⟨[], 0, ⟨0, 0, 0, 0⟩, 0, 0, 0, 0, 0, [], [], [], none, false, 0, none⟩

/-- mqo/mqo_parser.go:170-184. -/
def materialAttrs : Handlers (Material F) := fun n =>
  if n = "col".toList then some fun m => do let c ← readVec4; return { m with color := c }
  else if n = "emi_col".toList then some fun m => do let c ← readVec3; return { m with emissionColor := some c }
  else if n = "dif".toList then some fun m => do let x ← readFloat; return { m with diffuse := x }
  else if n = "amb".toList then some fun m => do let x ← readFloat; return { m with ambient := x }
  else if n = "emi".toList then some fun m => do let x ← readFloat; return { m with emission := x }
  else if n = "spc".toList then some fun m => do let x ← readFloat; return { m with specular := x }
  else if n = "power".toList then some fun m => do let x ← readFloat; return { m with power := x }
  else if n = "tex".toList then some fun m => do let t ← readStr; return { m with texture := t }
  else if n = "aplane".toList then some fun m => do let t ← readStr; return { m with alphaTexture := t }
  else if n = "bump".toList then some fun m => do let t ← readStr; return { m with bumpTexture := t }
  else if n = "dbls".toList then some fun m => do let i ← readInt; return { m with doubleSided := decide (i ≠ 0) }
  else if n = "uid".toList then some fun m => do let i ← readInt; return { m with uid := i }
  else if n = "shader".toList then some fun m => do let i ← readInt; return { m with shader := i }
  else none

/-- mqo/mqo_parser.go:167-186. -/
def readMaterial : P (Material F) := do
  let name ← readStr
  procAttrs materialAttrs { emptyMaterial with name := name }

/-- Assignment to a Go map. -/
def setKey {κ α : Type} [DecidableEq κ] (k : κ) (a : α) : List (κ × α) → List (κ × α)
  | [] => [(k, a)]
  | (k', a') :: r => if k' = k then (k, a) :: r else (k', a') :: setKey k a r

/-- The value of `readTypedKeyValue`, mqo/mqo_parser.go:200-210. -/
def readTyped (t : Str) : P (Param F) :=
  if t = "int".toList then do let i ← readInt; return .int i
  else if t = "float".toList then do let x ← readFloat; return .float x
  else if t = "bool".toList then do
    let v ← readStr
    return .bool (decide (v = "true".toList ∨ v = "1".toList))
  else if t = "color".toList then do
    let c ← readVec4
    return .color [c.x, c.y, c.z, c.w]
  else do let v ← readStr; return .str v

/-- mqo/mqo_parser.go:193-211. -/
def readTypedKeyValue : P (Str × Param F) := do
  let n ← readStr
  let t ← readIdent
  if t = ['.'] then
    let n2 ← readStr
    let t ← readIdent
    let v ← readTyped t
    return (n ++ t_dot ++ n2, v)
  else
    let v ← readTyped t
    return (n, v)
where t_dot : Str := ['.']

/-- mqo/mqo.go:175-182 with the empty name. -/
def emptyEx2 : Ex2 F := ⟨[], [], [], [], []⟩

/-- mqo/mqo_parser.go:213-244. -/
def ex2Attrs : Handlers (Ex2 F) := fun n =>
  if n = "shadertype".toList then some fun e => do let t ← readStr; return { e with shaderType := t }
  else if n = "shadername".toList then some fun e => do let t ← readStr; return { e with shaderName := t }
  else if n = "shaderparam".toList then some <| procArray (fun e => { e with shaderParams := [] }) fun e => do
    let kv ← readTypedKeyValue
    return { e with shaderParams := setKey kv.1 kv.2 e.shaderParams }
  else if n = "shadermapping".toList then some <| procArray (fun e => { e with shaderMapping := [] }) fun e => do
    let k ← readStr
    let v ← readStr
    return { e with shaderMapping := setKey k v e.shaderMapping }
  else if n = "shadermappingparam".toList then some fun e => do
    let name ← readStr
    let r ← procArray (fun _ => []) (fun (l : List (Str × Param F)) => do
      let kv ← readTypedKeyValue
      return setKey kv.1 kv.2 l) []
    return { e with shaderMappingParams := setKey name r e.shaderMappingParams }
  else none

/-- mqo/mqo_parser.go:188-246. -/
def readMaterialEx : P (Int × Ex2 F) := do
  skip
  let mid ← readInt
  let ex ← procObj ex2Attrs emptyEx2
  return (mid, ex)

/-- `n` results of a parser. -/
def readMany {α : Type} (p : P α) : Nat → P (List α)
  | 0 => pure []
  | n + 1 => do
    let a ← p
    let r ← readMany p n
    return a :: r

def readVec2 : P (Vec2 F) := do
  let x ← readFloat
  let y ← readFloat
  return ⟨x, y⟩

/-- mqo/mqo_parser.go:301-303. -/
def readNormal (f : Int) : P (Option (Vec3 F)) :=
  if f.toNat &&& 2 ≠ 0 then (do let n ← readVec3; return some n) else pure none

/-- mqo/mqo_parser.go:300-304. -/
def readNormals : List Int → P (List (Option (Vec3 F)))
  | [] => pure []
  | f :: fs => do
    let a ← readNormal f
    let r ← readNormals fs
    return a :: r

/-- mqo/mqo_parser.go:280-312; `vn` is the number in front of the attributes. Negative vertex indexes do
not occur, because `readInt` does not produce them. -/
def faceAttrs (vn : Nat) : Handlers (Face F) := fun n =>
  if n = "V".toList then some fun f => do
    let l ← readMany readInt vn
    return { f with verts := l.map Int.toNat }
  else if n = "M".toList then some fun f => do let i ← readInt; return { f with material := i }
  else if n = "UV".toList then some fun f => do let l ← readMany readVec2 vn; return { f with uvs := l }
  else if n = "N".toList then some fun f => do
    let flags ← readMany readInt vn
    let l ← readNormals flags
    return { f with normals := l }
  else if n = "CRS".toList then some fun f => do let _ ← readMany (readFloat (F := F)) vn; return f
  else if n = "UID".toList then some fun f => do let i ← readInt; return { f with uid := i }
  else none

/-- mqo/mqo_parser.go:277-312. -/
def readFace : P (Face F) := do
  let vn ← readInt
  procAttrs (faceAttrs vn.toNat) ⟨0, [], 0, [], []⟩

/-- mqo/mqo_parser.go:319-321. -/
def readUIDs : Nat → Nat → List (Int × Int) → P (List (Int × Int))
  | 0, _, m => pure m
  | n + 1, i, m => do
    let u ← readInt
    readUIDs n (i + 1) (setKey u (i : Int) m)

/-- mqo/mqo_parser.go:316-324. -/
def vertexAttrs : Handlers (Object F) := fun n =>
  if n = "uid".toList then some fun o => do
    skip
    let m ← readUIDs o.vertexes.length 0 o.vertexByUID
    skip
    return { o with vertexByUID := m }
  else none

/-- mqo/mqo_parser.go:251-326. -/
def objectAttrs : Handlers (Object F) := fun n =>
  if n = "uid".toList then some fun o => do let i ← readInt; return { o with uid := i }
  else if n = "depth".toList then some fun o => do let i ← readInt; return { o with depth := i }
  else if n = "folding".toList then some fun o => do let i ← readInt; return { o with folding := decide (0 < i) }
  else if n = "visible".toList then some fun o => do let i ← readInt; return { o with visible := decide (0 < i) }
  else if n = "shading".toList then some fun o => do let i ← readInt; return { o with shading := i }
  else if n = "facet".toList then some fun o => do let x ← readFloat; return { o with facet := x }
  else if n = "patch".toList then some fun o => do let i ← readInt; return { o with patch := i }
  else if n = "segment".toList then some fun o => do let i ← readInt; return { o with patchSegment := i }
  else if n = "mirror".toList then some fun o => do let i ← readInt; return { o with mirror := i }
  else if n = "mirror_dis".toList then some fun o => do let x ← readFloat; return { o with mirrorDis := x }
  else if n = "scale".toList then some fun o => do let v ← readVec3; return { o with scale := some v }
  else if n = "rotation".toList then some fun o => do
    let v ← readVec3
    return { o with rotation := some ⟨v.y, v.x, v.z⟩ }
  else if n = "translation".toList then some fun o => do let v ← readVec3; return { o with translation := some v }
  else if n = "color".toList then some fun o => do let v ← readVec3; return { o with color := some v }
  else if n = "vertex".toList then some <| procArray (fun o => { o with vertexes := [] }) fun o => do
    let v ← readVec3
    return { o with vertexes := o.vertexes ++ [v] }
  else if n = "face".toList then some <| procArray (fun o => { o with faces := [] }) fun o => do
    let f ← readFace
    return { o with faces := o.faces ++ [f] }
  else if n = "vertexattr".toList then some <| procObj vertexAttrs
  else none

/-- mqo/mqo_parser.go:248-328. -/
def readObject : P (Object F) := do
  let name ← readStr
  procObj objectAttrs (newObject NumText.facet name)

/-- The zero value of `Scene`. -/
def emptyScene : Scene F := ⟨⟨0, 0, 0⟩, ⟨0, 0, 0⟩, ⟨0, 0, 0⟩, 0, 0, 0, false, none⟩

/-- mqo/mqo_parser.go:365-376. -/
def sceneAttrs : Handlers (Scene F) := fun n =>
  if n = "pos".toList then some fun s => do let v ← readVec3; return { s with cameraPos := v }
  else if n = "lookat".toList then some fun s => do let v ← readVec3; return { s with cameraLookAt := v }
  else if n = "head".toList then some fun s => do
    let x ← readFloat
    return { s with cameraRot := { s.cameraRot with y := x } }
  else if n = "pich".toList then some fun s => do
    let x ← readFloat
    return { s with cameraRot := { s.cameraRot with x := x } }
  else if n = "bank".toList then some fun s => do
    let x ← readFloat
    return { s with cameraRot := { s.cameraRot with z := x } }
  else if n = "zoom2".toList then some fun s => do let x ← readFloat; return { s with zoom2 := x }
  else if n = "ortho".toList then some fun s => do let i ← readInt; return { s with ortho := decide (0 < i) }
  else if n = "frontclip".toList then some fun s => do let x ← readFloat; return { s with frontClip := x }
  else if n = "backclip".toList then some fun s => do let x ← readFloat; return { s with backClip := x }
  else if n = "amb".toList then some fun s => do let v ← readVec3; return { s with ambientLight := some v }
  else none

/-- mqo/mqo_parser.go:359-361. -/
def setEx2 (mid : Int) (ex : Ex2 F) (l : List (Material F)) : List (Material F) :=
  if 0 ≤ mid ∧ mid < l.length then l.modify mid.toNat fun m => { m with ex2 := some ex } else l

/-- The branches of mqo/mqo_parser.go:346-384 (without `Eof`). The file name of `IncludeXml` is read and
dropped. -/
def docBody (d : Document F) : P (Document F) := fun s =>
  if s.tok = .ident ∧ s.text = "Material".toList then
    procArray id (fun (d : Document F) => do
      let m ← readMaterial
      return { d with materials := d.materials ++ [m] }) d s
  else if s.tok = .ident ∧ s.text = "Object".toList then
    (do let o ← readObject; return { d with objects := d.objects ++ [o] } : P (Document F)) s
  else if s.tok = .ident ∧ s.text = "Thumbnail".toList then
    (do skipN 5; skip; skipBlock; return d : P (Document F)) s
  else if s.tok = .ident ∧ s.text = "MaterialEx2".toList then
    procArray id (fun (d : Document F) => do
      let r ← readMaterialEx
      return { d with materials := setEx2 r.1 r.2 d.materials }) d s
  else if s.tok = .ident ∧ s.text = "Scene".toList then
    (do let c ← procObj sceneAttrs emptyScene; return { d with scene := some c } : P (Document F)) s
  else if s.tok = .ident ∧ s.text = "IncludeXml".toList then
    (do let _ ← readStr; return d : P (Document F)) s
  else some (d, s)

/-- The loop of mqo/mqo_parser.go:345-385; `s` is the state behind the `Scan` of the loop. -/
def docLoop : Nat → Document F → St → Option (Document F × St)
  | 0, _, _ => none
  | n + 1, d, s =>
    if s.tok = .eof then some (d, s)
    else if s.tok = .ident ∧ s.text = "Eof".toList then some (d, s)
    else
      match docBody d s with
      | none => none
      | some (d', s') => docLoop n d' (scan s')

/-- mqo/mqo_parser.go:339-399 behind `detectCodePage`: the document and the number of errors (`Parse` also
returns the document together with an error if it is not 0). -/
def parse (t : Str) : Option (Document F × Nat) :=
  let s : St := ⟨t, 0, false, .eof, []⟩
  match docLoop (t.length + 2) (⟨none, [], [], none, none, none⟩ : Document F) (scan s) with
  | none => none
  | some (d, s) => some (d, s.errs)

end Reading

end Verif.Mqo
