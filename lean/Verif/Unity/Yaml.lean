/-!
Model of unity/unity_yaml.go. Bytes are characters; the position in the data is represented by the rest of
the data.
-/

namespace Verif.Unity

/-- Text. -/
abbrev Str := List Char

/-- unity/unity_yaml.go:9-13 (`YAMLDoc`). -/
structure YDoc where
  tag : Str
  ref : Str
  body : Str
deriving DecidableEq

/-- A blank for `readToken`. -/
def isBlank (c : Char) : Bool := c == ' ' || c == '\r'

/-- The end of a token. -/
def isEnd (c : Char) : Bool := c == '\n' || c == ' ' || c == '\r'

/-- unity/unity_yaml.go:71-80 (`readToken`): the token and the rest. -/
def readToken (l : Str) : Str × Str :=
  let l := l.dropWhile isBlank
  (l.takeWhile (fun c => !isEnd c), l.dropWhile (fun c => !isEnd c))

/-- unity/unity_yaml.go:82-91 (`nextLine`): the rest after the next newline. -/
def nextLine : Str → Str
  | [] => []
  | c :: cs => if c = '\n' then cs else nextLine cs

/-- `strings.Trim(s, "!")`. -/
def trimBang (s : Str) : Str := ((s.dropWhile (· == '!')).reverse.dropWhile (· == '!')).reverse

/-- `strings.TrimPrefix(s, "&")`. -/
def trimAmp (s : Str) : Str :=
  match s with
  | '&' :: r => r
  | _ => s

/-- unity/unity_yaml.go:60-69 (`getTag`) for a token; `none` is the panic for an index out of range. -/
def resolveTag (tags : Str → Option Str) (tag : Str) : Option Str :=
  match tag with
  | '!' :: r =>
    let t0 := r.takeWhile (· != '!')
    match tags t0 with
    | some v => if t0.length + 2 ≤ tag.length then some (v ++ tag.drop (t0.length + 2)) else none
    | none => some tag
  | _ => some tag

/-- The state of the loop: what is left, the tags, the document that is open with its text so far, the
documents that are done. -/
structure YState where
  rest : Str
  tags : Str → Option Str
  doc : Option YDoc
  docs : List YDoc

/-- Moves to `rest'`, adding what is skipped to the text of the open document (the code takes the slice from
the start of the document to the position). -/
def YState.moveTo (s : YState) (rest' : Str) : YState :=
  { s with rest := rest',
           doc := s.doc.map fun d => { d with body := d.body ++ s.rest.take (s.rest.length - rest'.length) } }

/-- unity/unity_yaml.go:40-43: the open document ends with the marker of the next one. -/
def YState.closed (s : YState) : List YDoc :=
  match s.doc with
  | some d => s.docs ++ [{ d with body := d.body ++ ['-', '-', '-'] }]
  | none => s.docs

/-- unity/unity_yaml.go:52-57: the documents after the loop. -/
def YState.finished (s : YState) : List YDoc :=
  match s.doc with
  | some d => s.docs ++ [d]
  | none => s.docs

/-- unity/unity_yaml.go:31-56: one round of the loop. -/
def yamlStep (s : YState) : Option YState :=
  match s.rest with
  | '%' :: 'T' :: 'A' :: 'G' :: r =>
    let n := readToken r
    let v := readToken n.2
    some { (s.moveTo (nextLine v.2)) with tags := fun x => if x = trimBang n.1 then some v.1 else s.tags x }
  | '-' :: '-' :: '-' :: r =>
    let t := readToken r
    match resolveTag s.tags t.1 with
    | none => none
    | some tag =>
      let a := readToken t.2
      some ⟨nextLine a.2, s.tags, some ⟨tag, trimAmp a.1, []⟩, s.closed⟩
  | l => some (s.moveTo (nextLine l))

/-- unity/unity_yaml.go:31-51: the loop runs while at least four bytes are left; every round consumes at
least one byte, so that the length of the data is enough fuel. -/
def yamlLoop : Nat → YState → Option YState
  | 0, s => some s
  | fuel + 1, s =>
    if 3 < s.rest.length then
      match yamlStep s with
      | none => none
      | some s => yamlLoop fuel s
    else some s

/-- unity/unity_yaml.go:25-58 (`ParseYamlDocuments`). -/
def parseYaml (data : Str) : Option (List YDoc) :=
  (yamlLoop data.length ⟨data, fun _ => none, none, []⟩).map YState.finished

end Verif.Unity
