import Verif.Unity.Yaml
import Mathlib.Data.List.Basic
import Mathlib.Data.List.TakeWhile

/-!
C55: splitting Unity YAML streams (unity/unity_yaml.go).
-/

namespace Verif.Unity

/-- A token of a header: no blanks and no line ends. -/
def Plain (s : Str) : Prop := ∀ c ∈ s, isEnd c = false

/-- A line of a document: one line that is neither a header nor a tag. -/
structure LineOk (l : Str) : Prop where
  one : '\n' ∉ l
  noTag : ∀ r, l ≠ '%' :: 'T' :: 'A' :: 'G' :: r
  noDoc : ∀ r, l ≠ '-' :: '-' :: '-' :: r

/-- A document of a stream: tag and anchor of the header, the rest of the header (like ` stripped`), the
lines. -/
structure Src where
  tag : Str
  anchor : Str
  extra : Str
  lines : List Str

/-- The lines as text. -/
def linesText (ls : List Str) : Str := (ls.map (· ++ ['\n'])).flatten

/-- A document as text. -/
def Src.text (d : Src) : Str :=
  ['-', '-', '-', ' '] ++ d.tag ++ [' ', '&'] ++ d.anchor ++ d.extra ++ ['\n'] ++ linesText d.lines

/-- A document the stream may contain. -/
structure Src.Ok (d : Src) : Prop where
  tag : Plain d.tag
  tagNe : d.tag ≠ []
  anchor : Plain d.anchor
  extra : d.extra = [] ∨ ∃ r, d.extra = ' ' :: r
  extraOne : '\n' ∉ d.extra
  lines : ∀ l ∈ d.lines, LineOk l

/-- A declaration `%TAG !name! value`. -/
def tagText (name value : Str) : Str :=
  ['%', 'T', 'A', 'G', ' ', '!'] ++ name ++ ['!', ' '] ++ value ++ ['\n']

/-- The part before the documents: lines and declarations of tags. -/
inductive Pre where
  | line (l : Str)
  | tag (name value : Str)

/-- Its text. -/
def Pre.text : Pre → Str
  | .line l => l ++ ['\n']
  | .tag n v => tagText n v

/-- A well formed prologue. -/
def Pre.Ok : Pre → Prop
  | .line l => LineOk l
  | .tag n v => Plain n ∧ '!' ∉ n ∧ n ≠ [] ∧ Plain v ∧ v ≠ []

/-- The tags a prologue declares; the last declaration wins. -/
def declared (ps : List Pre) (t : Str → Option Str) : Str → Option Str :=
  ps.foldl (fun t p => match p with
    | .line _ => t
    | .tag n v => fun x => if x = n then some v else t x) t

/-! ### Tokens and lines -/

theorem nextLine_append (l r : Str) (h : '\n' ∉ l) : nextLine (l ++ '\n' :: r) = r := by
  induction l with
  | nil => simp [nextLine]
  | cons c l ih =>
    simp only [List.mem_cons, not_or] at h
    rw [List.cons_append, nextLine, if_neg (Ne.symm h.1)]
    exact ih h.2

theorem takeWhile_plain (t r : Str) (ht : Plain t) (c : Char) (hc : isEnd c = true) :
    (t ++ c :: r).takeWhile (fun c => !isEnd c) = t ∧ (t ++ c :: r).dropWhile (fun c => !isEnd c) = c :: r := by
  induction t with
  | nil => simp [hc]
  | cons x t ih =>
    have hx := ht x (by simp)
    have := ih (fun y hy => ht y (by simp [hy]))
    simp [hx, this.1, this.2]

theorem readToken_plain (t r : Str) (ht : Plain t) (hne : t ≠ []) (c : Char) (hc : isEnd c = true) :
    readToken (' ' :: (t ++ c :: r)) = (t, c :: r) := by
  unfold readToken
  have hd : (' ' :: (t ++ c :: r)).dropWhile isBlank = t ++ c :: r := by
    cases t with
    | nil => exact absurd rfl hne
    | cons x t =>
      have hx := ht x (by simp)
      have : isBlank x = false := by
        simp only [isEnd, isBlank, Bool.or_eq_false_iff] at hx ⊢
        exact ⟨hx.1.2, hx.2⟩
      rw [List.dropWhile_cons_of_pos (by decide), List.cons_append, List.dropWhile_cons_of_neg (by simp [this])]
  simp only [hd]
  obtain ⟨h1, h2⟩ := takeWhile_plain t r ht c hc
  rw [h1, h2]

theorem plain_newline (t : Str) (ht : Plain t) : '\n' ∉ t := fun h => by simpa [isEnd] using ht _ h

theorem trimBang_name (n : Str) (hn : '!' ∉ n) (hne : n ≠ []) : trimBang ('!' :: (n ++ ['!'])) = n := by
  unfold trimBang
  have h1 : ('!' :: (n ++ ['!'])).dropWhile (· == '!') = n ++ ['!'] := by
    cases n with
    | nil => exact absurd rfl hne
    | cons x n =>
      have hx : x ≠ '!' := fun h => hn (by simp [h])
      simp [hx]
  rw [h1, List.reverse_append, List.reverse_singleton, List.singleton_append, List.dropWhile_cons_of_pos (by simp)]
  have h2 : n.reverse.dropWhile (· == '!') = n.reverse := by
    cases e : n.reverse with
    | nil => rfl
    | cons y m =>
      have hy : y ≠ '!' := by
        rintro rfl
        apply hn
        rw [← List.mem_reverse, e]
        simp
      rw [List.dropWhile_cons_of_neg (by simp [hy])]
  rw [h2, List.reverse_reverse]

/-! ### Rounds of the loop -/

theorem step_line (s : YState) (l r : Str) (hl : LineOk l) (hs : s.rest = l ++ '\n' :: r) :
    yamlStep s = some { s with rest := r, doc := s.doc.map fun d => { d with body := d.body ++ (l ++ ['\n']) } } := by
  have hm : s.moveTo (nextLine s.rest) =
      { s with rest := r, doc := s.doc.map fun d => { d with body := d.body ++ (l ++ ['\n']) } } := by
    rw [hs, nextLine_append l r hl.one]
    unfold YState.moveTo
    rw [hs]
    have : (l ++ '\n' :: r).take ((l ++ '\n' :: r).length - r.length) = l ++ ['\n'] := by
      have e : l ++ '\n' :: r = (l ++ ['\n']) ++ r := by simp
      rw [e]
      rw [List.length_append, Nat.add_sub_cancel, List.take_left]
    rw [this]
  rw [← hm]
  unfold yamlStep
  split
  · rename_i r' e
    exfalso
    rw [hs] at e
    -- the line begins with %TAG or is shorter
    rcases l with _ | ⟨c1, _ | ⟨c2, _ | ⟨c3, _ | ⟨c4, l⟩⟩⟩⟩
    all_goals simp only [List.nil_append, List.cons_append, List.cons.injEq] at e
    · exact absurd e.1 (by decide)
    · exact absurd e.2.1 (by decide)
    · exact absurd e.2.2.1 (by decide)
    · exact absurd e.2.2.2.1 (by decide)
    · obtain ⟨rfl, rfl, rfl, rfl, _⟩ := e
      exact hl.noTag l rfl
  · rename_i r' e
    exfalso
    rw [hs] at e
    rcases l with _ | ⟨c1, _ | ⟨c2, _ | ⟨c3, l⟩⟩⟩
    all_goals simp only [List.nil_append, List.cons_append, List.cons.injEq] at e
    · exact absurd e.1 (by decide)
    · exact absurd e.2.1 (by decide)
    · exact absurd e.2.2.1 (by decide)
    · obtain ⟨rfl, rfl, rfl, _⟩ := e
      exact hl.noDoc l rfl
  · rfl

theorem step_tag (s : YState) (n v r : Str) (hok : (Pre.tag n v).Ok) (hd : s.doc = none) (hs : s.rest = tagText n v ++ r) :
    yamlStep s = some { s with rest := r, tags := fun x => if x = n then some v else s.tags x } := by
  obtain ⟨h1, h2, h3, h4, h5⟩ := hok
  have e : s.rest = '%' :: 'T' :: 'A' :: 'G' :: ' ' :: (('!' :: (n ++ ['!'])) ++ ' ' :: (v ++ '\n' :: r)) := by
    rw [hs]
    simp [tagText]
  unfold yamlStep
  rw [e]
  simp only
  have hp : Plain ('!' :: (n ++ ['!'])) := by
    intro c hc
    simp only [List.mem_cons, List.mem_append, List.not_mem_nil, or_false] at hc
    rcases hc with rfl | hc | rfl
    · decide
    · exact h1 c hc
    · decide
  rw [readToken_plain ('!' :: (n ++ ['!'])) (v ++ '\n' :: r) hp (by simp) ' ' (by decide)]
  simp only
  rw [readToken_plain v r h4 h5 '\n' (by decide)]
  simp only [trimBang_name n h2 h3, nextLine, if_true]
  simp [YState.moveTo, hd]

theorem step_doc (s : YState) (d : Src) (r : Str) (hok : d.Ok) (hs : s.rest = d.text ++ r) (tag : Str)
    (ht : resolveTag s.tags d.tag = some tag) :
    yamlStep s = some ⟨linesText d.lines ++ r, s.tags, some ⟨tag, d.anchor, []⟩, s.closed⟩ := by
  have e : s.rest = '-' :: '-' :: '-' :: ' ' :: (d.tag ++ ' ' :: (('&' :: d.anchor) ++ (d.extra ++ '\n' :: (linesText d.lines ++ r)))) := by
    rw [hs]
    simp [Src.text]
  unfold yamlStep
  rw [e]
  simp only
  rw [readToken_plain d.tag _ hok.tag hok.tagNe ' ' (by decide)]
  simp only [ht]
  have hp : Plain ('&' :: d.anchor) := by
    intro c hc
    rcases List.mem_cons.mp hc with rfl | hc
    · decide
    · exact hok.anchor c hc
  rcases hok.extra with hx | ⟨x, hx⟩
  · rw [hx, List.nil_append, readToken_plain ('&' :: d.anchor) _ hp (by simp) '\n' (by decide)]
    simp [trimAmp, nextLine]
  · have hxo : '\n' ∉ x := fun h => hok.extraOne (by simp [hx, h])
    rw [hx, show (' ' :: x) ++ '\n' :: (linesText d.lines ++ r) = ' ' :: (x ++ '\n' :: (linesText d.lines ++ r)) from rfl, readToken_plain ('&' :: d.anchor) _ hp (by simp) ' ' (by decide)]
    simp only [trimAmp]
    have : nextLine (' ' :: (x ++ '\n' :: (linesText d.lines ++ r))) = linesText d.lines ++ r := by
      rw [nextLine, if_neg (by decide)]
      exact nextLine_append x _ hxo
    rw [this]

/-! ### The loop -/

theorem loop_lines (ls : List Str) : ∀ (fuel : Nat) (s : YState) (r : Str), (∀ l ∈ ls, LineOk l) →
    s.rest = linesText ls ++ r → (∀ x ∈ ls.getLast?, 3 ≤ x.length ∨ 3 < r.length) → ls.length ≤ fuel →
    yamlLoop fuel s = yamlLoop (fuel - ls.length)
      { s with rest := r, doc := s.doc.map fun d => { d with body := d.body ++ linesText ls } } := by
  induction ls with
  | nil =>
    intro fuel s r _ hs _ _
    simp only [linesText, List.map_nil, List.flatten_nil, List.nil_append] at hs
    obtain ⟨rest, tags, doc, docs⟩ := s
    simp only at hs
    subst hs
    cases doc <;> simp [linesText]
  | cons l ls ih =>
    intro fuel s r hl hs hlast hf
    obtain ⟨fuel, rfl⟩ : ∃ k, fuel = k + 1 := ⟨fuel - 1, by simp at hf; omega⟩
    have e : s.rest = l ++ '\n' :: (linesText ls ++ r) := by
      rw [hs]
      simp [linesText]
    have hlen : 3 < s.rest.length := by
      rw [e]
      cases ls with
      | nil =>
        have := hlast l (by simp)
        simp [linesText]
        omega
      | cons l2 ls2 =>
        obtain ⟨z, hz⟩ : ∃ z, (l2 :: ls2).getLast? = some z := ⟨_, List.getLast?_eq_some_getLast (by simp)⟩
        have hzl := hlast z (by rw [List.getLast?_cons_cons]; exact hz)
        have hmem : z ∈ l2 :: ls2 := List.mem_of_getLast? hz
        have : z.length + 1 ≤ (linesText (l2 :: ls2)).length := by
          obtain ⟨a, b, hab⟩ := List.append_of_mem hmem
          rw [hab]
          simp [linesText]
          omega
        simp only [List.length_append, List.length_cons]
        omega
    rw [yamlLoop, if_pos hlen, step_line s l _ (hl l (by simp)) e]
    simp only
    rw [ih fuel _ r (fun x hx => hl x (by simp [hx])) rfl (by
      intro x hx
      apply hlast x
      cases ls with
      | nil => simp at hx
      | cons l2 ls2 => rw [List.getLast?_cons_cons]; exact hx) (by simp at hf; omega)]
    congr 1
    · simp
    · obtain ⟨rest, tags, doc, docs⟩ := s
      cases doc <;> simp [linesText]

theorem loop_pre (ps : List Pre) : ∀ (fuel : Nat) (s : YState) (r : Str), (∀ p ∈ ps, p.Ok) → s.doc = none →
    s.rest = (ps.map Pre.text).flatten ++ r → 3 < r.length → ps.length ≤ fuel →
    yamlLoop fuel s = yamlLoop (fuel - ps.length) ⟨r, declared ps s.tags, none, s.docs⟩ := by
  induction ps with
  | nil =>
    intro fuel s r _ hd hs _ _
    obtain ⟨rest, tags, doc, docs⟩ := s
    simp only [List.map_nil, List.flatten_nil, List.nil_append] at hs
    subst hs hd
    rfl
  | cons p ps ih =>
    intro fuel s r hok hd hs hr hf
    obtain ⟨fuel, rfl⟩ : ∃ k, fuel = k + 1 := ⟨fuel - 1, by simp at hf; omega⟩
    have hlen : 3 < s.rest.length := by
      rw [hs]
      simp only [List.length_append]
      omega
    rw [yamlLoop, if_pos hlen]
    have hp := hok p (by simp)
    cases p with
    | line l =>
      have e : s.rest = l ++ '\n' :: ((ps.map Pre.text).flatten ++ r) := by
        rw [hs]
        simp [Pre.text]
      rw [step_line s l _ hp e]
      simp only [hd, Option.map_none]
      rw [ih fuel _ r (fun x hx => hok x (by simp [hx])) rfl rfl hr (by simp at hf; omega)]
      simp [declared]
    | tag n v =>
      have e : s.rest = tagText n v ++ ((ps.map Pre.text).flatten ++ r) := by
        rw [hs]
        simp [Pre.text]
      rw [step_tag s n v _ hp hd e]
      simp only [hd]
      rw [ih fuel _ r (fun x hx => hok x (by simp [hx])) rfl rfl hr (by simp at hf; omega)]
      simp [declared]

theorem text_long (d : Src) : 3 < d.text.length := by
  simp [Src.text]

/-- The documents that come out: each text is followed by the marker of the next document. -/
def outDocs (tags : Str → Str) : List Src → List YDoc
  | [] => []
  | [d] => [⟨tags d.tag, d.anchor, linesText d.lines⟩]
  | d :: d2 :: ds => ⟨tags d.tag, d.anchor, linesText d.lines ++ ['-', '-', '-']⟩ :: outDocs tags (d2 :: ds)

/-- The rounds a list of documents needs. -/
def rounds (ds : List Src) : Nat := (ds.map fun d => d.lines.length + 1).sum

theorem loop_docs (resolved : Str → Str) (ds : List Src) : ∀ (fuel : Nat) (s : YState), ds ≠ [] → (∀ d ∈ ds, d.Ok) →
    (∀ d ∈ ds, resolveTag s.tags d.tag = some (resolved d.tag)) →
    s.rest = (ds.map Src.text).flatten →
    (∀ d ∈ ds.getLast?, ∀ x ∈ d.lines.getLast?, 3 ≤ x.length) → rounds ds ≤ fuel →
    ∃ s', yamlLoop fuel s = some s' ∧ s'.finished = s.closed ++ outDocs resolved ds := by
  induction ds with
  | nil => intro fuel s h; exact absurd rfl h
  | cons d ds ih =>
    intro fuel s _ hok htag hs hlast hf
    have hf' : d.lines.length + 1 + rounds ds ≤ fuel := by simpa [rounds] using hf
    obtain ⟨fuel, rfl⟩ : ∃ k, fuel = k + 1 := ⟨fuel - 1, by omega⟩
    have e : s.rest = d.text ++ (ds.map Src.text).flatten := by rw [hs]; simp
    have hlen : 3 < s.rest.length := by
      rw [e, List.length_append]
      have := text_long d
      omega
    rw [yamlLoop, if_pos hlen, step_doc s d _ (hok d (by simp)) e _ (htag d (by simp))]
    simp only
    cases ds with
    | nil =>
      rw [loop_lines d.lines fuel _ [] (hok d (by simp)).lines (by simp) (fun x hx => .inl (hlast d (by simp) x hx)) (by omega)]
      simp only [Option.map_some, List.nil_append]
      have : ∀ k s', s'.rest = ([] : Str) → yamlLoop k s' = some s' := by
        intro k s' hs'
        cases k with
        | zero => rfl
        | succ k => rw [yamlLoop, if_neg (by rw [hs']; simp)]
      rw [this _ _ rfl]
      exact ⟨_, rfl, rfl⟩
    | cons d2 ds =>
      have hr : 3 < (((d2 :: ds).map Src.text).flatten).length := by
        have := text_long d2
        simp only [List.map_cons, List.flatten_cons, List.length_append]
        omega
      rw [loop_lines d.lines fuel _ _ (hok d (by simp)).lines rfl (fun _ _ => .inr hr) (by omega)]
      simp only [Option.map_some, List.nil_append]
      obtain ⟨s', e1, e2⟩ := ih (fuel - d.lines.length) ⟨((d2 :: ds).map Src.text).flatten, s.tags,
        some ⟨resolved d.tag, d.anchor, linesText d.lines⟩, s.closed⟩ (by simp) (fun x hx => hok x (by simp [hx])) (fun x hx => htag x (by simp [hx])) rfl
        (by
          intro x hx
          apply hlast x
          rw [List.getLast?_cons_cons]
          exact hx) (by omega)
      refine ⟨s', e1, ?_⟩
      rw [e2]
      simp [outDocs, YState.closed]

theorem linesText_length (ls : List Str) : ls.length ≤ (linesText ls).length := by
  induction ls with
  | nil => simp
  | cons l ls ih =>
    simp only [linesText, List.map_cons, List.flatten_cons, List.length_append, List.length_cons] at ih ⊢
    omega

theorem rounds_le (ds : List Src) : rounds ds ≤ ((ds.map Src.text).flatten).length := by
  induction ds with
  | nil => simp [rounds]
  | cons d ds ih =>
    have h1 : d.lines.length + 1 ≤ d.text.length := by
      have := linesText_length d.lines
      simp [Src.text]
      omega
    simp only [rounds, List.map_cons, List.sum_cons, List.flatten_cons, List.length_append] at ih ⊢
    omega

theorem pre_le (ps : List Pre) : ps.length ≤ ((ps.map Pre.text).flatten).length := by
  induction ps with
  | nil => simp
  | cons p ps ih =>
    have : 1 ≤ p.text.length := by cases p <;> simp [Pre.text, tagText]
    simp only [List.map_cons, List.flatten_cons, List.length_append, List.length_cons]
    omega

/-- C55: a stream of documents is split into them, in order, with the resolved tag, the anchor and the text;
the text of all but the last is followed by `---`, the marker that begins the next header. Missing: a last
line of less than three characters, see `parseYaml_false`, and tags without handle, see
`parseYaml_tag_false`. -/
theorem parseYaml_partial (ps : List Pre) (ds : List Src) (resolved : Str → Str) (hps : ∀ p ∈ ps, p.Ok)
    (hne : ds ≠ []) (hds : ∀ d ∈ ds, d.Ok)
    (htag : ∀ d ∈ ds, resolveTag (declared ps fun _ => none) d.tag = some (resolved d.tag))
    (hlast : ∀ d ∈ ds.getLast?, ∀ x ∈ d.lines.getLast?, 3 ≤ x.length) :
    parseYaml ((ps.map Pre.text).flatten ++ (ds.map Src.text).flatten) = some (outDocs resolved ds) := by
  unfold parseYaml
  have hr : 3 < ((ds.map Src.text).flatten).length := by
    cases ds with
    | nil => exact absurd rfl hne
    | cons d ds =>
      have := text_long d
      simp only [List.map_cons, List.flatten_cons, List.length_append]
      omega
  rw [loop_pre ps _ _ ((ds.map Src.text).flatten) hps rfl rfl hr (by
    have := pre_le ps
    simp only [List.length_append]
    omega)]
  obtain ⟨s', e1, e2⟩ := loop_docs resolved ds (((ps.map Pre.text).flatten ++ (ds.map Src.text).flatten).length - ps.length)
    ⟨(ds.map Src.text).flatten, declared ps fun _ => none, none, []⟩ hne hds htag rfl hlast (by
      have := pre_le ps
      have := rounds_le ds
      simp only [List.length_append]
      omega)
  rw [e1]
  simp only [Option.map_some]
  rw [e2]
  rfl

theorem takeWhile_bang (h r : Str) (hh : '!' ∉ h) : (h ++ '!' :: r).takeWhile (· != '!') = h := by
  induction h with
  | nil => simp
  | cons c h ih =>
    simp only [List.mem_cons, not_or] at hh
    simp only [List.cons_append, List.takeWhile_cons, bne_iff_ne, ne_eq, Ne.symm hh.1, not_false_eq_true, if_true, ih hh.2]

/-- A tag `!handle!rest` becomes the value of the handle followed by the rest. -/
theorem resolveTag_handle (tags : Str → Option Str) (h v r : Str) (hh : '!' ∉ h) (ht : tags h = some v) :
    resolveTag tags ('!' :: (h ++ '!' :: r)) = some (v ++ r) := by
  unfold resolveTag
  simp only [takeWhile_bang h r hh, ht]
  rw [if_pos (by simp)]
  simp

/-- The stream of a small scene. -/
def sampleStream : Str := "%YAML 1.1\n%TAG !u! tag:u,2011:\n--- !u!1 &12\nGameObject:\n  a: 1\n--- !u!4 &345 stripped\nTransform:\n".toList

example : parseYaml sampleStream = some [⟨"tag:u,2011:1".toList, "12".toList, "GameObject:\n  a: 1\n---".toList⟩,
    ⟨"tag:u,2011:4".toList, "345".toList, "Transform:\n".toList⟩] := by decide +kernel

/-- `sampleStream` meets the hypotheses of `parseYaml_partial`. -/
example : ∃ (ps : List Pre) (ds : List Src), sampleStream = (ps.map Pre.text).flatten ++ (ds.map Src.text).flatten ∧
    (∀ p ∈ ps, p.Ok) ∧ ds.length = 2 ∧ (∀ d ∈ ds, d.Ok) ∧ (∀ d ∈ ds.getLast?, ∀ x ∈ d.lines.getLast?, 3 ≤ x.length) := by
  refine ⟨[.line "%YAML 1.1".toList, .tag "u".toList "tag:u,2011:".toList],
    [⟨"!u!1".toList, "12".toList, [], ["GameObject:".toList, "  a: 1".toList]⟩,
     ⟨"!u!4".toList, "345".toList, " stripped".toList, ["Transform:".toList]⟩], by decide +kernel, ?_, rfl, ?_, ?_⟩
  · intro p hp
    simp only [List.mem_cons, List.not_mem_nil, or_false] at hp
    rcases hp with rfl | rfl
    · exact ⟨by decide, by simp, by simp⟩
    · exact ⟨by unfold Plain; decide, by decide, by decide, by unfold Plain; decide, by decide⟩
  · intro d hd
    simp only [List.mem_cons, List.not_mem_nil, or_false] at hd
    rcases hd with rfl | rfl
    · refine ⟨by unfold Plain; decide, by decide, by unfold Plain; decide, .inl rfl, by decide, ?_⟩
      intro l hl
      simp only [List.mem_cons, List.not_mem_nil, or_false] at hl
      rcases hl with rfl | rfl <;> exact ⟨by decide, by simp, by simp⟩
    · refine ⟨by unfold Plain; decide, by decide, by unfold Plain; decide, .inr ⟨_, rfl⟩, by decide, ?_⟩
      intro l hl
      simp only [List.mem_cons, List.not_mem_nil, or_false] at hl
      subst hl
      exact ⟨by decide, by simp, by simp⟩
  · simp

/-- C55 is false of the code: a short last line is lost. -/
theorem parseYaml_false : parseYaml "--- !u!1 &12\na:\n- 1\n- 2\n".toList =
      some [⟨"!u!1".toList, "12".toList, "a:\n- 1\n- 2\n".toList⟩] ∧
    parseYaml "--- !u!1 &12\na: {\n}\n".toList = some [⟨"!u!1".toList, "12".toList, "a: {\n".toList⟩] := by
  decide +kernel

/-- C55 is false of the code: a tag that is the bare handle of a declared tag crashes. -/
theorem parseYaml_tag_false (tags : Str → Option Str) (h v : Str) (hh : '!' ∉ h) (ht : tags h = some v) :
    resolveTag tags ('!' :: h) = none := by
  have e : h.takeWhile (· != '!') = h := by
    rw [List.takeWhile_eq_self_iff]
    intro c hc
    simp only [bne_iff_ne, ne_eq]
    rintro rfl
    exact hh hc
  unfold resolveTag
  simp only [e, ht]
  rw [if_neg (by simp)]

example : parseYaml "%TAG !u! tag:\n--- !u &1\n".toList = none := by decide +kernel

end Verif.Unity
