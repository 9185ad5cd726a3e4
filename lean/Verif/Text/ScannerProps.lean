import Verif.Text.Scanner
import Mathlib.Data.List.TakeWhile
import Mathlib.Data.Nat.Digits.Defs

/-!
Lemmas about the scanner: it always gets ahead, and what it does on words, numbers, quoted texts and
single characters.
-/

namespace Verif.Text

theorem length_dropWhile_le' {α : Type} (p : α → Bool) (l : List α) : (l.dropWhile p).length ≤ l.length := by
  induction l with
  | nil => simp
  | cons a l ih =>
    rw [List.dropWhile_cons]
    split
    · simp; omega
    · simp

theorem skipBlank_length (m : Skip) (cs : List Char) : (skipBlank m cs).1.length ≤ cs.length := by
  fun_induction skipBlank m cs <;> simp_all <;> omega

theorem exponent_length (cs : List Char) : (exponent cs).2.length ≤ cs.length := by
  unfold exponent
  split
  · rename_i t; have := length_dropWhile_le' (isDig 10) t; simp; omega
  · rename_i t; have := length_dropWhile_le' (isDig 10) t; simp; omega
  · rename_i t _ _; have := length_dropWhile_le' (isDig 10) t; simp; omega
  · simp

theorem numberTail_length (pre : List Char) (kind : Char) (base : Nat) (dot : Bool) (cs : List Char) :
    (numberTail pre kind base dot cs).rest.length ≤ (if dot then cs else cs.dropWhile (isDig base)).length := by
  simp only [numberTail]
  generalize (if dot = true then cs else cs.dropWhile (isDig base)) = r1
  generalize (if dot = true then [] else if (r1.head? == some '.') = true then ['.'] else []) = point
  generalize (dot || r1.head? == some '.') = dotted
  have h1 : (if dotted = true then (r1.drop point.length).dropWhile (isDig base) else r1.drop point.length).length
      ≤ r1.length := by
    split
    · have := length_dropWhile_le' (isDig base) (r1.drop point.length)
      simp only [List.length_drop] at this
      omega
    · simp
  revert h1
  generalize (if dotted = true then (r1.drop point.length).dropWhile (isDig base) else r1.drop point.length) = r2
  intro h1
  generalize startsExp r2 = he
  cases he with
  | false => simpa using h1
  | true =>
    have := exponent_length r2
    simp only [if_true]
    omega

theorem scanNumber_length (c : Char) (cs : List Char) (hc : c.isDigit = true) :
    (scanNumber (c :: cs)).rest.length < (c :: cs).length := by
  unfold scanNumber
  split
  · rename_i d r heq
    injection heq with h1 h2
    subst h2
    have key : ∀ pre kind base l, l.length ≤ (d :: r).length →
        (numberTail pre kind base false l).rest.length < (c :: d :: r).length := by
      intro pre kind base l hl
      have h := numberTail_length pre kind base false l
      simp only [Bool.false_eq_true, if_false] at h
      have h' := length_dropWhile_le' (isDig base) l
      simp only [List.length_cons] at *
      omega
    split
    · exact key _ _ _ _ (by simp)
    · split
      · exact key _ _ _ _ (by simp)
      · split
        · exact key _ _ _ _ (by simp)
        · exact key _ _ _ _ (by simp)
  · have h := numberTail_length ['0'] '0' 8 false []
    simp at h ⊢
    rename_i heq
    rw [h]
    simp
  · have h := numberTail_length [] 'd' 10 false (c :: cs)
    have h2 : (c :: cs).dropWhile (isDig 10) = cs.dropWhile (isDig 10) := by
      rw [List.dropWhile_cons, if_pos (by simp [isDig, hc])]
    simp only [Bool.false_eq_true, if_false, h2] at h
    have h' := length_dropWhile_le' (isDig 10) cs
    simp only [List.length_cons]
    omega

theorem quoted_length (q : Char) (m : Esc) (cs : List Char) : (quoted q m cs).2.1.length ≤ cs.length := by
  induction cs generalizing m with
  | nil => simp [quoted]
  | cons c cs ih =>
    rw [quoted]
    split
    · simp
    · rename_i m' _ _ _
      have := ih m'
      simp only [List.length_cons]
      omega

theorem rawString_length (cs : List Char) : (rawString cs).2.1.length ≤ cs.length := by
  induction cs with
  | nil => simp [rawString]
  | cons c cs ih =>
    rw [rawString]
    split
    · simp
    · simp only [List.length_cons]; omega

/-- Every token takes at least one character. -/
theorem token_length [Uni] (c : Char) (cs : List Char) : (token (c :: cs)).rest.length < (c :: cs).length := by
  rw [token]
  split
  · have := length_dropWhile_le' isIdent cs; simp; omega
  · split
    · rename_i h; exact scanNumber_length c cs h
    · split
      · have := quoted_length '"' .plain cs; simp; omega
      · split
        · have := quoted_length '\'' .plain cs; simp; omega
        · split
          · have := numberTail_length ['.'] 'd' 10 true cs
            simp only [if_true] at this
            simp only [List.length_cons]; omega
          · split
            · have := rawString_length cs; simp; omega
            · simp

theorem token_eof [Uni] (cs : List Char) (h : cs = []) : (token cs).tok = .eof := by
  subst h; rfl

theorem scan_le [Uni] (s : St) : (scan s).rest.length ≤ s.rest.length := by
  simp only [scan]
  have h := skipBlank_length .ws s.rest
  cases hb : (skipBlank .ws s.rest).1 with
  | nil => simp [token]
  | cons c cs =>
    have := token_length c cs
    rw [hb] at h
    omega

/-- A scan that does not meet the end of the text gets ahead. -/
theorem scan_lt [Uni] (s : St) (h : (scan s).tok ≠ .eof) : (scan s).rest.length < s.rest.length := by
  simp only [scan] at h ⊢
  have h1 := skipBlank_length .ws s.rest
  cases hb : (skipBlank .ws s.rest).1 with
  | nil => rw [hb] at h; exact absurd (token_eof _ rfl) h
  | cons c cs =>
    have := token_length c cs
    rw [hb] at h1
    omega

/-! What the scanner does on the pieces that are written. -/

/-- White space in front does not matter. -/
theorem scan_ws [Uni] (c : Char) (hc : isWs c = true) (k : List Char) (e : Nat) (m : Bool) (t : Tok)
    (x : List Char) : scan ⟨c :: k, e, m, t, x⟩ = scan ⟨k, e, m, t, x⟩ := by
  have h : skipBlank .ws (c :: k) = skipBlank .ws k := by
    have hs : c ≠ '/' := by rintro rfl; simp [isWs] at hc
    rw [skipBlank, if_pos hc]
    · rintro cs rfl; simp_all
    · rintro cs rfl; simp_all
  simp [scan, h]

theorem skipBlank_of (c : Char) (k : List Char) (hw : isWs c = false) (hs : c ≠ '/') :
    skipBlank .ws (c :: k) = (c :: k, 0) := by
  rw [skipBlank]
  · simp [hw]
  · rintro cs rfl; simp_all
  · rintro cs rfl; simp_all

/-- The last token and the errors do not matter. -/
theorem scan_of [Uni] (c : Char) (k : List Char) (hw : isWs c = false) (hs : c ≠ '/') (e : Nat) (m : Bool)
    (t : Tok) (x : List Char) (he : (token (c :: k)).errs = 0) :
    scan ⟨c :: k, e, m, t, x⟩ = ⟨(token (c :: k)).rest, e, m, (token (c :: k)).tok, (token (c :: k)).text⟩ := by
  simp [scan, skipBlank_of c k hw hs, he]

/-- A character that ends a word or a number. -/
def isStop (c : Char) : Bool := c == ' ' || c == '\n' || c == '\r' || c == '\t' || c == '(' || c == ')'

def Stop : List Char → Prop
  | [] => True
  | c :: _ => isStop c = true

instance (k : List Char) : Decidable (Stop k) := by
  cases k <;> unfold Stop <;> infer_instance

def wordStart (c : Char) : Bool := c.isAlpha || c == '_'
def wordChar (c : Char) : Bool := c.isAlpha || c.isDigit || c == '_'

/-- An ASCII identifier. -/
def isWord : List Char → Bool
  | [] => false
  | c :: cs => wordStart c && cs.all wordChar

theorem isAlpha_ascii {c : Char} (h : c.isAlpha = true) : c.toNat < 128 := by
  simp only [Char.isAlpha, Char.isUpper, Char.isLower, Bool.or_eq_true, Bool.and_eq_true, decide_eq_true_eq,
    UInt32.le_iff_toNat_le] at h
  change c.val.toNat < 128
  rcases h with h | h
  · have h1 : c.val.toNat ≤ 90 := h.2
    omega
  · have h1 : c.val.toNat ≤ 122 := h.2
    omega

theorem isDigit_ascii {c : Char} (h : c.isDigit = true) : c.toNat < 128 := by
  simp only [Char.isDigit, Bool.and_eq_true, decide_eq_true_eq, UInt32.le_iff_toNat_le] at h
  change c.val.toNat < 128
  have h1 : c.val.toNat ≤ 57 := h.2
  omega

theorem isIdent_of_wordChar [Uni] {c : Char} (h : wordChar c = true) : isIdent c = true := by
  simp only [wordChar, Bool.or_eq_true, beq_iff_eq] at h
  rcases h with (h | h) | h
  · simp [isIdent, Uni.letter_ascii c (isAlpha_ascii h), h]
  · simp [isIdent, Uni.digit_ascii c (isDigit_ascii h), h]
  · simp [isIdent, h]

theorem stop_cases {c : Char} (h : isStop c = true) :
    c = ' ' ∨ c = '\n' ∨ c = '\r' ∨ c = '\t' ∨ c = '(' ∨ c = ')' := by
  simp only [isStop, Bool.or_eq_true, beq_iff_eq] at h
  tauto

theorem not_isIdent_of_stop [Uni] {c : Char} (h : isStop c = true) : isIdent c = false := by
  have ha : c.toNat < 128 := by rcases stop_cases h with rfl | rfl | rfl | rfl | rfl | rfl <;> decide
  rw [isIdent, Uni.letter_ascii c ha, Uni.digit_ascii c ha]
  rcases stop_cases h with rfl | rfl | rfl | rfl | rfl | rfl <;> decide

theorem takeWhile_stop {p : Char → Bool} {w k : List Char} (hw : ∀ c ∈ w, p c = true)
    (hk : ∀ c r, k = c :: r → p c = false) : (w ++ k).takeWhile p = w := by
  induction w with
  | nil =>
    cases k with
    | nil => rfl
    | cons c r => simp [hk c r rfl]
  | cons a w ih =>
    rw [List.cons_append, List.takeWhile_cons, if_pos (hw a (by simp)), ih (fun c hc => hw c (by simp [hc]))]

theorem dropWhile_stop {p : Char → Bool} {w k : List Char} (hw : ∀ c ∈ w, p c = true)
    (hk : ∀ c r, k = c :: r → p c = false) : (w ++ k).dropWhile p = k := by
  induction w with
  | nil =>
    cases k with
    | nil => rfl
    | cons c r => simp [hk c r rfl]
  | cons a w ih =>
    rw [List.cons_append, List.dropWhile_cons, if_pos (hw a (by simp)), ih (fun c hc => hw c (by simp [hc]))]

theorem wordStart_facts [Uni] {c : Char} (h : wordStart c = true) :
    (c == '_' || Uni.letter c) = true ∧ isWs c = false ∧ c ≠ '/' := by
  simp only [wordStart, Bool.or_eq_true, beq_iff_eq] at h
  refine ⟨?_, ?_, ?_⟩
  · rcases h with h | h
    · simp [Uni.letter_ascii c (isAlpha_ascii h), h]
    · simp [h]
  · cases hw : isWs c with
    | false => rfl
    | true =>
      simp only [isWs, Bool.or_eq_true, beq_iff_eq] at hw
      rcases hw with ((rfl | rfl) | rfl) | rfl <;> revert h <;> decide
  · rintro rfl; revert h; decide

/-- A word followed by a delimiter is an identifier token. -/
theorem scan_word [Uni] (w k : List Char) (hw : isWord w = true) (hk : Stop k) (e : Nat) (m : Bool) (t : Tok)
    (x : List Char) : scan ⟨w ++ k, e, m, t, x⟩ = ⟨k, e, m, .ident, w⟩ := by
  cases w with
  | nil => simp [isWord] at hw
  | cons c cs =>
    simp only [isWord, Bool.and_eq_true, List.all_eq_true] at hw
    obtain ⟨h1, h2, h3⟩ := wordStart_facts hw.1
    have hc : ∀ d ∈ cs, isIdent d = true := fun d hd => isIdent_of_wordChar (hw.2 d hd)
    have hs : ∀ d r, k = d :: r → isIdent d = false := by
      rintro d r rfl; exact not_isIdent_of_stop hk
    have ht : token (c :: (cs ++ k)) = ⟨.ident, c :: cs, k, 0⟩ := by
      rw [token, if_pos h1, takeWhile_stop hc hs, dropWhile_stop hc hs]
    rw [List.cons_append, scan_of c _ h2 h3 _ _ _ _ (by rw [ht]), ht]

/-- A single character that is a token of its own. -/
def isPunct (c : Char) : Bool := c == '(' || c == ')' || c == '{' || c == '}' || c == '-'

theorem scan_punct [Uni] (c : Char) (hc : isPunct c = true) (k : List Char) (e : Nat) (m : Bool) (t : Tok)
    (x : List Char) : scan ⟨c :: k, e, m, t, x⟩ = ⟨k, e, m, .ch c, [c]⟩ := by
  have hcases : c = '(' ∨ c = ')' ∨ c = '{' ∨ c = '}' ∨ c = '-' := by
    simp only [isPunct, Bool.or_eq_true, beq_iff_eq] at hc; tauto
  have h2 : isWs c = false := by rcases hcases with rfl | rfl | rfl | rfl | rfl <;> decide
  have h3 : c ≠ '/' := by rcases hcases with rfl | rfl | rfl | rfl | rfl <;> decide
  have hl : (c == '_' || Uni.letter c) = false := by
    rcases hcases with rfl | rfl | rfl | rfl | rfl <;>
      rw [Uni.letter_ascii _ (by decide)] <;> decide
  have hd : c.isDigit = false := by rcases hcases with rfl | rfl | rfl | rfl | rfl <;> decide
  have ht : token (c :: k) = ⟨.ch c, [c], k, 0⟩ := by
    rw [token, if_neg (by simp [hl]), if_neg (by simp [hd])]
    rcases hcases with rfl | rfl | rfl | rfl | rfl <;> simp
  rw [scan_of c k h2 h3 _ _ _ _ (by rw [ht]), ht]

/-- A text that can be written between quotes: no quote, no backslash, no newline (and no NUL, which the
model leaves out). -/
def Plain (t : List Char) : Prop := ∀ c ∈ t, c ≠ '"' ∧ c ≠ '\\' ∧ c ≠ '\n' ∧ c ≠ '\x00'

instance (t : List Char) : Decidable (Plain t) := by unfold Plain; infer_instance

theorem quoted_plain (t k : List Char) (h : Plain t) :
    quoted '"' .plain (t ++ '"' :: k) = (t ++ ['"'], k, 0, t.length) := by
  induction t with
  | nil => simp [quoted, quoteStep, plainStep]
  | cons c t ih =>
    obtain ⟨h1, h2, h3, _⟩ := h c (by simp)
    have ih := ih (fun d hd => h d (by simp [hd]))
    rw [List.cons_append, quoted]
    simp only [quoteStep, plainStep, h1, h2, h3, if_false]
    rw [ih]
    simp; omega

/-- A quoted text is one string token. -/
theorem scan_quote [Uni] (t k : List Char) (h : Plain t) (e : Nat) (m : Bool) (tk : Tok) (x : List Char) :
    scan ⟨'"' :: (t ++ '"' :: k), e, m, tk, x⟩ = ⟨k, e, m, .string, '"' :: (t ++ ['"'])⟩ := by
  have hl : ('"' == '_' || Uni.letter '"') = false := by rw [Uni.letter_ascii _ (by decide)]; decide
  have ht : token ('"' :: (t ++ '"' :: k)) = ⟨.string, '"' :: (t ++ ['"']), k, 0⟩ := by
    rw [token, if_neg (by rw [hl]; decide), if_neg (by decide), if_pos rfl, quoted_plain t k h]
  rw [scan_of _ _ (by decide) (by decide) _ _ _ _ (by rw [ht]), ht]

/-- Decimal digits. -/
def Digits (w : List Char) : Prop := ∀ c ∈ w, c.isDigit = true

instance (t : List Char) : Decidable (Digits t) := by unfold Digits; infer_instance

/-- A number as `fmt` writes it, without sign: an integer part without leading zeros, perhaps a fraction,
perhaps an exponent. -/
structure Lit where
  int : List Char
  frac : Option (List Char)
  exp : Option (Bool × List Char)

def Lit.fracText (l : Lit) : List Char := match l.frac with
  | some f => '.' :: f
  | none => []

def Lit.expText (l : Lit) : List Char := match l.exp with
  | some (neg, d) => 'e' :: (if neg then '-' else '+') :: d
  | none => []

def Lit.text (l : Lit) : List Char := l.int ++ (l.fracText ++ l.expText)

structure Lit.Ok (l : Lit) : Prop where
  int_ne : l.int ≠ []
  int_digits : Digits l.int
  int_zero : l.int.head? = some '0' → l.int.length = 1
  frac_digits : ∀ f, l.frac = some f → Digits f
  exp_ne : ∀ b d, l.exp = some (b, d) → d ≠ []
  exp_digits : ∀ b d, l.exp = some (b, d) → Digits d

def Lit.tok (l : Lit) : Tok := if l.frac = none ∧ l.exp = none then .int else .float

theorem digit_isDig {b : Nat} (hb : b ≤ 10) {c : Char} (h : c.isDigit = true) : isDig b c = true := by
  simp [isDig, hb, h]

theorem digit_ne_us {c : Char} (h : c.isDigit = true) : c ≠ '_' := by
  rintro rfl; revert h; decide

theorem stop_not {c : Char} (h : isStop c = true) (b : Nat) :
    isDig b c = false ∧ c ≠ '.' ∧ isExp c = false ∧ c ≠ 'x' ∧ c ≠ 'X' ∧ c ≠ 'o' ∧ c ≠ 'O' ∧ c ≠ 'b' ∧ c ≠ 'B' := by
  rcases stop_cases h with rfl | rfl | rfl | rfl | rfl | rfl <;>
    (refine ⟨?_, by decide, by decide, by decide, by decide, by decide, by decide, by decide, by decide⟩
     unfold isDig
     split <;> decide)

/-- The number scanner on the part of a literal behind its first digits. -/
theorem numberTail_lit (pre : List Char) (kind : Char) (base : Nat) (hb : base ≤ 10) (hk : kind = 'd' ∨ kind = '0')
    (hpre : Digits pre) (a : List Char) (f : Option (List Char)) (x : Option (Bool × List Char)) (k : List Char)
    (ha : Digits a) (hf : ∀ g, f = some g → Digits g) (hx : ∀ b d, x = some (b, d) → Digits d)
    (hxne : ∀ b d, x = some (b, d) → d ≠ [])
    (hne : kind = '0' ∨ a ≠ []) (hinv : base = 10 ∨ a = []) (hs : Stop k) :
    numberTail pre kind base false (a ++ ((Lit.mk a f x).fracText ++ ((Lit.mk a f x).expText ++ k)))
      = ⟨(Lit.mk a f x).tok, pre ++ (Lit.mk a f x).text, k, 0⟩ := by
  have hstop : ∀ c r, k = c :: r → isDig base c = false ∧ isDig 10 c = false ∧ c ≠ '.' ∧ isExp c = false := by
    rintro c r rfl
    have h1 := stop_not (c := c) hs base
    have h2 := stop_not (c := c) hs 10
    exact ⟨h1.1, h2.1, h1.2.1, h1.2.2.1⟩
  have hpoint : ∀ b : Nat, isDig b '.' = false := by intro b; unfold isDig; split <;> decide
  have he : ∀ b : Nat, b ≤ 10 → isDig b 'e' = false := by
    intro b hb; simp only [isDig, if_pos hb]; decide
  have hda : ∀ c ∈ a, isDig base c = true := fun c hc => digit_isDig hb (ha c hc)
  set E := (Lit.mk a f x).expText with hE
  have hEk : ∀ c r, E ++ k = c :: r → isDig base c = false ∧ c ≠ '.' := by
    intro c r h
    cases x with
    | none => rw [hE] at h; simp [Lit.expText] at h; exact ⟨(hstop c r h).1, (hstop c r h).2.2.1⟩
    | some p =>
      rw [hE] at h; simp [Lit.expText] at h
      rw [← h.1]; exact ⟨he base hb, by decide⟩
  -- the exponent
  have hexp : startsExp (E ++ k) = x.isSome ∧
      (if x.isSome then exponent (E ++ k) else ([], E ++ k)) = (E, k) := by
    cases x with
    | none =>
      have : E = [] := by rw [hE]; rfl
      rw [this, List.nil_append]
      refine ⟨?_, by simp⟩
      cases k with
      | nil => rfl
      | cons c r => simp [startsExp, (hstop c r rfl).2.2.2]
    | some p =>
      obtain ⟨b, d⟩ := p
      have hd : ∀ c ∈ d, isDig 10 c = true := fun c hc => digit_isDig (le_refl _) (hx b d rfl c hc)
      have hkk : ∀ c r, k = c :: r → isDig 10 c = false := fun c r h => (hstop c r h).2.1
      have : E = 'e' :: (if b then '-' else '+') :: d := by rw [hE]; rfl
      rw [this]
      refine ⟨by simp [startsExp, isExp], ?_⟩
      cases b <;> simp [exponent, takeWhile_stop hd hkk, dropWhile_stop hd hkk]
  -- the fraction
  cases f with
  | none =>
    have hfr : (Lit.mk a none x).fracText = [] := rfl
    have htw : (a ++ (E ++ k)).takeWhile (isDig base) = a := takeWhile_stop hda (fun c r h => (hEk c r h).1)
    have hdw : (a ++ (E ++ k)).dropWhile (isDig base) = E ++ k := dropWhile_stop hda (fun c r h => (hEk c r h).1)
    have hnd : ((E ++ k).head? == some '.') = false := by
      cases h : E ++ k with
      | nil => rfl
      | cons c r => simpa using (hEk c r h).2
    rw [hfr, List.nil_append]
    simp only [numberTail, htw, hdw, hnd, Bool.false_eq_true, if_false, Bool.or_false, List.length_nil,
      List.drop_zero, hexp.1, hexp.2]
    have htext : pre ++ a ++ [] ++ [] ++ E = pre ++ (Lit.mk a none x).text := by
      simp [Lit.text, hfr, hE]
    have hus : (pre ++ a ++ [] ++ [] ++ E).any (· == '_') = false := by
      simp only [List.append_nil, List.any_append, Bool.or_eq_false_iff]
      refine ⟨⟨?_, ?_⟩, ?_⟩
      · rw [List.any_eq_false]; intro c hc; simpa using digit_ne_us (hpre c hc)
      · rw [List.any_eq_false]; intro c hc; simpa using digit_ne_us (ha c hc)
      · rw [hE]
        cases x with
        | none => rfl
        | some p =>
          obtain ⟨b, d⟩ := p
          simp only [Lit.expText, List.any_cons, Bool.or_eq_false_iff]
          refine ⟨by decide, by cases b <;> decide, ?_⟩
          rw [List.any_eq_false]; intro c hc; simpa using digit_ne_us (hx b d rfl c hc)
    have hany : (kind == '0' || (a ++ []).any (· != '_')) = true := by
      rcases hne with h | h
      · simp [h]
      · obtain ⟨c, a', rfl⟩ := List.exists_cons_of_ne_nil h
        simp [digit_ne_us (ha c (by simp))]
    have hinv' : (a.any fun d => d.isDigit && decide (base ≤ 10) && decide ('0'.toNat + base ≤ d.toNat)) = false := by
      rcases hinv with h | h
      · subst h
        rw [List.any_eq_false]
        intro c hc
        have := ha c hc
        simp only [Char.isDigit, Bool.and_eq_true, decide_eq_true_eq, UInt32.le_iff_toNat_le] at this
        simp only [Bool.and_eq_true, decide_eq_true_eq, not_and, not_le]
        intro _
        have h2 := this.2
        rw [Char.toNat]
        simp at h2 ⊢
        omega
      · simp [h]
    have hkind : kind ≠ 'o' ∧ kind ≠ 'b' ∧ kind ≠ 'x' := by
      rcases hk with rfl | rfl <;> decide
    rw [htext] at hus
    cases x with
    | none =>
      simp only [htext, hus, hany, hinv']
      simp [btoi, Lit.tok]
    | some p =>
      obtain ⟨b, d⟩ := p
      have hEe : E = 'e' :: (if b then '-' else '+') :: d := by rw [hE]; rfl
      have hdig : (E.drop 1).any (·.isDigit) = true := by
        rw [hEe]
        obtain ⟨c, d', rfl⟩ := List.exists_cons_of_ne_nil (hxne b d rfl)
        simp [hx b _ rfl c (by simp)]
      have hlow : (E.headD ' ').toLower = 'e' := by rw [hEe]; rfl
      simp only [htext, hus, hany, hinv', hdig, hlow]
      simp [btoi, Lit.tok, hkind]
  | some g =>
    have hg : ∀ c ∈ g, isDig base c = true := fun c hc => digit_isDig hb (hf g rfl c hc)
    have hfr : (Lit.mk a (some g) x).fracText = '.' :: g := rfl
    have hpt : ∀ c r, '.' :: (g ++ (E ++ k)) = c :: r → isDig base c = false := by
      intro c r h; injection h with h1 _; rw [← h1]; exact hpoint base
    have htw : (a ++ '.' :: (g ++ (E ++ k))).takeWhile (isDig base) = a := takeWhile_stop hda hpt
    have hdw : (a ++ '.' :: (g ++ (E ++ k))).dropWhile (isDig base) = '.' :: (g ++ (E ++ k)) :=
      dropWhile_stop hda hpt
    have htw2 : (g ++ (E ++ k)).takeWhile (isDig base) = g := takeWhile_stop hg (fun c r h => (hEk c r h).1)
    have hdw2 : (g ++ (E ++ k)).dropWhile (isDig base) = E ++ k := dropWhile_stop hg (fun c r h => (hEk c r h).1)
    rw [hfr, List.cons_append]
    simp only [numberTail, htw, hdw, Bool.false_eq_true, if_false, List.head?_cons, beq_self_eq_true,
      Bool.or_true, if_true, List.length_cons, List.length_nil, Nat.zero_add, List.drop_succ_cons,
      List.drop_zero, htw2, hdw2, hexp.1, hexp.2]
    have htext : pre ++ a ++ ['.'] ++ g ++ E = pre ++ (Lit.mk a (some g) x).text := by
      simp [Lit.text, hfr, hE]
    have hus : (pre ++ a ++ ['.'] ++ g ++ E).any (· == '_') = false := by
      simp only [List.any_append, Bool.or_eq_false_iff]
      refine ⟨⟨⟨⟨?_, ?_⟩, by decide⟩, ?_⟩, ?_⟩
      · rw [List.any_eq_false]; intro c hc; simpa using digit_ne_us (hpre c hc)
      · rw [List.any_eq_false]; intro c hc; simpa using digit_ne_us (ha c hc)
      · rw [List.any_eq_false]; intro c hc; simpa using digit_ne_us (hf g rfl c hc)
      · rw [hE]
        cases x with
        | none => rfl
        | some p =>
          obtain ⟨b, d⟩ := p
          simp only [Lit.expText, List.any_cons, Bool.or_eq_false_iff]
          refine ⟨by decide, by cases b <;> decide, ?_⟩
          rw [List.any_eq_false]; intro c hc; simpa using digit_ne_us (hx b d rfl c hc)
    have hany : (kind == '0' || (a ++ g).any (· != '_')) = true := by
      rcases hne with h | h
      · simp [h]
      · obtain ⟨c, a', rfl⟩ := List.exists_cons_of_ne_nil h
        simp [digit_ne_us (ha c (by simp))]
    have hkind : kind ≠ 'o' ∧ kind ≠ 'b' ∧ kind ≠ 'x' := by
      rcases hk with rfl | rfl <;> decide
    rw [htext] at hus
    cases x with
    | none =>
      simp only [htext, hus, hany]
      simp [btoi, Lit.tok, hkind]
    | some p =>
      obtain ⟨b, d⟩ := p
      have hEe : E = 'e' :: (if b then '-' else '+') :: d := by rw [hE]; rfl
      have hdig : (E.drop 1).any (·.isDigit) = true := by
        rw [hEe]
        obtain ⟨c, d', rfl⟩ := List.exists_cons_of_ne_nil (hxne b d rfl)
        simp [hx b _ rfl c (by simp)]
      have hlow : (E.headD ' ').toLower = 'e' := by rw [hEe]; rfl
      simp only [htext, hus, hany, hdig, hlow]
      simp [btoi, Lit.tok, hkind]

theorem token_lit [Uni] (l : Lit) (h : l.Ok) (k : List Char) (hs : Stop k) :
    token (l.text ++ k) = ⟨l.tok, l.text, k, 0⟩ := by
  obtain ⟨a, f, x⟩ := l
  obtain ⟨h1, h2, h3, h4, h5, h6⟩ := h
  simp only at h1 h2 h3 h4 h5 h6
  obtain ⟨c, a, rfl⟩ := List.exists_cons_of_ne_nil h1
  have hc := h2 c (by simp)
  have hl : (c == '_' || Uni.letter c) = false := by
    rw [Uni.letter_ascii c (isDigit_ascii hc)]
    have : c.isAlpha = false := by
      cases h : c.isAlpha with
      | false => rfl
      | true =>
        simp only [Char.isAlpha, Char.isUpper, Char.isLower, Char.isDigit, Bool.or_eq_true, Bool.and_eq_true,
          decide_eq_true_eq, UInt32.le_iff_toNat_le] at h hc
        simp at h hc
        omega
    simp [this, digit_ne_us hc]
  have htext : (Lit.mk (c :: a) f x).text ++ k
      = c :: (a ++ ((Lit.mk a f x).fracText ++ ((Lit.mk a f x).expText ++ k))) := by
    simp [Lit.text, Lit.fracText, Lit.expText]
  rw [htext, token, if_neg (by simp [hl]), if_pos hc]
  by_cases h0 : c = '0'
  · subst h0
    have ha : a = [] := by
      have := h3 rfl
      simpa using this
    subst ha
    have key := numberTail_lit ['0'] '0' 8 (by decide) (Or.inr rfl) (by decide) [] f x k (by simp [Digits])
      h4 h6 h5 (Or.inl rfl) (Or.inr rfl) hs
    have htok : (Lit.mk ['0'] f x).tok = (Lit.mk [] f x).tok := rfl
    have htxt : (Lit.mk ['0'] f x).text = ['0'] ++ (Lit.mk [] f x).text := by
      simp [Lit.text, Lit.fracText, Lit.expText]
    rw [htok, htxt, ← key]
    simp only [List.nil_append]
    cases hr : (Lit.mk [] f x).fracText ++ ((Lit.mk [] f x).expText ++ k) with
    | nil => rfl
    | cons d r =>
      have hd : d ≠ 'x' ∧ d ≠ 'X' ∧ d ≠ 'o' ∧ d ≠ 'O' ∧ d ≠ 'b' ∧ d ≠ 'B' := by
        cases f with
        | some g =>
          simp [Lit.fracText] at hr
          rw [← hr.1]; decide
        | none =>
          cases x with
          | some p =>
            simp [Lit.fracText, Lit.expText] at hr
            rw [← hr.1]; decide
          | none =>
            simp [Lit.fracText, Lit.expText] at hr
            subst hr
            have := stop_not (c := d) hs 8
            tauto
      simp [scanNumber, hd]
  · have key := numberTail_lit [] 'd' 10 (by decide) (Or.inl rfl) (by simp [Digits]) (c :: a) f x k h2
      h4 h6 h5 (Or.inr (by simp)) (Or.inl rfl) hs
    rw [List.nil_append] at key
    rw [← key]
    have : scanNumber (c :: (a ++ ((Lit.mk a f x).fracText ++ ((Lit.mk a f x).expText ++ k))))
        = numberTail [] 'd' 10 false (c :: (a ++ ((Lit.mk a f x).fracText ++ ((Lit.mk a f x).expText ++ k)))) := by
      unfold scanNumber
      split
      · rename_i heq; injection heq with h _; exact absurd h h0
      · rename_i heq; injection heq with h _; exact absurd h h0
      · rfl
    rw [this]
    rfl

theorem lit_head {l : Lit} (h : l.Ok) : ∃ c r, l.text = c :: r ∧ c.isDigit = true := by
  obtain ⟨a, f, x⟩ := l
  obtain ⟨h1, h2, _⟩ := h
  simp only at h1 h2
  obtain ⟨c, a, rfl⟩ := List.exists_cons_of_ne_nil h1
  exact ⟨c, _, rfl, h2 c (by simp)⟩

theorem digit_facts {c : Char} (h : c.isDigit = true) : isWs c = false ∧ c ≠ '/' ∧ c ≠ '-' := by
  refine ⟨?_, ?_, ?_⟩
  · cases hw : isWs c with
    | false => rfl
    | true =>
      simp only [isWs, Bool.or_eq_true, beq_iff_eq] at hw
      rcases hw with ((rfl | rfl) | rfl) | rfl <;> revert h <;> decide
  · rintro rfl; revert h; decide
  · rintro rfl; revert h; decide

/-- A number followed by a delimiter is a number token. -/
theorem scan_lit [Uni] (l : Lit) (h : l.Ok) (k : List Char) (hs : Stop k) (e : Nat) (m : Bool) (t : Tok)
    (x : List Char) : scan ⟨l.text ++ k, e, m, t, x⟩ = ⟨k, e, m, l.tok, l.text⟩ := by
  have ht := token_lit l h k hs
  obtain ⟨c, r, hc, hd⟩ := lit_head h
  rw [hc, List.cons_append] at ht ⊢
  rw [scan_of c _ (digit_facts hd).1 (digit_facts hd).2.1 _ _ _ _ (by rw [ht]), ht]

end Verif.Text
