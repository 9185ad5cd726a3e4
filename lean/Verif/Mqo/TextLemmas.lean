import Verif.Mqo.Writer
import Verif.Mqo.ParserProps
import Verif.Mqo.NamesProps
import Mathlib.Tactic.IntervalCases

/-!
How the parsers of Mqo/Parser.lean behave on text that the writer produces: reading specifications that
compose.
-/

namespace Verif.Mqo

open Verif.Geom Verif.Text

/-- The scanner is in front of the text `k`, without errors. -/
def At (k : Str) (s : St) : Prop := s.rest = k ∧ s.errs = 0 ∧ s.mute = false

/-- The same, perhaps with white space in between. -/
def AtWs (k : Str) (s : St) : Prop := ∃ ws : Str, (∀ c ∈ ws, isWs c = true) ∧ At (ws ++ k) s

theorem At.ws {k : Str} {s : St} (h : At k s) : AtWs k s := ⟨[], by simp, h⟩

theorem AtWs.drop {c : Char} {k : Str} {s : St} (h : AtWs (c :: k) s) (hc : isWs c = true) : AtWs k s := by
  obtain ⟨ws, h1, h2⟩ := h
  exact ⟨ws ++ [c], by intro d hd; rcases List.mem_append.1 hd with hd | hd; exact h1 d hd; simp at hd; rw [hd, hc],
    by simpa using h2⟩

theorem AtWs.dropAll {w k : Str} {s : St} (h : AtWs (w ++ k) s) (hw : ∀ c ∈ w, isWs c = true) : AtWs k s := by
  induction w with
  | nil => exact h
  | cons c w ih => exact ih (h.drop (hw c (by simp))) (fun d hd => hw d (by simp [hd]))

variable [Uni]

theorem scan_congr (k : Str) (e : Nat) (m : Bool) (t t' : Tok) (x x' : Str) :
    scan ⟨k, e, m, t, x⟩ = scan ⟨k, e, m, t', x'⟩ := by
  simp [scan]

theorem AtWs.scan_eq {k : Str} {s : St} (h : AtWs k s) : scan s = scan ⟨k, 0, false, .eof, []⟩ := by
  obtain ⟨ws, h1, h2, h3, h4⟩ := h
  obtain ⟨r, e, m, t, x⟩ := s
  simp only at h2 h3 h4
  subst h2 h3 h4
  induction ws with
  | nil => exact scan_congr _ _ _ _ _ _ _
  | cons c ws ih =>
    rw [List.cons_append, scan_ws c (h1 c (by simp))]
    exact ih (fun d hd => h1 d (by simp [hd]))

/-! Tokens. -/

theorem scan_at_word {w k : Str} {s : St} (h : AtWs (w ++ k) s) (hw : isWord w = true) (hk : Stop k) :
    scan s = ⟨k, 0, false, .ident, w⟩ := by
  rw [h.scan_eq, scan_word w k hw hk]

theorem scan_at_punct {c : Char} {k : Str} {s : St} (h : AtWs (c :: k) s) (hc : isPunct c = true) :
    scan s = ⟨k, 0, false, .ch c, [c]⟩ := by
  rw [h.scan_eq, scan_punct c hc]

theorem scan_at_quote {t k : Str} {s : St} (h : AtWs (quote t ++ k) s) (ht : Plain t) :
    scan s = ⟨k, 0, false, .string, quote t⟩ := by
  rw [h.scan_eq]
  have := scan_quote t k ht 0 false .eof []
  simpa [quote] using this

theorem scan_at_lit {l : Lit} {k : Str} {s : St} (h : AtWs (l.text ++ k) s) (hl : l.Ok) (hk : Stop k) :
    scan s = ⟨k, 0, false, l.tok, l.text⟩ := by
  rw [h.scan_eq, scan_lit l hl k hk]

/-- The parser `p` reads the text `w` as `a`, whatever follows a delimiter. -/
def Reads {α : Type} (p : P α) (w : Str) (a : α) : Prop :=
  ∀ k, Stop k → ∀ s, AtWs (w ++ k) s → ∃ s', p s = some (a, s') ∧ AtWs k s'

omit [Uni] in
theorem stop_cons {c : Char} {k : Str} (h : isStop c = true) : Stop (c :: k) := h

omit [Uni] in
theorem Reads.map {α β : Type} {p : P α} {w : Str} {a : α} (h : Reads p w a) (g : α → β) :
    Reads (do let x ← p; return g x) w (g a) := by
  intro k hk s hs
  obtain ⟨s', h1, h2⟩ := h k hk s hs
  exact ⟨s', by rw [P.bind_run, h1]; rfl, h2⟩

omit [Uni] in
/-- Two texts separated by one white space character. -/
theorem Reads.seq {α β : Type} {p : P α} {f : α → P β} {w1 w2 : Str} {a : α} {b : β} {c : Char}
    (hc : isWs c = true) (hc' : isStop c = true) (h1 : Reads p w1 a) (h2 : Reads (f a) w2 b) :
    Reads (p >>= f) (w1 ++ c :: w2) b := by
  intro k hk s hs
  rw [List.append_assoc] at hs
  obtain ⟨s1, e1, a1⟩ := h1 (c :: (w2 ++ k)) (stop_cons hc') s hs
  obtain ⟨s2, e2, a2⟩ := h2 k hk s1 (a1.drop hc)
  exact ⟨s2, by rw [P.bind_run, e1]; exact e2, a2⟩

omit [Uni] in
theorem Reads.ws {α : Type} {p : P α} {w : Str} {a : α} (h : Reads p w a) {c : Char} (hc : isWs c = true) :
    Reads p (c :: w) a := fun k hk s hs => h k hk s (AtWs.drop hs hc)

/-! Integers. -/

/-- A natural number as a literal. -/
def natLit (n : Nat) : Lit := ⟨showNat n, none, none⟩

omit [Uni] in
theorem showNat_digits (n : Nat) : Digits (showNat n) := by
  intro c hc
  exact Nat.isDigit_of_mem_toDigits (by decide) (by decide) hc

omit [Uni] in
theorem showNat_ne_nil (n : Nat) : showNat n ≠ [] := Nat.toDigits_ne_nil

omit [Uni] in
theorem showNat_zero (n : Nat) (h : (showNat n).head? = some '0') : (showNat n).length = 1 := by
  by_cases hn : n < 10
  · unfold showNat
    rw [Nat.toDigits_of_lt_base hn]; rfl
  · exfalso
    have key : ∀ m : Nat, 0 < m → (Nat.toDigits 10 m).head? ≠ some '0' := by
      intro m
      induction m using Nat.strongRecOn with
      | ind m ih =>
        intro hm
        by_cases h10 : m < 10
        · rw [Nat.toDigits_of_lt_base h10]
          interval_cases m <;> decide
        · rw [Nat.toDigits_of_base_le (by decide) (by omega)]
          have := ih (m / 10) (by omega) (by omega)
          cases hd : Nat.toDigits 10 (m / 10) with
          | nil => exact absurd hd Nat.toDigits_ne_nil
          | cons a l => rw [hd] at this; simpa using this
    exact key n (by omega) h

omit [Uni] in
theorem natLit_ok (n : Nat) : (natLit n).Ok where
  int_ne := showNat_ne_nil n
  int_digits := showNat_digits n
  int_zero := showNat_zero n
  frac_digits := by simp [natLit]
  exp_ne := by simp [natLit]
  exp_digits := by simp [natLit]

omit [Uni] in
theorem natLit_text (n : Nat) : (natLit n).text = showNat n := by
  simp [natLit, Lit.text, Lit.fracText, Lit.expText]

omit [Uni] in
theorem atoi_showNat (n : Nat) (h : n ≤ maxInt) : atoi (showNat n) = n := by
  have h1 : (showNat n).all Char.isDigit = true := by
    rw [List.all_eq_true]; exact showNat_digits n
  rw [atoi, if_pos h1]
  have : Nat.ofDigitChars 10 (showNat n) 0 = n := Nat.ofDigitChars_ten_toDigits
  rw [this]
  omega

theorem scan_at_nat {n : Nat} {k : Str} {s : St} (h : AtWs (showNat n ++ k) s) (hk : Stop k) :
    scan s = ⟨k, 0, false, .int, showNat n⟩ := by
  have := scan_at_lit (l := natLit n) (k := k) (s := s) (by rw [natLit_text]; exact h) (natLit_ok n) hk
  rw [natLit_text] at this
  exact this

theorem reads_nat (n : Nat) (hn : n ≤ maxInt) : Reads readInt (showNat n) (n : Int) := by
  intro k hk s hs
  refine ⟨⟨k, 0, false, .int, showNat n⟩, ?_, At.ws ⟨rfl, rfl, rfl⟩⟩
  simp only [readInt, scan_at_nat hs hk]
  simp [atoi_showNat n hn]

/-- A number that `readInt` can read. -/
def IntOk (i : Int) : Prop := 0 ≤ i ∧ i ≤ maxInt

theorem reads_int (i : Int) (hi : IntOk i) : Reads readInt (showInt i) i := by
  obtain ⟨h1, h2⟩ := hi
  have : showInt i = showNat i.toNat := by rw [showInt, if_neg (by omega)]
  rw [this]
  have h := reads_nat i.toNat (by omega)
  rwa [Int.toNat_of_nonneg h1] at h

omit [Uni] in
theorem showBool_eq (b : Bool) : showBool b = showNat (if b then 1 else 0) := by cases b <;> decide

theorem reads_bool (b : Bool) : Reads readInt (showBool b) (if b then 1 else 0) := by
  rw [showBool_eq]
  have := reads_nat (if b then 1 else 0) (by cases b <;> decide)
  cases b <;> simpa using this

/-! Texts. -/

omit [Uni] in
theorem trimQuote_quote (t : Str) (ht : Plain t) : trimQuote (quote t) = t := by
  have hne : ∀ l : Str, Plain l → l.dropWhile (· == '"') = l := by
    intro l hl
    cases l with
    | nil => rfl
    | cons c l => simp [(hl c (by simp)).1]
  have hr : Plain t.reverse := fun c hc => ht c (by simpa using hc)
  cases t with
  | nil => decide
  | cons c t =>
    have h1 : (quote (c :: t)).dropWhile (· == '"') = (c :: t) ++ ['"'] := by
      simp [quote, (ht c (by simp)).1]
    rw [trimQuote, h1, List.reverse_append]
    have h2 : (['"'].reverse ++ (c :: t).reverse).dropWhile (· == '"') = (c :: t).reverse := by
      have := hne _ hr
      simp only [List.reverse_cons, List.reverse_nil, List.nil_append, List.singleton_append] at this ⊢
      rw [List.dropWhile_cons, if_pos (by decide)]
      exact this
    rw [h2, List.reverse_reverse]

theorem reads_str (t : Str) (ht : Plain t) : Reads readStr (quote t) t := by
  intro k hk s hs
  refine ⟨⟨k, 0, false, .string, quote t⟩, ?_, At.ws ⟨rfl, rfl, rfl⟩⟩
  simp only [readStr, scan_at_quote hs ht, trimQuote_quote t ht]

/-! Numbers. -/

section
variable {F : Type} [Zero F] [One F] [Neg F] [Mul F] [NumText F]

/-- The text `w` is a number as `fmt` writes it, and `readFloat` makes `y` of it. -/
def NumOk (w : Str) (y : F) : Prop :=
  ∃ l : Lit, l.Ok ∧ ((w = l.text ∧ NumText.parse l.text * 1 = y) ∨
    (w = '-' :: l.text ∧ NumText.parse l.text * (-1) = y))

theorem reads_num {w : Str} {y : F} (h : NumOk w y) : Reads readFloat w y := by
  obtain ⟨l, hl, h⟩ := h
  have htok : l.tok = .int ∨ l.tok = .float := by unfold Lit.tok; split <;> simp
  have hnt : ¬(l.tok ≠ .int ∧ l.tok ≠ .float) := by tauto
  intro k hk s hs
  rcases h with ⟨rfl, rfl⟩ | ⟨rfl, rfl⟩
  · refine ⟨⟨k, 0, false, l.tok, l.text⟩, ?_, At.ws ⟨rfl, rfl, rfl⟩⟩
    have hne : l.text ≠ ['-'] := by
      obtain ⟨c, r, h1, h2⟩ := lit_head hl
      rw [h1]
      intro h
      injection h with h _
      exact (digit_facts h2).2.2 h
    simp only [readFloat, scan_at_lit hs hl hk, if_neg hne, if_neg hnt]
  · refine ⟨⟨k, 0, false, l.tok, l.text⟩, ?_, At.ws ⟨rfl, rfl, rfl⟩⟩
    rw [List.cons_append] at hs
    have h1 := scan_at_punct hs (by decide)
    have h2 : scan ⟨l.text ++ k, 0, false, .ch '-', ['-']⟩ = ⟨k, 0, false, l.tok, l.text⟩ :=
      scan_lit l hl k hk _ _ _ _
    simp only [readFloat, h1, if_true, h2, if_neg hnt]

/-- Facts about number formatting and parsing (package `strconv`): finite numbers are written as
literals; `%v` comes back unchanged, the other verbs come back as the rounded number. -/
class NumLaws (F : Type) [Zero F] [One F] [Neg F] [Mul F] [NumText F] where
  fin : F → Prop
  r2 : F → F
  r3 : F → F
  r4 : F → F
  r6 : F → F
  v_ok : ∀ x : F, fin x → NumOk (NumText.v x) x
  f2_ok : ∀ x : F, fin x → NumOk (NumText.f2 x) (r2 x)
  f3_ok : ∀ x : F, fin x → NumOk (NumText.f3 x) (r3 x)
  f4_ok : ∀ x : F, fin x → NumOk (NumText.f4 x) (r4 x)
  f6_ok : ∀ x : F, fin x → NumOk (NumText.f6 x) (r6 x)

omit [Uni] in
theorem isWs_sp : isWs ' ' = true := by decide
omit [Uni] in
theorem isStop_sp : isStop ' ' = true := by decide

theorem reads_vec3 {a b c : Str} {x y z : F} (hx : NumOk a x) (hy : NumOk b y) (hz : NumOk c z) :
    Reads readVec3 (a ++ ' ' :: (b ++ ' ' :: c)) (⟨x, y, z⟩ : Vec3 F) := by
  unfold readVec3
  refine Reads.seq isWs_sp isStop_sp (reads_num hx) ?_
  refine Reads.seq isWs_sp isStop_sp (reads_num hy) ?_
  exact (reads_num hz).map _

theorem reads_vec2 {a b : Str} {x y : F} (hx : NumOk a x) (hy : NumOk b y) :
    Reads readVec2 (a ++ ' ' :: b) (⟨x, y⟩ : Vec2 F) := by
  unfold readVec2
  refine Reads.seq isWs_sp isStop_sp (reads_num hx) ?_
  exact (reads_num hy).map _

theorem reads_vec4 {a b c d : Str} {x y z w : F} (hx : NumOk a x) (hy : NumOk b y) (hz : NumOk c z)
    (hw : NumOk d w) :
    Reads readVec4 (a ++ ' ' :: (b ++ ' ' :: (c ++ ' ' :: d))) (⟨x, y, z, w⟩ : Vec4 F) := by
  unfold readVec4
  refine Reads.seq isWs_sp isStop_sp (reads_num hx) ?_
  refine Reads.seq isWs_sp isStop_sp (reads_num hy) ?_
  refine Reads.seq isWs_sp isStop_sp (reads_num hz) ?_
  exact (reads_num hw).map _
end

/-! Lists of values separated by spaces. -/

omit [Uni] in
theorem reads_many {α β : Type} {p : P α} (txt : β → Str) (val : β → α) (l : List β)
    (h : ∀ b ∈ l, Reads p (txt b) (val b)) : Reads (readMany p l.length) (spaced (l.map txt)) (l.map val) := by
  induction l with
  | nil => exact fun k hk s hs => ⟨s, rfl, hs⟩
  | cons b l ih =>
    have ih := ih fun c hc => h c (by simp [hc])
    cases l with
    | nil =>
      intro k hk s hs
      obtain ⟨s', h1, h2⟩ := h b (by simp) k hk s hs
      exact ⟨s', by simp [readMany, P.bind_run, h1, P.pure_run], h2⟩
    | cons c l =>
      have := Reads.seq (f := fun a => do let r ← readMany p (c :: l).length; return a :: r) isWs_sp isStop_sp
        (h b (by simp)) (ih.map _)
      exact this

/-! The loops without fuel. -/

omit [Uni] in
theorem skip_at_punct [Uni] {c : Char} {k : Str} {s : St} (h : AtWs (c :: k) s) (hc : isPunct c = true) :
    skip s = some ((), ⟨k, 0, false, .ch c, [c]⟩) := by
  rw [skip, scan_at_punct h hc]

theorem attrLoop_mono {σ : Type} (h : Handlers σ) (line n m : Nat) (x : σ) (s : St) (r : σ × St)
    (hn : attrLoop h line n x s = some r) (hm : n ≤ m) : attrLoop h line m x s = some r := by
  induction n generalizing m x s with
  | zero => simp [attrLoop] at hn
  | succ n ih =>
    obtain ⟨m, rfl⟩ : ∃ k, m = k + 1 := ⟨m - 1, by omega⟩
    rw [attrLoop] at hn ⊢
    split
    · rename_i hc
      rw [if_pos hc] at hn
      cases hb : attrBody h line s.text x s with
      | none => rw [hb] at hn; simp at hn
      | some q =>
        rw [hb] at hn
        simp only at hn ⊢
        split
        · rename_i he; rwa [if_pos he] at hn
        · rename_i he
          rw [if_neg he] at hn
          exact ih m _ _ hn (by omega)
    · rename_i hc
      rwa [if_neg hc] at hn

theorem objLoop_mono {σ : Type} (h : Handlers σ) (n m : Nat) (x : σ) (s : St) (r : σ × St)
    (hn : objLoop h n x s = some r) (hm : n ≤ m) : objLoop h m x s = some r := by
  induction n generalizing m x s with
  | zero => simp [objLoop] at hn
  | succ n ih =>
    obtain ⟨m, rfl⟩ : ∃ k, m = k + 1 := ⟨m - 1, by omega⟩
    rw [objLoop] at hn ⊢
    split
    · rename_i hc; rwa [if_pos hc] at hn
    · rename_i hc
      rw [if_neg hc] at hn
      split
      · rename_i hd; rwa [if_pos hd] at hn
      · rename_i hd
        rw [if_neg hd] at hn
        cases hb : objBody h x s with
        | none => rw [hb] at hn; simp at hn
        | some q =>
          rw [hb] at hn
          simp only at hn ⊢
          exact ih m _ _ hn (by omega)

/-- The loop over attributes ends, and its result satisfies `Q`. -/
def AttrWp {σ : Type} (h : Handlers σ) (line : Nat) (x : σ) (s : St) (Q : σ → St → Prop) : Prop :=
  ∃ n x' s', attrLoop h line n x s = some (x', s') ∧ Q x' s'

/-- What is done behind an attribute: stop at the end of the line, otherwise go on. -/
def AttrNext {σ : Type} (h : Handlers σ) (line : Nat) (x : σ) (s : St) (Q : σ → St → Prop) : Prop :=
  if endsLine s then Q x s else AttrWp h line x (scan s) Q

/-- The text `w` of attributes changes `x` to `x'`. -/
def AttrPiece {σ : Type} (h : Handlers σ) (w : Str) (x x' : σ) : Prop :=
  ∀ (k : Str) (Q : σ → St → Prop), (∃ c r, k = c :: r ∧ (c = ' ' ∨ c = '\n' ∨ c = '\r')) →
    (∀ s, At k s → AttrNext h (k.count '\n') x' s Q) → ∀ s, At (w ++ k) s → AttrNext h (k.count '\n') x s Q

/-- Begins with a space, contains no newline. -/
def Spaced (w : Str) : Prop := (w = [] ∨ ∃ r, w = ' ' :: r) ∧ '\n' ∉ w

theorem AttrPiece.refl {σ : Type} (h : Handlers σ) (x : σ) : AttrPiece h [] x x :=
  fun _ _ _ hn s hs => hn s hs

theorem AttrPiece.trans {σ : Type} {h : Handlers σ} {w1 w2 : Str} {x y z : σ} (h1 : AttrPiece h w1 x y)
    (h2 : AttrPiece h w2 y z) (hs : Spaced w2) : AttrPiece h (w1 ++ w2) x z := by
  intro k Q hk hn s hat
  have hcount : (w2 ++ k).count '\n' = k.count '\n' := by
    rw [List.count_append, List.count_eq_zero.2 hs.2, Nat.zero_add]
  rw [List.append_assoc] at hat
  have hhead : ∃ c r, w2 ++ k = c :: r ∧ (c = ' ' ∨ c = '\n' ∨ c = '\r') := by
    rcases hs.1 with rfl | ⟨r, rfl⟩
    · exact hk
    · exact ⟨' ', r ++ k, rfl, Or.inl rfl⟩
  rw [← hcount]
  refine h1 (w2 ++ k) Q hhead ?_ s hat
  intro s' hs'
  rw [hcount]
  exact h2 k Q hk hn s' hs'

theorem AttrPiece.ite {σ : Type} {h : Handlers σ} {w : Str} {x y : σ} (c : Prop) [Decidable c]
    (h1 : c → AttrPiece h w x y) (h2 : ¬c → y = x) : AttrPiece h (if c then w else []) x y := by
  split
  · rename_i hc; exact h1 hc
  · rename_i hc; rw [h2 hc]; exact AttrPiece.refl h x

/-- One attribute that has a handler. -/
theorem attrPiece {σ : Type} {h : Handlers σ} {name value : Str} {f : σ → P σ} {x x' : σ}
    (hw : isWord name = true) (hf : h name = some f) (hr : Reads (f x) value x') (hv : '\n' ∉ value) :
    AttrPiece h (attr name value) x x' := by
  intro k Q hk hn s hat
  obtain ⟨c, r, rfl, hc⟩ := hk
  have hstop : isStop c = true := by rcases hc with rfl | rfl | rfl <;> decide
  have htext : attr name value ++ c :: r = ' ' :: (name ++ '(' :: (value ++ ')' :: c :: r)) := by simp [attr]
  rw [htext] at hat
  have hends : endsLine s = false := by simp [endsLine, hat.1]
  rw [AttrNext, hends, if_neg (by simp)]
  have hsc := scan_at_word (k := '(' :: (value ++ ')' :: c :: r)) (hat.ws.drop isWs_sp) hw (stop_cons (by decide))
  rw [hsc]
  -- the parenthesis
  have hs1 : At ('(' :: (value ++ ')' :: c :: r))
      (⟨'(' :: (value ++ ')' :: c :: r), 0, false, .ident, name⟩ : St) := ⟨rfl, rfl, rfl⟩
  have hskip := skip_at_punct hs1.ws (by decide)
  have hs2 : At (value ++ ')' :: c :: r) (⟨value ++ ')' :: c :: r, 0, false, .ch '(', ['(']⟩ : St) := ⟨rfl, rfl, rfl⟩
  obtain ⟨s3, h3, a3⟩ := hr (')' :: c :: r) (stop_cons (by decide)) _ hs2.ws
  have hskip2 := skip_at_punct a3 (by decide)
  have hbody : attrBody h ((c :: r).count '\n') name x ⟨'(' :: (value ++ ')' :: c :: r), 0, false, .ident, name⟩
      = some (x', ⟨c :: r, 0, false, .ch ')', [')']⟩) := by
    rw [attrBody, hf]
    simp only [P.bind_run, hskip, h3, hskip2, P.pure_run]
  have hlines : (⟨'(' :: (value ++ ')' :: c :: r), 0, false, .ident, name⟩ : St).lines = (c :: r).count '\n' := by
    simp only [St.lines]
    rw [List.count_cons_of_ne (by decide), List.count_append, List.count_eq_zero.2 hv, Nat.zero_add,
      List.count_cons_of_ne (by decide)]
  have hnext := hn ⟨c :: r, 0, false, .ch ')', [')']⟩ ⟨rfl, rfl, rfl⟩
  rw [AttrNext] at hnext
  split at hnext
  · rename_i he
    refine ⟨1, x', _, ?_, hnext⟩
    rw [attrLoop, if_pos ⟨hlines, by simp⟩, hbody]
    simp only [he, if_true]
  · rename_i he
    obtain ⟨n, x2, s2, e2, q2⟩ := hnext
    refine ⟨n + 1, x2, s2, ?_, q2⟩
    rw [attrLoop, if_pos ⟨hlines, by simp⟩, hbody]
    simp only [if_neg he, e2]

/-- The attributes of a line that ends with `c`. -/
theorem procAttrs_line {σ : Type} {h : Handlers σ} (hh : GoodH h) {w : Str} {x x' : σ} (hp : AttrPiece h w x x')
    (hw : Spaced w) (hne : w ≠ []) (c : Char) (hc : c = '\n' ∨ c = '\r') (k : Str) (s : St) (hat : At (w ++ c :: k) s) :
    ∃ s', procAttrs h x s = some (x', s') ∧ At (c :: k) s' := by
  have hcount : s.lines = (c :: k).count '\n' := by
    rw [St.lines, hat.1, List.count_append, List.count_eq_zero.2 hw.2, Nat.zero_add]
  have hends : endsLine s = false := by
    rcases hw.1 with rfl | ⟨r, rfl⟩
    · exact absurd rfl hne
    · simp [endsLine, hat.1]
  have := hp (c :: k) (fun y s' => y = x' ∧ At (c :: k) s') ⟨_, _, rfl, Or.inr hc⟩ (by
    intro s' hs'
    rw [AttrNext, if_pos (by rcases hc with rfl | rfl <;> simp [endsLine, hs'.1])]
    exact ⟨rfl, hs'⟩) s hat
  rw [AttrNext, hends, if_neg (by simp)] at this
  obtain ⟨n, y, s', hrun, rfl, hs'⟩ := this
  refine ⟨s', ?_, hs'⟩
  rw [procAttrs, hcount]
  obtain ⟨x2, s2, h2, _⟩ := attrLoop_total hh ((c :: k).count '\n') (s.rest.length + 2) x (scan s)
    (by have := scan_le s; omega)
  have e1 := attrLoop_mono h _ _ (max n (s.rest.length + 2)) _ _ _ hrun (le_max_left _ _)
  have e2 := attrLoop_mono h _ _ (max n (s.rest.length + 2)) _ _ _ h2 (le_max_right _ _)
  rw [e1] at e2
  rw [h2, ← e2]

/-- The attributes of a line. -/
theorem procAttrs_piece {σ : Type} {h : Handlers σ} (hh : GoodH h) {w : Str} {x x' : σ} (hp : AttrPiece h w x x')
    (hw : Spaced w) (hne : w ≠ []) (k : Str) (s : St) (hat : At (w ++ '\n' :: k) s) :
    ∃ s', procAttrs h x s = some (x', s') ∧ At ('\n' :: k) s' :=
  procAttrs_line hh hp hw hne '\n' (Or.inl rfl) k s hat

/-- The loop over the entries of a block ends, and its result satisfies `Q`. -/
def ObjWp {σ : Type} (h : Handlers σ) (x : σ) (s : St) (Q : σ → St → Prop) : Prop :=
  ∃ n x' s', objLoop h n x s = some (x', s') ∧ Q x' s'

/-- The text `w` inside a block changes `x` to `x'`. -/
def ObjPiece {σ : Type} (h : Handlers σ) (w : Str) (x x' : σ) : Prop :=
  ∀ (k : Str) (Q : σ → St → Prop), (∀ s, AtWs k s → ObjWp h x' (scan s) Q) →
    ∀ s, AtWs (w ++ k) s → ObjWp h x (scan s) Q

theorem ObjPiece.refl {σ : Type} (h : Handlers σ) (x : σ) : ObjPiece h [] x x := fun _ _ hn s hs => hn s hs

theorem ObjPiece.trans {σ : Type} {h : Handlers σ} {w1 w2 : Str} {x y z : σ} (h1 : ObjPiece h w1 x y)
    (h2 : ObjPiece h w2 y z) : ObjPiece h (w1 ++ w2) x z := by
  intro k Q hn s hs
  rw [List.append_assoc] at hs
  exact h1 (w2 ++ k) Q (fun s' hs' => h2 k Q hn s' hs') s hs

theorem ObjPiece.ite {σ : Type} {h : Handlers σ} {w : Str} {x y : σ} (c : Prop) [Decidable c]
    (h1 : c → ObjPiece h w x y) (h2 : ¬c → y = x) : ObjPiece h (if c then w else []) x y := by
  split
  · rename_i hc; exact h1 hc
  · rename_i hc; rw [h2 hc]; exact ObjPiece.refl h x

omit [Uni] in
theorem word_ne {w : Str} (h : isWord w = true) : w ≠ ['}'] ∧ w ≠ ['{'] := by
  constructor <;> rintro rfl <;> revert h <;> decide

theorem objWp_step {σ : Type} {h : Handlers σ} {x x' : σ} {s s' : St} {Q : σ → St → Prop}
    (h1 : s.tok ≠ .eof) (h2 : s.text ≠ ['}']) (h3 : objBody h x s = some (x', s'))
    (h4 : ObjWp h x' (scan s') Q) : ObjWp h x s Q := by
  obtain ⟨n, y, t, e, q⟩ := h4
  refine ⟨n + 1, y, t, ?_, q⟩
  rw [objLoop, if_neg h1, if_neg h2, h3]
  exact e

/-- `indent key value newline`, where `key` has a handler. -/
theorem objPiece {σ : Type} {h : Handlers σ} {ind key value : Str} {f : σ → P σ} {x x' : σ}
    (hi : ∀ c ∈ ind, isWs c = true) (hw : isWord key = true) (hf : h key = some f) (hr : Reads (f x) value x') :
    ObjPiece h (entry ind key value) x x' := by
  intro k Q hn s hs
  have htext : entry ind key value ++ k = ind ++ (key ++ ' ' :: (value ++ '\n' :: k)) := by simp [entry]
  rw [htext] at hs
  have hsc := scan_at_word (hs.dropAll hi) hw (stop_cons isStop_sp)
  rw [hsc]
  have hat : At (' ' :: (value ++ '\n' :: k)) (⟨' ' :: (value ++ '\n' :: k), 0, false, .ident, key⟩ : St) :=
    ⟨rfl, rfl, rfl⟩
  obtain ⟨s', e', a'⟩ := hr ('\n' :: k) (stop_cons (by decide)) _ (hat.ws.drop isWs_sp)
  refine objWp_step (by simp) (word_ne hw).1 ?_ (hn s' (a'.drop (by decide)))
  rw [objBody, if_neg (word_ne hw).2]
  simp only [hf, e']

/-- `indent key number newline`, where neither `key` nor the number has a handler. -/
theorem objPiece_skip {σ : Type} {h : Handlers σ} {ind key : Str} {n : Nat} {x : σ}
    (hi : ∀ c ∈ ind, isWs c = true) (hw : isWord key = true) (hf : h key = none) (hv : h (showNat n) = none) :
    ObjPiece h (entry ind key (showNat n)) x x := by
  intro k Q hn s hs
  have htext : entry ind key (showNat n) ++ k = ind ++ (key ++ ' ' :: (showNat n ++ '\n' :: k)) := by simp [entry]
  rw [htext] at hs
  have hsc := scan_at_word (hs.dropAll hi) hw (stop_cons isStop_sp)
  rw [hsc]
  have hat : At (' ' :: (showNat n ++ '\n' :: k)) (⟨' ' :: (showNat n ++ '\n' :: k), 0, false, .ident, key⟩ : St) :=
    ⟨rfl, rfl, rfl⟩
  refine objWp_step (x' := x) (s' := ⟨' ' :: (showNat n ++ '\n' :: k), 0, false, .ident, key⟩)
    (by simp) (word_ne hw).1 ?_ ?_
  · rw [objBody, if_neg (word_ne hw).2]
    simp only [hf]
  · rw [scan_at_nat (hat.ws.drop isWs_sp) (stop_cons (by decide))]
    have hdig : ∀ c : Char, c.isDigit = false → showNat n ≠ [c] := by
      intro c hc he
      have := showNat_digits n c (by rw [he]; simp)
      rw [hc] at this; exact absurd this (by simp)
    refine objWp_step (x' := x) (s' := ⟨'\n' :: k, 0, false, .int, showNat n⟩) (by simp)
      (hdig _ (by decide)) ?_ ?_
    · rw [objBody, if_neg (hdig _ (by decide))]
      simp only [hv]
    · exact hn _ ((At.ws ⟨rfl, rfl, rfl⟩ : AtWs ('\n' :: k) _).drop (by decide))

/-- A block in braces. -/
theorem reads_procObj {σ : Type} {h : Handlers σ} (hh : GoodH h) {w ind : Str} {x x' : σ}
    (hp : ObjPiece h w x x') (hi : ∀ c ∈ ind, isWs c = true) :
    Reads (procObj h x) ('{' :: '\n' :: (w ++ (ind ++ ['}']))) x' := by
  intro k hk s hs
  have htext : '{' :: '\n' :: (w ++ (ind ++ ['}'])) ++ k = '{' :: ('\n' :: (w ++ (ind ++ '}' :: k))) := by simp
  rw [htext] at hs
  have hsc := scan_at_punct hs (by decide)
  have hat : AtWs (w ++ (ind ++ '}' :: k)) (scan s) := by
    rw [hsc]
    exact (At.ws ⟨rfl, rfl, rfl⟩ : AtWs ('\n' :: (w ++ (ind ++ '}' :: k))) _).drop (by decide)
  have := hp (ind ++ '}' :: k) (fun y s' => y = x' ∧ AtWs k s') (by
    intro s' hs'
    have hsc' := scan_at_punct (hs'.dropAll hi) (by decide)
    refine ⟨1, x', scan s', ?_, rfl, ?_⟩
    · rw [objLoop, if_neg (by rw [hsc']; simp), if_pos (by rw [hsc'])]
    · rw [hsc']; exact At.ws ⟨rfl, rfl, rfl⟩) (scan s) hat
  obtain ⟨n, y, s', hrun, rfl, hs'⟩ := this
  refine ⟨s', ?_, hs'⟩
  simp only [procObj]
  obtain ⟨x2, s2, h2, _⟩ := objLoop_total hh ((scan s).rest.length + 2) x (scan (scan s))
    (by have := scan_le (scan s); omega)
  have e1 := objLoop_mono h _ (max n ((scan s).rest.length + 2)) _ _ _ hrun (le_max_left _ _)
  have e2 := objLoop_mono h _ (max n ((scan s).rest.length + 2)) _ _ _ h2 (le_max_right _ _)
  rw [e1] at e2
  rw [h2, ← e2]

omit [Uni] in
/-- The elements of an array: each is read by `elem`. -/
theorem arrLoop_reads {σ β : Type} {elem : σ → P σ} (txt : β → Str) (step : σ → β → σ) (l : List β) (x : σ)
    (h : ∀ b ∈ l, ∀ (y : σ) (k : Str) (s : St), AtWs (txt b ++ k) s →
      ∃ s', elem y s = some (step y b, s') ∧ AtWs k s') (k : Str) (s : St) (hs : AtWs (l.flatMap txt ++ k) s) :
    ∃ s', arrLoop elem l.length x s = some (l.foldl step x, s') ∧ AtWs k s' := by
  induction l generalizing x s with
  | nil => exact ⟨s, rfl, hs⟩
  | cons b l ih =>
    rw [List.flatMap_cons, List.append_assoc] at hs
    obtain ⟨s1, h1, a1⟩ := h b (by simp) x (l.flatMap txt ++ k) s hs
    obtain ⟨s2, h2, a2⟩ := ih (step x b) (fun c hc => h c (by simp [hc])) s1 a1
    refine ⟨s2, ?_, a2⟩
    rw [List.length_cons, arrLoop, P.bind_run, h1]
    exact h2

/-- A counted array in braces. -/
theorem reads_procArray {σ β : Type} {init : σ → σ} {elem : σ → P σ} (txt : β → Str) (step : σ → β → σ) (l : List β)
    (x : σ) {ind : Str} (hi : ∀ c ∈ ind, isWs c = true) (hn : l.length ≤ maxInt)
    (h : ∀ b ∈ l, ∀ (y : σ) (k : Str) (s : St), AtWs (txt b ++ k) s →
      ∃ s', elem y s = some (step y b, s') ∧ AtWs k s') :
    Reads (procArray init elem x) (showNat l.length ++ (" {\n".toList ++ (l.flatMap txt ++ (ind ++ ['}']))))
      (l.foldl step (init x)) := by
  intro k hk s hs
  have htext : (showNat l.length ++ (" {\n".toList ++ (l.flatMap txt ++ (ind ++ ['}'])))) ++ k
      = showNat l.length ++ ' ' :: ('{' :: ('\n' :: (l.flatMap txt ++ (ind ++ '}' :: k)))) := by simp
  rw [htext] at hs
  obtain ⟨s1, h1, a1⟩ := reads_nat l.length hn _ (stop_cons isStop_sp) s hs
  have h2 := skip_at_punct (a1.drop isWs_sp) (by decide)
  have a2 : AtWs (l.flatMap txt ++ (ind ++ '}' :: k))
      (⟨'\n' :: (l.flatMap txt ++ (ind ++ '}' :: k)), 0, false, .ch '{', ['{']⟩ : St) :=
    (At.ws ⟨rfl, rfl, rfl⟩ : AtWs ('\n' :: (l.flatMap txt ++ (ind ++ '}' :: k))) _).drop (by decide)
  obtain ⟨s3, h3, a3⟩ := arrLoop_reads txt step l (init x) h _ _ a2
  have h4 := skip_at_punct (a3.dropAll hi) (by decide)
  refine ⟨⟨k, 0, false, .ch '}', ['}']⟩, ?_, At.ws ⟨rfl, rfl, rfl⟩⟩
  · simp only [procArray, P.bind_run, h1, h2, Int.toNat_natCast, h3, h4, P.pure_run]

end Verif.Mqo
