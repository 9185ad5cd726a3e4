import Verif.Fbx.Text

/-!
Lemmas on the FBX text reader: every token takes something from the input, and what the tokens of a text are.
-/

namespace Verif.Fbx

open Verif.Mmd (Bytes toSigned)

/-! ## Every token takes something -/

theorem spanRest_eq (p : UInt8 → Bool) (r : Bytes) :
    (spanRest p r).1 ++ ((spanRest p r).2.1.toList ++ (spanRest p r).2.2) = r := by
  induction r with
  | nil => rfl
  | cons b r ih =>
    unfold spanRest
    by_cases h : p b
    · simp only [h, if_true]; rw [List.cons_append, ih]
    · simp only [h]; rfl

theorem spanBuf_eq (p : UInt8 → Bool) (b r : Bytes) :
    (spanBuf p b r).1 ++ ((spanBuf p b r).2.1.toList ++ ((spanBuf p b r).2.2.1 ++ (spanBuf p b r).2.2.2)) =
      b ++ r := by
  induction b with
  | nil => exact spanRest_eq p r
  | cons c b ih =>
    unfold spanBuf
    by_cases h : p c
    · simp only [h, if_true]; rw [List.cons_append, ih]; rfl
    · simp only [h]; rfl

/-- One for the end of the input, which can still be reached when there is no error. -/
def errSize : Option Err → Nat
  | none => 1
  | some _ => 0

/-- How much the parser can still read. -/
def TS.size (s : TS) : Nat := s.buf.length + s.rest.length + errSize s.err

theorem errSize_le (e : Option Err) : errSize e ≤ 1 := by cases e <;> simp [errSize]

theorem span_size (p : UInt8 → Bool) (s : TS) :
    (s.span p).2.2.size + (s.span p).2.1.toList.length ≤ s.size := by
  have h := congrArg List.length (spanBuf_eq p s.buf s.rest)
  simp only [TS.span, TS.size]
  generalize spanBuf p s.buf s.rest = x at *
  obtain ⟨a, c, b', r'⟩ := x
  simp only [List.length_append] at h
  dsimp only at h ⊢
  cases c with
  | none =>
    simp only [Option.toList, List.length_nil] at h ⊢
    simp only [Option.isSome_none, Bool.false_eq_true, if_false, errSize]
    omega
  | some c =>
    simp only [Option.toList, List.length_cons, List.length_nil] at h ⊢
    simp only [Option.isSome_some, if_true]
    omega

/-- At the end of the input the error takes the place of the missing byte. -/
theorem span_size_none (p : UInt8 → Bool) (s : TS) (he : s.err = none) (h : (s.span p).2.1 = none) :
    (s.span p).2.2.size < s.size := by
  have h' := congrArg List.length (spanBuf_eq p s.buf s.rest)
  have h0 : (spanBuf p s.buf s.rest).2.1 = none := h
  simp only [List.length_append, h0, Option.toList, List.length_nil] at h'
  simp only [TS.span, TS.size, h0, he]
  simp only [Option.isSome_none, Bool.false_eq_true, if_false, errSize]
  omega

theorem unread_size (s : TS) (c : Option UInt8) : (s.unread c).size = s.size + c.toList.length := by
  simp only [TS.unread, TS.size, List.length_append]
  omega

theorem span_unread_size (p : UInt8 → Bool) (s : TS) :
    ((s.span p).2.2.unread (s.span p).2.1).size ≤ s.size := by
  rw [unread_size]; exact span_size p s

theorem tokenAt_size (c : UInt8) (s : TS) : (tokenAt c s).2.2.size ≤ s.size := by
  unfold tokenAt
  repeat' split
  all_goals first
    | exact Nat.le_refl _
    | exact span_unread_size _ s
    | exact (Nat.le_add_right _ _).trans (span_size _ s)

theorem getToken_size (s : TS) (he : s.err = none) : (getToken s).2.2.size < s.size := by
  unfold getToken
  simp only [he, Option.isSome_none, Bool.false_eq_true, if_false]
  have h := span_size (fun c => !startsToken c) s
  cases hc : (s.span fun c => !startsToken c).2.1 with
  | none => exact span_size_none _ s he hc
  | some c =>
    rw [hc] at h
    simp only [Option.toList, List.length_cons, List.length_nil] at h
    have := tokenAt_size c (s.span fun c => !startsToken c).2.2
    dsimp only
    omega

theorem getToken_size_le (s : TS) : (getToken s).2.2.size ≤ s.size := by
  cases he : s.err with
  | none => exact (getToken_size s he).le
  | some e => unfold getToken; simp [he]

theorem fail_size (s : TS) : s.fail.size ≤ s.size := by
  simp only [TS.fail, TS.size, errSize]
  omega

theorem noEof_size (s : TS) : s.noEof.size = s.size := by
  unfold TS.noEof
  split
  · rename_i h; simp [TS.size, errSize, h]
  · rfl

theorem skip_size (s : TS) (t : TTok) : (s.skip t).size ≤ s.size := by
  simp only [TS.skip]
  split
  · exact getToken_size_le s
  · exact (fail_size _).trans (getToken_size_le s)

theorem toColon_total (fuel : Nat) (s : TS) (h : s.size < fuel) : ∃ s', toColon fuel s = some s' ∧ s'.size ≤ s.size := by
  induction fuel generalizing s with
  | zero => omega
  | succ fuel ih =>
    simp only [toColon]
    split
    · exact ⟨s, rfl, le_refl _⟩
    · rename_i he
      have he : s.err = none := by simpa using he
      have hs := getToken_size s he
      split
      · exact ⟨_, rfl, hs.le⟩
      · obtain ⟨s', h1, h2⟩ := ih (getToken s).2.2 (by omega)
        exact ⟨s', h1, by omega⟩

theorem arrayLoop_total (env : TextEnv) (fuel : Nat) (s : TS) (h : s.size < fuel) :
    ∃ r, arrayLoop env fuel s = some r ∧ r.2.size ≤ s.size := by
  induction fuel generalizing s with
  | zero => omega
  | succ fuel ih =>
    simp only [arrayLoop]
    split
    · exact ⟨_, rfl, le_refl _⟩
    · rename_i he
      have he : s.err = none := by simpa using he
      have hs := getToken_size s he
      obtain ⟨r, h1, h2⟩ := ih (getToken s).2.2 (by omega)
      split
      · exact ⟨r, h1, by omega⟩
      · split
        · exact ⟨_, rfl, hs.le⟩
        · split
          · exact ⟨_, by rw [h1]; rfl, by dsimp only; omega⟩
          · exact ⟨_, rfl, (fail_size _).trans hs.le⟩

theorem size_lt (s : TS) : s.size < s.buf.length + s.rest.length + 2 := by
  have := errSize_le s.err
  unfold TS.size; omega

theorem parseArrayProp_total (env : TextEnv) (s : TS) :
    ∃ r, parseArrayProp env s = some r ∧ r.2.size ≤ s.size := by
  simp only [parseArrayProp]
  generalize hs1 : (if (arraySize (getToken s).2.1).isSome = true then (getToken s).2.2
    else (getToken s).2.2.fail) = s1
  have h1 : s1.size ≤ s.size := by
    subst hs1; split
    · exact getToken_size_le s
    · exact (fail_size _).trans (getToken_size_le s)
  have h2 := skip_size s1 .blockStart
  obtain ⟨s3, h3, h3'⟩ := toColon_total _ (s1.skip .blockStart) (size_lt _)
  rw [h3]; dsimp only
  split
  · obtain ⟨r, h4, h4'⟩ := arrayLoop_total env _ s3 (size_lt s3)
    rw [h4]; dsimp only
    refine ⟨_, rfl, ?_⟩
    dsimp only
    split
    · omega
    · have := fail_size r.2; omega
  · refine ⟨_, rfl, ?_⟩
    dsimp only
    split
    · omega
    · have := fail_size s3; omega

theorem lists_total (env : TextEnv) (fuel : Nat) :
    (∀ s : TS, s.size < fuel → ∃ r, nodeList env fuel s = some r ∧ r.2.size ≤ s.size) ∧
    (∀ (comma : Bool) (s : TS), s.size < fuel →
      ∃ r, attrLoop env fuel comma s = some r ∧ r.2.2.size ≤ s.size) := by
  induction fuel with
  | zero => exact ⟨fun _ h => absurd h (by omega), fun _ _ h => absurd h (by omega)⟩
  | succ fuel ih =>
    obtain ⟨ihn, iha⟩ := ih
    constructor
    · intro s h
      simp only [nodeList]
      split
      · exact ⟨_, rfl, le_refl _⟩
      · rename_i he
        have he : s.err = none := by simpa using he
        have hs := getToken_size s he
        split
        · obtain ⟨r, h1, h2⟩ := ihn (getToken s).2.2 (by omega)
          exact ⟨r, h1, by omega⟩
        · split
          · exact ⟨_, rfl, hs.le⟩
          · split
            · have h1 := skip_size (getToken s).2.2 .colon
              obtain ⟨r, h2, h3⟩ := iha false ((getToken s).2.2.skip .colon) (by omega)
              rw [h2]; dsimp only
              have h4 := noEof_size r.2.2
              obtain ⟨r', h5, h6⟩ := ihn r.2.2.noEof (by omega)
              rw [h5]
              exact ⟨_, rfl, by dsimp only; omega⟩
            · exact ⟨_, rfl, (fail_size _).trans hs.le⟩
    · intro comma s h
      simp only [attrLoop]
      split
      · exact ⟨_, rfl, le_refl _⟩
      · rename_i he
        have he : s.err = none := by simpa using he
        have hs := getToken_size s he
        split
        · exact ⟨_, rfl, hs.le⟩
        · split
          · obtain ⟨r, h1, h2⟩ := ihn (getToken s).2.2 (by omega)
            exact ⟨_, by rw [h1]; rfl, by dsimp only; omega⟩
          · split
            · have h1 : (if (numberValue env (getToken s).2.1).2 = true then (getToken s).2.2
                  else (getToken s).2.2.fail).size ≤ (getToken s).2.2.size := by
                split
                · exact le_refl _
                · exact fail_size _
              obtain ⟨r, h2, h3⟩ := iha false _ (lt_of_le_of_lt h1 (by omega))
              exact ⟨_, by rw [h2]; rfl, by dsimp only; omega⟩
            · split
              · obtain ⟨r, h1, h2⟩ := iha false (getToken s).2.2 (by omega)
                exact ⟨_, by rw [h1]; rfl, by dsimp only; omega⟩
              · split
                · obtain ⟨q, h1, h2⟩ := parseArrayProp_total env (getToken s).2.2
                  rw [h1]; dsimp only
                  obtain ⟨r, h3, h4⟩ := iha false q.2 (by omega)
                  exact ⟨_, by rw [h3]; rfl, by dsimp only; omega⟩
                · obtain ⟨r, h1, h2⟩ := iha (decide ((getToken s).1 = .comma)) (getToken s).2.2 (by omega)
                  exact ⟨r, h1, by omega⟩

/-! ## The tokens of a text -/

/-- The parser has no error and the text `t` lies before it; at most one byte was put back. -/
structure TAt (s : TS) (t : Bytes) : Prop where
  err : s.err = none
  buf : s.buf.length ≤ 1
  eq : s.buf ++ s.rest = t

theorem spanRest_stop (p : UInt8 → Bool) (a : Bytes) (c : UInt8) (t : Bytes) (ha : ∀ b ∈ a, p b = true)
    (hc : p c = false) : spanRest p (a ++ c :: t) = (a, some c, t) := by
  induction a with
  | nil => simp [spanRest, hc]
  | cons b a ih =>
    simp only [List.cons_append, spanRest, ha b (by simp), if_true]
    rw [ih fun x hx => ha x (by simp [hx])]

theorem spanRest_end (p : UInt8 → Bool) (a : Bytes) (ha : ∀ b ∈ a, p b = true) :
    spanRest p a = (a, none, []) := by
  induction a with
  | nil => rfl
  | cons b a ih =>
    simp only [spanRest, ha b (by simp), if_true]
    rw [ih fun x hx => ha x (by simp [hx])]

theorem span_stop (p : UInt8 → Bool) {s : TS} (a : Bytes) (c : UInt8) (t : Bytes) (h : TAt s (a ++ c :: t))
    (ha : ∀ b ∈ a, p b = true) (hc : p c = false) :
    s.span p = (a, some c, ⟨[], t, none⟩) := by
  obtain ⟨buf, rest, err⟩ := s
  obtain ⟨he, hb, heq⟩ := h
  simp only at he hb heq
  subst he
  cases buf with
  | nil =>
    simp only [List.nil_append] at heq
    subst heq
    simp only [TS.span, spanBuf, spanRest_stop p a c t ha hc, Option.isSome_some, if_true]
  | cons b buf =>
    obtain rfl : buf = [] := by cases buf with
      | nil => rfl
      | cons _ _ => simp at hb
    simp only [List.cons_append, List.nil_append] at heq
    cases a with
    | nil =>
      simp only [List.nil_append, List.cons.injEq] at heq
      obtain ⟨rfl, rfl⟩ := heq
      simp [TS.span, spanBuf, hc]
    | cons x a =>
      simp only [List.cons_append, List.cons.injEq] at heq
      obtain ⟨rfl, rfl⟩ := heq
      have hx := ha b (by simp)
      simp only [TS.span, spanBuf, hx, if_true, spanRest_stop p a c t (fun y hy => ha y (by simp [hy])) hc,
        Option.isSome_some]

theorem span_end (p : UInt8 → Bool) {s : TS} (a : Bytes) (h : TAt s a) (ha : ∀ b ∈ a, p b = true) :
    s.span p = (a, none, ⟨[], [], some .eof⟩) := by
  obtain ⟨buf, rest, err⟩ := s
  obtain ⟨he, hb, heq⟩ := h
  simp only at he hb heq
  subst he
  cases buf with
  | nil =>
    simp only [List.nil_append] at heq
    subst heq
    simp [TS.span, spanBuf, spanRest_end p rest ha]
  | cons b buf =>
    obtain rfl : buf = [] := by cases buf with
      | nil => rfl
      | cons _ _ => simp at hb
    simp only [List.cons_append, List.nil_append] at heq
    subst heq
    have hx := ha b (by simp)
    simp [TS.span, spanBuf, hx, spanRest_end p rest (fun y hy => ha y (by simp [hy]))]

theorem at_nil (t : Bytes) : TAt ⟨[], t, none⟩ t := ⟨rfl, by simp, rfl⟩

theorem at_unread (c : UInt8) (t : Bytes) : TAt (TS.unread ⟨[], t, none⟩ (some c)) (c :: t) :=
  ⟨rfl, by simp [TS.unread], rfl⟩

/-- Bytes that are skipped between tokens. -/
def Blank (w : Bytes) : Prop := ∀ b ∈ w, startsToken b = false

theorem blank_spaces (n : Nat) : Blank (List.replicate n 32) := by
  intro b hb
  rw [List.eq_of_mem_replicate hb]; decide

theorem blank_nil : Blank [] := by intro b hb; simp at hb

theorem blank_space : Blank [32] := blank_spaces 1

theorem getToken_at {s : TS} (w : Bytes) (c : UInt8) (t : Bytes) (h : TAt s (w ++ c :: t)) (hw : Blank w)
    (hc : startsToken c = true) : getToken s = tokenAt c ⟨[], t, none⟩ := by
  have hsp := span_stop (fun c => !startsToken c) w c t h (fun b hb => by simp [hw b hb]) (by simp [hc])
  unfold getToken
  simp only [h.err, Option.isSome_none, Bool.false_eq_true, if_false, hsp]

theorem getToken_end {s : TS} (w : Bytes) (h : TAt s w) (hw : Blank w) :
    getToken s = (.eol, [], ⟨[], [], some .eof⟩) := by
  have hsp := span_end (fun c => !startsToken c) w h (fun b hb => by simp [hw b hb])
  unfold getToken
  simp only [h.err, Option.isSome_none, Bool.false_eq_true, if_false, hsp]

theorem tok_colon {s : TS} (w t : Bytes) (h : TAt s (w ++ 58 :: t)) (hw : Blank w) :
    ∃ s', getToken s = (.colon, [58], s') ∧ TAt s' t :=
  ⟨_, (getToken_at w 58 t h hw rfl).trans rfl, at_nil t⟩

theorem tok_open {s : TS} (w t : Bytes) (h : TAt s (w ++ 123 :: t)) (hw : Blank w) :
    ∃ s', getToken s = (.blockStart, [123], s') ∧ TAt s' t :=
  ⟨_, (getToken_at w 123 t h hw rfl).trans rfl, at_nil t⟩

theorem tok_close {s : TS} (w t : Bytes) (h : TAt s (w ++ 125 :: t)) (hw : Blank w) :
    ∃ s', getToken s = (.blockEnd, [125], s') ∧ TAt s' t :=
  ⟨_, (getToken_at w 125 t h hw rfl).trans rfl, at_nil t⟩

theorem tok_comma {s : TS} (w t : Bytes) (h : TAt s (w ++ 44 :: t)) (hw : Blank w) :
    ∃ s', getToken s = (.comma, [44], s') ∧ TAt s' t :=
  ⟨_, (getToken_at w 44 t h hw rfl).trans rfl, at_nil t⟩

theorem tok_asterisk {s : TS} (w t : Bytes) (h : TAt s (w ++ 42 :: t)) (hw : Blank w) :
    ∃ s', getToken s = (.asterisk, [42], s') ∧ TAt s' t :=
  ⟨_, (getToken_at w 42 t h hw rfl).trans rfl, at_nil t⟩

theorem tok_eol {s : TS} (w t : Bytes) (h : TAt s (w ++ 10 :: t)) (hw : Blank w) :
    ∃ s', getToken s = (.eol, [], s') ∧ TAt s' t :=
  ⟨_, (getToken_at w 10 t h hw rfl).trans rfl, at_nil t⟩

/-- A text that is read as one number. -/
structure NumTok (a : Bytes) : Prop where
  ne : a ≠ []
  first : ∀ c, a.head? = some c → startsNumber c = true
  all : ∀ b ∈ a, inNumber b = true

theorem startsNumber_tokenAt (c : UInt8) (hc : startsNumber c = true) (s : TS) :
    startsToken c = true ∧
      tokenAt c s = (.number, c :: (s.span inNumber).1, (s.span inNumber).2.2.unread (s.span inNumber).2.1) := by
  have h59 : c ≠ 59 := by rintro rfl; revert hc; decide
  have h123 : c ≠ 123 := by rintro rfl; revert hc; decide
  have h125 : c ≠ 125 := by rintro rfl; revert hc; decide
  have h44 : c ≠ 44 := by rintro rfl; revert hc; decide
  have h58 : c ≠ 58 := by rintro rfl; revert hc; decide
  have h42 : c ≠ 42 := by rintro rfl; revert hc; decide
  constructor
  · simp [startsToken, hc]
  · simp [tokenAt, hc, h59, h123, h125, h44, h58, h42]

theorem tok_number {s : TS} (w a : Bytes) (c : UInt8) (t : Bytes) (h : TAt s (w ++ (a ++ c :: t))) (hw : Blank w)
    (ha : NumTok a) (hc : inNumber c = false) :
    ∃ s', getToken s = (.number, a, s') ∧ TAt s' (c :: t) := by
  obtain ⟨x, a, rfl⟩ := List.exists_cons_of_ne_nil ha.ne
  have hx := ha.first x rfl
  rw [List.cons_append] at h
  obtain ⟨h1, h2⟩ := startsNumber_tokenAt x hx ⟨[], a ++ c :: t, none⟩
  have hsp := span_stop inNumber a c t (at_nil _) (fun b hb => ha.all b (by simp [hb])) hc
  refine ⟨_, (getToken_at w x _ h hw h1).trans (h2.trans ?_), at_unread c t⟩
  rw [hsp]

theorem tok_string {s : TS} (w a t : Bytes) (h : TAt s (w ++ 34 :: (a ++ 34 :: t))) (hw : Blank w)
    (ha : 34 ∉ a) : ∃ s', getToken s = (.string, a, s') ∧ TAt s' t := by
  have hsp := span_stop (· != 34) (s := ⟨[], a ++ 34 :: t, none⟩) a 34 t (at_nil _)
    (fun b hb => by
      have : b ≠ 34 := by rintro rfl; exact ha hb
      simpa using this) rfl
  refine ⟨_, (getToken_at w 34 _ h hw rfl).trans ?_, at_nil t⟩
  have h0 : ∀ s : TS, tokenAt 34 s = (.string, (s.span (· != 34)).1, (s.span (· != 34)).2.2) := fun s => rfl
  rw [h0, hsp]

/-- A text that is read as one identifier. -/
structure IdentTok (a : Bytes) : Prop where
  ne : a ≠ []
  first : ∀ c, a.head? = some c → startsIdent c = true
  all : ∀ b ∈ a, inIdent b = true

theorem startsIdent_tokenAt (c : UInt8) (hc : startsIdent c = true) (s : TS) :
    startsToken c = true ∧
      tokenAt c s = (.ident, c :: (s.span inIdent).1, (s.span inIdent).2.2.unread (s.span inIdent).2.1) := by
  have h59 : c ≠ 59 := by rintro rfl; revert hc; decide
  have h123 : c ≠ 123 := by rintro rfl; revert hc; decide
  have h125 : c ≠ 125 := by rintro rfl; revert hc; decide
  have h44 : c ≠ 44 := by rintro rfl; revert hc; decide
  have h58 : c ≠ 58 := by rintro rfl; revert hc; decide
  have h42 : c ≠ 42 := by rintro rfl; revert hc; decide
  have h10 : c ≠ 10 := by rintro rfl; revert hc; decide
  have h34 : c ≠ 34 := by rintro rfl; revert hc; decide
  have hn : startsNumber c = false := by
    simp only [startsIdent, Bool.and_eq_true, decide_eq_true_eq] at hc
    have h1 : (65 : Nat) ≤ c.toNat := UInt8.le_iff_toNat_le.1 hc.1
    simp only [startsNumber, isDigit, Bool.or_eq_false_iff, Bool.and_eq_false_iff, decide_eq_false_iff_not,
      UInt8.le_iff_toNat_le, beq_eq_false_iff_ne]
    refine ⟨⟨.inr ?_, ?_⟩, ?_⟩
    · have : (57 : UInt8).toNat = 57 := rfl
      omega
    · rintro rfl; revert h1; decide
    · rintro rfl; revert h1; decide
  constructor
  · simp [startsToken, hc]
  · simp [tokenAt, hn, h59, h123, h125, h44, h58, h42, h10, h34]

theorem tok_ident {s : TS} (w a : Bytes) (c : UInt8) (t : Bytes) (h : TAt s (w ++ (a ++ c :: t))) (hw : Blank w)
    (ha : IdentTok a) (hc : inIdent c = false) :
    ∃ s', getToken s = (.ident, a, s') ∧ TAt s' (c :: t) := by
  obtain ⟨x, a, rfl⟩ := List.exists_cons_of_ne_nil ha.ne
  have hx := ha.first x rfl
  rw [List.cons_append] at h
  obtain ⟨h1, h2⟩ := startsIdent_tokenAt x hx ⟨[], a ++ c :: t, none⟩
  have hsp := span_stop inIdent a c t (at_nil _) (fun b hb => ha.all b (by simp [hb])) hc
  refine ⟨_, (getToken_at w x _ h hw h1).trans (h2.trans ?_), at_unread c t⟩
  rw [hsp]

end Verif.Fbx
