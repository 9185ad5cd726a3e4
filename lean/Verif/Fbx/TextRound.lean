import Verif.Fbx.TextLemmas
import Mathlib.Tactic.IntervalCases
import Mathlib.Tactic.NormNum

/-!
What the FBX text reader makes of what `Write` writes: numbers, attributes, nodes.
-/

namespace Verif.Fbx

open Verif.Mmd (Bytes toSigned)

/-! ## Decimal numbers -/

theorem decNat_lt (n : Nat) (h : n < 10) : decNat n = [UInt8.ofNat (48 + n)] := by
  unfold decNat
  rw [Nat.toDigits_of_lt_base h]
  simp only [List.map_cons, List.map_nil, Nat.toNat_digitChar_of_lt_ten h]

theorem decNat_step (n : Nat) (h : 10 ≤ n) : decNat n = decNat (n / 10) ++ [UInt8.ofNat (48 + n % 10)] := by
  unfold decNat
  rw [Nat.toDigits_of_base_le (by decide) h, List.map_append]
  simp only [List.map_cons, List.map_nil, Nat.toNat_digitChar_of_lt_ten (Nat.mod_lt n (by decide : 0 < 10))]

theorem digit_byte (d : Nat) (h : d < 10) : isDigit (UInt8.ofNat (48 + d)) = true ∧ (UInt8.ofNat (48 + d)).toNat - 48 = d := by
  interval_cases d <;> decide

theorem decNat_ne (n : Nat) : decNat n ≠ [] := by
  unfold decNat
  simp [Nat.toDigits_ne_nil]

theorem decNat_digit (n : Nat) : ∀ b ∈ decNat n, isDigit b = true := by
  induction n using Nat.strongRecOn with
  | ind n ih =>
    by_cases h : n < 10
    · rw [decNat_lt n h]
      intro b hb
      rw [List.mem_singleton.1 hb]
      exact (digit_byte n h).1
    · rw [decNat_step n (by omega)]
      intro b hb
      rcases List.mem_append.1 hb with hb | hb
      · exact ih (n / 10) (by omega) b hb
      · rw [List.mem_singleton.1 hb]
        exact (digit_byte _ (Nat.mod_lt n (by decide))).1

theorem digitsVal_decNat (n : Nat) : digitsVal (decNat n) = n := by
  induction n using Nat.strongRecOn with
  | ind n ih =>
    by_cases h : n < 10
    · rw [decNat_lt n h]
      simp only [digitsVal, List.foldl_cons, List.foldl_nil, (digit_byte n h).2]
      omega
    · rw [decNat_step n (by omega)]
      have hi := ih (n / 10) (by omega)
      simp only [digitsVal] at hi ⊢
      rw [List.foldl_append, hi]
      simp only [List.foldl_cons, List.foldl_nil, (digit_byte _ (Nat.mod_lt n (by decide : 0 < 10))).2]
      omega

theorem decNat_head (n : Nat) : (decNat n).head? ≠ some 45 := by
  intro h
  have := decNat_digit n 45 (List.mem_of_mem_head? h)
  revert this; decide

theorem parseInt_decNat (bits n : Nat) (h : (n : Int) < 2 ^ (bits - 1)) : parseInt bits (decNat n) = some (n : Int) := by
  have h1 := decNat_ne n
  have h2 : (decNat n).all isDigit = true := by
    rw [List.all_eq_true]; exact decNat_digit n
  have h3 : -(2 ^ (bits - 1) : Int) ≤ (n : Int) := by
    have : (0 : Int) ≤ 2 ^ (bits - 1) := by positivity
    omega
  simp only [parseInt, decNat_head n, if_false, digitsVal_decNat]
  rw [if_pos ⟨h1, h2, h3, h⟩]

theorem parseInt_decInt (bits : Nat) (v : Int) (h1 : -(2 ^ (bits - 1) : Int) ≤ v) (h2 : v < 2 ^ (bits - 1)) :
    parseInt bits (decInt v) = some v := by
  unfold decInt
  split
  · rename_i hv
    have h3 := decNat_ne v.natAbs
    have h4 : (decNat v.natAbs).all isDigit = true := by
      rw [List.all_eq_true]; exact decNat_digit _
    have h5 : -((v.natAbs : Nat) : Int) = v := by omega
    simp only [parseInt, List.head?_cons, if_true, List.tail_cons, digitsVal_decNat, h5]
    rw [if_pos ⟨h3, h4, h1, h2⟩]
  · rename_i hv
    have h5 : ((v.toNat : Nat) : Int) = v := by omega
    rw [parseInt_decNat bits v.toNat (by omega), h5]

theorem isDigit_inNumber (b : UInt8) (h : isDigit b = true) : inNumber b = true := by simp [inNumber, h]

theorem isDigit_ne_dot (b : UInt8) (h : isDigit b = true) : b ≠ 46 := by rintro rfl; revert h; decide

theorem numTok_decNat (n : Nat) : NumTok (decNat n) where
  ne := decNat_ne n
  first := fun c hc => by simp [startsNumber, decNat_digit n c (List.mem_of_mem_head? hc)]
  all := fun b hb => isDigit_inNumber b (decNat_digit n b hb)

theorem numTok_decInt (v : Int) : NumTok (decInt v) := by
  unfold decInt
  split
  · refine ⟨by simp, ?_, ?_⟩
    · intro c hc
      simp only [List.head?_cons, Option.some.injEq] at hc
      subst hc; decide
    · intro b hb
      rcases List.mem_cons.1 hb with rfl | hb
      · decide
      · exact isDigit_inNumber b (decNat_digit _ b hb)
  · exact numTok_decNat _

theorem decInt_dot (v : Int) : (46 : UInt8) ∉ decInt v := by
  unfold decInt
  split
  · intro h
    rcases List.mem_cons.1 h with h | h
    · revert h; decide
    · exact isDigit_ne_dot _ (decNat_digit _ _ h) rfl
  · intro h
    exact isDigit_ne_dot _ (decNat_digit _ _ h) rfl

theorem numberValue_decInt (env : TextEnv) (v : Int) (h1 : -9223372036854775808 ≤ v) (h2 : v < 9223372036854775808) :
    numberValue env (decInt v) = (.num .i64 (int64Bits v), true) := by
  have hd : (decInt v).contains 46 = false := by
    simpa using decInt_dot v
  unfold numberValue
  rw [hd, parseInt_decInt 64 v (by norm_num; omega) (by norm_num; omega)]
  rfl

theorem numberValue_decNat (env : TextEnv) (n : Nat) (h : n < 9223372036854775808) :
    numberValue env (decNat n) = (.num .i64 n, true) := by
  have h0 : decInt (n : Int) = decNat n := by
    unfold decInt
    rw [if_neg (by omega)]; rfl
  have := numberValue_decInt env n (by omega) (by omega)
  rw [h0] at this
  rw [this]
  have : int64Bits (n : Int) = n := by unfold int64Bits; omega
  rw [this]

/-! ## Arrays -/

theorem arrayLoop_run (env : TextEnv) (ind : Bytes) (hind : Blank ind) (t : Bytes) (l : List Bytes) :
    ∀ (w : Bytes) (s : TS) (fuel : Nat), l ≠ [] → (∀ a ∈ l, NumTok a) → Blank w →
      TAt s (w ++ (joined [44, 32] l ++ 10 :: (ind ++ 125 :: t))) →
      (w ++ (joined [44, 32] l ++ 10 :: (ind ++ 125 :: t))).length + 2 ≤ fuel →
      ∃ s', arrayLoop env fuel s = some (l, s') ∧ TAt s' t := by
  induction l with
  | nil => intro _ _ _ h; exact absurd rfl h
  | cons a l ih =>
    intro w s fuel _ hl hw hs hf
    have ha := hl a (by simp)
    obtain ⟨f0, rfl⟩ : ∃ f0, fuel = f0 + 1 := ⟨fuel - 1, by omega⟩
    cases l with
    | nil =>
      simp only [joined] at hs hf
      obtain ⟨s1, g1, a1⟩ := tok_number w a 10 _ hs hw ha rfl
      obtain ⟨s2, g2, a2⟩ := tok_eol [] (ind ++ 125 :: t) a1 blank_nil
      obtain ⟨s3, g3, a3⟩ := tok_close ind t a2 hind
      obtain ⟨f1, rfl⟩ : ∃ f1, f0 = f1 + 1 := ⟨f0 - 1, by
        have : 0 < a.length := List.length_pos_iff.2 ha.ne
        simp only [List.length_append, List.length_cons] at hf; omega⟩
      obtain ⟨f2, rfl⟩ : ∃ f2, f1 = f2 + 1 := ⟨f1 - 1, by
        have : 0 < a.length := List.length_pos_iff.2 ha.ne
        simp only [List.length_append, List.length_cons] at hf; omega⟩
      refine ⟨s3, ?_, a3⟩
      simp [arrayLoop, hs.err, g1, a1.err, g2, a2.err, g3]
    | cons b l =>
      simp only [joined, List.append_assoc, List.cons_append, List.nil_append] at hs hf
      obtain ⟨s1, g1, a1⟩ := tok_number w a 44 _ hs hw ha rfl
      obtain ⟨s2, g2, a2⟩ := tok_comma [] _ a1 blank_nil
      obtain ⟨f1, rfl⟩ : ∃ f1, f0 = f1 + 1 := ⟨f0 - 1, by
        simp only [List.length_append, List.length_cons] at hf; omega⟩
      obtain ⟨s', h1, h2⟩ := ih [32] s2 f1 (by simp) (fun x hx => hl x (by simp [hx])) blank_space a2
        (by
          have : 0 < a.length := List.length_pos_iff.2 ha.ne
          simp only [List.length_append, List.length_cons, List.length_nil] at hf ⊢; omega)
      refine ⟨s', ?_, h2⟩
      simp [arrayLoop, hs.err, g1, a1.err, g2, h1]

theorem ident_a : IdentTok [97] :=
  ⟨by simp, by intro c hc; simp at hc; subst hc; decide, by intro c hc; simp at hc; subst hc; decide⟩

theorem TAt.length {s : TS} {t : Bytes} (h : TAt s t) : s.buf.length + s.rest.length = t.length := by
  rw [← h.eq, List.length_append]

theorem parseArrayProp_run (env : TextEnv) (d : Nat) (l : List Bytes) (t : Bytes) (hl : l ≠ [])
    (hn : l.length < 2147483648) (ha : ∀ a ∈ l, NumTok a) (s : TS)
    (hs : TAt s (decNat l.length ++ (b! " {\n      a:" ++ (joined [44, 32] l ++ (10 :: (indentation d ++ [125])))) ++ t)) :
    ∃ s', parseArrayProp env s = some (numbersValue env l, s') ∧ TAt s' t := by
  simp only [List.append_assoc, List.cons_append, List.nil_append] at hs
  obtain ⟨s1, g1, a1⟩ := tok_number [] _ 32 _ hs blank_nil (numTok_decNat _) rfl
  obtain ⟨s2, g2, a2⟩ := tok_open [32] _ a1 blank_space
  obtain ⟨s3, g3, a3⟩ := tok_eol [] _ a2 blank_nil
  obtain ⟨s4, g4, a4⟩ := tok_ident (List.replicate 6 32) [97] 58 _ a3 (blank_spaces 6) ident_a rfl
  obtain ⟨s5, g5, a5⟩ := tok_colon [] _ a4 blank_nil
  obtain ⟨s6, g6, a6⟩ := arrayLoop_run env (indentation d) (blank_spaces _) t l [] s5
    (s5.buf.length + s5.rest.length + 2) hl ha blank_nil a5 (by rw [a5.length]; simp only [List.nil_append]; exact le_refl _)
  have hp : arraySize (decNat l.length) = some (l.length : Int) :=
    parseInt_decNat 32 l.length (by norm_num; omega)
  have hsk : s1.skip .blockStart = s2 := by
    simp [TS.skip, g2]
  have hc : toColon (s2.buf.length + s2.rest.length + 2) s2 = some s5 := by
    obtain ⟨f0, hf0⟩ : ∃ f0, s2.buf.length + s2.rest.length + 2 = f0 + 1 + 1 + 1 := ⟨s2.buf.length + s2.rest.length - 1, by
      rw [a2.length]
      simp only [List.length_cons]; omega⟩
    rw [hf0]
    simp [toColon, a2.err, g3, a3.err, g4, a4.err, g5]
  have hpos : (0 : Int) < l.length := by
    have := List.length_pos_iff.2 hl; omega
  refine ⟨s6, ?_, a6⟩
  simp only [parseArrayProp, g1, hp, Option.isSome_some, if_true, Option.getD_some, hsk, hc, hpos, g6]

/-! ## Attributes -/

/-- Attributes in front of the rest. -/
def pre (vs : List Value) (r : List Value × List Node × TS) : List Value × List Node × TS := (vs ++ r.1, r.2)

/-- The reader of attributes goes over the text `w` before `t` and finds the attributes `vs`. -/
def AttrRun (env : TextEnv) (comma comma' : Bool) (w t : Bytes) (vs : List Value) : Prop :=
  ∀ s fuel, TAt s (w ++ t) → (w ++ t).length + 2 ≤ fuel →
    ∃ fuel' s', t.length + 2 ≤ fuel' ∧ TAt s' t ∧
      attrLoop env fuel comma s = (attrLoop env fuel' comma' s').map (pre vs)

theorem AttrRun.trans {env : TextEnv} {c c' c'' : Bool} {w1 w2 t : Bytes} {v1 v2 : List Value}
    (h1 : AttrRun env c c' w1 (w2 ++ t) v1) (h2 : AttrRun env c' c'' w2 t v2) :
    AttrRun env c c'' (w1 ++ w2) t (v1 ++ v2) := by
  intro s fuel hs hf
  rw [List.append_assoc] at hs hf
  obtain ⟨f1, s1, hf1, ha1, e1⟩ := h1 s fuel hs hf
  obtain ⟨f2, s2, hf2, ha2, e2⟩ := h2 s1 f1 ha1 hf1
  refine ⟨f2, s2, hf2, ha2, ?_⟩
  rw [e1, e2, Option.map_map]
  congr 1
  funext r
  simp [pre]

/-- The bytes that follow an attribute: a comma, the end of the line or a space. -/
def Follows (c : UInt8) : Prop := c = 44 ∨ c = 10 ∨ c = 32

theorem Follows.number {c : UInt8} (h : Follows c) : inNumber c = false := by
  rcases h with rfl | rfl | rfl <;> rfl

theorem Follows.ident {c : UInt8} (h : Follows c) : inIdent c = false := by
  rcases h with rfl | rfl | rfl <;> rfl

theorem run_number (env : TextEnv) (comma : Bool) (a : Bytes) (c : UInt8) (t : Bytes) (ha : NumTok a) (hc : Follows c)
    (hv : (numberValue env a).2 = true) :
    AttrRun env comma false (32 :: a) (c :: t) [(numberValue env a).1] := by
  intro s fuel hs hf
  obtain ⟨s1, g1, a1⟩ := tok_number [32] a c t hs blank_space ha hc.number
  obtain ⟨f0, rfl⟩ : ∃ f0, fuel = f0 + 1 := ⟨fuel - 1, by omega⟩
  refine ⟨f0, s1, ?_, a1, ?_⟩
  · simp only [List.length_append, List.length_cons] at hf ⊢; omega
  · simp [attrLoop, hs.err, g1, hv]
    rfl

theorem run_string (env : TextEnv) (comma : Bool) (a : Bytes) (t : Bytes) (ha : 34 ∉ a) :
    AttrRun env comma false (32 :: (34 :: (a ++ [34]))) t [.str a] := by
  intro s fuel hs hf
  simp only [List.cons_append, List.append_assoc, List.nil_append] at hs hf
  obtain ⟨s1, g1, a1⟩ := tok_string [32] a t hs blank_space ha
  obtain ⟨f0, rfl⟩ : ∃ f0, fuel = f0 + 1 := ⟨fuel - 1, by omega⟩
  refine ⟨f0, s1, ?_, a1, ?_⟩
  · simp only [List.length_append, List.length_cons] at hf ⊢; omega
  · simp [attrLoop, hs.err, g1]
    rfl

/-- An identifier is no attribute. -/
theorem run_ident (env : TextEnv) (comma : Bool) (a : Bytes) (c : UInt8) (t : Bytes) (ha : IdentTok a)
    (hc : Follows c) : AttrRun env comma false (32 :: a) (c :: t) [] := by
  intro s fuel hs hf
  obtain ⟨s1, g1, a1⟩ := tok_ident [32] a c t hs blank_space ha hc.ident
  obtain ⟨f0, rfl⟩ : ∃ f0, fuel = f0 + 1 := ⟨fuel - 1, by omega⟩
  refine ⟨f0, s1, ?_, a1, ?_⟩
  · simp only [List.length_append, List.length_cons] at hf ⊢; omega
  · simp only [attrLoop, hs.err, g1]
    simp only [Option.isSome_none, Bool.false_eq_true, if_false, reduceCtorEq, false_and, decide_false]
    cases attrLoop env f0 false s1 <;> rfl

theorem run_comma (env : TextEnv) (comma : Bool) (t : Bytes) : AttrRun env comma true [44] t [] := by
  intro s fuel hs hf
  obtain ⟨s1, g1, a1⟩ := tok_comma [] t hs blank_nil
  obtain ⟨f0, rfl⟩ : ∃ f0, fuel = f0 + 1 := ⟨fuel - 1, by omega⟩
  refine ⟨f0, s1, ?_, a1, ?_⟩
  · simp only [List.length_append, List.length_cons] at hf ⊢; omega
  · simp only [attrLoop, hs.err, g1]
    simp only [Option.isSome_none, Bool.false_eq_true, if_false, reduceCtorEq, false_and, decide_true]
    cases attrLoop env f0 true s1 <;> rfl

theorem run_slice (env : TextEnv) (comma : Bool) (d : Nat) (l : List Bytes) (t : Bytes) (hl : l ≠ [])
    (hn : l.length < 2147483648) (ha : ∀ a ∈ l, NumTok a) :
    AttrRun env comma false (32 :: showSlice d l) t [numbersValue env l] := by
  intro s fuel hs hf
  obtain ⟨s1, g1, a1⟩ := tok_asterisk [32] _ hs blank_space
  obtain ⟨s2, g2, a2⟩ := parseArrayProp_run env d l t hl hn ha s1 a1
  obtain ⟨f0, rfl⟩ : ∃ f0, fuel = f0 + 1 := ⟨fuel - 1, by omega⟩
  refine ⟨f0, s2, ?_, a2, ?_⟩
  · simp only [List.length_append, List.length_cons] at hf ⊢; omega
  · simp [attrLoop, hs.err, g1, g2]
    rfl

/-- A number whose text is one token that the reader accepts. -/
def NumberSafe (env : TextEnv) (t : Bytes) : Prop := NumTok t ∧ (numberValue env t).2 = true

/-- The attribute is written in a form that the reader takes as one value: integers that fit their type,
strings that `%q` only encloses in quotes, decimal numbers without a plus sign that `strconv` accepts. Byte
slices are not. -/
def ValueSafe (env : TextEnv) : Value → Prop
  | .num .f32 b => NumberSafe env (env.showF32 b)
  | .num .f64 b => NumberSafe env (env.showF64 b)
  | .num .u8 b => b < 256
  | .num ty b => b < 256 ^ ty.width
  | .int v => -9223372036854775808 ≤ v ∧ v < 9223372036854775808
  | .str b => env.quote (textName b) = 34 :: (textName b ++ [34]) ∧ 34 ∉ textName b
  | .raw _ => False
  | .arr ty l => l.length < 2147483648 ∧ ∀ b ∈ l, NumTok (showNum env ty b)
  | .nilArr _ => True
  | .none' => False

/-- What a saved and loaded attribute is: numbers become `int64` or `float64`, slices become `[]int32` or
`[]float64`, `name\0\1Type` becomes `Type::name`, and empty slices are lost. -/
def loaded (env : TextEnv) : Value → List Value
  | .num .f32 b => [(numberValue env (env.showF32 b)).1]
  | .num .f64 b => [(numberValue env (env.showF64 b)).1]
  | .num .u8 b => [.num .i64 b]
  | .num ty b => [.num .i64 (int64Bits (toSigned ty.width b))]
  | .int v => [.num .i64 (int64Bits v)]
  | .str b => [.str (textName b)]
  | .arr ty l => if l = [] then [] else [numbersValue env (l.map (showNum env ty))]
  | .nilArr _ => []
  | v => [v]

theorem toSigned_range8 (n b : Nat) (hn : n = 1 ∨ n = 2 ∨ n = 4 ∨ n = 8) (h : b < 256 ^ n) :
    -9223372036854775808 ≤ toSigned n b ∧ toSigned n b < 9223372036854775808 := by
  rcases hn with rfl | rfl | rfl | rfl <;> norm_num at h <;> unfold toSigned <;> norm_num <;> split <;> omega

theorem ident_brackets : IdentTok b! "[]" :=
  ⟨by simp, by intro c hc; simp at hc; subst hc; decide, by
    intro c hc
    rcases List.mem_cons.1 hc with rfl | hc
    · decide
    · rw [List.mem_singleton.1 hc]; decide⟩

theorem run_value (env : TextEnv) (comma : Bool) (d : Nat) (v : Value) (c : UInt8) (t : Bytes) (hv : ValueSafe env v)
    (hc : Follows c) : AttrRun env comma false (32 :: showValue env d v) (c :: t) (loaded env v) := by
  have key : ∀ (n b : Nat) , (n = 1 ∨ n = 2 ∨ n = 4 ∨ n = 8) → b < 256 ^ n →
      AttrRun env comma false (32 :: decInt (toSigned n b)) (c :: t) [.num .i64 (int64Bits (toSigned n b))] := by
    intro n b hn hb
    obtain ⟨h1, h2⟩ := toSigned_range8 n b hn hb
    have h3 := numberValue_decInt env _ h1 h2
    have := run_number env comma (decInt (toSigned n b)) c t (numTok_decInt _) hc (by rw [h3])
    rwa [h3] at this
  cases v with
  | num ty b =>
    cases ty with
    | i8 => exact key 1 b (by simp) hv
    | i16 => exact key 2 b (by simp) hv
    | i32 => exact key 4 b (by simp) hv
    | i64 => exact key 8 b (by simp) hv
    | u8 =>
      have hv' : b < 256 := hv
      have h3 := numberValue_decNat env b (by omega)
      have := run_number env comma (decNat b) c t (numTok_decNat _) hc (by rw [h3])
      rwa [h3] at this
    | f32 => exact run_number env comma _ c t hv.1 hc hv.2
    | f64 => exact run_number env comma _ c t hv.1 hc hv.2
  | int v =>
    have h3 := numberValue_decInt env v hv.1 hv.2
    have := run_number env comma (decInt v) c t (numTok_decInt _) hc (by rw [h3])
    rwa [h3] at this
  | str b =>
    have := run_string env comma (textName b) (c :: t) hv.2
    simp only [showValue, loaded]
    rw [hv.1]; exact this
  | raw b => exact absurd hv (by simp [ValueSafe])
  | arr ty l =>
    simp only [showValue, loaded]
    split
    · exact run_ident env comma _ c t ident_brackets hc
    · rename_i hl
      exact run_slice env comma d _ (c :: t) (by simpa using hl) (by simpa using hv.1) (by
        intro a ha
        obtain ⟨b, hb, rfl⟩ := List.mem_map.1 ha
        exact hv.2 b hb)
  | nilArr ty => exact run_ident env comma _ c t ident_brackets hc
  | none' => exact absurd hv (by simp [ValueSafe])

theorem run_values (env : TextEnv) (d : Nat) (t : Bytes) (c : UInt8) (hc : Follows c) (vs : List Value) :
    ∀ comma, vs ≠ [] → (∀ v ∈ vs, ValueSafe env v) →
      AttrRun env comma false (32 :: joined [44, 32] (vs.map (showValue env d))) (c :: t) (vs.flatMap (loaded env)) := by
  induction vs with
  | nil => intro _ h; exact absurd rfl h
  | cons v vs ih =>
    intro comma _ hs
    cases vs with
    | nil =>
      simpa [joined] using run_value env comma d v c t (hs v (by simp)) hc
    | cons v' vs =>
      have h1 := fun t' => run_value env comma d v 44 t' (hs v (by simp)) (.inl rfl)
      have h2 := fun t' => run_comma env false t'
      have h3 := ih true (by simp) (fun x hx => hs x (by simp [hx]))
      have h4 := AttrRun.trans (h2 _) h3
      have h5 := AttrRun.trans (h1 _) h4
      simp only [List.map_cons, joined, List.cons_append, List.nil_append, List.flatMap_cons] at h5 ⊢
      exact h5

/-! ## Nodes -/

mutual

/-- A node whose name is an identifier and whose attributes are safe, with such children. -/
inductive NodeSafe (env : TextEnv) : Node → Prop
  | mk (name attrs children) (hname : IdentTok name) (hattrs : ∀ v ∈ attrs, ValueSafe env v)
      (hchildren : NodesSafe env children) : NodeSafe env (.mk name attrs children)

inductive NodesSafe (env : TextEnv) : List Node → Prop
  | nil : NodesSafe env []
  | cons (n ns) (h : NodeSafe env n) (hs : NodesSafe env ns) : NodesSafe env (n :: ns)

end

mutual

/-- The node after saving and loading. -/
def loadedNode (env : TextEnv) : Node → Node
  | .mk name attrs children => .mk name (attrs.flatMap (loaded env)) (loadedNodes env children)

def loadedNodes (env : TextEnv) : List Node → List Node
  | [] => []
  | n :: ns => loadedNode env n :: loadedNodes env ns

end

/-- Nodes in front of the rest. -/
def preNodes (ns : List Node) (r : List Node × TS) : List Node × TS := (ns ++ r.1, r.2)

/-- The reader of nodes goes over the text `w` before `t` and finds the nodes `ns`. -/
def NodesRun (env : TextEnv) (w t : Bytes) (ns : List Node) : Prop :=
  ∀ s fuel, TAt s (w ++ t) → (w ++ t).length + 2 ≤ fuel →
    ∃ fuel' s', t.length + 2 ≤ fuel' ∧ TAt s' t ∧ nodeList env fuel s = (nodeList env fuel' s').map (preNodes ns)

theorem NodesRun.nil (env : TextEnv) (t : Bytes) : NodesRun env [] t [] := by
  intro s fuel hs hf
  refine ⟨fuel, s, hf, hs, ?_⟩
  cases nodeList env fuel s <;> rfl

theorem NodesRun.trans {env : TextEnv} {w1 w2 t : Bytes} {n1 n2 : List Node}
    (h1 : NodesRun env w1 (w2 ++ t) n1) (h2 : NodesRun env w2 t n2) : NodesRun env (w1 ++ w2) t (n1 ++ n2) := by
  intro s fuel hs hf
  rw [List.append_assoc] at hs hf
  obtain ⟨f1, s1, hf1, ha1, e1⟩ := h1 s fuel hs hf
  obtain ⟨f2, s2, hf2, ha2, e2⟩ := h2 s1 f1 ha1 hf1
  refine ⟨f2, s2, hf2, ha2, ?_⟩
  rw [e1, e2, Option.map_map]
  congr 1
  funext r
  simp [preNodes]

theorem run_newline (env : TextEnv) (t : Bytes) : NodesRun env [10] t [] := by
  intro s fuel hs hf
  obtain ⟨s1, g1, a1⟩ := tok_eol [] t hs blank_nil
  obtain ⟨f0, rfl⟩ : ∃ f0, fuel = f0 + 1 := ⟨fuel - 1, by omega⟩
  refine ⟨f0, s1, ?_, a1, ?_⟩
  · simp only [List.length_append, List.length_cons] at hf ⊢; omega
  · simp only [nodeList, hs.err, g1]
    simp only [Option.isSome_none, Bool.false_eq_true, if_false, if_true]
    cases nodeList env f0 s1 <;> rfl

/-- The end of the attributes: the line ends, or a block with children follows. The result is the children. -/
def EndRun (env : TextEnv) (w t : Bytes) (cs : List Node) : Prop :=
  ∀ s fuel, TAt s (w ++ t) → (w ++ t).length + 2 ≤ fuel → ∃ s', TAt s' t ∧ attrLoop env fuel false s = some ([], cs, s')

theorem end_line (env : TextEnv) (t : Bytes) : EndRun env [10] t [] := by
  intro s fuel hs hf
  obtain ⟨s1, g1, a1⟩ := tok_eol [] t hs blank_nil
  obtain ⟨f0, rfl⟩ : ∃ f0, fuel = f0 + 1 := ⟨fuel - 1, by omega⟩
  exact ⟨s1, a1, by simp [attrLoop, hs.err, g1]⟩

theorem end_block (env : TextEnv) (d : Nat) (w t : Bytes) (cs : List Node)
    (h : NodesRun env w (indentation d ++ 125 :: t) cs) :
    EndRun env (b! " {\n" ++ (w ++ (indentation d ++ [125]))) t cs := by
  intro s fuel hs hf
  simp only [List.append_assoc, List.cons_append, List.nil_append] at hs hf
  obtain ⟨s1, g1, a1⟩ := tok_open [32] _ hs blank_space
  obtain ⟨f0, rfl⟩ : ∃ f0, fuel = f0 + 1 := ⟨fuel - 1, by omega⟩
  obtain ⟨f1, s2, hf1, a2, e2⟩ := run_newline env (w ++ (indentation d ++ 125 :: t)) s1 f0 a1 (by
    simp only [List.length_append, List.length_cons, List.length_nil] at hf ⊢; omega)
  obtain ⟨f3, s3, hf3, a3, e3⟩ := h s2 f1 a2 hf1
  obtain ⟨s4, g4, a4⟩ := tok_close (indentation d) t a3 (blank_spaces _)
  obtain ⟨f4, rfl⟩ : ∃ f4, f3 = f4 + 1 := ⟨f3 - 1, by omega⟩
  have e4 : nodeList env (f4 + 1) s3 = some ([], s4) := by
    simp [nodeList, a3.err, g4]
  refine ⟨s4, a4, ?_⟩
  rw [e4] at e3
  rw [e3] at e2
  simp [attrLoop, hs.err, g1, e2, preNodes]

theorem run_node (env : TextEnv) (ind name : Bytes) (hind : Blank ind) (hname : IdentTok name) (wa we t : Bytes)
    (vs : List Value) (cs : List Node) (ha : AttrRun env false false wa (we ++ t) vs) (he : EndRun env we t cs) :
    NodesRun env (ind ++ (name ++ (58 :: (wa ++ we)))) t [.mk name vs cs] := by
  intro s fuel hs hf
  simp only [List.append_assoc, List.cons_append] at hs hf
  obtain ⟨s1, g1, a1⟩ := tok_ident ind name 58 _ hs hind hname rfl
  obtain ⟨s2, g2, a2⟩ := tok_colon [] _ a1 blank_nil
  obtain ⟨f0, rfl⟩ : ∃ f0, fuel = f0 + 1 := ⟨fuel - 1, by omega⟩
  have hsk : s1.skip .colon = s2 := by simp [TS.skip, g2]
  have hname0 : 0 < name.length := List.length_pos_iff.2 hname.ne
  obtain ⟨f1, s3, hf1, a3, e3⟩ := ha s2 f0 a2 (by
    simp only [List.length_append, List.length_cons] at hf ⊢; omega)
  obtain ⟨s4, a4, e4⟩ := he s3 f1 a3 hf1
  have hno : s4.noEof = s4 := by simp [TS.noEof, a4.err]
  rw [e4] at e3
  refine ⟨f0, s4, ?_, a4, ?_⟩
  · simp only [List.length_append, List.length_cons] at hf ⊢; omega
  · simp only [nodeList, hs.err, g1, hsk, e3, hno, Option.map_some, pre]
    simp only [Option.isSome_none, Bool.false_eq_true, if_false, reduceCtorEq, if_true, List.append_nil]
    cases nodeList env f0 s4 <;> rfl

theorem run_noValues (env : TextEnv) (t : Bytes) : AttrRun env false false [] t [] := by
  intro s fuel hs hf
  refine ⟨fuel, s, hf, hs, ?_⟩
  cases attrLoop env fuel false s <;> rfl

theorem run_showValues (env : TextEnv) (d : Nat) (c : UInt8) (t : Bytes) (hc : Follows c) (vs : List Value)
    (hs : ∀ v ∈ vs, ValueSafe env v) : AttrRun env false false (showValues env d vs) (c :: t) (vs.flatMap (loaded env)) := by
  unfold showValues
  split
  · rename_i h; subst h; exact run_noValues env _
  · rename_i h; exact run_values env d t c hc vs false h hs

mutual

theorem run_dump (env : TextEnv) (n : Node) (hn : NodeSafe env n) (d : Nat) (t : Bytes) :
    NodesRun env (dump env d n) t [loadedNode env n] := by
  cases hn with
  | mk name attrs children hname hattrs hchildren =>
    simp only [dump, loadedNode]
    split
    · have hcs := run_dumps env children hchildren (d + 1) (indentation d ++ 125 :: (10 :: t))
      have he := end_block env d _ _ _ hcs
      have h1 := run_node env (indentation d) name (blank_spaces _) hname (showValues env d attrs) _ _ _ _
        (run_showValues env d 32 _ (.inr (.inr rfl)) attrs hattrs) he
      have h2 := NodesRun.trans h1 (run_newline env t)
      simp only [List.append_assoc, List.cons_append, List.nil_append] at h2 ⊢
      exact h2
    · rename_i h
      simp only [not_or, not_not] at h
      rw [h.1]
      have ha := run_showValues env d 10 t (.inr (.inl rfl)) attrs hattrs
      exact run_node env (indentation d) name (blank_spaces _) hname _ _ _ _ _ ha (end_line env t)

theorem run_dumps (env : TextEnv) (ns : List Node) (hn : NodesSafe env ns) (d : Nat) (t : Bytes) :
    NodesRun env (dumps env d ns) t (loadedNodes env ns) := by
  cases hn with
  | nil => exact NodesRun.nil env t
  | cons n ns h hs =>
    simp only [dumps, loadedNodes]
    exact NodesRun.trans (run_dump env n h d _) (run_dumps env ns hs d t)

end

/-! ## Files -/

/-- A line that is a comment. -/
theorem tok_comment {s : TS} (a t : Bytes) (h : TAt s (59 :: (a ++ 10 :: t))) (ha : 10 ∉ a) :
    ∃ s', getToken s = (.eol, [], s') ∧ TAt s' t := by
  have hsp := span_stop (· != 10) (s := ⟨[], a ++ 10 :: t, none⟩) a 10 t (at_nil _)
    (fun b hb => by
      have : b ≠ 10 := by rintro rfl; exact ha hb
      simpa using this) rfl
  refine ⟨_, (getToken_at [] 59 _ h blank_nil rfl).trans ?_, at_nil t⟩
  have h0 : ∀ s : TS, tokenAt 59 s = (.eol, [], (s.span (· != 10)).2.2) := fun s => rfl
  rw [h0, hsp]

theorem run_comment (env : TextEnv) (a t : Bytes) (ha : 10 ∉ a) : NodesRun env (59 :: (a ++ [10])) t [] := by
  intro s fuel hs hf
  simp only [List.append_assoc, List.cons_append, List.nil_append] at hs hf
  obtain ⟨s1, g1, a1⟩ := tok_comment a t hs ha
  obtain ⟨f0, rfl⟩ : ∃ f0, fuel = f0 + 1 := ⟨fuel - 1, by omega⟩
  refine ⟨f0, s1, ?_, a1, ?_⟩
  · simp only [List.length_append, List.length_cons] at hf ⊢; omega
  · simp only [nodeList, hs.err, g1]
    simp only [Option.isSome_none, Bool.false_eq_true, if_false, if_true]
    cases nodeList env f0 s1 <;> rfl

theorem spanBuf_short (p : UInt8 → Bool) (b : Bytes) : ∀ (a r : Bytes), (∀ x ∈ b, p x = true) →
    spanBuf p (b ++ a) r = (b ++ (spanBuf p a r).1, (spanBuf p a r).2) := by
  induction b with
  | nil => intro a r _; rfl
  | cons x b ih =>
    intro a r h
    simp only [List.cons_append, spanBuf, h x (by simp), if_true]
    rw [ih a r fun y hy => h y (by simp [hy])]

/-- A first line that is a comment of at least 21 bytes takes the whole buffer with it. -/
theorem parseText_comment (env : TextEnv) (a t : Bytes) (hl : 20 ≤ a.length) (hlf : ∀ b ∈ a, b ≠ 10) :
    ∃ fuel, t.length + 2 ≤ fuel ∧
      nodeList env (((59 :: (a ++ 10 :: t)).take 21).length + ((59 :: (a ++ 10 :: t)).drop 21).length + 2)
        ⟨(59 :: (a ++ 10 :: t)).take 21, (59 :: (a ++ 10 :: t)).drop 21, none⟩ =
      nodeList env fuel ⟨[], t, none⟩ := by
  have e1 : (59 :: (a ++ 10 :: t)).take 21 = 59 :: a.take 20 := by
    rw [List.take_succ_cons, List.take_append_of_le_length hl]
  have e2 : (59 :: (a ++ 10 :: t)).drop 21 = a.drop 20 ++ 10 :: t := by
    rw [List.drop_succ_cons, List.drop_append_of_le_length hl]
  rw [e1, e2]
  have g : getToken ⟨59 :: a.take 20, a.drop 20 ++ 10 :: t, none⟩ = (.eol, [], ⟨[], t, none⟩) := by
    have h1 : TS.span (fun c => !startsToken c) ⟨59 :: a.take 20, a.drop 20 ++ 10 :: t, none⟩ =
        ([], some 59, ⟨a.take 20, a.drop 20 ++ 10 :: t, none⟩) := rfl
    have h2 : TS.span (· != 10) ⟨a.take 20, a.drop 20 ++ 10 :: t, none⟩ = (a, some 10, ⟨[], t, none⟩) := by
      have h3 := spanBuf_short (· != 10) (a.take 20) [] (a.drop 20 ++ 10 :: t) (fun x hx => by
        have := hlf x (List.mem_of_mem_take hx); simpa using this)
      rw [List.append_nil] at h3
      have h4 := spanRest_stop (· != 10) (a.drop 20) 10 t (fun x hx => by
        have := hlf x (List.mem_of_mem_drop hx); simpa using this) rfl
      simp only [TS.span]
      rw [h3]
      simp only [spanBuf, h4, List.take_append_drop]
      rfl
    have h0 : ∀ s : TS, tokenAt 59 s = (.eol, [], (s.span (· != 10)).2.2) := fun s => rfl
    unfold getToken
    simp only [Option.isSome_none, Bool.false_eq_true, if_false, h1, h0, h2]
  refine ⟨(59 :: a.take 20).length + (a.drop 20 ++ 10 :: t).length + 1, ?_, ?_⟩
  · simp only [List.length_cons, List.length_append]; omega
  · rw [show (59 :: a.take 20).length + (a.drop 20 ++ 10 :: t).length + 2 =
      ((59 :: a.take 20).length + (a.drop 20 ++ 10 :: t).length + 1) + 1 from rfl]
    generalize (59 :: a.take 20).length + (a.drop 20 ++ 10 :: t).length + 1 = fuel
    simp [nodeList, g]

end Verif.Fbx
