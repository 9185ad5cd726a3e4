import Verif.Mqo.SourceRound

/-! Second materials and thumbnails of `Verif.Mqo.Source`: how they are read. -/

namespace Verif.Mqo

open Verif.Geom Verif.Text

variable [Uni]

section
variable {F : Type} [Zero F] [One F] [Neg F] [Mul F] [NumText F]

/-! ## Second materials -/

theorem ex2Attrs_keys : KeysOf (ex2Attrs (F := F)) exKeys := by
  refine ⟨?_, by decide⟩
  intro w hw
  by_contra hn
  have hm : ∀ k ∈ exKeys, w ≠ k := fun k hk e => hn (e ▸ hk)
  have : ex2Attrs (F := F) w = none := by
    unfold ex2Attrs
    iterate 5 (refine (if_neg (hm _ ?_)).trans ?_; · decide)
    rfl
  rw [this] at hw
  exact absurd hw (by simp)

theorem Key.Ok.reads {k : Key} (h : k.Ok) : Reads readStr k.text k.value := by
  cases k with
  | word w => exact reads_word w h
  | quoted t => exact reads_str t h

theorem reads_bool' (b word : Bool) : Reads (readTyped "bool".toList) ((ParamVal.bool b word).text) (Param.bool b : Param F) := by
  have hnat : ∀ n : Nat, Reads readStr (showNat n) (showNat n) := by
    intro n k hk s hs
    refine ⟨⟨k, 0, false, .int, showNat n⟩, ?_, At.ws ⟨rfl, rfl, rfl⟩⟩
    have ht : trimQuote (showNat n) = showNat n := by
      have hd : ∀ l : Str, (∀ c ∈ l, c ≠ '"') → l.dropWhile (· == '"') = l := by
        intro l hl
        cases l with
        | nil => rfl
        | cons c l => simp [hl c (by simp)]
      have hq : ∀ c ∈ showNat n, c ≠ '"' := by
        rintro c hc rfl
        exact absurd (showNat_digits n _ hc) (by decide)
      rw [trimQuote, hd _ hq, hd _ (by simpa using hq), List.reverse_reverse]
    simp only [readStr, scan_at_nat hs hk, ht]
  have hb : ∀ (w : Str), Reads readStr w w → decide (w = "true".toList ∨ w = "1".toList) = b →
      Reads (readTyped "bool".toList) w (Param.bool b : Param F) := by
    intro w hw hv
    have := hw.map fun v => (Param.bool (decide (v = "true".toList ∨ v = "1".toList)) : Param F)
    rw [hv] at this
    exact this
  cases b <;> cases word
  · exact hb _ (hnat 0) (by decide)
  · exact hb _ (reads_word _ (by decide)) (by decide)
  · exact hb _ (hnat 1) (by decide)
  · exact hb _ (reads_word _ (by decide)) (by decide)

theorem ParamVal.Ok.reads {v : ParamVal} (h : v.Ok) : Reads (readTyped v.type) v.text (v.value : Param F) := by
  cases v with
  | int n => exact (reads_nat n h).map fun i => (Param.int i : Param F)
  | float x => exact (Num.Ok.reads h).map fun x => (Param.float x : Param F)
  | bool b word => exact reads_bool' b word
  | color r g b a =>
    obtain ⟨h1, h2, h3, h4⟩ := h
    exact (reads_vec4 h1.numOk h2.numOk h3.numOk h4.numOk).map fun c => (Param.color [c.x, c.y, c.z, c.w] : Param F)
  | other type t =>
    obtain ⟨h1, h2, h3⟩ := h
    have hm : ∀ k ∈ paramTypes, type ≠ k := fun k hk e => h2 (e ▸ hk)
    have : (readTyped type : P (Param F)) = (do let v ← readStr; return .str v) := by
      unfold readTyped
      iterate 4 (refine (if_neg (hm _ ?_)).trans ?_; · decide)
      rfl
    show Reads (readTyped type) _ _
    rw [this]
    exact (reads_str t h3).map fun t => (Param.str t : Param F)

theorem ParamVal.Ok.type_word {v : ParamVal} (h : v.Ok) : isWord v.type = true := by
  cases v with
  | int n => exact (by decide : isWord "int".toList = true)
  | float x => exact (by decide : isWord "float".toList = true)
  | bool b word => exact (by decide : isWord "bool".toList = true)
  | color r g b a => exact (by decide : isWord "color".toList = true)
  | other type t => exact h.1

theorem wordStart_notDigit {c : Char} (h : wordStart c = true) : c.isDigit = false := by
  cases hd : c.isDigit with
  | false => rfl
  | true =>
    exfalso
    simp only [wordStart, Bool.or_eq_true, beq_iff_eq] at h
    rcases h with h | rfl
    · simp only [Char.isAlpha, Char.isUpper, Char.isLower, Char.isDigit, Bool.or_eq_true, Bool.and_eq_true,
        decide_eq_true_eq, UInt32.le_iff_toNat_le] at h hd
      have hd2 : c.val.toNat ≤ 57 := hd.2
      rcases h with h | h
      · have : 65 ≤ c.val.toNat := h.1
        omega
      · have : 97 ≤ c.val.toNat := h.1
        omega
    · revert hd; decide

theorem readParam_src {st : Style} (hst : st.Ok) (p : ParamSrc) (hp : p.Ok) (k : Str) (s : St)
    (hs : AtWs (p.text st ++ k) s) :
    ∃ s', readTypedKeyValue s = some ((p.name.value, (p.val.value : Param F)), s') ∧ AtWs k s' := by
  obtain ⟨n, v⟩ := p
  obtain ⟨hn, hv⟩ := hp
  simp only at hn hv
  have htext : ParamSrc.text st ⟨n, v⟩ ++ k
      = st.tab ++ (n.text ++ ' ' :: (v.type ++ ' ' :: (v.text ++ (st.nl ++ k)))) := by
    simp only [ParamSrc.text, List.append_assoc, List.cons_append]
  rw [htext] at hs
  replace hs := hs.dropAll hst.tab_ws
  have hw := hv.type_word
  have hdot : v.type ≠ ['.'] := by
    intro e
    rw [e] at hw
    exact absurd hw (by decide)
  cases n with
  | one key =>
    obtain ⟨s1, e1, a1⟩ := Key.Ok.reads hn _ (stop_cons isStop_sp) s hs
    obtain ⟨s2, e2, a2⟩ := reads_ident _ hw _ (stop_cons isStop_sp) s1 (a1.drop isWs_sp)
    obtain ⟨s3, e3, a3⟩ := hv.reads (F := F) _ (hst.nl_stop k) s2 (a2.drop isWs_sp)
    refine ⟨s3, ?_, a3.dropAll hst.nl_ws⟩
    rw [readTypedKeyValue]
    simp only [P.bind_run, e1, e2, if_neg hdot, e3, P.pure_run, PName.value]
  | dotted a b =>
    obtain ⟨ha, hb⟩ := hn
    rw [PName.text, List.append_assoc, List.cons_append] at hs
    have h1 := scan_word' a _ ha (by
      intro d r h
      injection h with h _
      rw [← h, isIdent, Uni.letter_ascii _ (by decide), Uni.digit_ascii _ (by decide)]
      decide) s hs
    have e1 : readStr s = some (a, scan s) := by
      simp only [readStr]
      rw [h1]
      simp only [trimQuote_word a ha]
    set R := ' ' :: (v.type ++ ' ' :: (v.text ++ (st.nl ++ k))) with hR
    have h2 : scan (scan s) = ⟨b ++ R, 0, false, .ch '.', ['.']⟩ := by
      rw [h1]
      cases b with
      | nil => simp [isWord] at hb
      | cons c cs =>
        simp only [isWord, Bool.and_eq_true, List.all_eq_true] at hb
        have hc := wordStart_notDigit hb.1
        have hl : ('.' == '_' || Uni.letter '.') = false := by rw [Uni.letter_ascii _ (by decide)]; decide
        have ht : token ('.' :: (c :: cs ++ R)) = ⟨.ch '.', ['.'], c :: cs ++ R, 0⟩ := by
          rw [token, if_neg (by rw [hl]; decide), if_neg (by decide), if_neg (by decide), if_neg (by decide),
            if_neg (by simp [startsDigit, hc]), if_neg (by decide)]
        rw [scan_of _ _ (by decide) (by decide) _ _ _ _ (by rw [ht]), ht]
    have e2 : readIdent (scan s) = some (['.'], scan (scan s)) := by
      simp only [readIdent]
      rw [h2]
    have a2 : AtWs (b ++ R) (scan (scan s)) := by rw [h2]; exact At.ws ⟨rfl, rfl, rfl⟩
    obtain ⟨s3, e3, a3⟩ := reads_word b hb _ (stop_cons isStop_sp) _ a2
    obtain ⟨s4, e4, a4⟩ := reads_ident _ hw _ (stop_cons isStop_sp) s3 (a3.drop isWs_sp)
    obtain ⟨s5, e5, a5⟩ := hv.reads (F := F) _ (hst.nl_stop k) s4 (a4.drop isWs_sp)
    refine ⟨s5, ?_, a5.dropAll hst.nl_ws⟩
    rw [readTypedKeyValue]
    simp only [P.bind_run, e1, e2, if_true, e3, e4, e5, P.pure_run, PName.value]
    simp [readTypedKeyValue.t_dot]

theorem exEntry_piece {st : Style} (hst : st.Ok) (a : ExEntry) (ha : a.Ok) (e : Ex2 F) :
    ObjPiece ex2Attrs (a.text st) e (a.set e) := by
  cases a with
  | type t => exact objPiece_entry hst hst.tab_ws (by decide) rfl ((reads_str t ha).map
      fun t => ({ e with shaderType := t } : Ex2 F))
  | name t => exact objPiece_entry hst hst.tab_ws (by decide) rfl ((reads_str t ha).map
      fun t => ({ e with shaderName := t } : Ex2 F))
  | params l =>
    obtain ⟨h1, h2⟩ := ha
    have hr := reads_array hst (init := fun e : Ex2 F => { e with shaderParams := [] })
      (elem := fun e : Ex2 F => do
        let kv ← readTypedKeyValue
        return { e with shaderParams := setKey kv.1 kv.2 e.shaderParams })
      (ParamSrc.text st) (fun e p => { e with shaderParams := setKey p.name.value p.val.value e.shaderParams }) l e
      hst.tab_ws h1 (by
        intro p hp y k s hs
        obtain ⟨s', e', a'⟩ := readParam_src (F := F) hst p (h2 p hp) k s hs
        exact ⟨s', by simp only [P.bind_run, e', P.pure_run], a'⟩)
    have hfold : ∀ (l : List ParamSrc) (y : Ex2 F),
        l.foldl (fun e p => { e with shaderParams := setKey p.name.value p.val.value e.shaderParams }) y
          = { y with shaderParams := l.foldl (fun m p => setKey p.name.value p.val.value m) y.shaderParams } := by
      intro l
      induction l with
      | nil => intro y; rfl
      | cons v l ih => intro y; rw [List.foldl_cons, ih, List.foldl_cons]
    rw [hfold] at hr
    exact objPiece_entry hst hst.tab_ws (by decide) rfl hr
  | mapping l =>
    obtain ⟨h1, h2⟩ := ha
    have hr := reads_array hst (init := fun e : Ex2 F => { e with shaderMapping := [] })
      (elem := fun e : Ex2 F => do
        let k ← readStr
        let v ← readStr
        return { e with shaderMapping := setKey k v e.shaderMapping })
      (fun p : Key × Str => st.tab ++ (p.1.text ++ ' ' :: (quote p.2 ++ st.nl)))
      (fun e p => { e with shaderMapping := setKey p.1.value p.2 e.shaderMapping }) l e
      hst.tab_ws h1 (by
        intro p hp y k s hs
        simp only [List.append_assoc, List.cons_append] at hs
        obtain ⟨s1, e1, a1⟩ := (h2 p hp).1.reads _ (stop_cons isStop_sp) s (hs.dropAll hst.tab_ws)
        obtain ⟨s2, e2, a2⟩ := reads_str p.2 (h2 p hp).2 _ (hst.nl_stop k) s1 (a1.drop isWs_sp)
        exact ⟨s2, by simp only [P.bind_run, e1, e2, P.pure_run], a2.dropAll hst.nl_ws⟩)
    have hfold : ∀ (l : List (Key × Str)) (y : Ex2 F),
        l.foldl (fun e p => { e with shaderMapping := setKey p.1.value p.2 e.shaderMapping }) y
          = { y with shaderMapping := l.foldl (fun m p => setKey p.1.value p.2 m) y.shaderMapping } := by
      intro l
      induction l with
      | nil => intro y; rfl
      | cons v l ih => intro y; rw [List.foldl_cons, ih, List.foldl_cons]
    rw [hfold] at hr
    exact objPiece_entry hst hst.tab_ws (by decide) rfl hr
  | mappingParams map l =>
    obtain ⟨h0, h1, h2⟩ := ha
    have hr := reads_array hst (init := fun _ : List (Str × Param F) => [])
      (elem := fun m : List (Str × Param F) => do
        let kv ← readTypedKeyValue
        return setKey kv.1 kv.2 m)
      (ParamSrc.text st) (fun m p => setKey p.name.value p.val.value m) l []
      hst.tab_ws h1 (by
        intro p hp y k s hs
        obtain ⟨s', e', a'⟩ := readParam_src (F := F) hst p (h2 p hp) k s hs
        exact ⟨s', by simp only [P.bind_run, e', P.pure_run], a'⟩)
    refine objPiece_entry hst hst.tab_ws (by decide) rfl ?_
    intro k hk s hs
    rw [List.append_assoc, List.cons_append] at hs
    obtain ⟨s1, e1, a1⟩ := reads_str map h0 _ (stop_cons isStop_sp) s hs
    obtain ⟨s2, e2, a2⟩ := hr k hk s1 (a1.drop isWs_sp)
    refine ⟨s2, ?_, a2⟩
    simp only [P.bind_run, e1, e2, P.pure_run]
    rfl
  | other u => exact objPiece_unknown ex2Attrs_keys hst hst.tab_ws u ha e

theorem readMaterialEx_src {st : Style} (hst : st.Ok) (e : ExSrc) (he : e.Ok) (k : Str) (s : St)
    (hs : AtWs (e.text st ++ k) s) :
    ∃ s', readMaterialEx s = some (((e.index : Int), (e.meaning : Ex2 F)), s') ∧ AtWs k s' := by
  have htext : e.text st ++ k = st.tab ++ ("material".toList ++ ' ' :: (showNat e.index ++ ' ' ::
      (('{' :: (st.nl ++ (e.entries.flatMap (ExEntry.text st) ++ (st.tab ++ ['}'])))) ++ (st.nl ++ k)))) := by
    unfold ExSrc.text
    rewrite [show "material ".toList = "material".toList ++ [' '] from by decide,
      show " {".toList = [' ', '{'] from by decide]
    simp only [List.append_assoc, List.cons_append, List.nil_append]
  rw [htext] at hs
  set B := '{' :: (st.nl ++ (e.entries.flatMap (ExEntry.text st) ++ (st.tab ++ ['}']))) with hB
  have hsc := scan_at_word (hs.dropAll hst.tab_ws) (by decide) (stop_cons isStop_sp)
  have a1 : AtWs (showNat e.index ++ ' ' :: (B ++ (st.nl ++ k))) (scan s) := by
    rw [hsc]
    exact (At.ws ⟨rfl, rfl, rfl⟩ : AtWs (' ' :: _) _).drop isWs_sp
  obtain ⟨s2, e2, a2⟩ := reads_nat e.index he.index _ (stop_cons isStop_sp) (scan s) a1
  obtain ⟨s3, e3, a3⟩ := reads_obj (good_ex2Attrs (F := F)) hst.nl_ws
    (objs_piece (ExEntry.text st) ExEntry.set e.entries (fun a ha y => exEntry_piece hst a (he.entries a ha) y)
      (emptyEx2 (F := F))) hst.tab_ws (st.nl ++ k) (hst.nl_stop k) s2 (a2.drop isWs_sp)
  refine ⟨s3, ?_, a3.dropAll hst.nl_ws⟩
  have e1 : skip s = some ((), scan s) := rfl
  simp only [readMaterialEx, P.bind_run, e1, e2, e3, P.pure_run]
  rfl

omit [Uni] in
theorem setEx2_put (l : List (Material F)) (e : ExSrc) : setEx2 (e.index : Int) e.meaning l = e.put l := by
  unfold setEx2 ExSrc.put
  split
  · rfl
  · rename_i h
    refine (List.modify_eq_self ?_).symm
    omega

end

/-! ## Thumbnails -/

/-- The characters of a thumbnail. -/
def ThumbChar (c : Char) : Prop := isHex c = true ∨ c = ' ' ∨ c = '\t' ∨ c = '\n' ∨ c = '\r'

/-- A part of a thumbnail that is not longer than `n`, with the brace. -/
def ThumbRest (n : Nat) (k r : Str) : Prop :=
  ∃ b : Str, (∀ c ∈ b, ThumbChar c) ∧ b.length ≤ n ∧ r = b ++ '}' :: k

omit [Uni] in
theorem isHex_cases {c : Char} (h : isHex c = true) : c.isDigit = true ∨ c.isAlpha = true := by
  simp only [isHex, Bool.or_eq_true, Bool.and_eq_true, decide_eq_true_eq] at h
  rcases h with (h | h) | h
  · exact Or.inl h
  · refine Or.inr ?_
    simp only [Char.isAlpha, Char.isUpper, Char.isLower, Bool.or_eq_true, Bool.and_eq_true, decide_eq_true_eq]
    right
    have h1 : 'a'.val ≤ c.val := h.1
    have h2 : c.val ≤ 'f'.val := h.2
    simp only [UInt32.le_iff_toNat_le] at h1 h2 ⊢
    have e1 : 'a'.val.toNat = 97 := rfl
    have e2 : 'f'.val.toNat = 102 := rfl
    have e3 : 'z'.val.toNat = 122 := rfl
    have e4 : (97 : UInt32).toNat = 97 := rfl
    have e5 : (122 : UInt32).toNat = 122 := rfl
    omega
  · refine Or.inr ?_
    simp only [Char.isAlpha, Char.isUpper, Char.isLower, Bool.or_eq_true, Bool.and_eq_true, decide_eq_true_eq]
    left
    have h1 : 'A'.val ≤ c.val := h.1
    have h2 : c.val ≤ 'F'.val := h.2
    simp only [UInt32.le_iff_toNat_le] at h1 h2 ⊢
    have e1 : 'A'.val.toNat = 65 := rfl
    have e2 : 'F'.val.toNat = 70 := rfl
    have e3 : 'Z'.val.toNat = 90 := rfl
    have e4 : (65 : UInt32).toNat = 65 := rfl
    have e5 : (90 : UInt32).toNat = 90 := rfl
    omega

omit [Uni] in
theorem thumbRest_drop {p : Char → Bool} (hp : p '}' = false) {n : Nat} {k r : Str} (h : ThumbRest n k r) :
    ThumbRest n k (r.dropWhile p) := by
  obtain ⟨b, h1, h2, rfl⟩ := h
  induction b with
  | nil =>
    refine ⟨[], by simp, by simp, ?_⟩
    simp [hp]
  | cons c b ih =>
    rw [List.cons_append, List.dropWhile_cons]
    split
    · exact ih (fun d hd => h1 d (by simp [hd])) (by simp only [List.length_cons] at h2; omega)
    · exact ⟨c :: b, h1, h2, rfl⟩

omit [Uni] in
theorem thumbChar_not {c d : Char} (h : ThumbChar c) (hd : ¬ ThumbChar d) : c ≠ d := by
  rintro rfl
  exact hd h

omit [Uni] in
theorem thumbRest_head {n : Nat} {k r : Str} (h : ThumbRest n k r) (d : Char) (hd : ¬ ThumbChar d) (hb : d ≠ '}') :
    r.head? ≠ some d := by
  obtain ⟨b, h1, h2, rfl⟩ := h
  cases b with
  | nil => simpa using hb.symm
  | cons c b =>
    have := thumbChar_not (h1 c (by simp)) hd
    simpa using this

omit [Uni] in
theorem thumbRest_tail {n : Nat} {k r t : Str} {c : Char} (h : ThumbRest n k (c :: t)) (hc : c ≠ '}') :
    ThumbRest n k t := by
  obtain ⟨b, h1, h2, h3⟩ := h
  cases b with
  | nil =>
    rw [List.nil_append] at h3
    injection h3 with h3 _
    exact absurd h3 hc
  | cons d b =>
    rw [List.cons_append] at h3
    injection h3 with _ h3
    exact ⟨b, fun e he => h1 e (by simp [he]), by simp only [List.length_cons] at h2; omega, h3⟩

omit [Uni] in
theorem isDig_brace (base : Nat) : isDig base '}' = false := by
  unfold isDig
  split <;> decide

instance (c : Char) : Decidable (ThumbChar c) := by unfold ThumbChar; infer_instance

omit [Uni] in
theorem thumb_exponent {n : Nat} {k r : Str} (h : ThumbRest n k r) (he : startsExp r = true) :
    ThumbRest n k (exponent r).2 := by
  cases r with
  | nil => simp [startsExp] at he
  | cons c t =>
    have hc : c ≠ '}' := by
      rintro rfl
      simp only [startsExp] at he
      exact absurd he (by decide)
    have ht := thumbRest_tail (r := []) h hc
    have hplus := thumbRest_head ht '+' (by decide) (by decide)
    have hminus := thumbRest_head ht '-' (by decide) (by decide)
    have : exponent (c :: t) = (c :: t.takeWhile (isDig 10), t.dropWhile (isDig 10)) := by
      cases t with
      | nil => rfl
      | cons d t =>
        have h1 : d ≠ '+' := by simpa using hplus
        have h2 : d ≠ '-' := by simpa using hminus
        unfold exponent
        split
        · rename_i e; injection e with _ e; injection e with e _; exact absurd e h1
        · rename_i e; injection e with _ e; injection e with e _; exact absurd e h2
        · rename_i e; injection e with e1 e2; subst e1; subst e2; rfl
        · rename_i e; exact absurd e (by simp)
    rw [this]
    exact thumbRest_drop (isDig_brace 10) ht

omit [Uni] in
theorem thumb_numberTail (pre : List Char) (kind : Char) (base : Nat) {n : Nat} {k r : Str} (h : ThumbRest n k r) :
    ThumbRest n k (numberTail pre kind base false r).rest := by
  have h1 : ThumbRest n k (r.dropWhile (isDig base)) := thumbRest_drop (isDig_brace base) h
  have hdot := thumbRest_head h1 '.' (by decide) (by decide)
  have hd : ((r.dropWhile (isDig base)).head? == some '.') = false := by simpa using hdot
  simp only [numberTail, Bool.false_or, hd, Bool.false_eq_true, if_false, List.length_nil, List.drop_zero]
  split
  · rename_i he
    exact thumb_exponent h1 he
  · exact h1

omit [Uni] in
theorem numberTail_text (pre : List Char) (kind : Char) (base : Nat) (r : Str) :
    ∃ t, (numberTail pre kind base false r).text = pre ++ (r.takeWhile (isDig base) ++ t) := by
  simp only [numberTail, Bool.false_eq_true, if_false, List.append_assoc]
  exact ⟨_, rfl⟩

omit [Uni] in
theorem numberTail_tok (pre : List Char) (kind : Char) (base : Nat) (r : Str) :
    (numberTail pre kind base false r).tok ≠ .eof := by
  have h : ∀ b : Bool, (if b = true then Tok.int else Tok.float) ≠ .eof := by intro b; cases b <;> simp
  exact h _

omit [Uni] in
theorem thumb_number {c : Char} (hc : c.isDigit = true) {n : Nat} {k t : Str} (h : ThumbRest n k t) :
    ThumbRest n k (scanNumber (c :: t)).rest ∧ (scanNumber (c :: t)).tok ≠ .eof ∧
      ∃ u, (scanNumber (c :: t)).text = c :: u := by
  have hcb : c ≠ '}' := by rintro rfl; revert hc; decide
  have hdec : ThumbRest (n + 1) k (c :: t) := by
    obtain ⟨b, h1, h2, rfl⟩ := h
    refine ⟨c :: b, ?_, by simp [h2], rfl⟩
    intro d hd
    rcases List.mem_cons.1 hd with rfl | hd
    · exact Or.inl (by simp [isHex, hc])
    · exact h1 d hd
  unfold scanNumber
  split
  · rename_i d r e
    injection e with e1 e2
    subst e1 e2
    have tail : d ≠ '}' → ThumbRest n k r := fun hd => thumbRest_tail (r := []) h hd
    have go : ∀ (kind : Char) (base : Nat), d ≠ '}' → ThumbRest n k (numberTail ['0', d] kind base false r).rest ∧
        (numberTail ['0', d] kind base false r).tok ≠ .eof ∧ ∃ u, (numberTail ['0', d] kind base false r).text = '0' :: u := by
      intro kind base hd
      obtain ⟨u, hu⟩ := numberTail_text ['0', d] kind base r
      exact ⟨thumb_numberTail _ _ _ (tail hd), numberTail_tok _ _ _ _, ⟨_, hu⟩⟩
    split
    · rename_i hx
      exact go _ _ (by rintro rfl; revert hx; decide)
    · split
      · rename_i hx
        exact go _ _ (by rintro rfl; revert hx; decide)
      · split
        · rename_i hx
          exact go _ _ (by rintro rfl; revert hx; decide)
        · obtain ⟨u, hu⟩ := numberTail_text ['0'] '0' 8 (d :: r)
          exact ⟨thumb_numberTail _ _ _ h, numberTail_tok _ _ _ _, ⟨_, hu⟩⟩
  · rename_i e
    injection e with e1 e2
    subst e2
    obtain ⟨b, _, _, hb⟩ := h
    exact absurd hb.symm (by simp)
  · obtain ⟨u, hu⟩ := numberTail_text [] 'd' 10 (c :: t)
    have hd : isDig 10 c = true := by simp [isDig, hc]
    refine ⟨?_, numberTail_tok _ _ _ _, ?_⟩
    · have h1 : ThumbRest n k ((c :: t).dropWhile (isDig 10)) := by
        rw [List.dropWhile_cons, if_pos hd]
        exact thumbRest_drop (isDig_brace 10) h
      have hdot := thumbRest_head h1 '.' (by decide) (by decide)
      have hd : (((c :: t).dropWhile (isDig 10)).head? == some '.') = false := by simpa using hdot
      simp only [numberTail, Bool.false_or, hd, Bool.false_eq_true, if_false, List.length_nil, List.drop_zero]
      split
      · rename_i he
        exact thumb_exponent h1 he
      · exact h1
    · rw [hu, List.takeWhile_cons, if_pos hd]
      exact ⟨_, rfl⟩

/-- A token of a thumbnail. -/
theorem thumb_token {c : Char} (hc : isHex c = true) {n : Nat} {k t : Str} (h : ThumbRest n k t) :
    ThumbRest n k (token (c :: t)).rest ∧ (token (c :: t)).tok ≠ .eof ∧ ∃ u, (token (c :: t)).text = c :: u := by
  rcases isHex_cases hc with hd | ha
  · have hs : (c == '_' || Uni.letter c) = false := by
      rw [Uni.letter_ascii c (isDigit_ascii hd)]
      cases hw : (c == '_' || c.isAlpha) with
      | false => rfl
      | true =>
        have := wordStart_notDigit (c := c) (by simpa [wordStart, or_comm] using hw)
        rw [this] at hd
        exact absurd hd (by simp)
    rw [token, if_neg (by rw [hs]; simp), if_pos hd]
    exact thumb_number hd h
  · rw [token, if_pos (by rw [Uni.letter_ascii c (isAlpha_ascii ha), ha]; simp)]
    refine ⟨thumbRest_drop ?_ h, by simp, ⟨_, rfl⟩⟩
    rw [isIdent, Uni.letter_ascii _ (by decide), Uni.digit_ascii _ (by decide)]
    decide

/-- The inside of a thumbnail and its brace. -/
theorem skip_thumb (n : Nat) (k r : Str) (h : ThumbRest n k r) (tok : Tok) (text : Str) :
    ∃ m, skipBlockLoop m 0 ⟨r, 0, true, tok, text⟩ = some ⟨k, 0, false, .ch '}', ['}']⟩ := by
  induction n using Nat.strongRecOn generalizing r tok text with
  | ind n ih =>
    obtain ⟨b, h1, h2, rfl⟩ := h
    cases b with
    | nil =>
      refine ⟨1, ?_⟩
      have hsc : scan ⟨[] ++ '}' :: k, 0, true, tok, text⟩ = ⟨k, 0, true, .ch '}', ['}']⟩ :=
        scan_punct '}' (by decide) k _ _ _ _
      rw [skipBlockLoop]
      simp only [hsc]
      simp
    | cons c b =>
      have hb : ThumbRest b.length k (b ++ '}' :: k) := ⟨b, fun d hd => h1 d (by simp [hd]), le_refl _, rfl⟩
      have hlt : b.length < n := by simp only [List.length_cons] at h2; omega
      have hws : isWs c = true → ∃ m, skipBlockLoop m 0 ⟨c :: b ++ '}' :: k, 0, true, tok, text⟩
          = some ⟨k, 0, false, .ch '}', ['}']⟩ := by
        intro hw
        obtain ⟨m, hm⟩ := ih b.length hlt (b ++ '}' :: k) hb tok text
        cases m with
        | zero => simp [skipBlockLoop] at hm
        | succ m =>
          refine ⟨m + 1, ?_⟩
          rw [skipBlockLoop] at hm ⊢
          rw [List.cons_append, scan_ws c hw]
          exact hm
      rcases h1 c (by simp) with hx | rfl | rfl | rfl | rfl
      · obtain ⟨t1, t2, u, t3⟩ := thumb_token hx hb
        have hw : isWs c = false := by
          cases hw : isWs c with
          | false => rfl
          | true =>
            simp only [isWs, Bool.or_eq_true, beq_iff_eq] at hw
            rcases hw with ((rfl | rfl) | rfl) | rfl <;> revert hx <;> decide
        have hsl : c ≠ '/' := by rintro rfl; revert hx; decide
        have hb1 : skipBlank .ws (c :: (b ++ '}' :: k)) = (c :: (b ++ '}' :: k), 0) := skipBlank_of c _ hw hsl
        obtain ⟨m, hm⟩ := ih b.length hlt _ t1 (token (c :: (b ++ '}' :: k))).tok (token (c :: (b ++ '}' :: k))).text
        refine ⟨m + 1, ?_⟩
        have hsc : scan ⟨c :: b ++ '}' :: k, 0, true, tok, text⟩ = ⟨(token (c :: (b ++ '}' :: k))).rest, 0, true,
            (token (c :: (b ++ '}' :: k))).tok, (token (c :: (b ++ '}' :: k))).text⟩ := by
          simp only [scan, List.cons_append, hb1, if_true]
        rw [skipBlockLoop]
        simp only [hsc]
        rw [if_neg t2, if_neg, if_neg]
        · exact hm
        · rw [t3]; rintro e; injection e with e _; subst e; revert hx; decide
        · rw [t3]; rintro e; injection e with e _; subst e; revert hx; decide
      all_goals exact hws (by decide)

theorem skipBlock_thumb (b : Str) (hb : ∀ c ∈ b, ThumbChar c) (k : Str) (s : St) (hs : At (b ++ '}' :: k) s) :
    skipBlock s = some ((), ⟨k, 0, false, .ch '}', ['}']⟩) := by
  obtain ⟨h1, h2, -⟩ := hs
  obtain ⟨n, e⟩ := skip_thumb b.length k (b ++ '}' :: k) ⟨b, hb, le_refl _, rfl⟩ s.tok s.text
  have hst : ({ s with mute := true } : St) = ⟨b ++ '}' :: k, 0, true, s.tok, s.text⟩ := by rw [← h1, ← h2]
  rw [← hst] at e
  obtain ⟨s2, e2, -⟩ := skipBlockLoop_total (s.rest.length + 2) 0 { s with mute := true } (by simp only; omega)
  have e3 := skipBlockLoop_mono _ (max n (s.rest.length + 2)) _ _ _ e (le_max_left _ _)
  have e4 := skipBlockLoop_mono _ (max n (s.rest.length + 2)) _ _ _ e2 (le_max_right _ _)
  rw [e3] at e4
  rw [skipBlock, e2, ← e4]

end Verif.Mqo
