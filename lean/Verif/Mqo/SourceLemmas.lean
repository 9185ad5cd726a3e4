import Verif.Mqo.Source
import Verif.Mqo.TextRound2

/-! How the parser goes through the texts of `Verif.Mqo.Source`: lemmas. -/

namespace Verif.Mqo

open Verif.Geom Verif.Text

variable [Uni]

/-- As `AtWs`, for a scanner that may be muted. -/
def WsM (m : Bool) (k : Str) (s : St) : Prop :=
  ∃ ws : Str, (∀ c ∈ ws, isWs c = true) ∧ s.rest = ws ++ k ∧ s.errs = 0 ∧ s.mute = m

omit [Uni] in
theorem wsM_iff {k : Str} {s : St} : WsM false k s ↔ AtWs k s := Iff.rfl

omit [Uni] in
theorem WsM.mk' (m : Bool) (k : Str) (t : Tok) (x : Str) : WsM m k ⟨k, 0, m, t, x⟩ := ⟨[], by simp, rfl, rfl, rfl⟩

omit [Uni] in
theorem WsM.dropAll {m : Bool} {w k : Str} {s : St} (h : WsM m (w ++ k) s) (hw : ∀ c ∈ w, isWs c = true) : WsM m k s := by
  obtain ⟨ws, h1, h2, h3⟩ := h
  refine ⟨ws ++ w, ?_, by rw [h2, List.append_assoc], h3⟩
  intro c hc
  rcases List.mem_append.1 hc with hc | hc
  · exact h1 c hc
  · exact hw c hc

theorem WsM.scan_eq {m : Bool} {k : Str} {s : St} (h : WsM m k s) : scan s = scan ⟨k, 0, m, .eof, []⟩ := by
  obtain ⟨ws, h1, h2, h3, h4⟩ := h
  obtain ⟨rest, errs, mute, tok, text⟩ := s
  simp only at h2 h3 h4
  subst h2 h3 h4
  induction ws with
  | nil => exact scan_congr _ _ _ _ _ _ _
  | cons c ws ih =>
    have hc := h1 c (by simp)
    rw [List.cons_append, scan_ws c hc]
    exact ih fun d hd => h1 d (by simp [hd])

/-- What is known of a token of an item. -/
def Harmless (i : Item) (x : Str) : Prop :=
  x ≠ [')'] ∧ x ≠ ['{'] ∧ x ≠ ['}'] ∧ (isWord x = true → i = .word x)

omit [Uni] in
theorem lit_notWord {l : Lit} (h : l.Ok) : isWord l.text = false := by
  obtain ⟨c, r, h1, h2⟩ := lit_head h
  rw [h1, isWord]
  have : wordStart c = false := by
    cases hw : wordStart c with
    | false => rfl
    | true =>
      exfalso
      simp only [wordStart, Bool.or_eq_true, beq_iff_eq] at hw
      simp only [Char.isDigit, Bool.and_eq_true, decide_eq_true_eq, UInt32.le_iff_toNat_le] at h2
      rcases hw with hw | rfl
      · simp only [Char.isAlpha, Char.isUpper, Char.isLower, Bool.or_eq_true, Bool.and_eq_true, decide_eq_true_eq,
          UInt32.le_iff_toNat_le] at hw
        have e0 : (57 : Nat) = '9'.val.toNat := rfl
        have e1 : (65 : Nat) = 'A'.val.toNat := rfl
        have e2 : (97 : Nat) = 'a'.val.toNat := rfl
        have hd : c.val.toNat ≤ 57 := h2.2
        rcases hw with hw | hw
        · have : 65 ≤ c.val.toNat := hw.1
          omega
        · have : 97 ≤ c.val.toNat := hw.1
          omega
      · revert h2; decide
  rw [this]; rfl

omit [Uni] in
theorem harmless_lit {i : Item} {l : Lit} (h : l.Ok) : Harmless i l.text := by
  have hw := lit_notWord h
  obtain ⟨c, r, h1, h2⟩ := lit_head h
  refine ⟨?_, ?_, ?_, fun h => by rw [hw] at h; exact absurd h (by simp)⟩ <;>
  · rw [h1]
    intro h
    injection h with h _
    subst h
    revert h2; decide

omit [Uni] in
theorem lit_tok_ne (l : Lit) : l.tok ≠ .eof := by unfold Lit.tok; split <;> simp

omit [Uni] in
theorem word_noNl {w : Str} (h : isWord w = true) : '\n' ∉ w := by
  cases w with
  | nil => simp
  | cons c cs =>
    simp only [isWord, Bool.and_eq_true, List.all_eq_true] at h
    intro hc
    rcases List.mem_cons.1 hc with rfl | hc
    · exact absurd h.1 (by decide)
    · exact absurd (h.2 _ hc) (by decide)

omit [Uni] in
theorem item_noNl {i : Item} (h : i.Ok) : '\n' ∉ i.text := by
  cases i with
  | word w => exact word_noNl h
  | num n =>
    obtain ⟨neg, lit⟩ := n
    have h2 : '\n' ∉ lit.text := lit_noNl h
    cases neg
    · exact h2
    · simpa [Item.text, Num.text] using h2
  | str t => exact plain_noNl h

omit [Uni] in
theorem items_noNl {l : List Item} (h : ∀ i ∈ l, i.Ok) : '\n' ∉ spaced (l.map Item.text) := by
  refine spaced_noNl _ ?_
  intro w hw
  obtain ⟨i', hi', rfl⟩ := List.mem_map.1 hw
  exact item_noNl (h i' hi')

/-- A loop that goes on behind every harmless token goes on behind an item. -/
theorem item_run {m : Bool} (R : St → Prop) (i : Item) (hi : i.Ok) (k : Str) (hk : Stop k)
    (hR : ∀ s, s.tok ≠ .eof → Harmless i s.text → (∃ u, '\n' ∉ u ∧ s.rest = u ++ k) → R (scan s) → R s)
    (s : St) (hs : WsM m (i.text ++ k) s) (hn : ∀ s', WsM m k s' → R (scan s')) : R (scan s) := by
  have hlit : ∀ (j : Item) (l : Lit) (s : St), (∀ s, s.tok ≠ .eof → Harmless j s.text →
      (∃ u, '\n' ∉ u ∧ s.rest = u ++ k) → R (scan s) → R s) → l.Ok → WsM m (l.text ++ k) s → R (scan s) := by
    intro j l s hR hl hs
    have hsc : scan s = ⟨k, 0, m, l.tok, l.text⟩ := by rw [hs.scan_eq, scan_lit l hl k hk]
    rw [hsc]
    exact hR _ (lit_tok_ne l) (harmless_lit hl) ⟨[], by simp, rfl⟩ (hn _ (WsM.mk' m k _ _))
  cases i with
  | word w =>
    have hsc : scan s = ⟨k, 0, m, .ident, w⟩ := by rw [hs.scan_eq]; exact scan_word w k hi hk _ _ _ _
    rw [hsc]
    refine hR _ (by simp) ⟨?_, (word_ne hi).2, (word_ne hi).1, fun _ => rfl⟩ ⟨[], by simp, rfl⟩ (hn _ (WsM.mk' m k _ _))
    rintro rfl
    exact absurd (show isWord [')'] = true from hi) (by decide)
  | num n =>
    obtain ⟨neg, l⟩ := n
    cases neg with
    | false => exact hlit _ l s hR hi hs
    | true =>
      have hsc : scan s = ⟨l.text ++ k, 0, m, .ch '-', ['-']⟩ := by
        rw [hs.scan_eq]
        exact scan_punct '-' (by decide) (l.text ++ k) _ _ _ _
      rw [hsc]
      refine hR _ (by simp) ⟨by simp, by simp, by simp, fun h => absurd h (by simp [isWord, wordStart])⟩
        ⟨l.text, lit_noNl hi, rfl⟩ ?_
      exact hlit _ l _ hR hi (WsM.mk' m _ _ _)
  | str t =>
    have hsc : scan s = ⟨k, 0, m, .string, quote t⟩ := by
      rw [hs.scan_eq]
      have := scan_quote t k hi 0 m .eof []
      simpa [Item.text, quote] using this
    rw [hsc]
    refine hR _ (by simp) ⟨by simp [quote], by simp [quote], by simp [quote], fun h => ?_⟩ ⟨[], by simp, rfl⟩
      (hn _ (WsM.mk' m k _ _))
    simp [quote, isWord, wordStart] at h

/-! ## Unknown attributes -/

theorem attrSkipLoop_mono (line n m : Nat) (s r : St) (h : attrSkipLoop line n s = some r) (hm : n ≤ m) :
    attrSkipLoop line m s = some r := by
  induction n generalizing m s with
  | zero => simp [attrSkipLoop] at h
  | succ n ih =>
    obtain ⟨m, rfl⟩ : ∃ k, m = k + 1 := ⟨m - 1, by omega⟩
    rw [attrSkipLoop] at h ⊢
    split
    · rename_i h1
      rw [if_pos h1] at h
      split
      · rename_i h2; rwa [if_pos h2] at h
      · rename_i h2; rw [if_neg h2] at h; exact ih m _ h (by omega)
    · rename_i h1; rwa [if_neg h1] at h

/-- The values of an unknown attribute. -/
theorem attrSkip_items (line : Nat) (k : Str) (hline : k.count '\n' = line) (l : List Item) (hl : ∀ i ∈ l, i.Ok) (s : St)
    (hs : AtWs (spaced (l.map Item.text) ++ ')' :: k) s) :
    ∃ n, attrSkipLoop line n (scan s) = some ⟨k, 0, false, .ch ')', [')']⟩ := by
  induction l generalizing s with
  | nil =>
    have hsc := scan_at_punct hs (by decide)
    refine ⟨1, ?_⟩
    rw [hsc, attrSkipLoop, if_pos ⟨hline, by simp⟩, if_pos rfl]
  | cons i l ih =>
    have step : ∀ (k' : Str), Stop k' → k'.count '\n' = line → (∀ s, AtWs k' s → ∃ n, attrSkipLoop line n (scan s) =
        some ⟨k, 0, false, .ch ')', [')']⟩) → ∀ s, AtWs (i.text ++ k') s →
        ∃ n, attrSkipLoop line n (scan s) = some ⟨k, 0, false, .ch ')', [')']⟩ := by
      intro k' hk' hc hn s hs
      refine item_run (m := false) (fun s => ∃ n, attrSkipLoop line n s = some ⟨k, 0, false, .ch ')', [')']⟩) i
        (hl i (by simp)) k' hk' ?_ s hs hn
      rintro s h1 h2 ⟨u, hu, hr⟩ ⟨n, e⟩
      refine ⟨n + 1, ?_⟩
      rw [attrSkipLoop, if_pos ⟨by rw [St.lines, hr, List.count_append, List.count_eq_zero.2 hu, Nat.zero_add, hc], h1⟩,
        if_neg h2.1]
      exact e
    have hk1 : (')' :: k).count '\n' = line := by rw [List.count_cons_of_ne (by decide), hline]
    cases l with
    | nil =>
      exact step (')' :: k) (stop_cons (by decide)) hk1 (fun s hs => ih (by simp) s hs) s hs
    | cons j l =>
      have htext : spaced ((i :: j :: l).map Item.text) ++ ')' :: k
          = i.text ++ ' ' :: (spaced ((j :: l).map Item.text) ++ ')' :: k) := by simp [spaced]
      rw [htext] at hs
      have hno' := items_noNl (l := j :: l) fun i' hi' => hl i' (List.mem_cons_of_mem _ hi')
      refine step _ (stop_cons isStop_sp) ?_ ?_ s hs
      · rw [List.count_cons_of_ne (by decide), List.count_append, List.count_eq_zero.2 hno', Nat.zero_add, hk1]
      · intro s hs
        exact ih (fun i' hi' => hl i' (List.mem_cons_of_mem _ hi')) s (hs.drop isWs_sp)

/-- One attribute without a handler. -/
theorem attrPiece_skip {σ : Type} {h : Handlers σ} {name : Str} (vals : List Item) (x : σ)
    (hw : isWord name = true) (hf : h name = none) (hv : ∀ i ∈ vals, i.Ok) :
    AttrPiece h (attr name (spaced (vals.map Item.text))) x x := by
  intro k Q hk hn s hat
  obtain ⟨c, r, rfl, hc⟩ := hk
  have hno := items_noNl hv
  set value := spaced (vals.map Item.text) with hval
  have htext : attr name value ++ c :: r = ' ' :: (name ++ '(' :: (value ++ ')' :: c :: r)) := by simp [attr]
  rw [htext] at hat
  have hends : endsLine s = false := by simp [endsLine, hat.1]
  rw [AttrNext, hends, if_neg (by simp)]
  have hsc := scan_at_word (k := '(' :: (value ++ ')' :: c :: r)) (hat.ws.drop isWs_sp) hw (stop_cons (by decide))
  rw [hsc]
  have hs1 : At ('(' :: (value ++ ')' :: c :: r))
      (⟨'(' :: (value ++ ')' :: c :: r), 0, false, .ident, name⟩ : St) := ⟨rfl, rfl, rfl⟩
  have hskip := skip_at_punct hs1.ws (by decide)
  have hs2 : At (value ++ ')' :: c :: r) (⟨value ++ ')' :: c :: r, 0, false, .ch '(', ['(']⟩ : St) := ⟨rfl, rfl, rfl⟩
  have hattr : attrSkip ((c :: r).count '\n') ⟨value ++ ')' :: c :: r, 0, false, .ch '(', ['(']⟩
      = some ((), ⟨c :: r, 0, false, .ch ')', [')']⟩) := by
    obtain ⟨n, e⟩ := attrSkip_items ((c :: r).count '\n') (c :: r) rfl vals hv _ hs2.ws
    have hle := scan_le (⟨value ++ ')' :: c :: r, 0, false, .ch '(', ['(']⟩ : St)
    obtain ⟨s2, e2, -⟩ := attrSkipLoop_total ((c :: r).count '\n') ((value ++ ')' :: c :: r).length + 2)
      (scan ⟨value ++ ')' :: c :: r, 0, false, .ch '(', ['(']⟩) (by simp only at hle; omega)
    have e3 := attrSkipLoop_mono _ _ (max n ((value ++ ')' :: c :: r).length + 2)) _ _ e (le_max_left _ _)
    have e4 := attrSkipLoop_mono _ _ (max n ((value ++ ')' :: c :: r).length + 2)) _ _ e2 (le_max_right _ _)
    rw [e3] at e4
    rw [attrSkip, e2, ← e4]
  have hbody : attrBody h ((c :: r).count '\n') name x ⟨'(' :: (value ++ ')' :: c :: r), 0, false, .ident, name⟩
      = some (x, ⟨c :: r, 0, false, .ch ')', [')']⟩) := by
    rw [attrBody, hf]
    simp only [P.bind_run, hskip, hattr, P.pure_run]
  have hlines : (⟨'(' :: (value ++ ')' :: c :: r), 0, false, .ident, name⟩ : St).lines = (c :: r).count '\n' := by
    simp only [St.lines]
    rw [List.count_cons_of_ne (by decide), List.count_append, List.count_eq_zero.2 hno, Nat.zero_add,
      List.count_cons_of_ne (by decide)]
  have hnext := hn ⟨c :: r, 0, false, .ch ')', [')']⟩ ⟨rfl, rfl, rfl⟩
  rw [AttrNext] at hnext
  split at hnext
  · rename_i he
    refine ⟨1, x, _, ?_, hnext⟩
    rw [attrLoop, if_pos ⟨hlines, by simp⟩, hbody]
    simp only [he, if_true]
  · rename_i he
    obtain ⟨n, x2, s2, e2, q2⟩ := hnext
    refine ⟨n + 1, x2, s2, ?_, q2⟩
    rw [attrLoop, if_pos ⟨hlines, by simp⟩, hbody]
    simp only [if_neg he, e2]

/-- The attributes of a line, one after the other. -/
theorem attrs_piece {σ β : Type} {h : Handlers σ} (txt : β → Str) (step : σ → β → σ) (l : List β)
    (hp : ∀ b ∈ l, ∀ x, AttrPiece h (txt b) x (step x b)) (hs : ∀ b ∈ l, Spaced (txt b)) (x : σ) :
    AttrPiece h (l.flatMap txt) x (l.foldl step x) ∧ Spaced (l.flatMap txt) := by
  induction l generalizing x with
  | nil => exact ⟨AttrPiece.refl h x, ⟨Or.inl rfl, by simp⟩⟩
  | cons b l ih =>
    obtain ⟨h1, h2⟩ := ih (fun c hc => hp c (by simp [hc])) (fun c hc => hs c (by simp [hc])) (step x b)
    rw [List.flatMap_cons, List.foldl_cons]
    exact ⟨(hp b (by simp) x).trans h1 h2, (hs b (by simp)).append h2⟩

/-! ## Line ends -/

omit [Uni] in
theorem Style.Ok.nl_ws {st : Style} (h : st.Ok) : ∀ c ∈ st.nl, isWs c = true := by
  rcases h.nl with e | e <;> rw [e] <;> decide

omit [Uni] in
theorem Style.Ok.tab_ws {st : Style} (h : st.Ok) : ∀ c ∈ st.tab, isWs c = true := by
  intro c hc
  rcases h.tab c hc with rfl | rfl <;> decide

omit [Uni] in
theorem Style.Ok.nl_stop {st : Style} (h : st.Ok) (k : Str) : Stop (st.nl ++ k) := by
  rcases h.nl with e | e <;> rw [e]
  · exact (by decide : isStop '\n' = true)
  · exact (by decide : isStop '\r' = true)

omit [Uni] in
theorem Style.Ok.nl_cons {st : Style} (h : st.Ok) : ∃ c r, st.nl = c :: r ∧ (c = '\n' ∨ c = '\r') := by
  rcases h.nl with e | e <;> rw [e]
  · exact ⟨_, _, rfl, Or.inl rfl⟩
  · exact ⟨_, _, rfl, Or.inr rfl⟩

omit [Uni] in
theorem ws_stop {w : Str} (hne : w ≠ []) (hw : ∀ c ∈ w, c = ' ' ∨ c = '\t' ∨ c = '\n' ∨ c = '\r') (k : Str) :
    Stop (w ++ k) ∧ ∀ c ∈ w, isWs c = true := by
  obtain ⟨c, r, rfl⟩ := List.exists_cons_of_ne_nil hne
  refine ⟨?_, ?_⟩
  · show isStop c = true
    rcases hw c (by simp) with rfl | rfl | rfl | rfl <;> decide
  · intro d hd
    rcases hw d hd with rfl | rfl | rfl | rfl <;> decide

/-! ## Unknown entries -/

theorem skipBlockLoop_mono (n m d : Nat) (s r : St) (h : skipBlockLoop n d s = some r) (hm : n ≤ m) :
    skipBlockLoop m d s = some r := by
  induction n generalizing m d s with
  | zero => simp [skipBlockLoop] at h
  | succ n ih =>
    obtain ⟨m, rfl⟩ : ∃ k, m = k + 1 := ⟨m - 1, by omega⟩
    rw [skipBlockLoop] at h ⊢
    split
    · rename_i h1; rwa [if_pos h1] at h
    · rename_i h1
      rw [if_neg h1] at h
      split
      · rename_i h2
        rw [if_pos h2] at h
        split
        · rename_i h3; rwa [if_pos h3] at h
        · rename_i h3; rw [if_neg h3] at h; exact ih m _ _ h (by omega)
      · rename_i h2
        rw [if_neg h2] at h
        split
        · rename_i h3; rw [if_pos h3] at h; exact ih m _ _ h (by omega)
        · rename_i h3; rw [if_neg h3] at h; exact ih m _ _ h (by omega)

/-- The inside of an unknown block and its brace. -/
theorem skipBlock_inner (l : List (Inner × Str)) (hl : InnerOk l) (d : Nat) (hb : Balanced d l) (m : Bool) (k : Str)
    (s : St) (hs : WsM m (innerText l ++ '}' :: k) s) :
    ∃ n, skipBlockLoop n d s = some ⟨k, 0, false, .ch '}', ['}']⟩ := by
  induction l generalizing d m s with
  | nil =>
    obtain rfl : d = 0 := hb
    have hsc : scan s = ⟨k, 0, m, .ch '}', ['}']⟩ := by
      rw [hs.scan_eq]; exact scan_punct '}' (by decide) k _ _ _ _
    refine ⟨1, ?_⟩
    rw [skipBlockLoop]
    simp only [hsc]
    simp
  | cons p l ih =>
    obtain ⟨t, w⟩ := p
    have ht := hl (t, w) (by simp)
    have hl' : InnerOk l := fun q hq => hl q (by simp [hq])
    have hw := ws_stop ht.2.1 ht.2.2 (innerText l ++ '}' :: k)
    have htext : innerText ((t, w) :: l) ++ '}' :: k = t.text ++ (w ++ (innerText l ++ '}' :: k)) := by
      simp [innerText]
    rw [htext] at hs
    cases t with
    | item i =>
      have := item_run (m := m)
        (fun t => ∀ s0, scan s0 = t → ∃ n, skipBlockLoop n d s0 = some ⟨k, 0, false, .ch '}', ['}']⟩)
        i ht.1 _ hw.1 (by
          intro t h1 h2 _ hR s0 h0
          obtain ⟨n, e⟩ := hR t rfl
          refine ⟨n + 1, ?_⟩
          rw [skipBlockLoop]
          simp only [h0]
          rw [if_neg h1, if_neg h2.2.2.1, if_neg h2.2.1]
          exact e) s hs (by
          intro s' hs' s0 h0
          obtain ⟨n, e⟩ := ih hl' d hb m s' (hs'.dropAll hw.2)
          refine ⟨n, ?_⟩
          cases n with
          | zero => simp [skipBlockLoop] at e
          | succ n =>
            rw [skipBlockLoop] at e ⊢
            simp only [h0]
            exact e)
      exact this s rfl
    | opening =>
      have hsc : scan s = ⟨w ++ (innerText l ++ '}' :: k), 0, m, .ch '{', ['{']⟩ := by
        rw [hs.scan_eq]; exact scan_punct '{' (by decide) _ _ _ _ _
      obtain ⟨n, e⟩ := ih hl' (d + 1) hb true ⟨w ++ (innerText l ++ '}' :: k), 0, true, .ch '{', ['{']⟩
        ((WsM.mk' _ _ _ _).dropAll hw.2)
      refine ⟨n + 1, ?_⟩
      rw [skipBlockLoop]
      simp only [hsc]
      rw [if_neg (by simp), if_neg (by simp), if_pos trivial]
      exact e
    | closing =>
      have hsc : scan s = ⟨w ++ (innerText l ++ '}' :: k), 0, m, .ch '}', ['}']⟩ := by
        rw [hs.scan_eq]; exact scan_punct '}' (by decide) _ _ _ _ _
      cases d with
      | zero => exact hb.elim
      | succ d =>
        obtain ⟨n, e⟩ := ih hl' d hb false ⟨w ++ (innerText l ++ '}' :: k), 0, false, .ch '}', ['}']⟩
          ((WsM.mk' _ _ _ _).dropAll hw.2)
        refine ⟨n + 1, ?_⟩
        rw [skipBlockLoop]
        simp only [hsc]
        rw [if_neg (by simp), if_pos trivial, if_neg (by simp), Nat.add_sub_cancel]
        exact e

theorem skipBlock_reads (l : List (Inner × Str)) (hl : InnerOk l) (hb : Balanced 0 l) (k : Str)
    (s : St) (hs : AtWs (innerText l ++ '}' :: k) s) : skipBlock s = some ((), ⟨k, 0, false, .ch '}', ['}']⟩) := by
  obtain ⟨ws, h1, h2, h3, -⟩ := hs
  have hs' : WsM true (innerText l ++ '}' :: k) { s with mute := true } := ⟨ws, h1, h2, h3, rfl⟩
  obtain ⟨n, e⟩ := skipBlock_inner l hl 0 hb true k _ hs'
  obtain ⟨s2, e2, -⟩ := skipBlockLoop_total (s.rest.length + 2) 0 { s with mute := true } (by simp only; omega)
  have e3 := skipBlockLoop_mono _ (max n (s.rest.length + 2)) _ _ _ e (le_max_left _ _)
  have e4 := skipBlockLoop_mono _ (max n (s.rest.length + 2)) _ _ _ e2 (le_max_right _ _)
  rw [e3] at e4
  rw [skipBlock, e2, ← e4]

/-- The handlers are for the keys `known`. -/
def KeysOf {σ : Type} (h : Handlers σ) (known : List Str) : Prop :=
  (∀ w, (h w).isSome = true → w ∈ known) ∧ ∀ w ∈ known, isWord w = true

omit [Uni] in
theorem KeysOf.harmless {σ : Type} {h : Handlers σ} {known : List Str} (hk : KeysOf h known) {i : Item} (hn : i.Not known)
    {x : Str} (hx : Harmless i x) : h x = none := by
  cases hf : h x with
  | none => rfl
  | some f =>
    exfalso
    have hm := hk.1 x (by rw [hf]; rfl)
    rw [hx.2.2.2 (hk.2 x hm)] at hn
    exact hn hm

theorem items_obj {σ : Type} {h : Handlers σ} {known : List Str} (hk : KeysOf h known) (vals : List Item)
    (hv : ∀ i ∈ vals, i.Ok ∧ i.Not known) (x : σ) (k : Str) (hkk : Stop k) (Q : σ → St → Prop)
    (hn : ∀ s, AtWs k s → ObjWp h x (scan s) Q) (s : St) (hs : AtWs (itemsText vals ++ k) s) : ObjWp h x (scan s) Q := by
  induction vals generalizing s with
  | nil => exact hn s hs
  | cons i l ih =>
    have ih := ih fun j hj => hv j (by simp [hj])
    have htext : itemsText (i :: l) ++ k = ' ' :: (i.text ++ (itemsText l ++ k)) := by simp [itemsText]
    rw [htext] at hs
    have hstop : Stop (itemsText l ++ k) := by
      cases l with
      | nil => exact hkk
      | cons j l => exact isStop_sp
    refine item_run (m := false) (fun s => ObjWp h x s Q) i (hv i (by simp)).1 _ hstop ?_ s (hs.drop isWs_sp) ih
    intro s h1 h2 _ hR
    refine objWp_step h1 h2.2.2.1 ?_ hR
    rw [objBody, if_neg h2.2.1, hk.harmless (hv i (by simp)).2 h2]

/-- An entry without a handler changes nothing. -/
theorem objPiece_unknown {σ : Type} {h : Handlers σ} {known : List Str} (hk : KeysOf h known) {st : Style} (hst : st.Ok)
    {ind : Str} (hi : ∀ c ∈ ind, isWs c = true) (u : Unknown) (hu : u.Ok known) (x : σ) :
    ObjPiece h (u.text st ind) x x := by
  intro k Q hn s hs
  have key : ∀ (key : Str) (vals : List Item) (k' : Str), isWord key = true → key ∉ known →
      (∀ i ∈ vals, i.Ok ∧ i.Not known) → Stop k' → (∀ s, AtWs k' s → ObjWp h x (scan s) Q) →
      ∀ s, AtWs (ind ++ (key ++ (itemsText vals ++ k'))) s → ObjWp h x (scan s) Q := by
    intro key vals k' h1 h2 h3 h4 h5 s hs
    have hstop : Stop (itemsText vals ++ k') := by
      cases vals with
      | nil => exact h4
      | cons j l => exact isStop_sp
    refine item_run (m := false) (fun s => ObjWp h x s Q) (.word key) h1 _ hstop ?_ s (hs.dropAll hi)
      (items_obj hk vals h3 x k' h4 Q h5)
    intro s g1 g2 _ hR
    refine objWp_step g1 g2.2.2.1 ?_ hR
    rw [objBody, if_neg g2.2.1, hk.harmless (i := .word key) h2 g2]
  cases u with
  | line name vals =>
    obtain ⟨h1, h2, h3⟩ := hu
    have htext : Unknown.text st ind (.line name vals) ++ k = ind ++ (name ++ (itemsText vals ++ (st.nl ++ k))) := by
      simp [Unknown.text]
    rw [htext] at hs
    exact key name vals _ h1 h2 h3 (hst.nl_stop k) (fun s hs => hn s (hs.dropAll hst.nl_ws)) s hs
  | block name vals body =>
    obtain ⟨h1, h2, h3, h4, h5⟩ := hu
    have htext : Unknown.text st ind (.block name vals body) ++ k
        = ind ++ (name ++ (itemsText vals ++ (' ' :: '{' :: (st.nl ++ (innerText body ++ '}' :: (st.nl ++ k)))))) := by
      simp [Unknown.text]
    rw [htext] at hs
    refine key name vals _ h1 h2 h3 (stop_cons isStop_sp) ?_ s hs
    intro s hs
    have hsc := scan_at_punct (hs.drop isWs_sp) (by decide)
    rw [hsc]
    have hsk := skipBlock_reads body h4 h5 (st.nl ++ k)
      ⟨st.nl ++ (innerText body ++ '}' :: (st.nl ++ k)), 0, false, .ch '{', ['{']⟩
      ((At.ws ⟨rfl, rfl, rfl⟩ : AtWs (st.nl ++ (innerText body ++ '}' :: (st.nl ++ k))) _).dropAll hst.nl_ws)
    refine objWp_step (x' := x) (s' := ⟨st.nl ++ k, 0, false, .ch '}', ['}']⟩) (by simp) (by simp) ?_
      (hn _ ((At.ws ⟨rfl, rfl, rfl⟩ : AtWs (st.nl ++ k) _).dropAll hst.nl_ws))
    rw [objBody, if_pos rfl, hsk]
    simp only
    cases hf : h ['}'] with
    | none => rfl
    | some f => exact absurd (hk.2 _ (hk.1 ['}'] (by rw [hf]; rfl))) (by decide)

/-! ## Known entries -/

/-- `indent key value line-end`, where `key` has a handler. -/
theorem objPiece_entry {σ : Type} {h : Handlers σ} {st : Style} (hst : st.Ok) {ind key value : Str} {f : σ → P σ} {x x' : σ}
    (hi : ∀ c ∈ ind, isWs c = true) (hw : isWord key = true) (hf : h key = some f) (hr : Reads (f x) value x') :
    ObjPiece h (st.entry ind key value) x x' := by
  intro k Q hn s hs
  have htext : st.entry ind key value ++ k = ind ++ (key ++ ' ' :: (value ++ (st.nl ++ k))) := by simp [Style.entry]
  rw [htext] at hs
  have hsc := scan_at_word (hs.dropAll hi) hw (stop_cons isStop_sp)
  rw [hsc]
  have hat : At (' ' :: (value ++ (st.nl ++ k))) (⟨' ' :: (value ++ (st.nl ++ k)), 0, false, .ident, key⟩ : St) :=
    ⟨rfl, rfl, rfl⟩
  obtain ⟨s', e', a'⟩ := hr (st.nl ++ k) (hst.nl_stop k) _ (hat.ws.drop isWs_sp)
  refine objWp_step (by simp) (word_ne hw).1 ?_ (hn s' (a'.dropAll hst.nl_ws))
  rw [objBody, if_neg (word_ne hw).2]
  simp only [hf, e']

/-- A block in braces, with any white space behind the first. -/
theorem reads_obj {σ : Type} {h : Handlers σ} (hh : GoodH h) {nl w ind : Str} (hnl : ∀ c ∈ nl, isWs c = true) {x x' : σ}
    (hp : ObjPiece h w x x') (hi : ∀ c ∈ ind, isWs c = true) :
    Reads (procObj h x) ('{' :: (nl ++ (w ++ (ind ++ ['}'])))) x' := by
  intro k hk s hs
  have htext : '{' :: (nl ++ (w ++ (ind ++ ['}']))) ++ k = '{' :: (nl ++ (w ++ (ind ++ '}' :: k))) := by simp
  rw [htext] at hs
  have hsc := scan_at_punct hs (by decide)
  have hat : AtWs (w ++ (ind ++ '}' :: k)) (scan s) := by
    rw [hsc]
    exact (At.ws ⟨rfl, rfl, rfl⟩ : AtWs (nl ++ (w ++ (ind ++ '}' :: k))) _).dropAll hnl
  have := hp (ind ++ '}' :: k) (fun y s' => y = x' ∧ AtWs k s') (by
    intro s' hs'
    have hsc' := scan_at_punct (hs'.dropAll hi) (by decide)
    refine ⟨1, x', scan s', ?_, rfl, ?_⟩
    · rw [objLoop, if_neg (by rw [hsc']; simp), if_pos (by rw [hsc'])]
    · rw [hsc']; exact At.ws ⟨rfl, rfl, rfl⟩) (scan s) hat
  obtain ⟨n, y, s', hrun, rfl, hs'⟩ := this
  refine ⟨s', ?_, hs'⟩
  simp only [procObj]
  obtain ⟨x2, s2, h2, _⟩ := objLoop_total hh ((scan s).rest.length + 2) x (scan (scan s))
    (by have := scan_le (scan s); omega)
  have e1 := objLoop_mono h _ (max n ((scan s).rest.length + 2)) _ _ _ hrun (le_max_left _ _)
  have e2 := objLoop_mono h _ (max n ((scan s).rest.length + 2)) _ _ _ h2 (le_max_right _ _)
  rw [e1] at e2
  rw [h2, ← e2]

/-- A counted array in braces. -/
theorem reads_array {σ β : Type} {st : Style} (hst : st.Ok) {init : σ → σ} {elem : σ → P σ} (txt : β → Str)
    (step : σ → β → σ) (l : List β) (x : σ) {ind : Str} (hi : ∀ c ∈ ind, isWs c = true) (hn : l.length ≤ maxInt)
    (h : ∀ b ∈ l, ∀ (y : σ) (k : Str) (s : St), AtWs (txt b ++ k) s →
      ∃ s', elem y s = some (step y b, s') ∧ AtWs k s') :
    Reads (procArray init elem x) (st.array ind txt l) (l.foldl step (init x)) := by
  intro k hk s hs
  have htext : st.array ind txt l ++ k
      = showNat l.length ++ ' ' :: ('{' :: (st.nl ++ (l.flatMap txt ++ (ind ++ '}' :: k)))) := by simp [Style.array]
  rw [htext] at hs
  obtain ⟨s1, h1, a1⟩ := reads_nat l.length hn _ (stop_cons isStop_sp) s hs
  have h2 := skip_at_punct (a1.drop isWs_sp) (by decide)
  have a2 : AtWs (l.flatMap txt ++ (ind ++ '}' :: k))
      (⟨st.nl ++ (l.flatMap txt ++ (ind ++ '}' :: k)), 0, false, .ch '{', ['{']⟩ : St) :=
    (At.ws ⟨rfl, rfl, rfl⟩ : AtWs (st.nl ++ (l.flatMap txt ++ (ind ++ '}' :: k))) _).dropAll hst.nl_ws
  obtain ⟨s3, h3, a3⟩ := arrLoop_reads txt step l (init x) h _ _ a2
  have h4 := skip_at_punct (a3.dropAll hi) (by decide)
  refine ⟨⟨k, 0, false, .ch '}', ['}']⟩, ?_, At.ws ⟨rfl, rfl, rfl⟩⟩
  simp only [procArray, P.bind_run, h1, h2, Int.toNat_natCast, h3, h4, P.pure_run]

/-- The entries of a block, one after the other. -/
theorem objs_piece {σ β : Type} {h : Handlers σ} (txt : β → Str) (step : σ → β → σ) (l : List β)
    (hp : ∀ b ∈ l, ∀ x, ObjPiece h (txt b) x (step x b)) (x : σ) : ObjPiece h (l.flatMap txt) x (l.foldl step x) := by
  induction l generalizing x with
  | nil => exact ObjPiece.refl h x
  | cons b l ih =>
    rw [List.flatMap_cons, List.foldl_cons]
    exact (hp b (by simp) x).trans (ih (fun c hc => hp c (by simp [hc])) _)

section
variable {F : Type} [Zero F] [One F] [Neg F] [Mul F] [NumText F]

omit [Uni] [Zero F] in
theorem Num.Ok.numOk {n : Num} (h : n.Ok) : NumOk n.text (n.value : F) := by
  obtain ⟨neg, l⟩ := n
  cases neg
  · exact ⟨l, h, Or.inl ⟨rfl, rfl⟩⟩
  · exact ⟨l, h, Or.inr ⟨rfl, rfl⟩⟩

theorem Num.Ok.reads {n : Num} (h : n.Ok) : Reads readFloat n.text (n.value : F) := reads_num h.numOk

theorem Num3.Ok.reads {n : Num3} (h : n.Ok) : Reads readVec3 n.text (n.value : Vec3 F) :=
  reads_vec3 h.1.numOk h.2.1.numOk h.2.2.numOk

omit [Uni] in
theorem Num.Ok.noNl {n : Num} (h : n.Ok) : '\n' ∉ n.text := item_noNl (i := .num n) h

omit [Uni] in
theorem Num3.Ok.noNl {n : Num3} (h : n.Ok) : '\n' ∉ n.text := by
  simp [Num3.text, h.1.noNl, h.2.1.noNl, h.2.2.noNl]

omit [Uni] in
theorem KeysOf.not {σ : Type} {h : Handlers σ} {known : List Str} (hk : KeysOf h known) {w : Str} (hn : w ∉ known) :
    h w = none := by
  cases hf : h w with
  | none => rfl
  | some f => exact absurd (hk.1 w (by rw [hf]; rfl)) hn

end

end Verif.Mqo
