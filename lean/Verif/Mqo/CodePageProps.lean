import Verif.Mqo.CodePage
import Verif.Mqo.TextProps

/-! C174: the code page of Metasequoia documents. -/

namespace Verif.Mqo

open Verif.Geom Verif.Text

/-- Text in UTF-8 comes back. -/
theorem utf8_back (t : Str) : utf8Text (utf8 t) = some t := by
  unfold utf8Text utf8
  have h := List.utf8Decode?_utf8Encode (l := t)
  unfold List.utf8Encode at h
  rw [h]
  simp

theorem utf8_append (a b : Str) : utf8 (a ++ b) = utf8 a ++ utf8 b := List.flatMap_append

theorem spaceUtf8_iff (b : List UInt8) : spaceUtf8 b = true ↔
    ∃ ws post, b = ws ++ utf8 "utf8".toList ++ post ∧ ∀ w ∈ ws, isRegexpSpace w = true := by
  induction b with
  | nil =>
    simp only [spaceUtf8, Bool.false_eq_true, false_iff]
    rintro ⟨ws, post, h, -⟩
    have := congrArg List.length h
    simp [utf8, String.length_utf8EncodeChar, Char.utf8Size] at this
    omega
  | cons c bs ih =>
    rw [spaceUtf8, Bool.or_eq_true, Bool.and_eq_true, ih, List.isPrefixOf_iff_prefix]
    constructor
    · rintro (⟨post, h⟩ | ⟨hc, ws, post, h, hw⟩)
      · exact ⟨[], post, h.symm, by simp⟩
      · exact ⟨c :: ws, post, by simp [h], by simpa [hc] using hw⟩
    · rintro ⟨ws, post, h, hw⟩
      cases ws with
      | nil => left; exact ⟨post, by simpa using h.symm⟩
      | cons w ws =>
        right
        simp only [List.cons_append, List.cons.injEq] at h
        obtain ⟨rfl, h⟩ := h
        exact ⟨hw _ (by simp), ws, post, h, fun x hx => hw x (by simp [hx])⟩

theorem codePage_length : (utf8 "CodePage".toList).length = 8 := by decide +kernel

theorem codePageAt_iff (b : List UInt8) : codePageAt b = true ↔
    ∃ w ws post, b = utf8 "CodePage".toList ++ (w :: ws) ++ utf8 "utf8".toList ++ post ∧ ∀ x ∈ w :: ws, isRegexpSpace x = true := by
  unfold codePageAt
  rw [Bool.and_eq_true, List.isPrefixOf_iff_prefix]
  constructor
  · rintro ⟨⟨t, rfl⟩, h⟩
    rw [List.drop_append_of_le_length (by rw [codePage_length]), List.drop_of_length_le (by rw [codePage_length]), List.nil_append] at h
    cases t with
    | nil => simp at h
    | cons c r =>
      simp only [Bool.and_eq_true, spaceUtf8_iff] at h
      obtain ⟨hc, ws, post, rfl, hw⟩ := h
      exact ⟨c, ws, post, by simp, by simpa [hc] using hw⟩
  · rintro ⟨w, ws, post, rfl, hw⟩
    refine ⟨⟨_, by rw [List.append_assoc, List.append_assoc]⟩, ?_⟩
    rw [List.append_assoc, List.append_assoc, List.drop_append_of_le_length (by rw [codePage_length]),
      List.drop_of_length_le (by rw [codePage_length]), List.nil_append]
    simp only [List.cons_append, Bool.and_eq_true, spaceUtf8_iff]
    exact ⟨hw w (by simp), ws, post, by simp, fun x hx => hw x (by simp [hx])⟩

/-- C174: a document counts as UTF-8 exactly if the words `CodePage` and `utf8` with white space between them are within what is read
first. -/
theorem codePage_iff (b : List UInt8) : hasCodePage b = true ↔
    ∃ pre w ws post, b = pre ++ (utf8 "CodePage".toList ++ (w :: ws) ++ utf8 "utf8".toList ++ post) ∧
      ∀ x ∈ w :: ws, isRegexpSpace x = true := by
  induction b with
  | nil =>
    simp only [hasCodePage, Bool.false_eq_true, false_iff]
    rintro ⟨pre, w, ws, post, h, -⟩
    have := congrArg List.length h
    simp at this
  | cons c bs ih =>
    rw [hasCodePage, Bool.or_eq_true, codePageAt_iff, ih]
    constructor
    · rintro (⟨w, ws, post, h, hw⟩ | ⟨pre, w, ws, post, h, hw⟩)
      · exact ⟨[], w, ws, post, by simpa using h, hw⟩
      · exact ⟨c :: pre, w, ws, post, by simp [h], hw⟩
    · rintro ⟨pre, w, ws, post, h, hw⟩
      cases pre with
      | nil => left; exact ⟨w, ws, post, by simpa using h, hw⟩
      | cons p pre =>
        right
        simp only [List.cons_append, List.cons.injEq] at h
        exact ⟨pre, w, ws, post, by simpa using h.2, hw⟩

/-- The first lines of a written document, up to the code page. -/
def firstLines : Str := "Metasequoia Document\nFormat Text Ver 1.1\nCodePage utf8".toList

theorem firstLines_length : (utf8 firstLines).length = 54 := by decide +kernel

theorem firstLines_codePage (post : List UInt8) : hasCodePage (utf8 firstLines ++ post) = true := by
  rw [codePage_iff]
  refine ⟨utf8 "Metasequoia Document\nFormat Text Ver 1.1\n".toList, 32, [], post, ?_, by simp [isRegexpSpace]⟩
  have : utf8 firstLines = utf8 "Metasequoia Document\nFormat Text Ver 1.1\n".toList ++
      (utf8 "CodePage".toList ++ [32] ++ utf8 "utf8".toList) := by decide +kernel
  rw [this]
  simp only [List.append_assoc]

/-- C174: a text with the first lines that are always written is read as it was written, whatever characters follow, if the first
call of `Read` gives these lines at least. -/
theorem first_lines_read (sjis : List UInt8 → Str) (n : Nat) (t : Str) (hn : 54 ≤ n) :
    decodeText sjis n (utf8 (firstLines ++ t)) = some (firstLines ++ t) := by
  unfold decodeText
  have h : (utf8 (firstLines ++ t)).take (min n 128) = utf8 firstLines ++ (utf8 t).take (min n 128 - 54) := by
    rw [utf8_append, List.take_append, firstLines_length, List.take_of_length_le (by rw [firstLines_length]; omega)]
  rw [h, firstLines_codePage, if_pos rfl, utf8_back]

section

variable {F : Type} [Zero F] [One F] [Neg F] [Mul F] [NumText F] [Uni] [NumLaws F]

/-- C174: the bytes of a written document, with names in any language, are read back without loss. -/
theorem bytes_back [DecidableEq F] [FloatOps F] (sjis : List UInt8 → Str) (n : Nat) (d : Document F) (hd : DocOk d) (hn : 54 ≤ n) :
    parseBytes sjis n (utf8 (write d)) = some (normDoc d, 0) := by
  unfold parseBytes
  have h : ∃ t, write d = firstLines ++ t := by
    have : header = firstLines ++ "\n\n".toList := by decide +kernel
    unfold write
    rw [this, List.append_assoc]
    exact ⟨_, rfl⟩
  obtain ⟨t, h⟩ := h
  rw [h, first_lines_read sjis n t hn, Option.bind_some, ← h, write_parse d hd]

end

/-- C174: a document without a code page has no backslashes after decoding; everything else is as decoded. -/
theorem shift_jis_slashes (sjis : List UInt8 → Str) (n : Nat) (b : List UInt8) (h : hasCodePage (b.take (min n 128)) = false) :
    ∃ t, decodeText sjis n b = some t ∧ t.length = (sjis b).length ∧ '\\' ∉ t ∧
      ∀ (i : Nat) (c : Char), (sjis b)[i]? = some c → t[i]? = some (if c = '\\' then '/' else c) := by
  refine ⟨forwardSlashes (sjis b), by unfold decodeText; rw [h]; rfl, by simp [forwardSlashes], ?_, ?_⟩
  · unfold forwardSlashes
    intro hm
    rw [List.mem_map] at hm
    obtain ⟨c, -, hc⟩ := hm
    split at hc
    · exact absurd hc (by decide)
    · rename_i hn
      exact hn hc
  · intro i c hi
    unfold forwardSlashes
    rw [List.getElem?_map, hi]
    rfl

/-- A shorter beginning has no code page either. -/
theorem hasCodePage_take (b : List UInt8) (n m : Nat) (h : n ≤ m) (hm : hasCodePage (b.take m) = false) : hasCodePage (b.take n) = false := by
  cases hc : hasCodePage (b.take n) with
  | false => rfl
  | true =>
    rw [codePage_iff] at hc
    obtain ⟨pre, w, ws, post, he, hw⟩ := hc
    have : hasCodePage (b.take m) = true := by
      rw [codePage_iff]
      refine ⟨pre, w, ws, post ++ (b.take m).drop n, ?_, hw⟩
      have h1 : b.take m = b.take n ++ (b.take m).drop n := by
        conv_lhs => rw [← List.take_append_drop n (b.take m)]
        rw [List.take_take, Nat.min_eq_left h]
      refine h1.trans ?_
      rw [he]
      simp only [List.append_assoc]
    rw [this] at hm
    cases hm

/-- C174, false: if a reader gives less at first, a document in UTF-8 is decoded as Shift_JIS. -/
theorem short_read_false (sjis : List UInt8 → Str) (n : Nat) (t : Str) (hn : n < 54) :
    decodeText sjis n (utf8 (firstLines ++ t)) = some (forwardSlashes (sjis (utf8 (firstLines ++ t)))) := by
  have h53 : hasCodePage ((utf8 (firstLines ++ t)).take 53) = false := by
    have h : (utf8 (firstLines ++ t)).take 53 = (utf8 firstLines).take 53 := by
      rw [utf8_append, List.take_append, firstLines_length]
      simp
    rw [h]
    decide +kernel
  unfold decodeText
  rw [hasCodePage_take _ (min n 128) 53 (by omega) h53]
  rfl

/-- C174, false: a code page that is declared behind the first 128 bytes, as after a long comment, is not seen. -/
theorem late_code_page_false (sjis : List UInt8 → Str) (n : Nat) (pre rest : List UInt8) (hp : 128 ≤ pre.length)
    (hc : hasCodePage (pre.take 128) = false) :
    decodeText sjis n (pre ++ utf8 "CodePage utf8\n".toList ++ rest) =
      some (forwardSlashes (sjis (pre ++ utf8 "CodePage utf8\n".toList ++ rest))) := by
  have h : (pre ++ utf8 "CodePage utf8\n".toList ++ rest).take 128 = pre.take 128 := by
    rw [List.append_assoc, List.take_append_of_le_length hp]
  unfold decodeText
  rw [hasCodePage_take _ (min n 128) 128 (by omega) (by rw [h]; exact hc)]
  rfl

/-- C174, false: in UTF-8 documents backslashes stay. -/
theorem utf8_backslash_false (sjis : List UInt8 → Str) (n : Nat) (hn : 54 ≤ n) (a b : Str) :
    ∃ t, decodeText sjis n (utf8 (firstLines ++ (a ++ '\\' :: b))) = some t ∧ '\\' ∈ t :=
  ⟨_, first_lines_read sjis n _ hn, by simp⟩

/-- Examples for the hypotheses: names in Japanese with a backslash, a long comment, and a document without code page. -/
example : decodeText (fun _ => []) 128 (utf8 (firstLines ++ "\nMaterial 1 {\n\"髪\\\" }".toList)) =
    some (firstLines ++ "\nMaterial 1 {\n\"髪\\\" }".toList) := first_lines_read _ _ _ (by decide)

example : hasCodePage ((List.replicate 130 (32 : UInt8)).take 128) = false ∧ 128 ≤ (List.replicate 130 (32 : UInt8)).length := by
  decide +kernel

example : hasCodePage ((utf8 "Metasequoia Document\nFormat Text Ver 1.0\ntex(\"a\\b.png\")".toList).take (min 128 128)) = false ∧
    hasCodePage (utf8 "CodePage \t utf8".toList) = true ∧ hasCodePage (utf8 "CodePageutf8".toList) = false := by decide +kernel

end Verif.Mqo
