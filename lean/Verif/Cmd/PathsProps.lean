import Verif.Cmd.Paths
import Mathlib.Data.List.Nodup
import Mathlib.Data.Nat.Digits.Defs

/-! Theorems about paths (C166, C167). -/

namespace Verif.Cmd
open Verif.Mqo (Str)

/-! ### Paths -/

/-- A part that names something in its directory. -/
def Named (c : Str) : Prop := c ≠ [] ∧ c ≠ ['.'] ∧ c ≠ ['.', '.']

theorem cleanStep_named (abs : Bool) (st : List Str) (c : Str) (h : Named c) : cleanStep abs st c = c :: st := by
  unfold cleanStep
  rw [if_neg (by rintro (e | e); exacts [h.1 e, h.2.1 e]), if_neg h.2.2]

theorem foldl_named (abs : Bool) : ∀ (l st : List Str), (∀ c ∈ l, Named c) →
    l.foldl (cleanStep abs) st = l.reverse ++ st := by
  intro l
  induction l with
  | nil => intro st _; rfl
  | cons c l ih =>
    intro st h
    rw [List.foldl_cons, cleanStep_named abs st c (h c (by simp)), ih _ fun x hx => h x (by simp [hx])]
    simp

theorem cleanParts_named (abs : Bool) (l : List Str) (h : ∀ c ∈ l, Named c) : cleanParts abs l = l := by
  unfold cleanParts
  rw [foldl_named abs l [] h]
  simp

theorem cleanStep_length (st : List Str) (c : Str) (h : ['.', '.'] ∉ st) :
    ['.', '.'] ∉ cleanStep true st c ∧
      (cleanStep true st c).length ≤ st.length + (if c = ['.', '.'] then 0 else 1) := by
  unfold cleanStep
  by_cases h1 : c = [] ∨ c = ['.']
  · rw [if_pos h1]
    exact ⟨h, by omega⟩
  · rw [if_neg h1]
    by_cases h2 : c = ['.', '.']
    · rw [if_pos h2, if_pos h2]
      cases st with
      | nil => exact ⟨by simp, by simp⟩
      | cons x r =>
        simp only
        rw [if_neg (fun e => h (by simp [e]))]
        exact ⟨fun hx => h (by simp [hx]), by simp⟩
    · rw [if_neg h2, if_neg h2]
      refine ⟨?_, by simp⟩
      intro hx
      rcases List.mem_cons.mp hx with e | e
      · exact h2 e.symm
      · exact h e

theorem cleanParts_length (l : List Str) :
    (cleanParts true l).length ≤ (l.filter fun c => c ≠ ['.', '.']).length := by
  have : ∀ (l st : List Str), ['.', '.'] ∉ st →
      (l.foldl (cleanStep true) st).length ≤ st.length + (l.filter fun c => c ≠ ['.', '.']).length := by
    intro l
    induction l with
    | nil => intro st _; simp
    | cons c l ih =>
      intro st h
      obtain ⟨h1, h2⟩ := cleanStep_length st c h
      have h3 := ih _ h1
      rw [List.foldl_cons]
      by_cases hc : c = ['.', '.']
      · rw [List.filter_cons_of_neg (by simpa using hc)]
        rw [if_pos hc] at h2
        omega
      · rw [List.filter_cons_of_pos (by simpa using hc), List.length_cons]
        rw [if_neg hc] at h2
        omega
  unfold cleanParts
  rw [List.length_reverse]
  simpa using this l [] (by simp)

theorem stripCommon_suffix : ∀ a b : List Str, (∃ x, a = x ++ (stripCommon a b).1) ∧ (∃ y, b = y ++ (stripCommon a b).2) := by
  intro a
  induction a with
  | nil => intro b; exact ⟨⟨[], by cases b <;> rfl⟩, ⟨[], by cases b <;> rfl⟩⟩
  | cons c a ih =>
    intro b
    cases b with
    | nil => exact ⟨⟨[], rfl⟩, ⟨[], rfl⟩⟩
    | cons d b =>
      unfold stripCommon
      split
      · obtain ⟨⟨x, hx⟩, ⟨y, hy⟩⟩ := ih b
        refine ⟨⟨c :: x, ?_⟩, ⟨d :: y, ?_⟩⟩
        · rw [List.cons_append, ← hx]
        · rw [List.cons_append, ← hy]
      · exact ⟨⟨[], rfl⟩, ⟨[], rfl⟩⟩

/-! ### C166: a `.glb` file is complete -/

/-- What one image becomes: it is embedded with the content of `file`, if there is one. -/
def Embedded (m : GImage) (file : Option Data) (views : List Data) (r : GImage) : Prop :=
  (∀ d, m.view = none → m.uri ≠ [] → file = some d →
    r.uri = [] ∧ (m.mime ≠ [] → r.mime = m.mime) ∧ r.mime ≠ [] ∧ ∃ k, r.view = some k ∧ views[k]? = some d) ∧
  ((m.view ≠ none ∨ m.uri = [] ∨ file = none) → r = m)

theorem embedImage_spec (fs : List Str → Option Data) (cwd : List Str) (srcDir : Str) (m : GImage) (views : List Data) :
    (∃ more, (embedImage fs cwd srcDir m views).2 = views ++ more) ∧
    ∀ more, Embedded m (openImage fs cwd srcDir m.uri) ((embedImage fs cwd srcDir m views).2 ++ more)
      (embedImage fs cwd srcDir m views).1 := by
  unfold embedImage
  by_cases h : m.view = none ∧ m.uri ≠ []
  · rw [if_pos h]
    cases ho : openImage fs cwd srcDir m.uri with
    | none => exact ⟨⟨[], by simp⟩, fun more => ⟨(fun d _ _ hd => by cases hd), (fun _ => rfl)⟩⟩
    | some d =>
      refine ⟨⟨[d], rfl⟩, fun more => ⟨?_, ?_⟩⟩
      · intro d' _ _ hd
        cases hd
        refine ⟨rfl, ?_, ?_, views.length, rfl, by simp⟩
        · intro hm
          simp [imageMime, hm]
        · simp only [imageMime]
          split
          · split <;> decide
          · assumption
      · rintro (h1 | h1 | h1)
        · exact absurd h.1 h1
        · exact absurd h1 h.2
        · cases h1
  · rw [if_neg h]
    refine ⟨⟨[], by simp⟩, fun more => ⟨fun d h1 h2 _ => absurd ⟨h1, h2⟩ h, fun _ => rfl⟩⟩

theorem toSingleFile_spec (fs : List Str → Option Data) (cwd : List Str) (srcDir : Str) (ms : List GImage) :
    ∀ views, (toSingleFile fs cwd srcDir ms views).1.length = ms.length ∧
    (∃ more, (toSingleFile fs cwd srcDir ms views).2 = views ++ more) ∧
    ∀ (i : Nat) m r, ms[i]? = some m → (toSingleFile fs cwd srcDir ms views).1[i]? = some r →
      Embedded m (openImage fs cwd srcDir m.uri) (toSingleFile fs cwd srcDir ms views).2 r := by
  induction ms with
  | nil => intro views; exact ⟨rfl, ⟨[], by simp [toSingleFile]⟩, by simp⟩
  | cons x ms ih =>
    intro views
    obtain ⟨⟨m1, e1⟩, e2⟩ := embedImage_spec fs cwd srcDir x views
    obtain ⟨l, ⟨m2, e3⟩, e4⟩ := ih (embedImage fs cwd srcDir x views).2
    simp only [toSingleFile]
    refine ⟨by simp [l], ⟨m1 ++ m2, by rw [e3, e1, List.append_assoc]⟩, ?_⟩
    intro i m r hm hr
    cases i with
    | zero =>
      simp only [List.getElem?_cons_zero, Option.some.injEq] at hm hr
      subst hm hr
      rw [e3]
      exact e2 m2
    | succ i => exact e4 i m r (by simpa using hm) (by simpa using hr)

/-- C166 (partial): if the source is in the directory the program runs in, the images with a relative path whose files
can be read are embedded with the content of their files, and all others stay as they are; so does what was in the file
before. Missing: other directories, see `other_directory_false`. -/
theorem single_file_partial (fs : List Str → Option Data) (cwd : List Str) (ms : List GImage) (views : List Data)
    (i : Nat) (m : GImage) (hm : ms[i]? = some m) (hrel : m.uri.head? ≠ some '/')  :
    ∃ r more, (toSingleFile fs cwd ".".toList ms views).1[i]? = some r ∧
      (toSingleFile fs cwd ".".toList ms views).2 = views ++ more ∧
      Embedded m (fs (locate cwd (clean m.uri))) (views ++ more) r := by
  obtain ⟨l, ⟨more, h1⟩, h2⟩ := toSingleFile_spec fs cwd ".".toList ms views
  have hi : i < (toSingleFile fs cwd ".".toList ms views).1.length := by
    rw [l]; exact (List.getElem?_eq_some_iff.mp hm).1
  refine ⟨_, more, List.getElem?_eq_getElem hi, h1, ?_⟩
  have h3 := h2 i m _ hm (List.getElem?_eq_getElem hi)
  have ho : openImage fs cwd ".".toList m.uri = fs (locate cwd (clean m.uri)) := by
    have hc : clean ".".toList = ⟨false, []⟩ := by decide
    have ha : (clean m.uri).abs = false := by simp [clean, hrel]
    have hs : ∀ t : List Str, stripCommon [] t = ([], t) := by intro t; cases t <;> rfl
    unfold openImage relPath
    rw [hc]
    simp only [ha, ne_eq, not_true, if_false, hs, List.head?_nil, List.map_nil, List.nil_append, reduceCtorEq]
    congr 2
    exact (congrArg (fun b => Path.mk b (clean m.uri).parts) ha.symm)
  rw [ho, h1] at h3
  exact h3

/-- A texture in a directory below is embedded; one that is missing is not. -/
example : toSingleFile (fun p => if p = ["w".toList, "tex".toList, "a.png".toList] then some [1, 2] else none)
    ["w".toList] ".".toList [⟨"tex/./a.png".toList, [], none⟩, ⟨"b.jpg".toList, [], none⟩] [[7]] =
    ([⟨[], "image/png".toList, some 1⟩, ⟨"b.jpg".toList, [], none⟩], [[7], [1, 2]]) := by decide

/-- C166 does not hold for other directories: if the source is in a directory below, the file that is opened for an
image is never the one the path means. If only that one exists, the image is not embedded. -/
theorem other_directory_false (fs : List Str → Option Data) (cwd : List Str) (srcDir : Str) (m : GImage)
    (views : List Data) (hcwd : ∀ c ∈ cwd, Named c)
    (hs : (clean srcDir).abs = false ∧ (clean srcDir).parts ≠ [] ∧ ∀ c ∈ (clean srcDir).parts, Named c)
    (hu : (clean m.uri).abs = false ∧ ∀ c ∈ (clean m.uri).parts, Named c)
    (hf : ∀ p, fs p ≠ none → p = locate cwd ⟨false, (clean srcDir).parts ++ (clean m.uri).parts⟩) :
    embedImage fs cwd srcDir m views = (m, views) := by
  have hj : locate cwd ⟨false, (clean srcDir).parts ++ (clean m.uri).parts⟩ =
      cwd ++ (clean srcDir).parts ++ (clean m.uri).parts := by
    unfold locate
    rw [if_neg (by simp), cleanParts_named]
    · simp
    · intro c hc
      rcases List.mem_append.mp hc with h | h
      · exact hcwd c h
      · rcases List.mem_append.mp h with h | h
        exacts [hs.2.2 c h, hu.2 c h]
  rw [hj] at hf
  have ho : openImage fs cwd srcDir m.uri = none := by
    unfold openImage
    cases hr : relPath (clean srcDir) (clean m.uri) with
    | none => rfl
    | some p =>
      simp only
      by_contra hne
      have hp := hf _ hne
      unfold relPath at hr
      rw [hs.1, hu.1] at hr
      simp only [ne_eq, not_true, if_false] at hr
      obtain ⟨_, ⟨y, hy⟩⟩ := stripCommon_suffix (clean srcDir).parts (clean m.uri).parts
      revert hr hy
      generalize stripCommon (clean srcDir).parts (clean m.uri).parts = r
      intro hr hy
      split at hr
      · cases hr
      · simp only [Option.some.injEq] at hr
        subst hr
        have hl := cleanParts_length (cwd ++ (r.1.map (fun _ => ['.', '.']) ++ r.2))
        have e1 : locate cwd ⟨false, r.1.map (fun _ => ['.', '.']) ++ r.2⟩ =
            cleanParts true (cwd ++ (r.1.map (fun _ => ['.', '.']) ++ r.2)) := by simp [locate]
        rw [e1] at hp
        rw [hp] at hl
        have e2 : (r.1.map (fun _ => ['.', '.']) : List Str).filter (fun c => c ≠ ['.', '.']) = [] := by
          rw [List.filter_eq_nil_iff]
          intro x hx
          obtain ⟨_, _, rfl⟩ := List.mem_map.mp hx
          simp
        rw [List.filter_append, List.filter_append, e2, List.nil_append, List.length_append] at hl
        have h1 : (cwd.filter fun c => c ≠ ['.', '.']).length ≤ cwd.length := List.length_filter_le _ _
        have h2 : (r.2.filter fun c => c ≠ ['.', '.']).length ≤ r.2.length := List.length_filter_le _ _
        have h3 : r.2.length ≤ (clean m.uri).parts.length := by
          have := congrArg List.length hy
          rw [List.length_append] at this
          omega
        have h4 := List.length_pos_iff.mpr hs.2.1
        rw [List.length_append, List.length_append] at hl
        omega
  unfold embedImage
  rw [ho]
  split <;> rfl

/-- A model in the directory `m` with a texture beside it. -/
example : clean "m".toList = ⟨false, ["m".toList]⟩ ∧ clean "a.png".toList = ⟨false, ["a.png".toList]⟩ ∧
    locate ["w".toList] ⟨false, ["m".toList, "a.png".toList]⟩ = ["w".toList, "m".toList, "a.png".toList] ∧
    toSingleFile (fun p => if p = ["w".toList, "m".toList, "a.png".toList] then some [1, 2] else none)
      ["w".toList] "m".toList [⟨"a.png".toList, [], none⟩] [] = ([⟨"a.png".toList, [], none⟩], []) := by decide

theorem stripCommon_append (a b : List Str) : stripCommon a (a ++ b) = ([], b) := by
  induction a with
  | nil => cases b <;> rfl
  | cons c a ih => simpa [stripCommon] using ih

/-- C166 does not hold for other directories: an image whose path begins with the name of the directory of the source
gets the content of another file, which has the rest of the path below the directory the program runs in. -/
theorem wrong_file_false (fs : List Str → Option Data) (cwd : List Str) (srcDir : Str) (m : GImage) (views : List Data)
    (rest : List Str) (d : Data) (hv : m.view = none) (hs : (clean srcDir).abs = false)
    (hu : clean m.uri = ⟨false, (clean srcDir).parts ++ rest⟩) (hn : m.uri ≠ [])
    (hf : fs (locate cwd ⟨false, rest⟩) = some d) :
    embedImage fs cwd srcDir m views = (⟨[], imageMime m, some views.length⟩, views ++ [d]) := by
  have ho : openImage fs cwd srcDir m.uri = some d := by
    unfold openImage relPath
    rw [hu, hs]
    simp only [ne_eq, not_true, if_false, stripCommon_append, List.head?_nil, List.map_nil, List.nil_append, reduceCtorEq]
    exact hf
  unfold embedImage
  rw [if_pos ⟨hv, hn⟩, ho]

/-- The model `m/x.gltf` with the texture `m/a.png` gets the file `a.png` instead of `m/m/a.png`. -/
example : clean "m/a.png".toList = ⟨false, (clean "m".toList).parts ++ ["a.png".toList]⟩ ∧
    locate ["w".toList] ⟨false, ["a.png".toList]⟩ = ["w".toList, "a.png".toList] ∧
    toSingleFile (fun p => if p = ["w".toList, "m".toList, "m".toList, "a.png".toList] then some [1, 2]
        else if p = ["w".toList, "a.png".toList] then some [3] else none)
      ["w".toList] "m".toList [⟨"m/a.png".toList, [], none⟩] [] = ([⟨[], "image/png".toList, some 0⟩], [[3]]) := by decide

/-- C166 does not hold for sources given by an absolute path: no image with a relative path is embedded. -/
theorem absolute_dir_false (fs : List Str → Option Data) (cwd : List Str) (srcDir : Str) (m : GImage)
    (views : List Data) (hs : srcDir.head? = some '/') (hu : m.uri.head? ≠ some '/') :
    embedImage fs cwd srcDir m views = (m, views) := by
  have ho : openImage fs cwd srcDir m.uri = none := by
    unfold openImage relPath
    have h1 : (clean srcDir).abs = true := by simp [clean, hs]
    have h2 : (clean m.uri).abs = false := by simp [clean, hu]
    rw [h1, h2]
    simp
  unfold embedImage
  rw [ho]
  split <;> rfl

/-- The same model, given by its full path. -/
example : toSingleFile (fun p => if p = ["w".toList, "m".toList, "a.png".toList] then some [1, 2] else none)
    ["w".toList, "m".toList] "/w/m".toList [⟨"a.png".toList, [], none⟩] [] = ([⟨"a.png".toList, [], none⟩], []) := by
  decide

/-- C166 does not hold for the type of files that are neither PNG nor JPEG: they are said to be JPEG. -/
theorem image_type_false (m : GImage) (h : m.mime = []) (hp : (".png".toList).isSuffixOf (lower m.uri) = false) :
    imageMime m = "image/jpeg".toList := by
  unfold imageMime
  rw [if_pos h, if_neg (by rw [hp]; simp)]

example : imageMime ⟨"a.webp".toList, [], none⟩ = "image/jpeg".toList := by decide

theorem bufferNames_get (stem : Str) (uris : List Str) : ∀ (i k : Nat),
    (bufferNames stem i uris)[k]? = uris[k]?.map fun u =>
      if u = [] then stem ++ decimal (i + k) ++ ".bin".toList else u := by
  induction uris with
  | nil => intro i k; simp [bufferNames]
  | cons u uris ih =>
    intro i k
    cases k with
    | zero => simp [bufferNames]
    | succ k =>
      simp only [bufferNames, List.getElem?_cons_succ, ih (i + 1) k]
      rw [Nat.add_right_comm, Nat.add_assoc]

/-- C166 (partial): buffers that have no file yet get files of different names. Missing: buffers with a file, see
`buffer_clash_false`. -/
theorem buffer_names_partial (stem : Str) (n : Nat) : (bufferNames stem 0 (List.replicate n [])).Nodup := by
  rw [List.nodup_iff_getElem?_ne_getElem?]
  intro i j hij hj h
  rw [bufferNames_get, bufferNames_get] at h
  have hl : ∀ (l : List Str) (i : Nat), (bufferNames stem i l).length = l.length := by
    intro l
    induction l with
    | nil => intro i; rfl
    | cons u l ih => intro i; simp [bufferNames, ih]
  rw [hl, List.length_replicate] at hj
  rw [List.getElem?_replicate, List.getElem?_replicate, if_pos (by omega), if_pos hj] at h
  simp only [Option.map_some, if_true, Nat.zero_add, Option.some.injEq] at h
  have h2 : decimal i = decimal j := List.append_cancel_left (List.append_cancel_right h)
  have : i = j := by
    have h3 := congrArg (fun l => Nat.ofDigitChars 10 l 0) h2
    simpa [decimal, Nat.ofDigitChars_toDigits] using h3
  omega

example : bufferNames "o".toList 0 [[], []] = ["o0.bin".toList, "o1.bin".toList] := by decide

/-- C166 does not hold for documents in which another buffer has a file of that name: both get the same name. -/
theorem buffer_clash_false (stem : Str) (h : stem ≠ []) :
    bufferNames stem 0 [stem ++ "1.bin".toList, []] = [stem ++ "1.bin".toList, stem ++ "1.bin".toList] := by
  have e : decimal 1 = ['1'] := by decide
  simp [bufferNames, h, e]

example : bufferNames "o".toList 0 ["o1.bin".toList, []] = ["o1.bin".toList, "o1.bin".toList] := by decide

/-! ### C167: paths into Unity projects -/

theorem splitAt_first (pat rest : Str) : ∀ pre : Str,
    (∀ x y, pre = x ++ y → y ≠ [] → ¬ pat <+: y ++ (pat ++ rest)) →
    splitAt pat (pre ++ (pat ++ rest)) = some (pre, pat ++ rest) := by
  intro pre
  induction pre with
  | nil =>
    intro _
    rw [List.nil_append]
    cases h : pat ++ rest with
    | nil =>
      rw [List.append_eq_nil_iff] at h
      rw [h.1]
      rfl
    | cons c s =>
      unfold splitAt
      rw [if_pos]
      rw [List.isPrefixOf_iff_prefix, ← h]
      exact List.prefix_append pat rest
  | cons c pre ih =>
    intro h
    have h1 := ih fun x y e => h (c :: x) y (by rw [e]; rfl)
    rw [List.cons_append]
    unfold splitAt
    rw [if_neg, h1]
    · rfl
    · rw [List.isPrefixOf_iff_prefix]
      exact h [] (c :: pre) rfl (by simp)

theorem assets_no_overlap (pre rest : Str) (h : ¬ assetsDir <:+: pre) (x y : Str) (hp : pre = x ++ y) (hy : y ≠ []) :
    ¬ assetsDir <+: y ++ (assetsDir ++ rest) := by
  intro hpre
  by_cases hl : assetsDir.length ≤ y.length
  · apply h
    have := List.prefix_of_prefix_length_le hpre (List.prefix_append y _) hl
    obtain ⟨z, hz⟩ := this
    exact ⟨x, z, by rw [hp, ← hz, List.append_assoc]⟩
  · have h1 : y <+: assetsDir := List.prefix_of_prefix_length_le (List.prefix_append y _) hpre (by omega)
    obtain ⟨z, hz⟩ := h1
    rw [← hz] at hpre
    have h2 : z <+: y ++ z ++ rest := by
      obtain ⟨w, hw⟩ := hpre
      rw [List.append_assoc, List.append_cancel_left_eq] at hw
      exact ⟨w, hw⟩
    have h3 : z <+: assetsDir := by
      rw [hz] at h2
      refine List.prefix_of_prefix_length_le h2 (List.prefix_append _ _) ?_
      rw [← hz]; simp
    have h4 : z ≠ [] := by
      rintro rfl
      rw [List.append_nil] at hz
      rw [hz] at hl
      exact hl (Nat.le_refl _)
    have h5 : ∃ k, 0 < k ∧ k < 7 ∧ z = assetsDir.drop k := by
      refine ⟨y.length, List.length_pos_iff.mpr hy, ?_, ?_⟩
      · have : assetsDir.length = 7 := by decide
        omega
      · rw [← hz]; simp
    obtain ⟨k, k0, k7, rfl⟩ := h5
    have hall : ∀ k : Fin 7, 0 < k.val → (assetsDir.drop k.val).isPrefixOf assetsDir = false := by decide
    have := hall ⟨k, k7⟩ k0
    rw [← List.isPrefixOf_iff_prefix, this] at h3
    cases h3

theorem splitHash_none (s : Str) (h : '#' ∉ s) : splitHash s = (s, none) := by
  have ht : s.takeWhile (· != '#') = s := by
    have : ∀ l : Str, '#' ∉ l → l.takeWhile (· != '#') = l := by
      intro l
      induction l with
      | nil => intro _; rfl
      | cons c l ih =>
        intro hc
        rw [List.takeWhile_cons_of_pos, ih fun hx => hc (by simp [hx])]
        simp only [bne_iff_ne, ne_eq]
        rintro rfl
        exact hc (by simp)
    exact this s h
  unfold splitHash
  simp only [ht, List.drop_length]

theorem splitSlash_ne : ∀ s : Str, splitSlash s ≠ [] := by
  intro s
  induction s with
  | nil => simp [splitSlash]
  | cons c s ih =>
    unfold splitSlash
    split
    · simp
    · split <;> simp

theorem splitSlash_part : ∀ s : Str, '/' ∉ s → splitSlash s = [s] := by
  intro s
  induction s with
  | nil => intro _; rfl
  | cons c s ih =>
    intro h
    unfold splitSlash
    rw [if_neg (fun e => h (by simp [e])), ih fun hx => h (by simp [hx])]

theorem splitSlash_append (t : Str) : ∀ s : Str, splitSlash (s ++ '/' :: t) = splitSlash s ++ splitSlash t := by
  intro s
  induction s with
  | nil => simp [splitSlash]
  | cons c s ih =>
    rw [List.cons_append, splitSlash, splitSlash, ih]
    by_cases hc : c = '/'
    · rw [if_pos hc, if_pos hc]; rfl
    · rw [if_neg hc, if_neg hc]
      cases hs : splitSlash s with
      | nil => exact absurd hs (splitSlash_ne s)
      | cons a l => rfl

/-- The first part of a path to an asset: the place where the project is. -/
def Before (pre : Str) : Prop := pre = [] ∨ ∃ dir, pre = dir ++ ['/']

theorem clean_assets (pre : Str) (h : Before pre) :
    clean (pre ++ "Assets".toList) = ⟨pre.head? = some '/', cleanParts (pre.head? = some '/') (splitSlash pre) ++ ["Assets".toList]⟩ := by
  have hA : Named "Assets".toList := ⟨by decide, by decide, by decide⟩
  have hs : splitSlash "Assets".toList = ["Assets".toList] := by decide
  rcases h with rfl | ⟨dir, rfl⟩
  · decide
  · have h1 : (dir ++ ['/'] ++ "Assets".toList).head? = (dir ++ ['/']).head? := by cases dir <;> rfl
    unfold clean
    rw [h1]
    simp only
    congr 1
    have e1 : dir ++ ['/'] ++ "Assets".toList = dir ++ '/' :: "Assets".toList := by simp
    rw [e1, splitSlash_append, splitSlash_append, hs]
    unfold cleanParts
    rw [List.foldl_append, List.foldl_append, List.foldl_cons, List.foldl_nil, cleanStep_named _ _ _ hA]
    have e2 : splitSlash [] = [[]] := rfl
    rw [e2, List.foldl_cons, List.foldl_nil]
    simp [cleanStep]

theorem unityPaths_first (pre rest : Str) (h : ¬ assetsDir <:+: pre) (hh : '#' ∉ pre ++ (assetsDir ++ rest))
    (he : lower (ext (pre ++ (assetsDir ++ rest))) ≠ ".unitypackage".toList) :
    unityPaths (pre ++ (assetsDir ++ rest)) = (pre ++ "Assets".toList, assetsDir ++ rest) := by
  unfold unityPaths
  rw [splitHash_none _ hh, splitAt_first assetsDir rest pre (assets_no_overlap pre rest h)]
  simp only
  rw [if_pos he]
  rfl

theorem scene_chosen (paths : List Str) (scene : Str) (h : scene ∈ paths) : chooseScene paths scene = some scene := by
  unfold chooseScene
  rw [if_pos h]

theorem joinSlash_cons (a : Str) (l : List Str) (h : l ≠ []) : joinSlash (a :: l) = a ++ '/' :: joinSlash l := by
  cases l with
  | nil => exact absurd rfl h
  | cons b l => rfl

/-- C167: a scene in a project is found. The input is a path to a file in the directory `Assets` of a project; the
files of the project are in that directory. The scene that is loaded is this file: its path in the project, behind the
place of the project, is the path of the input. -/
theorem scene_found (pre : Str) (ps : List Str) (files : List (List Str × Str)) (guid : Str)
    (hpre : Before pre) (h : ¬ assetsDir <:+: pre) (hps : ps ≠ [])
    (hh : '#' ∉ pre ++ (assetsDir ++ joinSlash ps))
    (he : lower (ext (pre ++ (assetsDir ++ joinSlash ps))) ≠ ".unitypackage".toList)
    (hf : ((clean pre).parts ++ "Assets".toList :: ps, guid) ∈ files) :
    loadedScene (pre ++ (assetsDir ++ joinSlash ps)) files = some (assetsDir ++ joinSlash ps) := by
  unfold loadedScene
  rw [unityPaths_first pre _ h hh he]
  simp only
  apply scene_chosen
  unfold scanAssets
  rw [List.map_map]
  refine List.mem_map.mpr ⟨_, hf, ?_⟩
  have e1 : (clean (pre ++ "Assets".toList)).parts.length - 1 = (clean pre).parts.length := by
    rw [clean_assets pre hpre]
    simp [clean]
  simp only [Function.comp]
  rw [e1, List.drop_left, joinSlash_cons _ _ hps]
  rfl

/-- A scene of a project in the directory `p`. -/
example : Before "p/".toList ∧ ¬ assetsDir <:+: "p/".toList ∧
    loadedScene "p/Assets/s/a.unity".toList
      [(["p".toList, "Assets".toList, "b.unity".toList], "2".toList),
       (["p".toList, "Assets".toList, "s".toList, "a.unity".toList], "1".toList)] =
      some "Assets/s/a.unity".toList := by
  refine ⟨.inr ⟨"p".toList, rfl⟩, by decide, by decide⟩

/-- C167: the textures of the scene are looked for in the same project: the directory for textures, followed by the
path of an asset, is the place of the asset. -/
theorem texture_directory (pre rest : Str) (hpre : Before pre) (h : ¬ assetsDir <:+: pre)
    (hh : '#' ∉ pre ++ (assetsDir ++ rest))
    (hu : isUnity (lower (ext (pre ++ (assetsDir ++ rest)))) = true)
    (he : opensPackage (pre ++ (assetsDir ++ rest)) = false) :
    unityBaseDir (pre ++ (assetsDir ++ rest)) = some (clean pre) := by
  unfold unityBaseDir
  rw [if_pos ⟨hu, by simp [he]⟩, splitHash_none _ hh]
  simp only
  rw [splitAt_first assetsDir rest pre (assets_no_overlap pre rest h)]
  have e : pre ++ (assetsDir ++ rest).take 6 = pre ++ "Assets".toList := rfl
  simp only [Option.map_some, Option.some.injEq]
  rw [e]
  have hs : splitSlash "Assets".toList = ["Assets".toList] := by decide
  rcases hpre with rfl | ⟨dir, rfl⟩
  · decide
  · have h1 : (dir ++ ['/'] ++ "Assets".toList).head? = (dir ++ ['/']).head? := by cases dir <;> rfl
    have e1 : dir ++ ['/'] ++ "Assets".toList = dir ++ '/' :: "Assets".toList := by simp
    unfold dirOf clean
    rw [h1]
    simp only
    congr 1
    rw [e1, splitSlash_append, splitSlash_append, hs, List.dropLast_concat]
    have e2 : splitSlash [] = [[]] := rfl
    unfold cleanParts
    rw [e2, List.foldl_append, List.foldl_cons, List.foldl_nil]
    simp [cleanStep]

example : unityBaseDir "/p/Assets/s/a.unity".toList = some ⟨true, ["p".toList]⟩ ∧
    unityBaseDir "q/x.unitypackage#Assets/a.prefab".toList = some ⟨false, ["q".toList]⟩ := by decide

/-- C167: a package or a project without a path of a scene gives the only scene in it, and nothing if there are none or
more than one. -/
theorem only_scene (paths : List Str) (h : [] ∉ paths) (p : Str) :
    chooseScene paths [] = some p ↔ paths.filter (fun q => (".unity".toList).isSuffixOf q) = [p] := by
  unfold chooseScene
  rw [if_neg h]
  simp only [true_and]
  generalize paths.filter (fun q => (".unity".toList).isSuffixOf q) = l
  match l with
  | [] => simp
  | [a] => simp
  | a :: b :: l => simp

example : chooseScene ["Assets/m.fbx".toList, "Assets/a.unity".toList] [] = some "Assets/a.unity".toList ∧
    chooseScene ["Assets/b.unity".toList, "Assets/a.unity".toList] [] = none := by decide

/-- C167: a path that is not in the project is an error; no other scene is loaded for it. -/
theorem missing_scene (paths : List Str) (scene : Str) (h : scene ∉ paths) (hn : scene ≠ []) :
    chooseScene paths scene = none := by
  unfold chooseScene
  rw [if_neg h, if_neg (fun e => hn e.1)]

example : chooseScene ["Assets/a.unity".toList] "Assets/b.unity".toList = none := by decide

/-- C167 does not hold for directories whose name ends with `Assets`: the scene in them is not found. -/
theorem other_assets_false :
    loadedScene "MyAssets/a.unity".toList [(["MyAssets".toList, "a.unity".toList], "1".toList)] = none := by
  decide

/-- C167 does not hold for packages with upper case names: the program takes the input for a Unity package, but opens
it as a directory. -/
theorem upper_package_false (stem : Str) (h : '#' ∉ stem) :
    isUnity (lower (ext (stem ++ ".UNITYPACKAGE".toList))) = true ∧
      (unityPaths (stem ++ ".UNITYPACKAGE".toList)).1 = stem ++ ".UNITYPACKAGE".toList ∧
      opensPackage (stem ++ ".UNITYPACKAGE".toList) = false := by
  have hr : (stem ++ ".UNITYPACKAGE".toList).reverse = "EGAKCAPYTINU.".toList ++ stem.reverse := by
    rw [List.reverse_append]; rfl
  have he : ext (stem ++ ".UNITYPACKAGE".toList) = ".UNITYPACKAGE".toList := by
    unfold ext
    rw [hr]
    rfl
  have hl : lower ".UNITYPACKAGE".toList = ".unitypackage".toList := by decide
  refine ⟨by rw [he]; decide, ?_, ?_⟩
  · unfold unityPaths
    have hh : '#' ∉ stem ++ ".UNITYPACKAGE".toList := by
      rw [List.mem_append]
      rintro (hx | hx)
      · exact h hx
      · exact absurd hx (by decide)
    rw [splitHash_none _ hh]
    simp only
    split
    · rw [he, hl, if_neg (fun hne => hne rfl)]
    · rfl
  · unfold opensPackage List.isSuffixOf
    rw [hr]
    rfl

example : unityPaths "P.UNITYPACKAGE".toList = ("P.UNITYPACKAGE".toList, []) := by decide

end Verif.Cmd
