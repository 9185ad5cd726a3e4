import Verif.Cmd.Dispatch
import Verif.Cmd.MainProps
import Mathlib.Tactic.NormNum
import Mathlib.Tactic.FieldSimp
import Mathlib.Tactic.Ring
import Mathlib.Algebra.CharZero.Defs
import Mathlib.Algebra.Field.Rat

/-! C172 and C173: formats, animations and sizes of the command. -/

namespace Verif.Cmd
open Verif.Geom Verif.Mqo

variable {F : Type}

/-! ### C172: formats and inputs -/

/-- C172: a conversion is possible exactly for the types that are documented: any readable model to MQO, PMX and glTF, and FBX to
FBX. -/
theorem supported_iff (input path e : Str) (more : List Str) :
    (written (input :: more) path e).isSome = true ↔
      (inputKind (lower (ext input))).isSome = true ∧
        (e = ".glb".toList ∨ e = ".gltf".toList ∨ e = ".vrm".toList ∨ e = ".mqo".toList ∨ e = ".mqoz".toList ∨ e = ".pmx".toList) ∨
      lower (ext input) = ".fbx".toList ∧ e = ".fbx".toList := by
  generalize hi : lower (ext input) = ie
  have hg : isGltf e = true ↔ e = ".glb".toList ∨ e = ".gltf".toList ∨ e = ".vrm".toList := by
    simp [isGltf, or_assoc]
  have hm : isMQO e = true ↔ e = ".mqo".toList ∨ e = ".mqoz".toList := by simp [isMQO]
  have hf : isGltf e = true → (gltfFormat e).isSome = true := by
    intro h
    rcases hg.1 h with rfl | rfl | rfl <;> decide
  have hk : isGltf ie = true → (inputKind ie).isSome = true := by
    intro h
    unfold inputKind
    split
    · rfl
    · first | rfl | (rw [if_pos h]; rfl)
  unfold written
  simp only [hi]
  by_cases h1 : (isGltf ie && isGltf e) = true
  · rw [if_pos h1, Option.isSome_map]
    simp only [Bool.and_eq_true] at h1
    simp only [hf h1.2, hk h1.1, true_and, true_iff]
    left
    rcases hg.1 h1.2 with h | h | h <;> simp [h]
  · rw [if_neg h1]
    by_cases h2 : ie = ".fbx".toList ∧ e = ".fbx".toList
    · rw [if_pos h2]; simp [h2.1, h2.2]
    · rw [if_neg h2]
      by_cases h3 : (inputKind ie).isSome = true
      · rw [if_pos h3]
        simp only [h3, true_and]
        unfold saveFormat
        by_cases h4 : isGltf e = true
        · rw [if_pos h4, Option.isSome_map, hf h4]
          rcases hg.1 h4 with h | h | h <;> simp [h]
        · rw [if_neg h4]
          by_cases h5 : isMQO e = true
          · rw [if_pos h5]
            rcases hm.1 h5 with h | h <;> simp [h]
          · rw [if_neg h5]
            rw [hg] at h4
            rw [hm] at h5
            by_cases h6 : e = ".pmx".toList
            · rw [if_pos h6]; simp [h6]
            · rw [if_neg h6]
              simp only [Option.isSome_none, Bool.false_eq_true, false_iff]
              rintro (h | h)
              · rcases h with h | h | h | h | h | h
                · exact h4 (Or.inl h)
                · exact h4 (Or.inr (Or.inl h))
                · exact h4 (Or.inr (Or.inr h))
                · exact h5 (Or.inl h)
                · exact h5 (Or.inr h)
                · exact h6 h
              · exact h2 h
      · rw [if_neg h3]
        simp only [Option.isSome_none, Bool.false_eq_true, false_iff]
        rintro (h | h)
        · exact h3 h.1
        · exact h2 h

/-- The format that a name promises. -/
def Format.suffix : Format → Str
  | .glb => ".glb".toList
  | .gltf => ".gltf".toList
  | .vrm => ".vrm".toList
  | .mqoText => ".mqo".toList
  | .mqoZip => ".mqoz".toList
  | .pmx => ".pmx".toList
  | .fbxText => ".fbx".toList

theorem gltfFormat_suffix (e : Str) (f : Format) (h : gltfFormat e = some f) : f.suffix = e := by
  unfold gltfFormat at h
  split at h
  · rename_i h1; rw [h1]; cases h; rfl
  · split at h
    · rename_i h1; rw [h1]; cases h; rfl
    · split at h
      · rename_i h1; rw [h1]; cases h; rfl
      · cases h

/-- C172: a file written without the option `-format`, whose name ends in lower case letters, is of the type that its name
says. -/
theorem format_partial (input path : Str) (more anims : List Str) (f : Format) (hl : lower (ext path) = ext path)
    (h : written (input :: more) (outputOf input [] (some path)).1 (outputOf input [] (some path)).2 = some (f, anims)) :
    f.suffix = ext path := by
  have h0 : outputOf input [] (some path) = (path, ext path) := by
    unfold outputOf
    simp only [if_true]
    rw [hl]
  rw [h0] at h
  unfold written at h
  simp only at h
  split at h
  · rw [Option.map_eq_some_iff] at h
    obtain ⟨g, hg, h⟩ := h
    cases h
    exact gltfFormat_suffix _ _ hg
  · split at h
    · rename_i h1
      cases h
      exact h1.2.symm
    · split at h
      · unfold saveFormat at h
        split at h
        · rw [Option.map_eq_some_iff] at h
          obtain ⟨g, hg, h⟩ := h
          cases h
          exact gltfFormat_suffix _ _ hg
        · split at h
          · rename_i hm
            simp only [isMQO, Bool.or_eq_true, beq_iff_eq] at hm
            obtain ⟨stem, hs⟩ := ext_suffix path
            rcases hm with hm | hm
            · have hn : ¬ (".mqoz".toList).isSuffixOf path = true := by
                rw [List.isSuffixOf_iff_suffix]
                rintro ⟨t, ht⟩
                rw [hm] at hs
                have : t ++ ".mqoz".toList = stem ++ ".mqo".toList := ht.trans hs
                have := congrArg List.getLast? this
                simp at this
              rw [if_neg hn] at h
              cases h
              exact hm.symm
            · have hp : (".mqoz".toList).isSuffixOf path = true := by
                rw [List.isSuffixOf_iff_suffix]
                exact ⟨stem, by rw [← hm]; exact hs.symm⟩
              rw [if_pos hp] at h
              cases h
              exact hm.symm
          · split at h
            · rename_i h1
              cases h
              exact h1.symm
            · cases h
      · cases h

/-- C172, false: a name that ends in `.MQOZ` gets the plain text of a `.mqo` file, not an archive. -/
theorem upper_case_false (input stem : Str) (hi : isMQO (lower (ext input)) = true) :
    written [input] (outputOf input [] (some (stem ++ ".MQOZ".toList))).1 (outputOf input [] (some (stem ++ ".MQOZ".toList))).2 =
      some (.mqoText, []) := by
  have he : ext (stem ++ ".MQOZ".toList) = ".MQOZ".toList := by simp [ext, List.takeWhile]
  have h0 : outputOf input [] (some (stem ++ ".MQOZ".toList)) = (stem ++ ".MQOZ".toList, ".mqoz".toList) := by
    unfold outputOf
    simp only [if_true]
    rw [he]
    rfl
  have hn : ¬ (".mqoz".toList).isSuffixOf (stem ++ ".MQOZ".toList) = true := by
    rw [List.isSuffixOf_iff_suffix]
    rintro ⟨t, ht⟩
    have := congrArg List.getLast? ht
    simp at this
  have hk : (inputKind (lower (ext input))).isSome = true := by
    unfold inputKind
    rw [if_pos hi]
    rfl
  rw [h0]
  unfold written
  simp only
  rw [if_neg (by simp [isGltf]), if_neg (by simp), if_pos hk]
  unfold saveFormat
  rw [if_neg (by decide), if_pos (by decide), if_neg hn]

/-- C172, false: the option `-format` is not understood in capitals, although names are. -/
theorem format_option_false (input path : Str) (more : List Str) :
    written (input :: more) path (outputOf input "GLB".toList (some path)).2 = none := by
  have h := supported_iff input path (outputOf input "GLB".toList (some path)).2 more
  have he : (outputOf input "GLB".toList (some path)).2 = ".GLB".toList := rfl
  rw [he] at h ⊢
  cases hw : written (input :: more) path ".GLB".toList with
  | none => rfl
  | some x =>
    rw [hw] at h
    have := h.1 rfl
    simp at this

/-- C172: all animations that are given are in the output, in their order, when the output is glTF and the input is not. -/
theorem animations_partial (input path e : Str) (more anims : List Str) (f : Format) (hg : isGltf e = true)
    (hi : isGltf (lower (ext input)) = false) (h : written (input :: more) path e = some (f, anims)) :
    anims = more.filter fun i => lower (ext i) = ".vmd".toList := by
  unfold written at h
  simp only [hi, Bool.false_and, Bool.false_eq_true, if_false] at h
  have hne : ¬ (lower (ext input) = ".fbx".toList ∧ e = ".fbx".toList) := by
    rintro ⟨-, rfl⟩
    exact absurd hg (by decide)
  rw [if_neg hne] at h
  split at h
  · unfold saveFormat at h
    rw [if_pos hg, Option.map_eq_some_iff] at h
    obtain ⟨g, -, h⟩ := h
    cases h
    rfl
  · cases h

/-- C172, false: animations are ignored without a message when a glTF file is the input, or when the output is not glTF. -/
theorem animations_lost_false (input path e : Str) (more anims : List Str) (f : Format)
    (hi : isGltf (lower (ext input)) = true ∨ isGltf e = false) (h : written (input :: more) path e = some (f, anims)) :
    anims = [] := by
  unfold written at h
  simp only at h
  split at h
  · rw [Option.map_eq_some_iff] at h
    obtain ⟨g, -, h⟩ := h
    cases h
    rfl
  · rename_i h1
    have hg : isGltf e = false := by
      rcases hi with hi | hi
      · simpa [hi] using h1
      · exact hi
    split at h
    · cases h; rfl
    · split at h
      · unfold saveFormat at h
        rw [if_neg (by simp [hg])] at h
        split at h
        · cases h; rfl
        · split at h
          · cases h; rfl
          · cases h
      · cases h

/-- C172, false: further inputs that are not animations are ignored without a message. -/
theorem more_inputs_false (input path e : Str) (more : List Str) (hm : ∀ i ∈ more, lower (ext i) ≠ ".vmd".toList) :
    written (input :: more) path e = written [input] path e := by
  have : more.filter (fun i => lower (ext i) = ".vmd".toList) = [] := by
    rw [List.filter_eq_nil_iff]
    intro i hi
    simpa using hm i hi
  unfold written saveFormat
  simp only [List.tail_cons, this, List.filter_nil]

example : written ["Miku.PMX".toList, "dance.VMD".toList, "face.vmd".toList, "stage.pmx".toList] "out.glb".toList ".glb".toList =
    some (.glb, ["dance.VMD".toList, "face.vmd".toList]) := by decide +kernel

example : written ["Miku.PMX".toList, "dance.vmd".toList] "out.mqo".toList ".mqo".toList = some (.mqoText, []) ∧
    written ["a.glb".toList, "dance.vmd".toList] "out.vrm".toList ".vrm".toList = some (.vrm, []) ∧
    written ["a.fbx".toList] "b.fbx".toList ".fbx".toList = some (.fbxText, []) ∧
    written ["a.mqo".toList] "b.fbx".toList ".fbx".toList = none ∧
    written ["a.mqo".toList] "b.pmd".toList ".pmd".toList = none := by decide +kernel

example : lower (ext "dir/out.mqoz".toList) = ext "dir/out.mqoz".toList ∧
    written ["a.pmx".toList] (outputOf "a.pmx".toList [] (some "dir/out.mqoz".toList)).1
      (outputOf "a.pmx".toList [] (some "dir/out.mqoz".toList)).2 = some (.mqoZip, []) := by decide +kernel

example : isMQO (lower (ext "a.Mqo".toList)) = true ∧ (∀ i ∈ ["stage.pmx".toList], lower (ext i) ≠ ".vmd".toList) := by decide +kernel

/-! ### C173: sizes -/

/-- Meters in a unit of length of a kind of document. -/
def Kind.unit [Field F] : Kind → F
  | .mqo => 1 / 1000
  | .gltf => 1
  | .mmd => 2 / 25
  | .unity => 1
  | .fbx => 1 / 1000

/-- Meters in a unit of length of a format. -/
def Format.unit [Field F] : Format → F
  | .glb | .gltf | .vrm => 1
  | .mqoText | .mqoZip => 1 / 1000
  | .pmx => 2 / 25
  | .fbxText => 1 / 1000

theorem inputKind_mmd (e : Str) : inputKind e = some .mmd ↔ isMMD e = true := by
  constructor
  · intro h
    unfold inputKind at h
    split at h
    · cases h
    · split at h
      · cases h
      · split at h
        · assumption
        · split at h
          · cases h
          · split at h <;> cases h
  · intro h
    simp only [isMMD, Bool.or_eq_true, beq_iff_eq] at h
    rcases h with rfl | rfl <;> decide

theorem inputKind_gltf (e : Str) : inputKind e = some .gltf ↔ isGltf e = true := by
  constructor
  · intro h
    unfold inputKind at h
    split at h
    · cases h
    · split at h
      · assumption
      · split at h
        · cases h
        · split at h
          · cases h
          · split at h <;> cases h
  · intro h
    simp only [isGltf, Bool.or_eq_true, beq_iff_eq] at h
    rcases h with (rfl | rfl) | rfl <;> decide

/-- The format of glTF files comes only from their endings. -/
theorem written_gltf (inputs : List Str) (path e : Str) (f : Format) (a : List Str) (h : written inputs path e = some (f, a)) :
    (isGltf e = true ↔ f = .glb ∨ f = .gltf ∨ f = .vrm) := by
  have hg : ∀ g, gltfFormat e = some g → isGltf e = true ∧ (g = .glb ∨ g = .gltf ∨ g = .vrm) := by
    intro g hg
    unfold gltfFormat at hg
    split at hg
    · rename_i h1; subst h1; cases hg; exact ⟨by decide, by simp⟩
    · split at hg
      · rename_i h1; subst h1; cases hg; exact ⟨by decide, by simp⟩
      · split at hg
        · rename_i h1; subst h1; cases hg; exact ⟨by decide, by simp⟩
        · cases hg
  unfold written at h
  cases inputs with
  | nil => cases h
  | cons input more =>
    simp only at h
    split at h
    · rw [Option.map_eq_some_iff] at h
      obtain ⟨g, h1, h⟩ := h
      cases h
      exact ⟨fun _ => (hg _ h1).2, fun _ => (hg _ h1).1⟩
    · split at h
      · rename_i h1
        cases h
        rw [h1.2]
        simp [isGltf]
      · split at h
        · unfold saveFormat at h
          split at h
          · rw [Option.map_eq_some_iff] at h
            obtain ⟨g, h1, h⟩ := h
            cases h
            exact ⟨fun _ => (hg _ h1).2, fun _ => (hg _ h1).1⟩
          · rename_i h0
            have h0' : isGltf e = false := by simpa using h0
            rw [h0']
            split at h
            · cases h
              split <;> simp
            · split at h
              · cases h; simp
              · cases h
        · cases h

/-- C173: with the default scale, a length in meters is the same in the output: for documents of Metasequoia, MMD and Unity as
the input, and from glTF to glTF. Missing: glTF to other formats (`gltf_size_false`) and FBX, whose units vary. -/
theorem size_partial [Field F] [CharZero F] [DecidableEq F] (input path e : Str) (k : Kind) (f : Format) (a : List Str) (c : F)
    (hk : inputKind (lower (ext input)) = some k) (hw : written [input] path e = some (f, a))
    (hx : k = .mqo ∨ k = .mmd ∨ k = .unity ∨ (k = .gltf ∧ isGltf e = true))
    (hc : lengthFactor 0 input path e = some c) : c * f.unit = k.unit := by
  unfold lengthFactor at hc
  simp only [hw, hk] at hc
  have hge := written_gltf [input] path e f a hw
  by_cases hg : k = .gltf
  · have he : isGltf e = true := by
      rcases hx with h | h | h | h
      · rw [hg] at h; cases h
      · rw [hg] at h; cases h
      · rw [hg] at h; cases h
      · exact h.2
    rw [hg] at hk
    have hi := (inputKind_gltf _).1 hk
    rw [if_pos (by rw [hi, he]; rfl)] at hc
    have hm : isMMD (lower (ext input)) = false := by
      cases hmm : isMMD (lower (ext input)) with
      | false => rfl
      | true =>
        rw [← inputKind_mmd, hk] at hmm
        cases hmm
    unfold autoScale at hc
    rw [if_pos rfl, hm] at hc
    simp only [Bool.false_eq_true, if_false, Option.some.injEq] at hc
    rw [hg, ← hc]
    rcases hge.1 he with rfl | rfl | rfl <;> simp [Format.unit, Kind.unit]
  · have hi : isGltf (lower (ext input)) = false := by
      cases hgg : isGltf (lower (ext input)) with
      | false => rfl
      | true =>
        rw [← inputKind_gltf, hk] at hgg
        exact absurd (Option.some.inj hgg) hg
    rw [if_neg (by simp [hi])] at hc
    have hfb : f ≠ .fbxText := by
      rintro rfl
      unfold written at hw
      simp only [hi, Bool.false_and, Bool.false_eq_true, if_false] at hw
      split at hw
      · rename_i h1
        have : k = .fbx := by
          rw [h1.1] at hk
          exact (Option.some.inj (by rw [← hk]; decide))
        subst this
        simp at hx
      · split at hw
        · unfold saveFormat at hw
          split at hw
          · rw [Option.map_eq_some_iff] at hw
            obtain ⟨g, h1, h2⟩ := hw
            cases h2
            exact absurd (gltfFormat_suffix _ _ h1) (by
              intro h3
              rename_i hge'
              rw [← h3] at hge'
              exact absurd hge' (by decide))
          · split at hw
            · simp only [Option.some.injEq, Prod.mk.injEq] at hw
              have := hw.1
              split at this <;> cases this
            · split at hw <;> cases hw
        · cases hw
    rw [if_neg hfb] at hc
    unfold autoScale at hc
    rw [if_pos rfl] at hc
    have hmm : isMMD (lower (ext input)) = decide (k = .mmd) := by
      by_cases h : k = .mmd
      · rw [h] at hk
        rw [(inputKind_mmd _).1 hk, h]; rfl
      · cases hm : isMMD (lower (ext input)) with
        | false => simp [h]
        | true =>
          rw [← inputKind_mmd, hk] at hm
          exact absurd (Option.some.inj hm) h
    rw [hmm] at hc
    simp only [Option.some.injEq] at hc
    rw [← hc]
    have h80 : (80 : F) ≠ 0 := by norm_num
    have h1000 : (1000 : F) ≠ 0 := by norm_num
    rcases hx with rfl | rfl | rfl | ⟨rfl, -⟩
    · cases f <;> simp [loadFactor, saveFactor, Format.unit, Kind.unit] at hfb ⊢ <;> norm_num
    · cases f <;> simp [loadFactor, saveFactor, Format.unit, Kind.unit] at hfb ⊢ <;> norm_num
    · cases f <;> simp [loadFactor, saveFactor, Format.unit, Kind.unit] at hfb ⊢ <;> norm_num
    · exact absurd rfl hg

/-- C173, false: a glTF document that is converted to MQO or PMX becomes a thousand times smaller (in meters). -/
theorem gltf_size_false [Field F] [CharZero F] [DecidableEq F] (input path e : Str) (f : Format) (a : List Str)
    (hk : inputKind (lower (ext input)) = some .gltf) (hw : written [input] path e = some (f, a)) (he : isGltf e = false) :
    ∃ c : F, lengthFactor 0 input path e = some c ∧ c * f.unit = (Kind.gltf).unit / 1000 := by
  have hfb : f ≠ .fbxText := by
    rintro rfl
    unfold written at hw
    simp only [he, Bool.and_false, Bool.false_eq_true, if_false] at hw
    split at hw
    · rename_i h1
      rw [h1.1] at hk
      exact absurd hk (by decide)
    · split at hw
      · unfold saveFormat at hw
        rw [if_neg (by simp [he])] at hw
        split at hw
        · simp only [Option.some.injEq, Prod.mk.injEq] at hw
          have := hw.1
          split at this <;> cases this
        · split at hw <;> cases hw
      · cases hw
  have hge := written_gltf [input] path e f a hw
  have hmm : isMMD (lower (ext input)) = false := by
    cases hm : isMMD (lower (ext input)) with
    | false => rfl
    | true =>
      rw [← inputKind_mmd, hk] at hm
      cases hm
  unfold lengthFactor
  simp only [hw, hk, he, Bool.and_false, Bool.false_eq_true, if_false]
  rw [if_neg hfb]
  refine ⟨_, rfl, ?_⟩
  unfold autoScale
  rw [if_pos rfl, hmm]
  have h80 : (80 : F) ≠ 0 := by norm_num
  have hng : ¬ (f = .glb ∨ f = .gltf ∨ f = .vrm) := by
    rw [← hge, he]; simp
  cases f <;> simp [loadFactor, saveFactor, Format.unit, Kind.unit] at hfb hng ⊢ <;> norm_num

/-- Examples: an MMD model as glTF, back to PMX, and a glTF file as MQO. -/
example : lengthFactor (0 : ℚ) "a.pmx".toList "b.glb".toList ".glb".toList = some (2 / 25) ∧
    lengthFactor (0 : ℚ) "a.pmx".toList "b.pmx".toList ".pmx".toList = some 1 ∧
    lengthFactor (0 : ℚ) "a.unity".toList "b.vrm".toList ".vrm".toList = some 1 ∧
    lengthFactor (0 : ℚ) "a.glb".toList "b.mqo".toList ".mqo".toList = some 1 ∧
    lengthFactor (0 : ℚ) "a.glb".toList "b.gltf".toList ".gltf".toList = some 1 := by decide +kernel

example : inputKind (lower (ext "a.pmx".toList)) = some .mmd ∧ written ["a.pmx".toList] "b.glb".toList ".glb".toList = some (.glb, []) ∧
    inputKind (lower (ext "a.vrm".toList)) = some .gltf ∧ written ["a.vrm".toList] "b.mqo".toList ".mqo".toList = some (.mqoText, []) ∧
    isGltf ".mqo".toList = false := by decide +kernel

end Verif.Cmd
