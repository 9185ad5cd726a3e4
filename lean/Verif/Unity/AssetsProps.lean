import Verif.Unity.Assets
import Verif.Unity.PackageProps
import Mathlib.Data.List.Nodup

/-! Theorems about the assets of packages (C169). -/

namespace Verif.Unity

/-- The content that the archive has for a path: that of the last entry for it. -/
def contentOf (dst : List Str) (p : List Str) : List TarEntry → Option Data
  | [] => none
  | .file n d :: rest => (contentOf dst p rest).or (if entryPath dst n = p then some d else none)
  | _ :: rest => contentOf dst p rest

/-- An archive as Unity writes it, extracted to `dst`: directories directly in `dst` (or `dst` itself), and files in
these directories, after the entries for the directories. `seen` are the directories so far. -/
def Ordered (dst : List Str) : List Str → List TarEntry → Prop
  | _, [] => True
  | seen, .dir n :: rest => (entryPath dst n = dst ∧ Ordered dst seen rest) ∨
      ∃ g, entryPath dst n = dst ++ [g] ∧ Ordered dst (g :: seen) rest
  | seen, .file n _ :: rest => (∃ g ∈ seen, ∃ x, entryPath dst n = dst ++ [g, x]) ∧ Ordered dst seen rest
  | seen, .other :: rest => Ordered dst seen rest

/-- The state while extracting. -/
structure Extracting (dst : List Str) (seen : List Str) (fs : Fs) : Prop where
  here : dst ∈ fs.dirs
  dirs : ∀ p ∈ fs.dirs, p.length ≤ dst.length + 1
  seen : ∀ g, dst ++ [g] ∈ fs.dirs ↔ g ∈ seen
  files : ∀ p, fs.files p ≠ none → p.length = dst.length + 2

theorem extract_step (dst : List Str) : ∀ (entries : List TarEntry) (seen : List Str) (fs : Fs),
    Extracting dst seen fs → Ordered dst seen entries →
    ∃ seen' fs', extract dst entries fs = some fs' ∧ Extracting dst seen' fs' ∧
      (∀ g, g ∈ seen' ↔ g ∈ seen ∨ ∃ n, TarEntry.dir n ∈ entries ∧ entryPath dst n = dst ++ [g]) ∧
      ∀ p, fs'.files p = (contentOf dst p entries).or (fs.files p) := by
  intro entries
  induction entries with
  | nil => intro seen fs he _; exact ⟨seen, fs, rfl, he, by simp, by simp [contentOf]⟩
  | cons e entries ih =>
    intro seen fs he ho
    unfold extract
    rw [List.foldlM_cons]
    cases e with
    | other =>
      obtain ⟨seen', fs', h1, h2, h3, h4⟩ := ih seen fs he ho
      exact ⟨seen', fs', h1, h2, by simpa using h3, h4⟩
    | dir n =>
      rcases ho with ⟨hp, ho⟩ | ⟨g, hp, ho⟩
      · obtain ⟨seen', fs', h1, h2, h3, h4⟩ := ih seen fs he ho
        refine ⟨seen', fs', ?_, h2, ?_, h4⟩
        · have : extractEntry dst fs (.dir n) = some fs := by
            unfold extractEntry
            simp only
            rw [hp, if_pos (.inl he.here)]
          rw [this]
          exact h1
        · intro g
          rw [h3 g]
          constructor
          · rintro (h | ⟨m, hm, hq⟩)
            · exact .inl h
            · exact .inr ⟨m, List.mem_cons_of_mem _ hm, hq⟩
          · rintro (h | ⟨m, hm, hq⟩)
            · exact .inl h
            · rcases List.mem_cons.mp hm with e | e
              · cases e
                rw [hp] at hq
                have := congrArg List.length hq
                simp at this
              · exact .inr ⟨m, e, hq⟩
      · have hstep : ∃ fs1, extractEntry dst fs (.dir n) = some fs1 ∧ Extracting dst (g :: seen) fs1 ∧
            fs1.files = fs.files := by
          unfold extractEntry
          simp only
          rw [hp]
          by_cases hin : dst ++ [g] ∈ fs.dirs ∨ (fs.files (dst ++ [g])).isSome = true
          · rw [if_pos hin]
            have hin' : dst ++ [g] ∈ fs.dirs := by
              rcases hin with h | h
              · exact h
              · have := he.files (dst ++ [g]) (fun e => by rw [e] at h; cases h)
                simp at this
            refine ⟨fs, rfl, ⟨he.here, he.dirs, ?_, he.files⟩, rfl⟩
            intro g'
            rw [he.seen g', List.mem_cons]
            constructor
            · exact .inr
            · rintro (rfl | h)
              · exact (he.seen g').mp hin'
              · exact h
          · rw [if_neg hin]
            unfold Fs.mkdirAll
            have hlen : ∀ q ∈ (dst ++ [g]).inits, q.length ≤ dst.length + 1 := by
              intro q hq
              have := (List.mem_inits q _).mp hq
              simpa using this.length_le
            rw [if_neg]
            · refine ⟨_, rfl, ⟨by simp [he.here], ?_, ?_, he.files⟩, rfl⟩
              · intro p hp'
                rcases List.mem_append.mp hp' with h | h
                · exact he.dirs p h
                · exact hlen p h
              · intro g'
                rw [List.mem_append, List.mem_inits, he.seen g', List.mem_cons]
                constructor
                · rintro (h | h)
                  · exact .inr h
                  · have := h.eq_of_length (by simp)
                    have := List.append_cancel_left this
                    exact .inl (by simpa using this)
                · rintro (rfl | h)
                  · exact .inr (List.prefix_refl _)
                  · exact .inl h
            · rw [List.any_eq_true]
              rintro ⟨q, hq, hs⟩
              have h1 := he.files q (fun e => by rw [e] at hs; cases hs)
              have h2 := hlen q hq
              omega
        obtain ⟨fs1, e1, e2, e3⟩ := hstep
        obtain ⟨seen', fs', h1, h2, h3, h4⟩ := ih (g :: seen) fs1 e2 ho
        refine ⟨seen', fs', ?_, h2, ?_, ?_⟩
        · rw [e1]; exact h1
        · intro g'
          rw [h3 g', List.mem_cons]
          constructor
          · rintro ((rfl | h) | ⟨m, hm, hq⟩)
            · exact .inr ⟨n, by simp, hp⟩
            · exact .inl h
            · exact .inr ⟨m, List.mem_cons_of_mem _ hm, hq⟩
          · rintro (h | ⟨m, hm, hq⟩)
            · exact .inl (.inr h)
            · rcases List.mem_cons.mp hm with e | e
              · cases e
                rw [hp] at hq
                have := List.append_cancel_left hq
                exact .inl (.inl (by simpa using this.symm))
              · exact .inr ⟨m, e, hq⟩
        · intro p
          rw [h4 p, e3]
          rfl
    | file n d =>
      obtain ⟨⟨g, hg, x, hp⟩, ho⟩ := ho
      have hc : extractEntry dst fs (.file n d) =
          some { fs with files := fun q => if q = dst ++ [g, x] then some d else fs.files q } := by
        unfold extractEntry Fs.create
        simp only
        rw [hp, if_pos]
        constructor
        · have : (dst ++ [g, x]).dropLast = dst ++ [g] := by
            rw [List.dropLast_append_of_ne_nil (by simp)]; rfl
          rw [this]
          exact (he.seen g).mpr hg
        · intro hin
          have := he.dirs _ hin
          simp at this
      obtain ⟨seen', fs', h1, h2, h3, h4⟩ := ih seen
        { fs with files := fun q => if q = dst ++ [g, x] then some d else fs.files q } ⟨he.here, he.dirs, he.seen, by
        intro p hne
        simp only at hne
        split at hne
        · rename_i h; rw [h]; simp
        · exact he.files p hne⟩ ho
      refine ⟨seen', fs', ?_, h2, ?_, ?_⟩
      · rw [hc]; exact h1
      · intro g'
        rw [h3 g']
        simp
      · intro p
        rw [h4 p]
        simp only [contentOf, hp]
        by_cases hq : p = dst ++ [g, x]
        · rw [if_pos hq, if_pos hq.symm]
          cases contentOf dst p entries <;> rfl
        · rw [if_neg hq, if_neg fun e => hq e.symm]
          cases contentOf dst p entries <;> rfl

/-- An empty directory. -/
def emptyAt (dst : List Str) : Fs := ⟨dst.inits, fun _ => none⟩

theorem emptyAt_ok (dst : List Str) : Extracting dst [] (emptyAt dst) := by
  refine ⟨by simp [emptyAt], ?_, ?_, by simp [emptyAt]⟩
  · intro p hp
    have := ((List.mem_inits p dst).mp hp).length_le
    omega
  · intro g
    simp only [List.not_mem_nil, iff_false]
    intro h
    have := ((List.mem_inits _ dst).mp h).length_le
    rw [List.length_append, List.length_singleton] at this
    omega

/-- C169: a package in which the files of an asset follow the entry of its directory can be extracted; every file has
the content of its last entry, and there are no other files. -/
theorem package_files (dst : List Str) (entries : List TarEntry) (ho : Ordered dst [] entries) :
    ∃ fs, extract dst entries (emptyAt dst) = some fs ∧ (∀ p, fs.files p = contentOf dst p entries) ∧
      ∀ g, dst ++ [g] ∈ fs.dirs ↔ ∃ n, TarEntry.dir n ∈ entries ∧ entryPath dst n = dst ++ [g] := by
  obtain ⟨seen, fs, h1, h2, h3, h4⟩ := extract_step dst entries [] (emptyAt dst) (emptyAt_ok dst) ho
  refine ⟨fs, h1, ?_, ?_⟩
  · intro p
    rw [h4 p]
    simp [emptyAt]
  · intro g
    rw [h2.seen g, h3 g]
    simp

/-- C169: the assets are the directories that have a file `pathname`, with its content as their path. -/
theorem package_assets (text : Data → Str) (fs : Fs) (dst : List Str) (names : List Str) (a : Asset) :
    a ∈ scanPackage text fs dst names ↔ a.guid ∈ names ∧
      ∃ d, fs.files (dst ++ [a.guid, "pathname".toList]) = some d ∧ a.path = text d := by
  unfold scanPackage
  rw [List.mem_filterMap]
  constructor
  · rintro ⟨g, hg, h⟩
    unfold scanOne at h
    obtain ⟨d, h1, rfl⟩ := Option.map_eq_some_iff.mp h
    exact ⟨hg, d, h1, rfl⟩
  · rintro ⟨hg, d, h1, h2⟩
    refine ⟨a.guid, hg, ?_⟩
    unfold scanOne
    rw [h1]
    cases a
    simp_all

theorem getLast_unique {α : Type} [DecidableEq α] (l : List α) (p : α → Bool) (a : α) (ha : a ∈ l) (hp : p a = true)
    (hu : ∀ b ∈ l, p b = true → b = a) : (l.filter p).getLast? = some a := by
  have hne : l.filter p ≠ [] := List.ne_nil_of_mem (List.mem_filter.mpr ⟨ha, hp⟩)
  rw [List.getLast?_eq_some_getLast hne]
  have := List.mem_filter.mp (List.getLast_mem hne)
  rw [hu _ this.1 this.2]

/-- C169: every asset is found by its GUID. -/
theorem asset_by_guid (text : Data → Str) (fs : Fs) (dst : List Str) (names : List Str) (a : Asset)
    (ha : a ∈ scanPackage text fs dst names) : getAsset (scanPackage text fs dst names) a.guid = some a := by
  refine getLast_unique _ _ a ha (by simp) ?_
  intro b hb h
  have h' : b.guid = a.guid := by simpa using h
  obtain ⟨_, d, h1, h2⟩ := (package_assets text fs dst names a).mp ha
  obtain ⟨_, d', h3, h4⟩ := (package_assets text fs dst names b).mp hb
  rw [h', h1] at h3
  cases h3
  cases a; cases b
  simp_all

/-- C169: if no other asset has its path, an asset is found by its path, and what is read is its own content. -/
theorem asset_by_path_partial (text : Data → Str) (fs : Fs) (dst : List Str) (names : List Str) (a : Asset)
    (ha : a ∈ scanPackage text fs dst names)
    (hu : ∀ b ∈ scanPackage text fs dst names, b.path = a.path → b = a) :
    getAssetByPath (scanPackage text fs dst names) a.path = some a ∧
    openAsset fs dst (scanPackage text fs dst names) a.path = fs.files (dst ++ [a.guid, "asset".toList]) := by
  have h : getAssetByPath (scanPackage text fs dst names) a.path = some a :=
    getLast_unique _ _ a ha (by simp) fun b hb h => hu b hb (by simpa using h)
  refine ⟨h, ?_⟩
  unfold openAsset
  rw [h]

/-- C169: only paths of assets can be opened. -/
theorem no_other_path (text : Data → Str) (fs : Fs) (dst : List Str) (names : List Str) (path : Str)
    (h : ∀ a ∈ scanPackage text fs dst names, a.path ≠ path) :
    openAsset fs dst (scanPackage text fs dst names) path = none := by
  unfold openAsset getAssetByPath
  rw [List.filter_eq_nil_iff.mpr fun a ha => by simpa using h a ha]
  rfl

/-- C169 is false of the code for archives without entries for directories: the first file stops the extraction. -/
theorem no_directory_false (dst : List Str) (g x n : Str) (d : Data) (rest : List TarEntry)
    (hp : entryPath dst n = dst ++ [g, x]) : extract dst (.file n d :: rest) (emptyAt dst) = none := by
  unfold extract
  rw [List.foldlM_cons]
  have : extractEntry dst (emptyAt dst) (.file n d) = none := by
    unfold extractEntry Fs.create
    simp only
    rw [hp, if_neg]
    rintro ⟨h, -⟩
    rw [show (dst ++ [g, x]).dropLast = dst ++ [g] by rw [List.dropLast_append_of_ne_nil (by simp)]; rfl] at h
    have := ((List.mem_inits _ dst).mp h).length_le
    rw [List.length_append, List.length_singleton] at this
    omega
  rw [this]
  rfl

/-- C169 is false of the code if the file `pathname` has a second line: the path of the asset is not its first line, so
the asset cannot be opened by it. -/
theorem second_line_false (text : Data → Str) (fs : Fs) (dst : List Str) (g path more : Str) (d : Data)
    (h : fs.files (dst ++ [g, "pathname".toList]) = some d) (ht : text d = path ++ '\n' :: more) :
    openAsset fs dst (scanPackage text fs dst [g]) path = none := by
  apply no_other_path
  intro a ha e
  obtain ⟨hg, d', h1, h2⟩ := (package_assets text fs dst [g] a).mp ha
  rw [List.mem_singleton.mp hg, h] at h1
  cases h1
  rw [e, ht] at h2
  have := congrArg List.length h2
  simp at this

/-- C169 is false of the code if two assets have the same path: what is read for the first one is the content of the
second one. -/
theorem same_path_false (text : Data → Str) (fs : Fs) (dst : List Str) (g g' : Str) (d d' : Data)
    (h : fs.files (dst ++ [g, "pathname".toList]) = some d) (h' : fs.files (dst ++ [g', "pathname".toList]) = some d')
    (ht : text d = text d') :
    openAsset fs dst (scanPackage text fs dst [g, g']) (text d) = fs.files (dst ++ [g', "asset".toList]) := by
  have : scanPackage text fs dst [g, g'] = [⟨g, text d⟩, ⟨g', text d'⟩] := by
    unfold scanPackage
    rw [List.filterMap_cons_some (b := ⟨g, text d⟩) (by unfold scanOne; rw [h]; rfl),
      List.filterMap_cons_some (b := ⟨g', text d'⟩) (by unfold scanOne; rw [h']; rfl), List.filterMap_nil]
  rw [this]
  simp [openAsset, getAssetByPath, ht]

/-- C169: the material of a file is that of the first document of a material that can be read; documents of other
kinds do not matter. -/
theorem material_first {α : Type} (decode : YDoc → Option α) (before after : List YDoc) (doc : YDoc) (m : α)
    (hb : ∀ d ∈ before, (d.tag ≠ [] ∧ d.tag ≠ "tag:unity3d.com,2011:21".toList) ∨ decode d = none)
    (ht : doc.tag = "tag:unity3d.com,2011:21".toList ∨ doc.tag = []) (hm : decode doc = some m) :
    loadMaterial decode (before ++ doc :: after) = some m := by
  unfold loadMaterial
  rw [List.filter_append, List.findSome?_append]
  have h1 : (before.filter fun d => d.tag = [] ∨ d.tag = "tag:unity3d.com,2011:21".toList).findSome? decode = none := by
    rw [List.findSome?_eq_none_iff]
    intro d hd
    obtain ⟨hd, ht⟩ := List.mem_filter.mp hd
    rcases hb d hd with ⟨h1, h2⟩ | h
    · exact absurd (of_decide_eq_true ht) (by rintro (h | h) <;> contradiction)
    · exact h
  rw [h1, List.filter_cons_of_pos (p := fun d : YDoc => decide (d.tag = [] ∨ d.tag = "tag:unity3d.com,2011:21".toList))
      (decide_eq_true ht.symm), List.findSome?_cons, hm]
  rfl

/-- C169: a file without a readable document of a material is an error. -/
theorem material_none {α : Type} (decode : YDoc → Option α) (docs : List YDoc)
    (hb : ∀ d ∈ docs, (d.tag ≠ [] ∧ d.tag ≠ "tag:unity3d.com,2011:21".toList) ∨ decode d = none) :
    loadMaterial decode docs = none := by
  unfold loadMaterial
  rw [List.findSome?_eq_none_iff]
  intro d hd
  obtain ⟨hd, ht⟩ := List.mem_filter.mp hd
  rcases hb d hd with ⟨h1, h2⟩ | h
  · exact absurd (of_decide_eq_true ht) (by rintro (h | h) <;> contradiction)
  · exact h

/-! ### Examples -/

def exDst : List Str := ["tmp".toList, "a".toList]
def exTar : List TarEntry :=
  [.dir "./".toList, .dir "g1/".toList, .file "g1/asset".toList [1, 2], .file "g1/pathname".toList [65],
    .dir "./g2/".toList, .file "g2/pathname".toList [66], .other, .file "g2/asset".toList [3]]
def exText (d : Data) : Str := d.map fun b => Char.ofNat b.toNat

theorem exTar_ordered : Ordered exDst [] exTar :=
  .inl ⟨by decide, .inr ⟨"g1".toList, by decide, ⟨"g1".toList, by decide, "asset".toList, by decide⟩,
    ⟨"g1".toList, by decide, "pathname".toList, by decide⟩, .inr ⟨"g2".toList, by decide,
    ⟨"g2".toList, by decide, "pathname".toList, by decide⟩, ⟨"g2".toList, by decide, "asset".toList, by decide⟩,
    trivial⟩⟩⟩

example : (extract exDst exTar (emptyAt exDst)).map (fun fs => (scanPackage exText fs exDst ["g1".toList, "g2".toList],
    openAsset fs exDst (scanPackage exText fs exDst ["g1".toList, "g2".toList]) "B".toList)) =
    some ([⟨"g1".toList, "A".toList⟩, ⟨"g2".toList, "B".toList⟩], some [3]) := by decide +kernel

example : contentOf exDst (exDst ++ ["g1".toList, "asset".toList]) exTar = some [1, 2] := by decide +kernel
example : entryPath exDst "g1/asset".toList = exDst ++ ["g1".toList, "asset".toList] := by decide
example : exText [65, 10, 48, 48] = "A".toList ++ '\n' :: "00".toList := by decide
example : loadMaterial (fun d => if d.body = [] then none else some d.body)
    [⟨"tag:unity3d.com,2011:114".toList, [], "x".toList⟩, ⟨"tag:unity3d.com,2011:21".toList, [], "m".toList⟩] =
    some "m".toList := by decide +kernel

end Verif.Unity
