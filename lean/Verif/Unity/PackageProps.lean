import Verif.Unity.Package
import Mathlib.Data.List.Basic

/-!
C57: extracting packages (unity/unity_assets.go).
-/

namespace Verif.Unity

/-- A part of a clean path. -/
def PartOk (p : Str) : Prop := p ≠ [] ∧ p ≠ ['.'] ∧ p ≠ ['.', '.']

instance (p : Str) : Decidable (PartOk p) := by unfold PartOk; infer_instance

theorem clean_push (acc ps qs : List Str) (h : ∀ p ∈ ps, PartOk p) :
    cleanParts acc (ps ++ qs) = cleanParts (ps.reverse ++ acc) qs := by
  induction ps generalizing acc with
  | nil => rfl
  | cons p ps ih =>
    obtain ⟨h1, h2, h3⟩ := h p (by simp)
    rw [List.cons_append, cleanParts, if_neg (by simp [h1, h2]), if_neg h3, ih _ (fun q hq => h q (by simp [hq]))]
    simp

/-- How far a list of parts is below where it started, `none` when it is above at some time. -/
def level : Nat → List Str → Option Nat
  | n, [] => some n
  | n, p :: ps =>
    if p = [] ∨ p = ['.'] then level n ps
    else if p = ['.', '.'] then (if n = 0 then none else level (n - 1) ps)
    else level (n + 1) ps

theorem clean_below (base ps : List Str) : ∀ (top : List Str) (m : Nat), level top.length ps = some m →
    ∃ rest, cleanParts (top ++ base.reverse) ps = base ++ rest := by
  induction ps with
  | nil =>
    intro top m _
    exact ⟨top.reverse, by simp [cleanParts]⟩
  | cons p ps ih =>
    intro top m h
    rw [level] at h
    rw [cleanParts]
    split
    · rename_i h1
      rw [if_pos h1] at h
      exact ih top m h
    · rename_i h1
      rw [if_neg h1] at h
      split
      · rename_i h2
        rw [if_pos h2] at h
        cases top with
        | nil => simp at h
        | cons t top => exact ih top m (by simpa using h)
      · rename_i h2
        rw [if_neg h2] at h
        exact ih (p :: top) m (by simpa using h)

theorem level_noDots (ps : List Str) (h : ['.', '.'] ∉ ps) : ∀ n, (level n ps).isSome = true := by
  induction ps with
  | nil => intro n; rfl
  | cons p ps ih =>
    intro n
    have hp : p ≠ ['.', '.'] := fun e => h (by simp [e])
    have ih' := ih (fun hm => h (by simp [hm]))
    rw [level]
    split
    · exact ih' n
    · exact ih' (n + 1)

/-- C57: an entry whose name never leaves the directory it is extracted to — in particular a name without
`..` — is written below the directory. Missing: names that leave it, see `extract_false`. -/
theorem extract_partial (dst : List Str) (hd : ∀ p ∈ dst, PartOk p) (names : List Str)
    (hn : ∀ n ∈ names, (level 0 (splitSlash n)).isSome = true) :
    ∀ path ∈ extractPaths dst names, dst <+: path := by
  intro path hp
  simp only [extractPaths, List.mem_map] at hp
  obtain ⟨n, hm, rfl⟩ := hp
  obtain ⟨m, hl⟩ := Option.isSome_iff_exists.mp (hn n hm)
  have := clean_below dst (splitSlash n) [] m hl
  rw [entryPath, clean_push [] dst _ hd]
  obtain ⟨rest, e⟩ := this
  rw [List.append_nil, show dst.reverse = [] ++ dst.reverse from rfl, e]
  exact List.prefix_append _ _

/-- C57 for names without `..`. -/
theorem extract_noDots_partial (dst : List Str) (hd : ∀ p ∈ dst, PartOk p) (names : List Str)
    (hn : ∀ n ∈ names, ['.', '.'] ∉ splitSlash n) : ∀ path ∈ extractPaths dst names, dst <+: path :=
  extract_partial dst hd names fun n h => level_noDots _ (hn n h) 0

/-- C57 is false of the code: for every directory there is a name that is written outside of it. -/
theorem extract_false (dst : List Str) (hd : ∀ p ∈ dst, PartOk p) (hne : dst ≠ []) :
    ∃ name, ∃ path ∈ extractPaths dst [name], ¬ dst <+: path := by
  obtain ⟨init, last, rfl⟩ : ∃ init last, dst = init ++ [last] :=
    ⟨dst.dropLast, dst.getLast hne, (List.dropLast_append_getLast hne).symm⟩
  have key : ∀ c : Char, [c] ≠ last → PartOk [c] → splitSlash ['.', '.', '/', c] = [['.', '.'], [c]] →
      ¬ (init ++ [last]) <+: entryPath (init ++ [last]) ['.', '.', '/', c] := by
    intro c hc hok hs h
    have e : entryPath (init ++ [last]) ['.', '.', '/', c] = init ++ [[c]] := by
      rw [entryPath, clean_push [] _ _ hd, hs]
      simp only [List.reverse_append, List.reverse_cons, List.reverse_nil, List.nil_append, List.append_nil,
        List.singleton_append]
      rw [cleanParts, if_neg (by simp), if_pos rfl, List.tail_cons, cleanParts, if_neg (by simp [hok.2.1]), if_neg hok.2.2,
        cleanParts]
      simp
    rw [e, List.prefix_append_right_inj, List.prefix_iff_eq_take] at h
    simp at h
    exact hc h.symm
  by_cases hx : ['x'] = last
  · exact ⟨['.', '.', '/', 'y'], _, List.mem_singleton.mpr rfl, key 'y' (by rw [← hx]; decide) (by decide) (by decide)⟩
  · exact ⟨['.', '.', '/', 'x'], _, List.mem_singleton.mpr rfl, key 'x' hx (by decide) (by decide)⟩

/-- A package as Unity writes it meets the hypotheses of `extract_partial`. -/
example : extractPaths ["tmp".toList, "pkg1".toList] ["./".toList, "./0a1b/".toList, "./0a1b/asset".toList, "./a/../b".toList] =
    [["tmp".toList, "pkg1".toList], ["tmp".toList, "pkg1".toList, "0a1b".toList],
     ["tmp".toList, "pkg1".toList, "0a1b".toList, "asset".toList], ["tmp".toList, "pkg1".toList, "b".toList]] ∧
    ∀ n ∈ ["./".toList, "./0a1b/".toList, "./0a1b/asset".toList, "./a/../b".toList], (level 0 (splitSlash n)).isSome = true := by
  decide +kernel

example : extractPaths ["tmp".toList, "pkg1".toList] ["../../etc/passwd".toList] = [["etc".toList, "passwd".toList]] := by
  decide +kernel

end Verif.Unity
