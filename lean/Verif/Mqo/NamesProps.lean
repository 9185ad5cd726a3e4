import Verif.Mqo.Core
import Mathlib.Data.List.Perm.Subperm
import Mathlib.Data.List.Nodup

/-! Properties C18 and C65 (`FixNames`) and C19 (`FixObjectID`). -/

namespace Verif.Mqo

open Verif.Geom

variable {F : Type}

theorem toDigits_inj {m n : Nat} (h : Nat.toDigits 10 m = Nat.toDigits 10 n) : m = n := by
  have := congrArg (fun l => Nat.ofDigitChars 10 l 0) h
  simpa [Nat.ofDigitChars_ten_toDigits] using this

theorem suffixed_inj {name : Str} {m n : Nat} (h : suffixed name m = suffixed name n) : m = n := by
  unfold suffixed at h
  have := List.append_cancel_left h
  simp only [List.cons.injEq, true_and] at this
  exact toDigits_inj this

theorem freshN_some {used : List Str} {name : Str} {fuel n m : Nat} (h : freshN used name fuel n = some m) :
    suffixed name m ∉ used ∧ n ≤ m ∧ ∀ k, n ≤ k → k < m → suffixed name k ∈ used := by
  induction fuel generalizing n with
  | zero => simp [freshN] at h
  | succ fuel ih =>
    rw [freshN] at h
    split_ifs at h with hc
    · obtain ⟨h1, h2, h3⟩ := ih h
      refine ⟨h1, by omega, fun k hk hkm => ?_⟩
      by_cases hkn : k = n
      · rw [hkn]; exact hc
      · exact h3 k (by omega) hkm
    · cases h
      exact ⟨hc, Nat.le_refl _, fun k h1 h2 => by omega⟩

theorem freshN_none {used : List Str} {name : Str} {fuel n : Nat} (h : freshN used name fuel n = none) :
    ∀ k < fuel, suffixed name (n + k) ∈ used := by
  induction fuel generalizing n with
  | zero => intro k hk; omega
  | succ fuel ih =>
    rw [freshN] at h
    split_ifs at h with hc
    intro k hk
    cases k with
    | zero => exact hc
    | succ k =>
      have := ih h k (by omega)
      rwa [show n + 1 + k = n + (k + 1) by omega] at this

/-- The search for a free number ends, after at most as many rounds as there are names. -/
theorem freshN_total (used : List Str) (name : Str) (n : Nat) :
    ∃ m, freshN used name (used.length + 1) n = some m := by
  cases h : freshN used name (used.length + 1) n with
  | some m => exact ⟨m, rfl⟩
  | none =>
    exfalso
    have hs := freshN_none h
    have hnd : ((List.range (used.length + 1)).map fun k => suffixed name (n + k)).Nodup :=
      List.Nodup.map (fun a b hab => by have := suffixed_inj hab; omega) List.nodup_range
    have hsub : ((List.range (used.length + 1)).map fun k => suffixed name (n + k)) ⊆ used := by
      intro x hx
      obtain ⟨k, hk, rfl⟩ := List.mem_map.1 hx
      exact hs k (List.mem_range.1 hk)
    have := (List.subperm_of_subset hnd hsub).length_le
    simp at this
    omega

/-- What the renaming of a list of names amounts to, entry by entry. `before` are the names the entry
must not collide with. -/
def Renamed (before : List Str) (old new : Str) : Prop :=
  (old ∉ before ∧ new = old) ∨
  (old ∈ before ∧ ∃ m, 2 ≤ m ∧ new = suffixed old m ∧ new ∉ before ∧ ∀ k, 2 ≤ k → k < m → suffixed old k ∈ before)

theorem fixNamesLoop_spec (names : List Str) : ∀ used : List Str, ∃ out, fixNamesLoop used names = some out ∧
    out.length = names.length ∧ out.Nodup ∧ (∀ x ∈ out, x ∉ used) ∧
    ∀ i (h : i < names.length) (h' : i < out.length), Renamed ((out.take i).reverse ++ used) names[i] out[i] := by
  induction names with
  | nil => intro used; exact ⟨[], rfl, rfl, List.nodup_nil, by simp, by simp⟩
  | cons name names ih =>
    intro used
    have key : ∀ new, Renamed used name new → new ∉ used → fixNamesLoop used (name :: names) =
        (fixNamesLoop (new :: used) names).map (new :: ·) →
        ∃ out, fixNamesLoop used (name :: names) = some out ∧
        out.length = (name :: names).length ∧ out.Nodup ∧ (∀ x ∈ out, x ∉ used) ∧
        ∀ i (h : i < (name :: names).length) (h' : i < out.length),
          Renamed ((out.take i).reverse ++ used) (name :: names)[i] out[i] := by
      intro new hr hn he
      obtain ⟨out, h1, h2, h3, h4, h5⟩ := ih (new :: used)
      refine ⟨new :: out, by rw [he, h1]; rfl, by simp [h2], List.nodup_cons.2 ⟨fun hm => ?_, h3⟩, ?_, ?_⟩
      · exact (h4 new hm) (by simp)
      · intro x hx
        rcases List.mem_cons.1 hx with rfl | hx
        · exact hn
        · exact fun hu => h4 x hx (by simp [hu])
      · intro i h h'
        cases i with
        | zero => simpa using hr
        | succ i =>
          have := h5 i (by simpa using h) (by simpa using h')
          simpa using this
    by_cases hu : name ∈ used
    · obtain ⟨m, hm⟩ := freshN_total used name 2
      obtain ⟨h1, h2, h3⟩ := freshN_some hm
      refine key (suffixed name m) (Or.inr ⟨hu, m, h2, rfl, h1, h3⟩) h1 ?_
      rw [fixNamesLoop, if_pos hu, hm]
    · exact key name (Or.inl ⟨hu, rfl⟩) hu (by rw [fixNamesLoop, if_neg hu])

/-- Entry `i` of a renaming: it keeps its name if no entry before ends up with that name; otherwise it
gets the name with the smallest number from 2 on that no entry before has. -/
def RenamedAll (old new : List Str) : Prop :=
  new.length = old.length ∧ new.Nodup ∧
    ∀ i (h : i < old.length) (h' : i < new.length),
      (old[i] ∉ new.take i ∧ new[i] = old[i]) ∨
      (old[i] ∈ new.take i ∧ ∃ m, 2 ≤ m ∧ new[i] = suffixed old[i] m ∧
        ∀ k, 2 ≤ k → k < m → suffixed old[i] k ∈ new.take i)

theorem fixNamesLoop_all (names : List Str) : ∃ out, fixNamesLoop [] names = some out ∧ RenamedAll names out := by
  obtain ⟨out, h1, h2, h3, -, h5⟩ := fixNamesLoop_spec names []
  refine ⟨out, h1, h2, h3, fun i h h' => ?_⟩
  have := h5 i h h'
  simp only [Renamed, List.append_nil, List.mem_reverse] at this
  rcases this with ⟨a, b⟩ | ⟨a, m, b, c, d, e⟩
  · exact Or.inl ⟨a, b⟩
  · exact Or.inr ⟨a, m, b, c, e⟩

/-- The object or material with its name blanked. -/
def Object.noName (o : Object F) : Object F := { o with name := [] }
def Material.noName (m : Material F) : Material F := { m with name := [] }

theorem zipWith_names (os : List (Object F)) (ns : List Str) (h : ns.length = os.length) :
    (os.zipWith (fun o n => { o with name := n }) ns).map Object.name = ns ∧
    (os.zipWith (fun o n => { o with name := n }) ns).map Object.noName = os.map Object.noName := by
  induction os generalizing ns with
  | nil => cases ns <;> simp_all
  | cons o os ih =>
    cases ns with
    | nil => simp at h
    | cons n ns =>
      obtain ⟨a, b⟩ := ih ns (by simpa using h)
      simp only [List.zipWith_cons_cons, List.map_cons]
      exact ⟨by rw [a], by rw [b]; rfl⟩

theorem zipWith_names' (os : List (Material F)) (ns : List Str) (h : ns.length = os.length) :
    (os.zipWith (fun o n => { o with name := n }) ns).map Material.name = ns ∧
    (os.zipWith (fun o n => { o with name := n }) ns).map Material.noName = os.map Material.noName := by
  induction os generalizing ns with
  | nil => cases ns <;> simp_all
  | cons o os ih =>
    cases ns with
    | nil => simp at h
    | cons n ns =>
      obtain ⟨a, b⟩ := ih ns (by simpa using h)
      simp only [List.zipWith_cons_cons, List.map_cons]
      exact ⟨by rw [a], by rw [b]; rfl⟩

/-- C18. `FixNames` ends; afterwards object names are pairwise different, material names are pairwise
different, nothing but names has changed, and each name is the old one or the old one with the smallest
free number. -/
theorem fixNames_spec (doc : Document F) : ∃ doc', doc.fixNames = some doc' ∧
    (doc'.objects.map Object.name).Nodup ∧ (doc'.materials.map Material.name).Nodup ∧
    RenamedAll (doc.objects.map Object.name) (doc'.objects.map Object.name) ∧
    RenamedAll (doc.materials.map Material.name) (doc'.materials.map Material.name) ∧
    doc'.objects.map Object.noName = doc.objects.map Object.noName ∧
    doc'.materials.map Material.noName = doc.materials.map Material.noName ∧
    { doc' with objects := doc.objects, materials := doc.materials } = doc := by
  obtain ⟨os, h1, h2⟩ := fixNamesLoop_all (doc.objects.map Object.name)
  obtain ⟨ms, h3, h4⟩ := fixNamesLoop_all (doc.materials.map Material.name)
  obtain ⟨a1, a2⟩ := zipWith_names doc.objects os (by simpa using h2.1)
  obtain ⟨b1, b2⟩ := zipWith_names' doc.materials ms (by simpa using h4.1)
  refine ⟨{ doc with
      objects := doc.objects.zipWith (fun o n => { o with name := n }) os
      materials := doc.materials.zipWith (fun m n => { m with name := n }) ms }, ?_, ?_⟩
  · simp [Document.fixNames, h1, h3]
  · simp only [a1, b1]
    exact ⟨h2.2.1, h4.2.1, h2, h4, a2, b2, trivial⟩

theorem fixNamesLoop_id (names : List Str) : ∀ used, names.Nodup → (∀ x ∈ names, x ∉ used) →
    fixNamesLoop used names = some names := by
  induction names with
  | nil => intros; rfl
  | cons n ns ih =>
    intro used h1 h2
    obtain ⟨a, b⟩ := List.nodup_cons.1 h1
    rw [fixNamesLoop, if_neg (h2 n (by simp)), ih (n :: used) b]
    · rfl
    · intro x hx hm
      rcases List.mem_cons.1 hm with rfl | hm
      · exact a hx
      · exact h2 x (by simp [hx]) hm

/-- C18. A document whose names are unique already is left alone. -/
theorem fixNames_id (doc : Document F) (ho : (doc.objects.map Object.name).Nodup)
    (hm : (doc.materials.map Material.name).Nodup) : doc.fixNames = some doc := by
  have h1 := fixNamesLoop_id _ [] ho (by simp)
  have h2 := fixNamesLoop_id _ [] hm (by simp)
  have e1 : ∀ l : List (Object F), l.zipWith (fun o n => { o with name := n }) (l.map Object.name) = l := by
    intro l; induction l with
    | nil => rfl
    | cons o l ih => simp [ih]
  have e2 : ∀ l : List (Material F), l.zipWith (fun o n => { o with name := n }) (l.map Material.name) = l := by
    intro l; induction l with
    | nil => rfl
    | cons o l ih => simp [ih]
  simp [Document.fixNames, h1, h2, e1, e2]

/-- C18. Hence doing it twice is the same as doing it once. -/
theorem fixNames_idem (doc doc' : Document F) (h : doc.fixNames = some doc') : doc'.fixNames = some doc' := by
  obtain ⟨d, h1, h2, h3, -⟩ := fixNames_spec doc
  rw [h] at h1
  cases h1
  exact fixNames_id doc' h2 h3

/-- Names that look like generated ones are handled. -/
example : fixNamesLoop [] ["a".toList, "a_2".toList, "a".toList, "a".toList, "b".toList] =
    some ["a".toList, "a_2".toList, "a_3".toList, "a_4".toList, "b".toList] := by decide

/-- C65 is false: the third object is the only one named `a_2`, but it gets another name. -/
theorem fixNames_keeps_unique_false : ∃ names out : List Str, fixNamesLoop [] names = some out ∧
    ∃ (i : Nat) (n : Str), names[i]? = some n ∧ names.count n = 1 ∧ out[i]? ≠ some n :=
  ⟨["a".toList, "a".toList, "a_2".toList], ["a".toList, "a_2".toList, "a_2_2".toList], by decide,
    2, "a_2".toList, by decide⟩

/-- C65, the part that holds: an object keeps its name when no object before has that name and the
name is not an earlier name with a number appended. Missing: names of that form, for which it is
false. -/
theorem fixNames_keeps_first_partial (names out : List Str) (h : fixNamesLoop [] names = some out)
    (i : Nat) (n : Str) (hi : names[i]? = some n) (hf : n ∉ names.take i)
    (hg : ∀ m ∈ names.take i, ∀ k, n ≠ suffixed m k) : out[i]? = some n := by
  obtain ⟨out', h1, h2, -, h3⟩ := fixNamesLoop_all names
  rw [h] at h1
  cases h1
  obtain ⟨hlt, he⟩ := List.getElem?_eq_some_iff.1 hi
  have hlt' : i < out.length := by omega
  rw [List.getElem?_eq_getElem hlt']
  rcases h3 i hlt hlt' with ⟨-, h4⟩ | ⟨h4, -⟩
  · rw [h4, he]
  · exfalso
    rw [he] at h4
    obtain ⟨j, hj, hje⟩ := List.mem_iff_getElem.1 h4
    rw [List.length_take] at hj
    rw [List.getElem_take] at hje
    have hm : names[j]'(by omega) ∈ names.take i := by
      rw [List.mem_take_iff_getElem]; exact ⟨j, by omega, rfl⟩
    rcases h3 j (by omega) (by omega) with ⟨-, h5⟩ | ⟨-, m, -, h5, -⟩
    · rw [hje] at h5
      exact hf (h5 ▸ hm)
    · rw [hje] at h5
      exact hg _ hm m h5

example : ∃ names out : List Str, fixNamesLoop [] names = some out ∧ names[2]? = some "c".toList ∧
    "c".toList ∉ names.take 2 ∧ ∀ m ∈ names.take 2, ∀ k, "c".toList ≠ suffixed m k := by
  refine ⟨["a".toList, "a".toList, "c".toList], ["a".toList, "a_2".toList, "c".toList], by decide, by decide,
    by decide, ?_⟩
  intro m hm k h
  have : m = "a".toList := by simpa using hm
  subst this
  have h2 := congrArg List.head? h
  simp [suffixed] at h2

/-! ## C19 -/

theorem fixObjectIDs_get (os : List (Object F)) (i : Nat) :
    ((fixObjectIDs os).map Object.uid)[i]? = (os.map Object.uid)[i]?.map fun a => if a = 0 then (i : Int) + 1 else a := by
  simp only [fixObjectIDs, List.getElem?_map, List.getElem?_mapIdx, Option.map_map]
  congr 1
  funext o
  simp only [Function.comp]
  split_ifs <;> rfl

/-- C19. Every object has a non-zero id afterwards, given ids are kept and nothing else changes. -/
theorem fixObjectIDs_nonzero (os : List (Object F)) :
    (∀ o ∈ fixObjectIDs os, o.uid ≠ 0) ∧
    (∀ (i : Nat) (o : Object F), os[i]? = some o → o.uid ≠ 0 → (fixObjectIDs os)[i]? = some o) ∧
    (fixObjectIDs os).map (fun o => { o with uid := 0 }) = os.map (fun o => { o with uid := 0 }) := by
  refine ⟨?_, ?_, ?_⟩
  · intro o ho
    obtain ⟨i, hi⟩ := List.mem_iff_getElem?.1 ho
    rw [fixObjectIDs, List.getElem?_mapIdx] at hi
    obtain ⟨a, -, rfl⟩ := Option.map_eq_some_iff.1 hi
    split_ifs with h
    · show (i : Int) + 1 ≠ 0
      omega
    · exact h
  · intro i o hi h
    rw [fixObjectIDs, List.getElem?_mapIdx, hi]
    simp [h]
  · apply List.ext_getElem?
    intro i
    simp only [fixObjectIDs, List.getElem?_map, List.getElem?_mapIdx, Option.map_map]
    congr 1
    funext o
    simp only [Function.comp]
    split_ifs <;> rfl

/-- C19, exactly when it holds: the ids are pairwise different afterwards iff the given ones are and
none of them is the place (from 1) of an object without one. -/
theorem fixObjectIDs_unique_iff (os : List (Object F)) :
    ((fixObjectIDs os).map Object.uid).Nodup ↔
      (∀ (i j : Nat) (a : Int), i ≠ j → (os.map Object.uid)[i]? = some a → (os.map Object.uid)[j]? = some a → a = 0) ∧
      (∀ i j : Nat, (os.map Object.uid)[i]? = some 0 → (os.map Object.uid)[j]? ≠ some ((i : Int) + 1)) := by
  rw [List.nodup_iff_getElem?_ne_getElem?]
  have hlen : ((fixObjectIDs os).map Object.uid).length = (os.map Object.uid).length := by
    simp [fixObjectIDs]
  constructor
  · intro h
    have h' : ∀ (i j : Nat) (a : Int), i ≠ j → ((fixObjectIDs os).map Object.uid)[i]? = some a →
        ((fixObjectIDs os).map Object.uid)[j]? = some a → False := by
      intro i j a hij hi hj
      rcases Nat.lt_or_gt_of_ne hij with hlt | hlt
      · exact h i j hlt (List.getElem?_eq_some_iff.1 hj).1 (hi.trans hj.symm)
      · exact h j i hlt (List.getElem?_eq_some_iff.1 hi).1 (hj.trans hi.symm)
    refine ⟨fun i j a hij hi hj => ?_, fun i j hi hj => ?_⟩
    · by_contra ha
      refine h' i j a hij ?_ ?_
      · rw [fixObjectIDs_get, hi]; simp [ha]
      · rw [fixObjectIDs_get, hj]; simp [ha]
    · by_cases hij : i = j
      · subst hij
        rw [hi] at hj
        have := Option.some.inj hj
        omega
      · refine h' i j ((i : Int) + 1) hij ?_ ?_
        · rw [fixObjectIDs_get, hi]; simp
        · rw [fixObjectIDs_get, hj]
          have : ¬ (i : Int) + 1 = 0 := by omega
          simp [this]
  · rintro ⟨h1, h2⟩ i j hij hj he
    rw [hlen] at hj
    obtain ⟨b, hb⟩ : ∃ b, (os.map Object.uid)[j]? = some b := ⟨_, List.getElem?_eq_getElem hj⟩
    obtain ⟨a, ha⟩ : ∃ a, (os.map Object.uid)[i]? = some a :=
      ⟨_, List.getElem?_eq_getElem (Nat.lt_trans hij hj)⟩
    rw [fixObjectIDs_get, fixObjectIDs_get, ha, hb] at he
    simp only [Option.map_some, Option.some.injEq] at he
    by_cases ha0 : a = 0 <;> by_cases hb0 : b = 0
    · rw [if_pos ha0, if_pos hb0] at he; omega
    · rw [if_pos ha0, if_neg hb0] at he
      subst ha0
      exact h2 i j ha (by rw [hb, he])
    · rw [if_neg ha0, if_pos hb0] at he
      subst hb0
      exact h2 j i hb (by rw [ha, he])
    · rw [if_neg ha0, if_neg hb0] at he
      subst he
      exact ha0 (h1 i j a (by omega) ha hb)

/-- C19 is false: an object with id 2 in front of one without gives two objects with id 2. -/
theorem fixObjectIDs_unique_false : ∃ os : List (Object Unit),
    (∀ (i j : Nat) (a : Int), i ≠ j → (os.map Object.uid)[i]? = some a → (os.map Object.uid)[j]? = some a → a = 0) ∧
    ¬ ((fixObjectIDs os).map Object.uid).Nodup := by
  let o : Object Unit := ⟨0, [], [], [], true, false, 0, false, 1, (), 0, 0, 0, (), none, none, none, none, [], none⟩
  refine ⟨[{ o with uid := 2 }, o], ?_, by decide⟩
  intro i j a hij hi hj
  rcases i with _ | _ | i <;> rcases j with _ | _ | j <;> simp_all [o]

/-- C19. With unique ids, looking an object up by its id gives that object. -/
theorem getObjectByID_unique (os : List (Object F)) (h : (os.map Object.uid).Nodup) (o : Object F) (ho : o ∈ os) :
    getObjectByID os o.uid = some o := by
  unfold getObjectByID
  induction os with
  | nil => cases ho
  | cons p os ih =>
    simp only [List.map_cons, List.nodup_cons] at h
    rcases List.mem_cons.1 ho with rfl | ho
    · simp
    · have : p.uid ≠ o.uid := fun he => h.1 (he ▸ List.mem_map_of_mem ho)
      simp only [List.find?_cons, this, decide_false]
      exact ih h.2 ho

/-- Two given ids and two missing ones that do not collide. -/
example : ∃ os : List (Object Unit), os.map Object.uid = [7, 0, 9, 0] ∧ ((fixObjectIDs os).map Object.uid).Nodup := by
  let o : Object Unit := ⟨0, [], [], [], true, false, 0, false, 1, (), 0, 0, 0, (), none, none, none, none, [], none⟩
  exact ⟨[{ o with uid := 7 }, o, { o with uid := 9 }, o], rfl, by decide⟩

end Verif.Mqo
