import Verif.Conv.MmdToMqo

/-!
C36, first part: how genMorphGroup distributes the faces.
-/

namespace Verif.Conv

open Verif.Geom

variable {F : Type}

/-! ## The tables -/

theorem getD_modify {α} (l : List (List α)) (i j : Nat) (f : List α → List α) (hf : j < l.length) :
    (l.modify i f).getD j [] = if i = j then f (l.getD j []) else l.getD j [] := by
  simp only [List.getD_eq_getElem?_getD, List.getElem?_modify]
  by_cases h : i = j
  · subst h; simp [hf]
  · simp [h]

theorem inner_length (l : List Nat) (id : Nat) : ∀ a : List (List Nat),
    (l.foldl (fun v2f vid => v2f.modify vid (· ++ [id])) a).length = a.length := by
  induction l with
  | nil => intro a; rfl
  | cons x l ih => intro a; rw [List.foldl_cons, ih]; simp

theorem inner_mem (l : List Nat) (id k v : Nat) : ∀ a : List (List Nat), v < a.length →
    (k ∈ (l.foldl (fun v2f vid => v2f.modify vid (· ++ [id])) a).getD v [] ↔
      k ∈ a.getD v [] ∨ (k = id ∧ v ∈ l)) := by
  induction l with
  | nil => intro a _; simp
  | cons x l ih =>
    intro a hv
    rw [List.foldl_cons, ih _ (by simpa using hv), getD_modify _ _ _ _ hv]
    by_cases h : x = v
    · subst h; simp only [if_true, List.mem_append, List.mem_singleton, List.mem_cons]; tauto
    · have h' : v ≠ x := fun e => h e.symm
      simp only [h, if_false, List.mem_cons, h', false_or]

theorem v2fOf_length (n : Nat) (ls : List (List Nat)) : (v2fOf n ls).length = n := by
  unfold v2fOf
  have : ∀ (ps : List (List Nat × Nat)) (a : List (List Nat)),
      (ps.foldl (fun v2f (f, fid) => f.foldl (fun v2f vid => v2f.modify vid (· ++ [fid])) v2f)
        a).length = a.length := by
    intro ps
    induction ps with
    | nil => intro a; rfl
    | cons p ps ih => intro a; rw [List.foldl_cons, ih, inner_length]
  rw [this]; simp

/-- The table of faces by vertex. -/
theorem mem_v2fOf (n : Nat) (ls : List (List Nat)) (k v : Nat) :
    k ∈ (v2fOf n ls).getD v [] ↔ v < n ∧ ∃ l, ls[k]? = some l ∧ v ∈ l := by
  by_cases hv : v < n
  · have : ∀ (ps : List (List Nat × Nat)) (a : List (List Nat)), v < a.length →
        (k ∈ (ps.foldl (fun v2f (f, fid) =>
          f.foldl (fun v2f vid => v2f.modify vid (· ++ [fid])) v2f) a).getD v [] ↔
        k ∈ a.getD v [] ∨ ∃ l, (l, k) ∈ ps ∧ v ∈ l) := by
      intro ps
      induction ps with
      | nil => intro a _; simp
      | cons p ps ih =>
        intro a ha
        obtain ⟨l, id⟩ := p
        rw [List.foldl_cons, ih _ (by rw [inner_length]; exact ha), inner_mem _ _ _ _ _ ha]
        constructor
        · rintro ((h | ⟨rfl, h⟩) | ⟨l', h1, h2⟩)
          · exact .inl h
          · exact .inr ⟨l, by simp, h⟩
          · exact .inr ⟨l', by simp [h1], h2⟩
        · rintro (h | ⟨l', h1, h2⟩)
          · exact .inl (.inl h)
          · rcases List.mem_cons.mp h1 with h1 | h1
            · obtain ⟨rfl, rfl⟩ := Prod.mk.inj h1
              exact .inl (.inr ⟨rfl, h2⟩)
            · exact .inr ⟨l', h1, h2⟩
    unfold v2fOf
    rw [this _ _ (by simpa using hv)]
    simp only [List.getD_eq_getElem?_getD, List.getElem?_replicate, hv, if_true, Option.getD_some,
      List.not_mem_nil, false_or, true_and, List.mem_zipIdx_iff_getElem?]
  · simp only [hv, false_and, iff_false]
    rw [List.getD_eq_getElem?_getD, List.getElem?_eq_none (by rw [v2fOf_length]; omega)]
    simp

theorem fg2mOf_eq (n : Nat) (ls : List (List Nat)) : fg2mOf n ls = v2fOf n ls := rfl

theorem mem_faceAdj (faces : List (List Nat)) (nv i k : Nat) (hv : ∀ f ∈ faces, ∀ v ∈ f, v < nv) :
    k ∈ faceAdj faces (v2fOf nv faces) i ↔
      ∃ v f g, faces[i]? = some f ∧ v ∈ f ∧ faces[k]? = some g ∧ v ∈ g := by
  unfold faceAdj
  simp only [List.mem_flatMap, mem_v2fOf]
  constructor
  · rintro ⟨v, hvi, _, g, hg, hvg⟩
    cases hf : faces[i]? with
    | none => simp [List.getD_eq_getElem?_getD, hf] at hvi
    | some f =>
      refine ⟨v, f, g, rfl, ?_, hg, hvg⟩
      simpa [List.getD_eq_getElem?_getD, hf] using hvi
  · rintro ⟨v, f, g, hf, hvf, hg, hvg⟩
    refine ⟨v, ?_, hv f (List.mem_of_getElem? hf) v hvf, g, hg, hvg⟩
    simpa [List.getD_eq_getElem?_getD, hf] using hvf

theorem mem_morphFaceGroups (v2f : List (List Nat)) (f2fg : List Nat) (targets : List Nat)
    (g : Nat) : g ∈ morphFaceGroups v2f f2fg targets ↔
      ∃ t ∈ targets, ∃ f r, v2f.getD t [] = f :: r ∧ f2fg.getD f 0 = g := by
  have : ∀ (ts : List Nat) (l : List Nat), g ∈ ts.foldl (morphFaceGroupStep v2f f2fg) l ↔
      g ∈ l ∨ ∃ t ∈ ts, ∃ f r, v2f.getD t [] = f :: r ∧ f2fg.getD f 0 = g := by
    intro ts
    induction ts with
    | nil => intro l; simp
    | cons t ts ih =>
      intro l
      rw [List.foldl_cons, ih]
      unfold morphFaceGroupStep
      cases hv : v2f.getD t [] with
      | nil =>
        simp only
        constructor
        · rintro (h | ⟨t', h1, h2⟩)
          · exact .inl h
          · exact .inr ⟨t', by simp [h1], h2⟩
        · rintro (h | ⟨t', h1, f, r, h2, h3⟩)
          · exact .inl h
          · rcases List.mem_cons.mp h1 with rfl | h1
            · rw [hv] at h2; cases h2
            · exact .inr ⟨t', h1, f, r, h2, h3⟩
      | cons f r =>
        simp only
        have hsplit : (g ∈ if f2fg.getD f 0 ∈ l then l else l ++ [f2fg.getD f 0]) ↔
            g ∈ l ∨ f2fg.getD f 0 = g := by
          split
          · rename_i h
            refine ⟨.inl, ?_⟩
            rintro (h' | h')
            · exact h'
            · rw [← h']; exact h
          · simp only [List.mem_append, List.mem_singleton, eq_comm]
        rw [hsplit]
        constructor
        · rintro ((h | h) | ⟨t', h1, h2⟩)
          · exact .inl h
          · exact .inr ⟨t, by simp, f, r, hv, h⟩
          · exact .inr ⟨t', by simp [h1], h2⟩
        · rintro (h | ⟨t', h1, f', r', h2, h3⟩)
          · exact .inl (.inl h)
          · rcases List.mem_cons.mp h1 with rfl | h1
            · rw [hv] at h2
              obtain ⟨rfl, rfl⟩ := List.cons.inj h2
              exact .inl (.inr h3)
            · exact .inr ⟨t', h1, f', r', h2, h3⟩
  have h := this targets []
  simp only [List.not_mem_nil, false_or] at h
  exact h

/-- Repeated assignment: if all assignments to an index agree, that is its value. -/
theorem foldl_set (ps : List (Nat × Nat)) (k : Nat) : ∀ a : List Nat, k < a.length →
    (∀ v, (∀ p ∈ ps, p.1 = k → p.2 = v) → (∃ p ∈ ps, p.1 = k) →
      (ps.foldl (fun a p => a.set p.1 p.2) a).getD k 0 = v) ∧
    ((∀ p ∈ ps, p.1 ≠ k) → (ps.foldl (fun a p => a.set p.1 p.2) a).getD k 0 = a.getD k 0) := by
  induction ps with
  | nil => intro a _; exact ⟨by simp, by simp⟩
  | cons p ps ih =>
    intro a ha
    obtain ⟨h1, h2⟩ := ih (a.set p.1 p.2) (by simpa using ha)
    constructor
    · intro v hv hex
      rw [List.foldl_cons]
      by_cases hlater : ∃ q ∈ ps, q.1 = k
      · exact h1 v (fun q hq => hv q (by simp [hq])) hlater
      · rw [h2 (fun q hq e => hlater ⟨q, hq, e⟩), getD_set]
        have hp : p.1 = k := by
          obtain ⟨q, hq, e⟩ := hex
          rcases List.mem_cons.mp hq with rfl | hq
          · exact e
          · exact absurd ⟨q, hq, e⟩ hlater
        rw [if_pos ⟨hp, ha⟩]
        exact hv p (by simp) hp
    · intro h
      rw [List.foldl_cons, h2 (fun q hq => h q (by simp [hq])), getD_set,
        if_neg (fun e => h p (by simp) e.1)]

/-- The assignments made by the loops of mmd2mqo.go:217-224. -/
def assignments (mg2m : List (List Nat)) (m2fg : List (List Nat)) : List (Nat × Nat) :=
  mg2m.zipIdx.flatMap fun (ms, mg) => ms.flatMap fun mi => (m2fg.getD mi []).map fun fg => (fg, mg)

theorem fg2mgOf_eq (nfg : Nat) (mg2m m2fg : List (List Nat)) : fg2mgOf nfg mg2m m2fg =
    (assignments mg2m m2fg).foldl (fun a p => a.set p.1 p.2) (List.replicate nfg 0) := by
  unfold fg2mgOf assignments
  simp only [List.foldl_flatMap, List.foldl_map]

theorem mem_assignments (mg2m m2fg : List (List Nat)) (fg mg : Nat) :
    (fg, mg) ∈ assignments mg2m m2fg ↔
      ∃ ms, mg2m[mg]? = some ms ∧ ∃ mi ∈ ms, fg ∈ m2fg.getD mi [] := by
  unfold assignments
  simp only [List.mem_flatMap, List.mem_map, Prod.exists, Prod.mk.injEq]
  constructor
  · rintro ⟨ms, k, h1, mi, h2, fg', h3, rfl, rfl⟩
    exact ⟨ms, List.mem_zipIdx_iff_getElem?.mp h1, mi, h2, h3⟩
  · rintro ⟨ms, h1, mi, h2, h3⟩
    exact ⟨ms, mg, List.mem_zipIdx_iff_getElem?.mpr h1, mi, h2, fg, h3, rfl, rfl⟩

/-- The faces of group `g`, in order. -/
theorem mg2fsOf_getD (nmg nf : Nat) (fg2mg f2fg : List Nat) (g : Nat) (hg : g < nmg) :
    (mg2fsOf nmg nf fg2mg f2fg)[g]? =
      some ((List.range nf).filter fun fi => fg2mg.getD (f2fg.getD fi 0) 0 = g) := by
  have : ∀ (l : List Nat) (a : List (List Nat)), 
      (l.foldl (fun a fi => a.modify (fg2mg.getD (f2fg.getD fi 0) 0) (· ++ [fi])) a)[g]? =
      a[g]?.map (· ++ l.filter fun fi => fg2mg.getD (f2fg.getD fi 0) 0 = g) := by
    intro l
    induction l with
    | nil => intro a; simp
    | cons x l ih =>
      intro a
      rw [List.foldl_cons, ih, List.getElem?_modify]
      by_cases h : fg2mg.getD (f2fg.getD x 0) 0 = g
      · simp only [h, if_true, List.filter_cons, decide_true]
        cases a[g]? <;> simp
      · simp only [h, if_false, List.filter_cons, decide_false]
        cases a[g]? <;> simp
  unfold mg2fsOf
  rw [this]
  simp [hg]

theorem mg2fsOf_length (nmg nf : Nat) (fg2mg f2fg : List Nat) :
    (mg2fsOf nmg nf fg2mg f2fg).length = nmg := by
  have : ∀ (l : List Nat) (a : List (List Nat)), 
      (l.foldl (fun a fi => a.modify (fg2mg.getD (f2fg.getD fi 0) 0) (· ++ [fi])) a).length =
      a.length := by
    intro l
    induction l with
    | nil => intro a; rfl
    | cons x l ih => intro a; rw [List.foldl_cons, ih]; simp
  unfold mg2fsOf
  rw [this]; simp

end Verif.Conv
