import Verif.Conv.UnityProps

/-! Lemmas on the faces and vertices the Unity converter makes. -/

namespace Verif.Conv

open Verif.Geom
open Verif.Mqo (Str Object Face Bone MorphTargetList Material PhysicsShape PhysicsBody)
open Verif.Unity (Trig Mesh builtinMesh)

variable {F : Type}

section

variable [Field F]

theorem foldl_same (st : UState F) (mat : Int) : ∀ (l : List (Int × Nat)) (u : List (Vec2 F)), (∀ p ∈ l, p.1 = mat) →
    l.foldl (fun u p => applyScale (scaleOf st p.1) u) u = (applyScale (scaleOf st mat))^[l.length] u := by
  intro l
  induction l with
  | nil => intro u _; rfl
  | cons p l ih =>
    intro u h
    rw [List.foldl_cons, ih _ (fun q hq => h q (List.mem_cons_of_mem _ hq)), h p (by simp), List.length_cons,
      Function.iterate_succ_apply]

theorem zip_filter_length {α : Type} (k : Nat) : ∀ (l : List α) (sl : List Nat), l.length = sl.length →
    ((l.zip sl).filter fun p => p.2 = k).length = sl.count k := by
  intro l
  induction l with
  | nil => intro sl h; cases sl with
    | nil => rfl
    | cons _ _ => simp at h
  | cons a l ih => intro sl h; cases sl with
    | nil => simp at h
    | cons j sl =>
      rw [List.zip_cons_cons, List.count_cons, ← ih sl (by simpa using h)]
      by_cases hj : j = k
      · subst hj
        rw [List.filter_cons_of_pos (by simp)]
        simp
      · rw [List.filter_cons_of_neg (by simpa using hj)]
        simp [hj]

/-- Faces of one material whose slices may be shared: a slice is scaled once for each face that has it. -/
theorem finishObject_slices (st : UState F) (vis : Bool) (sl : List Nat) (o : Object F) (mat : Int)
    (hm : ∀ f ∈ o.faces, f.material = mat) (hl : sl.length = o.faces.length) (i j k : Nat) (f g : Face F)
    (hf : o.faces[i]? = some f) (hk : sl[i]? = some k) (hg : o.faces[j]? = some g) (hkj : sl[j]? = some k)
    (hfirst : ∀ j' < j, sl[j']? ≠ some k) :
    (finishObject st vis sl o).faces[i]? = some { f with uvs := (applyScale (scaleOf st mat))^[sl.count k] g.uvs } := by
  unfold finishObject
  simp only
  rw [List.getElem?_map, List.getElem?_zip_eq_some (z := (f, k)).2 ⟨hf, hk⟩, Option.map_some]
  simp only
  rw [scaleSlices_eq, foldl_same st mat, zip_filter_length _ _ _ (by simp [hl])]
  · have e : (o.faces.zip sl).find? (fun p => p.2 = k) = some (g, k) := by
      have hjl := (List.getElem?_eq_some_iff.1 hg).1
      rw [List.find?_eq_some_iff_getElem]
      refine ⟨by simp, j, by rw [List.length_zip]; omega, ?_, ?_⟩
      · rw [List.getElem_zip]
        exact Prod.ext (List.getElem?_eq_some_iff.1 hg).2 (List.getElem?_eq_some_iff.1 hkj).2
      · intro j' hj'
        have := hfirst j' hj'
        rw [List.getElem?_eq_getElem (by omega)] at this
        rw [List.getElem_zip]
        simpa using this
    rw [e]
  · intro p hp
    have := (List.of_mem_zip (a := p.1) (b := p.2) (List.mem_of_mem_filter hp)).1
    obtain ⟨f', hf', e⟩ := List.mem_map.1 this
    rw [← e]
    exact hm f' hf'

theorem finishObject_length (st : UState F) (vis : Bool) (sl : List Nat) (o : Object F) (hl : sl.length = o.faces.length) :
    (finishObject st vis sl o).faces.length = o.faces.length := by
  unfold finishObject
  simp [hl]

theorem count_range (n k : Nat) : (List.range n).count k = if k < n then 1 else 0 := by
  split
  · rename_i h
    exact List.count_eq_one_of_mem List.nodup_range (List.mem_range.2 h)
  · rename_i h
    exact List.count_eq_zero_of_not_mem (fun hc => h (List.mem_range.1 hc))

/-- The slices of a mesh: where each is first used and how many faces have it. -/
theorem uvSlices_spec (cyl : Bool) (n i : Nat) (h2 : cyl = true → 2 ≤ n) (hi : i < n) :
    (uvSlices cyl n).length = n ∧ ∃ k, (uvSlices cyl n)[i]? = some k ∧ (uvSlices cyl n)[k]? = some k ∧
      (∀ j < k, (uvSlices cyl n)[j]? ≠ some k) ∧ k = (if cyl = true ∧ i = n - 1 then n - 2 else i) ∧
      (uvSlices cyl n).count k = if cyl = true ∧ n - 2 ≤ i then 2 else 1 := by
  unfold uvSlices
  cases cyl with
  | false =>
    simp only [Bool.false_eq_true, if_false, false_and]
    refine ⟨by simp, i, by simp [hi], by simp [hi], ?_, rfl, by rw [count_range, if_pos hi]⟩
    intro j hj
    rw [List.getElem?_range (by omega)]
    simp
    omega
  | true =>
    simp only [if_true, true_and]
    have h2 := h2 rfl
    refine ⟨by simp; omega, if i = n - 1 then n - 2 else i, ?_, ?_, ?_, rfl, ?_⟩
    · split
      · rename_i he
        subst he
        rw [List.getElem?_append_right (by simp)]
        simp
      · rw [List.getElem?_append_left (by simp; omega), List.getElem?_range (by omega)]
    · have : (if i = n - 1 then n - 2 else i) < n - 1 := by split <;> omega
      rw [List.getElem?_append_left (by simpa using this), List.getElem?_range this]
    · intro j hj
      have : (if i = n - 1 then n - 2 else i) < n - 1 := by split <;> omega
      rw [List.getElem?_append_left (by simp; omega), List.getElem?_range (by omega)]
      simp only [ne_eq, Option.some.injEq]
      omega
    · rw [List.count_append, count_range, List.count_singleton]
      have hlt : (if i = n - 1 then n - 2 else i) < n - 1 := by split <;> omega
      rw [if_pos hlt]
      by_cases h : n - 2 ≤ i
      · have e : (if i = n - 1 then n - 2 else i) = n - 2 := by split <;> omega
        rw [e, if_pos h]
        simp
      · have e : (if i = n - 1 then n - 2 else i) = i := by split <;> omega
        rw [e, if_neg h, if_neg (by simp; omega)]

theorem builtinFaces_get (mat : Nat) (m : Mesh F) (i : Nat) (hi : i < m.faces.length) : (builtinFaces mat m)[i]? = some
    { uid := 0
      verts := ((m.faces[i]?).getD []).map Int.toNat
      material := mat
      uvs := ((m.uvs[i]?).getD []).map fun u => ⟨u.1, u.2⟩
      normals := [] } := by
  unfold builtinFaces
  rw [List.getElem?_map, List.getElem?_zipIdx, List.getElem?_eq_getElem hi]
  simp

theorem cylinder_length (T : Trig F) (r : URef) (m : Mesh F) (hn : builtinName r = "Cylinder".toList)
    (hm : builtinMesh T true r.fileID = some m) : m.faces.length = 34 ∧ m.uvs[33]? = m.uvs[32]? := by
  have h1 := (builtinName_mem r).1 (by rw [hn]; decide)
  rw [hn] at h1
  have h2 : r = ⟨10206, builtinGUID, 0⟩ := by
    simp only [builtinTable, List.mem_cons, Prod.mk.injEq, List.not_mem_nil, or_false] at h1
    rcases h1 with ⟨h, e⟩ | ⟨h, e⟩ | ⟨h, e⟩ | ⟨h, e⟩ | ⟨h, e⟩ | ⟨h, e⟩
    · exact absurd e (by decide)
    · exact h
    · exact absurd e (by decide)
    · exact absurd e (by decide)
    · exact absurd e (by decide)
    · exact absurd e (by decide)
  subst h2
  have h3 : builtinMesh T true 10206 = some (Unity.cylinder T 32) := rfl
  rw [h3, Option.some.injEq] at hm
  subst hm
  unfold Unity.cylinder
  simp only
  constructor
  · simp
  · rw [List.getElem?_append_right (by simp), List.getElem?_append_right (by simp)]
    simp

end

section

variable [Field F] [DecidableEq F] [FloatOps F]

/-- The faces of a built-in mesh in the document. -/
theorem BuiltinOk.faces {M : UMath F} {sc : UScene F} {opt : UOptions F} {x : UObject F} {t : Mat4 F} {vis : Bool}
    {r : URef} {rend : URenderer} {st st' : UState F} {own : Object F}
    (h : BuiltinOk M sc opt x t vis r rend st st' own) :
    ∃ m stm, ∃ mat : Nat, builtinMesh M.trig true r.fileID = some m ∧ own.vertexes = m.vs.map t.applyTo ∧
      MatInv M sc opt stm ∧ MatExt stm st' ∧ (∀ g gs, rend.materials = g :: gs → stm.guidOf mat = some g) ∧
      (∀ g ∈ rend.materials, ∃ i, stm.guidOf i = some g) ∧
      (rend.materials = [] → mat = 0) ∧ own.faces.length = m.faces.length ∧
      ∀ (i : Nat) (f : Face F), own.faces[i]? = some f → f.material = mat ∧
        f.verts = ((m.faces[i]?).getD []).map Int.toNat ∧
        f.uvs = (applyScale (scaleOf stm mat))^[if builtinName r = "Cylinder".toList ∧ m.faces.length - 2 ≤ i then 2 else 1]
          (((m.uvs[i]?).getD []).map fun u => ⟨u.1, u.2⟩) := by
  obtain ⟨m, mats, stm, k1, k2, k3, k4, k5, k6, o, k7, k8⟩ := h.geometry
  refine ⟨m, stm, mats.head?.getD 0, k1, k2, k3, k5, ?_, ?_, ?_, ?_⟩
  · intro g gs e
    rw [e] at k6
    cases k6 with
    | cons h1 _ => exact h1
  · intro g hg
    obtain ⟨i, _, hi⟩ := forall₂_mem_right k6 g hg
    exact ⟨i, hi⟩
  · intro e
    rw [e] at k6
    cases k6
    rfl
  · generalize mats.head?.getD 0 = mat at *
    have hof : o.faces.length = m.faces.length := by rw [k7]; simp [builtinFaces]
    have hcyl : decide (builtinName r = "Cylinder".toList) = true → 2 ≤ m.faces.length := by
      intro hc
      have := (cylinder_length M.trig r m (of_decide_eq_true hc) k1).1
      omega
    have hlen : (uvSlices (decide (builtinName r = "Cylinder".toList)) m.faces.length).length = o.faces.length := by
      rw [hof]
      unfold uvSlices
      split
      · have := hcyl (by assumption)
        simp
        omega
      · simp
    refine ⟨by rw [k8, finishObject_length _ _ _ _ hlen, hof], ?_⟩
    intro i f hf
    have hi : i < m.faces.length := by
      have := (List.getElem?_eq_some_iff.1 hf).1
      rw [k8, finishObject_length _ _ _ _ hlen, hof] at this
      exact this
    obtain ⟨_, k, s1, s2, s3, s4, s5⟩ := uvSlices_spec (decide (builtinName r = "Cylinder".toList)) m.faces.length i hcyl hi
    have hk : k < m.faces.length := by rw [s4]; split <;> omega
    have hfi := builtinFaces_get mat m i hi
    have hfk := builtinFaces_get mat m k hk
    rw [← k7] at hfi hfk
    have hmat : ∀ f ∈ o.faces, f.material = (mat : Int) := by
      intro f hf
      rw [k7] at hf
      unfold builtinFaces at hf
      obtain ⟨_, _, rfl⟩ := List.mem_map.1 hf
      rfl
    have := finishObject_slices stm vis _ o mat hmat hlen i k k _ _ hfi s1 hfk s2 s3
    rw [← k8, hf, Option.some.injEq] at this
    have huv : m.uvs[k]? = m.uvs[i]? := by
      rw [s4]
      split
      · rename_i hc
        obtain ⟨e1, e2⟩ := cylinder_length M.trig r m (of_decide_eq_true hc.1) k1
        rw [hc.2, e1]
        exact e2.symm
      · rfl
    rw [this, s5]
    refine ⟨rfl, rfl, ?_⟩
    simp only [decide_eq_true_eq, huv]

end

end Verif.Conv
