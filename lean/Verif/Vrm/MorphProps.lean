import Verif.Vrm.BonesProps

/-!
C53: blend shape groups with `ExportAllMorph` (converter/vrmconfig.go:250-296, 332-353). C96: morph mappings
never crash.
-/

namespace Verif.Vrm

/-- Target `i` of mesh `mi` is called `s`. -/
def HasTarget (meshes : List (Option (List Str))) (mi i : Nat) (s : Str) : Prop :=
  ∃ names, meshes[mi]? = some (some names) ∧ names[i]? = some s

theorem names_fold (mi : Nat) (names : List Str) : ∀ (k : Nat) (m : Str → Option (Nat × Nat)) (s : Str),
    let r := (names.zipIdx k).foldl (fun m x => fun s => if s = x.1 then some (mi, x.2) else m s) m s
    (∃ i : Nat, r = some (mi, k + i) ∧ names[i]? = some s) ∨ (r = m s ∧ s ∉ names) := by
  induction names with
  | nil => intro k m s; simp
  | cons n names ih =>
    intro k m s
    simp only [List.zipIdx_cons, List.foldl_cons]
    rcases ih (k + 1) (fun s => if s = n then some (mi, k) else m s) s with ⟨i, h1, h2⟩ | ⟨h1, h2⟩
    · left
      exact ⟨i + 1, by rw [h1]; congr 2; omega, by simpa using h2⟩
    · by_cases hs : s = n
      · left
        rw [if_pos hs] at h1
        exact ⟨0, by rw [h1]; rfl, by simp [hs]⟩
      · right
        rw [if_neg hs] at h1
        exact ⟨h1, by simp [hs, h2]⟩

theorem targetsFrom_spec (meshes : List (Option (List Str))) : ∀ (k : Nat) (m : Str → Option (Nat × Nat)) (s : Str),
    (∃ mi i : Nat, targetsFrom k meshes m s = some (k + mi, i) ∧ HasTarget meshes mi i s) ∨
      (targetsFrom k meshes m s = m s ∧ ∀ mi i, ¬ HasTarget meshes mi i s) := by
  induction meshes with
  | nil => intro k m s; right; simp [targetsFrom, HasTarget]
  | cons names ms ih =>
    intro k m s
    rw [targetsFrom]
    rcases ih (k + 1) ((names.getD []).zipIdx.foldl (fun m x => fun s => if s = (x : Str × Nat).1 then some (k, x.2) else m s) m) s with
      ⟨mi, i, h1, h2⟩ | ⟨h1, h2⟩
    · left
      refine ⟨mi + 1, i, by rw [h1]; congr 2; omega, ?_⟩
      obtain ⟨ns, h3, h4⟩ := h2
      exact ⟨ns, by simpa using h3, h4⟩
    · have hf := names_fold k (names.getD []) 0 m s
      simp only at hf
      rcases hf with ⟨i, h3, h4⟩ | ⟨h3, h4⟩
      · left
        refine ⟨0, i, by rw [h1, h3]; simp, ?_⟩
        cases names with
        | none => simp at h4
        | some ns => exact ⟨ns, rfl, by simpa using h4⟩
      · right
        refine ⟨by rw [h1, h3], ?_⟩
        intro mi i
        cases mi with
        | zero =>
          rintro ⟨ns, h5, h6⟩
          simp only [List.getElem?_cons_zero, Option.some.injEq] at h5
          subst h5
          exact h4 (by simpa using List.mem_of_getElem? h6)
        | succ mi =>
          rintro ⟨ns, h5, h6⟩
          exact h2 mi i ⟨ns, by simpa using h5, h6⟩

/-- The lookup by name finds a target of that name whenever there is one. -/
theorem targets_spec (meshes : List (Option (List Str))) (s : Str) :
    (∀ t, targets meshes s = some t → HasTarget meshes t.1 t.2 s) ∧
    (targets meshes s = none ↔ ∀ mi i, ¬ HasTarget meshes mi i s) := by
  unfold targets
  rcases targetsFrom_spec meshes 0 (fun _ => none) s with ⟨mi, i, h1, h2⟩ | ⟨h1, h2⟩
  · rw [h1]
    refine ⟨?_, ?_⟩
    · intro t ht
      have := Option.some.inj ht
      subst this
      simpa using h2
    · simp only [reduceCtorEq, false_iff, not_forall, not_not]
      exact ⟨mi, i, h2⟩
  · rw [h1]
    exact ⟨by simp, by simp [h2]⟩

/-- The mapping binds target `i` of mesh `mi`. -/
def Maps (nodes : List VNode) (meshes : List (Option (List Str))) (m : MorphMapping) (mi : Nat) (i : Int) : Prop :=
  (m.targetName ≠ [] ∧ ∃ k : Nat, targets meshes m.targetName = some (mi, k) ∧ i = k) ∨
  (m.targetName = [] ∧ i = m.targetIndex ∧ ∃ id n, nodeMap nodes m.nodeName = some id ∧ nodes[id]? = some n ∧ n.mesh = some mi)

theorem applyMorph_spec (nodes : List VNode) (meshes : List (Option (List Str))) (s s' : MorphState) (m : MorphMapping)
    (h : applyMorph nodes meshes s m = some s') :
    ∃ new : List BlendGroup, s'.groups = s.groups ++ new ∧ new.length ≤ 1 ∧
      (∀ g ∈ new, g.name = m.name ∧ g.preset = m.name) ∧
      (∀ mi i, (∃ g ∈ new, (mi, i) ∈ g.binds) ↔ Maps nodes meshes m mi i) ∧
      (∀ mi i, (mi, i) ∈ s'.used ↔ (mi, i) ∈ s.used ∨ Maps nodes meshes m mi i) := by
  unfold applyMorph at h
  by_cases ht : m.targetName ≠ []
  · rw [if_pos ht] at h
    have hmap : ∀ mi i, Maps nodes meshes m mi i ↔ ∃ k : Nat, targets meshes m.targetName = some (mi, k) ∧ i = k := by
      intro mi i
      simp [Maps, ht]
    cases e : targets meshes m.targetName with
    | none =>
      rw [e] at h
      simp only [Option.some.injEq] at h
      have hno : ∀ mi i, ¬ Maps nodes meshes m mi i := by
        intro mi i hm
        obtain ⟨k, hk, _⟩ := (hmap mi i).mp hm
        rw [e] at hk
        simp at hk
      by_cases hv : 0 < m.values
      · rw [if_pos hv] at h
        subst h
        exact ⟨[_], rfl, by simp, by simp, by simp [hno], by simp [hno]⟩
      · rw [if_neg hv] at h
        subst h
        exact ⟨[], by simp, by simp, by simp, by simp [hno], by simp [hno]⟩
    | some t =>
      obtain ⟨ti, tk⟩ := t
      rw [e] at h
      simp only [Option.some.injEq] at h
      subst h
      have hm : ∀ mi i, Maps nodes meshes m mi i ↔ mi = ti ∧ i = tk := by
        intro mi i
        rw [hmap, e]
        constructor
        · rintro ⟨k, hk, rfl⟩
          simp only [Option.some.injEq, Prod.mk.injEq] at hk
          exact ⟨hk.1.symm, by rw [hk.2]⟩
        · rintro ⟨rfl, rfl⟩
          exact ⟨tk, rfl, rfl⟩
      refine ⟨[_], rfl, by simp, by simp, ?_, ?_⟩
      · intro mi i
        rw [hm]
        simp
      · intro mi i
        rw [hm]
        simp only [List.mem_cons, Prod.mk.injEq]
        exact or_comm
  · rw [if_neg ht] at h
    have ht' : m.targetName = [] := by simpa using ht
    have hmap : ∀ mi i, Maps nodes meshes m mi i ↔ i = m.targetIndex ∧
        ∃ id n, nodeMap nodes m.nodeName = some id ∧ nodes[id]? = some n ∧ n.mesh = some mi := by
      intro mi i
      simp [Maps, ht']
    cases e : nodeMap nodes m.nodeName with
    | none =>
      rw [e] at h
      simp only [Option.some.injEq] at h
      subst h
      have hno : ∀ mi i, ¬ Maps nodes meshes m mi i := by
        intro mi i hm
        obtain ⟨_, id, n, h1, _⟩ := (hmap mi i).mp hm
        rw [e] at h1
        simp at h1
      exact ⟨[], by simp, by simp, by simp, by simp [hno], by simp [hno]⟩
    | some id =>
      rw [e] at h
      simp only at h
      cases e2 : nodes[id]? with
      | none => rw [e2] at h; simp at h
      | some n =>
        rw [e2] at h
        simp only at h
        cases e3 : n.mesh with
        | none => rw [e3] at h; simp at h
        | some mesh =>
          rw [e3] at h
          simp only [Option.some.injEq] at h
          subst h
          have hm : ∀ mi i, Maps nodes meshes m mi i ↔ mi = mesh ∧ i = m.targetIndex := by
            intro mi i
            rw [hmap, e]
            constructor
            · rintro ⟨rfl, id', n', h1, h2, h3⟩
              have := Option.some.inj h1
              subst this
              rw [e2] at h2
              have := Option.some.inj h2
              subst this
              rw [e3] at h3
              exact ⟨(Option.some.inj h3).symm, rfl⟩
            · rintro ⟨rfl, rfl⟩
              exact ⟨rfl, id, n, rfl, e2, e3⟩
          refine ⟨[_], rfl, by simp, by simp, ?_, ?_⟩
          · intro mi i
            rw [hm]
            simp
          · intro mi i
            rw [hm]
            simp only [List.mem_cons, Prod.mk.injEq]
            exact or_comm

theorem applyMorphs_spec (nodes : List VNode) (meshes : List (Option (List Str))) (ms : List MorphMapping) :
    ∀ s s', applyMorphs nodes meshes ms s = some s' →
    ∃ new : List BlendGroup, s'.groups = s.groups ++ new ∧
      (∀ mi i, (∃ g ∈ new, (mi, i) ∈ g.binds) ↔ ∃ m ∈ ms, Maps nodes meshes m mi i) ∧
      (∀ mi i, (mi, i) ∈ s'.used ↔ (mi, i) ∈ s.used ∨ ∃ m ∈ ms, Maps nodes meshes m mi i) := by
  induction ms with
  | nil =>
    intro s s' h
    simp only [applyMorphs, Option.some.injEq] at h
    subst h
    exact ⟨[], by simp, by simp, by simp⟩
  | cons m ms ih =>
    intro s s' h
    rw [applyMorphs] at h
    cases e : applyMorph nodes meshes s m with
    | none => rw [e] at h; simp at h
    | some s1 =>
      rw [e] at h
      obtain ⟨n1, g1, _, _, b1, u1⟩ := applyMorph_spec nodes meshes s s1 m e
      obtain ⟨n2, g2, b2, u2⟩ := ih s1 s' h
      refine ⟨n1 ++ n2, by rw [g2, g1, List.append_assoc], ?_, ?_⟩
      · intro mi i
        have h1 := b1 mi i
        have h2 := b2 mi i
        constructor
        · rintro ⟨g, hg, hb⟩
          rcases List.mem_append.mp hg with hg | hg
          · exact ⟨m, by simp, h1.mp ⟨g, hg, hb⟩⟩
          · obtain ⟨m', hm', hx⟩ := h2.mp ⟨g, hg, hb⟩
            exact ⟨m', by simp [hm'], hx⟩
        · rintro ⟨m', hm', hx⟩
          rcases List.mem_cons.mp hm' with rfl | hm'
          · obtain ⟨g, hg, hb⟩ := h1.mpr hx
            exact ⟨g, by simp [hg], hb⟩
          · obtain ⟨g, hg, hb⟩ := h2.mpr ⟨m', hm', hx⟩
            exact ⟨g, by simp [hg], hb⟩
      · intro mi i
        rw [u2, u1, or_assoc]
        simp

theorem restGroups_mesh (used : List (Nat × Int)) (mi : Nat) (names : List Str) : ∀ (k : Nat) (i : Nat) (mj : Nat),
    ((names.zipIdx k).filterMap fun x =>
      if (mi, (x.2 : Int)) ∈ used then none else some (⟨x.1, [], [(mi, (x.2 : Int))], 0⟩ : BlendGroup)).filter
        (fun g => decide ((mj, (i : Int)) ∈ g.binds)) =
    if mj = mi ∧ k ≤ i ∧ (mi, (i : Int)) ∉ used then
      match names[i - k]? with
      | some name => [⟨name, [], [(mi, (i : Int))], 0⟩]
      | none => []
    else [] := by
  induction names with
  | nil => intro k i mj; simp
  | cons n names ih =>
    intro k i mj
    rw [List.zipIdx_cons, List.filterMap_cons]
    have hrest := ih (k + 1) i mj
    by_cases hu : (mi, (k : Int)) ∈ used
    · simp only [hu, if_true]
      rw [hrest]
      by_cases hki : k = i
      · subst hki
        simp [hu]
      · by_cases hle : k ≤ i
        · have h1 : k + 1 ≤ i := by omega
          have h2 : i - k = (i - (k + 1)) + 1 := by omega
          simp [hle, h1, h2]
        · have h1 : ¬ k + 1 ≤ i := by omega
          simp [hle, h1]
    · simp only [hu, if_false]
      rw [List.filter_cons, hrest]
      by_cases hki : k = i
      · subst hki
        have h1 : ¬ k + 1 ≤ k := by omega
        by_cases hmj : mj = mi
        · subst hmj
          simp only [hu, List.mem_singleton, decide_true, if_true, h1, false_and, and_false, if_false, Nat.le_refl,
            not_false_eq_true, and_self, Nat.sub_self, List.getElem?_cons_zero]
        · simp [hmj]
      · have hne : ¬ ((mj, (i : Int)) ∈ [(mi, (k : Int))]) := by
          simp only [List.mem_singleton, Prod.mk.injEq, not_and]
          intro _ h
          omega
        simp only [hne, decide_false, Bool.false_eq_true, if_false]
        by_cases hle : k ≤ i
        · have h1 : k + 1 ≤ i := by omega
          have h2 : i - k = (i - (k + 1)) + 1 := by omega
          simp [hle, h1, h2]
        · have h1 : ¬ k + 1 ≤ i := by omega
          simp [hle, h1]

theorem restGroups_spec (used : List (Nat × Int)) (meshes : List (Option (List Str))) : ∀ (k mi i : Nat),
    (restGroups used k meshes).filter (fun g => decide ((mi, (i : Int)) ∈ g.binds)) =
    if k ≤ mi ∧ (mi, (i : Int)) ∉ used then
      match meshes[mi - k]? with
      | some (some names) => (match names[i]? with
        | some name => [⟨name, [], [(mi, (i : Int))], 0⟩]
        | none => [])
      | _ => []
    else [] := by
  induction meshes with
  | nil => intro k mi i; simp [restGroups]
  | cons names ms ih =>
    intro k mi i
    rw [restGroups, List.filter_append, ih (k + 1) mi i, restGroups_mesh used k (names.getD []) 0 i mi]
    by_cases hki : k = mi
    · subst hki
      have h1 : ¬ k + 1 ≤ k := by omega
      by_cases hu : (k, (i : Int)) ∈ used
      · simp [hu]
      · cases names with
        | none => simp [hu]; intro h; omega
        | some ns =>
          simp only [hu, Nat.zero_le, not_false_eq_true, and_self, if_true, Option.getD_some, Nat.sub_zero,
            h1, false_and, if_false, List.append_nil, Nat.le_refl, Nat.sub_self, List.getElem?_cons_zero]
    · have hki' : ¬ mi = k := fun h => hki h.symm
      by_cases hle : k ≤ mi
      · have h1 : k + 1 ≤ mi := by omega
        have h2 : mi - k = (mi - (k + 1)) + 1 := by omega
        simp [hki', hle, h1, h2]
      · have h1 : ¬ k + 1 ≤ mi := by omega
        simp [hki', hle, h1]

/-- C53. With `ExportAllMorph`, every morph target of every mesh is bound by a group. A target no mapping
binds is bound by exactly one new group, which has the name of the target. -/
theorem allMorphs_spec (nodes : List VNode) (meshes : List (Option (List Str))) (ms : List MorphMapping)
    (old r : List BlendGroup) (h : allMorphs nodes meshes ms old = some r) :
    ∃ new, r = old ++ new ∧ ∀ (mi i : Nat) (name : Str), HasTarget meshes mi i name →
      (∃ g ∈ new, (mi, (i : Int)) ∈ g.binds) ∧
      ((∀ m ∈ ms, ¬ Maps nodes meshes m mi i) →
        new.filter (fun g => decide ((mi, (i : Int)) ∈ g.binds)) = [⟨name, [], [(mi, (i : Int))], 0⟩]) := by
  obtain ⟨s, e, rfl⟩ := Option.map_eq_some_iff.mp h
  obtain ⟨new, h1, h2, h3⟩ := applyMorphs_spec nodes meshes ms _ s e
  simp only at h1
  refine ⟨new ++ restGroups s.used 0 meshes, by rw [h1, List.append_assoc], ?_⟩
  rintro mi i name ⟨names, hn1, hn2⟩
  have hr := restGroups_spec s.used meshes 0 mi i
  simp only [Nat.zero_le, true_and, Nat.sub_zero, hn1, hn2] at hr
  have hu := h3 mi i
  simp only [List.not_mem_nil, false_or] at hu
  refine ⟨?_, ?_⟩
  · by_cases hm : ∃ m ∈ ms, Maps nodes meshes m mi i
    · obtain ⟨g, hg, hb⟩ := (h2 mi i).mpr hm
      exact ⟨g, List.mem_append.mpr (.inl hg), hb⟩
    · rw [if_pos (mt hu.mp hm)] at hr
      have : (⟨name, [], [(mi, (i : Int))], 0⟩ : BlendGroup) ∈
          (restGroups s.used 0 meshes).filter (fun g => decide ((mi, (i : Int)) ∈ g.binds)) := by
        rw [hr]; simp
      have := List.mem_filter.mp this
      exact ⟨_, List.mem_append.mpr (.inr this.1), by simp⟩
  · intro hno
    have hno' : ¬ ∃ m ∈ ms, Maps nodes meshes m mi i := fun ⟨m, hm, hx⟩ => hno m hm hx
    rw [if_pos (mt hu.mp hno')] at hr
    rw [List.filter_append, hr]
    have : new.filter (fun g => decide ((mi, (i : Int)) ∈ g.binds)) = [] := by
      rw [List.filter_eq_nil_iff]
      intro g hg hb
      exact hno' ((h2 mi i).mp ⟨g, hg, by simpa using hb⟩)
    rw [this]
    rfl

/-- C96: if the nodes named by morph mappings have meshes, applying the mappings succeeds. Missing: mappings
that name a node without mesh, see `applyMorphs_false`. -/
theorem applyMorphs_partial (nodes : List VNode) (meshes : List (Option (List Str))) (ms : List MorphMapping)
    (h : ∀ m ∈ ms, m.targetName = [] → ∀ id n, nodeMap nodes m.nodeName = some id → nodes[id]? = some n → n.mesh ≠ none) :
    ∀ s, ∃ s', applyMorphs nodes meshes ms s = some s' := by
  induction ms with
  | nil => intro s; exact ⟨s, rfl⟩
  | cons m ms ih =>
    intro s
    have : ∃ s1, applyMorph nodes meshes s m = some s1 := by
      unfold applyMorph
      by_cases ht : m.targetName ≠ []
      · rw [if_pos ht]
        cases targets meshes m.targetName with
        | none => exact ⟨_, rfl⟩
        | some t => exact ⟨_, rfl⟩
      · rw [if_neg ht]
        cases e : nodeMap nodes m.nodeName with
        | none => exact ⟨_, rfl⟩
        | some id =>
          obtain ⟨n, hn, _⟩ := (nodeMap_spec nodes m.nodeName id).mp e
          have := h m (by simp) (by simpa using ht) id n e hn
          simp only [hn]
          cases e2 : n.mesh with
          | none => exact absurd e2 this
          | some mesh => exact ⟨_, rfl⟩
    obtain ⟨s1, e⟩ := this
    rw [applyMorphs, e]
    exact ih (fun m hm => h m (by simp [hm])) s1

/-- C96 is false of the code: a morph mapping by node name crashes for every document in which the node has
no mesh. -/
theorem applyMorphs_false (nodes : List VNode) (meshes : List (Option (List Str))) (m : MorphMapping) (ms : List MorphMapping)
    (s : MorphState) (id : Nat) (n : VNode) (ht : m.targetName = []) (hid : nodeMap nodes m.nodeName = some id)
    (hn : nodes[id]? = some n) (hm : n.mesh = none) : applyMorphs nodes meshes (m :: ms) s = none := by
  simp [applyMorphs, applyMorph, ht, hid, hn, hm]

/-- Two meshes with morphs, one target is mapped by name and one by node and index. -/
example : allMorphs [⟨"Body".toList, some 1, [], none⟩] [some ["a".toList, "smile".toList], some ["b".toList, "wink".toList]]
    [⟨"joy".toList, [], "smile".toList, 0, 0⟩, ⟨"blink".toList, "Body".toList, [], 1, 0⟩] [] =
    some [⟨"joy".toList, "joy".toList, [(0, 1)], 0⟩, ⟨"blink".toList, "blink".toList, [(1, 1)], 0⟩,
      ⟨"a".toList, [], [(0, 0)], 0⟩, ⟨"b".toList, [], [(1, 0)], 0⟩] := by decide +kernel

example : nodeMap [⟨"Bone".toList, none, [], none⟩] "Bone".toList = some 0 := by decide +kernel

end Verif.Vrm
