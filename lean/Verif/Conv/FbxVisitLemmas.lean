import Verif.Conv.FbxTreeLemmas

/-! Lemmas on the order in which the models of an FBX document are visited. -/

namespace Verif.Conv

open Verif.Geom
open Verif.Mqo (Str Object Face Bone MorphTargetList)

variable {F : Type}

theorem flatten_split {α : Type} (x : α) (C : List α) : ∀ (ls : List (List α)) (A : List α),
    ls.flatten = A ++ x :: C → ∃ L1 l L2 A' C', ls = L1 ++ l :: L2 ∧ l = A' ++ x :: C' ∧
      A = L1.flatten ++ A' ∧ C = C' ++ L2.flatten := by
  intro ls
  induction ls with
  | nil => intro A h; simp at h
  | cons l ls ih =>
    intro A h
    rw [List.flatten_cons] at h
    rcases List.append_eq_append_iff.1 h with ⟨A2, h1, h2⟩ | ⟨C2, h1, h2⟩
    · obtain ⟨L1, l', L2, A', C', k1, k2, k3, k4⟩ := ih A2 h2
      exact ⟨l :: L1, l', L2, A', C', by simp [k1], k2, by simp [h1, k3], k4⟩
    · cases C2 with
      | nil =>
        simp only [List.nil_append] at h2
        obtain ⟨L1, l', L2, A', C', k1, k2, k3, k4⟩ := ih [] (by simpa using h2.symm)
        refine ⟨l :: L1, l', L2, A', C', by simp [k1], k2, ?_, k4⟩
        rw [List.flatten_cons, List.append_assoc, ← k3, h1, List.append_nil, List.append_nil]
      | cons y C2 =>
        simp only [List.cons_append, List.cons.injEq] at h2
        obtain ⟨rfl, h2⟩ := h2
        exact ⟨[], l, ls, A, C2, rfl, h1, by simp, h2⟩

theorem flatMap_split {α β : Type} (f : α → List β) (x : β) (C : List β) (ls : List α) (A : List β)
    (h : ls.flatMap f = A ++ x :: C) : ∃ L1 l L2 A' C', ls = L1 ++ l :: L2 ∧ f l = A' ++ x :: C' ∧
      A = L1.flatMap f ++ A' ∧ C = C' ++ L2.flatMap f := by
  rw [List.flatMap_def] at h
  obtain ⟨L1, l, L2, A', C', h1, h2, h3, h4⟩ := flatten_split x C _ A h
  obtain ⟨M1, M2, k1, k2, k3⟩ := List.map_eq_append_iff.1 h1
  obtain ⟨a, M3, k4, k5, k6⟩ := List.map_eq_cons_iff.1 k3
  refine ⟨M1, a, M3, A', C', by rw [k1, k4], by rw [k5, h2], ?_, ?_⟩
  · rw [h3, List.flatMap_def, k2]
  · rw [h4, List.flatMap_def, k6]

/-- `KeptBelow sc opt m x`: `x` is `m` or is reached from it over converted children. -/
inductive KeptBelow (sc : FScene F) (opt : FOptions F) : Nat → Nat → Prop
  | self (m : Nat) : KeptBelow sc opt m m
  | down (m c x : Nat) : c ∈ keptChildren sc opt m → KeptBelow sc opt c x → KeptBelow sc opt m x

theorem KeptBelow.above {sc : FScene F} {opt : FOptions F}
    (hp : ∀ m c, c ∈ (sc.model m).children → (sc.model c).parent = some m) {m x : Nat} (h : KeptBelow sc opt m x) :
    Above sc m x := by
  induction h with
  | self => exact .self _
  | down m c x hc _ ih => exact .up m c x (hp m c (List.mem_of_mem_filter hc)) ih

section

variable [Add F] [Mul F] [Zero F] [One F] [Neg F]

theorem visits_succ (sc : FScene F) (opt : FOptions F) (base fuel : Nat) (d : Int) (parent : Mat4 F) (m : Nat)
    (vs : List (Visit F)) (h : visits sc opt base (fuel + 1) d parent m = some vs) :
    ∃ t ids ls, modelSetup sc opt base m d parent = some (t, ids) ∧
      List.Forall₂ (fun c l => visits sc opt base fuel (d + 1) t c = some l) (keptChildren sc opt m) ls ∧
      vs = ⟨m, d, t, ids⟩ :: ls.flatten := by
  unfold visits at h
  split at h
  · simp at h
  · rename_i t ids hs
    rw [Option.map_eq_some_iff] at h
    obtain ⟨ls, h1, h2⟩ := h
    exact ⟨t, ids, ls, hs, mapM_forall₂ _ _ _ h1, h2.symm⟩

theorem forall₂_mem_right {α β : Type} {R : α → β → Prop} {l : List α} {r : List β} (h : List.Forall₂ R l r)
    (b : β) (hb : b ∈ r) : ∃ a ∈ l, R a b := by
  induction h with
  | nil => simp at hb
  | cons h _ ih =>
    rcases List.mem_cons.1 hb with rfl | hb
    · exact ⟨_, by simp, h⟩
    · obtain ⟨a, h1, h2⟩ := ih hb
      exact ⟨a, List.mem_cons_of_mem _ h1, h2⟩

theorem forall₂_mem_left {α β : Type} {R : α → β → Prop} {l : List α} {r : List β} (h : List.Forall₂ R l r)
    (a : α) (ha : a ∈ l) : ∃ b ∈ r, R a b := by
  induction h with
  | nil => simp at ha
  | cons h _ ih =>
    rcases List.mem_cons.1 ha with rfl | ha
    · exact ⟨_, by simp, h⟩
    · obtain ⟨b, h1, h2⟩ := ih ha
      exact ⟨b, List.mem_cons_of_mem _ h1, h2⟩

/-- The first visit is that of the model itself; all others are deeper. -/
theorem visits_head (sc : FScene F) (opt : FOptions F) (base : Nat) : ∀ (fuel : Nat) (d : Int) (parent : Mat4 F)
    (m : Nat) (vs : List (Visit F)), visits sc opt base fuel d parent m = some vs →
    (∃ v rest, vs = v :: rest ∧ v.model = m ∧ v.depth = d ∧
      (∃ ids, modelSetup sc opt base m d parent = some (v.transform, ids))) ∧ ∀ v ∈ vs, d ≤ v.depth := by
  intro fuel
  induction fuel with
  | zero => intro d parent m vs h; simp [visits] at h
  | succ fuel ih =>
    intro d parent m vs h
    obtain ⟨t, ids, ls, h1, h2, rfl⟩ := visits_succ sc opt base fuel d parent m vs h
    refine ⟨⟨_, _, rfl, rfl, rfl, ids, h1⟩, ?_⟩
    intro v hv
    rcases List.mem_cons.1 hv with rfl | hv
    · exact le_refl _
    · obtain ⟨l, hl, hvl⟩ := List.mem_flatten.1 hv
      obtain ⟨c, _, hc⟩ := forall₂_mem_right h2 l hl
      have := (ih _ _ _ _ hc).2 v hvl
      omega

/-- Exactly the models reached over converted children are visited. -/
theorem visits_mem (sc : FScene F) (opt : FOptions F) (base : Nat) : ∀ (fuel : Nat) (d : Int) (parent : Mat4 F)
    (m : Nat) (vs : List (Visit F)), visits sc opt base fuel d parent m = some vs →
    ∀ x, (∃ v ∈ vs, v.model = x) ↔ KeptBelow sc opt m x := by
  intro fuel
  induction fuel with
  | zero => intro d parent m vs h; simp [visits] at h
  | succ fuel ih =>
    intro d parent m vs h x
    obtain ⟨t, ids, ls, h1, h2, rfl⟩ := visits_succ sc opt base fuel d parent m vs h
    constructor
    · rintro ⟨v, hv, rfl⟩
      rcases List.mem_cons.1 hv with rfl | hv
      · exact .self _
      · obtain ⟨l, hl, hvl⟩ := List.mem_flatten.1 hv
        obtain ⟨c, hcm, hc⟩ := forall₂_mem_right h2 l hl
        exact .down m c _ hcm ((ih _ _ _ _ hc _).1 ⟨v, hvl, rfl⟩)
    · intro hk
      cases hk with
      | self => exact ⟨_, List.mem_cons_self, rfl⟩
      | down _ c _ hcm hcx =>
        obtain ⟨l, hl, hc⟩ := forall₂_mem_left h2 c hcm
        obtain ⟨v, hv, hvx⟩ := (ih _ _ _ _ hc x).2 hcx
        exact ⟨v, List.mem_cons_of_mem _ (List.mem_flatten.2 ⟨l, hl, hv⟩), hvx⟩

/-- A visited model other than the first comes after its parent, and everything between is at least as
deep. Its transform is set up from that of the parent. -/
theorem visits_parent (sc : FScene F) (opt : FOptions F) (base : Nat) : ∀ (fuel : Nat) (d : Int) (parent : Mat4 F)
    (m : Nat) (vs : List (Visit F)), visits sc opt base fuel d parent m = some vs →
    ∀ A v C, vs = A ++ v :: C → A ≠ [] → ∃ A1 p B, A = A1 ++ p :: B ∧ v.model ∈ keptChildren sc opt p.model ∧
      v.depth = p.depth + 1 ∧ (∀ b ∈ B, v.depth ≤ b.depth) ∧
      ∃ ids, modelSetup sc opt base v.model v.depth p.transform = some (v.transform, ids) := by
  intro fuel
  induction fuel with
  | zero => intro d parent m vs h; simp [visits] at h
  | succ fuel ih =>
    intro d parent m vs h A v C hsplit hA
    obtain ⟨t, ids, ls, h1, h2, rfl⟩ := visits_succ sc opt base fuel d parent m vs h
    cases A with
    | nil => exact absurd rfl hA
    | cons a A =>
      simp only [List.cons_append, List.cons.injEq] at hsplit
      obtain ⟨rfl, hsplit⟩ := hsplit
      obtain ⟨L1, l, L2, A', C', k1, k2, k3, k4⟩ := flatten_split v C ls A hsplit
      obtain ⟨c, hcm, hc⟩ := forall₂_mem_right h2 l (by rw [k1]; simp)
      cases A' with
      | nil =>
        obtain ⟨⟨v0, rest, e0, e1, e2, e3⟩, _⟩ := visits_head sc opt base _ _ _ _ _ hc
        rw [k2] at e0
        simp only [List.nil_append, List.cons.injEq] at e0
        obtain ⟨rfl, _⟩ := e0
        refine ⟨[], ⟨m, d, t, ids⟩, A, rfl, by rw [e1]; exact hcm, e2, ?_, by rw [e1, e2]; exact e3⟩
        intro b hb
        rw [k3, List.append_nil] at hb
        obtain ⟨l', hl', hb'⟩ := List.mem_flatten.1 hb
        obtain ⟨c', _, hc'⟩ := forall₂_mem_right h2 l' (by rw [k1]; simp [hl'])
        rw [e2]
        exact (visits_head sc opt base _ _ _ _ _ hc').2 b hb'
      | cons a' A' =>
        obtain ⟨A1, p, B, e1, e2⟩ := ih _ _ _ _ hc (a' :: A') v C' k2 (by simp)
        refine ⟨⟨m, d, t, ids⟩ :: (L1.flatten ++ A1), p, B, ?_, e2⟩
        rw [k3, e1]
        simp

/-- The depth of recursion suffices if some number falls from every model to its children. -/
theorem visits_total (sc : FScene F) (opt : FOptions F) (base : Nat) (rank : Nat → Nat)
    (hr : ∀ m c, c ∈ (sc.model m).children → rank c < rank m) (ho : opt.objectDepth ≤ 0) :
    ∀ (fuel : Nat) (d : Int) (parent : Mat4 F) (m : Nat), rank m < fuel →
      ∃ vs, visits sc opt base fuel d parent m = some vs := by
  intro fuel
  induction fuel with
  | zero => intro d parent m h; omega
  | succ fuel ih =>
    intro d parent m h
    have hs : ∃ r, modelSetup sc opt base m d parent = some r := by
      unfold modelSetup
      rw [if_neg (by omega)]
      exact ⟨_, rfl⟩
    obtain ⟨⟨t, ids⟩, hs⟩ := hs
    unfold visits
    rw [hs]
    obtain ⟨ls, hls⟩ := (mapM_some_iff (visits sc opt base fuel (d + 1) t) (keptChildren sc opt m)).2 (by
      intro c hc
      have := hr m c (List.mem_of_mem_filter hc)
      exact ih _ _ c (by omega))
    simp only [hls]
    exact ⟨_, rfl⟩

end

/-! ### No model twice -/

theorem Above.of_height {sc : FScene F} {a x : Nat} (h : Above sc a x) : ∀ {b k}, Above sc b x → Height sc a k →
    Height sc b k → a = b := by
  induction h with
  | self m =>
    intro b k hb ha hbk
    by_contra hne
    obtain ⟨n, h1, _, h3⟩ := hb.height hbk
    have := h3 (fun e => hne e.symm)
    have := ha.unique h1
    omega
  | up a c m hp hcm ih =>
    intro b k hb ha hbk
    -- `c` is one step below `a`; find the model one step below `b`
    cases hb with
    | self =>
      obtain ⟨n, h1, h2, h3⟩ := hcm.height (.step c a k hp ha)
      have := hbk.unique h1
      omega
    | up _ e _ hp' he =>
      have := ih he (.step c a k hp ha) (.step e b k hp' hbk)
      subst this
      rw [hp] at hp'
      exact Option.some.inj hp'

section

variable [Add F] [Mul F] [Zero F] [One F] [Neg F]

/-- With consistent parents and no child listed twice, no model is visited twice. -/
theorem visits_nodup (sc : FScene F) (opt : FOptions F) (base : Nat)
    (hp : ∀ m c, c ∈ (sc.model m).children → (sc.model c).parent = some m)
    (hn : ∀ m, (sc.model m).children.Nodup) : ∀ (fuel : Nat) (d : Int) (parent : Mat4 F)
    (m : Nat) (vs : List (Visit F)), (∃ k, Height sc m k) → visits sc opt base fuel d parent m = some vs →
    (vs.map Visit.model).Nodup := by
  intro fuel
  induction fuel with
  | zero => intro d parent m vs _ h; simp [visits] at h
  | succ fuel ih =>
    rintro d parent m vs ⟨k, hk⟩ h
    obtain ⟨t, ids, ls, h1, h2, rfl⟩ := visits_succ sc opt base fuel d parent m vs h
    have hkn : (keptChildren sc opt m).Nodup := (hn m).filter _
    have hkc : ∀ c ∈ keptChildren sc opt m, (sc.model c).parent = some m :=
      fun c hc => hp m c (List.mem_of_mem_filter hc)
    rw [List.map_cons, List.nodup_cons]
    constructor
    · intro hin
      obtain ⟨v, hv, hvm⟩ := List.mem_map.1 hin
      obtain ⟨l, hl, hvl⟩ := List.mem_flatten.1 hv
      obtain ⟨c, hcm, hc⟩ := forall₂_mem_right h2 l hl
      have hkb := (visits_mem sc opt base _ _ _ _ _ hc m).1 ⟨v, hvl, hvm⟩
      obtain ⟨n, e1, e2, _⟩ := (hkb.above hp).height (.step c m k (hkc c hcm) hk)
      have := hk.unique e1
      omega
    · clear h h1
      revert hkn hkc
      generalize keptChildren sc opt m = kids at h2
      induction h2 with
      | nil => intro _ _; simp
      | cons hc hrest ihr =>
        rename_i c l cs ls
        intro hkn hkc
        rw [List.nodup_cons] at hkn
        rw [List.flatten_cons, List.map_append, List.nodup_append]
        refine ⟨ih _ _ _ _ ⟨k + 1, .step c m k (hkc c (by simp)) hk⟩ hc,
          ihr hkn.2 (fun c hc => hkc c (List.mem_cons_of_mem _ hc)), ?_⟩
        rintro a ha b hb rfl
        obtain ⟨v, hv, hvm⟩ := List.mem_map.1 ha
        obtain ⟨v', hv', hvm'⟩ := List.mem_map.1 hb
        obtain ⟨l', hl', hvl'⟩ := List.mem_flatten.1 hv'
        obtain ⟨c', hcm', hc'⟩ := forall₂_mem_right hrest l' hl'
        have a1 := ((visits_mem sc opt base _ _ _ _ _ hc a).1 ⟨v, hv, hvm⟩).above hp
        have a2 := ((visits_mem sc opt base _ _ _ _ _ hc' a).1 ⟨v', hvl', hvm'⟩).above hp
        have := a1.of_height a2 (.step c m k (hkc c (by simp)) hk) (.step c' m k (hkc c' (by simp [hcm'])) hk)
        subst this
        exact hkn.1 hcm'

end

end Verif.Conv
