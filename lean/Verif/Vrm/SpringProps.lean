import Verif.Vrm.BonesProps

/-!
C52: spring bone groups (converter/vrmconfig.go:123-140, 208-234). C95: chains found from physics
(converter/vrmconfig.go:392-444).
-/

namespace Verif.Vrm

/-- `b` is `a` or a descendant of `a`. -/
inductive Desc (nodes : List VNode) : Nat → Nat → Prop
  | refl (a : Nat) : Desc nodes a a
  | step {a c b : Nat} {n : VNode} : nodes[a]? = some n → c ∈ n.children → Desc nodes c b → Desc nodes a b

theorem Desc.trans {nodes : List VNode} {a b c : Nat} (h1 : Desc nodes a b) (h2 : Desc nodes b c) : Desc nodes a c := by
  induction h1 with
  | refl => exact h2
  | step hn hc _ ih => exact .step hn hc (ih h2)

/-- The nodes form a finite forest: children exist and have a smaller rank (for instance their height). -/
def Ranked (nodes : List VNode) (rank : Nat → Nat) : Prop :=
  ∀ (a : Nat) (n : VNode), nodes[a]? = some n → ∀ c ∈ n.children, c < nodes.length ∧ rank c < rank a

theorem findAny_spec (f : Nat → Option Bool) (P : Nat → Prop) (cs : List Nat)
    (hf : ∀ c ∈ cs, ∀ b, f c = some b → (b = true ↔ P c)) : ∀ b, findAny f cs = some b → (b = true ↔ ∃ c ∈ cs, P c) := by
  induction cs with
  | nil => intro b h; simp only [findAny, Option.some.injEq] at h; simp [← h]
  | cons c cs ih =>
    intro b h
    rw [findAny] at h
    have hc := hf c (by simp)
    cases e : f c with
    | none => rw [e] at h; simp at h
    | some x =>
      rw [e] at h
      cases x with
      | true =>
        simp only [Option.some.injEq] at h
        rw [← h]
        exact ⟨fun _ => ⟨c, by simp, (hc true e).mp rfl⟩, fun _ => rfl⟩
      | false =>
        simp only at h
        rw [ih (fun c hc => hf c (by simp [hc])) b h]
        have hno : ¬ P c := fun hp => by simpa using (hc false e).mpr hp
        simp [hno]

theorem findAny_total (f : Nat → Option Bool) (cs : List Nat) (hf : ∀ c ∈ cs, ∃ b, f c = some b) : ∃ b, findAny f cs = some b := by
  induction cs with
  | nil => exact ⟨false, rfl⟩
  | cons c cs ih =>
    rw [findAny]
    obtain ⟨b, hb⟩ := hf c (by simp)
    rw [hb]
    cases b with
    | true => exact ⟨true, rfl⟩
    | false => exact ih fun c hc => hf c (by simp [hc])

/-- `findReursive` says if the node or a descendant is registered. -/
theorem findRec_spec (nodes : List VNode) (m : Nat → Bool) : ∀ (fuel t : Nat) (b : Bool), findRec nodes m fuel t = some b →
    (b = true ↔ ∃ d, Desc nodes t d ∧ m d = true) := by
  intro fuel
  induction fuel with
  | zero => intro t b h; simp [findRec] at h
  | succ fuel ih =>
    intro t b h
    rw [findRec] at h
    by_cases hm : m t = true
    · rw [if_pos hm] at h
      rw [← Option.some.inj h]
      exact ⟨fun _ => ⟨t, .refl t, hm⟩, fun _ => rfl⟩
    · rw [if_neg hm] at h
      cases hn : nodes[t]? with
      | none => rw [hn] at h; simp at h
      | some n =>
        rw [hn] at h
        rw [findAny_spec (findRec nodes m fuel) (fun c => ∃ d, Desc nodes c d ∧ m d = true) n.children
          (fun c _ b hb => ih c b hb) b h]
        constructor
        · rintro ⟨c, hc, d, h1, h2⟩
          exact ⟨d, .step hn hc h1, h2⟩
        · rintro ⟨d, h1, h2⟩
          cases h1 with
          | refl => exact absurd h2 hm
          | step hn' hc hd =>
            rw [hn] at hn'
            have := Option.some.inj hn'
            subst this
            exact ⟨_, hc, d, hd, h2⟩

theorem findRec_total (nodes : List VNode) (m : Nat → Bool) (rank : Nat → Nat) (hr : Ranked nodes rank) :
    ∀ (fuel t : Nat), rank t < fuel → t < nodes.length → ∃ b, findRec nodes m fuel t = some b := by
  intro fuel
  induction fuel with
  | zero => intro t h; omega
  | succ fuel ih =>
    intro t h ht
    rw [findRec]
    split
    · exact ⟨true, rfl⟩
    · rw [List.getElem?_eq_getElem ht]
      apply findAny_total
      intro c hc
      have := hr t _ (List.getElem?_eq_getElem ht) c hc
      exact ih c (by omega) this.1

theorem registerAll_spec (f : Nat → (Nat → Bool) → Option (Nat → Bool)) (P : Nat → Nat → Prop) (cs : List Nat)
    (hf : ∀ c ∈ cs, ∀ m m', f c m = some m' → ∀ d, m' d = true ↔ (m d = true ∨ P c d)) :
    ∀ m m', registerAll f cs m = some m' → ∀ d, m' d = true ↔ (m d = true ∨ ∃ c ∈ cs, P c d) := by
  induction cs with
  | nil => intro m m' h d; simp only [registerAll, Option.some.injEq] at h; simp [h]
  | cons c cs ih =>
    intro m m' h d
    rw [registerAll] at h
    cases e : f c m with
    | none => rw [e] at h; simp at h
    | some m1 =>
      rw [e] at h
      simp only at h
      rw [ih (fun c hc => hf c (by simp [hc])) m1 m' h d, hf c (by simp) m m1 e d]
      simp [or_assoc]

theorem registerAll_total (f : Nat → (Nat → Bool) → Option (Nat → Bool)) (cs : List Nat)
    (hf : ∀ c ∈ cs, ∀ m, ∃ m', f c m = some m') : ∀ m, ∃ m', registerAll f cs m = some m' := by
  induction cs with
  | nil => intro m; exact ⟨m, rfl⟩
  | cons c cs ih =>
    intro m
    obtain ⟨m1, e⟩ := hf c (by simp) m
    rw [registerAll, e]
    exact ih (fun c hc => hf c (by simp [hc])) m1

/-- `registerReursive` adds the node and all its descendants. -/
theorem registerRec_spec (nodes : List VNode) : ∀ (fuel t : Nat) (m m' : Nat → Bool), registerRec nodes fuel t m = some m' →
    ∀ d, m' d = true ↔ (m d = true ∨ Desc nodes t d) := by
  intro fuel
  induction fuel with
  | zero => intro t m m' h; simp [registerRec] at h
  | succ fuel ih =>
    intro t m m' h d
    rw [registerRec] at h
    cases hn : nodes[t]? with
    | none => rw [hn] at h; simp at h
    | some n =>
      rw [hn] at h
      rw [registerAll_spec (registerRec nodes fuel) (Desc nodes) n.children (fun c _ m m' h => ih c m m' h) _ _ h d]
      constructor
      · rintro (h1 | ⟨c, hc, hd⟩)
        · simp only [Bool.or_eq_true, decide_eq_true_eq] at h1
          rcases h1 with rfl | h1
          · exact .inr (.refl _)
          · exact .inl h1
        · exact .inr (.step hn hc hd)
      · rintro (h1 | h1)
        · left; simp [h1]
        · cases h1 with
          | refl => left; simp
          | step hn' hc hd =>
            rw [hn] at hn'
            have := Option.some.inj hn'
            subst this
            exact .inr ⟨_, hc, hd⟩

theorem registerRec_total (nodes : List VNode) (rank : Nat → Nat) (hr : Ranked nodes rank) :
    ∀ (fuel t : Nat) (m : Nat → Bool), rank t < fuel → t < nodes.length → ∃ m', registerRec nodes fuel t m = some m' := by
  intro fuel
  induction fuel with
  | zero => intro t m h; omega
  | succ fuel ih =>
    intro t m h ht
    rw [registerRec, List.getElem?_eq_getElem ht]
    apply registerAll_total
    intro c hc m
    have := hr t _ (List.getElem?_eq_getElem ht) c hc
    exact ih c m (by omega) this.1

/-- The subtrees of the two nodes have no node in common. -/
def Apart (nodes : List VNode) (a b : Nat) : Prop := ∀ d, ¬ (Desc nodes a d ∧ Desc nodes b d)

/-- The state of the loop: the registered nodes are those below the nodes taken so far. -/
structure SpringInv (nodes : List VNode) (m : Nat → Bool) (done : List Nat) : Prop where
  reg : ∀ d, m d = true ↔ ∃ a ∈ done, Desc nodes a d
  apart : done.Pairwise (Apart nodes)

theorem addMatched_spec (nodes : List VNode) (fuel : Nat) (ns : List Nat) : ∀ (m : Nat → Bool) (pre bones : List Nat)
    (m' : Nat → Bool) (bones' : List Nat), SpringInv nodes m (pre ++ bones) →
    addMatched nodes fuel ns (m, bones) = some (m', bones') →
    SpringInv nodes m' (pre ++ bones') ∧ (∃ new, bones' = bones ++ new ∧ ∀ n ∈ new, n ∈ ns ∧ hasMesh nodes n = false) ∧
      (∀ n ∈ ns, hasMesh nodes n = false → ∃ a ∈ pre ++ bones', ¬ Apart nodes a n) := by
  induction ns with
  | nil =>
    intro m pre bones m' bones' hi h
    simp only [addMatched, Option.some.injEq, Prod.mk.injEq] at h
    obtain ⟨rfl, rfl⟩ := h
    exact ⟨hi, ⟨[], by simp⟩, by simp⟩
  | cons n ns ih =>
    intro m pre bones m' bones' hi h
    rw [addMatched] at h
    by_cases hm : hasMesh nodes n = true
    · rw [if_pos hm] at h
      obtain ⟨h1, ⟨new, e, h2⟩, h3⟩ := ih m pre bones m' bones' hi h
      refine ⟨h1, ⟨new, e, fun x hx => ⟨by simp [(h2 x hx).1], (h2 x hx).2⟩⟩, ?_⟩
      intro x hx hxm
      rcases List.mem_cons.mp hx with rfl | hx
      · rw [hm] at hxm; simp at hxm
      · exact h3 x hx hxm
    · rw [if_neg hm] at h
      simp only at h
      cases hf : findRec nodes m fuel n with
      | none => rw [hf] at h; simp at h
      | some b =>
        rw [hf] at h
        have hb := findRec_spec nodes m fuel n b hf
        cases b with
        | true =>
          simp only at h
          obtain ⟨h1, ⟨new, e, h2⟩, h3⟩ := ih m pre bones m' bones' hi h
          refine ⟨h1, ⟨new, e, fun x hx => ⟨by simp [(h2 x hx).1], (h2 x hx).2⟩⟩, ?_⟩
          intro x hx hxm
          rcases List.mem_cons.mp hx with rfl | hx
          · obtain ⟨d, hd, hmd⟩ := hb.mp rfl
            obtain ⟨a, ha, had⟩ := (hi.reg d).mp hmd
            refine ⟨a, ?_, fun hap => hap d ⟨had, hd⟩⟩
            rw [e, ← List.append_assoc]
            exact List.mem_append.mpr (.inl ha)
          · exact h3 x hx hxm
        | false =>
          simp only at h
          cases hreg : registerRec nodes fuel n m with
          | none => rw [hreg] at h; simp at h
          | some m1 =>
            rw [hreg] at h
            simp only at h
            have hr := registerRec_spec nodes fuel n m m1 hreg
            have hno : ∀ d, Desc nodes n d → ¬ m d = true := fun d h1 h2 => by
              simpa using hb.mpr ⟨d, h1, h2⟩
            have hi1 : SpringInv nodes m1 (pre ++ (bones ++ [n])) := by
              rw [← List.append_assoc]
              refine ⟨?_, ?_⟩
              · intro d
                rw [hr, hi.reg]
                constructor
                · rintro (⟨a, ha, h⟩ | h)
                  · exact ⟨a, List.mem_append.mpr (.inl ha), h⟩
                  · exact ⟨n, by simp, h⟩
                · rintro ⟨a, ha, h⟩
                  rcases List.mem_append.mp ha with ha | ha
                  · exact .inl ⟨a, ha, h⟩
                  · have : a = n := by simpa using ha
                    rw [this] at h
                    exact .inr h
              · rw [List.pairwise_append]
                refine ⟨hi.apart, by simp, ?_⟩
                intro a ha b hb d hd
                have : b = n := by simpa using hb
                rw [this] at hd
                exact hno d hd.2 ((hi.reg d).mpr ⟨a, ha, hd.1⟩)
            obtain ⟨h1, ⟨new, e, h2⟩, h3⟩ := ih m1 pre (bones ++ [n]) m' bones' hi1 h
            refine ⟨h1, ⟨n :: new, by simp [e], ?_⟩, ?_⟩
            · intro x hx
              rcases List.mem_cons.mp hx with rfl | hx
              · exact ⟨by simp, by simpa using hm⟩
              · exact ⟨by simp [(h2 x hx).1], (h2 x hx).2⟩
            · intro x hx hxm
              rcases List.mem_cons.mp hx with rfl | hx
              · exact ⟨x, by rw [e]; simp, fun hap => hap x ⟨.refl x, .refl x⟩⟩
              · exact h3 x hx hxm

theorem addMatched_total (nodes : List VNode) (rank : Nat → Nat) (hr : Ranked nodes rank) (fuel : Nat)
    (hfuel : ∀ t, rank t < fuel) (ns : List Nat) : (∀ n ∈ ns, n < nodes.length) → ∀ s, ∃ s', addMatched nodes fuel ns s = some s' := by
  induction ns with
  | nil => intro _ s; exact ⟨s, rfl⟩
  | cons n ns ih =>
    intro hn s
    have ih := ih fun x hx => hn x (by simp [hx])
    rw [addMatched]
    split
    · exact ih s
    · obtain ⟨b, hb⟩ := findRec_total nodes s.1 rank hr fuel n (hfuel n) (hn n (by simp))
      obtain ⟨m, hm⟩ := registerRec_total nodes rank hr fuel n s.1 (hfuel n) (hn n (by simp))
      rw [hb]
      cases b with
      | true => exact ih s
      | false => rw [hm]; exact ih _

theorem addGroups_spec (nodes : List VNode) (fuel : Nat) (gs : List (List (List Nat))) : ∀ (m : Nat → Bool) (pre : List Nat)
    (m' : Nat → Bool) (r : List (List Nat)), SpringInv nodes m pre → addGroups nodes fuel gs m = some (m', r) →
    SpringInv nodes m' (pre ++ r.flatten) ∧
      (∀ g ∈ r, g ≠ [] ∧ ∃ g0 ∈ gs, ∀ n ∈ g, n ∈ g0.flatten ∧ hasMesh nodes n = false) ∧
      (∀ g ∈ gs, ∀ n ∈ g.flatten, hasMesh nodes n = false → ∃ a ∈ pre ++ r.flatten, ¬ Apart nodes a n) := by
  induction gs with
  | nil =>
    intro m pre m' r hi h
    simp only [addGroups, Option.some.injEq, Prod.mk.injEq] at h
    obtain ⟨rfl, rfl⟩ := h
    exact ⟨by simpa using hi, by simp, by simp⟩
  | cons g gs ih =>
    intro m pre m' r hi h
    rw [addGroups] at h
    cases e : addMatched nodes fuel g.flatten (m, []) with
    | none => rw [e] at h; simp at h
    | some s =>
      obtain ⟨m1, bones⟩ := s
      rw [e] at h
      simp only at h
      obtain ⟨r0, e2, hr⟩ := Option.map_eq_some_iff.mp h
      obtain ⟨m2, r1⟩ := r0
      simp only [Prod.mk.injEq] at hr
      obtain ⟨rfl, hr⟩ := hr
      obtain ⟨k1, ⟨new, k2, k3⟩, k4⟩ := addMatched_spec nodes fuel g.flatten m pre [] m1 bones (by simpa using hi) e
      simp only [List.nil_append] at k2
      subst k2
      obtain ⟨l1, l2, l3⟩ := ih m1 (pre ++ bones) m2 r1 k1 e2
      have hflat : r.flatten = bones ++ r1.flatten := by
        rw [← hr]
        split
        · simp
        · rename_i hl
          have : bones = [] := by simpa using hl
          simp [this]
      rw [hflat, ← List.append_assoc]
      refine ⟨l1, ?_, ?_⟩
      · intro x hx
        have hx' : (0 < bones.length ∧ x = bones) ∨ x ∈ r1 := by
          rw [← hr] at hx
          split at hx
          · rename_i hl
            rcases List.mem_cons.mp hx with h | h
            · exact .inl ⟨hl, h⟩
            · exact .inr h
          · exact .inr hx
        rcases hx' with ⟨hl, rfl⟩ | hx'
        · exact ⟨List.length_pos_iff.mp hl, g, by simp, k3⟩
        · obtain ⟨a, g0, b, c⟩ := l2 x hx'
          exact ⟨a, g0, by simp [b], c⟩
      · intro x hx n hn hm
        rcases List.mem_cons.mp hx with rfl | hx
        · obtain ⟨a, ha, hap⟩ := k4 n hn hm
          exact ⟨a, List.mem_append.mpr (.inl ha), hap⟩
        · exact l3 x hx n hn hm

theorem addGroups_total (nodes : List VNode) (rank : Nat → Nat) (hr : Ranked nodes rank) (fuel : Nat)
    (hfuel : ∀ t, rank t < fuel) (gs : List (List (List Nat))) : (∀ g ∈ gs, ∀ n ∈ g.flatten, n < nodes.length) →
    ∀ m, ∃ r, addGroups nodes fuel gs m = some r := by
  induction gs with
  | nil => intro _ m; exact ⟨_, rfl⟩
  | cons g gs ih =>
    intro hn m
    obtain ⟨s, e⟩ := addMatched_total nodes rank hr fuel hfuel g.flatten (hn g (by simp)) (m, [])
    rw [addGroups, e]
    simp only
    obtain ⟨r, e2⟩ := ih (fun g hg => hn g (by simp [hg])) s.1
    rw [e2]
    exact ⟨_, rfl⟩

/-- A possible result of matching the names of a group. -/
def MatchGroup (pm : Str → Str → Bool) (nodes : List VNode) (names : List Str) (g : List (List Nat)) : Prop :=
  List.Forall₂ (MatchNodeName pm nodes) names g

theorem matchNodeName_exists (pm : Str → Str → Bool) (nodes : List VNode) (pattern : Str) (l : List Nat)
    (h : MatchNodeName pm nodes pattern l) (n : Nat) (hn : n ∈ l) : n < nodes.length := by
  unfold MatchNodeName at h
  have : ∃ name, nodeMap nodes name = some n := by
    split at h
    · obtain ⟨name, h1, _⟩ := (h.2 n).mp hn
      exact ⟨name, h1⟩
    · rw [h] at hn
      exact ⟨pattern, by simpa using hn⟩
  obtain ⟨name, h1⟩ := this
  obtain ⟨x, hx, _⟩ := (nodeMap_spec nodes name n).mp h1
  exact (List.getElem?_eq_some_iff.mp hx).1

/-- C52. In a finite forest, for every possible order of the matched nodes, grouping the spring bones
succeeds. No two of all the bones are the same node, one above the other, or share a node below them. Each
bone is a node without mesh matched by a name of its group. Each matched node without mesh is taken unless it
overlaps a bone that is. -/
theorem springGroups_spec (pm : Str → Str → Bool) (nodes : List VNode) (rank : Nat → Nat) (hr : Ranked nodes rank)
    (fuel : Nat) (hfuel : ∀ t, rank t < fuel) (names : List (List Str)) (gs : List (List (List Nat)))
    (hg : List.Forall₂ (MatchGroup pm nodes) names gs) :
    ∃ r, springGroups nodes fuel gs = some r ∧
      r.flatten.Pairwise (fun a b => a ≠ b ∧ ¬ Desc nodes a b ∧ ¬ Desc nodes b a) ∧
      (∀ g ∈ r, g ≠ [] ∧ ∃ g0 ∈ gs, ∀ n ∈ g, n ∈ g0.flatten ∧ hasMesh nodes n = false) ∧
      (∀ g ∈ gs, ∀ n ∈ g.flatten, hasMesh nodes n = false →
        ∃ a ∈ r.flatten, ∃ d, Desc nodes a d ∧ Desc nodes n d) := by
  have hex : ∀ g ∈ gs, ∀ n ∈ g.flatten, n < nodes.length := by
    intro g hgm n hn
    obtain ⟨i, hi⟩ := List.getElem?_of_mem hgm
    have hlen := hg.length_eq
    have hil : i < names.length := by
      rw [hlen]
      exact (List.getElem?_eq_some_iff.mp hi).1
    have hmg : MatchGroup pm nodes names[i] g := by
      have := List.forall₂_iff_get.mp hg
      have h2 := this.2 i hil (by omega)
      have hgi : gs.get ⟨i, by omega⟩ = g := by
        have := (List.getElem?_eq_some_iff.mp hi).2
        simpa using this
      rw [hgi] at h2
      exact h2
    obtain ⟨l, hl, hnl⟩ := List.mem_flatten.mp hn
    obtain ⟨j, hj⟩ := List.getElem?_of_mem hl
    have h3 := List.forall₂_iff_get.mp hmg
    have hjl : j < g.length := (List.getElem?_eq_some_iff.mp hj).1
    have h4 := h3.2 j (by omega) hjl
    have hgj : g.get ⟨j, hjl⟩ = l := by
      have := (List.getElem?_eq_some_iff.mp hj).2
      simpa using this
    rw [hgj] at h4
    exact matchNodeName_exists pm nodes _ l h4 n hnl
  obtain ⟨⟨m', r⟩, e⟩ := addGroups_total nodes rank hr fuel hfuel gs hex fun _ => false
  obtain ⟨h1, h2, h3⟩ := addGroups_spec nodes fuel gs (fun _ => false) [] m' r ⟨by simp, by simp⟩ e
  simp only [List.nil_append] at h1 h3
  refine ⟨r, by rw [springGroups, e]; rfl, ?_, h2, ?_⟩
  · apply h1.apart.imp
    intro a b hab
    refine ⟨?_, fun h => hab b ⟨h, .refl b⟩, fun h => hab a ⟨.refl a, h⟩⟩
    rintro rfl
    exact hab a ⟨.refl a, .refl a⟩
  · intro g hgm n hn hm
    obtain ⟨a, ha, hap⟩ := h3 g hgm n hn hm
    refine ⟨a, ha, ?_⟩
    unfold Apart at hap
    simpa [not_forall] using hap

/-- Hair with two strands, and a mesh. -/
def hairNodes : List VNode :=
  [⟨"head".toList, none, [1, 3], none⟩, ⟨"hairL1".toList, none, [2], some false⟩, ⟨"hairL2".toList, none, [], some false⟩,
   ⟨"hairR1".toList, none, [], some false⟩, ⟨"hairMesh".toList, some 0, [], none⟩]

example : Ranked hairNodes (fun i => 5 - i) ∧
    ∃ g, List.Forall₂ (MatchGroup (fun _ name => name.take 4 = "hair".toList) hairNodes) [["hair*".toList], ["head".toList]] g ∧
      springGroups hairNodes 9 g = some [[2, 3]] := by
  refine ⟨?_, [[[2, 4, 1, 3]], [[0]]], ?_, by decide +kernel⟩
  · intro a n hn c hc
    have : a < 5 := (List.getElem?_eq_some_iff.mp hn).1
    rcases a with _ | _ | _ | _ | _ | a <;> first | omega | (simp [hairNodes] at hn; subst hn; simp at hc)
    · rcases hc with rfl | rfl <;> decide
    · subst hc; decide
  · refine .cons (.cons ?_ .nil) (.cons (.cons ?_ .nil) .nil)
    · unfold MatchNodeName
      rw [if_pos (by decide)]
      refine ⟨by decide, ?_⟩
      intro id
      constructor
      · intro h
        simp only [List.mem_cons, List.not_mem_nil, or_false] at h
        rcases h with rfl | rfl | rfl | rfl
        · exact ⟨"hairL2".toList, by decide +kernel, by decide⟩
        · exact ⟨"hairMesh".toList, by decide +kernel, by decide⟩
        · exact ⟨"hairL1".toList, by decide +kernel, by decide⟩
        · exact ⟨"hairR1".toList, by decide +kernel, by decide⟩
      · rintro ⟨name, h1, h2⟩
        obtain ⟨n, h3, h4, _⟩ := (nodeMap_spec hairNodes name id).mp h1
        have : id < 5 := (List.getElem?_eq_some_iff.mp h3).1
        have hid : id ≠ 0 := by
          rintro rfl
          simp only [hairNodes, List.getElem?_cons_zero, Option.some.injEq] at h3
          rw [← h4, ← h3] at h2
          revert h2
          decide
        simp only [List.mem_cons, List.not_mem_nil, or_false]
        omega
    · unfold MatchNodeName
      rw [if_neg (by decide)]
      decide +kernel

/-! ### C95 -/

/-- A node that ends the physics of a chain: a static body, or no body although it has children. -/
def Blocks (n : VNode) : Prop := n.body = some true ∨ (n.body = none ∧ n.children ≠ [])

theorem springKids_spec (f : Nat → Option Int) (P : Nat → Prop) (cs : List Nat)
    (hf : ∀ c ∈ cs, ∀ l, f c = some l → (l < 0 ↔ P c)) : ∀ (l0 l : Int), 0 < l0 → springKids f cs l0 = some l →
    (l < 0 ↔ ∃ c ∈ cs, P c) ∧ (¬ l < 0 → 0 < l) := by
  induction cs with
  | nil =>
    intro l0 l h0 h
    simp only [springKids, Option.some.injEq] at h
    subst h
    simp only [List.not_mem_nil, false_and, exists_false, iff_false]
    exact ⟨by omega, fun _ => h0⟩
  | cons c cs ih =>
    intro l0 l h0 h
    rw [springKids] at h
    cases e : f c with
    | none => rw [e] at h; simp at h
    | some d =>
      rw [e] at h
      simp only at h
      have hd := hf c (by simp) d e
      by_cases hneg : d < 0
      · rw [if_pos hneg] at h
        have := Option.some.inj h
        subst this
        exact ⟨⟨fun _ => ⟨c, by simp, hd.mp hneg⟩, fun _ => by omega⟩, fun h => by omega⟩
      · rw [if_neg hneg] at h
        obtain ⟨h1, h2⟩ := ih (fun c hc => hf c (by simp [hc])) (if l0 ≤ d then d + 1 else l0) l
          (by split <;> omega) h
        have hno : ¬ P c := fun hp => hneg (hd.mpr hp)
        exact ⟨by rw [h1]; simp [hno], h2⟩

/-- `springLen` is negative exactly if a node that blocks is at or below the node; otherwise it is positive
if the node has a body. -/
theorem springLen_spec (nodes : List VNode) : ∀ (fuel i : Nat) (l : Int), springLen nodes fuel i = some l →
    ∃ n, nodes[i]? = some n ∧ (l < 0 ↔ ∃ d nd, Desc nodes i d ∧ nodes[d]? = some nd ∧ Blocks nd) ∧
      (0 < l ↔ ¬ l < 0 ∧ n.body ≠ none) := by
  intro fuel
  induction fuel with
  | zero => intro i l h; simp [springLen] at h
  | succ fuel ih =>
    intro i l h
    rw [springLen] at h
    cases hn : nodes[i]? with
    | none => rw [hn] at h; simp at h
    | some n =>
      rw [hn] at h
      simp only at h
      refine ⟨n, rfl, ?_⟩
      cases hb : n.body with
      | none =>
        rw [hb] at h
        simp only at h
        by_cases hc : n.children = []
        · rw [if_pos hc] at h
          have := Option.some.inj h
          subst this
          refine ⟨⟨fun h => by omega, ?_⟩, by simp⟩
          rintro ⟨d, nd, hd, hnd, hbl⟩
          cases hd with
          | refl =>
            rw [hn] at hnd
            have := Option.some.inj hnd
            subst this
            rcases hbl with hbl | hbl
            · rw [hb] at hbl; simp at hbl
            · exact absurd hc hbl.2
          | step hn' hc' _ =>
            rw [hn] at hn'
            have := Option.some.inj hn'
            subst this
            rw [hc] at hc'
            simp at hc'
        · rw [if_neg hc] at h
          have := Option.some.inj h
          subst this
          exact ⟨⟨fun _ => ⟨i, n, .refl i, hn, .inr ⟨hb, hc⟩⟩, fun _ => by omega⟩, by simp⟩
      | some st =>
        rw [hb] at h
        cases st with
        | true =>
          have := Option.some.inj h
          subst this
          exact ⟨⟨fun _ => ⟨i, n, .refl i, hn, .inl hb⟩, fun _ => by omega⟩, by simp⟩
        | false =>
          simp only at h
          obtain ⟨h1, h2⟩ := springKids_spec (springLen nodes fuel)
            (fun c => ∃ d nd, Desc nodes c d ∧ nodes[d]? = some nd ∧ Blocks nd) n.children
            (fun c _ l hl => by obtain ⟨_, _, k, _⟩ := ih c l hl; exact k) 1 l (by omega) h
          refine ⟨?_, by constructor <;> intro h <;> [exact ⟨by omega, by simp⟩; exact h2 h.1]⟩
          rw [h1]
          constructor
          · rintro ⟨c, hc, d, nd, hd, h3, h4⟩
            exact ⟨d, nd, .step hn hc hd, h3, h4⟩
          · rintro ⟨d, nd, hd, h3, h4⟩
            cases hd with
            | refl =>
              rw [hn] at h3
              have := Option.some.inj h3
              subst this
              rcases h4 with h4 | h4
              · rw [hb] at h4; simp at h4
              · rw [hb] at h4; simp at h4
            | step hn' hc hd =>
              rw [hn] at hn'
              have := Option.some.inj hn'
              subst this
              exact ⟨_, hc, d, nd, hd, h3, h4⟩

/-- The whole subtree of the node is free to move. -/
def Free (nodes : List VNode) (i : Nat) : Prop :=
  ∀ d nd, Desc nodes i d → nodes[d]? = some nd → ¬ Blocks nd

theorem detectSprings_mem (nodes : List VNode) (fuel : Nat) (is : List Nat) : ∀ r, detectSprings nodes fuel is = some r →
    ∀ i, i ∈ r ↔ i ∈ is ∧ springRoot nodes fuel i = some true := by
  induction is with
  | nil => intro r h i; simp only [detectSprings, Option.some.injEq] at h; simp [← h]
  | cons x is ih =>
    intro r h i
    rw [detectSprings] at h
    cases e : springRoot nodes fuel x with
    | none => rw [e] at h; simp at h
    | some b =>
      rw [e] at h
      simp only at h
      obtain ⟨r0, e2, rfl⟩ := Option.map_eq_some_iff.mp h
      have hih := ih r0 e2 i
      by_cases hxi : i = x
      · subst hxi
        cases b with
        | true => simp [e]
        | false => simp only [Bool.false_eq_true, if_false]; rw [hih]; simp [e]
      · cases b with
        | true => simp [hxi, hih]
        | false => simp [hxi, hih]

/-- C95: among the nodes with a parent, exactly those are found that have a body and a free subtree while the
subtree of their parent is not free. Missing: nodes without parent, see `detectSprings_false`. -/
theorem detectSprings_partial (nodes : List VNode) (fuel : Nat) (r : List Nat)
    (h : detectSprings nodes fuel (List.range nodes.length) = some r)
    (i p : Nat) (n : VNode) (hn : nodes[i]? = some n) (hp : parents nodes i = some p) :
    i ∈ r ↔ n.body ≠ none ∧ Free nodes i ∧ ¬ Free nodes p := by
  rw [detectSprings_mem nodes fuel _ r h i]
  have hil : i ∈ List.range nodes.length := by
    rw [List.mem_range]
    exact (List.getElem?_eq_some_iff.mp hn).1
  -- the code has computed the lengths
  have hdef : ∀ is r, detectSprings nodes fuel is = some r → i ∈ is → ∃ b, springRoot nodes fuel i = some b := by
    intro is
    induction is with
    | nil => intro r _ h; simp at h
    | cons x is ih =>
      intro r h hi
      rw [detectSprings] at h
      cases e : springRoot nodes fuel x with
      | none => rw [e] at h; simp at h
      | some b =>
        rw [e] at h
        simp only at h
        obtain ⟨r0, e2, _⟩ := Option.map_eq_some_iff.mp h
        rcases List.mem_cons.mp hi with rfl | hi
        · exact ⟨b, e⟩
        · exact ih r0 e2 hi
  obtain ⟨b, hb⟩ := hdef _ r h hil
  have hfree : ∀ (j : Nat) (l : Int), springLen nodes fuel j = some l → (l < 0 ↔ ¬ Free nodes j) := by
    intro j l hl
    obtain ⟨_, _, k, _⟩ := springLen_spec nodes fuel j l hl
    rw [k]
    unfold Free
    constructor
    · rintro ⟨d, nd, h1, h2, h3⟩ h4
      exact h4 d nd h1 h2 h3
    · intro h4
      by_contra hno
      exact h4 fun d nd h1 h2 h3 => hno ⟨d, nd, h1, h2, h3⟩
  simp only [hil, true_and]
  unfold springRoot at hb ⊢
  cases e : springLen nodes fuel i with
  | none => rw [e] at hb; simp at hb
  | some l =>
    rw [e] at hb
    simp only at hb ⊢
    obtain ⟨n', hn', k1, k2⟩ := springLen_spec nodes fuel i l e
    rw [hn] at hn'
    have := Option.some.inj hn'
    subst this
    have hl := hfree i l e
    by_cases hpos : 0 < l
    · rw [if_pos hpos] at hb ⊢
      rw [hp] at hb ⊢
      simp only [Option.getD_some] at hb ⊢
      cases e2 : springLen nodes fuel p with
      | none => rw [e2] at hb; simp at hb
      | some lp =>
        simp only [Option.map_some, Option.some.injEq, decide_eq_true_eq]
        rw [hfree p lp e2]
        have h2 := k2.mp hpos
        have : Free nodes i := by
          by_contra hno
          exact h2.1 (hl.mpr hno)
        exact ⟨fun h => ⟨h2.2, this, h⟩, fun h => h.2.2⟩
    · rw [if_neg hpos]
      simp only [Option.some.injEq, Bool.false_eq_true, false_iff, not_and]
      intro h1 h2
      exact absurd (k2.mpr ⟨fun h => (hl.mp h) h2, h1⟩) hpos

/-- C95 is false of the code: a chain that starts at a node without parent is compared with node 0. If node 0
is the start of a free chain, it is not found, and neither is any other chain without parent. -/
theorem detectSprings_false :
    Free [⟨"tail".toList, none, [], some false⟩] 0 ∧ parents [⟨"tail".toList, none, [], some false⟩] 0 = none ∧
    detectSprings [⟨"tail".toList, none, [], some false⟩] 5 [0] = some [] := by
  refine ⟨?_, rfl, by decide⟩
  intro d nd hd hnd hb
  have hd0 : d = 0 := by
    have := (List.getElem?_eq_some_iff.mp hnd).1
    simpa using this
  subst hd0
  simp only [List.getElem?_cons_zero, Option.some.injEq] at hnd
  subst hnd
  rcases hb with hb | hb <;> simp at hb

/-- The hair of `hairNodes` is found: both strands start below the head. -/
example : detectSprings hairNodes 9 (List.range 5) = some [1, 3] ∧ parents hairNodes 3 = some 0 := by decide +kernel

end Verif.Vrm
