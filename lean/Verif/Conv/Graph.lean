import Mathlib.Logic.Relation
import Mathlib.Data.List.Nodup
import Mathlib.Data.List.Count

/-!
The depth-first search used twice in converter/mmd2mqo.go (newFg, newMg), and what it computes.
-/

namespace Verif.Conv

/-- converter/mmd2mqo.go:135-146 and 148-159 (`newFg`, `newMg`), which differ only in the graph.
`adj i` is the concatenation of the lists that the two nested loops run over. `color` is the array
that is updated in place (`f2fg`, `m2mg`), `acc` the result list. `none`: more than `fuel` nested
calls. -/
def dfs (adj : Nat → List Nat) : Nat → List Nat → Nat → Nat → List Nat →
    Option (List Nat × List Nat)
  | 0, _, _, _, _ => none
  | fuel + 1, color, i, id, acc =>
    (adj i).foldlM (fun (s : List Nat × List Nat) j =>
      if s.1.getD j 0 = 0 then dfs adj fuel s.1 j id s.2 else some s) (color.set i id, acc ++ [i])

/-- converter/mmd2mqo.go:169-175 and 206-211: the loop that starts a search at every node that has
no group yet (`sel` is the extra condition `len(fg) > 0` in the second loop). -/
def groupAll (adj : Nat → List Nat) (sel : Nat → Bool) (n : Nat) :
    Option (List Nat × List (List Nat)) :=
  (List.range n).foldlM (fun (s : List Nat × List (List Nat)) i =>
    if sel i ∧ s.1.getD i 0 = 0 then
      (dfs adj (n + 1) s.1 i s.2.length []).map fun r => (r.1, s.2 ++ [r.2])
    else some s) (List.replicate n 0, [[]])

/-- `j` can be reached from `i`. -/
def Reach (adj : Nat → List Nat) : Nat → Nat → Prop := Relation.ReflTransGen fun a b => b ∈ adj a

/-- What a search from a set of started nodes has done so far: `l` lists the nodes coloured. -/
structure Grown (n : Nat) (color color' : List Nat) (id : Nat) (l : List Nat) : Prop where
  len : color'.length = n
  keep : ∀ j : Nat, j ∉ l → color'.getD j 0 = color.getD j 0
  new : ∀ j ∈ l, color.getD j 0 = 0 ∧ color'.getD j 0 = id ∧ j < n
  nodup : l.Nodup

theorem getD_set (l : List Nat) (i j v : Nat) :
    (l.set i v).getD j 0 = if i = j ∧ j < l.length then v else l.getD j 0 := by
  simp only [List.getD_eq_getElem?_getD, List.getElem?_set]
  by_cases h : i = j
  · subst h
    by_cases h2 : i < l.length
    · simp [h2]
    · simp [h2]
  · simp [h]

theorem count_set_lt (l : List Nat) (i v : Nat) (hi : i < l.length) (h0 : l.getD i 0 = 0)
    (hv : v ≠ 0) : (l.set i v).count 0 < l.count 0 := by
  have h0' : l[i] = 0 := by simpa [List.getD_eq_getElem?_getD, hi] using h0
  have hpos : 0 < l.count 0 := List.count_pos_iff.mpr (h0' ▸ List.getElem_mem hi)
  rw [List.count_set hi]
  simp [h0', hv]
  omega

/-- Colouring more nodes leaves fewer uncoloured. -/
theorem Grown.count_le {n : Nat} {c c' : List Nat} {id : Nat} {l : List Nat}
    (h : Grown n c c' id l) (hc : c.length = n) (hid : id ≠ 0) : c'.count 0 ≤ c.count 0 := by
  have hz : ∀ (a b : List Nat), a.length = b.length →
      (∀ j : Nat, b.getD j 0 ≠ 0 → a.getD j 0 ≠ 0) → a.count 0 ≤ b.count 0 := by
    intro a
    induction a with
    | nil => intro b _ _; simp
    | cons x a ih =>
      intro b hl hz
      match b, hl with
      | y :: b, hl =>
        have h1 := ih b (by simpa using hl) fun j hj => by simpa using hz (j + 1) (by simpa using hj)
        have h2 := hz 0
        simp only [List.getD_cons_zero] at h2
        simp only [List.count_cons, beq_iff_eq]
        split <;> split <;> first | omega | (exfalso; simp_all)
  apply hz _ _ (h.len.trans hc.symm)
  intro j hj
  by_cases hm : j ∈ l
  · rw [(h.new j hm).2.1]; exact hid
  · rw [h.keep j hm]; exact hj

/-- The search: with enough fuel it ends, colours only uncoloured nodes that can be reached from the
start, and leaves no uncoloured neighbour of a node that it has coloured. -/
theorem dfs_spec (adj : Nat → List Nat) (n id : Nat) (hid : id ≠ 0)
    (hadj : ∀ i < n, ∀ k ∈ adj i, k < n) (fuel : Nat) :
    ∀ (color : List Nat) (i : Nat) (acc : List Nat), color.length = n → i < n →
    color.getD i 0 = 0 → color.count 0 < fuel + 1 → 
    ∃ color' l, dfs adj (fuel + 1) color i id acc = some (color', acc ++ l) ∧
      Grown n color color' id l ∧ i ∈ l ∧ (∀ j ∈ l, Reach adj i j) ∧
      ∀ j ∈ l, ∀ k ∈ adj j, color'.getD k 0 ≠ 0 := by
  induction fuel with
  | zero =>
    intro color i acc hc hi h0 hf
    exfalso
    have : 0 < color.count 0 := by
      apply List.count_pos_iff.mpr
      rw [← hc] at hi
      have : color[i] = 0 := by simpa [List.getD_eq_getElem?_getD, hi] using h0
      exact this ▸ List.getElem_mem hi
    omega
  | succ f ih =>
    intro color i acc hc hi h0 hf
    -- the loop over the neighbours
    have loop : ∀ (todo : List Nat) (c : List Nat) (l : List Nat), (∀ k ∈ todo, k ∈ adj i) →
        Grown n color c id l → i ∈ l → (∀ j ∈ l, Reach adj i j) →
        (∀ j ∈ l, j ≠ i → ∀ k ∈ adj j, c.getD k 0 ≠ 0) → c.count 0 < f + 1 →
        ∃ c' l', todo.foldlM (fun (s : List Nat × List Nat) j =>
            if s.1.getD j 0 = 0 then dfs adj (f + 1) s.1 j id s.2 else some s)
            (c, acc ++ l) = some (c', acc ++ l') ∧
          Grown n color c' id l' ∧ i ∈ l' ∧ (∀ j ∈ l', Reach adj i j) ∧
          (∀ j ∈ l', j ≠ i → ∀ k ∈ adj j, c'.getD k 0 ≠ 0) ∧
          (∀ k ∈ todo, c'.getD k 0 ≠ 0) ∧ (∀ k : Nat, c.getD k 0 ≠ 0 → c'.getD k 0 ≠ 0) := by
      intro todo
      induction todo with
      | nil =>
        intro c l _ g hi' hr hcl hcnt
        exact ⟨c, l, rfl, g, hi', hr, hcl, by simp, fun _ h => h⟩
      | cons t ts iht =>
        intro c l ht g hi' hr hcl hcnt
        rw [List.foldlM_cons]
        by_cases hz : c.getD t 0 = 0
        · simp only [hz, if_true]
          have htn : t < n := hadj i hi t (ht t (by simp))
          obtain ⟨c1, l1, e1, g1, m1, r1, n1⟩ := ih c t (acc ++ l) g.len htn hz hcnt
          have hdis : ∀ j ∈ l, j ∉ l1 := by
            intro j hj hj1
            have h2 := (g1.new j hj1).1
            rw [(g.new j hj).2.1] at h2
            exact hid h2
          have g2 : Grown n color c1 id (l ++ l1) := by
            refine ⟨g1.len, ?_, ?_, ?_⟩
            · intro j hj
              simp only [List.mem_append, not_or] at hj
              rw [g1.keep j hj.2, g.keep j hj.1]
            · intro j hj
              rcases List.mem_append.mp hj with hj | hj
              · obtain ⟨q1, q2, q3⟩ := g.new j hj
                exact ⟨q1, by rw [g1.keep j (hdis j hj)]; exact q2, q3⟩
              · obtain ⟨q1, q2, q3⟩ := g1.new j hj
                refine ⟨?_, q2, q3⟩
                by_cases hjl : j ∈ l
                · exact absurd hj (hdis j hjl)
                · rw [← g.keep j hjl]; exact q1
            · exact List.nodup_append'.mpr ⟨g.nodup, g1.nodup, fun a ha hb => hdis a ha hb⟩
          have mono : ∀ k : Nat, c.getD k 0 ≠ 0 → c1.getD k 0 ≠ 0 := by
            intro k hk
            by_cases hk1 : k ∈ l1
            · rw [(g1.new k hk1).2.1]; exact hid
            · rw [g1.keep k hk1]; exact hk
          have hti : Reach adj i t := Relation.ReflTransGen.single (ht t (by simp))
          rw [List.append_assoc] at e1
          obtain ⟨c', l', e', g', m', r', n', td', mo'⟩ := iht c1 (l ++ l1)
            (fun k hk => ht k (by simp [hk])) g2 (by simp [hi'])
            (by
              intro j hj
              rcases List.mem_append.mp hj with hj | hj
              · exact hr j hj
              · exact hti.trans (r1 j hj))
            (by
              intro j hj hji k hk
              rcases List.mem_append.mp hj with hj | hj
              · exact mono k (hcl j hj hji k hk)
              · exact n1 j hj k hk)
            (by have := g1.count_le g.len hid; omega)
          refine ⟨c', l', ?_, g', m', r', n', ?_, fun k hk => mo' k (mono k hk)⟩
          · rw [e1]; exact e'
          · intro k hk
            rcases List.mem_cons.mp hk with rfl | hk
            · apply mo'
              rw [(g1.new k m1).2.1]; exact hid
            · exact td' k hk
        · simp only [hz, if_false]
          obtain ⟨c', l', e', g', m', r', n', td', mo'⟩ := iht c l
            (fun k hk => ht k (by simp [hk])) g hi' hr hcl hcnt
          refine ⟨c', l', e', g', m', r', n', ?_, mo'⟩
          intro k hk
          rcases List.mem_cons.mp hk with rfl | hk
          · exact mo' _ hz
          · exact td' k hk
    have hic : i < color.length := by omega
    have g0 : Grown n color (color.set i id) id [i] := by
      refine ⟨by simp [hc], ?_, ?_, by simp⟩
      · intro j hj
        rw [getD_set, if_neg]
        rintro ⟨rfl, _⟩; simp at hj
      · intro j hj
        simp only [List.mem_singleton] at hj
        subst hj
        exact ⟨h0, by rw [getD_set, if_pos ⟨rfl, hic⟩], hi⟩
    obtain ⟨c', l', e, g, m, r, cl, td, mo⟩ := loop (adj i) (color.set i id) [i] (fun _ h => h) g0
      (by simp) (by intro j hj; simp at hj; subst hj; exact Relation.ReflTransGen.refl)
      (by intro j hj hji; simp at hj; exact absurd hj hji)
      (by have := count_set_lt color i id hic h0 hid; omega)
    refine ⟨c', l', ?_, g, m, r, ?_⟩
    · rw [dfs]; exact e
    · intro j hj k hk
      by_cases hji : j = i
      · subst hji; exact td k hk
      · exact cl j hj hji k hk

/-- What the outer loop has computed when it is done. -/
structure Grouped (adj : Nat → List Nat) (sel : Nat → Bool) (n : Nat) (color : List Nat)
    (groups : List (List Nat)) : Prop where
  len : color.length = n
  first : groups[0]? = some []
  lt : ∀ i : Nat, color.getD i 0 < groups.length
  mem : ∀ (g : Nat) (l : List Nat), groups[g]? = some l → 0 < g →
    l.Nodup ∧ l ≠ [] ∧ ∀ i, i ∈ l ↔ i < n ∧ color.getD i 0 = g
  sel_iff : ∀ i, i < n → (color.getD i 0 ≠ 0 ↔ sel i = true)
  same : ∀ i j, i < n → j < n → sel i = true → sel j = true →
    (color.getD i 0 = color.getD j 0 ↔ Reach adj i j)

theorem groupAll_spec (adj : Nat → List Nat) (sel : Nat → Bool) (n : Nat)
    (hadj : ∀ i < n, ∀ k ∈ adj i, k < n) (hsym : ∀ i < n, ∀ k ∈ adj i, i ∈ adj k)
    (hsel : ∀ i < n, sel i = true → ∀ k ∈ adj i, sel k = true) :
    ∃ color groups, groupAll adj sel n = some (color, groups) ∧
      Grouped adj sel n color groups := by
  -- reachability is symmetric, and stays below `n` and inside `sel`
  have hreach : ∀ i j, i < n → sel i = true → Reach adj i j → j < n ∧ sel j = true := by
    intro i j hi hs h
    induction h with
    | refl => exact ⟨hi, hs⟩
    | tail _ hb ih => exact ⟨hadj _ ih.1 _ hb, hsel _ ih.1 ih.2 _ hb⟩
  have hrsym : ∀ i j, i < n → sel i = true → Reach adj i j → Reach adj j i := by
    intro i j hi hs h
    induction h with
    | refl => exact Relation.ReflTransGen.refl
    | tail hab hb ih =>
      exact Relation.ReflTransGen.head (hsym _ (hreach _ _ hi hs hab).1 _ hb) ih
  have loop : ∀ (todo done : List Nat), List.range n = done ++ todo →
      ∀ (c : List Nat) (gs : List (List Nat)), c.length = n → gs[0]? = some [] →
      (∀ i : Nat, c.getD i 0 < gs.length) →
      (∀ (g : Nat) (l : List Nat), gs[g]? = some l → 0 < g →
        l.Nodup ∧ l ≠ [] ∧ ∀ i, i ∈ l ↔ i < n ∧ c.getD i 0 = g) →
      (∀ i < n, c.getD i 0 ≠ 0 → sel i = true) →
      (∀ i ∈ done, sel i = true → c.getD i 0 ≠ 0) →
      (∀ i < n, c.getD i 0 ≠ 0 → ∀ k ∈ adj i, c.getD k 0 = c.getD i 0) →
      (∀ i < n, ∀ j < n, c.getD i 0 ≠ 0 → c.getD i 0 = c.getD j 0 → Reach adj i j) →
      ∃ c' gs', todo.foldlM (fun (s : List Nat × List (List Nat)) i =>
          if sel i ∧ s.1.getD i 0 = 0 then
            (dfs adj (n + 1) s.1 i s.2.length []).map fun r => (r.1, s.2 ++ [r.2])
          else some s) (c, gs) = some (c', gs') ∧ Grouped adj sel n c' gs' := by
    intro todo
    induction todo with
    | nil =>
      intro done hd c gs h1 h2 h3 h4 h5 h6 h7 h8
      refine ⟨c, gs, rfl, h1, h2, h3, h4, ?_, ?_⟩
      · intro i hi
        refine ⟨h5 i hi, h6 i ?_⟩
        rw [List.append_nil] at hd
        rw [← hd]; simpa using hi
      · intro i j hi hj si sj
        have hmem : ∀ i, i < n → i ∈ done := by
          intro i hi
          rw [List.append_nil] at hd
          rw [← hd]; simpa using hi
        refine ⟨fun h => h8 i hi j hj (h6 i (hmem i hi) si) h, ?_⟩
        intro h
        have : ∀ k, Reach adj i k → c.getD i 0 = c.getD k 0 := by
          intro k hk
          induction hk with
          | refl => rfl
          | tail hab hb ih =>
            obtain ⟨q1, q2⟩ := hreach _ _ hi si hab
            rw [h7 _ q1 (h6 _ (hmem _ q1) q2) _ hb]; exact ih
        exact this j h
    | cons t ts ih =>
      intro done hd c gs h1 h2 h3 h4 h5 h6 h7 h8
      have htn : t < n := by
        have : t ∈ List.range n := by rw [hd]; simp
        simpa using this
      rw [List.foldlM_cons]
      have hd' : List.range n = (done ++ [t]) ++ ts := by rw [hd]; simp
      by_cases hc : sel t = true ∧ c.getD t 0 = 0
      · simp only [hc, and_self, if_true]
        have hgl : gs.length ≠ 0 := by
          have := h3 0; omega
        obtain ⟨c1, l, e, g, m, r, cl⟩ := dfs_spec adj n gs.length hgl hadj n c t [] h1 htn hc.2
          (by have := List.count_le_length (a := 0) (l := c); omega)
        rw [List.nil_append] at e
        simp only [e, Option.map_some]
        -- nodes of the new group were not coloured and neither were their neighbours
        have hfresh : ∀ j ∈ l, ∀ k ∈ adj j, k ∈ l := by
          intro j hj k hk
          by_contra hkl
          have h9 := cl j hj k hk
          rw [g.keep k hkl] at h9
          obtain ⟨q1, _, q3⟩ := g.new j hj
          have hkn := hadj j q3 k hk
          have h10 := h7 k hkn h9 j (hsym j q3 k hk)
          rw [q1] at h10
          exact h9 h10.symm
        have hold : ∀ j : Nat, c.getD j 0 ≠ 0 → j ∉ l := by
          intro j hj hjl
          exact hj (g.new j hjl).1
        have hlt : ∀ j : Nat, j ∉ l → c1.getD j 0 ≠ gs.length := by
          intro j hj
          rw [g.keep j hj]
          have := h3 j; omega
        obtain ⟨c', gs', e', k'⟩ := ih (done ++ [t]) hd' c1 (gs ++ [l]) g.len
          (by rw [List.getElem?_append_left (by omega)]; exact h2)
          (by
            intro i
            rw [List.length_append, List.length_singleton]
            by_cases hi : i ∈ l
            · rw [(g.new i hi).2.1]; omega
            · rw [g.keep i hi]; have := h3 i; omega)
          (by
            intro q l' hq hq0
            by_cases hlast : q = gs.length
            · subst hlast
              rw [List.getElem?_append_right (by omega)] at hq
              simp at hq
              subst hq
              refine ⟨g.nodup, List.ne_nil_of_mem m, ?_⟩
              intro i
              refine ⟨fun hi => ⟨(g.new i hi).2.2, (g.new i hi).2.1⟩, ?_⟩
              rintro ⟨_, hi⟩
              by_contra hil
              exact hlt i hil hi
            · have hql : q < gs.length := by
                have := (List.getElem?_eq_some_iff.mp hq).1
                simp at this; omega
              rw [List.getElem?_append_left hql] at hq
              obtain ⟨a1, a2, a3⟩ := h4 q l' hq hq0
              refine ⟨a1, a2, fun i => ?_⟩
              rw [a3 i]
              by_cases hi : i ∈ l
              · obtain ⟨b1, b2, b3⟩ := g.new i hi
                rw [b1, b2]
                omega
              · rw [g.keep i hi])
          (by
            intro i hi h
            by_cases hil : i ∈ l
            · exact (hreach _ _ htn hc.1 (r i hil)).2
            · rw [g.keep i hil] at h; exact h5 i hi h)
          (by
            intro i hi hs
            by_cases hil : i ∈ l
            · rw [(g.new i hil).2.1]; exact hgl
            · rw [g.keep i hil]
              rcases List.mem_append.mp hi with hi | hi
              · exact h6 i hi hs
              · simp at hi; subst hi; exact absurd m hil)
          (by
            intro i hi h k hk
            by_cases hil : i ∈ l
            · rw [(g.new i hil).2.1, (g.new k (hfresh i hil k hk)).2.1]
            · have h' := h
              rw [g.keep i hil] at h'
              have h9 := h7 i hi h' k hk
              have hkl : k ∉ l := hold k (by rw [h9]; exact h')
              rw [g.keep k hkl, g.keep i hil, h9])
          (by
            intro i hi j hj h hij
            by_cases hil : i ∈ l
            · rw [(g.new i hil).2.1] at hij
              have hjl : j ∈ l := by
                by_contra hjl
                exact hlt j hjl hij.symm
              exact (hrsym _ _ htn hc.1 (r i hil)).trans (r j hjl)
            · have h' := h
              rw [g.keep i hil] at h' hij
              have hjl : j ∉ l := by
                intro hjl
                rw [(g.new j hjl).2.1] at hij
                have := h3 i; omega
              rw [g.keep j hjl] at hij
              exact h8 i hi j hj h' hij)
        exact ⟨c', gs', e', k'⟩
      · simp only [hc, if_false]
        exact ih (done ++ [t]) hd' c gs h1 h2 h3 h4 h5
          (by
            intro i hi hs
            rcases List.mem_append.mp hi with hi | hi
            · exact h6 i hi hs
            · simp at hi; subst hi
              intro h0; exact hc ⟨hs, h0⟩) h7 h8
  have hrep : ∀ i : Nat, (List.replicate n 0).getD i 0 = 0 := by
    intro i
    simp [List.getD_eq_getElem?_getD, List.getElem?_replicate]
    split <;> rfl
  obtain ⟨c, gs, e, k⟩ := loop (List.range n) [] rfl (List.replicate n 0) [[]] (by simp) rfl
    (by intro i; rw [hrep]; simp)
    (by
      intro g l hg hg0
      have := (List.getElem?_eq_some_iff.mp hg).1
      simp at this; omega)
    (by intro i _ h; exact absurd (hrep i) h) (by simp)
    (by intro i _ h; exact absurd (hrep i) h) (by intro i _ j _ h; exact absurd (hrep i) h)
  exact ⟨c, gs, e, k⟩

end Verif.Conv
