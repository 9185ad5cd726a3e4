import Verif.Geom.Triangulate
import Mathlib.Algebra.BigOperators.Group.List.Basic
import Mathlib.Data.List.Range
import Mathlib.Data.List.Rotate
import Mathlib.Tactic.Abel

namespace Verif.Geom

/-! Sums of an antisymmetric edge function along open and closed vertex paths. -/

section Chains

variable {G : Type} [AddCommGroup G]

/-- Sum of `f` over the consecutive pairs of a list. -/
def pathSum (f : Nat → Nat → G) : List Nat → G
  | a :: b :: l => f a b + pathSum f (b :: l)
  | _ => 0

/-- Sum of `f` over the edges of the closed path `l`. -/
def cycSum (f : Nat → Nat → G) (l : List Nat) : G :=
  match l with
  | [] => 0
  | a :: l => pathSum f (a :: l ++ [a])

/-- Sum of `f` over the edges of one triangle. -/
def triSum (f : Nat → Nat → G) (t : Nat × Nat × Nat) : G :=
  f t.1 t.2.1 + f t.2.1 t.2.2 + f t.2.2 t.1

theorem pathSum_append (f : Nat → Nat → G) (l : List Nat) (b : Nat) (r : List Nat) :
    pathSum f (l ++ b :: r) = pathSum f (l ++ [b]) + pathSum f (b :: r) := by
  induction l with
  | nil => simp [pathSum]
  | cons a l ih =>
    cases l with
    | nil => simp [pathSum]
    | cons c l => simp only [List.cons_append, pathSum] at *; rw [ih]; abel

theorem cycSum_rotate (f : Nat → Nat → G) (xs ys : List Nat) :
    cycSum f (xs ++ ys) = cycSum f (ys ++ xs) := by
  cases xs with
  | nil => simp
  | cons a xs =>
    cases ys with
    | nil => simp
    | cons b ys =>
      simp only [cycSum, List.cons_append]
      have h1 := pathSum_append f (a :: xs) b (ys ++ [a])
      have h2 := pathSum_append f (b :: ys) a (xs ++ [b])
      simp only [List.cons_append, List.append_assoc] at h1 h2 ⊢
      rw [h1, h2]; abel

/-- Cutting off the corner `b` between its cyclic neighbours. -/
theorem cycSum_cons (f : Nat → Nat → G) (hf : ∀ a b, f a b = - f b a) (b c : Nat) (w : List Nat) :
    cycSum f (b :: c :: w) =
      triSum f ((c :: w).getLast (by simp), b, c) + cycSum f (c :: w) := by
  have key : ∀ (d : Nat), pathSum f ((c :: w) ++ [d]) =
      pathSum f (c :: w) + f ((c :: w).getLast (by simp)) d := by
    intro d
    conv_lhs => rw [← List.dropLast_append_getLast (l := c :: w) (by simp)]
    conv_rhs => arg 1; rw [← List.dropLast_append_getLast (l := c :: w) (by simp)]
    rw [List.append_assoc, List.singleton_append, pathSum_append]
    simp [pathSum]
  have k1 := key b
  have k2 := key c
  simp only [cycSum, List.cons_append, pathSum, triSum] at *
  rw [k1, k2, hf c]
  abel

end Chains

/-- A triangle whose corners are distinct, in range and in the cyclic order of the polygon. -/
def GoodTri (n : Nat) (t : Nat × Nat × Nat) : Prop :=
  t.1 < n ∧ t.2.1 < n ∧ t.2.2 < n ∧
    ((t.1 < t.2.1 ∧ t.2.1 < t.2.2) ∨ (t.2.1 < t.2.2 ∧ t.2.2 < t.1) ∨ (t.2.2 < t.1 ∧ t.1 < t.2.1))

theorem sublist_range_lt {n : Nat} {ii : List Nat} (h : ii.Sublist (List.range n)) :
    ∀ x ∈ ii, x < n := fun _ hx => List.mem_range.1 (h.subset hx)

theorem sublist_range_pairwise {n : Nat} {ii : List Nat} (h : ii.Sublist (List.range n)) :
    ii.Pairwise (· < ·) := List.Pairwise.sublist h List.pairwise_lt_range

/-- Everything the sweep needs to know about the candidate at position `i`. -/
theorem candidate {n : Nat} {ii : List Nat} (h : ii.Sublist (List.range n)) (h3 : 3 ≤ ii.length)
    (i : Nat) (hi : i < ii.length) :
    ∃ i0 i1 i2, ii[(i + ii.length - 1) % ii.length]? = some i0 ∧ ii[i]? = some i1 ∧
      ii[(i + 1) % ii.length]? = some i2 ∧ GoodTri n (i0, i1, i2) ∧
      ∀ {G : Type} [AddCommGroup G] (f : Nat → Nat → G), (∀ a b, f a b = - f b a) →
        cycSum f ii = triSum f (i0, i1, i2) + cycSum f (ii.take i ++ ii.drop (i + 1)) := by
  have e1 : (i + ii.length - 1) % ii.length < ii.length := Nat.mod_lt _ (by omega)
  have e2 : (i + 1) % ii.length < ii.length := Nat.mod_lt _ (by omega)
  have hp := sublist_range_pairwise h
  have hlt := sublist_range_lt h
  refine ⟨_, _, _, List.getElem?_eq_getElem e1, List.getElem?_eq_getElem hi,
    List.getElem?_eq_getElem e2, ?_, ?_⟩
  · refine ⟨hlt _ (List.getElem_mem _), hlt _ (List.getElem_mem _), hlt _ (List.getElem_mem _), ?_⟩
    rw [List.pairwise_iff_getElem] at hp
    simp only
    by_cases h0 : i = 0
    · subst h0
      have a1 : (0 + ii.length - 1) % ii.length = ii.length - 1 := by
        rw [Nat.mod_eq_of_lt] <;> omega
      have a2 : (0 + 1) % ii.length = 1 := Nat.mod_eq_of_lt (by omega)
      simp only [a1, a2]
      right; left
      exact ⟨hp _ _ _ _ (by omega), hp _ _ _ _ (by omega)⟩
    · have a1 : (i + ii.length - 1) % ii.length = i - 1 := by
        have : i + ii.length - 1 = (i - 1) + ii.length := by omega
        rw [this, Nat.add_mod_right, Nat.mod_eq_of_lt (by omega)]
      simp only [a1]
      by_cases hl : i + 1 = ii.length
      · have a2 : (i + 1) % ii.length = 0 := by rw [hl]; simp
        simp only [a2]
        right; right
        exact ⟨hp _ _ _ _ (by omega), hp _ _ _ _ (by omega)⟩
      · have a2 : (i + 1) % ii.length = i + 1 := Nat.mod_eq_of_lt (by omega)
        simp only [a2]
        left
        exact ⟨hp _ _ _ _ (by omega), hp _ _ _ _ (by omega)⟩
  · intro G _ f hf
    have hsplit : ii = ii.take i ++ ii[i] :: ii.drop (i + 1) := by
      rw [← List.drop_eq_getElem_cons hi, List.take_append_drop]
    have hne : ii.drop (i + 1) ++ ii.take i ≠ [] := by
      intro hnil
      have := congrArg List.length hnil
      simp only [List.length_append, List.length_drop, List.length_take, List.length_nil] at this
      omega
    obtain ⟨c, w, hcw⟩ := List.exists_cons_of_ne_nil hne
    have hrot : cycSum f ii = cycSum f (ii[i] :: (ii.drop (i + 1) ++ ii.take i)) := by
      conv_lhs => rw [hsplit]
      rw [cycSum_rotate]; rfl
    rw [hrot, cycSum_rotate f (ii.take i), hcw, cycSum_cons f hf]
    congr 2
    have hc : c = ii[(i + 1) % ii.length] := by
      have : (ii.drop (i + 1) ++ ii.take i)[0]? = some c := by rw [hcw]; rfl
      by_cases hl : i + 1 = ii.length
      · have d : ii.drop (i + 1) = [] := by rw [hl]; simp
        rw [d, List.nil_append, List.getElem?_take] at this
        have a2 : (i + 1) % ii.length = 0 := by rw [hl]; simp
        simp only [a2]
        split at this
        · rw [List.getElem?_eq_getElem (by omega)] at this
          exact (Option.some.inj this).symm
        · omega
      · have a2 : (i + 1) % ii.length = i + 1 := Nat.mod_eq_of_lt (by omega)
        simp only [a2]
        rw [List.getElem?_append_left (by simp only [List.length_drop]; omega),
          List.getElem?_drop, List.getElem?_eq_getElem (by omega)] at this
        exact (Option.some.inj this).symm
    have hlast : (c :: w).getLast (by simp) = ii[(i + ii.length - 1) % ii.length] := by
      have hg : (ii.drop (i + 1) ++ ii.take i).getLast? = some ((c :: w).getLast (by simp)) := by
        rw [hcw, List.getLast?_eq_getLast_of_ne_nil (by simp)]
      rw [List.getLast?_append] at hg
      by_cases h0 : i = 0
      · subst h0
        have a1 : (0 + ii.length - 1) % ii.length = ii.length - 1 := by
          rw [Nat.mod_eq_of_lt] <;> omega
        simp only [a1]
        simp only [List.take_zero, List.getLast?_nil, Option.none_or] at hg
        rw [List.getLast?_eq_getElem?, List.length_drop, List.getElem?_drop] at hg
        rw [List.getElem?_eq_getElem (by omega)] at hg
        have := (Option.some.inj hg).symm
        rw [this]
        congr 1; omega
      · have a1 : (i + ii.length - 1) % ii.length = i - 1 := by
          have : i + ii.length - 1 = (i - 1) + ii.length := by omega
          rw [this, Nat.add_mod_right, Nat.mod_eq_of_lt (by omega)]
        simp only [a1]
        have : (ii.take i).getLast? = some ii[i - 1] := by
          rw [List.getLast?_eq_getElem?, List.length_take, Nat.min_eq_left (by omega),
            List.getElem?_take, if_pos (by omega), List.getElem?_eq_getElem (by omega)]
        rw [this] at hg
        exact (Option.some.inj hg).symm
    rw [hlast, hc]

variable {F : Type} [Add F] [Sub F] [Mul F] [Zero F] [FloatOps F]

theorem noneInside_isSome (poly : List (Vec3 F)) (v0 v1 v2 : Vec3 F) (js : List Nat)
    (h : ∀ j ∈ js, j < poly.length) : ∃ b, noneInside poly v0 v1 v2 js = some b := by
  induction js with
  | nil => exact ⟨true, rfl⟩
  | cons j js ih =>
    have hj : j < poly.length := h j (by simp)
    obtain ⟨b, hb⟩ := ih (fun k hk => h k (by simp [hk]))
    simp only [noneInside, List.getElem?_eq_getElem hj, Option.bind_eq_bind, Option.bind_some]
    split
    · exact ⟨_, rfl⟩
    · exact ⟨b, hb⟩

/-- What one sweep (or the whole loop) adds to the output. -/
structure Progress (n : Nat) (ii ii' : List Nat) (new : List (Nat × Nat × Nat)) : Prop where
  sub : ii'.Sublist ii
  count : new.length + ii'.length = ii.length
  two : 2 ≤ ii'.length
  good : ∀ t ∈ new, GoodTri n t
  chain : ∀ {G : Type} [AddCommGroup G] (f : Nat → Nat → G), (∀ a b, f a b = - f b a) →
    cycSum f ii = (new.map (triSum f)).sum + cycSum f ii'

theorem Progress.refl {n : Nat} {ii : List Nat} (h : 2 ≤ ii.length) : Progress n ii ii [] :=
  ⟨List.Sublist.refl _, by simp, h, by simp, by intros; simp⟩

theorem Progress.trans {n : Nat} {a b c : List Nat} {s t : List (Nat × Nat × Nat)}
    (h1 : Progress n a b s) (h2 : Progress n b c t) : Progress n a c (s ++ t) := by
  refine ⟨h2.sub.trans h1.sub, ?_, h2.two, ?_, ?_⟩
  · have := h1.count; have := h2.count; simp only [List.length_append]; omega
  · intro x hx
    rcases List.mem_append.1 hx with h | h
    · exact h1.good _ h
    · exact h2.good _ h
  · intro G _ f hf
    rw [h1.chain f hf, h2.chain f hf, List.map_append, List.sum_append]; abel

theorem earSweep_spec (poly : List (Vec3 F)) (nrm : Vec3 F) (i : Nat) :
    ∀ ii dst, ii.Sublist (List.range poly.length) → 3 ≤ ii.length → i ≤ ii.length →
      ∃ ii' new, earSweep poly nrm i ii dst = some (ii', dst ++ new) ∧
        Progress poly.length ii ii' new := by
  induction i with
  | zero =>
    intro ii dst hs h3 _
    exact ⟨ii, [], by simp [earSweep], Progress.refl (by omega)⟩
  | succ i ih =>
    intro ii dst hs h3 hi
    obtain ⟨i0, i1, i2, h0, h1, h2, hg, hc⟩ := candidate hs h3 i (by omega)
    have g0 : i0 < poly.length := hg.1
    have g1 : i1 < poly.length := hg.2.1
    have g2 : i2 < poly.length := hg.2.2.1
    simp only [earSweep, Option.bind_eq_bind, h0, h1, h2, List.getElem?_eq_getElem g0,
      List.getElem?_eq_getElem g1, List.getElem?_eq_getElem g2, Option.bind_some]
    have hsub : (ii.take i ++ ii.drop (i + 1)).Sublist ii := by
      conv_rhs => rw [← List.take_append_drop i ii]
      refine List.Sublist.append (List.Sublist.refl _) ?_
      rw [List.drop_eq_getElem_cons (by omega : i < ii.length)]
      exact List.sublist_cons_self _ _
    have hlen : (ii.take i ++ ii.drop (i + 1)).length + 1 = ii.length := by
      simp only [List.length_append, List.length_take, List.length_drop]; omega
    have hstep : Progress poly.length ii (ii.take i ++ ii.drop (i + 1)) [(i0, i1, i2)] := by
      refine ⟨hsub, by simp only [List.length_singleton]; omega, by omega, ?_, ?_⟩
      · intro t ht; rw [List.mem_singleton.1 ht]; exact hg
      · intro G _ f hf; simp [hc f hf]
    split
    · obtain ⟨b, hb⟩ := noneInside_isSome poly poly[i0] poly[i1] poly[i2]
        (ii.take i ++ ii.drop (i + 1)) (fun j hj => sublist_range_lt (hsub.trans hs) j hj)
      rw [hb, Option.bind_some]
      split
      · split
        · exact ⟨_, _, rfl, hstep⟩
        · obtain ⟨ii', new, he, hp⟩ := ih (ii.take i ++ ii.drop (i + 1))
            (dst ++ [(i0, i1, i2)]) (hsub.trans hs) (by omega) (by omega)
          refine ⟨ii', [(i0, i1, i2)] ++ new, ?_, hstep.trans hp⟩
          rw [he, List.append_assoc]
      · exact ih ii dst hs h3 (by omega)
    · exact ih ii dst hs h3 (by omega)

/-- Splitting a fan triangle off the front of a closed path. -/
theorem cycSum_fan {G : Type} [AddCommGroup G] (f : Nat → Nat → G) (hf : ∀ a b, f a b = - f b a)
    (a b c : Nat) (w : List Nat) :
    cycSum f (a :: b :: c :: w) = triSum f (a, b, c) + cycSum f (a :: c :: w) := by
  simp only [cycSum, List.cons_append, pathSum, triSum]
  rw [hf c a]; abel

theorem fan_spec (n : Nat) (a : Nat) (pre rest : List Nat) :
    ∀ dst, (a :: pre ++ rest).Pairwise (· < ·) → (∀ x ∈ a :: pre ++ rest, x < n) → rest ≠ [] →
      ∃ new, fan (a :: pre ++ rest) (rest.length - 1) pre.length dst = some (dst ++ new) ∧
        new.length = rest.length - 1 ∧ (∀ t ∈ new, GoodTri n t) ∧
        ∀ {G : Type} [AddCommGroup G] (f : Nat → Nat → G), (∀ a b, f a b = - f b a) →
          cycSum f (a :: rest) = (new.map (triSum f)).sum := by
  induction rest generalizing pre with
  | nil => intro _ _ _ h; exact absurd rfl h
  | cons b rest ih =>
    intro dst hp hn _
    cases rest with
    | nil =>
      refine ⟨[], by simp [fan], by simp, by simp, ?_⟩
      intro G _ f hf
      simp [cycSum, pathSum, hf a b]
    | cons c rest =>
      have hp' := hp
      have hn' := hn
      rw [show a :: pre ++ b :: c :: rest = a :: (pre ++ [b]) ++ c :: rest by simp] at hp' hn'
      obtain ⟨new, h1, h2, h3, h4⟩ := ih (pre ++ [b]) (dst ++ [(a, b, c)]) hp' hn' (by simp)
      refine ⟨(a, b, c) :: new, ?_, by simp at h2 ⊢; omega, ?_, ?_⟩
      · simp only [List.length_cons, Nat.add_sub_cancel, fan, Option.bind_eq_bind]
        have e0 : (a :: pre ++ b :: c :: rest)[0]? = some a := rfl
        have e1 : (a :: pre ++ b :: c :: rest)[pre.length + 1]? = some b := by simp
        have e2 : (a :: pre ++ b :: c :: rest)[pre.length + 2]? = some c := by
          rw [List.getElem?_append_right (by simp)]; simp
        rw [e0, e1, e2]
        simp only [Option.bind_some]
        simp only [List.length_append, List.length_cons,
          Nat.add_sub_cancel, List.append_assoc, List.cons_append, List.nil_append] at h1 ⊢
        exact h1
      · intro t ht
        rcases List.mem_cons.1 ht with h | h
        · subst h
          refine ⟨hn _ (by simp), hn _ (by simp), hn _ (by simp), Or.inl ?_⟩
          rw [List.pairwise_append] at hp
          refine ⟨hp.2.2 _ (by simp) _ (by simp), ?_⟩
          have := hp.2.1
          rw [List.pairwise_cons] at this
          exact this.1 _ (by simp)
        · exact h3 _ h
      · intro G _ f hf
        rw [cycSum_fan f hf, List.map_cons, List.sum_cons, h4 f hf]

theorem earLoop_spec (poly : List (Vec3 F)) (nrm : Vec3 F) (k : Nat) :
    ∀ ii dst, ii.length < k → ii.Sublist (List.range poly.length) → 2 ≤ ii.length →
      ∃ new, earLoop poly nrm k ii dst = some (dst ++ new) ∧ new.length + 2 = ii.length ∧
        (∀ t ∈ new, GoodTri poly.length t) ∧
        ∀ {G : Type} [AddCommGroup G] (f : Nat → Nat → G), (∀ a b, f a b = - f b a) →
          cycSum f ii = (new.map (triSum f)).sum := by
  induction k with
  | zero => intro ii dst h _ h2; omega
  | succ k ih =>
    intro ii dst hk hs h2
    rw [earLoop]
    split
    case isFalse h3 =>
      refine ⟨[], by simp, by simp; omega, by simp, ?_⟩
      intro G _ f hf
      match ii, h2, h3 with
      | [a, b], _, _ => simp [cycSum, pathSum, hf a b]
      | _ :: _ :: _ :: _, _, h3 => simp at h3
    case isTrue h3 =>
      obtain ⟨ii', new, he, hp⟩ := earSweep_spec poly nrm ii.length ii dst hs h3 (Nat.le_refl _)
      · simp only [he, Option.bind_eq_bind, Option.bind_some]
        have hc := hp.count
        split
        case isTrue hl =>
          have hnew : new = [] := List.length_eq_zero_iff.1 (by omega)
          subst hnew
          have hii : ii' = ii := List.Sublist.eq_of_length hp.sub hl.symm
          subst hii
          match ii', h3, hs with
          | a :: rest, h3, hs =>
            have hr : rest ≠ [] := by intro h; subst h; simp at h3
            obtain ⟨nw, n1, n2, n3, n4⟩ := fan_spec poly.length a [] rest (dst ++ [])
              (sublist_range_pairwise hs) (sublist_range_lt hs) hr
            refine ⟨nw, ?_, ?_, n3, n4⟩
            · simpa using n1
            · simp at h3 n2 ⊢; omega
        case isFalse hl =>
          obtain ⟨nw, n1, n2, n3, n4⟩ := ih ii' (dst ++ new) (by omega) (hp.sub.trans hs) hp.two
          refine ⟨new ++ nw, by rw [n1, List.append_assoc], ?_, ?_, ?_⟩
          · simp only [List.length_append]; omega
          · intro t ht
            rcases List.mem_append.1 ht with h | h
            · exact hp.good _ h
            · exact n3 _ h
          · intro G _ f hf
            rw [hp.chain f hf, n4 f hf, List.map_append, List.sum_append]

variable [Div F] [One F]

omit [Zero F] [FloatOps F] [Div F] [One F] in
theorem polyNormalLoop_isSome (poly : List (Vec3 F)) (is : List Nat)
    (h : ∀ i ∈ is, i < poly.length) (n : Vec3 F) : ∃ m, polyNormalLoop poly is n = some m := by
  induction is generalizing n with
  | nil => exact ⟨n, rfl⟩
  | cons i is ih =>
    have hi := h i (by simp)
    have e1 : (i + poly.length - 1) % poly.length < poly.length := Nat.mod_lt _ (by omega)
    have e2 : (i + 1) % poly.length < poly.length := Nat.mod_lt _ (by omega)
    simp only [polyNormalLoop, List.getElem?_eq_getElem hi, List.getElem?_eq_getElem e1,
      List.getElem?_eq_getElem e2, Option.bind_eq_bind, Option.bind_some]
    exact ih (fun j hj => h j (by simp [hj])) _

/-- The full characterisation used by the property theorems. -/
theorem triangulate_spec (poly : List (Vec3 F)) (h : 3 ≤ poly.length) :
    ∃ ts, triangulate poly = some ts ∧ ts.length + 2 = poly.length ∧
      (∀ t ∈ ts, GoodTri poly.length t) ∧
      ∀ {G : Type} [AddCommGroup G] (f : Nat → Nat → G), (∀ a b, f a b = - f b a) →
        cycSum f (List.range poly.length) = (ts.map (triSum f)).sum := by
  obtain ⟨m, hm⟩ := polyNormalLoop_isSome poly (List.range poly.length)
    (fun i hi => List.mem_range.1 hi) ⟨0, 0, 0⟩
  obtain ⟨ts, h1, h2, h3, h4⟩ := earLoop_spec poly m.normalize (poly.length + 1)
    (List.range poly.length) [] (by simp) (List.Sublist.refl _) (by simp; omega)
  refine ⟨ts, ?_, by simpa using h2, h3, h4⟩
  simp only [triangulate, polyNormal, if_neg (Nat.not_lt.2 h), hm, Option.bind_eq_bind,
    Option.bind_some, Option.pure_def]
  simpa using h1

end Verif.Geom
