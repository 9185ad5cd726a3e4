import Verif.Cmd.Main
import Verif.Mqo.TransformProps
import Mathlib.Logic.Relation
import Mathlib.Tactic.Ring
import Mathlib.Tactic.NormNum

/-!
C58, C59, C99, C100: the command (cmd/modelconv/main.go).
-/

namespace Verif.Cmd
open Verif.Geom Verif.Mqo

variable {F : Type}

/-! ### C58: hiding -/

/-- The depth of object `i`. -/
def dep (objs : List (Object F)) (i : Nat) : Int := (objs[i]?.map Object.depth).getD 0

/-- Object `p` is the parent of object `i`: the nearest object before it with a smaller depth. -/
def ParentOf (objs : List (Object F)) (p i : Nat) : Prop :=
  p < i ∧ i < objs.length ∧ dep objs p < dep objs i ∧ ∀ k, p < k → k < i → dep objs i ≤ dep objs k

/-- Object `a` is object `i` or one of its ancestors. -/
def AncestorOrSelf (objs : List (Object F)) : Nat → Nat → Prop := Relation.ReflTransGen (ParentOf objs)

/-- The objects of a subtree are a run of deeper objects. -/
theorem ancestor_iff (objs : List (Object F)) (a i : Nat) (hi : i < objs.length) :
    AncestorOrSelf objs a i ↔ a = i ∨ (a < i ∧ ∀ k, a < k → k ≤ i → dep objs a < dep objs k) := by
  constructor
  · intro h
    have h' : Relation.ReflTransGen (ParentOf objs) a i := h
    clear hi h
    induction h' with
    | refl => exact .inl rfl
    | @tail p i _ hp ih =>
      obtain ⟨h1, _, h2, h3⟩ := hp
      right
      rcases ih with rfl | ⟨h4, h5⟩
      · refine ⟨h1, fun k hk1 hk2 => ?_⟩
        rcases Nat.lt_or_ge k i with hk | hk
        · have := h3 k hk1 hk; omega
        · have : k = i := by omega
          rw [this]; exact h2
      · refine ⟨by omega, fun k hk1 hk2 => ?_⟩
        have hap := h5 p h4 (Nat.le_refl _)
        rcases Nat.lt_or_ge p k with hpk | hpk
        · rcases Nat.lt_or_ge k i with hk | hk
          · have := h3 k hpk hk; omega
          · have : k = i := by omega
            rw [this]; omega
        · exact h5 k hk1 hpk
  · intro h
    induction i using Nat.strongRecOn with
    | ind i ih =>
      rcases h with rfl | ⟨h1, h2⟩
      · exact .refl
      · -- the nearest object before with a smaller depth
        have hex : ∀ n, n ≤ i - a → (∃ p, a ≤ p ∧ p < i ∧ i - n ≤ p ∧ dep objs p < dep objs i ∧
            ∀ k, p < k → k < i → dep objs i ≤ dep objs k) ∨ ∀ k, i - n ≤ k → k < i → dep objs i ≤ dep objs k := by
          intro n
          induction n with
          | zero => intro _; right; intro k hk1 hk2; omega
          | succ n ihn =>
            intro hn
            rcases ihn (by omega) with ⟨p, e1, e2, e3, e4, e5⟩ | hall
            · exact .inl ⟨p, e1, e2, by omega, e4, e5⟩
            · by_cases hd : dep objs (i - (n + 1)) < dep objs i
              · exact .inl ⟨i - (n + 1), by omega, by omega, by omega, hd, fun k hk1 hk2 => hall k (by omega) hk2⟩
              · right
                intro k hk1 hk2
                rcases Nat.lt_or_ge k (i - n) with hk | hk
                · have : k = i - (n + 1) := by omega
                  rw [this]; omega
                · exact hall k hk hk2
        rcases hex (i - a) (Nat.le_refl _) with ⟨p, e1, e2, _, e4, e5⟩ | hall
        · refine Relation.ReflTransGen.tail (ih p e2 (by omega) ?_) ⟨e2, hi, e4, e5⟩
          rcases Nat.lt_or_ge a p with hap | hap
          · exact .inr ⟨hap, fun k hk1 hk2 => h2 k hk1 (by omega)⟩
          · exact .inl (by omega)
        · have := hall a (by omega) h1
          have := h2 i h1 (Nat.le_refl _)
          omega

theorem hideRun_getElem? (d : Int) (l : List (Object F)) (i : Nat) :
    (hideRun d l)[i]? = l[i]?.map fun o => if ∀ k ≤ i, d < dep l k then { o with visible := false } else o := by
  induction l generalizing i with
  | nil => simp [hideRun]
  | cons o os ih =>
    rw [hideRun]
    have h0 : dep (o :: os) 0 = o.depth := by simp [dep]
    have hs : ∀ k, dep (o :: os) (k + 1) = dep os k := by intro k; simp [dep]
    split
    · rename_i hd
      cases i with
      | zero => simp [h0, hd]
      | succ i =>
        rw [List.getElem?_cons_succ, List.getElem?_cons_succ, ih]
        congr 1
        funext x
        have : (∀ k ≤ i, d < dep os k) ↔ ∀ k ≤ i + 1, d < dep (o :: os) k := by
          constructor
          · intro h k hk
            cases k with
            | zero => rw [h0]; exact hd
            | succ k => rw [hs]; exact h k (by omega)
          · intro h k hk
            rw [← hs]
            exact h (k + 1) (by omega)
        simp only [this]
    · rename_i hd
      have : ¬ ∀ k ≤ i, d < dep (o :: os) k := fun h => hd (by rw [← h0]; exact h 0 (by omega))
      simp only [this, if_false]
      cases (o :: os)[i]? <;> rfl

/-- Object `j` is hidden by the match of object `i`. -/
def Covers (objs : List (Object F)) (j i : Nat) : Prop :=
  j = i ∨ (j < i ∧ ∀ k, j < k → k ≤ i → dep objs j < dep objs k)

noncomputable instance (objs : List (Object F)) (j i : Nat) : Decidable (Covers objs j i) := Classical.propDecidable _

theorem length_of_getElem? {α β : Type} (l : List α) (l' : List β) (f : Nat → β → α) (h : ∀ i : Nat, l[i]? = l'[i]?.map (f i)) :
    l.length = l'.length := by
  apply Nat.le_antisymm
  · rw [← List.getElem?_eq_none_iff, h, List.getElem?_eq_none (Nat.le_refl _)]
    rfl
  · have := h l.length
    rw [List.getElem?_eq_none (Nat.le_refl _)] at this
    rw [← List.getElem?_eq_none_iff]
    cases hc : l'[l.length]? with
    | none => rfl
    | some x => rw [hc] at this; simp at this

theorem hideAt_spec (m : Str → Bool) (objs : List (Object F)) (j : Nat) :
    (hideAt m objs j).length = objs.length ∧ ∀ i : Nat, (hideAt m objs j)[i]? =
      objs[i]?.map fun o => if (objs[j]?.map (m ·.name)) = some true ∧ Covers objs j i then { o with visible := false } else o := by
  have hfst : ∀ i : Nat, (hideAt m objs j)[i]? =
      objs[i]?.map fun o => if (objs[j]?.map (m ·.name)) = some true ∧ Covers objs j i then { o with visible := false } else o := by
    intro i
    unfold hideAt
    split
    · rename_i hj
      simp [hj]
    · rename_i o hj
      split
      · rename_i hm
        have hjl : j < objs.length := (List.getElem?_eq_some_iff.mp hj).1
        have hcond : (objs[j]?.map (m ·.name)) = some true := by rw [hj]; simp [hm]
        simp only [hcond, true_and]
        rcases Nat.lt_trichotomy i j with h | h | h
        · rw [List.getElem?_append_left (by rw [List.length_take]; omega), List.getElem?_take_of_lt h]
          have : ¬ Covers objs j i := by rintro (h' | h') <;> omega
          simp only [this, if_false]
          cases objs[i]? <;> rfl
        · subst h
          rw [List.getElem?_append_right (by rw [List.length_take]; omega), List.length_take, Nat.min_eq_left (by omega),
            Nat.sub_self, hj]
          have : Covers objs i i := .inl rfl
          simp [this]
        · obtain ⟨n, rfl⟩ : ∃ n, i = j + 1 + n := ⟨i - j - 1, by omega⟩
          rw [List.getElem?_append_right (by rw [List.length_take]; omega), List.length_take, Nat.min_eq_left (by omega),
            show j + 1 + n - j = n + 1 by omega, List.getElem?_cons_succ, hideRun_getElem?, List.getElem?_drop]
          congr 1
          funext x
          have hdj : dep objs j = o.depth := by simp [dep, hj]
          have hdd : ∀ k, dep (objs.drop (j + 1)) k = dep objs (j + 1 + k) := by intro k; simp [dep, List.getElem?_drop]
          have : (∀ k ≤ n, o.depth < dep (objs.drop (j + 1)) k) ↔ Covers objs j (j + 1 + n) := by
            constructor
            · intro h'
              refine .inr ⟨by omega, fun k hk1 hk2 => ?_⟩
              have := h' (k - (j + 1)) (by omega)
              rw [hdd, show j + 1 + (k - (j + 1)) = k by omega] at this
              rw [hdj]; exact this
            · rintro (h' | ⟨_, h'⟩)
              · omega
              · intro k hk
                rw [hdd, ← hdj]
                exact h' _ (by omega) (by omega)
          by_cases hc : Covers objs j (j + 1 + n)
          · rw [if_pos (this.mpr hc), if_pos hc]
          · rw [if_neg hc, if_neg (mt this.mp hc)]
      · rename_i hm
        simp [hj, hm]
  exact ⟨length_of_getElem? _ _ _ hfst, hfst⟩

theorem hide_steps (m : Str → Bool) (objs : List (Object F)) (n : Nat) :
    ∀ i : Nat, ((List.range n).foldl (hideAt m) objs)[i]? =
      objs[i]?.map fun o => open Classical in
        if ∃ j < n, (objs[j]?.map (m ·.name)) = some true ∧ Covers objs j i then { o with visible := false } else o := by
  induction n with
  | zero =>
    intro i
    simp
  | succ n ih =>
    intro i
    rw [List.range_succ, List.foldl_append, List.foldl_cons, List.foldl_nil]
    generalize hr : (List.range n).foldl (hideAt m) objs = r at ih
    rw [(hideAt_spec m r n).2 i, ih i, Option.map_map]
    congr 1
    funext o
    have hname : r[n]?.map (m ·.name) = objs[n]?.map (m ·.name) := by
      rw [ih n, Option.map_map]
      congr 1
      funext x
      simp only [Function.comp]
      split <;> rfl
    have hdep : ∀ k, dep r k = dep objs k := by
      intro k
      simp only [dep]
      rw [ih k, Option.map_map]
      congr 2
      funext x
      simp only [Function.comp]
      split <;> rfl
    have hcov : Covers r n i ↔ Covers objs n i := by
      unfold Covers
      simp only [hdep]
    simp only [Function.comp, hname, hcov]
    by_cases h1 : (objs[n]?.map (m ·.name)) = some true ∧ Covers objs n i
    · have h2 : ∃ j < n + 1, (objs[j]?.map (m ·.name)) = some true ∧ Covers objs j i := ⟨n, by omega, h1⟩
      rw [if_pos h1, if_pos h2]
      split <;> rfl
    · rw [if_neg h1]
      have : (∃ j < n + 1, (objs[j]?.map (m ·.name)) = some true ∧ Covers objs j i) ↔
          ∃ j < n, (objs[j]?.map (m ·.name)) = some true ∧ Covers objs j i := by
        constructor
        · rintro ⟨j, hj, h⟩
          rcases Nat.lt_or_ge j n with h' | h'
          · exact ⟨j, h', h⟩
          · have : j = n := by omega
            subst this
            exact absurd h h1
        · rintro ⟨j, hj, h⟩
          exact ⟨j, by omega, h⟩
      simp only [this]

/-- C58: hiding keeps the objects; an object is invisible afterwards exactly if it was before, or it or one of
its ancestors matches. -/
theorem hide_spec (m : Str → Bool) (objs : List (Object F)) :
    (hide m objs).length = objs.length ∧
    ∀ (i : Nat) (o : Object F), objs[i]? = some o → ∃ v : Bool, (hide m objs)[i]? = some { o with visible := v } ∧
      (v = false ↔ o.visible = false ∨ ∃ (a : Nat) (x : Object F), objs[a]? = some x ∧ m x.name = true ∧ AncestorOrSelf objs a i) := by
  have hg := hide_steps m objs objs.length
  refine ⟨length_of_getElem? _ _ _ hg, ?_⟩
  · intro i o ho
    have hi : i < objs.length := (List.getElem?_eq_some_iff.mp ho).1
    have := hg i
    rw [show (List.range objs.length).foldl (hideAt m) objs = hide m objs from rfl, ho, Option.map_some] at this
    rw [this]
    have key : (∃ j < objs.length, (objs[j]?.map (m ·.name)) = some true ∧ Covers objs j i) ↔
        ∃ (a : Nat) (x : Object F), objs[a]? = some x ∧ m x.name = true ∧ AncestorOrSelf objs a i := by
      constructor
      · rintro ⟨j, hj, h1, h2⟩
        refine ⟨j, objs[j], List.getElem?_eq_getElem hj, ?_, (ancestor_iff objs j i hi).mpr h2⟩
        rw [List.getElem?_eq_getElem hj] at h1
        simpa using h1
      · rintro ⟨a, x, h1, h2, h3⟩
        refine ⟨a, (List.getElem?_eq_some_iff.mp h1).1, by rw [h1]; simp [h2], (ancestor_iff objs a i hi).mp h3⟩
    by_cases hc : ∃ j < objs.length, (objs[j]?.map (m ·.name)) = some true ∧ Covers objs j i
    · rw [if_pos hc]
      exact ⟨false, rfl, by simp [key.mp hc]⟩
    · rw [if_neg hc]
      exact ⟨o.visible, rfl, by simp [mt key.mpr hc]⟩

/-- Objects a, b (child of a), c (child of b), d (child of a), e; hiding b hides b and c. -/
def sampleObjs : List (Object Int) :=
  [("a", 0), ("b", 1), ("c", 2), ("d", 1), ("e", 0)].map fun p => { newObject 0 p.1.toList with depth := p.2 }

example : (hide (· == ['b']) sampleObjs).map Object.visible = [true, false, false, true, true] := by decide +kernel

/-! ### C59: the rotation -/

/-- The rotation by half a turn around the vertical axis. -/
def halfTurn [Neg F] (v : Vec3 F) : Vec3 F := ⟨-v.x, v.y, -v.z⟩

/-- C59: the scale with `-rot180` is the half turn followed by the scale without it; its determinant is the
product of the scales, so that it keeps the orientation for positive scales. -/
theorem rot180_spec [Field F] [DecidableEq F] (s sx sy sz : F) :
    (∀ v : Vec3 F, ((scaleVec s sx sy sz true).map fun w => (Mat4.scaling w.x w.y w.z).applyTo v).getD v =
      ((scaleVec s sx sy sz false).map fun w => (Mat4.scaling w.x w.y w.z).applyTo (halfTurn v)).getD (halfTurn v)) ∧
    (∀ w, scaleVec s sx sy sz true = some w → (Mat4.scaling w.x w.y w.z).det = s * sx * (s * sy) * (s * sz)) ∧
    (∀ v : Vec3 F, halfTurn (halfTurn v) = v) := by
  have happ : ∀ (rot : Bool) (v : Vec3 F), ((scaleVec s sx sy sz rot).map fun w => (Mat4.scaling w.x w.y w.z).applyTo v).getD v =
      (Mat4.scaling (if rot then s * sx * -1 else s * sx) (s * sy) (if rot then s * sz * -1 else s * sz)).applyTo v := by
    intro rot v
    cases rot <;> simp only [scaleVec, if_true, Bool.false_eq_true, if_false] <;> split
    · rename_i h
      obtain ⟨h1, h2, h3⟩ := h
      rw [h1, h2, h3]
      ext <;> simp [Mat4.scaling, Mat4.applyTo]
    · rfl
    · rename_i h
      obtain ⟨h1, h2, h3⟩ := h
      rw [h1, h2, h3]
      ext <;> simp [Mat4.scaling, Mat4.applyTo]
    · rfl
  refine ⟨?_, ?_, ?_⟩
  · intro v
    rw [happ true v]
    have := happ false (halfTurn v)
    rw [this]
    ext <;> simp [Mat4.scaling, Mat4.applyTo, halfTurn]
  · intro w hw
    simp only [scaleVec, if_true] at hw
    split at hw
    · simp at hw
    · simp only [Option.some.injEq] at hw
      subst hw
      simp only [Mat4.det, Mat4.t11, Mat4.t12, Mat4.t13, Mat4.t14, Mat4.scaling]
      ring
  · intro v
    ext <;> simp [halfTurn]

theorem half_det [Field F] : (Mat4.scaling (1 * 1 * -1) (1 * 1) (1 * 1 * -1) : Mat4 F).det = 1 := by
  simp only [Mat4.det, Mat4.t11, Mat4.t12, Mat4.t13, Mat4.t14, Mat4.scaling]
  ring

theorem half_inverse [Field F] [DecidableEq F] :
    normalTransform (Mat4.scaling (1 * 1 * -1) (1 * 1) (1 * 1 * -1) : Mat4 F) = Mat4.scaling (-1) 1 (-1) := by
  have hd : ({ (Mat4.scaling (1 * 1 * -1) (1 * 1) (1 * 1 * -1) : Mat4 F) with m12 := 0, m13 := 0, m14 := 0 } : Mat4 F) =
      Mat4.scaling (-1) 1 (-1) := by
    simp [Mat4.scaling]
  have hdet : (Mat4.scaling (-1) 1 (-1) : Mat4 F).det = 1 := by
    simp [Mat4.det, Mat4.t11, Mat4.t12, Mat4.t13, Mat4.t14, Mat4.scaling]
  unfold normalTransform
  rw [hd]
  unfold Mat4.inverse
  simp only [hdet]
  simp [Mat4.transposed, Mat4.t11, Mat4.t12, Mat4.t13, Mat4.t14, Mat4.scaling]

/-- C59: with scale one, two conversions with `-rot180` give back the objects. -/
theorem rot180_twice [Field F] [DecidableEq F] (objects : List (Object F)) :
    applyScale (scaleVec 1 1 1 1 true) (applyScale (scaleVec 1 1 1 1 true) objects) = objects := by
  cases h : scaleVec (1 : F) 1 1 1 true with
  | none => rfl
  | some w =>
    have hw : w = ⟨1 * 1 * -1, 1 * 1, 1 * 1 * -1⟩ := by
      simp only [scaleVec, if_true] at h
      split at h
      · simp at h
      · simpa using h.symm
    subst hw
    simp only [applyScale, List.map_map]
    conv_rhs => rw [← List.map_id objects]
    congr 1
    funext o
    simp only [Function.comp, Object.applyTransform, half_inverse, id]
    have hv : ∀ v : Vec3 F, (Mat4.scaling (1 * 1 * -1) (1 * 1) (1 * 1 * -1) : Mat4 F).applyTo
        ((Mat4.scaling (1 * 1 * -1) (1 * 1) (1 * 1 * -1) : Mat4 F).applyTo v) = v := by
      intro v
      ext <;> simp [Mat4.scaling, Mat4.applyTo]
    have hn : ∀ v : Vec3 F, (Mat4.scaling (-1) 1 (-1) : Mat4 F).applyTo ((Mat4.scaling (-1) 1 (-1) : Mat4 F).applyTo v) = v := by
      intro v
      ext <;> simp [Mat4.scaling, Mat4.applyTo]
    have hm : ∀ m : Mat4 F, (Mat4.scaling (1 * 1 * -1) (1 * 1) (1 * 1 * -1) : Mat4 F).mul
        ((Mat4.scaling (1 * 1 * -1) (1 * 1) (1 * 1 * -1) : Mat4 F).mul m) = m := by
      intro m
      ext <;> simp [Mat4.scaling, Mat4.mul]
    generalize (Mat4.scaling (1 * 1 * -1) (1 * 1) (1 * 1 * -1) : Mat4 F) = m at hv hm
    generalize (Mat4.scaling (-1) 1 (-1) : Mat4 F) = nm at hn
    have e1 : (o.vertexes.map m.applyTo).map m.applyTo = o.vertexes := by
      rw [List.map_map]
      conv_rhs => rw [← List.map_id o.vertexes]
      exact List.map_congr_left fun v _ => hv v
    have e2 : (o.internalTransform.map m.mul).map m.mul = o.internalTransform := by
      rw [Option.map_map]
      cases o.internalTransform with
      | none => rfl
      | some m => exact congrArg some (hm m)
    have e3 : (o.faces.map fun f => { f with normals := f.normals.map (Option.map nm.applyTo) }).map
        (fun f => { f with normals := f.normals.map (Option.map nm.applyTo) }) = o.faces := by
      rw [List.map_map]
      conv_rhs => rw [← List.map_id o.faces]
      apply List.map_congr_left
      intro f _
      obtain ⟨u, vs, mt, uv, ns⟩ := f
      simp only [Function.comp, id, List.map_map]
      congr 1
      conv_rhs => rw [← List.map_id ns]
      apply List.map_congr_left
      intro n _
      cases n with
      | none => rfl
      | some n => exact congrArg some (hn n)
    rw [e1, e2, e3]

example : scaleVec (80 : Int) 1 1 1 true = some ⟨-80, 80, -80⟩ ∧ scaleVec (1 : Int) 1 1 1 true = some ⟨-1, 1, -1⟩ ∧
    scaleVec (1 : Int) 1 1 1 false = none := by decide

/-! ### C99: the default output -/

theorem ext_suffix (path : Str) : ∃ stem, path = stem ++ ext path := by
  unfold ext
  simp only
  generalize hr : path.reverse.takeWhile (fun c => c != '/' && c != '.') = r
  split
  · rename_i rest h
    refine ⟨rest.reverse, ?_⟩
    have h1 : path.reverse = r ++ path.reverse.drop r.length := by
      conv_lhs => rw [← List.takeWhile_append_dropWhile (p := fun c => c != '/' && c != '.') (l := path.reverse)]
      rw [hr]
      congr 1
      have : path.reverse = r ++ path.reverse.dropWhile (fun c => c != '/' && c != '.') := by
        rw [← hr, List.takeWhile_append_dropWhile]
      conv_rhs => rw [this]
      simp
    rw [h] at h1
    have h2 := congrArg List.reverse h1
    rw [List.reverse_reverse] at h2
    rw [h2]
    simp
  · exact ⟨path, by simp⟩

/-- C99: with neither an output nor `-format`, the output lies beside the input, has the same stem and a
different type. Missing: `-format`, see `defaultOutput_false`. -/
theorem defaultOutput_partial (input : Str) :
    ∃ stem, input = stem ++ ext input ∧ (outputOf input [] none).1 = stem ++ (outputOf input [] none).2 ∧
      (outputOf input [] none).2 = (if isMQO (lower (ext input)) then ".glb".toList else ".mqo".toList) ∧
      (outputOf input [] none).1 ≠ input := by
  obtain ⟨stem, hs⟩ := ext_suffix input
  have hl : (lower (ext input)).length = (ext input).length := by simp [lower]
  have ht : input.take (input.length - (lower (ext input)).length) = stem := by
    rw [hl]
    conv_lhs => rw [hs]
    have : (stem ++ ext input).length - (ext (stem ++ ext input)).length = stem.length := by
      rw [← hs]
      have := congrArg List.length hs
      rw [List.length_append] at this
      omega
    rw [this, List.take_left]
  have ho : outputOf input [] none = (stem ++ defaultOutputExt (lower (ext input)), defaultOutputExt (lower (ext input))) := by
    simp only [outputOf, if_true, ht]
  refine ⟨stem, hs, by rw [ho], by rw [ho]; rfl, ?_⟩
  rw [ho]
  intro h
  have h2 : defaultOutputExt (lower (ext input)) = ext input := by
    have h3 : stem ++ defaultOutputExt (lower (ext input)) = stem ++ ext input := h.trans hs
    exact List.append_cancel_left h3
  generalize ext input = e at h2
  unfold defaultOutputExt at h2
  split at h2
  · rename_i hm
    rw [← h2] at hm
    exact absurd hm (by decide)
  · rename_i hm
    rw [← h2] at hm
    exact absurd (by decide) hm

example : outputOf "dir.v2/Miku.PMX".toList [] none = ("dir.v2/Miku.mqo".toList, ".mqo".toList) := by decide +kernel

/-- C99 is false of the code: with `-format` of the type of the input, the input is overwritten. -/
theorem defaultOutput_false (stem : Str) : (outputOf (stem ++ ".mqo".toList) "mqo".toList none).1 = stem ++ ".mqo".toList := by
  have he : ext (stem ++ ".mqo".toList) = ".mqo".toList := by
    simp [ext, List.takeWhile]
  have hl : lower ".mqo".toList = ".mqo".toList := by decide
  simp only [outputOf, he, hl]
  rw [if_neg (by decide)]
  simp

/-! ### C100: changing parents -/

theorem lastNamed_some (bones : List (Bone F)) (n : Str) (i : Nat) (h : lastNamed bones n = some i) :
    ∃ b, bones[i]? = some b ∧ b.name = n := by
  have := List.find?_some h
  cases hb : bones[i]? with
  | none => rw [hb] at this; simp at this
  | some b => rw [hb] at this; exact ⟨b, rfl, by simpa using this⟩

theorem lastNamed_exists (bones : List (Bone F)) (b : Bone F) (hb : b ∈ bones) : ∃ i, lastNamed bones b.name = some i := by
  obtain ⟨i, hi⟩ := List.mem_iff_getElem?.mp hb
  have : (lastNamed bones b.name).isSome = true := by
    rw [lastNamed, List.find?_isSome]
    exact ⟨i, by simp [(List.getElem?_eq_some_iff.mp hi).1], by simp [hi]⟩
  exact Option.isSome_iff_exists.mp this

theorem index_unique (bones : List (Bone F)) (hnd : (bones.map Bone.name).Nodup) (i j : Nat) (a b : Bone F)
    (hi : bones[i]? = some a) (hj : bones[j]? = some b) (h : a.name = b.name) : i = j := by
  have h1 : (bones.map Bone.name)[i]? = some a.name := by simp [hi]
  have h2 : (bones.map Bone.name)[j]? = some a.name := by simp [hj, h]
  exact (List.getElem?_inj (by simpa using (List.getElem?_eq_some_iff.mp hi).1) hnd).mp (h1.trans h2.symm)

/-- C100: where several bones have the name, the last of them gets the id of the last bone with the name of the
parent; all others stay. -/
theorem chparent_last (xs ys us vs : List (Bone F)) (b q : Bone F) (h : xs ++ b :: ys = us ++ q :: vs)
    (hb : ∀ x ∈ ys, x.name ≠ b.name) (hq : ∀ x ∈ vs, x.name ≠ q.name) :
    chparent (xs ++ b :: ys) [(b.name, q.name)] = some (xs ++ { b with parent := q.id } :: ys) := by
  have key : ∀ (xs ys : List (Bone F)) (b : Bone F), (∀ x ∈ ys, x.name ≠ b.name) →
      lastNamed (xs ++ b :: ys) b.name = some xs.length := by
    intro xs ys b hb
    unfold lastNamed
    have hr : List.range (xs ++ b :: ys).length = List.range (xs.length + 1) ++
        (List.range ys.length).map (xs.length + 1 + ·) := by
      rw [← List.range_add]
      congr 1
      simp only [List.length_append, List.length_cons]
      omega
    rw [hr, List.reverse_append, List.find?_append, List.find?_eq_none.mpr, Option.none_or, List.range_succ,
      List.reverse_append]
    · simp
    · intro i hi
      rw [List.mem_reverse, List.mem_map] at hi
      obtain ⟨k, _, rfl⟩ := hi
      rw [List.getElem?_append_right (by omega)]
      rw [show xs.length + 1 + k - xs.length = k + 1 by omega, List.getElem?_cons_succ]
      cases hk : ys[k]? with
      | none => simp
      | some y => simpa using hb y (List.mem_of_getElem? hk)
  have h2 : lastNamed (xs ++ b :: ys) q.name = some us.length := by rw [h]; exact key us vs q hq
  simp only [chparent, key xs ys b hb, h2, Option.bind_some]
  have h3 : (xs ++ b :: ys)[us.length]? = some q := by rw [h]; simp
  rw [h3]
  have hmod : ∀ (f : Bone F → Bone F) (xs : List (Bone F)), (xs ++ b :: ys).modify xs.length f = xs ++ f b :: ys := by
    intro f xs
    induction xs with
    | nil => simp
    | cons x xs ih => simp [ih]
  simp [hmod]

/-- Two bones are called `a`, the last one changes. -/
example : (chparent [⟨1, ['a'], 0, 0, ⟨0, 0, 0⟩, 0, 0, 0, [], none, none, none, [], [], ⟨0, 0, 0⟩⟩,
    ⟨2, ['a'], 0, 0, ⟨0, 0, 0⟩, 0, 0, 0, [], none, none, none, [], [], ⟨0, 0, 0⟩⟩,
    (⟨3, ['p'], 0, 0, ⟨0, 0, 0⟩, 0, 0, 0, [], none, none, none, [], [], ⟨0, 0, 0⟩⟩ : Bone Int)]
    [(['a'], ['p'])]).map (List.map fun b => b.parent) = some [0, 3, 0] := by decide +kernel

/-- C100: bones with distinct names whose new parents all exist get the parent that is named last; everything
else stays. Missing: unknown parents, see `chparent_false`. -/
theorem chparent_partial (maps : List (Str × Str)) : ∀ (bones : List (Bone F)), (bones.map Bone.name).Nodup →
    (∀ m ∈ maps, m.2 ∈ bones.map Bone.name) →
    ∃ res, chparent bones maps = some res ∧ res.length = bones.length ∧
      ∀ (i : Nat) (o : Bone F), bones[i]? = some o → ∃ par : Int, res[i]? = some { o with parent := par } ∧
        ((∀ p, (o.name, p) ∉ maps) → par = o.parent) ∧
        (∀ pre p post q, maps = pre ++ (o.name, p) :: post → (∀ p', (o.name, p') ∉ post) → q ∈ bones → q.name = p → par = q.id) := by
  induction maps with
  | nil =>
    intro bones _ _
    refine ⟨bones, rfl, rfl, fun i o ho => ⟨o.parent, ho, fun _ => rfl, ?_⟩⟩
    intro pre p post q h
    simp at h
  | cons m rest ih =>
    obtain ⟨b, p⟩ := m
    intro bones hnd hex
    rw [chparent]
    have hp := hex (b, p) (by simp)
    rw [List.mem_map] at hp
    obtain ⟨q0, hq0, hq0n⟩ := hp
    obtain ⟨k, hk⟩ := lastNamed_exists bones q0 hq0
    rw [hq0n] at hk
    obtain ⟨q, hq, hqn⟩ := lastNamed_some bones p k hk
    cases hb : lastNamed bones b with
    | none =>
      obtain ⟨res, e1, e2, e3⟩ := ih bones hnd (fun m hm => hex m (by simp [hm]))
      refine ⟨res, e1, e2, fun i o ho => ?_⟩
      have hob : o.name ≠ b := by
        intro h
        obtain ⟨j, hj⟩ := lastNamed_exists bones o (List.mem_of_getElem? ho)
        rw [h, hb] at hj
        simp at hj
      obtain ⟨par, h1, h2, h3⟩ := e3 i o ho
      refine ⟨par, h1, fun h => h2 fun p' hp' => h p' (by simp [hp']), ?_⟩
      intro pre p' post q' h hpost
      cases pre with
      | nil =>
        simp only [List.nil_append, List.cons.injEq, Prod.mk.injEq] at h
        exact absurd h.1.1.symm hob
      | cons x pre =>
        simp only [List.cons_append, List.cons.injEq] at h
        exact h3 pre p' post q' h.2 hpost
    | some j =>
      simp only [hk, Option.bind_some, hq]
      obtain ⟨bj, hbj, hbjn⟩ := lastNamed_some bones b j hb
      have hg : ∀ i : Nat, (bones.modify j fun x => { x with parent := q.id })[i]? =
          bones[i]?.map fun o => if j = i then { o with parent := q.id } else o := by
        intro i
        rw [List.getElem?_modify]
        cases bones[i]? with
        | none => rfl
        | some o => by_cases h : j = i <;> simp [h]
      have hnames : (bones.modify j fun x => { x with parent := q.id }).map Bone.name = bones.map Bone.name := by
        apply List.ext_getElem?
        intro i
        rw [List.getElem?_map, List.getElem?_map, hg, Option.map_map]
        congr 1
        funext o
        simp only [Function.comp]
        split <;> rfl
      obtain ⟨res, e1, e2, e3⟩ := ih (bones.modify j fun x => { x with parent := q.id }) (by rw [hnames]; exact hnd)
        (fun m hm => by rw [hnames]; exact hex m (by simp [hm]))
      refine ⟨res, e1, by rw [e2, List.length_modify], fun i o ho => ?_⟩
      have ho' : (bones.modify j fun x => { x with parent := q.id })[i]? = some (if j = i then { o with parent := q.id } else o) := by
        rw [hg, ho]; rfl
      obtain ⟨par, h1, h2, h3⟩ := e3 i _ ho'
      have hn : (if j = i then { o with parent := q.id } else o).name = o.name := by split <;> rfl
      rw [hn] at h2 h3
      refine ⟨par, ?_, ?_, ?_⟩
      · rw [h1]
        congr 1
        split <;> rfl
      · intro h
        rw [h2 fun p' hp' => h p' (by simp [hp'])]
        have : j ≠ i := by
          rintro rfl
          rw [hbj] at ho
          simp only [Option.some.injEq] at ho
          subst ho
          exact h p (by simp [hbjn])
        rw [if_neg this]
      · intro pre p' post q' h hpost hq' hqn'
        cases pre with
        | nil =>
          simp only [List.nil_append, List.cons.injEq, Prod.mk.injEq] at h
          obtain ⟨⟨rfl, rfl⟩, rfl⟩ := h
          have hji : j = i := index_unique bones hnd j i bj o hbj ho hbjn
          rw [h2 hpost, if_pos hji]
          obtain ⟨k', hk'⟩ := List.mem_iff_getElem?.mp hq'
          have := index_unique bones hnd k k' q q' hq hk' (by rw [hqn, hqn'])
          subst this
          rw [hq] at hk'
          simp only [Option.some.injEq] at hk'
          rw [hk']
        | cons x pre =>
          simp only [List.cons_append, List.cons.injEq] at h
          obtain ⟨k', hk'⟩ := List.mem_iff_getElem?.mp hq'
          have hk2 : (bones.modify j fun x => { x with parent := q.id })[k']? = some (if j = k' then { q' with parent := q.id } else q') := by
            rw [hg, hk']; rfl
          have := h3 pre p' post _ h.2 hpost (List.mem_of_getElem? hk2) (by split <;> exact hqn')
          rw [this]
          split <;> rfl

/-- A bone with an id, a name and a parent. -/
def sampleBone (id : Int) (name : String) (parent : Int) : Bone Int :=
  ⟨id, name.toList, 0, parent, ⟨0, 0, 0⟩, 0, 0, 0, [], none, none, none, [], [], ⟨0, 0, 0⟩⟩

example : (chparent [sampleBone 1 "root" 0, sampleBone 2 "arm" 1, sampleBone 3 "hand" 1]
    [("hand".toList, "arm".toList)]).map (·.map Bone.parent) = some [0, 1, 2] := by decide +kernel

/-- C100 is false of the code: an unknown parent crashes. -/
theorem chparent_false : chparent [sampleBone 1 "arm" 0] [("arm".toList, "body".toList)] = none := by decide +kernel

end Verif.Cmd
