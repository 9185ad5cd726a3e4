import Verif.Mqo.Core
import Mathlib.Algebra.Group.Basic
import Mathlib.Data.List.Nodup
import Mathlib.Data.List.Induction
import Mathlib.Algebra.Group.TypeTags.Basic
import Mathlib.Algebra.Group.Int.Defs

/-! Properties C20 (`Flip`), C21 (`GetWorldTransforms`), C23 and C66 (`SetVertexWeight`), C24
(`PreSerialize`), C70 (`Clone`). -/

namespace Verif.Mqo

open Verif.Geom

variable {F : Type}

/-! ## C20 -/

theorem swapLoop_spec {α : Type} : ∀ (fuel : Nat) (p m s : List α), m.length < fuel →
    swapLoop fuel p.length (p.length + m.length) (p ++ m ++ s) = some (p ++ m.reverse ++ s) := by
  intro fuel
  induction fuel with
  | zero => intro p m s h; omega
  | succ fuel ih =>
    intro p m s h
    rw [swapLoop]
    cases m with
    | nil => rw [if_neg (by simp)]; simp
    | cons a m =>
      rcases List.eq_nil_or_concat m with rfl | ⟨m', b, rfl⟩
      · simp
      · rw [if_pos (by simp)]
        have e1 : (p ++ (a :: (m' ++ [b])) ++ s)[p.length]? = some a := by simp
        have e2 : (p ++ (a :: (m' ++ [b])) ++ s)[p.length + (a :: (m' ++ [b])).length - 1]? = some b := by
          simp only [List.length_cons, List.length_append, List.length_nil, List.append_assoc]
          rw [List.getElem?_append_right (by omega)]
          simp
        rw [List.concat_eq_append] at *
        rw [e1, e2]
        have e3 : ((p ++ (a :: (m' ++ [b])) ++ s).set p.length b).set
            (p.length + (a :: (m' ++ [b])).length - 1) a = (p ++ [b]) ++ m' ++ (a :: s) := by
          have h1 : (p ++ (a :: (m' ++ [b])) ++ s).set p.length b = (p ++ (b :: m')) ++ (b :: s) := by
            simp
          rw [h1, show p.length + (a :: (m' ++ [b])).length - 1 = (p ++ (b :: m')).length by simp]
          rw [List.set_append_right _ _ (Nat.le_refl _)]
          simp
        simp only [e3]
        have := ih (p ++ [b]) m' (a :: s) (by simp at h; omega)
        rw [show (p ++ [b]).length = p.length + 1 by simp] at this
        rw [show p.length + (a :: (m' ++ [b])).length - 1 = p.length + 1 + m'.length by simp; omega, this]
        simp

theorem swapLoop_reverse {α : Type} (l : List α) : swapLoop (l.length + 1) 0 l.length l = some l.reverse := by
  simpa using swapLoop_spec (l.length + 1) [] l [] (by omega)

/-- C20. `Flip` never fails and reverses corners, texture coordinates and normals alike. -/
theorem flip_reverse (f : Face F) : f.flip = some { f with
    verts := f.verts.reverse, uvs := f.uvs.reverse, normals := f.normals.reverse } := by
  simp [Face.flip, swapLoop_reverse]

/-- C20. Flipping twice gives the face back. -/
theorem flip_flip (f : Face F) : f.flip.bind Face.flip = some f := by
  simp [flip_reverse]

/-- C20. Corners keep their texture coordinates and normals. -/
theorem flip_corners (f f' : Face F) (h : f.flip = some f') (huv : f.uvs.length = f.verts.length)
    (hn : f.normals.length = f.verts.length) :
    f'.verts.zip (f'.uvs.zip f'.normals) = (f.verts.zip (f.uvs.zip f.normals)).reverse := by
  rw [flip_reverse] at h
  cases h
  simp only
  unfold List.zip
  rw [← List.reverse_zipWith (by rw [huv, hn]), ← List.reverse_zipWith (by simp [huv, hn])]

example : ∃ f : Face Nat, f.verts = [4, 7, 9] ∧ f.uvs.length = f.verts.length ∧ f.normals.length = f.verts.length :=
  ⟨⟨0, [4, 7, 9], 0, [⟨0, 0⟩, ⟨1, 0⟩, ⟨1, 1⟩], [none, none, none]⟩, rfl, rfl, rfl⟩

/-! ## C21 -/

/-- The specification: an object without an object of smaller depth before it has its own transform;
otherwise the nearest such object is its parent. -/
def IsWorld {M : Type} [Mul M] (objs : List (Int × M)) (ws : List M) : Prop :=
  ws.length = objs.length ∧ ∀ (i : Nat) (d : Int) (m : M), objs[i]? = some (d, m) →
    ((∀ j < i, ∀ o, objs[j]? = some o → ¬ o.1 < d) ∧ ws[i]? = some m) ∨
    (∃ j < i, ∃ o w, objs[j]? = some o ∧ o.1 < d ∧ ws[j]? = some w ∧
      (∀ k, j < k → k < i → ∀ o', objs[k]? = some o' → ¬ o'.1 < d) ∧ ws[i]? = some (w * m))

theorem popStack_ne {M : Type} (d : Int) (s : List (Int × M)) (h : s ≠ []) : popStack d s ≠ [] := by
  induction s with
  | nil => exact (h rfl).elim
  | cons top s ih =>
    cases s with
    | nil => simp [popStack]
    | cons below rest =>
      rw [popStack]
      split_ifs
      · exact ih (by simp)
      · simp

theorem worldLoop_total {M : Type} (mul : M → M → M) (objs : List (Int × M)) : ∀ s, s ≠ [] →
    ∃ ws, worldLoop mul s objs = some ws ∧ ws.length = objs.length := by
  induction objs with
  | nil => intro s _; exact ⟨[], rfl, rfl⟩
  | cons o objs ih =>
    intro s hs
    obtain ⟨d, m⟩ := o
    have := popStack_ne d s hs
    rw [worldLoop]
    cases hp : popStack d s with
    | nil => exact (this hp).elim
    | cons top st =>
      obtain ⟨ws, h1, h2⟩ := ih ((d, mul top.2 m) :: top :: st) (by simp)
      exact ⟨mul top.2 m :: ws, by simp [h1], by simp [h2]⟩

/-- The code, on objects that all have one depth: no parents. -/
theorem worldLoop_flat {M : Type} [Monoid M] (d : Int) (pre : List M) (rest : List (Int × M)) :
    ∀ (t : M) (b : Int), worldLoop (· * ·) [(d, t), (b, 1)] (pre.map (d, ·) ++ rest) =
      (worldLoop (· * ·) [(d, pre.getLast?.getD t), (b, 1)] rest).map (pre ++ ·) := by
  induction pre with
  | nil => intro t b; simp
  | cons m pre ih =>
    intro t b
    have hp : popStack d [(d, t), (b, (1 : M))] = [(b, 1)] := by
      rw [popStack, if_pos (by simp)]; rfl
    simp only [List.map_cons, List.cons_append, worldLoop, hp, one_mul]
    rw [ih m b, Option.map_map]
    have : (m :: pre).getLast?.getD t = pre.getLast?.getD m := by
      cases pre <;> simp [List.getLast?_cons]
    rw [this]
    rfl

theorem worldTransforms_flat_prefix {M : Type} [Monoid M] (d : Int) (m : M) (pre : List M) (rest : List (Int × M)) :
    worldTransforms (· * ·) 1 (((m :: pre).map (d, ·)) ++ rest) =
      (worldLoop (· * ·) [(d, pre.getLast?.getD m), (-1, 1)] rest).map ((m :: pre) ++ ·) := by
  unfold worldTransforms
  have hp : popStack d [(-1, (1 : M))] = [(-1, 1)] := rfl
  simp only [List.map_cons, List.cons_append, worldLoop, hp, one_mul]
  rw [worldLoop_flat, Option.map_map]
  rfl

/-- C21 is false for every document with a hierarchy: the first object whose depth differs from the
ones before gets a wrong transform. If it is deeper it lacks its parent's transform, if it is less deep
it gets the transform of the object before it. (The hypothesis on `m` excludes the case where the
missing or superfluous factor happens to have no effect.) -/
theorem worldTransforms_false {M : Type} [Monoid M] (pre : List M) (p : M) (d e : Int) (m : M)
    (rest : List (Int × M)) (hde : d ≠ e) (hm : p * m ≠ m) :
    ¬ ∃ ws, worldTransforms (· * ·) 1 ((pre ++ [p]).map (d, ·) ++ (e, m) :: rest) = some ws ∧
      IsWorld ((pre ++ [p]).map (d, ·) ++ (e, m) :: rest) ws := by
  rintro ⟨ws, h1, hlen, h2⟩
  have hget : ((pre ++ [p]).map (d, ·) ++ (e, m) :: rest)[pre.length + 1]? = some (e, m) := by
    rw [List.getElem?_append_right (by simp)]; simp
  have hpre : ∀ j ≤ pre.length, ∃ q, ((pre ++ [p]).map (d, ·) ++ (e, m) :: rest)[j]? = some (d, q) := by
    intro j hj
    rw [List.getElem?_append_left (by simp; omega), List.getElem?_map,
      List.getElem?_eq_getElem (by simp; omega)]
    exact ⟨_, rfl⟩
  have hws : ∃ w', ws = (pre ++ [p]) ++ (if d ≤ e then m else p * m) :: w' := by
    have hc : ∃ q qs, pre ++ [p] = q :: qs ∧ qs.getLast?.getD q = p := by
      cases pre with
      | nil => exact ⟨p, [], rfl, rfl⟩
      | cons q qs => exact ⟨q, qs ++ [p], rfl, by simp⟩
    obtain ⟨q, qs, hq, hl⟩ := hc
    rw [hq, worldTransforms_flat_prefix, hl, worldLoop] at h1
    by_cases hle : d ≤ e
    · have hp : popStack e [(d, p), (-1, (1 : M))] = [(-1, 1)] := by
        rw [popStack, if_pos hle]; rfl
      rw [hp] at h1
      simp only [one_mul, Option.map_map] at h1
      obtain ⟨w', -, h3⟩ := Option.map_eq_some_iff.1 h1
      exact ⟨w', by rw [if_pos hle, hq, ← h3]; rfl⟩
    · have hp : popStack e [(d, p), (-1, (1 : M))] = [(d, p), (-1, 1)] := by
        rw [popStack, if_neg hle]
      rw [hp] at h1
      simp only [Option.map_map] at h1
      obtain ⟨w', -, h3⟩ := Option.map_eq_some_iff.1 h1
      exact ⟨w', by rw [if_neg hle, hq, ← h3]; rfl⟩
  obtain ⟨w', rfl⟩ := hws
  have hw : ((pre ++ [p]) ++ (if d ≤ e then m else p * m) :: w')[pre.length + 1]? =
      some (if d ≤ e then m else p * m) := by
    rw [List.getElem?_append_right (by simp)]; simp
  have hwp : ((pre ++ [p]) ++ (if d ≤ e then m else p * m) :: w')[pre.length]? = some p := by simp
  rcases h2 (pre.length + 1) e m hget with ⟨h3, h4⟩ | ⟨j, hj, o, w, h3, h4, h5, h6, h7⟩
  · rw [hw] at h4
    obtain ⟨q, hq⟩ := hpre pre.length (Nat.le_refl _)
    have := h3 pre.length (by omega) _ hq
    simp only at this
    rw [if_neg (by omega)] at h4
    exact hm (Option.some.inj h4)
  · obtain ⟨q, hq⟩ := hpre j (by omega)
    rw [h3] at hq
    cases hq
    simp only at h4
    rw [hw, if_pos (by omega)] at h7
    have hjl : j = pre.length := by
      by_contra hne
      obtain ⟨q', hq'⟩ := hpre pre.length (Nat.le_refl _)
      exact h6 pre.length (by omega) (by omega) _ hq' h4
    subst hjl
    rw [hwp] at h5
    cases h5
    exact hm (Option.some.inj h7).symm

/-- C21, the part that holds: the call never fails, and in a document whose objects all have the same
depth every object has its own transform, as it should. Missing: documents with a hierarchy, for which
it is false. -/
theorem worldTransforms_flat_partial {M : Type} [Monoid M] (d : Int) (ms : List M) :
    worldTransforms (· * ·) 1 (ms.map (d, ·)) = some ms ∧ IsWorld (ms.map (d, ·)) ms := by
  constructor
  · cases ms with
    | nil => rfl
    | cons m ms =>
      have := worldTransforms_flat_prefix d m ms []
      rw [List.append_nil] at this
      rw [this]
      simp [worldLoop]
  · refine ⟨by simp, fun i e m h => Or.inl ⟨fun j hj o ho => ?_, ?_⟩⟩
    · rw [List.getElem?_map] at h ho
      obtain ⟨a, -, ha⟩ := Option.map_eq_some_iff.1 h
      obtain ⟨b, -, hb⟩ := Option.map_eq_some_iff.1 ho
      cases ha
      cases hb
      simp
    · rw [List.getElem?_map] at h
      obtain ⟨a, h1, ha⟩ := Option.map_eq_some_iff.1 h
      cases ha
      exact h1

theorem worldTransforms_total {M : Type} (mul : M → M → M) (one : M) (objs : List (Int × M)) :
    ∃ ws, worldTransforms mul one objs = some ws ∧ ws.length = objs.length :=
  worldLoop_total mul objs _ (by simp)

/-- A parent with a child, with translations along an axis as transforms. -/
example : ¬ ∃ ws, worldTransforms (· * ·) 1 ([(0, Multiplicative.ofAdd (1 : Int)), (1, Multiplicative.ofAdd 5)]) = some ws ∧
    IsWorld [(0, Multiplicative.ofAdd (1 : Int)), (1, Multiplicative.ofAdd 5)] ws :=
  worldTransforms_false [] (Multiplicative.ofAdd (1 : Int)) 0 1 (Multiplicative.ofAdd 5) [] (by decide) (by decide)

/-! ## C23 -/

/-- One call of `SetVertexWeight`. -/
abbrev WeightCall (F : Type) := Int × Int × F

def setWeights (b : Bone F) (calls : List (WeightCall F)) : Bone F :=
  calls.foldl (fun b c => b.setVertexWeight c.1 c.2.1 c.2.2) b

/-- The weights of a bone after a sequence of calls on a new bone. -/
structure WeightInv (b : Bone F) (calls : List (WeightCall F)) : Prop where
  nodup : (b.weights.map WeightGroup.objectID).Nodup
  map : ∀ id i, b.weightMap.lookup id = some i ↔ (b.weights.map WeightGroup.objectID)[i]? = some id
  group : ∀ g ∈ b.weights, g.vertexes =
    (calls.filter fun c => c.1 = g.objectID).map fun c => ⟨c.2.1, c.2.2⟩
  mem : ∀ id, id ∈ b.weights.map WeightGroup.objectID ↔ ∃ c ∈ calls, c.1 = id

theorem weightInv_step (b : Bone F) (calls : List (WeightCall F)) (h : WeightInv b calls) (c : WeightCall F) :
    WeightInv (b.setVertexWeight c.1 c.2.1 c.2.2) (calls ++ [c]) := by
  obtain ⟨id, v, w⟩ := c
  unfold Bone.setVertexWeight
  cases hl : b.weightMap.lookup id with
  | some i =>
    have hi := (h.map id i).1 hl
    rw [List.getElem?_map] at hi
    obtain ⟨g, hg, hgid⟩ := Option.map_eq_some_iff.1 hi
    have hids : (b.weights.modify i fun g => { g with vertexes := g.vertexes ++ [⟨v, w⟩] }).map WeightGroup.objectID =
        b.weights.map WeightGroup.objectID := by
      apply List.ext_getElem?
      intro j
      simp only [List.getElem?_map, List.getElem?_modify]
      cases b.weights[j]? with
      | none => rfl
      | some a => simp only [Option.map_some]; split_ifs <;> rfl
    refine ⟨by simpa [hids] using h.nodup, by simpa [hids] using h.map, ?_, ?_⟩
    · intro g' hg'
      obtain ⟨j, hj⟩ := List.mem_iff_getElem?.1 hg'
      rw [List.getElem?_modify] at hj
      obtain ⟨a, ha, hae⟩ := Option.map_eq_some_iff.1 hj
      have hga := h.group a (List.mem_iff_getElem?.2 ⟨j, ha⟩)
      by_cases hij : i = j
      · subst hij
        rw [hg] at ha
        cases ha
        rw [if_pos rfl] at hae
        subst hae
        simp [List.filter_append, hga, hgid]
      · rw [if_neg hij] at hae
        subst hae
        have hne : id ≠ a.objectID := by
          intro he
          have e1 : (b.weights.map WeightGroup.objectID)[i]? = some id := (h.map id i).1 hl
          have e2 : (b.weights.map WeightGroup.objectID)[j]? = some id := by
            rw [List.getElem?_map, ha, he]; rfl
          exact hij ((List.getElem?_inj (List.getElem?_eq_some_iff.1 e1).1 h.nodup).1 (e1.trans e2.symm))
        simpa [List.filter_append, hne] using hga
    · intro id'
      rw [show (_ : List Int) = b.weights.map WeightGroup.objectID from hids, h.mem]
      constructor
      · rintro ⟨c, hc, rfl⟩; exact ⟨c, by simp [hc], rfl⟩
      · rintro ⟨c, hc, rfl⟩
        rcases List.mem_append.1 hc with hc | hc
        · exact ⟨c, hc, rfl⟩
        · have : c = (id, v, w) := by simpa using hc
          subst this
          exact (h.mem id).1 (List.mem_iff_getElem?.2 ⟨i, (h.map id i).1 hl⟩)
  | none =>
    have hnew : id ∉ b.weights.map WeightGroup.objectID := by
      intro hm
      obtain ⟨i, hi⟩ := List.mem_iff_getElem?.1 hm
      rw [(h.map id i).2 hi] at hl
      cases hl
    have hnc : ∀ c ∈ calls, c.1 ≠ id := fun c hc he => hnew ((h.mem id).2 ⟨c, hc, he⟩)
    refine ⟨?_, ?_, ?_, ?_⟩
    · simp only [List.map_append, List.map_cons, List.map_nil]
      rw [List.nodup_append]
      exact ⟨h.nodup, by simp, fun a ha b hb hab => hnew (by simp_all)⟩
    · intro id' i
      simp only [List.lookup_cons, List.map_append, List.map_cons, List.map_nil]
      by_cases he : id' = id
      · subst he
        simp only [beq_self_eq_true]
        constructor
        · intro h1
          cases h1
          rw [List.getElem?_append_right (by simp)]
          simp
        · intro h1
          by_cases hlt : i < (b.weights.map WeightGroup.objectID).length
          · rw [List.getElem?_append_left hlt] at h1
            exact (hnew (List.mem_iff_getElem?.2 ⟨i, h1⟩)).elim
          · have hlt2 := (List.getElem?_eq_some_iff.1 h1).1
            simp at hlt hlt2
            congr 1
            omega
      · have hb : (id' == id) = false := by simpa using he
        simp only [hb]
        rw [h.map]
        constructor
        · intro h1
          rw [List.getElem?_append_left (List.getElem?_eq_some_iff.1 h1).1]
          exact h1
        · intro h1
          by_cases hlt : i < (b.weights.map WeightGroup.objectID).length
          · rwa [List.getElem?_append_left hlt] at h1
          · rw [List.getElem?_append_right (by omega)] at h1
            have := List.mem_iff_getElem?.2 ⟨_, h1⟩
            simp at this
            exact (he this).elim
    · intro g hg
      rcases List.mem_append.1 hg with hg | hg
      · have : id ≠ g.objectID := fun he => hnew (he ▸ List.mem_map_of_mem hg)
        simpa [List.filter_append, this] using h.group g hg
      · have : g = ⟨id, [⟨v, w⟩]⟩ := by simpa using hg
        subst this
        have : calls.filter (fun c => c.1 = id) = [] := by
          rw [List.filter_eq_nil_iff]; intro c hc; simpa using hnc c hc
        simp [List.filter_append, this]
    · intro id'
      simp only [List.map_append, List.map_cons, List.map_nil, List.mem_append, h.mem, List.mem_singleton]
      constructor
      · rintro (⟨c, hc, rfl⟩ | rfl)
        · exact ⟨c, Or.inl hc, rfl⟩
        · exact ⟨(id', v, w), Or.inr rfl, rfl⟩
      · rintro ⟨c, hc | rfl, rfl⟩
        · exact Or.inl ⟨c, hc, rfl⟩
        · exact Or.inr rfl

/-- C23. On a new bone, after any sequence of calls: no two groups for one object; an object has a
group iff some call named it; and its group holds exactly the vertices and weights of the calls for
that object, in the order of the calls. -/
theorem setVertexWeight_spec (b : Bone F) (hw : b.weights = []) (hm : b.weightMap = []) (calls : List (WeightCall F)) :
    ((setWeights b calls).weights.map WeightGroup.objectID).Nodup ∧
    (∀ id, id ∈ (setWeights b calls).weights.map WeightGroup.objectID ↔ ∃ c ∈ calls, c.1 = id) ∧
    (∀ g ∈ (setWeights b calls).weights, g.vertexes =
      (calls.filter fun c => c.1 = g.objectID).map fun c => ⟨c.2.1, c.2.2⟩) := by
  have : WeightInv (setWeights b calls) calls := by
    induction calls using List.reverseRecOn with
    | nil => exact ⟨by simp [setWeights, hw], by simp [setWeights, hw, hm], by simp [setWeights, hw], by simp [setWeights, hw]⟩
    | append_singleton calls c ih =>
      rw [setWeights, List.foldl_append, List.foldl_cons, List.foldl_nil]
      exact weightInv_step _ _ ih c
  exact ⟨this.nodup, this.mem, this.group⟩

/-- C23. One call adds one entry at the end of the group of its object and leaves all other groups and
all other fields of the bone alone. -/
theorem setVertexWeight_others (b : Bone F) (id v : Int) (w : F) :
    let b' := b.setVertexWeight id v w
    { b' with weights := b.weights, weightMap := b.weightMap } = b ∧
    (b'.weights = b.weights ++ [⟨id, [⟨v, w⟩]⟩] ∨
      ∃ i, b.weightMap.lookup id = some i ∧
        b'.weights = b.weights.modify i fun g => { g with vertexes := g.vertexes ++ [⟨v, w⟩] }) := by
  intro b'
  simp only [b']
  unfold Bone.setVertexWeight
  cases hl : b.weightMap.lookup id with
  | some i => exact ⟨rfl, Or.inr ⟨i, rfl, rfl⟩⟩
  | none => exact ⟨rfl, Or.inl rfl⟩

def sampleBone : Bone Nat :=
  ⟨1, [], 0, 0, ⟨0, 0, 0⟩, 0, 0, 0, [], none, none, none, [], [], ⟨0, 0, 0⟩⟩

example : (setWeights sampleBone [(1, 10, 50), (2, 20, 100), (1, 11, 60)]).weights =
    [⟨1, [⟨10, 50⟩, ⟨11, 60⟩]⟩, ⟨2, [⟨20, 100⟩]⟩] := by decide

/-- C66 is false: on a bone that was read from a file (it has weight groups, but the look-up map is
empty), setting a weight for an object that has a group makes a second group for that object. -/
theorem setVertexWeight_loaded_false (b : Bone F) (hm : b.weightMap = []) (id v : Int) (w : F)
    (h : id ∈ b.weights.map WeightGroup.objectID) :
    ¬ ((b.setVertexWeight id v w).weights.map WeightGroup.objectID).Nodup := by
  have : b.setVertexWeight id v w = { b with
      weights := b.weights ++ [⟨id, [⟨v, w⟩]⟩], weightMap := [(id, b.weights.length)] } := by
    simp [Bone.setVertexWeight, hm]
  rw [this]
  simp only [List.map_append, List.map_cons, List.map_nil]
  intro hn
  rw [List.nodup_append] at hn
  exact hn.2.2 id h id (by simp) rfl

/-- C66, the part that holds: the new entry is stored in any case. Missing: that the object keeps a
single group, which is false. -/
theorem setVertexWeight_loaded_partial (b : Bone F) (hm : b.weightMap = []) (id v : Int) (w : F) :
    (b.setVertexWeight id v w).weights = b.weights ++ [⟨id, [⟨v, w⟩]⟩] := by
  simp [Bone.setVertexWeight, hm]

example : ∃ b : Bone Nat, b.weightMap = [] ∧ 5 ∈ b.weights.map WeightGroup.objectID :=
  ⟨{ sampleBone with weights := [⟨5, [⟨1, 100⟩]⟩] }, rfl, by decide⟩

/-! ## C24 -/

theorem preSerialize_objIDs (p : BonePlugin F) (os : List (Object F)) :
    (p.preSerialize os).objIDs os = p.objIDs os := rfl

/-- C24 is false whenever there is anything to list: the second call lists every object once more. -/
theorem preSerialize_twice_false (p : BonePlugin F) (os : List (Object F)) :
    (p.preSerialize os).preSerialize os = p.preSerialize os ↔ p.objIDs os = [] := by
  constructor
  · intro h
    have := congrArg BonePlugin.obj h
    simp only [BonePlugin.preSerialize] at this
    exact List.append_right_eq_self.1 this
  · intro h
    have h2 : ((p.preSerialize os).objIDs os) = [] := h
    unfold BonePlugin.preSerialize at h2 ⊢
    simp only at h2 ⊢
    rw [h2, List.append_nil]

/-- C24, the part that holds: on a plugin that was not serialised before, the list is exactly the ids
of the objects some bone has weights for, in the order of the objects; bones are not touched.
Missing: idempotence, which is false. -/
theorem preSerialize_once_partial (p : BonePlugin F) (os : List (Object F)) (h : p.obj = []) :
    (p.preSerialize os).obj = (os.mapIdx fun i o => if o.uid ≤ 0 then (i : Int) + 1 else o.uid).filter
      (fun id => (∃ b ∈ p.bones, ∃ g ∈ b.weights, g.objectID = id) ∨ (∃ b ∈ p.boneSet, id ∈ b.weightObjects)) ∧
    (p.preSerialize os).bones = p.bones ∧ (p.preSerialize os).boneSet = p.boneSet := by
  refine ⟨?_, rfl, rfl⟩
  simp only [BonePlugin.preSerialize, h, List.nil_append, BonePlugin.objIDs]
  congr 1
  funext id
  simp [BonePlugin.weightedObjects, List.mem_flatMap]

def blankObject : Object Nat :=
  ⟨0, [], [], [], true, false, 0, false, 1, 0, 0, 0, 0, 0, none, none, none, none, [], none⟩

/-- A plugin whose list grows. -/
example : ∃ (p : BonePlugin Nat) (os : List (Object Nat)), p.obj = [] ∧
    (p.preSerialize os).obj = [3] ∧ ((p.preSerialize os).preSerialize os).obj = [3, 3] :=
  ⟨⟨[], [], [{ sampleBone with weights := [⟨3, [⟨1, 100⟩]⟩] }], []⟩, [{ blankObject with uid := 3 }], rfl, by decide, by decide⟩

/-! ## C70 -/

/-- C70 is false: a copy loses the normals and ids of its faces. -/
theorem clone_false (o : Object F) :
    o.clone = o ↔ ∀ f ∈ o.faces, f.uid = 0 ∧ f.normals = [] := by
  constructor
  · intro h f hf
    have h2 : o.faces.map (fun f => (⟨0, f.verts, f.material, f.uvs, []⟩ : Face F)) = o.faces := congrArg Object.faces h
    obtain ⟨i, hi⟩ := List.mem_iff_getElem?.1 hf
    have h3 := congrArg (fun l => l[i]?) h2
    simp only [List.getElem?_map, hi, Option.map_some, Option.some.injEq] at h3
    rw [← h3]
    exact ⟨rfl, rfl⟩
  · intro h
    have h2 : o.faces.map (fun f => (⟨0, f.verts, f.material, f.uvs, []⟩ : Face F)) = o.faces := by
      conv_rhs => rw [← List.map_id o.faces]
      apply List.map_congr_left
      intro f hf
      obtain ⟨h3, h4⟩ := h f hf
      obtain ⟨u, v, m, uv, n⟩ := f
      simp only at h3 h4
      subst h3 h4
      rfl
    unfold Object.clone
    rw [h2]

/-- C70, the part that holds: everything except normals and ids of faces is copied. Missing: those. -/
theorem clone_partial (o : Object F) :
    { o.clone with faces := o.faces } = o ∧
    o.clone.faces.map (fun f => (f.verts, f.material, f.uvs)) = o.faces.map fun f => (f.verts, f.material, f.uvs) := by
  refine ⟨rfl, ?_⟩
  simp [Object.clone]

example : ∃ o : Object Nat, o.clone ≠ o ∧ o.clone.faces.length = 1 :=
  ⟨{ blankObject with faces := [⟨0, [0], 0, [], [some ⟨0, 0, 1⟩]⟩] }, by decide, rfl⟩

end Verif.Mqo
