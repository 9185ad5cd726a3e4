import Verif.Gltf.Transform
import Mathlib.Algebra.Order.Field.Rat
import Mathlib.Algebra.Order.Field.Basic
import Mathlib.Tactic.Ring
import Mathlib.Data.List.Induction

/-!
C48: `ApplyTransform` of glTF documents (gltfutil/gltf_utils.go:81-161). C92: the bounds of the accessors.
-/

namespace Verif.Gltf

open Verif.Geom

variable {F : Type}

/-! ### Which accessors are transformed -/

/-- Some primitive has `a` as its positions. -/
def IsPos (ps : List TPrim) (a : Nat) : Prop := ∃ p ∈ ps, p.position = some a

/-- Some primitive has `a` as a morph target. -/
def IsTarget (ps : List TPrim) (a : Nat) : Prop := ∃ p ∈ ps, some a ∈ p.targets

theorem foldl_targets (ts : List (Option Nat)) : ∀ (accs : Nat → Option Bool) (j : Nat),
    ts.foldl (fun accs t => setDiff true t accs) accs j = if some j ∈ ts then some true else accs j := by
  induction ts with
  | nil => intro accs j; simp
  | cons t ts ih =>
    intro accs j
    rw [List.foldl_cons, ih]
    by_cases h1 : some j ∈ ts
    · simp [h1]
    · by_cases h2 : t = some j
      · simp [h2, setDiff]
      · simp [h1, h2, Ne.symm h2, setDiff]

theorem markPrim_get (p : TPrim) (accs : Nat → Option Bool) (j : Nat) :
    markPrim p accs j = if some j ∈ p.targets then some true else if p.position = some j then some false else accs j := by
  unfold markPrim
  rw [foldl_targets]
  rfl

theorem markPrims_append (ps : List TPrim) (p : TPrim) : markPrims (ps ++ [p]) = markPrim p (markPrims ps) := by
  simp [markPrims]

theorem markPrims_get (ps : List TPrim) (j : Nat) :
    (markPrims ps j = none ↔ ¬ IsPos ps j ∧ ¬ IsTarget ps j) ∧
    (markPrims ps j = some false → IsPos ps j) ∧ (markPrims ps j = some true → IsTarget ps j) := by
  induction ps using List.reverseRecOn with
  | nil => simp [markPrims, IsPos, IsTarget]
  | append_singleton ps p ih =>
    rw [markPrims_append, markPrim_get]
    have h1 : IsPos (ps ++ [p]) j ↔ IsPos ps j ∨ p.position = some j := by
      simp [IsPos, or_and_right, exists_or]
    have h2 : IsTarget (ps ++ [p]) j ↔ IsTarget ps j ∨ some j ∈ p.targets := by
      simp [IsTarget, or_and_right, exists_or]
    rw [h1, h2]
    by_cases ht : some j ∈ p.targets
    · simp [ht]
    · by_cases hp : p.position = some j
      · simp [ht, hp]
      · simpa [ht, hp] using ih

section
variable [Zero F] [One F] [Add F] [Mul F] [Neg F] [FloatOps F]

theorem transformAccs_spec (big : F) (m : Mat4 F) (diff : Nat → Option Bool) (as : List Nat) :
    ∀ (accs : List (PAcc F)), as.Nodup → (∀ a ∈ as, a < accs.length) →
      ∃ accs', transformAccs big m diff as accs = some accs' ∧ accs'.length = accs.length ∧
        (∀ j : Nat, j ∉ as → accs'[j]? = accs[j]?) ∧
        (∀ a ∈ as, ∀ acc, accs[a]? = some acc →
          accs'[a]? = some (transformAcc big (if diff a = some true then scaleMat else m) acc)) := by
  induction as with
  | nil => intro accs _ _; exact ⟨accs, rfl, rfl, fun _ _ => rfl, by simp⟩
  | cons a as ih =>
    intro accs hn hl
    have hal := hl a (by simp)
    obtain ⟨hna, hn'⟩ := List.nodup_cons.mp hn
    rw [transformAccs, List.getElem?_eq_getElem hal]
    simp only
    obtain ⟨accs', e, e2, k1, k2⟩ := ih (accs.set a (transformAcc big (if diff a = some true then scaleMat else m) accs[a])) hn'
      (fun x hx => by rw [List.length_set]; exact hl x (by simp [hx]))
    refine ⟨accs', e, by rw [e2, List.length_set], ?_, ?_⟩
    · intro j hj
      simp only [List.mem_cons, not_or] at hj
      rw [k1 j hj.2, List.getElem?_set_ne (Ne.symm hj.1)]
    · intro x hx acc hacc
      rcases List.mem_cons.mp hx with rfl | hx
      · rw [k1 x hna, List.getElem?_set_self hal]
        have : accs[x] = acc := by
          rw [List.getElem?_eq_getElem hal] at hacc
          exact Option.some.inj hacc
        rw [this]
      · have : a ≠ x := by rintro rfl; exact hna hx
        exact k2 x hx acc (by rw [List.getElem?_set_ne this]; exact hacc)

end

/-- An order in which Go may iterate over the map of accessors. -/
def MapOrder (ps : List TPrim) (order : List Nat) : Prop :=
  order.Nodup ∧ ∀ a, a ∈ order ↔ IsPos ps a ∨ IsTarget ps a

theorem scaleMat_applyTo [CommRing F] (v : Vec3 F) : (scaleMat : Mat4 F).applyTo v = v := by
  ext <;> simp [scaleMat, Mat4.one, Mat4.applyTo]

/-- C48, the part the code does: whatever the order of the map, every accessor used for positions (and not
for morph targets) has each position transformed exactly once, even if many primitives share it; accessors
used for nothing of that kind are not touched. Missing: morph targets, nodes and bind matrices, see
`applyTransform_rest_false`. -/
theorem applyTransform_positions_partial [Field F] [FloatOps F] (big : F) (m : Mat4 F) (order : List Nat) (d : TDoc F)
    (ho : MapOrder d.prims order) (hv : ∀ a ∈ order, a < d.accs.length) :
    ∃ d', applyTransform big m order d = some d' ∧ d'.accs.length = d.accs.length ∧
      (∀ (a : Nat) (acc : PAcc F), d.accs[a]? = some acc → IsPos d.prims a → ¬ IsTarget d.prims a →
        ∃ acc', d'.accs[a]? = some acc' ∧ acc'.data = acc.data.map m.applyTo) ∧
      (∀ a : Nat, ¬ IsPos d.prims a → ¬ IsTarget d.prims a → d'.accs[a]? = d.accs[a]?) := by
  obtain ⟨accs', e, e2, k1, k2⟩ := transformAccs_spec big m (markPrims d.prims) order d.accs ho.1 hv
  refine ⟨_, by rw [applyTransform, e]; rfl, e2, ?_, ?_⟩
  · intro a acc ha hp ht
    have hm := k2 a ((ho.2 a).mpr (.inl hp)) acc ha
    rw [if_neg (fun h => ht ((markPrims_get d.prims a).2.2 h))] at hm
    exact ⟨_, hm, rfl⟩
  · intro a hp ht
    exact k1 a (fun h => ((ho.2 a).mp h).elim hp ht)

/-- C48 is false of the code: whatever the matrix, node translations and morph targets keep their size. -/
theorem applyTransform_rest_false [Field F] [FloatOps F] (big : F) (m : Mat4 F) (order : List Nat) (d : TDoc F)
    (ho : MapOrder d.prims order) (hv : ∀ a ∈ order, a < d.accs.length) :
    ∃ d', applyTransform big m order d = some d' ∧ d'.nodes = d.nodes ∧
      (∀ (a : Nat) (acc : PAcc F), d.accs[a]? = some acc → IsTarget d.prims a → ¬ IsPos d.prims a →
        ∃ acc', d'.accs[a]? = some acc' ∧ acc'.data = acc.data) ∧
      (∀ (s : Nat) (bs : List (Mat4 F)), d.skins[s]? = some bs → ∃ bs', d'.skins[s]? = some bs' ∧
        bs'.map (fun b => (b.m12, b.m13, b.m14)) = bs.map (fun b => (b.m12, b.m13, b.m14))) := by
  obtain ⟨accs', e, e2, k1, k2⟩ := transformAccs_spec big m (markPrims d.prims) order d.accs ho.1 hv
  refine ⟨_, by rw [applyTransform, e]; rfl, ?_, ?_, ?_⟩
  · simp [funext scaleMat_applyTo]
  · intro a acc ha ht hp
    have hm := k2 a ((ho.2 a).mpr (.inr ht)) acc ha
    have : markPrims d.prims a = some true := by
      cases h : markPrims d.prims a with
      | none => exact absurd ht ((markPrims_get d.prims a).1.mp h).2
      | some b =>
        cases b with
        | false => exact absurd ((markPrims_get d.prims a).2.1 h) hp
        | true => rfl
    rw [if_pos this] at hm
    exact ⟨_, hm, by simp [transformAcc, funext scaleMat_applyTo]⟩
  · intro s bs hs
    refine ⟨bs.map scaleBind, by simp [hs], ?_⟩
    rw [List.map_map]
    apply List.map_congr_left
    intro b _
    simp [scaleBind, scaleMat, Mat4.one, Mat4.mul]

/-! ### Bounds -/

/-- `lo` is the smallest number in the list. -/
def IsMin [LE F] (lo : F) (l : List F) : Prop := lo ∈ l ∧ ∀ x ∈ l, lo ≤ x

/-- `hi` is the largest number in the list. -/
def IsMax [LE F] (hi : F) (l : List F) : Prop := hi ∈ l ∧ ∀ x ∈ l, x ≤ hi

section
variable [Field F] [LinearOrder F] [IsStrictOrderedRing F] [FloatOps F]

omit [IsStrictOrderedRing F] in
theorem foldl_fmin (hlt : ∀ a b : F, lt a b = decide (a < b)) (l : List F) : ∀ b : F,
    l.foldl fmin b ≤ b ∧ (∀ x ∈ l, l.foldl fmin b ≤ x) ∧ (l.foldl fmin b = b ∨ l.foldl fmin b ∈ l) := by
  induction l with
  | nil => intro b; simp
  | cons y l ih =>
    intro b
    obtain ⟨h1, h2, h3⟩ := ih (fmin b y)
    have hb : fmin b y ≤ b ∧ fmin b y ≤ y ∧ (fmin b y = b ∨ fmin b y = y) := by
      unfold fmin
      rw [hlt]
      by_cases h : y < b
      · simp [h, le_of_lt h]
      · simp [h, not_lt.mp h]
    refine ⟨h1.trans hb.1, ?_, ?_⟩
    · intro x hx
      rcases List.mem_cons.mp hx with rfl | hx
      · exact h1.trans hb.2.1
      · exact h2 x hx
    · rw [List.foldl_cons]
      rcases h3 with h3 | h3
      · rcases hb.2.2 with h | h
        · left; rw [h3, h]
        · right; rw [h3, h]; simp
      · right; simp [h3]

omit [IsStrictOrderedRing F] in
theorem foldl_fmax (hlt : ∀ a b : F, lt a b = decide (a < b)) (l : List F) : ∀ b : F,
    b ≤ l.foldl fmax b ∧ (∀ x ∈ l, x ≤ l.foldl fmax b) ∧ (l.foldl fmax b = b ∨ l.foldl fmax b ∈ l) := by
  induction l with
  | nil => intro b; simp
  | cons y l ih =>
    intro b
    obtain ⟨h1, h2, h3⟩ := ih (fmax b y)
    have hb : b ≤ fmax b y ∧ y ≤ fmax b y ∧ (fmax b y = b ∨ fmax b y = y) := by
      unfold fmax
      rw [hlt]
      by_cases h : b < y
      · simp [h, le_of_lt h]
      · simp [h, not_lt.mp h]
    refine ⟨hb.1.trans h1, ?_, ?_⟩
    · intro x hx
      rcases List.mem_cons.mp hx with rfl | hx
      · exact hb.2.1.trans h1
      · exact h2 x hx
    · rw [List.foldl_cons]
      rcases h3 with h3 | h3
      · rcases hb.2.2 with h | h
        · left; rw [h3, h]
        · right; rw [h3, h]; simp
      · right; simp [h3]

omit [IsStrictOrderedRing F] in
theorem isMin_foldl (hlt : ∀ a b : F, lt a b = decide (a < b)) (big : F) (l : List F) (hne : l ≠ []) (hb : ∀ x ∈ l, x ≤ big) :
    IsMin (l.foldl fmin big) l := by
  obtain ⟨h1, h2, h3⟩ := foldl_fmin hlt l big
  refine ⟨?_, h2⟩
  rcases h3 with h3 | h3
  · cases l with
    | nil => exact absurd rfl hne
    | cons y l =>
      have := h2 y (by simp)
      rw [h3] at this
      rw [h3, le_antisymm this (hb y (by simp))]
      simp
  · exact h3

omit [IsStrictOrderedRing F] in
theorem isMax_foldl (hlt : ∀ a b : F, lt a b = decide (a < b)) (big : F) (l : List F) (hne : l ≠ []) (hb : ∀ x ∈ l, -big ≤ x) :
    IsMax (l.foldl fmax (-big)) l := by
  obtain ⟨h1, h2, h3⟩ := foldl_fmax hlt l (-big)
  refine ⟨?_, h2⟩
  rcases h3 with h3 | h3
  · cases l with
    | nil => exact absurd rfl hne
    | cons y l =>
      have := h2 y (by simp)
      rw [h3] at this
      rw [h3, le_antisymm (hb y (by simp)) this]
      simp
  · exact h3

omit [Field F] [LinearOrder F] [IsStrictOrderedRing F] [FloatOps F] in
theorem foldl_vec (f : F → F → F) (l : List (Vec3 F)) : ∀ b : Vec3 F,
    l.foldl (fun b v => (⟨f b.x v.x, f b.y v.y, f b.z v.z⟩ : Vec3 F)) b =
      ⟨(l.map (·.x)).foldl f b.x, (l.map (·.y)).foldl f b.y, (l.map (·.z)).foldl f b.z⟩ := by
  induction l with
  | nil => intro b; rfl
  | cons v l ih => intro b; rw [List.foldl_cons, ih]; rfl

/-- C92. After a transformation the bounds of every accessor of positions or morph targets are exactly the
smallest and largest components of its elements. `big` is the largest float32. -/
theorem applyTransform_bounds (hlt : ∀ a b : F, lt a b = decide (a < b)) (big : F) (m : Mat4 F) (order : List Nat) (d : TDoc F)
    (ho : MapOrder d.prims order) (hv : ∀ a ∈ order, a < d.accs.length) :
    ∃ d', applyTransform big m order d = some d' ∧
      ∀ (a : Nat) (acc : PAcc F), d'.accs[a]? = some acc → IsPos d.prims a ∨ IsTarget d.prims a → acc.data ≠ [] →
        (∀ v ∈ acc.data, (-big ≤ v.x ∧ v.x ≤ big) ∧ (-big ≤ v.y ∧ v.y ≤ big) ∧ (-big ≤ v.z ∧ v.z ≤ big)) →
        (IsMin acc.min.x (acc.data.map (·.x)) ∧ IsMin acc.min.y (acc.data.map (·.y)) ∧ IsMin acc.min.z (acc.data.map (·.z))) ∧
        (IsMax acc.max.x (acc.data.map (·.x)) ∧ IsMax acc.max.y (acc.data.map (·.y)) ∧ IsMax acc.max.z (acc.data.map (·.z))) := by
  obtain ⟨accs', e, e2, k1, k2⟩ := transformAccs_spec big m (markPrims d.prims) order d.accs ho.1 hv
  refine ⟨_, by rw [applyTransform, e]; rfl, ?_⟩
  intro a acc ha hu hne hb
  simp only at ha
  have hal : a < d.accs.length := by rw [← e2]; exact (List.getElem?_eq_some_iff.mp ha).1
  have hm := k2 a ((ho.2 a).mpr hu) _ (List.getElem?_eq_getElem hal)
  rw [ha] at hm
  have hacc := Option.some.inj hm
  generalize (if markPrims d.prims a = some true then scaleMat else m) = m' at hacc
  have hmin : acc.min = ⟨(acc.data.map (·.x)).foldl fmin big, (acc.data.map (·.y)).foldl fmin big, (acc.data.map (·.z)).foldl fmin big⟩ := by
    rw [hacc]
    simp only [transformAcc]
    exact foldl_vec fmin _ _
  have hmax : acc.max = ⟨(acc.data.map (·.x)).foldl fmax (-big), (acc.data.map (·.y)).foldl fmax (-big), (acc.data.map (·.z)).foldl fmax (-big)⟩ := by
    rw [hacc]
    simp only [transformAcc]
    exact foldl_vec fmax _ _
  rw [hmin, hmax]
  have hx : ∀ (g : Vec3 F → F), acc.data.map g ≠ [] := by simpa using hne
  refine ⟨⟨isMin_foldl hlt big _ (hx _) ?_, isMin_foldl hlt big _ (hx _) ?_, isMin_foldl hlt big _ (hx _) ?_⟩,
    isMax_foldl hlt big _ (hx _) ?_, isMax_foldl hlt big _ (hx _) ?_, isMax_foldl hlt big _ (hx _) ?_⟩
  all_goals
    intro x hx
    obtain ⟨v, hv, rfl⟩ := List.mem_map.mp hx
    have := hb v hv
    simp only [this]

end

section
local instance : FloatOps ℚ := ⟨id, fun a b => decide (a < b), fun a b => decide (a ≤ b)⟩

/-- Two primitives that share their positions, with a morph target. -/
def smallDoc : TDoc ℚ :=
  ⟨[⟨[⟨1, 2, 3⟩, ⟨-1, 0, 4⟩], ⟨0, 0, 0⟩, ⟨0, 0, 0⟩⟩, ⟨[⟨1, 0, 0⟩, ⟨0, 0, 0⟩], ⟨0, 0, 0⟩, ⟨0, 0, 0⟩⟩],
   [⟨some 0, [some 1]⟩, ⟨some 0, [some 1]⟩], [⟨5, 6, 7⟩], []⟩

example : MapOrder smallDoc.prims [1, 0] ∧ ∀ a ∈ [1, 0], a < smallDoc.accs.length := by
  refine ⟨⟨by decide, ?_⟩, by decide⟩
  intro a
  simp only [smallDoc, IsPos, IsTarget, List.mem_cons, List.not_mem_nil, or_false, or_self, exists_eq_left, Option.some.injEq]
  constructor
  · rintro (h | h)
    · exact .inr h
    · exact .inl h.symm
  · rintro (h | h)
    · exact .inr h.symm
    · exact .inl h

/-- Scaling `smallDoc` by two: the positions are scaled, the morph target and the node are not. -/
example : (applyTransform 1000 (Mat4.scaling 2 2 2) [1, 0] smallDoc).map (fun d => (d.accs, d.nodes)) =
    some ([⟨[⟨2, 4, 6⟩, ⟨-2, 0, 8⟩], ⟨-2, 0, 6⟩, ⟨2, 4, 8⟩⟩, ⟨[⟨1, 0, 0⟩, ⟨0, 0, 0⟩], ⟨0, 0, 0⟩, ⟨1, 0, 0⟩⟩], [⟨5, 6, 7⟩]) := by
  decide +kernel
end

end Verif.Gltf
