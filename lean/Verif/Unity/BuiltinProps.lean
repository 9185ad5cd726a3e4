import Verif.Unity.Builtin
import Mathlib.Analysis.SpecialFunctions.Trigonometric.Basic
import Mathlib.Tactic.Ring
import Mathlib.Tactic.NormNum
import Mathlib.Tactic.Linarith
import Mathlib.Tactic.IntervalCases
import Mathlib.Data.List.Rotate

/-!
C56, C97, C98: the built-in meshes (unity/unity_builtin.go).
-/

namespace Verif.Unity
open Verif.Geom

variable {F : Type} [Field F]

/-- Every corner is a vertex, no face has a vertex twice or less than three corners, every corner has texture
coordinates. -/
structure Mesh.Valid (m : Mesh F) : Prop where
  range : ∀ f ∈ m.faces, ∀ i ∈ f, 0 ≤ i ∧ i < m.vs.length
  nodup : ∀ f ∈ m.faces, f.Nodup ∧ 3 ≤ f.length
  uvs : List.Forall₂ (fun f u => f.length = u.length) m.faces m.uvs

/-- The directed edges of a face. -/
def faceEdges (f : List Int) : List (Int × Int) := f.zip (f.rotate 1)

/-- Every edge is used in one direction as often as in the other: the surface is closed and consistently
oriented. -/
def Mesh.Closed (m : Mesh F) : Prop :=
  ∀ a b : Int, (m.faces.flatMap faceEdges).count (a, b) = (m.faces.flatMap faceEdges).count (b, a)

/-! ### Sizes -/

theorem mem_span {t b i : Nat} : i ∈ span t b ↔ t ≤ i ∧ i < b := by
  simp only [span, List.mem_map, List.mem_range]
  constructor
  · rintro ⟨k, hk, rfl⟩; omega
  · rintro ⟨h1, h2⟩; exact ⟨i - t, by omega, by omega⟩

theorem row_length (T : Trig F) (sh sv i : Nat) :
    (sphereRow T sh sv i).length = if i = 0 ∨ i = sv then 1 else sh := by
  unfold sphereRow
  split
  · simp [*]
  · split
    · simp [*]
    · simp [*]

theorem sum_const (f : Nat → Nat) (c : Nat) : ∀ n : Nat, (∀ k < n, f k = c) → ((List.range n).map f).sum = n * c := by
  intro n
  induction n with
  | zero => simp
  | succ n ih =>
    intro h
    rw [List.range_succ, List.map_append, List.sum_append, ih (fun k hk => h k (by omega))]
    simp [h n (by omega)]
    ring

theorem sphere_length (T : Trig F) (sh sv : Nat) (hv : 1 ≤ sv) :
    (sphere T sh sv).vs.length = (sv - 1) * sh + 2 := by
  obtain ⟨n, rfl⟩ : ∃ n, sv = n + 1 := ⟨sv - 1, by omega⟩
  simp only [sphere, sphereInternal, List.length_flatMap, span, Nat.sub_zero, Nat.zero_add, List.map_id']
  have : (fun i => (sphereRow T sh (n + 1) i).length) = fun i => if i = 0 ∨ i = n + 1 then 1 else sh := by
    funext i
    exact row_length T sh (n + 1) i
  rw [this, List.range_succ, List.map_append, List.sum_append, List.range_succ_eq_map, List.map_cons, List.sum_cons,
    List.map_map, sum_const _ sh n]
  · simp
    omega
  · intro k hk
    simp
    omega

theorem capsule_length (T : Trig F) (s : Nat) : (capsule T s).vs.length = 8 * s + 2 := by
  simp only [capsule, sphereInternal, lift, List.length_append, List.length_map, List.length_flatMap, row_length]
  simp [span, List.range_succ]
  omega

theorem cap_length (T : Trig F) (s : Nat) : (sphereInternal T s 8 0 4 0).vs.length = 4 * s + 1 := by
  simp only [sphereInternal, List.length_flatMap, row_length]
  simp [span, List.range_succ]
  omega

theorem cylinder_length (T : Trig F) (s : Nat) : (cylinder T s).vs.length = 2 * s := by
  simp only [cylinder, List.length_flatMap, List.length_cons, List.length_nil]
  rw [sum_const _ 2 s (fun _ _ => rfl)]
  omega

/-! ### Faces -/

theorem forall₂_map_same {α β γ : Type} (R : β → γ → Prop) (f : α → β) (g : α → γ) (l : List α) (h : ∀ a, R (f a) (g a)) :
    List.Forall₂ R (l.map f) (l.map g) := by
  induction l with
  | nil => exact .nil
  | cons a l ih => exact .cons (h a) ih

theorem forall₂_flatMap_same {α β γ : Type} (R : β → γ → Prop) (f : α → List β) (g : α → List γ) (l : List α)
    (h : ∀ a, List.Forall₂ R (f a) (g a)) : List.Forall₂ R (l.flatMap f) (l.flatMap g) := by
  induction l with
  | nil => exact .nil
  | cons a l ih =>
    simp only [List.flatMap_cons]
    exact List.rel_append (h a) ih

theorem internal_uvs (T : Trig F) (sh sv t b : Nat) (v : Int) :
    List.Forall₂ (fun f u => f.length = u.length) (sphereInternal T sh sv t b v).faces (sphereInternal T sh sv t b v).uvs := by
  refine forall₂_flatMap_same _ _ _ _ fun i => forall₂_map_same _ _ _ _ fun j => ?_
  simp only [sphereFace, sphereUV]
  split
  · rfl
  · split <;> rfl

theorem next_ne (s j : Nat) (hs : 2 ≤ s) (hj : j < s) : (j + 1) % s ≠ j ∧ (j + 1) % s < s := by
  refine ⟨?_, Nat.mod_lt _ (by omega)⟩
  by_cases h : j + 1 = s
  · rw [h, Nat.mod_self]; omega
  · rw [Nat.mod_eq_of_lt (by omega)]; omega

/-- A face of row `i` only uses the rings it lies between. -/
theorem sphereFace_ok (sh sv : Nat) (ofs : Int) (i j : Nat) (hs : 2 ≤ sh) (hj : j < sh) :
    (sphereFace sh sv ofs i j).Nodup ∧ 3 ≤ (sphereFace sh sv ofs i j).length ∧
    ∀ x ∈ sphereFace sh sv ofs i j,
      (i = 0 ∧ x = ofs - 1) ∨
      (i ≠ 0 ∧ ((i : Int) - 1) * sh + ofs ≤ x ∧ x < (i : Int) * sh + ofs) ∨
      ((i = 0 ∨ (i : Int) ≠ (sv : Int) - 1) ∧ (i : Int) * sh + ofs ≤ x ∧ x < (i : Int) * sh + sh + ofs) ∨
      (i ≠ 0 ∧ (i : Int) = (sv : Int) - 1 ∧ x = (i : Int) * sh + ofs) := by
  obtain ⟨n1, n2⟩ := next_ne sh j hs hj
  generalize hj2 : (j + 1) % sh = j2 at n1 n2
  have e : ((i : Int) - 1) * sh = (i : Int) * sh - sh := by ring
  simp only [sphereFace, hj2, e]
  have hij : (0 : Int) ≤ (i : Int) * sh := by positivity
  generalize (i : Int) * sh = A at hij
  split
  · rename_i h0
    refine ⟨?_, by simp, ?_⟩
    · simp only [List.nodup_cons, List.mem_cons, List.not_mem_nil, or_false, not_or, List.nodup_nil, not_false_eq_true, and_true]
      omega
    · intro x hx
      simp only [List.mem_cons, List.not_mem_nil, or_false] at hx
      omega
  · split
    · refine ⟨?_, by simp, ?_⟩
      · simp only [List.nodup_cons, List.mem_cons, List.not_mem_nil, or_false, not_or, List.nodup_nil, not_false_eq_true, and_true]
        omega
      · intro x hx
        simp only [List.mem_cons, List.not_mem_nil, or_false] at hx
        omega
    · refine ⟨?_, by simp, ?_⟩
      · simp only [List.nodup_cons, List.mem_cons, List.not_mem_nil, or_false, not_or, List.nodup_nil, not_false_eq_true, and_true]
        omega
      · intro x hx
        simp only [List.mem_cons, List.not_mem_nil, or_false] at hx
        omega

theorem internal_nodup (T : Trig F) (sh sv t b : Nat) (v : Int) (hs : 2 ≤ sh) :
    ∀ f ∈ (sphereInternal T sh sv t b v).faces, f.Nodup ∧ 3 ≤ f.length := by
  intro f hf
  simp only [sphereInternal, List.mem_flatMap, List.mem_map, List.mem_range] at hf
  obtain ⟨i, _, j, hj, rfl⟩ := hf
  exact ⟨(sphereFace_ok sh sv _ i j hs hj).1, (sphereFace_ok sh sv _ i j hs hj).2.1⟩

/-- C56: spheres. -/
theorem sphere_valid (T : Trig F) (sh sv : Nat) (hs : 2 ≤ sh) (hv : 2 ≤ sv) : (sphere T sh sv).Valid := by
  refine ⟨?_, internal_nodup T sh sv 0 sv 0 hs, internal_uvs T sh sv 0 sv 0⟩
  intro f hf x hx
  rw [sphere_length T sh sv (by omega)]
  simp only [sphere, sphereInternal, List.mem_flatMap, List.mem_map, List.mem_range, mem_span] at hf
  obtain ⟨i, ⟨_, hi⟩, j, hj, rfl⟩ := hf
  have h := (sphereFace_ok sh sv _ i j hs hj).2.2 x hx
  have ho : sphereOfs sh 0 sv 0 = 1 := by simp [sphereOfs]
  rw [ho] at h
  obtain ⟨n, rfl⟩ : ∃ n, sv = n + 2 := ⟨sv - 2, by omega⟩
  have e1 : ((n + 2 - 1 : Nat) : Int) * sh = (n : Int) * sh + sh := by push_cast; ring
  have h0 : (0 : Int) ≤ (i : Int) * sh := by positivity
  have hn : (0 : Int) ≤ (n : Int) * sh := by positivity
  have e2 : ((i : Int) - 1) * sh = (i : Int) * sh - sh := by ring
  rw [e2] at h
  rw [show (((n + 2 - 1 : Nat) * sh + 2 : Nat) : Int) = (n : Int) * sh + sh + 2 by rw [Nat.cast_add, Nat.cast_mul, e1]; rfl]
  rcases h with ⟨_, h⟩ | ⟨hi0, h1, h2⟩ | ⟨hi0, h1, h2⟩ | ⟨hi0, hi1, h⟩
  · omega
  · have a : (i : Int) * sh ≤ (n : Int) * sh + sh := by
      have : (i : Int) * sh ≤ ((n : Int) + 1) * sh := mul_le_mul_of_nonneg_right (by omega) (by positivity)
      linarith
    have b : (sh : Int) ≤ (i : Int) * sh := by
      have : (1 : Int) * sh ≤ (i : Int) * sh := mul_le_mul_of_nonneg_right (by omega) (by positivity)
      linarith
    omega
  · have a : (i : Int) * sh ≤ (n : Int) * sh := by
      apply mul_le_mul_of_nonneg_right _ (by positivity)
      rcases hi0 with h | h
      · omega
      · push_cast at h; omega
    omega
  · have a : (i : Int) = n + 1 := by push_cast at hi1; omega
    have b : (i : Int) * sh = (n : Int) * sh + sh := by rw [a]; ring
    omega

/-- C56: cylinders. -/
theorem cylinder_valid (T : Trig F) (s : Nat) (hs : 3 ≤ s) : (cylinder T s).Valid := by
  refine ⟨?_, ?_, ?_⟩
  · intro f hf x hx
    rw [cylinder_length]
    simp only [cylinder, List.mem_append, List.mem_map, List.mem_range, List.mem_cons, List.not_mem_nil, or_false] at hf
    rcases hf with ⟨i, hi, rfl⟩ | rfl | rfl
    · have := next_ne s i (by omega) hi
      simp only [List.mem_cons, List.not_mem_nil, or_false] at hx
      push_cast
      omega
    · simp only [List.mem_map, List.mem_range] at hx
      obtain ⟨i, hi, rfl⟩ := hx
      push_cast
      omega
    · simp only [List.mem_map, List.mem_range] at hx
      obtain ⟨i, hi, rfl⟩ := hx
      push_cast
      omega
  · intro f hf
    simp only [cylinder, List.mem_append, List.mem_map, List.mem_range, List.mem_cons, List.not_mem_nil, or_false] at hf
    rcases hf with ⟨i, hi, rfl⟩ | rfl | rfl
    · obtain ⟨h1, h2⟩ := next_ne s i (by omega) hi
      refine ⟨?_, by simp⟩
      simp only [List.nodup_cons, List.mem_cons, List.not_mem_nil, or_false, not_or, List.nodup_nil, not_false_eq_true, and_true]
      omega
    · refine ⟨List.Nodup.map (fun a b h => ?_) List.nodup_range, by simpa using hs⟩
      omega
    · refine ⟨List.Nodup.map (fun a b h => ?_) List.nodup_range, by simpa using hs⟩
      omega
  · simp only [cylinder]
    refine List.rel_append (forall₂_map_same (fun (f : List Int) (u : List (F × F)) => f.length = u.length) _ _ _ fun i => rfl) ?_
    refine .cons ?_ (.cons ?_ .nil)
    · rw [List.length_map, List.length_map]
    · rw [List.length_map, List.length_map]

/-- C56: capsules. -/
theorem capsule_valid (T : Trig F) (s : Nat) (hs : 2 ≤ s) : (capsule T s).Valid := by
  have hl : (lift (1 / 2) (sphereInternal T s 8 0 4 0).vs).length = 4 * s + 1 := by
    rw [lift, List.length_map, cap_length]
  refine ⟨?_, ?_, ?_⟩
  · intro f hf x hx
    rw [capsule_length]
    simp only [capsule, List.mem_append] at hf
    rw [hl] at hf
    rcases hf with (hf | hf) | hf
    · simp only [sphereInternal, List.mem_flatMap, List.mem_map, List.mem_range, mem_span] at hf
      obtain ⟨i, ⟨_, hi⟩, j, hj, rfl⟩ := hf
      have h := (sphereFace_ok s 8 _ i j hs hj).2.2 x hx
      simp only [sphereOfs] at h
      interval_cases i <;> simp at h <;> push_cast <;> omega
    · simp only [List.mem_map, List.mem_range] at hf
      obtain ⟨i, hi, rfl⟩ := hf
      have := next_ne s i hs hi
      simp only [List.mem_cons, List.not_mem_nil, or_false] at hx
      generalize (i + 1) % s = k at this hx
      push_cast at hx ⊢
      omega
    · simp only [sphereInternal, List.mem_flatMap, List.mem_map, List.mem_range, mem_span] at hf
      obtain ⟨i, ⟨hi0, hi⟩, j, hj, rfl⟩ := hf
      have h := (sphereFace_ok s 8 _ i j hs hj).2.2 x hx
      simp only [sphereOfs] at h
      interval_cases i <;> simp at h <;> push_cast <;> omega
  · intro f hf
    simp only [capsule, List.mem_append] at hf
    rcases hf with (hf | hf) | hf
    · exact internal_nodup T s 8 0 4 0 hs f hf
    · simp only [List.mem_map, List.mem_range] at hf
      obtain ⟨i, hi, rfl⟩ := hf
      have := next_ne s i hs hi
      refine ⟨?_, by simp⟩
      simp only [List.nodup_cons, List.mem_cons, List.not_mem_nil, or_false, not_or, List.nodup_nil, not_false_eq_true, and_true]
      omega
    · exact internal_nodup T s 8 4 8 _ hs f hf
  · simp only [capsule]
    exact List.rel_append (List.rel_append (internal_uvs T s 8 0 4 0) (forall₂_map_same _ _ _ _ fun i => rfl))
      (internal_uvs T s 8 4 8 _)

theorem cube_valid : (cube (F := F)).Valid := by
  refine ⟨?_, ?_, ?_⟩
  · show ∀ f ∈ [[0, 1, 2, 3], [7, 6, 5, 4], [4, 5, 1, 0], [3, 2, 6, 7], [2, 1, 5, 6], [0, 3, 7, 4]], ∀ i ∈ f, (0 : Int) ≤ i ∧ i < 8
    decide
  · show ∀ f ∈ ([[0, 1, 2, 3], [7, 6, 5, 4], [4, 5, 1, 0], [3, 2, 6, 7], [2, 1, 5, 6], [0, 3, 7, 4]] : List (List Int)), f.Nodup ∧ 3 ≤ f.length
    decide
  · simp [cube]

theorem quad_valid : (quad (F := F)).Valid := by
  refine ⟨?_, ?_, ?_⟩ <;> simp [quad]

theorem plane_valid : (plane (F := F)).Valid := by
  refine ⟨?_, ?_, ?_⟩ <;> simp [plane]

/-- C56: every built-in mesh is valid, and the references are exactly these six. -/
theorem builtinMesh_spec (T : Trig F) (builtin : Bool) (fileID : Int) :
    (∀ m, builtinMesh T builtin fileID = some m → m.Valid ∧ m.faces ≠ []) ∧
    ((builtinMesh T builtin fileID).isSome = true ↔
      builtin = true ∧ fileID ∈ ([10202, 10206, 10207, 10208, 10209, 10210] : List Int)) := by
  constructor
  · intro m hm
    unfold builtinMesh at hm
    split at hm
    · repeat' split at hm
      all_goals first
        | (simp only [Option.some.injEq] at hm; subst hm)
        | exact absurd hm (by simp)
      · exact ⟨cube_valid, by simp [cube]⟩
      · exact ⟨cylinder_valid T 32 (by omega), by simp [cylinder]⟩
      · refine ⟨sphere_valid T 32 16 (by omega) (by omega), ?_⟩
        simp [sphere, sphereInternal, span, List.range_succ]
      · refine ⟨capsule_valid T 32 (by omega), ?_⟩
        simp [capsule]
      · exact ⟨plane_valid, by simp [plane]⟩
      · exact ⟨quad_valid, by simp [quad]⟩
    · simp at hm
  · unfold builtinMesh
    cases builtin
    · simp
    · simp only [if_true, true_and, List.mem_cons, List.not_mem_nil, or_false]
      repeat' split
      all_goals simp_all

/-! ### Closedness -/

/-- The sum of `f` over the edges of faces. -/
def edgeSum (f : Int → Int → Int) (fs : List (List Int)) : Int :=
  ((fs.flatMap faceEdges).map fun e => f e.1 e.2).sum

theorem edgeSum_append (f : Int → Int → Int) (a b : List (List Int)) :
    edgeSum f (a ++ b) = edgeSum f a + edgeSum f b := by
  simp [edgeSum]

theorem edgeSum_cons (f : Int → Int → Int) (a : List Int) (b : List (List Int)) :
    edgeSum f (a :: b) = ((faceEdges a).map fun e => f e.1 e.2).sum + edgeSum f b := by
  simp [edgeSum]

theorem edgeSum_map (f : Int → Int → Int) (g : Nat → List Int) (l : List Nat) :
    edgeSum f (l.map g) = (l.map fun j => ((faceEdges (g j)).map fun e => f e.1 e.2).sum).sum := by
  induction l with
  | nil => rfl
  | cons a l ih => rw [List.map_cons, edgeSum_cons, ih, List.map_cons, List.sum_cons]

theorem edgeSum_flatMap (f : Int → Int → Int) (g : Nat → List (List Int)) (l : List Nat) :
    edgeSum f (l.flatMap g) = (l.map fun i => edgeSum f (g i)).sum := by
  induction l with
  | nil => rfl
  | cons a l ih => rw [List.flatMap_cons, edgeSum_append, ih, List.map_cons, List.sum_cons]

theorem count_sum (es : List (Int × Int)) (a b : Int) :
    ((es.map fun e => (if e.1 = a ∧ e.2 = b then (1 : Int) else 0) - (if e.1 = b ∧ e.2 = a then 1 else 0)).sum : Int) =
      (es.count (a, b) : Int) - es.count (b, a) := by
  induction es with
  | nil => simp
  | cons e es ih =>
    obtain ⟨x, y⟩ := e
    rw [List.map_cons, List.sum_cons, ih, List.count_cons, List.count_cons]
    simp only [beq_iff_eq, Prod.mk.injEq]
    push_cast
    ring

omit [Field F] in
/-- A surface whose antisymmetric edge sums vanish is closed. -/
theorem closed_of_sum (m : Mesh F) (h : ∀ f : Int → Int → Int, (∀ a b, f a b = -f b a) → edgeSum f m.faces = 0) :
    m.Closed := by
  intro a b
  have := h (fun x y => (if x = a ∧ y = b then (1 : Int) else 0) - (if x = b ∧ y = a then 1 else 0)) (by
    intro x y
    have e1 : (x = a ∧ y = b) = (y = b ∧ x = a) := propext And.comm
    have e2 : (x = b ∧ y = a) = (y = a ∧ x = b) := propext And.comm
    simp only [e1, e2]
    ring)
  rw [edgeSum, count_sum] at this
  omega

theorem sum_map_add (g h : Nat → Int) (l : List Nat) :
    (l.map fun i => g i + h i).sum = (l.map g).sum + (l.map h).sum := by
  induction l with
  | nil => rfl
  | cons a l ih => simp only [List.map_cons, List.sum_cons, ih]; ring

theorem sum_map_sub (g h : Nat → Int) (l : List Nat) :
    (l.map fun i => g i - h i).sum = (l.map g).sum - (l.map h).sum := by
  induction l with
  | nil => rfl
  | cons a l ih => simp only [List.map_cons, List.sum_cons, ih]; ring

/-- Shifting a cyclic sum. -/
theorem sum_shift (g : Nat → Int) (s : Nat) :
    ((List.range s).map fun j => g ((j + 1) % s)).sum = ((List.range s).map g).sum := by
  cases s with
  | zero => rfl
  | succ n =>
    have e : ((List.range n).map fun j => g ((j + 1) % (n + 1))) = (List.range n).map fun j => g (j + 1) := by
      apply List.map_congr_left
      intro j hj
      rw [List.mem_range] at hj
      rw [Nat.mod_eq_of_lt (by omega)]
    rw [List.range_succ, List.map_append, List.sum_append, e, ← List.range_succ, List.range_succ_eq_map]
    simp only [List.map_cons, List.map_nil, List.sum_cons, List.sum_nil, Nat.mod_self, List.map_map]
    have : (g ∘ Nat.succ) = fun j => g (j + 1) := rfl
    rw [this]
    ring

/-- A sum backwards. -/
theorem sum_flip (g : Nat → Int) (s : Nat) : ((List.range s).map fun j => g (s - 1 - j)).sum = ((List.range s).map g).sum := by
  have hr : (List.range s).reverse = (List.range s).map fun j => s - 1 - j := by
    apply List.ext_getElem?
    intro i
    by_cases hi : i < s
    · rw [List.getElem?_eq_getElem (by simpa using hi), List.getElem?_eq_getElem (by simpa using hi)]
      simp
    · rw [List.getElem?_eq_none (by simpa using hi), List.getElem?_eq_none (by simpa using hi)]
  rw [← List.sum_reverse (((List.range s).map g)), ← List.map_reverse, hr, List.map_map]
  rfl

theorem sum_tele (g : Nat → Int) (t n : Nat) :
    ((List.range n).map fun k => g (t + k + 1) - g (t + k)).sum = g (t + n) - g t := by
  induction n with
  | zero => simp
  | succ n ih =>
    rw [List.range_succ, List.map_append, List.sum_append, ih]
    simp only [List.map_cons, List.map_nil, List.sum_cons, List.sum_nil]
    rw [show t + (n + 1) = t + n + 1 by omega]
    ring

/-- The sum around the ring of `s` vertices that begins at `p`. -/
def ring (f : Int → Int → Int) (s : Nat) (p : Int) : Int :=
  ((List.range s).map fun (j : Nat) => f (p + j) (p + (((j + 1) % s : Nat) : Int))).sum

/-- A band of quads between two rings. -/
theorem band (f : Int → Int → Int) (hf : ∀ a b, f a b = -f b a) (s : Nat) (p q : Int) :
    edgeSum f ((List.range s).map fun (j : Nat) =>
      [p + j, q + j, q + (((j + 1) % s : Nat) : Int), p + (((j + 1) % s : Nat) : Int)]) = ring f s q - ring f s p := by
  rw [edgeSum_map]
  have e : (fun (j : Nat) => ((faceEdges [p + j, q + j, q + (((j + 1) % s : Nat) : Int), p + (((j + 1) % s : Nat) : Int)]).map
      fun e => f e.1 e.2).sum) = fun (j : Nat) => (f (q + j) (q + (((j + 1) % s : Nat) : Int)) - f (p + j) (p + (((j + 1) % s : Nat) : Int))) +
        (f (p + j) (q + j) - f (p + (((j + 1) % s : Nat) : Int)) (q + (((j + 1) % s : Nat) : Int))) := by
    funext j
    simp only [faceEdges, List.rotate_cons_succ, List.rotate_zero, List.cons_append, List.nil_append, List.zip_cons_cons,
      List.zip_nil_right, List.map_cons, List.map_nil, List.sum_cons, List.sum_nil]
    rw [hf (q + (((j + 1) % s : Nat) : Int)) (p + (((j + 1) % s : Nat) : Int)), hf (p + (((j + 1) % s : Nat) : Int)) (p + j)]
    ring_nf
  rw [e, sum_map_add, sum_map_sub, sum_map_sub, sum_shift (fun j => f (p + j) (q + j)) s]
  simp only [ring]
  omega

/-- A fan of triangles from a point to a ring. -/
theorem fan (f : Int → Int → Int) (hf : ∀ a b, f a b = -f b a) (s : Nat) (a p : Int) :
    edgeSum f ((List.range s).map fun (j : Nat) => [a, p + j, p + (((j + 1) % s : Nat) : Int)]) = ring f s p := by
  rw [edgeSum_map]
  have e : (fun (j : Nat) => ((faceEdges [a, p + j, p + (((j + 1) % s : Nat) : Int)]).map
      fun e => f e.1 e.2).sum) = fun (j : Nat) => f (p + j) (p + (((j + 1) % s : Nat) : Int)) +
        (f a (p + j) - f a (p + (((j + 1) % s : Nat) : Int))) := by
    funext j
    simp only [faceEdges, List.rotate_cons_succ, List.rotate_zero, List.cons_append, List.nil_append, List.zip_cons_cons,
      List.zip_nil_right, List.map_cons, List.map_nil, List.sum_cons, List.sum_nil]
    rw [hf (p + (((j + 1) % s : Nat) : Int)) a]
    ring_nf
  rw [e, sum_map_add, sum_map_sub, sum_shift (fun j => f a (p + j)) s]
  simp only [ring]
  omega

/-- A fan of triangles from a ring to a point. -/
theorem fan' (f : Int → Int → Int) (hf : ∀ a b, f a b = -f b a) (s : Nat) (a p : Int) :
    edgeSum f ((List.range s).map fun (j : Nat) => [p + j, a, p + (((j + 1) % s : Nat) : Int)]) = -ring f s p := by
  rw [edgeSum_map]
  have e : (fun (j : Nat) => ((faceEdges [p + j, a, p + (((j + 1) % s : Nat) : Int)]).map
      fun e => f e.1 e.2).sum) = fun (j : Nat) => (f a (p + (((j + 1) % s : Nat) : Int)) - f a (p + j)) -
        f (p + j) (p + (((j + 1) % s : Nat) : Int)) := by
    funext j
    simp only [faceEdges, List.rotate_cons_succ, List.rotate_zero, List.cons_append, List.nil_append, List.zip_cons_cons,
      List.zip_nil_right, List.map_cons, List.map_nil, List.sum_cons, List.sum_nil]
    rw [hf (p + (((j + 1) % s : Nat) : Int)) (p + j), hf (p + j) a]
    ring_nf
  rw [e, sum_map_sub, sum_map_sub, sum_shift (fun j => f a (p + j)) s]
  simp only [ring]
  omega

/-- The first vertex of ring `i`. -/
def ringAt (sh : Nat) (ofs : Int) (i : Nat) : Int := ((i : Int) - 1) * sh + ofs

theorem rowSum (f : Int → Int → Int) (hf : ∀ a b, f a b = -f b a) (sh sv : Nat) (ofs : Int) (i : Nat) :
    edgeSum f ((List.range sh).map (sphereFace sh sv ofs i)) =
      if i = 0 then ring f sh (ringAt sh ofs 1)
      else if (i : Int) = (sv : Int) - 1 then -ring f sh (ringAt sh ofs i)
      else ring f sh (ringAt sh ofs (i + 1)) - ring f sh (ringAt sh ofs i) := by
  have e0 : ringAt sh ofs (i + 1) = (i : Int) * sh + ofs := by simp [ringAt]
  by_cases h0 : i = 0
  · rw [if_pos h0, ← fan f hf sh (ofs - 1)]
    congr 2
    funext j
    simp only [sphereFace, h0, ringAt]
    simp
    constructor <;> ring
  · rw [if_neg h0]
    by_cases h1 : (i : Int) = (sv : Int) - 1
    · rw [if_pos h1, ← fan' f hf sh ((i : Int) * sh + ofs)]
      congr 2
      funext j
      simp only [sphereFace, if_neg h0, if_pos h1, ringAt]
      simp only [List.cons.injEq, and_true, true_and]
      constructor <;> ring
    · rw [if_neg h1, ← band f hf sh]
      congr 2
      funext j
      simp only [sphereFace, if_neg h0, if_neg h1, e0]
      simp only [ringAt, List.cons.injEq, and_true]
      refine ⟨?_, ?_, ?_, ?_⟩ <;> ring

/-- The rows between two rings. -/
theorem rowsSum (f : Int → Int → Int) (hf : ∀ a b, f a b = -f b a) (sh sv : Nat) (ofs : Int) (t n : Nat) (ht : t ≠ 0)
    (hn : t + n < sv) :
    (((List.range n).map (t + ·)).map fun i => edgeSum f ((List.range sh).map (sphereFace sh sv ofs i))).sum =
      ring f sh (ringAt sh ofs (t + n)) - ring f sh (ringAt sh ofs t) := by
  rw [← sum_tele (fun i => ring f sh (ringAt sh ofs i)) t n, List.map_map]
  congr 1
  apply List.map_congr_left
  intro k hk
  rw [List.mem_range] at hk
  rw [Function.comp, rowSum f hf, if_neg (by omega), if_neg (by omega)]

/-- C97: spheres are closed and consistently oriented. -/
theorem sphere_closed (T : Trig F) (sh sv : Nat) (hv : 2 ≤ sv) : (sphere T sh sv).Closed := by
  apply closed_of_sum
  intro f hf
  obtain ⟨n, rfl⟩ : ∃ n, sv = n + 2 := ⟨sv - 2, by omega⟩
  simp only [sphere, sphereInternal]
  rw [edgeSum_flatMap]
  have hspan : span 0 (n + 2) = 0 :: (((List.range n).map (1 + ·)) ++ [n + 1]) := by
    simp only [span, Nat.sub_zero, Nat.zero_add, List.map_id']
    rw [List.range_succ_eq_map, List.range_succ, List.map_append]
    simp
    omega
  rw [hspan, List.map_cons, List.sum_cons, List.map_append, List.sum_append, rowsSum f hf sh (n + 2) _ 1 n (by omega) (by omega),
    rowSum f hf, if_pos rfl]
  simp only [List.map_cons, List.map_nil, List.sum_cons, List.sum_nil]
  rw [rowSum f hf, if_neg (by omega), if_pos (by push_cast; ring), Nat.add_comm 1 n]
  ring

/-- C97: capsules are closed and consistently oriented. -/
theorem capsule_closed (T : Trig F) (s : Nat) : (capsule T s).Closed := by
  apply closed_of_sum
  intro f hf
  have hl : (lift (1 / 2) (sphereInternal T s 8 0 4 0).vs).length = 4 * s + 1 := by
    rw [lift, List.length_map, cap_length]
  simp only [capsule]
  rw [hl, edgeSum_append, edgeSum_append]
  have h1 : edgeSum f (sphereInternal T s 8 0 4 0).faces = ring f s (3 * s + 1) := by
    simp only [sphereInternal]
    rw [edgeSum_flatMap]
    have : span 0 4 = 0 :: ((List.range 3).map (1 + ·)) := rfl
    rw [this, List.map_cons, List.sum_cons, rowsSum f hf s 8 _ 1 3 (by omega) (by omega), rowSum f hf, if_pos rfl]
    simp [ringAt, sphereOfs]
  have h2 : edgeSum f (sphereInternal T s 8 4 8 ((4 * s + 1 : Nat) : Int)).faces = -ring f s (4 * s + 1) := by
    simp only [sphereInternal]
    rw [edgeSum_flatMap]
    have : span 4 8 = ((List.range 3).map (4 + ·)) ++ [7] := rfl
    rw [this, List.map_append, List.sum_append, rowsSum f hf s 8 _ 4 3 (by omega) (by omega)]
    simp only [List.map_cons, List.map_nil, List.sum_cons, List.sum_nil]
    rw [rowSum f hf, if_neg (by omega), if_pos (by norm_num)]
    have : ringAt s (sphereOfs s 4 8 ((4 * s + 1 : Nat) : Int)) 4 = 4 * s + 1 := by
      simp [ringAt, sphereOfs]
    rw [this]
    ring
  have h3 := band f hf s (3 * s + 1) (4 * s + 1)
  have e : ((List.range s).map fun (i : Nat) => [((4 * s + 1 : Nat) : Int) - s + i, ((4 * s + 1 : Nat) : Int) - s + i + s,
      ((4 * s + 1 : Nat) : Int) - s + (((i + 1) % s : Nat) : Int) + s, ((4 * s + 1 : Nat) : Int) - s + (((i + 1) % s : Nat) : Int)]) =
      (List.range s).map fun (j : Nat) => [(3 * s + 1 : Int) + j, (4 * s + 1 : Int) + j, (4 * s + 1 : Int) + (((j + 1) % s : Nat) : Int),
        (3 * s + 1 : Int) + (((j + 1) % s : Nat) : Int)] := by
    congr 1
    funext j
    simp only [List.cons.injEq, and_true]
    push_cast
    refine ⟨?_, ?_, ?_, ?_⟩ <;> ring
  rw [e, h1, h2, h3]
  ring

theorem faceEdges_cycle (g : Nat → Int) (s : Nat) :
    faceEdges ((List.range s).map g) = (List.range s).map fun j => (g j, g ((j + 1) % s)) := by
  apply List.ext_getElem?
  intro i
  simp only [faceEdges]
  by_cases hi : i < s
  · rw [List.getElem?_eq_getElem (by simpa using hi), List.getElem?_eq_getElem (by simpa using hi)]
    simp [List.getElem_rotate]
  · rw [List.getElem?_eq_none (by simpa using hi), List.getElem?_eq_none (by simpa using hi)]

/-- C97: cylinders are closed and consistently oriented. -/
theorem cylinder_closed (T : Trig F) (s : Nat) : (cylinder T s).Closed := by
  apply closed_of_sum
  intro f hf
  simp only [cylinder]
  rw [edgeSum_append, edgeSum_cons, edgeSum_cons, edgeSum_map, faceEdges_cycle, faceEdges_cycle]
  simp only [List.map_map]
  have e : (fun (j : Nat) => ((faceEdges [(j : Int) * 2, (j : Int) * 2 + 1, (((j + 1) % s : Nat) : Int) * 2 + 1, (((j + 1) % s : Nat) : Int) * 2]).map
      fun e => f e.1 e.2).sum) = fun (j : Nat) => (f ((j : Int) * 2 + 1) ((((j + 1) % s : Nat) : Int) * 2 + 1) -
        f ((j : Int) * 2) ((((j + 1) % s : Nat) : Int) * 2)) +
        (f ((j : Int) * 2) ((j : Int) * 2 + 1) - f ((((j + 1) % s : Nat) : Int) * 2) ((((j + 1) % s : Nat) : Int) * 2 + 1)) := by
    funext j
    simp only [faceEdges, List.rotate_cons_succ, List.rotate_zero, List.cons_append, List.nil_append, List.zip_cons_cons,
      List.zip_nil_right, List.map_cons, List.map_nil, List.sum_cons, List.sum_nil]
    rw [hf ((((j + 1) % s : Nat) : Int) * 2 + 1) ((((j + 1) % s : Nat) : Int) * 2), hf ((((j + 1) % s : Nat) : Int) * 2) ((j : Int) * 2)]
    ring_nf
  rw [e, sum_map_add, sum_map_sub, sum_map_sub, sum_shift (fun j => f ((j : Int) * 2) ((j : Int) * 2 + 1)) s]
  -- the bottom is the ring of the bottom vertices backwards
  have hb : ((List.range s).map fun (j : Nat) => f (((s : Int) - j - 1) * 2 + 1) (((s : Int) - (((j + 1) % s : Nat) : Int) - 1) * 2 + 1)).sum =
      -((List.range s).map fun (j : Nat) => f ((j : Int) * 2 + 1) ((((j + 1) % s : Nat) : Int) * 2 + 1)).sum := by
    rw [← sum_flip, ← sum_shift _ s, ← neg_one_mul, ← List.sum_map_mul_left]
    congr 1
    apply List.map_congr_left
    intro k hk
    rw [List.mem_range] at hk
    have h2 : (k + 1) % s < s := Nat.mod_lt _ (by omega)
    have h3 : (s - 1 - (k + 1) % s + 1) % s = s - 1 - k := by
      by_cases h : k + 1 = s
      · rw [h, Nat.mod_self, show s - 1 - 0 + 1 = s by omega, Nat.mod_self]; omega
      · rw [Nat.mod_eq_of_lt (show k + 1 < s by omega), Nat.mod_eq_of_lt (by omega)]; omega
    rw [h3, hf ((k : Int) * 2 + 1)]
    generalize (k + 1) % s = m at h2
    rw [show (s : Int) - ((s - 1 - m : Nat) : Int) - 1 = m by omega, show (s : Int) - ((s - 1 - k : Nat) : Int) - 1 = k by omega]
    ring
  simp only [Function.comp_def, edgeSum, List.flatMap_nil, List.map_nil, List.sum_nil]
  rw [hb]
  ring

/-- C97: cubes are closed and consistently oriented. -/
theorem cube_closed : (cube (F := F)).Closed := by
  apply closed_of_sum
  intro f hf
  simp only [cube, edgeSum, faceEdges, List.flatMap_cons, List.flatMap_nil, List.rotate_cons_succ, List.rotate_zero,
    List.cons_append, List.nil_append, List.zip_cons_cons, List.zip_nil_right, List.append_nil,
    List.map_cons, List.map_nil, List.sum_cons, List.sum_nil]
  have h := fun a b => hf a b
  linarith [h 0 1, h 1 2, h 2 3, h 3 0, h 7 6, h 6 5, h 5 4, h 4 7, h 5 1, h 0 4, h 2 6, h 7 3]

/-! ### Shapes -/

/-- The real trigonometric functions. -/
noncomputable def realTrig : Trig ℝ := ⟨Real.cos, Real.sin, Real.pi⟩

theorem sphereRow_radius (sh sv i : Nat) : ∀ v ∈ sphereRow realTrig sh sv i, v.x ^ 2 + v.y ^ 2 + v.z ^ 2 = (1 / 2 : ℝ) ^ 2 := by
  intro v hv
  unfold sphereRow at hv
  split at hv
  · simp only [List.mem_cons, List.not_mem_nil, or_false] at hv
    subst hv
    ring
  · split at hv
    · simp only [List.mem_cons, List.not_mem_nil, or_false] at hv
      subst hv
      ring
    · simp only [List.mem_map, List.mem_range] at hv
      obtain ⟨j, _, rfl⟩ := hv
      simp only [realTrig]
      generalize (j : ℝ) / sh * 2 * Real.pi = a
      generalize (i : ℝ) / sv * Real.pi = b
      have h1 := Real.sin_sq_add_cos_sq a
      have h2 := Real.sin_sq_add_cos_sq b
      calc (Real.cos a * (Real.sin b * (1 / 2))) ^ 2 + (Real.cos b * (1 / 2)) ^ 2 + (Real.sin a * (Real.sin b * (1 / 2))) ^ 2
          = (Real.sin b ^ 2 * (Real.sin a ^ 2 + Real.cos a ^ 2) + Real.cos b ^ 2) / 4 := by ring
        _ = (1 / 2) ^ 2 := by rw [h1, mul_one, h2]; norm_num

/-- C98: the vertices of a sphere have the distance one half from the centre. -/
theorem sphere_radius (sh sv : Nat) : ∀ v ∈ (sphere realTrig sh sv).vs, v.x ^ 2 + v.y ^ 2 + v.z ^ 2 = (1 / 2 : ℝ) ^ 2 := by
  intro v hv
  simp only [sphere, sphereInternal, List.mem_flatMap] at hv
  obtain ⟨i, _, hi⟩ := hv
  exact sphereRow_radius sh sv i v hi

/-- C98: the vertices of a cylinder lie on its two rims: distance one half from the axis, height 1 or -1. -/
theorem cylinder_shape (s : Nat) : ∀ v ∈ (cylinder realTrig s).vs, v.x ^ 2 + v.z ^ 2 = (1 / 2 : ℝ) ^ 2 ∧ (v.y = 1 ∨ v.y = -1) := by
  intro v hv
  simp only [cylinder, List.mem_flatMap, List.mem_cons, List.not_mem_nil, or_false] at hv
  obtain ⟨i, _, hi⟩ := hv
  have key : ∀ a : ℝ, (Real.cos a * (1 / 2)) ^ 2 + (Real.sin a * (1 / 2)) ^ 2 = (1 / 2) ^ 2 := by
    intro a
    have := Real.sin_sq_add_cos_sq a
    calc (Real.cos a * (1 / 2)) ^ 2 + (Real.sin a * (1 / 2)) ^ 2 = (Real.sin a ^ 2 + Real.cos a ^ 2) / 4 := by ring
      _ = (1 / 2) ^ 2 := by rw [this]; norm_num
  rcases hi with rfl | rfl
  · exact ⟨key _, .inl rfl⟩
  · exact ⟨key _, .inr rfl⟩

/-- C98: the vertices of a capsule have the distance one half from one of the centres of its caps. -/
theorem capsule_shape (s : Nat) : ∀ v ∈ (capsule realTrig s).vs,
    v.x ^ 2 + (v.y - 1 / 2) ^ 2 + v.z ^ 2 = (1 / 2 : ℝ) ^ 2 ∨ v.x ^ 2 + (v.y + 1 / 2) ^ 2 + v.z ^ 2 = (1 / 2 : ℝ) ^ 2 := by
  intro v hv
  simp only [capsule, sphereInternal, lift, List.mem_append, List.mem_map, List.mem_flatMap] at hv
  rcases hv with ⟨w, ⟨i, _, hw⟩, rfl⟩ | ⟨w, ⟨i, _, hw⟩, rfl⟩
  · left
    rw [← sphereRow_radius s 8 i w hw]
    ring
  · right
    rw [← sphereRow_radius s 8 i w hw]
    ring

/-! ### Examples -/

example : (sphere (F := ℚ) ⟨id, id, 3⟩ 3 2).faces =
    [[0, 1, 2], [0, 2, 3], [0, 3, 1], [1, 4, 2], [2, 4, 3], [3, 4, 1]] := by decide +kernel

example : (sphere (F := ℚ) ⟨id, id, 3⟩ 3 2).vs.length = 5 := by decide +kernel

example : (cylinder (F := ℚ) ⟨id, id, 3⟩ 3).faces =
    [[0, 1, 3, 2], [2, 3, 5, 4], [4, 5, 1, 0], [0, 2, 4], [5, 3, 1]] := by decide +kernel

/-- With one row the faces leave the mesh, so that `2 ≤ sv` is needed. -/
example : (sphere (F := ℚ) ⟨id, id, 3⟩ 3 1).faces = [[0, 1, 2], [0, 2, 3], [0, 3, 1]] ∧
    (sphere (F := ℚ) ⟨id, id, 3⟩ 3 1).vs.length = 2 := by decide +kernel

end Verif.Unity
