import Verif.Geom.TriangulateLemmas
import Mathlib.Tactic.Ring
import Mathlib.Tactic.Linarith
import Mathlib.Algebra.Ring.Int.Defs

/-!
C01, C02: properties of `Triangulate`.
-/

namespace Verif.Geom

/-! ### Specification -/

/-- The directed boundary edges of an `n`-gon. -/
def polyEdges (n : Nat) : List (Nat × Nat) := (List.range n).map fun i => (i, (i + 1) % n)

/-- The directed edges of a triangle. -/
def triEdges (t : Nat × Nat × Nat) : List (Nat × Nat) :=
  [(t.1, t.2.1), (t.2.1, t.2.2), (t.2.2, t.1)]

/-- How often the edge from `a` to `b` is used, minus how often its reverse is used. -/
def net (es : List (Nat × Nat)) (a b : Nat) : Int := (es.count (a, b) : Int) - es.count (b, a)

/-! ### Bridges from chains to edge counts -/

theorem pathSum_eq_zip {G : Type} [AddCommGroup G] (f : Nat → Nat → G) (l : List Nat) :
    pathSum f l = ((l.zip l.tail).map fun e => f e.1 e.2).sum := by
  induction l with
  | nil => simp [pathSum]
  | cons a l ih =>
    cases l with
    | nil => simp [pathSum]
    | cons b l => simp only [pathSum, ih, List.tail_cons, List.zip_cons_cons, List.map_cons,
        List.sum_cons]

theorem cycSum_range {G : Type} [AddCommGroup G] (f : Nat → Nat → G) (n : Nat) :
    cycSum f (List.range n) = ((polyEdges n).map fun e => f e.1 e.2).sum := by
  cases n with
  | zero => simp [cycSum, polyEdges]
  | succ n =>
    have h : cycSum f (List.range (n + 1)) = pathSum f (List.range (n + 1) ++ [0]) := by
      rw [List.range_succ_eq_map]; rfl
    rw [h, pathSum_eq_zip]
    congr 2
    apply List.ext_getElem
    · simp [polyEdges]
    · intro i h1 h2
      simp only [polyEdges, List.length_map, List.length_range] at h2
      simp only [List.getElem_zip, List.getElem_tail, polyEdges, List.getElem_map,
        List.getElem_range]
      rw [List.getElem_append_left (by simpa using h2)]
      simp only [List.getElem_range, Prod.mk.injEq, true_and]
      by_cases hi : i + 1 < n + 1
      · rw [List.getElem_append_left (by simpa using hi)]
        simp only [List.getElem_range]
        rw [Nat.mod_eq_of_lt hi]
      · have : i + 1 = n + 1 := by omega
        rw [List.getElem_append_right (by simp; omega)]
        simp [this]

/-- The antisymmetric indicator of the edge `a → b`. -/
def edgeInd (a b x y : Nat) : Int :=
  (if (x, y) = (a, b) then 1 else 0) - (if (x, y) = (b, a) then 1 else 0)

theorem edgeInd_anti (a b x y : Nat) : edgeInd a b x y = - edgeInd a b y x := by
  simp only [edgeInd, Prod.mk.injEq]
  by_cases h1 : x = a <;> by_cases h2 : y = b <;> by_cases h3 : x = b <;> by_cases h4 : y = a <;>
    simp_all

theorem net_eq_sum (es : List (Nat × Nat)) (a b : Nat) :
    net es a b = (es.map fun e => edgeInd a b e.1 e.2).sum := by
  induction es with
  | nil => simp [net]
  | cons e es ih =>
    rw [List.map_cons, List.sum_cons, ← ih]
    simp only [net, List.count_cons, edgeInd]
    by_cases h1 : e = (a, b) <;> by_cases h2 : e = (b, a) <;> simp [h1, h2] <;> omega

theorem net_triEdges (ts : List (Nat × Nat × Nat)) (a b : Nat) :
    net (ts.flatMap triEdges) a b = (ts.map (triSum (edgeInd a b))).sum := by
  rw [net_eq_sum]
  induction ts with
  | nil => rfl
  | cons t ts ih =>
    rw [List.flatMap_cons, List.map_append, List.sum_append, ih]
    simp [triEdges, triSum, add_assoc]

/-! ### C01 -/

section

variable {F : Type} [Add F] [Sub F] [Mul F] [Div F] [Zero F] [One F] [FloatOps F]

/-- C01. For every polygon with at least three points, whatever the arithmetic answers: the call
succeeds, returns `n - 2` triangles, each triangle has three different corners of the polygon in the
polygon's cyclic order, and the triangles' edges cancel to exactly the polygon's boundary. -/
theorem triangulate_covers (poly : List (Vec3 F)) (h : 3 ≤ poly.length) :
    ∃ ts, triangulate poly = some ts ∧ ts.length = poly.length - 2 ∧
      (∀ t ∈ ts, (t.1 < poly.length ∧ t.2.1 < poly.length ∧ t.2.2 < poly.length) ∧
        (t.1 ≠ t.2.1 ∧ t.2.1 ≠ t.2.2 ∧ t.2.2 ≠ t.1) ∧
        ((t.1 < t.2.1 ∧ t.2.1 < t.2.2) ∨ (t.2.1 < t.2.2 ∧ t.2.2 < t.1) ∨
          (t.2.2 < t.1 ∧ t.1 < t.2.1))) ∧
      ∀ a b, net (ts.flatMap triEdges) a b = net (polyEdges poly.length) a b := by
  obtain ⟨ts, h1, h2, h3, h4⟩ := triangulate_spec poly h
  refine ⟨ts, h1, by omega, ?_, ?_⟩
  · intro t ht
    obtain ⟨a, b, c, d⟩ := h3 t ht
    exact ⟨⟨a, b, c⟩, by omega, d⟩
  · intro a b
    rw [net_triEdges, net_eq_sum, ← h4 _ (edgeInd_anti a b), cycSum_range]

/-- C01. Fewer than three points give no triangle. -/
theorem triangulate_small (poly : List (Vec3 F)) (h : poly.length < 3) :
    triangulate poly = some [] := by
  simp [triangulate, h]

/-- C01. Consequence: every polygon edge is an edge of some triangle, so no vertex is lost. -/
theorem triangulate_uses_every_edge (poly : List (Vec3 F)) (h : 3 ≤ poly.length)
    (ts : List (Nat × Nat × Nat)) (hts : triangulate poly = some ts) (i : Nat)
    (hi : i < poly.length) : ∃ t ∈ ts, (i, (i + 1) % poly.length) ∈ triEdges t := by
  obtain ⟨ts', h1, _, _, h4⟩ := triangulate_covers poly h
  rw [hts] at h1
  cases h1
  have hn := h4 i ((i + 1) % poly.length)
  have hmem : (i, (i + 1) % poly.length) ∈ polyEdges poly.length :=
    List.mem_map.2 ⟨i, List.mem_range.2 hi, rfl⟩
  have hrev : ((i + 1) % poly.length, i) ∉ polyEdges poly.length := by
    intro hm
    obtain ⟨j, hj, he⟩ := List.mem_map.1 hm
    simp only [List.mem_range, Prod.mk.injEq] at hj he
    have e1 := he.1
    have e2 := he.2
    by_cases c1 : i + 1 < poly.length
    · rw [Nat.mod_eq_of_lt c1] at e1
      by_cases c2 : j + 1 < poly.length
      · rw [Nat.mod_eq_of_lt c2] at e2; omega
      · have : j + 1 = poly.length := by omega
        rw [this, Nat.mod_self] at e2; omega
    · have : i + 1 = poly.length := by omega
      rw [this, Nat.mod_self] at e1
      rw [e1, Nat.mod_eq_of_lt (by omega)] at e2; omega
  have hpos : 0 < net (polyEdges poly.length) i ((i + 1) % poly.length) := by
    have a1 := List.count_pos_iff.2 hmem
    have a2 := List.count_eq_zero.2 hrev
    simp only [net, a2]; omega
  rw [← hn] at hpos
  have : 0 < (ts.flatMap triEdges).count (i, (i + 1) % poly.length) := by
    simp only [net] at hpos; omega
  obtain ⟨t, ht, he⟩ := List.mem_flatMap.1 (List.count_pos_iff.1 this)
  exact ⟨t, ht, he⟩

end

/-- Integer arithmetic as an instance of the abstract operations, for the examples only (the
length of the normal plays no role for the signs tested). -/
local instance : FloatOps Int := ⟨fun _ => 1, fun a b => decide (a < b), fun a b => decide (a ≤ b)⟩

/-- A concave pentagon: the hypotheses of C01 hold and the ears are found. -/
example : triangulate (F := Int)
    [⟨0, 0, 0⟩, ⟨4, 0, 0⟩, ⟨4, 4, 0⟩, ⟨2, 1, 0⟩, ⟨0, 4, 0⟩] =
    some [(3, 4, 0), (1, 2, 3), (0, 1, 3)] := by decide

/-- Arithmetic that answers "no" to every comparison (as NaN does) reaches the fallback fan. -/
example : @triangulate Int _ _ _ _ ⟨id, fun _ _ => false, fun _ _ => false⟩ _ _
    [⟨0, 0, 0⟩, ⟨4, 0, 0⟩, ⟨4, 4, 0⟩, ⟨2, 1, 0⟩, ⟨0, 4, 0⟩] =
    some [(0, 1, 2), (0, 2, 3), (0, 3, 4)] := by decide

/-! ### C02 -/

section

variable {F : Type} [CommRing F] [Div F] [FloatOps F]

/-- Corner `i` of a polygon. -/
def corner (poly : List (Vec3 F)) (i : Nat) : Vec3 F := poly.getD i ⟨0, 0, 0⟩

/-- Sum of vectors. -/
def vecSum (l : List (Vec3 F)) : Vec3 F :=
  ⟨(l.map Vec3.x).sum, (l.map Vec3.y).sum, (l.map Vec3.z).sum⟩

/-- Twice the area vector of a triangle: the cross product of two sides. -/
def triArea2 (poly : List (Vec3 F)) (t : Nat × Nat × Nat) : Vec3 F :=
  ((corner poly t.2.1).sub (corner poly t.1)).cross ((corner poly t.2.2).sub (corner poly t.1))

/-- Twice the area vector of a polygon (Newell's formula / shoelace formula). -/
def polyArea2 (poly : List (Vec3 F)) : Vec3 F :=
  vecSum ((polyEdges poly.length).map fun e => (corner poly e.1).cross (corner poly e.2))

/-- C02. The area vectors of the triangles add up to the area vector of the polygon, in exact
arithmetic, whatever the comparisons answer. -/
theorem triangulate_area (poly : List (Vec3 F)) (h : 3 ≤ poly.length) :
    ∃ ts, triangulate poly = some ts ∧ vecSum (ts.map (triArea2 poly)) = polyArea2 poly := by
  obtain ⟨ts, h1, _, _, h4⟩ := triangulate_spec poly h
  refine ⟨ts, h1, ?_⟩
  have hx := h4 (fun a b => ((corner poly a).cross (corner poly b)).x)
    (by intro a b; simp only [Vec3.cross]; ring)
  have hy := h4 (fun a b => ((corner poly a).cross (corner poly b)).y)
    (by intro a b; simp only [Vec3.cross]; ring)
  have hz := h4 (fun a b => ((corner poly a).cross (corner poly b)).z)
    (by intro a b; simp only [Vec3.cross]; ring)
  rw [cycSum_range] at hx hy hz
  simp only [polyArea2, vecSum, List.map_map]
  ext
  · simp only
    refine Eq.trans ?_ hx.symm
    congr 2
    funext t
    simp only [Function.comp, triArea2, triSum, Vec3.cross, Vec3.sub]; ring
  · simp only
    refine Eq.trans ?_ hy.symm
    congr 2
    funext t
    simp only [Function.comp, triArea2, triSum, Vec3.cross, Vec3.sub]; ring
  · simp only
    refine Eq.trans ?_ hz.symm
    congr 2
    funext t
    simp only [Function.comp, triArea2, triSum, Vec3.cross, Vec3.sub]; ring

end

/-- The concave pentagon above has doubled area 20, spread over three triangles. -/
example : polyArea2 (F := Int)
    [⟨0, 0, 0⟩, ⟨4, 0, 0⟩, ⟨4, 4, 0⟩, ⟨2, 1, 0⟩, ⟨0, 4, 0⟩] = ⟨0, 0, 20⟩ := by decide

end Verif.Geom
