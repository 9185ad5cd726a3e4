import Verif.Unity.BuiltinProps

/-!
C191, C192: the faces of the built-in meshes are seen from outside, and pictures on them (unity/unity_builtin.go).

The meshes are used as they are in an MQO document: right-handed, faces clockwise seen from their front, texture
coordinates with the second coordinate downwards.
-/

namespace Verif.Unity
open Verif.Geom

/-- The first three corners of a face with their texture coordinates. -/
def Mesh.Corners {F : Type} (m : Mesh F) (k : Nat) (p q r : Vec3 F) (a b c : F × F) : Prop :=
  ∃ i j l f u, m.faces[k]? = some (i :: j :: l :: f) ∧ m.uvs[k]? = some (a :: b :: c :: u) ∧
    0 ≤ i ∧ 0 ≤ j ∧ 0 ≤ l ∧ m.vs[i.toNat]? = some p ∧ m.vs[j.toNat]? = some q ∧ m.vs[l.toNat]? = some r

/-- Negative if the corners are clockwise seen from the other side than the origin. -/
def side (p q r : Vec3 ℝ) : ℝ := ((q.sub p).cross (r.sub q)).dot p

/-- Positive if the corners are clockwise in the picture, whose second coordinate is downwards. -/
def picture (a b c : ℝ × ℝ) : ℝ := (b.1 - a.1) * (c.2 - b.2) - (b.2 - a.2) * (c.1 - b.1)

/-! ### Cubes -/

/-- C191, C192. The six faces of a cube are seen from outside and show the picture as it is. -/
theorem cube_picture (k : Nat) (hk : k < 6) : ∃ p q r a b c, (cube (F := ℝ)).Corners k p q r a b c ∧ side p q r < 0 ∧
    0 < picture a b c := by
  interval_cases k <;>
  refine ⟨_, _, _, _, _, _, ⟨_, _, _, _, _, rfl, rfl, by decide, by decide, by decide, rfl, rfl, rfl⟩, ?_, ?_⟩ <;>
  norm_num [side, picture, Vec3.sub, Vec3.cross, Vec3.dot]

/-! ### Cylinders -/

theorem sin_step (s : Nat) (hs : 3 ≤ s) : 0 < Real.sin (1 / s * Real.pi * 2) := by
  have h : (3 : ℝ) ≤ s := by exact_mod_cast hs
  have hp := Real.pi_pos
  apply Real.sin_pos_of_pos_of_lt_pi
  · positivity
  · have : (1 : ℝ) / s ≤ 1 / 3 := one_div_le_one_div_of_le (by norm_num) h
    nlinarith

theorem getElem?_flatMap_const {α : Type} (f : Nat → List α) (c n : Nat) (hf : ∀ i < n, (f i).length = c) (i j : Nat) (hi : i < n)
    (hj : j < c) : ((List.range n).flatMap f)[i * c + j]? = (f i)[j]? := by
  induction n with
  | zero => omega
  | succ n ih =>
    have hl : ((List.range n).flatMap f).length = n * c := by
      rw [List.length_flatMap]
      exact sum_const (fun i => (f i).length) c n fun k hk => hf k (by omega)
    rw [List.range_succ, List.flatMap_append]
    by_cases h : i < n
    · have : i * c + j < n * c := by
        calc i * c + j < i * c + c := by omega
          _ = (i + 1) * c := by ring
          _ ≤ n * c := Nat.mul_le_mul_right _ h
      rw [List.getElem?_append_left (by omega)]
      exact ih (fun k hk => hf k (by omega)) h
    · have : i = n := by omega
      subst this
      rw [List.getElem?_append_right (by omega), hl]
      simp

/-- The vertex of a cylinder. -/
noncomputable def rim (s i : Nat) (h : ℝ) : Vec3 ℝ :=
  ⟨Real.cos (i / s * Real.pi * 2) * (1 / 2), h, Real.sin (i / s * Real.pi * 2) * (1 / 2)⟩

theorem cylinder_vertex (s i : Nat) (hi : i < s) : (cylinder realTrig s).vs[i * 2]? = some (rim s i 1) ∧
    (cylinder realTrig s).vs[i * 2 + 1]? = some (rim s i (-1)) := by
  constructor
  · exact getElem?_flatMap_const _ 2 s (fun _ _ => rfl) i 0 hi (by norm_num)
  · exact getElem?_flatMap_const _ 2 s (fun _ _ => rfl) i 1 hi (by norm_num)

theorem rim_next (s i : Nat) (hi : i < s) (h : ℝ) : rim s ((i + 1) % s) h = rim s (i + 1) h := by
  by_cases e : i + 1 < s
  · rw [Nat.mod_eq_of_lt e]
  · have e : i + 1 = s := by omega
    have hs : (s : ℝ) ≠ 0 := by
      have : s ≠ 0 := by omega
      exact_mod_cast this
    rw [e, Nat.mod_self]
    simp only [rim]
    rw [div_self hs, one_mul, mul_comm Real.pi 2, Real.cos_two_pi, Real.sin_two_pi]
    simp

theorem rim_side (s i : Nat) (h h' : ℝ) : side (rim s i h) (rim s i h') (rim s (i + 1) h') =
    (h' - h) * (1 / 4) * Real.sin (1 / s * Real.pi * 2) := by
  have e : ((i + 1 : Nat) : ℝ) / s * Real.pi * 2 = i / s * Real.pi * 2 + 1 / s * Real.pi * 2 := by push_cast; ring
  simp only [side, rim, Vec3.sub, Vec3.cross, Vec3.dot]
  rw [e, Real.cos_add, Real.sin_add]
  generalize (i : ℝ) / s * Real.pi * 2 = a
  generalize (1 : ℝ) / s * Real.pi * 2 = b
  have h1 := Real.sin_sq_add_cos_sq a
  linear_combination (h' - h) * (1 / 4) * Real.sin b * h1

/-- C191, C192. The faces of the wall of a cylinder are seen from outside and show the picture as it is. -/
theorem cylinder_picture (s : Nat) (hs : 3 ≤ s) (k : Nat) (hk : k < s) : ∃ p q r a b c,
    (cylinder realTrig s).Corners k p q r a b c ∧ side p q r < 0 ∧ 0 < picture a b c := by
  have hs0 : (0 : ℝ) < s := by exact_mod_cast (by omega : 0 < s)
  have hn : (k + 1) % s < s := Nat.mod_lt _ (by omega)
  refine ⟨rim s k 1, rim s k (-1), rim s (k + 1) (-1), (1 - (k : ℝ) / s, 0), (1 - (k : ℝ) / s, 1),
    (1 - ((k + 1 : Nat) : ℝ) / s, 1), ⟨(k : Int) * 2, (k : Int) * 2 + 1, (((k + 1) % s : Nat) : Int) * 2 + 1,
      [(((k + 1) % s : Nat) : Int) * 2], [(1 - ((k + 1 : Nat) : ℝ) / s, 0)], ?_, ?_, by omega, by omega, by omega, ?_, ?_, ?_⟩, ?_, ?_⟩
  · simp only [cylinder]
    rw [List.getElem?_append_left (by simpa using hk), List.getElem?_map, List.getElem?_range hk]
    rfl
  · simp only [cylinder]
    rw [List.getElem?_append_left (by simpa using hk), List.getElem?_map, List.getElem?_range hk]
    rfl
  · rw [show ((k : Int) * 2).toNat = k * 2 by omega]
    exact (cylinder_vertex s k hk).1
  · rw [show ((k : Int) * 2 + 1).toNat = k * 2 + 1 by omega]
    exact (cylinder_vertex s k hk).2
  · rw [show ((((k + 1) % s : Nat) : Int) * 2 + 1).toNat = (k + 1) % s * 2 + 1 by omega, (cylinder_vertex s _ hn).2, rim_next s k hk]
  · rw [rim_side]
    have := sin_step s hs
    linarith
  · simp only [picture]
    push_cast
    have : (0 : ℝ) < 1 / s := by positivity
    have e : ((k : ℝ) + 1) / s = k / s + 1 / s := by ring
    rw [e]
    linarith

/-- C192 is false for the top and the bottom of a cylinder: they show no picture, only one line of it. -/
theorem cylinder_caps_false (s k : Nat) (u : List (ℝ × ℝ)) (h : (cylinder realTrig s).uvs[s + k]? = some u) :
    ∀ x ∈ u, x.2 = 1 := by
  simp only [cylinder] at h
  rw [List.getElem?_append_right (by simp)] at h
  simp only [List.length_map, List.length_range, Nat.add_sub_cancel_left] at h
  have hu : u = (List.range s).map fun (i : Nat) => ((i : ℝ) / s, (1 : ℝ)) := by
    rcases k with _ | _ | k
    · cases h; rfl
    · cases h; rfl
    · cases h
  subst hu
  intro x hx
  simp only [List.mem_map] at hx
  obtain ⟨_, _, rfl⟩ := hx
  rfl

/-- There are two such faces. -/
example (s : Nat) : ((cylinder realTrig s).uvs[s + 0]?).isSome = true ∧ ((cylinder realTrig s).uvs[s + 1]?).isSome = true := by
  constructor <;>
  · simp only [cylinder]
    rw [List.getElem?_append_right (by simp)]
    simp

/-! ### Spheres -/

/-- The vertex of a sphere; the poles are the rows `0` and `sv`. -/
noncomputable def globe (sh sv i j : Nat) : Vec3 ℝ :=
  ⟨Real.cos (j / sh * 2 * Real.pi) * (Real.sin (i / sv * Real.pi) * (1 / 2)), Real.cos (i / sv * Real.pi) * (1 / 2),
    Real.sin (j / sh * 2 * Real.pi) * (Real.sin (i / sv * Real.pi) * (1 / 2))⟩

theorem globe_top (sh sv j : Nat) : globe sh sv 0 j = ⟨0, 1 / 2, 0⟩ := by simp [globe]

theorem globe_bottom (sh sv j : Nat) (hv : 0 < sv) : globe sh sv sv j = ⟨0, -(1 / 2), 0⟩ := by
  have : (sv : ℝ) ≠ 0 := by exact_mod_cast (by omega : sv ≠ 0)
  simp [globe, div_self this]

theorem globe_next (sh sv i j : Nat) (hj : j < sh) : globe sh sv i ((j + 1) % sh) = globe sh sv i (j + 1) := by
  by_cases e : j + 1 < sh
  · rw [Nat.mod_eq_of_lt e]
  · have e : j + 1 = sh := by omega
    have hs : (sh : ℝ) ≠ 0 := by
      have : sh ≠ 0 := by omega
      exact_mod_cast this
    rw [e, Nat.mod_self]
    simp only [globe]
    rw [div_self hs, one_mul, Real.cos_two_pi, Real.sin_two_pi]
    simp

theorem sphere_rows (sh n : Nat) : (sphere realTrig sh (n + 2)).vs =
    ⟨0, 1 / 2, 0⟩ :: (((List.range (n + 1)).flatMap fun i => (List.range sh).map (globe sh (n + 2) (i + 1))) ++ [⟨0, -(1 / 2), 0⟩]) := by
  have e : span 0 (n + 2 + 1) = 0 :: ((List.range (n + 1)).map (· + 1) ++ [n + 2]) := by
    simp only [span, Nat.sub_zero, Nat.zero_add, List.map_id']
    rw [show n + 2 + 1 = (n + 2) + 1 from rfl, List.range_succ_eq_map, List.range_succ, List.map_append]
    rfl
  simp only [sphere, sphereInternal]
  rw [e, List.flatMap_cons, List.flatMap_append, List.flatMap_map]
  have h0 : sphereRow realTrig sh (n + 2) 0 = [⟨0, 1 / 2, 0⟩] := by simp [sphereRow]
  have h1 : sphereRow realTrig sh (n + 2) (n + 2) = [⟨0, -(1 / 2), 0⟩] := by simp [sphereRow]
  rw [h0, List.flatMap_singleton, h1, List.singleton_append]
  congr 2
  apply List.flatMap_congr
  intro i hi
  rw [List.mem_range] at hi
  unfold sphereRow
  rw [if_neg (by omega), if_neg (by omega)]
  rfl

theorem sphere_vertex (sh n i j : Nat) (hi : 1 ≤ i) (hi' : i ≤ n + 1) (hj : j < sh) :
    (sphere realTrig sh (n + 2)).vs[1 + (i - 1) * sh + j]? = some (globe sh (n + 2) i j) := by
  rw [sphere_rows, show 1 + (i - 1) * sh + j = ((i - 1) * sh + j) + 1 by omega, List.getElem?_cons_succ]
  have hl : ((List.range (n + 1)).flatMap fun i => (List.range sh).map (globe sh (n + 2) (i + 1))).length = (n + 1) * sh := by
    rw [List.length_flatMap]
    exact sum_const _ sh (n + 1) fun k _ => by simp
  have : (i - 1) * sh + j < (n + 1) * sh := by
    calc (i - 1) * sh + j < (i - 1) * sh + sh := by omega
      _ = (i - 1 + 1) * sh := by ring
      _ ≤ (n + 1) * sh := Nat.mul_le_mul_right _ (by omega)
  rw [List.getElem?_append_left (by omega),
    getElem?_flatMap_const _ sh (n + 1) (fun _ _ => by simp) (i - 1) j (by omega) hj, List.getElem?_map, List.getElem?_range hj,
    Nat.sub_add_cancel hi]
  rfl

theorem sphere_bottom (sh n j : Nat) : (sphere realTrig sh (n + 2)).vs[1 + (n + 1) * sh]? = some (globe sh (n + 2) (n + 2) j) := by
  rw [sphere_rows, show 1 + (n + 1) * sh = ((n + 1) * sh) + 1 by omega, List.getElem?_cons_succ, globe_bottom _ _ _ (by omega)]
  have hl : ((List.range (n + 1)).flatMap fun i => (List.range sh).map (globe sh (n + 2) (i + 1))).length = (n + 1) * sh := by
    rw [List.length_flatMap]
    exact sum_const _ sh (n + 1) fun k _ => by simp
  rw [List.getElem?_append_right (by omega), hl, Nat.sub_self]
  rfl

theorem globe_side (sh sv i j : Nat) : side (globe sh sv i j) (globe sh sv (i + 1) j) (globe sh sv (i + 1) (j + 1)) =
    -(1 / 8 * Real.sin (1 / sh * Real.pi * 2) * Real.sin ((i + 1 : Nat) / sv * Real.pi) * Real.sin (1 / sv * Real.pi)) := by
  have e : ((j + 1 : Nat) : ℝ) / sh * 2 * Real.pi = j / sh * 2 * Real.pi + 1 / sh * Real.pi * 2 := by push_cast; ring
  have e' : (1 : ℝ) / sv * Real.pi = (i + 1 : Nat) / sv * Real.pi - i / sv * Real.pi := by push_cast; ring
  rw [e', Real.sin_sub]
  simp only [side, globe, Vec3.sub, Vec3.cross, Vec3.dot]
  rw [e, Real.cos_add, Real.sin_add]
  generalize (j : ℝ) / sh * 2 * Real.pi = a
  generalize (1 : ℝ) / sh * Real.pi * 2 = b
  generalize (i : ℝ) / sv * Real.pi = c
  generalize ((i + 1 : Nat) : ℝ) / sv * Real.pi = d
  have h1 := Real.sin_sq_add_cos_sq a
  linear_combination (-(1 / 8) * Real.sin b * Real.sin d * (Real.sin d * Real.cos c - Real.cos d * Real.sin c)) * h1

theorem globe_side' (sh sv i j : Nat) : side (globe sh sv i j) (globe sh sv (i + 1) j) (globe sh sv i (j + 1)) =
    -(1 / 8 * Real.sin (1 / sh * Real.pi * 2) * Real.sin (i / sv * Real.pi) * Real.sin (1 / sv * Real.pi)) := by
  have e : ((j + 1 : Nat) : ℝ) / sh * 2 * Real.pi = j / sh * 2 * Real.pi + 1 / sh * Real.pi * 2 := by push_cast; ring
  have e' : (1 : ℝ) / sv * Real.pi = (i + 1 : Nat) / sv * Real.pi - i / sv * Real.pi := by push_cast; ring
  rw [e', Real.sin_sub]
  simp only [side, globe, Vec3.sub, Vec3.cross, Vec3.dot]
  rw [e, Real.cos_add, Real.sin_add]
  generalize (j : ℝ) / sh * 2 * Real.pi = a
  generalize (1 : ℝ) / sh * Real.pi * 2 = b
  generalize (i : ℝ) / sv * Real.pi = c
  generalize ((i + 1 : Nat) : ℝ) / sv * Real.pi = d
  have h1 := Real.sin_sq_add_cos_sq a
  linear_combination (-(1 / 8) * Real.sin b * Real.sin c * (Real.sin d * Real.cos c - Real.cos d * Real.sin c)) * h1

theorem sin_row (sv i : Nat) (h0 : 0 < i) (h1 : i < sv) : 0 < Real.sin (i / sv * Real.pi) := by
  have a : (0 : ℝ) < i := by exact_mod_cast h0
  have b : (i : ℝ) < sv := by exact_mod_cast h1
  have hp := Real.pi_pos
  apply Real.sin_pos_of_pos_of_lt_pi
  · exact mul_pos (div_pos a (by linarith)) hp
  · have : (i : ℝ) / sv < 1 := (div_lt_one (by linarith)).2 b
    nlinarith

/-- C191; C192 is false for spheres: their faces are seen from outside, but each shows the picture mirrored. -/
theorem sphere_mirrored_false (sh sv : Nat) (hs : 3 ≤ sh) (hv : 2 ≤ sv) (i j : Nat) (hi : i < sv) (hj : j < sh) :
    ∃ p q r a b c, (sphere realTrig sh sv).Corners (i * sh + j) p q r a b c ∧ side p q r < 0 ∧ picture a b c < 0 := by
  obtain ⟨n, rfl⟩ : ∃ n, sv = n + 2 := ⟨sv - 2, by omega⟩
  have ho : sphereOfs sh 0 (n + 2) 0 = 1 := by simp [sphereOfs]
  have e0 : span 0 (n + 2) = List.range (n + 2) := by simp [span]
  have hf : (sphere realTrig sh (n + 2)).faces[i * sh + j]? = some (sphereFace sh (n + 2) 1 i j) := by
    simp only [sphere, sphereInternal]
    rw [ho, e0, getElem?_flatMap_const _ sh (n + 2) (fun _ _ => by simp) i j hi hj, List.getElem?_map, List.getElem?_range hj]
    rfl
  have hu : (sphere realTrig sh (n + 2)).uvs[i * sh + j]? = some (sphereUV sh (n + 2) i j) := by
    simp only [sphere, sphereInternal]
    rw [e0, getElem?_flatMap_const _ sh (n + 2) (fun _ _ => by simp) i j hi hj, List.getElem?_map, List.getElem?_range hj]
    rfl
  have hn : (j + 1) % sh < sh := Nat.mod_lt _ (by omega)
  have s1 := sin_step sh hs
  have s2 := sin_row (n + 2) 1 (by omega) (by omega)
  rw [Nat.cast_one] at s2
  have a1 : (0 : ℝ) < 1 / sh := by
    have : (0 : ℝ) < sh := by exact_mod_cast (by omega : 0 < sh)
    positivity
  have a2 : (0 : ℝ) < 1 / ((n + 2 : Nat) : ℝ) := by
    have : (0 : ℝ) < ((n + 2 : Nat) : ℝ) := by exact_mod_cast (by omega : 0 < n + 2)
    positivity
  have u1 : ((j + 1 : Nat) : ℝ) / sh = j / sh + 1 / sh := by push_cast; ring
  have u2 : ((i + 1 : Nat) : ℝ) / ((n + 2 : Nat) : ℝ) = i / ((n + 2 : Nat) : ℝ) + 1 / ((n + 2 : Nat) : ℝ) := by
    rw [Nat.cast_add i 1]; ring
  by_cases h0 : i = 0
  · subst h0
    refine ⟨globe sh (n + 2) 0 j, globe sh (n + 2) 1 j, globe sh (n + 2) 1 (j + 1), _, _, _,
      ⟨0, (j : Int) + 1, (((j + 1) % sh : Nat) : Int) + 1, [], [], ?_, by rw [hu]; simp only [sphereUV]; rfl, by omega, by omega, by omega, ?_, ?_, ?_⟩, ?_, ?_⟩
    · rw [hf]
      simp [sphereFace]
    · rw [sphere_rows, globe_top]
      rfl
    · have := sphere_vertex sh n 1 j (by omega) (by omega) hj
      rw [show ((j : Int) + 1).toNat = 1 + (1 - 1) * sh + j by omega]
      exact this
    · have := sphere_vertex sh n 1 ((j + 1) % sh) (by omega) (by omega) hn
      rw [show ((((j + 1) % sh : Nat) : Int) + 1).toNat = 1 + (1 - 1) * sh + (j + 1) % sh by omega, this, globe_next _ _ _ _ hj]
    · rw [globe_side sh (n + 2) 0 j]
      have s3 := sin_row (n + 2) 1 (by omega) (by omega)
      have := mul_pos (mul_pos s1 s3) s2
      linarith
    · simp only [picture]
      rw [u1, u2]
      nlinarith [mul_pos a1 a2]
  · by_cases hl : i = n + 1
    · subst hl
      refine ⟨globe sh (n + 2) (n + 1) j, globe sh (n + 2) (n + 2) j, globe sh (n + 2) (n + 1) (j + 1), _, _, _,
        ⟨(n : Int) * sh + j + 1, ((n : Int) + 1) * sh + 1, (n : Int) * sh + (((j + 1) % sh : Nat) : Int) + 1, [], [], ?_,
          by rw [hu]; simp only [sphereUV]; rw [if_neg (by omega), if_pos (by push_cast; omega)], by positivity, by positivity, by positivity, ?_, ?_, ?_⟩, ?_, ?_⟩
      · rw [hf]
        simp only [sphereFace]
        rw [if_neg (by omega), if_pos (by push_cast; omega)]
        simp
      · have := sphere_vertex sh n (n + 1) j (by omega) (by omega) hj
        rw [show ((n : Int) * sh + j + 1).toNat = 1 + (n + 1 - 1) * sh + j by
          rw [Nat.add_sub_cancel, ← Int.toNat_natCast (1 + n * sh + j)]; congr 1; push_cast; ring]
        exact this
      · have := sphere_bottom sh n j
        rw [show (((n : Int) + 1) * sh + 1).toNat = 1 + (n + 1) * sh by
          rw [← Int.toNat_natCast (1 + (n + 1) * sh)]; congr 1; push_cast; ring]
        exact this
      · have := sphere_vertex sh n (n + 1) ((j + 1) % sh) (by omega) (by omega) hn
        rw [show ((n : Int) * sh + (((j + 1) % sh : Nat) : Int) + 1).toNat = 1 + (n + 1 - 1) * sh + (j + 1) % sh by
          rw [Nat.add_sub_cancel, ← Int.toNat_natCast (1 + n * sh + (j + 1) % sh)]; congr 1; push_cast; ring, this, globe_next _ _ _ _ hj]
      · rw [globe_side' sh (n + 2) (n + 1) j]
        have s3 := sin_row (n + 2) (n + 1) (by omega) (by omega)
        have := mul_pos (mul_pos s1 s3) s2
        linarith
      · simp only [picture]
        rw [u1, u2]
        nlinarith [mul_pos a1 a2]
    · obtain ⟨m, rfl⟩ : ∃ m, i = m + 1 := ⟨i - 1, by omega⟩
      refine ⟨globe sh (n + 2) (m + 1) j, globe sh (n + 2) (m + 2) j, globe sh (n + 2) (m + 2) (j + 1), _, _, _,
        ⟨(m : Int) * sh + j + 1, ((m : Int) + 1) * sh + j + 1, ((m : Int) + 1) * sh + (((j + 1) % sh : Nat) : Int) + 1,
          [(m : Int) * sh + (((j + 1) % sh : Nat) : Int) + 1], _, ?_,
          by rw [hu]; simp only [sphereUV]; rw [if_neg (by omega), if_neg (by push_cast; omega)], by positivity, by positivity, by positivity, ?_, ?_, ?_⟩, ?_, ?_⟩
      · rw [hf]
        simp only [sphereFace]
        rw [if_neg (by omega), if_neg (by push_cast; omega)]
        simp
      · have := sphere_vertex sh n (m + 1) j (by omega) (by omega) hj
        rw [show ((m : Int) * sh + j + 1).toNat = 1 + (m + 1 - 1) * sh + j by
          rw [Nat.add_sub_cancel, ← Int.toNat_natCast (1 + m * sh + j)]; congr 1; push_cast; ring]
        exact this
      · have := sphere_vertex sh n (m + 2) j (by omega) (by omega) hj
        rw [show (((m : Int) + 1) * sh + j + 1).toNat = 1 + (m + 2 - 1) * sh + j by
          rw [show m + 2 - 1 = m + 1 by omega, ← Int.toNat_natCast (1 + (m + 1) * sh + j)]; congr 1; push_cast; ring]
        exact this
      · have := sphere_vertex sh n (m + 2) ((j + 1) % sh) (by omega) (by omega) hn
        rw [show (((m : Int) + 1) * sh + (((j + 1) % sh : Nat) : Int) + 1).toNat = 1 + (m + 2 - 1) * sh + (j + 1) % sh by
          rw [show m + 2 - 1 = m + 1 by omega, ← Int.toNat_natCast (1 + (m + 1) * sh + (j + 1) % sh)]; congr 1; push_cast; ring,
          this, globe_next _ _ _ _ hj]
      · rw [globe_side sh (n + 2) (m + 1) j]
        have s3 := sin_row (n + 2) (m + 1 + 1) (by omega) (by omega)
        have := mul_pos (mul_pos s1 s3) s2
        linarith
      · simp only [picture]
        rw [u1, u2]
        nlinarith [mul_pos a1 a2]

/-- The hypotheses are met by every face of the sphere of Unity scenes. -/
example : (sphere realTrig 32 16).faces.length = 16 * 32 ∧ ∀ k < 16 * 32, ∃ i j, i < 16 ∧ j < 32 ∧ k = i * 32 + j := by
  refine ⟨?_, fun k hk => ⟨k / 32, k % 32, by omega, by omega, by omega⟩⟩
  simp [sphere, sphereInternal, List.length_flatMap, span]

/-! ### Capsules -/

/-- C192 is false for capsules: of neighbouring faces, which are oriented alike (C97), one shows the picture mirrored and
the other as it is: the face `3 * s + j` of the upper cap and the face `4 * s + j` of the wall. -/
theorem capsule_mirrored_false (s : Nat) (hs : 3 ≤ s) (j : Nat) (hj : j < s) : ∃ a b c u a' b' c' u',
    (capsule realTrig s).uvs[3 * s + j]? = some (a :: b :: c :: u) ∧ picture a b c < 0 ∧
    (capsule realTrig s).uvs[4 * s + j]? = some (a' :: b' :: c' :: u') ∧ 0 < picture a' b' c' := by
  have hs0 : (0 : ℝ) < s := by exact_mod_cast (by omega : 0 < s)
  have a1 : (0 : ℝ) < 1 / s := by positivity
  have e : ((j + 1 : Nat) : ℝ) / s = j / s + 1 / s := by push_cast; ring
  have e0 : span 0 4 = List.range 4 := by simp [span]
  have hl : ((List.range 4).flatMap fun i => (List.range s).map (sphereUV (F := ℝ) s 8 i)).length = 4 * s := by
    rw [List.length_flatMap]
    exact sum_const _ s 4 fun k _ => by simp
  refine ⟨((j : ℝ) / s, (3 : Nat) / (8 : Nat)), ((j : ℝ) / s, (4 : Nat) / (8 : Nat)), (((j + 1 : Nat) : ℝ) / s, (4 : Nat) / (8 : Nat)),
    [(((j + 1 : Nat) : ℝ) / s, (3 : Nat) / (8 : Nat))], (1 - (j : ℝ) / s, 0), (1 - (j : ℝ) / s, 1),
    (1 - ((j + 1 : Nat) : ℝ) / s, 1), [(1 - ((j + 1 : Nat) : ℝ) / s, 0)], ?_, ?_, ?_, ?_⟩
  · simp only [capsule, sphereInternal]
    rw [e0, List.append_assoc, List.getElem?_append_left (by omega), getElem?_flatMap_const _ s 4 (fun _ _ => by simp) 3 j (by omega) hj,
      List.getElem?_map, List.getElem?_range hj]
    rfl
  · simp only [picture]
    rw [e]
    norm_num
    linarith
  · simp only [capsule, sphereInternal]
    rw [e0, List.append_assoc, List.getElem?_append_right (by omega), hl, Nat.add_sub_cancel_left,
      List.getElem?_append_left (by simpa using hj), List.getElem?_map, List.getElem?_range hj]
    rfl
  · simp only [picture]
    rw [e]
    norm_num
    linarith

/-- The two faces are neighbours: they have two vertices in common. -/
example : (capsule (F := ℚ) ⟨id, id, 3⟩ 3).faces[3 * 3 + 1]? = some [8, 11, 12, 9] ∧
    (capsule (F := ℚ) ⟨id, id, 3⟩ 3).faces[4 * 3 + 1]? = some [11, 14, 15, 12] := by decide +kernel

/-! ### Flat meshes -/

/-- C192. The plane is seen from above and the quad from the viewer's side, and both show the picture as it is. -/
theorem flat_picture :
    (∃ p q r a b c, (plane (F := ℝ)).Corners 0 p q r a b c ∧ ((q.sub p).cross (r.sub q)).y < 0 ∧ 0 < picture a b c) ∧
    (∃ p q r a b c, (quad (F := ℝ)).Corners 0 p q r a b c ∧ ((q.sub p).cross (r.sub q)).z < 0 ∧ 0 < picture a b c) := by
  constructor <;>
  refine ⟨_, _, _, _, _, _, ⟨_, _, _, _, _, rfl, rfl, by decide, by decide, by decide, rfl, rfl, rfl⟩, ?_, ?_⟩ <;>
  norm_num [picture, Vec3.sub, Vec3.cross]

/-! ### Coordinates -/

theorem frac_mem (i s : Nat) (h : i ≤ s) : 0 ≤ (i : ℝ) / s ∧ (i : ℝ) / s ≤ 1 := by
  constructor
  · positivity
  · exact div_le_one_of_le₀ (by exact_mod_cast h) (by positivity)

theorem sideUV_mem (s i : Nat) (h : i < s) : ∀ x ∈ sideUV (F := ℝ) s i, 0 ≤ x.1 ∧ x.1 ≤ 1 ∧ 0 ≤ x.2 ∧ x.2 ≤ 1 := by
  have h1 := frac_mem i s (by omega)
  have h2 := frac_mem (i + 1) s (by omega)
  intro x hx
  simp only [sideUV, List.mem_cons, List.not_mem_nil, or_false] at hx
  rcases hx with rfl | rfl | rfl | rfl <;> refine ⟨?_, ?_, ?_, ?_⟩ <;> simp only <;> linarith

theorem sphereUV_mem (sh sv i j : Nat) (hi : i < sv) (hj : j < sh) : ∀ x ∈ sphereUV (F := ℝ) sh sv i j,
    0 ≤ x.1 ∧ x.1 ≤ 1 ∧ 0 ≤ x.2 ∧ x.2 ≤ 1 := by
  have h1 := frac_mem j sh (by omega)
  have h2 := frac_mem (j + 1) sh (by omega)
  have h3 := frac_mem i sv (by omega)
  have h4 := frac_mem (i + 1) sv (by omega)
  intro x hx
  unfold sphereUV at hx
  simp only at hx
  split at hx
  · simp only [List.mem_cons, List.not_mem_nil, or_false] at hx
    rcases hx with rfl | rfl | rfl <;> refine ⟨?_, ?_, ?_, ?_⟩ <;> simp only <;> linarith
  · split at hx <;> simp only [List.mem_cons, List.not_mem_nil, or_false] at hx
    · rcases hx with rfl | rfl | rfl <;> refine ⟨?_, ?_, ?_, ?_⟩ <;> simp only <;> linarith
    · rcases hx with rfl | rfl | rfl | rfl <;> refine ⟨?_, ?_, ?_, ?_⟩ <;> simp only <;> linarith

theorem internalUV_mem (T : Trig ℝ) (sh sv t b : Nat) (v : Int) (hb : b ≤ sv) : ∀ u ∈ (sphereInternal T sh sv t b v).uvs, ∀ x ∈ u,
    0 ≤ x.1 ∧ x.1 ≤ 1 ∧ 0 ≤ x.2 ∧ x.2 ≤ 1 := by
  intro u hu
  simp only [sphereInternal, List.mem_flatMap, List.mem_map, List.mem_range, mem_span] at hu
  obtain ⟨i, hi, j, hj, rfl⟩ := hu
  exact sphereUV_mem sh sv i j (by omega) hj

/-- C192. The texture coordinates of all built-in meshes are within the picture. -/
theorem builtin_uv (T : Trig ℝ) (builtin : Bool) (id : Int) (m : Mesh ℝ) (h : builtinMesh T builtin id = some m) :
    ∀ u ∈ m.uvs, ∀ x ∈ u, 0 ≤ x.1 ∧ x.1 ≤ 1 ∧ 0 ≤ x.2 ∧ x.2 ≤ 1 := by
  unfold builtinMesh at h
  split at h
  swap
  · cases h
  split at h
  · cases h
    intro u hu x hx
    simp only [cube, List.mem_cons, List.not_mem_nil, or_false] at hu
    rcases hu with rfl | rfl | rfl | rfl | rfl | rfl <;> simp only [List.mem_cons, List.not_mem_nil, or_false] at hx <;>
    rcases hx with rfl | rfl | rfl | rfl <;> norm_num
  split at h
  · cases h
    intro u hu
    simp only [cylinder, List.mem_append, List.mem_map, List.mem_range, List.mem_cons, List.not_mem_nil, or_false] at hu
    rcases hu with ⟨i, hi, rfl⟩ | rfl | rfl
    · exact sideUV_mem 32 i hi
    all_goals
      intro x hx
      simp only [List.mem_map, List.mem_range] at hx
      obtain ⟨i, hi, rfl⟩ := hx
      exact ⟨(frac_mem i 32 (by omega)).1, (frac_mem i 32 (by omega)).2, by norm_num, by norm_num⟩
  split at h
  · cases h
    exact internalUV_mem T 32 16 0 16 0 (by omega)
  split at h
  · cases h
    intro u hu
    simp only [capsule, List.mem_append] at hu
    rcases hu with (hu | hu) | hu
    · exact internalUV_mem T 32 8 0 4 _ (by omega) u hu
    · simp only [List.mem_map, List.mem_range] at hu
      obtain ⟨i, hi, rfl⟩ := hu
      exact sideUV_mem 32 i hi
    · exact internalUV_mem T 32 8 4 8 _ (by omega) u hu
  split at h
  · cases h
    intro u hu x hx
    simp only [plane, List.mem_cons, List.not_mem_nil, or_false] at hu
    subst hu
    simp only [List.mem_cons, List.not_mem_nil, or_false] at hx
    rcases hx with rfl | rfl | rfl | rfl <;> norm_num
  split at h
  · cases h
    intro u hu x hx
    simp only [quad, List.mem_cons, List.not_mem_nil, or_false] at hu
    subst hu
    simp only [List.mem_cons, List.not_mem_nil, or_false] at hx
    rcases hx with rfl | rfl | rfl | rfl <;> norm_num
  · cases h

/-- There are six such meshes. -/
example (T : Trig ℝ) : (builtinMesh T true 10202).isSome ∧ (builtinMesh T true 10208).isSome := by
  constructor <;> simp [builtinMesh]

end Verif.Unity
