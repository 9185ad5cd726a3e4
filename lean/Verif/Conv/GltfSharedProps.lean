import Verif.Conv.GltfSharedLemmas
import Mathlib.Algebra.Field.Rat
import Mathlib.Tactic.NormNum

/-! Properties C153 (reusing geometry shows the same scene) and C154 (exported lights). -/

namespace Verif.Conv

open Verif.Geom
open Verif.Mqo (Str)

variable {F : Type}

/-- Where the point `p` of the mesh of a node is shown. Nodes with a matrix have no parent with a matrix
(converter/mqo2gltf.go:886-888). -/
def shownAt [Add F] [Mul F] (n : Option (Mat4 F)) (p : Vec3 F) : Vec3 F :=
  match n with
  | none => p
  | some m => m.applyTo p

/-- All points of an exported object, where they are shown. -/
def shownPoints [Add F] [Mul F] (y : OutMesh F × Option (Mat4 F)) : List (Vec3 F) := y.1.attrs.pos.map (shownAt y.2)

section

variable [Field F] [DecidableEq F]

theorem inverse_affine (m : Mat4 F) (ha : m.Affine) (hd : m.det ≠ 0) : m.inverse.Affine := by
  have h := (inverse_spec m hd).2
  obtain ⟨h3, h7, h11, h15⟩ := ha
  have hd' : m.m0 * m.t11 + m.m1 * m.t12 + m.m2 * m.t13 + m.m3 * m.t14 = m.det := rfl
  have e15 := congrArg Mat4.m15 (inverse_spec m hd).1
  have e3 := congrArg Mat4.m3 (inverse_spec m hd).1
  have e7 := congrArg Mat4.m7 (inverse_spec m hd).1
  have e11 := congrArg Mat4.m11 (inverse_spec m hd).1
  simp only [Mat4.mul, Mat4.one, h3, h7, h11, h15, mul_zero, zero_add, mul_one] at e3 e7 e11 e15
  exact ⟨e3, e7, e11, e15⟩

omit [DecidableEq F] in
theorem applyTo_between (m : Mat4 F) (p : Vec3 F) (s : F) :
    m.applyTo (p.scale s) = ((m.applyTo p).scale s).add ((m.applyTo ⟨0, 0, 0⟩).scale (1 - s)) := by
  ext <;> simp only [Mat4.applyTo, Vec3.scale, Vec3.add] <;> ring

omit [DecidableEq F] in
theorem lastRow_affine (m : Mat4 F) (h : m.Affine) : lastRow m = m := by
  obtain ⟨h3, h7, h11, h15⟩ := h
  ext <;> simp [lastRow, h3, h7, h11, h15]

omit [DecidableEq F] in
theorem translationScale_affine (m : Mat4 F) (s : F) (h : m.Affine) : (m.translationScale s).Affine := h

/-- The point that a node with shared geometry shows, and the difference to the right place. -/
theorem shared_point (s : F) (t tz : Mat4 F) (ht : t.Affine) (hz : tz.Affine) (hd : tz.det ≠ 0) (l : Vec3 F) :
    (lastRow ((t.translationScale s).mul tz.inverse)).applyTo ((tz.applyTo l).scale s) =
      ((t.applyTo l).scale s).add (((t.applyTo (tz.inverse.applyTo ⟨0, 0, 0⟩)).sub (t.applyTo ⟨0, 0, 0⟩)).scale (1 - s)) := by
  have hi := inverse_affine tz hz hd
  rw [lastRow_affine _ (affine_mul _ _ (translationScale_affine t s ht) hi), applyTo_mul _ _ hi, applyTo_between,
    inverse_applyTo tz hz hd]
  generalize tz.inverse.applyTo ⟨0, 0, 0⟩ = c
  ext <;> simp only [Mat4.applyTo, Mat4.translationScale, Vec3.scale, Vec3.add, Vec3.sub] <;> ring

theorem inverse_zero (tz : Mat4 F) (hz : tz.Affine) (hd : tz.det ≠ 0) :
    tz.inverse.applyTo ⟨0, 0, 0⟩ = ⟨0, 0, 0⟩ ↔ tz.applyTo ⟨0, 0, 0⟩ = ⟨0, 0, 0⟩ := by
  have hi := inverse_affine tz hz hd
  have hback : tz.applyTo (tz.inverse.applyTo ⟨0, 0, 0⟩) = ⟨0, 0, 0⟩ := by
    rw [← applyTo_mul _ _ hi, (inverse_spec tz hd).1]
    ext <;> simp [Mat4.one, Mat4.applyTo]
  constructor
  · intro h
    rwa [h] at hback
  · intro h
    have := inverse_applyTo tz hz hd ⟨0, 0, 0⟩
    rwa [h] at this

theorem shared_point_iff (s : F) (t tz : Mat4 F) (ht : t.Affine) (hdt : t.det ≠ 0) (hz : tz.Affine) (hd : tz.det ≠ 0)
    (l : Vec3 F) :
    (lastRow ((t.translationScale s).mul tz.inverse)).applyTo ((tz.applyTo l).scale s) = (t.applyTo l).scale s ↔
      s = 1 ∨ tz.applyTo ⟨0, 0, 0⟩ = ⟨0, 0, 0⟩ := by
  rw [shared_point s t tz ht hz hd]
  constructor
  · intro h
    by_cases hs : s = 1
    · exact .inl hs
    · right
      rw [← inverse_zero tz hz hd]
      have h1 : (1 - s) ≠ 0 := fun e => hs (by linear_combination -e)
      have hx := congrArg Vec3.x h
      have hy := congrArg Vec3.y h
      have hzz := congrArg Vec3.z h
      simp only [Vec3.add, Vec3.scale, Vec3.sub, add_eq_left, mul_eq_zero, h1, or_false, sub_eq_zero] at hx hy hzz
      have e : t.applyTo (tz.inverse.applyTo ⟨0, 0, 0⟩) = t.applyTo ⟨0, 0, 0⟩ := Vec3.ext hx hy hzz
      have e2 := congrArg t.inverse.applyTo e
      rwa [inverse_applyTo t ht hdt, inverse_applyTo t ht hdt] at e2
  · rintro (rfl | h)
    · ext <;> simp [Vec3.add, Vec3.scale]
    · rw [(inverse_zero tz hz hd).2 h]
      ext <;> simp [Vec3.add, Vec3.scale, Vec3.sub]

/-! ## C153 -/

/-- Two objects show the mesh with the points `ls`, one under the transform `t`, the other under `tz`. -/
def SameMesh (s : F) (ls : List (Vec3 F)) (t : Mat4 F) (x : GItem F) : Prop :=
  x.internal = some t ∧ x.mesh.skipped = false ∧ x.mesh.pos = ls.map fun l => (t.applyTo l).scale s

/-- C153. Objects that show the same mesh with a shared key: the points of an object are shown where they belong
exactly if the scale of the export is 1 or the first of the objects stands at the origin. -/
theorem reuse_place_iff (s : F) (lights : Bool) (count : Str → Nat) (xs : List (GItem F))
    (ys : List (OutMesh F × Option (Mat4 F))) (h : exportItems s true lights count (fun _ => none) xs = some ys)
    (i : Nat) (x z : GItem F) (hx : xs[i]? = some x) (k : Str) (hk : x.key = some k) (hc : 1 < count k)
    (hf : xs.find? (fun x => x.key == some k) = some z) (ls : List (Vec3 F)) (hls : ls ≠ [])
    (t tz : Mat4 F) (ht : t.Affine) (hdt : t.det ≠ 0) (htz : tz.Affine) (hdz : tz.det ≠ 0)
    (hmx : SameMesh s ls t x) (hmz : SameMesh s ls tz z) :
    ∃ y, ys[i]? = some y ∧ (shownPoints y = x.mesh.pos ↔ s = 1 ∨ tz.applyTo ⟨0, 0, 0⟩ = ⟨0, 0, 0⟩) := by
  have hcached : Cached count ([] : List (GItem F)) fun _ => none := by
    intro k _
    simp [firstWith]
  obtain ⟨y, hy, hy2⟩ := exportItems_loop s lights count xs [] _ ys hcached h i x hx
  refine ⟨y, hy, ?_⟩
  obtain ⟨tz', h1, h2, -, -, h5⟩ := hy2 k z hk hc hf hmz.2.1 hmx.2.1
  rw [hmz.1] at h1
  cases h1
  have h5 := h5 t hmx.1
  unfold shownPoints
  rw [h2, h5, hmx.2.2, hmz.2.2]
  simp only [List.map_map, shownAt]
  obtain ⟨l0, ls', rfl⟩ := List.exists_cons_of_ne_nil hls
  constructor
  · intro e
    simp only [List.map_cons, List.cons.injEq, Function.comp] at e
    exact (shared_point_iff s t tz ht hdt htz hdz l0).1 e.1
  · intro hs
    apply List.map_congr_left
    intro l _
    exact (shared_point_iff s t tz ht hdt htz hdz l).2 hs

/-- C153. Reusing geometry shows an object in its place if the first object with the mesh stands at the origin.
Missing: other places, for which it is false (`reuse_place_false`). -/
theorem reuse_place_partial (s : F) (lights : Bool) (count : Str → Nat) (xs : List (GItem F))
    (ys : List (OutMesh F × Option (Mat4 F))) (h : exportItems s true lights count (fun _ => none) xs = some ys)
    (i : Nat) (x z : GItem F) (hx : xs[i]? = some x) (k : Str) (hk : x.key = some k) (hc : 1 < count k)
    (hf : xs.find? (fun x => x.key == some k) = some z) (ls : List (Vec3 F)) (hls : ls ≠ [])
    (t tz : Mat4 F) (ht : t.Affine) (hdt : t.det ≠ 0) (htz : tz.Affine) (hdz : tz.det ≠ 0)
    (hmx : SameMesh s ls t x) (hmz : SameMesh s ls tz z) (h0 : tz.applyTo ⟨0, 0, 0⟩ = ⟨0, 0, 0⟩) :
    ∃ y, ys[i]? = some y ∧ shownPoints y = x.mesh.pos := by
  obtain ⟨y, h1, h2⟩ := reuse_place_iff s lights count xs ys h i x z hx k hk hc hf ls hls t tz ht hdt htz hdz hmx hmz
  exact ⟨y, h1, h2.2 (.inr h0)⟩

/-- C153 is false: with a scale other than 1 (the default is 1/1000) every object with shared geometry, also the
first one, is shown in a wrong place if the first one does not stand at the origin. -/
theorem reuse_place_false (s : F) (hs : s ≠ 1) (lights : Bool) (count : Str → Nat) (xs : List (GItem F))
    (ys : List (OutMesh F × Option (Mat4 F))) (h : exportItems s true lights count (fun _ => none) xs = some ys)
    (i : Nat) (x z : GItem F) (hx : xs[i]? = some x) (k : Str) (hk : x.key = some k) (hc : 1 < count k)
    (hf : xs.find? (fun x => x.key == some k) = some z) (ls : List (Vec3 F)) (hls : ls ≠ [])
    (t tz : Mat4 F) (ht : t.Affine) (hdt : t.det ≠ 0) (htz : tz.Affine) (hdz : tz.det ≠ 0)
    (hmx : SameMesh s ls t x) (hmz : SameMesh s ls tz z) (h0 : tz.applyTo ⟨0, 0, 0⟩ ≠ ⟨0, 0, 0⟩) :
    ∃ y, ys[i]? = some y ∧ shownPoints y ≠ x.mesh.pos := by
  obtain ⟨y, h1, h2⟩ := reuse_place_iff s lights count xs ys h i x z hx k hk hc hf ls hls t tz ht hdt htz hdz hmx hmz
  exact ⟨y, h1, fun e => (h2.1 e).elim hs h0⟩

/-- C153. The triangles of an object with shared geometry are its own if the triangles of its materials are those of
the materials of the first object with the mesh, in the same order. -/
theorem reuse_faces_partial (s : F) (lights : Bool) (count : Str → Nat) (xs : List (GItem F))
    (ys : List (OutMesh F × Option (Mat4 F))) (h : exportItems s true lights count (fun _ => none) xs = some ys)
    (i : Nat) (x z : GItem F) (hx : xs[i]? = some x) (k : Str) (hk : x.key = some k) (hc : 1 < count k)
    (hf : xs.find? (fun x => x.key == some k) = some z) (hxs : x.mesh.skipped = false) (hzs : z.mesh.skipped = false)
    (he : x.mesh.prims.map (·.2) = z.mesh.prims.map (·.2)) :
    ∃ y, ys[i]? = some y ∧ y.1.prims = x.mesh.prims := by
  have hcached : Cached count ([] : List (GItem F)) fun _ => none := by
    intro k _
    simp [firstWith]
  obtain ⟨y, hy, hy2⟩ := exportItems_loop s lights count xs [] _ ys hcached h i x hx
  obtain ⟨-, -, -, -, h4, -⟩ := hy2 k z hk hc hf hzs hxs
  exact ⟨y, hy, by rw [h4, ← he, zip_self]⟩

/-- C153 is false: the export panics if an object has more materials than the first object with the mesh. -/
theorem reuse_panics_false (s : F) (lights : Bool) (count : Str → Nat) (xs : List (GItem F))
    (i : Nat) (x z : GItem F) (hx : xs[i]? = some x) (k : Str) (hk : x.key = some k) (hc : 1 < count k)
    (hf : xs.find? (fun x => x.key == some k) = some z) (hxs : x.mesh.skipped = false) (hzs : z.mesh.skipped = false)
    (hl : z.mesh.prims.length < x.mesh.prims.length) :
    exportItems s true lights count (fun _ => none) xs = none := by
  cases h : exportItems s true lights count (fun _ => none) xs with
  | none => rfl
  | some ys =>
    have hcached : Cached count ([] : List (GItem F)) fun _ => none := by
      intro k _
      simp [firstWith]
    obtain ⟨y, hy, hy2⟩ := exportItems_loop s lights count xs [] _ ys hcached h i x hx
    obtain ⟨-, -, -, h3, -, -⟩ := hy2 k z hk hc hf hzs hxs
    omega

/-- C153 is false: an object with fewer materials than the first object with the mesh loses the triangles of the
others. -/
theorem reuse_loses_false (s : F) (lights : Bool) (count : Str → Nat) (xs : List (GItem F))
    (ys : List (OutMesh F × Option (Mat4 F))) (h : exportItems s true lights count (fun _ => none) xs = some ys)
    (i : Nat) (x z : GItem F) (hx : xs[i]? = some x) (k : Str) (hk : x.key = some k) (hc : 1 < count k)
    (hf : xs.find? (fun x => x.key == some k) = some z) (hxs : x.mesh.skipped = false) (hzs : z.mesh.skipped = false)
    (m : Nat) (a : Nat × List Nat) (rest : List (Nat × List Nat)) (hpz : z.mesh.prims = a :: rest)
    (hpx : x.mesh.prims = [(m, (z.mesh.prims.map (·.2)).flatten)]) :
    ∃ y, ys[i]? = some y ∧ y.1.prims = [(m, a.2)] := by
  have hcached : Cached count ([] : List (GItem F)) fun _ => none := by
    intro k _
    simp [firstWith]
  obtain ⟨y, hy, hy2⟩ := exportItems_loop s lights count xs [] _ ys hcached h i x hx
  obtain ⟨-, -, -, -, h4, -⟩ := hy2 k z hk hc hf hzs hxs
  exact ⟨y, hy, by rw [h4, hpx, hpz]; simp⟩

/-- C153 is false: the texture coordinates of an object with shared geometry are those of the first object with the
mesh, also if its own are others (the tiling of another material). -/
theorem reuse_uv_false (s : F) (lights : Bool) (count : Str → Nat) (xs : List (GItem F))
    (ys : List (OutMesh F × Option (Mat4 F))) (h : exportItems s true lights count (fun _ => none) xs = some ys)
    (i : Nat) (x z : GItem F) (hx : xs[i]? = some x) (k : Str) (hk : x.key = some k) (hc : 1 < count k)
    (hf : xs.find? (fun x => x.key == some k) = some z) (hxs : x.mesh.skipped = false) (hzs : z.mesh.skipped = false)
    (hux : x.mesh.useUV = true) (huz : z.mesh.useUV = true) (hne : x.mesh.uv ≠ z.mesh.uv) :
    ∃ y, ys[i]? = some y ∧ y.1.attrs.uv ≠ some x.mesh.uv := by
  have hcached : Cached count ([] : List (GItem F)) fun _ => none := by
    intro k _
    simp [firstWith]
  obtain ⟨y, hy, hy2⟩ := exportItems_loop s lights count xs [] _ ys hcached h i x hx
  obtain ⟨-, -, h2, -, -, -⟩ := hy2 k z hk hc hf hzs hxs
  refine ⟨y, hy, ?_⟩
  rw [h2]
  simp only [hux, huz, ownAttrs, if_true]
  intro e
  exact hne (by simpa using e.symm)

/-- C153, C154. Without reuse every object has its own mesh; without a light its node has no matrix, so it is shown
where the document has it. -/
theorem own_geometry (s : F) (lights : Bool) (count : Str → Nat) (caches : Str → Option (GeomCache F)) (xs : List (GItem F)) :
    ∃ ys, exportItems s false lights count caches xs = some ys ∧ ys.length = xs.length ∧
      ∀ (i : Nat) (x : GItem F), xs[i]? = some x → ∃ y, ys[i]? = some y ∧
        y.1.attrs.pos = x.mesh.pos ∧ y.1.prims = x.mesh.prims ∧
        (x.mesh.useUV = true → y.1.attrs.uv = some x.mesh.uv) ∧ (x.normals = true → y.1.attrs.nrm = some x.mesh.nrm) ∧
        (lights = false ∨ x.light = false → shownPoints y = x.mesh.pos) := by
  induction xs with
  | nil => exact ⟨[], rfl, rfl, fun i x hx => by simp at hx⟩
  | cons x xs ih =>
    obtain ⟨ys, h1, h2, h3⟩ := ih
    have hs : sharedOf false count caches x = some none := by
      unfold sharedOf
      split
      · rw [if_neg]; simp
      · rfl
    refine ⟨(⟨ownAttrs x.normals x.mesh, x.mesh.prims⟩, nodeMatrix s lights x none) :: ys, ?_, by simp [h2], ?_⟩
    · simp only [exportItems, exportItem, hs, writeMesh_own, h1]
    · intro i x' hx'
      cases i with
      | succ i => exact h3 i x' (by simpa using hx')
      | zero =>
        simp only [List.getElem?_cons_zero, Option.some.injEq] at hx'
        subst hx'
        refine ⟨_, rfl, rfl, rfl, ?_, ?_, ?_⟩
        · intro hu; simp [ownAttrs, hu]
        · intro hn; simp [ownAttrs, hn]
        · intro hl
          have hm : nodeMatrix s lights x none = none := by
            unfold nodeMatrix
            split
            · rfl
            · rw [if_neg]
              rintro (⟨h, h'⟩ | h)
              · rcases hl with e | e <;> simp_all
              · simp at h
          have e : shownAt (F := F) none = id := rfl
          simp [shownPoints, hm, e, ownAttrs]

/-- C153. An object of which triangles are left out (materials that are ignored) has its own mesh, also if geometry is reused. -/
theorem skipped_geometry (s : F) (reuse lights : Bool) (count : Str → Nat) (caches caches' : Str → Option (GeomCache F))
    (x : GItem F) (y : OutMesh F × Option (Mat4 F)) (h : exportItem s reuse lights count caches x = some (y, caches'))
    (hs : x.mesh.skipped = true) :
    y.1.prims = x.mesh.prims ∧ y.1.attrs.pos = x.mesh.pos ∧ (x.mesh.useUV = true → y.1.attrs.uv = some x.mesh.uv) ∧
      (x.normals = true → y.1.attrs.nrm = some x.mesh.nrm) := by
  have own : ∀ sh m g, writeMesh x.normals x.mesh sh = some (m, g) → m = ⟨ownAttrs x.normals x.mesh, x.mesh.prims⟩ := by
    intro sh m g hw
    have ha : attrsOf x.normals x.mesh sh = ownAttrs x.normals x.mesh := by
      unfold attrsOf
      split
      · split
        · rw [if_pos hs]
        · rfl
      · rfl
    have hi : ∀ sh, indicesOf x.mesh sh = x.mesh.prims.map (·.2) := by
      intro sh
      unfold indicesOf
      split
      · rw [if_pos hs]
      · rfl
    unfold writeMesh at hw
    simp only [ha, hi] at hw
    split at hw
    · cases hw
    · simp only [Option.some.injEq, Prod.mk.injEq] at hw
      rw [← hw.1, zip_self]
  have hy : y.1 = ⟨ownAttrs x.normals x.mesh, x.mesh.prims⟩ := by
    unfold exportItem at h
    split at h
    · cases h
    · split at h
      · cases h
      · next m g hw =>
        simp only [Option.some.injEq, Prod.mk.injEq] at h
        rw [← h.1]
        exact own _ _ _ hw
    · split at h
      · cases h
      · next m g hw =>
        simp only [Option.some.injEq, Prod.mk.injEq] at h
        rw [← h.1]
        exact own _ _ _ hw
  rw [hy]
  refine ⟨rfl, rfl, ?_, ?_⟩
  · intro hu; simp [ownAttrs, hu]
  · intro hn; simp [ownAttrs, hn]

/-- C153 is false: such an object with a key that others have gets a matrix all the same; the first one with the key is
moved by the part of its place that the scale of the export takes away. -/
theorem skipped_place_false (s : F) (lights : Bool) (count : Str → Nat) (caches caches' : Str → Option (GeomCache F))
    (x : GItem F) (y : OutMesh F × Option (Mat4 F)) (h : exportItem s true lights count caches x = some (y, caches'))
    (k : Str) (hk : x.key = some k) (hc : 1 < count k) (hn : caches k = none) (t : Mat4 F) (hi : x.internal = some t)
    (ht : t.Affine) (hd : t.det ≠ 0) (p : Vec3 F) :
    shownAt y.2 p = p.add ((t.applyTo ⟨0, 0, 0⟩).scale (s - 1)) := by
  have hsh : sharedOf true count caches x = some (some (k, ⟨t.inverse, none, []⟩)) := by
    simp [sharedOf, hk, hc, hn, hi]
  unfold exportItem at h
  rw [hsh] at h
  simp only at h
  split at h
  · cases h
  · simp only [Option.some.injEq, Prod.mk.injEq] at h
    rw [← h.1]
    have hinv := inverse_affine t ht hd
    have hm : nodeMatrix s lights x (some ⟨t.inverse, none, []⟩) = some (lastRow ((t.translationScale s).mul t.inverse)) := by
      simp [nodeMatrix, hi, lastRow]
    rw [hm]
    simp only [shownAt]
    rw [lastRow_affine _ (affine_mul _ _ (translationScale_affine t s ht) hinv), applyTo_mul _ _ hinv]
    have hp : t.applyTo (t.inverse.applyTo p) = p := by
      rw [← applyTo_mul _ _ hinv, (inverse_spec t hd).1]
      ext <;> simp [Mat4.one, Mat4.applyTo]
    generalize t.inverse.applyTo p = q at hp ⊢
    rw [← hp]
    ext <;> simp only [Mat4.applyTo, Mat4.translationScale, Vec3.scale, Vec3.add] <;> ring

/-! ## C154 -/

/-- C154. The node of a light stands at the place of its object, in the units of the file. -/
theorem light_place (s : F) (count : Str → Nat) (caches caches' : Str → Option (GeomCache F)) (x : GItem F)
    (y : OutMesh F × Option (Mat4 F)) (h : exportItem s false true count caches x = some (y, caches'))
    (hl : x.light = true) (t : Mat4 F) (ht : x.internal = some t) :
    shownAt y.2 ⟨0, 0, 0⟩ = (t.applyTo ⟨0, 0, 0⟩).scale s := by
  have hs : sharedOf false count caches x = some none := by
    unfold sharedOf
    split
    · rw [if_neg]; simp
    · rfl
  simp only [exportItem, hs, writeMesh_own, Option.some.injEq, Prod.mk.injEq] at h
  obtain ⟨rfl, -⟩ := h
  simp only [nodeMatrix, ht, hl, and_self, true_or, if_true, shownAt]
  ext <;> simp [Mat4.applyTo, Mat4.translationScale, Vec3.scale]

/-- C154 is false: the points of a mesh at an object with a light, which already stand in their place, are moved once
more by the transform of the object. -/
theorem light_mesh_false (s c : F) (hc : c ≠ 1) (count : Str → Nat) (caches caches' : Str → Option (GeomCache F)) (x : GItem F)
    (y : OutMesh F × Option (Mat4 F)) (h : exportItem s false true count caches x = some (y, caches'))
    (hl : x.light = true) (ht : x.internal = some (Mat4.scaling c c c)) (p : Vec3 F) (hp : p ∈ x.mesh.pos)
    (h0 : p ≠ ⟨0, 0, 0⟩) : shownPoints y ≠ x.mesh.pos := by
  have hs : sharedOf false count caches x = some none := by
    unfold sharedOf
    split
    · rw [if_neg]; simp
    · rfl
  simp only [exportItem, hs, writeMesh_own, Option.some.injEq, Prod.mk.injEq] at h
  obtain ⟨rfl, -⟩ := h
  intro e
  simp only [shownPoints, ownAttrs] at e
  obtain ⟨i, hi⟩ := List.mem_iff_getElem?.1 hp
  have e2 := congrArg (fun l => l[i]?) e
  simp only [List.getElem?_map, hi, Option.map_some, Option.some.injEq] at e2
  simp only [nodeMatrix, ht, hl, and_self, true_or, if_true, shownAt, Mat4.applyTo, Mat4.translationScale, Mat4.scaling,
    mul_zero, add_zero, zero_add, zero_mul] at e2
  have h1 : (c - 1) ≠ 0 := sub_ne_zero.2 hc
  apply h0
  have hx := congrArg Vec3.x e2
  have hy := congrArg Vec3.y e2
  have hz := congrArg Vec3.z e2
  simp only at hx hy hz
  ext
  · exact (mul_eq_zero.1 (show (c - 1) * p.x = 0 by linear_combination hx)).resolve_left h1
  · exact (mul_eq_zero.1 (show (c - 1) * p.y = 0 by linear_combination hy)).resolve_left h1
  · exact (mul_eq_zero.1 (show (c - 1) * p.z = 0 by linear_combination hz)).resolve_left h1

end

/-! ### Examples -/

/-- A triangle of a chair under the transform `t`; `u` is the tiling, `prims` are its materials. -/
def chair (t : Mat4 ℚ) (u : ℚ) (prims : List (Nat × List Nat)) : GItem ℚ where
  key := some "chair".toList
  light := false
  internal := some t
  normals := true
  mesh :=
    { src := [0, 1, 2]
      pos := [⟨0, 0, 0⟩, ⟨1000, 0, 0⟩, ⟨0, 1000, 0⟩].map fun l => (t.applyTo l).scale (1 / 1000)
      uv := [⟨0, 0⟩, ⟨u, 0⟩, ⟨0, u⟩]
      nrm := [⟨0, 0, 1⟩, ⟨0, 0, 1⟩, ⟨0, 0, 1⟩]
      skin := []
      assigned := []
      prims := prims
      useUV := true
      skipped := false }

/-- The hypotheses of `reuse_place_iff`: two chairs, the first one five metres away; both are shown in a wrong place. -/
example : ∃ y, (exportItems (1 / 1000 : ℚ) true false (fun _ => 2) (fun _ => none)
      [chair (Mat4.translation 5000 0 0) 1 [(0, [2, 1, 0])], chair (Mat4.translation 0 0 2000) 1 [(1, [2, 1, 0])]]).bind (·[1]?) = some y ∧
    shownPoints y ≠ (chair (Mat4.translation 0 0 2000) 1 [(1, [2, 1, 0])]).mesh.pos := by
  have hsome : (exportItems (1 / 1000 : ℚ) true false (fun _ => 2) (fun _ => none)
      [chair (Mat4.translation 5000 0 0) 1 [(0, [2, 1, 0])], chair (Mat4.translation 0 0 2000) 1 [(1, [2, 1, 0])]]).isSome = true := by
    decide +kernel
  obtain ⟨ys, hys⟩ := Option.isSome_iff_exists.1 hsome
  obtain ⟨y, h1, h2⟩ := reuse_place_false (1 / 1000 : ℚ) (by norm_num) false (fun _ => 2) _ ys hys 1 _ _ rfl "chair".toList rfl
    (by decide) rfl [⟨0, 0, 0⟩, ⟨1000, 0, 0⟩, ⟨0, 1000, 0⟩] (by simp) (Mat4.translation 0 0 2000) (Mat4.translation 5000 0 0)
    ⟨rfl, rfl, rfl, rfl⟩ (by decide +kernel) ⟨rfl, rfl, rfl, rfl⟩ (by decide +kernel) ⟨rfl, rfl, rfl⟩ ⟨rfl, rfl, rfl⟩
    (by decide +kernel)
  exact ⟨y, by rw [hys]; exact h1, h2⟩

/-- The second chair, two metres in front of the origin, is shown five metres beside it. -/
example : (exportItems (1 / 1000 : ℚ) true false (fun _ => 2) (fun _ => none)
      [chair (Mat4.translation 5000 0 0) 1 [(0, [2, 1, 0])], chair (Mat4.translation 0 0 2000) 1 [(1, [2, 1, 0])]]).map
        (fun ys => ys.map shownPoints) =
    some [[⟨5 - 4995, 0, 0⟩, ⟨6 - 4995, 0, 0⟩, ⟨5 - 4995, 1, 0⟩], [⟨-4995, 0, 2⟩, ⟨1 - 4995, 0, 2⟩, ⟨-4995, 1, 2⟩]] := by
  decide +kernel

/-- The hypotheses of `reuse_place_partial` and `reuse_faces_partial`: the first chair stands at the origin. -/
example : (exportItems (1 / 1000 : ℚ) true false (fun _ => 2) (fun _ => none)
      [chair Mat4.one 1 [(0, [2, 1, 0])], chair (Mat4.translation 0 0 2000) 1 [(1, [2, 1, 0])]]).map
        (fun ys => ys.map fun y => (shownPoints y, y.1.prims)) =
    some [((chair Mat4.one 1 []).mesh.pos, [(0, [2, 1, 0])]),
      ((chair (Mat4.translation 0 0 2000) 1 []).mesh.pos, [(1, [2, 1, 0])])] := by
  decide +kernel

/-- The hypotheses of `reuse_panics_false`. -/
example : exportItems (1 / 1000 : ℚ) true false (fun _ => 2) (fun _ => none)
    [chair Mat4.one 1 [(0, [2, 1, 0, 0, 1, 2])], chair Mat4.one 1 [(0, [2, 1, 0]), (1, [0, 1, 2])]] = none :=
  reuse_panics_false _ _ _ _ 1 _ _ rfl "chair".toList rfl (by decide) rfl rfl rfl (by decide)

/-- The hypotheses of `reuse_loses_false` and `reuse_uv_false`. -/
example : (exportItems (1 / 1000 : ℚ) true false (fun _ => 2) (fun _ => none)
      [chair Mat4.one 1 [(0, [2, 1, 0]), (1, [0, 1, 2])], chair Mat4.one 3 [(0, [2, 1, 0, 0, 1, 2])]]).map
        (fun ys => ys.map fun y => (y.1.prims, y.1.attrs.uv)) =
    some [([(0, [2, 1, 0]), (1, [0, 1, 2])], some [⟨0, 0⟩, ⟨1, 0⟩, ⟨0, 1⟩]), ([(0, [2, 1, 0])], some [⟨0, 0⟩, ⟨1, 0⟩, ⟨0, 1⟩])] := by
  decide +kernel

/-- The hypotheses of `light_place` and `light_mesh_false`: a lamp with a mesh; one metre is shown as one kilometre. -/
example : (exportItem (1 / 1000 : ℚ) false true (fun _ => 0) (fun _ => none)
      { chair (Mat4.scaling 1000 1000 1000) 1 [(0, [2, 1, 0])] with
        light := true, mesh := { (chair Mat4.one 1 [(0, [2, 1, 0])]).mesh with skipped := false } }).map
        (fun y => (shownAt y.1.2 ⟨0, 0, 0⟩, shownPoints y.1)) =
    some (⟨0, 0, 0⟩, [⟨0, 0, 0⟩, ⟨1000, 0, 0⟩, ⟨0, 1000, 0⟩]) := by
  decide +kernel

/-- The hypotheses of `skipped_geometry` and `skipped_place_false`: a chair five metres away with an ignored material. -/
example : (exportItem (1 / 1000 : ℚ) true false (fun _ => 2) (fun _ => none)
      { chair (Mat4.translation 5000 0 0) 1 [(0, [2, 1, 0])] with
        mesh := { (chair (Mat4.translation 5000 0 0) 1 [(0, [2, 1, 0])]).mesh with skipped := true } }).map
        (fun y => (y.1.1.prims, shownPoints y.1)) =
    some ([(0, [2, 1, 0])], [⟨5 - 4995, 0, 0⟩, ⟨6 - 4995, 0, 0⟩, ⟨5 - 4995, 1, 0⟩]) ∧
    (Mat4.translation 5000 0 0 : Mat4 ℚ).det ≠ 0 := by
  decide +kernel

end Verif.Conv
