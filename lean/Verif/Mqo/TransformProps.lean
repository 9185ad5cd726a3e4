import Verif.Mqo.Core
import Verif.Geom.TriangulateProps
import Verif.Geom.DecomposeProps
import Mathlib.Data.List.Forall2

/-! Properties C67 (transforms and normals), C68 (triangulation of objects), C69 (normals for all corners),
C71 (finding vertices by id). -/

namespace Verif.Mqo

open Verif.Geom

variable {F : Type}

/-! ## C67 -/

section

variable [Field F] [DecidableEq F]

omit [DecidableEq F] in
theorem det_linear (m : Mat4 F) (ha : m.Affine) : ({ m with m12 := 0, m13 := 0, m14 := 0 } : Mat4 F).det = m.det := by
  obtain ⟨h3, h7, h11, h15⟩ := ha
  simp only [Mat4.det, Mat4.t11, Mat4.t12, Mat4.t13, Mat4.t14, h3, h7, h11, h15]
  ring

/-- C67. A transformed normal has the same scalar product with the transformed difference of two points
as before; in particular a normal that is perpendicular to an edge stays so. -/
theorem normalTransform_dot (m : Mat4 F) (ha : m.Affine) (hd : m.det ≠ 0) (n p q : Vec3 F) :
    ((normalTransform m).applyTo n).dot ((m.applyTo p).sub (m.applyTo q)) = n.dot (p.sub q) := by
  have hd' := det_linear m ha
  obtain ⟨hr, hl⟩ := inverse_spec ({ m with m12 := 0, m13 := 0, m14 := 0 } : Mat4 F) (by rw [hd']; exact hd)
  obtain ⟨h3, h7, h11, h15⟩ := ha
  unfold normalTransform
  generalize ({ m with m12 := 0, m13 := 0, m14 := 0 } : Mat4 F).inverse = k at hr hl
  have e3 := congrArg Mat4.m3 hr
  have e7 := congrArg Mat4.m7 hr
  have e11 := congrArg Mat4.m11 hr
  have f0 := congrArg Mat4.m0 hl
  have f1 := congrArg Mat4.m1 hl
  have f2 := congrArg Mat4.m2 hl
  have f4 := congrArg Mat4.m4 hl
  have f5 := congrArg Mat4.m5 hl
  have f6 := congrArg Mat4.m6 hl
  have f8 := congrArg Mat4.m8 hl
  have f9 := congrArg Mat4.m9 hl
  have f10 := congrArg Mat4.m10 hl
  simp only [Mat4.mul, Mat4.one, h3, h7, h11, h15] at e3 e7 e11 f0 f1 f2 f4 f5 f6 f8 f9 f10
  ring_nf at e3 e7 e11
  simp only [Mat4.transposed, Mat4.applyTo, Vec3.dot, Vec3.sub]
  linear_combination (n.x * (p.x - q.x)) * f0 + (n.y * (p.x - q.x)) * f1 + (n.z * (p.x - q.x)) * f2 +
    (n.x * (p.y - q.y)) * f4 + (n.y * (p.y - q.y)) * f5 + (n.z * (p.y - q.y)) * f6 +
    (n.x * (p.z - q.z)) * f8 + (n.y * (p.z - q.z)) * f9 + (n.z * (p.z - q.z)) * f10 +
    (m.m0 * (p.x - q.x) + m.m4 * (p.y - q.y) + m.m8 * (p.z - q.z)) * e3 +
    (m.m1 * (p.x - q.x) + m.m5 * (p.y - q.y) + m.m9 * (p.z - q.z)) * e7 +
    (m.m2 * (p.x - q.x) + m.m6 * (p.y - q.y) + m.m10 * (p.z - q.z)) * e11

/-- C67, on objects: corresponding corners. -/
theorem applyTransform_normals (m : Mat4 F) (ha : m.Affine) (hd : m.det ≠ 0) (o : Object F) (f' : Face F)
    (hf : f' ∈ (o.applyTransform m).faces) :
    ∃ f ∈ o.faces, f'.verts = f.verts ∧ f'.material = f.material ∧ f'.uvs = f.uvs ∧
      f'.normals.length = f.normals.length ∧
      ∀ (i a b : Nat) (n p q : Vec3 F), f.normals[i]? = some (some n) → o.vertexes[a]? = some p → o.vertexes[b]? = some q →
        ∃ n' p' q', f'.normals[i]? = some (some n') ∧ (o.applyTransform m).vertexes[a]? = some p' ∧
          (o.applyTransform m).vertexes[b]? = some q' ∧ n'.dot (p'.sub q') = n.dot (p.sub q) := by
  obtain ⟨f, h1, rfl⟩ := List.mem_map.1 hf
  refine ⟨f, h1, rfl, rfl, rfl, by simp, ?_⟩
  intro i a b n p q h2 h3 h4
  exact ⟨(normalTransform m).applyTo n, m.applyTo p, m.applyTo q, by simp [h2], by simp [Object.applyTransform, h3],
    by simp [Object.applyTransform, h4], normalTransform_dot m ha hd n p q⟩

/-- C67. Transforming by `a` after `b` moves the vertices as transforming by the product does. -/
theorem applyTransform_mul (a b : Mat4 F) (hb : b.Affine) (o : Object F) :
    ((o.applyTransform b).applyTransform a).vertexes = (o.applyTransform (a.mul b)).vertexes ∧
    (o.applyTransform Mat4.one).vertexes = o.vertexes := by
  constructor
  · simp only [Object.applyTransform, List.map_map]
    apply List.map_congr_left
    intro v _
    exact (applyTo_mul a b hb v).symm
  · simp only [Object.applyTransform]
    conv_rhs => rw [← List.map_id o.vertexes]
    apply List.map_congr_left
    intro v _
    simp [Mat4.one, Mat4.applyTo]

end

/-- A shear, for which normals must not be transformed like points. -/
example : (⟨1, 0, 0, 0, 1, 1, 0, 0, 0, 0, 1, 0, 5, 6, 7, 1⟩ : Mat4 ℚ).Affine ∧
    (⟨1, 0, 0, 0, 1, 1, 0, 0, 0, 0, 1, 0, 5, 6, 7, 1⟩ : Mat4 ℚ).det ≠ 0 := by
  constructor
  · exact ⟨rfl, rfl, rfl, rfl⟩
  · norm_num [Mat4.det, Mat4.t11, Mat4.t12, Mat4.t13, Mat4.t14]

/-! ## C68 -/

theorem mapM_spec {α β : Type} (f : α → Option β) (P : α → β → Prop) :
    ∀ l : List α, (∀ a ∈ l, ∃ b, f a = some b ∧ P a b) → ∃ r, l.mapM f = some r ∧ List.Forall₂ P l r := by
  intro l
  induction l with
  | nil => intro _; exact ⟨[], rfl, .nil⟩
  | cons a l ih =>
    intro h
    obtain ⟨b, h1, h2⟩ := h a (by simp)
    obtain ⟨r, h3, h4⟩ := ih fun a' ha => h a' (by simp [ha])
    exact ⟨b :: r, by simp [h1, h3], .cons h2 h4⟩

/-- A face with indices in range, and UVs and normals for no corner or for every corner. -/
structure FaceOk (o : Object F) (f : Face F) : Prop where
  verts : ∀ v ∈ f.verts, v < o.vertexes.length
  uvs : f.uvs = [] ∨ f.uvs.length = f.verts.length
  normals : f.normals = [] ∨ f.normals.length = f.verts.length

/-- The data of corner `i`: vertex, UV (if there are any), normal (if there are any). -/
def cornerData (f : Face F) (i : Nat) : Option Nat × Option (Vec2 F) × Option (Option (Vec3 F)) :=
  (f.verts[i]?, f.uvs[i]?, f.normals[i]?)

/-- `g` is the triangle of corners `t` of `f`. -/
structure TriOf (f : Face F) (t : Nat × Nat × Nat) (g : Face F) : Prop where
  size : g.verts.length = 3
  material : g.material = f.material
  uvs : (f.uvs = [] ↔ g.uvs = []) ∧ (g.uvs = [] ∨ g.uvs.length = 3)
  normals : (f.normals = [] ↔ g.normals = []) ∧ (g.normals = [] ∨ g.normals.length = 3)
  a : cornerData g 0 = cornerData f t.1
  b : cornerData g 1 = cornerData f t.2.1
  c : cornerData g 2 = cornerData f t.2.2

/-- What a face is replaced with: triangles stay; other faces become one triangle less than two their
number of corners, whose edges cancel to the boundary of the face, or nothing if they have less than
three corners. -/
def Replaces (f : Face F) (gs : List (Face F)) : Prop :=
  (f.verts.length = 3 ∧ gs = [f]) ∨
  (f.verts.length ≠ 3 ∧ gs.length = f.verts.length - 2 ∧
    ∃ ts : List (Nat × Nat × Nat), List.Forall₂ (TriOf f) ts gs ∧
      (∀ t ∈ ts, (t.1 < f.verts.length ∧ t.2.1 < f.verts.length ∧ t.2.2 < f.verts.length) ∧
        (t.1 ≠ t.2.1 ∧ t.2.1 ≠ t.2.2 ∧ t.2.2 ≠ t.1)) ∧
      (3 ≤ f.verts.length → ∀ a b, net (ts.flatMap triEdges) a b = net (polyEdges f.verts.length) a b))

section

variable [Add F] [Sub F] [Mul F] [Div F] [Zero F] [One F] [FloatOps F]

theorem pick3_spec {α : Type} (l : List α) (n : Nat) (h : l = [] ∨ l.length = n) (t : Nat × Nat × Nat)
    (ht : t.1 < n ∧ t.2.1 < n ∧ t.2.2 < n) :
    ∃ us, pick3 l t = some us ∧ (l = [] ↔ us = []) ∧ (us = [] ∨ us.length = 3) ∧
      us[0]? = l[t.1]? ∧ us[1]? = l[t.2.1]? ∧ us[2]? = l[t.2.2]? := by
  rcases h with h | h
  · exact ⟨[], by simp [pick3, h], by simp [h], by simp, by simp [h], by simp [h], by simp [h]⟩
  · have hp : 0 < l.length := by omega
    have hne : l ≠ [] := fun he => by simp [he] at hp
    refine ⟨[l[t.1], l[t.2.1], l[t.2.2]], ?_, by simp [hne], by simp, ?_, ?_, ?_⟩
    · rw [pick3, if_pos hp, List.getElem?_eq_getElem (by omega), List.getElem?_eq_getElem (by omega),
        List.getElem?_eq_getElem (by omega)]
      rfl
    · rw [List.getElem?_eq_getElem (l := l) (by omega)]; rfl
    · rw [List.getElem?_eq_getElem (l := l) (by omega)]; rfl
    · rw [List.getElem?_eq_getElem (l := l) (by omega)]; rfl

omit [Add F] [Sub F] [Mul F] [Div F] [Zero F] [One F] [FloatOps F] in
theorem triFace_spec (o : Object F) (f : Face F) (hf : FaceOk o f) (t : Nat × Nat × Nat)
    (ht : t.1 < f.verts.length ∧ t.2.1 < f.verts.length ∧ t.2.2 < f.verts.length) :
    ∃ g, triFace f t = some g ∧ TriOf f t g := by
  obtain ⟨us, u1, u2, u3, u4, u5, u6⟩ := pick3_spec f.uvs _ hf.uvs t ht
  obtain ⟨ns, n1, n2, n3, n4, n5, n6⟩ := pick3_spec f.normals _ hf.normals t ht
  obtain ⟨h1, h2, h3⟩ := ht
  refine ⟨⟨0, [f.verts[t.1], f.verts[t.2.1], f.verts[t.2.2]], f.material, us, ns⟩, ?_, ?_⟩
  · unfold triFace
    rw [List.getElem?_eq_getElem h1, List.getElem?_eq_getElem h2, List.getElem?_eq_getElem h3, u1, n1]
    rfl
  · refine ⟨rfl, rfl, ⟨u2, u3⟩, ⟨n2, n3⟩, ?_, ?_, ?_⟩
    · simp only [cornerData, u4, n4, List.getElem?_eq_getElem h1]; rfl
    · simp only [cornerData, u5, n5, List.getElem?_eq_getElem h2]; rfl
    · simp only [cornerData, u6, n6, List.getElem?_eq_getElem h3]; rfl

theorem triangulateFace_spec (o : Object F) (f : Face F) (hf : FaceOk o f) :
    ∃ gs, triangulateFace o.vertexes f = some gs ∧ Replaces f gs := by
  unfold triangulateFace
  by_cases h3 : f.verts.length = 3
  · exact ⟨[f], by rw [if_pos h3], Or.inl ⟨h3, rfl⟩⟩
  · rw [if_neg h3]
    obtain ⟨poly, hp, hp2⟩ := mapM_spec (o.vertexes[·]?) (fun _ _ => True) f.verts fun v hv =>
      ⟨o.vertexes[v]'(hf.verts v hv), List.getElem?_eq_getElem (hf.verts v hv), trivial⟩
    have hpl : poly.length = f.verts.length := hp2.length_eq.symm
    simp only [hp, Option.bind_eq_bind, Option.bind_some]
    by_cases hs : f.verts.length < 3
    · rw [triangulate_small poly (by omega)]
      refine ⟨[], rfl, Or.inr ⟨h3, by simp; omega, [], .nil, by simp, by omega⟩⟩
    · obtain ⟨ts, t1, t2, t3, t4⟩ := triangulate_covers poly (by omega)
      rw [t1]
      obtain ⟨gs, g1, g2⟩ := mapM_spec (triFace f) (TriOf f) ts fun t ht => by
        have := (t3 t ht).1
        rw [hpl] at this
        exact triFace_spec o f hf t this
      refine ⟨gs, g1, Or.inr ⟨h3, by rw [← g2.length_eq, t2, hpl], ts, g2, ?_, ?_⟩⟩
      · intro t ht
        obtain ⟨e1, e2, -⟩ := t3 t ht
        rw [hpl] at e1
        exact ⟨e1, e2⟩
      · intro _
        rwa [hpl] at t4

/-- C68. On an object whose faces are well formed `Triangulate` succeeds, keeps everything but the
faces, leaves triangles as they are and replaces every other face, in place, by triangles that cover it
and take material, vertices, UVs and normals from its corners. -/
theorem object_triangulate (o : Object F) (h : ∀ f ∈ o.faces, FaceOk o f) :
    ∃ o' gss, o.triangulate = some o' ∧ { o' with faces := o.faces } = o ∧ o'.faces = gss.flatten ∧
      List.Forall₂ Replaces o.faces gss ∧ (∀ g ∈ o'.faces, g.verts.length = 3) := by
  obtain ⟨gss, h1, h2⟩ := mapM_spec (triangulateFace o.vertexes) Replaces o.faces
    fun f hf => triangulateFace_spec o f (h f hf)
  refine ⟨{ o with faces := gss.flatten }, gss, by simp [Object.triangulate, h1], rfl, rfl, h2, ?_⟩
  intro g hg
  obtain ⟨gs, e1, e2⟩ := List.mem_flatten.1 hg
  have : ∀ (fs : List (Face F)) (gss : List (List (Face F))), List.Forall₂ Replaces fs gss →
      ∀ gs ∈ gss, ∃ f, Replaces f gs := by
    intro fs gss h
    induction h with
    | nil => simp
    | cons h _ ih =>
      intro gs hgs
      rcases List.mem_cons.1 hgs with rfl | hgs
      · exact ⟨_, h⟩
      · exact ih gs hgs
  obtain ⟨f, hf⟩ := this _ _ h2 gs e1
  rcases hf with ⟨h3, rfl⟩ | ⟨-, -, ts, h3, -⟩
  · rw [List.mem_singleton.1 e2]; exact h3
  · have : ∀ (ts : List (Nat × Nat × Nat)) (gs : List (Face F)), List.Forall₂ (TriOf f) ts gs →
        ∀ g ∈ gs, g.verts.length = 3 := by
      intro ts gs h
      induction h with
      | nil => simp
      | cons h _ ih =>
        intro g hg
        rcases List.mem_cons.1 hg with rfl | hg
        · exact h.size
        · exact ih g hg
    exact this ts gs h3 g e2

/-- C68. Triangulating twice changes nothing more. -/
theorem object_triangulate_idem (o o' : Object F) (hok : ∀ f ∈ o.faces, FaceOk o f) (h : o.triangulate = some o') :
    o'.triangulate = some o' := by
  obtain ⟨o'', -, h1, -, -, -, h3⟩ := object_triangulate o hok
  rw [h] at h1
  cases h1
  have : o'.faces.mapM (triangulateFace o'.vertexes) = some (o'.faces.map fun f => [f]) := by
    generalize o'.faces = fs at h3
    induction fs with
    | nil => rfl
    | cons f fs ih =>
      have h1 : triangulateFace o'.vertexes f = some [f] := by
        unfold triangulateFace; rw [if_pos (h3 f (by simp))]
      simp [h1, ih fun g hg => h3 g (by simp [hg])]
  unfold Object.triangulate
  rw [this]
  have hfl : ∀ fs : List (Face F), (fs.map fun f => [f]).flatten = fs := by
    intro fs
    induction fs with
    | nil => rfl
    | cons f fs ih => simp [ih]
  simp [hfl]

/-- A square with texture coordinates, without normals. -/
def square : Object Int :=
  { newObject 59 "q".toList with
    vertexes := [⟨0, 0, 0⟩, ⟨1, 0, 0⟩, ⟨1, 1, 0⟩, ⟨0, 1, 0⟩]
    faces := [⟨0, [0, 1, 2, 3], 0, [⟨0, 0⟩, ⟨1, 0⟩, ⟨1, 1⟩, ⟨0, 1⟩], []⟩] }

example : ∀ f ∈ square.faces, FaceOk square f := by
  intro f hf
  have : f = ⟨0, [0, 1, 2, 3], 0, [⟨0, 0⟩, ⟨1, 0⟩, ⟨1, 1⟩, ⟨0, 1⟩], []⟩ := by simpa [square] using hf
  subst this
  exact ⟨by decide, Or.inr rfl, Or.inl rfl⟩

/-! ## C69 -/

theorem smoothFace_spec (o : Object F) (f : Face F) (hf : ∀ v ∈ f.verts, v < o.vertexes.length) :
    ∀ (rest : List Nat) (i : Nat) (normal : List (Vec3 F)), (∀ v ∈ rest, v ∈ f.verts) →
      normal.length = o.vertexes.length → ∃ r, smoothFace o.vertexes f i rest normal = some r ∧ r.length = normal.length := by
  intro rest
  induction rest with
  | nil => intro i normal _ _; exact ⟨normal, rfl, rfl⟩
  | cons v rest ih =>
    intro i normal hr hn
    have hv := hr v (by simp)
    have hvl := hf v hv
    have hnv : normal[v]? = some (normal[v]'(by omega)) := List.getElem?_eq_getElem (by omega)
    have hpos : 0 < f.verts.length := List.length_pos_of_mem hv
    have hc : ∃ c, cornerNormal o.vertexes f.verts i v = some c := by
      have g1 : (i + f.verts.length - 1) % f.verts.length < f.verts.length := Nat.mod_lt _ hpos
      have g2 : (i + 1) % f.verts.length < f.verts.length := Nat.mod_lt _ hpos
      unfold cornerNormal
      rw [List.getElem?_eq_getElem g1, List.getElem?_eq_getElem g2, List.getElem?_eq_getElem hvl]
      simp only [Option.bind_eq_bind, Option.bind_some]
      rw [List.getElem?_eq_getElem (hf _ (List.getElem_mem g1)), List.getElem?_eq_getElem (hf _ (List.getElem_mem g2))]
      exact ⟨_, rfl⟩
    obtain ⟨c, hc⟩ := hc
    rw [smoothFace]
    simp only [hnv, Option.bind_eq_bind, Option.bind_some]
    have key : ∀ n, ∃ r, smoothFace o.vertexes f (i + 1) rest (normal.set v n) = some r ∧ r.length = normal.length := by
      intro n
      obtain ⟨r, h1, h2⟩ := ih (i + 1) (normal.set v n) (fun v' h => hr v' (by simp [h])) (by simpa using hn)
      exact ⟨r, h1, by simpa using h2⟩
    split
    · exact key _
    · simp only [hc, Option.bind_some]
      exact key _

theorem smoothFaces_spec (o : Object F) : ∀ (fs : List (Face F)) (normal : List (Vec3 F)),
    (∀ f ∈ fs, ∀ v ∈ f.verts, v < o.vertexes.length) → normal.length = o.vertexes.length →
    ∃ r, smoothFaces o.vertexes fs normal = some r ∧ r.length = o.vertexes.length := by
  intro fs
  induction fs with
  | nil => intro normal _ h; exact ⟨normal, rfl, h⟩
  | cons f fs ih =>
    intro normal hf hn
    obtain ⟨r, h1, h2⟩ := smoothFace_spec o f (hf f (by simp)) f.verts 0 normal (fun _ h => h) hn
    obtain ⟨r', h3, h4⟩ := ih r (fun f' h => hf f' (by simp [h])) (by omega)
    exact ⟨r', by simp [smoothFaces, h1, h3], h4⟩

end

theorem normalize_len (v : Vec3 ℝ) : v.normalize.len = 1 := by
  by_cases h : v = ⟨0, 0, 0⟩
  · rw [h, vec3_normalize_zero]
    show Real.sqrt _ = 1
    norm_num
  · exact (vec3_normalize v h).1

/-- C69. If all indices are in range, `FixhNormals` succeeds; afterwards every face has as many normals
as corners; faces that had so before are unchanged; in the others every corner has a normal of length
one, and corners at the same vertex have the same normal. -/
theorem fixNormals_spec (o : Object ℝ) (h : ∀ f ∈ o.faces, ∀ v ∈ f.verts, v < o.vertexes.length) :
    ∃ (o' : Object ℝ) (ns : List (Vec3 ℝ)), o.fixNormals = some o' ∧ { o' with faces := o.faces } = o ∧ 
      (∀ n ∈ ns, n.len = 1) ∧
      List.Forall₂ (fun f f' => f'.normals.length = f'.verts.length ∧
        { f' with normals := f.normals } = f ∧
        (f.normals.length = f.verts.length → f' = f) ∧
        (f.normals.length ≠ f.verts.length → ∀ (i v : Nat), f.verts[i]? = some v →
          ∃ n, ns[v]? = some n ∧ f'.normals[i]? = some (some n))) o.faces o'.faces := by
  obtain ⟨r, h1, h2⟩ := smoothFaces_spec o o.faces (o.vertexes.map fun _ => ⟨0, 0, 0⟩) h (by simp)
  have hs : o.smoothNormals = some (r.map Vec3.normalize) := by
    rw [Object.smoothNormals, h1]; rfl
  obtain ⟨fs, h3, h4⟩ := mapM_spec (faceWithNormals (r.map Vec3.normalize))
    (fun f f' => f'.normals.length = f'.verts.length ∧
        { f' with normals := f.normals } = f ∧
        (f.normals.length = f.verts.length → f' = f) ∧
        (f.normals.length ≠ f.verts.length → ∀ (i v : Nat), f.verts[i]? = some v →
          ∃ n, (r.map Vec3.normalize)[v]? = some n ∧ f'.normals[i]? = some (some n))) o.faces (by
    intro f hf
    unfold faceWithNormals
    by_cases hc : f.normals.length = f.verts.length
    · exact ⟨f, by simp [hc], hc, rfl, fun _ => rfl, fun hn => (hn hc).elim⟩
    · have hm : f.verts.mapM (fun v => ((r.map Vec3.normalize)[v]?).map some) =
          some (f.verts.map fun v => some ((r.map Vec3.normalize).getD v ⟨0, 0, 0⟩)) := by
        have hv := h f hf
        generalize f.verts = vs at hv
        induction vs with
        | nil => rfl
        | cons v vs ih =>
          have hvl : v < (r.map Vec3.normalize).length := by simpa [h2] using hv v (by simp)
          rw [List.mapM_cons, ih fun v' h' => hv v' (by simp [h']), List.getElem?_eq_getElem hvl]
          simp [List.getD_eq_getElem?_getD, List.getElem?_eq_getElem hvl]
          rw [List.getElem?_eq_getElem (by simpa using hvl)]
          rfl
      refine ⟨{ f with normals := f.verts.map fun v => some ((r.map Vec3.normalize).getD v ⟨0, 0, 0⟩) },
        by simp only [if_neg hc]; rw [hm]; rfl, by simp, rfl, fun hn => (hc hn).elim, ?_⟩
      intro _ i v hiv
      have hv := h f hf v (List.mem_iff_getElem?.2 ⟨i, hiv⟩)
      have hvl : v < (r.map Vec3.normalize).length := by simpa [h2] using hv
      refine ⟨(r.map Vec3.normalize)[v], List.getElem?_eq_getElem hvl, ?_⟩
      simp only [List.getElem?_map, hiv, Option.map_some, Option.some.injEq]
      rw [List.getD_eq_getElem?_getD, List.getElem?_eq_getElem hvl]
      rfl)
  have hlen : ∀ n ∈ r.map Vec3.normalize, n.len = 1 := by
    intro n hn
    obtain ⟨m, -, rfl⟩ := List.mem_map.1 hn
    exact normalize_len m
  unfold Object.fixNormals
  by_cases hall : (o.faces.all fun f => f.normals.length = f.verts.length) = true
  · rw [if_pos hall]
    refine ⟨o, r.map Vec3.normalize, rfl, rfl, hlen, ?_⟩
    rw [List.all_eq_true] at hall
    rw [List.forall₂_same]
    intro f hf
    have hc : f.normals.length = f.verts.length := by simpa using hall f hf
    exact ⟨hc, rfl, fun _ => rfl, fun hn => (hn hc).elim⟩
  · rw [if_neg hall]
    exact ⟨{ o with faces := fs }, r.map Vec3.normalize, by simp [hs, h3], rfl, hlen, h4⟩

example : ∀ f ∈ square.faces, (∀ v ∈ f.verts, v < square.vertexes.length) ∧ f.normals.length ≠ f.verts.length := by
  decide

/-! ## C71 -/

/-- C71. For ids from 1 up, a vertex found by id is in range (or the answer is −1), provided the id
table is. Missing: ids below 1, for which it is false (`vertexByID_negative_false`). -/
theorem vertexByID_range_partial (o : Object F) (h : ∀ p ∈ o.vertexByUID, 0 ≤ p.2 ∧ p.2 < o.vertexes.length) (uid : Int) (hu : 1 ≤ uid) :
    o.getVertexIndexByID uid = -1 ∨ 0 ≤ o.getVertexIndexByID uid ∧ o.getVertexIndexByID uid < o.vertexes.length := by
  unfold Object.getVertexIndexByID
  cases hl : o.vertexByUID.lookup uid with
  | some v =>
    simp only
    right
    have : (uid, v) ∈ o.vertexByUID := by
      generalize o.vertexByUID = l at hl
      induction l with
      | nil => simp at hl
      | cons p l ih =>
        obtain ⟨a, b⟩ := p
        rw [List.lookup_cons] at hl
        by_cases he : uid == a
        · rw [he] at hl
          simp at hl he
          simp [he, hl]
        · simp only [he] at hl
          exact List.mem_cons_of_mem _ (ih hl)
    exact h _ this
  | none =>
    simp only
    split_ifs <;> omega

example : ∃ o : Object Int, (∀ p ∈ o.vertexByUID, 0 ≤ p.2 ∧ p.2 < o.vertexes.length) ∧
    o.getVertexIndexByID 7 = 1 ∧ o.getVertexIndexByID 4 = 3 ∧ o.getVertexIndexByID 5 = -1 :=
  ⟨{ square with vertexByUID := [(7, 1)] }, by decide, by decide,
    by simp [Object.getVertexIndexByID, List.lookup, square], by simp [Object.getVertexIndexByID, List.lookup, square]⟩

/-- C71 fails for ids below 1: with an empty table id 0 is answered with −1 but id −1 with −2, which
callers that test for −1 use as an index. -/
theorem vertexByID_negative_false (o : Object F) (h : o.vertexByUID = []) (uid : Int) (hu : uid < 0) :
    o.getVertexIndexByID uid ≠ -1 ∧ o.getVertexIndexByID uid < 0 := by
  unfold Object.getVertexIndexByID
  rw [h]
  simp only [List.lookup_nil]
  rw [if_pos (by omega)]
  omega

end Verif.Mqo
