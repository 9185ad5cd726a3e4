import Verif.Conv.FbxToMqo
import Verif.Conv.MmdGroupsProps
import Verif.Mqo.ObjectProps
import Verif.Mqo.TransformProps
import Mathlib.Data.Rat.Defs
import Mathlib.Tactic.Linarith

/-! C114: the mesh of an FBX geometry as an MQO object (converter/fbx2mqo.go:188-259). -/

namespace Verif.Conv

open Verif.Geom
open Verif.Mqo (Str Object Face)

variable {F : Type}

section General

variable [Add F] [Sub F] [Mul F] [Div F] [Zero F] [One F] [FloatOps F]

/-- The number of the corner `n` of polygon `i`, counted over all polygons. -/
def FGeometry.corner (g : FGeometry F) (i n : Nat) : Nat := (g.polygons.take i).flatten.length + n

omit [FloatOps F] [Div F] [Sub F] [Add F] [Mul F] [Zero F] [One F] in
theorem corner_lt (g : FGeometry F) (i n : Nat) (f : List Nat) (hf : g.polygons[i]? = some f) (hn : n < f.length) :
    g.corner i n < g.polygons.flatten.length := by
  obtain ⟨hi, rfl⟩ := List.getElem?_eq_some_iff.1 hf
  have h : g.polygons = g.polygons.take i ++ g.polygons[i] :: g.polygons.drop (i + 1) := by
    rw [List.getElem_cons_drop, List.take_append_drop]
  have h2 : g.polygons.flatten.length =
      (g.polygons.take i).flatten.length + (g.polygons[i].length + (g.polygons.drop (i + 1)).flatten.length) := by
    conv_lhs => rw [h]
    simp only [List.flatten_append, List.flatten_cons, List.length_append]
  unfold FGeometry.corner
  omega

theorem fbxFaces_spec (g : FGeometry F) (nm : Mat4 F) (ids : List Int) (fs : List (List Nat)) :
    ∀ (i0 v0 : Nat) (faces : List (Face F)), fbxFaces g nm ids i0 v0 fs = some faces →
      faces.length = fs.length ∧ ∀ j f, fs[j]? = some f → ∃ face, faces[j]? = some face ∧
        fbxFace g nm ids (i0 + j) (v0 + (fs.take j).flatten.length) f = some face := by
  induction fs with
  | nil =>
    intro i0 v0 faces h
    simp only [fbxFaces, Option.some.injEq] at h
    subst h
    simp
  | cons f fs ih =>
    intro i0 v0 faces h
    simp only [fbxFaces, Option.bind_eq_bind, Option.bind_eq_some_iff, Option.pure_def, Option.some.injEq] at h
    obtain ⟨face, hface, rest, hrest, rfl⟩ := h
    obtain ⟨hl, hr⟩ := ih _ _ _ hrest
    refine ⟨by simp [hl], ?_⟩
    intro j f' hf'
    cases j with
    | zero =>
      simp only [List.getElem?_cons_zero, Option.some.injEq] at hf'
      subst hf'
      exact ⟨face, rfl, by simpa using hface⟩
    | succ j =>
      simp only [List.getElem?_cons_succ] at hf'
      obtain ⟨face', h1, h2⟩ := hr j f' hf'
      refine ⟨face', by simpa using h1, ?_⟩
      have e1 : i0 + (j + 1) = i0 + 1 + j := by omega
      have e2 : v0 + ((f :: fs).take (j + 1)).flatten.length = v0 + f.length + (fs.take j).flatten.length := by
        simp; omega
      rw [e1, e2]
      exact h2

theorem fbxFace_spec (g : FGeometry F) (nm : Mat4 F) (ids : List Int) (i vc : Nat) (f : List Nat) (face : Face F)
    (h : fbxFace g nm ids i vc f = some face) :
    ∃ k uvs, g.matIdx i = some k ∧ faceMaterial ids k = some face.material ∧ polygonUVs g vc f.length = some uvs ∧
      face.verts = f.reverse ∧ face.uvs = uvs.reverse ∧ face.normals = (polygonNormals g nm vc 0 f).reverse := by
  simp only [fbxFace, Option.bind_eq_bind, Option.bind_eq_some_iff] at h
  obtain ⟨k, hk, mat, hm, uvs, hu, hf⟩ := h
  rw [Mqo.flip_reverse] at hf
  cases hf
  exact ⟨k, uvs, hk, hm, hu, rfl, rfl, rfl⟩

/-- The object of a successful conversion: the given one with vertices and faces added. -/
theorem convertGeometry_object [DecidableEq F] (sc : FScene F) (opt : FOptions F) (g : FGeometry F) (obj : Object F)
    (t : Mat4 F) (ids : List Int) (st st' : FState F) (obj' : Object F) (shapes : List (Object F))
    (h : convertGeometry sc opt g obj t ids st = some (obj', shapes, st')) :
    ∃ faces, fbxFaces g (fbxNormalMatrix t) ids 0 0 g.polygons = some faces ∧
      obj' = { obj with vertexes := obj.vertexes ++ g.vertices.map t.applyTo, faces := obj.faces ++ faces } := by
  simp only [convertGeometry] at h
  split at h
  · simp at h
  · rename_i faces hf
    refine ⟨faces, hf, ?_⟩
    split at h
    · simp at h
    · split at h
      · simp only [Option.some.injEq, Prod.mk.injEq] at h
        exact h.1.symm
      · split at h
        · simp at h
        · simp only [Option.some.injEq, Prod.mk.injEq] at h
          exact h.1.symm

/-- C114. The vertices are the transformed vertices, there is one face per polygon, and the corners of a
face are those of its polygon in reverse order. Nothing else of the object changes. -/
theorem geometry_faces [DecidableEq F] (sc : FScene F) (opt : FOptions F) (g : FGeometry F) (obj : Object F)
    (hv : obj.vertexes = []) (hf : obj.faces = [])
    (t : Mat4 F) (ids : List Int) (st st' : FState F) (obj' : Object F) (shapes : List (Object F))
    (h : convertGeometry sc opt g obj t ids st = some (obj', shapes, st')) :
    obj'.vertexes = g.vertices.map t.applyTo ∧
    obj'.faces.map Face.verts = g.polygons.map List.reverse ∧
    { obj' with vertexes := [], faces := [] } = obj := by
  obtain ⟨faces, h1, rfl⟩ := convertGeometry_object sc opt g obj t ids st st' obj' shapes h
  obtain ⟨hl, hs⟩ := fbxFaces_spec g _ ids g.polygons 0 0 faces h1
  refine ⟨by simp [hv], ?_, ?_⟩
  · simp only [hf, List.nil_append]
    apply List.ext_getElem?
    intro j
    by_cases hj : j < g.polygons.length
    · obtain ⟨face, ha, hb⟩ := hs j g.polygons[j] (List.getElem?_eq_getElem hj)
      obtain ⟨_, _, _, _, _, hverts, _⟩ := fbxFace_spec _ _ _ _ _ _ _ hb
      simp [List.getElem?_map, ha, hverts, hj]
    · rw [List.getElem?_eq_none (by simp; omega), List.getElem?_eq_none (by simp; omega)]
  · cases obj
    simp only at hv hf
    simp [hv, hf]

omit [Add F] [Sub F] [Mul F] [Div F] [Zero F] [One F] [FloatOps F] in
theorem getElem?_mapM_range {α : Type} (f : Nat → Option α) (len : Nat) (l : List α)
    (h : (List.range len).mapM f = some l) : l.length = len ∧ ∀ n, n < len → l[n]? = f n := by
  obtain ⟨h1, h2⟩ := mapM_getElem? f _ _ h
  refine ⟨by simpa using h1, ?_⟩
  intro n hn
  obtain ⟨y, hy, he⟩ := h2 n n (by simp [hn])
  rw [hy, he]

omit [Add F] [Sub F] [Mul F] [Div F] [Zero F] [One F] [FloatOps F] in
theorem getElem?_reverse_corner {α : Type} (l : List α) (len n : Nat) (hl : l.length = len) (hn : n < len) :
    l.reverse[len - 1 - n]? = l[n]? := by
  subst hl
  rw [List.getElem?_reverse (by omega)]
  congr 1
  omega

/-- The face of polygon `i` and where its parts come from. -/
theorem geometry_face [DecidableEq F] (sc : FScene F) (opt : FOptions F) (g : FGeometry F) (obj : Object F)
    (hf : obj.faces = []) (t : Mat4 F) (ids : List Int) (st st' : FState F) (obj' : Object F)
    (shapes : List (Object F)) (h : convertGeometry sc opt g obj t ids st = some (obj', shapes, st'))
    (i : Nat) (f : List Nat) (hp : g.polygons[i]? = some f) :
    ∃ face k uvs, obj'.faces[i]? = some face ∧ g.matIdx i = some k ∧ faceMaterial ids k = some face.material ∧
      polygonUVs g (g.corner i 0) f.length = some uvs ∧ face.verts = f.reverse ∧ face.uvs = uvs.reverse ∧
      face.normals = (polygonNormals g (fbxNormalMatrix t) (g.corner i 0) 0 f).reverse := by
  obtain ⟨faces, h1, rfl⟩ := convertGeometry_object sc opt g obj t ids st st' obj' shapes h
  obtain ⟨hl, hs⟩ := fbxFaces_spec g _ ids g.polygons 0 0 faces h1
  obtain ⟨face, ha, hb⟩ := hs i f hp
  obtain ⟨k, uvs, hk, hm, hu, hverts, huvs, hn⟩ := fbxFace_spec _ _ _ _ _ _ _ hb
  have e0 : 0 + i = i := by omega
  have e1 : 0 + (g.polygons.take i).flatten.length = g.corner i 0 := by unfold FGeometry.corner; omega
  rw [e0] at hk
  rw [e1] at hu hn
  exact ⟨face, k, uvs, by simp [hf, ha], hk, hm, hu, hverts, huvs, hn⟩

/-- C114. Texture coordinates by index: the corner at which a polygon vertex ends up has the coordinates
that the index of that polygon vertex names, with `v` turned upside down. (`pvCount` counts also polygon
vertices after the last complete polygon.) -/
theorem geometry_uv_indexed [DecidableEq F] (sc : FScene F) (opt : FOptions F) (g : FGeometry F) (obj : Object F)
    (hf : obj.faces = []) (t : Mat4 F) (ids : List Int) (st st' : FState F) (obj' : Object F)
    (shapes : List (Object F)) (h : convertGeometry sc opt g obj t ids st = some (obj', shapes, st'))
    (hpv : g.polygons.flatten.length ≤ g.pvCount)
    (hm : g.uvMap = "ByPolygonVertex".toList) (hr : g.uvRef = "IndexToDirect".toList)
    (hlen : g.pvCount ≤ g.uvIndex.length)
    (i n : Nat) (f : List Nat) (hp : g.polygons[i]? = some f) (hn : n < f.length) :
    ∃ face k uv, obj'.faces[i]? = some face ∧ face.uvs.length = f.length ∧
      face.verts[f.length - 1 - n]? = f[n]? ∧
      g.uvIndex[g.corner i n]? = some k ∧ 0 ≤ k ∧ g.uvs[k.toNat]? = some uv ∧
      face.uvs[f.length - 1 - n]? = some ⟨uv.x, 1 - uv.y⟩ := by
  obtain ⟨face, _, uvs, ha, _, _, hu, hverts, huvs, _⟩ := geometry_face sc opt g obj hf t ids st st' obj' shapes h i f hp
  have ht : g.uvTable = (g.uvs, g.uvIndex) := by
    simp only [FGeometry.uvTable, hm, hr, if_true]
    rw [if_neg (by omega)]
  have hne : g.uvIndex ≠ [] := by
    have := corner_lt g i n f hp hn
    intro e
    rw [e] at hlen
    simp at hlen
    omega
  simp only [polygonUVs, ht] at hu
  rw [if_pos hne] at hu
  obtain ⟨hul, hue⟩ := getElem?_mapM_range _ _ _ hu
  have h2 := hue n hn
  have hc : g.corner i 0 + n = g.corner i n := by unfold FGeometry.corner; omega
  rw [hc] at h2
  have h3 : uvs[n]? = some uvs[n] := List.getElem?_eq_getElem (by omega)
  rw [h3] at h2
  split at h2
  · rename_i k hk
    symm at h2
    rw [Option.map_eq_some_iff] at h2
    obtain ⟨uv, h4, h5⟩ := h2
    unfold at? at h4
    split at h4
    · simp at h4
    · refine ⟨face, k, uv, ha, by simp [huvs, hul], ?_, hk, by omega, h4, ?_⟩
      · rw [hverts, getElem?_reverse_corner f _ _ rfl hn]
      · rw [huvs, getElem?_reverse_corner uvs _ _ hul hn, h3, ← h5]
        rfl
  · simp at h2

/-- C114. Direct texture coordinates: the corner at which a polygon vertex ends up has the coordinates
listed for that polygon vertex, with `v` turned upside down. -/
theorem geometry_uv_direct [DecidableEq F] (sc : FScene F) (opt : FOptions F) (g : FGeometry F) (obj : Object F)
    (hf : obj.faces = []) (t : Mat4 F) (ids : List Int) (st st' : FState F) (obj' : Object F)
    (shapes : List (Object F)) (h : convertGeometry sc opt g obj t ids st = some (obj', shapes, st'))
    (hpv : g.polygons.flatten.length ≤ g.pvCount)
    (hm : g.uvMap = "ByPolygonVertex".toList) (hr : g.uvRef ≠ "IndexToDirect".toList)
    (hlen : g.pvCount ≤ g.uvs.length)
    (i n : Nat) (f : List Nat) (hp : g.polygons[i]? = some f) (hn : n < f.length) :
    ∃ face uv, obj'.faces[i]? = some face ∧ face.uvs.length = f.length ∧
      face.verts[f.length - 1 - n]? = f[n]? ∧ g.uvs[g.corner i n]? = some uv ∧
      face.uvs[f.length - 1 - n]? = some ⟨uv.x, 1 - uv.y⟩ := by
  obtain ⟨face, _, uvs, ha, _, _, hu, hverts, huvs, _⟩ := geometry_face sc opt g obj hf t ids st st' obj' shapes h i f hp
  have ht : g.uvTable = (g.uvs, []) := by
    simp only [FGeometry.uvTable, hm, hr, if_true, if_false]
    rw [if_neg (by omega)]
  have hclt := corner_lt g i n f hp hn
  have hne : g.uvs ≠ [] := by
    intro e
    rw [e] at hlen
    simp at hlen
    omega
  simp only [polygonUVs, ht] at hu
  rw [if_neg (by simp), if_pos hne] at hu
  obtain ⟨hul, hue⟩ := getElem?_mapM_range _ _ _ hu
  have h2 := hue n hn
  have hc : g.corner i 0 + n = g.corner i n := by unfold FGeometry.corner; omega
  rw [hc] at h2
  have h4 : g.uvs[g.corner i n]? = some (g.uvs[g.corner i n]'(by omega)) := List.getElem?_eq_getElem (by omega)
  refine ⟨face, _, ha, by simp [huvs, hul], ?_, h4, ?_⟩
  · rw [hverts, getElem?_reverse_corner f _ _ rfl hn]
  · rw [huvs, getElem?_reverse_corner uvs _ _ hul hn, h2, h4]
    rfl

/-- C114. With any other mapping (coordinates by control point, say) the faces have no texture
coordinates: what the file says about them is lost. -/
theorem geometry_uv_other_false [DecidableEq F] (sc : FScene F) (opt : FOptions F) (g : FGeometry F) (obj : Object F)
    (hf : obj.faces = []) (t : Mat4 F) (ids : List Int) (st st' : FState F) (obj' : Object F)
    (shapes : List (Object F)) (h : convertGeometry sc opt g obj t ids st = some (obj', shapes, st'))
    (hm : g.uvMap ≠ "ByPolygonVertex".toList)
    (i : Nat) (f : List Nat) (hp : g.polygons[i]? = some f) :
    ∃ face, obj'.faces[i]? = some face ∧ face.uvs = [] := by
  obtain ⟨face, _, uvs, ha, _, _, hu, hverts, huvs, _⟩ := geometry_face sc opt g obj hf t ids st st' obj' shapes h i f hp
  refine ⟨face, ha, ?_⟩
  simp only [polygonUVs, FGeometry.uvTable, hm, if_false] at hu
  simp only [ne_eq, not_true, if_false, Option.some.injEq] at hu
  simp [huvs, ← hu]

/-- C114. Materials: by polygon, the same for all, or the first; a place outside of the list of the model
gives material 0. -/
theorem geometry_material [DecidableEq F] (sc : FScene F) (opt : FOptions F) (g : FGeometry F) (obj : Object F)
    (hf : obj.faces = []) (t : Mat4 F) (ids : List Int) (st st' : FState F) (obj' : Object F)
    (shapes : List (Object F)) (h : convertGeometry sc opt g obj t ids st = some (obj', shapes, st'))
    (i : Nat) (f : List Nat) (hp : g.polygons[i]? = some f) :
    ∃ face k, obj'.faces[i]? = some face ∧
      (g.matMap = "ByPolygon".toList → g.polygons.length ≤ g.mats.length → g.mats[i]? = some k) ∧
      (g.matMap = "AllSame".toList → g.mats ≠ [] → g.mats[0]? = some k) ∧
      (g.matMap ≠ "ByPolygon".toList → g.matMap ≠ "AllSame".toList → k = 0) ∧
      (k < ids.length → 0 ≤ k ∧ ids[k.toNat]? = some face.material) ∧
      ((ids.length : Int) ≤ k → face.material = 0) := by
  obtain ⟨face, k, uvs, ha, hk, hm, _⟩ := geometry_face sc opt g obj hf t ids st st' obj' shapes h i f hp
  refine ⟨face, k, ha, ?_, ?_, ?_, ?_, ?_⟩
  · intro h1 h2
    rw [← hk]
    have h5 : g.matByPolygon = true := by
      unfold FGeometry.matByPolygon
      rw [decide_eq_true h1, decide_eq_true h2, Bool.true_and]
    unfold FGeometry.matIdx
    rw [if_pos h5]
  · intro h1 h2
    rw [← hk]
    have h3 : 0 < g.mats.length := List.length_pos_iff.2 h2
    have h4 : ¬ "AllSame".toList = "ByPolygon".toList := by decide
    have h5 : g.matByPolygon = false := by
      unfold FGeometry.matByPolygon
      rw [h1, decide_eq_false h4, Bool.false_and]
    unfold FGeometry.matIdx
    rw [h5, if_neg Bool.false_ne_true, if_pos ⟨h1, h3⟩]
  · intro h1 h2
    have h3 : g.matByPolygon = false := by
      unfold FGeometry.matByPolygon
      rw [decide_eq_false h1, Bool.false_and]
    unfold FGeometry.matIdx at hk
    rw [h3, if_neg Bool.false_ne_true, if_neg (fun e => h2 e.1)] at hk
    exact (Option.some.inj hk).symm
  · intro h1
    simp only [faceMaterial, h1, if_true] at hm
    split at hm
    · simp at hm
    · exact ⟨by omega, hm⟩
  · intro h1
    have h2 : ¬ k < ids.length := by omega
    simp only [faceMaterial, h2, if_false, Option.some.injEq] at hm
    exact hm.symm

omit [Sub F] in
theorem polygonNormals_spec (g : FGeometry F) (nm : Mat4 F) (vc : Nat) (c : Nat → Option (Vec3 F)) (f : List Nat) :
    ∀ n0, (∀ n v, f[n]? = some v → cornerNormal g nm vc (n0 + n) v = [c (n0 + n)]) →
      (polygonNormals g nm vc n0 f).length = f.length ∧
      ∀ n, n < f.length → (polygonNormals g nm vc n0 f)[n]? = some (c (n0 + n)) := by
  induction f with
  | nil => intro n0 _; simp [polygonNormals]
  | cons v f ih =>
    intro n0 h
    have h0 := h 0 v rfl
    obtain ⟨hl, hr⟩ := ih (n0 + 1) (by
      intro n w hw
      have := h (n + 1) w (by simpa using hw)
      rwa [show n0 + (n + 1) = n0 + 1 + n by omega] at this)
    simp only [polygonNormals]
    rw [Nat.add_zero] at h0
    rw [h0]
    refine ⟨by simp [hl], ?_⟩
    intro n hn
    cases n with
    | zero => simp
    | succ n =>
      have := hr n (by simpa using hn)
      simp only [List.cons_append, List.nil_append, List.getElem?_cons_succ]
      rw [this]
      congr 2
      omega

end General

section Normals

variable [Field F] [DecidableEq F] [FloatOps F]

/-- C114. Normals by polygon vertex or by control point: the corner at which a polygon vertex ends up has
the listed normal, transformed so that it keeps its scalar product with every edge, and normalized. -/
theorem geometry_normals (sc : FScene F) (opt : FOptions F) (g : FGeometry F) (obj : Object F)
    (hf : obj.faces = []) (t : Mat4 F) (ht : t.Affine) (hd : t.det ≠ 0) (ids : List Int) (st st' : FState F)
    (obj' : Object F) (shapes : List (Object F))
    (h : convertGeometry sc opt g obj t ids st = some (obj', shapes, st'))
    (i n v : Nat) (f : List Nat) (hp : g.polygons[i]? = some f) (hv : f[n]? = some v)
    (hin : (g.nrmMap = "ByPolygonVertex".toList ∧ g.polygons.flatten.length ≤ g.nrms.length) ∨
      (g.nrmMap = "ByControlPoint".toList ∧ g.vertices.length ≤ g.nrms.length ∧
        ∀ v ∈ f, v < g.vertices.length)) :
    ∃ face nrm w, obj'.faces[i]? = some face ∧ face.normals.length = f.length ∧
      face.verts[f.length - 1 - n]? = some v ∧
      g.nrms[if g.nrmMap = "ByPolygonVertex".toList then g.corner i n else v]? = some nrm ∧
      face.normals[f.length - 1 - n]? = some (some (Vec3.normalize w)) ∧
      ∀ p q : Vec3 F, w.dot ((t.applyTo p).sub (t.applyTo q)) = nrm.dot (p.sub q) := by
  obtain ⟨face, _, uvs, ha, _, _, _, hverts, _, hnrm⟩ :=
    geometry_face sc opt g obj hf t ids st st' obj' shapes h i f hp
  have hn : n < f.length := (List.getElem?_eq_some_iff.1 hv).1
  have hne : ¬ "ByPolygonVertex".toList = "ByControlPoint".toList := by decide
  have hne' : ¬ "ByControlPoint".toList = "ByPolygonVertex".toList := by decide
  have hverts' : face.verts[f.length - 1 - n]? = some v := by
    rw [hverts, getElem?_reverse_corner f _ _ rfl hn, hv]
  have hdot : ∀ x p q : Vec3 F, ((fbxNormalMatrix t).applyTo x).dot ((t.applyTo p).sub (t.applyTo q)) =
      x.dot (p.sub q) := fun x p q => Mqo.normalTransform_dot t ht hd x p q
  generalize fbxNormalMatrix t = nm at hnrm hdot
  rcases hin with ⟨h1, h2⟩ | ⟨h1, h2, h3⟩
  · have key := polygonNormals_spec g nm (g.corner i 0)
      (fun n => (g.nrms[g.corner i 0 + n]?).map fun x => (nm.applyTo x).normalize) f 0 (by
        intro k w hk
        have hkl : k < f.length := (List.getElem?_eq_some_iff.1 hk).1
        have hlt := corner_lt g i k f hp hkl
        have e : g.corner i 0 + (0 + k) = g.corner i k := by unfold FGeometry.corner; omega
        have e2 : g.nrms[g.corner i k]? = some (g.nrms[g.corner i k]'(by omega)) := List.getElem?_eq_getElem (by omega)
        simp only [cornerNormal, h1, hne, if_false, false_and, if_true, e, e2]
        simp)
    obtain ⟨kl, kr⟩ := key
    have hlt := corner_lt g i n f hp hn
    have e : g.corner i 0 + (0 + n) = g.corner i n := by unfold FGeometry.corner; omega
    have e2 : g.nrms[g.corner i n]? = some (g.nrms[g.corner i n]'(by omega)) := List.getElem?_eq_getElem (by omega)
    refine ⟨face, _, nm.applyTo (g.nrms[g.corner i n]'(by omega)), ha, by simp [hnrm, kl], hverts',
      by rw [if_pos h1]; exact e2, ?_, ?_⟩
    · rw [hnrm, getElem?_reverse_corner _ _ _ kl hn, kr n hn, e, e2]
      rfl
    · exact hdot _
  · have hvl := h3 v (List.mem_of_getElem? hv)
    have key := polygonNormals_spec g nm (g.corner i 0)
      (fun n => (g.nrms[f.getD n 0]?).map fun x => (nm.applyTo x).normalize) f 0 (by
        intro k w hk
        have hwl := h3 w (List.mem_of_getElem? hk)
        have e2 : g.nrms[w]? = some (g.nrms[w]'(by omega)) := List.getElem?_eq_getElem (by omega)
        have e3 : f.getD (0 + k) 0 = w := by simp [List.getD, hk]
        have e4 : w < g.nrms.length := by omega
        simp only [cornerNormal, h1, h2, e4, true_and, if_true, e2, e3]
        simp)
    obtain ⟨kl, kr⟩ := key
    have e2 : g.nrms[v]? = some (g.nrms[v]'(by omega)) := List.getElem?_eq_getElem (by omega)
    refine ⟨face, _, nm.applyTo (g.nrms[v]'(by omega)), ha, by simp [hnrm, kl], hverts',
      by rw [if_neg (by rw [h1]; exact hne')]; exact e2, ?_, ?_⟩
    · rw [hnrm, getElem?_reverse_corner _ _ _ kl hn, kr n hn]
      have e3 : f.getD (0 + n) 0 = v := by simp [List.getD, hv]
      rw [e3, e2]
      rfl
    · exact hdot _

end Normals

section Total

variable [Add F] [Sub F] [Mul F] [Div F] [Zero F] [One F] [FloatOps F]

theorem polygonUVs_total (g : FGeometry F) (hpv : g.polygons.flatten.length ≤ g.pvCount)
    (hidx : ∀ k ∈ g.uvIndex, 0 ≤ k ∧ k < g.uvs.length) (vc len : Nat)
    (hvc : vc + len ≤ g.polygons.flatten.length) : ∃ uvs, polygonUVs g vc len = some uvs := by
  unfold polygonUVs
  have hsub : g.uvTable = (g.uvs, g.uvIndex) ∧ g.pvCount ≤ g.uvIndex.length ∨
      (g.uvTable = (g.uvs, []) ∧ g.pvCount ≤ g.uvs.length) ∨ g.uvTable = ([], []) := by
    unfold FGeometry.uvTable
    split
    · split
      · split
        · exact Or.inr (Or.inr rfl)
        · exact Or.inl ⟨rfl, by omega⟩
      · split
        · exact Or.inr (Or.inr rfl)
        · exact Or.inr (Or.inl ⟨rfl, by omega⟩)
    · exact Or.inr (Or.inr rfl)
  rcases hsub with ⟨e, hl⟩ | ⟨e, hl⟩ | e
  · rw [e]
    split
    · rw [mapM_some_iff]
      intro n hn
      have hn' : vc + n < g.uvIndex.length := by have := List.mem_range.1 hn; omega
      simp only [List.getElem?_eq_getElem hn']
      have := hidx _ (List.getElem_mem hn')
      have hlt : g.uvIndex[vc + n].toNat < g.uvs.length := by omega
      refine ⟨flipV g.uvs[g.uvIndex[vc + n].toNat], ?_⟩
      unfold at?
      rw [if_neg (by omega), List.getElem?_eq_getElem hlt]
      rfl
    · rename_i hnil
      have hnil : g.uvIndex = [] := by simpa using hnil
      have h0 : g.pvCount = 0 := by rw [hnil] at hl; simpa using hl
      have h1 : len = 0 := by omega
      subst h1
      simp
  · rw [e, if_neg (by simp)]
    split
    · rw [mapM_some_iff]
      intro n hn
      have hn' : vc + n < g.uvs.length := by have := List.mem_range.1 hn; omega
      exact ⟨_, by rw [List.getElem?_eq_getElem hn']; rfl⟩
    · exact ⟨_, rfl⟩
  · rw [e, if_neg (by simp), if_neg (by simp)]
    exact ⟨_, rfl⟩

theorem fbxFaces_total (g : FGeometry F) (nm : Mat4 F) (ids : List Int)
    (hpv : g.polygons.flatten.length ≤ g.pvCount) (hidx : ∀ k ∈ g.uvIndex, 0 ≤ k ∧ k < g.uvs.length)
    (hmat : ∀ k ∈ g.mats, 0 ≤ k) (fs : List (List Nat)) :
    ∀ i vc, i + fs.length = g.polygons.length → vc + fs.flatten.length = g.polygons.flatten.length →
      ∃ faces, fbxFaces g nm ids i vc fs = some faces := by
  induction fs with
  | nil => intro i vc _ _; exact ⟨[], rfl⟩
  | cons f fs ih =>
    intro i vc hi hv
    simp only [List.length_cons, List.flatten_cons, List.length_append] at hi hv
    obtain ⟨rest, hrest⟩ := ih (i + 1) (vc + f.length) (by omega) (by omega)
    obtain ⟨uvs, hu⟩ := polygonUVs_total g hpv hidx vc f.length (by omega)
    have hk : ∃ k, g.matIdx i = some k ∧ 0 ≤ k := by
      unfold FGeometry.matIdx
      split
      · rename_i hb
        unfold FGeometry.matByPolygon at hb
        rw [Bool.and_eq_true, decide_eq_true_eq, decide_eq_true_eq] at hb
        have hlt : i < g.mats.length := by omega
        exact ⟨_, List.getElem?_eq_getElem hlt, hmat _ (List.getElem_mem hlt)⟩
      · split
        · rename_i hb
          exact ⟨_, List.getElem?_eq_getElem hb.2, hmat _ (List.getElem_mem hb.2)⟩
        · exact ⟨0, rfl, le_refl _⟩
    obtain ⟨k, hk, hk0⟩ := hk
    have hm : ∃ mat, faceMaterial ids k = some mat := by
      unfold faceMaterial
      split
      · rw [if_neg (by omega)]
        have : k.toNat < ids.length := by omega
        exact ⟨_, List.getElem?_eq_getElem this⟩
      · exact ⟨0, rfl⟩
    obtain ⟨mat, hm⟩ := hm
    have hface : ∃ face, fbxFace g nm ids i vc f = some face := by
      unfold fbxFace
      simp only [hk, hm, hu, Option.bind_eq_bind, Option.bind_some, Mqo.flip_reverse]
      exact ⟨_, rfl⟩
    obtain ⟨face, hface⟩ := hface
    refine ⟨face :: rest, ?_⟩
    unfold fbxFaces
    rw [hface, Option.bind_eq_bind, Option.bind_some, hrest]
    rfl

/-- C114. A loaded mesh without deformers and shapes is converted without a panic if its texture indexes lie
in the list of coordinates and its material indexes are not negative; vertex indexes, missing or short
arrays and unknown mapping types do no harm. -/
theorem geometry_total [DecidableEq F] (sc : FScene F) (opt : FOptions F) (g : FGeometry F) (obj : Object F)
    (t : Mat4 F) (ids : List Int) (st : FState F)
    (hpv : g.polygons.flatten.length ≤ g.pvCount) (hidx : ∀ k ∈ g.uvIndex, 0 ≤ k ∧ k < g.uvs.length)
    (hmat : ∀ k ∈ g.mats, 0 ≤ k) (hd : g.deformers = []) (hs : g.shapes = []) :
    ∃ obj', convertGeometry sc opt g obj t ids st = some (obj', [], st) := by
  obtain ⟨faces, hf⟩ := fbxFaces_total g (fbxNormalMatrix t) ids hpv hidx hmat g.polygons 0 0 (by omega) (by omega)
  unfold convertGeometry
  rw [hf, hd, hs]
  simp only [convertDeformers]
  split
  · exact ⟨_, rfl⟩
  · exact ⟨_, rfl⟩

/-- C114. A texture index outside of the list of coordinates, at any polygon vertex, is a panic. -/
theorem geometry_uv_panics [DecidableEq F] (sc : FScene F) (opt : FOptions F) (g : FGeometry F) (obj : Object F)
    (hf : obj.faces = []) (t : Mat4 F) (ids : List Int) (st : FState F)
    (hpv : g.polygons.flatten.length ≤ g.pvCount)
    (hm : g.uvMap = "ByPolygonVertex".toList) (hr : g.uvRef = "IndexToDirect".toList)
    (hlen : g.pvCount ≤ g.uvIndex.length) (i n : Nat) (f : List Nat) (hp : g.polygons[i]? = some f) (hn : n < f.length)
    (k : Int) (hk : g.uvIndex[g.corner i n]? = some k) (hbad : k < 0 ∨ (g.uvs.length : Int) ≤ k) :
    convertGeometry sc opt g obj t ids st = none := by
  cases h : convertGeometry sc opt g obj t ids st with
  | none => rfl
  | some r =>
    obtain ⟨obj', shapes, st'⟩ := r
    obtain ⟨_, k', uv, _, _, _, h1, h2, h3, _⟩ :=
      geometry_uv_indexed sc opt g obj hf t ids st st' obj' shapes h hpv hm hr hlen i n f hp hn
    rw [hk] at h1
    cases h1
    have := (List.getElem?_eq_some_iff.1 h3).1
    omega

/-- C114. A negative material index is a panic. -/
theorem geometry_material_panics [DecidableEq F] (sc : FScene F) (opt : FOptions F) (g : FGeometry F) (obj : Object F)
    (hf : obj.faces = []) (t : Mat4 F) (ids : List Int) (st : FState F)
    (hm : g.matMap = "ByPolygon".toList) (hl : g.polygons.length ≤ g.mats.length) (i : Nat)
    (hi : i < g.polygons.length) (k : Int) (hk : g.mats[i]? = some k) (hneg : k < 0) :
    convertGeometry sc opt g obj t ids st = none := by
  cases h : convertGeometry sc opt g obj t ids st with
  | none => rfl
  | some r =>
    obtain ⟨obj', shapes, st'⟩ := r
    obtain ⟨_, k', _, h1, _, _, h4, _⟩ :=
      geometry_material sc opt g obj hf t ids st st' obj' shapes h i _ (List.getElem?_eq_getElem hi)
    have h1 := h1 hm hl
    rw [hk] at h1
    cases h1
    have := h4 (by omega)
    omega

end Total

/-! ### Examples -/

section Examples

local instance ratOpsFbxMesh1 : FloatOps ℚ := ⟨id, fun a b => decide (a < b), fun a b => decide (a ≤ b)⟩

def sampleGeometry : FGeometry ℚ where
  vertices := [⟨0, 0, 0⟩, ⟨1, 0, 0⟩, ⟨1, 1, 0⟩, ⟨0, 1, 0⟩]
  polygons := [[0, 1, 2], [2, 3, 0]]
  pvCount := 6
  matMap := "ByPolygon".toList
  mats := [1, 0]
  nrmMap := "ByPolygonVertex".toList
  nrmRef := "IndexToDirect".toList
  nrmIndex := [1, 1, 1, 0, 0, 0]
  nrms := [⟨1, 0, 0⟩, ⟨0, 0, 1⟩, ⟨1, 0, 0⟩, ⟨0, 1, 0⟩, ⟨0, 0, 1⟩, ⟨1, 0, 0⟩]
  uvMap := "ByPolygonVertex".toList
  uvRef := "IndexToDirect".toList
  uvs := [⟨0, 0⟩, ⟨1, 0⟩, ⟨1 / 4, 1⟩]
  uvIndex := [0, 1, 2, 2, 1, 0]
  deformers := []
  shapes := []

def sampleModel : FModel ℚ :=
  ⟨"Box::Model".toList, false, Mat4.translation 1 2 3, ⟨0, 0, 0⟩, some 0, [], some sampleGeometry, [0, 1]⟩

def sampleScene : FScene ℚ where
  model := fun m => if m = 0 then ⟨[], false, Mat4.one, ⟨0, 0, 0⟩, none, [1], none, []⟩ else sampleModel
  count := 2
  scene := 0
  coord := Mat4.one
  materialCount := 2

def emptyState : FState ℚ := ⟨[], [], [], fun _ => none⟩

/-- The faces of the sample. -/
def sampleFaces : List (Face ℚ) :=
  [⟨0, [2, 1, 0], 6, [⟨1 / 4, 0⟩, ⟨1, 1⟩, ⟨0, 1⟩], [some ⟨1, 0, 0⟩, some ⟨0, 0, 1⟩, some ⟨1, 0, 0⟩]⟩,
   ⟨0, [0, 3, 2], 5, [⟨0, 1⟩, ⟨1, 1⟩, ⟨1 / 4, 0⟩], [some ⟨1, 0, 0⟩, some ⟨0, 0, 1⟩, some ⟨0, 1, 0⟩]⟩]

/-- The hypotheses of the theorems above hold for the sample, moved by a translation. -/
example : sampleGeometry.polygons.flatten.length ≤ sampleGeometry.pvCount ∧
    (∀ k ∈ sampleGeometry.uvIndex, 0 ≤ k ∧ k < sampleGeometry.uvs.length) ∧ (∀ k ∈ sampleGeometry.mats, 0 ≤ k) ∧
    sampleGeometry.pvCount ≤ sampleGeometry.uvIndex.length ∧
    (Mat4.translation 1 2 3 : Mat4 ℚ).Affine ∧ (Mat4.translation 1 2 3 : Mat4 ℚ).det ≠ 0 := by
  refine ⟨by decide, by decide, by decide, by decide, ?_, ?_⟩
  · unfold Mat4.Affine
    decide +kernel
  · decide +kernel

example : (convertGeometry sampleScene FOptions.default sampleGeometry (Mqo.newObject (119 / 2) "Box".toList)
    (Mat4.translation 1 2 3) [5, 6] emptyState).map (fun r => (r.1.faces, r.1.vertexes)) =
    some (sampleFaces, [⟨1, 2, 3⟩, ⟨2, 2, 3⟩, ⟨2, 3, 3⟩, ⟨1, 3, 3⟩]) := by decide +kernel

/-- A panic: the last texture index is 3, but there are three coordinates. -/
example : (convertGeometry sampleScene FOptions.default { sampleGeometry with uvIndex := [0, 1, 2, 2, 1, 3] }
    (Mqo.newObject (119 / 2) "Box".toList) (Mat4.translation 1 2 3) [5, 6] emptyState).isNone = true := by
  decide +kernel

/-- C114. The index list of the normals is not used: with normals by polygon vertex and reference type
"IndexToDirect", a corner does not have the normal its index names. -/
theorem normals_indexed_false : ¬ ∀ (g : FGeometry ℚ) (obj' : Object ℚ) (shapes : List (Object ℚ)) (st' : FState ℚ),
    g.nrmMap = "ByPolygonVertex".toList → g.nrmRef = "IndexToDirect".toList →
    g.nrmIndex.length = g.polygons.flatten.length → (∀ k ∈ g.nrmIndex, 0 ≤ k ∧ k < g.nrms.length) →
    convertGeometry sampleScene FOptions.default g (Mqo.newObject (119 / 2) "Box".toList) Mat4.one [] emptyState =
      some (obj', shapes, st') →
    ∀ i n f face k, g.polygons[i]? = some f → n < f.length → obj'.faces[i]? = some face →
      g.nrmIndex[g.corner i n]? = some k →
      face.normals[f.length - 1 - n]? = (g.nrms[k.toNat]?).map fun x => some (Vec3.normalize x) := by
  intro hall
  obtain ⟨obj', h⟩ := geometry_total sampleScene FOptions.default sampleGeometry
    (Mqo.newObject (119 / 2) "Box".toList) Mat4.one [] emptyState (by decide) (by decide) (by decide) rfl rfl
  have hf : obj'.faces[0]? = some ⟨0, [2, 1, 0], 0, [⟨1 / 4, 0⟩, ⟨1, 1⟩, ⟨0, 1⟩],
      [some ⟨1, 0, 0⟩, some ⟨0, 0, 1⟩, some ⟨1, 0, 0⟩]⟩ := by
    have : (convertGeometry sampleScene FOptions.default sampleGeometry (Mqo.newObject (119 / 2) "Box".toList)
        Mat4.one [] emptyState).bind (fun r => r.1.faces[0]?) = some ⟨0, [2, 1, 0], 0, [⟨1 / 4, 0⟩, ⟨1, 1⟩, ⟨0, 1⟩],
          [some ⟨1, 0, 0⟩, some ⟨0, 0, 1⟩, some ⟨1, 0, 0⟩]⟩ := by decide +kernel
    rw [h] at this
    exact this
  have := hall sampleGeometry obj' [] emptyState rfl rfl rfl (by decide) h 0 0 [0, 1, 2] _ 1 rfl (by decide) hf rfl
  revert this
  decide +kernel

end Examples

end Verif.Conv
