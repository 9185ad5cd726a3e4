import Verif.Conv.GltfMeshLemmas
import Verif.Conv.GltfSkinProps
import Verif.Mqo.TransformProps

/-!
C41, C86: the meshes of the glTF export (converter/mqo2gltf.go:585-737).
-/

namespace Verif.Conv

open Verif.Geom
open Verif.Mqo (Object Face Bone FaceOk Replaces TriOf)

variable {F : Type}

/-- What a mesh has to be for an object of triangles: arrays of the same length, every vertex stems from a
vertex of the object, and the triangles of every material are the faces with that material, in order, with
reversed winding. -/
structure IsMeshOf [Add F] [Sub F] [Mul F] [FloatOps F] (scale eps : F) (hasJoints : Bool)
    (skin : List (VSkin F)) (materials : List (Int × Nat)) (o : Object F) (m : GMesh F) : Prop where
  lengths : m.src.length = m.pos.length ∧ m.uv.length = m.pos.length ∧ m.nrm.length = m.pos.length ∧
    (hasJoints = true → m.skin.length = m.pos.length)
  keeps : ∀ i, i < o.vertexes.length → m.src[i]? = some i
  stems : ∀ v i : Nat, m.src[v]? = some i → ∃ p, o.vertexes[i]? = some p ∧ m.pos[v]? = some (p.scale scale) ∧
    (hasJoints = true → m.skin[v]? = skin[i]?)
  materialsOnce : (m.prims.map (·.1)).Nodup
  materialsUsed : ∀ mat, mat ∈ m.prims.map (·.1) ↔ ∃ f ∈ o.faces, materials.lookup f.material = some mat
  range : ∀ p ∈ m.prims, ∀ v ∈ p.2, v < m.pos.length
  triangles : ∀ mat, ∃ ts : List (Nat × Nat × Nat),
    (m.prims.lookup mat).getD [] = ts.flatMap (fun t => [t.2.2, t.2.1, t.1]) ∧
    List.Forall₂ (fun f t =>
      (∃ a b c, f.verts = [a, b, c] ∧ m.src[t.1]? = some a ∧ m.src[t.2.1]? = some b ∧ m.src[t.2.2]? = some c) ∧
      (f.uvs ≠ [] → ∃ ua ub uc, f.uvs = [ua, ub, uc] ∧
        (∃ x, m.uv[t.1]? = some x ∧ (x = ua ∨ lt (ua.sub x).lenSqr eps = true)) ∧
        (∃ x, m.uv[t.2.1]? = some x ∧ (x = ub ∨ lt (ub.sub x).lenSqr eps = true)) ∧
        (∃ x, m.uv[t.2.2]? = some x ∧ (x = uc ∨ lt (uc.sub x).lenSqr eps = true))))
      (o.faces.filter fun f => materials.lookup f.material = some mat) ts

theorem lookup_of_mem_nodup {β : Type} (l : List (Nat × β)) (h : (l.map (·.1)).Nodup) (p : Nat × β) (hp : p ∈ l) :
    l.lookup p.1 = some p.2 := by
  induction l with
  | nil => simp at hp
  | cons q l ih =>
    rw [List.map_cons, List.nodup_cons] at h
    rw [List.lookup_cons]
    rcases List.mem_cons.mp hp with rfl | hp
    · simp
    · have hne : p.1 ≠ q.1 := fun e => h.1 (List.mem_map.mpr ⟨p, hp, e⟩)
      have hb : (p.1 == q.1) = false := by simpa using hne
      simp only [hb]
      exact ih h.2 hp

/-- C41: an object made of triangles with normals is exported without a panic and the mesh shows it. -/
theorem meshOf_spec [Add F] [Sub F] [Mul F] [Zero F] [FloatOps F] (scale eps : F) (hasJoints : Bool)
    (skin : List (VSkin F)) (materials : List (Int × Nat)) (o : Object F)
    (hs : hasJoints = true → skin.length = o.vertexes.length) (hf : ∀ f ∈ o.faces, TriFace o f) :
    ∃ m, meshOf scale eps hasJoints skin materials o = some m ∧
      IsMeshOf scale eps hasJoints skin materials o m := by
  obtain ⟨m, h1, h2, h3⟩ := meshFaces_spec (eps := eps) materials o.faces (startMesh scale o skin) []
    (startMesh_inv scale hasJoints o skin hs)
    ⟨by simp [startMesh], fun mat => ⟨[], by simp [facesWith], by simp [startMesh, reversedTris]⟩,
      by simp [startMesh, facesWith]⟩ hf
  rw [List.nil_append] at h3
  refine ⟨m, h1, ⟨h2.lenPos.symm, h2.lenUV.trans h2.lenPos.symm, h2.lenNrm.trans h2.lenPos.symm,
    fun hj => (h2.lenSkin hj).trans h2.lenPos.symm⟩, h2.low, h2.stem, h3.keys, ?_, ?_, ?_⟩
  · intro mat
    rw [h3.used mat]
    unfold facesWith
    rw [ne_eq, List.filter_eq_nil_iff]
    simp
  · intro p hp v hv
    obtain ⟨ts, ht, he⟩ := h3.tris p.1
    rw [lookup_of_mem_nodup _ h3.keys p hp] at he
    simp only [Option.getD_some] at he
    rw [he] at hv
    obtain ⟨t, ht1, ht2⟩ := List.mem_flatMap.mp hv
    have : ∀ (fs : List (Face F)) (ts : List (Nat × Nat × Nat)), List.Forall₂ (MeshTri eps m) fs ts → ∀ t ∈ ts,
        ∃ f, MeshTri eps m f t := by
      intro fs ts h
      induction h with
      | nil => simp
      | cons h _ ih =>
        intro t ht
        rcases List.mem_cons.mp ht with rfl | ht
        · exact ⟨_, h⟩
        · exact ih t ht
    obtain ⟨f, hft⟩ := this _ _ ht t ht1
    obtain ⟨a, b, c, _, k1, k2, k3⟩ := hft.src
    have hb : ∀ w i : Nat, m.src[w]? = some i → w < m.pos.length := by
      intro w i h
      rw [h2.lenPos]
      exact (List.getElem?_eq_some_iff.mp h).1
    simp only [List.mem_cons, List.not_mem_nil, or_false] at ht2
    rcases ht2 with rfl | rfl | rfl
    · exact hb _ _ k3
    · exact hb _ _ k2
    · exact hb _ _ k1
  · intro mat
    obtain ⟨ts, ht, he⟩ := h3.tris mat
    refine ⟨ts, he, ht.imp ?_⟩
    intro f t hft
    refine ⟨hft.src, fun hu => ?_⟩
    obtain ⟨ua, ub, uc, e, ⟨a, ha⟩, ⟨b, hb⟩, ⟨c, hc⟩⟩ := hft.uv hu
    exact ⟨ua, ub, uc, e, ha.uv, hb.uv, hc.uv⟩

/-- C86: the target of a morph, a list of the same number of vertices, is exported without a panic, and
moving every vertex of the mesh by its offset gives the target. -/
theorem morphDeltas_spec [Field F] [FloatOps F] (scale eps : F) (hasJoints : Bool)
    (skin : List (VSkin F)) (materials : List (Int × Nat)) (o : Object F) (m : GMesh F)
    (hm : IsMeshOf scale eps hasJoints skin materials o m) (target : List (Vec3 F))
    (hl : target.length = o.vertexes.length) :
    ∃ ds, morphDeltas scale m target = some ds ∧ ds.length = m.pos.length ∧
      ∀ (v i : Nat), m.src[v]? = some i → ∃ p d t, m.pos[v]? = some p ∧ ds[v]? = some d ∧ target[i]? = some t ∧
        p.add d = t.scale scale := by
  have hpos : ∀ i, i < o.vertexes.length → ∃ p, o.vertexes[i]? = some p ∧ m.pos[i]? = some (p.scale scale) := by
    intro i hi
    obtain ⟨p, h1, h2, _⟩ := hm.stems i i (hm.keeps i hi)
    exact ⟨p, h1, h2⟩
  obtain ⟨ds, h1, h2⟩ := Mqo.mapM_spec (fun i => match target[i]?, m.pos[i]? with
      | some v, some p => some ((v.scale scale).sub p)
      | _, _ => none)
    (fun i d => ∃ p t, o.vertexes[i]? = some p ∧ target[i]? = some t ∧ d = (t.scale scale).sub (p.scale scale))
    m.src (by
      intro i hi
      obtain ⟨v, hv⟩ := List.mem_iff_getElem?.mp hi
      obtain ⟨p, hp, _, _⟩ := hm.stems v i hv
      have hil : i < o.vertexes.length := (List.getElem?_eq_some_iff.mp hp).1
      obtain ⟨q, hq1, hq2⟩ := hpos i hil
      have ht : target[i]? = some (target[i]'(by omega)) := List.getElem?_eq_getElem _
      exact ⟨_, by simp only [ht, hq2], q, _, hq1, ht, rfl⟩)
  refine ⟨ds, h1, h2.length_eq.symm.trans hm.lengths.1, ?_⟩
  intro v i hv
  obtain ⟨p, hp1, hp2, _⟩ := hm.stems v i hv
  have hvl : v < m.src.length := (List.getElem?_eq_some_iff.mp hv).1
  have hvd : v < ds.length := by rw [← h2.length_eq]; exact hvl
  have hrel := (List.forall₂_iff_get.mp h2).2 v hvl hvd
  obtain ⟨q, t, k1, k2, k3⟩ := hrel
  have hvi : m.src.get ⟨v, hvl⟩ = i := by
    have := (List.getElem?_eq_some_iff.mp hv).2
    simpa using this
  rw [hvi] at k1 k2
  rw [hp1] at k1
  have := Option.some.inj k1
  subst this
  refine ⟨_, _, t, hp2, List.getElem?_eq_getElem hvd, k2, ?_⟩
  have k3' : ds[v] = (t.scale scale).sub (p.scale scale) := by simpa using k3
  rw [k3']
  simp only [Vec3.add, Vec3.sub, Vec3.scale]
  congr 1 <;> ring

/-- The faces that come out of `triangulate` are proper triangles if the faces before had everything. -/
theorem triFace_of_replaces [Add F] [Sub F] [Mul F] [Div F] [Zero F] [One F] [FloatOps F] (o : Object F)
    (f : Face F) (hok : FaceOk o f) (hn : f.normals.length = f.verts.length)
    (hsome : ∀ n ∈ f.normals, n ≠ none) (gs : List (Face F)) (hr : Replaces f gs) (g : Face F) (hg : g ∈ gs) :
    TriFace o g := by
  have hnorm : ∀ i, i < f.verts.length → ∃ n, f.normals[i]? = some (some n) := by
    intro i hi
    have hin : i < f.normals.length := by omega
    cases e : f.normals[i] with
    | none => exact absurd e (hsome _ (List.getElem_mem hin))
    | some n => exact ⟨n, by rw [List.getElem?_eq_getElem hin, e]⟩
  rcases hr with ⟨h3, rfl⟩ | ⟨_, _, ts, h1, h2, _⟩
  · have : g = f := by simpa using hg
    subst this
    refine ⟨h3, hok.verts, fun k hk => hnorm k (by omega), ?_⟩
    rw [← h3]
    exact hok.uvs
  · have : ∀ (ts : List (Nat × Nat × Nat)) (gs : List (Face F)), List.Forall₂ (TriOf f) ts gs → ∀ g ∈ gs,
        ∃ t ∈ ts, TriOf f t g := by
      intro ts gs h
      induction h with
      | nil => simp
      | cons h _ ih =>
        intro g hg
        rcases List.mem_cons.mp hg with rfl | hg
        · exact ⟨_, by simp, h⟩
        · obtain ⟨t, ht, h⟩ := ih g hg
          exact ⟨t, by simp [ht], h⟩
    obtain ⟨t, ht, hto⟩ := this ts gs h1 g hg
    have hr := (h2 t ht).1
    have hc : ∀ k < 3, ∃ i, i < f.verts.length ∧ Mqo.cornerData g k = Mqo.cornerData f i := by
      intro k hk
      match k, hk with
      | 0, _ => exact ⟨_, hr.1, hto.a⟩
      | 1, _ => exact ⟨_, hr.2.1, hto.b⟩
      | 2, _ => exact ⟨_, hr.2.2, hto.c⟩
    refine ⟨hto.size, ?_, ?_, hto.uvs.2⟩
    · intro v hv
      obtain ⟨k, hk⟩ := List.mem_iff_getElem?.mp hv
      have hk3 : k < 3 := by
        rw [← hto.size]; exact (List.getElem?_eq_some_iff.mp hk).1
      obtain ⟨i, hi, he⟩ := hc k hk3
      have he1 : g.verts[k]? = f.verts[i]? := (Prod.mk.inj he).1
      rw [hk, List.getElem?_eq_getElem hi] at he1
      have := Option.some.inj he1
      rw [this]
      exact hok.verts _ (List.getElem_mem hi)
    · intro k hk
      obtain ⟨i, hi, he⟩ := hc k hk
      have he1 : g.normals[k]? = f.normals[i]? := (Prod.mk.inj (Prod.mk.inj he).2).2
      rw [he1]
      exact hnorm i hi

/-- C41: an object whose faces have existing vertices, UVs at all or no corners, and no missing normal in a
full list of normals, and whose weights name existing vertices, is exported without a panic: its mesh is
that of the triangles that replace its faces. -/
theorem convertObject_spec (scale eps h : ℝ) (bones : List (Bone ℝ)) (idToJoint : List (Int × Nat))
    (materials : List (Int × Nat)) (o : Object ℝ)
    (hv : ∀ f ∈ o.faces, ∀ v ∈ f.verts, v < o.vertexes.length)
    (hu : ∀ f ∈ o.faces, f.uvs = [] ∨ f.uvs.length = f.verts.length)
    (hn : ∀ f ∈ o.faces, f.normals.length = f.verts.length → ∀ n ∈ f.normals, n ≠ none)
    (hw : ∀ g ∈ skinGroups bones o, ∀ vw ∈ g.2, 0 ≤ o.getVertexIndexByID vw.vertexID ∧
      o.getVertexIndexByID vw.vertexID < o.vertexes.length) :
    ∃ m joints skin, ∃ o' : Object ℝ, ∃ fs : List (Face ℝ), ∃ gss : List (List (Face ℝ)),
      convertObject scale eps h bones idToJoint materials o = some (m, joints) ∧
      getWeights h bones o' idToJoint = some (joints, skin) ∧
      List.Forall₂ (fun f f' => f'.normals.length = f'.verts.length ∧ { f' with normals := f.normals } = f)
        o.faces fs ∧
      List.Forall₂ Replaces fs gss ∧ o' = { o with faces := gss.flatten } ∧
      IsMeshOf scale eps (0 < joints.length) skin materials o' m := by
  obtain ⟨o1, ns, e1, k1, hns, hfs⟩ := Mqo.fixNormals_spec o hv
  have hall : ∀ f' ∈ o1.faces, FaceOk o1 f' ∧ f'.normals.length = f'.verts.length ∧ ∀ n ∈ f'.normals, n ≠ none := by
    intro f' hf'
    obtain ⟨i, hi⟩ := List.mem_iff_getElem?.mp hf'
    have hil : i < o1.faces.length := (List.getElem?_eq_some_iff.mp hi).1
    have hil0 : i < o.faces.length := by rw [hfs.length_eq]; exact hil
    have hrel := (List.forall₂_iff_get.mp hfs).2 i hil0 hil
    have hgi : o1.faces.get ⟨i, hil⟩ = f' := by
      have := (List.getElem?_eq_some_iff.mp hi).2
      simpa using this
    rw [hgi] at hrel
    have hmem : o.faces.get ⟨i, hil0⟩ ∈ o.faces := List.get_mem _ _
    generalize o.faces.get ⟨i, hil0⟩ = f at hrel hmem
    obtain ⟨r1, r2, r3, r4⟩ := hrel
    have rv : f'.verts = f.verts := by rw [← r2]
    have ru : f'.uvs = f.uvs := by rw [← r2]
    have hov : o1.vertexes = o.vertexes := by rw [← k1]
    refine ⟨⟨by rw [rv, hov]; exact hv f hmem, by rw [rv, ru]; exact hu f hmem, .inr r1⟩, r1, ?_⟩
    by_cases hc : f.normals.length = f.verts.length
    · rw [r3 hc]
      exact hn f hmem hc
    · intro n hnm
      obtain ⟨j, hj⟩ := List.mem_iff_getElem?.mp hnm
      have hjl : j < f.verts.length := by
        rw [← rv, ← r1]; exact (List.getElem?_eq_some_iff.mp hj).1
      obtain ⟨x, _, hx⟩ := r4 hc j _ (List.getElem?_eq_getElem hjl)
      rw [hj] at hx
      rw [Option.some.inj hx]
      simp
  obtain ⟨o2, gss, e2, k2, k3, k4, _⟩ := Mqo.object_triangulate o1 (fun f hf => (hall f hf).1)
  have ho2 : o2 = { o with faces := gss.flatten } := by
    rw [← k1, ← k2, ← k3]
  have hov2 : o2.vertexes = o1.vertexes := by rw [← k2]
  have htri : ∀ g ∈ o2.faces, TriFace o2 g := by
    intro g hg
    rw [k3] at hg
    obtain ⟨gs, hgs, hgm⟩ := List.mem_flatten.mp hg
    obtain ⟨i, hi⟩ := List.mem_iff_getElem?.mp hgs
    have hil : i < gss.length := (List.getElem?_eq_some_iff.mp hi).1
    have hil1 : i < o1.faces.length := by rw [k4.length_eq]; exact hil
    have hrel := (List.forall₂_iff_get.mp k4).2 i hil1 hil
    have hgi : gss.get ⟨i, hil⟩ = gs := by
      have := (List.getElem?_eq_some_iff.mp hi).2
      simpa using this
    rw [hgi] at hrel
    obtain ⟨a1, a2, a3⟩ := hall _ (List.get_mem o1.faces ⟨i, hil1⟩)
    obtain ⟨b1, b2, b3, b4⟩ := triFace_of_replaces o1 _ a1 a2 a3 gs hrel g hgm
    exact ⟨b1, by rw [hov2]; exact b2, b3, b4⟩
  have hwid : ∀ id, o2.getVertexIndexByID id = o.getVertexIndexByID id := by
    intro id; rw [ho2]; rfl
  have hsg : skinGroups bones o2 = skinGroups bones o := by
    rw [ho2]; rfl
  obtain ⟨⟨joints, skin⟩, e3⟩ := getWeights_total h bones o2 idToJoint (by
    rw [hsg]
    intro g hg vw hvw
    rw [hwid, show o2.vertexes = o.vertexes by rw [ho2]]
    exact hw g hg vw hvw)
  obtain ⟨m, e4, hm⟩ := meshOf_spec scale eps (decide (0 < joints.length)) skin materials o2 (by
    intro hj
    rcases getWeights_joints h bones o2 idToJoint joints skin e3 with ⟨h1, _⟩ | ⟨h1, _⟩
    · subst h1; simp at hj
    · exact h1) htri
  refine ⟨m, joints, skin, o2, o1.faces, gss, ?_, e3, hfs.imp fun _ _ h => ⟨h.1, h.2.1⟩, k4, ho2, hm⟩
  simp only [convertObject, e1, e2, e3, e4]

section
local instance : FloatOps ℚ := ⟨id, fun a b => decide (a < b), fun a b => decide (a ≤ b)⟩

/-- An object of two triangles whose shared corners have different UVs at one of them; a third face has a
material that is not exported. -/
def meshFan : Object ℚ := ⟨7, [], [⟨0, 0, 0⟩, ⟨1, 0, 0⟩, ⟨1, 1, 0⟩, ⟨0, 1, 0⟩],
  [⟨0, [0, 1, 2], 0, [⟨0, 0⟩, ⟨1, 0⟩, ⟨1, 1⟩], List.replicate 3 (some ⟨0, 0, 1⟩)⟩,
   ⟨0, [0, 2, 3], 0, [⟨1/2, 0⟩, ⟨1, 1⟩, ⟨0, 1⟩], List.replicate 3 (some ⟨0, 0, 1⟩)⟩,
   ⟨0, [0, 1, 3], 9, [], List.replicate 3 (some ⟨0, 0, 1⟩)⟩],
  true, false, 0, false, 0, 0, 0, 0, 0, 0, none, none, none, none, [], none⟩

/-- The hypotheses of `meshOf_spec` and the result: vertex 0 is doubled. -/
example : (meshOf 2 (1/100) false [] [(0, 5)] meshFan).map (fun m => (m.src, m.prims, m.skipped)) =
    some ([0, 1, 2, 3, 0], [(5, [2, 1, 0, 3, 2, 4])], true) := by decide +kernel

example : ∀ f ∈ meshFan.faces, TriFace meshFan f := by
  intro f hf
  simp only [meshFan, List.mem_cons, List.not_mem_nil, or_false] at hf
  rcases hf with rfl | rfl | rfl
  all_goals
    refine ⟨rfl, by decide, ?_, by simp⟩
    intro k hk
    match k, hk with
    | 0, _ => exact ⟨_, rfl⟩
    | 1, _ => exact ⟨_, rfl⟩
    | 2, _ => exact ⟨_, rfl⟩

/-- The hypothesis of `morphDeltas_spec` and the result: both copies of vertex 0 move. -/
example : ((meshOf 2 (1/100) false [] [(0, 5)] meshFan).bind fun m =>
    morphDeltas 2 m [⟨0, 0, 5⟩, ⟨1, 0, 0⟩, ⟨1, 1, 0⟩, ⟨0, 1, 0⟩]) =
    some [⟨0, 0, 10⟩, ⟨0, 0, 0⟩, ⟨0, 0, 0⟩, ⟨0, 0, 0⟩, ⟨0, 0, 10⟩] := by decide +kernel

/-- A full list of normals with a missing normal makes the export panic. -/
theorem convertObject_nil_normal :
    convertObject (1 : ℚ) (1/100) (1/100) [] [] [(0, 0)]
      { meshFan with faces := [⟨0, [0, 1, 2], 0, [], [some ⟨0, 0, 1⟩, none, some ⟨0, 0, 1⟩]⟩] } = none := by
  decide +kernel

end

/-- The hypotheses of `convertObject_spec`: a quad with UVs and without normals, and a weight. -/
example : ∃ (bones : List (Bone ℝ)) (o : Object ℝ), o.faces ≠ [] ∧ skinGroups bones o ≠ [] ∧
    (∀ f ∈ o.faces, ∀ v ∈ f.verts, v < o.vertexes.length) ∧
    (∀ f ∈ o.faces, f.uvs = [] ∨ f.uvs.length = f.verts.length) ∧
    (∀ f ∈ o.faces, f.normals.length = f.verts.length → ∀ n ∈ f.normals, n ≠ none) ∧
    ∀ g ∈ skinGroups bones o, ∀ vw ∈ g.2, 0 ≤ o.getVertexIndexByID vw.vertexID ∧
      o.getVertexIndexByID vw.vertexID < o.vertexes.length := by
  refine ⟨[⟨1, [], 0, 0, ⟨0, 0, 0⟩, 0, 0, 0, [], none, none, none, [⟨7, [⟨2, 50⟩]⟩], [], ⟨0, 0, 0⟩⟩],
    ⟨7, [], [⟨0, 0, 0⟩, ⟨1, 0, 0⟩, ⟨1, 1, 0⟩, ⟨0, 1, 0⟩],
      [⟨0, [0, 1, 2, 3], 0, [⟨0, 0⟩, ⟨1, 0⟩, ⟨1, 1⟩, ⟨0, 1⟩], []⟩],
      true, false, 0, false, 0, 0, 0, 0, 0, 0, none, none, none, none, [], none⟩, by simp, by simp [skinGroups],
    by simp, by simp, by simp, by simp [skinGroups, Mqo.Object.getVertexIndexByID]⟩

end Verif.Conv
