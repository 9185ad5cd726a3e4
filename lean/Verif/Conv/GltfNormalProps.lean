import Verif.Conv.GltfMeshProps

/-! C113: the normals of the exported mesh (converter/mqo2gltf.go:606-663). -/

namespace Verif.Conv

open Verif.Geom
open Verif.Mqo (Object Face)

variable {F : Type}

/-- Vertex `v` of the mesh has the normal `N` gives for the vertex it stems from. -/
def HasNormal (N : Nat → Vec3 F) (m : GMesh F) (v : Nat) : Prop :=
  ∃ i, m.src[v]? = some i ∧ m.nrm[v]? = some (N i)

section
variable [Add F] [Sub F] [Mul F] [FloatOps F]
variable {scale eps : F} {hasJoints : Bool} {o : Object F} {skin0 : List (VSkin F)}

/-- What has a normal keeps it. -/
def KeepsNormals (N : Nat → Vec3 F) (m m' : GMesh F) : Prop := ∀ v, HasNormal N m v → HasNormal N m' v

omit [Add F] [Sub F] [FloatOps F] in
theorem hasNormal_set {N : Nat → Vec3 F} {m : GMesh F} (hm : MeshInv scale hasJoints o skin0 m) {index : Nat}
    (hi : index < o.vertexes.length) (nrm' : List (Vec3 F)) (hn : nrm' = m.nrm.set index (N index)) :
    (∀ v, HasNormal N m v → ∃ i, m.src[v]? = some i ∧ nrm'[v]? = some (N i)) ∧ m.src[index]? = some index ∧
      nrm'[index]? = some (N index) := by
  have hlow := hm.low index hi
  have hlt : index < m.nrm.length := by
    rw [hm.lenNrm]; exact (List.getElem?_eq_some_iff.mp hlow).1
  subst hn
  refine ⟨?_, hlow, by rw [List.getElem?_set_self hlt]⟩
  rintro v ⟨i, h1, h2⟩
  by_cases e : index = v
  · subst e
    rw [hlow] at h1
    have := Option.some.inj h1
    subst this
    exact ⟨index, hlow, by rw [List.getElem?_set_self hlt]⟩
  · exact ⟨i, h1, by rw [List.getElem?_set_ne e]; exact h2⟩

theorem uvCorner_normal (N : Nat → Vec3 F) (m : GMesh F) (hm : MeshInv scale hasJoints o skin0 m)
    (ha : ∀ v, Assigned m v → HasNormal N m v) (index : Nat) (hi : index < o.vertexes.length) (uv : Vec2 F)
    (m' : GMesh F) (v : Nat) (h : uvCorner eps hasJoints m index uv (some (N index)) = some (m', v)) :
    (∀ w, Assigned m' w → HasNormal N m' w) ∧ HasNormal N m' v ∧ KeepsNormals N m m' := by
  unfold uvCorner at h
  cases hl : m.assigned.lookup index with
  | none =>
    rw [hl] at h
    simp only at h
    split at h
    swap
    · exact absurd h (by simp)
    injection h with h
    injection h with h1 h2
    subst h1 h2
    obtain ⟨k1, k2, k3⟩ := hasNormal_set hm hi _ rfl (N := N)
    refine ⟨?_, ⟨index, k2, k3⟩, k1⟩
    rintro w ⟨i, vs, e1, e2⟩
    simp only [assign_lookup] at e1
    split at e1
    · have := Option.some.inj e1
      subst this
      simp only [hl, Option.getD_none, List.nil_append, List.mem_singleton] at e2
      subst e2
      exact ⟨w, k2, k3⟩
    · exact k1 w (ha w ⟨i, vs, e1, e2⟩)
  | some vs =>
    rw [hl] at h
    simp only at h
    obtain ⟨r, h1, h2⟩ := lastNear_spec eps m.uv uv vs none (by
      intro v hv
      have := hm.asg index vs hl v hv
      rw [hm.lenUV]
      exact (List.getElem?_eq_some_iff.mp this).1)
    rw [h1] at h
    cases r with
    | some w =>
      simp only at h
      injection h with h
      injection h with e1 e2
      subst e1 e2
      rcases h2 w rfl with h3 | ⟨h3, _⟩
      · simp at h3
      · exact ⟨ha, ha w ⟨index, vs, hl, h3⟩, fun _ h => h⟩
    | none =>
      simp only at h
      split at h
      swap
      · exact absurd h (by simp)
      rename_i p n sk ep en es
      injection en with en
      subst en
      injection h with h
      injection h with e1 e2
      subst e1 e2
      have hk : ∀ w, HasNormal N m w → ∃ i, (m.src ++ [index])[w]? = some i ∧ (m.nrm ++ [N index])[w]? = some (N i) := by
        rintro w ⟨i, k1, k2⟩
        refine ⟨i, ?_, ?_⟩
        · rw [List.getElem?_append_left (List.getElem?_eq_some_iff.mp k1).1]; exact k1
        · rw [List.getElem?_append_left (List.getElem?_eq_some_iff.mp k2).1]; exact k2
      have hv : (m.src ++ [index])[m.pos.length]? = some index ∧ (m.nrm ++ [N index])[m.pos.length]? = some (N index) := by
        constructor
        · rw [hm.lenPos]; simp
        · rw [hm.lenPos, ← hm.lenNrm]; simp
      refine ⟨?_, ⟨index, hv⟩, hk⟩
      rintro w ⟨i, vs', e1, e2⟩
      simp only [assign_lookup] at e1
      split at e1
      · have := Option.some.inj e1
        subst this
        simp only [hl, Option.getD_some, List.mem_append, List.mem_singleton] at e2
        rcases e2 with e2 | rfl
        · exact hk w (ha w ⟨index, vs, hl, e2⟩)
        · exact ⟨index, hv⟩
      · exact hk w (ha w ⟨i, vs', e1, e2⟩)

theorem uvCorners_normal (N : Nat → Vec3 F) (f : Face F) (rest : List Nat) : ∀ (i : Nat) (m : GMesh F),
    MeshInv scale hasJoints o skin0 m → (∀ v, Assigned m v → HasNormal N m v) → (∀ v ∈ rest, v < o.vertexes.length) →
    (∀ k index, rest[k]? = some index → f.normals[i + k]? = some (some (N index))) →
    ∀ m' vs, uvCorners eps hasJoints f i rest m = some (m', vs) →
      (∀ v, Assigned m' v → HasNormal N m' v) ∧ (∀ v ∈ vs, HasNormal N m' v) ∧ KeepsNormals N m m' := by
  induction rest with
  | nil =>
    intro i m hm ha _ _ m' vs h
    simp only [uvCorners, Option.some.injEq, Prod.mk.injEq] at h
    obtain ⟨rfl, rfl⟩ := h
    exact ⟨ha, by simp, fun _ h => h⟩
  | cons index rest ih =>
    intro i m hm ha hv hn m' vs h
    have hn0 := hn 0 index rfl
    rw [Nat.add_zero] at hn0
    simp only [uvCorners, hn0] at h
    cases hu : f.uvs[i]? with
    | none => rw [hu] at h; simp at h
    | some uv =>
      rw [hu] at h
      simp only at h
      obtain ⟨m1, v1, e1, i1, _⟩ := uvCorner_spec (eps := eps) m hm index (hv index (by simp)) uv (N index)
      rw [e1] at h
      simp only at h
      obtain ⟨a1, g1, k1⟩ := uvCorner_normal N m hm ha index (hv index (by simp)) uv m1 v1 e1
      cases h2 : uvCorners eps hasJoints f (i + 1) rest m1 with
      | none => rw [h2] at h; simp at h
      | some r =>
        obtain ⟨m2, vs2⟩ := r
        rw [h2] at h
        simp only [Option.some.injEq, Prod.mk.injEq] at h
        obtain ⟨rfl, rfl⟩ := h
        obtain ⟨a2, g2, k2⟩ := ih (i + 1) m1 i1 a1 (fun w hw => hv w (by simp [hw])) (fun k index' hk => by
          rw [show i + 1 + k = i + (k + 1) by omega]
          exact hn (k + 1) index' (by simpa using hk)) m2 vs2 h2
        refine ⟨a2, ?_, fun w hw => k2 w (k1 w hw)⟩
        intro w hw
        rcases List.mem_cons.mp hw with rfl | hw
        · exact k2 _ g1
        · exact g2 w hw

omit [Add F] [Sub F] [FloatOps F] in
theorem plainCorners_normal (N : Nat → Vec3 F) (f : Face F) (rest : List Nat) : ∀ (i : Nat) (m : GMesh F),
    MeshInv scale hasJoints o skin0 m → (∀ v ∈ rest, v < o.vertexes.length) →
    (∀ k index, rest[k]? = some index → f.normals[i + k]? = some (some (N index))) →
    ∀ m', plainCorners f i rest m = some m' → m'.assigned = m.assigned ∧
      (∀ v ∈ rest, HasNormal N m' v) ∧ KeepsNormals N m m' := by
  induction rest with
  | nil =>
    intro i m hm _ _ m' h
    simp only [plainCorners, Option.some.injEq] at h
    subst h
    exact ⟨rfl, by simp, fun _ h => h⟩
  | cons index rest ih =>
    intro i m hm hv hn m' h
    have hn0 := hn 0 index rfl
    rw [Nat.add_zero] at hn0
    simp only [plainCorners, hn0] at h
    split at h
    swap
    · exact absurd h (by simp)
    obtain ⟨k1, k2, k3⟩ := hasNormal_set hm (hv index (by simp)) _ rfl (N := N)
    obtain ⟨a2, g2, q2⟩ := ih (i + 1) { m with nrm := m.nrm.set index (N index) }
      ⟨hm.lenPos, hm.lenUV, by simpa using hm.lenNrm, hm.lenSkin, hm.noSkin, hm.low, hm.stem, hm.asg⟩
      (fun w hw => hv w (by simp [hw])) (fun k index' hk => by
          rw [show i + 1 + k = i + (k + 1) by omega]
          exact hn (k + 1) index' (by simpa using hk)) m' h
    refine ⟨a2, ?_, fun w hw => q2 w (k1 w hw)⟩
    intro w hw
    rcases List.mem_cons.mp hw with rfl | hw
    · exact q2 _ ⟨w, k2, k3⟩
    · exact g2 w hw

omit [Add F] [Sub F] [Mul F] [FloatOps F] in
theorem addTriangle_mem (prims : List (Nat × List Nat)) (mat a b c : Nat) (p : Nat × List Nat)
    (hp : p ∈ addTriangle prims mat a b c) (v : Nat) (hv : v ∈ p.2) :
    (∃ q ∈ prims, v ∈ q.2) ∨ v = a ∨ v = b ∨ v = c := by
  unfold addTriangle at hp
  split at hp
  · obtain ⟨q, hq, rfl⟩ := List.mem_map.mp hp
    split at hv
    · simp only [List.mem_append, List.mem_cons, List.not_mem_nil, or_false] at hv
      rcases hv with hv | rfl | rfl | rfl
      · exact .inl ⟨q, hq, hv⟩
      · simp
      · simp
      · simp
    · exact .inl ⟨q, hq, hv⟩
  · rcases List.mem_append.mp hp with hp | hp
    · exact .inl ⟨p, hp, hv⟩
    · rw [List.mem_singleton.mp hp] at hv
      simp only [List.mem_cons, List.not_mem_nil, or_false] at hv
      tauto

/-- The normals of the mesh so far. -/
structure NormalInv (N : Nat → Vec3 F) (m : GMesh F) : Prop where
  asg : ∀ v, Assigned m v → HasNormal N m v
  prim : ∀ p ∈ m.prims, ∀ v ∈ p.2, HasNormal N m v

theorem meshFaces_normal (N : Nat → Vec3 F) (materials : List (Int × Nat)) (fs : List (Face F)) : ∀ (m : GMesh F)
    (done : List (Face F)), MeshInv scale hasJoints o skin0 m → PrimInv eps materials m done → NormalInv N m →
    (∀ f ∈ fs, TriFace o f) → (∀ f ∈ fs, ∀ (k index : Nat), f.verts[k]? = some index → f.normals[k]? = some (some (N index))) →
    ∀ m', meshFaces eps hasJoints materials fs m = some m' → NormalInv N m' := by
  induction fs with
  | nil =>
    intro m done _ _ h _ _ m' e
    simp only [meshFaces, Option.some.injEq] at e
    exact e ▸ h
  | cons f fs ih =>
    intro m done hm hp hN hf hn m' e
    obtain ⟨m1, e1, i1, _, p1⟩ := meshFace_spec materials m hm done hp f (hf f (by simp))
    simp only [meshFaces, e1] at e
    refine ih m1 (done ++ [f]) i1 p1 ?_ (fun g hg => hf g (by simp [hg])) (fun g hg => hn g (by simp [hg])) m' e
    have hfT := hf f (by simp)
    have hfn := hn f (by simp)
    unfold meshFace at e1
    rw [if_neg (by rw [hfT.three]; omega)] at e1
    cases hmat : materials.lookup f.material with
    | none =>
      rw [hmat] at e1
      simp only [Option.some.injEq] at e1
      subst e1
      exact ⟨hN.asg, hN.prim⟩
    | some mat =>
      rw [hmat] at e1
      simp only at e1
      have finish : ∀ (m2 : GMesh F) (vs : List Nat), (∀ v, Assigned m2 v → HasNormal N m2 v) →
          (∀ v ∈ vs, HasNormal N m2 v) → KeepsNormals N m m2 → m2.prims = m.prims → addFace m2 mat vs = some m1 →
          NormalInv N m1 := by
        intro m2 vs ha hg hk hpr h
        unfold addFace at h
        split at h
        swap
        · exact absurd h (by simp)
        rename_i a b c rest
        injection h with h
        subst h
        refine ⟨ha, ?_⟩
        intro p hp' v hv
        rcases addTriangle_mem _ _ _ _ _ p hp' v hv with ⟨q, hq, hvq⟩ | rfl | rfl | rfl
        · rw [hpr] at hq
          exact hk v (hN.prim q hq v hvq)
        · exact hg _ (by simp)
        · exact hg _ (by simp)
        · exact hg _ (by simp)
      split at e1
      · rename_i hu
        have hul : f.uvs.length = 3 := by
          rcases hfT.uvs with h | h
          · simp [h] at hu
          · exact h
        obtain ⟨m2, vs, e2, _, _, _, _, p2, _⟩ := uvCorners_spec (eps := eps) f f.verts 0
          { m with useUV := true }
          ⟨hm.lenPos, hm.lenUV, hm.lenNrm, hm.lenSkin, hm.noSkin, hm.low, hm.stem, hm.asg⟩ hfT.verts
          (fun k _ h => by
            rw [hfT.three] at h
            refine ⟨⟨f.uvs[k]'(by omega), List.getElem?_eq_getElem (by omega)⟩, hfT.normals k (by omega)⟩)
        rw [e2] at e1
        simp only at e1
        obtain ⟨a2, g2, k2⟩ := uvCorners_normal N f f.verts 0 { m with useUV := true }
          ⟨hm.lenPos, hm.lenUV, hm.lenNrm, hm.lenSkin, hm.noSkin, hm.low, hm.stem, hm.asg⟩ hN.asg hfT.verts
          (fun k index hk => by rw [Nat.zero_add]; exact hfn k index hk) m2 vs e2
        exact finish m2 vs a2 g2 k2 p2 e1
      · obtain ⟨m2, e2, i2, _, p2, _, _⟩ := plainCorners_spec f f.verts 0 m hm hfT.verts (fun k _ h => by
          rw [hfT.three] at h
          exact hfT.normals k (by omega))
        rw [e2] at e1
        simp only at e1
        obtain ⟨a2, g2, k2⟩ := plainCorners_normal N f f.verts 0 m hm hfT.verts
          (fun k index hk => by rw [Nat.zero_add]; exact hfn k index hk) m2 e2
        exact finish m2 f.verts (fun v ⟨i, vs, h1, h2⟩ => k2 v (hN.asg v ⟨i, vs, by rw [← a2]; exact h1, h2⟩)) g2 k2 p2 e1

end

/-- C113, the part that holds: where all corners at a vertex have the same normal `N`, every vertex of the
exported triangles has the normal of the vertex it stems from, with or without UVs. Missing: corners at one
vertex with different normals (`normal_shared_false`). -/
theorem mesh_normals_partial [Add F] [Sub F] [Mul F] [Zero F] [FloatOps F] (scale eps : F) (hasJoints : Bool)
    (skin : List (VSkin F)) (materials : List (Int × Nat)) (o : Object F)
    (hs : hasJoints = true → skin.length = o.vertexes.length) (hf : ∀ f ∈ o.faces, TriFace o f) (N : Nat → Vec3 F)
    (hN : ∀ f ∈ o.faces, ∀ (k index : Nat), f.verts[k]? = some index → f.normals[k]? = some (some (N index))) :
    ∃ m, meshOf scale eps hasJoints skin materials o = some m ∧
      IsMeshOf scale eps hasJoints skin materials o m ∧
      ∀ p ∈ m.prims, ∀ v ∈ p.2, ∃ i, m.src[v]? = some i ∧ m.nrm[v]? = some (N i) := by
  obtain ⟨m, h1, h2⟩ := meshOf_spec scale eps hasJoints skin materials o hs hf
  refine ⟨m, h1, h2, ?_⟩
  have := meshFaces_normal (eps := eps) N materials o.faces (startMesh scale o skin) []
    (startMesh_inv scale hasJoints o skin hs)
    ⟨by simp [startMesh], fun mat => ⟨[], by simp [facesWith], by simp [startMesh, reversedTris]⟩,
      by simp [startMesh, facesWith]⟩
    ⟨by rintro v ⟨i, vs, h, _⟩; simp [startMesh] at h, by simp [startMesh]⟩ hf hN m h1
  exact this.prim

section
local instance : FloatOps ℚ := ⟨id, fun a b => decide (a < b), fun a b => decide (a ≤ b)⟩

/-- The hypotheses hold for the fan of GltfMeshProps. -/
example : ∀ f ∈ meshFan.faces, ∀ (k index : Nat), f.verts[k]? = some index →
    f.normals[k]? = some (some ((fun _ => ⟨0, 0, 1⟩ : Nat → Vec3 ℚ) index)) := by
  intro f hf k index hk
  simp only [meshFan, List.mem_cons, List.not_mem_nil, or_false] at hf
  rcases hf with rfl | rfl | rfl
  all_goals
    match k, hk with
    | 0, _ => rfl
    | 1, _ => rfl
    | 2, _ => rfl

end

/-- Two triangles that share an edge, with the normal `n1` and `n2`, and one UV per vertex. -/
def hardEdge (n1 n2 : Vec3 F) (a b c d : Vec3 F) (ua ub uc ud : Vec2 F) (o : Object F) : Object F :=
  { o with
    vertexes := [a, b, c, d]
    faces := [⟨0, [0, 1, 2], 0, [ua, ub, uc], List.replicate 3 (some n1)⟩,
      ⟨0, [0, 2, 3], 0, [ua, uc, ud], List.replicate 3 (some n2)⟩] }

/-- C113 is false of the code: at an edge between two faces with different normals and a continuous texture the
normal of the second face is lost at both ends, whatever it is. -/
theorem normal_shared_false [CommRing F] [FloatOps F] (scale eps : F) (heps : lt 0 eps = true) (n1 n2 a b c d : Vec3 F)
    (ua ub uc ud : Vec2 F) (o : Object F) :
    ∃ m, meshOf scale eps false [] [(0, 0)] (hardEdge n1 n2 a b c d ua ub uc ud o) = some m ∧
      m.src = [0, 1, 2, 3] ∧ m.prims = [(0, [2, 1, 0, 3, 2, 0])] ∧ m.nrm = [n1, n1, n1, n2] := by
  have hz : ∀ u : Vec2 F, lt (u.sub u).lenSqr eps = true := by
    intro u
    have : (u.sub u).lenSqr = 0 := by simp [Vec2.sub, Vec2.lenSqr]
    rw [this]; exact heps
  refine ⟨_, by
    simp [meshOf, hardEdge, meshFaces, meshFace, startMesh, uvCorners, uvCorner, assign, lastNear, addFace, addTriangle,
      hz, List.lookup_cons, List.replicate_succ]
    rfl, rfl, rfl, rfl⟩

section
local instance : FloatOps ℚ := ⟨id, fun a b => decide (a < b), fun a b => decide (a ≤ b)⟩

example : lt (0 : ℚ) (1/100) = true ∧ (⟨0, 0, 1⟩ : Vec3 ℚ) ≠ ⟨1, 0, 0⟩ := by decide +kernel

end

end Verif.Conv
