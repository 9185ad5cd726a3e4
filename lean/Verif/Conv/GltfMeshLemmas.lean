import Verif.Conv.GltfMesh
import Mathlib.Tactic.Ring
import Mathlib.Data.List.Induction
import Mathlib.Data.List.Forall2
import Mathlib.Data.List.Nodup

/-! Lemmas about the mesh loop of converter/mqo2gltf.go. -/

namespace Verif.Conv

open Verif.Geom
open Verif.Mqo (Object Face)

variable {F : Type}

theorem lookup_map_update {β : Type} (m : List (Nat × β)) (i k : Nat) (g : β → β) :
    (m.map fun p => if p.1 = i then (p.1, g p.2) else p).lookup k =
      if k = i then (m.lookup k).map g else m.lookup k := by
  induction m with
  | nil => simp
  | cons p m ih =>
    rw [List.map_cons]
    by_cases hp : p.1 = i
    · rw [if_pos hp, List.lookup_cons, List.lookup_cons]
      by_cases hk : k = p.1
      · have : k = i := hk.trans hp
        have hb : (k == p.1) = true := by simpa using hk
        rw [if_pos this]
        simp only [hb, Option.map_some]
      · have hb : (k == p.1) = false := by simpa using hk
        simp only [hb]
        exact ih
    · rw [if_neg hp, List.lookup_cons, List.lookup_cons]
      by_cases hk : k = p.1
      · have : ¬ k = i := fun e => hp (hk ▸ e)
        have hb : (k == p.1) = true := by simpa using hk
        simp [hb, this]
      · have hb : (k == p.1) = false := by simpa using hk
        simp only [hb]
        exact ih

theorem lookup_none_of_not_mem {β : Type} (m : List (Nat × β)) (k : Nat) (h : k ∉ m.map (·.1)) :
    m.lookup k = none := by
  rw [List.lookup_eq_none_iff]
  intro p hp
  rw [bne_iff_ne]
  intro e
  exact h (List.mem_map.mpr ⟨p, hp, e.symm⟩)

theorem lookup_some_of_mem {β : Type} (m : List (Nat × β)) (k : Nat) (h : k ∈ m.map (·.1)) :
    ∃ x, m.lookup k = some x := by
  cases e : m.lookup k with
  | some x => exact ⟨x, rfl⟩
  | none =>
    rw [List.lookup_eq_none_iff] at e
    obtain ⟨p, hp, rfl⟩ := List.mem_map.mp h
    simpa using e p hp

theorem assign_lookup (m : List (Nat × List Nat)) (i v k : Nat) :
    (assign m i v).lookup k = if k = i then some ((m.lookup i).getD [] ++ [v]) else m.lookup k := by
  unfold assign
  split
  · rename_i h
    obtain ⟨x, hx⟩ := lookup_some_of_mem m i h
    rw [lookup_map_update m i k (· ++ [v])]
    split
    · rename_i e
      subst e
      simp [hx]
    · rfl
  · rename_i h
    have hn := lookup_none_of_not_mem m i h
    rw [List.lookup_append]
    split
    · rename_i e
      subst e
      simp [hn]
    · rename_i e
      have hb : (k == i) = false := by simpa using e
      simp [List.lookup_cons, hb]

theorem addTriangle_lookup (prims : List (Nat × List Nat)) (mat a b c k : Nat) :
    ((addTriangle prims mat a b c).lookup k).getD [] =
      (prims.lookup k).getD [] ++ if k = mat then [c, b, a] else [] := by
  unfold addTriangle
  split
  · rename_i h
    obtain ⟨x, hx⟩ := lookup_some_of_mem prims mat h
    rw [lookup_map_update prims mat k (· ++ [c, b, a])]
    split
    · rename_i e
      subst e
      simp [hx]
    · simp
  · rename_i h
    have hn := lookup_none_of_not_mem prims mat h
    rw [List.lookup_append]
    split
    · rename_i e
      subst e
      simp [hn]
    · rename_i e
      have hb : (k == mat) = false := by simpa using e
      simp [List.lookup_cons, hb]

theorem addTriangle_keys (prims : List (Nat × List Nat)) (mat a b c : Nat) :
    (addTriangle prims mat a b c).map (·.1) =
      if mat ∈ prims.map (·.1) then prims.map (·.1) else prims.map (·.1) ++ [mat] := by
  unfold addTriangle
  split
  · rw [List.map_map]
    apply List.map_congr_left
    intro p _
    simp only [Function.comp]
    split <;> rfl
  · simp

theorem lastNear_spec [Add F] [Sub F] [Mul F] [FloatOps F] (eps : F) (uvs : List (Vec2 F)) (uv : Vec2 F)
    (vs : List Nat) : ∀ found, (∀ v ∈ vs, v < uvs.length) → ∃ r, lastNear eps uvs uv vs found = some r ∧
      ∀ v, r = some v → found = some v ∨ (v ∈ vs ∧ ∃ t, uvs[v]? = some t ∧ lt (uv.sub t).lenSqr eps = true) := by
  induction vs with
  | nil => intro found _; exact ⟨found, rfl, fun v h => .inl h⟩
  | cons v vs ih =>
    intro found h
    have hv := h v (by simp)
    simp only [lastNear, List.getElem?_eq_getElem hv]
    obtain ⟨r, h1, h2⟩ := ih (if lt (uv.sub uvs[v]).lenSqr eps then some v else found)
      (fun w hw => h w (by simp [hw]))
    refine ⟨r, h1, ?_⟩
    intro w hw
    rcases h2 w hw with h3 | ⟨h3, h4⟩
    · split at h3
      · rename_i hl
        have := Option.some.inj h3
        subst this
        exact .inr ⟨by simp, _, by simp, hl⟩
      · exact .inl h3
    · exact .inr ⟨by simp [h3], h4⟩

/-- The arrays have equal length, every vertex stems from a source vertex, and what is assigned to a
source vertex stems from it. -/
structure MeshInv [Mul F] (scale : F) (hasJoints : Bool) (o : Object F) (skin0 : List (VSkin F)) (m : GMesh F) :
    Prop where
  lenPos : m.pos.length = m.src.length
  lenUV : m.uv.length = m.src.length
  lenNrm : m.nrm.length = m.src.length
  lenSkin : hasJoints = true → m.skin.length = m.src.length
  noSkin : hasJoints = false → m.skin = skin0
  low : ∀ i, i < o.vertexes.length → m.src[i]? = some i
  stem : ∀ v i : Nat, m.src[v]? = some i → ∃ p, o.vertexes[i]? = some p ∧ m.pos[v]? = some (p.scale scale) ∧
    (hasJoints = true → m.skin[v]? = skin0[i]?)
  asg : ∀ index vs, m.assigned.lookup index = some vs → ∀ v ∈ vs, m.src[v]? = some index

/-- `v` has been assigned a UV. -/
def Assigned (m : GMesh F) (v : Nat) : Prop := ∃ index vs, m.assigned.lookup index = some vs ∧ v ∈ vs

/-- `m'` comes later than `m`. -/
structure Later (m m' : GMesh F) : Prop where
  src : ∀ v i : Nat, m.src[v]? = some i → m'.src[v]? = some i
  asg : ∀ v, Assigned m v → Assigned m' v ∧ m'.uv[v]? = m.uv[v]?

theorem Later.refl (m : GMesh F) : Later m m := ⟨fun _ _ h => h, fun _ h => ⟨h, rfl⟩⟩

theorem Later.trans {a b c : GMesh F} (h1 : Later a b) (h2 : Later b c) : Later a c :=
  ⟨fun v i h => h2.src v i (h1.src v i h), fun v h =>
    ⟨(h2.asg v (h1.asg v h).1).1, ((h2.asg v (h1.asg v h).1).2).trans (h1.asg v h).2⟩⟩

/-- Vertex `v` of the mesh is a corner at `index` with a UV (nearly) equal to `uv`. -/
structure CornerAt [Add F] [Sub F] [Mul F] [FloatOps F] (eps : F) (m : GMesh F) (v index : Nat) (uv : Vec2 F) :
    Prop where
  src : m.src[v]? = some index
  assigned : Assigned m v
  uv : ∃ t, m.uv[v]? = some t ∧ (t = uv ∨ lt (uv.sub t).lenSqr eps = true)

section
variable [Add F] [Sub F] [Mul F] [FloatOps F]

theorem CornerAt.later {eps : F} {m m' : GMesh F} (h : Later m m') {v index : Nat} {uv : Vec2 F}
    (hc : CornerAt eps m v index uv) : CornerAt eps m' v index uv := by
  refine ⟨h.src _ _ hc.src, (h.asg v hc.assigned).1, ?_⟩
  rw [(h.asg v hc.assigned).2]
  exact hc.uv

variable {scale eps : F} {hasJoints : Bool} {o : Object F} {skin0 : List (VSkin F)}

theorem uvCorner_spec (m : GMesh F) (hm : MeshInv scale hasJoints o skin0 m) (index : Nat)
    (hi : index < o.vertexes.length) (uv : Vec2 F) (n : Vec3 F) :
    ∃ m' v, uvCorner eps hasJoints m index uv (some n) = some (m', v) ∧
      MeshInv scale hasJoints o skin0 m' ∧ Later m m' ∧ CornerAt eps m' v index uv ∧
      m'.prims = m.prims ∧ m'.skipped = m.skipped ∧ m'.useUV = m.useUV := by
  have hlow := hm.low index hi
  have hilt : index < m.src.length := (List.getElem?_eq_some_iff.mp hlow).1
  unfold uvCorner
  cases ha : m.assigned.lookup index with
  | none =>
    simp only
    rw [if_pos ⟨by rw [hm.lenUV]; exact hilt, by rw [hm.lenNrm]; exact hilt⟩]
    have hun : ¬ Assigned m index := by
      rintro ⟨i', vs, h1, h2⟩
      have := hm.asg i' vs h1 index h2
      rw [hlow] at this
      have := Option.some.inj this
      subst this
      rw [ha] at h1
      simp at h1
    refine ⟨_, _, rfl, ⟨hm.lenPos, by simpa using hm.lenUV, by simpa using hm.lenNrm, hm.lenSkin, hm.noSkin,
      hm.low, hm.stem, ?_⟩, ⟨fun _ _ h => h, ?_⟩, ⟨hlow, ?_, uv, ?_, .inl rfl⟩, rfl, rfl, rfl⟩
    · intro i' vs h v hv
      simp only [assign_lookup] at h
      split at h
      · rename_i e
        subst e
        have := Option.some.inj h
        subst this
        simp only [ha, Option.getD_none, List.nil_append, List.mem_singleton] at hv
        subst hv
        exact hlow
      · exact hm.asg i' vs h v hv
    · rintro v ⟨i', vs, h1, h2⟩
      refine ⟨⟨i', ?_⟩, ?_⟩
      · simp only [assign_lookup]
        have hne : ¬ i' = index := fun e => by subst e; rw [ha] at h1; simp at h1
        rw [if_neg hne]
        exact ⟨vs, h1, h2⟩
      · have : index ≠ v := fun e => hun (e ▸ ⟨i', vs, h1, h2⟩)
        simp [List.getElem?_set_ne this]
    · exact ⟨index, [index], by simp [assign_lookup, ha], by simp⟩
    · rw [List.getElem?_set_self (by rw [hm.lenUV]; exact hilt)]
  | some vs =>
    simp only
    obtain ⟨r, h1, h2⟩ := lastNear_spec eps m.uv uv vs none (by
      intro v hv
      have := hm.asg index vs ha v hv
      rw [hm.lenUV]
      exact (List.getElem?_eq_some_iff.mp this).1)
    rw [h1]
    cases r with
    | some v =>
      simp only
      rcases h2 v rfl with h3 | ⟨h3, t, h4, h5⟩
      · simp at h3
      · exact ⟨m, v, rfl, hm, Later.refl m, ⟨hm.asg index vs ha v h3, ⟨index, vs, ha, h3⟩, t, h4, .inr h5⟩,
          rfl, rfl, rfl⟩
    | none =>
      simp only
      obtain ⟨p, hp1, hp2, hp3⟩ := hm.stem index index hlow
      rw [hp2]
      have hsk : ∃ sk, (if hasJoints = true then (m.skin[index]?).map fun s => m.skin ++ [s] else some m.skin) = some sk ∧
          (hasJoints = true → ∃ s, m.skin[index]? = some s ∧ sk = m.skin ++ [s]) ∧ (hasJoints = false → sk = m.skin) := by
        cases hj : hasJoints with
        | false => exact ⟨m.skin, by simp, by simp, by simp⟩
        | true =>
          have : index < m.skin.length := by rw [hm.lenSkin hj]; exact hilt
          exact ⟨m.skin ++ [m.skin[index]], by simp [List.getElem?_eq_getElem this],
            fun _ => ⟨_, List.getElem?_eq_getElem this, rfl⟩, by simp⟩
      obtain ⟨sk, e1, e2, e3⟩ := hsk
      rw [e1]
      have hsrc : (m.src ++ [index])[m.pos.length]? = some index := by rw [hm.lenPos]; simp
      refine ⟨_, _, rfl, ⟨by simp [hm.lenPos], by simp [hm.lenUV], by simp [hm.lenNrm], ?_, ?_, ?_, ?_, ?_⟩,
        ⟨?_, ?_⟩, ⟨hsrc, ?_, uv, ?_, .inl rfl⟩, rfl, rfl, rfl⟩
      · intro hj
        obtain ⟨s, _, rfl⟩ := e2 hj
        simp [hm.lenSkin hj]
      · intro hj
        simp only [e3 hj]
        exact hm.noSkin hj
      · intro i h
        have := hm.low i h
        simp only
        rw [List.getElem?_append_left (List.getElem?_eq_some_iff.mp this).1]
        exact this
      · intro v i h
        simp only at h ⊢
        by_cases hv : v < m.src.length
        · rw [List.getElem?_append_left hv] at h
          obtain ⟨q, q1, q2, q3⟩ := hm.stem v i h
          refine ⟨q, q1, ?_, ?_⟩
          · rw [List.getElem?_append_left (by rw [hm.lenPos]; exact hv)]
            exact q2
          · intro hj
            obtain ⟨s, _, rfl⟩ := e2 hj
            rw [List.getElem?_append_left (by rw [hm.lenSkin hj]; exact hv)]
            exact q3 hj
        · have hv' : v = m.src.length := by
            have := (List.getElem?_eq_some_iff.mp h).1
            simp at this
            omega
          subst hv'
          rw [List.getElem?_concat_length] at h
          have := Option.some.inj h
          subst this
          refine ⟨p, hp1, by rw [← hm.lenPos]; simp, ?_⟩
          intro hj
          obtain ⟨s, hs, rfl⟩ := e2 hj
          rw [← hm.lenSkin hj, List.getElem?_concat_length, ← hs]
          exact hp3 hj
      · intro i' vs' h v hv
        simp only [assign_lookup] at h
        split at h
        · rename_i e
          subst e
          have := Option.some.inj h
          subst this
          simp only [ha, Option.getD_some, List.mem_append, List.mem_singleton] at hv
          rcases hv with hv | rfl
          · have := hm.asg i' vs ha v hv
            simp only
            rw [List.getElem?_append_left (List.getElem?_eq_some_iff.mp this).1]
            exact this
          · exact hsrc
        · have := hm.asg i' vs' h v hv
          simp only
          rw [List.getElem?_append_left (List.getElem?_eq_some_iff.mp this).1]
          exact this
      · intro v i h
        simp only
        rw [List.getElem?_append_left (List.getElem?_eq_some_iff.mp h).1]
        exact h
      · rintro v ⟨i', vs', h3, h4⟩
        have hvl : v < m.uv.length := by
          rw [hm.lenUV]
          exact (List.getElem?_eq_some_iff.mp (hm.asg i' vs' h3 v h4)).1
        refine ⟨⟨i', ?_⟩, ?_⟩
        · simp only [assign_lookup]
          split
          · rename_i e
            subst e
            rw [ha] at h3
            have := Option.some.inj h3
            subst this
            exact ⟨_, rfl, by simp [ha, h4]⟩
          · exact ⟨vs', h3, h4⟩
        · simp only
          rw [List.getElem?_append_left hvl]
      · exact ⟨index, _, by simp only [assign_lookup, if_true]; rfl, by simp⟩
      · rw [hm.lenPos, ← hm.lenUV]
        simp

theorem uvCorners_spec (f : Face F) (rest : List Nat) : ∀ (i : Nat) (m : GMesh F),
    MeshInv scale hasJoints o skin0 m → (∀ v ∈ rest, v < o.vertexes.length) →
    (∀ k, i ≤ k → k < i + rest.length → (∃ uv, f.uvs[k]? = some uv) ∧ ∃ n, f.normals[k]? = some (some n)) →
    ∃ m' vs, uvCorners eps hasJoints f i rest m = some (m', vs) ∧ MeshInv scale hasJoints o skin0 m' ∧
      Later m m' ∧ vs.length = rest.length ∧
      (∀ (k v index : Nat) (uv : Vec2 F), vs[k]? = some v → rest[k]? = some index → f.uvs[i + k]? = some uv →
        CornerAt eps m' v index uv) ∧
      m'.prims = m.prims ∧ m'.skipped = m.skipped ∧ m'.useUV = m.useUV := by
  induction rest with
  | nil =>
    intro i m hm _ _
    exact ⟨m, [], rfl, hm, Later.refl m, rfl, by simp, rfl, rfl, rfl⟩
  | cons index rest ih =>
    intro i m hm hv hd
    obtain ⟨⟨uv, huv⟩, n, hn⟩ := hd i (by omega) (by simp)
    obtain ⟨m1, v, e1, i1, l1, c1, p1, s1, u1⟩ := uvCorner_spec (eps := eps) m hm index (hv index (by simp)) uv n
    obtain ⟨m2, vs, e2, i2, l2, len2, c2, p2, s2, u2⟩ := ih (i + 1) m1 i1 (fun v h => hv v (by simp [h]))
      (fun k h1 h2 => hd k (by omega) (by simp; omega))
    refine ⟨m2, v :: vs, ?_, i2, l1.trans l2, by simp [len2], ?_, p2.trans p1, s2.trans s1, u2.trans u1⟩
    · simp only [uvCorners, huv, hn, e1, e2]
    · intro k v' index' uv' h1 h2 h3
      cases k with
      | zero =>
        simp only [List.getElem?_cons_zero, Option.some.injEq] at h1 h2
        subst h1 h2
        rw [Nat.add_zero, huv] at h3
        have := Option.some.inj h3
        subst this
        exact c1.later l2
      | succ k =>
        refine c2 k v' index' uv' (by simpa using h1) (by simpa using h2) ?_
        rw [show i + 1 + k = i + (k + 1) by omega]
        exact h3

omit [Add F] [Sub F] [FloatOps F] in
theorem plainCorners_spec (f : Face F) (rest : List Nat) : ∀ (i : Nat) (m : GMesh F),
    MeshInv scale hasJoints o skin0 m → (∀ v ∈ rest, v < o.vertexes.length) →
    (∀ k, i ≤ k → k < i + rest.length → ∃ n, f.normals[k]? = some (some n)) →
    ∃ m', plainCorners f i rest m = some m' ∧ MeshInv scale hasJoints o skin0 m' ∧
      Later m m' ∧ m'.prims = m.prims ∧ m'.skipped = m.skipped ∧ m'.useUV = m.useUV := by
  induction rest with
  | nil =>
    intro i m hm _ _
    exact ⟨m, rfl, hm, Later.refl m, rfl, rfl, rfl⟩
  | cons index rest ih =>
    intro i m hm hv hd
    obtain ⟨n, hn⟩ := hd i (by omega) (by simp)
    have hlow := hm.low index (hv index (by simp))
    have hilt : index < m.nrm.length := by
      rw [hm.lenNrm]; exact (List.getElem?_eq_some_iff.mp hlow).1
    obtain ⟨m2, e2, i2, l2, p2, s2, u2⟩ := ih (i + 1) { m with nrm := m.nrm.set index n }
      ⟨hm.lenPos, hm.lenUV, by simpa using hm.lenNrm, hm.lenSkin, hm.noSkin, hm.low, hm.stem, hm.asg⟩
      (fun v h => hv v (by simp [h])) (fun k h1 h2 => hd k (by omega) (by simp; omega))
    refine ⟨m2, ?_, i2, ⟨l2.src, l2.asg⟩, p2, s2, u2⟩
    simp only [plainCorners, hn, hilt, if_true, e2]

/-- The triangle `t` of mesh `m` is the face `f`. -/
structure MeshTri (eps : F) (m : GMesh F) (f : Face F) (t : Nat × Nat × Nat) : Prop where
  src : ∃ a b c, f.verts = [a, b, c] ∧ m.src[t.1]? = some a ∧ m.src[t.2.1]? = some b ∧ m.src[t.2.2]? = some c
  uv : f.uvs ≠ [] → ∃ ua ub uc, f.uvs = [ua, ub, uc] ∧
    (∃ a, CornerAt eps m t.1 a ua) ∧ (∃ b, CornerAt eps m t.2.1 b ub) ∧ ∃ c, CornerAt eps m t.2.2 c uc

theorem MeshTri.later {m m' : GMesh F} (h : Later m m') {f : Face F} {t : Nat × Nat × Nat}
    (ht : MeshTri eps m f t) : MeshTri eps m' f t := by
  obtain ⟨a, b, c, e, h1, h2, h3⟩ := ht.src
  refine ⟨⟨a, b, c, e, h.src _ _ h1, h.src _ _ h2, h.src _ _ h3⟩, ?_⟩
  intro hu
  obtain ⟨ua, ub, uc, e, ⟨x, hx⟩, ⟨y, hy⟩, ⟨z, hz⟩⟩ := ht.uv hu
  exact ⟨ua, ub, uc, e, ⟨x, hx.later h⟩, ⟨y, hy.later h⟩, ⟨z, hz.later h⟩⟩

/-- A triangle with indices in range, normals at all corners and UVs at all or no corners. -/
structure TriFace (o : Object F) (f : Face F) : Prop where
  three : f.verts.length = 3
  verts : ∀ v ∈ f.verts, v < o.vertexes.length
  normals : ∀ k < 3, ∃ n, f.normals[k]? = some (some n)
  uvs : f.uvs = [] ∨ f.uvs.length = 3

/-- The faces exported with material number `mat`. -/
def facesWith (materials : List (Int × Nat)) (mat : Nat) (fs : List (Face F)) : List (Face F) :=
  fs.filter fun f => materials.lookup f.material = some mat

/-- The index list of triangles: reversed. -/
def reversedTris (ts : List (Nat × Nat × Nat)) : List Nat := ts.flatMap fun t => [t.2.2, t.2.1, t.1]

/-- The triangles of `m` are the faces `fs`. -/
structure PrimInv (eps : F) (materials : List (Int × Nat)) (m : GMesh F) (fs : List (Face F)) : Prop where
  keys : (m.prims.map (·.1)).Nodup
  tris : ∀ mat, ∃ ts, List.Forall₂ (MeshTri eps m) (facesWith materials mat fs) ts ∧
    (m.prims.lookup mat).getD [] = reversedTris ts
  used : ∀ mat, mat ∈ m.prims.map (·.1) ↔ facesWith materials mat fs ≠ []

theorem meshFace_spec (materials : List (Int × Nat)) (m : GMesh F) (hm : MeshInv scale hasJoints o skin0 m)
    (fs : List (Face F)) (hp : PrimInv eps materials m fs) (f : Face F) (hf : TriFace o f) :
    ∃ m', meshFace eps hasJoints materials m f = some m' ∧ MeshInv scale hasJoints o skin0 m' ∧ Later m m' ∧
      PrimInv eps materials m' (fs ++ [f]) := by
  unfold meshFace
  rw [if_neg (by rw [hf.three]; omega)]
  cases hmat : materials.lookup f.material with
  | none =>
    refine ⟨_, rfl, ⟨hm.lenPos, hm.lenUV, hm.lenNrm, hm.lenSkin, hm.noSkin, hm.low, hm.stem, hm.asg⟩,
      ⟨fun _ _ h => h, fun _ h => ⟨h, rfl⟩⟩, ?_⟩
    have hnone : ∀ mat, facesWith materials mat (fs ++ [f]) = facesWith materials mat fs := by
      intro mat; simp [facesWith, hmat]
    refine ⟨hp.keys, ?_, ?_⟩
    · intro mat
      obtain ⟨ts, h1, h2⟩ := hp.tris mat
      rw [hnone]
      have hl : Later m { m with skipped := true } := ⟨fun _ _ h => h, fun _ h => ⟨h, rfl⟩⟩
      exact ⟨ts, h1.imp fun g t ht => ht.later hl, h2⟩
    · intro mat
      rw [hnone]
      exact hp.used mat
  | some mat =>
    -- both kinds of corners end in the same way
    have finish : ∀ (m1 : GMesh F) (a b c : Nat), MeshInv scale hasJoints o skin0 m1 → Later m m1 →
        m1.prims = m.prims → MeshTri eps m1 f (a, b, c) →
        MeshInv scale hasJoints o skin0 { m1 with prims := addTriangle m1.prims mat a b c } ∧
        Later m { m1 with prims := addTriangle m1.prims mat a b c } ∧
        PrimInv eps materials { m1 with prims := addTriangle m1.prims mat a b c } (fs ++ [f]) := by
      intro m1 a b c hm1 hl hpr ht
      have hl' : Later m1 { m1 with prims := addTriangle m1.prims mat a b c } :=
        ⟨fun _ _ h => h, fun _ h => ⟨h, rfl⟩⟩
      refine ⟨⟨hm1.lenPos, hm1.lenUV, hm1.lenNrm, hm1.lenSkin, hm1.noSkin, hm1.low, hm1.stem, hm1.asg⟩,
        hl.trans hl', ?_, ?_, ?_⟩
      · simp only [addTriangle_keys, hpr]
        split
        · exact hp.keys
        · rename_i hn
          rw [List.nodup_append]
          refine ⟨hp.keys, by simp, ?_⟩
          rintro x hx y hy rfl
          simp at hy
          exact hn (hy ▸ hx)
      · intro k
        obtain ⟨ts, h1, h2⟩ := hp.tris k
        have h1' : List.Forall₂ (MeshTri eps { m1 with prims := addTriangle m1.prims mat a b c })
            (facesWith materials k fs) ts := h1.imp fun g t h => h.later (hl.trans hl')
        rw [addTriangle_lookup, hpr]
        rw [hpr] at h1' hl'
        by_cases hk : k = mat
        · subst hk
          refine ⟨ts ++ [(a, b, c)], ?_, ?_⟩
          · have : facesWith materials k (fs ++ [f]) = facesWith materials k fs ++ [f] := by
              simp [facesWith, hmat]
            rw [this]
            refine List.rel_append h1' (.cons (ht.later hl') .nil)
          · rw [h2]
            simp [reversedTris]
        · refine ⟨ts, ?_, ?_⟩
          · have : facesWith materials k (fs ++ [f]) = facesWith materials k fs := by
              simp [facesWith, hmat, Ne.symm hk]
            rw [this]
            exact h1'
          · rw [h2]
            simp [hk]
      · intro k
        simp only [addTriangle_keys, hpr]
        have hu := hp.used k
        have hfw : facesWith materials k (fs ++ [f]) ≠ [] ↔ facesWith materials k fs ≠ [] ∨ k = mat := by
          by_cases hk : k = mat
          · subst hk
            simp [facesWith, hmat]
          · simp [facesWith, hmat, Ne.symm hk, hk]
        rw [hfw, ← hu]
        split
        · rename_i hin
          constructor
          · exact .inl
          · rintro (h | rfl)
            · exact h
            · exact hin
        · simp
    obtain ⟨a, b, c, habc⟩ : ∃ a b c, f.verts = [a, b, c] := by
      have h3 := hf.three
      match hv : f.verts, h3 with
      | [a, b, c], _ => exact ⟨a, b, c, rfl⟩
    simp only
    rcases hf.uvs with hu | hu
    · rw [if_neg (by simp [hu])]
      obtain ⟨m1, e1, i1, l1, p1, s1, u1⟩ := plainCorners_spec f f.verts 0 m hm hf.verts (fun k _ h => by
        rw [hf.three] at h
        exact hf.normals k (by omega))
      rw [e1]
      have ht : MeshTri eps m1 f (a, b, c) :=
        ⟨⟨a, b, c, habc, i1.low a (hf.verts a (by simp [habc])), i1.low b (hf.verts b (by simp [habc])),
          i1.low c (hf.verts c (by simp [habc]))⟩, fun h => absurd hu h⟩
      rw [habc]
      exact ⟨_, rfl, finish m1 a b c i1 l1 p1 ht⟩
    · rw [if_pos (by omega)]
      obtain ⟨m1, vs, e1, i1, l1, len1, c1, p1, s1, u1⟩ := uvCorners_spec (eps := eps) f f.verts 0
        { m with useUV := true }
        ⟨hm.lenPos, hm.lenUV, hm.lenNrm, hm.lenSkin, hm.noSkin, hm.low, hm.stem, hm.asg⟩ hf.verts
        (fun k _ h => by
          rw [hf.three] at h
          refine ⟨⟨f.uvs[k]'(by omega), List.getElem?_eq_getElem (by omega)⟩, hf.normals k (by omega)⟩)
      rw [e1]
      obtain ⟨x, y, z, hxyz⟩ : ∃ x y z, vs = [x, y, z] := by
        rw [hf.three] at len1
        match vs, len1 with
        | [x, y, z], _ => exact ⟨x, y, z, rfl⟩
      obtain ⟨ux, uy, uz, huv⟩ : ∃ x y z, f.uvs = [x, y, z] := by
        match hv : f.uvs, hu with
        | [x, y, z], _ => exact ⟨x, y, z, rfl⟩
      subst hxyz
      have k0 := c1 0 x a ux rfl (by simp [habc]) (by simp [huv])
      have k1 := c1 1 y b uy rfl (by simp [habc]) (by simp [huv])
      have k2 := c1 2 z c uz rfl (by simp [habc]) (by simp [huv])
      have ht : MeshTri eps m1 f (x, y, z) :=
        ⟨⟨a, b, c, habc, k0.src, k1.src, k2.src⟩, fun _ => ⟨ux, uy, uz, huv, ⟨a, k0⟩, ⟨b, k1⟩, ⟨c, k2⟩⟩⟩
      exact ⟨_, rfl, finish m1 x y z i1 ⟨l1.src, l1.asg⟩ p1 ht⟩

theorem meshFaces_spec (materials : List (Int × Nat)) (fs : List (Face F)) : ∀ (m : GMesh F)
    (done : List (Face F)), MeshInv scale hasJoints o skin0 m → PrimInv eps materials m done →
    (∀ f ∈ fs, TriFace o f) →
    ∃ m', meshFaces eps hasJoints materials fs m = some m' ∧ MeshInv scale hasJoints o skin0 m' ∧
      PrimInv eps materials m' (done ++ fs) := by
  induction fs with
  | nil => intro m done hm hp _; exact ⟨m, rfl, hm, by simpa using hp⟩
  | cons f fs ih =>
    intro m done hm hp hf
    obtain ⟨m1, e1, i1, _, p1⟩ := meshFace_spec materials m hm done hp f (hf f (by simp))
    obtain ⟨m2, e2, i2, p2⟩ := ih m1 (done ++ [f]) i1 p1 (fun g hg => hf g (by simp [hg]))
    refine ⟨m2, ?_, i2, by simpa using p2⟩
    simp only [meshFaces, e1, e2]

end

theorem startMesh_inv [Mul F] [Zero F] (scale : F) (hasJoints : Bool) (o : Object F) (skin : List (VSkin F))
    (hs : hasJoints = true → skin.length = o.vertexes.length) :
    MeshInv scale hasJoints o skin (startMesh scale o skin) := by
  refine ⟨by simp [startMesh], by simp [startMesh], by simp [startMesh], by simpa [startMesh] using hs,
    fun _ => rfl, ?_, ?_, by simp [startMesh]⟩
  · intro i hi
    simp [startMesh, hi]
  · intro v i h
    simp only [startMesh] at h ⊢
    have hv := (List.getElem?_eq_some_iff.mp h).1
    simp only [List.length_range] at hv
    rw [List.getElem?_range hv] at h
    have := Option.some.inj h
    subst this
    exact ⟨o.vertexes[v], by simp [hv], by simp [hv], fun _ => rfl⟩

end Verif.Conv
