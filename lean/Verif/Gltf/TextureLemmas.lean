import Verif.Gltf.Texture
import Verif.Conv.GltfMeshLemmas
import Mathlib.Algebra.Order.Floor.Defs
import Mathlib.Tactic.Linarith
import Mathlib.Tactic.FieldSimp

/-! Lemmas about the rectangle of the UVs of a material. -/

set_option linter.unusedSectionVars false

namespace Verif.Gltf

open Verif.Geom
open Verif.Conv
open Verif.Mqo (Str Object Face)

variable {F : Type}

section
variable [Field F] [LinearOrder F] [FloorRing F]

/-- The point `t`, moved into the unit square, lies in the rectangle. -/
def UvRect.Has (r : UvRect F) (t : Vec2 F) : Prop :=
  (r.left ≤ Int.fract t.x ∧ Int.fract t.x ≤ r.right) ∧ r.top ≤ Int.fract t.y ∧ Int.fract t.y ≤ r.bottom

theorem UvRect.has_ofPoint (p : Vec2 F) : (UvRect.ofPoint p).Has p := ⟨⟨le_refl _, le_refl _⟩, le_refl _, le_refl _⟩

theorem UvRect.has_add (r : UvRect F) (p : Vec2 F) : (r.add p).Has p := by
  refine ⟨⟨?_, ?_⟩, ?_, ?_⟩ <;> simp only [UvRect.add] <;> split <;>
    first | exact le_refl _ | (rename_i h; exact not_lt.mp h)

theorem UvRect.Has.add {r : UvRect F} {t : Vec2 F} (h : r.Has t) (p : Vec2 F) : (r.add p).Has t := by
  obtain ⟨⟨h1, h2⟩, h3, h4⟩ := h
  refine ⟨⟨?_, ?_⟩, ?_, ?_⟩ <;> simp only [UvRect.add] <;> split <;> rename_i h <;>
    first | assumption | exact (le_of_lt h).trans (by assumption) | exact le_trans (by assumption) (le_of_lt h)

/-- One rectangle lies in the other. -/
def UvRect.Sub (r r' : UvRect F) : Prop := ∀ t, r.Has t → r'.Has t

variable [FloatOps F] {scale eps : F} {hasJoints : Bool} {o : Object F} {skin0 : List (VSkin F)}

/-- All UVs that vertices have been given lie in the rectangle of the material that owns the source vertex. -/
def Covered (own : Nat → Int) (m : GMesh F) (bs : Int → Option (UvRect F)) : Prop :=
  ∀ index vs v t, m.assigned.lookup index = some vs → v ∈ vs → m.uv[v]? = some t →
    ∃ r, bs (own index) = some r ∧ r.Has t

theorem uvCorner_asg (m : GMesh F) (hm : MeshInv scale hasJoints o skin0 m) (index : Nat)
    (hi : index < o.vertexes.length) (uv : Vec2 F) (n : Vec3 F) (m' : GMesh F) (v : Nat)
    (h : uvCorner eps hasJoints m index uv (some n) = some (m', v)) :
    (reused eps m index uv = true ∧ m' = m ∧ ∃ vs t, m.assigned.lookup index = some vs ∧ v ∈ vs ∧
      m.uv[v]? = some t ∧ lt (uv.sub t).lenSqr eps = true) ∨
    (reused eps m index uv = false ∧ m'.uv[v]? = some uv ∧
      ∀ k vs w, m'.assigned.lookup k = some vs → w ∈ vs →
        (∃ vs', m.assigned.lookup k = some vs' ∧ w ∈ vs') ∨ (k = index ∧ w = v)) := by
  unfold uvCorner at h
  unfold reused
  cases ha : m.assigned.lookup index with
  | none =>
    right
    rw [ha] at h
    simp only at h
    split at h
    · rename_i hl
      simp only [Option.some.injEq, Prod.mk.injEq] at h
      obtain ⟨rfl, rfl⟩ := h
      refine ⟨rfl, by simp [hl.1], ?_⟩
      intro k vs w h1 h2
      simp only [assign_lookup, ha] at h1
      split at h1
      · rename_i hk
        simp only [Option.getD_none, List.nil_append, Option.some.injEq] at h1
        subst h1
        exact .inr ⟨hk, by simpa using h2⟩
      · exact .inl ⟨vs, h1, h2⟩
    · exact absurd h (by simp)
  | some vs =>
    rw [ha] at h
    simp only at h ⊢
    have hlt : ∀ w ∈ vs, w < m.uv.length := by
      intro w hw
      have := hm.asg index vs ha w hw
      rw [hm.lenUV]
      exact (List.getElem?_eq_some_iff.mp this).1
    obtain ⟨r, hr, hs⟩ := lastNear_spec eps m.uv uv vs none hlt
    rw [hr] at h ⊢
    cases r with
    | some w =>
      left
      simp only [Option.some.injEq, Prod.mk.injEq] at h
      obtain ⟨rfl, rfl⟩ := h
      rcases hs w rfl with h1 | ⟨h1, t, h2, h3⟩
      · exact absurd h1 (by simp)
      · exact ⟨rfl, rfl, vs, t, rfl, h1, h2, h3⟩
    | none =>
      right
      refine ⟨rfl, ?_⟩
      simp only at h
      split at h
      · rename_i p n' skin h1 h2 h3
        simp only [Option.some.injEq, Prod.mk.injEq] at h
        obtain ⟨rfl, rfl⟩ := h
        refine ⟨by rw [hm.lenPos, ← hm.lenUV]; simp, ?_⟩
        intro k ws w h4 h5
        simp only [assign_lookup, ha] at h4
        split at h4
        · rename_i hk
          simp only [Option.getD_some, Option.some.injEq] at h4
          subst h4
          rcases List.mem_append.mp h5 with h6 | h6
          · exact .inl ⟨vs, by rw [hk]; exact ha, h6⟩
          · exact .inr ⟨hk, by simpa using h6⟩
        · exact .inl ⟨ws, h4, h5⟩
      · exact absurd h (by simp)

/-- The corners of a face: their UVs (or ones nearly equal) lie in the rectangle of the material. -/
theorem boundsCorners_spec (own : Nat → Int) (mat : Int) (f : Face F) (rest : List Nat) :
    ∀ (i : Nat) (m : GMesh F) (bs : Int → Option (UvRect F)) (b : UvRect F),
    MeshInv scale hasJoints o skin0 m → (∀ v ∈ rest, v < o.vertexes.length) → (∀ v ∈ rest, own v = mat) →
    (∀ k, i ≤ k → k < i + rest.length → (∃ uv, f.uvs[k]? = some uv) ∧ ∃ n, f.normals[k]? = some (some n)) →
    bs mat = some b → Covered own m bs →
    ∃ m' vs b', uvCorners eps hasJoints f i rest m = some (m', vs) ∧
      boundsCorners eps hasJoints f i rest m b = some b' ∧ b.Sub b' ∧
      Covered own m' (Function.update bs mat (some b')) ∧
      ∀ k uv, k < rest.length → f.uvs[i + k]? = some uv →
        ∃ t, b'.Has t ∧ (t = uv ∨ lt (uv.sub t).lenSqr eps = true) := by
  induction rest with
  | nil =>
    intro i m bs b hm _ _ _ hb hc
    refine ⟨m, [], b, rfl, rfl, fun _ h => h, ?_, by simp⟩
    rw [← hb, Function.update_eq_self]
    exact hc
  | cons index rest ih =>
    intro i m bs b hm hv ho hd hb hc
    obtain ⟨⟨uv, huv⟩, n, hn⟩ := hd i (by omega) (by simp)
    obtain ⟨m1, v, e1, i1, l1, c1, p1, s1, u1⟩ := uvCorner_spec (eps := eps) m hm index (hv index (by simp)) uv n
    have hown := ho index (by simp)
    have key : ∃ b1, b1 = (if reused eps m index uv then b else b.add uv) ∧ b.Sub b1 ∧
        Covered own m1 (Function.update bs mat (some b1)) ∧
        ∃ t, b1.Has t ∧ (t = uv ∨ lt (uv.sub t).lenSqr eps = true) := by
      rcases uvCorner_asg m hm index (hv index (by simp)) uv n m1 v e1 with
        ⟨hr, rfl, vs, t, h1, h2, h3, h4⟩ | ⟨hr, hu, hall⟩
      · refine ⟨b, by simp [hr], fun _ h => h, ?_, t, ?_, .inr h4⟩
        · rw [← hb, Function.update_eq_self]
          exact hc
        · obtain ⟨r, h5, h6⟩ := hc index vs v t h1 h2 h3
          rw [hown, hb] at h5
          cases h5
          exact h6
      · refine ⟨b.add uv, by simp [hr], fun t h => h.add uv, ?_, uv, UvRect.has_add b uv, .inl rfl⟩
        intro k vs w t h1 h2 h3
        rcases hall k vs w h1 h2 with ⟨vs', h4, h5⟩ | ⟨h4, h5⟩
        · have h6 : m.uv[w]? = some t := by rw [← (l1.asg w ⟨k, vs', h4, h5⟩).2]; exact h3
          obtain ⟨r, h7, h8⟩ := hc k vs' w t h4 h5 h6
          by_cases hk : own k = mat
          · rw [hk, hb] at h7
            cases h7
            exact ⟨b.add uv, by rw [hk]; simp, h8.add uv⟩
          · exact ⟨r, by rw [Function.update_of_ne hk]; exact h7, h8⟩
        · subst h4 h5
          rw [hu] at h3
          cases h3
          exact ⟨b.add uv, by rw [hown]; simp, UvRect.has_add b uv⟩
    obtain ⟨b1, hb1, hsub, hc1, t, ht⟩ := key
    obtain ⟨m2, vs, b2, e2, e3, s2, c2, a2⟩ := ih (i + 1) m1 (Function.update bs mat (some b1)) b1 i1
      (fun v h => hv v (by simp [h])) (fun v h => ho v (by simp [h]))
      (fun k h1 h2 => hd k (by omega) (by simp; omega)) (by simp) hc1
    rw [Function.update_idem] at c2
    refine ⟨m2, v :: vs, b2, ?_, ?_, fun t h => s2 t (hsub t h), c2, ?_⟩
    · simp only [uvCorners, huv, hn, e1, e2]
    · simp only [boundsCorners, huv, hn, e1, ← hb1, e3]
    · intro k uv' hk h
      cases k with
      | zero =>
        rw [Nat.add_zero, huv] at h
        cases h
        exact ⟨t, s2 t ht.1, ht.2⟩
      | succ k =>
        refine a2 k uv' (by simpa using hk) ?_
        rw [show i + 1 + k = i + (k + 1) by omega]
        exact h

theorem plainCorners_same (f : Face F) (rest : List Nat) : ∀ (i : Nat) (m m' : GMesh F),
    plainCorners f i rest m = some m' → m'.assigned = m.assigned ∧ m'.uv = m.uv := by
  induction rest with
  | nil => intro i m m' h; simp only [plainCorners, Option.some.injEq] at h; subst h; exact ⟨rfl, rfl⟩
  | cons index rest ih =>
    intro i m m' h
    simp only [plainCorners] at h
    split at h
    · split at h
      · have e := ih _ _ _ h
        exact ⟨e.1, e.2⟩
      · exact absurd h (by simp)
    · exact absurd h (by simp)

theorem addFace_same (m m' : GMesh F) (mat : Nat) (vs : List Nat) (h : addFace m mat vs = some m') :
    m'.assigned = m.assigned ∧ m'.uv = m.uv := by
  unfold addFace at h
  split at h
  · simp only [Option.some.injEq] at h
    subst h
    exact ⟨rfl, rfl⟩
  · exact absurd h (by simp)

theorem Covered.congr {own : Nat → Int} {m m' : GMesh F} {bs : Int → Option (UvRect F)} (h : Covered own m bs)
    (e : m'.assigned = m.assigned ∧ m'.uv = m.uv) : Covered own m' bs := by
  intro index vs v t h1 h2 h3
  rw [e.1] at h1
  rw [e.2] at h3
  exact h index vs v t h1 h2 h3

/-- Every rectangle of `bs` lies in the one of `bs'`. -/
def UvGrown (bs bs' : Int → Option (UvRect F)) : Prop := ∀ k r, bs k = some r → ∃ r', bs' k = some r' ∧ r.Sub r'

theorem UvGrown.trans {a b c : Int → Option (UvRect F)} (h1 : UvGrown a b) (h2 : UvGrown b c) : UvGrown a c := by
  intro k r h
  obtain ⟨r1, e1, s1⟩ := h1 k r h
  obtain ⟨r2, e2, s2⟩ := h2 k r1 e1
  exact ⟨r2, e2, fun t ht => s2 t (s1 t ht)⟩

/-- The UVs of a face, or ones nearly equal, lie in the rectangle of its material. -/
def FaceIn (eps : F) (bs : Int → Option (UvRect F)) (f : Face F) : Prop :=
  ∀ uv ∈ f.uvs, ∃ r t, bs f.material = some r ∧ r.Has t ∧ (t = uv ∨ lt (uv.sub t).lenSqr eps = true)

theorem FaceIn.grown {bs bs' : Int → Option (UvRect F)} {f : Face F} (h : FaceIn eps bs f) (g : UvGrown bs bs') :
    FaceIn eps bs' f := by
  intro uv huv
  obtain ⟨r, t, h1, h2, h3⟩ := h uv huv
  obtain ⟨r', e, s⟩ := g _ _ h1
  exact ⟨r', t, e, s t h2, h3⟩

theorem boundsFace_spec (own : Nat → Int) (materials : List (Int × Nat)) (m m' : GMesh F)
    (hm : MeshInv scale hasJoints o skin0 m) (f : Face F) (hf : TriFace o f)
    (ho : f.uvs ≠ [] → ∀ v ∈ f.verts, own v = f.material)
    (he : meshFace eps hasJoints materials m f = some m')
    (bs : Int → Option (UvRect F)) (hc : Covered own m bs) :
    ∃ bs', boundsFace eps hasJoints materials m f bs = some bs' ∧ Covered own m' bs' ∧ UvGrown bs bs' ∧
      ((materials.lookup f.material).isSome = true → FaceIn eps bs' f) := by
  have h3 : ¬ f.verts.length < 3 := by rw [hf.three]; omega
  unfold boundsFace
  unfold meshFace at he
  rw [if_neg h3] at he ⊢
  have hg : UvGrown bs bs := fun k r h => ⟨r, h, fun _ h => h⟩
  cases hmat : materials.lookup f.material with
  | none =>
    rw [hmat] at he
    simp only [Option.some.injEq] at he
    subst he
    exact ⟨bs, rfl, hc.congr ⟨rfl, rfl⟩, hg, by simp⟩
  | some mat =>
    rw [hmat] at he
    simp only at he ⊢
    cases hu : f.uvs with
    | nil =>
      rw [hu] at he
      simp only [List.length_nil, lt_self_iff_false, if_false] at he
      refine ⟨bs, rfl, ?_, hg, fun _ uv huv => by simp [hu] at huv⟩
      split at he
      · exact absurd he (by simp)
      · rename_i m1 h1
        have e1 := plainCorners_same f _ _ _ _ h1
        have e2 := addFace_same _ _ _ _ he
        exact hc.congr ⟨e2.1.trans e1.1, e2.2.trans e1.2⟩
    | cons uv0 us =>
      have hlen : f.uvs.length = 3 := by
        rcases hf.uvs with h | h
        · rw [hu] at h; exact absurd h (by simp)
        · exact h
      have hne : f.uvs ≠ [] := by rw [hu]; simp
      rw [if_pos (by rw [hlen]; omega)] at he
      have hd : ∀ k, 0 ≤ k → k < 0 + f.verts.length →
          (∃ uv, f.uvs[k]? = some uv) ∧ ∃ n, f.normals[k]? = some (some n) := by
        intro k _ hk
        rw [hf.three] at hk
        exact ⟨⟨f.uvs[k]'(by omega), by simp⟩, hf.normals k (by omega)⟩
      have hm1 : MeshInv scale hasJoints o skin0 { m with useUV := true } :=
        ⟨hm.lenPos, hm.lenUV, hm.lenNrm, hm.lenSkin, hm.noSkin, hm.low, hm.stem, hm.asg⟩
      let b0 := (bs f.material).getD (UvRect.ofPoint uv0)
      have hg0 : UvGrown bs (Function.update bs f.material (some b0)) := by
        intro k r h
        by_cases hk : k = f.material
        · subst hk
          exact ⟨b0, by simp, by simp only [b0, h, Option.getD_some]; exact fun _ h => h⟩
        · exact ⟨r, by rw [Function.update_of_ne hk]; exact h, fun _ h => h⟩
      have hc1 : Covered own { m with useUV := true } (Function.update bs f.material (some b0)) := by
        intro index vs v t h1 h2 h3
        obtain ⟨r, h4, h5⟩ := hc index vs v t h1 h2 h3
        obtain ⟨r', h6, h7⟩ := hg0 _ _ h4
        exact ⟨r', h6, h7 t h5⟩
      obtain ⟨m1, vs, b1, e1, e2, s1, c1, a1⟩ := boundsCorners_spec (eps := eps) own f.material f f.verts 0
        { m with useUV := true } (Function.update bs f.material (some b0)) b0 hm1 hf.verts (ho hne) hd (by simp) hc1
      rw [Function.update_idem] at c1
      rw [e1] at he
      simp only at he
      have e3 := addFace_same _ _ _ _ he
      refine ⟨Function.update bs f.material (some b1), ?_, c1.congr e3, ?_, ?_⟩
      · simp only [b0] at e2
        simp only [e2]
      · refine hg0.trans ?_
        intro k r h
        by_cases hk : k = f.material
        · subst hk
          simp only [Function.update_self, Option.some.injEq] at h
          subst h
          exact ⟨b1, by simp, s1⟩
        · rw [Function.update_of_ne hk] at h
          exact ⟨r, by rw [Function.update_of_ne hk]; exact h, fun _ h => h⟩
      · intro _ uv huv
        obtain ⟨k, hk, rfl⟩ := List.getElem_of_mem huv
        obtain ⟨t, h1, h2⟩ := a1 k f.uvs[k] (by rw [hf.three]; omega) (by simp)
        exact ⟨b1, t, by simp, h1, h2⟩

theorem boundsFaces_spec (own : Nat → Int) (materials : List (Int × Nat)) (fs : List (Face F)) :
    ∀ (m : GMesh F) (done : List (Face F)) (bs : Int → Option (UvRect F)),
    MeshInv scale hasJoints o skin0 m → PrimInv eps materials m done → (∀ f ∈ fs, TriFace o f) →
    (∀ f ∈ fs, f.uvs ≠ [] → ∀ v ∈ f.verts, own v = f.material) → Covered own m bs →
    ∃ bs', boundsFaces eps hasJoints materials fs m bs = some bs' ∧ UvGrown bs bs' ∧
      ∀ f ∈ fs, (materials.lookup f.material).isSome = true → FaceIn eps bs' f := by
  induction fs with
  | nil => intro m done bs _ _ _ _ _; exact ⟨bs, rfl, fun k r h => ⟨r, h, fun _ h => h⟩, by simp⟩
  | cons f fs ih =>
    intro m done bs hm hp hf ho hc
    obtain ⟨m1, e1, i1, _, p1⟩ := meshFace_spec materials m hm done hp f (hf f (by simp))
    obtain ⟨bs1, e2, c1, g1, f1⟩ := boundsFace_spec own materials m m1 hm f (hf f (by simp)) (ho f (by simp)) e1 bs hc
    obtain ⟨bs2, e3, g2, f2⟩ := ih m1 (done ++ [f]) bs1 i1 p1 (fun g hg => hf g (by simp [hg]))
      (fun g hg => ho g (by simp [hg])) c1
    refine ⟨bs2, by simp only [boundsFaces, e1, e2, e3], g1.trans g2, ?_⟩
    intro g hg hs
    rcases List.mem_cons.mp hg with rfl | hg
    · exact (f1 hs).grown g2
    · exact f2 g hg hs

end

end Verif.Gltf
