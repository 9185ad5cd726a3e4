import Verif.Conv.UnityFaces
import Mathlib.Tactic.Ring
import Mathlib.Tactic.LinearCombination

/-! Properties C140 to C142 of the Unity converter: materials, texture coordinates and places of meshes. -/

namespace Verif.Conv

open Verif.Geom
open Verif.Mqo (Str Object Face Bone MorphTargetList Material PhysicsShape PhysicsBody)
open Verif.Unity (Trig Mesh builtinMesh)

local instance ratOpsUnity2 : FloatOps ℚ := ⟨id, fun a b => decide (a < b), fun a b => decide (a ≤ b)⟩

variable {F : Type}

section

variable [Field F] [DecidableEq F] [FloatOps F]

/-! ### C140: materials -/

/-- The texture a property of a Unity material asks for: the name of the file saved for it. -/
def TextureOk (sc : UScene F) (opt : UOptions F) (env : Option (UTexEnv F)) (name : Str) : Prop :=
  (∀ t rf path, env = some t → t.texture = some rf → rf.fileID ≠ 0 → sc.asset rf.guid = some path →
    opt.saveTexture = true → sc.saved rf.guid = true →
    ∃ dir base, path = dir ++ base ∧ '/' ∉ base ∧ (dir = [] ∨ dir.getLast? = some '/') ∧
      name = "saved_textures/".toList ++ rf.guid ++ "_".toList ++ base) ∧
  (opt.saveTexture = false ∨ env = none → name = [])

/-- The material of the document for the Unity material with a GUID. -/
structure GuidMaterial (M : UMath F) (sc : UScene F) (opt : UOptions F) (g : Str) (m : Material F) : Prop where
  missing : sc.material g = none → (g ≠ defaultGUID → m.name = g) ∧
    (g = defaultGUID → m.name = "UnityDefaultMaterial".toList) ∧ m.color = ⟨1, 1, 1, 1⟩ ∧ m.texture = [] ∧
    m.bumpTexture = [] ∧ m.emissionColor = none
  found : ∀ um, sc.material g = some um → m.name = um.name ∧ (∀ c, um.color = some c → m.color = c) ∧
    (um.color = none → m.color = ⟨1, 1, 1, 1⟩) ∧
    (∀ c, um.emission = some c → FloatOps.lt 0 (Vec3.len ⟨c.x, c.y, c.z⟩) = true → m.emissionColor = some ⟨c.x, c.y, c.z⟩) ∧
    (∀ c, um.emission = some c → FloatOps.lt 0 (Vec3.len ⟨c.x, c.y, c.z⟩) = false → m.emissionColor = none) ∧
    (um.emission = none → m.emissionColor = none) ∧ TextureOk sc opt um.mainTex m.texture ∧ TextureOk sc opt um.bumpMap m.bumpTexture
  rest : m.uid = 0 ∧ m.diffuse = M.diffuse ∧ m.ambient = 0 ∧ m.emission = 0 ∧ m.specular = 0 ∧ m.power = 0 ∧
    m.alphaTexture = [] ∧ m.doubleSided = false ∧ m.shader = 0

theorem baseName_spec (path : Str) : ∃ dir, path = dir ++ baseName path ∧ '/' ∉ baseName path ∧
    (dir = [] ∨ dir.getLast? = some '/') := by
  refine ⟨(path.reverse.dropWhile (· ≠ '/')).reverse, ?_, ?_, ?_⟩
  · unfold baseName
    rw [← List.reverse_append, List.takeWhile_append_dropWhile, List.reverse_reverse]
  · unfold baseName
    rw [List.mem_reverse]
    intro h
    have := List.all_eq_true.1 (List.all_takeWhile (p := fun c : Char => decide (c ≠ '/')) (l := path.reverse)) _ h
    simp at this
  · cases hd : path.reverse.dropWhile (· ≠ '/') with
    | nil => left; rfl
    | cons a l =>
      right
      rw [List.getLast?_reverse]
      have := List.head?_dropWhile_not (fun c : Char => decide (c ≠ '/')) path.reverse
      rw [hd] at this
      simp only [List.head?_cons] at this ⊢
      simpa using this

omit [Field F] [DecidableEq F] [FloatOps F] in
theorem unityTexture_ok (sc : UScene F) (opt : UOptions F) (env : Option (UTexEnv F)) :
    TextureOk sc opt env (unityTexture sc opt env) := by
  constructor
  · rintro t rf path rfl h1 h2 h3 h4 h5
    obtain ⟨dir, e1, e2, e3⟩ := baseName_spec path
    refine ⟨dir, baseName path, e1, e2, e3, ?_⟩
    unfold unityTexture
    simp only [h1]
    rw [if_neg h2]
    simp only [h3]
    rw [if_pos h4]
    unfold saveTexture
    rw [if_pos h5]
  · intro h
    unfold unityTexture
    rcases h with h | h
    · split
      · split
        · split
          · rfl
          · split
            · rw [if_neg (by simp [h])]
            · rfl
        · rfl
      · rfl
    · rw [h]

omit [DecidableEq F] in
theorem unityMaterial_ok (M : UMath F) (sc : UScene F) (opt : UOptions F) (g : Str) :
    GuidMaterial M sc opt g (unityMaterial M sc opt g) := by
  constructor
  · intro h
    unfold unityMaterial
    rw [h]
    exact ⟨fun hg => if_neg hg, fun hg => if_pos hg, rfl, rfl, rfl, rfl⟩
  · intro um h
    unfold unityMaterial
    rw [h]
    refine ⟨rfl, ?_, ?_, ?_, ?_, ?_, unityTexture_ok _ _ _, unityTexture_ok _ _ _⟩
    · intro c hc
      simp only [hc]
      rfl
    · intro hc
      simp only [hc]
      rfl
    · intro c hc hl
      simp only [hc, unityEmission]
      rw [if_pos hl]
    · intro c hc hl
      simp only [hc, unityEmission]
      rw [if_neg (by rw [hl]; simp)]
    · intro hc
      simp only [hc]
      rfl
  · unfold unityMaterial
    split <;> exact ⟨rfl, rfl, rfl, rfl, rfl, rfl, rfl, rfl, rfl⟩

theorem done_materials {M : UMath F} {sc : UScene F} {opt : UOptions F} {ffuel fuel : Nat} {r st : UState F}
    {zs : List (UOut F)} {ls : List (List (List Nat))} (hd : UDone M sc opt ffuel fuel r zs ls st) :
    ∃ place : Str → Option Nat,
      (∀ g i, place g = some i → ∃ m, r.materials[i]? = some m ∧ GuidMaterial M sc opt g m) ∧
      (∀ g g' i, place g = some i → place g' = some i → g = g') ∧
      ∀ p o imp, (p, o, imp) ∈ zs → ∀ x, x = sc.object (p.getLastD 0) → x.transform.isSome = true →
        ∀ rf rend n, x.mesh = some (rf, rend) → (rf, n) ∈ builtinTable →
          (∀ g ∈ rend.materials, (place g).isSome = true) ∧
          (∀ g gs, rend.materials = g :: gs → ∃ i : Nat, place g = some i ∧ ∀ f ∈ o.faces, f.material = i) ∧
          ∀ f ∈ o.faces, 0 ≤ f.material ∧ f.material < r.materials.length := by
  have hinv : MatInv M sc opt r ∧ r.materials ≠ [] := by
    obtain ⟨w1, w2, w3, w4, w5, w6⟩ := withDummy_rest st
    have e := hd.result
    rw [← hd.result] at w1 w2 w3 w4 w5 w6
    refine ⟨((hd.run.inv (start_inv M sc opt)).of_same (st' := r) w4 w5 w6).1, ?_⟩
    rw [e]
    unfold withDummy
    split
    · simp
    · rename_i hne
      exact fun hc => hne (by rw [hc]; rfl)
  refine ⟨fun g => (r.mat g).map Prod.fst, ?_, ?_, ?_⟩
  · intro g i hg
    obtain ⟨⟨i', s⟩, h1, h2⟩ := Option.map_eq_some_iff.1 hg
    simp only at h2
    subst h2
    exact ⟨_, (hinv.1.mat g i' s h1).2.1, unityMaterial_ok M sc opt g⟩
  · intro g g' i hg hg'
    obtain ⟨⟨i1, s1⟩, h1, rfl⟩ := Option.map_eq_some_iff.1 hg
    obtain ⟨⟨i2, s2⟩, h2, e⟩ := Option.map_eq_some_iff.1 hg'
    simp only at e
    subst e
    have a := (hinv.1.mat _ _ _ h1).1
    have b := (hinv.1.mat _ _ _ h2).1
    rw [a] at b
    exact Option.some.inj b
  · rintro p o imp hz x rfl htr rf rend n hm hn
    obtain ⟨sa, sb, hok, hext, _⟩ := hd.step p o imp hz
    obtain ⟨tr, htr⟩ := Option.isSome_iff_exists.1 htr
    obtain ⟨e1, e2⟩ := (builtinName_mem rf).2 n hn
    obtain ⟨m, stm, mat, k1, k2, k3, k4, k5, k5', k6, k7, k8⟩ := (hok.builtin tr rf rend htr hm (by rw [e1]; exact e2)).2.faces
    have hall := k4.trans hext
    have hplace : ∀ i g, stm.guidOf i = some g → (r.mat g).map Prod.fst = some i := by
      intro i g hi
      obtain ⟨s, hs⟩ := k3.guid i g hi
      rw [hall.mat _ _ hs]
      rfl
    refine ⟨?_, ?_, ?_⟩
    · intro g hg
      obtain ⟨i, hi⟩ := k5' g hg
      simp only
      rw [hplace i g hi]
      rfl
    · intro g gs hg
      refine ⟨mat, hplace mat g (k5 g gs hg), ?_⟩
      intro f hf
      obtain ⟨i, hi, rfl⟩ := List.getElem_of_mem hf
      exact (k8 i _ (List.getElem?_eq_getElem hi)).1
    · intro f hf
      obtain ⟨i, hi, rfl⟩ := List.getElem_of_mem hf
      rw [(k8 i _ (List.getElem?_eq_getElem hi)).1]
      refine ⟨by omega, ?_⟩
      cases hr : rend.materials with
      | nil =>
        rw [k6 hr]
        have := List.length_pos_iff.2 hinv.2
        omega
      | cons g gs =>
        have := hinv.1.lt (hall.guidOf _ _ (k5 g gs hr))
        omega

/-- C140. Each GUID the renderers name has one place among the materials, no two the same; there the material of the
GUID is found; the faces of a built-in mesh have the first material of their renderer. -/
theorem unity_materials (M : UMath F) (sc : UScene F) (opt : UOptions F) (ffuel fuel : Nat) (r : UState F)
    (h : unityConvert M sc opt ffuel fuel = some r) :
    ∃ tagged, ∃ place : Str → Option Nat, r.objects = tagged.map Prod.snd ∧ UTree sc tagged ∧
      (∀ g i, place g = some i → ∃ m, r.materials[i]? = some m ∧ GuidMaterial M sc opt g m) ∧
      (∀ g g' i, place g = some i → place g' = some i → g = g') ∧
      ∀ p o, (some p, o) ∈ tagged → ∀ x, x = sc.object (p.getLastD 0) → x.transform.isSome = true →
        ∀ rf rend n, x.mesh = some (rf, rend) → (rf, n) ∈ builtinTable →
          (∀ g ∈ rend.materials, (place g).isSome = true) ∧
          (∀ g gs, rend.materials = g :: gs → ∃ i : Nat, place g = some i ∧ ∀ f ∈ o.faces, f.material = i) ∧
          ∀ f ∈ o.faces, 0 ≤ f.material ∧ f.material < r.materials.length := by
  obtain ⟨zs, ls, st, hd⟩ := unity_done M sc opt ffuel fuel r h
  obtain ⟨place, h1, h2, h3⟩ := done_materials hd
  refine ⟨_, place, hd.objects, hd.tree, h1, h2, ?_⟩
  intro p o ho
  obtain ⟨imp, hz⟩ := (mem_tagUnity zs p o).1 ho
  exact h3 p o imp hz

/-- Wood is used by the box, the pole and the door, but is one material; the second has no file. -/
example : sampleUnityResult.map (fun r => r.materials.map fun m => (m.name, m.color.y, m.texture)) =
    some [("Wood".toList, 1 / 2, "saved_textures/tt_wood.png".toList),
      ("bb".toList, 1, []), ("dummy".toList, 1, []), ("dummy".toList, 1, [])] := by decide +kernel

example : sampleUnityResult.map (fun r => (r.objects.take 2).map fun o => o.faces.map Face.material) =
    some [[], [0, 0, 0, 0, 0, 0]] := by decide +kernel

/-! ### C141: texture coordinates -/

/-- The scale of the main texture of a material: 1 without a texture. -/
def mainScale (sc : UScene F) (g : Str) : Vec2 F :=
  match sc.material g with
  | some m =>
    match m.mainTex with
    | some t =>
      match t.texture with
      | some rf => if rf.fileID ≠ 0 then t.scale else ⟨1, 1⟩
      | none => ⟨1, 1⟩
    | none => ⟨1, 1⟩
  | none => ⟨1, 1⟩

omit [DecidableEq F] [FloatOps F] in
theorem applyScale_main (sc : UScene F) (g : Str) (uvs : List (Vec2 F)) :
    applyScale ((sc.material g).bind fun m => unityScale m.mainTex) uvs =
      uvs.map fun u => ⟨u.x * (mainScale sc g).x, u.y * (mainScale sc g).y⟩ := by
  unfold mainScale
  cases sc.material g with
  | none => simp [applyScale]
  | some m =>
    simp only [Option.bind_some]
    cases m.mainTex with
    | none => simp [applyScale, unityScale]
    | some t =>
      simp only [unityScale]
      cases t.texture with
      | none => simp [applyScale, URef.valid]
      | some rf =>
        by_cases hf : rf.fileID = 0
        · simp [applyScale, URef.valid, hf]
        · simp [applyScale, URef.valid, hf, scaleUVs]

omit [DecidableEq F] in
theorem MatInv.scale {M : UMath F} {sc : UScene F} {opt : UOptions F} {st : UState F} (h : MatInv M sc opt st) (i : Nat)
    (g : Str) (hg : st.guidOf i = some g) : scaleOf st i = (sc.material g).bind fun m => unityScale m.mainTex := by
  obtain ⟨s, hs⟩ := h.guid i g hg
  have h3 := (h.mat g i s hs).2.2
  unfold scaleOf
  simp only
  rw [if_neg (by omega), Int.toNat_natCast, hg]
  simp only [Option.getD_some, hs]
  exact h3

theorem done_uv {M : UMath F} {sc : UScene F} {opt : UOptions F} {ffuel fuel : Nat} {r st : UState F}
    {zs : List (UOut F)} {ls : List (List (List Nat))} (hd : UDone M sc opt ffuel fuel r zs ls st) :
    ∀ p o imp, (p, o, imp) ∈ zs → ∀ x, x = sc.object (p.getLastD 0) → x.transform.isSome = true →
        ∀ rf rend n g gs, x.mesh = some (rf, rend) → (rf, n) ∈ builtinTable → rend.materials = g :: gs →
          ∃ m, builtinMesh M.trig true rf.fileID = some m ∧ o.faces.length = m.faces.length ∧
            ∀ (i : Nat) (f : Face F), o.faces[i]? = some f → (n = "Cylinder".toList → i < 32) →
              f.verts = ((m.faces[i]?).getD []).map Int.toNat ∧
              f.uvs = ((m.uvs[i]?).getD []).map fun u => ⟨u.1 * (mainScale sc g).x, u.2 * (mainScale sc g).y⟩ := by
  rintro p o imp hz x rfl htr rf rend n g gs hm hn hg
  obtain ⟨sa, sb, hok, hext, _⟩ := hd.step p o imp hz
  obtain ⟨tr, htr⟩ := Option.isSome_iff_exists.1 htr
  obtain ⟨e1, e2⟩ := (builtinName_mem rf).2 n hn
  obtain ⟨m, stm, mat, k1, k2, k3, k4, k5, k5', k6, k7, k8⟩ := (hok.builtin tr rf rend htr hm (by rw [e1]; exact e2)).2.faces
  refine ⟨m, k1, k7, ?_⟩
  intro i f hf hc
  obtain ⟨_, a2, a3⟩ := k8 i f hf
  refine ⟨a2, ?_⟩
  have hone : ¬ (builtinName rf = "Cylinder".toList ∧ m.faces.length - 2 ≤ i) := by
    rintro ⟨c1, c2⟩
    rw [(cylinder_length M.trig rf m c1 k1).1] at c2
    have := hc (by rw [← e1]; exact c1)
    omega
  rw [if_neg hone, Function.iterate_one, k3.scale mat g (k5 g gs hg), applyScale_main, List.map_map] at a3
  rw [a3]
  rfl

/-- C141, all but the caps of cylinders. The corners of the faces of a built-in mesh have the texture coordinates of
the mesh times the scale of the main texture of the first material of the renderer. -/
theorem unity_uv_partial (M : UMath F) (sc : UScene F) (opt : UOptions F) (ffuel fuel : Nat) (r : UState F)
    (h : unityConvert M sc opt ffuel fuel = some r) :
    ∃ tagged, r.objects = tagged.map Prod.snd ∧ UTree sc tagged ∧
      ∀ p o, (some p, o) ∈ tagged → ∀ x, x = sc.object (p.getLastD 0) → x.transform.isSome = true →
        ∀ rf rend n g gs, x.mesh = some (rf, rend) → (rf, n) ∈ builtinTable → rend.materials = g :: gs →
          ∃ m, builtinMesh M.trig true rf.fileID = some m ∧ o.faces.length = m.faces.length ∧
            ∀ (i : Nat) (f : Face F), o.faces[i]? = some f → (n = "Cylinder".toList → i < 32) →
              f.verts = ((m.faces[i]?).getD []).map Int.toNat ∧
              f.uvs = ((m.uvs[i]?).getD []).map fun u => ⟨u.1 * (mainScale sc g).x, u.2 * (mainScale sc g).y⟩ := by
  obtain ⟨zs, ls, st, hd⟩ := unity_done M sc opt ffuel fuel r h
  refine ⟨_, hd.objects, hd.tree, ?_⟩
  intro p o ho
  obtain ⟨imp, hz⟩ := (mem_tagUnity zs p o).1 ho
  exact done_uv hd p o imp hz

/-- A side of the pole; the scale of the texture is 2 and 3. -/
example : sampleUnityResult.map (fun r => r.objects.filterMap fun o => (o.faces[31]?).map Face.uvs) =
    some [[⟨1 / 16, 0⟩, ⟨1 / 16, 3⟩, ⟨0, 3⟩, ⟨0, 0⟩]] := by decide +kernel

/-- C141 is false for the caps of a cylinder: they share their coordinates, which are scaled twice. -/
theorem unity_uv_caps_false (M : UMath F) (sc : UScene F) (opt : UOptions F) (ffuel fuel : Nat) (r : UState F)
    (h : unityConvert M sc opt ffuel fuel = some r) :
    ∃ tagged, r.objects = tagged.map Prod.snd ∧ UTree sc tagged ∧
      ∀ p o, (some p, o) ∈ tagged → ∀ x, x = sc.object (p.getLastD 0) → x.transform.isSome = true →
        ∀ rf rend g gs, x.mesh = some (rf, rend) → (rf, "Cylinder".toList) ∈ builtinTable → rend.materials = g :: gs →
          ∃ m, builtinMesh M.trig true rf.fileID = some m ∧ o.faces.length = 34 ∧
            ∀ (i : Nat) (f : Face F), o.faces[i]? = some f → 32 ≤ i →
              f.uvs = ((m.uvs[i]?).getD []).map fun u =>
                ⟨u.1 * (mainScale sc g).x * (mainScale sc g).x, u.2 * (mainScale sc g).y * (mainScale sc g).y⟩ := by
  obtain ⟨zs, ls, st, hd⟩ := unity_done M sc opt ffuel fuel r h
  refine ⟨_, hd.objects, hd.tree, ?_⟩
  rintro p o ho x rfl htr rf rend g gs hm hn hg
  obtain ⟨imp, hz⟩ := (mem_tagUnity zs p o).1 ho
  obtain ⟨sa, sb, hok, hext, _⟩ := hd.step p o imp hz
  obtain ⟨tr, htr⟩ := Option.isSome_iff_exists.1 htr
  obtain ⟨e1, e2⟩ := (builtinName_mem rf).2 _ hn
  obtain ⟨m, stm, mat, k1, k2, k3, k4, k5, k5', k6, k7, k8⟩ := (hok.builtin tr rf rend htr hm (by rw [e1]; exact e2)).2.faces
  have hl := (cylinder_length M.trig rf m e1 k1).1
  refine ⟨m, k1, by rw [k7, hl], ?_⟩
  intro i f hf hc
  obtain ⟨_, a2, a3⟩ := k8 i f hf
  rw [if_pos ⟨e1, by omega⟩, Function.iterate_succ_apply, Function.iterate_one, k3.scale mat g (k5 g gs hg),
    applyScale_main, applyScale_main, List.map_map, List.map_map] at a3
  rw [a3]
  rfl

/-- A cap of the pole: scaled by 4 and 9. -/
example : sampleUnityResult.map (fun r => r.objects.filterMap fun o => (o.faces[32]?).map fun f => f.uvs.take 3) =
    some [[⟨0, 9⟩, ⟨1 / 8, 9⟩, ⟨1 / 4, 9⟩]] := by decide +kernel

/-! ### C142: places -/

/-- Unity is left-handed: the conversion turns `z` round. -/
def mirror (v : Vec3 F) : Vec3 F := ⟨v.x, v.y, -v.z⟩

/-- A vector turned by a unit quaternion. -/
def turnBy (q : Vec4 F) (v : Vec3 F) : Vec3 F :=
  let u : Vec3 F := ⟨q.x, q.y, q.z⟩
  (v.add ((u.cross v).scale (2 * q.w))).add ((u.cross (u.cross v)).scale 2)

/-- What a Unity transform does with a point: scale, turn, move. -/
def UTransform.point (t : UTransform F) (v : Vec3 F) : Vec3 F :=
  t.position.add (turnBy t.rotation ⟨t.scale.x * v.x, t.scale.y * v.y, t.scale.z * v.z⟩)

/-- The place in the scene of a point given in the coordinates of the last game object of a way. -/
def worldPoint (sc : UScene F) (p : List Nat) (v : Vec3 F) : Vec3 F :=
  p.foldr (fun k v =>
    match (sc.object k).transform with
    | some tr => tr.point v
    | none => v) v

omit [DecidableEq F] [FloatOps F] in
theorem mirror_mirror (v : Vec3 F) : mirror (mirror v) = v := by
  simp [mirror]

omit [DecidableEq F] [FloatOps F] in
theorem matrix_point (t : UTransform F) (v : Vec3 F) : t.matrix.applyTo v = mirror (t.point (mirror v)) := by
  unfold UTransform.matrix UTransform.point mirror turnBy
  simp only [Mat4.mul, Mat4.translation, Mat4.rotation, Mat4.scaling, Mat4.applyTo, Vec3.add, Vec3.cross, Vec3.scale,
    Vec3.mk.injEq]
  refine ⟨by ring, by ring, by ring⟩

omit [DecidableEq F] [FloatOps F] in
theorem matrix_affine (t : UTransform F) : t.matrix.Affine := by
  unfold UTransform.matrix Mat4.Affine
  simp [Mat4.mul, Mat4.translation, Mat4.rotation, Mat4.scaling]

omit [DecidableEq F] [FloatOps F] in
/-- The matrix of a way. -/
theorem pathMatrix_point (sc : UScene F) (s : F) (p : List Nat) : ∀ v,
    (pathMatrix sc s p).applyTo v = mirror ((worldPoint sc p (mirror v)).scale s) := by
  induction p using List.reverseRecOn with
  | nil =>
    intro v
    simp [pathMatrix, worldPoint, mirror, Mat4.scaling, Mat4.applyTo, Vec3.scale, mul_comm]
  | append_singleton p k ih =>
    intro v
    have e : pathMatrix sc s (p ++ [k]) = match (sc.object k).transform with
        | some tr => (pathMatrix sc s p).mul tr.matrix
        | none => pathMatrix sc s p := by
      unfold pathMatrix
      rw [List.foldl_append]
      rfl
    have e2 : worldPoint sc (p ++ [k]) (mirror v) = worldPoint sc p (match (sc.object k).transform with
        | some tr => tr.point (mirror v)
        | none => mirror v) := by
      unfold worldPoint
      rw [List.foldr_append]
      rfl
    rw [e, e2]
    cases (sc.object k).transform with
    | none => exact ih v
    | some tr =>
      simp only
      rw [applyTo_mul _ _ (matrix_affine tr), ih, matrix_point, mirror_mirror]

omit [DecidableEq F] [FloatOps F] in
theorem pathMatrix_last (sc : UScene F) (s : F) (p : List Nat) (hp : p ≠ []) (tr : UTransform F)
    (htr : (sc.object (p.getLastD 0)).transform = some tr) :
    (pathMatrix sc s p.dropLast).mul tr.matrix = pathMatrix sc s p := by
  obtain ⟨q, k, rfl⟩ : ∃ q k, p = q ++ [k] := ⟨p.dropLast, p.getLast hp, (List.dropLast_append_getLast hp).symm⟩
  simp only [List.getLastD_concat] at htr
  rw [List.dropLast_concat]
  unfold pathMatrix
  rw [List.foldl_append]
  simp [htr]

theorem UDone.isPath {M : UMath F} {sc : UScene F} {opt : UOptions F} {ffuel fuel : Nat} {r st : UState F}
    {zs : List (UOut F)} {ls : List (List (List Nat))} (h : UDone M sc opt ffuel fuel r zs ls st) (p : List Nat)
    (o : Object F) (imp : List (Object F)) (hz : (p, o, imp) ∈ zs) : IsPath sc p :=
  (ways_iff h.paths p).1 (by rw [← h.ways]; exact List.mem_map.2 ⟨_, hz, rfl⟩)

/-- C142. A built-in mesh is where Unity has it: each vertex is moved by the transforms on the way, then multiplied
by the scale of the document and mirrored from Unity's coordinates; so is the point a light sits at. The pose of the
object is that of its own transform: the Euler angles are those of a quaternion that turns mirrored vectors as Unity
turns the vectors. -/
theorem unity_place (M : UMath F) (sc : UScene F) (opt : UOptions F) (ffuel fuel : Nat) (r : UState F)
    (h : unityConvert M sc opt ffuel fuel = some r) :
    ∃ tagged, r.objects = tagged.map Prod.snd ∧ UTree sc tagged ∧
      ∀ p o, (some p, o) ∈ tagged → ∀ x tr, x = sc.object (p.getLastD 0) → x.transform = some tr →
        o.translation = some (mirror (tr.position.scale opt.convertScale)) ∧ o.scale = some tr.scale ∧
        (∃ q, o.rotation = some (M.euler q) ∧
          ∀ v, (Mat4.rotation q).applyTo (mirror v) = mirror (turnBy tr.rotation v)) ∧
        (∀ rf rend n, x.mesh = some (rf, rend) → (rf, n) ∈ builtinTable → ∃ m, builtinMesh M.trig true rf.fileID = some m ∧
          o.vertexes = m.vs.map fun v => mirror ((worldPoint sc p (mirror v)).scale opt.convertScale)) ∧
        ∀ l, x.light = some l → ∃ t, o.internalTransform = some t ∧
          ∀ v, t.applyTo v = mirror ((worldPoint sc p (mirror v)).scale opt.convertScale) := by
  obtain ⟨zs, ls, st, hd⟩ := unity_done M sc opt ffuel fuel r h
  refine ⟨_, hd.objects, hd.tree, ?_⟩
  rintro p o ho x tr rfl htr
  obtain ⟨imp, hz⟩ := (mem_tagUnity zs p o).1 ho
  obtain ⟨sa, sb, hok, hext, _⟩ := hd.step p o imp hz
  have hp := isPath_ne (hd.isPath p o imp hz)
  refine ⟨?_, ?_, ?_, ?_, ?_⟩
  · rw [hok.pose.1]
    unfold unityObject
    simp only [htr, mirror, Vec3.scale, neg_mul]
  · rw [hok.pose.2.1]
    unfold unityObject
    simp only [htr]
  · refine ⟨⟨-tr.rotation.x, -tr.rotation.y, tr.rotation.z, tr.rotation.w⟩, ?_, ?_⟩
    · rw [hok.pose.2.2]
      unfold unityObject
      simp only [htr]
    · intro v
      simp only [mirror, turnBy, Mat4.rotation, Mat4.applyTo, Vec3.add, Vec3.cross, Vec3.scale, Vec3.mk.injEq]
      refine ⟨by ring, by ring, by ring⟩
  · intro rf rend n hm hn
    obtain ⟨e1, e2⟩ := (builtinName_mem rf).2 n hn
    obtain ⟨m, stm, mat, k1, k2, _⟩ := (hok.builtin tr rf rend htr hm (by rw [e1]; exact e2)).2.faces
    refine ⟨m, k1, ?_⟩
    rw [k2, pathMatrix_last sc _ p hp tr htr]
    exact List.map_congr_left fun v _ => pathMatrix_point sc _ p v
  · intro l hl
    refine ⟨_, (hok.lights tr l htr hl).1, ?_⟩
    intro v
    rw [pathMatrix_last sc _ p hp tr htr, pathMatrix_point]

/-- The first vertices of the box: half a turn, stretched, in a house at (1, 2, 3) of scale 2. -/
example : sampleUnityResult.map (fun r => (r.objects[1]?).map fun o => (o.translation, o.vertexes.take 2)) =
    some (some (some ⟨0, 0, -50⟩, [⟨20, -10, -120⟩, ⟨0, -10, -120⟩])) := by decide +kernel

example : (mirror ((worldPoint sampleUnity [0, 1] (mirror ⟨-1 / 2, -1 / 2, -1 / 2⟩)).scale 10) : Vec3 ℚ) =
    ⟨20, -10, -120⟩ := by decide +kernel

/-- The object of a game object with a mesh of an FBX file is followed by the imported ones. -/
theorem fbx_first (M : UMath F) (sc : UScene F) (opt : UOptions F) (ffuel fuel : Nat) (r st : UState F)
    (zs : List (UOut F)) (ls : List (List (List Nat))) (hd : UDone M sc opt ffuel fuel r zs ls st)
    (A B : List (Option (List Nat) × Object F)) (p : List Nat) (o : Object F)
    (hs : zs.flatMap tagUnity = A ++ (some p, o) :: B) : ∃ imp sa sb C, B = imp.map (fun o => (none, o)) ++ C ∧
      (p, o, imp) ∈ zs ∧ StepOk M sc opt ffuel (sc.object (p.getLastD 0)) ((p.length : Int) - 1)
        (pathMatrix sc opt.convertScale p.dropLast) (pathActive sc p) sa sb o imp ∧ MatExt sb r ∧ MatInv M sc opt r := by
  obtain ⟨Z1, z, Z2, A', C', k1, k2, k3, k4⟩ := flatMap_split tagUnity (some p, o) B _ A hs
  have hA' : z.1 = p ∧ z.2.1 = o ∧ C' = z.2.2.map fun o => (none, o) := by
    unfold tagUnity at k2
    cases A' with
    | nil =>
      simp only [List.nil_append, List.cons.injEq, Prod.mk.injEq, Option.some.injEq] at k2
      exact ⟨k2.1.1, k2.1.2, k2.2.symm⟩
    | cons a A' =>
      simp only [List.cons_append, List.cons.injEq] at k2
      have : (some p, o) ∈ z.2.2.map fun o => ((none : Option (List Nat)), o) := by rw [k2.2]; simp
      obtain ⟨_, _, e⟩ := List.mem_map.1 this
      simp at e
  obtain ⟨rfl, rfl, rfl⟩ := hA'
  have hz : (z.1, z.2.1, z.2.2) ∈ zs := by rw [k1]; simp
  obtain ⟨sa, sb, hok, h1, h2⟩ := hd.step _ _ _ hz
  exact ⟨z.2.2, sa, sb, _, k4, hz, hok, h1, h2⟩

/-- C142. The mesh of an FBX file whose meta file names its model: it is behind the object of the game object, its
vertices in the coordinates of the FBX file moved like the points of the game object, in metres. -/
theorem unity_place_fbx (M : UMath F) (sc : UScene F) (opt : UOptions F) (ffuel fuel : Nat) (r : UState F)
    (h : unityConvert M sc opt ffuel fuel = some r) :
    ∃ tagged, r.objects = tagged.map Prod.snd ∧ UTree sc tagged ∧
      ∀ A p o B, tagged = A ++ (some p, o) :: B → ∀ x, x = sc.object (p.getLastD 0) → x.transform.isSome = true →
        ∀ rf rend fb m g, x.mesh = some (rf, rend) → (∀ n, (rf, n) ∉ builtinTable) → sc.fbx rf.guid = some fb →
          fb.recycleName rf.fileID ≠ [] → fb.scene.coord.Affine →
          (fb.scene.model fb.scene.scene).children.find?
            (fun m => (fb.scene.model m).name = fb.recycleName rf.fileID ++ "::Model".toList) = some m →
          (fb.scene.model m).geometry = some g →
          ∃ o' B', B = (none, o') :: B' ∧ o'.vertexes = g.vertices.map fun v =>
            let w := (fb.scene.coord.applyTo v).sub (fb.scene.model m).pivot
            mirror ((worldPoint sc p ⟨-(fb.unit * (1 / 100) * w.x), fb.unit * (1 / 100) * w.y,
              fb.unit * (1 / 100) * w.z⟩).scale opt.convertScale) := by
  obtain ⟨zs, ls, st, hd⟩ := unity_done M sc opt ffuel fuel r h
  refine ⟨_, hd.objects, hd.tree, ?_⟩
  rintro A p o B hs x rfl htr rf rend fb m g hm hno hfb hrn haff hfind hg
  obtain ⟨imp, sa, sb, C, hB, hz, hok, _, _⟩ := fbx_first M sc opt ffuel fuel r st zs ls hd A B p o hs
  obtain ⟨tr, htr⟩ := Option.isSome_iff_exists.1 htr
  have hp := isPath_ne (hd.isPath p o imp hz)
  have hb : builtinName rf = [] := by
    by_contra hc
    exact hno _ ((builtinName_mem rf).1 hc)
  obtain ⟨_, _, _, hf⟩ := hok.fbx tr rf rend htr hm hb
  obtain ⟨_, mats, stm, res, new, objects, k1, k2, k3, k4, k5, k6, k7, k8, k9⟩ := hf.found fb hfb
  rw [pathMatrix_last sc _ p hp tr htr] at k6 k9
  have hlen := List.length_pos_iff.2 hp
  obtain ⟨o0, t1, t2⟩ := target_place M.facet fb.scene _ _ _ _ _ res m hrn hfind k6 (by simp [fbxOptions]; omega) _ rfl haff g hg
  rw [k7, List.getElem?_append_right (le_refl _), Nat.sub_self] at t1
  have himp : ∃ o' imp', imp = o' :: imp' ∧ o'.vertexes = o0.vertexes := by
    cases hnew : new with
    | nil => rw [hnew] at t1; simp at t1
    | cons a new' =>
      rw [hnew] at t1 k9
      simp only [List.getElem?_cons_zero, Option.some.injEq] at t1
      subst t1
      split at k9
      · exact ⟨_, _, k9, rfl⟩
      · exact ⟨_, _, k9, rfl⟩
  obtain ⟨o', imp', rfl, hv⟩ := himp
  refine ⟨o', _, hB, ?_⟩
  rw [hv, t2]
  apply List.map_congr_left
  intro v _
  simp only
  generalize (fb.scene.coord.applyTo v).sub (fb.scene.model m).pivot = w
  rw [applyTo_mul _ _ (by simp [Mat4.scaling, Mat4.Affine]), pathMatrix_point]
  congr 3
  simp only [mirror, Mat4.scaling, Mat4.applyTo, Vec3.mk.injEq]
  refine ⟨by ring, by ring, by ring⟩

/-- The mesh of the door: a file in metres. -/
example : sampleUnityResult.map (fun r => (r.objects[4]?).map fun o => o.vertexes) =
    some (some [⟨10, 40, -30⟩, ⟨-10, 40, -30⟩, ⟨-10, 60, -30⟩, ⟨10, 60, -30⟩]) := by decide +kernel

/-- The hypotheses hold for the door. -/
example : (sampleUnity.object 3).mesh = some (⟨4300000, "ff".toList, 3⟩, ⟨false, ["bb".toList, "aa".toList]⟩) ∧
    (∀ n, (⟨4300000, "ff".toList, 3⟩, n) ∉ builtinTable) ∧ skinScene.coord.Affine ∧
    (skinScene.model skinScene.scene).children.find? (fun m => (skinScene.model m).name = "Box".toList ++ "::Model".toList) =
      some 1 ∧ (skinScene.model 1).geometry = some skinGeometry := by
  refine ⟨by rfl, ?_, ?_, by decide, rfl⟩
  · intro n hn
    have := ((builtinName_mem _).2 n hn)
    exact this.2 (by rw [← this.1]; decide)
  · unfold Mat4.Affine
    decide +kernel

/-- C140. The faces of such a mesh with several materials: the first polygon number met takes the first material of
the renderer, the next new one the second, and so on. -/
theorem unity_materials_fbx (M : UMath F) (sc : UScene F) (opt : UOptions F) (ffuel fuel : Nat) (r : UState F)
    (h : unityConvert M sc opt ffuel fuel = some r) :
    ∃ tagged, ∃ place : Str → Option Nat, r.objects = tagged.map Prod.snd ∧ UTree sc tagged ∧
      (∀ g i, place g = some i → ∃ m, r.materials[i]? = some m ∧ GuidMaterial M sc opt g m) ∧
      ∀ A p o B, tagged = A ++ (some p, o) :: B → ∀ x, x = sc.object (p.getLastD 0) → x.transform.isSome = true →
        ∀ rf rend fb m g, x.mesh = some (rf, rend) → (∀ n, (rf, n) ∉ builtinTable) → sc.fbx rf.guid = some fb →
          fb.recycleName rf.fileID ≠ [] →
          (fb.scene.model fb.scene.scene).children.find?
            (fun m => (fb.scene.model m).name = fb.recycleName rf.fileID ++ "::Model".toList) = some m →
          (fb.scene.model m).geometry = some g → g.matMap = "ByPolygon".toList → g.polygons.length ≤ g.mats.length →
          1 < g.mats.length → 1 < rend.materials.length →
          (∀ a ∈ g.mats, 0 ≤ a ∧ a < (rend.materials.length : Int)) →
          ∃ o' B', B = (none, o') :: B' ∧ o'.faces.length = g.polygons.length ∧
            ∀ (i : Nat) (face : Face F), o'.faces[i]? = some face → ∃ (A B : List Int) (k : Int) (guid : Str) (j : Nat),
              g.mats[i]? = some k ∧ g.mats = A ++ k :: B ∧ k ∉ A ∧ rend.materials[distinct A]? = some guid ∧
              place guid = some j ∧ face.material = j := by
  obtain ⟨zs, ls, st, hd⟩ := unity_done M sc opt ffuel fuel r h
  have hinv : MatInv M sc opt r := by
    obtain ⟨w1, w2, w3, w4, w5, w6⟩ := withDummy_rest st
    rw [← hd.result] at w1 w2 w3 w4 w5 w6
    exact ((hd.run.inv (start_inv M sc opt)).of_same (st' := r) w4 w5 w6).1
  refine ⟨_, fun g => (r.mat g).map Prod.fst, hd.objects, hd.tree, ?_, ?_⟩
  · intro g i hg
    obtain ⟨⟨i', s⟩, h1, h2⟩ := Option.map_eq_some_iff.1 hg
    simp only at h2
    subst h2
    exact ⟨_, (hinv.mat g i' s h1).2.1, unityMaterial_ok M sc opt g⟩
  rintro A p o B hs x rfl htr rf rend fb m g hm hno hfb hrn hfind hg hmap hpl hml hrl hrange
  obtain ⟨imp, sa, sb, C, hB, hz, hok, hext, _⟩ := fbx_first M sc opt ffuel fuel r st zs ls hd A B p o hs
  obtain ⟨tr, htr⟩ := Option.isSome_iff_exists.1 htr
  have hp := isPath_ne (hd.isPath p o imp hz)
  have hb : builtinName rf = [] := by
    by_contra hc
    exact hno _ ((builtinName_mem rf).1 hc)
  obtain ⟨_, _, _, hf⟩ := hok.fbx tr rf rend htr hm hb
  obtain ⟨_, mats, stm, res, new, objects, k1, k2, k3, k4, k5, k6, k7, k8, k9⟩ := hf.found fb hfb
  have hlen := List.length_pos_iff.2 hp
  have hml' : mats.length = rend.materials.length := k4.length_eq
  have hne : mats ≠ [] := by
    rintro rfl
    simp at hml'
    omega
  obtain ⟨o0, t1, t2, t3⟩ := target_materials M.facet fb.scene _ _ _ _ _ res m hrn hfind k6 (by simp [fbxOptions]; omega)
    (mats.map fun (k : Nat) => (k : Int)) (by simp [fbxOptions, hne]) (by simpa [hml'] using hrl) g hg hmap hpl hml
    (by simpa [hml'] using hrange)
  rw [k7, List.getElem?_append_right (le_refl _), Nat.sub_self] at t1
  have hkeep : ∀ o : Object F, (finishObject stm (pathActive sc p && rend.enabled) (List.range o.faces.length) o).faces.map
      Face.material = o.faces.map Face.material := by
    intro o
    rw [finishObject_range]
    simp
  have himp : ∃ o' imp', imp = o' :: imp' ∧ o'.faces.map Face.material = o0.faces.map Face.material := by
    cases hnew : new with
    | nil => rw [hnew] at t1; simp at t1
    | cons a new' =>
      rw [hnew] at t1 k9
      simp only [List.getElem?_cons_zero, Option.some.injEq] at t1
      subst t1
      split at k9
      · exact ⟨_, _, k9, hkeep _⟩
      · exact ⟨_, _, k9, hkeep _⟩
  obtain ⟨o', imp', rfl, hv⟩ := himp
  refine ⟨o', _, hB, by rw [← t2, ← List.length_map (f := Face.material), hv, List.length_map], ?_⟩
  intro i face hface
  have e := congrArg (fun l => l[i]?) hv
  simp only [List.getElem?_map, hface, Option.map_some] at e
  obtain ⟨f0, hf0, e0⟩ := Option.map_eq_some_iff.1 e.symm
  obtain ⟨A, B, k, a1, a2, a3, a4⟩ := t3 i f0 hf0
  rw [List.getElem?_map, Option.map_eq_some_iff] at a4
  obtain ⟨j, hj, hj2⟩ := a4
  have hjl : distinct A < rend.materials.length := by
    rw [← hml']
    exact (List.getElem?_eq_some_iff.1 hj).1
  have hgo : stm.guidOf j = some (rend.materials[distinct A]) := by
    have hj' := List.getElem?_eq_some_iff.1 hj
    have := k4.get hj'.1 hjl
    simp only [List.get_eq_getElem] at this
    rw [hj'.2] at this
    exact this
  obtain ⟨s, hs⟩ := k1.guid j _ hgo
  refine ⟨A, B, k, rend.materials[distinct A], j, a1, a2, a3, List.getElem?_eq_getElem hjl, ?_, ?_⟩
  · simp only
    rw [(k3.trans hext).mat _ _ hs]
    rfl
  · rw [← e0, ← hj2]

/-- The polygons of the door's mesh have the numbers 1 and 0, and the renderer lists `bb` and `aa`: the first number to
appear takes the first of the list. -/
example : sampleUnityResult.map (fun r => (r.objects[4]?).map fun o => o.faces.map Face.material) =
    some (some [1, 0]) := by decide +kernel

example : skinGeometry.matMap = "ByPolygon".toList ∧ skinGeometry.polygons.length ≤ skinGeometry.mats.length ∧
    1 < skinGeometry.mats.length ∧ (∀ a ∈ skinGeometry.mats, 0 ≤ a ∧ a < 2) := by decide

end

end Verif.Conv
