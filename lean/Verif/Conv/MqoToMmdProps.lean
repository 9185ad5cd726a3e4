import Verif.Conv.MqoToMmdLemmas
import Verif.Geom.Mat
import Mathlib.Tactic.Ring
import Mathlib.Tactic.FieldSimp
import Mathlib.Tactic.Linarith

/-! C37 (coordinates), C38 (faces of the PMX document), C79 (morphs), C80 (weights), C81 (normals) of
converter/mqo2mmd.go. -/

namespace Verif.Conv

open Verif.Geom
open Verif.Mqo (Str Object Face Material Bone MorphTargetList)

variable {F : Type}

/-! ## C37 -/

/-- C37. From MMD to MQO, scaled with the factor 80 of the command line program, and back with the
fixed factor 1/80: the same position. -/
theorem coords_roundtrip [Field F] (h : (80 : F) ≠ 0) (v : Vec3 F) :
    mqoToMmdVec (1 / 80) ((Mat4.scaling 80 80 80).applyTo (mmdToMqoVec v)) = v := by
  simp only [mqoToMmdVec, Mat4.scaling, Mat4.applyTo, mmdToMqoVec]
  ext <;> field_simp <;> ring

/-- C37. The other way round. -/
theorem coords_roundtrip' [Field F] (h : (80 : F) ≠ 0) (v : Vec3 F) :
    (Mat4.scaling 80 80 80).applyTo (mmdToMqoVec (mqoToMmdVec (1 / 80) v)) = v := by
  simp only [mqoToMmdVec, Mat4.scaling, Mat4.applyTo, mmdToMqoVec]
  ext <;> field_simp <;> ring

/-- C37. Both directions keep X and Y up to the factor, and turn Z round. -/
theorem coords_mirror [CommRing F] (s : F) (v : Vec3 F) :
    mmdToMqoVec v = ⟨v.x, v.y, -v.z⟩ ∧ mqoToMmdVec s v = (⟨v.x, v.y, -v.z⟩ : Vec3 F).scale s := by
  simp only [mmdToMqoVec, mqoToMmdVec, Vec3.scale]
  constructor <;> ext <;> ring

/-- C37. So both change the orientation of space. -/
theorem coords_orientation [CommRing F] (s : F) (a b c : Vec3 F) :
    ((mmdToMqoVec a).cross (mmdToMqoVec b)).dot (mmdToMqoVec c) = -((a.cross b).dot c) ∧
    ((mqoToMmdVec s a).cross (mqoToMmdVec s b)).dot (mqoToMmdVec s c) =
      -(s * s * s * (a.cross b).dot c) := by
  simp only [mmdToMqoVec, mqoToMmdVec, Vec3.cross, Vec3.dot]
  constructor <;> ring

example : (80 : ℚ) ≠ 0 := by norm_num

/-! ## C38 -/

section
variable [Add F] [Sub F] [Mul F] [Div F] [One F] [Neg F] [Zero F] [DecidableEq F] [FloatOps F]

/-- All vertex numbers of the faces are in range. -/
def ValidMqo (objects : List (Object F)) : Prop :=
  ∀ o ∈ objects, ∀ f ∈ o.faces, ∀ v ∈ f.verts, v < o.vertexes.length

omit [Add F] [Sub F] [Mul F] [Div F] [One F] [Neg F] [Zero F] [DecidableEq F] [FloatOps F] in
theorem validMqo_fixIDs (objects : List (Object F)) (h : ValidMqo objects) :
    ValidMqo (Mqo.fixObjectIDs objects) := by
  intro o ho
  unfold Mqo.fixObjectIDs at ho
  obtain ⟨i, hi, rfl⟩ := List.mem_mapIdx.mp ho
  have := h objects[i] (List.getElem_mem hi)
  split
  · exact this
  · exact this

/-- C38. If all vertex numbers are in range, the conversion succeeds. The faces of the result, with
their corners looked up, are those of the visible objects that are no morph targets: for every
material, in order, all faces with that material and at least three corners, cut into triangles. The
corners have the mirrored and scaled position, the smooth normal, the UV and the first four
influences of the source. The materials keep their names, and their counts are three times the number
of triangles of that material. -/
theorem toMmd_faces (s h : F) (materials : List (Material F)) (objects : List (Object F))
    (bones : List (Bone F)) (lists : List MorphTargetList) (hv : ValidMqo objects) :
    ∃ out mats, toMmd s h materials objects bones lists = some (out, mats) ∧
      (out.faces.map (·.map (out.vertexes[·]?)) = (List.range materials.length).flatMap fun mi =>
        ((Mqo.fixObjectIDs objects).filter (exported lists)).flatMap (sourceFaces s h bones mi)) ∧
      mats.map (·.name) = materials.map (·.name) ∧
      mats.map (·.count) = (List.range materials.length).map fun mi =>
        3 * (((Mqo.fixObjectIDs objects).filter (exported lists)).flatMap
          (sourceFaces s h bones mi)).length := by
  obtain ⟨out, mats, new, e, -, f, -, m, n, c⟩ := mmdMaterials_spec
    ⟨s, h, Mqo.fixObjectIDs objects, bones, lists⟩ (validMqo_fixIDs objects hv) materials 0
    ⟨[], [], lists.flatMap fun m => m.target.map fun t => (t.name, [])⟩
  simp only [List.nil_append] at f
  rw [← f, ← List.range_eq_range'] at m
  rw [← List.range_eq_range'] at c
  exact ⟨out, mats, e, m, n, c⟩

/-- C38. The counts add up to three times the number of faces. -/
theorem toMmd_counts (s h : F) (materials : List (Material F)) (objects : List (Object F))
    (bones : List (Bone F)) (lists : List MorphTargetList) (hv : ValidMqo objects)
    (out : MmdOut F) (mats : List MmdMaterial)
    (he : toMmd s h materials objects bones lists = some (out, mats)) :
    (mats.map (·.count)).sum = 3 * out.faces.length := by
  obtain ⟨out', mats', e, m, -, c⟩ := toMmd_faces s h materials objects bones lists hv
  rw [he] at e
  obtain ⟨rfl, rfl⟩ := Prod.mk.inj (Option.some.inj e)
  have hl := congrArg List.length m
  rw [List.length_map, List.length_flatMap] at hl
  rw [c, hl]
  generalize List.range materials.length = l
  induction l with
  | nil => rfl
  | cons a l ih => simp only [List.map_cons, List.sum_cons, ih]; omega

/-- C38. All vertex numbers of the result are in range. -/
theorem toMmd_range (s h : F) (materials : List (Material F)) (objects : List (Object F))
    (bones : List (Bone F)) (lists : List MorphTargetList) (hv : ValidMqo objects)
    (out : MmdOut F) (mats : List MmdMaterial)
    (he : toMmd s h materials objects bones lists = some (out, mats)) :
    ∀ f ∈ out.faces, f.length = 3 ∧ ∀ v ∈ f, v < out.vertexes.length := by
  obtain ⟨out', mats', new, e, -, f, r, m, -, -⟩ := mmdMaterials_spec
    ⟨s, h, Mqo.fixObjectIDs objects, bones, lists⟩ (validMqo_fixIDs objects hv) materials 0
    ⟨[], [], lists.flatMap fun m => m.target.map fun t => (t.name, [])⟩
  rw [toMmd, e] at he
  obtain ⟨rfl, rfl⟩ := Prod.mk.inj (Option.some.inj he)
  simp only [List.nil_append] at f
  rw [f]
  intro t ht
  refine ⟨?_, r t ht⟩
  have h3 : ∀ {α : Type} (l : List α), ∀ t ∈ triangles l, t.length = 3 := by
    intro α l
    induction l using triangles.induct with
    | case1 a b c l ih =>
      rw [triangles]
      intro t ht
      rcases List.mem_cons.mp ht with rfl | ht
      · rfl
      · exact ih t ht
    | case2 l h =>
      intro t ht
      unfold triangles at ht
      split at ht
      · rename_i a b c l; exact absurd rfl (h a b c l)
      · simp at ht
  have hmem : t.map (out'.vertexes[·]?) ∈ new.map (·.map (out'.vertexes[·]?)) :=
    List.mem_map.mpr ⟨t, ht, rfl⟩
  rw [m] at hmem
  simp only [List.mem_flatMap, sourceFaces, List.mem_map] at hmem
  obtain ⟨_, _, _, _, _, _, k, hk, hk2⟩ := hmem
  have := congrArg List.length hk2
  simp only [List.length_map] at this
  rw [← this]
  exact h3 _ k hk

/-- C38. A face with `n` corners whose material is `mi` becomes `n - 2` triangles. -/
theorem sourceFaces_count (s h : F) (bones : List (Bone F)) (mi : Nat) (o : Object F) :
    (sourceFaces s h bones mi o).length = ((o.faces.filter fun f =>
      3 ≤ f.verts.length ∧ f.material = (mi : Int)).map fun f => f.verts.length - 2).sum := by
  simp only [sourceFaces, List.length_flatMap, List.length_map, triangles_length, cornerKeys,
    List.length_zipIdx, facesOf]

/-- Faces without a material of the document disappear: a document with one face and no material for it
has no face afterwards. -/
theorem toMmd_unassigned (s h : F) (materials : List (Material F)) (objects : List (Object F))
    (bones : List (Bone F)) (lists : List MorphTargetList) (hv : ValidMqo objects)
    (hm : ∀ o ∈ objects, ∀ f ∈ o.faces, f.material < 0 ∨ (materials.length : Int) ≤ f.material) :
    ∃ out mats, toMmd s h materials objects bones lists = some (out, mats) ∧ out.faces = [] := by
  obtain ⟨out, mats, e, m, -, -⟩ := toMmd_faces s h materials objects bones lists hv
  refine ⟨out, mats, e, ?_⟩
  have : (List.range materials.length).flatMap (fun mi =>
      ((Mqo.fixObjectIDs objects).filter (exported lists)).flatMap (sourceFaces s h bones mi)) = [] := by
    rw [List.flatMap_eq_nil_iff]
    intro mi hmi
    rw [List.mem_range] at hmi
    rw [List.flatMap_eq_nil_iff]
    intro o ho
    have ho := (List.mem_filter.mp ho).1
    unfold Mqo.fixObjectIDs at ho
    obtain ⟨i, hi, rfl⟩ := List.mem_mapIdx.mp ho
    have hf : facesOf mi objects[i].faces = [] := by
      unfold facesOf
      rw [List.filter_eq_nil_iff]
      intro f hf
      have := hm _ (List.getElem_mem hi) f hf
      simp
      omega
    unfold sourceFaces
    split <;> simp [hf]
  rw [this] at m
  simpa using m

end

/-! ## C80 -/

section
variable [Add F] [Sub F] [Mul F] [Div F] [One F] [Neg F] [Zero F] [DecidableEq F] [FloatOps F]

/-- C80. A vertex has at most four influences, as many weights as bones, all bones exist, and if the
source vertex has at most four they are all there. -/
theorem sourceVertex_weights (s h : F) (bones : List (Bone F)) (o : Object F) (c : Nat × Vec2 F)
    (w : MmdVertex F) (hw : sourceVertex s h bones o c = some w) :
    w.bones.length = w.boneWeights.length ∧ w.bones.length ≤ 4 ∧
      (∀ b ∈ w.bones, b < bones.length) ∧
      w.bones.zip w.boneWeights = (influences h o bones c.1).take 4 := by
  simp only [sourceVertex, Option.bind_eq_bind, Option.bind_eq_some_iff, Option.pure_def,
    Option.some.injEq] at hw
  obtain ⟨ns, _, p, _, n, _, rfl⟩ := hw
  refine ⟨by simp, by simp, ?_, ?_⟩
  · intro b hb
    simp only [List.mem_map] at hb
    obtain ⟨e, he, rfl⟩ := hb
    have he := List.mem_of_mem_take he
    simp only [influences, List.mem_flatMap, List.mem_map] at he
    obtain ⟨⟨b, bi⟩, hb, g, _, w, _, rfl⟩ := he
    have := List.mem_zipIdx hb
    simp at this ⊢
    omega
  · simp only
    generalize (influences h o bones c.1).take 4 = l
    induction l with
    | nil => rfl
    | cons e l ih => simp only [List.map_cons, List.zip_cons_cons, ih]

end

/-! ## C81 -/

/-- C81 is false of the code: positions are mirrored, normals are not. For every document, every
corner whose smooth normal is not parallel to the XY plane gets a normal that is not the mirrored
one. -/
theorem sourceVertex_normal_false [Field F] [CharZero F] [DecidableEq F] [FloatOps F] (s h : F)
    (bones : List (Bone F)) (o : Object F) (c : Nat × Vec2 F) (w : MmdVertex F)
    (hw : sourceVertex s h bones o c = some w) (ns : List (Vec3 F)) (n : Vec3 F)
    (hns : o.smoothNormals = some ns) (hn : ns[c.1]? = some n) (hz : n.z ≠ 0) :
    w.normal = n ∧ w.normal ≠ ⟨n.x, n.y, -n.z⟩ := by
  simp only [sourceVertex, hns, Option.bind_eq_bind, Option.bind_eq_some_iff, Option.pure_def,
    Option.some.injEq] at hw
  obtain ⟨_, rfl, p, _, n', hn', rfl⟩ := hw
  rw [hn] at hn'
  obtain rfl := Option.some.inj hn'
  refine ⟨rfl, fun e => hz ?_⟩
  have := congrArg Vec3.z e
  simp only at this
  have h2 : (2 : F) * n.z = 0 := by linear_combination this
  rcases mul_eq_zero.mp h2 with h | h
  · exact absurd h (by norm_num)
  · exact h

/-- C81, the part that holds: the normal has the first two components of the mirrored normal, the third one up to its sign, so
normals along the XY plane are right; the position is mirrored and scaled. -/
theorem sourceVertex_normal_partial [Field F] [DecidableEq F] [FloatOps F] (s h : F)
    (bones : List (Bone F)) (o : Object F) (c : Nat × Vec2 F) (w : MmdVertex F)
    (hw : sourceVertex s h bones o c = some w) (ns : List (Vec3 F)) (n v : Vec3 F)
    (hns : o.smoothNormals = some ns) (hn : ns[c.1]? = some n) (hv : o.vertexes[c.1]? = some v) :
    w.pos = ⟨v.x * s, v.y * s, -v.z * s⟩ ∧ w.normal.x = n.x ∧ w.normal.y = n.y ∧ w.normal.z ^ 2 = (-n.z) ^ 2 ∧
      (n.z = 0 → w.normal = ⟨n.x, n.y, -n.z⟩) := by
  simp only [sourceVertex, hns, Option.bind_eq_bind, Option.bind_eq_some_iff, Option.pure_def,
    Option.some.injEq] at hw
  obtain ⟨_, rfl, p, hp, n', hn', rfl⟩ := hw
  rw [hn] at hn'
  obtain rfl := Option.some.inj hn'
  rw [hv] at hp
  obtain rfl := Option.some.inj hp
  refine ⟨?_, rfl, rfl, by simp, ?_⟩
  · simp only [mqoToMmdVec]
    ext <;> ring
  · intro hz
    simp only [hz, neg_zero]
    ext <;> simp [hz]

/-! ## C79 -/

section
variable [Sub F] [Mul F] [One F] [Neg F] [Zero F] [DecidableEq F]

/-- A morph entry is right in X and Y and has no Z: it belongs to a vertex made from vertex `v` of the
base object, and the offset is the difference to vertex `v` of the target object. -/
def EntrySound (s : F) (objects : List (Object F)) (lists : List MorphTargetList)
    (vs : List (MmdVertex F)) (name : Str) (e : Nat × Vec3 F) : Prop :=
  ∃ o ∈ objects, ∃ t ∈ objects, t.name = name ∧
    (∃ l ∈ lists, l.base = o.name ∧ ∃ x ∈ l.target, x.name = name) ∧
    ∃ (v : Nat) (p q : Vec3 F), o.vertexes[v]? = some p ∧ t.vertexes[v]? = some q ∧
      vs[e.1]?.map (·.pos) = some (mqoToMmdVec s p) ∧
      e.2 = ⟨(mqoToMmdVec s q).x - (mqoToMmdVec s p).x, (mqoToMmdVec s q).y - (mqoToMmdVec s p).y, 0⟩

def MorphsSound (s : F) (objects : List (Object F)) (lists : List MorphTargetList)
    (vs : List (MmdVertex F)) (morphs : List (Str × List (Nat × Vec3 F))) : Prop :=
  ∀ m ∈ morphs, ∀ e ∈ m.2, EntrySound s objects lists vs m.1 e

theorem MorphsSound.mono {s : F} {objects : List (Object F)} {lists : List MorphTargetList}
    {vs vs' : List (MmdVertex F)} {morphs : List (Str × List (Nat × Vec3 F))}
    (h : MorphsSound s objects lists vs morphs)
    (hp : ∀ (k : Nat) p, vs[k]?.map (·.pos) = some p → vs'[k]?.map (·.pos) = some p) :
    MorphsSound s objects lists vs' morphs := by
  intro m hm e he
  obtain ⟨o, ho, t, ht, hn, hl, v, p, q, h1, h2, h3, h4⟩ := h m hm e he
  exact ⟨o, ho, t, ht, hn, hl, v, p, q, h1, h2, hp _ _ h3, h4⟩

omit [DecidableEq F] in
theorem objIndex_mem (objects : List (Object F)) (name : Str) (i : Nat) (t : Object F)
    (h : Mqo.objIndex objects name = some i) (ht : objects[i]? = some t) : t.name = name := by
  unfold Mqo.objIndex at h
  have := List.mem_of_getLast? h
  simp only [List.mem_map, List.mem_filter, decide_eq_true_eq] at this
  obtain ⟨⟨o, j⟩, ⟨h1, h2⟩, rfl⟩ := this
  rw [List.mem_zipIdx_iff_getElem?] at h1
  simp only at h1 h2 ht
  rw [ht] at h1
  rw [Option.some.inj h1]
  exact h2

theorem addMorphEntry_sound {s : F} {objects : List (Object F)} {lists : List MorphTargetList}
    {vs : List (MmdVertex F)} {morphs : List (Str × List (Nat × Vec3 F))} (name : Str)
    (e : Nat × Vec3 F) (h : MorphsSound s objects lists vs morphs)
    (he : EntrySound s objects lists vs name e) :
    MorphsSound s objects lists vs (addMorphEntry morphs name e) := by
  unfold addMorphEntry
  split
  · rename_i i hi
    have := List.mem_of_getLast? hi
    simp only [List.mem_map, List.mem_filter, decide_eq_true_eq] at this
    obtain ⟨⟨m0, j⟩, ⟨h1, h2⟩, rfl⟩ := this
    rw [List.mem_zipIdx_iff_getElem?] at h1
    simp only at h1 h2
    intro m hm e' he'
    obtain ⟨k, hk, ek⟩ := List.mem_iff_getElem.mp hm
    rw [List.getElem_modify] at ek
    split at ek
    · rename_i hkj
      subst hkj
      rw [List.length_modify] at hk
      have hm0 : morphs[j]'hk = m0 := by
        rw [List.getElem?_eq_getElem hk] at h1; exact Option.some.inj h1
      rw [hm0] at ek
      subst ek
      simp only at he'
      rcases List.mem_append.mp he' with h3 | h3
      · exact h m0 (List.mem_of_getElem? h1) e' h3
      · rw [List.mem_singleton.mp h3]
        simp only
        rw [h2]
        exact he
    · rw [← ek] at he' ⊢
      exact h _ (List.getElem_mem _) e' he'
  · exact h

theorem morphEntries_sound {s : F} {objects : List (Object F)} {lists : List MorphTargetList}
    {vs : List (MmdVertex F)} (o : Object F) (ho : o ∈ objects) (p : Vec3 F) (v id : Nat)
    (hp : o.vertexes[v]? = some p) (hid : vs[id]?.map (·.pos) = some (mqoToMmdVec s p))
    (targets : List Mqo.MorphTarget) (ht : ∀ t ∈ targets, ∃ l ∈ lists, l.base = o.name ∧ t ∈ l.target) :
    ∀ morphs : List (Str × List (Nat × Vec3 F)), MorphsSound s objects lists vs morphs →
    MorphsSound s objects lists vs
      (morphEntries s objects targets (mqoToMmdVec s p) v id morphs) := by
  induction targets with
  | nil => intro ms h; exact h
  | cons t ts ih =>
    intro ms h
    unfold morphEntries
    rw [List.foldl_cons]
    refine ih (fun t' h' => ht t' (by simp [h'])) _ ?_
    split
    · exact h
    · rename_i target htg
      split
      · exact h
      · rename_i q hq
        obtain ⟨i, h1, h2⟩ := Option.bind_eq_some_iff.mp htg
        obtain ⟨l, hl, hb, hx⟩ := ht t (by simp)
        exact addMorphEntry_sound _ _ h ⟨o, ho, target, List.mem_of_getElem? h2,
          objIndex_mem _ _ _ _ h1 h2, ⟨l, hl, hb, t, hx, rfl⟩, v, p, q, hp, hq, hid, rfl⟩

theorem mmdCorner_sound {s : F} {objects : List (Object F)} {lists : List MorphTargetList}
    (o : Object F) (ho : o ∈ objects) (targets : List Mqo.MorphTarget)
    (ht : ∀ t ∈ targets, ∃ l ∈ lists, l.base = o.name ∧ t ∈ l.target) (normals : List (Vec3 F))
    (uv : Vec2 F) (v : Nat) (out out' : MmdOut F) (maps maps' : CornerMaps F) (id : Nat)
    (h : MorphsSound s objects lists out.vertexes out.morphs)
    (he : mmdCorner s objects targets o normals uv v out maps = some (id, out', maps')) :
    MorphsSound s objects lists out'.vertexes out'.morphs := by
  unfold mmdCorner at he
  split at he
  · cases he; exact h
  · split at he
    · rename_i p n hp hn
      simp only [Option.some.injEq, Prod.mk.injEq] at he
      obtain ⟨-, rfl, -⟩ := he
      refine morphEntries_sound o ho p v _ hp (by simp) targets ht _ (h.mono ?_)
      intro k q hk
      cases hv : out.vertexes[k]? with
      | none => simp [hv] at hk
      | some x =>
        rw [List.getElem?_append_left (List.getElem?_eq_some_iff.mp hv).1]
        exact hk
    · cases he

theorem mmdCorners_sound {s : F} {objects : List (Object F)} {lists : List MorphTargetList}
    (o : Object F) (ho : o ∈ objects) (targets : List Mqo.MorphTarget)
    (ht : ∀ t ∈ targets, ∃ l ∈ lists, l.base = o.name ∧ t ∈ l.target) (normals : List (Vec3 F))
    (uvs : List (Vec2 F)) (vs : List Nat) : ∀ (i : Nat) (out out' : MmdOut F)
    (maps maps' : CornerMaps F) (ids : List Nat),
    MorphsSound s objects lists out.vertexes out.morphs →
    mmdCorners s objects targets o normals uvs i vs out maps = some (ids, out', maps') →
    MorphsSound s objects lists out'.vertexes out'.morphs := by
  induction vs with
  | nil => intro i out out' maps maps' ids h he; cases he; exact h
  | cons v vs ih =>
    intro i out out' maps maps' ids h he
    unfold mmdCorners at he
    split at he
    · cases he
    · rename_i e1
      split at he
      · cases he
      · rename_i e2
        cases he
        exact ih _ _ _ _ _ _ (mmdCorner_sound o ho targets ht normals _ v _ _ _ _ _ h e1) e2

theorem mmdFaces_sound {s : F} {objects : List (Object F)} {lists : List MorphTargetList}
    (o : Object F) (ho : o ∈ objects) (targets : List Mqo.MorphTarget)
    (ht : ∀ t ∈ targets, ∃ l ∈ lists, l.base = o.name ∧ t ∈ l.target) (normals : List (Vec3 F))
    (mi : Nat) (fs : List (Face F)) : ∀ (out out' : MmdOut F) (maps maps' : CornerMaps F),
    MorphsSound s objects lists out.vertexes out.morphs →
    mmdFaces s objects targets o normals mi fs out maps = some (out', maps') →
    MorphsSound s objects lists out'.vertexes out'.morphs := by
  induction fs with
  | nil => intro out out' maps maps' h he; cases he; exact h
  | cons f fs ih =>
    intro out out' maps maps' h he
    unfold mmdFaces at he
    split at he
    · exact ih _ _ _ _ h he
    · split at he
      · cases he
      · rename_i e1
        have := mmdCorners_sound o ho targets ht normals f.uvs f.verts 0 _ _ _ _ _ h e1
        refine ih _ _ _ _ ?_ he
        exact this

end

section
variable [Add F] [Sub F] [Mul F] [Div F] [One F] [Neg F] [Zero F] [DecidableEq F] [FloatOps F]

omit [Add F] [Sub F] [Mul F] [Div F] [One F] [Neg F] [Zero F] [DecidableEq F] [FloatOps F] in
theorem mem_targetsFor (lists : List MorphTargetList) (name : Str) (t : Mqo.MorphTarget)
    (h : t ∈ targetsFor lists name) : ∃ l ∈ lists, l.base = name ∧ t ∈ l.target := by
  unfold targetsFor at h
  split at h
  · rename_i m hm
    have := List.mem_of_getLast? hm
    simp only [List.mem_filter, decide_eq_true_eq] at this
    exact ⟨m, this.1, this.2, h⟩
  · simp at h

omit [Add F] [Sub F] [Mul F] [Div F] [One F] [Neg F] [Zero F] [DecidableEq F] [FloatOps F] in
theorem pushWeights_pos (es : List (Nat × F)) : ∀ v : MmdVertex F,
    (es.foldl pushWeight v).pos = v.pos := by
  induction es with
  | nil => intro v; rfl
  | cons e es ih =>
    intro v
    rw [List.foldl_cons, ih]
    unfold pushWeight
    split <;> rfl

theorem mmdObjects_sound (c : MmdCtx F) (mi : Nat) (os : List (Object F)) :
    ∀ (out out' : MmdOut F), (∀ o ∈ os, o ∈ c.objects) →
    (∀ o ∈ os, ∀ f ∈ o.faces, ∀ v ∈ f.verts, v < o.vertexes.length) →
    MorphsSound c.scale c.objects c.morphLists out.vertexes out.morphs →
    mmdObjects c mi os out = some out' →
    MorphsSound c.scale c.objects c.morphLists out'.vertexes out'.morphs := by
  induction os with
  | nil => intro out out' _ _ h he; cases he; exact h
  | cons o os ih =>
    intro out out' hos hv h he
    unfold mmdObjects at he
    split at he
    · obtain ⟨ns, hns, hnl⟩ := smoothNormals_length o (hv o (by simp))
      simp only [hns] at he
      obtain ⟨out1, maps, new1, e1, i1, p1, _, f1, m1⟩ := mmdFaces_spec c.scale c.objects
        (targetsFor c.morphLists o.name) o ns hnl out.vertexes.length mi o.faces out ⟨[], []⟩
        (hv o (by simp)) ⟨le_refl _, by simp, by simp⟩
      simp only [e1] at he
      have hnd : (maps.vmap.map (·.2)).Nodup := by rw [i1.ids]; exact List.nodup_range'
      refine ih _ _ (fun o h => hos o (by simp [h])) (fun o h => hv o (by simp [h])) ?_ he
      have h1 := mmdFaces_sound o (hos o (by simp)) (targetsFor c.morphLists o.name)
        (fun t ht => mem_targetsFor _ _ _ ht) ns mi o.faces out out1 ⟨[], []⟩ maps h e1
      refine h1.mono fun k p hk => ?_
      simp only
      rw [setWeights, setWeights_getElem? c.hundredth o maps.vmap hnd, Option.map_map]
      rw [← hk]
      congr 1
      funext v
      simp only [Function.comp]
      rw [pushWeights_pos]
    · exact ih _ _ (fun o h => hos o (by simp [h])) (fun o h => hv o (by simp [h])) h he

theorem mmdMaterials_sound (c : MmdCtx F)
    (hv : ∀ o ∈ c.objects, ∀ f ∈ o.faces, ∀ v ∈ f.verts, v < o.vertexes.length)
    (ms : List (Material F)) : ∀ (mi : Nat) (out out' : MmdOut F) (mats : List MmdMaterial),
    MorphsSound c.scale c.objects c.morphLists out.vertexes out.morphs →
    mmdMaterials c mi ms out = some (out', mats) →
    MorphsSound c.scale c.objects c.morphLists out'.vertexes out'.morphs := by
  induction ms with
  | nil => intro mi out out' mats h he; cases he; exact h
  | cons m ms ih =>
    intro mi out out' mats h he
    unfold mmdMaterials at he
    split at he
    · cases he
    · rename_i out1 e1
      split at he
      · cases he
      · rename_i e2
        cases he
        exact ih _ _ _ _ (mmdObjects_sound c mi c.objects out out1 (fun _ h => h) hv h e1) e2

/-- C79, the part that holds: every morph entry of the result belongs to a vertex made from a vertex of
the base object of the morph, and its X and Y are the difference to the same vertex of the target
object, converted. -/
theorem toMmd_morphs_partial (s h : F) (materials : List (Material F)) (objects : List (Object F))
    (bones : List (Bone F)) (lists : List MorphTargetList) (hv : ValidMqo objects)
    (out : MmdOut F) (mats : List MmdMaterial)
    (he : toMmd s h materials objects bones lists = some (out, mats)) :
    ∀ m ∈ out.morphs, ∀ e ∈ m.2,
      EntrySound s (Mqo.fixObjectIDs objects) lists out.vertexes m.1 e := by
  refine mmdMaterials_sound ⟨s, h, Mqo.fixObjectIDs objects, bones, lists⟩
    (validMqo_fixIDs objects hv) materials 0 _ out mats ?_ he
  intro m hm e he
  simp only [List.mem_flatMap, List.mem_map] at hm
  obtain ⟨_, _, _, _, rfl⟩ := hm
  simp at he

/-- C79 is false of the code: no morph entry ever moves a vertex along Z, whatever the target is. -/
theorem toMmd_morph_z_false (s h : F) (materials : List (Material F)) (objects : List (Object F))
    (bones : List (Bone F)) (lists : List MorphTargetList) (hv : ValidMqo objects)
    (out : MmdOut F) (mats : List MmdMaterial)
    (he : toMmd s h materials objects bones lists = some (out, mats)) :
    ∀ m ∈ out.morphs, ∀ e ∈ m.2, e.2.z = 0 := by
  intro m hm e he'
  obtain ⟨_, _, _, _, _, _, _, _, _, _, _, _, h4⟩ := toMmd_morphs_partial s h materials objects bones
    lists hv out mats he m hm e he'
  rw [h4]

end

/-! ## A document -/

/-- Integers with made-up comparisons, for examples only. -/
instance exampleOps : FloatOps Int := ⟨id, fun a b => decide (a < b), fun a b => decide (a ≤ b)⟩

def mqoMaterialSample (name : Str) : Material Int :=
  ⟨name, 0, ⟨1, 1, 1, 1⟩, 1, 1, 0, 0, 5, [], [], [], none, false, 0, none⟩

/-- A square and a triangle, two materials, one face without material; a morph that moves vertex 1
along X and Z; five bones on vertex 0. -/
def mqoSample : List (Object Int) × List (Bone Int) × List MorphTargetList :=
  let base : Object Int := { Mqo.newObject 59 ['a'] with
    vertexes := [⟨0, 0, 0⟩, ⟨1, 0, 0⟩, ⟨1, 1, 0⟩, ⟨0, 1, 0⟩]
    faces := [⟨0, [0, 1, 2, 3], 1, [], [some ⟨0, 0, 1⟩, some ⟨0, 0, 1⟩, some ⟨0, 0, 1⟩, some ⟨0, 0, 1⟩]⟩,
      ⟨0, [0, 1, 2], 0, [], [some ⟨0, 0, 1⟩, some ⟨0, 0, 1⟩, some ⟨0, 0, 1⟩]⟩,
      ⟨0, [0, 1, 2], -1, [], [some ⟨0, 0, 1⟩, some ⟨0, 0, 1⟩, some ⟨0, 0, 1⟩]⟩] }
  let target : Object Int := { Mqo.newObject 59 ['t'] with
    vertexes := [⟨0, 0, 0⟩, ⟨3, 0, 4⟩, ⟨1, 1, 0⟩, ⟨0, 1, 0⟩] }
  let bone (i : Int) : Bone Int := ⟨i, [], 0, 0, ⟨0, 0, 0⟩, 0, 0, 0, [], none, none, none,
    [⟨1, [⟨1, i⟩]⟩], [], ⟨0, 0, 0⟩⟩
  ([base, target], [bone 1, bone 2, bone 3, bone 4, bone 5], [⟨['a'], [⟨['t'], 0⟩]⟩])

def mqoSampleResult := toMmd 1 1 [mqoMaterialSample ['m'], mqoMaterialSample ['n']] mqoSample.1
  mqoSample.2.1 mqoSample.2.2

example : ValidMqo mqoSample.1 := by unfold ValidMqo; decide

/-- A corner of the square has a normal and a position. -/
example : (mqoSample.1[0]?).bind (fun o => (sourceVertex 2 1 mqoSample.2.1 o (2, ⟨0, 0⟩)).map fun w => (w.pos, w.normal)) =
    (mqoSample.1[0]?).bind (fun o => o.smoothNormals.bind fun ns => (ns[2]?).map fun n => (⟨2, 2, 0⟩, n)) ∧
    (mqoSample.1[0]?).bind (fun o => o.smoothNormals.map List.length) = some 4 := by decide +kernel

set_option maxRecDepth 4000 in
example : mqoSampleResult.map (fun r => (r.1.faces, r.2.map (·.count))) =
    some ([[0, 1, 2], [3, 4, 5], [3, 5, 6]], [3, 6]) := by decide

set_option maxRecDepth 4000 in
example : mqoSampleResult.map (fun r => r.1.vertexes.map fun v => v.bones) =
    some [[0, 1, 2, 3], [], [], [0, 1, 2, 3], [], [], []] := by decide

set_option maxRecDepth 4000 in
/-- Vertex 1 of the target is 4 away along Z; the entries for it have no Z. -/
example : mqoSampleResult.map (fun r => r.1.morphs) =
    some [(['t'], [(0, ⟨0, 0, 0⟩), (1, ⟨2, 0, 0⟩), (2, ⟨0, 0, 0⟩), (3, ⟨0, 0, 0⟩), (4, ⟨2, 0, 0⟩),
      (5, ⟨0, 0, 0⟩), (6, ⟨0, 0, 0⟩)])] := by decide

end Verif.Conv
