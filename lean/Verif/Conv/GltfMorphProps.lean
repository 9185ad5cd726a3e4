import Verif.Conv.GltfMorph
import Verif.Conv.GltfMeshProps
import Verif.Conv.GltfNodesProps
import Mathlib.Data.List.Induction

/-!
C185, C186: which objects, materials and morph targets the glTF export shows
(converter/mqo2gltf.go:745-929).
-/

namespace Verif.Conv

open Verif.Geom
open Verif.Mqo (Str Object Face Material MorphTargetList Replaces)

variable {F : Type}

/-- No morph names the object as its target and, without a hierarchy, it is visible and has faces. -/
def Shown (ignoreHierarchy : Bool) (lists : List MorphTargetList) (o : Object F) : Prop :=
  (∀ l ∈ lists, ∀ t ∈ l.target, t.name ≠ o.name) ∧
  (ignoreHierarchy = true → o.visible = true ∧ o.faces ≠ [])

/-- The faces of the object have existing vertices, UVs at all or no corners, and no missing normal in a full
list of normals. -/
def GoodFaces (o : Object F) : Prop :=
  (∀ f ∈ o.faces, ∀ v ∈ f.verts, v < o.vertexes.length) ∧
  (∀ f ∈ o.faces, f.uvs = [] ∨ f.uvs.length = f.verts.length) ∧
  (∀ f ∈ o.faces, f.normals.length = f.verts.length → ∀ n ∈ f.normals, n ≠ none)

theorem target_iff (ignore : Bool) (lists : List MorphTargetList) (objects : List (Object F)) (o : Object F) :
    o ∈ targetObjects ignore lists objects ↔ o ∈ objects ∧ Shown ignore lists o := by
  unfold targetObjects Shown
  rw [List.mem_filter]
  refine and_congr_right fun _ => ?_
  rw [Bool.and_eq_true, and_comm]
  refine and_congr ?_ ?_
  · rw [Bool.not_eq_true', List.any_eq_false]
    refine forall_congr' fun l => forall_congr' fun _ => ?_
    rw [Bool.not_eq_true, List.any_eq_false]
    refine forall_congr' fun t => forall_congr' fun _ => ?_
    simp
  · cases ignore
    · simp
    · simp [List.length_pos_iff]

theorem used_iff (ignore : Bool) (lists : List MorphTargetList) (objects : List (Object F)) (i : Nat) :
    materialUsed (targetObjects ignore lists objects) i = true ↔
      ∃ o ∈ objects, o.visible = true ∧ (∀ l ∈ lists, ∀ t ∈ l.target, t.name ≠ o.name) ∧
        ∃ f ∈ o.faces, f.material = (i : Int) := by
  unfold materialUsed
  rw [List.any_eq_true]
  constructor
  · rintro ⟨o, ho, h⟩
    obtain ⟨h1, h2⟩ := (target_iff ignore lists objects o).mp ho
    rw [Bool.and_eq_true, List.any_eq_true] at h
    obtain ⟨hv, f, hf, hm⟩ := h
    exact ⟨o, h1, hv, h2.1, f, hf, by simpa using hm⟩
  · rintro ⟨o, h1, hv, h2, f, hf, hm⟩
    refine ⟨o, (target_iff ignore lists objects o).mpr ⟨h1, h2, fun _ => ⟨hv, ?_⟩⟩, ?_⟩
    · rintro e
      rw [e] at hf
      simp at hf
    · rw [Bool.and_eq_true, List.any_eq_true]
      exact ⟨hv, f, hf, by simpa using hm⟩

theorem ignoredName_iff (name : Str) : ignoredName name = true ↔
    "$IGNORE".toList <:+ name ∨ "$MORPH:".toList <+: name := by
  unfold ignoredName
  rw [Bool.or_eq_true, List.isSuffixOf_iff_suffix, List.isPrefixOf_iff_prefix]
  rfl

/-- C185. The exported materials are those of the faces of visible objects that are no morph targets, in
order, without the ignored ones. -/
theorem export_materials (ignore : Bool) (lists : List MorphTargetList) (objects : List (Object F))
    (ms : List (Material F)) :
    (exportedMaterials (materialUsed (targetObjects ignore lists objects)) ms).Pairwise (· < ·) ∧
    ∀ i, i ∈ exportedMaterials (materialUsed (targetObjects ignore lists objects)) ms ↔
      ∃ m, ms[i]? = some m ∧ ¬ "$IGNORE".toList <:+ m.name ∧ ¬ "$MORPH:".toList <+: m.name ∧
        ∃ o ∈ objects, o.visible = true ∧ (∀ l ∈ lists, ∀ t ∈ l.target, t.name ≠ o.name) ∧
          ∃ f ∈ o.faces, f.material = (i : Int) := by
  refine ⟨List.Pairwise.filter _ List.pairwise_lt_range, ?_⟩
  intro i
  unfold exportedMaterials
  rw [List.mem_filter, List.mem_range]
  constructor
  · rintro ⟨hi, h⟩
    have hm : ms[i]? = some ms[i] := List.getElem?_eq_getElem hi
    rw [(materialMap_spec _ ms i _ hm).1, Bool.and_eq_true, used_iff, Bool.not_eq_true', ← Bool.not_eq_true,
      ignoredName_iff, not_or] at h
    exact ⟨_, hm, h.2.1, h.2.2, h.1⟩
  · rintro ⟨m, hm, h1, h2, h3⟩
    refine ⟨(List.getElem?_eq_some_iff.mp hm).1, ?_⟩
    rw [(materialMap_spec _ ms i _ hm).1, Bool.and_eq_true, used_iff, Bool.not_eq_true', ← Bool.not_eq_true,
      ignoredName_iff, not_or]
    exact ⟨h3, h1, h2⟩

theorem Forall₂_mem_right {α β : Type} {R : α → β → Prop} {l : List α} {r : List β} (h : List.Forall₂ R l r)
    (b : β) (hb : b ∈ r) : ∃ a ∈ l, R a b := by
  induction h with
  | nil => simp at hb
  | cons h _ ih =>
    rcases List.mem_cons.mp hb with rfl | hb
    · exact ⟨_, by simp, h⟩
    · obtain ⟨a, ha, h⟩ := ih hb
      exact ⟨a, by simp [ha], h⟩

theorem Forall₂_mem_left {α β : Type} {R : α → β → Prop} {l : List α} {r : List β} (h : List.Forall₂ R l r)
    (a : α) (ha : a ∈ l) : ∃ b ∈ r, R a b := by
  induction h with
  | nil => simp at ha
  | cons h _ ih =>
    rcases List.mem_cons.mp ha with rfl | ha
    · exact ⟨_, by simp, h⟩
    · obtain ⟨b, hb, h⟩ := ih ha
      exact ⟨b, by simp [hb], h⟩

/-- The materials of the triangles that replace the faces are those of the faces with at least three
corners. -/
theorem replaced_materials {fs' : List (Face F)} {fs : List (Face F)} {gss : List (List (Face F))}
    (h1 : List.Forall₂ (fun f f' => f'.normals.length = f'.verts.length ∧ { f' with normals := f.normals } = f)
      fs fs') (h2 : List.Forall₂ Replaces fs' gss) (i : Int) :
    (∃ g ∈ gss.flatten, g.material = i) ↔ ∃ f ∈ fs, 3 ≤ f.verts.length ∧ f.material = i := by
  have key : ∀ (f' : Face F) (gs : List (Face F)), Replaces f' gs → ((∃ g ∈ gs, g.material = i) ↔ 3 ≤ f'.verts.length ∧ f'.material = i) := by
    intro f' gs hr
    rcases hr with ⟨e, rfl⟩ | ⟨_, hl, ts, ht, _⟩
    · simp [e]
    · constructor
      · rintro ⟨g, hg, e⟩
        obtain ⟨t, _, hto⟩ := Forall₂_mem_right ht g hg
        have : 0 < gs.length := List.length_pos_of_mem hg
        exact ⟨by omega, by rw [← hto.material]; exact e⟩
      · rintro ⟨h3, e⟩
        have hg : 0 < gs.length := by omega
        obtain ⟨t, _, hto⟩ := Forall₂_mem_right ht _ (List.getElem_mem hg)
        exact ⟨_, List.getElem_mem hg, by rw [hto.material]; exact e⟩
  constructor
  · rintro ⟨g, hg, e⟩
    obtain ⟨gs, hgs, hgm⟩ := List.mem_flatten.mp hg
    obtain ⟨f', hf', hr⟩ := Forall₂_mem_right h2 gs hgs
    obtain ⟨f, hf, _, he⟩ := Forall₂_mem_right h1 f' hf'
    have := (key f' gs hr).mp ⟨g, hgm, e⟩
    exact ⟨f, hf, by rw [← he]; exact this⟩
  · rintro ⟨f, hf, e⟩
    obtain ⟨f', hf', _, he⟩ := Forall₂_mem_left h1 f hf
    obtain ⟨gs, hgs, hr⟩ := Forall₂_mem_left h2 f' hf'
    obtain ⟨g, hg, e'⟩ := (key f' gs hr).mpr (by rw [← he] at e; exact e)
    exact ⟨g, List.mem_flatten.mpr ⟨gs, hgs, hg⟩, e'⟩

/-- The mesh of one object and the mesh it has to be. -/
theorem object_mesh (scale eps h : ℝ) (map : List (Int × Nat)) (o : Object ℝ) (ho : GoodFaces o) :
    ∃ m skin, ∃ o' : Object ℝ, convertObject scale eps h [] [] map o = some (m, []) ∧
      o'.vertexes = o.vertexes ∧ IsMeshOf scale eps false skin map o' m ∧
      ∀ k, k ∈ m.prims.map (·.1) ↔ ∃ f ∈ o.faces, 3 ≤ f.verts.length ∧ map.lookup f.material = some k := by
  obtain ⟨m, joints, skin, o', fs, gss, e, hw, h1, h2, h3, hm⟩ :=
    convertObject_spec scale eps h [] [] map o ho.1 ho.2.1 ho.2.2 (by simp [skinGroups])
  have hj : joints = [] := by
    simp only [getWeights, skinGroups, List.flatMap_nil, List.isEmpty_nil, if_true, Option.some.injEq,
      Prod.mk.injEq] at hw
    exact hw.1.symm
  subst hj
  refine ⟨m, skin, o', e, by rw [h3], by simpa using hm, ?_⟩
  intro k
  rw [hm.materialsUsed k, h3]
  constructor
  · rintro ⟨g, hg, hk⟩
    obtain ⟨f, hf, hl, he⟩ := (replaced_materials h1 h2 g.material).mp ⟨g, hg, rfl⟩
    exact ⟨f, hf, hl, by rw [he]; exact hk⟩
  · rintro ⟨f, hf, hl, hk⟩
    obtain ⟨g, hg, he⟩ := (replaced_materials h1 h2 f.material).mpr ⟨f, hf, hl, rfl⟩
    exact ⟨g, hg, by rw [he]; exact hk⟩

theorem getLast?_filter_mem {α : Type} (p : α → Bool) (l : List α) (a : α) (h : (l.filter p).getLast? = some a) :
    a ∈ l ∧ p a = true := List.mem_filter.mp (List.mem_of_getLast? h)

theorem getLast?_filter_isSome {α : Type} (p : α → Bool) (l : List α) (a : α) (ha : a ∈ l) (hp : p a = true) :
    ∃ b, (l.filter p).getLast? = some b ∧ b ∈ l ∧ p b = true := by
  cases e : (l.filter p).getLast? with
  | none =>
    rw [List.getLast?_eq_none_iff] at e
    have := List.mem_filter.mpr ⟨ha, hp⟩
    rw [e] at this
    simp at this
  | some b => exact ⟨b, rfl, getLast?_filter_mem p l b e⟩

theorem getLast?_filter_append {α : Type} (p : α → Bool) (a b : List α) (l : α) (hl : p l = true)
    (hb : ∀ x ∈ b, p x = false) : ((a ++ l :: b).filter p).getLast? = some l := by
  have : b.filter p = [] := List.filter_eq_nil_iff.mpr fun x hx => by simp [hb x hx]
  rw [List.filter_append, List.filter_cons_of_pos hl, this]
  simp

/-- Which objects the morph targets of `o` have to be: for every target of the last list with the name of
`o` an object with its name, as long as it has as many vertices as `o`. -/
def MorphsOf (convertMorph : Bool) (lists : List MorphTargetList) (objects : List (Object F)) (o : Object F)
    (ps : List (Object F)) : Prop :=
  (convertMorph = false → ps = []) ∧ ((∀ l ∈ lists, l.base ≠ o.name) → ps = []) ∧
  (convertMorph = true → ∀ a l b, lists = a ++ l :: b → l.base = o.name → (∀ l' ∈ b, l'.base ≠ o.name) →
    ∃ qs : List (Object F), List.Forall₂ (fun t q => q ∈ objects ∧ q.name = t.name) l.target qs ∧
      ps = qs.filter fun q => q.vertexes.length = o.vertexes.length)

theorem objectNamed_spec (objects : List (Object F)) (ts : List Mqo.MorphTarget)
    (h : ∀ t ∈ ts, ∃ p ∈ objects, p.name = t.name) :
    ∃ qs, ts.mapM (fun t : Mqo.MorphTarget => objectNamed objects t.name) = some qs ∧
      List.Forall₂ (fun t q => q ∈ objects ∧ q.name = t.name) ts qs := by
  refine Mqo.mapM_spec _ _ _ ?_
  intro t ht
  obtain ⟨p, hp, hn⟩ := h t ht
  obtain ⟨b, e, hb, hbn⟩ := getLast?_filter_isSome (fun o : Object F => decide (o.name = t.name)) objects p hp
    (by simpa using hn)
  exact ⟨b, e, hb, by simpa using hbn⟩

theorem gltfMorphs_spec (convertMorph : Bool) (lists : List MorphTargetList) (objects : List (Object F))
    (o : Object F) (hex : convertMorph = true → ∀ l ∈ lists, l.base = o.name → ∀ t ∈ l.target,
      ∃ p ∈ objects, p.name = t.name) :
    ∃ ps, gltfMorphs convertMorph lists objects o = some ps ∧
      (∀ p ∈ ps, p ∈ objects ∧ p.vertexes.length = o.vertexes.length) ∧
      MorphsOf convertMorph lists objects o ps := by
  unfold gltfMorphs
  split
  · rename_i hc
    split
    · rename_i hnone
      refine ⟨[], rfl, by simp, fun _ => rfl, fun _ => rfl, ?_⟩
      rintro _ a l b rfl hl hb
      unfold morphBase at hnone
      rw [getLast?_filter_append _ a b l (by simpa using hl) (by simpa using hb)] at hnone
      simp at hnone
    · rename_i l hl
      obtain ⟨hl1, hl2⟩ := getLast?_filter_mem _ _ _ hl
      obtain ⟨ps, e, hps⟩ := objectNamed_spec objects l.target (hex hc l hl1 (by simpa using hl2))
      rw [e]
      refine ⟨_, rfl, ?_, by simp [hc], ?_, ?_⟩
      · intro p hp
        obtain ⟨hp1, hp2⟩ := List.mem_filter.mp hp
        obtain ⟨t, _, hq⟩ := Forall₂_mem_right hps p hp1
        exact ⟨hq.1, by simpa using hp2⟩
      · intro hno
        exact absurd (by simpa using hl2) (hno l hl1)
      · rintro _ a l' b rfl hl' hb
        unfold morphBase at hl
        rw [getLast?_filter_append _ a b l' (by simpa using hl') (by simpa using hb)] at hl
        have := Option.some.inj hl
        subst this
        exact ⟨ps, hps, rfl⟩
  · rename_i hc
    exact ⟨[], rfl, by simp, fun _ => rfl, fun _ => rfl, fun h => absurd h hc⟩

/-- The offsets of a target move every vertex of the mesh to the target. -/
def Reaches (scale : ℝ) (m : GMesh ℝ) (target : List (Vec3 ℝ)) (ds : List (Vec3 ℝ)) : Prop :=
  ds.length = m.pos.length ∧
  ∀ (v i : Nat), m.src[v]? = some i → ∃ p d t, m.pos[v]? = some p ∧ ds[v]? = some d ∧ target[i]? = some t ∧
    p.add d = t.scale scale

theorem meshTargets_spec (scale eps : ℝ) (skin : List (VSkin ℝ)) (map : List (Int × Nat)) (o : Object ℝ)
    (m : GMesh ℝ) (hm : IsMeshOf scale eps false skin map o m) (ps : List (Object ℝ))
    (hps : ∀ p ∈ ps, p.vertexes.length = o.vertexes.length) :
    ∃ ts, meshTargets scale m ps = some ts ∧
      List.Forall₂ (fun p t => t.1 = p.name ∧ Reaches scale m p.vertexes t.2) ps ts := by
  refine Mqo.mapM_spec _ _ ps ?_
  intro p hp
  obtain ⟨ds, e, h⟩ := morphDeltas_spec scale eps false skin map o m hm p.vertexes (hps p hp)
  exact ⟨(p.name, ds), by simp only [e], rfl, h⟩

/-- What the node of an object has to be. -/
structure NodeOf (convertMorph : Bool) (scale : ℝ) (lists : List MorphTargetList) (objects : List (Object ℝ))
    (ms : List (Material ℝ)) (mats : List Nat) (o : Object ℝ)
    (n : Str × Option (GMesh ℝ × List (Str × List (Vec3 ℝ)))) : Prop where
  name : n.1 = o.name
  hidden : o.visible = false → n.2 = none
  mesh : o.visible = true → ∃ m ts, n.2 = some (m, ts) ∧
    (∀ k ∈ m.prims.map (·.1), ∃ i : Nat, mats[k]? = some i ∧
      ∃ f ∈ o.faces, 3 ≤ f.verts.length ∧ f.material = (i : Int)) ∧
    (∀ f ∈ o.faces, 3 ≤ f.verts.length → ∀ i mat, f.material = ((i : Nat) : Int) → ms[i]? = some mat →
      ¬ "$IGNORE".toList <:+ mat.name → ¬ "$MORPH:".toList <+: mat.name →
      ∃ k ∈ m.prims.map (·.1), mats[k]? = some i) ∧
    (∃ ps, MorphsOf convertMorph lists objects o ps ∧
      List.Forall₂ (fun p t => t.1 = p.name ∧ Reaches scale m p.vertexes t.2) ps ts)

open Classical in
/-- C185. A document whose objects have proper faces and whose morphs name existing objects is exported
without a panic. The nodes are the objects that are no morph targets, in order; with the hierarchy ignored only
the visible ones with faces. Hidden objects have no mesh; the primitives of the others are the materials of their
faces with at least three corners. -/
theorem export_nodes (scale eps h : ℝ) (ignore convertMorph : Bool) (lists : List MorphTargetList)
    (objects : List (Object ℝ)) (ms : List (Material ℝ))
    (hf : ∀ o ∈ objects, GoodFaces o)
    (hex : convertMorph = true → ∀ o ∈ objects, ∀ l ∈ lists, l.base = o.name → ∀ t ∈ l.target,
      ∃ p ∈ objects, p.name = t.name) :
    ∃ nodes mats, exportShapes scale eps h ignore convertMorph lists objects ms = some (nodes, mats) ∧
      mats = exportedMaterials (materialUsed (targetObjects ignore lists objects)) ms ∧
      List.Forall₂ (NodeOf convertMorph scale lists objects ms mats)
        (objects.filter fun o => decide (Shown ignore lists o)) nodes := by
  have hfil : targetObjects ignore lists objects = objects.filter fun o => decide (Shown ignore lists o) := by
    unfold targetObjects
    apply List.filter_congr
    intro o ho
    have := target_iff ignore lists [o] o
    unfold targetObjects at this
    rw [List.mem_filter] at this
    simp only [List.mem_singleton, true_and] at this
    rw [Bool.eq_iff_iff, this, decide_eq_true_iff]
  unfold exportShapes
  simp only
  generalize hmats : exportedMaterials (materialUsed (targetObjects ignore lists objects)) ms = mats
  have hstep : ∀ o ∈ targetObjects ignore lists objects, ∃ n,
      exportNode scale eps h convertMorph lists objects
        (materialMap (materialUsed (targetObjects ignore lists objects)) ms) o = some n ∧
      NodeOf convertMorph scale lists objects ms mats o n := by
    intro o ho
    have hoo := ((target_iff ignore lists objects o).mp ho)
    obtain ⟨ps, e1, hps, hmo⟩ := gltfMorphs_spec convertMorph lists objects o (fun hc l hl hb =>
      hex hc o hoo.1 l hl hb)
    obtain ⟨m, skin, o', e2, hv, hm, hprim⟩ := object_mesh scale eps h
      (materialMap (materialUsed (targetObjects ignore lists objects)) ms) o (hf o hoo.1)
    obtain ⟨ts, e3, hts⟩ := meshTargets_spec scale eps skin _ o' m hm ps (by
      intro p hp
      rw [hv]
      exact (hps p hp).2)
    simp only [exportNode, e1, e2, e3]
    cases hvis : o.visible with
    | false => exact ⟨_, rfl, rfl, fun _ => rfl, by simp [hvis]⟩
    | true =>
      refine ⟨_, rfl, rfl, by simp [hvis], fun _ => ⟨m, ts, rfl, ?_, ?_, ps, hmo, hts⟩⟩
      · intro k hk
        obtain ⟨f, hfm, h3, hl⟩ := (hprim k).mp hk
        by_cases hr : f.material < 0 ∨ (ms.length : Int) ≤ f.material
        · rw [materialMap_unknown _ ms _ hr] at hl
          simp at hl
        · rw [not_or, not_lt, not_le] at hr
          obtain ⟨i, hi⟩ := Int.eq_ofNat_of_zero_le hr.1
          have hil : i < ms.length := by omega
          rw [hi] at hl
          refine ⟨i, ?_, f, hfm, h3, hi⟩
          rw [← hmats]
          exact (materialMap_spec _ ms i _ (List.getElem?_eq_getElem hil)).2 k hl
      · intro f hfm h3 i mat hi hmat hn1 hn2
        have hspec := materialMap_spec (materialUsed (targetObjects ignore lists objects)) ms i mat hmat
        have hsome : ((materialMap (materialUsed (targetObjects ignore lists objects)) ms).lookup (i : Int)).isSome
            = true := by
          rw [hspec.1, Bool.and_eq_true, used_iff, Bool.not_eq_true', ← Bool.not_eq_true, ignoredName_iff, not_or]
          exact ⟨⟨o, hoo.1, hvis, hoo.2.1, f, hfm, hi⟩, hn1, hn2⟩
        obtain ⟨k, hk⟩ := Option.isSome_iff_exists.mp hsome
        refine ⟨k, (hprim k).mpr ⟨f, hfm, h3, by rw [hi]; exact hk⟩, ?_⟩
        rw [← hmats]
        exact hspec.2 k hk
  obtain ⟨nodes, e, hn⟩ := Mqo.mapM_spec _ _ _ hstep
  rw [e]
  rw [hfil] at hn
  exact ⟨nodes, mats, rfl, rfl, hn⟩

/-- The nodes of an export, one for every exported object. -/
theorem exportShapes_inv [Add F] [Sub F] [Mul F] [Div F] [Zero F] [One F] [FloatOps F] (scale eps h : F)
    (ignore convertMorph : Bool) (lists : List MorphTargetList) (objects : List (Object F))
    (ms : List (Material F)) (nodes) (mats : List Nat)
    (he : exportShapes scale eps h ignore convertMorph lists objects ms = some (nodes, mats)) :
    ∀ n ∈ nodes, ∃ o ∈ objects, Shown ignore lists o ∧ n.1 = o.name ∧ ∃ ps,
      gltfMorphs convertMorph lists objects o = some ps ∧
      ∀ m ts, n.2 = some (m, ts) → ∀ t ∈ ts, ∃ p ∈ ps, t.1 = p.name := by
  have hmapM : ∀ {α β : Type} (f : α → Option β) (l : List α) (r : List β), l.mapM f = some r →
      List.Forall₂ (fun a b => f a = some b) l r := by
    intro α β f l
    induction l with
    | nil => intro r h; simp at h; subst h; exact .nil
    | cons a l ih =>
      intro r h
      rw [List.mapM_cons] at h
      cases e1 : f a with
      | none => rw [e1] at h; simp at h
      | some b =>
        rw [e1] at h
        cases e2 : l.mapM f with
        | none => rw [e2] at h; simp at h
        | some r' =>
          rw [e2] at h
          simp at h
          subst h
          exact .cons e1 (ih r' e2)
  unfold exportShapes at he
  simp only at he
  split at he
  · simp at he
  · rename_i nodes' hn
    simp only [Option.some.injEq, Prod.mk.injEq] at he
    obtain ⟨rfl, _⟩ := he
    intro n hnm
    obtain ⟨o, ho, hs⟩ := Forall₂_mem_right (hmapM _ _ _ hn) n hnm
    obtain ⟨ho1, ho2⟩ := (target_iff ignore lists objects o).mp ho
    unfold exportNode at hs
    split at hs
    · simp at hs
    · rename_i ps hps
      refine ⟨o, ho1, ho2, ?_⟩
      split at hs
      · split at hs
        · simp at hs
        · split at hs
          · simp at hs
          · rename_i m j _ ts hts
            have := Option.some.inj hs
            subst this
            refine ⟨rfl, ps, hps, ?_⟩
            intro m' ts' e t ht
            simp only [Option.some.injEq, Prod.mk.injEq] at e
            obtain ⟨rfl, rfl⟩ := e
            obtain ⟨p, hp, he⟩ := Forall₂_mem_right (hmapM _ _ _ hts) t ht
            split at he
            · simp at he
            · have := Option.some.inj he
              subst this
              exact ⟨p, hp, rfl⟩
      · have := Option.some.inj hs
        subst this
        exact ⟨rfl, ps, hps, by simp⟩

/-- C186. An object that a morph names as its target gets lost if every list that names it is followed by
another list with the same base or has a base that no object is called: no node and no morph target of a mesh
has its name. -/
theorem morph_lost_false [Add F] [Sub F] [Mul F] [Div F] [Zero F] [One F] [FloatOps F] (scale eps h : F)
    (ignore convertMorph : Bool) (lists : List MorphTargetList) (objects : List (Object F))
    (ms : List (Material F)) (nodes) (mats : List Nat) (name : Str)
    (ht : ∃ l ∈ lists, ∃ t ∈ l.target, t.name = name)
    (hl : ∀ a l b, lists = a ++ l :: b → (∃ t ∈ l.target, t.name = name) →
      (∃ l' ∈ b, l'.base = l.base) ∨ ∀ o ∈ objects, o.name ≠ l.base)
    (he : exportShapes scale eps h ignore convertMorph lists objects ms = some (nodes, mats)) :
    ∀ n ∈ nodes, n.1 ≠ name ∧ ∀ m ts, n.2 = some (m, ts) → ∀ t ∈ ts, t.1 ≠ name := by
  intro n hn
  obtain ⟨o, ho, hs, e, ps, hps, hts⟩ := exportShapes_inv scale eps h ignore convertMorph lists objects ms nodes
    mats he n hn
  constructor
  · obtain ⟨l, hl, t, htm, htn⟩ := ht
    rw [e, ← htn]
    exact fun e' => hs.1 l hl t htm e'.symm
  · intro m ts hm t htt heq
    obtain ⟨p, hp, hpn⟩ := hts m ts hm t htt
    unfold gltfMorphs at hps
    split at hps
    · split at hps
      · have := Option.some.inj hps
        subst this
        simp at hp
      · rename_i l hlast
        split at hps
        · simp at hps
        · rename_i qs hqs
          have := Option.some.inj hps
          subst this
          obtain ⟨hp1, _⟩ := List.mem_filter.mp hp
          have hq : ∃ t ∈ l.target, t.name = name := by
            have : ∀ (ts : List Mqo.MorphTarget) (qs : List (Object F)),
                ts.mapM (fun t : Mqo.MorphTarget => objectNamed objects t.name) = some qs → ∀ q ∈ qs,
                ∃ t ∈ ts, t.name = q.name := by
              intro ts
              induction ts with
              | nil => intro qs h q hq; simp at h; subst h; simp at hq
              | cons a ts ih =>
                intro qs h q hq
                rw [List.mapM_cons] at h
                cases e1 : objectNamed objects a.name with
                | none => rw [e1] at h; simp at h
                | some b =>
                  rw [e1] at h
                  cases e2 : ts.mapM (fun t : Mqo.MorphTarget => objectNamed objects t.name) with
                  | none => rw [e2] at h; simp at h
                  | some r' =>
                    rw [e2] at h
                    simp at h
                    subst h
                    rcases List.mem_cons.mp hq with rfl | hq
                    · have := (getLast?_filter_mem _ _ _ e1).2
                      exact ⟨a, by simp, by simpa using (Eq.comm.mp (by simpa using this))⟩
                    · obtain ⟨t, ht, h⟩ := ih r' e2 q hq
                      exact ⟨t, by simp [ht], h⟩
            obtain ⟨t', ht', hn'⟩ := this l.target qs hqs p hp1
            exact ⟨t', ht', by rw [hn', ← hpn, heq]⟩
          unfold morphBase at hlast
          obtain ⟨hl1, hl2⟩ := getLast?_filter_mem _ _ _ hlast
          have hl2 : l.base = o.name := by simpa using hl2
          -- the last list with this base
          have hsplit : ∀ (lists : List MorphTargetList),
              (lists.filter fun l => decide (l.base = o.name)).getLast? = some l →
              ∃ a b, lists = a ++ l :: b ∧ ∀ l' ∈ b, l'.base ≠ o.name := by
            intro lists
            induction lists using List.reverseRecOn with
            | nil => simp
            | append_singleton xs x ih =>
              intro h
              rw [List.filter_append] at h
              by_cases hx : x.base = o.name
              · rw [List.filter_cons_of_pos (by simpa using hx)] at h
                simp at h
                subst h
                exact ⟨xs, [], rfl, by simp⟩
              · rw [List.filter_cons_of_neg (by simpa using hx)] at h
                simp only [List.filter_nil, List.append_nil] at h
                obtain ⟨a, b, rfl, hb⟩ := ih h
                refine ⟨a, b ++ [x], by simp, ?_⟩
                intro l' hl'
                rcases List.mem_append.mp hl' with h | h
                · exact hb l' h
                · simp at h; subst h; exact hx
          obtain ⟨a, b, hab, hb⟩ := hsplit lists hlast
          rcases hl a l b hab hq with ⟨l', hl', hbase⟩ | hno
          · exact hb l' hl' (hbase.trans hl2)
          · exact hno o ho hl2.symm
    · have := Option.some.inj hps
      subst this
      simp at hp

/-- C186. A morph target that no object is called makes the export panic. -/
theorem morph_missing_false [Add F] [Sub F] [Mul F] [Div F] [Zero F] [One F] [FloatOps F] (scale eps h : F)
    (ignore : Bool) (a b : List MorphTargetList) (l : MorphTargetList) (objects : List (Object F))
    (ms : List (Material F)) (o : Object F) (ho : o ∈ objects) (hs : Shown ignore (a ++ l :: b) o)
    (hl : l.base = o.name) (hb : ∀ l' ∈ b, l'.base ≠ o.name)
    (t : Mqo.MorphTarget) (ht : t ∈ l.target) (hno : ∀ p ∈ objects, p.name ≠ t.name) :
    exportShapes scale eps h ignore true (a ++ l :: b) objects ms = none := by
  have hmapM : ∀ {α β : Type} (f : α → Option β) (l : List α) (a : α), a ∈ l → f a = none → l.mapM f = none := by
    intro α β f l
    induction l with
    | nil => intro a ha; simp at ha
    | cons x l ih =>
      intro a ha h
      rw [List.mapM_cons]
      rcases List.mem_cons.mp ha with rfl | ha
      · rw [h]; rfl
      · rw [ih a ha h]
        cases f x <;> rfl
  unfold exportShapes
  simp only
  rw [hmapM _ _ o ((target_iff ignore (a ++ l :: b) objects o).mpr ⟨ho, hs⟩)]
  have hnone : gltfMorphs true (a ++ l :: b) objects o = none := by
    unfold gltfMorphs morphBase
    rw [if_pos rfl, getLast?_filter_append _ a b l (by simpa using hl) (by simpa using hb)]
    simp only
    rw [hmapM _ _ t ht]
    unfold objectNamed
    have : objects.filter (fun p => decide (p.name = t.name)) = [] :=
      List.filter_eq_nil_iff.mpr fun p hp => by simpa using hno p hp
    rw [this]
    rfl
  unfold exportNode
  rw [hnone]

/-! ## Examples -/

section
local instance ratOpsMorph : FloatOps ℚ := ⟨id, fun a b => decide (a < b), fun a b => decide (a ≤ b)⟩

def shapeObject (name : Str) (visible : Bool) (z : F) [Zero F] [One F] (faces : List (Face F)) : Object F :=
  ⟨7, name, [⟨0, 0, z⟩, ⟨1, 0, z⟩, ⟨1, 1, z⟩, ⟨0, 1, z⟩], faces,
    visible, false, 0, false, 0, 0, 0, 0, 0, 0, none, none, none, none, [], none⟩

def shapeFace [Zero F] [One F] (verts : List Nat) (material : Int) : Face F :=
  ⟨0, verts, material, [], verts.map fun _ => some ⟨0, 0, 1⟩⟩

def shapeMaterial [Zero F] [One F] (name : Str) : Material F :=
  ⟨name, 0, ⟨1, 1, 1, 1⟩, 1, 1, 0, 0, 1, [], [], [], none, false, 0, none⟩

/-- A face, its smile, a hidden object and a line. -/
def shapeObjects (F : Type) [Zero F] [One F] : List (Object F) :=
  [shapeObject "face".toList true 0 [shapeFace [0, 1, 2] 2, shapeFace [0, 1, 2, 3] 1, shapeFace [0, 2, 3] 3],
   shapeObject "smile".toList true 1 [shapeFace [0, 1, 2] 0],
   shapeObject "hidden".toList false 0 [shapeFace [0, 1, 2] 0],
   shapeObject "line".toList true 0 [shapeFace [0, 1] 4]]

def shapeMaterials (F : Type) [Zero F] [One F] : List (Material F) :=
  [shapeMaterial "a".toList, shapeMaterial "b".toList, shapeMaterial "c".toList,
   shapeMaterial "x$IGNORE".toList, shapeMaterial "d".toList]

def shapeLists : List MorphTargetList := [⟨"face".toList, [⟨"smile".toList, 0⟩]⟩]

def shapeExport (ignore convertMorph : Bool) (lists : List MorphTargetList) :=
  exportShapes (1 : ℚ) (1/100) (1/100) ignore convertMorph lists (shapeObjects ℚ) (shapeMaterials ℚ)

/-- The nodes of the export; material `d` is exported although no primitive has it. -/
example : ((shapeExport false true shapeLists).map fun r => r.1.map fun n => (n.1, n.2.map fun x => x.2.map (·.1))) =
      some [("face".toList, some ["smile".toList]), ("hidden".toList, none), ("line".toList, some [])] ∧
    ((shapeExport false true shapeLists).map fun r => r.1.map fun n => n.2.map fun x => x.1.prims.map (·.1)) =
      some [some [1, 0], none, some []] ∧
    ((shapeExport false true shapeLists).map fun r => r.2) = some [1, 2, 4] :=
  ⟨by decide +kernel, by decide +kernel, by decide +kernel⟩

/-- Without a hierarchy the hidden object is no node. -/
example : ((shapeExport true false shapeLists).map fun r => r.1.map fun n => (n.1, n.2.map fun x => x.2.map (·.1))) =
      some [("face".toList, some []), ("line".toList, some [])] ∧
    ((shapeExport true false shapeLists).map fun r => r.2) = some [1, 2, 4] :=
  ⟨by decide +kernel, by decide +kernel⟩

/-- The hypotheses of `export_nodes`. -/
example : (∀ o ∈ shapeObjects ℝ, GoodFaces o) ∧
    (∀ o ∈ shapeObjects ℝ, ∀ l ∈ shapeLists, l.base = o.name → ∀ t ∈ l.target,
      ∃ p ∈ shapeObjects ℝ, p.name = t.name) := by
  constructor
  · simp [shapeObjects, GoodFaces, shapeObject, shapeFace]
  · intro o _ l hl _ t ht
    simp only [shapeLists, List.mem_singleton] at hl
    subst hl
    simp only [List.mem_singleton] at ht
    subst ht
    exact ⟨_, by simp only [shapeObjects, List.mem_cons]; exact .inr (.inl rfl), rfl⟩

/-- C185. A material that only faces with two corners have is exported, but no primitive uses it. -/
theorem unused_material_false :
    ∃ nodes mats, exportShapes (1 : ℚ) (1/100) (1/100) false true shapeLists (shapeObjects ℚ) (shapeMaterials ℚ) =
      some (nodes, mats) ∧ mats[2]? = some 4 ∧ ∀ n ∈ nodes, ∀ x, n.2 = some x → 2 ∉ x.1.prims.map (·.1) := by
  have h1 : ((shapeExport false true shapeLists).map fun r => r.1.map fun n => n.2.map fun x => x.1.prims.map (·.1)) =
      some [some [1, 0], none, some []] := by decide +kernel
  have h2 : ((shapeExport false true shapeLists).map fun r => r.2) = some [1, 2, 4] := by decide +kernel
  unfold shapeExport at h1 h2
  cases e : exportShapes (1 : ℚ) (1/100) (1/100) false true shapeLists (shapeObjects ℚ) (shapeMaterials ℚ) with
  | none => rw [e] at h2; simp at h2
  | some r =>
    rw [e] at h1 h2
    simp only [Option.map_some, Option.some.injEq] at h1 h2
    refine ⟨r.1, r.2, rfl, by rw [h2]; rfl, ?_⟩
    intro n hn x hx
    have : (n.2.map fun x => x.1.prims.map (·.1)) ∈ [some [1, 0], none, some []] := by
      rw [← h1]
      exact List.mem_map_of_mem hn
    rw [hx] at this
    simp only [Option.map_some, List.mem_cons, Option.some.injEq, reduceCtorEq, List.not_mem_nil, or_false,
      false_or] at this
    rcases this with e | e <;> simp [e]

/-- The hypotheses of `morph_lost_false`: two lists with the same base. -/
def twiceLists : List MorphTargetList :=
  [⟨"face".toList, [⟨"smile".toList, 0⟩]⟩, ⟨"face".toList, [⟨"hidden".toList, 0⟩]⟩]

example : (∃ l ∈ twiceLists, ∃ t ∈ l.target, t.name = "smile".toList) ∧
    (∀ a l b, twiceLists = a ++ l :: b → (∃ t ∈ l.target, t.name = "smile".toList) →
      (∃ l' ∈ b, l'.base = l.base) ∨ ∀ o ∈ shapeObjects ℚ, o.name ≠ l.base) ∧
    ((exportShapes (1 : ℚ) (1/100) (1/100) false true twiceLists (shapeObjects ℚ) (shapeMaterials ℚ)).map
      fun r => r.1.map fun n => (n.1, n.2.map fun x => x.2.map (·.1))) =
      some [("face".toList, some ["hidden".toList]), ("line".toList, some [])] := by
  refine ⟨⟨_, .head _, _, .head _, rfl⟩, ?_, by decide +kernel⟩
  intro a l b h ⟨t, ht, hn⟩
  left
  match a with
  | [] =>
    simp only [twiceLists, List.nil_append, List.cons.injEq] at h
    obtain ⟨rfl, rfl⟩ := h
    exact ⟨_, .head _, rfl⟩
  | [x] =>
    simp only [twiceLists, List.cons_append, List.nil_append, List.cons.injEq] at h
    obtain ⟨_, rfl, rfl⟩ := h
    simp only [List.mem_singleton] at ht
    subst ht
    exact absurd hn (by decide)
  | x :: y :: z =>
    simp [twiceLists] at h

/-- The hypotheses of `morph_missing_false`. -/
example : exportShapes (1 : ℚ) (1/100) (1/100) false true [⟨"face".toList, [⟨"frown".toList, 0⟩]⟩]
    (shapeObjects ℚ) (shapeMaterials ℚ) = none :=
  morph_missing_false 1 _ _ false [] [] ⟨"face".toList, [⟨"frown".toList, 0⟩]⟩ (shapeObjects ℚ) _
    (shapeObject "face".toList true 0
      [shapeFace [0, 1, 2] 2, shapeFace [0, 1, 2, 3] 1, shapeFace [0, 2, 3] 3]) (by simp [shapeObjects])
    (by refine ⟨?_, by simp⟩; simp [shapeObject]) rfl (by simp) ⟨"frown".toList, 0⟩ (by simp)
    (by simp [shapeObjects, shapeObject])

end

end Verif.Conv
