import Verif.Conv.FbxLinkLemmas

/-!
C179: an FBX file is converted to the objects that its nodes and connections describe.
C180: the meshes of an FBX file stand where the connections put them.
-/

namespace Verif.Conv

open Verif.Geom
open Verif.Mqo (Str Object Face MorphTargetList)
open Verif.Mmd (Bytes)
open Verif.Fbx hiding Conv
open Verif.Fbx.FDoc

variable {F : Type}

section

variable [CommRing F]

/-! ## The document that the converter sees -/

theorem sceneOf_fields (env : FbxEnv F) (d : FDoc) (sc : FScene F) (h : env.sceneOf d = some sc) :
    sc.scene = 0 ∧ sc.count = d.objs.length ∧ sc.materialCount = d.materials.length ∧
      (∃ a, env.axes d.raw = some a ∧ coordMatrix a = some sc.coord) ∧
      (∀ k, k < d.objs.length → env.modelOf d k = some (sc.model k)) ∧
      ∀ k, d.objs.length ≤ k → sc.model k = .nothing := by
  unfold FbxEnv.sceneOf at h
  simp only [Option.bind_eq_bind, Option.bind_eq_some_iff, Option.some.injEq] at h
  obtain ⟨a, ha, coord, hc, models, hm, rfl⟩ := h
  have hf := mapM_forall₂ _ _ _ hm
  have hl : models.length = d.objs.length := by rw [← hf.length_eq, List.length_range]
  refine ⟨rfl, rfl, rfl, ⟨a, ha, hc⟩, ?_, ?_⟩
  · intro k hk
    have hk2 : k < models.length := by omega
    have := List.Forall₂.get hf (i := k) (by simpa using hk) hk2
    simp only [List.get_eq_getElem, List.getElem_range] at this
    rw [this]
    simp [List.getD, hk2]
  · intro k hk
    simp [List.getD, List.getElem?_eq_none (by omega : models.length ≤ k)]

theorem model_fields (env : FbxEnv F) (d : FDoc) (k : Nat) (m : FModel F) (h : env.modelOf d k = some m)
    (hm : d.isModel k = true) :
    m.name = env.name (d.node k) ∧ (m.limb = true ↔ IsLimb (d.node k)) ∧ env.matrix d.raw (d.node k) = some m.matrix ∧
      m.parent = d.parent k ∧ m.children = d.childModels k ∧ m.geometry = env.meshOf d k ∧
      m.materials = (d.findRefs k b! "Material").map fun o => d.materials.idxOf o := by
  unfold FbxEnv.modelOf at h
  rw [if_pos hm] at h
  simp only [Option.bind_eq_bind, Option.bind_eq_some_iff, Option.some.injEq] at h
  obtain ⟨mat, h1, p, h2, rfl⟩ := h
  exact ⟨rfl, by simp [IsLimb], h1, rfl, rfl, rfl, rfl⟩

theorem model_nothing (env : FbxEnv F) (d : FDoc) (k : Nat) (m : FModel F) (h : env.modelOf d k = some m)
    (hm : ¬ d.isModel k = true) : m = .nothing := by
  unfold FbxEnv.modelOf at h
  rw [if_neg hm] at h
  exact (Option.some.inj h).symm

end

section

variable [CommRing F] (env : FbxEnv F) (root : Node) (hv : versionOf root ≠ 6100) (hn : DistinctIDs root) (sc : FScene F)
  (hs : env.sceneOf (build root) = some sc)
include hv hn hs

theorem child_iff (m c : Nat) : c ∈ (sc.model m).children ↔
    m < (build root).objs.length ∧ FileModel root ((build root).node m) ∧ c < (build root).objs.length ∧
      FileModel root ((build root).node c) ∧ FileLink root ((build root).node m) ((build root).node c) := by
  obtain ⟨-, -, -, -, hmod, hno⟩ := sceneOf_fields env _ sc hs
  by_cases hm : m < (build root).objs.length
  · by_cases hi : (build root).isModel m = true
    · obtain ⟨-, -, -, -, hch, -, -⟩ := model_fields env _ m _ (hmod m hm) hi
      rw [hch, mem_childModels root hv hn m c hm]
      exact ⟨fun h => ⟨hm, (isModel_iff root hv hn m hm).1 hi, h⟩, fun h => h.2.2⟩
    · have := model_nothing env _ m _ (hmod m hm) hi
      rw [this]
      constructor
      · intro h; simp [FModel.nothing] at h
      · intro h; exact absurd ((isModel_iff root hv hn m hm).2 h.2.1) hi
  · rw [hno m (by omega)]
    constructor
    · intro h; simp [FModel.nothing] at h
    · intro h; exact absurd h.1 hm

theorem limb_iff (k : Nat) (hk : k < (build root).objs.length) (hm : FileModel root ((build root).node k)) :
    (sc.model k).limb = true ↔ IsLimb ((build root).node k) := by
  obtain ⟨-, -, -, -, hmod, -⟩ := sceneOf_fields env _ sc hs
  exact (model_fields env _ k _ (hmod k hk) ((isModel_iff root hv hn k hk).2 hm)).2.1

theorem geometry_file (k : Nat) (hk : k < (build root).objs.length) (hm : FileModel root ((build root).node k)) :
    (fileMesh root ((build root).node k) = none ∧ (sc.model k).geometry = none) ∨
    ∃ g ds, fileMesh root ((build root).node k) = some g ∧ (sc.model k).geometry = some (env.geometry g ds) := by
  obtain ⟨-, -, -, -, hmod, -⟩ := sceneOf_fields env _ sc hs
  have hg := (model_fields env _ k _ (hmod k hk) ((isModel_iff root hv hn k hk).2 hm)).2.2.2.2.2.1
  unfold FbxEnv.meshOf at hg
  rw [ownGeometry_false root hv] at hg
  simp only [Bool.false_eq_true, if_false] at hg
  have hmn := mesh_node root hv hn k hk
  cases hh : ((build root).findRefs k b! "Geometry").head? with
  | none =>
    rw [hh] at hg hmn
    exact .inl ⟨hmn.symm, hg⟩
  | some g =>
    rw [hh] at hg hmn
    exact .inr ⟨_, _, hmn.symm, hg⟩

theorem below_file (a b : Nat) (h : Below sc a b) : a < (build root).objs.length → FileModel root ((build root).node a) →
    b < (build root).objs.length ∧ FileModel root ((build root).node b) ∧
      FileBelow root ((build root).node a) ((build root).node b) := by
  induction h with
  | self m => exact fun h1 h2 => ⟨h1, h2, .self _⟩
  | down m c x hc _ ih =>
    intro h1 h2
    obtain ⟨-, -, hc1, hc2, hl⟩ := (child_iff env root hv hn sc hs m c).1 hc
    obtain ⟨h3, h4, h5⟩ := ih hc1 hc2
    exact ⟨h3, h4, .down _ _ _ hc2 hl h5⟩

theorem file_below (n y : Node) (h : FileBelow root n y) : ∀ a, a < (build root).objs.length → (build root).node a = n →
    FileModel root n → ∃ b, b < (build root).objs.length ∧ (build root).node b = y ∧ FileModel root y ∧ Below sc a b := by
  induction h with
  | self m => exact fun a h1 h2 h3 => ⟨a, h1, h2, h3, .self _⟩
  | down m c x hc hl _ ih =>
    intro a h1 h2 h3
    obtain ⟨k, hk, hkc⟩ := node_surj root hv c hc.mem
    obtain ⟨b, h4, h5, h6, h7⟩ := ih k hk hkc hc
    refine ⟨b, h4, h5, h6, .down _ k _ ?_ h7⟩
    exact (child_iff env root hv hn sc hs a k).2 ⟨h1, by rw [h2]; exact h3, hk, by rw [hkc]; exact hc, by rw [h2, hkc]; exact hl⟩

theorem top_file (opt : FOptions F) (c : Nat) : TopModel sc opt c ↔ c < (build root).objs.length ∧
    FileModel root ((build root).node c) ∧ FileLink root sceneNode ((build root).node c) ∧
    (opt.wholeNode = true ∨ ¬ IsLimb ((build root).node c) ∧
      ∃ y, FileBelow root ((build root).node c) y ∧ (fileMesh root y).isSome = true) := by
  have h0 := (sceneOf_fields env _ sc hs).1
  have h00 : FileModel root ((build root).node 0) := .inl (node_zero root hv)
  have hz : 0 < (build root).objs.length := by rw [objs_eq root hv]; simp
  unfold TopModel
  rw [h0, child_iff env root hv hn sc hs, node_zero root hv]
  have key : ∀ hk : c < (build root).objs.length, FileModel root ((build root).node c) →
      ((opt.wholeNode = true ∨ (sc.model c).limb = false ∧ ∃ y g, Below sc c y ∧ (sc.model y).geometry = some g) ↔
      (opt.wholeNode = true ∨ ¬ IsLimb ((build root).node c) ∧
        ∃ y, FileBelow root ((build root).node c) y ∧ (fileMesh root y).isSome = true)) := by
    intro hk hm
    have hl := limb_iff env root hv hn sc hs c hk hm
    rw [← Bool.not_eq_true, hl]
    refine or_congr Iff.rfl (and_congr Iff.rfl ?_)
    constructor
    · rintro ⟨y, g, hy, hg⟩
      obtain ⟨h1, h2, h3⟩ := below_file env root hv hn sc hs c y hy hk hm
      refine ⟨_, h3, ?_⟩
      rcases geometry_file env root hv hn sc hs y h1 h2 with ⟨-, h5⟩ | ⟨g', ds, h5, -⟩
      · rw [h5] at hg; simp at hg
      · rw [h5]; rfl
    · rintro ⟨y, hy, hg⟩
      obtain ⟨b, h1, h2, h3, h4⟩ := file_below env root hv hn sc hs _ y hy c hk rfl hm
      rcases geometry_file env root hv hn sc hs b h1 (by rw [h2]; exact h3) with ⟨h5, -⟩ | ⟨g', ds, -, h5⟩
      · rw [h2] at h5; rw [h5] at hg; simp at hg
      · exact ⟨b, _, h4, h5⟩
  constructor
  · rintro ⟨⟨-, -, h1, h2, h3⟩, h4⟩
    exact ⟨h1, h2, h3, (key h1 h2).1 h4⟩
  · rintro ⟨h1, h2, h3, h4⟩
    exact ⟨⟨hz, .inl rfl, h1, h2, h3⟩, (key h1 h2).2 h4⟩

theorem kept_iff (opt : FOptions F) (m c : Nat) : c ∈ keptChildren sc opt m ↔
    m < (build root).objs.length ∧ FileModel root ((build root).node m) ∧ c < (build root).objs.length ∧
      FileModel root ((build root).node c) ∧ FileLink root ((build root).node m) ((build root).node c) ∧
      (opt.wholeNode = true ∨ ¬ IsLimb ((build root).node c)) := by
  unfold keptChildren
  rw [List.mem_filter, child_iff env root hv hn sc hs]
  constructor
  · rintro ⟨⟨h1, h2, h3, h4, h5⟩, h6⟩
    refine ⟨h1, h2, h3, h4, h5, ?_⟩
    rw [Bool.or_eq_true, Bool.not_eq_true', ← Bool.not_eq_true, limb_iff env root hv hn sc hs c h3 h4] at h6
    exact h6
  · rintro ⟨h1, h2, h3, h4, h5, h6⟩
    refine ⟨⟨h1, h2, h3, h4, h5⟩, ?_⟩
    rw [Bool.or_eq_true, Bool.not_eq_true', ← Bool.not_eq_true, limb_iff env root hv hn sc hs c h3 h4]
    exact h6

omit hv hn hs in
theorem KeptBelow.snoc (opt : FOptions F) {m p x : Nat} (h : KeptBelow sc opt m p) (hx : x ∈ keptChildren sc opt p) :
    KeptBelow sc opt m x := by
  induction h with
  | self m => exact .down _ _ _ hx (.self _)
  | down m c p hc _ ih => exact .down _ _ _ hc (ih hx)

/-- The models that the converter takes are those that the file says. -/
theorem converted_iff (opt : FOptions F) (x : Nat) : Converted sc opt x ↔ x < (build root).objs.length ∧
    FileConverted root opt ((build root).node x) := by
  constructor
  · rintro ⟨c, hc, hk⟩
    obtain ⟨h1, h2, h3, h4⟩ := (top_file env root hv hn sc hs opt c).1 hc
    have hfc : FileConverted root opt ((build root).node c) := .top _ h2 h3 h4
    clear hc h2 h3 h4
    induction hk with
    | self m => exact ⟨h1, hfc⟩
    | down m c x hc _ ih =>
      obtain ⟨-, -, k1, k2, k3, k4⟩ := (kept_iff env root hv hn sc hs opt m c).1 hc
      exact ih k1 (.down _ _ hfc k2 k3 k4)
  · rintro ⟨hx, h⟩
    have key : ∀ n, FileConverted root opt n → ∀ x, x < (build root).objs.length → (build root).node x = n →
        FileModel root n ∧ Converted sc opt x := by
      intro n h
      induction h with
      | top n h1 h2 h3 =>
        intro x hx e
        subst e
        exact ⟨h1, x, (top_file env root hv hn sc hs opt x).2 ⟨hx, h1, h2, h3⟩, .self _⟩
      | down p n _ h1 h2 h3 ih =>
        intro x hx e
        subst e
        rename_i hp
        have hpm : FileModel root p := by
          cases hp with
          | top _ a _ _ => exact a
          | down _ _ _ a _ _ => exact a
        obtain ⟨k, hk, rfl⟩ := node_surj root hv p hpm.mem
        obtain ⟨-, c, hc, hkb⟩ := ih k hk rfl
        exact ⟨h1, c, hc, hkb.snoc _ opt ((kept_iff env root hv hn sc hs opt k x).2 ⟨hk, hpm, hx, h1, h2, h3⟩)⟩
    exact (key _ h x hx rfl).2

end

/-! ## C179 -/

/-- What the new objects, tagged with the nodes of the models they come from, have to be according to the
file. -/
structure FileTreeOk (env : FbxEnv F) (root : Node) (opt : FOptions F) (tagged : List (Option Node × Object F)) : Prop where
  /-- the models with an object are those that the file says -/
  models : ∀ n, (∃ o, (some n, o) ∈ tagged) ↔ FileConverted root opt n
  /-- an object has the name of its model and is visible -/
  object : ∀ n o, (some n, o) ∈ tagged →
    o.name = trimSuffix (trimPrefix (env.name n) "Model::".toList) "::Model".toList ∧ o.visible = true
  /-- the object of a model comes after that of the model it is connected to, one deeper, and nothing between
  them is less deep -/
  child : ∀ A n o B, tagged = A ++ (some n, o) :: B →
    (FileLink root sceneNode n ∧ o.depth = opt.objectDepth) ∨
    ∃ A1 p op M, A = A1 ++ (some p, op) :: M ∧ FileLink root p n ∧ o.depth = op.depth + 1 ∧
      ∀ e ∈ M, o.depth ≤ e.2.depth
  /-- shapes are hidden and follow the object of their model -/
  shape : ∀ A o B, tagged = A ++ (none, o) :: B → ∃ A1 p op M, A = A1 ++ (some p, op) :: M ∧
    (∀ e ∈ M, e.1 = none) ∧ o.depth = op.depth + 1 ∧ o.visible = false
  /-- a model without mesh has no faces -/
  noMesh : ∀ n o, (some n, o) ∈ tagged → fileMesh root n = none → o.vertexes = [] ∧ o.faces = []
  /-- a model with a mesh has one vertex for each vertex of the file and one face for each polygon, the corners in
  reverse order -/
  mesh : ∀ n o g, (some n, o) ∈ tagged → fileMesh root n = some g →
    o.vertexes.length = (geometryInit env.cv g).vertices.length ∧
    o.faces.map Face.verts = (geometryInit env.cv g).polygons.map fun f => (f.map Int.toNat).reverse

theorem map_split {α β : Type} (f : α → β) : ∀ (l : List α) (A : List β) (b : β) (B : List β), l.map f = A ++ b :: B →
    ∃ A' a B', l = A' ++ a :: B' ∧ A'.map f = A ∧ f a = b ∧ B'.map f = B := by
  intro l A b B h
  obtain ⟨A', C, rfl, h1, h2⟩ := List.map_eq_append_iff.1 h
  obtain ⟨a, B', rfl, h3, h4⟩ := List.map_eq_cons_iff.1 h2
  exact ⟨A', a, B', rfl, h1, h3, h4⟩

variable [Field F] [DecidableEq F] [FloatOps F]

/-- A tag with the node of a model instead of its number. -/
def tagNode (root : Node) (p : Option Nat × Object F) : Option Node × Object F := (p.1.map (build root).node, p.2)

omit [Field F] [DecidableEq F] [FloatOps F] in
theorem mem_tagNode (root : Node) (tagged : List (Option Nat × Object F)) (n : Node) (o : Object F) :
    (some n, o) ∈ tagged.map (tagNode root) ↔ ∃ x, (some x, o) ∈ tagged ∧ (build root).node x = n := by
  rw [List.mem_map]
  constructor
  · rintro ⟨⟨x, o'⟩, h1, h2⟩
    simp only [tagNode, Prod.mk.injEq, Option.map_eq_some_iff] at h2
    obtain ⟨⟨y, rfl, h3⟩, rfl⟩ := h2
    exact ⟨y, h1, h3⟩
  · rintro ⟨x, h1, h2⟩
    exact ⟨_, h1, by simp [tagNode, h2]⟩

theorem file_tree_of_run (facet : F) (env : FbxEnv F) (root : Node) (hv : versionOf root ≠ 6100) (hn : DistinctIDs root)
    (sc : FScene F) (hs : env.sceneOf (build root) = some sc) (opt : FOptions F) (fuel base : Nat)
    (objects : List (Object F)) (morphs : List MorphTargetList) (ms : List Nat) (ls : List (List (Visit F)))
    (outs : List (Object F × List (Object F))) (order : List Nat) (st : FState F)
    (hms : wantedModels sc opt fuel (sc.model sc.scene).children = some ms)
    (hvis : List.Forall₂ (fun m l =>
      visits sc opt base fuel opt.objectDepth (sc.coord.mul (sc.model sc.scene).matrix) m = some l) ms ls)
    (hgrow : Grow facet sc opt ⟨objects, morphs, [], fun _ => none⟩ st ls.flatten outs [] order []) :
    (withBones st).objects = objects ++ (((ls.flatten.zip outs).flatMap tagOne).map (tagNode root)).map Prod.snd ∧
      FileTreeOk env root opt (((ls.flatten.zip outs).flatMap tagOne).map (tagNode root)) := by
  obtain ⟨h1, h2⟩ := tree_of_run facet sc opt fuel base objects morphs ms ls outs order st hms hvis hgrow
  set tg := (ls.flatten.zip outs).flatMap tagOne with htg
  have hin : ∀ x o, (some x, o) ∈ tg → x < (build root).objs.length ∧ FileModel root ((build root).node x) := by
    intro x o hx
    have := (converted_iff env root hv hn sc hs opt x).1 ((h2.models x).1 ⟨o, hx⟩)
    refine ⟨this.1, ?_⟩
    cases this.2 with
    | top _ a _ _ => exact a
    | down _ _ _ a _ _ => exact a
  have hmod := (sceneOf_fields env _ sc hs).2.2.2.2.1
  have hok : ∀ x o, (some x, o) ∈ tg → ∃ v k shapes, v.model = x ∧ OneOk facet sc opt v k o shapes := by
    intro x o ho
    obtain ⟨z, hz, rfl, rfl⟩ := (mem_tagged _ x o).1 ho
    obtain ⟨k, _, hok⟩ := hgrow.made.mem z hz
    exact ⟨_, k, _, rfl, hok⟩
  refine ⟨?_, ?_, ?_, ?_, ?_, ?_, ?_⟩
  · rw [h1, List.map_map]
    rfl
  · intro n
    constructor
    · rintro ⟨o, ho⟩
      obtain ⟨x, hx, rfl⟩ := (mem_tagNode root tg n o).1 ho
      exact ((converted_iff env root hv hn sc hs opt x).1 ((h2.models x).1 ⟨o, hx⟩)).2
    · intro hc
      have hm : FileModel root n := by
        cases hc with
        | top _ a _ _ => exact a
        | down _ _ _ a _ _ => exact a
      obtain ⟨x, hx, rfl⟩ := node_surj root hv n hm.mem
      obtain ⟨o, ho⟩ := (h2.models x).2 ((converted_iff env root hv hn sc hs opt x).2 ⟨hx, hc⟩)
      exact ⟨o, (mem_tagNode root tg _ o).2 ⟨x, ho, rfl⟩⟩
  · intro n o ho
    obtain ⟨x, hx, rfl⟩ := (mem_tagNode root tg n o).1 ho
    obtain ⟨hl, hm⟩ := hin x o hx
    have hname := (model_fields env _ x _ (hmod x hl) ((isModel_iff root hv hn x hl).2 hm)).1
    rw [← hname]
    exact h2.object x o hx
  · intro A n o B he
    obtain ⟨A', a, B', e1, e2, e3, e4⟩ := map_split _ _ _ _ _ he
    obtain ⟨x, o'⟩ := a
    simp only [tagNode, Prod.mk.injEq, Option.map_eq_some_iff] at e3
    obtain ⟨⟨y, rfl, rfl⟩, rfl⟩ := e3
    rcases h2.child A' y o' B' e1 with ⟨h3, h4⟩ | ⟨A1, p, op, M, h3, h4, h5, h6⟩
    · left
      rw [(sceneOf_fields env _ sc hs).1, child_iff env root hv hn sc hs, node_zero root hv] at h3
      exact ⟨h3.2.2.2.2, h4⟩
    · right
      rw [child_iff env root hv hn sc hs] at h4
      refine ⟨A1.map (tagNode root), (build root).node p, op, M.map (tagNode root), ?_, h4.2.2.2.2, h5, ?_⟩
      · rw [← e2, h3, List.map_append, List.map_cons]; rfl
      · intro e he
        obtain ⟨e', h7, rfl⟩ := List.mem_map.1 he
        exact h6 e' h7
  · intro A o B he
    obtain ⟨A', a, B', e1, e2, e3, e4⟩ := map_split _ _ _ _ _ he
    obtain ⟨x, o'⟩ := a
    simp only [tagNode, Prod.mk.injEq, Option.map_eq_none_iff] at e3
    obtain ⟨rfl, rfl⟩ := e3
    obtain ⟨A1, p, op, M, h3, h4, h5, h6, -, -⟩ := h2.shape A' o' B' e1
    refine ⟨A1.map (tagNode root), (build root).node p, op, M.map (tagNode root), ?_, ?_, h5, h6⟩
    · rw [← e2, h3, List.map_append, List.map_cons]; rfl
    · intro e he
      obtain ⟨e', h7, rfl⟩ := List.mem_map.1 he
      simp [tagNode, h4 e' h7]
  · intro n o ho hg
    obtain ⟨x, hx, rfl⟩ := (mem_tagNode root tg n o).1 ho
    obtain ⟨hl, hm⟩ := hin x o hx
    obtain ⟨v, k, shapes, rfl, hone⟩ := hok x o hx
    rcases geometry_file env root hv hn sc hs _ hl hm with ⟨-, h5⟩ | ⟨g', ds, h5, -⟩
    · have := (hone.empty h5).2
      rw [this]
      exact ⟨rfl, rfl⟩
    · rw [h5] at hg; simp at hg
  · intro n o g ho hg
    obtain ⟨x, hx, rfl⟩ := (mem_tagNode root tg n o).1 ho
    obtain ⟨hl, hm⟩ := hin x o hx
    obtain ⟨v, k, shapes, rfl, hone⟩ := hok x o hx
    rcases geometry_file env root hv hn sc hs _ hl hm with ⟨h5, -⟩ | ⟨g', ds, h5, h6⟩
    · rw [h5] at hg; simp at hg
    · rw [h5, Option.some.injEq] at hg
      subst hg
      obtain ⟨faces, hf, e, -⟩ := hone.mesh _ h6
      obtain ⟨hlen, hsp⟩ := fbxFaces_spec _ _ _ _ 0 0 faces hf
      rw [e]
      refine ⟨by simp [FbxEnv.geometry], ?_⟩
      have : faces.map Face.verts = (env.geometry g' ds).polygons.map List.reverse := by
        apply List.ext_getElem?
        intro j
        by_cases hj : j < (env.geometry g' ds).polygons.length
        · obtain ⟨face, ha, hb⟩ := hsp j _ (List.getElem?_eq_getElem hj)
          obtain ⟨_, _, _, _, _, hverts, _⟩ := fbxFace_spec _ _ _ _ _ _ _ hb
          simp [List.getElem?_map, ha, hverts, hj]
        · rw [List.getElem?_eq_none (by simp; omega), List.getElem?_eq_none (by simp; omega)]
      show faces.map Face.verts = _
      rw [this]
      simp [FbxEnv.geometry]

/-- C179. Loading a file whose objects have different ids and converting it gives, behind the objects that were
there, the objects that the nodes and connections of the file describe. -/
theorem objects_of_file (facet : F) (env : FbxEnv F) (root : Node) (hv : versionOf root ≠ 6100) (hn : DistinctIDs root)
    (sc : FScene F) (hs : env.sceneOf (build root) = some sc) (opt : FOptions F) (fuel base : Nat)
    (objects : List (Object F)) (morphs : List MorphTargetList) (r : FResult F) (ht : opt.targetModelName = [])
    (h : fbxConvert facet sc opt fuel base objects morphs = some r) :
    ∃ tagged, r.objects = objects ++ tagged.map Prod.snd ∧ FileTreeOk env root opt tagged := by
  obtain ⟨ms, ls, outs, order, st, hms, hvis, hgrow, rfl⟩ := fbxConvert_run facet sc opt fuel base objects morphs r ht h
  exact ⟨_, file_tree_of_run facet env root hv hn sc hs opt fuel base objects morphs ms ls outs order st hms hvis hgrow⟩

/-! ## C180 -/

/-- The models of a file form a tree: each model has at most one connection to a model, the scene none. -/
def FileTree (root : Node) : Prop :=
  (((fileConnections root).filter fun c =>
    decide (Used c ∧ linkFrom c ∈ modelIDs root ∧ linkTo c ∈ modelIDs root)).map linkFrom).Nodup ∧
  ∀ c ∈ fileConnections root, Used c → linkTo c ∈ modelIDs root → linkFrom c ≠ 0

/-- `FileWorld env root n w`: `w` is the product of the matrices of the models from the top of the file down to
`n`. -/
inductive FileWorld (env : FbxEnv F) (root : Node) : Node → Mat4 F → Prop
  | top (n : Node) : FileModel root n → (∀ p, FileModel root p → ¬ FileLink root p n) →
      FileWorld env root n (fileMatrix env root n)
  | step (p n : Node) (w : Mat4 F) : FileModel root p → FileModel root n → FileLink root p n → FileWorld env root p w →
      FileWorld env root n (w.mul (fileMatrix env root n))

omit [Field F] [DecidableEq F] [FloatOps F] in
theorem mem_modelIDs {root n : Node} (h : FileModel root n) : nodeID n ∈ modelIDs root := by
  unfold modelIDs
  rw [List.mem_cons]
  rcases h with rfl | ⟨h1, h2⟩
  · exact .inl rfl
  · exact .inr (List.mem_map.2 ⟨n, List.mem_filter.2 ⟨h1, by simp [h2]⟩, rfl⟩)

theorem eq_of_map_nodup {α β : Type} (f : α → β) (l : List α) (h : (l.map f).Nodup) (a b : α) (ha : a ∈ l) (hb : b ∈ l)
    (e : f a = f b) : a = b := List.inj_on_of_nodup_map h ha hb e

theorem filterMap_sublist_map {α β : Type} (g : α → Option β) (q : α → Bool) (f : α → β)
    (h : ∀ c v, g c = some v → q c = true ∧ v = f c) : ∀ l : List α,
    (l.filterMap g).Sublist ((l.filter q).map f) := by
  intro l
  induction l with
  | nil => exact .slnil
  | cons a l ih =>
    cases hg : g a with
    | none =>
      rw [List.filterMap_cons_none hg]
      by_cases hq : q a = true
      · rw [List.filter_cons_of_pos hq]; exact .cons _ ih
      · rw [List.filter_cons_of_neg hq]; exact ih
    | some v =>
      obtain ⟨h1, h2⟩ := h a v hg
      rw [List.filterMap_cons_some hg, List.filter_cons_of_pos h1, List.map_cons, h2]
      exact .cons_cons _ ih

section

variable (env : FbxEnv F) (root : Node) (hv : versionOf root ≠ 6100) (hn : DistinctIDs root) (sc : FScene F)
  (hs : env.sceneOf (build root) = some sc) (htree : FileTree root)
include hv hn hs

omit [DecidableEq F] [FloatOps F] in
theorem model_parent (k : Nat) (hk : k < (build root).objs.length) (hm : FileModel root ((build root).node k)) :
    (sc.model k).parent = (build root).parent k :=
  (model_fields env _ k _ ((sceneOf_fields env _ sc hs).2.2.2.2.1 k hk) ((isModel_iff root hv hn k hk).2 hm)).2.2.2.1

include htree

omit [DecidableEq F] [FloatOps F] in
theorem links_back (m c : Nat) (h : c ∈ (sc.model m).children) : (sc.model c).parent = some m := by
  obtain ⟨h1, h2, h3, h4, h5⟩ := (child_iff env root hv hn sc hs m c).1 h
  rw [model_parent env root hv hn sc hs c h3 h4]
  refine (tree_of_file root hv hn c m h3 ((isModel_iff root hv hn c h3).2 h4) h1 ((isModel_iff root hv hn m h1).2 h2) ?_).1
    ((mem_childModels root hv hn m c h1).2 ⟨h3, h4, h5⟩)
  intro a ha b hb ua ub fa fb ta tb
  have hc := mem_modelIDs h4
  have := eq_of_map_nodup linkFrom _ htree.1 a b (List.mem_filter.2 ⟨ha, by simp [ua, fa, hc, ta]⟩)
    (List.mem_filter.2 ⟨hb, by simp [ub, fb, hc, tb]⟩) (by rw [fa, fb])
  rw [this]

omit [DecidableEq F] [FloatOps F] in
theorem scene_top : (sc.model sc.scene).parent = none := by
  have h0 := (sceneOf_fields env _ sc hs).1
  have hz : 0 < (build root).objs.length := by rw [objs_eq root hv]; simp
  have hm : FileModel root ((build root).node 0) := .inl (node_zero root hv)
  rw [h0, model_parent env root hv hn sc hs 0 hz hm]
  have hp := parents_of_file root hv hn 0 hz
  rw [if_pos ((isModel_iff root hv hn 0 hz).2 hm)] at hp
  have he : ((fileConnections root).filter fun c => decide (Used c ∧ linkFrom c = nodeID ((build root).node 0) ∧
          linkTo c ∈ 0 :: ((fileObjects root).filter fun n => n.name == b! "Model").map nodeID)) = [] := by
    rw [List.filter_eq_nil_iff]
    intro c hc
    rw [decide_eq_true_eq, node_zero root hv]
    rintro ⟨h1, h2, h3⟩
    exact htree.2 c hc h1 h3 h2
  rw [he] at hp
  simpa using hp

omit [DecidableEq F] [FloatOps F] in
theorem children_nodup (m : Nat) : (sc.model m).children.Nodup := by
  obtain ⟨-, -, -, -, hmod, hno⟩ := sceneOf_fields env _ sc hs
  by_cases hm : m < (build root).objs.length
  · by_cases hi : (build root).isModel m = true
    · obtain ⟨-, -, -, -, hch, -, -⟩ := model_fields env _ m _ (hmod m hm) hi
      rw [hch]
      have hids : ((build root).childModels m).map (fun o => nodeID ((build root).node o)) =
          (fileConnections root).filterMap fun c => (((loadObjects root).childOf m c).filter (build root).isModel).map
            fun o => nodeID ((build root).node o) := by
        unfold childModels
        rw [build_refs root hv, List.filter_filterMap, List.map_filterMap]
      have hsub : (((build root).childModels m).map (fun o => nodeID ((build root).node o))).Sublist
          (((fileConnections root).filter fun c =>
            decide (Used c ∧ linkFrom c ∈ modelIDs root ∧ linkTo c ∈ modelIDs root)).map linkFrom) := by
        rw [hids]
        refine filterMap_sublist_map _ _ _ ?_ _
        intro c v hcv
        obtain ⟨o, ho, rfl⟩ := Option.map_eq_some_iff.1 hcv
        obtain ⟨h1, h2⟩ := Option.filter_eq_some_iff.1 ho
        obtain ⟨u, t, l, f⟩ := (childOf_some root hv hn m hm c o).1 h1
        refine ⟨?_, f.symm⟩
        rw [decide_eq_true_eq, f, t]
        exact ⟨u, mem_modelIDs ((isModel_iff root hv hn o l).1 h2), mem_modelIDs ((isModel_iff root hv hn m hm).1 hi)⟩
      exact (hsub.nodup htree.1).of_map _
    · rw [model_nothing env _ m _ (hmod m hm) hi]
      exact List.nodup_nil
  · rw [hno m (by omega)]
    exact List.nodup_nil

omit [DecidableEq F] [FloatOps F] in
theorem world_file (k : Nat) (w : Mat4 F) (h : World sc k w) : k < (build root).objs.length →
    FileModel root ((build root).node k) → FileWorld env root ((build root).node k) w := by
  have hraw : (build root).raw = root := (build_fields root hv).1
  have hmat : ∀ k, k < (build root).objs.length → FileModel root ((build root).node k) →
      (sc.model k).matrix = fileMatrix env root ((build root).node k) := by
    intro k hk hm
    have := (model_fields env _ k _ ((sceneOf_fields env _ sc hs).2.2.2.2.1 k hk) ((isModel_iff root hv hn k hk).2 hm)).2.2.1
    rw [hraw] at this
    exact matrix_file env root _ _ this
  induction h with
  | top m hp =>
    intro hk hm
    rw [hmat m hk hm]
    refine .top _ hm ?_
    intro p hpm hl
    obtain ⟨q, hq, rfl⟩ := node_surj root hv p hpm.mem
    have hc : m ∈ (sc.model q).children := (child_iff env root hv hn sc hs q m).2 ⟨hq, hpm, hk, hm, hl⟩
    rw [links_back env root hv hn sc hs htree q m hc] at hp
    simp at hp
  | step m p w hp _ ih =>
    intro hk hm
    have hq : (build root).parent m = some p := by rw [← model_parent env root hv hn sc hs m hk hm]; exact hp
    have hpar := parents_of_file root hv hn m hk
    rw [if_pos ((isModel_iff root hv hn m hk).2 hm), hq, Option.map_some] at hpar
    cases hl : ((fileConnections root).filter fun c => decide (Used c ∧ linkFrom c = nodeID ((build root).node m) ∧
        linkTo c ∈ 0 :: ((fileObjects root).filter fun n => n.name == b! "Model").map nodeID)).getLast? with
    | none => rw [hl] at hpar; simp at hpar
    | some e =>
      rw [hl] at hpar
      simp only [Option.map_some, Option.some.injEq] at hpar
      obtain ⟨he1, he2⟩ := List.mem_filter.1 (List.mem_of_getLast? hl)
      simp only [decide_eq_true_eq] at he2
      have hlink : FileLink root ((build root).node p) ((build root).node m) := ⟨e, he1, he2.1, hpar.symm, he2.2.1⟩
      have hpm : ∃ q, q < (build root).objs.length ∧ FileModel root ((build root).node q) ∧
          nodeID ((build root).node q) = nodeID ((build root).node p) := by
        rcases List.mem_cons.1 he2.2.2 with h0 | h0
        · exact ⟨0, by rw [objs_eq root hv]; simp, .inl (node_zero root hv), by rw [hpar, h0, node_zero root hv]; rfl⟩
        · obtain ⟨n, hn1, hn2⟩ := List.mem_map.1 h0
          obtain ⟨hn3, hn4⟩ := List.mem_filter.1 hn1
          obtain ⟨q, hq1, rfl⟩ := node_surj root hv n (List.mem_cons_of_mem _ hn3)
          exact ⟨q, hq1, .inr ⟨hn3, by simpa using hn4⟩, by rw [hn2, hpar]⟩
      obtain ⟨q, hq1, hq2, hq3⟩ := hpm
      have hl2 : FileLink root ((build root).node q) ((build root).node m) := ⟨e, he1, he2.1, by rw [hq3, hpar], he2.2.1⟩
      have hc : m ∈ (sc.model q).children := (child_iff env root hv hn sc hs q m).2 ⟨hq1, hq2, hk, hm, hl2⟩
      have hqp := links_back env root hv hn sc hs htree q m hc
      rw [hp, Option.some.injEq] at hqp
      subst hqp
      rw [hmat m hk hm]
      exact .step _ _ _ hq2 hm hl2 (ih hq1 hq2)

end

/-- C180. In a file whose models form a tree, each converted model has one object, and the vertices of its mesh
are those of the file, placed by the product of the matrices of the models above it and by the axes of the
file. -/
theorem vertices_of_file (facet : F) (env : FbxEnv F) (root : Node) (hv : versionOf root ≠ 6100) (hn : DistinctIDs root)
    (htree : FileTree root) (sc : FScene F) (hs : env.sceneOf (build root) = some sc) (opt : FOptions F) (fuel base : Nat)
    (objects : List (Object F)) (morphs : List MorphTargetList) (r : FResult F) (ht : opt.targetModelName = [])
    (hd : opt.objectDepth ≤ 0) (h : fbxConvert facet sc opt fuel base objects morphs = some r) :
    ∃ tagged coord, r.objects = objects ++ tagged.map Prod.snd ∧ FileTreeOk env root opt tagged ∧
      (tagged.filterMap Prod.fst).Nodup ∧ coordMatrix (fileAxes env root) = some coord ∧
      ∀ n o g, (some n, o) ∈ tagged → fileMesh root n = some g →
        ∃ w, FileWorld env root n w ∧
          o.vertexes = (geometryInit env.cv g).vertices.map fun v => (coord.mul w).applyTo (env.vec3 v) := by
  obtain ⟨ms, ls, outs, order, st, hms, hvis, hgrow, rfl⟩ := fbxConvert_run facet sc opt fuel base objects morphs r ht h
  obtain ⟨k1, k2⟩ := file_tree_of_run facet env root hv hn sc hs opt fuel base objects morphs ms ls outs order st hms hvis hgrow
  obtain ⟨-, h2⟩ := tree_of_run facet sc opt fuel base objects morphs ms ls outs order st hms hvis hgrow
  obtain ⟨-, -, -, ⟨a, ha, hc⟩, -, -⟩ := sceneOf_fields env _ sc hs
  rw [(build_fields root hv).1] at ha
  have hlt : ∀ x o, (some x, o) ∈ (ls.flatten.zip outs).flatMap tagOne →
      x < (build root).objs.length ∧ FileModel root ((build root).node x) := by
    intro x o hx
    have := (converted_iff env root hv hn sc hs opt x).1 ((h2.models x).1 ⟨o, hx⟩)
    refine ⟨this.1, ?_⟩
    cases this.2 with
    | top _ a _ _ => exact a
    | down _ _ _ a _ _ => exact a
  have hback := links_back env root hv hn sc hs htree
  have htop := scene_top env root hv hn sc hs htree
  refine ⟨_, sc.coord, k1, k2, ?_, by rw [← axes_file env root a ha]; exact hc, ?_⟩
  · have hnd := h2.once hback (children_nodup env root hv hn sc hs htree) htop
    have e : (((ls.flatten.zip outs).flatMap tagOne).map (tagNode root)).filterMap Prod.fst =
        (((ls.flatten.zip outs).flatMap tagOne).filterMap Prod.fst).map (build root).node := by
      rw [List.filterMap_map, List.map_filterMap]
      rfl
    rw [e]
    refine List.Nodup.map_on ?_ hnd
    intro x hx y hy hxy
    obtain ⟨⟨x', o⟩, hx1, hx2⟩ := List.mem_filterMap.1 hx
    obtain ⟨⟨y', o'⟩, hy1, hy2⟩ := List.mem_filterMap.1 hy
    simp only at hx2 hy2
    subst hx2; subst hy2
    exact node_inj root hv hn x y (hlt x o hx1).1 (hlt y o' hy1).1 hxy
  · intro n o g ho hg
    obtain ⟨x, hx, rfl⟩ := (mem_tagNode root _ n o).1 ho
    obtain ⟨hl, hm⟩ := hlt x o hx
    obtain ⟨z, hz, rfl, rfl⟩ := (mem_tagged _ x o).1 hx
    obtain ⟨k, _, hok⟩ := hgrow.made.mem z hz
    rcases geometry_file env root hv hn sc hs _ hl hm with ⟨h5, -⟩ | ⟨g', ds, h5, h6⟩
    · rw [h5] at hg; simp at hg
    · rw [h5, Option.some.injEq] at hg
      subst hg
      obtain ⟨faces, _, e, _⟩ := hok.mesh _ h6
      obtain ⟨l, hl', hvl⟩ := List.mem_flatten.1 (List.of_mem_zip (a := z.1) (b := z.2) hz).1
      obtain ⟨c, hcm, hcl⟩ := forall₂_mem_right hvis l hl'
      have hct := ((top_iff sc opt fuel ms hms c).1 hcm).1
      obtain ⟨w, hw, htr⟩ := visits_world sc opt base hd hback _ _ c sc.scene _ l (hback _ _ hct) (.top _ htop) hcl z.1 hvl
      refine ⟨w, world_file env root hv hn sc hs htree _ w hw hl hm, ?_⟩
      rw [e, ← htr]
      simp only [FbxEnv.geometry, List.map_map]
      rfl

end Verif.Conv
