import Verif.Conv.FbxLinkProps

/-!
C193: the bones, weights and shapes of an FBX file.
-/

namespace Verif.Conv

open Verif.Geom
open Verif.Mqo (Str Object Face Bone VertexWeight WeightGroup MorphTargetList)
open Verif.Mmd (Bytes)
open Verif.Fbx hiding Conv
open Verif.Fbx.FDoc

variable {F : Type}

/-! ## What a file says -/

/-- The objects of a type that the connections of a file put under an object, in the order of the connections. -/
def fileRefs (root n : Node) (typ : Bytes) : List Node :=
  (fileConnections root).filterMap fun c =>
    if Used c ∧ linkTo c = nodeID n then (fileObjects root).find? fun g => nodeID g == linkFrom c && g.name == typ else none

/-- The clusters and channels of a mesh: what is connected to the deformers connected to it. -/
def fileClusters (root g : Node) : List Node :=
  (fileRefs root g b! "Deformer").flatMap fun s => fileRefs root s b! "Deformer"

/-- The bone of a cluster: the first model connected to it. -/
def fileBone (root d : Node) : Option Node :=
  (fileConnections root).findSome? fun c =>
    if Used c ∧ linkTo c = nodeID d then
      (sceneNode :: (fileObjects root).filter fun m => m.name == b! "Model").find? fun m => nodeID m == linkFrom c
    else none

/-- A channel of shapes. -/
def IsChannel (d : Node) : Prop := toStr (attr (some d) 2) = b! "BlendShapeChannel"

instance (d : Node) : Decidable (IsChannel d) := by unfold IsChannel; infer_instance

/-- The vertices of a cluster with their weights. -/
def clusterIndexes (d : Node) : List Int := int32s (findChild (some d) b! "Indexes")
def clusterWeights (env : FbxEnv F) (d : Node) : List F := env.floats (findChild (some d) b! "Weights")

/-- The numbers of the vertices of the mesh `g` and the weights with which the file binds them to the model `n`. -/
def fileWeights (env : FbxEnv F) (root g n : Node) : List (Int × F) :=
  ((fileClusters root g).filter fun d => decide (¬ IsChannel d ∧ (fileBone root d).map nodeID = some (nodeID n) ∧
    (clusterWeights env d).length = (clusterIndexes d).length)).flatMap fun d =>
      (clusterIndexes d).zip (clusterWeights env d)

/-- The file binds a converted mesh with the cluster `d` to the model `m`. -/
def FileTarget (root : Node) (opt : FOptions F) (d m : Node) : Prop :=
  opt.disableBone = false ∧ ∃ x g, FileConverted root opt x ∧ fileMesh root x = some g ∧ d ∈ fileClusters root g ∧
    ¬ IsChannel d ∧ fileBone root d = some m

/-- `FileAbove root a m`: the model `a` is `m` or above it. -/
inductive FileAbove (root : Node) : Node → Node → Prop
  | self (m : Node) : FileAbove root m m
  | up (a b m : Node) : FileModel root a → FileLink root a b → FileAbove root b m → FileAbove root a m

/-- The bones have to be those that the file says; `order` are the nodes of their models. -/
structure FileBonesOk [Field F] (env : FbxEnv F) (root : Node) (opt : FOptions F) (coord : Mat4 F) (bones : List (Bone F))
    (order : List Node) : Prop where
  length : bones.length = order.length
  /-- one bone per model -/
  nodup : order.Nodup
  /-- the models with bones are those of the clusters and all above them, without the scene itself -/
  mem : ∀ n, n ∈ order ↔ n ≠ sceneNode ∧ ∃ d m, FileTarget root opt d m ∧ FileAbove root n m
  /-- bones are numbered from 1 -/
  id : ∀ (i : Nat) (b : Bone F), bones[i]? = some b → b.id = (i : Int) + 1
  name : ∀ (i : Nat) n b, order[i]? = some n → bones[i]? = some b → b.name = trimPrefix (env.name n) "Model::".toList
  /-- models at the top give bones without parent -/
  top : ∀ (i : Nat) n b, order[i]? = some n → bones[i]? = some b →
    (∀ p, FileModel root p → FileLink root p n → p = sceneNode) → b.parent = 0
  /-- the parent of a bone is the earlier bone of the model to which its model is connected -/
  parent : ∀ (i : Nat) n b, order[i]? = some n → bones[i]? = some b →
    ∀ p, FileModel root p → FileLink root p n → p ≠ sceneNode → ∃ j : Nat, j < i ∧ order[j]? = some p ∧ b.parent = (j : Int) + 1
  /-- a bone stands at the bind position of one of its clusters, or where its model stands -/
  pos : ∀ (i : Nat) n b, order[i]? = some n → bones[i]? = some b →
    (∃ d, FileTarget root opt d n ∧
      b.pos = (coord.mul (matrixOfList (env.floats (findChild (some d) b! "TransformLink")))).applyTo ⟨0, 0, 0⟩) ∨
    ((∀ d, ¬ FileTarget root opt d n) ∧ ∃ w, FileWorld env root n w ∧ b.pos = (coord.mul w).applyTo ⟨0, 0, 0⟩)

/-- A shape of a file: its name, its moved vertices and how far they move. -/
def fileShape (env : FbxEnv F) (n : Node) : FShape F where
  name := if 3 ≤ n.attrs.length then env.name n else env.text (toStr (attr (some n) 0))
  vertices := (vec3s (getFloat32Array env.cv (findChild (some n) b! "Vertices"))).map env.vec3
  indexes := int32s (findChild (some n) b! "Indexes")

/-- The shapes of the mesh `g`: those connected to the channels of the mesh, then those inside it. -/
def fileShapes (env : FbxEnv F) (root : Node) (opt : FOptions F) (g : Node) : List (FShape F) :=
  if opt.disableBlendShape then []
  else (((fileClusters root g).filter fun d => decide (IsChannel d)).flatMap fun d =>
      (fileRefs root d b! "Geometry").filter fun s => toStr (attr (some s) 2) == b! "Shape").map (fileShape env) ++
    (g.children.filter fun c => c.name == b! "Shape").map (fileShape env)

/-! ## Objects and nodes -/

section

variable (root : Node) (hv : versionOf root ≠ 6100) (hn : DistinctIDs root)
include hv hn

theorem link_node (P : Node → Bool) (k : Nat) (hk : k < (build root).objs.length) (c : Node) :
    (((loadObjects root).childOf k c).map (build root).node).filter P =
      if Used c ∧ linkTo c = nodeID ((build root).node k) then
        (sceneNode :: fileObjects root).find? fun g => nodeID g == linkFrom c && P g
      else none := by
  by_cases hc : Used c ∧ linkTo c = nodeID ((build root).node k)
  · rw [if_pos hc]
    cases h : (loadObjects root).childOf k c with
    | none =>
      symm
      rw [Option.map_none, Option.filter_none, List.find?_eq_none]
      intro g hg
      simp only [Bool.and_eq_true, beq_iff_eq, not_and]
      intro he
      exfalso
      obtain ⟨o, ho, hog⟩ := node_surj root hv g hg
      have := (childOf_some root hv hn k hk c o).2 ⟨hc.1, hc.2, ho, by rw [hog, he]⟩
      rw [h] at this
      simp at this
    | some o =>
      obtain ⟨-, -, ho, hf⟩ := (childOf_some root hv hn k hk c o).1 h
      have huniq : ∀ g ∈ sceneNode :: fileObjects root, nodeID g = linkFrom c → g = (build root).node o := by
        intro g hg he
        obtain ⟨o', ho', hog⟩ := node_surj root hv g hg
        have : o' = o := same_id root hv hn o' o ho' ho (by rw [hog, he, hf])
        rw [← hog, this]
      rw [Option.map_some, Option.filter_some]
      by_cases hP : P ((build root).node o) = true
      · rw [if_pos hP]
        symm
        cases hfd : (sceneNode :: fileObjects root).find? fun g => nodeID g == linkFrom c && P g with
        | none =>
          rw [List.find?_eq_none] at hfd
          have := hfd _ (node_mem root hv o ho)
          simp [hf, hP] at this
        | some g =>
          have h1 := List.mem_of_find?_eq_some hfd
          have h2 := List.find?_some hfd
          simp only [Bool.and_eq_true, beq_iff_eq] at h2
          rw [huniq g h1 h2.1]
      · rw [if_neg hP]
        symm
        rw [List.find?_eq_none]
        intro g hgm
        simp only [Bool.and_eq_true, beq_iff_eq, not_and]
        intro he
        rw [huniq g hgm he]
        exact hP
  · rw [if_neg hc]
    cases h : (loadObjects root).childOf k c with
    | none => rfl
    | some o =>
      obtain ⟨h1, h2, -, -⟩ := (childOf_some root hv hn k hk c o).1 h
      exact absurd ⟨h1, h2⟩ hc

omit hv hn in
theorem map_filter_comm {α β : Type} (f : α → β) (P : β → Bool) (x : Option α) :
    (x.filter fun a => P (f a)).map f = (x.map f).filter P := by
  cases x with
  | none => rfl
  | some a => by_cases h : P (f a) = true <;> simp [Option.filter_some, h]

theorem refs_nodes (typ : Bytes) (ht : sceneNode.name ≠ typ) (k : Nat) (hk : k < (build root).objs.length) :
    ((build root).findRefs k typ).map (build root).node = fileRefs root ((build root).node k) typ := by
  unfold findRefs fileRefs
  rw [build_refs root hv, List.filter_filterMap, List.map_filterMap]
  congr 1
  funext c
  rw [map_filter_comm (build root).node (fun n => n.name == typ), link_node root hv hn _ k hk c]
  rw [List.find?_cons_of_neg (by simp [ht])]

theorem bone_node (k : Nat) (hk : k < (build root).objs.length) :
    (((build root).refs k).find? (build root).isModel).map (build root).node = fileBone root ((build root).node k) := by
  have hz : nodeID sceneNode = 0 := rfl
  have hlen : 0 < (build root).objs.length := by rw [objs_eq root hv]; simp
  have e : ((build root).refs k).find? (build root).isModel =
      ((build root).refs k).find? fun o => ((build root).node o).name == b! "Model" || nodeID ((build root).node o) == 0 := by
    have : ∀ o ∈ (build root).refs k, (build root).isModel o =
        (((build root).node o).name == b! "Model" || nodeID ((build root).node o) == 0) := by
      intro o ho
      have h1 := ((mem_refs root hv hn k o hk).1 ho).1
      unfold FDoc.isModel
      have : (o == 0) = (nodeID ((build root).node o) == 0) := by
        rw [Bool.eq_iff_iff, beq_iff_eq, beq_iff_eq]
        constructor
        · rintro rfl; rw [node_zero root hv]; rfl
        · intro h
          exact same_id root hv hn o 0 h1 hlen (by rw [h, node_zero root hv]; rfl)
      rw [this, Bool.or_comm]
    generalize (build root).refs k = l at this
    induction l with
    | nil => rfl
    | cons a l ih =>
      rw [List.find?_cons, List.find?_cons, this a List.mem_cons_self, ih fun o ho => this o (List.mem_cons_of_mem _ ho)]
  rw [e]
  unfold fileBone
  rw [build_refs root hv]
  have hf : ∀ (l : List Node) (g : Node → Option Nat) (q : Nat → Bool), (l.filterMap g).find? q = l.findSome? fun c => (g c).filter q := by
    intro l g q
    rw [← List.head?_filter, findSome_filterMap]
  rw [hf, List.map_findSome?]
  congr 1
  funext c
  simp only [Function.comp]
  rw [map_filter_comm (build root).node (fun n => n.name == b! "Model" || nodeID n == 0), link_node root hv hn _ k hk c]
  split
  · by_cases h0 : linkFrom c = 0
    · rw [List.find?_cons_of_pos (by simp [hz, h0]), List.find?_cons_of_pos (by simp [hz, h0])]
    · rw [List.find?_cons_of_neg (by rw [hz]; simp [Ne.symm h0]), List.find?_cons_of_neg (by rw [hz]; simp [Ne.symm h0]), List.find?_filter]
      congr 1
      funext g
      rw [Bool.eq_iff_iff]
      simp only [Bool.and_eq_true, Bool.or_eq_true, beq_iff_eq, decide_eq_true_eq]
      constructor
      · rintro ⟨h1, h2 | h2⟩
        · exact ⟨h2, h1⟩
        · exact absurd (h1.symm.trans h2) h0
      · rintro ⟨h1, h2⟩
        exact ⟨h2, .inl h1⟩
  · rfl

theorem refs_lt (typ : Bytes) (k : Nat) (hk : k < (build root).objs.length) : ∀ o ∈ (build root).findRefs k typ,
    o < (build root).objs.length := fun o ho =>
  ((mem_refs root hv hn k o hk).1 (List.mem_of_mem_filter ho)).1

/-- The clusters and channels of a mesh by number. -/
theorem clusters_nodes (k : Nat) (hk : k < (build root).objs.length) :
    ((((build root).findRefs k b! "Deformer").flatMap fun s => (build root).findRefs s b! "Deformer").map (build root).node =
      fileClusters root ((build root).node k)) ∧
    ∀ o ∈ ((build root).findRefs k b! "Deformer").flatMap fun s => (build root).findRefs s b! "Deformer",
      o < (build root).objs.length := by
  have hlt := refs_lt root hv hn b! "Deformer" k hk
  have hne : sceneNode.name ≠ b! "Deformer" := by decide
  constructor
  · unfold fileClusters
    rw [← refs_nodes root hv hn _ hne k hk, List.map_flatMap, List.flatMap_map]
    apply List.flatMap_congr
    intro s hs
    rw [refs_nodes root hv hn _ hne s (hlt s hs)]
  · intro o ho
    obtain ⟨s, hs, ho⟩ := List.mem_flatMap.1 ho
    exact refs_lt root hv hn _ s (hlt s hs) o ho

end

section

variable [Field F] (env : FbxEnv F) (root : Node) (hv : versionOf root ≠ 6100) (hn : DistinctIDs root) (sc : FScene F)
  (hs : env.sceneOf (build root) = some sc)
include hv hn

/-- The numbers of the clusters and channels of the geometry with number `k`. -/
def clusterNumbers (root : Node) (k : Nat) : List Nat :=
  ((build root).findRefs k b! "Deformer").flatMap fun s => (build root).findRefs s b! "Deformer"

theorem cluster_target (c m : Nat) (hc : c < (build root).objs.length) :
    (env.deformer (build root) c).target = some m ↔ m < (build root).objs.length ∧
      fileBone root ((build root).node c) = some ((build root).node m) := by
  have hb := bone_node root hv hn c hc
  have hlt : ∀ m, ((build root).refs c).find? (build root).isModel = some m → m < (build root).objs.length := fun m h =>
    ((mem_refs root hv hn c m hc).1 (List.mem_of_find?_eq_some h)).1
  show ((build root).refs c).find? (build root).isModel = some m ↔ _
  constructor
  · intro h
    rw [h, Option.map_some] at hb
    exact ⟨hlt m h, hb.symm⟩
  · rintro ⟨h1, h2⟩
    rw [h2, Option.map_eq_some_iff] at hb
    obtain ⟨m', h3, h4⟩ := hb
    rw [h3, node_inj root hv hn m' m (hlt m' h3) h1 h4]

omit [Field F] in
theorem bone_model (c : Nat) (hc : c < (build root).objs.length) (n : Node)
    (h : fileBone root ((build root).node c) = some n) : FileModel root n := by
  rw [← bone_node root hv hn c hc, Option.map_eq_some_iff] at h
  obtain ⟨m, h1, rfl⟩ := h
  exact (isModel_iff root hv hn m ((mem_refs root hv hn c m hc).1 (List.mem_of_find?_eq_some h1)).1).1 (List.find?_some h1)

include hs

theorem geometry_clusters (k : Nat) (hk : k < (build root).objs.length) (hm : FileModel root ((build root).node k)) :
    (fileMesh root ((build root).node k) = none ∧ (sc.model k).geometry = none) ∨
    ∃ g, g < (build root).objs.length ∧ fileMesh root ((build root).node k) = some ((build root).node g) ∧
      (sc.model k).geometry = some (env.geometry ((build root).node g)
        ((clusterNumbers root g).map (env.deformer (build root)))) := by
  obtain ⟨-, -, -, -, hmod, -⟩ := sceneOf_fields env _ sc hs
  have hg := (model_fields env _ k _ (hmod k hk) ((isModel_iff root hv hn k hk).2 hm)).2.2.2.2.2.1
  unfold FbxEnv.meshOf at hg
  rw [ownGeometry_false root hv] at hg
  simp only [Bool.false_eq_true, if_false] at hg
  have hmn := mesh_node root hv hn k hk
  cases hh : ((build root).findRefs k b! "Geometry").head? with
  | none =>
    rw [hh] at hg hmn
    exact .inl ⟨hmn.symm, hg⟩
  | some g =>
    rw [hh] at hg hmn
    refine .inr ⟨g, refs_lt root hv hn _ k hk g (List.mem_of_head? hh), hmn.symm, ?_⟩
    rw [hg]
    simp only [Option.map_some, clusterNumbers, List.map_flatMap]
    rfl

theorem parent_iff (htree : FileTree root) (m p : Nat) (hk : m < (build root).objs.length)
    (hm : FileModel root ((build root).node m)) :
    (sc.model m).parent = some p ↔ p < (build root).objs.length ∧ FileModel root ((build root).node p) ∧
      FileLink root ((build root).node p) ((build root).node m) := by
  constructor
  · intro hp
    have hq : (build root).parent m = some p := by rw [← model_parent env root hv hn sc hs m hk hm]; exact hp
    have hpar := parents_of_file root hv hn m hk
    rw [if_pos ((isModel_iff root hv hn m hk).2 hm), hq, Option.map_some] at hpar
    cases hl : ((fileConnections root).filter fun c => decide (Used c ∧ linkFrom c = nodeID ((build root).node m) ∧
        linkTo c ∈ 0 :: ((fileObjects root).filter fun n => n.name == b! "Model").map nodeID)).getLast? with
    | none => rw [hl] at hpar; simp at hpar
    | some e =>
      rw [hl] at hpar
      simp only [Option.map_some, Option.some.injEq] at hpar
      obtain ⟨he1, he2⟩ := List.mem_filter.1 (List.mem_of_getLast? hl)
      simp only [decide_eq_true_eq] at he2
      have hpm : ∃ q, q < (build root).objs.length ∧ FileModel root ((build root).node q) ∧
          nodeID ((build root).node q) = nodeID ((build root).node p) := by
        rcases List.mem_cons.1 he2.2.2 with h0 | h0
        · exact ⟨0, by rw [objs_eq root hv]; simp, .inl (node_zero root hv), by rw [hpar, h0, node_zero root hv]; rfl⟩
        · obtain ⟨n, hn1, hn2⟩ := List.mem_map.1 h0
          obtain ⟨hn3, hn4⟩ := List.mem_filter.1 hn1
          obtain ⟨q, hq1, rfl⟩ := node_surj root hv n (List.mem_cons_of_mem _ hn3)
          exact ⟨q, hq1, .inr ⟨hn3, by simpa using hn4⟩, by rw [hn2, hpar]⟩
      obtain ⟨q, hq1, hq2, hq3⟩ := hpm
      have hl2 : FileLink root ((build root).node q) ((build root).node m) := ⟨e, he1, he2.1, by rw [hq3, hpar], he2.2.1⟩
      have hc : m ∈ (sc.model q).children := (child_iff env root hv hn sc hs q m).2 ⟨hq1, hq2, hk, hm, hl2⟩
      have hqp := links_back env root hv hn sc hs htree q m hc
      rw [hp, Option.some.injEq] at hqp
      subst hqp
      exact ⟨hq1, hq2, hl2⟩
  · rintro ⟨h1, h2, h3⟩
    exact links_back env root hv hn sc hs htree p m ((child_iff env root hv hn sc hs p m).2 ⟨h1, h2, hk, hm, h3⟩)

theorem above_iff (htree : FileTree root) (a m : Nat) (ha : a < (build root).objs.length) (hm : m < (build root).objs.length)
    (hmm : FileModel root ((build root).node m)) :
    Above sc a m ↔ FileModel root ((build root).node a) ∧ FileAbove root ((build root).node a) ((build root).node m) := by
  constructor
  · intro h
    have : a < (build root).objs.length ∧ FileModel root ((build root).node a) ∧
        FileAbove root ((build root).node a) ((build root).node m) := by
      clear ha
      induction h with
      | self m => exact ⟨hm, hmm, .self _⟩
      | up a b m hp _ ih =>
        obtain ⟨h1, h2, h3⟩ := ih hm hmm
        obtain ⟨h4, h5, h6⟩ := (parent_iff env root hv hn sc hs htree b a h1 h2).1 hp
        exact ⟨h4, h5, .up _ _ _ h5 h6 h3⟩
    exact this.2
  · rintro ⟨-, h⟩
    have key : ∀ x y, FileAbove root x y → ∀ m, m < (build root).objs.length → (build root).node m = y → FileModel root y →
        FileModel root x ∧ ∀ a, a < (build root).objs.length → (build root).node a = x → Above sc a m := by
      intro x y h
      induction h with
      | self n =>
        intro m hm e hmm
        refine ⟨hmm, fun a ha e' => ?_⟩
        rw [node_inj root hv hn a m ha hm (by rw [e, e'])]
        exact .self _
      | up x b y hx hl _ ih =>
        intro m hm e hmm
        obtain ⟨h1, h2⟩ := ih m hm e hmm
        refine ⟨hx, fun a ha e' => ?_⟩
        obtain ⟨k, hk, hkb⟩ := node_surj root hv b h1.mem
        exact .up _ k _ ((parent_iff env root hv hn sc hs htree k a hk (by rw [hkb]; exact h1)).2
          ⟨ha, by rw [e']; exact hx, by rw [e', hkb]; exact hl⟩) (h2 k hk hkb)
    exact (key _ _ h m hm rfl hmm).2 a ha rfl

omit hv hn hs in
theorem FileConverted.isModel {root : Node} {opt : FOptions F} {n : Node} (h : FileConverted root opt n) : FileModel root n := by
  cases h with
  | top _ a _ _ => exact a
  | down _ _ _ a _ _ => exact a

variable [DecidableEq F] [FloatOps F]

theorem target_file (opt : FOptions F) (d : FDeformer F) (m : Nat) (h : Target sc opt d m) :
    m < (build root).objs.length ∧ FileModel root ((build root).node m) ∧
    ∃ c, c < (build root).objs.length ∧ d = env.deformer (build root) c ∧
      FileTarget root opt ((build root).node c) ((build root).node m) := by
  obtain ⟨hb, x, g, hx, hg, hd, hch, ht⟩ := h
  obtain ⟨h1, h2⟩ := (converted_iff env root hv hn sc hs opt x).1 hx
  rcases geometry_clusters env root hv hn sc hs x h1 h2.isModel with ⟨-, h3⟩ | ⟨gk, h3, h4, h5⟩
  · rw [h3] at hg; simp at hg
  · rw [h5, Option.some.injEq] at hg
    subst hg
    obtain ⟨c, hc, rfl⟩ := List.mem_map.1 hd
    obtain ⟨hc1, hc2⟩ := clusters_nodes root hv hn gk h3
    have hcl := hc2 c hc
    obtain ⟨h6, h7⟩ := (cluster_target env root hv hn c m hcl).1 ht
    refine ⟨h6, bone_model root hv hn c hcl _ h7, c, hcl, rfl, hb, _, _, h2, h4, ?_, ?_, h7⟩
    · rw [← hc1]; exact List.mem_map_of_mem hc
    · have hch' : (toStr (attr (some ((build root).node c)) 2) == b! "BlendShapeChannel") = false := hch
      unfold IsChannel
      simpa using hch'

theorem file_target (opt : FOptions F) (d : Node) (m : Nat) (hm : m < (build root).objs.length)
    (h : FileTarget root opt d ((build root).node m)) :
    FileModel root ((build root).node m) ∧ ∃ c, (build root).node c = d ∧ Target sc opt (env.deformer (build root) c) m := by
  obtain ⟨hb, x, g, hx, hg, hd, hch, ht⟩ := h
  obtain ⟨k, hk, rfl⟩ := node_surj root hv x hx.isModel.mem
  rcases geometry_clusters env root hv hn sc hs k hk hx.isModel with ⟨h3, -⟩ | ⟨gk, h3, h4, h5⟩
  · rw [h3] at hg; simp at hg
  · rw [h4, Option.some.injEq] at hg
    subst hg
    obtain ⟨hc1, hc2⟩ := clusters_nodes root hv hn gk h3
    rw [← hc1] at hd
    obtain ⟨c, hc, rfl⟩ := List.mem_map.1 hd
    have hcl := hc2 c hc
    refine ⟨bone_model root hv hn c hcl _ ht, c, rfl, hb, k, _, (converted_iff env root hv hn sc hs opt k).2 ⟨hk, hx⟩, h5, ?_, ?_,
      (cluster_target env root hv hn c m hcl).2 ⟨hm, ht⟩⟩
    · exact List.mem_map_of_mem hc
    · show (toStr (attr (some ((build root).node c)) 2) == b! "BlendShapeChannel") = false
      simpa [IsChannel] using hch

theorem file_bones (htree : FileTree root) (opt : FOptions F) (bones : List (Bone F)) (order : List Nat)
    (h : BonesOk sc opt bones order) :
    (∀ m ∈ order, m < (build root).objs.length) ∧
    FileBonesOk env root opt sc.coord bones (order.map (build root).node) := by
  have hmod := (sceneOf_fields env _ sc hs).2.2.2.2.1
  have h0 := (sceneOf_fields env _ sc hs).1
  have hlen0 : 0 < (build root).objs.length := by rw [objs_eq root hv]; simp
  have hin : ∀ m ∈ order, m < (build root).objs.length ∧ FileModel root ((build root).node m) := by
    intro m hm
    obtain ⟨-, d, t, ht, ha⟩ := (h.mem m).1 hm
    obtain ⟨h1, h2, -⟩ := target_file env root hv hn sc hs opt d t ht
    have hlt : m < (build root).objs.length := by
      clear hm
      induction ha with
      | self _ => exact h1
      | up a b m hp hab ih =>
        have hb := ih ht h1 h2
        have hbm := ((above_iff env root hv hn sc hs htree b m hb h1 h2).1 hab).1
        exact ((parent_iff env root hv hn sc hs htree b a hb hbm).1 hp).1
    exact ⟨hlt, ((above_iff env root hv hn sc hs htree m t hlt h1 h2).1 ha).1⟩
  have hget : ∀ (i : Nat) n, (order.map (build root).node)[i]? = some n → ∃ m, order[i]? = some m ∧ (build root).node m = n := by
    intro i n hi
    rw [List.getElem?_map, Option.map_eq_some_iff] at hi
    exact hi
  refine ⟨fun m hm => (hin m hm).1, by rw [List.length_map]; exact h.length, ?_, ?_, h.id, ?_, ?_, ?_, ?_⟩
  · exact h.nodup.map_on fun x hx y hy e => node_inj root hv hn x y (hin x hx).1 (hin y hy).1 e
  · intro n
    constructor
    · intro hn'
      obtain ⟨m, hm, rfl⟩ := List.mem_map.1 hn'
      obtain ⟨hne, d, t, ht, ha⟩ := (h.mem m).1 hm
      obtain ⟨h1, h2, c, -, -, h3⟩ := target_file env root hv hn sc hs opt d t ht
      refine ⟨?_, _, _, h3, ((above_iff env root hv hn sc hs htree m t (hin m hm).1 h1 h2).1 ha).2⟩
      intro e
      exact hne (by rw [h0]; exact node_inj root hv hn m 0 (hin m hm).1 hlen0 (by rw [e, node_zero root hv]))
    · rintro ⟨hne, d, t, ht, ha⟩
      have htm : FileModel root t := by
        obtain ⟨-, x, g, hx, hg, hd, -, hb⟩ := ht
        obtain ⟨k, hk, rfl⟩ := node_surj root hv x hx.isModel.mem
        rcases geometry_clusters env root hv hn sc hs k hk hx.isModel with ⟨h3, -⟩ | ⟨gk, h3, h4, h5⟩
        · rw [h3] at hg; simp at hg
        · rw [h4, Option.some.injEq] at hg
          subst hg
          obtain ⟨hc1, hc2⟩ := clusters_nodes root hv hn gk h3
          rw [← hc1] at hd
          obtain ⟨c, hc, rfl⟩ := List.mem_map.1 hd
          exact bone_model root hv hn c (hc2 c hc) _ hb
      obtain ⟨k, hk, rfl⟩ := node_surj root hv t htm.mem
      obtain ⟨-, c, -, hT⟩ := file_target env root hv hn sc hs opt d k hk ht
      have hnm : FileModel root n := by
        cases ha with
        | self => exact htm
        | up _ _ _ a _ _ => exact a
      obtain ⟨a, ha', rfl⟩ := node_surj root hv n hnm.mem
      refine List.mem_map.2 ⟨a, (h.mem a).2 ⟨?_, _, k, hT, (above_iff env root hv hn sc hs htree a k ha' hk htm).2 ⟨hnm, ha⟩⟩, rfl⟩
      rintro rfl
      rw [h0, node_zero root hv] at hne
      exact hne rfl
  · intro i n b hi hb
    obtain ⟨m, hm, rfl⟩ := hget i n hi
    obtain ⟨h1, h2⟩ := hin m (List.mem_of_getElem? hm)
    rw [← (model_fields env _ m _ (hmod m h1) ((isModel_iff root hv hn m h1).2 h2)).1]
    exact h.name i m b hm hb
  · intro i n b hi hb htop
    obtain ⟨m, hm, rfl⟩ := hget i n hi
    obtain ⟨h1, h2⟩ := hin m (List.mem_of_getElem? hm)
    refine h.root i m b hm hb ?_
    cases hp : (sc.model m).parent with
    | none => exact .inl rfl
    | some p =>
      right
      obtain ⟨h3, h4, h5⟩ := (parent_iff env root hv hn sc hs htree m p h1 h2).1 hp
      rw [h0, node_inj root hv hn p 0 h3 hlen0 (by rw [htop _ h4 h5, node_zero root hv])]
  · intro i n b hi hb p hp hl hne
    obtain ⟨m, hm, rfl⟩ := hget i n hi
    obtain ⟨h1, h2⟩ := hin m (List.mem_of_getElem? hm)
    obtain ⟨k, hk, rfl⟩ := node_surj root hv p hp.mem
    obtain ⟨j, hj, ho, hpar⟩ := h.parent i m b hm hb k ((parent_iff env root hv hn sc hs htree m k h1 h2).2 ⟨hk, hp, hl⟩)
      (by rintro rfl; rw [h0, node_zero root hv] at hne; exact hne rfl)
    exact ⟨j, hj, by rw [List.getElem?_map, ho]; rfl, hpar⟩
  · intro i n b hi hb
    obtain ⟨m, hm, rfl⟩ := hget i n hi
    obtain ⟨h1, h2⟩ := hin m (List.mem_of_getElem? hm)
    rcases h.pos i m b hm hb with ⟨d, hd, hpos⟩ | ⟨hno, w, hw, hpos⟩
    · obtain ⟨-, -, c, -, rfl, h3⟩ := target_file env root hv hn sc hs opt d m hd
      exact .inl ⟨_, h3, hpos⟩
    · refine .inr ⟨fun d hd => ?_, w, world_file env root hv hn sc hs htree m w hw h1 h2, hpos⟩
      obtain ⟨-, c, -, hT⟩ := file_target env root hv hn sc hs opt d m h1 hd
      exact hno _ hT

omit hs [DecidableEq F] [FloatOps F] in
theorem file_weights (g m : Nat) (hg : g < (build root).objs.length) (hm : m < (build root).objs.length) :
    ((((clusterNumbers root g).map (env.deformer (build root))).filter fun d => !d.channel && decide (d.target = some m) &&
      decide (d.weights.length = d.indexes.length)).flatMap fun d => (d.indexes.zip d.weights).map fun p =>
        (⟨p.1 + 1, p.2⟩ : VertexWeight F)) =
    (fileWeights env root ((build root).node g) ((build root).node m)).map fun p => ⟨p.1 + 1, p.2⟩ := by
  obtain ⟨h1, h2⟩ := clusters_nodes root hv hn g hg
  unfold fileWeights
  rw [← h1, List.filter_map, List.flatMap_map, List.filter_map, List.flatMap_map, List.map_flatMap]
  have e : ((clusterNumbers root g).filter ((fun d => !d.channel && decide (d.target = some m) &&
      decide (d.weights.length = d.indexes.length)) ∘ env.deformer (build root))) =
      (((build root).findRefs g b! "Deformer").flatMap fun s => (build root).findRefs s b! "Deformer").filter
        ((fun d => decide (¬ IsChannel d ∧ (fileBone root d).map nodeID = some (nodeID ((build root).node m)) ∧
          (clusterWeights env d).length = (clusterIndexes d).length)) ∘ (build root).node) := by
    apply List.filter_congr
    intro c hc
    have hcl := h2 c hc
    have ht := cluster_target env root hv hn c m hcl
    have hch : (env.deformer (build root) c).channel = true ↔ IsChannel ((build root).node c) := by
      show (toStr (attr (some ((build root).node c)) 2) == b! "BlendShapeChannel") = true ↔ _
      simp [IsChannel]
    have hid : (fileBone root ((build root).node c)).map nodeID = some (nodeID ((build root).node m)) ↔
        (env.deformer (build root) c).target = some m := by
      rw [ht]
      constructor
      · intro h
        obtain ⟨n, h3, h4⟩ := Option.map_eq_some_iff.1 h
        obtain ⟨k, hk, rfl⟩ := node_surj root hv n (bone_model root hv hn c hcl n h3).mem
        rw [h3, same_id root hv hn k m hk hm h4]
        exact ⟨hm, rfl⟩
      · rintro ⟨-, h⟩; rw [h]; rfl
    have hlen : ((env.deformer (build root) c).weights.length = (env.deformer (build root) c).indexes.length) ↔
        (clusterWeights env ((build root).node c)).length = (clusterIndexes ((build root).node c)).length := Iff.rfl
    rw [Bool.eq_iff_iff]
    simp only [Function.comp, Bool.and_eq_true, Bool.not_eq_true', ← Bool.not_eq_true, decide_eq_true_eq, hch, hid, hlen]
    tauto
  rw [e]
  rfl

omit hs [DecidableEq F] [FloatOps F] in
theorem file_shapes (opt : FOptions F) (g : Nat) (hg : g < (build root).objs.length) :
    wantedShapes opt (env.geometry ((build root).node g) ((clusterNumbers root g).map (env.deformer (build root)))) =
      fileShapes env root opt ((build root).node g) := by
  obtain ⟨h1, h2⟩ := clusters_nodes root hv hn g hg
  unfold wantedShapes fileShapes
  split
  · rfl
  · congr 1
    show (((clusterNumbers root g).map (env.deformer (build root))).filter fun d => d.channel).flatMap FDeformer.shapes = _
    rw [← h1, List.filter_map, List.flatMap_map, List.filter_map, List.flatMap_map, List.map_flatMap]
    have e : (clusterNumbers root g).filter ((fun d => d.channel) ∘ env.deformer (build root)) =
        (((build root).findRefs g b! "Deformer").flatMap fun s => (build root).findRefs s b! "Deformer").filter
          ((fun d => decide (IsChannel d)) ∘ (build root).node) := by
      apply List.filter_congr
      intro c _
      show (toStr (attr (some ((build root).node c)) 2) == b! "BlendShapeChannel") = decide (IsChannel _)
      rw [Bool.eq_iff_iff, beq_iff_eq, decide_eq_true_iff]
      exact Iff.rfl
    rw [e]
    apply List.flatMap_congr
    intro c hc
    have hcl := h2 c (List.mem_of_mem_filter hc)
    have hr := refs_nodes root hv hn b! "Geometry" (by decide) c hcl
    show (((build root).findRefs c b! "Geometry").filter fun g => toStr (attr (some ((build root).node g)) 2) == b! "Shape").map
      (fun g => env.shape ((build root).node g)) = _
    rw [← hr, List.filter_map, List.map_map]
    rfl

end

section

variable [Field F] [DecidableEq F] [FloatOps F]

/-- C193. In a file whose models form a tree, each converted model has one object. The bones are the models to
which clusters bind the meshes and the models above these; each bone has the weights of its clusters on the
vertices of the mesh; and behind the object of a mesh come the objects of its shapes, moved as the file says and
placed like the mesh. -/
theorem bound_of_file (facet : F) (env : FbxEnv F) (root : Node) (hv : versionOf root ≠ 6100) (hn : DistinctIDs root)
    (htree : FileTree root) (sc : FScene F) (hs : env.sceneOf (build root) = some sc) (opt : FOptions F) (fuel base : Nat)
    (objects : List (Object F)) (morphs : List MorphTargetList) (r : FResult F) (ht : opt.targetModelName = [])
    (hd : opt.objectDepth ≤ 0) (h : fbxConvert facet sc opt fuel base objects morphs = some r) :
    ∃ (made : List (Node × Object F × List (Object F))) (order : List Node) (coord : Mat4 F),
      r.objects = objects ++ made.flatMap (fun p => p.2.1 :: p.2.2) ∧
      (∀ n, (∃ o ss, (n, o, ss) ∈ made) ↔ FileConverted root opt n) ∧
      (made.map Prod.fst).Nodup ∧
      r.morphs = morphs ++ (made.filter fun p => !p.2.2.isEmpty).map
        (fun p => ⟨p.2.1.name, p.2.2.map fun o => ⟨o.name, 0⟩⟩) ∧
      coordMatrix (fileAxes env root) = some coord ∧
      FileBonesOk env root opt coord (r.setBones.getD []) order ∧
      (∀ b ∈ r.setBones.getD [], (b.weights.map WeightGroup.objectID).Nodup ∧
        ∀ w ∈ b.weights, ∃ n o ss, (n, o, ss) ∈ made ∧ w.objectID = o.uid) ∧
      ∀ n o ss, (n, o, ss) ∈ made →
        (fileMesh root n = none → ss = [] ∧ o.vertexes = []) ∧
        ∀ g, fileMesh root n = some g → ∃ w, FileWorld env root n w ∧
          o.vertexes = ((geometryInit env.cv g).vertices.map env.vec3).map (coord.mul w).applyTo ∧
          List.Forall₂ (ShapeOk (coord.mul w) ((geometryInit env.cv g).vertices.map env.vec3)) (fileShapes env root opt g) ss ∧
          (∀ k : Nat, k < o.vertexes.length → o.getVertexIndexByID ((k : Int) + 1) = k) ∧
          ∀ (i : Nat) (m : Node) (b : Bone F), order[i]? = some m → (r.setBones.getD [])[i]? = some b →
            (b.weights.filter fun wg => wg.objectID = o.uid).flatMap WeightGroup.vertexes =
              (fileWeights env root g m).map fun p => ⟨p.1 + 1, p.2⟩ := by
  obtain ⟨ms, ls, outs, order, st, hms, hvis, hgrow, rfl⟩ := fbxConvert_run facet sc opt fuel base objects morphs r ht h
  obtain ⟨-, h2⟩ := tree_of_run facet sc opt fuel base objects morphs ms ls outs order st hms hvis hgrow
  obtain ⟨s1, s2, s3, s4⟩ := shapes_of_run facet sc opt fuel base objects morphs ms ls outs order st hms hvis hgrow
  have hback := links_back env root hv hn sc hs htree
  have htop := scene_top env root hv hn sc hs htree
  have hb := bones_of_run facet sc opt fuel base objects morphs ms ls outs order st htop hms hvis hgrow
  obtain ⟨w1, w2⟩ := weights_of_run facet sc opt fuel base objects morphs ms ls outs order st htop hms hvis hgrow
  obtain ⟨b1, b2⟩ := file_bones env root hv hn sc hs htree opt st.bones order hb
  obtain ⟨-, -, -, ⟨a, ha, hc⟩, -, -⟩ := sceneOf_fields env _ sc hs
  rw [(build_fields root hv).1] at ha
  rw [withBones_getD]
  have hconv : ∀ z ∈ ls.flatten.zip outs, z.1.model < (build root).objs.length ∧
      FileConverted root opt ((build root).node z.1.model) := fun z hz =>
    (converted_iff env root hv hn sc hs opt _).1 ((h2.models _).1 ⟨z.2.1, (mem_tagged _ _ _).2 ⟨z, hz, rfl, rfl⟩⟩)
  have hmem : ∀ n o ss, (n, o, ss) ∈ (ls.flatten.zip outs).map (fun z => ((build root).node z.1.model, z.2.1, z.2.2)) →
      ∃ z ∈ ls.flatten.zip outs, (build root).node z.1.model = n ∧ z.2.1 = o ∧ z.2.2 = ss := by
    intro n o ss hx
    obtain ⟨z, hz, e⟩ := List.mem_map.1 hx
    simp only [Prod.mk.injEq] at e
    exact ⟨z, hz, e⟩
  refine ⟨(ls.flatten.zip outs).map fun z => ((build root).node z.1.model, z.2.1, z.2.2), order.map (build root).node, sc.coord,
    ?_, ?_, ?_, ?_, by rw [← axes_file env root a ha]; exact hc, b2, ?_, ?_⟩
  · rw [s1, List.flatMap_map, List.flatMap_map]
  · intro n
    constructor
    · rintro ⟨o, ss, hx⟩
      obtain ⟨z, hz, rfl, -, -⟩ := hmem n o ss hx
      exact (hconv z hz).2
    · intro hf
      obtain ⟨k, hk, rfl⟩ := node_surj root hv n hf.isModel.mem
      obtain ⟨o, ho⟩ := (h2.models k).2 ((converted_iff env root hv hn sc hs opt k).2 ⟨hk, hf⟩)
      obtain ⟨z, hz, e1, e2⟩ := (mem_tagged _ k o).1 ho
      exact ⟨z.2.1, z.2.2, List.mem_map.2 ⟨z, hz, by rw [e1]⟩⟩
  · have hnd := h2.once hback (children_nodup env root hv hn sc hs htree) htop
    have e : ((ls.flatten.zip outs).flatMap tagOne).filterMap Prod.fst = (ls.flatten.zip outs).map fun z => z.1.model := by
      rw [List.filterMap_flatMap]
      have : ∀ z : Visit F × (Object F × List (Object F)), (tagOne z).filterMap Prod.fst = [z.1.model] := by
        intro z
        unfold tagOne
        simp [List.filterMap_map]
      simp only [this]
      exact (List.map_eq_flatMap ..).symm
    rw [e] at hnd
    rw [List.map_map]
    have : (ls.flatten.zip outs).map (Prod.fst ∘ fun z => ((build root).node z.1.model, z.2.1, z.2.2)) =
        ((ls.flatten.zip outs).map fun z => z.1.model).map (build root).node := by rw [List.map_map]; rfl
    rw [this]
    refine hnd.map_on ?_
    intro x hx y hy hxy
    obtain ⟨z, hz, rfl⟩ := List.mem_map.1 hx
    obtain ⟨z', hz', rfl⟩ := List.mem_map.1 hy
    exact node_inj root hv hn _ _ (hconv z hz).1 (hconv z' hz').1 hxy
  · rw [s3, List.filter_map, List.filter_map, List.map_map, List.map_map]
    rfl
  · intro b hbm
    obtain ⟨i, hi⟩ := List.mem_iff_getElem?.1 hbm
    obtain ⟨hlt, -⟩ := List.getElem?_eq_some_iff.1 hi
    obtain ⟨m, hm⟩ : ∃ m, order[i]? = some m := ⟨_, List.getElem?_eq_getElem (by rw [← hb.length]; exact hlt)⟩
    obtain ⟨k1, k2, -⟩ := w2 i m b hm hi
    refine ⟨k1, fun w hw => ?_⟩
    obtain ⟨x, o, hx, e⟩ := k2 w hw
    obtain ⟨z, hz, -, rfl⟩ := (mem_tagged _ x o).1 hx
    exact ⟨_, _, _, List.mem_map.2 ⟨z, hz, rfl⟩, e⟩
  · intro n o ss hx
    obtain ⟨z, hz, rfl, rfl, rfl⟩ := hmem n o ss hx
    obtain ⟨hl, hf⟩ := hconv z hz
    obtain ⟨h5, h6⟩ := s4 z hz
    rcases geometry_clusters env root hv hn sc hs _ hl hf.isModel with ⟨g1, g2⟩ | ⟨gk, g1, g2, g3⟩
    · refine ⟨fun _ => h5 g2, fun g hg => ?_⟩
      rw [g1] at hg; simp at hg
    · refine ⟨fun hg => ?_, fun g hg => ?_⟩
      · rw [g2] at hg; simp at hg
      · rw [g2, Option.some.injEq] at hg
        subst hg
        obtain ⟨e1, e2⟩ := h6 _ g3
        obtain ⟨l, hl', hvl⟩ := List.mem_flatten.1 (List.of_mem_zip (a := z.1) (b := z.2) hz).1
        obtain ⟨c, hcm, hcl⟩ := forall₂_mem_right hvis l hl'
        have hct := ((top_iff sc opt fuel ms hms c).1 hcm).1
        obtain ⟨w, hw, htr⟩ := visits_world sc opt base hd hback _ _ c sc.scene _ l (hback _ _ hct) (.top _ htop) hcl z.1 hvl
        rw [htr] at e1 e2
        have htag : (some z.1.model, z.2.1) ∈ (ls.flatten.zip outs).flatMap tagOne := (mem_tagged _ _ _).2 ⟨z, hz, rfl, rfl⟩
        refine ⟨w, world_file env root hv hn sc hs htree _ w hw hl hf.isModel, e1, ?_, ?_, ?_⟩
        · rw [← file_shapes env root hv hn opt gk g1]
          exact e2
        · intro k hk
          rw [e1, List.length_map] at hk
          exact w1 _ _ _ htag g3 k hk
        · intro i m b hi hbi
          rw [List.getElem?_map, Option.map_eq_some_iff] at hi
          obtain ⟨k, hk, rfl⟩ := hi
          rw [← file_weights env root hv hn gk k g1 (b1 k (List.mem_of_getElem? hk))]
          exact (w2 i k b hk hbi).2.2 _ _ _ htag g3

end

end Verif.Conv
