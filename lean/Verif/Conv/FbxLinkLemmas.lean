import Verif.Conv.FbxLink
import Verif.Conv.FbxConvProps
import Verif.Fbx.EditFindings

/-!
Lemmas for C179 and C180: objects of a loaded FBX document and the nodes of the file they come from.
-/

namespace Verif.Conv

open Verif.Geom
open Verif.Mqo (Str Object MorphTargetList)
open Verif.Mmd (Bytes)
open Verif.Fbx hiding Conv
open Verif.Fbx.FDoc

variable {F : Type}

/-! ## What a file says -/

/-- A model of a file, or the scene. -/
def FileModel (root n : Node) : Prop := n = sceneNode ∨ (n ∈ fileObjects root ∧ n.name = b! "Model")

/-- A connection of the file puts `n` below `p`. -/
def FileLink (root p n : Node) : Prop :=
  ∃ c ∈ fileConnections root, Used c ∧ linkTo c = nodeID p ∧ linkFrom c = nodeID n

/-- `x` is `m`, or a model below it. -/
inductive FileBelow (root : Node) : Node → Node → Prop
  | self (m : Node) : FileBelow root m m
  | down (m c x : Node) : FileModel root c → FileLink root m c → FileBelow root c x → FileBelow root m x

/-- The mesh of a model: that of the first connection from a geometry. -/
def fileMesh (root n : Node) : Option Node :=
  (fileConnections root).findSome? fun c =>
    if Used c ∧ linkTo c = nodeID n then
      (fileObjects root).find? fun g => nodeID g == linkFrom c && g.name == b! "Geometry"
    else none

/-- A bone. -/
def IsLimb (n : Node) : Prop := toStr (attr (some n) 2) = b! "LimbNode"

/-- The models that become objects: those under the scene that are no bones and have a mesh below them, and
what is below those without bones between; with `wholeNode` all. -/
inductive FileConverted (root : Node) (opt : FOptions F) : Node → Prop
  | top (n : Node) : FileModel root n → FileLink root sceneNode n →
      (opt.wholeNode = true ∨ ¬ IsLimb n ∧ ∃ y, FileBelow root n y ∧ (fileMesh root y).isSome = true) →
      FileConverted root opt n
  | down (p n : Node) : FileConverted root opt p → FileModel root n → FileLink root p n →
      (opt.wholeNode = true ∨ ¬ IsLimb n) → FileConverted root opt n

/-- The values of the last entry of that name in the properties of a node. -/
def entryValues (n : Option Node) (name : Bytes) : Option (List Value) :=
  (((getChildren (findChild n b! "Properties70")).filter fun p => toStr (attr (some p) 0) == name).getLast?).map
    fun p => p.attrs.drop 4

/-- The last definition of a type of objects in a file. -/
def fileDefinition (root : Node) (typ : Bytes) : Option Node :=
  ((getChildren (findChild (some root) b! "Definitions")).filter fun n =>
    n.name == b! "ObjectType" && toStr (attr (some n) 0) == typ).getLast?

/-- The values of a property of an object of type `typ`: its own, or else those of the template of the type, or else none. -/
def fileValues (root : Node) (typ : Bytes) (n : Option Node) (name : Bytes) : List Value :=
  match entryValues n name with
  | some vs => vs
  | none =>
    match fileDefinition root typ with
    | some d => (entryValues (findChild (some d) b! "PropertyTemplate") name).getD []
    | none => []

/-- The three numbers of a property of an object; `d` where there is none. -/
def fileVector (env : FbxEnv F) (root n : Node) (name : Bytes) (d : F) : Vec3 F :=
  ⟨env.number (fileValues root n.name (some n) name)[0]? d, env.number (fileValues root n.name (some n) name)[1]? d,
    env.number (fileValues root n.name (some n) name)[2]? d⟩

/-- The matrix of a model as the file says: scale, then rotation, then the rotation before that, then translation. -/
def fileMatrix [Add F] [Mul F] [Zero F] [One F] (env : FbxEnv F) (root n : Node) : Mat4 F :=
  let t := fileVector env root n b! "Lcl Translation" 0
  let s := fileVector env root n b! "Lcl Scaling" 1
  (((Mat4.translation t.x t.y t.z).mul (env.rot (fileVector env root n b! "PreRotation" 0))).mul
    (env.rot (fileVector env root n b! "Lcl Rotation" 0))).mul (Mat4.scaling s.x s.y s.z)

/-- The axes of a file as its settings say. -/
def fileAxes [One F] (env : FbxEnv F) (root : Node) : Axes F :=
  let get := fun name => fileValues root b! "GlobalSettings" (findChild (some root) b! "GlobalSettings") name
  let axis := fun name (d : Int) => toInt64 (attr (some (.leaf [] (get name))) 0) d
  ⟨axis b! "CoordAxis" 0, env.number (get b! "CoordAxisSign")[0]? 1, axis b! "UpAxis" 1, env.number (get b! "UpAxisSign")[0]? 1,
    axis b! "FrontAxis" 2, env.number (get b! "FrontAxisSign")[0]? 1⟩

theorem mapM_props : ∀ (ns : List Node) (l : List (Bytes × Property)), ns.mapM propOfNode = some l →
    l = ns.map fun n => (toStr (attr (some n) 0), ⟨n.attrs.drop 4, toStr (attr (some n) 1), toStr (attr (some n) 2), toStr (attr (some n) 3)⟩) := by
  intro ns
  induction ns with
  | nil => intro l h; simp at h; simp [h]
  | cons n ns ih =>
    intro l h
    rw [List.mapM_cons] at h
    simp only [Option.bind_eq_bind, Option.bind_eq_some_iff, Option.pure_def, Option.some.injEq] at h
    obtain ⟨a, ha, b, hb, rfl⟩ := h
    rw [ih b hb, List.map_cons]
    unfold propOfNode at ha
    split at ha
    · simp at ha
    · rw [← Option.some.inj ha]

theorem cache_values (n : Option Node) (o : PropObj) (h : fillCache (propNodes n) = some o) (name : Bytes) :
    ((o.cache.getD []).lookup name).map Property.attrs = entryValues n name := by
  unfold fillCache propNodes at h
  simp only [Option.map_eq_some_iff] at h
  obtain ⟨l, hl, rfl⟩ := h
  have e : (Option.map Node.children (findChild n b! "Properties70")).getD [] = getChildren (findChild n b! "Properties70") := by
    cases findChild n b! "Properties70" <;> rfl
  rw [e] at hl
  rw [mapM_props _ _ hl]
  unfold entryValues
  generalize getChildren (findChild n b! "Properties70") = ns
  simp only [Option.getD_some]
  induction ns using List.reverseRecOn with
  | nil => rfl
  | append_singleton ns x ih =>
    rw [List.map_append, List.reverse_append, List.filter_append]
    by_cases hx : toStr (attr (some x) 0) = name
    · simp [hx]
    · have h2 : (name == toStr (attr (some x) 0)) = false := by simpa using fun e => hx e.symm
      simp only [List.map_cons, List.map_nil, List.reverse_cons, List.reverse_nil, List.nil_append, List.cons_append, List.lookup_cons, h2]
      rw [ih]
      simp [hx]

theorem property_values (root : Node) (typ : Bytes) (n : Option Node) (name : Bytes) (p : Property)
    (h : propertyOf root typ n name = some p) : p.attrs = fileValues root typ n name := by
  unfold propertyOf getProperty at h
  unfold fileValues
  cases ho : fillCache (propNodes n) with
  | none => rw [ho] at h; simp at h
  | some o =>
    rw [ho] at h
    have hc := cache_values n o ho name
    simp only at h
    cases hk : (o.cache.getD []).lookup name with
    | some q =>
      rw [hk] at h hc
      simp only [Option.map_some, Option.some.injEq] at h hc
      rw [← hc, ← h]
    | none =>
      rw [hk] at h hc
      rw [← hc]
      simp only [Option.map_none]
      unfold fileDefinition
      unfold templateOf at h
      cases hd : ((getChildren (findChild (some root) b! "Definitions")).filter fun m =>
          m.name == b! "ObjectType" && toStr (attr (some m) 0) == typ).getLast? with
      | none =>
        rw [hd] at h
        simp only [Option.map_none, Option.map_some, Option.some.injEq] at h
        rw [← h]; rfl
      | some d =>
        rw [hd] at h
        simp only [Option.map_some] at h
        cases ht : fillCache (propNodes (findChild (some d) b! "PropertyTemplate")) with
        | none => rw [ht] at h; simp at h
        | some t =>
          rw [ht] at h
          have hc2 := cache_values _ t ht name
          simp only at h
          show p.attrs = (entryValues (findChild (some d) b! "PropertyTemplate") name).getD []
          rw [← hc2]
          cases hk2 : (t.cache.getD []).lookup name <;> rw [hk2] at h <;>
            simp only [Option.map_some, Option.some.injEq, Option.getD] at h <;> rw [← h] <;> rfl

theorem matrix_file [Add F] [Mul F] [Zero F] [One F] (env : FbxEnv F) (root n : Node) (m : Mat4 F)
    (h : env.matrix root n = some m) : m = fileMatrix env root n := by
  unfold FbxEnv.matrix at h
  simp only [Option.bind_eq_bind, Option.bind_eq_some_iff, Option.some.injEq] at h
  obtain ⟨p1, h1, p2, h2, p3, h3, p4, h4, rfl⟩ := h
  simp only [FbxEnv.toVector3, fileMatrix, fileVector, property_values _ _ _ _ _ h1, property_values _ _ _ _ _ h2,
    property_values _ _ _ _ _ h3, property_values _ _ _ _ _ h4]
theorem axes_file [One F] (env : FbxEnv F) (root : Node) (a : Axes F) (h : env.axes root = some a) : a = fileAxes env root := by
  unfold FbxEnv.axes at h
  simp only [Option.bind_eq_bind, Option.bind_eq_some_iff, Option.some.injEq] at h
  obtain ⟨p1, h1, p2, h2, p3, h3, p4, h4, p5, h5, p6, h6, rfl⟩ := h
  simp only [fileAxes, property_values _ _ _ _ _ h1, property_values _ _ _ _ _ h2,
    property_values _ _ _ _ _ h3, property_values _ _ _ _ _ h4, property_values _ _ _ _ _ h5, property_values _ _ _ _ _ h6]

/-! ## Objects and nodes -/

theorem findSome_filterMap {α β : Type} (f : α → Option β) (p : β → Bool) : ∀ l : List α,
    ((l.filterMap f).filter p).head? = l.findSome? fun c => (f c).filter p := by
  intro l
  induction l with
  | nil => rfl
  | cons a l ih =>
    cases h : f a with
    | none =>
      rw [List.filterMap_cons_none h, List.findSome?_cons, ih, h]
      rfl
    | some b =>
      rw [List.filterMap_cons_some h, List.findSome?_cons, h, Option.filter_some]
      by_cases hp : p b = true
      · rw [List.filter_cons_of_pos hp, if_pos hp]; rfl
      · rw [List.filter_cons_of_neg hp, if_neg hp]; exact ih


section

variable (root : Node) (hv : versionOf root ≠ 6100) (hn : DistinctIDs root)
include hv

theorem objs_eq : (build root).objs = sceneNode :: fileObjects root := (build_fields root hv).2.2.1

theorem node_zero : (build root).node 0 = sceneNode :=
  node_of_get _ 0 sceneNode (by rw [objs_eq root hv]; rfl)

theorem node_mem (k : Nat) (hk : k < (build root).objs.length) : (build root).node k ∈ sceneNode :: fileObjects root := by
  obtain ⟨n, h1⟩ : ∃ n, (build root).objs[k]? = some n := ⟨_, List.getElem?_eq_getElem hk⟩
  rw [node_of_get _ _ _ h1, ← objs_eq root hv]
  exact List.mem_of_getElem? h1

theorem node_surj (n : Node) (h : n ∈ sceneNode :: fileObjects root) :
    ∃ k, k < (build root).objs.length ∧ (build root).node k = n := by
  rw [← objs_eq root hv] at h
  obtain ⟨k, hk⟩ := List.mem_iff_getElem?.1 h
  refine ⟨k, ?_, node_of_get _ _ _ hk⟩
  by_contra hlt
  rw [List.getElem?_eq_none (by omega)] at hk
  simp at hk

omit hv in
theorem FileModel.mem {root n : Node} (h : FileModel root n) : n ∈ sceneNode :: fileObjects root := by
  rcases h with rfl | ⟨h, -⟩
  · exact List.mem_cons_self
  · exact List.mem_cons_of_mem _ h

theorem ownGeometry_false (k : Nat) : (build root).ownGeometry k = false := by
  have h1 := (foldConnections_fields (getChildren (findChild (some root) b! "Connections")) (loadObjects root)).2.2.2.2.2.2.2
  have h2 : (build root).ownGeometry = (loadObjects root).ownGeometry := h1
  rw [h2]
  have key : ∀ (ns : List Node) (d : FDoc), d.version ≠ 6100 → (∀ k, d.ownGeometry k = false) →
      ∀ k, (ns.foldl loadObject d).ownGeometry k = false := by
    intro ns
    induction ns with
    | nil => intro d _ h k; exact h k
    | cons n ns ih =>
      intro d hd h k
      rw [List.foldl_cons]
      refine ih (d.loadObject n) hd ?_ k
      intro k
      have hb : (d.version == 6100) = false := by simpa using hd
      simp [loadObject, hb, h]
  exact key _ (start root) hv (fun _ => rfl) k

include hn

theorem node_inj (a b : Nat) (ha : a < (build root).objs.length) (hb : b < (build root).objs.length)
    (h : (build root).node a = (build root).node b) : a = b :=
  same_id root hv hn a b ha hb (by rw [h])

theorem isModel_iff (k : Nat) (hk : k < (build root).objs.length) :
    (build root).isModel k = true ↔ FileModel root ((build root).node k) := by
  unfold FDoc.isModel FileModel
  rw [Bool.or_eq_true, beq_iff_eq, beq_iff_eq]
  constructor
  · rintro (rfl | h)
    · exact .inl (node_zero root hv)
    · rcases List.mem_cons.1 (node_mem root hv k hk) with h1 | h1
      · exact .inl h1
      · exact .inr ⟨h1, h⟩
  · rintro (h | h)
    · left
      exact node_inj root hv hn k 0 hk (by rw [objs_eq root hv]; simp) (by rw [h, node_zero root hv])
    · exact .inr h.2

theorem mem_refs (k o : Nat) (hk : k < (build root).objs.length) :
    o ∈ (build root).refs k ↔ o < (build root).objs.length ∧ FileLink root ((build root).node k) ((build root).node o) := by
  obtain ⟨hobjs, href⟩ := references_of_file root hv hn
  obtain ⟨hlt, hids⟩ := href k hk
  constructor
  · intro ho
    refine ⟨hlt o ho, ?_⟩
    have h1 : nodeID ((build root).node o) ∈ ((build root).refs k).map (fun o => nodeID ((build root).node o)) :=
      List.mem_map.2 ⟨o, ho, rfl⟩
    rw [hids] at h1
    obtain ⟨c, hc, hcv⟩ := List.mem_filterMap.1 h1
    split at hcv
    · rename_i hcond
      injection hcv with hcv
      exact ⟨c, hc, hcond.1, hcond.2.1, hcv⟩
    · simp at hcv
  · rintro ⟨ho, c, hc, hu, ht, hf⟩
    have hmem : linkFrom c ∈ 0 :: (fileObjects root).map nodeID := by
      rw [hf, ← map_ids]
      exact List.mem_map_of_mem (node_mem root hv o ho)
    have h1 : linkFrom c ∈ ((build root).refs k).map (fun o => nodeID ((build root).node o)) := by
      rw [hids]
      exact List.mem_filterMap.2 ⟨c, hc, by rw [if_pos ⟨hu, ht, hmem⟩]⟩
    obtain ⟨o', ho', he⟩ := List.mem_map.1 h1
    have : o' = o := same_id root hv hn o' o (hlt o' ho') ho (by rw [he, hf])
    rw [← this]; exact ho'

theorem mem_childModels (k o : Nat) (hk : k < (build root).objs.length) :
    o ∈ (build root).childModels k ↔ o < (build root).objs.length ∧ FileModel root ((build root).node o) ∧
      FileLink root ((build root).node k) ((build root).node o) := by
  unfold childModels
  rw [List.mem_filter, mem_refs root hv hn k o hk]
  constructor
  · rintro ⟨⟨h1, h2⟩, h3⟩
    exact ⟨h1, (isModel_iff root hv hn o h1).1 h3, h2⟩
  · rintro ⟨h1, h2, h3⟩
    exact ⟨⟨h1, h3⟩, (isModel_iff root hv hn o h1).2 h2⟩

theorem childOf_some (k : Nat) (hk : k < (build root).objs.length) (c : Node) (o : Nat) :
    (loadObjects root).childOf k c = some o ↔ Used c ∧ linkTo c = nodeID ((build root).node k) ∧
      o < (build root).objs.length ∧ linkFrom c = nodeID ((build root).node o) := by
  have hl := loadObjects_fields root hv
  have hnd : ((sceneNode :: fileObjects root).map nodeID).Nodup := by rw [map_ids]; exact hn
  have hend : ∀ (i : Nat) (x : Nat), (loadObjects root).endOf c i = some x ↔ x < (build root).objs.length ∧
      toInt64 (attr (some c) i) 0 = nodeID ((build root).node x) := by
    intro i x
    unfold endOf
    rw [if_neg (by rw [hl.2.1]; exact hv), hl.2.2.2.2.2.1]
    constructor
    · intro h
      obtain ⟨n, h1, h2⟩ := idTable_lookup _ _ _ h
      have h1' : (build root).objs[x]? = some n := by rw [objs_eq root hv]; exact h1
      refine ⟨?_, by rw [node_of_get _ _ _ h1', h2]⟩
      by_contra hlt
      rw [List.getElem?_eq_none (by omega)] at h1'
      simp at h1'
    · rintro ⟨h1, h2⟩
      obtain ⟨n, h3⟩ : ∃ n, (build root).objs[x]? = some n := ⟨_, List.getElem?_eq_getElem h1⟩
      rw [h2, node_of_get _ _ _ h3]
      rw [objs_eq root hv] at h3
      exact lookup_idTable _ hnd x n h3
  unfold childOf
  constructor
  · intro h
    split at h
    · rename_i hc
      exact ⟨(usable_iff c).1 hc.1, ((hend 2 k).1 hc.2).2, ((hend 1 o).1 h).1, ((hend 1 o).1 h).2⟩
    · simp at h
  · rintro ⟨h1, h2, h3, h4⟩
    rw [if_pos ⟨(usable_iff c).2 h1, (hend 2 k).2 ⟨hk, h2⟩⟩]
    exact (hend 1 o).2 ⟨h3, h4⟩

theorem mesh_node (k : Nat) (hk : k < (build root).objs.length) :
    (((build root).findRefs k b! "Geometry").head?).map (build root).node = fileMesh root ((build root).node k) := by
  unfold findRefs fileMesh
  rw [build_refs root hv, findSome_filterMap, List.map_findSome?]
  congr 1
  funext c
  simp only [Function.comp]
  by_cases hc : Used c ∧ linkTo c = nodeID ((build root).node k)
  · rw [if_pos hc]
    cases h : (loadObjects root).childOf k c with
    | none =>
      symm
      simp only [Option.filter_none, Option.map_none, List.find?_eq_none, Bool.and_eq_true, beq_iff_eq, not_and]
      intro g hg he
      exfalso
      obtain ⟨o, ho, hog⟩ := node_surj root hv g (List.mem_cons_of_mem _ hg)
      have := (childOf_some root hv hn k hk c o).2 ⟨hc.1, hc.2, ho, by rw [hog, he]⟩
      rw [h] at this
      simp at this
    | some o =>
      obtain ⟨-, -, ho, hf⟩ := (childOf_some root hv hn k hk c o).1 h
      have huniq : ∀ g ∈ fileObjects root, nodeID g = linkFrom c → g = (build root).node o := by
        intro g hg he
        obtain ⟨o', ho', hog⟩ := node_surj root hv g (List.mem_cons_of_mem _ hg)
        have : o' = o := same_id root hv hn o' o ho' ho (by rw [hog, he, hf])
        rw [← hog, this]
      by_cases hg : ((build root).node o).name = b! "Geometry"
      · have hmem : (build root).node o ∈ fileObjects root := by
          rcases List.mem_cons.1 (node_mem root hv o ho) with h1 | h1
          · rw [h1] at hg; exact absurd hg (by decide)
          · exact h1
        have hpos : (((build root).node o).name == b! "Geometry") = true := by rw [hg]; rfl
        rw [Option.filter_some, if_pos hpos, Option.map_some]
        symm
        cases hfd : (fileObjects root).find? fun g => nodeID g == linkFrom c && g.name == b! "Geometry" with
        | none =>
          rw [List.find?_eq_none] at hfd
          have := hfd _ hmem
          simp [hf, hg] at this
        | some g =>
          have h1 := List.mem_of_find?_eq_some hfd
          have h2 := List.find?_some hfd
          simp only [Bool.and_eq_true, beq_iff_eq] at h2
          rw [huniq g h1 h2.1]
      · have hneg : ¬ (((build root).node o).name == b! "Geometry") = true := by simpa using hg
        rw [Option.filter_some, if_neg hneg, Option.map_none]
        symm
        rw [List.find?_eq_none]
        intro g hgm
        simp only [Bool.and_eq_true, beq_iff_eq, not_and]
        intro he
        rw [huniq g hgm he]
        exact hg
  · rw [if_neg hc]
    cases h : (loadObjects root).childOf k c with
    | none => rfl
    | some o =>
      obtain ⟨h1, h2, -, -⟩ := (childOf_some root hv hn k hk c o).1 h
      exact absurd ⟨h1, h2⟩ hc

end

end Verif.Conv
