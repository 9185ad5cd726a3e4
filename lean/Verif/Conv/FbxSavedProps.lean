import Verif.Conv.FbxSavedLemmas

/-!
C181: an FBX document that is saved as text and loaded is converted to what the document describes.
-/

namespace Verif.Conv

open Verif.Geom
open Verif.Mqo (Str Object Face MorphTargetList)
open Verif.Mmd (Bytes toSigned)
open Verif.Fbx hiding Conv
open Verif.Fbx.FDoc

variable {F : Type}

/-! ## Documents that the text form can hold -/

/-- The numbers of an array of vertices come back from their text. -/
def PlainFloats (tenv : TextEnv) (cv : Fbx.Conv) (c : Node) : Prop :=
  ∃ l, l ≠ [] ∧
    ((c.attrs = [.arr .f32 l] ∧ ∀ b ∈ l, b < 4294967296 ∧
      ((46 ∈ tenv.showF32 b ∧ cv.ofF64 (tenv.parseF64 (tenv.showF32 b)).1 = b) ∨
        ∃ v : Int, -2147483648 ≤ v ∧ v < 2147483648 ∧ tenv.showF32 b = decInt v)) ∨
     (c.attrs = [.arr .f64 l] ∧ ∀ b ∈ l, b < 18446744073709551616 ∧
      ((46 ∈ tenv.showF64 b ∧ (tenv.parseF64 (tenv.showF64 b)).1 = b) ∨
        ∃ v : Int, -2147483648 ≤ v ∧ v < 2147483648 ∧ tenv.showF64 b = decInt v)))

/-- An array of indexes. -/
def PlainInts (c : Node) : Prop := ∃ l, c.attrs = [.arr .i32 l] ∧ l ≠ [] ∧ ∀ b ∈ l, b < 4294967296

/-- The name of a model: as binary files have it, not with `Model::` in front or `::Model` behind, or as text
files have it. -/
def PlainName (env : FbxEnv F) (b : Bytes) : Prop :=
  (∃ x, b = x ++ 0 :: 1 :: b! "Model" ∧ 0 ∉ x ∧ ¬ "Model::".toList <+: env.text x ++ "::Model".toList ∧
    ¬ "::Model".toList <:+ env.text x) ∨ splitName b = none

/-- A document as programs write it: what the conversion reads of it has a text form that keeps it. -/
structure KeptFile (tenv : TextEnv) (env : FbxEnv F) (root : Node) : Prop where
  safe : NodesSafe tenv (root.children.filter fun n => n.name ≠ b! "FileId")
  version : ∀ n, findChild (findChild (some root) b! "FBXHeaderExtension") b! "FBXVersion" = some n →
    HasID n ∨ ∃ v rest, n.attrs = .int v :: rest ∧ Fits v ∧ v ≠ 6100
  ids : ∀ n ∈ fileObjects root, HasID n
  links : ∀ c ∈ fileConnections root, PlainLink c
  /-- models have a name and a kind behind their id -/
  models : ∀ n ∈ fileObjects root, n.name = b! "Model" →
    (∃ v name kind rest, n.attrs = v :: .str name :: .str kind :: rest ∧ PlainName env name) ∧ PlainProps tenv env.cv n
  meshes : ∀ n ∈ fileObjects root, n.name = b! "Geometry" →
    (∀ c, findChild (some n) b! "Vertices" = some c → PlainFloats tenv env.cv c) ∧
    ∀ c, findChild (some n) b! "PolygonVertexIndex" = some c → PlainInts c
  types : PlainTypes root
  templates : ∀ typ o, templateOf root typ = some o → ∀ p ∈ o.nodes.getD [], PlainProp tenv env.cv p
  settings : ∀ n, findChild (some root) b! "GlobalSettings" = some n → PlainProps tenv env.cv n
  /-- the axes are integers -/
  axes : ∀ p, (p ∈ getChildren (findChild (findChild (some root) b! "GlobalSettings") b! "Properties70") ∨
      ∃ o, templateOf root b! "GlobalSettings" = some o ∧ p ∈ o.nodes.getD []) →
    ∀ name t l f vals, p.attrs = .str name :: t :: l :: f :: vals →
      name = b! "CoordAxis" ∨ name = b! "UpAxis" ∨ name = b! "FrontAxis" →
      ∃ ty x rest, vals = .num ty x :: rest ∧ IntTy ty ∧ x < 256 ^ ty.width
  /-- characters of strings: the ASCII parts that the conversion removes are seen in front and behind -/
  text : ∀ b, env.text (b ++ b! "::Model") = env.text b ++ "::Model".toList ∧
    env.text (b! "Model::" ++ b) = "Model::".toList ++ env.text b

/-! ## Nodes -/

section

variable (tenv : TextEnv) (root root' : Node) (hs : Sections tenv root root') (hn : DistinctIDs root)
  (ho : ∀ n ∈ fileObjects root, HasID n) (hc : ∀ c ∈ fileConnections root, PlainLink c)

/-- The node of `root` with the id of a node of the loaded file. -/
def backNode (root x : Node) : Node :=
  ((sceneNode :: fileObjects root).find? fun n => nodeID n == nodeID x).getD sceneNode

include hs in
theorem objects_loaded : fileObjects root' = (fileObjects root).map (loadedNode tenv) := by
  unfold fileObjects
  rw [hs b! "Objects" (by decide), getChildren_loaded]

include hs in
theorem connections_loaded : fileConnections root' = (fileConnections root).map (loadedNode tenv) := by
  unfold fileConnections
  rw [hs b! "Connections" (by decide), getChildren_loaded]

theorem sceneNode_loaded : loadedNode tenv sceneNode = sceneNode := rfl

include ho in
theorem id_loaded (n : Node) (h : n ∈ sceneNode :: fileObjects root) : nodeID (loadedNode tenv n) = nodeID n := by
  rcases List.mem_cons.1 h with rfl | h
  · rfl
  · exact nodeID_loaded tenv n (ho n h)

include hn ho in
theorem back_loaded (n : Node) (h : n ∈ sceneNode :: fileObjects root) : backNode root (loadedNode tenv n) = n := by
  unfold backNode
  have hd : ((sceneNode :: fileObjects root).map nodeID).Nodup := hn
  cases hf : (sceneNode :: fileObjects root).find? fun m => nodeID m == nodeID (loadedNode tenv n) with
  | none =>
    have := List.find?_eq_none.1 hf n h
    rw [id_loaded tenv root ho n h] at this
    simp at this
  | some m =>
    have h1 := List.find?_some hf
    rw [id_loaded tenv root ho n h] at h1
    exact eq_of_map_nodup nodeID _ hd m n (List.mem_of_find?_eq_some hf) h (by simpa using h1)

include hs hn ho in
theorem loaded_back (x : Node) (h : x ∈ sceneNode :: fileObjects root') :
    backNode root x ∈ sceneNode :: fileObjects root ∧ loadedNode tenv (backNode root x) = x := by
  obtain ⟨n, h1, rfl⟩ : ∃ n ∈ sceneNode :: fileObjects root, loadedNode tenv n = x := by
    rw [objects_loaded tenv root root' hs] at h
    rcases List.mem_cons.1 h with rfl | h
    · exact ⟨sceneNode, by simp, rfl⟩
    · obtain ⟨n, h1, rfl⟩ := List.mem_map.1 h
      exact ⟨n, by simp [h1], rfl⟩
  rw [back_loaded tenv root hn ho n h1]
  exact ⟨h1, rfl⟩

include hs in
theorem model_loaded (n : Node) (h : FileModel root n) : FileModel root' (loadedNode tenv n) := by
  rcases h with rfl | ⟨h1, h2⟩
  · exact .inl rfl
  · refine .inr ⟨?_, by rw [loadedNode_name, h2]⟩
    rw [objects_loaded tenv root root' hs]
    exact List.mem_map_of_mem h1

include hs hn ho in
theorem model_back (x : Node) (h : FileModel root' x) :
    FileModel root (backNode root x) ∧ loadedNode tenv (backNode root x) = x := by
  obtain ⟨h1, h2⟩ := loaded_back tenv root root' hs hn ho x h.mem
  refine ⟨?_, h2⟩
  rcases List.mem_cons.1 h1 with h3 | h3
  · exact .inl h3
  · right
    refine ⟨h3, ?_⟩
    rcases h with rfl | ⟨-, h⟩
    · exfalso
      have hd : ((sceneNode :: fileObjects root).map nodeID).Nodup := hn
      have h4 : nodeID (backNode root sceneNode) = 0 := by
        rw [← id_loaded tenv root ho _ h1, h2]; rfl
      rw [List.map_cons, List.nodup_cons] at hd
      exact hd.1 (List.mem_map.2 ⟨_, h3, h4⟩)
    · rw [← h2, loadedNode_name] at h
      exact h

include hs ho hc in
theorem link_iff (p n : Node) (hp : p ∈ sceneNode :: fileObjects root) (hm : n ∈ sceneNode :: fileObjects root) :
    FileLink root' (loadedNode tenv p) (loadedNode tenv n) ↔ FileLink root p n := by
  unfold FileLink
  rw [connections_loaded tenv root root' hs, id_loaded tenv root ho p hp, id_loaded tenv root ho n hm]
  constructor
  · rintro ⟨c, h1, h2, h3, h4⟩
    obtain ⟨c, h5, rfl⟩ := List.mem_map.1 h1
    obtain ⟨k1, k2, k3⟩ := link_loaded tenv c (hc c h5)
    exact ⟨c, h5, k1.1 h2, by rw [← k3]; exact h3, by rw [← k2]; exact h4⟩
  · rintro ⟨c, h1, h2, h3, h4⟩
    obtain ⟨k1, k2, k3⟩ := link_loaded tenv c (hc c h1)
    exact ⟨_, List.mem_map_of_mem h1, k1.2 h2, by rw [k3]; exact h3, by rw [k2]; exact h4⟩

include hs ho hc in
theorem mesh_loaded (n : Node) (h : n ∈ sceneNode :: fileObjects root) :
    fileMesh root' (loadedNode tenv n) = (fileMesh root n).map (loadedNode tenv) := by
  unfold fileMesh
  rw [connections_loaded tenv root root' hs, objects_loaded tenv root root' hs, id_loaded tenv root ho n h,
    List.findSome?_map]
  have e : ∀ c ∈ fileConnections root,
      (if Used (loadedNode tenv c) ∧ linkTo (loadedNode tenv c) = nodeID n then
        ((fileObjects root).map (loadedNode tenv)).find? fun g =>
          nodeID g == linkFrom (loadedNode tenv c) && g.name == b! "Geometry"
      else none) =
      (if Used c ∧ linkTo c = nodeID n then
        (fileObjects root).find? fun g => nodeID g == linkFrom c && g.name == b! "Geometry"
      else none).map (loadedNode tenv) := by
    intro c hcc
    obtain ⟨k1, k2, k3⟩ := link_loaded tenv c (hc c hcc)
    by_cases hu : Used c ∧ linkTo c = nodeID n
    · rw [if_pos hu, if_pos ⟨k1.2 hu.1, by rw [k3]; exact hu.2⟩, List.find?_map, k2]
      congr 1
      have : ∀ l : List Node, (∀ g ∈ l, g ∈ fileObjects root) →
          l.find? ((fun g => nodeID g == linkFrom c && g.name == b! "Geometry") ∘ loadedNode tenv) =
            l.find? fun g => nodeID g == linkFrom c && g.name == b! "Geometry" := by
        intro l
        induction l with
        | nil => intro _; rfl
        | cons g l ih =>
          intro hl
          rw [List.find?_cons, List.find?_cons, ih fun x hx => hl x (by simp [hx])]
          have : ((fun g => nodeID g == linkFrom c && g.name == b! "Geometry") ∘ loadedNode tenv) g =
              (nodeID g == linkFrom c && g.name == b! "Geometry") := by
            simp only [Function.comp, loadedNode_name, nodeID_loaded tenv g (ho g (hl g (by simp)))]
          rw [this]
      exact this _ fun g hg => hg
    · rw [if_neg hu, if_neg fun hx => hu ⟨k1.1 hx.1, by rw [← k3]; exact hx.2⟩]; rfl
  have key : ∀ l : List Node, (∀ c ∈ l, c ∈ fileConnections root) →
      l.findSome? ((fun c => if Used c ∧ linkTo c = nodeID n then
        ((fileObjects root).map (loadedNode tenv)).find? fun g => nodeID g == linkFrom c && g.name == b! "Geometry"
        else none) ∘ loadedNode tenv) =
      (l.findSome? fun c => if Used c ∧ linkTo c = nodeID n then
        (fileObjects root).find? fun g => nodeID g == linkFrom c && g.name == b! "Geometry"
        else none).map (loadedNode tenv) := by
    intro l
    induction l with
    | nil => intro _; rfl
    | cons c l ih =>
      intro hl
      rw [List.findSome?_cons, List.findSome?_cons, ih fun x hx => hl x (by simp [hx])]
      have := e c (hl c (by simp))
      simp only [Function.comp] at this ⊢
      rw [this]
      cases (if Used c ∧ linkTo c = nodeID n then
        (fileObjects root).find? fun g => nodeID g == linkFrom c && g.name == b! "Geometry" else none) <;> rfl
  exact key _ fun c hcc => hcc

end

/-! ## What is read of the nodes -/

section

variable (tenv : TextEnv) (env : FbxEnv F) (laws : TextLaws tenv env.cv) (root root' : Node)
  (hs : Sections tenv root root') (hk : KeptFile tenv env root)

theorem textName_word (b w : Bytes) (hw : 58 ∉ w) (hs : splitName w = none) : textName b = w ↔ b = w := by
  constructor
  · intro h
    unfold textName at h
    cases hb : splitName b with
    | none => rw [hb] at h; exact h
    | some p =>
      rw [hb] at h
      simp only at h
      exact absurd (by rw [← h]; simp) hw
  · rintro rfl
    simp [textName, hs]

include hk in
theorem limb_loaded (n : Node) (h : FileModel root n) : IsLimb (loadedNode tenv n) ↔ IsLimb n := by
  rcases h with rfl | ⟨h1, h2⟩
  · rfl
  · obtain ⟨⟨v, name, kind, rest, e, -⟩, -⟩ := hk.models n h1 h2
    obtain ⟨ty, b, rest', e', t1, t2⟩ := hk.ids n h1
    rw [e] at e'
    simp only [List.cons.injEq] at e'
    obtain ⟨rfl, -⟩ := e'
    obtain ⟨w, l1, -, -⟩ := int_number env tenv ty b t1 t2
    have e2 : (loadedNode tenv n).attrs = .num .i64 w :: .str (textName name) :: .str (textName kind) ::
        rest.flatMap (loaded tenv) := by
      rw [loadedNode_attrs, e, List.flatMap_cons, l1]; rfl
    unfold IsLimb
    have a1 : toStr (attr (some (loadedNode tenv n)) 2) = textName kind := by simp [attr, e2, toStr]
    have a2 : toStr (attr (some n) 2) = kind := by simp [attr, e, toStr]
    rw [a1, a2]
    exact textName_word kind _ (by decide) (by decide)

theorem trim_suffix_form (x : Str) (h1 : ¬ "Model::".toList <+: x ++ "::Model".toList) :
    trimSuffix (trimPrefix (x ++ "::Model".toList) "Model::".toList) "::Model".toList = x := by
  have e1 : trimPrefix (x ++ "::Model".toList) "Model::".toList = x ++ "::Model".toList := by
    unfold trimPrefix
    rw [if_neg]
    rw [List.isPrefixOf_iff_prefix]
    exact h1
  rw [e1]
  unfold trimSuffix
  rw [if_pos (List.isSuffixOf_iff_suffix.2 ⟨x, rfl⟩), List.length_append, Nat.add_sub_cancel, List.take_left]

theorem trim_prefix_form (x : Str) (h1 : ¬ "::Model".toList <:+ x) :
    trimSuffix (trimPrefix ("Model::".toList ++ x) "Model::".toList) "::Model".toList = x := by
  have e1 : trimPrefix ("Model::".toList ++ x) "Model::".toList = x := by
    unfold trimPrefix
    rw [if_pos (List.isPrefixOf_iff_prefix.2 ⟨x, rfl⟩), List.drop_left]
  rw [e1]
  unfold trimSuffix
  rw [if_neg]
  rw [List.isSuffixOf_iff_suffix]
  exact h1

theorem fbxName_plain (b : Bytes) (h : 0 ∉ b) : fbxName b = b := by
  induction b with
  | nil => rfl
  | cons a b ih =>
    cases b with
    | nil => rfl
    | cons c b =>
      have ha : a ≠ 0 := by rintro rfl; simp at h
      rw [fbxName, if_neg (fun hx => ha hx.1), ih fun hc => h (by simp [hc])]

theorem fbxName_sep (x t : Bytes) (h : 0 ∉ x) (ht : 0 ∉ t) : fbxName (x ++ 0 :: 1 :: t) = x ++ (58 :: 58 :: t) := by
  induction x with
  | nil => simp [fbxName, fbxName_plain t ht]
  | cons a x ih =>
    have ha : a ≠ 0 := by rintro rfl; simp at h
    have hi := ih fun hc => h (by simp [hc])
    cases x with
    | nil =>
      simp only [List.cons_append, List.nil_append] at hi ⊢
      rw [fbxName, if_neg (fun hx => ha hx.1), hi]
    | cons c x =>
      simp only [List.cons_append] at hi ⊢
      rw [fbxName, if_neg (fun hx => ha hx.1), hi]

include hk in
/-- The object of a model has the same name. -/
theorem name_loaded (n : Node) (h : FileModel root n) :
    trimSuffix (trimPrefix (env.name (loadedNode tenv n)) "Model::".toList) "::Model".toList =
      trimSuffix (trimPrefix (env.name n) "Model::".toList) "::Model".toList := by
  rcases h with rfl | ⟨h1, h2⟩
  · rfl
  · obtain ⟨⟨v, name, kind, rest, e, hname⟩, -⟩ := hk.models n h1 h2
    obtain ⟨ty, b, rest', e', t1, t2⟩ := hk.ids n h1
    rw [e] at e'
    simp only [List.cons.injEq] at e'
    obtain ⟨rfl, -⟩ := e'
    obtain ⟨w, l1, -, -⟩ := int_number env tenv ty b t1 t2
    have e2 : (loadedNode tenv n).attrs = .num .i64 w :: .str (textName name) :: .str (textName kind) ::
        rest.flatMap (loaded tenv) := by
      rw [loadedNode_attrs, e, List.flatMap_cons, l1]; rfl
    have a1 : env.name (loadedNode tenv n) = env.text (fbxName (textName name)) := by
      simp [FbxEnv.name, attr, e2, toStr]
    have a2 : env.name n = env.text (fbxName name) := by simp [FbxEnv.name, attr, e, toStr]
    rw [a1, a2]
    rcases hname with ⟨x, rfl, hx, hp, hsuf⟩ | hname
    · have b1 : textName (x ++ 0 :: 1 :: b! "Model") = b! "Model::" ++ x := by
        simp only [textName, splitName_sep x _ hx]; rfl
      have b2 : fbxName (b! "Model::" ++ x) = b! "Model::" ++ x := fbxName_plain _ (by
        intro hc
        rcases List.mem_append.1 hc with hc | hc
        · revert hc; decide
        · exact hx hc)
      have b3 : fbxName (x ++ 0 :: 1 :: b! "Model") = x ++ b! "::Model" := fbxName_sep x _ hx (by decide)
      rw [b1, b2, b3, (hk.text x).1, (hk.text x).2, trim_suffix_form _ hp, trim_prefix_form _ hsuf]
    · rw [show textName name = name by simp [textName, hname]]

include hs hk laws in
/-- A property read as three numbers. -/
theorem vector_loaded (typ name : Bytes) (n : Option Node) (hp : ∀ m, n = some m → PlainProps tenv env.cv m) :
    ∃ p p', propertyOf root typ n name = some p ∧ propertyOf root' typ (n.map (loadedNode tenv)) name = some p' ∧
      List.Forall₂ (SameNumber env) p.attrs p'.attrs := by
  refine propertyOf_loaded tenv root root' hs hk.types (fun _ => List.Forall₂ (SameNumber env)) typ name .nil n ?_
  intro p hpm
  have : PlainProp tenv env.cv p := by
    rcases hpm with hpm | ⟨o, h1, h2⟩
    · cases n with
      | none => simp [propNodes, findChild] at hpm
      | some m =>
        refine hp m rfl p ?_
        unfold propNodes at hpm
        cases hf : findChild (some m) b! "Properties70" with
        | none => rw [hf] at hpm; simp at hpm
        | some c => rw [hf] at hpm; simpa [getChildren] using hpm
    · exact hk.templates typ o h1 p h2
  obtain ⟨name, t, l, f, vals, e, h1, h2⟩ := this
  exact ⟨name, t, l, f, vals, e, h1, plain_numbers env tenv laws vals h2⟩

theorem toVector3_same (p p' : Property) (h : List.Forall₂ (SameNumber env) p.attrs p'.attrs) (d : Vec3 F) :
    env.toVector3 p' d = env.toVector3 p d := by
  unfold FbxEnv.toVector3
  rw [same_get env _ _ h, same_get env _ _ h, same_get env _ _ h]

theorem props_of_model (n : Node) (hk : KeptFile tenv env root) (h : FileModel root n) :
    PlainProps tenv env.cv n := by
  rcases h with rfl | ⟨h1, h2⟩
  · intro p hp
    exact absurd hp (by simp [sceneNode, Node.leaf, findChild, getChildren])
  · exact (hk.models n h1 h2).2

include hs hk laws in
theorem matrix_loaded [Add F] [Mul F] [Zero F] [One F] (n : Node) (h : FileModel root n) :
    env.matrix root' (loadedNode tenv n) = env.matrix root n ∧ (env.matrix root n).isSome = true := by
  have hp := props_of_model tenv env root n hk h
  have key : ∀ name, ∃ p p', propertyOf root n.name (some n) name = some p ∧
      propertyOf root' n.name (some (loadedNode tenv n)) name = some p' ∧
      List.Forall₂ (SameNumber env) p.attrs p'.attrs := fun name =>
    vector_loaded tenv env laws root root' hs hk n.name name (some n) (by rintro m ⟨⟩; exact hp)
  obtain ⟨p1, q1, a1, b1, c1⟩ := key b! "PreRotation"
  obtain ⟨p2, q2, a2, b2, c2⟩ := key b! "Lcl Translation"
  obtain ⟨p3, q3, a3, b3, c3⟩ := key b! "Lcl Rotation"
  obtain ⟨p4, q4, a4, b4, c4⟩ := key b! "Lcl Scaling"
  unfold FbxEnv.matrix
  rw [loadedNode_name, a1, a2, a3, a4, b1, b2, b3, b4]
  simp only [Option.bind_eq_bind, Option.bind_some, toVector3_same env _ _ c1, toVector3_same env _ _ c2,
    toVector3_same env _ _ c3, toVector3_same env _ _ c4]
  exact ⟨trivial, rfl⟩

include hs hk laws in
theorem pivot_loaded [Zero F] (n : Node) (h : FileModel root n) : (env.pivot root' (loadedNode tenv n)).isSome = true := by
  obtain ⟨p, p', a, b, c⟩ := vector_loaded tenv env laws root root' hs hk n.name b! "ScalingPivot" (some n)
    (by rintro m ⟨⟩; exact props_of_model tenv env root n hk h)
  unfold FbxEnv.pivot
  rw [loadedNode_name]
  rw [Option.map_some] at b
  rw [b]; rfl

include hs hk laws in
theorem axes_loaded [One F] : env.axes root' = env.axes root ∧ (env.axes root).isSome = true := by
  have hset : ∀ m, findChild (some root) b! "GlobalSettings" = some m → PlainProps tenv env.cv m := hk.settings
  have hroot : findChild (some root') b! "GlobalSettings" =
      (findChild (some root) b! "GlobalSettings").map (loadedNode tenv) := hs _ (by decide)
  have num : ∀ name, ∃ p p', propertyOf root b! "GlobalSettings" (findChild (some root) b! "GlobalSettings") name = some p ∧
      propertyOf root' b! "GlobalSettings" (findChild (some root') b! "GlobalSettings") name = some p' ∧
      List.Forall₂ (SameNumber env) p.attrs p'.attrs := by
    intro name
    rw [hroot]
    exact vector_loaded tenv env laws root root' hs hk _ name _ hset
  have int : ∀ name, (name = b! "CoordAxis" ∨ name = b! "UpAxis" ∨ name = b! "FrontAxis") →
      ∃ p p', propertyOf root b! "GlobalSettings" (findChild (some root) b! "GlobalSettings") name = some p ∧
      propertyOf root' b! "GlobalSettings" (findChild (some root') b! "GlobalSettings") name = some p' ∧
      ∀ d, toInt64 (attr (some (.leaf [] p'.attrs)) 0) d = toInt64 (attr (some (.leaf [] p.attrs)) 0) d := by
    intro name hname
    rw [hroot]
    obtain ⟨p, p', h1, h2, h3⟩ := propertyOf_loaded tenv root root' hs hk.types (fun nm vs ws =>
      (nm = b! "CoordAxis" ∨ nm = b! "UpAxis" ∨ nm = b! "FrontAxis") →
        ∀ d, toInt64 (attr (some (.leaf [] ws)) 0) d = toInt64 (attr (some (.leaf [] vs)) 0) d)
      b! "GlobalSettings" name (fun _ _ => rfl) (findChild (some root) b! "GlobalSettings") (by
        intro p hpm
        have hmem : p ∈ getChildren (findChild (findChild (some root) b! "GlobalSettings") b! "Properties70") ∨
            ∃ o, templateOf root b! "GlobalSettings" = some o ∧ p ∈ o.nodes.getD [] := by
          rcases hpm with hpm | hpm
          · left
            unfold propNodes at hpm
            cases hf : findChild (findChild (some root) b! "GlobalSettings") b! "Properties70" with
            | none => rw [hf] at hpm; simp at hpm
            | some c => rw [hf] at hpm; simpa [getChildren] using hpm
          · exact .inr hpm
        have hplain : PlainProp tenv env.cv p := by
          rcases hmem with hm | ⟨o, h1, h2⟩
          · cases hg : findChild (some root) b! "GlobalSettings" with
            | none => rw [hg] at hm; simp [findChild, getChildren] at hm
            | some m => rw [hg] at hm; exact hset m hg p hm
          · exact hk.templates _ o h1 p h2
        obtain ⟨nm, t, l, f, vals, e, h1, -⟩ := hplain
        refine ⟨nm, t, l, f, vals, e, h1, ?_⟩
        intro hnm d
        obtain ⟨ty, x, rest, rfl, t1, t2⟩ := hk.axes p hmem nm _ _ _ vals e hnm
        obtain ⟨w, l1, -, l3⟩ := int_number env tenv ty x t1 t2
        rw [List.flatMap_cons, l1]
        exact l3 d)
    exact ⟨p, p', h1, h2, h3 hname⟩
  obtain ⟨p1, q1, a1, b1, c1⟩ := int b! "CoordAxis" (by simp)
  obtain ⟨p2, q2, a2, b2, c2⟩ := num b! "CoordAxisSign"
  obtain ⟨p3, q3, a3, b3, c3⟩ := int b! "UpAxis" (by simp)
  obtain ⟨p4, q4, a4, b4, c4⟩ := num b! "UpAxisSign"
  obtain ⟨p5, q5, a5, b5, c5⟩ := int b! "FrontAxis" (by simp)
  obtain ⟨p6, q6, a6, b6, c6⟩ := num b! "FrontAxisSign"
  unfold FbxEnv.axes
  simp only [a1, a2, a3, a4, a5, a6, b1, b2, b3, b4, b5, b6, Option.bind_eq_bind, Option.bind_some]
  rw [c1, c3, c5, same_get env _ _ c2, same_get env _ _ c4, same_get env _ _ c6]
  exact ⟨rfl, rfl⟩

include laws hk in
theorem geometry_loaded (g : Node) (hg : g ∈ fileObjects root) (hn : g.name = b! "Geometry") :
    geometryInit env.cv (loadedNode tenv g) = geometryInit env.cv g := by
  obtain ⟨h1, h2⟩ := hk.meshes g hg hn
  have f1 : getFloat32Array env.cv (findChild (some (loadedNode tenv g)) b! "Vertices") =
      getFloat32Array env.cv (findChild (some g) b! "Vertices") := by
    have := findChild_loaded tenv (some g) b! "Vertices"
    rw [Option.map_some] at this
    rw [this]
    cases hc : findChild (some g) b! "Vertices" with
    | none => rfl
    | some c =>
      obtain ⟨l, hl, ⟨e, hb⟩ | ⟨e, hb⟩⟩ := h1 c hc
      · obtain ⟨v, k1, k2⟩ := f32_array_saved tenv env.cv laws l hl hb
        rw [Option.map_some, getFloat32Array_leaf env.cv c _ l e rfl]
        exact getFloat32Array_leaf env.cv _ v l (by rw [loadedNode_attrs, e]; simpa using k1) (by rw [k2]; rfl)
      · obtain ⟨v, k1, k2⟩ := f64_array_saved tenv env.cv laws l hl hb
        have k3 : toFloat32Array env.cv (some (.arr .f64 l)) = some (l.map env.cv.ofF64) := by simp [toFloat32Array, hl]
        rw [Option.map_some, getFloat32Array_leaf env.cv c _ _ e k3]
        exact getFloat32Array_leaf env.cv _ v _ (by rw [loadedNode_attrs, e]; simpa using k1) (by rw [k2, k3])
  have f2 : getInt32Array (findChild (some (loadedNode tenv g)) b! "PolygonVertexIndex") =
      getInt32Array (findChild (some g) b! "PolygonVertexIndex") := by
    have := findChild_loaded tenv (some g) b! "PolygonVertexIndex"
    rw [Option.map_some] at this
    rw [this]
    cases hc : findChild (some g) b! "PolygonVertexIndex" with
    | none => rfl
    | some c =>
      obtain ⟨l, e, hl, hb⟩ := h2 c hc
      have k1 := i32_array_saved tenv env.cv laws l hl hb
      rw [Option.map_some, getInt32Array_leaf c l e]
      exact getInt32Array_leaf _ l (by rw [loadedNode_attrs, e]; simpa using k1)
  unfold geometryInit
  simp only [f1, f2]

end

/-! ## The tree of models -/

section

variable (tenv : TextEnv) (env : FbxEnv F) (root root' : Node)
  (hs : Sections tenv root root') (hn : DistinctIDs root) (hk : KeptFile tenv env root)

theorem fileMesh_mem (n g : Node) (h : fileMesh root n = some g) : g ∈ fileObjects root ∧ g.name = b! "Geometry" := by
  unfold fileMesh at h
  obtain ⟨c, -, h⟩ := List.exists_of_findSome?_eq_some h
  split at h
  · have h1 := List.find?_some h
    simp only [Bool.and_eq_true, beq_iff_eq] at h1
    exact ⟨List.mem_of_find?_eq_some h, h1.2⟩
  · simp at h

include hs hn hk in
theorem below_back (m x : Node) (h : FileBelow root' m x) (hm : FileModel root' m) :
    FileModel root' x ∧ FileBelow root (backNode root m) (backNode root x) := by
  induction h with
  | self m => exact ⟨hm, .self _⟩
  | down m c x hc hl _ ih =>
    obtain ⟨h1, h2⟩ := ih hc
    refine ⟨h1, .down _ (backNode root c) _ (model_back tenv root root' hs hn hk.ids c hc).1 ?_ h2⟩
    obtain ⟨a1, a2⟩ := model_back tenv root root' hs hn hk.ids m hm
    obtain ⟨b1, b2⟩ := model_back tenv root root' hs hn hk.ids c hc
    rw [← link_iff tenv root root' hs hk.ids hk.links _ _ a1.mem b1.mem, a2, b2]
    exact hl

include hs hk in
theorem below_loaded (m x : Node) (h : FileBelow root m x) (hm : FileModel root m) :
    FileModel root x ∧ FileBelow root' (loadedNode tenv m) (loadedNode tenv x) := by
  induction h with
  | self m => exact ⟨hm, .self _⟩
  | down m c x hc hl _ ih =>
    obtain ⟨h1, h2⟩ := ih hc
    refine ⟨h1, .down _ _ _ (model_loaded tenv root root' hs c hc) ?_ h2⟩
    rw [link_iff tenv root root' hs hk.ids hk.links _ _ hm.mem hc.mem]
    exact hl

theorem FileConverted.model {opt : FOptions F} {n : Node} (h : FileConverted root opt n) : FileModel root n := by
  cases h with
  | top _ a _ _ => exact a
  | down _ _ _ a _ _ => exact a

include hs hn hk in
theorem converted_back (opt : FOptions F) (x : Node) (h : FileConverted root' opt x) :
    FileConverted root opt (backNode root x) := by
  induction h with
  | top x hm hl hw =>
    obtain ⟨a1, a2⟩ := model_back tenv root root' hs hn hk.ids x hm
    refine .top _ a1 ?_ ?_
    · rw [← link_iff tenv root root' hs hk.ids hk.links _ _ (by simp) a1.mem, a2]; exact hl
    · rcases hw with hw | ⟨h1, y, h2, h3⟩
      · exact .inl hw
      · obtain ⟨b1, b2⟩ := below_back tenv env root root' hs hn hk _ _ h2 hm
        obtain ⟨c1, c2⟩ := model_back tenv root root' hs hn hk.ids y b1
        refine .inr ⟨?_, _, b2, ?_⟩
        · rw [← limb_loaded tenv env root hk _ a1, a2]; exact h1
        · have := mesh_loaded tenv root root' hs hk.ids hk.links _ c1.mem
          rw [c2] at this
          rw [this] at h3
          simpa using h3
  | down p x hp hm hl hw ih =>
    obtain ⟨a1, a2⟩ := model_back tenv root root' hs hn hk.ids x hm
    obtain ⟨b1, b2⟩ := model_back tenv root root' hs hn hk.ids p hp.model
    refine .down _ _ ih a1 ?_ ?_
    · rw [← link_iff tenv root root' hs hk.ids hk.links _ _ b1.mem a1.mem, a2, b2]; exact hl
    · rw [← limb_loaded tenv env root hk _ a1, a2]; exact hw

include hs hk in
theorem converted_loaded (opt : FOptions F) (n : Node) (h : FileConverted root opt n) :
    FileConverted root' opt (loadedNode tenv n) := by
  induction h with
  | top x hm hl hw =>
    refine .top _ (model_loaded tenv root root' hs x hm) ?_ ?_
    · exact (link_iff tenv root root' hs hk.ids hk.links sceneNode x (by simp) hm.mem).2 hl
    · rcases hw with hw | ⟨h1, y, h2, h3⟩
      · exact .inl hw
      · obtain ⟨b1, b2⟩ := below_loaded tenv env root root' hs hk _ _ h2 hm
        refine .inr ⟨?_, _, b2, ?_⟩
        · rw [limb_loaded tenv env root hk _ hm]; exact h1
        · rw [mesh_loaded tenv root root' hs hk.ids hk.links _ b1.mem]; simpa using h3
  | down p x hp hm hl hw ih =>
    refine .down _ _ ih (model_loaded tenv root root' hs x hm) ?_ ?_
    · exact (link_iff tenv root root' hs hk.ids hk.links _ _ hp.model.mem hm.mem).2 hl
    · rw [limb_loaded tenv env root hk _ hm]; exact hw

include hs hn hk in
theorem world_back [Field F] (laws : TextLaws tenv env.cv) (x : Node) (w : Mat4 F) (h : FileWorld env root' x w) :
    FileWorld env root (backNode root x) w := by
  have hmat : ∀ n, FileModel root n → fileMatrix env root' (loadedNode tenv n) = fileMatrix env root n := by
    intro n hm
    obtain ⟨m1, m2⟩ := matrix_loaded tenv env laws root root' hs hk n hm
    obtain ⟨m, hm2⟩ := Option.isSome_iff_exists.1 m2
    rw [hm2] at m1
    rw [← matrix_file env _ _ _ hm2, ← matrix_file env _ _ _ m1]
  induction h with
  | top x hm hl =>
    obtain ⟨a1, a2⟩ := model_back tenv root root' hs hn hk.ids x hm
    have e := hmat _ a1
    rw [a2] at e
    rw [e]
    refine .top _ a1 ?_
    intro p hp hlink
    refine hl _ (model_loaded tenv root root' hs p hp) ?_
    rw [← a2, link_iff tenv root root' hs hk.ids hk.links _ _ hp.mem a1.mem]
    exact hlink
  | step p x w hp hm hl _ ih =>
    obtain ⟨a1, a2⟩ := model_back tenv root root' hs hn hk.ids x hm
    obtain ⟨b1, b2⟩ := model_back tenv root root' hs hn hk.ids p hp
    have e := hmat _ a1
    rw [a2] at e
    rw [e]
    refine .step _ _ _ b1 a1 ?_ ih
    rw [← link_iff tenv root root' hs hk.ids hk.links _ _ b1.mem a1.mem, a2, b2]; exact hl

/-- The pairs with the nodes of the document instead of those of the loaded file. -/
def backTag (root : Node) (e : Option Node × Object F) : Option Node × Object F := (e.1.map (backNode root), e.2)

include hs hn hk in
theorem tree_back (laws : TextLaws tenv env.cv) (opt : FOptions F) (tagged : List (Option Node × Object F))
    (h : FileTreeOk env root' opt tagged) : FileTreeOk env root opt (tagged.map (backTag root)) := by
  have hmod : ∀ x o, (some x, o) ∈ tagged → FileModel root' x := fun x o hx => ((h.models x).1 ⟨o, hx⟩).model
  have hback : ∀ n o, (some n, o) ∈ tagged.map (backTag root) →
      ∃ x, (some x, o) ∈ tagged ∧ backNode root x = n ∧ FileModel root n ∧ loadedNode tenv n = x := by
    intro n o hm
    obtain ⟨⟨x, o'⟩, h1, h2⟩ := List.mem_map.1 hm
    cases x with
    | none => simp [backTag] at h2
    | some x =>
      simp only [backTag, Option.map_some, Prod.mk.injEq, Option.some.injEq] at h2
      obtain ⟨rfl, rfl⟩ := h2
      obtain ⟨a1, a2⟩ := model_back tenv root root' hs hn hk.ids x (hmod x o' h1)
      exact ⟨x, h1, rfl, a1, a2⟩
  constructor
  · intro n
    constructor
    · rintro ⟨o, ho⟩
      obtain ⟨x, h1, rfl, -, -⟩ := hback n o ho
      exact converted_back tenv env root root' hs hn hk opt x ((h.models x).1 ⟨o, h1⟩)
    · intro hc
      obtain ⟨o, ho⟩ := (h.models _).2 (converted_loaded tenv env root root' hs hk opt n hc)
      refine ⟨o, List.mem_map.2 ⟨_, ho, ?_⟩⟩
      simp only [backTag, Option.map_some, back_loaded tenv root hn hk.ids n hc.model.mem]
  · intro n o ho
    obtain ⟨x, h1, h2, h3, rfl⟩ := hback n o ho
    rw [← name_loaded tenv env root hk n h3]
    exact h.object _ o h1
  · intro A n o B e
    obtain ⟨A', ⟨x, o'⟩, B', rfl, rfl, e2, -⟩ := map_split (backTag root) tagged A (some n, o) B e
    cases x with
    | none => simp [backTag] at e2
    | some x =>
      simp only [backTag, Option.map_some, Prod.mk.injEq, Option.some.injEq] at e2
      obtain ⟨rfl, rfl⟩ := e2
      have hx : FileModel root' x := hmod x o' (by simp)
      obtain ⟨a1, a2⟩ := model_back tenv root root' hs hn hk.ids x hx
      rcases h.child A' x o' B' rfl with ⟨h1, h2⟩ | ⟨A1, p, op, M, rfl, h2, h3, h4⟩
      · refine .inl ⟨?_, h2⟩
        rw [← link_iff tenv root root' hs hk.ids hk.links _ _ (by simp) a1.mem, a2]; exact h1
      · have hp : FileModel root' p := hmod p op (by simp)
        obtain ⟨b1, b2⟩ := model_back tenv root root' hs hn hk.ids p hp
        refine .inr ⟨A1.map (backTag root), backNode root p, op, M.map (backTag root), by simp [backTag], ?_, h3, ?_⟩
        · rw [← link_iff tenv root root' hs hk.ids hk.links _ _ b1.mem a1.mem, a2, b2]; exact h2
        · intro e he
          obtain ⟨e', he', rfl⟩ := List.mem_map.1 he
          exact h4 e' he'
  · intro A o B e
    obtain ⟨A', ⟨x, o'⟩, B', rfl, rfl, e2, -⟩ := map_split (backTag root) tagged A (none, o) B e
    cases x with
    | some x => simp [backTag] at e2
    | none =>
      simp only [backTag, Option.map_none, Prod.mk.injEq, true_and] at e2
      subst e2
      obtain ⟨A1, p, op, M, rfl, h2, h3, h4⟩ := h.shape A' o' B' rfl
      refine ⟨A1.map (backTag root), backNode root p, op, M.map (backTag root), by simp [backTag], ?_, h3, h4⟩
      intro e he
      obtain ⟨e', he', rfl⟩ := List.mem_map.1 he
      simp [backTag, h2 e' he']
  · intro n o ho hm
    obtain ⟨x, h1, h2, h3, rfl⟩ := hback n o ho
    refine h.noMesh _ o h1 ?_
    rw [mesh_loaded tenv root root' hs hk.ids hk.links n h3.mem, hm]; rfl
  · intro n o g ho hm
    obtain ⟨x, h1, h2, h3, rfl⟩ := hback n o ho
    obtain ⟨g1, g2⟩ := fileMesh_mem root n g hm
    have := h.mesh _ o (loadedNode tenv g) h1 (by rw [mesh_loaded tenv root root' hs hk.ids hk.links n h3.mem, hm]; rfl)
    rw [geometry_loaded tenv env laws root hk g g1 g2] at this
    exact this

end

/-! ## C181 -/

section

variable [Field F] [DecidableEq F] [FloatOps F]

omit [Field F] [DecidableEq F] [FloatOps F] in
theorem version_loaded (tenv : TextEnv) (env : FbxEnv F) (root root' : Node) (hs : Sections tenv root root')
    (hk : KeptFile tenv env root) (hv : versionOf root ≠ 6100) : versionOf root' ≠ 6100 := by
  unfold versionOf
  rw [hs b! "FBXHeaderExtension" (by decide), findChild_loaded]
  cases hn : findChild (findChild (some root) b! "FBXHeaderExtension") b! "FBXVersion" with
  | none => simp [attr, toInt64]
  | some n =>
    rw [Option.map_some]
    rcases hk.version n hn with h | ⟨v, rest, h1, h2, h3⟩
    · have := nodeID_loaded tenv n h
      unfold nodeID at this
      rw [this]
      unfold versionOf at hv
      rw [hn] at hv
      exact hv
    · have e : (loadedNode tenv n).attrs = .num .i64 (int64Bits v) :: rest.flatMap (loaded tenv) := by
        rw [loadedNode_attrs, h1]; rfl
      simp only [attr, e, List.getElem?_cons_zero, toInt64, toSigned_int64Bits _ h2.1 h2.2]
      exact h3

omit [Field F] [DecidableEq F] [FloatOps F] in
theorem ids_loaded (tenv : TextEnv) (env : FbxEnv F) (root root' : Node) (hs : Sections tenv root root')
    (hk : KeptFile tenv env root) : (fileObjects root').map nodeID = (fileObjects root).map nodeID := by
  rw [objects_loaded tenv root root' hs, List.map_map]
  apply List.map_congr_left
  intro n hm
  exact nodeID_loaded tenv n (hk.ids n hm)

omit [Field F] [DecidableEq F] [FloatOps F] in
theorem modelIDs_loaded (tenv : TextEnv) (env : FbxEnv F) (root root' : Node) (hs : Sections tenv root root')
    (hk : KeptFile tenv env root) : modelIDs root' = modelIDs root := by
  unfold modelIDs
  rw [objects_loaded tenv root root' hs, List.filter_map, List.map_map]
  congr 1
  have e : (fileObjects root).filter ((fun n => n.name == b! "Model") ∘ loadedNode tenv) =
      (fileObjects root).filter fun n => n.name == b! "Model" := by
    apply List.filter_congr
    intro n _
    simp only [Function.comp, loadedNode_name]
  rw [e]
  apply List.map_congr_left
  intro n hm
  exact nodeID_loaded tenv n (hk.ids n (List.mem_of_mem_filter hm))

omit [Field F] [DecidableEq F] [FloatOps F] in
theorem fileTree_loaded (tenv : TextEnv) (env : FbxEnv F) (root root' : Node) (hs : Sections tenv root root')
    (hk : KeptFile tenv env root) (h : FileTree root) : FileTree root' := by
  unfold FileTree at h ⊢
  rw [modelIDs_loaded tenv env root root' hs hk, connections_loaded tenv root root' hs, List.filter_map, List.map_map]
  constructor
  · have e : (fileConnections root).filter ((fun c => decide (Used c ∧ linkFrom c ∈ modelIDs root ∧ linkTo c ∈ modelIDs root)) ∘
        loadedNode tenv) = (fileConnections root).filter
          fun c => decide (Used c ∧ linkFrom c ∈ modelIDs root ∧ linkTo c ∈ modelIDs root) := by
      apply List.filter_congr
      intro c hc
      obtain ⟨k1, k2, k3⟩ := link_loaded tenv c (hk.links c hc)
      simp only [Function.comp, k1, k2, k3]
    rw [e]
    have e2 : ((fileConnections root).filter
        fun c => decide (Used c ∧ linkFrom c ∈ modelIDs root ∧ linkTo c ∈ modelIDs root)).map (linkFrom ∘ loadedNode tenv) =
        ((fileConnections root).filter
          fun c => decide (Used c ∧ linkFrom c ∈ modelIDs root ∧ linkTo c ∈ modelIDs root)).map linkFrom := by
      apply List.map_congr_left
      intro c hc
      exact (link_loaded tenv c (hk.links c (List.mem_of_mem_filter hc))).2.1
    rw [e2]
    exact h.1
  · intro c hc hu ht
    obtain ⟨c, hcm, rfl⟩ := List.mem_map.1 hc
    obtain ⟨k1, k2, k3⟩ := link_loaded tenv c (hk.links c hcm)
    rw [k2]
    exact h.2 c hcm (k1.1 hu) (by rw [← k3]; exact ht)

omit [DecidableEq F] [FloatOps F] in
theorem scene_loaded (tenv : TextEnv) (env : FbxEnv F) (laws : TextLaws tenv env.cv) (root root' : Node)
    (hs : Sections tenv root root') (hk : KeptFile tenv env root) (hv : versionOf root ≠ 6100) (hn : DistinctIDs root)
    (a : Axes F) (coord : Mat4 F) (ha : env.axes root = some a) (hc : coordMatrix a = some coord) :
    ∃ sc, env.sceneOf (build root') = some sc := by
  have hv' := version_loaded tenv env root root' hs hk hv
  have hn' : DistinctIDs root' := by
    unfold DistinctIDs
    rw [ids_loaded tenv env root root' hs hk]; exact hn
  unfold FbxEnv.sceneOf
  rw [(build_fields root' hv').1, (axes_loaded tenv env laws root root' hs hk).1, ha]
  simp only [Option.bind_eq_bind, Option.bind_some, hc]
  have : ∀ l : List Nat, (∀ k ∈ l, k < (build root').objs.length) → ∃ ms, l.mapM (env.modelOf (build root')) = some ms := by
    intro l
    induction l with
    | nil => intro _; exact ⟨[], rfl⟩
    | cons k l ih =>
      intro hl
      obtain ⟨ms, hms⟩ := ih fun x hx => hl x (by simp [hx])
      obtain ⟨m, hm⟩ : ∃ m, env.modelOf (build root') k = some m := by
        unfold FbxEnv.modelOf
        by_cases hi : (build root').isModel k = true
        · rw [if_pos hi]
          have hk' := (isModel_iff root' hv' hn' k (hl k (by simp))).1 hi
          obtain ⟨b1, b2⟩ := model_back tenv root root' hs hn hk.ids _ hk'
          have m1 := matrix_loaded tenv env laws root root' hs hk _ b1
          have m2 := pivot_loaded tenv env laws root root' hs hk _ b1
          rw [b2] at m1 m2
          obtain ⟨m1, m3⟩ := m1
          rw [← m1] at m3
          obtain ⟨x, hx⟩ := Option.isSome_iff_exists.1 m3
          obtain ⟨y, hy⟩ := Option.isSome_iff_exists.1 m2
          rw [(build_fields root' hv').1, hx, hy]
          exact ⟨_, rfl⟩
        · rw [if_neg hi]; exact ⟨_, rfl⟩
      exact ⟨m :: ms, by rw [List.mapM_cons, hm, hms]; rfl⟩
  obtain ⟨ms, hms⟩ := this (List.range (build root').objs.length) fun k hk => List.mem_range.1 hk
  rw [hms]
  exact ⟨_, rfl⟩

/-- C181. A document that is saved as text and loaded is converted to the objects that the document describes:
those of its models and connections, with the vertices and faces of its meshes, placed as its properties say. -/
theorem saved_document_converted (facet : F) (env : FbxEnv F) (tenv : TextEnv) (laws : TextLaws tenv env.cv) (z : Zlib)
    (seek : Bool) (root : Node) (hk : KeptFile tenv env root) (hv : versionOf root ≠ 6100) (hn : DistinctIDs root)
    (htree : FileTree root) (coord : Mat4 F) (hc : coordMatrix (fileAxes env root) = some coord) :
    ∃ root' sc, parseFile tenv z seek (writeText tenv root.children) = some (some root') ∧
      env.sceneOf (build root') = some sc ∧
      ∀ (opt : FOptions F) (fuel base : Nat) (objects : List (Object F)) (morphs : List MorphTargetList) (r : FResult F),
        opt.targetModelName = [] → opt.objectDepth ≤ 0 → fbxConvert facet sc opt fuel base objects morphs = some r →
        ∃ tagged, r.objects = objects ++ tagged.map Prod.snd ∧ FileTreeOk env root opt tagged ∧
          (tagged.filterMap Prod.fst).Nodup ∧
          ∀ n o g, (some n, o) ∈ tagged → fileMesh root n = some g →
            ∃ w, FileWorld env root n w ∧
              o.vertexes = (geometryInit env.cv g).vertices.map fun v => (coord.mul w).applyTo (env.vec3 v) := by
  obtain ⟨root', hp, hsec⟩ := sections_saved tenv z seek root.children hk.safe
  have hs : Sections tenv root root' := fun name hname => (hsec name hname).1
  have hv' := version_loaded tenv env root root' hs hk hv
  have hn' : DistinctIDs root' := by
    unfold DistinctIDs
    rw [ids_loaded tenv env root root' hs hk]; exact hn
  obtain ⟨x1, x2⟩ := axes_loaded tenv env laws root root' hs hk
  obtain ⟨a, ha⟩ := Option.isSome_iff_exists.1 x2
  rw [ha] at x1
  have y1 := axes_file env _ _ ha
  have y2 := axes_file env _ _ x1
  obtain ⟨sc, hsc⟩ := scene_loaded tenv env laws root root' hs hk hv hn a coord ha (by rw [y1]; exact hc)
  refine ⟨root', sc, hp, hsc, ?_⟩
  intro opt fuel base objects morphs r ht hd hr
  obtain ⟨tagged, coord', h1, h2, h3, h5, h6⟩ := vertices_of_file facet env root' hv' hn'
    (fileTree_loaded tenv env root root' hs hk htree) sc hsc opt fuel base objects morphs r ht hd hr
  rw [← y2, y1, hc] at h5
  obtain rfl : coord = coord' := by simpa using h5
  have hmod : ∀ x o, (some x, o) ∈ tagged → FileModel root' x := fun x o hx => ((h2.models x).1 ⟨o, hx⟩).model
  refine ⟨tagged.map (backTag root), ?_, tree_back tenv env root root' hs hn hk laws opt tagged h2, ?_, ?_⟩
  · rw [h1, List.map_map]; rfl
  · have e : (tagged.map (backTag root)).filterMap Prod.fst = (tagged.filterMap Prod.fst).map (backNode root) := by
      rw [List.filterMap_map, List.map_filterMap]
      rfl
    rw [e]
    refine List.Nodup.map_on ?_ h3
    intro x hx y hy hxy
    obtain ⟨⟨x', o⟩, m1, m2⟩ := List.mem_filterMap.1 hx
    obtain ⟨⟨y', o'⟩, n1, n2⟩ := List.mem_filterMap.1 hy
    simp only at m2 n2
    subst m2; subst n2
    rw [← (model_back tenv root root' hs hn hk.ids x (hmod x o m1)).2,
      ← (model_back tenv root root' hs hn hk.ids y (hmod y o' n1)).2, hxy]
  · intro n o g hm hg
    obtain ⟨⟨x, o'⟩, m1, m2⟩ := List.mem_map.1 hm
    cases x with
    | none => simp [backTag] at m2
    | some x =>
      simp only [backTag, Option.map_some, Prod.mk.injEq, Option.some.injEq] at m2
      obtain ⟨rfl, rfl⟩ := m2
      obtain ⟨b1, b2⟩ := model_back tenv root root' hs hn hk.ids x (hmod x o' m1)
      have hml := mesh_loaded tenv root root' hs hk.ids hk.links _ b1.mem
      rw [b2, hg] at hml
      obtain ⟨w, w1, w2⟩ := h6 x o' _ m1 hml
      obtain ⟨g1, g2⟩ := fileMesh_mem root _ g hg
      rw [geometry_loaded tenv env laws root hk g g1 g2] at w2
      exact ⟨w, world_back tenv env root root' hs hn hk laws x w w1, w2⟩

end

end Verif.Conv
