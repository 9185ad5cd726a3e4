import Verif.Fbx.EditProps

/-!
C177: documents of version 6100. C178: what is not kept by documents that are changed by the API, and
the whole way of new documents over a saved ASCII file.
-/

namespace Verif.Fbx

open Verif.Mmd (Bytes)

namespace FDoc

/-! ## Saving and loading -/

/-- A node whose first attribute is an integer that the reader of ids knows. -/
def HasID (n : Node) : Prop :=
  ∃ ty b rest, n.attrs = .num ty b :: rest ∧ IntTy ty ∧ b < 256 ^ ty.width

/-- A connection as the library and other programs write it: a kind and two ids. -/
def PlainLink (c : Node) : Prop :=
  ∃ kind ty1 a ty2 b rest, c.attrs = .str kind :: .num ty1 a :: .num ty2 b :: rest ∧ splitName kind = none ∧
    IntTy ty1 ∧ a < 256 ^ ty1.width ∧ IntTy ty2 ∧ b < 256 ^ ty2.width

theorem loaded_int (env : TextEnv) (ty : NumTy) (b : Nat) (ht : IntTy ty) (hb : b < 256 ^ ty.width) :
    ∃ w, loaded env (.num ty b) = [.num .i64 w] ∧
      toInt64 (some (.num .i64 w)) 0 = toInt64 (some (.num ty b)) 0 := by
  obtain ⟨v, h1, h2⟩ := int_saved env ty b 0 ht hb
  rcases ht with rfl | rfl | rfl | rfl <;>
  · refine ⟨_, rfl, ?_⟩
    injection h1 with h1 _
    rw [← h1] at h2
    exact h2

theorem nodeID_loaded (env : TextEnv) (n : Node) (h : HasID n) : nodeID (loadedNode env n) = nodeID n := by
  obtain ⟨ty, b, rest, h1, h2, h3⟩ := h
  obtain ⟨w, h4, h5⟩ := loaded_int env ty b h2 h3
  have e1 : (loadedNode env n).attrs = .num .i64 w :: rest.flatMap (loaded env) := by
    rw [loadedNode_attrs, h1, List.flatMap_cons, h4]; rfl
  unfold nodeID attr
  simp only [e1, h1, List.getElem?_cons_zero]
  exact h5

theorem link_loaded (env : TextEnv) (c : Node) (h : PlainLink c) :
    (Used (loadedNode env c) ↔ Used c) ∧ linkFrom (loadedNode env c) = linkFrom c ∧
      linkTo (loadedNode env c) = linkTo c := by
  obtain ⟨kind, ty1, a, ty2, b, rest, h1, hk, t1, b1, t2, b2⟩ := h
  obtain ⟨w1, p1, q1⟩ := loaded_int env ty1 a t1 b1
  obtain ⟨w2, p2, q2⟩ := loaded_int env ty2 b t2 b2
  have e : (loadedNode env c).attrs = .str kind :: .num .i64 w1 :: .num .i64 w2 :: rest.flatMap (loaded env) := by
    rw [loadedNode_attrs, h1]
    simp only [List.flatMap_cons, string_saved env kind hk, p1, p2, List.cons_append, List.nil_append]
  refine ⟨?_, ?_, ?_⟩
  · simp [Used, attr, e, h1, toStr]
  · simp only [linkFrom, attr, e, h1, List.getElem?_cons_succ, List.getElem?_cons_zero]; exact q1
  · simp only [linkTo, attr, e, h1, List.getElem?_cons_succ, List.getElem?_cons_zero]; exact q2

theorem idTable_loaded (env : TextEnv) (l : List Node) (h : ∀ n ∈ l, nodeID (loadedNode env n) = nodeID n) :
    idTable (l.map (loadedNode env)) = idTable l := by
  induction l using List.reverseRecOn with
  | nil => rfl
  | append_singleton l m ih =>
    rw [List.map_append, List.map_cons, List.map_nil, idTable_append, idTable_append, List.length_map,
      h m (by simp), ih (fun n hn => h n (by simp [hn]))]

theorem build_refs (root : Node) (hv : versionOf root ≠ 6100) (k : Nat) :
    (build root).refs k = (fileConnections root).filterMap ((loadObjects root).childOf k) := by
  unfold build
  rw [foldConnections_refs, (loadObjects_fields root hv).2.2.1]; rfl

theorem build_parent (root : Node) (hv : versionOf root ≠ 6100) (k : Nat) :
    (build root).parent k = ((fileConnections root).filterMap ((loadObjects root).parentOf k)).getLast? := by
  unfold build
  rw [foldConnections_parent, (loadObjects_fields root hv).2.2.2.1, Option.or_none]; rfl

/-- C176 and C178: a document that is saved as ASCII FBX and loaded has the same objects (as the format
carries their attributes), the same references and the same parents, when its version is not 6100, its
objects have ids and its connections name ids. -/
theorem references_saved (env : TextEnv) (z : Zlib) (seek : Bool) (root : Node)
    (hs : NodesSafe env (root.children.filter fun n => n.name ≠ b! "FileId"))
    (hv : versionOf root ≠ 6100)
    (hver : ∀ n, findChild (findChild (some root) b! "FBXHeaderExtension") b! "FBXVersion" = some n →
      HasID n ∨ ∃ v rest, n.attrs = .int v :: rest ∧ Fits v ∧ v ≠ 6100)
    (ho : ∀ n ∈ fileObjects root, HasID n) (hc : ∀ c ∈ fileConnections root, PlainLink c) :
    ∃ root', parseFile env z seek (writeText env root.children) = some (some root') ∧
      (build root').objs = sceneNode :: (fileObjects root).map (loadedNode env) ∧
      (build root').refs = (build root).refs ∧ (build root').parent = (build root).parent := by
  obtain ⟨root', hp, hsec⟩ := sections_saved env z seek root.children hs
  have hfind : ∀ name, findChild (some (.mk b! "_FBX_ROOT" [] root.children)) name = findChild (some root) name :=
    fun _ => rfl
  simp only [hfind] at hsec
  have hv' : versionOf root' ≠ 6100 := by
    unfold versionOf
    rw [(hsec b! "FBXHeaderExtension" (by decide)).1, findChild_loaded]
    cases hn : findChild (findChild (some root) b! "FBXHeaderExtension") b! "FBXVersion" with
    | none => simp [attr, toInt64]
    | some n =>
      rw [Option.map_some]
      rcases hver n hn with h | ⟨v, rest, h1, h2, h3⟩
      · have := nodeID_loaded env n h
        unfold nodeID at this
        rw [this]
        unfold versionOf at hv
        rw [hn] at hv
        exact hv
      · have e : (loadedNode env n).attrs = .num .i64 (int64Bits v) :: rest.flatMap (loaded env) := by
          rw [loadedNode_attrs, h1]; rfl
        simp only [attr, e, List.getElem?_cons_zero, toInt64, toSigned_int64Bits _ h2.1 h2.2]
        exact h3
  have hO : fileObjects root' = (fileObjects root).map (loadedNode env) := (hsec b! "Objects" (by decide)).2
  have hC : fileConnections root' = (fileConnections root).map (loadedNode env) := (hsec b! "Connections" (by decide)).2
  have hl := loadObjects_fields root hv
  have hl' := loadObjects_fields root' hv'
  have hT : idTable (sceneNode :: fileObjects root') = idTable (sceneNode :: fileObjects root) := by
    have : sceneNode :: fileObjects root' = (sceneNode :: fileObjects root).map (loadedNode env) := by
      rw [hO]; rfl
    rw [this]
    apply idTable_loaded
    intro n hn
    rw [List.mem_cons] at hn
    rcases hn with rfl | hn
    · rfl
    · exact nodeID_loaded env n (ho n hn)
  have hE : ∀ c ∈ fileConnections root, ∀ i, i = 1 ∨ i = 2 →
      (loadObjects root').endOf (loadedNode env c) i = (loadObjects root).endOf c i := by
    intro c hcc i hi
    have hk := link_loaded env c (hc c hcc)
    have : toInt64 (attr (some (loadedNode env c)) i) 0 = toInt64 (attr (some c) i) 0 := by
      rcases hi with rfl | rfl
      · exact hk.2.1
      · exact hk.2.2
    simp only [endOf, hl.2.1, hl'.2.1, if_neg hv, if_neg hv', hl.2.2.2.2.2.1, hl'.2.2.2.2.2.1, this]
    exact congrArg (List.lookup (toInt64 (attr (some c) i) 0)) hT
  have hU : ∀ c ∈ fileConnections root, usable (loadedNode env c) = usable c := by
    intro c hcc
    rw [Bool.eq_iff_iff, usable_iff, usable_iff]
    exact (link_loaded env c (hc c hcc)).1
  have hM : (loadObjects root').isModel = (loadObjects root).isModel := by
    funext k
    have hn : ((loadObjects root').node k).name = ((loadObjects root).node k).name := by
      have e' : (loadObjects root').objs = sceneNode :: (fileObjects root).map (loadedNode env) := by
        rw [hl'.2.2.2.2.1]; exact congrArg _ hO
      have e : (loadObjects root).objs = sceneNode :: fileObjects root := hl.2.2.2.2.1
      simp only [node, e', e]
      cases k with
      | zero => rfl
      | succ k =>
        rw [List.getD_eq_getElem?_getD, List.getD_eq_getElem?_getD, List.getElem?_cons_succ, List.getElem?_cons_succ,
          List.getElem?_map]
        cases (fileObjects root)[k]? with
        | none => rfl
        | some n => exact loadedNode_name env n
    simp only [isModel, hn]
  refine ⟨root', hp, ?_, ?_, ?_⟩
  · rw [(build_fields root' hv').2.2.1, hO]
  · funext k
    rw [build_refs root' hv', build_refs root hv, hC, List.filterMap_map]
    apply List.filterMap_congr
    intro c hcc
    simp only [Function.comp, childOf, hU c hcc, hE c hcc 1 (Or.inl rfl), hE c hcc 2 (Or.inr rfl)]
  · funext k
    rw [build_parent root' hv', build_parent root hv, hC, List.filterMap_map]
    refine congrArg List.getLast? (List.filterMap_congr fun c hcc => ?_)
    simp only [Function.comp, parentOf, hU c hcc, hE c hcc 1 (Or.inl rfl), hE c hcc 2 (Or.inr rfl), hM]

/-! ## New documents -/

/-- C178. A new document has no objects but the scene, and the hypotheses of `edits_kept_partial` hold of
it: whatever is added to a new document is there when it is loaded again. -/
theorem new_document_kept (one : Nat) (es : List Edit) (d : FDoc) (hok : EditsOK 1 es)
    (h : (build (newRoot one)).edits es = some d) (hb : d.nextID ≤ 9223372036854775808) :
    (build (newRoot one)).objs = [sceneNode] ∧ (build d.raw).objs = d.objs ∧ (build d.raw).refs = d.refs ∧
      (d.objs.map nodeID).Nodup := by
  have h1 : fileObjects (newRoot one) = [] := rfl
  have h2 : fileConnections (newRoot one) = [] := rfl
  have hv : versionOf (newRoot one) ≠ 6100 := by
    have : versionOf (newRoot one) = 0 := rfl
    rw [this]; decide
  obtain ⟨r1, r2, r3, -⟩ := edits_kept_partial (newRoot one) hv (by simp [DistinctIDs, h1]) (by simp [h1])
    (by simp [ClosedLinks, h2]) es d (by simpa [h1] using hok) h hb
  exact ⟨rfl, r1, r2, r3⟩

/-! ## What is not kept -/

/-- C178 is false of documents with connections of unknown objects: the new id of an added object can be
one that such a connection names, and after loading the scene refers to the added object although nobody
connected them. -/
theorem dangling_false (root : Node) (hv : versionOf root ≠ 6100) (hn : DistinctIDs root)
    (n : Node) (h0 : nodeID n = 0) (d : FDoc) (h : (build root).addObject n = some d)
    (hb : (build root).newID < 9223372036854775808) (c : Node) (hc : c ∈ fileConnections root) (hu : Used c)
    (hfrom : linkFrom c = (build root).newID) (hto : linkTo c = 0) :
    (build root).objs.length ∉ d.refs 0 ∧ (build root).objs.length ∈ (build d.raw).refs 0 := by
  obtain ⟨hraw, hver, hobjs, hbyID, hnext⟩ := build_fields root hv
  obtain ⟨n', raw, hr, e1, e2, e3, e4, e5, -, -, -, e6⟩ := addObject_cases _ d n h
  rw [hraw] at hr
  obtain ⟨hs1, hs2⟩ := section_added _ _ _ _ hr
  constructor
  · rw [e5]
    intro hmem
    have := ((references_of_file root hv hn).2 0 (by rw [hobjs]; simp)).1 _ hmem
    omega
  · have hge : (build root).nextID ≤ (build root).newID := IdDoc.firstFree_ge _ _ _
    have hfree : (build root).byID.lookup (build root).newID = none := IdDoc.firstFree_free _ _ _ (Nat.le_refl _)
    rw [hnext] at hge
    have hid : nodeID n' = (build root).newID := by
      rcases e6 with ⟨-, hne, -⟩ | ⟨h1, -⟩
      · exact absurd h0 hne
      · rw [h1, toSigned_int64Bits _ (by omega) hb]
    have hO : fileObjects raw = fileObjects root ++ [n'] := hs1
    have hC : fileConnections raw = fileConnections root := by
      unfold fileConnections; rw [hs2 _ (by decide)]
    have hv' : versionOf raw ≠ 6100 := by
      unfold versionOf; rw [hs2 _ (by decide)]; exact hv
    have hl := loadObjects_fields raw hv'
    rw [e1, build_refs raw hv', hC]
    refine List.mem_filterMap.2 ⟨c, hc, ?_⟩
    have hT : idTable (sceneNode :: getChildren (findChild (some raw) b! "Objects")) =
        (nodeID n', (sceneNode :: fileObjects root).length) :: idTable (sceneNode :: fileObjects root) := by
      have : getChildren (findChild (some raw) b! "Objects") = fileObjects root ++ [n'] := hO
      rw [this, ← List.cons_append, idTable_append]
    have hE : ∀ i, (loadObjects raw).endOf c i = ((nodeID n', (sceneNode :: fileObjects root).length) ::
        idTable (sceneNode :: fileObjects root)).lookup (toInt64 (attr (some c) i) 0) := by
      intro i
      rw [endOf, if_neg (by rw [hl.2.1]; exact hv'), hl.2.2.2.2.2.1, hT]
    unfold childOf
    rw [hE, hE]
    have hne : (0 : Int) ≠ (build root).newID := by
      intro h0'
      rw [← h0', hbyID, idTable_none, map_ids] at hfree
      simp at hfree
    have k2 : ((nodeID n', (sceneNode :: fileObjects root).length) :: idTable (sceneNode :: fileObjects root)).lookup
        (toInt64 (attr (some c) 2) 0) = some 0 := by
      have hb' : ((0 : Int) == nodeID n') = false := by rw [hid]; simpa using hne
      have ht : toInt64 (attr (some c) 2) 0 = 0 := hto
      rw [ht, List.lookup_cons, hb']
      have hnd : ((sceneNode :: fileObjects root).map nodeID).Nodup := by rw [map_ids]; exact hn
      exact lookup_idTable _ hnd 0 sceneNode rfl
    rw [if_pos ⟨(usable_iff c).2 hu, k2⟩]
    have hf : toInt64 (attr (some c) 1) 0 = (build root).newID := hfrom
    rw [hf, List.lookup_cons, hid]
    simp only [beq_self_eq_true]
    rw [hobjs]

/-- C178 is false of the list of materials: an added material is not in the list of materials of the
document until the document is loaded again. -/
theorem materials_false (d d' : FDoc) (n : Node) (hm : n.name = b! "Material") (h : d.addObject n = some d') :
    d'.materials = d.materials ∧ (build d'.raw).materials ≠ [] := by
  obtain ⟨n', raw, hr, e1, -, -, -, -, hname, -, -, -⟩ := addObject_cases d d' n h
  obtain ⟨hs1, -⟩ := section_added _ _ _ _ hr
  constructor
  · unfold addObject at h
    simp only at h
    split at h
    · simp at h
    · simp only [Option.map_eq_some_iff] at h
      obtain ⟨r, -, rfl⟩ := h
      rfl
  · rw [e1]
    have hf := (foldConnections_fields (getChildren (findChild (some raw) b! "Connections")) (loadObjects raw)).2.2.2.2.2.2.1
    unfold build
    rw [hf]
    unfold loadObjects
    rw [hs1, List.foldl_append]
    simp only [List.foldl_cons, List.foldl_nil, loadObject, hname, hm, if_true]
    simp

/-! ## C177: version 6100 -/

theorem addObject_raw (d : FDoc) (root n : Node) (hroot : d.raw = root) (d' : FDoc) (h : d.addObject n = some d')
    (h0 : nodeID n = 0) : ∃ n' : Node, n'.name = n.name ∧
      (∃ as, n'.attrs = .num .i64 (int64Bits d.newID) :: as) ∧
      updateChild root b! "Objects" (fun o => o.addChild n') = some d'.raw ∧ d'.objs = d.objs ++ [n'] ∧ d'.refs = d.refs := by
  unfold addObject at h
  simp only [h0, decide_true, Bool.true_or, if_true] at h
  cases ha : n.attrs with
  | nil => simp [setID, ha] at h
  | cons a as =>
    have hs : setID n d.newID = some (.mk n.name (.num .i64 (int64Bits d.newID) :: as) n.children) := by simp [setID, ha]
    rw [hs] at h
    simp only [Option.map_eq_some_iff] at h
    obtain ⟨raw, hr, rfl⟩ := h
    exact ⟨.mk n.name (.num .i64 (int64Bits d.newID) :: as) n.children, rfl, ⟨as, rfl⟩, hroot ▸ hr, rfl, rfl⟩

/-- Reading objects of a document of version 6100: one position each. -/
theorem fold6100 (ns : List Node) (d : FDoc) :
    (ns.foldl loadObject d).objs.length = d.objs.length + ns.length ∧ (ns.foldl loadObject d).version = d.version ∧
      (ns.foldl loadObject d).raw = d.raw := by
  induction ns generalizing d with
  | nil => simp
  | cons n ns ih =>
    obtain ⟨h1, h2, h3⟩ := ih (d.loadObject n)
    refine ⟨?_, h2, h3⟩
    rw [List.foldl_cons, h1]
    simp [loadObject]; omega

/-- C177 and C178 are false of documents of version 6100 that are changed: a model that is added and put
under the scene is, when the document is loaded again, its own parent (so that its world matrix cannot be
computed). -/
theorem own_parent_false (root n : Node) (hv : versionOf root = 6100) (hm : n.name = b! "Model") (h0 : nodeID n = 0)
    (d : FDoc) (h : (build root).edits [.object n, .connect 0 (build root).objs.length none] = some d) :
    (build root).objs.length ∈ d.refs 0 ∧ (build d.raw).parent (build root).objs.length = some (build root).objs.length := by
  simp only [edits, edit, Option.bind_eq_some_iff] at h
  obtain ⟨d1, h1, d2, h2, h3⟩ := h
  injection h3 with h3
  subst h3
  have hraw : (build root).raw = root :=
    (foldConnections_fields _ (loadObjects root)).1.trans (fold6100 _ (start root)).2.2
  have hlen : (build root).objs.length = (fileObjects root).length + 1 := by
    have := (foldConnections_fields (getChildren (findChild (some root) b! "Connections")) (loadObjects root)).2.2.1
    unfold build
    rw [this]
    have h4 := (fold6100 (getChildren (findChild (some root) b! "Objects")) (start root)).1
    unfold loadObjects
    rw [h4]
    simp [start, fileObjects]; omega
  obtain ⟨n', hname, ⟨as, hattrs⟩, hr1, hobjs, hrefs⟩ := addObject_raw _ root n hraw d1 h1 h0
  obtain ⟨hs1, hs2⟩ := section_added _ _ _ _ hr1
  unfold addConnection at h2
  simp only [Option.map_eq_some_iff] at h2
  obtain ⟨raw, hr2, rfl⟩ := h2
  obtain ⟨hs3, hs4⟩ := section_added _ _ _ _ hr2
  constructor
  · simp
  · simp only
    have hv' : versionOf raw = 6100 := by
      unfold versionOf; rw [hs4 _ (by decide), hs2 _ (by decide)]; exact hv
    have hO : getChildren (findChild (some raw) b! "Objects") = fileObjects root ++ [n'] := by
      rw [hs4 _ (by decide)]; exact hs1
    set k := (build root).objs.length with hk
    set c := connectionNode b! "OO" (nodeID (d1.node k)) (nodeID (d1.node 0)) [] with hcdef
    have hlo : loadObjects raw = ((fileObjects root).foldl loadObject (start raw)).loadObject n' := by
      unfold loadObjects; rw [hO, List.foldl_append]; rfl
    have hf := fold6100 (fileObjects root) (start raw)
    have hver : ((fileObjects root).foldl loadObject (start raw)).version = 6100 := hf.2.1.trans hv'
    have hlen2 : ((fileObjects root).foldl loadObject (start raw)).objs.length = k := by
      rw [hf.1, hlen]; simp [start]; omega
    have hby : (loadObjects raw).byName.lookup [] = some k := by
      rw [hlo]
      simp only [loadObject, hver, beq_self_eq_true, if_true, hlen2]
      have : toStr (attr (some (Node.mk n'.name (.num .i64 (int64Bits
          ((fileObjects root).foldl loadObject (start raw)).newID) :: n'.attrs) n'.children)) 1) = [] := by
        simp [attr, hattrs, toStr]
      rw [this]
      simp
    have hlv : (loadObjects raw).version = 6100 := by rw [hlo]; exact hver
    have hend : ∀ i, i = 1 ∨ i = 2 → (loadObjects raw).endOf c i = some k := by
      intro i hi
      rw [endOf, if_pos hlv]
      have : toStr (attr (some c) i) = [] := by
        rcases hi with rfl | rfl <;> simp [hcdef, connectionNode, Node.leaf, attr, toStr]
      rw [this]; exact hby
    have hmod : (loadObjects raw).isModel k = true := by
      have : (loadObjects raw).node k = .mk n'.name (.num .i64 (int64Bits
          ((fileObjects root).foldl loadObject (start raw)).newID) :: n'.attrs) n'.children := by
        rw [hlo]
        simp only [node, loadObject, hver, beq_self_eq_true, if_true]
        rw [List.getD_eq_getElem?_getD, List.getElem?_append_right (by omega)]
        simp [hlen2]
      simp [isModel, this, hname, hm]
    have husable : usable c = true := by
      rw [usable_iff]; simp [Used, hcdef, connectionNode, Node.leaf, attr, toStr]
    have hC : getChildren (findChild (some raw) b! "Connections") =
        getChildren (findChild (some d1.raw) b! "Connections") ++ [c] := hs3
    unfold build
    rw [foldConnections_parent, hC, List.filterMap_append]
    have hp : (loadObjects raw).parentOf k c = some k := by
      unfold parentOf
      rw [if_pos ⟨husable, hend 1 (Or.inl rfl), hmod⟩, hend 2 (Or.inr rfl)]
      simp [Option.filter, hmod]
    simp [hp]

/-- The objects of a 6100 document are found by their names. -/
theorem byName6100 (ns : List Node) (d : FDoc) (hv : d.version = 6100) (name : Bytes) :
    (ns.foldl loadObject d).byName.lookup name =
      (((ns.zipIdx d.objs.length).filter fun p => toStr (attr (some p.1) 0) == name).getLast?.map Prod.snd).or
        (d.byName.lookup name) := by
  induction ns generalizing d with
  | nil => simp
  | cons n ns ih =>
    rw [List.foldl_cons, ih (d.loadObject n) hv]
    have e1 : (d.loadObject n).objs.length = d.objs.length + 1 := by simp [loadObject]
    have e2 : (d.loadObject n).byName = (toStr (attr (some n) 0), d.objs.length) :: d.byName := by
      simp only [loadObject, hv, beq_self_eq_true, if_true]
      simp [attr]
    rw [e1, e2, List.zipIdx_cons, List.lookup_cons]
    by_cases h : toStr (attr (some n) 0) = name
    · have hb : (name == toStr (attr (some n) 0)) = true := by simp [h]
      rw [List.filter_cons_of_pos (by simpa using h), hb, List.getLast?_cons]
      cases (List.filter (fun p => toStr (attr (some p.1) 0) == name) (ns.zipIdx (d.objs.length + 1))).getLast? <;> simp
    · have hb : (name == toStr (attr (some n) 0)) = false := by simpa using fun e : name = _ => h e.symm
      rw [List.filter_cons_of_neg (by simpa using h), hb]

/-- The names of the objects of a document of version 6100. -/
def nameOf (n : Node) : Bytes := toStr (attr (some n) 0)

/-- C177, the part that holds: when the objects of a 6100 document have different names, none of them the
binary name of the scene, an object is a child of the scene exactly if a connection names it and the scene
in the form `Scene\0\1Model`. -/
theorem scene6100_partial (root : Node) (hv : versionOf root = 6100)
    (hn : (sceneName :: (fileObjects root).map nameOf).Nodup) (k : Nat) (n : Node) (hk : (fileObjects root)[k]? = some n) :
    k + 1 ∈ (build root).refs 0 ↔
      ∃ c ∈ fileConnections root, Used c ∧ toStr (attr (some c) 1) = nameOf n ∧ toStr (attr (some c) 2) = sceneName := by
  have hver : (loadObjects root).version = 6100 := (fold6100 _ (start root)).2.1.trans hv
  have hrefs : (loadObjects root).refs = fun _ => [] := by
    have : ∀ (ns : List Node) (d : FDoc), (ns.foldl loadObject d).refs = d.refs := by
      intro ns
      induction ns with
      | nil => intro d; rfl
      | cons n ns ih => intro d; rw [List.foldl_cons, ih]; rfl
    exact this _ _
  have hr : (build root).refs 0 = (fileConnections root).filterMap ((loadObjects root).childOf 0) := by
    unfold build
    rw [foldConnections_refs, hrefs]; rfl
  have hlook : ∀ name, (loadObjects root).byName.lookup name =
      ((((fileObjects root).zipIdx 1).filter fun p => nameOf p.1 == name).getLast?.map Prod.snd).or
        (if name = sceneName then some 0 else none) := by
    intro name
    unfold loadObjects
    rw [byName6100 _ _ hv]
    have : (start root).byName.lookup name = if name = sceneName then some 0 else none := by
      simp only [start, List.lookup_cons, List.lookup_nil]
      by_cases h : name = sceneName
      · simp [h]
      · have hb : (name == sceneName) = false := by simpa using h
        rw [hb, if_neg h]
    rw [this]; rfl
  rw [List.nodup_cons] at hn
  have hzero : ∀ name, (loadObjects root).byName.lookup name = some 0 ↔ name = sceneName := by
    intro name
    rw [hlook]
    constructor
    · intro h
      cases hl : (((fileObjects root).zipIdx 1).filter fun p => nameOf p.1 == name).getLast? with
      | none =>
        rw [hl] at h
        by_contra hne
        simp [hne] at h
      | some p =>
        rw [hl] at h
        simp only [Option.map_some, Option.some_or, Option.some.injEq] at h
        have := (List.mem_filter.1 (List.mem_of_getLast? hl)).1
        obtain ⟨a, b⟩ := p
        have := List.mem_zipIdx this
        simp only at h
        omega
    · rintro rfl
      have : (((fileObjects root).zipIdx 1).filter fun p => nameOf p.1 == sceneName) = [] := by
        rw [List.filter_eq_nil_iff]
        rintro ⟨a, b⟩ hab hs
        have hm : a ∈ fileObjects root := by
          obtain ⟨-, -, h3⟩ := List.mem_zipIdx hab
          rw [h3]; exact List.getElem_mem _
        exact hn.1 (List.mem_map.2 ⟨a, hm, by simpa using hs⟩)
      simp [this]
  have hpos : ∀ name, (loadObjects root).byName.lookup name = some (k + 1) ↔ name = nameOf n := by
    intro name
    rw [hlook]
    constructor
    · intro h
      cases hl : (((fileObjects root).zipIdx 1).filter fun p => nameOf p.1 == name).getLast? with
      | none =>
        rw [hl] at h
        by_cases hs : name = sceneName
        · simp [hs] at h
        · simp [hs] at h
      | some p =>
        rw [hl] at h
        simp only [Option.map_some, Option.some_or, Option.some.injEq] at h
        obtain ⟨h1, h2⟩ := List.mem_filter.1 (List.mem_of_getLast? hl)
        obtain ⟨a, b⟩ := p
        obtain ⟨-, h4, h5⟩ := List.mem_zipIdx h1
        simp only at h h2
        subst h
        have : (fileObjects root)[k]? = some a := by
          rw [h5]; simp
        rw [hk, Option.some.injEq] at this
        subst this
        simpa using (beq_iff_eq.1 h2).symm
    · rintro rfl
      have hmem : (n, k + 1) ∈ ((fileObjects root).zipIdx 1).filter fun p => nameOf p.1 == nameOf n := by
        refine List.mem_filter.2 ⟨?_, by simp⟩
        rw [List.mem_iff_getElem?]
        exact ⟨k, by simp [List.getElem?_zipIdx, hk, Nat.add_comm]⟩
      have hall : ∀ p ∈ ((fileObjects root).zipIdx 1).filter (fun p => nameOf p.1 == nameOf n), p = (n, k + 1) := by
        rintro ⟨a, b⟩ hp
        obtain ⟨h1, h2⟩ := List.mem_filter.1 hp
        rw [List.mem_iff_getElem?] at h1
        obtain ⟨j, hj⟩ := h1
        rw [List.getElem?_zipIdx, Option.map_eq_some_iff] at hj
        obtain ⟨a', hj1, hj2⟩ := hj
        injection hj2 with hj2 hj3
        subst hj2
        have hjk : j = k := by
          have e1 : ((fileObjects root).map nameOf)[j]? = some (nameOf n) := by
            rw [List.getElem?_map, hj1]; simpa using h2
          have e2 : ((fileObjects root).map nameOf)[k]? = some (nameOf n) := by rw [List.getElem?_map, hk]; rfl
          have hlt : j < ((fileObjects root).map nameOf).length := by
            by_contra hc; rw [List.getElem?_eq_none (by omega)] at e1; simp at e1
          exact (List.getElem?_inj hlt hn.2).1 (e1.trans e2.symm)
        subst hjk
        rw [hk, Option.some.injEq] at hj1
        subst hj1
        rw [← hj3, Nat.add_comm]
      cases hl : (((fileObjects root).zipIdx 1).filter fun p => nameOf p.1 == nameOf n).getLast? with
      | none => rw [List.getLast?_eq_none_iff] at hl; rw [hl] at hmem; simp at hmem
      | some p =>
        rw [hall p (List.mem_of_getLast? hl)]; rfl
  rw [hr, List.mem_filterMap]
  constructor
  · rintro ⟨c, hc, hcv⟩
    unfold childOf at hcv
    split at hcv
    · rename_i hcond
      simp only [endOf, hver, if_true] at hcv hcond
      exact ⟨c, hc, (usable_iff c).1 hcond.1, (hpos _).1 hcv, (hzero _).1 hcond.2⟩
    · simp at hcv
  · rintro ⟨c, hc, hu, h1, h2⟩
    refine ⟨c, hc, ?_⟩
    unfold childOf
    simp only [endOf, hver, if_true]
    rw [if_pos ⟨(usable_iff c).2 hu, (hzero _).2 h2⟩]
    exact (hpos _).2 h1

/-- C177 is false of text files: in a 6100 document whose texts are without `\0` (as in a text file, where the
scene is called `Model::Scene`), the scene has no children at all. -/
theorem text6100_false (root : Node) (hv : versionOf root = 6100)
    (ht : ∀ c ∈ fileConnections root, toStr (attr (some c) 2) ≠ sceneName) :
    (build root).refs 0 = [] ∧ (build root).childModels 0 = [] := by
  have hver : (loadObjects root).version = 6100 := (fold6100 _ (start root)).2.1.trans hv
  have hrefs : (loadObjects root).refs = fun _ => [] := by
    have : ∀ (ns : List Node) (d : FDoc), (ns.foldl loadObject d).refs = d.refs := by
      intro ns
      induction ns with
      | nil => intro d; rfl
      | cons n ns ih => intro d; rw [List.foldl_cons, ih]; rfl
    exact this _ _
  have hr : (build root).refs 0 = (fileConnections root).filterMap ((loadObjects root).childOf 0) := by
    unfold build
    rw [foldConnections_refs, hrefs]; rfl
  have hnil : (build root).refs 0 = [] := by
    rw [hr, List.filterMap_eq_nil_iff]
    intro c hc
    unfold childOf
    rw [if_neg]
    rintro ⟨-, h2⟩
    rw [endOf, if_pos hver] at h2
    unfold loadObjects at h2
    rw [byName6100 _ _ hv] at h2
    cases hl : (((getChildren (findChild (some root) b! "Objects")).zipIdx (start root).objs.length).filter
        fun p => toStr (attr (some p.1) 0) == toStr (attr (some c) 2)).getLast? with
    | some p =>
      rw [hl] at h2
      obtain ⟨a, b⟩ := p
      have h3 := (List.mem_filter.1 (List.mem_of_getLast? hl)).1
      have := List.mem_zipIdx h3
      simp only [Option.map_some, Option.some_or, Option.some.injEq] at h2
      have h4 : (start root).objs.length = 1 := rfl
      omega
    | none =>
      rw [hl] at h2
      have hb : (toStr (attr (some c) 2) == sceneName) = false := by simpa using ht c hc
      simp only [Option.map_none, Option.none_or, start, List.lookup_cons, hb, List.lookup_nil] at h2
      simp at h2
  exact ⟨hnil, by simp [childModels, hnil]⟩

/-- No text has the form of a binary name after saving and loading. -/
theorem textName_ne_scene (b : Bytes) : textName b ≠ sceneName := by
  unfold textName
  cases h : splitName b with
  | none =>
    rintro rfl
    have : splitName sceneName ≠ none := by decide
    exact this h
  | some p =>
    intro he
    have h1 : (58 : UInt8) ∈ p.2 ++ ([58, 58] ++ p.1) := by simp
    simp only at he
    rw [he] at h1
    revert h1; decide

/-- C177 is false of saved documents: a 6100 document saved as ASCII FBX by the command has, when it is
loaded, no models under the scene, whatever the document had. -/
theorem saved6100_false (env : TextEnv) (z : Zlib) (seek : Bool) (root : Node)
    (hs : NodesSafe env (root.children.filter fun n => n.name ≠ b! "FileId")) (hv : versionOf root = 6100)
    (hver : ∀ n, findChild (findChild (some root) b! "FBXHeaderExtension") b! "FBXVersion" = some n → HasID n)
    (hc : ∀ c ∈ fileConnections root, ∃ kind a b rest, c.attrs = .str kind :: .str a :: .str b :: rest) :
    ∃ root', parseFile env z seek (writeText env root.children) = some (some root') ∧ versionOf root' = 6100 ∧
      (fileObjects root').length = (fileObjects root).length ∧ (build root').childModels 0 = [] := by
  obtain ⟨root', hp, hsec⟩ := sections_saved env z seek root.children hs
  have hfind : ∀ name, findChild (some (.mk b! "_FBX_ROOT" [] root.children)) name = findChild (some root) name :=
    fun _ => rfl
  simp only [hfind] at hsec
  have hv' : versionOf root' = 6100 := by
    unfold versionOf
    rw [(hsec b! "FBXHeaderExtension" (by decide)).1, findChild_loaded]
    unfold versionOf at hv
    cases hn : findChild (findChild (some root) b! "FBXHeaderExtension") b! "FBXVersion" with
    | none => rw [hn] at hv; simp [attr, toInt64] at hv
    | some n =>
      rw [hn] at hv
      have := nodeID_loaded env n (hver n hn)
      unfold nodeID at this
      rw [Option.map_some, this]; exact hv
  have hO : fileObjects root' = (fileObjects root).map (loadedNode env) := (hsec b! "Objects" (by decide)).2
  have hC : fileConnections root' = (fileConnections root).map (loadedNode env) := (hsec b! "Connections" (by decide)).2
  refine ⟨root', hp, hv', by rw [hO, List.length_map], (text6100_false root' hv' ?_).2⟩
  intro c hcc
  rw [hC] at hcc
  obtain ⟨e, he, rfl⟩ := List.mem_map.1 hcc
  obtain ⟨kind, a, b, rest, hattrs⟩ := hc e he
  have : (loadedNode env e).attrs = .str (textName kind) :: .str (textName a) :: .str (textName b) ::
      rest.flatMap (loaded env) := by
    rw [loadedNode_attrs, hattrs]; rfl
  have h2 : toStr (attr (some (loadedNode env e)) 2) = textName b := by
    simp [attr, this, toStr]
  rw [h2]
  exact textName_ne_scene b

/-! ## Examples -/

/-- The document of fbx_document_test.go: a model under the scene, a geometry and a material under the
model. -/
def sampleEdits : List Edit :=
  [.object (newObj b! "Model" (b! "m" ++ 0 :: 1 :: b! "Model") b! "Mesh" []),
   .object (newGeometry b! "g" [] []),
   .object (newObj b! "Material" (b! "mat" ++ 0 :: 1 :: b! "Material") [] []),
   .connect 0 1 none, .connect 1 2 none, .connect 1 3 (some b! "DiffuseColor")]

/-- The hypotheses of `new_document_kept` and the result on the sample. -/
example : ∃ d, (build (newRoot 1)).edits sampleEdits = some d ∧ EditsOK 1 sampleEdits ∧ d.nextID ≤ 9223372036854775808 ∧
    d.refs 0 = [1] ∧ d.refs 1 = [2, 3] ∧ (build d.raw).refs 1 = [2, 3] ∧ d.parent 1 = none ∧
    (build d.raw).parent 1 = some 0 ∧ d.objs.map nodeID = [0, 1, 2, 3] ∧ d.materials = [] ∧
    (build d.raw).materials = [3] := by
  refine ⟨((build (newRoot 1)).edits sampleEdits).get (by decide +kernel), by simp, ?_, ?_, ?_, ?_, ?_, ?_, ?_, ?_, ?_, ?_⟩
  · simp [sampleEdits, EditsOK, Fits, newObj, newGeometry, nodeID, attr, toInt64]
  all_goals decide +kernel

/-- A file with two models, one under the other, and a connection of an unknown object with id 1 to the
scene. -/
def sampleRoot (header : List Node) (links : List Node) : Node :=
  .mk [] [] [.mk b! "FBXHeaderExtension" [] header,
    .mk b! "Objects" []
      [.mk b! "Model" [.num .i64 70, .str (b! "a" ++ 0 :: 1 :: b! "Model"), .str b! "Mesh"] [],
       .mk b! "Model" [.num .i64 80, .str (b! "b" ++ 0 :: 1 :: b! "Model"), .str b! "Mesh"] []],
    .mk b! "Connections" [] links]

def sampleLinks : List Node :=
  [.leaf b! "C" [.str b! "OO", .num .i64 70, .num .i64 0], .leaf b! "C" [.str b! "OO", .num .i64 80, .num .i64 70]]

/-- The hypotheses of `references_of_file`, `parents_of_file`, `tree_of_file` and `edits_kept_partial`. -/
example : versionOf (sampleRoot [] sampleLinks) ≠ 6100 ∧ DistinctIDs (sampleRoot [] sampleLinks) ∧
    ClosedLinks (sampleRoot [] sampleLinks) ∧ (∀ n ∈ fileObjects (sampleRoot [] sampleLinks), Fits (nodeID n)) ∧
    (build (sampleRoot [] sampleLinks)).refs 1 = [2] ∧ (build (sampleRoot [] sampleLinks)).parent 2 = some 1 := by
  refine ⟨by decide +kernel, by unfold DistinctIDs; decide +kernel, ?_, ?_, by decide +kernel, by decide +kernel⟩
  · unfold ClosedLinks; decide +kernel
  · unfold Fits; decide +kernel

/-- The hypotheses of `dangling_false`. -/
example : let root := sampleRoot [] (sampleLinks ++ [.leaf b! "C" [.str b! "OO", .num .i64 1, .num .i64 0]])
    let n := newObj b! "Model" (b! "m" ++ 0 :: 1 :: b! "Model") b! "Mesh" []
    (build root).newID = 1 ∧ nodeID n = 0 ∧ ((build root).addObject n).isSome = true ∧
      DistinctIDs root := by
  refine ⟨by decide +kernel, by decide +kernel, by decide +kernel, by unfold DistinctIDs; decide +kernel⟩

/-- A document of version 6100 as binary files have it. -/
def sample6100 : Node :=
  .mk [] [] [.mk b! "FBXHeaderExtension" [] [.leaf b! "FBXVersion" [.num .i32 6100]],
    .mk b! "Objects" [] [.mk b! "Model" [.str (b! "a" ++ 0 :: 1 :: b! "Model"), .str b! "Mesh"] []],
    .mk b! "Connections" [] [.leaf b! "Connect" [.str b! "OO", .str (b! "a" ++ 0 :: 1 :: b! "Model"), .str sceneName]]]

/-- The hypotheses of `scene6100_partial`, `own_parent_false` and `saved6100_false`: the model is under the
scene before saving. -/
example : versionOf sample6100 = 6100 ∧ (sceneName :: (fileObjects sample6100).map nameOf).Nodup ∧
    (build sample6100).childModels 0 = [1] ∧
    ((build sample6100).edits [.object (newObj b! "Model" (b! "m" ++ 0 :: 1 :: b! "Model") b! "Mesh" []),
      .connect 0 (build sample6100).objs.length none]).isSome = true := by
  refine ⟨by decide +kernel, by decide +kernel, by decide +kernel, by decide +kernel⟩

theorem sample_safe : NodesSafe toyEnv (sampleRoot [] sampleLinks).children := by
  have hv : ∀ k ty1 b1 ty2 b2, (34 : UInt8) ∉ textName k → ty1 = NumTy.i64 → ty2 = NumTy.i64 → b1 < 256 ^ 8 → b2 < 256 ^ 8 →
      ∀ v ∈ [Value.str k, .num ty1 b1, .num ty2 b2], ValueSafe toyEnv v := by
    intro k ty1 b1 ty2 b2 h1 h2 h3 h4 h5 v hv
    subst h2; subst h3
    simp only [List.mem_cons, List.not_mem_nil, or_false] at hv
    rcases hv with rfl | rfl | rfl
    · exact ⟨rfl, h1⟩
    · exact h4
    · exact h5
  have ho : ∀ b n k, (34 : UInt8) ∉ textName n → (34 : UInt8) ∉ textName k → b < 256 ^ 8 →
      ∀ v ∈ [Value.num .i64 b, .str n, .str k], ValueSafe toyEnv v := by
    intro b n k h1 h2 h3 v hv
    simp only [List.mem_cons, List.not_mem_nil, or_false] at hv
    rcases hv with rfl | rfl | rfl
    · exact h3
    · exact ⟨rfl, h1⟩
    · exact ⟨rfl, h2⟩
  refine .cons _ _ (.mk _ _ _ (toy_ident _ (by decide)) (by simp) .nil)
    (.cons _ _ (.mk _ _ _ (toy_ident _ (by decide)) (by simp)
      (.cons _ _ (.mk _ _ _ (toy_ident _ (by decide)) (ho _ _ _ (by decide) (by decide) (by decide)) .nil)
        (.cons _ _ (.mk _ _ _ (toy_ident _ (by decide)) (ho _ _ _ (by decide) (by decide) (by decide)) .nil) .nil)))
    (.cons _ _ (.mk _ _ _ (toy_ident _ (by decide)) (by simp)
      (.cons _ _ (.mk _ _ _ (toy_ident _ (by decide)) (hv _ _ _ _ _ (by decide) rfl rfl (by decide) (by decide)) .nil)
        (.cons _ _ (.mk _ _ _ (toy_ident _ (by decide)) (hv _ _ _ _ _ (by decide) rfl rfl (by decide) (by decide)) .nil)
          .nil))) .nil))

/-- The hypotheses of `references_saved`. -/
example (z : Zlib) : ∃ root', parseFile toyEnv z true (writeText toyEnv (sampleRoot [] sampleLinks).children) = some (some root') ∧
    (build root').refs 1 = [2] ∧ (build root').parent 2 = some 1 := by
  obtain ⟨r, h1, -, h3, h4⟩ := references_saved toyEnv z true (sampleRoot [] sampleLinks) sample_safe (by decide +kernel)
    (by intro n hn; exact absurd hn (by simp [sampleRoot, findChild]))
    (by
      intro n hn
      have : n ∈ [Node.mk b! "Model" [.num .i64 70, .str (b! "a" ++ 0 :: 1 :: b! "Model"), .str b! "Mesh"] [],
        Node.mk b! "Model" [.num .i64 80, .str (b! "b" ++ 0 :: 1 :: b! "Model"), .str b! "Mesh"] []] := hn
      simp only [List.mem_cons, List.not_mem_nil, or_false] at this
      rcases this with rfl | rfl
      · exact ⟨.i64, 70, _, rfl, by simp [IntTy], by decide⟩
      · exact ⟨.i64, 80, _, rfl, by simp [IntTy], by decide⟩)
    (by
      intro c hc
      have : c ∈ sampleLinks := hc
      simp only [sampleLinks, List.mem_cons, List.not_mem_nil, or_false] at this
      rcases this with rfl | rfl
      · exact ⟨b! "OO", .i64, 70, .i64, 0, [], rfl, by decide, by simp [IntTy], by decide, by simp [IntTy], by decide⟩
      · exact ⟨b! "OO", .i64, 80, .i64, 70, [], rfl, by decide, by simp [IntTy], by decide, by simp [IntTy], by decide⟩)
  exact ⟨r, h1, by rw [h3]; decide +kernel, by rw [h4]; decide +kernel⟩

end FDoc

end Verif.Fbx
