import Verif.Fbx.BuildLemmas
import Mathlib.Data.List.Nodup

/-!
C176: the objects of a loaded document refer to each other as the connections of the file say.
C178: objects and connections added by the API are there when the document is saved and loaded.
-/

namespace Verif.Fbx

open Verif.Mmd (Bytes)

namespace FDoc

/-! ## What a file says -/

/-- The nodes of the objects of a file. -/
def fileObjects (root : Node) : List Node := getChildren (findChild (some root) b! "Objects")

/-- The nodes of the connections of a file. -/
def fileConnections (root : Node) : List Node := getChildren (findChild (some root) b! "Connections")

/-- The id of the child of a connection. -/
def linkFrom (c : Node) : Int := toInt64 (attr (some c) 1) 0

/-- The id of the parent of a connection. -/
def linkTo (c : Node) : Int := toInt64 (attr (some c) 2) 0

/-- A connection of objects (`OO`) or of an object to a property (`OP`). -/
def Used (c : Node) : Prop :=
  (toStr (attr (some c) 0) = b! "OO" ∨ toStr (attr (some c) 0) = b! "OP") ∧ 3 ≤ c.attrs.length

instance (c : Node) : Decidable (Used c) := by unfold Used; infer_instance

/-- The ids of a file are different from each other and from 0, the id of the scene. -/
def DistinctIDs (root : Node) : Prop := (0 :: (fileObjects root).map nodeID).Nodup

theorem usable_iff (c : Node) : usable c = true ↔ Used c := by
  simp [usable, Used]

theorem build_fields (root : Node) (hv : versionOf root ≠ 6100) :
    (build root).raw = root ∧ (build root).version = versionOf root ∧
      (build root).objs = sceneNode :: fileObjects root ∧
      (build root).byID = idTable (sceneNode :: fileObjects root) ∧ (build root).nextID = 0 := by
  have h := loadObjects_fields root hv
  have g := foldConnections_fields (getChildren (findChild (some root) b! "Connections")) (loadObjects root)
  refine ⟨g.1.trans h.1, g.2.1.trans h.2.1, g.2.2.1.trans h.2.2.2.2.1, g.2.2.2.1.trans h.2.2.2.2.2.1,
    g.2.2.2.2.2.1.trans h.2.2.2.2.2.2⟩

theorem node_of_get (d : FDoc) (k : Nat) (n : Node) (h : d.objs[k]? = some n) : d.node k = n := by
  simp [node, List.getD, h]

theorem map_ids (root : Node) : (sceneNode :: fileObjects root).map nodeID = 0 :: (fileObjects root).map nodeID := by
  simp [nodeID_scene]

/-- C176. In a file whose objects have different ids, the objects are those of the file, and the ids of
the references of each object are the ids that the connections to it name, in the order of the file;
connections of unknown objects are left out. -/
theorem references_of_file (root : Node) (hv : versionOf root ≠ 6100) (hn : DistinctIDs root) :
    (build root).objs = sceneNode :: fileObjects root ∧
      ∀ k, k < (build root).objs.length →
        (∀ o ∈ (build root).refs k, o < (build root).objs.length) ∧
        ((build root).refs k).map (fun o => nodeID ((build root).node o)) =
          (fileConnections root).filterMap fun c =>
            if Used c ∧ linkTo c = nodeID ((build root).node k) ∧ linkFrom c ∈ 0 :: (fileObjects root).map nodeID then
              some (linkFrom c) else none := by
  obtain ⟨-, -, hobjs, hbyID, -⟩ := build_fields root hv
  refine ⟨hobjs, fun k hk => ?_⟩
  have hl := loadObjects_fields root hv
  have hr : (build root).refs k = (fileConnections root).filterMap ((loadObjects root).childOf k) := by
    unfold build
    rw [foldConnections_refs, hl.2.2.1]; rfl
  have hnd : ((sceneNode :: fileObjects root).map nodeID).Nodup := by rw [map_ids]; exact hn
  have hend : ∀ c i, (loadObjects root).endOf c i =
      (idTable (sceneNode :: fileObjects root)).lookup (toInt64 (attr (some c) i) 0) := by
    intro c i
    rw [endOf, if_neg (by rw [hl.2.1]; exact hv), hl.2.2.2.2.2.1]; rfl
  obtain ⟨nk, hnk⟩ : ∃ n, (sceneNode :: fileObjects root)[k]? = some n :=
    ⟨_, List.getElem?_eq_getElem (hobjs ▸ hk)⟩
  have hnode : (build root).node k = nk := node_of_get _ _ _ (hobjs ▸ hnk)
  have hto : ∀ c, (loadObjects root).endOf c 2 = some k ↔ linkTo c = nodeID nk := by
    intro c
    rw [hend]
    constructor
    · intro h
      obtain ⟨n, h1, h2⟩ := idTable_lookup _ _ _ h
      rw [hnk, Option.some.injEq] at h1
      subst h1; exact h2.symm
    · intro h
      have := lookup_idTable _ hnd k nk hnk
      rw [← h] at this; exact this
  refine ⟨?_, ?_⟩
  · intro o ho
    rw [hr] at ho
    obtain ⟨c, -, hc⟩ := List.mem_filterMap.1 ho
    unfold childOf at hc
    split at hc
    · rw [hend] at hc
      obtain ⟨n, h1, -⟩ := idTable_lookup _ _ _ hc
      rw [hobjs]
      by_contra hlt
      rw [List.getElem?_eq_none (by omega)] at h1; simp at h1
    · simp at hc
  · rw [hr, List.map_filterMap]
    congr 1
    funext c
    rw [hnode]
    unfold childOf
    by_cases h1 : Used c ∧ linkTo c = nodeID nk
    · rw [if_pos ⟨(usable_iff c).2 h1.1, (hto c).2 h1.2⟩, hend]
      cases hL : (idTable (sceneNode :: fileObjects root)).lookup (toInt64 (attr (some c) 1) 0) with
      | none =>
        rw [idTable_none, map_ids] at hL
        rw [if_neg (fun h => hL h.2.2)]; rfl
      | some o =>
        obtain ⟨n, h2, h3⟩ := idTable_lookup _ _ _ hL
        have hno : (build root).node o = n := node_of_get _ _ _ (hobjs ▸ h2)
        have hmem : linkFrom c ∈ 0 :: (fileObjects root).map nodeID := by
          rw [← map_ids]
          exact List.mem_map.2 ⟨n, List.mem_of_getElem? h2, h3⟩
        rw [if_pos ⟨h1.1, h1.2, hmem⟩]
        simp only [Option.map_some, hno, h3]; rfl
    · rw [if_neg (fun h => h1 ⟨(usable_iff c).1 h.1, (hto c).1 h.2⟩), if_neg (fun h => h1 ⟨h.1, h.2.1⟩)]; rfl

/-- C176. The parent of a model is the model that the last connection of it to a model names. -/
theorem parents_of_file (root : Node) (hv : versionOf root ≠ 6100) (hn : DistinctIDs root) (k : Nat)
    (hk : k < (build root).objs.length) :
    ((build root).parent k).map (fun p => nodeID ((build root).node p)) =
      if (build root).isModel k = true then
        (((fileConnections root).filter fun c => decide (Used c ∧ linkFrom c = nodeID ((build root).node k) ∧
          linkTo c ∈ 0 :: ((fileObjects root).filter fun n => n.name == b! "Model").map nodeID)).getLast?).map linkTo
      else none := by
  obtain ⟨-, -, hobjs, hbyID, -⟩ := build_fields root hv
  have hl := loadObjects_fields root hv
  have hr : (build root).parent k = ((fileConnections root).filterMap ((loadObjects root).parentOf k)).getLast? := by
    unfold build
    rw [foldConnections_parent, hl.2.2.2.1, Option.or_none]; rfl
  have hnd : ((sceneNode :: fileObjects root).map nodeID).Nodup := by rw [map_ids]; exact hn
  have hend : ∀ c i, (loadObjects root).endOf c i =
      (idTable (sceneNode :: fileObjects root)).lookup (toInt64 (attr (some c) i) 0) := by
    intro c i
    rw [endOf, if_neg (by rw [hl.2.1]; exact hv), hl.2.2.2.2.2.1]; rfl
  have hnode' : ∀ o, (loadObjects root).node o = (build root).node o := by
    intro o; simp only [node, hl.2.2.2.2.1, hobjs]; rfl
  have hmod : (loadObjects root).isModel = (build root).isModel := by
    funext o; simp only [isModel, hnode']
  obtain ⟨nk, hnk⟩ : ∃ n, (sceneNode :: fileObjects root)[k]? = some n :=
    ⟨_, List.getElem?_eq_getElem (hobjs ▸ hk)⟩
  have hnode : (build root).node k = nk := node_of_get _ _ _ (hobjs ▸ hnk)
  have hfrom : ∀ c, (loadObjects root).endOf c 1 = some k ↔ linkFrom c = nodeID nk := by
    intro c
    rw [hend]
    constructor
    · intro h
      obtain ⟨n, h1, h2⟩ := idTable_lookup _ _ _ h
      rw [hnk, Option.some.injEq] at h1
      subst h1; exact h2.symm
    · intro h
      have := lookup_idTable _ hnd k nk hnk
      rw [← h] at this; exact this
  by_cases hm : (build root).isModel k = true
  · rw [if_pos hm, hr, hnode]
    have hstep : ∀ c, ((loadObjects root).parentOf k c).map (fun p => nodeID ((build root).node p)) =
        if Used c ∧ linkFrom c = nodeID nk ∧
          linkTo c ∈ 0 :: ((fileObjects root).filter fun n => n.name == b! "Model").map nodeID then
          some (linkTo c) else none := by
      intro c
      unfold parentOf
      rw [hmod]
      by_cases h1 : Used c ∧ linkFrom c = nodeID nk
      · rw [if_pos ⟨(usable_iff c).2 h1.1, (hfrom c).2 h1.2, hm⟩, hend]
        cases hL : (idTable (sceneNode :: fileObjects root)).lookup (toInt64 (attr (some c) 2) 0) with
        | none =>
          rw [idTable_none, map_ids] at hL
          rw [if_neg]
          · rfl
          · rintro ⟨-, -, h⟩
            rw [List.mem_cons] at h
            rcases h with h | h
            · exact hL (by rw [List.mem_cons]; exact Or.inl h)
            · obtain ⟨n, h2, h3⟩ := List.mem_map.1 h
              exact hL (by
                rw [List.mem_cons]
                exact Or.inr (List.mem_map.2 ⟨n, (List.mem_filter.1 h2).1, h3⟩))
        | some o =>
          obtain ⟨n, h2, h3⟩ := idTable_lookup _ _ _ hL
          have hno : (build root).node o = n := node_of_get _ _ _ (hobjs ▸ h2)
          have hiff : (build root).isModel o = true ↔
              linkTo c ∈ 0 :: ((fileObjects root).filter fun n => n.name == b! "Model").map nodeID := by
            rw [List.mem_cons]
            constructor
            · intro h
              cases o with
              | zero =>
                simp only [List.getElem?_cons_zero, Option.some.injEq] at h2
                subst h2
                exact Or.inl (h3.symm.trans nodeID_scene)
              | succ o =>
                simp only [isModel, Nat.add_eq_zero_iff, one_ne_zero, and_false, beq_iff_eq, Bool.or_eq_true, false_or,
                  hno] at h
                simp only [List.getElem?_cons_succ] at h2
                exact Or.inr (List.mem_map.2 ⟨n, List.mem_filter.2 ⟨List.mem_of_getElem? h2, by simpa using h⟩, h3⟩)
            · rintro (h | h)
              · have h0 := lookup_idTable _ hnd 0 sceneNode rfl
                rw [nodeID_scene] at h0
                have hL' : (idTable (sceneNode :: fileObjects root)).lookup (linkTo c) = some o := hL
                rw [h, h0, Option.some.injEq] at hL'
                subst hL'; rfl
              · obtain ⟨m, h4, h5⟩ := List.mem_map.1 h
                obtain ⟨h6, h7⟩ := List.mem_filter.1 h4
                have hinj := List.inj_on_of_nodup_map hnd
                have : m = n := hinj (by simp [h6]) (List.mem_of_getElem? h2) (h5.trans h3.symm)
                subst this
                simp only [isModel, hno, h7, Bool.or_true]
          by_cases hmo : (build root).isModel o = true
          · rw [if_pos ⟨h1.1, h1.2, hiff.1 hmo⟩]
            simp only [Option.filter, hmo, if_true, Option.map_some, hno, h3]; rfl
          · rw [if_neg (fun h => hmo (hiff.2 h.2.2))]
            simp [Option.filter, hmo]
      · rw [if_neg (fun h => h1 ⟨(usable_iff c).1 h.1, (hfrom c).1 h.2.1⟩), if_neg (fun h => h1 ⟨h.1, h.2.1⟩)]; rfl
    rw [← List.getLast?_map, List.map_filterMap, ← List.getLast?_map]
    congr 1
    have hf : ∀ l : List Node, (l.filterMap fun c => ((loadObjects root).parentOf k c).map
        fun p => nodeID ((build root).node p)) = (l.filter fun c => decide (Used c ∧ linkFrom c = nodeID nk ∧
          linkTo c ∈ 0 :: ((fileObjects root).filter fun n => n.name == b! "Model").map nodeID)).map linkTo := by
      intro l
      induction l with
      | nil => rfl
      | cons c l ih =>
        rw [List.filterMap_cons, hstep c, ih]
        by_cases h : Used c ∧ linkFrom c = nodeID nk ∧
          linkTo c ∈ 0 :: ((fileObjects root).filter fun n => n.name == b! "Model").map nodeID
        · rw [if_pos h, List.filter_cons_of_pos (by simpa using h)]; rfl
        · rw [if_neg h, List.filter_cons_of_neg (by simpa using h)]
    exact hf _
  · rw [if_neg hm, hr]
    have : (fileConnections root).filterMap ((loadObjects root).parentOf k) = [] := by
      rw [List.filterMap_eq_nil_iff]
      intro c _
      unfold parentOf
      rw [if_neg]
      rw [hmod]
      exact fun h => hm h.2.2
    rw [this]; rfl

/-- Position of the object with an id. -/
theorem same_id (root : Node) (hv : versionOf root ≠ 6100) (hn : DistinctIDs root) (a b : Nat)
    (ha : a < (build root).objs.length) (hb : b < (build root).objs.length)
    (h : nodeID ((build root).node a) = nodeID ((build root).node b)) : a = b := by
  obtain ⟨-, -, hobjs, -, -⟩ := build_fields root hv
  have hnd : ((sceneNode :: fileObjects root).map nodeID).Nodup := by rw [map_ids]; exact hn
  rw [hobjs] at ha hb
  have h1 := node_of_get (build root) a _ (by rw [hobjs]; exact List.getElem?_eq_getElem ha)
  have h2 := node_of_get (build root) b _ (by rw [hobjs]; exact List.getElem?_eq_getElem hb)
  have e1 := lookup_idTable _ hnd a _ (List.getElem?_eq_getElem ha)
  have e2 := lookup_idTable _ hnd b _ (List.getElem?_eq_getElem hb)
  rw [h1, h2] at h
  rw [h, e2, Option.some.injEq] at e1
  exact e1.symm

/-- The ids of the models of a file, with the scene. -/
def modelIDs (root : Node) : List Int := 0 :: ((fileObjects root).filter fun n => n.name == b! "Model").map nodeID

/-- C176. When the connections of a model to models name only one of them (connections to other objects, such
as deformers, do not matter), the model is the child of the model that is its parent and of no other: the
tree seen from above and from below is the same. -/
theorem tree_of_file (root : Node) (hv : versionOf root ≠ 6100) (hn : DistinctIDs root) (k p : Nat)
    (hk : k < (build root).objs.length) (hm : (build root).isModel k = true)
    (hp : p < (build root).objs.length) (hmp : (build root).isModel p = true)
    (hone : ∀ c ∈ fileConnections root, ∀ e ∈ fileConnections root, Used c → Used e →
      linkFrom c = nodeID ((build root).node k) → linkFrom e = nodeID ((build root).node k) →
      linkTo c ∈ modelIDs root → linkTo e ∈ modelIDs root → linkTo c = linkTo e) :
    k ∈ (build root).childModels p ↔ (build root).parent k = some p := by
  obtain ⟨hobjs, href⟩ := references_of_file root hv hn
  obtain ⟨hlt, hids⟩ := href p hp
  have hpar := parents_of_file root hv hn k hk
  rw [if_pos hm] at hpar
  have hmem : ∀ q, q < (build root).objs.length → (build root).isModel q = true →
      nodeID ((build root).node q) ∈ 0 :: ((fileObjects root).filter fun n => n.name == b! "Model").map nodeID := by
    intro q hq hmq
    rw [List.mem_cons]
    cases q with
    | zero =>
      left
      rw [node_of_get _ 0 sceneNode (by rw [hobjs]; rfl), nodeID_scene]
    | succ q =>
      right
      obtain ⟨n, h1⟩ : ∃ n, (build root).objs[q + 1]? = some n := ⟨_, List.getElem?_eq_getElem hq⟩
      have h2 := node_of_get _ _ _ h1
      simp only [isModel, Nat.add_eq_zero_iff, one_ne_zero, and_false, beq_iff_eq, Bool.or_eq_true, false_or] at hmq
      refine List.mem_map.2 ⟨(build root).node (q + 1), List.mem_filter.2 ⟨?_, by simpa using hmq⟩, rfl⟩
      rw [h2]
      rw [hobjs, List.getElem?_cons_succ] at h1
      exact List.mem_of_getElem? h1
  constructor
  · intro h
    obtain ⟨hin, -⟩ := List.mem_filter.1 h
    have h1 : nodeID ((build root).node k) ∈ ((build root).refs p).map (fun o => nodeID ((build root).node o)) :=
      List.mem_map.2 ⟨k, hin, rfl⟩
    rw [hids] at h1
    obtain ⟨c, hc, hcv⟩ := List.mem_filterMap.1 h1
    split at hcv
    · rename_i hcond
      injection hcv with hcv
      cases hl : ((fileConnections root).filter fun c => decide (Used c ∧ linkFrom c = nodeID ((build root).node k) ∧
          linkTo c ∈ 0 :: ((fileObjects root).filter fun n => n.name == b! "Model").map nodeID)).getLast? with
      | none =>
        rw [List.getLast?_eq_none_iff] at hl
        have : c ∈ ((fileConnections root).filter fun c => decide (Used c ∧ linkFrom c = nodeID ((build root).node k) ∧
          linkTo c ∈ 0 :: ((fileObjects root).filter fun n => n.name == b! "Model").map nodeID)) :=
          List.mem_filter.2 ⟨hc, by
            simp only [decide_eq_true_eq]
            exact ⟨hcond.1, hcv, hcond.2.1 ▸ hmem p hp hmp⟩⟩
        rw [hl] at this; simp at this
      | some e =>
        rw [hl] at hpar
        have he := List.mem_of_getLast? hl
        obtain ⟨he1, he2⟩ := List.mem_filter.1 he
        simp only [decide_eq_true_eq] at he2
        have heq := hone c hc e he1 hcond.1 he2.1 hcv he2.2.1 (hcond.2.1 ▸ hmem p hp hmp) he2.2.2
        cases hq : (build root).parent k with
        | none => rw [hq] at hpar; simp at hpar
        | some q =>
          rw [hq] at hpar
          simp only [Option.map_some, Option.some.injEq] at hpar
          congr 1
          have hq' : q < (build root).objs.length := by
            have h3 : (build root).parent k = ((fileConnections root).filterMap ((loadObjects root).parentOf k)).getLast? := by
              unfold build
              rw [foldConnections_parent, (loadObjects_fields root hv).2.2.2.1, Option.or_none]; rfl
            rw [hq] at h3
            have h4 := List.mem_of_getLast? h3.symm
            obtain ⟨x, -, hx⟩ := List.mem_filterMap.1 h4
            unfold parentOf at hx
            split at hx
            · rw [endOf, if_neg (by rw [(loadObjects_fields root hv).2.1]; exact hv),
                (loadObjects_fields root hv).2.2.2.2.2.1] at hx
              obtain ⟨hx1, -⟩ := Option.filter_eq_some_iff.1 hx
              obtain ⟨n, h5, -⟩ := idTable_lookup _ _ _ hx1
              rw [hobjs]
              by_contra hlt
              have h6 : (sceneNode :: fileObjects root)[q]? = none := List.getElem?_eq_none (by omega)
              rw [fileObjects] at h6
              rw [h6] at h5; simp at h5
            · simp at hx
          exact same_id root hv hn q p hq' hp (by rw [hpar, ← heq, hcond.2.1])
    · simp at hcv
  · intro h
    rw [h] at hpar
    simp only [Option.map_some] at hpar
    cases hl : ((fileConnections root).filter fun c => decide (Used c ∧ linkFrom c = nodeID ((build root).node k) ∧
        linkTo c ∈ 0 :: ((fileObjects root).filter fun n => n.name == b! "Model").map nodeID)).getLast? with
    | none => rw [hl] at hpar; simp at hpar
    | some e =>
      rw [hl] at hpar
      simp only [Option.map_some, Option.some.injEq] at hpar
      obtain ⟨he1, he2⟩ := List.mem_filter.1 (List.mem_of_getLast? hl)
      simp only [decide_eq_true_eq] at he2
      have hkin : nodeID ((build root).node k) ∈ 0 :: (fileObjects root).map nodeID := by
        rw [← map_ids, ← hobjs]
        have h1 : (build root).objs[k]? = some ((build root).objs[k]'hk) := List.getElem?_eq_getElem hk
        exact List.mem_map.2 ⟨_, List.mem_of_getElem? h1, by rw [node_of_get _ _ _ h1]⟩
      have h1 : nodeID ((build root).node k) ∈ ((build root).refs p).map (fun o => nodeID ((build root).node o)) := by
        rw [hids]
        refine List.mem_filterMap.2 ⟨e, he1, ?_⟩
        rw [if_pos ⟨he2.1, hpar.symm, by rw [he2.2.1]; exact hkin⟩, he2.2.1]
      obtain ⟨o, ho1, ho2⟩ := List.mem_map.1 h1
      have : o = k := same_id root hv hn o k (hlt o ho1) hk ho2
      subst this
      exact List.mem_filter.2 ⟨ho1, hm⟩

end FDoc

end Verif.Fbx
