import Verif.Fbx.Build
import Verif.Fbx.DocumentProps
import Verif.Fbx.GeometryProps
import Verif.Fbx.TextProps
import Mathlib.Data.List.Induction

/-!
Lemmas for C176, C177 and C178.
-/

namespace Verif.Fbx

open Verif.Mmd (Bytes)

namespace FDoc

/-- The map from ids to positions that a list of objects gives: the last object of an id counts. -/
def idTable (objs : List Node) : List (Int × Nat) :=
  (objs.zipIdx.map fun p => (nodeID p.1, p.2)).reverse

theorem idTable_append (l : List Node) (n : Node) : idTable (l ++ [n]) = (nodeID n, l.length) :: idTable l := by
  simp [idTable, List.zipIdx_append]

/-- What reading objects leaves alone. -/
theorem loadObject_fields (d : FDoc) (n : Node) :
    (d.loadObject n).raw = d.raw ∧ (d.loadObject n).version = d.version ∧ (d.loadObject n).refs = d.refs ∧
      (d.loadObject n).parent = d.parent := ⟨rfl, rfl, rfl, rfl⟩

theorem foldObjects (ns : List Node) (d : FDoc) (hv : d.version ≠ 6100) (ht : d.byID = idTable d.objs) :
    let r := ns.foldl loadObject d
    r.raw = d.raw ∧ r.version = d.version ∧ r.refs = d.refs ∧ r.parent = d.parent ∧ r.objs = d.objs ++ ns ∧
      r.byID = idTable (d.objs ++ ns) ∧ r.nextID = d.nextID := by
  induction ns generalizing d with
  | nil => simp [ht]
  | cons n ns ih =>
    have hb : (d.version == 6100) = false := by simpa using hv
    have e : (d.loadObject n).objs = d.objs ++ [n] := by simp [loadObject, hb]
    have e2 : (d.loadObject n).byID = idTable (d.loadObject n).objs := by
      rw [e, idTable_append, ← ht]; simp [loadObject, hb]
    have e3 : (d.loadObject n).nextID = d.nextID := by simp [loadObject, hb]
    have h := ih (d.loadObject n) hv e2
    simp only [List.foldl_cons]
    obtain ⟨h1, h2, h3, h4, h5, h6, h7⟩ := h
    refine ⟨h1, h2, h3, h4, ?_, ?_, h7.trans e3⟩
    · rw [h5, e]; simp
    · rw [h6, e]; simp

theorem loadObjects_fields (root : Node) (hv : versionOf root ≠ 6100) :
    (loadObjects root).raw = root ∧ (loadObjects root).version = versionOf root ∧
      (loadObjects root).refs = (fun _ => []) ∧ (loadObjects root).parent = (fun _ => none) ∧
      (loadObjects root).objs = sceneNode :: getChildren (findChild (some root) b! "Objects") ∧
      (loadObjects root).byID = idTable (sceneNode :: getChildren (findChild (some root) b! "Objects")) ∧
      (loadObjects root).nextID = 0 := by
  have h := foldObjects (getChildren (findChild (some root) b! "Objects")) (start root) hv rfl
  exact h

/-- What reading connections leaves alone. -/
theorem loadConnection_fields (d : FDoc) (c : Node) :
    (d.loadConnection c).raw = d.raw ∧ (d.loadConnection c).version = d.version ∧ (d.loadConnection c).objs = d.objs ∧
      (d.loadConnection c).byID = d.byID ∧ (d.loadConnection c).byName = d.byName ∧
      (d.loadConnection c).nextID = d.nextID ∧ (d.loadConnection c).materials = d.materials ∧
      (d.loadConnection c).ownGeometry = d.ownGeometry := by
  unfold loadConnection
  split
  · split <;> simp
  · simp

theorem foldConnections_fields (cs : List Node) (d : FDoc) :
    let r := cs.foldl loadConnection d
    r.raw = d.raw ∧ r.version = d.version ∧ r.objs = d.objs ∧ r.byID = d.byID ∧ r.byName = d.byName ∧
      r.nextID = d.nextID ∧ r.materials = d.materials ∧ r.ownGeometry = d.ownGeometry := by
  induction cs generalizing d with
  | nil => simp
  | cons c cs ih =>
    have h := ih (d.loadConnection c)
    have g := loadConnection_fields d c
    simp only [List.foldl_cons]
    obtain ⟨a1, a2, a3, a4, a5, a6, a7, a8⟩ := h
    obtain ⟨b1, b2, b3, b4, b5, b6, b7, b8⟩ := g
    exact ⟨a1.trans b1, a2.trans b2, a3.trans b3, a4.trans b4, a5.trans b5, a6.trans b6, a7.trans b7, a8.trans b8⟩

/-- The child of a connection, if the connection goes to object `k`. -/
def childOf (d : FDoc) (k : Nat) (c : Node) : Option Nat :=
  if usable c = true ∧ d.endOf c 2 = some k then d.endOf c 1 else none

/-- The parent that a connection gives to object `k`. -/
def parentOf (d : FDoc) (k : Nat) (c : Node) : Option Nat :=
  if usable c = true ∧ d.endOf c 1 = some k ∧ d.isModel k = true then
    (d.endOf c 2).filter d.isModel else none

theorem endOf_congr (d d' : FDoc) (hv : d'.version = d.version) (hi : d'.byID = d.byID) (hn : d'.byName = d.byName)
    (c : Node) (i : Nat) : d'.endOf c i = d.endOf c i := by
  simp [endOf, hv, hi, hn]

theorem loadConnection_endOf (d : FDoc) (c e : Node) (i : Nat) : (d.loadConnection c).endOf e i = d.endOf e i := by
  have g := loadConnection_fields d c
  exact endOf_congr _ _ g.2.1 g.2.2.2.1 g.2.2.2.2.1 e i

theorem loadConnection_isModel (d : FDoc) (c : Node) : (d.loadConnection c).isModel = d.isModel := by
  funext k
  have g := loadConnection_fields d c
  simp [isModel, node, g.2.2.1]

theorem loadConnection_refs (d : FDoc) (c : Node) (k : Nat) :
    (d.loadConnection c).refs k = d.refs k ++ (d.childOf k c).toList := by
  unfold loadConnection childOf
  by_cases hu : usable c = true
  · rw [if_pos hu]
    cases h1 : d.endOf c 1 with
    | none => simp [hu]
    | some child =>
      cases h2 : d.endOf c 2 with
      | none => simp [hu]
      | some par =>
        simp only [hu, true_and, Option.some.injEq]
        by_cases hk : par = k
        · subst hk; simp
        · simp [Function.update_of_ne (Ne.symm hk), hk]
  · simp [hu]

theorem foldConnections_refs (cs : List Node) (d : FDoc) (k : Nat) :
    (cs.foldl loadConnection d).refs k = d.refs k ++ cs.filterMap (d.childOf k) := by
  induction cs generalizing d with
  | nil => simp
  | cons c cs ih =>
    rw [List.foldl_cons, ih, loadConnection_refs]
    have e : (d.loadConnection c).childOf k = d.childOf k := by
      funext x
      simp [childOf, loadConnection_endOf]
    rw [e, List.append_assoc]
    congr 1
    cases h : d.childOf k c with
    | none => simp [List.filterMap_cons, h]
    | some v => simp [List.filterMap_cons, h]

theorem loadConnection_parent (d : FDoc) (c : Node) (k : Nat) :
    (d.loadConnection c).parent k = (d.parentOf k c).or (d.parent k) := by
  unfold loadConnection parentOf
  by_cases hu : usable c = true
  · rw [if_pos hu]
    cases h1 : d.endOf c 1 with
    | none => simp [hu]
    | some child =>
      cases h2 : d.endOf c 2 with
      | none => simp [hu]
      | some par =>
        simp only [hu, true_and, Option.some.injEq]
        by_cases hp : d.isModel par = true
        · by_cases hk : child = k
          · subst hk
            by_cases hm : d.isModel child = true
            · simp [hp, hm, Option.filter]
            · simp [hp, hm]
          · by_cases hm : d.isModel child = true
            · simp [hp, hm, hk, Function.update_of_ne (Ne.symm hk)]
            · simp [hp, hm, hk]
        · simp [hp, Option.filter]
  · simp [hu]

theorem foldConnections_parent (cs : List Node) (d : FDoc) (k : Nat) :
    (cs.foldl loadConnection d).parent k = ((cs.filterMap (d.parentOf k)).getLast?).or (d.parent k) := by
  induction cs generalizing d with
  | nil => simp
  | cons c cs ih =>
    rw [List.foldl_cons, ih, loadConnection_parent]
    have e : (d.loadConnection c).parentOf k = d.parentOf k := by
      funext x
      simp [parentOf, loadConnection_endOf, loadConnection_isModel]
    rw [e]
    cases h : d.parentOf k c with
    | none => simp [List.filterMap_cons, h]
    | some v =>
      simp only [List.filterMap_cons, h, List.getLast?_cons]
      cases (cs.filterMap (d.parentOf k)).getLast? <;> simp

/-! ## Looking up ids -/

theorem lookup_idTable (objs : List Node) (hn : (objs.map nodeID).Nodup) (k : Nat) (n : Node) (h : objs[k]? = some n) :
    (idTable objs).lookup (nodeID n) = some k := by
  induction objs using List.reverseRecOn with
  | nil => simp at h
  | append_singleton l m ih =>
    rw [idTable_append, List.lookup_cons]
    rw [List.map_append, List.nodup_append] at hn
    by_cases hk : k < l.length
    · rw [List.getElem?_append_left hk] at h
      have hmem : nodeID n ∈ l.map nodeID := List.mem_map.2 ⟨n, List.mem_of_getElem? h, rfl⟩
      have hne : (nodeID n == nodeID m) = false := by
        have := hn.2.2 _ hmem (nodeID m) (by simp)
        simpa using this
      simp only [hne]
      exact ih hn.1 h
    · rw [List.getElem?_append_right (by omega)] at h
      have hk' : k - l.length = 0 := by
        by_contra hne
        rw [List.getElem?_eq_none (by simp; omega)] at h
        simp at h
      rw [hk'] at h
      simp only [List.getElem?_cons_zero, Option.some.injEq] at h
      subst h
      simp; omega

theorem idTable_lookup (objs : List Node) (i : Int) (k : Nat) (h : (idTable objs).lookup i = some k) :
    ∃ n, objs[k]? = some n ∧ nodeID n = i := by
  induction objs using List.reverseRecOn with
  | nil => simp [idTable] at h
  | append_singleton l m ih =>
    rw [idTable_append, List.lookup_cons] at h
    by_cases hi : i = nodeID m
    · subst hi
      simp only [beq_self_eq_true, Option.some.injEq] at h
      subst h
      exact ⟨m, by simp, rfl⟩
    · have hb : (i == nodeID m) = false := by simpa using hi
      rw [hb] at h
      obtain ⟨n, h1, h2⟩ := ih h
      refine ⟨n, ?_, h2⟩
      rw [List.getElem?_append_left (by
        by_contra hc
        rw [List.getElem?_eq_none (by omega)] at h1
        simp at h1)]
      exact h1

theorem idTable_none (objs : List Node) (i : Int) : (idTable objs).lookup i = none ↔ i ∉ objs.map nodeID := by
  induction objs using List.reverseRecOn with
  | nil => simp [idTable]
  | append_singleton l m ih =>
    rw [idTable_append, List.lookup_cons]
    by_cases hi : i = nodeID m
    · subst hi; simp
    · have hb : (i == nodeID m) = false := by simpa using hi
      rw [hb]
      simp only [ih, List.map_append, List.map_cons, List.map_nil, List.mem_append, List.mem_singleton, hi, or_false]

theorem nodeID_scene : nodeID sceneNode = 0 := rfl

/-! ## Changing the tree -/

theorem updateChild_find_same (g g' : Node) (name : Bytes) (f : Node → Node) (h : updateChild g name f = some g')
    (hf : ∀ x, (f x).name = x.name) :
    ∃ x, findChild (some g) name = some x ∧ findChild (some g') name = some (f x) := by
  have key : ∀ l l' : List Node, updateChild.go name f l = some l' →
      ∃ x, l.find? (fun c => c.name == name) = some x ∧ l'.find? (fun c => c.name == name) = some (f x) := by
    intro l
    induction l with
    | nil => intro l' h; simp [updateChild.go] at h
    | cons y ys ih =>
      intro l' h
      simp only [updateChild.go] at h
      split at h
      · rename_i hy
        injection h with h; subst h
        exact ⟨y, by simp [hy], by simp [hf, hy]⟩
      · rename_i hy
        cases hg : updateChild.go name f ys with
        | none => simp [hg] at h
        | some l2 =>
          simp only [hg, Option.map_some, Option.some.injEq] at h
          subst h
          obtain ⟨x, h1, h2⟩ := ih l2 hg
          exact ⟨x, by simp [hy, h1], by simp [hy, h2]⟩
  unfold updateChild at h
  cases hg : updateChild.go name f g.children with
  | none => simp [hg] at h
  | some l2 =>
    simp only [hg, Option.map_some, Option.some.injEq] at h
    subst h
    obtain ⟨x, h1, h2⟩ := key _ _ hg
    exact ⟨x, h1, h2⟩

theorem addChild_name (o c : Node) : (o.addChild c).name = o.name := rfl

/-- Adding a child to the section `name`. -/
theorem section_added (raw raw' : Node) (name : Bytes) (c : Node)
    (h : updateChild raw name (fun o => o.addChild c) = some raw') :
    getChildren (findChild (some raw') name) = getChildren (findChild (some raw) name) ++ [c] ∧
      ∀ m, m ≠ name → findChild (some raw') m = findChild (some raw) m := by
  obtain ⟨x, h1, h2⟩ := updateChild_find_same raw raw' name _ h (fun x => addChild_name x c)
  refine ⟨?_, fun m hm => updateChild_find raw raw' name m _ h hm (fun x => addChild_name x c)⟩
  rw [h1, h2]
  rfl

end FDoc

end Verif.Fbx
