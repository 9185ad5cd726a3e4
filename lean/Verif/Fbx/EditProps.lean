import Verif.Fbx.BuildProps

/-!
C178: objects and connections added by the API are there when the document is saved and loaded.
-/

namespace Verif.Fbx

open Verif.Mmd (Bytes)

namespace FDoc

/-- Fits an `int64`. -/
def Fits (i : Int) : Prop := -9223372036854775808 ≤ i ∧ i < 9223372036854775808

/-- Every connection of the file names two objects of the file (or the scene). -/
def ClosedLinks (root : Node) : Prop :=
  ∀ c ∈ fileConnections root, Used c →
    linkFrom c ∈ 0 :: (fileObjects root).map nodeID ∧ linkTo c ∈ 0 :: (fileObjects root).map nodeID

/-- Calls that refer only to objects of the document, where `n` is the number of its objects. -/
def EditsOK : Nat → List Edit → Prop
  | _, [] => True
  | n, .object o :: es => Fits (nodeID o) ∧ EditsOK (n + 1) es
  | n, .connect p c _ :: es => p < n ∧ c < n ∧ EditsOK n es

/-- What holds of a document between calls. -/
structure Kept (d : FDoc) : Prop where
  version : d.version = versionOf d.raw
  not6100 : d.version ≠ 6100
  objs : d.objs = sceneNode :: fileObjects d.raw
  byID : d.byID = idTable d.objs
  distinct : (d.objs.map nodeID).Nodup
  fits : ∀ n ∈ d.objs, Fits (nodeID n)
  closed : ClosedLinks d.raw
  next : 0 ≤ d.nextID
  refs : ∀ k, d.refs k = (fileConnections d.raw).filterMap (d.childOf k)

theorem childOf_congr (d d' : FDoc) (hv : d'.version = d.version) (hi : d'.byID = d.byID) (hn : d.version ≠ 6100) :
    d'.childOf = d.childOf := by
  funext k c
  simp only [childOf, endOf, hv, if_neg hn, hi]

theorem Kept.build (root : Node) (hv : versionOf root ≠ 6100) (hn : DistinctIDs root)
    (hf : ∀ n ∈ fileObjects root, Fits (nodeID n)) (hc : ClosedLinks root) : Kept (build root) := by
  obtain ⟨h1, h2, h3, h4, h5⟩ := build_fields root hv
  have hl := loadObjects_fields root hv
  refine ⟨by rw [h1, h2], by rw [h2]; exact hv, by rw [h1, h3], by rw [h3, h4], by rw [h3, map_ids]; exact hn, ?_,
    by rw [h1]; exact hc, by rw [h5], ?_⟩
  · intro n hn
    rw [h3, List.mem_cons] at hn
    rcases hn with rfl | hn
    · rw [nodeID_scene]; unfold Fits; omega
    · exact hf n hn
  · intro k
    rw [h1, childOf_congr (FDoc.loadObjects root) (FDoc.build root)
      (h2.trans hl.2.1.symm) (h4.trans hl.2.2.2.2.2.1.symm) (by rw [hl.2.1]; exact hv)]
    unfold FDoc.build
    rw [foldConnections_refs, hl.2.2.1]; rfl

/-- The document that is loaded from the tree of a document has its objects and references. -/
theorem Kept.reload {d : FDoc} (h : Kept d) :
    (FDoc.build d.raw).objs = d.objs ∧ (FDoc.build d.raw).byID = d.byID ∧ (FDoc.build d.raw).refs = d.refs := by
  have hv : versionOf d.raw ≠ 6100 := by rw [← h.version]; exact h.not6100
  obtain ⟨h1, h2, h3, h4, h5⟩ := build_fields d.raw hv
  have hl := loadObjects_fields d.raw hv
  have hid : (FDoc.build d.raw).byID = d.byID := by rw [h4, h.byID, h.objs]
  refine ⟨by rw [h3, h.objs], hid, ?_⟩
  funext k
  rw [h.refs k, ← childOf_congr d (FDoc.loadObjects d.raw) (hl.2.1.trans h.version.symm)
    (by rw [hl.2.2.2.2.2.1, h.byID, h.objs]; rfl) h.not6100]
  unfold FDoc.build
  rw [foldConnections_refs, hl.2.2.1]; rfl

theorem addObject_cases (d d' : FDoc) (n : Node) (h : d.addObject n = some d') :
    ∃ n' raw, updateChild d.raw b! "Objects" (fun o => o.addChild n') = some raw ∧
      d'.raw = raw ∧ d'.version = d.version ∧ d'.objs = d.objs ++ [n'] ∧
      d'.byID = (nodeID n', d.objs.length) :: d.byID ∧ d'.refs = d.refs ∧ n'.name = n.name ∧
      n'.children = n.children ∧ n'.attrs.tail = n.attrs.tail ∧
      ((n' = n ∧ nodeID n ≠ 0 ∧ d.byID.lookup (nodeID n) = none ∧ d'.nextID = d.nextID) ∨
        (nodeID n' = Verif.Mmd.toSigned 8 (int64Bits d.newID) ∧ d'.nextID = d.newID + 1)) := by
  unfold addObject at h
  simp only at h
  by_cases hf : (decide (nodeID n = 0) || (d.byID.lookup (nodeID n)).isSome) = true
  · simp only [hf, if_true] at h
    cases ha : n.attrs with
    | nil => simp [setID, ha] at h
    | cons a as =>
      have hs : setID n d.newID = some (.mk n.name (.num .i64 (int64Bits d.newID) :: as) n.children) := by
        simp [setID, ha]
      rw [hs] at h
      simp only [Option.map_eq_some_iff] at h
      obtain ⟨raw, hr, rfl⟩ := h
      refine ⟨_, raw, hr, rfl, rfl, rfl, rfl, rfl, rfl, rfl, ?_, Or.inr ⟨?_, rfl⟩⟩
      · simp
      · simp [nodeID, attr, toInt64]
  · simp only [hf, Bool.false_eq_true, if_false] at h
    simp only [Option.map_eq_some_iff] at h
    obtain ⟨raw, hr, rfl⟩ := h
    simp only [Bool.or_eq_true, decide_eq_true_eq, not_or, Bool.not_eq_true, Option.isSome_eq_false_iff,
      Option.isNone_iff_eq_none] at hf
    exact ⟨_, raw, hr, rfl, rfl, rfl, rfl, rfl, rfl, rfl, rfl, Or.inl ⟨rfl, hf.1, hf.2, rfl⟩⟩

theorem mem_zero_ids {d : FDoc} (h : Kept d) (i : Int) : i ∈ 0 :: (fileObjects d.raw).map nodeID ↔ i ∈ d.objs.map nodeID := by
  rw [h.objs, map_ids]

theorem Kept.object {d d' : FDoc} (h : Kept d) (n : Node) (hn : Fits (nodeID n)) (ho : d.addObject n = some d')
    (hb : d'.nextID ≤ 9223372036854775808) : Kept d' ∧ d.nextID ≤ d'.nextID := by
  obtain ⟨n', raw, hr, e1, e2, e3, e4, e5, -, -, -, e6⟩ := addObject_cases d d' n ho
  obtain ⟨hs1, hs2⟩ := section_added _ _ _ _ hr
  have hge : d.nextID ≤ d.newID := IdDoc.firstFree_ge _ _ _
  have hfree : d.byID.lookup d.newID = none := IdDoc.firstFree_free _ _ _ (Nat.le_refl _)
  have hnext := h.next
  have hid : nodeID n' ∉ d.objs.map nodeID ∧ Fits (nodeID n') ∧ d.nextID ≤ d'.nextID := by
    rcases e6 with ⟨rfl, -, h2, h3⟩ | ⟨h1, h2⟩
    · rw [h.byID, idTable_none] at h2
      exact ⟨h2, hn, by omega⟩
    · have hfit : Fits d.newID := by unfold Fits; omega
      rw [toSigned_int64Bits _ hfit.1 hfit.2] at h1
      rw [h.byID, idTable_none] at hfree
      exact ⟨h1 ▸ hfree, h1 ▸ hfit, by omega⟩
  have hconn : fileConnections raw = fileConnections d.raw := by
    unfold fileConnections; rw [hs2 _ (by decide)]
  have hobj : fileObjects raw = fileObjects d.raw ++ [n'] := hs1
  have hver : versionOf raw = versionOf d.raw := by
    unfold versionOf; rw [hs2 _ (by decide)]
  have hmono : ∀ i k, d.byID.lookup i = some k → d'.byID.lookup i = some k := by
    intro i k hk
    rw [e4, List.lookup_cons]
    have : i ≠ nodeID n' := by
      rintro rfl
      rw [h.byID] at hk
      rw [← idTable_none, hk] at hid; simp at hid
    have hb' : (i == nodeID n') = false := by simpa using this
    rw [hb']; exact hk
  have hknown : ∀ i, i ∈ d.objs.map nodeID → d'.byID.lookup i = d.byID.lookup i := by
    intro i hi
    cases hk : d.byID.lookup i with
    | none => rw [h.byID, idTable_none] at hk; exact absurd hi hk
    | some k => exact hmono i k hk
  refine ⟨⟨?_, ?_, ?_, ?_, ?_, ?_, ?_, ?_, ?_⟩, hid.2.2⟩
  · rw [e1, e2, hver, h.version]
  · rw [e2]; exact h.not6100
  · rw [e3, e1, hobj, h.objs]; rfl
  · rw [e3, idTable_append, e4, h.byID]
  · rw [e3, List.map_append, List.nodup_append]
    refine ⟨h.distinct, by simp, ?_⟩
    intro a ha b hb' hab
    simp only [List.map_cons, List.map_nil, List.mem_singleton] at hb'
    subst hb'; subst hab
    exact hid.1 ha
  · intro m hm
    rw [e3, List.mem_append, List.mem_singleton] at hm
    rcases hm with hm | rfl
    · exact h.fits m hm
    · exact hid.2.1
  · intro c hc hu
    rw [e1, hconn] at hc
    obtain ⟨h1, h2⟩ := h.closed c hc hu
    rw [e1, hobj, List.map_append]
    constructor
    · rw [← List.cons_append]; exact List.mem_append_left _ h1
    · rw [← List.cons_append]; exact List.mem_append_left _ h2
  · have := hid.2.2; omega
  · intro k
    rw [e5, e1, hconn, h.refs k]
    apply List.filterMap_congr
    intro c hc
    unfold childOf
    by_cases hu : Used c
    · obtain ⟨h1, h2⟩ := h.closed c hc hu
      rw [mem_zero_ids h] at h1 h2
      have k1 : d'.endOf c 1 = d.endOf c 1 := by
        simp only [endOf, e2, if_neg h.not6100]; exact hknown _ h1
      have k2 : d'.endOf c 2 = d.endOf c 2 := by
        simp only [endOf, e2, if_neg h.not6100]; exact hknown _ h2
      rw [k1, k2]
    · have : ¬ usable c = true := fun hc => hu ((usable_iff c).1 hc)
      rw [if_neg (fun hc => this hc.1), if_neg (fun hc => this hc.1)]

theorem connectionNode_links (kind : Bytes) (a b : Int) (more : List Value) (ha : Fits a) (hb : Fits b) :
    linkFrom (connectionNode kind a b more) = a ∧ linkTo (connectionNode kind a b more) = b := by
  refine ⟨?_, ?_⟩
  · simp [linkFrom, connectionNode, Node.leaf, attr, toInt64, toSigned_int64Bits _ ha.1 ha.2]
  · simp [linkTo, connectionNode, Node.leaf, attr, toInt64, toSigned_int64Bits _ hb.1 hb.2]

theorem Kept.connect {d d' : FDoc} (h : Kept d) (p c : Nat) (prop : Option Bytes) (hp : p < d.objs.length)
    (hc : c < d.objs.length) (ho : d.addConnection p c prop = some d') : Kept d' ∧ d'.nextID = d.nextID := by
  obtain ⟨np, hnp⟩ : ∃ n, d.objs[p]? = some n := ⟨_, List.getElem?_eq_getElem hp⟩
  obtain ⟨nc, hnc⟩ : ∃ n, d.objs[c]? = some n := ⟨_, List.getElem?_eq_getElem hc⟩
  obtain ⟨cn, raw, hr, hcu, hcf, hct, hd'⟩ : ∃ cn raw, updateChild d.raw b! "Connections" (fun o => o.addChild cn) = some raw ∧
      Used cn ∧ linkFrom cn = nodeID nc ∧ linkTo cn = nodeID np ∧
      d' = { d with raw := raw, refs := Function.update d.refs p (d.refs p ++ [c]) } := by
    have f1 := h.fits nc (List.mem_of_getElem? hnc)
    have f2 := h.fits np (List.mem_of_getElem? hnp)
    unfold addConnection at ho
    simp only [node_of_get _ _ _ hnp, node_of_get _ _ _ hnc, Option.map_eq_some_iff] at ho
    obtain ⟨raw, hr, rfl⟩ := ho
    cases prop with
    | none =>
      exact ⟨_, raw, hr, by simp [Used, connectionNode, Node.leaf, attr, toStr], (connectionNode_links _ _ _ _ f1 f2).1,
        (connectionNode_links _ _ _ _ f1 f2).2, rfl⟩
    | some q =>
      exact ⟨_, raw, hr, by simp [Used, connectionNode, Node.leaf, attr, toStr], (connectionNode_links _ _ _ _ f1 f2).1,
        (connectionNode_links _ _ _ _ f1 f2).2, rfl⟩
  obtain ⟨hs1, hs2⟩ := section_added _ _ _ _ hr
  have hconn : fileConnections raw = fileConnections d.raw ++ [cn] := hs1
  have hobj : fileObjects raw = fileObjects d.raw := by
    unfold fileObjects; rw [hs2 _ (by decide)]
  have hver : versionOf raw = versionOf d.raw := by
    unfold versionOf; rw [hs2 _ (by decide)]
  subst hd'
  refine ⟨⟨?_, h.not6100, ?_, h.byID, h.distinct, h.fits, ?_, h.next, ?_⟩, rfl⟩
  · simp only [hver]; exact h.version
  · simp only [hobj]; exact h.objs
  · intro e he hu
    simp only [hconn, List.mem_append, List.mem_singleton] at he
    simp only [hobj]
    rcases he with he | rfl
    · exact h.closed e he hu
    · rw [hcf, hct, mem_zero_ids h, mem_zero_ids h]
      exact ⟨List.mem_map.2 ⟨nc, List.mem_of_getElem? hnc, rfl⟩, List.mem_map.2 ⟨np, List.mem_of_getElem? hnp, rfl⟩⟩
  · intro k
    simp only [hconn, List.filterMap_append]
    have hcc : ({ d with raw := raw, refs := Function.update d.refs p (d.refs p ++ [c]) } : FDoc).childOf k = d.childOf k :=
      congrFun (childOf_congr d _ rfl rfl h.not6100) k
    rw [hcc, ← h.refs k]
    have h1 : d.endOf cn 1 = some c := by
      rw [endOf, if_neg h.not6100, h.byID]
      have := lookup_idTable d.objs h.distinct c nc hnc
      rw [← hcf] at this; exact this
    have h2 : d.endOf cn 2 = some p := by
      rw [endOf, if_neg h.not6100, h.byID]
      have := lookup_idTable d.objs h.distinct p np hnp
      rw [← hct] at this; exact this
    have h3 : [cn].filterMap (d.childOf k) = if p = k then [c] else [] := by
      by_cases hpk : p = k
      · have : d.childOf k cn = some c := by
          unfold childOf; rw [if_pos ⟨(usable_iff cn).2 hcu, by rw [h2, hpk]⟩, h1]
        simp [List.filterMap_cons, this, hpk]
      · have : d.childOf k cn = none := by
          unfold childOf; rw [if_neg (fun hx => hpk (by rw [h2] at hx; exact Option.some.inj hx.2))]
        simp [List.filterMap_cons, this, hpk]
    rw [h3]
    by_cases hpk : p = k
    · subst hpk; simp
    · simp [hpk, Function.update_of_ne (Ne.symm hpk)]

theorem Kept.edits (es : List Edit) : ∀ d d' : FDoc, Kept d → EditsOK d.objs.length es → d.edits es = some d' →
    d'.nextID ≤ 9223372036854775808 → Kept d' ∧ d.nextID ≤ d'.nextID := by
  induction es with
  | nil =>
    intro d d' h _ he _
    simp only [FDoc.edits, Option.some.injEq] at he
    subst he
    exact ⟨h, Int.le_refl _⟩
  | cons e es ih =>
    intro d d' h hok he hb
    simp only [FDoc.edits, Option.bind_eq_some_iff] at he
    obtain ⟨d1, h1, h2⟩ := he
    cases e with
    | object n =>
      obtain ⟨n', raw, -, -, -, e3, -⟩ := addObject_cases d d1 n h1
      have hlen : d1.objs.length = d.objs.length + 1 := by rw [e3]; simp
      have hmono : ∀ (es : List Edit) (a b : FDoc), a.edits es = some b → a.nextID ≤ b.nextID := by
        intro es
        induction es with
        | nil => intro a b hab; simp only [FDoc.edits, Option.some.injEq] at hab; rw [hab]
        | cons e es ih2 =>
          intro a b hab
          simp only [FDoc.edits, Option.bind_eq_some_iff] at hab
          obtain ⟨a1, g1, g2⟩ := hab
          refine Int.le_trans ?_ (ih2 a1 b g2)
          cases e with
          | object m =>
            obtain ⟨_, _, _, _, _, _, _, _, _, _, _, g⟩ := addObject_cases a a1 m g1
            have hge : a.nextID ≤ a.newID := IdDoc.firstFree_ge _ _ _
            rcases g with ⟨_, _, _, g⟩ | ⟨_, g⟩ <;> omega
          | connect p c prop =>
            simp only [edit, addConnection, Option.map_eq_some_iff] at g1
            obtain ⟨r, -, rfl⟩ := g1
            exact Int.le_refl _
      have hb1 : d1.nextID ≤ 9223372036854775808 := Int.le_trans (hmono es d1 d' h2) hb
      obtain ⟨k1, k2⟩ := h.object n hok.1 h1 hb1
      obtain ⟨k3, k4⟩ := ih d1 d' k1 (by rw [hlen]; exact hok.2) h2 hb
      exact ⟨k3, Int.le_trans k2 k4⟩
    | connect p c prop =>
      obtain ⟨k1, k2⟩ := h.connect p c prop hok.1 hok.2.1 h1
      have hlen : d1.objs = d.objs := by
        simp only [edit, addConnection, Option.map_eq_some_iff] at h1
        obtain ⟨r, -, rfl⟩ := h1
        rfl
      obtain ⟨k3, k4⟩ := ih d1 d' k1 (by rw [hlen]; exact hok.2.2) h2 hb
      exact ⟨k3, k2 ▸ k4⟩

/-- C178. After any calls that add objects and connections to a document built from a file (with
different ids and without connections of unknown objects), the document loaded from the tree of the
changed document has the same objects in the same order, and each object refers to the same objects. -/
theorem edits_kept_partial (root : Node) (hv : versionOf root ≠ 6100) (hn : DistinctIDs root)
    (hf : ∀ n ∈ fileObjects root, Fits (nodeID n)) (hc : ClosedLinks root) (es : List Edit) (d : FDoc)
    (hok : EditsOK ((fileObjects root).length + 1) es) (h : (build root).edits es = some d)
    (hb : d.nextID ≤ 9223372036854775808) :
    (build d.raw).objs = d.objs ∧ (build d.raw).refs = d.refs ∧ (d.objs.map nodeID).Nodup ∧
      ∀ o, o < (build root).objs.length → (build d.raw).node o = (build root).node o := by
  have hobjs := (build_fields root hv).2.2.1
  obtain ⟨k, -⟩ := Kept.edits es (build root) d (Kept.build root hv hn hf hc) (by rw [hobjs]; simpa using hok) h hb
  obtain ⟨r1, -, r3⟩ := k.reload
  refine ⟨r1, r3, k.distinct, ?_⟩
  have key : ∀ (es : List Edit) (a b : FDoc), a.edits es = some b → ∃ l, b.objs = a.objs ++ l := by
    intro es
    induction es with
    | nil => intro a b hab; simp only [FDoc.edits, Option.some.injEq] at hab; exact ⟨[], by simp [hab]⟩
    | cons e es ih =>
      intro a b hab
      simp only [FDoc.edits, Option.bind_eq_some_iff] at hab
      obtain ⟨a1, g1, g2⟩ := hab
      obtain ⟨l, hl⟩ := ih a1 b g2
      cases e with
      | object m =>
        obtain ⟨n', _, _, _, _, g, _⟩ := addObject_cases a a1 m g1
        exact ⟨n' :: l, by rw [hl, g]; simp⟩
      | connect p c prop =>
        simp only [edit, addConnection, Option.map_eq_some_iff] at g1
        obtain ⟨r, -, rfl⟩ := g1
        exact ⟨l, hl⟩
  intro o ho
  obtain ⟨l, hl⟩ := key es _ _ h
  unfold node
  rw [r1, hl]
  simp [List.getD, List.getElem?_append_left ho]

/-- C178. The calls succeed: every object with an attribute for its id can be added and every two objects
can be connected when the tree has the sections for them. -/
theorem edits_succeed (es : List Edit) : ∀ d : FDoc, (∀ n, Edit.object n ∈ es → n.attrs ≠ []) →
    (findChild (some d.raw) b! "Objects").isSome = true → (findChild (some d.raw) b! "Connections").isSome = true →
    ∃ d', d.edits es = some d' := by
  have hupd : ∀ (g : Node) (name : Bytes) (f : Node → Node), (findChild (some g) name).isSome = true →
      ∃ g', updateChild g name f = some g' := by
    intro g name f hg
    have : ∀ l : List Node, (l.find? fun c => c.name == name).isSome = true → ∃ l', updateChild.go name f l = some l' := by
      intro l
      induction l with
      | nil => intro h; simp at h
      | cons x xs ih =>
        intro h
        simp only [updateChild.go]
        by_cases hx : x.name = name
        · exact ⟨_, if_pos hx⟩
        · rw [if_neg hx]
          rw [List.find?_cons_of_neg (by simpa using hx)] at h
          obtain ⟨l', hl'⟩ := ih h
          exact ⟨_, by rw [hl']; rfl⟩
    obtain ⟨l', hl'⟩ := this g.children hg
    exact ⟨_, by unfold updateChild; rw [hl']; rfl⟩
  have hkeep : ∀ (raw raw' : Node) (name m : Bytes) (c : Node),
      updateChild raw name (fun o => o.addChild c) = some raw' → (findChild (some raw) m).isSome = true →
      (findChild (some raw') m).isSome = true := by
    intro raw raw' name m c hr hm
    by_cases hmn : m = name
    · subst hmn
      obtain ⟨x, -, h2⟩ := updateChild_find_same raw raw' m _ hr (fun x => addChild_name x c)
      rw [h2]; rfl
    · rw [(section_added raw raw' name c hr).2 m hmn]; exact hm
  induction es with
  | nil => intro d _ _ _; exact ⟨d, rfl⟩
  | cons e es ih =>
    intro d ha h1 h2
    simp only [FDoc.edits]
    cases e with
    | object n =>
      have hne := ha n (by simp)
      obtain ⟨n', hn'⟩ : ∃ n', (if (decide (nodeID n = 0) || (d.byID.lookup (nodeID n)).isSome) = true then
          setID n d.newID else some n) = some n' := by
        split
        · cases hx : n.attrs with
          | nil => exact absurd hx hne
          | cons a as => exact ⟨.mk n.name (.num .i64 (int64Bits d.newID) :: as) n.children, by simp [setID, hx]⟩
        · exact ⟨n, rfl⟩
      obtain ⟨raw, hr⟩ := hupd d.raw b! "Objects" (fun o => o.addChild n') h1
      have hadd : ∃ d1, d.addObject n = some d1 ∧ d1.raw = raw := by
        unfold addObject
        simp only [hn', hr]
        exact ⟨_, rfl, rfl⟩
      obtain ⟨d1, hd1, hraw⟩ := hadd
      simp only [edit, hd1, Option.bind_some]
      exact ih d1 (fun m hm => ha m (by simp [hm])) (hraw ▸ hkeep _ _ _ _ _ hr h1) (hraw ▸ hkeep _ _ _ _ _ hr h2)
    | connect p c prop =>
      have hadd : ∃ d1 x, d.addConnection p c prop = some d1 ∧
          updateChild d.raw b! "Connections" (fun o => o.addChild x) = some d1.raw := by
        cases prop with
        | none =>
          obtain ⟨raw, hr⟩ := hupd d.raw b! "Connections"
            (fun o => o.addChild (connectionNode b! "OO" (nodeID (d.node c)) (nodeID (d.node p)) [])) h2
          exact ⟨_, _, by simp only [addConnection, hr]; rfl, hr⟩
        | some q =>
          obtain ⟨raw, hr⟩ := hupd d.raw b! "Connections"
            (fun o => o.addChild (connectionNode b! "OP" (nodeID (d.node c)) (nodeID (d.node p)) [.str q])) h2
          exact ⟨_, _, by simp only [addConnection, hr]; rfl, hr⟩
      obtain ⟨d1, x, hd1, hr⟩ := hadd
      simp only [edit, hd1, Option.bind_some]
      exact ih d1 (fun m hm => ha m (by simp [hm])) (hkeep _ _ _ _ _ hr h1) (hkeep _ _ _ _ _ hr h2)

end FDoc

end Verif.Fbx
