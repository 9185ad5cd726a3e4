import Verif.Fbx.EditFindings

/-! C178: parents of models that are connected by calls. -/

namespace Verif.Fbx

open Verif.Mmd (Bytes)

namespace FDoc

theorem edits_parent (es : List Edit) : ∀ d d' : FDoc, d.edits es = some d' → d'.parent = d.parent := by
  induction es with
  | nil => intro d d' h; simp only [edits, Option.some.injEq] at h; rw [h]
  | cons e es ih =>
    intro d d' h
    simp only [edits, Option.bind_eq_some_iff] at h
    obtain ⟨d1, h1, h2⟩ := h
    rw [ih d1 d' h2]
    cases e with
    | object n =>
      simp only [edit, addObject] at h1
      split at h1
      · simp at h1
      · simp only [Option.map_eq_some_iff] at h1
        obtain ⟨r, -, rfl⟩ := h1
        rfl
    | connect p c prop =>
      simp only [edit, addConnection, Option.map_eq_some_iff] at h1
      obtain ⟨r, -, rfl⟩ := h1
      rfl

/-- Objects that are not in the file have no parent. -/
theorem build_parent_none (root : Node) (hv : versionOf root ≠ 6100) (k : Nat) (hk : (build root).objs.length ≤ k) :
    (build root).parent k = none := by
  have hl := loadObjects_fields root hv
  have ho : (build root).objs = sceneNode :: fileObjects root := (build_fields root hv).2.2.1
  rw [build_parent root hv]
  have : (fileConnections root).filterMap ((loadObjects root).parentOf k) = [] := by
    rw [List.filterMap_eq_nil_iff]
    intro c _
    unfold parentOf
    rw [if_neg]
    rintro ⟨-, h, -⟩
    rw [endOf, if_neg (by rw [hl.2.1]; exact hv), hl.2.2.2.2.2.1] at h
    obtain ⟨n, h1, -⟩ := idTable_lookup _ _ _ h
    have := (List.getElem?_eq_some_iff.1 h1).1
    rw [ho] at hk
    exact absurd this (Nat.not_lt.2 hk)
  rw [this]; rfl

/-- C178 is false of parents. After any calls, connecting two models makes one the parent of the other when
the document is loaded again, but not in memory: there no call ever sets a parent, so an added model has
none, and its world matrix leaves out the models above it. -/
theorem connected_parent_false (root : Node) (hv : versionOf root ≠ 6100) (hn : DistinctIDs root)
    (hf : ∀ n ∈ fileObjects root, Fits (nodeID n)) (hc : ClosedLinks root) (es : List Edit) (d : FDoc)
    (hok : EditsOK ((fileObjects root).length + 1) es) (h : (build root).edits es = some d)
    (hb : d.nextID ≤ 9223372036854775808) (p c : Nat) (prop : Option Bytes) (hp : p < d.objs.length)
    (hcl : c < d.objs.length) (mp : d.isModel p = true) (mc : d.isModel c = true) (d' : FDoc)
    (ho : d.addConnection p c prop = some d') :
    (build d'.raw).parent c = some p ∧ d'.parent c = (build root).parent c ∧
      ((build root).objs.length ≤ c → d'.parent c = none) := by
  have hobjs := (build_fields root hv).2.2.1
  obtain ⟨kd, -⟩ := Kept.edits es (build root) d (Kept.build root hv hn hf hc) (by rw [hobjs]; simpa using hok) h hb
  obtain ⟨kd', -⟩ := kd.connect p c prop hp hcl ho
  have hpar : d'.parent = (build root).parent := by
    have : d'.parent = d.parent := edits_parent [.connect p c prop] d d' (by
      simp only [edits, edit, ho]; rfl)
    rw [this, edits_parent es _ _ h]
  refine ⟨?_, by rw [hpar], fun hk => by rw [hpar]; exact build_parent_none root hv c hk⟩
  obtain ⟨np, hnp⟩ : ∃ n, d.objs[p]? = some n := ⟨_, List.getElem?_eq_getElem hp⟩
  obtain ⟨nc, hnc⟩ : ∃ n, d.objs[c]? = some n := ⟨_, List.getElem?_eq_getElem hcl⟩
  obtain ⟨cn, raw, hr, hcu, hcf, hct, hd'⟩ : ∃ cn raw, updateChild d.raw b! "Connections" (fun o => o.addChild cn) = some raw ∧
      Used cn ∧ linkFrom cn = nodeID nc ∧ linkTo cn = nodeID np ∧ d'.raw = raw ∧ d'.objs = d.objs := by
    have f1 := kd.fits nc (List.mem_of_getElem? hnc)
    have f2 := kd.fits np (List.mem_of_getElem? hnp)
    unfold addConnection at ho
    simp only [node_of_get _ _ _ hnp, node_of_get _ _ _ hnc, Option.map_eq_some_iff] at ho
    obtain ⟨raw, hr, rfl⟩ := ho
    cases prop with
    | none =>
      exact ⟨_, raw, hr, by simp [Used, connectionNode, Node.leaf, attr, toStr], (connectionNode_links _ _ _ _ f1 f2).1,
        (connectionNode_links _ _ _ _ f1 f2).2, rfl, rfl⟩
    | some q =>
      exact ⟨_, raw, hr, by simp [Used, connectionNode, Node.leaf, attr, toStr], (connectionNode_links _ _ _ _ f1 f2).1,
        (connectionNode_links _ _ _ _ f1 f2).2, rfl, rfl⟩
  have hconn : fileConnections d'.raw = fileConnections d.raw ++ [cn] := by
    rw [hd'.1]; exact (section_added _ _ _ _ hr).1
  have hv' : versionOf d'.raw ≠ 6100 := by rw [← kd'.version]; exact kd'.not6100
  have hl := loadObjects_fields d'.raw hv'
  have hlo : (loadObjects d'.raw).objs = d.objs := by
    rw [hl.2.2.2.2.1, ← hd'.2, kd'.objs]; rfl
  have hE : ∀ i : Nat, (loadObjects d'.raw).endOf cn i = (idTable d.objs).lookup (toInt64 (attr (some cn) i) 0) := by
    intro i
    rw [endOf, if_neg (by rw [hl.2.1]; exact hv'), hl.2.2.2.2.2.1, ← hd'.2, kd'.objs]; rfl
  have e1 : (loadObjects d'.raw).endOf cn 1 = some c := by
    have := lookup_idTable d.objs kd.distinct c nc hnc
    rw [← hcf] at this
    rw [hE]; exact this
  have e2 : (loadObjects d'.raw).endOf cn 2 = some p := by
    have := lookup_idTable d.objs kd.distinct p np hnp
    rw [← hct] at this
    rw [hE]; exact this
  have hM : ∀ k, (loadObjects d'.raw).isModel k = d.isModel k := by
    intro k; unfold isModel node; rw [hlo]
  have hlast : (loadObjects d'.raw).parentOf c cn = some p := by
    unfold parentOf
    rw [if_pos ⟨(usable_iff cn).2 hcu, e1, by rw [hM]; exact mc⟩, e2]
    simp [Option.filter, hM, mp]
  rw [build_parent _ hv', hconn, List.filterMap_append]
  simp [List.filterMap_cons, hlast]

/-- The hypotheses of `connected_parent_false`: a model is added under the second model of a file. -/
example : ∃ d d', (build (sampleRoot [] sampleLinks)).edits
      [.object (newObj b! "Model" (b! "m" ++ 0 :: 1 :: b! "Model") b! "Mesh" [])] = some d ∧
    d.nextID ≤ 9223372036854775808 ∧ d.addConnection 2 3 none = some d' ∧ d.isModel 2 = true ∧ d.isModel 3 = true ∧
    d'.parent 3 = none ∧ (build d'.raw).parent 3 = some 2 := by
  refine ⟨((build (sampleRoot [] sampleLinks)).edits
      [.object (newObj b! "Model" (b! "m" ++ 0 :: 1 :: b! "Model") b! "Mesh" [])]).get (by decide +kernel),
    ((((build (sampleRoot [] sampleLinks)).edits
      [.object (newObj b! "Model" (b! "m" ++ 0 :: 1 :: b! "Model") b! "Mesh" [])]).get
        (by decide +kernel)).addConnection 2 3 none).get (by decide +kernel), by simp, ?_, by simp, ?_, ?_, ?_, ?_⟩
  all_goals decide +kernel

end FDoc

end Verif.Fbx
