import Verif.Conv.FbxVisitLemmas
import Verif.Conv.FbxMeshProps
import Verif.Geom.MatProps

/-! C116 to C119: bones, weights, object tree and placement when an FBX document is converted
(converter/fbx2mqo.go). -/

namespace Verif.Conv

open Verif.Geom
open Verif.Mqo (Str Object Face Bone MorphTargetList VertexWeight WeightGroup)

variable {F : Type}

/-! ### Which models are converted -/

/-- `x` is `m` or lies below it in the document. -/
inductive Below (sc : FScene F) : Nat → Nat → Prop
  | self (m : Nat) : Below sc m m
  | down (m c x : Nat) : c ∈ (sc.model m).children → Below sc c x → Below sc m x

/-- A model directly under the scene is converted if the whole document is wanted, or if it is not a bone
and there is a mesh somewhere below it. -/
def TopModel (sc : FScene F) (opt : FOptions F) (c : Nat) : Prop :=
  c ∈ (sc.model sc.scene).children ∧
    (opt.wholeNode = true ∨ (sc.model c).limb = false ∧ ∃ y g, Below sc c y ∧ (sc.model y).geometry = some g)

/-- The model `x` becomes an object: it lies under a converted model of the scene, with no bone between
(unless the whole document is wanted). -/
def Converted (sc : FScene F) (opt : FOptions F) (x : Nat) : Prop := ∃ c, TopModel sc opt c ∧ KeptBelow sc opt c x

theorem hasGeometry_spec (sc : FScene F) : ∀ (fuel m : Nat) (b : Bool), hasGeometry sc fuel m = some b →
    (b = true ↔ ∃ y g, Below sc m y ∧ (sc.model y).geometry = some g) := by
  intro fuel
  induction fuel with
  | zero => intro m b h; simp [hasGeometry] at h
  | succ fuel ih =>
    intro m b h
    unfold hasGeometry at h
    split at h
    · rename_i hg
      simp only [Option.some.injEq] at h
      subst h
      obtain ⟨g, hg⟩ := Option.isSome_iff_exists.1 hg
      simp only [true_iff]
      exact ⟨m, g, .self m, hg⟩
    · rename_i hg
      have hany : ∀ (cs : List Nat) (b : Bool), hasGeometry.anyGeometry (hasGeometry sc fuel) cs = some b →
          (b = true ↔ ∃ c ∈ cs, ∃ y g, Below sc c y ∧ (sc.model y).geometry = some g) := by
        intro cs
        induction cs with
        | nil =>
          intro b h
          simp only [hasGeometry.anyGeometry, Option.some.injEq] at h
          subst h
          simp
        | cons c cs ihc =>
          intro b h
          unfold hasGeometry.anyGeometry at h
          split at h
          · simp at h
          · rename_i hc
            simp only [Option.some.injEq] at h
            subst h
            have := (ih c true hc).1 rfl
            simp only [true_iff]
            exact ⟨c, by simp, this⟩
          · rename_i hc
            rw [ihc b h]
            have hno : ¬ ∃ y g, Below sc c y ∧ (sc.model y).geometry = some g := by
              intro e
              simpa using (ih c false hc).2 e
            constructor
            · rintro ⟨c', hc', e⟩
              exact ⟨c', List.mem_cons_of_mem _ hc', e⟩
            · rintro ⟨c', hc', e⟩
              rcases List.mem_cons.1 hc' with rfl | hc'
              · exact absurd e hno
              · exact ⟨c', hc', e⟩
      rw [hany _ _ h]
      constructor
      · rintro ⟨c, hc, y, g, h1, h2⟩
        exact ⟨y, g, .down m c y hc h1, h2⟩
      · rintro ⟨y, g, h1, h2⟩
        cases h1 with
        | self => rw [h2] at hg; simp at hg
        | down _ c _ hc h1 => exact ⟨c, hc, y, g, h1, h2⟩

theorem wantedModels_spec (sc : FScene F) (opt : FOptions F) (fuel : Nat) : ∀ (kids ms : List Nat),
    wantedModels sc opt fuel kids = some ms → ms.Sublist kids ∧ ∀ m ∈ kids, (m ∈ ms ↔ wanted sc opt fuel m = some true) ∧
      ∃ b, wanted sc opt fuel m = some b := by
  intro kids
  induction kids with
  | nil => intro ms h; simp only [wantedModels, Option.some.injEq] at h; subst h; simp
  | cons k kids ih =>
    intro ms h
    simp only [wantedModels, Option.bind_eq_bind, Option.bind_eq_some_iff, Option.pure_def, Option.some.injEq] at h
    obtain ⟨b, hb, rest, hrest, rfl⟩ := h
    obtain ⟨h1, h2⟩ := ih rest hrest
    constructor
    · split
      · exact h1.cons_cons k
      · exact h1.cons k
    · intro m hm
      by_cases hmk : m = k
      · subst hmk
        refine ⟨?_, b, hb⟩
        cases b with
        | true => simp [hb]
        | false =>
          rw [hb]
          simp only [Bool.false_eq_true, if_false, Option.some.injEq, iff_false]
          intro hin
          have := ((h2 m (h1.subset hin)).1).1 hin
          rw [hb] at this
          simp at this
      · have hm' : m ∈ kids := by
          rcases List.mem_cons.1 hm with e | e
          · exact absurd e hmk
          · exact e
        obtain ⟨h3, h4⟩ := h2 m hm'
        refine ⟨?_, h4⟩
        rw [← h3]
        cases b <;> simp [hmk]

theorem top_iff (sc : FScene F) (opt : FOptions F) (fuel : Nat) (ms : List Nat)
    (h : wantedModels sc opt fuel (sc.model sc.scene).children = some ms) (c : Nat) :
    c ∈ ms ↔ TopModel sc opt c := by
  obtain ⟨h1, h2⟩ := wantedModels_spec sc opt fuel _ _ h
  have key : c ∈ (sc.model sc.scene).children → (c ∈ ms ↔
      (opt.wholeNode = true ∨ (sc.model c).limb = false ∧ ∃ y g, Below sc c y ∧ (sc.model y).geometry = some g)) := by
    intro hc
    obtain ⟨h3, b, hb⟩ := h2 c hc
    rw [h3, hb]
    unfold wanted at hb
    split at hb
    · rename_i hw
      simp only [Option.some.injEq] at hb
      subst hb
      simp [hw]
    · rename_i hw
      split at hb
      · rename_i hl
        simp only [Option.some.injEq] at hb
        subst hb
        simp [hw, hl]
      · rename_i hl
        have := hasGeometry_spec sc fuel c b hb
        rw [Option.some.injEq, this]
        simp [hw, hl]
  constructor
  · intro hc
    exact ⟨h1.subset hc, (key (h1.subset hc)).1 hc⟩
  · rintro ⟨hc, hr⟩
    exact (key hc).2 hr

section

variable [Add F] [Sub F] [Mul F] [Div F] [Zero F] [One F] [Neg F] [DecidableEq F] [FloatOps F]

/-- A successful conversion (without `TargetModelName`) as a run over the visited models. -/
theorem fbxConvert_run (facet : F) (sc : FScene F) (opt : FOptions F) (fuel base : Nat) (objects : List (Object F))
    (morphs : List MorphTargetList) (r : FResult F) (hn : opt.targetModelName = [])
    (h : fbxConvert facet sc opt fuel base objects morphs = some r) :
    ∃ ms ls outs order st, wantedModels sc opt fuel (sc.model sc.scene).children = some ms ∧
      List.Forall₂ (fun m l => visits sc opt base fuel opt.objectDepth (sc.coord.mul (sc.model sc.scene).matrix) m = some l)
        ms ls ∧
      Grow facet sc opt ⟨objects, morphs, [], fun _ => none⟩ st ls.flatten outs [] order [] ∧ r = withBones st := by
  simp only [fbxConvert, hn, ne_eq, not_true, if_false] at h
  split at h
  · simp at h
  · rename_i ms hms
    rw [Option.map_eq_some_iff] at h
    obtain ⟨st, hst, rfl⟩ := h
    have hinv : BInv sc (⟨objects, morphs, [], fun _ => none⟩ : FState F) [] [] [] :=
      ⟨rfl, List.nodup_nil, by simp, by simp, by simp, by simp, by simp, by simp⟩
    obtain ⟨ls, outs, new, h1, h2⟩ := foldlM_grow facet sc opt _
      (visits sc opt base fuel opt.objectDepth (sc.coord.mul (sc.model sc.scene).matrix))
      (fun st st' m order log => convertModel_spec facet sc opt base fuel _ _ st st' m order log) ms _ st _ _ hinv hst
    exact ⟨ms, ls, outs, new, st, hms, mapM_forall₂ _ _ _ h1, h2, rfl⟩

/-! ### C118: the tree of objects -/

/-- The objects of a visited model with the number of the model; shapes have none. -/
def tagOne (p : Visit F × (Object F × List (Object F))) : List (Option Nat × Object F) :=
  (some p.1.model, p.2.1) :: p.2.2.map fun o => (none, o)

/-- What the list of new objects, tagged with the models they come from, has to be. -/
structure TreeOk (sc : FScene F) (opt : FOptions F) (tagged : List (Option Nat × Object F)) : Prop where
  /-- the models with an object are the converted ones -/
  models : ∀ x, (∃ o, (some x, o) ∈ tagged) ↔ Converted sc opt x
  /-- an object has the name of its model and is visible -/
  object : ∀ x o, (some x, o) ∈ tagged →
    o.name = trimSuffix (trimPrefix (sc.model x).name "Model::".toList) "::Model".toList ∧ o.visible = true
  /-- the object of a child comes after that of its parent, one deeper, and nothing between them is less deep -/
  child : ∀ A x o B, tagged = A ++ (some x, o) :: B →
    (x ∈ (sc.model sc.scene).children ∧ o.depth = opt.objectDepth) ∨
    ∃ A1 p op M, A = A1 ++ (some p, op) :: M ∧ x ∈ (sc.model p).children ∧ o.depth = op.depth + 1 ∧
      ∀ e ∈ M, o.depth ≤ e.2.depth
  /-- shapes are hidden and follow the object of their model, one deeper, with the same faces -/
  shape : ∀ A o B, tagged = A ++ (none, o) :: B → ∃ A1 p op M, A = A1 ++ (some p, op) :: M ∧
    (∀ e ∈ M, e.1 = none) ∧ o.depth = op.depth + 1 ∧ o.visible = false ∧
    o.vertexes.length = op.vertexes.length ∧ o.faces.map Face.verts = op.faces.map Face.verts
  /-- no model has two objects, if every child points back to its parent and is listed once -/
  once : (∀ m c, c ∈ (sc.model m).children → (sc.model c).parent = some m) →
    (∀ m, (sc.model m).children.Nodup) → (sc.model sc.scene).parent = none → (tagged.filterMap Prod.fst).Nodup

omit [Neg F] in
theorem Outs.mem {facet : F} {sc : FScene F} {opt : FOptions F} {n : Nat} {vs : List (Visit F)}
    {outs : List (Object F × List (Object F))} (h : Outs facet sc opt n vs outs) :
    ∀ z ∈ vs.zip outs, ∃ k, n ≤ k ∧ OneOk facet sc opt z.1 k z.2.1 z.2.2 := by
  induction h with
  | nil => simp
  | cons n v vs obj shapes outs h0 _ ih =>
    intro z hz
    rw [List.zip_cons_cons, List.mem_cons] at hz
    rcases hz with rfl | hz
    · exact ⟨n, le_refl _, h0⟩
    · obtain ⟨k, hk, hz⟩ := ih z hz
      exact ⟨k, by omega, hz⟩

omit [Neg F] in
theorem OneOk.obj {facet : F} {sc : FScene F} {opt : FOptions F} {v : Visit F} {n : Nat} {obj : Object F}
    {shapes : List (Object F)} (h : OneOk facet sc opt v n obj shapes) :
    obj.uid = (n : Int) + 1 ∧ obj.depth = v.depth ∧ obj.visible = true ∧
    obj.name = trimSuffix (trimPrefix (sc.model v.model).name "Model::".toList) "::Model".toList ∧
    obj.vertexByUID = [] := by
  cases hg : (sc.model v.model).geometry with
  | none =>
    rw [(h.empty hg).2]
    exact ⟨rfl, rfl, rfl, rfl, rfl⟩
  | some g =>
    obtain ⟨faces, _, e, _⟩ := h.mesh g hg
    rw [e]
    exact ⟨rfl, rfl, rfl, rfl, rfl⟩

omit [Sub F] [Div F] [Zero F] [One F] [Neg F] [DecidableEq F] [FloatOps F] in
theorem shapeLoop_length (t : Mat4 F) (base : List (Vec3 F)) : ∀ (l : List (Int × Vec3 F)) (vs vs' : List (Vec3 F)),
    shapeLoop t base l vs = some vs' → vs'.length = vs.length := by
  intro l
  induction l with
  | nil => intro vs vs' h; simp only [shapeLoop, Option.some.injEq] at h; rw [h]
  | cons e l ih =>
    intro vs vs' h
    obtain ⟨idx, d⟩ := e
    simp only [shapeLoop] at h
    split at h
    · split at h
      · have := ih _ _ h
        simpa using this
      · simp at h
    · exact ih _ _ h

omit [Sub F] [Div F] [Zero F] [One F] [Neg F] [DecidableEq F] [FloatOps F] in
theorem fbxShape_same (s : FShape F) (src o : Object F) (base : List (Vec3 F)) (t : Mat4 F)
    (h : fbxShape s src base t = some o) :
    o.name = s.name ∧ o.vertexes.length = src.vertexes.length ∧ o.faces = src.clone.faces := by
  simp only [fbxShape] at h
  split at h
  · simp only [Option.some.injEq] at h
    subst h
    exact ⟨rfl, rfl, rfl⟩
  · rw [Option.map_eq_some_iff] at h
    obtain ⟨vs, h1, rfl⟩ := h
    exact ⟨rfl, shapeLoop_length t base _ _ _ h1, rfl⟩

omit [Neg F] in
theorem OneOk.shape {facet : F} {sc : FScene F} {opt : FOptions F} {v : Visit F} {n : Nat} {obj : Object F}
    {shapes : List (Object F)} (h : OneOk facet sc opt v n obj shapes) (o : Object F) (ho : o ∈ shapes) :
    o.depth = v.depth + 1 ∧ o.visible = false ∧ o.vertexes.length = obj.vertexes.length ∧
    o.faces.map Face.verts = obj.faces.map Face.verts := by
  cases hg : (sc.model v.model).geometry with
  | none =>
    rw [(h.empty hg).1] at ho
    simp at ho
  | some g =>
    obtain ⟨faces, _, _, hs⟩ := h.mesh g hg
    obtain ⟨s, _, o0, h1, h2⟩ := forall₂_mem_right hs o ho
    obtain ⟨_, h3, h4⟩ := fbxShape_same s obj o0 _ _ h1
    rw [h2]
    refine ⟨rfl, rfl, h3, ?_⟩
    simp only [h4, Mqo.Object.clone, List.map_map]
    rfl

theorem zip_fst_split {α β : Type} (vs : List α) (outs : List β) (hl : vs.length = outs.length)
    (Z1 : List (α × β)) (z : α × β) (Z2 : List (α × β)) (h : vs.zip outs = Z1 ++ z :: Z2) :
    vs = Z1.map Prod.fst ++ z.1 :: Z2.map Prod.fst := by
  have := congrArg (List.map Prod.fst) h
  rw [List.map_fst_zip (by omega)] at this
  rw [this]
  simp

omit [Sub F] [Div F] [DecidableEq F] [FloatOps F] in
/-- The visited models are the converted ones. -/
theorem visited_iff (sc : FScene F) (opt : FOptions F) (fuel base : Nat) (ms : List Nat) (ls : List (List (Visit F)))
    (hms : wantedModels sc opt fuel (sc.model sc.scene).children = some ms)
    (hvis : List.Forall₂ (fun m l =>
      visits sc opt base fuel opt.objectDepth (sc.coord.mul (sc.model sc.scene).matrix) m = some l) ms ls) (x : Nat) :
    (∃ v ∈ ls.flatten, v.model = x) ↔ Converted sc opt x := by
  constructor
  · rintro ⟨v, hv, hx⟩
    obtain ⟨l, hl, hvl⟩ := List.mem_flatten.1 hv
    obtain ⟨c, hc, hcl⟩ := forall₂_mem_right hvis l hl
    exact ⟨c, (top_iff sc opt fuel ms hms c).1 hc, (visits_mem sc opt base _ _ _ _ _ hcl x).1 ⟨v, hvl, hx⟩⟩
  · rintro ⟨c, hc, hk⟩
    obtain ⟨l, hl, hcl⟩ := forall₂_mem_left hvis c ((top_iff sc opt fuel ms hms c).2 hc)
    obtain ⟨v, hv, hx⟩ := (visits_mem sc opt base _ _ _ _ _ hcl x).2 hk
    exact ⟨v, List.mem_flatten.2 ⟨l, hl, hv⟩, hx⟩

omit [Add F] [Sub F] [Mul F] [Div F] [Zero F] [One F] [Neg F] [DecidableEq F] [FloatOps F] in
theorem mem_tagged (zs : List (Visit F × (Object F × List (Object F)))) (x : Nat) (o : Object F) :
    (some x, o) ∈ zs.flatMap tagOne ↔ ∃ z ∈ zs, z.1.model = x ∧ z.2.1 = o := by
  constructor
  · intro hx
    obtain ⟨z, hz, hx⟩ := List.mem_flatMap.1 hx
    unfold tagOne at hx
    rcases List.mem_cons.1 hx with e | e
    · simp only [Prod.mk.injEq, Option.some.injEq] at e
      exact ⟨z, hz, e.1.symm, e.2.symm⟩
    · obtain ⟨o', _, e⟩ := List.mem_map.1 e
      simp at e
  · rintro ⟨z, hz, rfl, rfl⟩
    exact List.mem_flatMap.2 ⟨z, hz, by simp [tagOne]⟩

omit [Add F] [Sub F] [Mul F] [Div F] [Zero F] [One F] [Neg F] [DecidableEq F] [FloatOps F] in
theorem flatOuts_tagged : ∀ (vs : List (Visit F)) (outs : List (Object F × List (Object F))), vs.length = outs.length →
    flatOuts outs = ((vs.zip outs).flatMap tagOne).map Prod.snd := by
  intro vs
  induction vs with
  | nil => intro outs h; cases outs with
    | nil => rfl
    | cons _ _ => simp at h
  | cons v vs ih => intro outs h; cases outs with
    | nil => simp at h
    | cons o outs =>
      have := ih outs (by simpa using h)
      rw [List.zip_cons_cons, List.flatMap_cons, List.map_append, ← this]
      simp [flatOuts, tagOne, Function.comp_def]

theorem tree_of_run (facet : F) (sc : FScene F) (opt : FOptions F) (fuel base : Nat) (objects : List (Object F))
    (morphs : List MorphTargetList) (ms : List Nat) (ls : List (List (Visit F)))
    (outs : List (Object F × List (Object F))) (order : List Nat) (st : FState F)
    (hms : wantedModels sc opt fuel (sc.model sc.scene).children = some ms)
    (hvis : List.Forall₂ (fun m l =>
      visits sc opt base fuel opt.objectDepth (sc.coord.mul (sc.model sc.scene).matrix) m = some l) ms ls)
    (hgrow : Grow facet sc opt ⟨objects, morphs, [], fun _ => none⟩ st ls.flatten outs [] order []) :
    (withBones st).objects = objects ++ ((ls.flatten.zip outs).flatMap tagOne).map Prod.snd ∧
      TreeOk sc opt ((ls.flatten.zip outs).flatMap tagOne) := by
  have hlen := hgrow.made.length
  refine ⟨?_, ?_⟩
  · simp only [withBones]
    rw [hgrow.objects]
    congr 1
    exact flatOuts_tagged _ _ hlen
  · have hmem : ∀ x o, (some x, o) ∈ (ls.flatten.zip outs).flatMap tagOne →
        ∃ z ∈ ls.flatten.zip outs, z.1.model = x ∧ z.2.1 = o := fun x o => (mem_tagged _ x o).1
    have hconv := visited_iff sc opt fuel base ms ls hms hvis
    constructor
    · intro x
      rw [← hconv]
      constructor
      · rintro ⟨o, ho⟩
        obtain ⟨z, hz, h1, _⟩ := hmem x o ho
        exact ⟨z.1, (List.of_mem_zip (a := z.1) (b := z.2) hz).1, h1⟩
      · rintro ⟨v, hv, rfl⟩
        obtain ⟨i, hi, rfl⟩ := List.getElem_of_mem hv
        refine ⟨(outs[i]'(by omega)).1, List.mem_flatMap.2 ⟨(ls.flatten[i], outs[i]'(by omega)), ?_, by simp [tagOne]⟩⟩
        rw [← List.getElem_zip (h := by rw [List.length_zip]; omega)]
        exact List.getElem_mem _
    · intro x o ho
      obtain ⟨z, hz, rfl, rfl⟩ := hmem x o ho
      obtain ⟨k, _, hok⟩ := hgrow.made.mem z hz
      exact ⟨hok.obj.2.2.2.1, hok.obj.2.2.1⟩
    · intro A x o B hsplit
      obtain ⟨Z1, z, Z2, A', C', k1, k2, k3, k4⟩ := flatMap_split tagOne (some x, o) B _ A hsplit
      -- the tagged object is the first of its model
      have hA' : A' = [] ∧ z.1.model = x ∧ z.2.1 = o := by
        unfold tagOne at k2
        cases A' with
        | nil =>
          simp only [List.nil_append, List.cons.injEq, Prod.mk.injEq, Option.some.injEq] at k2
          exact ⟨rfl, k2.1.1, k2.1.2⟩
        | cons a A' =>
          simp only [List.cons_append, List.cons.injEq] at k2
          have : (some x, o) ∈ z.2.2.map fun o => ((none : Option Nat), o) := by rw [k2.2]; simp
          obtain ⟨_, _, e⟩ := List.mem_map.1 this
          simp at e
      obtain ⟨rfl, rfl, rfl⟩ := hA'
      have hz : z ∈ ls.flatten.zip outs := by rw [k1]; simp
      obtain ⟨_, _, hok⟩ := hgrow.made.mem z hz
      rw [hok.obj.2.1]
      have hvs := zip_fst_split _ _ hlen Z1 z Z2 k1
      obtain ⟨L1, l, L2, P, Q, q1, q2, q3, q4⟩ := flatten_split _ _ _ _ hvs
      obtain ⟨c, hc, hcl⟩ := forall₂_mem_right hvis l (by rw [q1]; simp)
      by_cases hP : P = []
      · subst hP
        obtain ⟨⟨v0, rest, e0, e1, e2, _⟩, _⟩ := visits_head sc opt base _ _ _ _ _ hcl
        rw [q2] at e0
        simp only [List.nil_append, List.cons.injEq] at e0
        rw [e0.1, e1, e2]
        exact Or.inl ⟨((top_iff sc opt fuel ms hms c).1 hc).1, rfl⟩
      · obtain ⟨A1, p, B1, e1, e2, e3, e4, _⟩ := visits_parent sc opt base _ _ _ _ _ hcl P z.1 Q q2 hP
        right
        -- find the objects of the parent
        have hZ1 : Z1.map Prod.fst = (L1.flatten ++ A1) ++ p :: B1 := by rw [q3, e1]; simp
        obtain ⟨Y1, Y2, y1, y2, y3⟩ := List.map_eq_append_iff.1 hZ1
        obtain ⟨y, Y3, y4, y5, y6⟩ := List.map_eq_cons_iff.1 y3
        have hy : y ∈ ls.flatten.zip outs := by rw [k1, y1, y4]; simp
        obtain ⟨_, _, hoky⟩ := hgrow.made.mem y hy
        refine ⟨Y1.flatMap tagOne, p.model, y.2.1, y.2.2.map (fun o => (none, o)) ++ Y3.flatMap tagOne, ?_, ?_, ?_, ?_⟩
        · rw [k3, y1, y4, List.append_nil, List.flatMap_append, List.flatMap_cons]
          simp only [tagOne, y5, List.cons_append]
        · exact List.mem_of_mem_filter e2
        · rw [hoky.obj.2.1, y5, e3]
        · intro e he
          rcases List.mem_append.1 he with he | he
          · obtain ⟨o', ho', rfl⟩ := List.mem_map.1 he
            simp only
            rw [(hoky.shape o' ho').1, y5, e3]
          · obtain ⟨w, hw, hew⟩ := List.mem_flatMap.1 he
            have hw' : w ∈ ls.flatten.zip outs := by rw [k1, y1, y4]; simp [hw]
            obtain ⟨_, _, hokw⟩ := hgrow.made.mem w hw'
            have hdw : z.1.depth ≤ w.1.depth := e4 w.1 (by rw [← y6]; exact List.mem_map_of_mem hw)
            unfold tagOne at hew
            rcases List.mem_cons.1 hew with rfl | hew
            · simp only
              rw [hokw.obj.2.1]
              exact hdw
            · obtain ⟨o', ho', rfl⟩ := List.mem_map.1 hew
              simp only
              rw [(hokw.shape o' ho').1]
              omega
    · intro A o B hsplit
      obtain ⟨Z1, z, Z2, A', C', k1, k2, k3, k4⟩ := flatMap_split tagOne (none, o) B _ A hsplit
      have hz : z ∈ ls.flatten.zip outs := by rw [k1]; simp
      obtain ⟨_, _, hok⟩ := hgrow.made.mem z hz
      unfold tagOne at k2
      cases A' with
      | nil => simp at k2
      | cons a A' =>
        simp only [List.cons_append, List.cons.injEq] at k2
        obtain ⟨rfl, k2⟩ := k2
        have ho : o ∈ z.2.2 := by
          have : ((none : Option Nat), o) ∈ z.2.2.map fun o => ((none : Option Nat), o) := by rw [k2]; simp
          obtain ⟨o', ho', e⟩ := List.mem_map.1 this
          simp only [Prod.mk.injEq, true_and] at e
          rwa [← e]
        obtain ⟨s1, s2, s3, s4⟩ := hok.shape o ho
        refine ⟨Z1.flatMap tagOne, z.1.model, z.2.1, A', k3, ?_, ?_, s2, s3, s4⟩
        · intro e he
          have : e ∈ z.2.2.map fun o => ((none : Option Nat), o) := by rw [k2]; simp [he]
          obtain ⟨o', _, rfl⟩ := List.mem_map.1 this
          rfl
        · rw [s1, hok.obj.2.1]
    · intro hp hnd hroot
      have e : ((ls.flatten.zip outs).flatMap tagOne).filterMap Prod.fst = ls.flatten.map Visit.model := by
        have h1 : ls.flatten.map Visit.model = (ls.flatten.zip outs).map fun z => z.1.model := by
          conv_lhs => rw [← List.map_fst_zip (l₁ := ls.flatten) (l₂ := outs) (by omega)]
          rw [List.map_map]
          rfl
        rw [h1, List.filterMap_flatMap]
        generalize ls.flatten.zip outs = zs
        induction zs with
        | nil => rfl
        | cons z zs ih =>
          rw [List.flatMap_cons, ih]
          simp [tagOne, List.filterMap_cons, List.filterMap_map, Function.comp_def]
      rw [e]
      have hsub := (wantedModels_spec sc opt fuel _ _ hms).1
      have hmn : ms.Nodup := hsub.nodup (hnd sc.scene)
      have hmp : ∀ c ∈ ms, (sc.model c).parent = some sc.scene := fun c hc => hp _ _ (hsub.subset hc)
      have h0 : Height sc sc.scene 0 := .top _ hroot
      clear hms hgrow hlen hmem hconv hsub e
      induction hvis with
      | nil => simp
      | cons hc hrest ihr =>
        rename_i c l cs ls
        rw [List.nodup_cons] at hmn
        rw [List.flatten_cons, List.map_append, List.nodup_append]
        refine ⟨visits_nodup sc opt base hp hnd _ _ _ _ _ ⟨1, .step c _ 0 (hmp c (by simp)) h0⟩ hc,
          ihr hmn.2 (fun c hc => hmp c (List.mem_cons_of_mem _ hc)), ?_⟩
        rintro a ha b hb rfl
        obtain ⟨v, hv, hvm⟩ := List.mem_map.1 ha
        obtain ⟨v', hv', hvm'⟩ := List.mem_map.1 hb
        obtain ⟨l', hl', hvl'⟩ := List.mem_flatten.1 hv'
        obtain ⟨c', hcm', hc'⟩ := forall₂_mem_right hrest l' hl'
        have a1 := ((visits_mem sc opt base _ _ _ _ _ hc a).1 ⟨v, hv, hvm⟩).above hp
        have a2 := ((visits_mem sc opt base _ _ _ _ _ hc' a).1 ⟨v', hvl', hvm'⟩).above hp
        have := a1.of_height a2 (.step c _ 0 (hmp c (by simp)) h0) (.step c' _ 0 (hmp c' (by simp [hcm'])) h0)
        subst this
        exact hmn.1 hcm'

/-- C118. The new objects behind the given ones form the tree of the converted models: one object per
model, named after it, in an order and with depths from which the tree of the document can be read; the
shapes of a mesh are hidden objects below it. -/
theorem objects_tree (facet : F) (sc : FScene F) (opt : FOptions F) (fuel base : Nat) (objects : List (Object F))
    (morphs : List MorphTargetList) (r : FResult F) (hn : opt.targetModelName = [])
    (h : fbxConvert facet sc opt fuel base objects morphs = some r) :
    ∃ tagged, r.objects = objects ++ tagged.map Prod.snd ∧ TreeOk sc opt tagged := by
  obtain ⟨ms, ls, outs, order, st, hms, hvis, hgrow, rfl⟩ := fbxConvert_run facet sc opt fuel base objects morphs r hn h
  exact ⟨_, tree_of_run facet sc opt fuel base objects morphs ms ls outs order st hms hvis hgrow⟩

omit [Neg F] in
theorem Outs.ids {facet : F} {sc : FScene F} {opt : FOptions F} {n : Nat} {vs : List (Visit F)}
    {outs : List (Object F × List (Object F))} (h : Outs facet sc opt n vs outs) :
    ∀ (i : Nat) (o : Object F), (flatOuts outs)[i]? = some o → o.uid = (n : Int) + i + 1 := by
  induction h with
  | nil => simp [flatOuts]
  | cons n v vs obj shapes outs h0 _ ih =>
    intro i o ho
    have e : flatOuts ((obj, shapes) :: outs) = obj :: (shapes ++ flatOuts outs) := by simp [flatOuts]
    rw [e] at ho
    cases i with
    | zero =>
      simp only [List.getElem?_cons_zero, Option.some.injEq] at ho
      subst ho
      rw [h0.obj.1]
      simp
    | succ i =>
      rw [List.getElem?_cons_succ, List.getElem?_append] at ho
      split at ho
      · rw [h0.ids i o ho]
        push_cast
        ring
      · rw [ih _ o ho]
        push_cast
        omega

/-- C118. Every new object has its place in the document, counted from 1, as its id. -/
theorem object_ids (facet : F) (sc : FScene F) (opt : FOptions F) (fuel base : Nat) (objects : List (Object F))
    (morphs : List MorphTargetList) (r : FResult F) (hn : opt.targetModelName = [])
    (h : fbxConvert facet sc opt fuel base objects morphs = some r) :
    r.objects.take objects.length = objects ∧
    ∀ (i : Nat) (o : Object F), objects.length ≤ i → r.objects[i]? = some o → o.uid = (i : Int) + 1 := by
  obtain ⟨ms, ls, outs, order, st, hms, hvis, hgrow, rfl⟩ := fbxConvert_run facet sc opt fuel base objects morphs r hn h
  simp only [withBones]
  rw [hgrow.objects]
  refine ⟨by simp, ?_⟩
  intro i o hi ho
  rw [List.getElem?_append_right hi] at ho
  rw [hgrow.made.ids _ o ho]
  push_cast
  omega

/-! ### C119: where the meshes stand -/

/-- `World sc m w`: `w` is the product of the matrices of the models from the top down to `m`. -/
inductive World (sc : FScene F) : Nat → Mat4 F → Prop
  | top (m : Nat) : (sc.model m).parent = none → World sc m (sc.model m).matrix
  | step (m p : Nat) (w : Mat4 F) : (sc.model m).parent = some p → World sc p w → World sc m (w.mul (sc.model m).matrix)

omit [Sub F] [Div F] [Zero F] [One F] [Neg F] [DecidableEq F] [FloatOps F] in
theorem worldMat_world (sc : FScene F) : ∀ (fuel m : Nat) (w : Mat4 F), worldMat sc fuel m = some w → World sc m w := by
  intro fuel
  induction fuel with
  | zero => intro m w h; simp [worldMat] at h
  | succ fuel ih =>
    intro m w h
    unfold worldMat at h
    split at h
    · rename_i hp
      simp only [Option.some.injEq] at h
      subst h
      exact .top m hp
    · rename_i p hp
      rw [Option.map_eq_some_iff] at h
      obtain ⟨w', h1, rfl⟩ := h
      exact .step m p w' hp (ih p w' h1)

end

section

variable [Field F] [DecidableEq F] [FloatOps F]

omit [DecidableEq F] [FloatOps F] in
theorem visits_world (sc : FScene F) (opt : FOptions F) (base : Nat) (hd : opt.objectDepth ≤ 0)
    (hp : ∀ m c, c ∈ (sc.model m).children → (sc.model c).parent = some m) :
    ∀ (fuel : Nat) (d : Int) (m p : Nat) (w : Mat4 F) (l : List (Visit F)), (sc.model m).parent = some p →
      World sc p w → visits sc opt base fuel d (sc.coord.mul w) m = some l →
      ∀ v ∈ l, ∃ w, World sc v.model w ∧ v.transform = sc.coord.mul w := by
  intro fuel
  induction fuel with
  | zero => intro d m p w l _ _ h; simp [visits] at h
  | succ fuel ih =>
    intro d m p w l hmp hw h v hv
    unfold visits at h
    split at h
    · simp at h
    · rename_i t ids hs
      have ht : t = sc.coord.mul (w.mul (sc.model m).matrix) := by
        simp only [modelSetup] at hs
        rw [if_neg (by omega)] at hs
        simp only [Option.some.injEq, Prod.mk.injEq] at hs
        rw [← hs.1, (mul_monoid _ _ _).1]
      have hwm := World.step m p w hmp hw
      rw [Option.map_eq_some_iff] at h
      obtain ⟨ls, h1, rfl⟩ := h
      rcases List.mem_cons.1 hv with rfl | hv
      · exact ⟨_, hwm, ht⟩
      · obtain ⟨l, hl, hvl⟩ := List.mem_flatten.1 hv
        obtain ⟨c, hc, hcl⟩ := forall₂_mem_right (mapM_forall₂ _ _ _ h1) l hl
        rw [ht] at hcl
        exact ih _ c m _ l (hp m c (List.mem_of_mem_filter hc)) hwm hcl v hvl

/-- C119. In a document whose children point back to their parents, every mesh is placed by the product
of the matrices above it and the coordinate system of the document; the placement does not depend on how
deep the model lies. -/
theorem placement (facet : F) (sc : FScene F) (opt : FOptions F) (fuel base : Nat) (objects : List (Object F))
    (morphs : List MorphTargetList) (r : FResult F) (hn : opt.targetModelName = []) (hd : opt.objectDepth ≤ 0)
    (hp : ∀ m c, c ∈ (sc.model m).children → (sc.model c).parent = some m)
    (hroot : (sc.model sc.scene).parent = none)
    (h : fbxConvert facet sc opt fuel base objects morphs = some r) :
    ∃ tagged, r.objects = objects ++ tagged.map Prod.snd ∧ TreeOk sc opt tagged ∧
      ∀ x o g, (some x, o) ∈ tagged → (sc.model x).geometry = some g →
        ∃ w, World sc x w ∧ o.vertexes = g.vertices.map (sc.coord.mul w).applyTo := by
  obtain ⟨ms, ls, outs, order, st, hms, hvis, hgrow, rfl⟩ := fbxConvert_run facet sc opt fuel base objects morphs r hn h
  obtain ⟨h1, h2⟩ := tree_of_run facet sc opt fuel base objects morphs ms ls outs order st hms hvis hgrow
  refine ⟨_, h1, h2, ?_⟩
  intro x o g ho hg
  obtain ⟨z, hz, rfl, rfl⟩ := (mem_tagged _ x o).1 ho
  obtain ⟨k, _, hok⟩ := hgrow.made.mem z hz
  obtain ⟨faces, _, e, _⟩ := hok.mesh g hg
  obtain ⟨l, hl, hvl⟩ := List.mem_flatten.1 (List.of_mem_zip (a := z.1) (b := z.2) hz).1
  obtain ⟨c, hc, hcl⟩ := forall₂_mem_right hvis l hl
  have hct := ((top_iff sc opt fuel ms hms c).1 hc).1
  obtain ⟨w, hw, ht⟩ := visits_world sc opt base hd hp _ _ c sc.scene _ l (hp _ _ hct) (.top _ hroot) hcl z.1 hvl
  refine ⟨w, hw, ?_⟩
  rw [e, ← ht]

end

section

variable [Add F] [Sub F] [Mul F] [Div F] [Zero F] [One F] [Neg F] [DecidableEq F] [FloatOps F]

/-! ### C116: the bones -/

/-- The model `m` is the bone of some deformer of a converted mesh. -/
def Target (sc : FScene F) (opt : FOptions F) (d : FDeformer F) (m : Nat) : Prop :=
  opt.disableBone = false ∧ ∃ x g, Converted sc opt x ∧ (sc.model x).geometry = some g ∧ d ∈ g.deformers ∧
    d.channel = false ∧ d.target = some m

/-- What the bones have to be; `order` are the models they come from. -/
structure BonesOk (sc : FScene F) (opt : FOptions F) (bones : List (Bone F)) (order : List Nat) : Prop where
  length : bones.length = order.length
  /-- one bone per model -/
  nodup : order.Nodup
  /-- the models with bones are those of the deformers and all above them, without the scene itself -/
  mem : ∀ a, a ∈ order ↔ a ≠ sc.scene ∧ ∃ d m, Target sc opt d m ∧ Above sc a m
  /-- bones are numbered from 1 -/
  id : ∀ (i : Nat) (b : Bone F), bones[i]? = some b → b.id = (i : Int) + 1
  name : ∀ (i m : Nat) (b : Bone F), order[i]? = some m → bones[i]? = some b →
    b.name = trimPrefix (sc.model m).name "Model::".toList
  /-- models at the top give bones without parent -/
  root : ∀ (i m : Nat) (b : Bone F), order[i]? = some m → bones[i]? = some b →
    (sc.model m).parent = none ∨ (sc.model m).parent = some sc.scene → b.parent = 0
  /-- the parent of a bone is an earlier bone: that of the parent model -/
  parent : ∀ (i m : Nat) (b : Bone F), order[i]? = some m → bones[i]? = some b →
    ∀ p, (sc.model m).parent = some p → p ≠ sc.scene → ∃ j : Nat, j < i ∧ order[j]? = some p ∧ b.parent = (j : Int) + 1
  /-- a bone stands at the bind position of one of its deformers, or where its model stands -/
  pos : ∀ (i m : Nat) (b : Bone F), order[i]? = some m → bones[i]? = some b →
    (∃ d, Target sc opt d m ∧ b.pos = (sc.coord.mul d.link).applyTo ⟨0, 0, 0⟩) ∨
    ((∀ d, ¬ Target sc opt d m) ∧ ∃ w, World sc m w ∧ b.pos = (sc.coord.mul w).applyTo ⟨0, 0, 0⟩)

omit [Neg F] in
theorem log_target (facet : F) (sc : FScene F) (opt : FOptions F) (n : Nat) (vs : List (Visit F))
    (outs : List (Object F × List (Object F))) (hout : Outs facet sc opt n vs outs)
    (hconv : ∀ x, (∃ v ∈ vs, v.model = x) ↔ Converted sc opt x) (d : FDeformer F) (m : Nat) :
    Target sc opt d m ↔ ∃ u, (d, u) ∈ runLog sc opt vs outs ∧ d.target = some m := by
  have hlen := hout.length
  constructor
  · rintro ⟨hb, x, g, hx, hg, hd, hch, ht⟩
    obtain ⟨v, hv, rfl⟩ := (hconv x).2 hx
    obtain ⟨i, hi, rfl⟩ := List.getElem_of_mem hv
    refine ⟨(outs[i]'(by omega)).1.uid, List.mem_flatMap.2 ⟨(vs[i], outs[i]'(by omega)), ?_, ?_⟩, ht⟩
    · rw [← List.getElem_zip (h := by rw [List.length_zip]; omega)]
      exact List.getElem_mem _
    · simp only [visitLog, hg, deformerLog, hb, Bool.false_eq_true, if_false]
      exact List.mem_map.2 ⟨d, by simp [hd, hch], rfl⟩
  · rintro ⟨u, hu, ht⟩
    obtain ⟨z, hz, hu⟩ := List.mem_flatMap.1 hu
    unfold visitLog at hu
    split at hu
    · rename_i g hg
      unfold deformerLog at hu
      split at hu
      · simp at hu
      · rename_i hb
        obtain ⟨d', hd', e⟩ := List.mem_map.1 hu
        simp only [Prod.mk.injEq] at e
        obtain ⟨rfl, _⟩ := e
        rw [List.mem_filter] at hd'
        exact ⟨by simpa using hb, z.1.model, g,
          (hconv _).1 ⟨z.1, (List.of_mem_zip (a := z.1) (b := z.2) hz).1, rfl⟩, hg, hd'.1, by simpa using hd'.2, ht⟩
    · simp at hu

omit [Add F] [Sub F] [Mul F] [Div F] [Zero F] [One F] [Neg F] [DecidableEq F] [FloatOps F] in
theorem withBones_getD (st : FState F) : (withBones st).setBones.getD [] = st.bones := by
  unfold withBones
  by_cases hb : st.bones = []
  · simp [hb]
  · simp [hb]

theorem bones_of_run (facet : F) (sc : FScene F) (opt : FOptions F) (fuel base : Nat) (objects : List (Object F))
    (morphs : List MorphTargetList) (ms : List Nat) (ls : List (List (Visit F)))
    (outs : List (Object F × List (Object F))) (order : List Nat) (st : FState F)
    (hroot : (sc.model sc.scene).parent = none)
    (hms : wantedModels sc opt fuel (sc.model sc.scene).children = some ms)
    (hvis : List.Forall₂ (fun m l =>
      visits sc opt base fuel opt.objectDepth (sc.coord.mul (sc.model sc.scene).matrix) m = some l) ms ls)
    (hgrow : Grow facet sc opt ⟨objects, morphs, [], fun _ => none⟩ st ls.flatten outs [] order []) :
    BonesOk sc opt st.bones order := by
  have hb := hgrow.bones
  simp only [List.nil_append] at hb
  have htar := log_target facet sc opt _ _ _ hgrow.made (visited_iff sc opt fuel base ms ls hms hvis)
  have hor : ∀ (i m : Nat), order[i]? = some m → ∃ b, st.bones[i]? = some b := by
    intro i m hi
    obtain ⟨hlt, _⟩ := List.getElem?_eq_some_iff.1 hi
    exact ⟨_, List.getElem?_eq_getElem (by rw [hb.len]; exact hlt)⟩
  have hnd : order.Nodup := by simpa using hb.nodup
  have hsc : sc.scene ∉ order := by simpa using hb.scene
  constructor
  · exact hb.len
  · exact hnd
  · intro a
    constructor
    · intro ha
      refine ⟨fun e => hsc (e ▸ ha), ?_⟩
      obtain ⟨e, he, m, hm, hab⟩ := hgrow.needed a ha
      exact ⟨e.1, m, (htar e.1 m).2 ⟨e.2, he, hm⟩, hab⟩
    · rintro ⟨ha, d, m, ht, hab⟩
      obtain ⟨u, hu, hm⟩ := (htar d m).1 ht
      have hmo : m ∈ order := by simpa using hb.logged _ hu m hm
      clear ht hu hm
      induction hab with
      | self => exact hmo
      | up a b m hpar _ ih =>
        have hbs : b ≠ sc.scene := by
          rintro rfl
          rw [hroot] at hpar
          simp at hpar
        have hbo := ih hbs hmo
        obtain ⟨i, hi, e⟩ := List.getElem_of_mem hbo
        have e' : order[i]? = some b := by rw [List.getElem?_eq_getElem hi, e]
        obtain ⟨bn, hbn⟩ := hor i b e'
        obtain ⟨j, _, hj, _⟩ := (hb.bone i b bn e' hbn).parent a hpar ha
        exact List.mem_of_getElem? hj
  · intro i b hi
    obtain ⟨hlt, _⟩ := List.getElem?_eq_some_iff.1 hi
    have e' : order[i]? = some (order[i]'(by rw [← hb.len]; exact hlt)) := List.getElem?_eq_getElem _
    exact (hb.bone i _ b e' hi).id
  · intro i m b hi hbi
    exact (hb.bone i m b hi hbi).name
  · intro i m b hi hbi
    exact (hb.bone i m b hi hbi).root
  · intro i m b hi hbi
    exact (hb.bone i m b hi hbi).parent
  · intro i m b hi hbi
    obtain ⟨w, hw, hpos⟩ := (hb.bone i m b hi hbi).pos
    unfold bonePos at hpos
    split at hpos
    · rename_i d hd
      left
      refine ⟨d, ?_, hpos⟩
      unfold lastDeformer at hd
      rw [Option.map_eq_some_iff] at hd
      obtain ⟨e, he, rfl⟩ := hd
      have := List.mem_of_getLast? he
      rw [List.mem_filter] at this
      exact (htar e.1 m).2 ⟨e.2, this.1, by simpa using this.2⟩
    · rename_i hd
      right
      refine ⟨?_, w, worldMat_world sc _ _ _ hw, hpos⟩
      intro d ht
      obtain ⟨u, hu, hm⟩ := (htar d m).1 ht
      unfold lastDeformer at hd
      rw [Option.map_eq_none_iff, List.getLast?_eq_none_iff, List.filter_eq_nil_iff] at hd
      exact hd _ hu (by simpa using hm)

/-- C116. The bones of the result (none at all if there are no deformers or bones are switched off) are
the models named by the deformers of the converted meshes together with everything above them, once each;
they are numbered from 1, parents come before children, and each bone hangs on the bone of the parent
model. -/
theorem bones_spec (facet : F) (sc : FScene F) (opt : FOptions F) (fuel base : Nat) (objects : List (Object F))
    (morphs : List MorphTargetList) (r : FResult F) (hn : opt.targetModelName = [])
    (hroot : (sc.model sc.scene).parent = none)
    (h : fbxConvert facet sc opt fuel base objects morphs = some r) :
    ∃ order, BonesOk sc opt (r.setBones.getD []) order := by
  obtain ⟨ms, ls, outs, order, st, hms, hvis, hgrow, rfl⟩ := fbxConvert_run facet sc opt fuel base objects morphs r hn h
  rw [withBones_getD]
  exact ⟨order, bones_of_run facet sc opt fuel base objects morphs ms ls outs order st hroot hms hvis hgrow⟩

/-! ### C117: the weights -/

omit [Add F] [Sub F] [Mul F] [Div F] [Zero F] [One F] [Neg F] [DecidableEq F] [FloatOps F] in
theorem groups_flat (f : Int → List (VertexWeight F)) (u : Int) : ∀ (ws : List (WeightGroup F)),
    (ws.map WeightGroup.objectID).Nodup → (∀ g ∈ ws, g.vertexes = f g.objectID) →
    (u ∉ ws.map WeightGroup.objectID → f u = []) →
    (ws.filter fun g => g.objectID = u).flatMap WeightGroup.vertexes = f u := by
  intro ws
  induction ws with
  | nil => intro _ _ h; simp [h]
  | cons g ws ih =>
    intro hnd hg hu
    rw [List.map_cons, List.nodup_cons] at hnd
    by_cases e : g.objectID = u
    · subst e
      have hnone : ws.filter (fun g' => g'.objectID = g.objectID) = [] := by
        rw [List.filter_eq_nil_iff]
        intro g' hg' e
        exact hnd.1 (List.mem_map.2 ⟨g', hg', by simpa using e⟩)
      rw [List.filter_cons_of_pos (by simp), hnone]
      simp [hg g (by simp)]
    · rw [List.filter_cons_of_neg (by simpa using e)]
      refine ih hnd.2 (fun g' hg' => hg g' (List.mem_cons_of_mem _ hg')) ?_
      intro hn
      apply hu
      rw [List.map_cons, List.mem_cons]
      rintro (e' | e')
      · exact e e'.symm
      · exact hn e'

omit [Neg F] in
theorem Outs.log_uid {facet : F} {sc : FScene F} {opt : FOptions F} {n : Nat} {vs : List (Visit F)}
    {outs : List (Object F × List (Object F))} (h : Outs facet sc opt n vs outs) :
    ∀ e ∈ runLog sc opt vs outs, (n : Int) + 1 ≤ e.2 ∧ ∃ z ∈ vs.zip outs, e.2 = z.2.1.uid := by
  intro e he
  obtain ⟨z, hz, he⟩ := List.mem_flatMap.1 he
  obtain ⟨k, hk, hok⟩ := h.mem z hz
  have hu : e.2 = z.2.1.uid := by
    unfold visitLog at he
    split at he
    · unfold deformerLog at he
      split at he
      · simp at he
      · obtain ⟨d, _, rfl⟩ := List.mem_map.1 he
        rfl
    · simp at he
  refine ⟨?_, z, hz, hu⟩
  rw [hu, hok.obj.1]
  omega

omit [Neg F] in
theorem Outs.log_filter {facet : F} {sc : FScene F} {opt : FOptions F} {n : Nat} {vs : List (Visit F)}
    {outs : List (Object F × List (Object F))} (h : Outs facet sc opt n vs outs) :
    ∀ z ∈ vs.zip outs, (runLog sc opt vs outs).filter (fun e => e.2 = z.2.1.uid) = visitLog sc opt z := by
  have hself : ∀ z : Visit F × (Object F × List (Object F)),
      (visitLog sc opt z).filter (fun e => e.2 = z.2.1.uid) = visitLog sc opt z := by
    intro z
    rw [List.filter_eq_self]
    intro e he
    unfold visitLog at he
    split at he
    · unfold deformerLog at he
      split at he
      · simp at he
      · obtain ⟨d, _, rfl⟩ := List.mem_map.1 he
        simp
    · simp at he
  induction h with
  | nil => simp
  | cons n v vs obj shapes outs h0 hrest ih =>
    intro z hz
    have hsplit : runLog sc opt (v :: vs) ((obj, shapes) :: outs) =
        visitLog sc opt (v, (obj, shapes)) ++ runLog sc opt vs outs := by simp [runLog]
    rw [hsplit, List.filter_append]
    rw [List.zip_cons_cons, List.mem_cons] at hz
    rcases hz with rfl | hz
    · rw [hself]
      have : (runLog sc opt vs outs).filter (fun e => e.2 = obj.uid) = [] := by
        rw [List.filter_eq_nil_iff]
        intro e he
        have := (hrest.log_uid e he).1
        have h1 := h0.obj.1
        simp only [decide_eq_true_eq]
        push_cast at this
        omega
      rw [this, List.append_nil]
    · have : (visitLog sc opt (v, (obj, shapes))).filter (fun e => e.2 = z.2.1.uid) = [] := by
        rw [List.filter_eq_nil_iff]
        intro e he
        have he' : e ∈ (visitLog sc opt (v, (obj, shapes))).filter (fun e => e.2 = obj.uid) := by
          rw [hself (v, (obj, shapes))]; exact he
        rw [List.mem_filter] at he'
        have e1 : e.2 = obj.uid := by simpa using he'.2
        obtain ⟨k, hk, hok⟩ := hrest.mem z hz
        have h1 := h0.obj.1
        have h2 := hok.obj.1
        simp only [decide_eq_true_eq]
        omega
      rw [this, List.nil_append]
      exact ih z hz

theorem weights_of_run (facet : F) (sc : FScene F) (opt : FOptions F) (fuel base : Nat) (objects : List (Object F))
    (morphs : List MorphTargetList) (ms : List Nat) (ls : List (List (Visit F)))
    (outs : List (Object F × List (Object F))) (order : List Nat) (st : FState F)
    (hroot : (sc.model sc.scene).parent = none)
    (hms : wantedModels sc opt fuel (sc.model sc.scene).children = some ms)
    (hvis : List.Forall₂ (fun m l =>
      visits sc opt base fuel opt.objectDepth (sc.coord.mul (sc.model sc.scene).matrix) m = some l) ms ls)
    (hgrow : Grow facet sc opt ⟨objects, morphs, [], fun _ => none⟩ st ls.flatten outs [] order []) :
      (∀ x o g, (some x, o) ∈ (ls.flatten.zip outs).flatMap tagOne → (sc.model x).geometry = some g →
        ∀ k : Nat, k < g.vertices.length → o.getVertexIndexByID ((k : Int) + 1) = k) ∧
      ∀ (i m : Nat) (b : Bone F), order[i]? = some m → st.bones[i]? = some b →
        (b.weights.map WeightGroup.objectID).Nodup ∧
        (∀ w ∈ b.weights, ∃ x o, (some x, o) ∈ (ls.flatten.zip outs).flatMap tagOne ∧ w.objectID = o.uid) ∧
        ∀ x o g, (some x, o) ∈ (ls.flatten.zip outs).flatMap tagOne → (sc.model x).geometry = some g →
          (b.weights.filter fun w => w.objectID = o.uid).flatMap WeightGroup.vertexes =
            (g.deformers.filter fun d => !d.channel && decide (d.target = some m) &&
              decide (d.weights.length = d.indexes.length)).flatMap fun d =>
                (d.indexes.zip d.weights).map fun p => ⟨p.1 + 1, p.2⟩ := by
  have h3 := bones_of_run facet sc opt fuel base objects morphs ms ls outs order st hroot hms hvis hgrow
  refine ⟨?_, ?_⟩
  · intro x o g ho hg k hk
    obtain ⟨z, hz, rfl, rfl⟩ := (mem_tagged _ x o).1 ho
    obtain ⟨_, _, hok⟩ := hgrow.made.mem z hz
    obtain ⟨faces, _, e, _⟩ := hok.mesh g hg
    have e1 : z.2.1.vertexByUID = [] := hok.obj.2.2.2.2
    have e2 : z.2.1.vertexes.length = g.vertices.length := by rw [e]; simp
    unfold Mqo.Object.getVertexIndexByID
    rw [e1, e2]
    simp only [List.lookup_nil]
    rw [if_pos (by omega)]
    omega
  · intro i m b hi hbi
    have hb := hgrow.bones
    simp only [List.nil_append] at hb
    have hw := (hb.bone i m b hi hbi).weights
    obtain ⟨s1, s2, s3⟩ := Mqo.setVertexWeight_spec (newBone 0 [] ⟨0, 0, 0⟩ 0) rfl rfl
      (callsOf m (runLog sc opt ls.flatten outs))
    rw [← hw] at s1 s2 s3
    refine ⟨s1, ?_, ?_⟩
    · intro w hwm
      obtain ⟨c, hc, e⟩ := (s2 w.objectID).1 (List.mem_map_of_mem hwm)
      obtain ⟨l, hl, hc⟩ := List.mem_flatMap.1 hc
      have e' : c.1 = l.2 := by
        split at hc
        · obtain ⟨p, _, rfl⟩ := List.mem_map.1 hc
          rfl
        · simp at hc
      obtain ⟨_, z, hz, hu⟩ := hgrow.made.log_uid l hl
      exact ⟨z.1.model, z.2.1, (mem_tagged _ _ _).2 ⟨z, hz, rfl, rfl⟩, by rw [← e, e', hu]⟩
    · intro x o g ho hg
      obtain ⟨z, hz, rfl, rfl⟩ := (mem_tagged _ x o).1 ho
      have hdis : opt.disableBone = false := by
        obtain ⟨_, d, m', ht, _⟩ := (h3.mem m).1 (List.mem_of_getElem? hi)
        exact ht.1
      rw [groups_flat (fun u => ((callsOf m (runLog sc opt ls.flatten outs)).filter fun c => c.1 = u).map
        fun c => ⟨c.2.1, c.2.2⟩) z.2.1.uid b.weights s1 s3 ?_]
      · have hcall : ((callsOf m (runLog sc opt ls.flatten outs)).filter fun c => c.1 = z.2.1.uid) =
            callsOf m (visitLog sc opt z) := by
          rw [← hgrow.made.log_filter z hz]
          generalize runLog sc opt ls.flatten outs = log
          induction log with
          | nil => rfl
          | cons e log ih =>
            have hc : callsOf m (e :: log) = callsOf m [e] ++ callsOf m log := by simp [callsOf]
            rw [hc, List.filter_append, ih]
            by_cases he : e.2 = z.2.1.uid
            · rw [List.filter_cons_of_pos (by simpa using he)]
              have hc' : ∀ log', callsOf m (e :: log') = callsOf m [e] ++ callsOf m log' := by simp [callsOf]
              rw [hc' (List.filter _ log)]
              congr 1
              rw [List.filter_eq_self]
              intro c hc
              simp only [callsOf, List.flatMap_cons, List.flatMap_nil, List.append_nil] at hc
              split at hc
              · obtain ⟨p, _, rfl⟩ := List.mem_map.1 hc
                simpa using he
              · simp at hc
            · rw [List.filter_cons_of_neg (by simpa using he)]
              have : (callsOf m [e]).filter (fun c => c.1 = z.2.1.uid) = [] := by
                rw [List.filter_eq_nil_iff]
                intro c hc
                simp only [callsOf, List.flatMap_cons, List.flatMap_nil, List.append_nil] at hc
                split at hc
                · obtain ⟨p, _, rfl⟩ := List.mem_map.1 hc
                  simpa using he
                · simp at hc
              rw [this, List.nil_append]
        simp only [hcall, visitLog, hg, deformerLog, hdis, Bool.false_eq_true, if_false]
        generalize g.deformers = ds
        induction ds with
        | nil => rfl
        | cons d ds ih =>
          by_cases hch : d.channel = true
          · rw [List.filter_cons_of_neg (by simp [hch]), List.filter_cons_of_neg (by simp [hch]), ih]
          · rw [List.filter_cons_of_pos (by simp [hch]), List.map_cons]
            have hc : ∀ e log, callsOf (F := F) m (e :: log) = callsOf m [e] ++ callsOf m log := by simp [callsOf]
            rw [hc, List.map_append, ih]
            by_cases ht : d.target = some m ∧ d.weights.length = d.indexes.length
            · rw [List.filter_cons_of_pos (by simp [hch, ht]), List.flatMap_cons]
              congr 1
              simp [callsOf, ht, Function.comp_def]
            · rw [List.filter_cons_of_neg (by simpa [hch] using ht)]
              simp [callsOf, ht]
      · intro hn
        rw [List.map_eq_nil_iff, List.filter_eq_nil_iff]
        intro c hc e
        exact hn ((s2 _).2 ⟨c, hc, by simpa using e⟩)

/-- C117. The weights of a bone for the object of a mesh are those of the deformers of that mesh which
name its model, in order, vertex `k` under the id `k + 1`; that id leads back to vertex `k`; a bone has no
weights for other objects. -/
theorem weights_spec (facet : F) (sc : FScene F) (opt : FOptions F) (fuel base : Nat) (objects : List (Object F))
    (morphs : List MorphTargetList) (r : FResult F) (hn : opt.targetModelName = [])
    (hroot : (sc.model sc.scene).parent = none)
    (h : fbxConvert facet sc opt fuel base objects morphs = some r) :
    ∃ tagged order, r.objects = objects ++ tagged.map Prod.snd ∧ TreeOk sc opt tagged ∧
      BonesOk sc opt (r.setBones.getD []) order ∧
      (∀ x o g, (some x, o) ∈ tagged → (sc.model x).geometry = some g →
        ∀ k : Nat, k < g.vertices.length → o.getVertexIndexByID ((k : Int) + 1) = k) ∧
      ∀ (i m : Nat) (b : Bone F), order[i]? = some m → (r.setBones.getD [])[i]? = some b →
        (b.weights.map WeightGroup.objectID).Nodup ∧
        (∀ w ∈ b.weights, ∃ x o, (some x, o) ∈ tagged ∧ w.objectID = o.uid) ∧
        ∀ x o g, (some x, o) ∈ tagged → (sc.model x).geometry = some g →
          (b.weights.filter fun w => w.objectID = o.uid).flatMap WeightGroup.vertexes =
            (g.deformers.filter fun d => !d.channel && decide (d.target = some m) &&
              decide (d.weights.length = d.indexes.length)).flatMap fun d =>
                (d.indexes.zip d.weights).map fun p => ⟨p.1 + 1, p.2⟩ := by
  obtain ⟨ms, ls, outs, order, st, hms, hvis, hgrow, rfl⟩ := fbxConvert_run facet sc opt fuel base objects morphs r hn h
  obtain ⟨h1, h2⟩ := tree_of_run facet sc opt fuel base objects morphs ms ls outs order st hms hvis hgrow
  have h3 := bones_of_run facet sc opt fuel base objects morphs ms ls outs order st hroot hms hvis hgrow
  have h4 := weights_of_run facet sc opt fuel base objects morphs ms ls outs order st hroot hms hvis hgrow
  rw [withBones_getD]
  exact ⟨_, order, h1, h2, h3, h4.1, h4.2⟩

/-! ### C115: the shapes -/

/-- The shapes of a geometry that become objects: those of its blend shape channels, then its own. -/
def wantedShapes (opt : FOptions F) (g : FGeometry F) : List (FShape F) :=
  if opt.disableBlendShape then []
  else (g.deformers.filter fun d => d.channel).flatMap FDeformer.shapes ++ g.shapes

/-- The last entry of a shape for vertex `j`. -/
def FShape.delta (s : FShape F) (j : Nat) : Option (Vec3 F) :=
  ((s.indexes.zip s.vertices).filter fun p => p.1 = (j : Int)).getLast?.map Prod.snd

/-- The vertices of the shape object `o` are those of the mesh, moved as the shape says and then placed by
`t` like the mesh itself. -/
def ShapeOk (t : Mat4 F) (verts : List (Vec3 F)) (s : FShape F) (o : Object F) : Prop :=
  o.name = s.name ∧ o.vertexes.length = verts.length ∧
  (s.vertices.length = s.indexes.length → ∀ (j : Nat) (v : Vec3 F), verts[j]? = some v →
    o.vertexes[j]? = some (match s.delta j with | some d => t.applyTo (v.add d) | none => t.applyTo v)) ∧
  (s.vertices.length ≠ s.indexes.length → o.vertexes = verts.map t.applyTo)

omit [Sub F] [Div F] [Zero F] [One F] [Neg F] [DecidableEq F] [FloatOps F] in
theorem shapeLoop_spec (t : Mat4 F) (base : List (Vec3 F)) : ∀ (l : List (Int × Vec3 F)) (vs vs' : List (Vec3 F)),
    vs.length = base.length → shapeLoop t base l vs = some vs' → ∀ (j : Nat) (v : Vec3 F), base[j]? = some v →
    vs'[j]? = (match (l.filter fun p => p.1 = (j : Int)).getLast?.map Prod.snd with
      | some d => some (t.applyTo (v.add d)) | none => vs[j]?) := by
  intro l
  induction l with
  | nil => intro vs vs' _ h j v _; simp only [shapeLoop, Option.some.injEq] at h; simp [h]
  | cons e l ih =>
    intro vs vs' hlen h j v hv
    obtain ⟨idx, d⟩ := e
    have hj : j < base.length := (List.getElem?_eq_some_iff.1 hv).1
    simp only [shapeLoop] at h
    split at h
    · split at h
      · rename_i b hb
        rw [ih _ _ (by simpa using hlen) h j v hv]
        by_cases he : idx = (j : Int)
        · subst he
          have hbv : b = v := by
            unfold at? at hb
            rw [if_neg (by omega), Int.toNat_natCast, hv] at hb
            exact (Option.some.inj hb).symm
          subst hbv
          rw [List.filter_cons_of_pos (by simp)]
          cases hl : l.filter (fun p => p.1 = (j : Int)) with
          | nil => simp [hlen, hj]
          | cons a l' =>
            obtain ⟨y, hy⟩ : ∃ y, (a :: l').getLast? = some y := ⟨_, List.getLast?_eq_some_getLast (by simp)⟩
            rw [List.getLast?_cons_cons, hy]
            rfl
        · rw [List.filter_cons_of_neg (by simpa using he)]
          split
          · rfl
          · have hne : idx.toNat ≠ j := by
              have : 0 ≤ idx := by
                by_contra hneg
                unfold at? at hb
                rw [if_pos (by omega)] at hb
                simp at hb
              omega
            rw [List.getElem?_set_ne hne]
      · simp at h
    · rename_i hge
      rw [ih _ _ hlen h j v hv, List.filter_cons_of_neg]
      simp only [decide_eq_true_eq]
      omega

omit [Sub F] [Div F] [Zero F] [One F] [Neg F] [DecidableEq F] [FloatOps F] in
theorem fbxShape_ok (s : FShape F) (src o : Object F) (base : List (Vec3 F)) (t : Mat4 F)
    (hsrc : src.vertexes = base.map t.applyTo) (h : fbxShape s src base t = some o) : ShapeOk t base s o := by
  obtain ⟨h1, h2, _⟩ := fbxShape_same s src o base t h
  refine ⟨h1, by rw [h2, hsrc]; simp, ?_, ?_⟩
  · intro hl j v hv
    simp only [fbxShape] at h
    rw [if_neg (by simpa using hl), Option.map_eq_some_iff] at h
    obtain ⟨vs, h3, rfl⟩ := h
    have := shapeLoop_spec t base _ _ vs (by simp [Mqo.Object.clone, hsrc]) h3 j v hv
    rw [this]
    unfold FShape.delta
    cases (((s.indexes.zip s.vertices).filter fun p => p.1 = (j : Int)).getLast?.map Prod.snd) with
    | some d => rfl
    | none => simp [Mqo.Object.clone, hsrc, hv]
  · intro hl
    simp only [fbxShape] at h
    rw [if_pos hl] at h
    simp only [Option.some.injEq] at h
    subst h
    simp [Mqo.Object.clone, hsrc]

theorem shapes_of_run (facet : F) (sc : FScene F) (opt : FOptions F) (fuel base : Nat) (objects : List (Object F))
    (morphs : List MorphTargetList) (ms : List Nat) (ls : List (List (Visit F)))
    (outs : List (Object F × List (Object F))) (order : List Nat) (st : FState F)
    (hms : wantedModels sc opt fuel (sc.model sc.scene).children = some ms)
    (hvis : List.Forall₂ (fun m l =>
      visits sc opt base fuel opt.objectDepth (sc.coord.mul (sc.model sc.scene).matrix) m = some l) ms ls)
    (hgrow : Grow facet sc opt ⟨objects, morphs, [], fun _ => none⟩ st ls.flatten outs [] order []) :
    (withBones st).objects = objects ++ ((ls.flatten.zip outs).map fun z => (z.1.model, z.2.1, z.2.2)).flatMap (fun p => p.2.1 :: p.2.2) ∧
      (∀ x, (∃ o ss, (x, o, ss) ∈ (ls.flatten.zip outs).map fun z => (z.1.model, z.2.1, z.2.2)) ↔ Converted sc opt x) ∧
      (withBones st).morphs = morphs ++ (((ls.flatten.zip outs).map fun z => (z.1.model, z.2.1, z.2.2)).filter
        fun p => !p.2.2.isEmpty).map (fun p => ⟨p.2.1.name, p.2.2.map fun o => ⟨o.name, 0⟩⟩) ∧
      ∀ z ∈ ls.flatten.zip outs,
        ((sc.model z.1.model).geometry = none → z.2.2 = [] ∧ z.2.1.vertexes = []) ∧
        ∀ g, (sc.model z.1.model).geometry = some g → z.2.1.vertexes = g.vertices.map z.1.transform.applyTo ∧
          List.Forall₂ (ShapeOk z.1.transform g.vertices) (wantedShapes opt g) z.2.2 := by
  have hlen := hgrow.made.length
  have hconv := visited_iff sc opt fuel base ms ls hms hvis
  have hmem : ∀ x o ss, (x, o, ss) ∈ (ls.flatten.zip outs).map (fun z => (z.1.model, z.2.1, z.2.2)) →
      ∃ z ∈ ls.flatten.zip outs, z.1.model = x ∧ z.2.1 = o ∧ z.2.2 = ss := by
    intro x o ss hx
    obtain ⟨z, hz, e⟩ := List.mem_map.1 hx
    simp only [Prod.mk.injEq] at e
    exact ⟨z, hz, e⟩
  refine ⟨?_, ?_, ?_, ?_⟩
  · simp only [withBones]
    rw [hgrow.objects, flatOuts, List.flatMap_map]
    congr 1
    conv_lhs => rw [← List.map_snd_zip (l₁ := ls.flatten) (l₂ := outs) (by omega)]
    rw [List.flatMap_map]
  · intro x
    rw [← hconv]
    constructor
    · rintro ⟨o, ss, ho⟩
      obtain ⟨z, hz, h1, _⟩ := hmem x o ss ho
      exact ⟨z.1, (List.of_mem_zip (a := z.1) (b := z.2) hz).1, h1⟩
    · rintro ⟨v, hv, rfl⟩
      obtain ⟨i, hi, rfl⟩ := List.getElem_of_mem hv
      refine ⟨(outs[i]'(by omega)).1, (outs[i]'(by omega)).2, List.mem_map.2 ⟨(ls.flatten[i], outs[i]'(by omega)), ?_, rfl⟩⟩
      rw [← List.getElem_zip (h := by rw [List.length_zip]; omega)]
      exact List.getElem_mem _
  · simp only [withBones]
    rw [hgrow.morphs]
    congr 1
    unfold outMorphs
    conv_lhs => rw [← List.map_snd_zip (l₁ := ls.flatten) (l₂ := outs) (by omega)]
    rw [List.flatMap_map]
    generalize ls.flatten.zip outs = zs
    induction zs with
    | nil => rfl
    | cons z zs ih =>
      rw [List.flatMap_cons, ih, List.map_cons]
      cases hz : z.2.2 with
      | nil => rw [List.filter_cons_of_neg (by simp)]; simp
      | cons a l => rw [List.filter_cons_of_pos (by simp), List.map_cons]; simp
  · intro z hz
    obtain ⟨k, _, hok⟩ := hgrow.made.mem z hz
    refine ⟨fun hg => ?_, fun g hg => ?_⟩
    · obtain ⟨e1, e2⟩ := hok.empty hg
      refine ⟨e1, ?_⟩
      rw [e2]
      rfl
    · obtain ⟨faces, _, e, hs⟩ := hok.mesh g hg
      have e1 : z.2.1.vertexes = g.vertices.map z.1.transform.applyTo := by rw [e]
      refine ⟨e1, ?_⟩
      have e2 : allShapes opt g = wantedShapes opt g := by
        unfold allShapes wantedShapes channelShapes
        split <;> rfl
      rw [← e2]
      refine hs.imp ?_
      rintro s o' ⟨o0, k1, k2⟩
      have := fbxShape_ok s z.2.1 o0 _ _ e1 k1
      rw [k2]
      exact this

/-- C115. The result lists for each converted model its object and the objects of its shapes: one for each
shape of the mesh, with its name and the moved vertices; and for every mesh with shapes there is one list
of morph targets that names the mesh and its shapes in order. -/
theorem shapes_spec (facet : F) (sc : FScene F) (opt : FOptions F) (fuel base : Nat) (objects : List (Object F))
    (morphs : List MorphTargetList) (r : FResult F) (hn : opt.targetModelName = [])
    (h : fbxConvert facet sc opt fuel base objects morphs = some r) :
    ∃ made : List (Nat × Object F × List (Object F)),
      r.objects = objects ++ made.flatMap (fun p => p.2.1 :: p.2.2) ∧
      (∀ x, (∃ o ss, (x, o, ss) ∈ made) ↔ Converted sc opt x) ∧
      r.morphs = morphs ++ (made.filter fun p => !p.2.2.isEmpty).map
        (fun p => ⟨p.2.1.name, p.2.2.map fun o => ⟨o.name, 0⟩⟩) ∧
      ∀ x o ss, (x, o, ss) ∈ made →
        ((sc.model x).geometry = none → ss = [] ∧ o.vertexes = []) ∧
        ∀ g, (sc.model x).geometry = some g → ∃ t, o.vertexes = g.vertices.map t.applyTo ∧
          List.Forall₂ (ShapeOk t g.vertices) (wantedShapes opt g) ss := by
  obtain ⟨ms, ls, outs, order, st, hms, hvis, hgrow, rfl⟩ := fbxConvert_run facet sc opt fuel base objects morphs r hn h
  obtain ⟨h1, h2, h3, h4⟩ := shapes_of_run facet sc opt fuel base objects morphs ms ls outs order st hms hvis hgrow
  refine ⟨_, h1, h2, h3, ?_⟩
  intro x o ss hx
  obtain ⟨z, hz, e⟩ := List.mem_map.1 hx
  simp only [Prod.mk.injEq] at e
  obtain ⟨rfl, rfl, rfl⟩ := e
  obtain ⟨h5, h6⟩ := h4 z hz
  exact ⟨h5, fun g hg => ⟨_, h6 g hg⟩⟩

/-! ### C116: the conversion succeeds -/

/-- What a document has to fulfil so that nothing panics. -/
structure GoodScene (sc : FScene F) : Prop where
  /-- the parents are models of the document -/
  parents : ∀ m p, (sc.model m).parent = some p → p < sc.count
  /-- there are no cycles of parents -/
  heights : ∀ m, ∃ n, Height sc m n ∧ n ≤ sc.count
  polygons : ∀ m g, (sc.model m).geometry = some g → g.polygons.flatten.length ≤ g.pvCount
  /-- texture indexes name texture coordinates -/
  uvs : ∀ m g, (sc.model m).geometry = some g → ∀ k ∈ g.uvIndex, 0 ≤ k ∧ k < g.uvs.length
  mats : ∀ m g, (sc.model m).geometry = some g → ∀ k ∈ g.mats, 0 ≤ k
  /-- deformers name models of the document other than the scene -/
  targets : ∀ m g, (sc.model m).geometry = some g → ∀ d ∈ g.deformers, ∀ t, d.target = some t →
    t ≠ sc.scene ∧ t < sc.count
  /-- the vertex indexes of shapes are not negative -/
  shapes : ∀ m g, (sc.model m).geometry = some g → ∀ d ∈ g.deformers, ∀ s ∈ d.shapes, ∀ k ∈ s.indexes, 0 ≤ k
  ownShapes : ∀ m g, (sc.model m).geometry = some g → ∀ s ∈ g.shapes, ∀ k ∈ s.indexes, 0 ≤ k

omit [Sub F] [Div F] [Zero F] [One F] [Neg F] [DecidableEq F] [FloatOps F] in
theorem shapeLoop_total (t : Mat4 F) (base : List (Vec3 F)) : ∀ (l : List (Int × Vec3 F)) (vs : List (Vec3 F)),
    vs.length = base.length → (∀ e ∈ l, 0 ≤ e.1) → ∃ vs', shapeLoop t base l vs = some vs' := by
  intro l
  induction l with
  | nil => intro vs _ _; exact ⟨vs, rfl⟩
  | cons e l ih =>
    intro vs hlen h
    obtain ⟨idx, d⟩ := e
    have h0 : 0 ≤ idx := h (idx, d) (by simp)
    have hl : ∀ e ∈ l, 0 ≤ e.1 := fun e he => h e (List.mem_cons_of_mem _ he)
    simp only [shapeLoop]
    split
    · rename_i hlt
      have hb : at? base idx = some (base[idx.toNat]'(by omega)) := by
        unfold at?
        rw [if_neg (by omega), List.getElem?_eq_getElem]
      rw [hb]
      exact ih _ (by simpa using hlen) hl
    · exact ih _ hlen hl

omit [Sub F] [Div F] [Zero F] [One F] [Neg F] [DecidableEq F] [FloatOps F] in
theorem fbxShape_total (s : FShape F) (src : Object F) (base : List (Vec3 F)) (t : Mat4 F)
    (hsrc : src.vertexes.length = base.length) (h : ∀ k ∈ s.indexes, 0 ≤ k) : ∃ o, fbxShape s src base t = some o := by
  simp only [fbxShape]
  split
  · exact ⟨_, rfl⟩
  · obtain ⟨vs, hvs⟩ := shapeLoop_total t base (s.indexes.zip s.vertices) src.clone.vertexes
      (by simpa [Mqo.Object.clone] using hsrc) (fun e he => h _ (List.of_mem_zip (a := e.1) (b := e.2) he).1)
    exact ⟨_, by rw [hvs]; rfl⟩

theorem mapM_total {α β : Type} (f : α → Option β) : ∀ (l : List α), (∀ a ∈ l, ∃ b, f a = some b) →
    ∃ r, l.mapM f = some r := by
  intro l
  induction l with
  | nil => intro _; exact ⟨[], rfl⟩
  | cons a l ih =>
    intro h
    obtain ⟨b, hb⟩ := h a (by simp)
    obtain ⟨r, hr⟩ := ih fun a ha => h a (List.mem_cons_of_mem _ ha)
    exact ⟨b :: r, by rw [List.mapM_cons, hb, hr]; rfl⟩

omit [Sub F] [Div F] [One F] [Neg F] [DecidableEq F] [FloatOps F] in
theorem convertDeformers_total (sc : FScene F) (opt : FOptions F) (obj : Object F) (base : List (Vec3 F)) (t : Mat4 F)
    (hp : ∀ m p, (sc.model m).parent = some p → p < sc.count) (hh : ∀ m, ∃ n, Height sc m n ∧ n ≤ sc.count)
    (hv : obj.vertexes.length = base.length) : ∀ (ds : List (FDeformer F)) (st : FState F) (shapes : List (Object F))
    (order : List Nat) (log : List (FDeformer F × Int)), BInv sc st order [] log →
    (∀ d ∈ ds, ∀ m, d.target = some m → m ≠ sc.scene ∧ m < sc.count) →
    (∀ d ∈ ds, ∀ s ∈ d.shapes, ∀ k ∈ s.indexes, 0 ≤ k) →
    ∃ r, convertDeformers sc opt obj base t ds st shapes = some r := by
  intro ds
  induction ds with
  | nil => intro st shapes order log _ _ _; exact ⟨_, rfl⟩
  | cons d ds ih =>
    intro st shapes order log hinv h1 h2
    have h1' := fun d' hd' => h1 d' (List.mem_cons_of_mem d hd')
    have h2' := fun d' hd' => h2 d' (List.mem_cons_of_mem d hd')
    unfold convertDeformers
    split
    · split
      · exact ih st shapes order log hinv h1' h2'
      · obtain ⟨os, hos⟩ := mapM_total (fun s => fbxShape s obj base t) d.shapes
          (fun s hs => fbxShape_total s obj base t hv (h2 d (by simp) s hs))
        rw [hos]
        exact ih st _ order log hinv h1' h2'
    · split
      · exact ih st shapes order log hinv h1' h2'
      · obtain ⟨st1, hst1⟩ := convertDeformer_total sc d obj.uid st order log hinv hp hh (h1 d (by simp))
        obtain ⟨new, hinv1, _⟩ := convertDeformer_spec sc d obj.uid st st1 order log hinv hst1
        rw [hst1]
        exact ih st1 shapes _ _ hinv1 h1' h2'

end

section

variable [Field F] [FloatOps F] [DecidableEq F]

theorem convertOne_total (facet : F) (sc : FScene F) (opt : FOptions F) (base : Nat) (hg : GoodScene sc)
    (ho : opt.objectDepth ≤ 0) (m : Nat) (d : Int) (parent : Mat4 F) (st : FState F) (order : List Nat)
    (log : List (FDeformer F × Int)) (hinv : BInv sc st order [] log) :
    ∃ r, convertOne facet sc opt base m d parent st = some r := by
  unfold convertOne modelSetup
  simp only
  rw [if_neg (by omega)]
  simp only
  cases hgm : (sc.model m).geometry with
  | none => exact ⟨_, rfl⟩
  | some g =>
    obtain ⟨faces, hf⟩ := fbxFaces_total g (fbxNormalMatrix (parent.mul (sc.model m).matrix))
      ((sc.model m).materials.map fun k => if opt.materialOverride.isNone then ((base + k : Nat) : Int) else 0)
      (hg.polygons m g hgm) (hg.uvs m g hgm) (hg.mats m g hgm) g.polygons 0 0 (by omega) (by omega)
    simp only [convertGeometry]
    rw [hf]
    simp only
    have hinv' : ∀ objs, BInv sc { st with objects := objs } order [] log := fun objs =>
      ⟨hinv.len, hinv.nodup, hinv.scene, hinv.mapPend, hinv.mapOrder, hinv.mapNone, hinv.bone, hinv.logged⟩
    obtain ⟨⟨st1, shapes⟩, hr⟩ := convertDeformers_total sc opt
      { Mqo.newObject facet (trimSuffix (trimPrefix (sc.model m).name "Model::".toList) "::Model".toList) with
        uid := (st.objects.length : Int) + 1, depth := d
        vertexes := (Mqo.newObject facet (trimSuffix (trimPrefix (sc.model m).name "Model::".toList)
          "::Model".toList)).vertexes ++ g.vertices.map (parent.mul (sc.model m).matrix).applyTo
        faces := (Mqo.newObject facet (trimSuffix (trimPrefix (sc.model m).name "Model::".toList)
          "::Model".toList)).faces ++ faces } g.vertices (parent.mul (sc.model m).matrix) hg.parents hg.heights
      (by simp [Mqo.newObject]) g.deformers _ [] order log (hinv' (st.objects ++
        [{ Mqo.newObject facet (trimSuffix (trimPrefix (sc.model m).name "Model::".toList) "::Model".toList) with
          uid := (st.objects.length : Int) + 1, depth := d }])) (hg.targets m g hgm) (hg.shapes m g hgm)
    rw [hr]
    simp only
    split
    · rename_i h0
      split at h0
      · simp at h0
      · split at h0
        · rename_i hmap
          obtain ⟨os, hos⟩ := mapM_total (fun s => fbxShape s
            { Mqo.newObject facet (trimSuffix (trimPrefix (sc.model m).name "Model::".toList) "::Model".toList) with
              uid := (st.objects.length : Int) + 1, depth := d
              vertexes := (Mqo.newObject facet (trimSuffix (trimPrefix (sc.model m).name "Model::".toList)
                "::Model".toList)).vertexes ++ g.vertices.map (parent.mul (sc.model m).matrix).applyTo
              faces := (Mqo.newObject facet (trimSuffix (trimPrefix (sc.model m).name "Model::".toList)
                "::Model".toList)).faces ++ faces } g.vertices (parent.mul (sc.model m).matrix)) g.shapes
            (fun s hs => fbxShape_total s _ _ _ (by simp [Mqo.newObject]) (hg.ownShapes m g hgm s hs))
          rw [hos] at hmap
          simp at hmap
        · simp at h0
    · exact ⟨_, rfl⟩

theorem foldlM_total (facet : F) (sc : FScene F) (opt : FOptions F) (f : FState F → Nat → Option (FState F))
    (vis : Nat → Option (List (Visit F)))
    (hf : ∀ st st' m order log, BInv sc st order [] log → f st m = some st' → ∃ vs outs new, vis m = some vs ∧
      Grow facet sc opt st st' vs outs order new log) :
    ∀ (ms : List Nat) (st : FState F) (order : List Nat) (log : List (FDeformer F × Int)), BInv sc st order [] log →
      (∀ m ∈ ms, ∀ st order log, BInv sc st order [] log → ∃ st', f st m = some st') →
      ∃ st', ms.foldlM f st = some st' := by
  intro ms
  induction ms with
  | nil => intro st order log _ _; exact ⟨st, rfl⟩
  | cons m ms ih =>
    intro st order log hinv htot
    obtain ⟨st1, h1⟩ := htot m (by simp) st order log hinv
    obtain ⟨vs, outs, new, _, hgrow⟩ := hf st st1 m order log hinv h1
    rw [List.foldlM_cons, h1]
    exact ih st1 _ _ hgrow.bones fun m hm => htot m (List.mem_cons_of_mem _ hm)

theorem convertModel_total (facet : F) (sc : FScene F) (opt : FOptions F) (base : Nat) (hg : GoodScene sc)
    (ho : opt.objectDepth ≤ 0) (rank : Nat → Nat) (hr : ∀ m c, c ∈ (sc.model m).children → rank c < rank m) :
    ∀ (fuel : Nat) (d : Int) (parent : Mat4 F) (st : FState F) (m : Nat) (order : List Nat)
      (log : List (FDeformer F × Int)), rank m < fuel → BInv sc st order [] log →
      ∃ st', convertModel facet sc opt base fuel d parent st m = some st' := by
  intro fuel
  induction fuel with
  | zero => intro d parent st m order log h; omega
  | succ fuel ih =>
    intro d parent st m order log hrank hinv
    obtain ⟨⟨t, st1⟩, hone⟩ := convertOne_total facet sc opt base hg ho m d parent st order log hinv
    obtain ⟨ids, obj, shapes, new, _, _, _, _, h5⟩ :=
      convertOne_spec facet sc opt base m d parent t st st1 order log hinv hone
    unfold convertModel
    rw [hone]
    exact foldlM_total facet sc opt _ _
      (fun st st' m order log => convertModel_spec facet sc opt base fuel (d + 1) t st st' m order log) _ st1 _ _
      (h5 _ rfl).1 fun c hc st order log hinv => ih _ _ st c order log
        (by have := hr m c (List.mem_of_mem_filter hc); omega) hinv

omit [Field F] [FloatOps F] [DecidableEq F] in
theorem hasGeometry_total (sc : FScene F) (rank : Nat → Nat)
    (hr : ∀ m c, c ∈ (sc.model m).children → rank c < rank m) : ∀ (fuel m : Nat), rank m < fuel →
    ∃ b, hasGeometry sc fuel m = some b := by
  intro fuel
  induction fuel with
  | zero => intro m h; omega
  | succ fuel ih =>
    intro m h
    unfold hasGeometry
    split
    · exact ⟨_, rfl⟩
    · have hany : ∀ cs : List Nat, (∀ c ∈ cs, rank c < fuel) →
          ∃ b, hasGeometry.anyGeometry (hasGeometry sc fuel) cs = some b := by
        intro cs
        induction cs with
        | nil => intro _; exact ⟨_, rfl⟩
        | cons c cs ihc =>
          intro hcs
          obtain ⟨b, hb⟩ := ih c (hcs c (by simp))
          unfold hasGeometry.anyGeometry
          rw [hb]
          cases b with
          | true => exact ⟨_, rfl⟩
          | false => exact ihc fun c hc => hcs c (List.mem_cons_of_mem _ hc)
      exact hany _ fun c hc => by have := hr m c hc; omega

/-- C116. A document without cycles whose indexes name what they should is converted: there is no panic
and no endless recursion, whatever else is missing or odd in it. -/
theorem convert_total (facet : F) (sc : FScene F) (opt : FOptions F) (base : Nat) (objects : List (Object F))
    (morphs : List MorphTargetList) (hg : GoodScene sc) (ho : opt.objectDepth ≤ 0) (rank : Nat → Nat)
    (hr : ∀ m c, c ∈ (sc.model m).children → rank c < rank m) (fuel : Nat) (hfuel : rank sc.scene < fuel) :
    ∃ r, fbxConvert facet sc opt fuel base objects morphs = some r := by
  have hinv : BInv sc (⟨objects, morphs, [], fun _ => none⟩ : FState F) [] [] [] :=
    ⟨rfl, List.nodup_nil, by simp, by simp, by simp, by simp, by simp, by simp⟩
  have hchild : ∀ c ∈ (sc.model sc.scene).children, rank c < fuel := fun c hc => by
    have := hr _ c hc; omega
  simp only [fbxConvert]
  split
  · split
    · exact ⟨_, rfl⟩
    · rename_i m hm
      obtain ⟨st', h⟩ := convertModel_total facet sc opt base hg ho rank hr fuel opt.objectDepth
        (sc.coord.mul (sc.model sc.scene).matrix) _ m _ _ (hchild m (List.mem_of_find?_eq_some hm)) hinv
      rw [h]
      exact ⟨_, rfl⟩
  · have hw : ∀ kids : List Nat, (∀ c ∈ kids, rank c < fuel) → ∃ ms, wantedModels sc opt fuel kids = some ms := by
      intro kids
      induction kids with
      | nil => intro _; exact ⟨_, rfl⟩
      | cons c kids ih =>
        intro hk
        obtain ⟨rest, hrest⟩ := ih fun c hc => hk c (List.mem_cons_of_mem _ hc)
        have hb : ∃ b, wanted sc opt fuel c = some b := by
          unfold wanted
          split
          · exact ⟨_, rfl⟩
          · split
            · exact ⟨_, rfl⟩
            · exact hasGeometry_total sc rank hr fuel c (hk c (by simp))
        obtain ⟨b, hb⟩ := hb
        unfold wantedModels
        rw [hb, hrest]
        exact ⟨_, rfl⟩
    obtain ⟨ms, hms⟩ := hw _ hchild
    rw [hms]
    simp only
    have hsub := (wantedModels_spec sc opt fuel _ _ hms).1
    obtain ⟨st', h⟩ := foldlM_total facet sc opt _ _
      (fun st st' m order log => convertModel_spec facet sc opt base fuel opt.objectDepth
        (sc.coord.mul (sc.model sc.scene).matrix) st st' m order log) ms _ _ _ hinv
      fun c hc st order log hinv => convertModel_total facet sc opt base hg ho rank hr fuel _ _ st c order log
        (hchild c (hsub.subset hc)) hinv
    rw [h]
    exact ⟨_, rfl⟩

end

end Verif.Conv
