import Verif.Conv.FbxBoneLemmas
import Verif.Conv.FbxMeshProps

/-! Lemmas on the objects made from the models of an FBX document (converter/fbx2mqo.go:108-174). -/

namespace Verif.Conv

open Verif.Geom
open Verif.Mqo (Str Object Face Bone MorphTargetList)

variable {F : Type}

/-! ### Geometry with deformers -/

/-- The deformers that become bones, with the id of the object. -/
def deformerLog (opt : FOptions F) (ds : List (FDeformer F)) (u : Int) : List (FDeformer F × Int) :=
  if opt.disableBone then [] else (ds.filter fun d => !d.channel).map fun d => (d, u)

/-- The shapes that become objects. -/
def channelShapes (opt : FOptions F) (ds : List (FDeformer F)) : List (FShape F) :=
  if opt.disableBlendShape then [] else (ds.filter fun d => d.channel).flatMap FDeformer.shapes

/-- All shapes of a geometry that become objects, in order. -/
def allShapes (opt : FOptions F) (g : FGeometry F) : List (FShape F) :=
  if opt.disableBlendShape then [] else channelShapes opt g.deformers ++ g.shapes

theorem mapM_forall₂ {α β : Type} (f : α → Option β) : ∀ (l : List α) (r : List β), l.mapM f = some r →
    List.Forall₂ (fun a b => f a = some b) l r := by
  intro l
  induction l with
  | nil => intro r h; simp at h; subst h; exact .nil
  | cons a l ih =>
    intro r h
    rw [List.mapM_cons] at h
    simp only [Option.bind_eq_bind, Option.bind_eq_some_iff, Option.pure_def, Option.some.injEq] at h
    obtain ⟨b, hb, r', hr, rfl⟩ := h
    exact .cons hb (ih r' hr)

theorem forall₂_append {α β : Type} {R : α → β → Prop} {l1 l2 : List α} {r1 r2 : List β}
    (h1 : List.Forall₂ R l1 r1) (h2 : List.Forall₂ R l2 r2) : List.Forall₂ R (l1 ++ l2) (r1 ++ r2) := by
  induction h1 with
  | nil => exact h2
  | cons h _ ih => exact .cons h ih

/-- The new bones are needed by some deformer of the list. -/
def Needed (sc : FScene F) (new : List Nat) (log : List (FDeformer F × Int)) : Prop :=
  ∀ a ∈ new, ∃ e ∈ log, ∃ m, e.1.target = some m ∧ Above sc a m

theorem convertDeformers_spec [Add F] [Mul F] [Zero F] (sc : FScene F) (opt : FOptions F) (obj : Object F)
    (base : List (Vec3 F)) (t : Mat4 F) : ∀ (ds : List (FDeformer F)) (st st' : FState F)
    (shapes shapes' : List (Object F)) (order : List Nat) (log : List (FDeformer F × Int)),
    BInv sc st order [] log → convertDeformers sc opt obj base t ds st shapes = some (st', shapes') →
    ∃ new added, BInv sc st' (order ++ new) [] (log ++ deformerLog opt ds obj.uid) ∧
      Needed sc new (deformerLog opt ds obj.uid) ∧ st'.objects = st.objects ∧ st'.morphs = st.morphs ∧
      shapes' = shapes ++ added ∧
      List.Forall₂ (fun s o => fbxShape s obj base t = some o) (channelShapes opt ds) added := by
  intro ds
  induction ds with
  | nil =>
    intro st st' shapes shapes' order log hinv h
    simp only [convertDeformers, Option.some.injEq, Prod.mk.injEq] at h
    obtain ⟨rfl, rfl⟩ := h
    refine ⟨[], [], ?_, ?_, rfl, rfl, by simp, ?_⟩
    · simpa [deformerLog] using hinv
    · simp [Needed]
    · unfold channelShapes
      split <;> exact .nil
  | cons d ds ih =>
    intro st st' shapes shapes' order log hinv h
    simp only [convertDeformers] at h
    split at h
    · rename_i hc
      have hlog : deformerLog opt (d :: ds) obj.uid = deformerLog opt ds obj.uid := by
        simp [deformerLog, hc]
      rw [hlog]
      split at h
      · rename_i hb
        obtain ⟨new, added, h1, h2, h3, h4, h5, h6⟩ := ih _ _ _ _ _ _ hinv h
        refine ⟨new, added, h1, h2, h3, h4, h5, ?_⟩
        have : channelShapes opt (d :: ds) = channelShapes opt ds := by simp [channelShapes, hb]
        rw [this]
        exact h6
      · rename_i hb
        split at h
        · simp at h
        · rename_i os hos
          obtain ⟨new, added, h1, h2, h3, h4, h5, h6⟩ := ih _ _ _ _ _ _ hinv h
          refine ⟨new, os ++ added, h1, h2, h3, h4, by rw [h5, List.append_assoc], ?_⟩
          have : channelShapes opt (d :: ds) = d.shapes ++ channelShapes opt ds := by
            simp [channelShapes, hb, hc]
          rw [this]
          exact forall₂_append (mapM_forall₂ _ _ _ hos) h6
    · rename_i hc
      have hsh : channelShapes opt (d :: ds) = channelShapes opt ds := by simp [channelShapes, hc]
      rw [hsh]
      split at h
      · rename_i hb
        obtain ⟨new, added, h1, h2, h3, h4, h5, h6⟩ := ih _ _ _ _ _ _ hinv h
        have hlog : deformerLog opt (d :: ds) obj.uid = deformerLog opt ds obj.uid := by simp [deformerLog, hb]
        rw [hlog]
        exact ⟨new, added, h1, h2, h3, h4, h5, h6⟩
      · rename_i hb
        split at h
        · simp at h
        · rename_i st1 hst1
          obtain ⟨new1, k1, k2, k3, k4⟩ := convertDeformer_spec sc d obj.uid st st1 order log hinv hst1
          obtain ⟨new, added, h1, h2, h3, h4, h5, h6⟩ := ih _ _ _ _ _ _ k1 h
          have hlog : deformerLog opt (d :: ds) obj.uid = (d, obj.uid) :: deformerLog opt ds obj.uid := by
            simp [deformerLog, hb, hc]
          rw [hlog]
          refine ⟨new1 ++ new, added, ?_, ?_, by rw [h3, k3], by rw [h4, k4], h5, h6⟩
          · rw [List.append_assoc, List.append_assoc] at h1
            exact h1
          · intro a ha
            rcases List.mem_append.1 ha with ha | ha
            · obtain ⟨m, hm, hab⟩ := k2 a ha
              exact ⟨(d, obj.uid), by simp, m, hm, hab⟩
            · obtain ⟨e, he, m, hm, hab⟩ := h2 a ha
              exact ⟨e, List.mem_cons_of_mem _ he, m, hm, hab⟩

section

variable [Add F] [Sub F] [Mul F] [Div F] [Zero F] [One F] [Neg F] [DecidableEq F] [FloatOps F]

omit [Neg F] in
theorem convertGeometry_spec (sc : FScene F) (opt : FOptions F) (g : FGeometry F) (obj obj' : Object F) (t : Mat4 F)
    (ids : List Int) (st st' : FState F) (shapes : List (Object F)) (order : List Nat)
    (log : List (FDeformer F × Int)) (hinv : BInv sc st order [] log)
    (h : convertGeometry sc opt g obj t ids st = some (obj', shapes, st')) :
    ∃ new, BInv sc st' (order ++ new) [] (log ++ deformerLog opt g.deformers obj.uid) ∧
      Needed sc new (deformerLog opt g.deformers obj.uid) ∧ st'.objects = st.objects ∧ st'.morphs = st.morphs ∧
      List.Forall₂ (fun s o => fbxShape s obj' g.vertices t = some o) (allShapes opt g) shapes := by
  simp only [convertGeometry] at h
  split at h
  · simp at h
  · split at h
    · simp at h
    · rename_i st1 shapes1 hd
      obtain ⟨new, added, h1, h2, h3, h4, h5, h6⟩ := convertDeformers_spec sc opt _ _ _ _ _ _ _ _ _ _ hinv hd
      rw [List.nil_append] at h5
      subst h5
      split at h
      · rename_i hb
        simp only [Option.some.injEq, Prod.mk.injEq] at h
        obtain ⟨rfl, rfl, rfl⟩ := h
        refine ⟨new, h1, h2, h3, h4, ?_⟩
        simp only [channelShapes, hb, if_true] at h6
        simp only [allShapes, hb, if_true]
        cases h6
        exact .nil
      · rename_i hb
        split at h
        · simp at h
        · rename_i os hos
          simp only [Option.some.injEq, Prod.mk.injEq] at h
          obtain ⟨rfl, rfl, rfl⟩ := h
          refine ⟨new, h1, h2, h3, h4, ?_⟩
          have : allShapes opt g = channelShapes opt g.deformers ++ g.shapes := by simp [allShapes, hb]
          rw [this]
          exact forall₂_append h6 (mapM_forall₂ _ _ _ hos)

/-! ### One model -/

/-- A visited model: its number, the depth of its object, its transform and its materials. -/
structure Visit (F : Type) where
  model : Nat
  depth : Int
  transform : Mat4 F
  materials : List Int

/-- `o'` is the shape object made for `s`, before it gets its id and depth. -/
def ShapeFrom (base : List (Vec3 F)) (t : Mat4 F) (obj : Object F) (d : Int) (s : FShape F) (o : Object F) : Prop :=
  ∃ o0, fbxShape s obj base t = some o0 ∧ o = { o0 with uid := o.uid, depth := d + 1, visible := false }

/-- The objects `obj :: shapes` appended for a visited model when there were `n` objects. -/
structure OneOk (facet : F) (sc : FScene F) (opt : FOptions F) (v : Visit F) (n : Nat) (obj : Object F)
    (shapes : List (Object F)) : Prop where
  empty : (sc.model v.model).geometry = none → shapes = [] ∧
    obj = { Mqo.newObject facet (trimSuffix (trimPrefix (sc.model v.model).name "Model::".toList) "::Model".toList) with
      uid := n + 1, depth := v.depth }
  mesh : ∀ g, (sc.model v.model).geometry = some g → ∃ faces,
    fbxFaces g (fbxNormalMatrix v.transform) v.materials 0 0 g.polygons = some faces ∧
    obj = { Mqo.newObject facet (trimSuffix (trimPrefix (sc.model v.model).name "Model::".toList) "::Model".toList) with
      uid := n + 1, depth := v.depth, vertexes := g.vertices.map v.transform.applyTo, faces := faces } ∧
    List.Forall₂ (ShapeFrom g.vertices v.transform obj v.depth) (allShapes opt g) shapes
  ids : ∀ (i : Nat) (o : Object F), shapes[i]? = some o → o.uid = (n : Int) + 2 + i

omit [Add F] [Sub F] [Mul F] [Div F] [Zero F] [One F] [Neg F] [DecidableEq F] [FloatOps F] in
theorem addShapes_spec (d : Int) : ∀ (shapes objs : List (Object F)), ∃ new, addShapes d shapes objs = objs ++ new ∧
    List.Forall₂ (fun (o0 o : Object F) => o = { o0 with uid := o.uid, depth := d + 1, visible := false }) shapes new ∧
    ∀ (i : Nat) (o : Object F), new[i]? = some o → o.uid = (objs.length : Int) + 1 + i := by
  intro shapes
  induction shapes with
  | nil => intro objs; exact ⟨[], by simp [addShapes], .nil, by simp⟩
  | cons s shapes ih =>
    intro objs
    obtain ⟨new, h1, h2, h3⟩ := ih (objs ++ [{ s with uid := objs.length + 1, depth := d + 1, visible := false }])
    refine ⟨{ s with uid := objs.length + 1, depth := d + 1, visible := false } :: new, ?_, .cons rfl h2, ?_⟩
    · simp only [addShapes]
      rw [h1]
      simp
    · intro i o ho
      cases i with
      | zero =>
        simp only [List.getElem?_cons_zero, Option.some.injEq] at ho
        subst ho
        simp
      | succ i =>
        have := h3 i o (by simpa using ho)
        rw [this]
        simp only [List.length_append, List.length_cons, List.length_nil]
        push_cast
        omega

theorem forall₂_comp {α β γ : Type} {R : α → β → Prop} {S : β → γ → Prop} {l : List α} {m : List β} {r : List γ}
    (h1 : List.Forall₂ R l m) (h2 : List.Forall₂ S m r) : List.Forall₂ (fun a c => ∃ b, R a b ∧ S b c) l r := by
  induction h1 generalizing r with
  | nil => cases h2; exact .nil
  | cons h _ ih =>
    cases h2 with
    | cons h' h2' => exact .cons ⟨_, h, h'⟩ (ih h2')

theorem convertOne_spec (facet : F) (sc : FScene F) (opt : FOptions F) (base m : Nat) (d : Int) (parent t : Mat4 F)
    (st st' : FState F) (order : List Nat) (log : List (FDeformer F × Int)) (hinv : BInv sc st order [] log)
    (h : convertOne facet sc opt base m d parent st = some (t, st')) :
    ∃ ids obj shapes new, modelSetup sc opt base m d parent = some (t, ids) ∧
      OneOk facet sc opt ⟨m, d, t, ids⟩ st.objects.length obj shapes ∧
      st'.objects = st.objects ++ obj :: shapes ∧
      st'.morphs = st.morphs ++ (if shapes = [] then [] else [⟨obj.name, shapes.map fun o => ⟨o.name, 0⟩⟩]) ∧
      (∀ l, l = (match (sc.model m).geometry with
          | some g => deformerLog opt g.deformers ((st.objects.length : Int) + 1)
          | none => []) →
        BInv sc st' (order ++ new) [] (log ++ l) ∧ Needed sc new l) := by
  unfold convertOne at h
  split at h
  · simp at h
  · rename_i t0 ids hsetup
    simp only at h
    split at h
    · rename_i hg
      simp only [Option.some.injEq, Prod.mk.injEq] at h
      obtain ⟨rfl, rfl⟩ := h
      refine ⟨ids, _, [], [], hsetup, ⟨fun _ => ⟨rfl, rfl⟩, ?_, by simp⟩, rfl, by simp, ?_⟩
      · intro g hg'
        rw [hg] at hg'
        simp at hg'
      · intro l hl
        rw [hg] at hl
        subst hl
        rw [List.append_nil, List.append_nil]
        refine ⟨⟨hinv.len, hinv.nodup, hinv.scene, hinv.mapPend, hinv.mapOrder, hinv.mapNone, hinv.bone, hinv.logged⟩, ?_⟩
        simp [Needed]
    · rename_i g hg
      split at h
      · simp at h
      · rename_i obj1 shapes st1 hgeo
        simp only [Option.some.injEq, Prod.mk.injEq] at h
        obtain ⟨rfl, rfl⟩ := h
        have hinv0 : BInv sc { st with objects := st.objects ++ [({ Mqo.newObject facet (trimSuffix
            (trimPrefix (sc.model m).name "Model::".toList) "::Model".toList) with
            uid := (st.objects.length : Int) + 1, depth := d } : Object F)] } order [] log :=
          ⟨hinv.len, hinv.nodup, hinv.scene, hinv.mapPend, hinv.mapOrder, hinv.mapNone, hinv.bone, hinv.logged⟩
        obtain ⟨new, h1, h2, h3, h4, h5⟩ := convertGeometry_spec sc opt g _ obj1 t0 ids _ st1 shapes order log hinv0 hgeo
        obtain ⟨faces, hf, hobj⟩ := convertGeometry_object sc opt g _ t0 ids _ st1 obj1 shapes hgeo
        have hobj' : obj1 = { Mqo.newObject facet (trimSuffix (trimPrefix (sc.model m).name "Model::".toList)
            "::Model".toList) with uid := (st.objects.length : Int) + 1, depth := d
                                   vertexes := g.vertices.map t0.applyTo, faces := faces } := by
          rw [hobj]
          simp [Mqo.newObject]
        have hset : st1.objects.set st.objects.length obj1 = st.objects ++ [obj1] := by
          rw [h3]
          simp
        obtain ⟨new', a1, a2, a3⟩ := addShapes_spec d shapes (st.objects ++ [obj1])
        have hlen : new'.length = shapes.length := a2.length_eq.symm
        refine ⟨ids, obj1, new', new, hsetup, ⟨?_, ?_, ?_⟩, ?_, ?_, ?_⟩
        · intro hg'
          rw [hg] at hg'
          simp at hg'
        · intro g' hg'
          rw [hg] at hg'
          cases hg'
          exact ⟨faces, hf, hobj', forall₂_comp h5 a2⟩
        · intro i o ho
          rw [a3 i o ho]
          simp
          omega
        · unfold storeGeometry
          simp only
          split
          · rename_i hnil
            subst hnil
            cases a2
            simpa using hset
          · simp only
            rw [hset, a1]
            simp
        · have hnames : new'.map (fun o => (⟨o.name, 0⟩ : Mqo.MorphTarget)) = shapes.map fun o => ⟨o.name, 0⟩ := by
            clear hlen a1 a3 h5 hgeo hobj hf
            induction a2 with
            | nil => rfl
            | cons ho _ ih =>
              have hn := congrArg Object.name ho
              simp only at hn
              simp only [List.map_cons, ih, hn]
          have hnil : new' = [] ↔ shapes = [] := by
            rw [← List.length_eq_zero_iff, ← List.length_eq_zero_iff, hlen]
          unfold storeGeometry
          simp only
          split
          · rename_i hn
            rw [if_pos (hnil.2 hn)]
            simp [h4]
          · rename_i hn
            rw [if_neg (fun e => hn (hnil.1 e)), hnames]
            simp [h4]
        · intro l hl
          rw [hg] at hl
          subst hl
          refine ⟨?_, h2⟩
          have hb : ∀ s : FState F, (storeGeometry d st.objects.length obj1 shapes s).bones = s.bones ∧
              (storeGeometry d st.objects.length obj1 shapes s).boneMap = s.boneMap := by
            intro s
            unfold storeGeometry
            simp only
            split <;> exact ⟨rfl, rfl⟩
          refine ⟨?_, h1.nodup, h1.scene, ?_, ?_, ?_, ?_, h1.logged⟩
          · rw [(hb st1).1]; exact h1.len
          · rw [(hb st1).2]; exact h1.mapPend
          · rw [(hb st1).2]; exact h1.mapOrder
          · rw [(hb st1).2]; exact h1.mapNone
          · rw [(hb st1).1]; exact h1.bone

end


/-! ### All models -/

/-- The children of a model that are converted. -/
def keptChildren (sc : FScene F) (opt : FOptions F) (m : Nat) : List Nat :=
  (sc.model m).children.filter fun c => opt.wholeNode || !(sc.model c).limb

/-- The objects of a run: for each visited model its object and its shapes. -/
inductive Outs (facet : F) (sc : FScene F) (opt : FOptions F) [Add F] [Sub F] [Mul F] [Div F] [Zero F] [One F]
    [DecidableEq F] [FloatOps F] : Nat → List (Visit F) → List (Object F × List (Object F)) → Prop
  | nil (n : Nat) : Outs facet sc opt n [] []
  | cons (n : Nat) (v : Visit F) (vs : List (Visit F)) (obj : Object F) (shapes : List (Object F))
      (outs : List (Object F × List (Object F))) : OneOk facet sc opt v n obj shapes →
      Outs facet sc opt (n + 1 + shapes.length) vs outs → Outs facet sc opt n (v :: vs) ((obj, shapes) :: outs)

/-- The objects in order. -/
def flatOuts (outs : List (Object F × List (Object F))) : List (Object F) := outs.flatMap fun p => p.1 :: p.2

/-- The morph lists: one for each object with shapes. -/
def outMorphs (outs : List (Object F × List (Object F))) : List MorphTargetList :=
  outs.flatMap fun p => if p.2 = [] then [] else [⟨p.1.name, p.2.map fun o => ⟨o.name, 0⟩⟩]

/-- The deformers of a visited model. -/
def visitLog (sc : FScene F) (opt : FOptions F) (p : Visit F × (Object F × List (Object F))) :
    List (FDeformer F × Int) :=
  match (sc.model p.1.model).geometry with
  | some g => deformerLog opt g.deformers p.2.1.uid
  | none => []

/-- The deformers of a run. -/
def runLog (sc : FScene F) (opt : FOptions F) (vs : List (Visit F)) (outs : List (Object F × List (Object F))) :
    List (FDeformer F × Int) := (vs.zip outs).flatMap (visitLog sc opt)

section

variable [Add F] [Sub F] [Mul F] [Div F] [Zero F] [One F] [Neg F] [DecidableEq F] [FloatOps F]

/-- The models visited by `convertModel`. -/
def visits (sc : FScene F) (opt : FOptions F) (base : Nat) : Nat → Int → Mat4 F → Nat → Option (List (Visit F))
  | 0, _, _, _ => none
  | fuel + 1, d, parent, m =>
    match modelSetup sc opt base m d parent with
    | none => none
    | some (t, ids) =>
      ((keptChildren sc opt m).mapM (visits sc opt base fuel (d + 1) t)).map fun ls => ⟨m, d, t, ids⟩ :: ls.flatten

/-- From state `st` to `st'` by visiting the models `vs`. -/
structure Grow (facet : F) (sc : FScene F) (opt : FOptions F) (st st' : FState F) (vs : List (Visit F))
    (outs : List (Object F × List (Object F))) (order new : List Nat) (log : List (FDeformer F × Int)) : Prop where
  made : Outs facet sc opt st.objects.length vs outs
  objects : st'.objects = st.objects ++ flatOuts outs
  morphs : st'.morphs = st.morphs ++ outMorphs outs
  bones : BInv sc st' (order ++ new) [] (log ++ runLog sc opt vs outs)
  needed : Needed sc new (runLog sc opt vs outs)

omit [Neg F] in
theorem Outs.length {facet : F} {sc : FScene F} {opt : FOptions F} {n : Nat} {vs : List (Visit F)}
    {outs : List (Object F × List (Object F))} (h : Outs facet sc opt n vs outs) : vs.length = outs.length := by
  induction h with
  | nil => rfl
  | cons n v vs obj shapes outs _ _ ih => simp [ih]

omit [Neg F] in
theorem Outs.append {facet : F} {sc : FScene F} {opt : FOptions F} {n : Nat} {vs vs2 : List (Visit F)}
    {outs outs2 : List (Object F × List (Object F))} (h : Outs facet sc opt n vs outs)
    (h2 : Outs facet sc opt (n + (flatOuts outs).length) vs2 outs2) :
    Outs facet sc opt n (vs ++ vs2) (outs ++ outs2) := by
  induction h with
  | nil n => simpa [flatOuts] using h2
  | cons n v vs obj shapes outs h0 _ ih =>
    refine .cons n v _ obj shapes _ h0 (ih ?_)
    have e : n + (flatOuts ((obj, shapes) :: outs)).length = n + 1 + shapes.length + (flatOuts outs).length := by
      simp [flatOuts]
      omega
    rw [← e]
    exact h2

omit [Neg F] in
theorem Grow.refl (facet : F) (sc : FScene F) (opt : FOptions F) (st : FState F) (order : List Nat)
    (log : List (FDeformer F × Int)) (h : BInv sc st order [] log) : Grow facet sc opt st st [] [] order [] log :=
  ⟨.nil _, by simp [flatOuts], by simp [outMorphs], by simpa [runLog] using h, by simp [Needed]⟩

omit [Neg F] in
theorem Grow.trans {facet : F} {sc : FScene F} {opt : FOptions F} {st st1 st2 : FState F} {vs vs2 : List (Visit F)}
    {outs outs2 : List (Object F × List (Object F))} {order new new2 : List Nat} {log : List (FDeformer F × Int)}
    (h : Grow facet sc opt st st1 vs outs order new log)
    (h2 : Grow facet sc opt st1 st2 vs2 outs2 (order ++ new) new2 (log ++ runLog sc opt vs outs)) :
    Grow facet sc opt st st2 (vs ++ vs2) (outs ++ outs2) order (new ++ new2) log := by
  have hlog : runLog sc opt (vs ++ vs2) (outs ++ outs2) = runLog sc opt vs outs ++ runLog sc opt vs2 outs2 := by
    unfold runLog
    rw [List.zip_append h.made.length, List.flatMap_append]
  refine ⟨h.made.append ?_, ?_, ?_, ?_, ?_⟩
  · have := h2.made
    rw [h.objects, List.length_append] at this
    exact this
  · rw [h2.objects, h.objects]
    simp [flatOuts]
  · rw [h2.morphs, h.morphs]
    simp [outMorphs]
  · rw [hlog, ← List.append_assoc, ← List.append_assoc]
    exact h2.bones
  · rw [hlog]
    intro a ha
    rcases List.mem_append.1 ha with ha | ha
    · obtain ⟨e, he, hr⟩ := h.needed a ha
      exact ⟨e, List.mem_append_left _ he, hr⟩
    · obtain ⟨e, he, hr⟩ := h2.needed a ha
      exact ⟨e, List.mem_append_right _ he, hr⟩

omit [Neg F] in
/-- Visiting the models of a list one after the other. -/
theorem foldlM_grow (facet : F) (sc : FScene F) (opt : FOptions F) (f : FState F → Nat → Option (FState F))
    (vis : Nat → Option (List (Visit F)))
    (hf : ∀ st st' m order log, BInv sc st order [] log → f st m = some st' → ∃ vs outs new, vis m = some vs ∧
      Grow facet sc opt st st' vs outs order new log) :
    ∀ (ms : List Nat) (st st' : FState F) (order : List Nat) (log : List (FDeformer F × Int)),
      BInv sc st order [] log → ms.foldlM f st = some st' →
      ∃ ls outs new, ms.mapM vis = some ls ∧ Grow facet sc opt st st' ls.flatten outs order new log := by
  intro ms
  induction ms with
  | nil =>
    intro st st' order log hinv h
    simp only [List.foldlM_nil, Option.pure_def, Option.some.injEq] at h
    subst h
    exact ⟨[], [], [], rfl, Grow.refl facet sc opt st order log hinv⟩
  | cons m ms ih =>
    intro st st' order log hinv h
    rw [List.foldlM_cons, Option.bind_eq_bind, Option.bind_eq_some_iff] at h
    obtain ⟨st1, h1, h2⟩ := h
    obtain ⟨vs, outs, new, k1, k2⟩ := hf st st1 m order log hinv h1
    obtain ⟨ls, outs2, new2, k3, k4⟩ := ih st1 st' _ _ k2.bones h2
    refine ⟨vs :: ls, outs ++ outs2, new ++ new2, ?_, ?_⟩
    · rw [List.mapM_cons, k1, k3]
      rfl
    · rw [List.flatten_cons]
      exact k2.trans k4

theorem convertModel_spec (facet : F) (sc : FScene F) (opt : FOptions F) (base : Nat) : ∀ (fuel : Nat) (d : Int)
    (parent : Mat4 F) (st st' : FState F) (m : Nat) (order : List Nat) (log : List (FDeformer F × Int)),
    BInv sc st order [] log → convertModel facet sc opt base fuel d parent st m = some st' →
    ∃ vs outs new, visits sc opt base fuel d parent m = some vs ∧ Grow facet sc opt st st' vs outs order new log := by
  intro fuel
  induction fuel with
  | zero => intro d parent st st' m order log _ h; simp [convertModel] at h
  | succ fuel ih =>
    intro d parent st st' m order log hinv h
    unfold convertModel at h
    split at h
    · simp at h
    · rename_i t st1 hone
      obtain ⟨ids, obj, shapes, new, h1, h2, h3, h4, h5⟩ :=
        convertOne_spec facet sc opt base m d parent t st st1 order log hinv hone
      have hu : obj.uid = (st.objects.length : Int) + 1 := by
        cases hg : (sc.model m).geometry with
        | none => rw [(h2.empty hg).2]
        | some g =>
          obtain ⟨faces, _, e, _⟩ := h2.mesh g hg
          rw [e]
      have hlog : runLog sc opt [⟨m, d, t, ids⟩] [(obj, shapes)] = (match (sc.model m).geometry with
          | some g => deformerLog opt g.deformers ((st.objects.length : Int) + 1)
          | none => []) := by
        simp only [runLog, List.zip_cons_cons, List.zip_nil_right, List.flatMap_cons, List.flatMap_nil,
          List.append_nil, visitLog, hu]
      obtain ⟨h6, h7⟩ := h5 _ hlog
      have hg1 : Grow facet sc opt st st1 [⟨m, d, t, ids⟩] [(obj, shapes)] order new log :=
        ⟨.cons _ _ _ _ _ _ h2 (.nil _), by rw [h3]; simp [flatOuts], by rw [h4]; simp [outMorphs], h6, h7⟩
      obtain ⟨ls, outs, new2, k1, k2⟩ := foldlM_grow facet sc opt _ (visits sc opt base fuel (d + 1) t)
        (fun st st' m order log => ih (d + 1) t st st' m order log) _ st1 st' _ _ hg1.bones h
      refine ⟨_, _, _, ?_, hg1.trans k2⟩
      simp only [visits, h1]
      unfold keptChildren
      rw [k1]
      rfl

end

end Verif.Conv
