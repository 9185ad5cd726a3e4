import Verif.Conv.UnityBodyProps
import Verif.Conv.FbxUnityProps

/-! Property C146 of the Unity converter: the bones of imported meshes, as far as they are kept. -/

namespace Verif.Conv

open Verif.Geom
open Verif.Mqo (Str Object Face Bone MorphTargetList Material PhysicsShape PhysicsBody)

local instance ratOpsUnity4 : FloatOps ℚ := ⟨id, fun a b => decide (a < b), fun a b => decide (a ≤ b)⟩

variable {F : Type}

/-- No mesh of the file is bound to a model. -/
def NoSkin (fb : UFbx F) : Prop :=
  ∀ x g, (fb.scene.model x).geometry = some g → ∀ d ∈ g.deformers, d.channel = true ∨ d.target = none

/-- The game object has no mesh of an FBX file, or it asks for one model of the file by name, or nothing in the file is bound
to bones. -/
def BoneFree (sc : UScene F) (x : UObject F) : Prop :=
  ∀ rf rend fb, x.mesh = some (rf, rend) → sc.fbx rf.guid = some fb → fb.recycleName rf.fileID ≠ [] ∨ NoSkin fb

section

variable [Field F] [DecidableEq F] [FloatOps F]

/-- Files without skins give no bones. -/
theorem noSkin_bones (facet : F) (fb : UFbx F) (rf : URef) (d : Int) (mats : List Nat) (t : Mat4 F) (fuel base : Nat)
    (objects : List (Object F)) (morphs : List MorphTargetList) (res : FResult F)
    (hroot : (fb.scene.model fb.scene.scene).parent = none)
    (hs : fb.recycleName rf.fileID ≠ [] ∨ NoSkin fb)
    (h : fbxConvert facet fb.scene (fbxOptions fb rf d mats t) fuel base objects morphs = some res) : res.setBones = none := by
  by_cases hn : fb.recycleName rf.fileID = []
  · have hs := hs.resolve_left (fun e => e hn)
    obtain ⟨order, hb⟩ := bones_spec facet fb.scene _ fuel base objects morphs res (by exact hn) hroot h
    have he : order = [] := by
      rw [List.eq_nil_iff_forall_not_mem]
      intro a ha
      obtain ⟨_, dd, m, ⟨_, x, g, _, hg, hd, hc, ht⟩, _⟩ := (hb.mem a).1 ha
      rcases hs x g hg dd hd with e | e
      · rw [e] at hc; cases hc
      · rw [e] at ht; cases ht
    have hl := hb.length
    rw [he] at hl
    have hne := bones_nonempty facet fb.scene _ fuel base objects morphs res h
    cases hr : res.setBones with
    | none => rfl
    | some b =>
      rw [hr] at hl hne
      simp only [Option.getD_some, List.length_nil, List.length_eq_zero_iff] at hl
      rw [hl] at hne
      exact absurd rfl hne
  · exact target_no_bones_false facet fb.scene _ fuel base objects morphs res hn h

/-- An object apart from what is set after the import. -/
def bare (o : Object F) : Int × List (Vec3 F) := (o.uid, o.vertexes)

omit [DecidableEq F] [FloatOps F] in
theorem finishFrom_bare (vis : Bool) (n : Nat) (st : UState F) :
    (finishFrom vis n st).objects.map bare = st.objects.map bare ∧ (finishFrom vis n st).bones = st.bones := by
  refine ⟨?_, rfl⟩
  unfold finishFrom
  simp only [List.map_append, List.map_map]
  conv_rhs => rw [← List.take_append_drop n st.objects, List.map_append]
  rfl

omit [Field F] [DecidableEq F] [FloatOps F] in
theorem modify_bare (l : List (Object F)) (n : Nat) (f : Object F → Object F) (hf : ∀ o, bare (f o) = bare o) :
    (l.modify n f).map bare = l.map bare := by
  induction l generalizing n with
  | nil => cases n <;> rfl
  | cons a l ih =>
    cases n with
    | zero => simp [hf]
    | succ n => simp [ih]

omit [Field F] [DecidableEq F] [FloatOps F] in
theorem markShared_bare (r : URef) (t : Mat4 F) (n : Nat) (st : UState F) :
    (markShared r t n st).objects.map bare = st.objects.map bare ∧ (markShared r t n st).bones = st.bones := by
  unfold markShared
  split
  · exact ⟨modify_bare _ _ _ (fun _ => rfl), rfl⟩
  · exact ⟨rfl, rfl⟩

omit [DecidableEq F] in
theorem addMaterials_bones (M : UMath F) (sc : UScene F) (opt : UOptions F) (gs : List Str) (st : UState F) :
    (addMaterials M sc opt gs st).2.bones = st.bones := by
  obtain ⟨a, b, c, e⟩ := addMaterials_rest M sc opt gs st
  rw [e]

omit [Field F] [DecidableEq F] [FloatOps F] in
theorem addLight_bare (x : UObject F) (t : Mat4 F) (i : Nat) (st : UState F) :
    (addLight x t i st).objects.map bare = st.objects.map bare ∧ (addLight x t i st).bones = st.bones := by
  unfold addLight
  split
  · exact ⟨rfl, rfl⟩
  · exact ⟨modify_bare _ _ _ (fun _ => rfl), rfl⟩

omit [DecidableEq F] [FloatOps F] in
theorem addBody_bare (M : UMath F) (opt : UOptions F) (x : UObject F) (t : Mat4 F) (n : Str) (u : Int) (st : UState F) :
    (addBody M opt x t n u st).objects = st.objects ∧ (addBody M opt x t n u st).bones = st.bones := by
  unfold addBody
  simp only
  split <;> exact ⟨rfl, rfl⟩

omit [Field F] [DecidableEq F] [FloatOps F] in
theorem mesh_eq (x : UObject F) (rf : URef) (rend : URenderer) :
    x.mesh = some (rf, rend) ↔ x.meshFilter = some (some rf) ∧ x.meshRenderer = some rend ∧ rf.fileID ≠ 0 := by
  unfold UObject.mesh
  rcases x.meshFilter with _ | _ | r' <;> rcases x.meshRenderer with _ | rend' <;> simp
  · constructor
    · rintro ⟨h0, rfl, rfl⟩; exact ⟨rfl, rfl, h0⟩
    · rintro ⟨rfl, rfl, h0⟩; exact ⟨h0, rfl, rfl⟩

/-- The bones after one game object. -/
theorem unityOne_bones (M : UMath F) (sc : UScene F) (opt : UOptions F) (ffuel : Nat) (x : UObject F) (d : Int)
    (parent : Mat4 F) (active : Bool) (st st' : UState F)
    (h : unityOne M sc opt ffuel x d parent active st = some st') :
    (st'.bones = st.bones ∧ ∀ tr rf rend fb, x.transform = some tr → x.mesh = some (rf, rend) → builtinName rf = [] →
      sc.fbx rf.guid = some fb → False) ∨
    ∃ tr rf rend fb mats base objects morphs res, x.transform = some tr ∧ x.mesh = some (rf, rend) ∧ builtinName rf = [] ∧
      sc.fbx rf.guid = some fb ∧
      fbxConvert M.facet fb.scene (fbxOptions fb rf d mats (parent.mul tr.matrix)) ffuel base objects morphs = some res ∧
      (∀ b, res.setBones = some b → st'.bones = some b) ∧ (res.setBones = none → st'.bones = st.bones) ∧
      st'.objects.map bare = res.objects.map bare := by
  unfold unityOne at h
  simp only at h
  cases htr : x.transform with
  | none =>
    rw [htr] at h
    simp only [Option.some.injEq] at h
    subst h
    exact Or.inl ⟨rfl, fun _ _ _ _ e => by cases e⟩
  | some tr =>
    rw [htr] at h
    simp only at h
    have hdep : (unityObject M opt x d active st.objects.length).depth = d := by
      unfold unityObject
      rw [htr]
    generalize ho : unityObject M opt x d active st.objects.length = o at h hdep
    unfold addComponents at h
    cases hm : addMesh M sc opt ffuel x (parent.mul tr.matrix) active st.objects.length o
        { st with objects := st.objects ++ [o] } with
    | none => rw [hm] at h; cases h
    | some st1 =>
      rw [hm] at h
      simp only [Option.some.injEq] at h
      have hfin : st'.objects.map bare = st1.objects.map bare ∧ st'.bones = st1.bones := by
        rw [← h]
        have hl := addLight_bare x (parent.mul tr.matrix) st.objects.length st1
        split
        · rw [(addBody_bare _ _ _ _ _ _ _).1, (addBody_bare _ _ _ _ _ _ _).2]
          exact hl
        · exact hl
      unfold addMesh at hm
      split at hm
      · rename_i rf rend h1 h2
        by_cases h0 : rf.fileID = 0
        · rw [if_pos h0] at hm
          simp only [Option.some.injEq] at hm
          left
          refine ⟨by rw [hfin.2, ← hm], ?_⟩
          intro _ rf' rend' _ _ he
          obtain ⟨e1, _, e3⟩ := (mesh_eq x rf' rend').1 he
          rw [h1] at e1
          simp only [Option.some.injEq] at e1
          exact absurd (e1 ▸ h0) e3
        · have hmesh : x.mesh = some (rf, rend) := (mesh_eq x rf rend).2 ⟨h1, h2, h0⟩
          rw [if_neg h0] at hm
          simp only at hm
          by_cases hb : builtinName rf = []
          · rw [if_neg (by simpa using hb)] at hm
            unfold addFbx at hm
            cases hf : sc.fbx rf.guid with
            | none =>
              rw [hf] at hm
              simp only [Option.some.injEq] at hm
              left
              refine ⟨by rw [hfin.2, ← hm, addMaterials_bones], ?_⟩
              intro _ rf' rend' fb _ he _ hfb
              rw [hmesh] at he
              simp only [Option.some.injEq, Prod.mk.injEq] at he
              rw [← he.1, hf] at hfb
              cases hfb
            | some fb =>
              rw [hf] at hm
              simp only at hm
              split at hm
              · cases hm
              · rename_i res hres
                simp only [Option.some.injEq] at hm
                right
                rw [hdep] at hres
                refine ⟨tr, rf, rend, fb, _, _, _, _, res, rfl, hmesh, hb, hf, hres, ?_, ?_, ?_⟩
                · intro b hbb
                  rw [hfin.2, ← hm, (finishFrom_bare _ _ _).2, (markShared_bare _ _ _ _).2]
                  simp [hbb]
                · intro hbb
                  rw [hfin.2, ← hm, (finishFrom_bare _ _ _).2, (markShared_bare _ _ _ _).2]
                  simp [hbb, addMaterials_bones]
                · rw [hfin.1, ← hm, (finishFrom_bare _ _ _).1, (markShared_bare _ _ _ _).1]
          · rw [if_pos hb] at hm
            simp only [Option.some.injEq] at hm
            left
            constructor
            · rw [hfin.2, ← hm]
              unfold addBuiltin
              split <;> exact addMaterials_bones _ _ _ _ _
            · intro _ rf' rend' fb _ he hbb _
              rw [hmesh] at he
              simp only [Option.some.injEq, Prod.mk.injEq] at he
              exact hb (he.1 ▸ hbb)
      · rename_i hno
        simp only [Option.some.injEq] at hm
        left
        refine ⟨by rw [hfin.2, ← hm], ?_⟩
        intro _ rf' rend' _ _ he
        obtain ⟨e1, e2, _⟩ := (mesh_eq x rf' rend').1 he
        exact absurd e2 (hno rf' rend' e1)

variable {M : UMath F} {sc : UScene F} {opt : UOptions F} {ffuel : Nat}

theorem steps_bones (hroot : ∀ g fb, sc.fbx g = some fb → (fb.scene.model fb.scene.scene).parent = none) :
    ∀ (ps : List (List Nat)) (st st' : UState F), ps.foldlM (unityStep M sc opt ffuel) st = some st' →
      (∀ q ∈ ps, BoneFree sc (sc.object (q.getLastD 0))) → st'.bones = st.bones := by
  intro ps
  induction ps with
  | nil =>
    intro st st' h _
    have : st = st' := by simpa using h
    rw [this]
  | cons p ps ih =>
    intro st st' h hq
    rw [List.foldlM_cons] at h
    cases hs : unityStep M sc opt ffuel st p with
    | none => rw [hs] at h; simp at h
    | some st1 =>
      rw [hs] at h
      rw [ih st1 st' h fun q hqm => hq q (List.mem_cons_of_mem _ hqm)]
      rcases unityOne_bones M sc opt ffuel _ _ _ _ _ _ hs with e | ⟨tr, rf, rend, fb, mats, base, os, ms, res, _, h2, _, h4, h5, _, h7, _⟩
      · exact e.1
      · exact h7 (noSkin_bones M.facet fb rf _ mats _ ffuel base os ms res (hroot _ _ h4)
          (hq p (by simp) rf rend fb h2 h4) h5)

theorem steps_objects : ∀ (ps : List (List Nat)) (st st' : UState F), MatInv M sc opt st →
    ps.foldlM (unityStep M sc opt ffuel) st = some st' → st.objects <+: st'.objects ∧ MatInv M sc opt st' := by
  intro ps
  induction ps with
  | nil =>
    intro st st' hi h
    have : st = st' := by simpa using h
    rw [← this]
    exact ⟨List.prefix_refl _, hi⟩
  | cons p ps ih =>
    intro st st' hi h
    rw [List.foldlM_cons] at h
    cases hs : unityStep M sc opt ffuel st p with
    | none => rw [hs] at h; simp at h
    | some st1 =>
      rw [hs] at h
      obtain ⟨own, imp, hok⟩ := unityOne_spec M sc opt ffuel _ _ _ _ _ _ hi hs
      obtain ⟨h1, h2⟩ := ih st1 st' hok.inv h
      exact ⟨(by rw [hok.objects]; exact List.prefix_append _ _ : st.objects <+: st1.objects).trans h1, h2⟩

/-- C146, for one mesh with bones. If all other game objects are without bones, the document has exactly the bones and
weights that the FBX converter makes of the file of this one, placed where the game object stands, and the objects that
converter makes or is given keep their ids and vertices, so the weights still mean the same vertices. -/
theorem unity_bones_partial (M : UMath F) (sc : UScene F) (opt : UOptions F) (ffuel fuel : Nat) (r : UState F)
    (h : unityConvert M sc opt ffuel fuel = some r)
    (hroot : ∀ g fb, sc.fbx g = some fb → (fb.scene.model fb.scene.scene).parent = none)
    (hr : sc.roots.Nodup) (hnd : ∀ k tr, (sc.object k).transform = some tr → (tr.children.filterMap id).Nodup)
    (p : List Nat) (hp : IsPath sc p) (ho : ∀ q, IsPath sc q → q ≠ p → BoneFree sc (sc.object (q.getLastD 0)))
    (tr : UTransform F) (htr : (sc.object (p.getLastD 0)).transform = some tr) (rf : URef) (rend : URenderer)
    (hm : (sc.object (p.getLastD 0)).mesh = some (rf, rend)) (hb : ∀ n, (rf, n) ∉ builtinTable)
    (fb : UFbx F) (hf : sc.fbx rf.guid = some fb) :
    ∃ t mats base objects morphs res,
      (∀ v, t.applyTo v = mirror ((worldPoint sc p (mirror v)).scale opt.convertScale)) ∧
      fbxConvert M.facet fb.scene (fbxOptions fb rf ((p.length : Int) - 1) mats t) ffuel base objects morphs = some res ∧
      r.bones = res.setBones ∧
      res.objects.map (fun o => (o.uid, o.vertexes)) <+: r.objects.map fun o => (o.uid, o.vertexes) := by
  obtain ⟨ls, st, h1, h2, h3⟩ := unityConvert_run M sc opt ffuel fuel r h
  have hf2 := mapM_mem _ _ _ h1
  obtain ⟨zs, ls', st2, hd⟩ := unity_done M sc opt ffuel fuel r h
  have hls : ls' = ls := by
    have := hd.paths
    clear hd h2 h1
    revert this hf2
    generalize sc.roots = rs
    intro hf2 this
    induction hf2 generalizing ls' with
    | nil => cases this; rfl
    | cons e _ ih =>
      cases this with
      | cons e' t =>
        rw [e, Option.some.injEq] at e'
        rw [← e', ih _ t]
  have hnodup : ls.flatten.Nodup := by
    have h4 := ((UDone.tree hd).order hr hnd).1
    rw [filterMap_tagged, hd.ways, hls] at h4
    exact h4
  have hmem : p ∈ ls.flatten := (ways_iff hf2 p).2 hp
  obtain ⟨A, B, e⟩ := List.append_of_mem hmem
  rw [e] at h2 hnodup
  rw [foldlM_append'] at h2
  obtain ⟨sa, ha, h2⟩ := Option.bind_eq_some_iff.1 h2
  rw [List.foldlM_cons] at h2
  obtain ⟨sb, hs, h2⟩ := Option.bind_eq_some_iff.1 h2
  have hother : ∀ q, q ∈ A ∨ q ∈ B → q ≠ p ∧ IsPath sc q := by
    intro q hq
    constructor
    · rintro rfl
      rw [List.nodup_append] at hnodup
      rcases hq with hq | hq
      · exact hnodup.2.2 q hq q (by simp) rfl
      · exact (List.nodup_cons.1 hnodup.2.1).1 hq
    · apply (ways_iff hf2 q).1
      rw [e]
      rcases hq with hq | hq
      · exact List.mem_append_left _ hq
      · exact List.mem_append_right _ (List.mem_cons_of_mem _ hq)
  have hA : sa.bones = none := by
    rw [steps_bones hroot A _ _ ha fun q hq => ho q (hother q (Or.inl hq)).2 (hother q (Or.inl hq)).1]
    rfl
  have hB := steps_bones hroot B _ _ h2 fun q hq => ho q (hother q (Or.inr hq)).2 (hother q (Or.inr hq)).1
  obtain ⟨_, iA⟩ := steps_objects A _ _ (start_inv M sc opt) ha
  obtain ⟨own, imp, hok⟩ := unityOne_spec M sc opt ffuel _ _ _ _ _ _ iA hs
  obtain ⟨oB, _⟩ := steps_objects B _ _ hok.inv h2
  have hbn : builtinName rf = [] := by
    by_contra hc
    exact hb _ ((builtinName_mem rf).1 hc)
  rcases unityOne_bones M sc opt ffuel _ _ _ _ _ _ hs with c | ⟨tr', rf', rend', fb', mats, base, os, ms, res, k1, k2, _, k4, k5, k6, k7, k8⟩
  · exact (c.2 tr rf rend fb htr hm hbn hf).elim
  · rw [htr, Option.some.injEq] at k1
    rw [hm, Option.some.injEq, Prod.mk.injEq] at k2
    obtain ⟨e1, e2⟩ := k2
    subst k1 e1 e2
    rw [hf, Option.some.injEq] at k4
    subst k4
    have hbr : r.bones = st.bones := by
      rw [h3]
      unfold withDummy
      split <;> rfl
    refine ⟨_, mats, base, os, ms, res, ?_, k5, ?_, ?_⟩
    · intro v
      have hpm : (pathMatrix sc opt.convertScale p.dropLast).mul tr.matrix = pathMatrix sc opt.convertScale p := by
        conv_rhs => rw [← List.dropLast_append_getLast (isPath_ne hp)]
        have hl : p.getLastD 0 = p.getLast (isPath_ne hp) := by rw [List.getLastD_eq_getLast?, List.getLast?_eq_getLast_of_ne_nil (isPath_ne hp)]; rfl
        rw [hl] at htr
        simp [pathMatrix, htr]
      rw [hpm]
      exact pathMatrix_point sc _ p v
    · rw [hbr, hB]
      cases hres : res.setBones with
      | none => rw [k7 hres, hA]
      | some b => exact k6 b hres
    · have : r.objects = st.objects := by rw [h3, (withDummy_rest st).1]
      rw [this]
      obtain ⟨T, hT⟩ := oB
      rw [← hT, List.map_append]
      change res.objects.map bare <+: _
      rw [← k8]
      exact List.prefix_append _ _

end

/-- The tree of the sample is the only game object with bones: the door asks for one model of the same file. -/
example : IsPath sampleUnity [5] ∧
    (∀ q, IsPath sampleUnity q → q ≠ [5] → BoneFree sampleUnity (sampleUnity.object (q.getLastD 0))) ∧
    (∀ g fb, sampleUnity.fbx g = some fb → (fb.scene.model fb.scene.scene).parent = none) ∧
    (sampleUnity.object 5).mesh = some (⟨4300002, "ff".toList, 3⟩, ⟨true, []⟩) ∧
    sampleUnityResult.map (fun r => (r.bones.getD []).map fun b => (b.name, b.weights.map fun w => w.objectID)) =
      some [("Hips::Model".toList, []), ("Spine::Model".toList, [10])] := by
  have hk : ∀ k, k ∈ [0, 1, 2, 3, 4] → BoneFree sampleUnity (sampleUnity.object k) := by
    intro k hk rf rend fb hm hf
    simp only [List.mem_cons, List.not_mem_nil, or_false] at hk
    rcases hk with rfl | rfl | rfl | rfl | rfl
    all_goals obtain ⟨e1, _, _⟩ := (mesh_eq _ _ _).1 hm
    · have e : (sampleUnity.object 0).meshFilter = none := rfl
      rw [e] at e1
      cases e1
    · have e : (sampleUnity.object 1).meshFilter = some (some ⟨10202, builtinGUID, 0⟩) := rfl
      rw [e, Option.some.injEq, Option.some.injEq] at e1
      subst e1
      have e : sampleUnity.fbx builtinGUID = none := by
        simp only [sampleUnity]
        exact if_neg (by decide)
      rw [e] at hf
      cases hf
    · have e : (sampleUnity.object 2).meshFilter = some (some ⟨10206, builtinGUID, 0⟩) := rfl
      rw [e, Option.some.injEq, Option.some.injEq] at e1
      subst e1
      have e : sampleUnity.fbx builtinGUID = none := by
        simp only [sampleUnity]
        exact if_neg (by decide)
      rw [e] at hf
      cases hf
    · have e : (sampleUnity.object 3).meshFilter = some (some ⟨4300000, "ff".toList, 3⟩) := rfl
      rw [e, Option.some.injEq, Option.some.injEq] at e1
      subst e1
      have e : sampleUnity.fbx "ff".toList = some ⟨skinScene, [dummyUnity, dummyUnity], 100,
          fun k => if k = 4300000 then "Box".toList else []⟩ := rfl
      rw [e, Option.some.injEq] at hf
      subst hf
      left
      decide
    · have e : (sampleUnity.object 4).meshFilter = none := rfl
      rw [e] at e1
      cases e1
  refine ⟨.root 5 (by decide), ?_, ?_, rfl, by decide +kernel⟩
  · intro q hq hne
    cases hq with
    | root k hr =>
      have : k ∈ [0, 5] := hr
      simp only [List.mem_cons, List.not_mem_nil, or_false] at this
      rcases this with rfl | rfl
      · exact hk 0 (by simp)
      · exact absurd rfl hne
    | child p k tr hp ht hc =>
      have : k ∈ [1, 2, 3, 4] := by
        generalize p.getLastD 0 = m at ht
        simp only [sampleUnity] at ht
        repeat' split at ht
        all_goals
          simp only [sampleBare, Option.some.injEq] at ht
          subst ht
          first
            | (simp at hc; done)
            | simpa using hc
      rw [show (p ++ [k]).getLastD 0 = k by simp]
      exact hk k (List.mem_cons_of_mem _ this)
  · intro g fb hf
    simp only [sampleUnity] at hf
    split at hf
    · simp only [Option.some.injEq] at hf
      subst hf
      rfl
    · cases hf

end Verif.Conv
