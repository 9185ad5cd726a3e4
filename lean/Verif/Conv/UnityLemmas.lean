import Verif.Conv.UnityToMqo
import Verif.Conv.FbxUnityProps

/-! Lemmas on the model of the Unity converter: the run over the game objects and what each step does. -/

namespace Verif.Conv

open Verif.Geom
open Verif.Mqo (Str Object Face Bone MorphTargetList Material PhysicsShape PhysicsBody)
open Verif.Unity (Trig Mesh builtinMesh)

variable {F : Type}

/-! ### Paths -/

/-- All game objects on the way down are active. -/
def pathActive (sc : UScene F) (p : List Nat) : Bool := p.all fun k => (sc.object k).active

/-- The product of the matrices on the way down, behind the scale of the document. -/
def pathMatrix [Field F] (sc : UScene F) (s : F) (p : List Nat) : Mat4 F :=
  p.foldl (fun m k =>
    match (sc.object k).transform with
    | some tr => m.mul tr.matrix
    | none => m) (Mat4.scaling s s s)

/-- The ways from `pre` down to the game objects at or below `k`, in the order of the conversion. -/
def unityPaths (sc : UScene F) : Nat → List Nat → Nat → Option (List (List Nat))
  | 0, _, _ => none
  | fuel + 1, pre, k =>
    match (sc.object k).transform with
    | none => some [pre ++ [k]]
    | some tr => ((tr.children.filterMap id).mapM (unityPaths sc fuel (pre ++ [k]))).map fun ls => (pre ++ [k]) :: ls.flatten

/-- The conversion of the last game object of a way. -/
def unityStep [Field F] [DecidableEq F] [FloatOps F] (M : UMath F) (sc : UScene F) (opt : UOptions F) (ffuel : Nat)
    (st : UState F) (p : List Nat) : Option (UState F) :=
  unityOne M sc opt ffuel (sc.object (p.getLastD 0)) ((p.length : Int) - 1)
    (pathMatrix sc opt.convertScale p.dropLast) (pathActive sc p) st

theorem foldlM_append' {α β : Type} (f : β → α → Option β) (l l' : List α) (b : β) :
    (l ++ l').foldlM f b = (l.foldlM f b).bind fun b => l'.foldlM f b := by
  rw [List.foldlM_append]
  rfl

theorem foldlM_flatten {α β γ : Type} (f : γ → α → Option γ) (g : γ → β → Option γ) (v : α → Option (List β))
    (h : ∀ a st st', f st a = some st' → ∃ l, v a = some l ∧ l.foldlM g st = some st') :
    ∀ (as : List α) (st st' : γ), as.foldlM f st = some st' →
      ∃ ls, as.mapM v = some ls ∧ ls.flatten.foldlM g st = some st' := by
  intro as
  induction as with
  | nil =>
    intro st st' hs
    exact ⟨[], by simp, by simpa using hs⟩
  | cons a as ih =>
    intro st st' hs
    rw [List.foldlM_cons] at hs
    cases hf : f st a with
    | none => rw [hf] at hs; simp at hs
    | some st1 =>
      rw [hf] at hs
      obtain ⟨l, h1, h2⟩ := h a st st1 hf
      obtain ⟨ls, h3, h4⟩ := ih st1 st' hs
      refine ⟨l :: ls, by simp [h1, h3], ?_⟩
      rw [List.flatten_cons, foldlM_append', h2]
      exact h4

section

variable [Field F] [DecidableEq F] [FloatOps F]

/-- The conversion is a run over the ways. -/
theorem convertObject_run (M : UMath F) (sc : UScene F) (opt : UOptions F) (ffuel : Nat) : ∀ (fuel : Nat) (pre : List Nat)
    (k : Nat) (st st' : UState F),
    convertGameObject M sc opt ffuel fuel pre.length (pathMatrix sc opt.convertScale pre) (pathActive sc pre) st k = some st' →
    ∃ ps, unityPaths sc fuel pre k = some ps ∧ ps.foldlM (unityStep M sc opt ffuel) st = some st' := by
  intro fuel
  induction fuel with
  | zero => intro pre k st st' h; simp [convertGameObject] at h
  | succ fuel ih =>
    intro pre k st st' h
    simp only [convertGameObject] at h
    have hstep : ∀ st, unityStep M sc opt ffuel st (pre ++ [k]) =
        unityOne M sc opt ffuel (sc.object k) pre.length (pathMatrix sc opt.convertScale pre)
          (pathActive sc pre && (sc.object k).active) st := by
      intro st
      simp [unityStep, pathActive]
    cases hone : unityOne M sc opt ffuel (sc.object k) pre.length (pathMatrix sc opt.convertScale pre)
        (pathActive sc pre && (sc.object k).active) st with
    | none => rw [hone] at h; simp at h
    | some st1 =>
      rw [hone] at h
      simp only at h
      cases htr : (sc.object k).transform with
      | none =>
        rw [htr] at h
        simp only [Option.some.injEq] at h
        subst h
        refine ⟨[pre ++ [k]], by simp [unityPaths, htr], ?_⟩
        rw [List.foldlM_cons, hstep, hone]
        rfl
      | some tr =>
        rw [htr] at h
        simp only at h
        have e1 : (((pre ++ [k] : List Nat)).length : Int) = (pre.length : Int) + 1 := by simp
        have e2 : pathMatrix sc opt.convertScale (pre ++ [k]) = (pathMatrix sc opt.convertScale pre).mul tr.matrix := by
          simp [pathMatrix, htr]
        have e3 : pathActive sc (pre ++ [k]) = (pathActive sc pre && (sc.object k).active) := by
          simp [pathActive]
        rw [← e1, ← e2, ← e3] at h
        obtain ⟨ls, h1, h2⟩ := foldlM_flatten _ (unityStep M sc opt ffuel) (unityPaths sc fuel (pre ++ [k]))
          (fun a st st' => ih (pre ++ [k]) a st st') _ _ _ h
        refine ⟨(pre ++ [k]) :: ls.flatten, by simp only [unityPaths, htr, h1, Option.map_some], ?_⟩
        rw [List.foldlM_cons, hstep, hone]
        exact h2

theorem unityConvert_run (M : UMath F) (sc : UScene F) (opt : UOptions F) (ffuel fuel : Nat) (r : UState F)
    (h : unityConvert M sc opt ffuel fuel = some r) :
    ∃ ls st, sc.roots.mapM (unityPaths sc fuel []) = some ls ∧
      ls.flatten.foldlM (unityStep M sc opt ffuel) UState.start = some st ∧ r = withDummy st := by
  unfold unityConvert at h
  simp only [Option.map_eq_some_iff] at h
  obtain ⟨st, h1, rfl⟩ := h
  obtain ⟨ls, h2, h3⟩ := foldlM_flatten _ (unityStep M sc opt ffuel) (unityPaths sc fuel [])
    (fun a st st' hs => convertObject_run M sc opt ffuel fuel [] a st st' (by simpa [pathMatrix, pathActive] using hs)) _ _ _ h1
  exact ⟨ls, st, h2, h3, rfl⟩

/-! ### Imported objects -/

/-- The objects the FBX converter appends: depth, ids and whether they are shapes. -/
theorem fbx_new_objects (facet : F) (sc : FScene F) (opt : FOptions F) (fuel base : Nat) (objects : List (Object F))
    (morphs : List MorphTargetList) (r : FResult F) (h : fbxConvert facet sc opt fuel base objects morphs = some r) :
    ∃ new, r.objects = objects ++ new ∧ (∀ o ∈ new, opt.objectDepth ≤ o.depth) ∧
      ∀ (i : Nat) (o : Object F), new[i]? = some o → o.uid = (objects.length : Int) + i + 1 := by
  have hinv : BInv sc (⟨objects, morphs, [], fun _ => none⟩ : FState F) [] [] [] :=
    ⟨rfl, List.nodup_nil, by simp, by simp, by simp, by simp, by simp, by simp⟩
  have key : ∀ (vs : List (Visit F)) (outs : List (Object F × List (Object F))),
      (∀ v ∈ vs, opt.objectDepth ≤ v.depth) → Outs facet sc opt objects.length vs outs →
      ∀ o ∈ flatOuts outs, opt.objectDepth ≤ o.depth := by
    intro vs outs hd hm o ho
    obtain ⟨p, hp, hop⟩ := List.mem_flatMap.1 ho
    obtain ⟨i, hi, rfl⟩ := List.getElem_of_mem hp
    have hlen := hm.length
    have hz : (vs[i]'(by omega), outs[i]) ∈ vs.zip outs := by
      rw [← List.getElem_zip (h := by rw [List.length_zip]; omega)]
      exact List.getElem_mem _
    obtain ⟨k, _, hok⟩ := hm.mem _ hz
    have hdv := hd _ (List.getElem_mem (by omega : i < vs.length))
    rcases List.mem_cons.1 hop with rfl | hop
    · rw [hok.obj.2.1]; exact hdv
    · rw [(hok.shape o hop).1]
      simp only
      omega
  by_cases hn : opt.targetModelName = []
  · obtain ⟨ms, ls, outs, order, st, hms, hvis, hgrow, rfl⟩ := fbxConvert_run facet sc opt fuel base objects morphs r hn h
    refine ⟨flatOuts outs, hgrow.objects, key _ _ ?_ hgrow.made, ?_⟩
    · intro v hv
      obtain ⟨l, hl, hvl⟩ := List.mem_flatten.1 hv
      obtain ⟨c, _, hc⟩ := forall₂_mem_right hvis l hl
      exact (visits_head sc opt base _ _ _ _ _ hc).2 v hvl
    · intro i o ho
      rw [hgrow.made.ids i o ho]
  · simp only [fbxConvert] at h
    rw [if_pos hn] at h
    split at h
    · simp only [Option.some.injEq] at h
      subst h
      exact ⟨[], by simp, by simp, by simp⟩
    · rw [Option.map_eq_some_iff] at h
      obtain ⟨st, hst, rfl⟩ := h
      obtain ⟨vs, outs, new, hv, hgrow⟩ := convertModel_spec facet sc opt base _ _ _ _ _ _ _ _ hinv hst
      refine ⟨flatOuts outs, hgrow.objects, key _ _ (visits_head sc opt base _ _ _ _ _ hv).2 hgrow.made, ?_⟩
      intro i o ho
      rw [hgrow.made.ids i o ho]

/-! ### Materials -/

/-- The maps of materials fit the list of materials. -/
structure MatInv (M : UMath F) (sc : UScene F) (opt : UOptions F) (st : UState F) : Prop where
  mat : ∀ g i s, st.mat g = some (i, s) → st.guidOf i = some g ∧ st.materials[i]? = some (unityMaterial M sc opt g) ∧
    s = (sc.material g).bind fun m => unityScale m.mainTex
  guid : ∀ i g, st.guidOf i = some g → ∃ s, st.mat g = some (i, s)

/-- What was recorded stays. -/
structure MatExt (st st' : UState F) : Prop where
  mat : ∀ g v, st.mat g = some v → st'.mat g = some v
  guidOf : ∀ i g, st.guidOf i = some g → st'.guidOf i = some g
  materials : st.materials <+: st'.materials

omit [Field F] [DecidableEq F] [FloatOps F] in
theorem MatExt.refl (st : UState F) : MatExt st st := ⟨fun _ _ h => h, fun _ _ h => h, List.prefix_refl _⟩

omit [Field F] [DecidableEq F] [FloatOps F] in
theorem MatExt.trans {a b c : UState F} (h : MatExt a b) (h' : MatExt b c) : MatExt a c :=
  ⟨fun g v e => h'.mat g v (h.mat g v e), fun i g e => h'.guidOf i g (h.guidOf i g e), h.materials.trans h'.materials⟩

omit [DecidableEq F] in
/-- A state with the same maps and at least the same materials. -/
theorem MatInv.of_same {M : UMath F} {sc : UScene F} {opt : UOptions F} {st st' : UState F} (h : MatInv M sc opt st)
    (h1 : st'.mat = st.mat) (h2 : st'.guidOf = st.guidOf) (h3 : st.materials <+: st'.materials) :
    MatInv M sc opt st' ∧ MatExt st st' := by
  refine ⟨⟨?_, ?_⟩, ⟨?_, ?_, h3⟩⟩
  · intro g i s e
    rw [h1] at e
    rw [h2]
    obtain ⟨q1, q2, q3⟩ := h.mat g i s e
    obtain ⟨ms, hms⟩ := h3
    refine ⟨q1, ?_, q3⟩
    rw [← hms, List.getElem?_append_left (List.getElem?_eq_some_iff.1 q2).1, q2]
  · intro i g e
    rw [h2] at e
    rw [h1]
    exact h.guid i g e
  · intro g v e; rw [h1]; exact e
  · intro i g e; rw [h2]; exact e

omit [DecidableEq F] in
theorem MatInv.lt {M : UMath F} {sc : UScene F} {opt : UOptions F} {st : UState F} (h : MatInv M sc opt st)
    {i : Nat} {g : Str} (hg : st.guidOf i = some g) : i < st.materials.length := by
  obtain ⟨s, hs⟩ := h.guid i g hg
  exact (List.getElem?_eq_some_iff.1 (h.mat g i s hs).2.1).1

omit [DecidableEq F] in
theorem addMaterial_spec (M : UMath F) (sc : UScene F) (opt : UOptions F) (g : Str) (st : UState F)
    (h : MatInv M sc opt st) : MatInv M sc opt (addMaterial M sc opt g st).2 ∧ MatExt st (addMaterial M sc opt g st).2 ∧
      (addMaterial M sc opt g st).2.guidOf (addMaterial M sc opt g st).1 = some g ∧
      (addMaterial M sc opt g st).2.objects = st.objects ∧
      (∃ new : List Str, (addMaterial M sc opt g st).2.materials = st.materials ++ new.map (unityMaterial M sc opt) ∧
        ∀ a ∈ new, a = g ∧ st.mat a = none) := by
  unfold addMaterial
  cases hm : st.mat g with
  | some v =>
    obtain ⟨i, s⟩ := v
    simp only
    exact ⟨h, MatExt.refl _, (h.mat g i s hm).1, trivial, [], by simp, by simp⟩
  | none =>
    simp only
    have hfresh : st.guidOf st.materials.length = none := by
      cases hc : st.guidOf st.materials.length with
      | none => rfl
      | some g' => exact absurd (h.lt hc) (by omega)
    refine ⟨⟨?_, ?_⟩, ⟨?_, ?_, List.prefix_append _ _⟩, by simp, trivial, [g], by simp, ?_⟩
    · intro g' i s e
      simp only at e
      rw [Function.update_apply] at e
      split at e
      · rename_i hg
        subst hg
        simp only [Option.some.injEq, Prod.mk.injEq] at e
        obtain ⟨rfl, rfl⟩ := e
        refine ⟨by simp, by simp, ?_⟩
        cases sc.material g' <;> rfl
      · obtain ⟨q1, q2, q3⟩ := h.mat g' i s e
        have hlt := (List.getElem?_eq_some_iff.1 q2).1
        refine ⟨?_, ?_, q3⟩
        · simp only
          rw [Function.update_apply, if_neg (by omega)]
          exact q1
        · simp only
          rw [List.getElem?_append_left hlt, q2]
    · intro i g' e
      simp only at e
      rw [Function.update_apply] at e
      split at e
      · rename_i hi
        subst hi
        simp only [Option.some.injEq] at e
        subst e
        exact ⟨_, Function.update_self ..⟩
      · obtain ⟨s, hs⟩ := h.guid i g' e
        refine ⟨s, ?_⟩
        simp only
        rw [Function.update_apply, if_neg (by rintro rfl; rw [hm] at hs; simp at hs)]
        exact hs
    · intro g' v e
      simp only
      rw [Function.update_apply, if_neg (by rintro rfl; rw [hm] at e; simp at e)]
      exact e
    · intro i g' e
      simp only
      rw [Function.update_apply, if_neg (by rintro rfl; rw [hfresh] at e; simp at e)]
      exact e
    · intro a ha
      rw [List.mem_singleton] at ha
      subst ha
      exact ⟨rfl, hm⟩

omit [DecidableEq F] in
theorem addMaterials_spec (M : UMath F) (sc : UScene F) (opt : UOptions F) : ∀ (gs : List Str) (st : UState F),
    MatInv M sc opt st → MatInv M sc opt (addMaterials M sc opt gs st).2 ∧ MatExt st (addMaterials M sc opt gs st).2 ∧
      List.Forall₂ (fun i g => (addMaterials M sc opt gs st).2.guidOf i = some g) (addMaterials M sc opt gs st).1 gs ∧
      (addMaterials M sc opt gs st).2.objects = st.objects := by
  intro gs
  induction gs with
  | nil => intro st h; exact ⟨h, MatExt.refl _, .nil, rfl⟩
  | cons g gs ih =>
    intro st h
    obtain ⟨h1, h2, h3, h4, _⟩ := addMaterial_spec M sc opt g st h
    obtain ⟨k1, k2, k3, k4⟩ := ih _ h1
    simp only [addMaterials]
    exact ⟨k1, h2.trans k2, .cons (k2.guidOf _ _ h3) k3, k4.trans h4⟩

omit [DecidableEq F] in
theorem addMaterials_rest (M : UMath F) (sc : UScene F) (opt : UOptions F) : ∀ (gs : List Str) (st : UState F),
    ∃ ms mat guidOf, (addMaterials M sc opt gs st).2 = { st with materials := ms, mat := mat, guidOf := guidOf } := by
  intro gs
  induction gs with
  | nil => intro st; exact ⟨_, _, _, rfl⟩
  | cons g gs ih =>
    intro st
    obtain ⟨ms, mat, go, e⟩ := ih (addMaterial M sc opt g st).2
    have h1 : ∃ ms mat guidOf, (addMaterial M sc opt g st).2 = { st with materials := ms, mat := mat, guidOf := guidOf } := by
      unfold addMaterial
      split
      · exact ⟨_, _, _, rfl⟩
      · exact ⟨_, _, _, rfl⟩
    obtain ⟨ms1, mat1, go1, e1⟩ := h1
    refine ⟨ms, mat, go, ?_⟩
    simp only [addMaterials]
    rw [e, e1]

end

end Verif.Conv
