import Verif.Conv.FbxConvProps
import Verif.Conv.GltfSkin
import Mathlib.Tactic.NormNum

/-! Examples for C115 to C119, and C120 to C122: names, target models and the scale of weights when an FBX
document is converted. -/

namespace Verif.Conv

open Verif.Geom
open Verif.Mqo (Str Object Face Bone MorphTargetList VertexWeight WeightGroup)

variable {F : Type}

section Examples

local instance ratOpsFbxConv1 : FloatOps ℚ := ⟨id, fun a b => decide (a < b), fun a b => decide (a ≤ b)⟩

/-- A mesh with a skin of one bone and one shape. -/
def skinGeometry : FGeometry ℚ := { sampleGeometry with
  deformers := [⟨false, some 4, [], [1, 1 / 2], [0, 2], Mat4.translation 0 7 0⟩,
    ⟨true, none, [⟨"Smile".toList, [⟨1, 0, 0⟩, ⟨0, 0, 5⟩], [3, 1]⟩], [], [], Mat4.one⟩] }

/-- A scene with a box, a lid on it, and the bones Hips and Spine. -/
def skinScene : FScene ℚ where
  model := fun m =>
    if m = 0 then ⟨[], false, Mat4.one, ⟨0, 0, 0⟩, none, [1, 3], none, []⟩
    else if m = 1 then
      ⟨"Box::Model".toList, false, Mat4.translation 1 2 3, ⟨0, 0, 0⟩, some 0, [2], some skinGeometry, [0, 1]⟩
    else if m = 2 then
      ⟨"Lid::Model".toList, false, Mat4.translation 0 1 0, ⟨0, 0, 0⟩, some 1, [], some sampleGeometry, [0, 1]⟩
    else if m = 3 then ⟨"Hips::Model".toList, true, Mat4.translation 0 4 0, ⟨0, 0, 0⟩, some 0, [4], none, []⟩
    else if m = 4 then ⟨"Spine::Model".toList, true, Mat4.translation 0 2 0, ⟨0, 0, 0⟩, some 3, [], none, []⟩
    else ⟨[], false, Mat4.one, ⟨0, 0, 0⟩, none, [], none, []⟩
  count := 5
  scene := 0
  coord := Mat4.one
  materialCount := 2

def skinResult : Option (FResult ℚ) := fbxConvert (119 / 2) skinScene FOptions.default 4 0 [] []

/-- The sample is converted; its objects with depth, visibility and id. -/
example : skinResult.map (fun r => r.objects.map fun o => (o.name, o.depth, o.visible, o.uid)) =
    some [("Box".toList, 0, true, 1), ("Smile".toList, 1, false, 2), ("Lid".toList, 1, true, 3)] := by
  decide +kernel

/-- The lid is placed by the matrices of the box and the lid. -/
example : skinResult.map (fun r => r.objects.map fun o => o.vertexes) =
    some [[⟨1, 2, 3⟩, ⟨2, 2, 3⟩, ⟨2, 3, 3⟩, ⟨1, 3, 3⟩], [⟨1, 2, 3⟩, ⟨2, 2, 8⟩, ⟨2, 3, 3⟩, ⟨2, 3, 3⟩],
      [⟨1, 3, 3⟩, ⟨2, 3, 3⟩, ⟨2, 4, 3⟩, ⟨1, 4, 3⟩]] := by
  decide +kernel

/-- Bones: Hips stands at its model, Spine at the bind position of the deformer. -/
example : skinResult.map (fun r => (r.setBones.getD []).map fun b => (b.id, b.name, b.parent, b.pos)) =
    some [(1, "Hips::Model".toList, 0, ⟨0, 4, 0⟩), (2, "Spine::Model".toList, 1, ⟨0, 7, 0⟩)] := by
  decide +kernel

example : skinResult.map (fun r => (r.setBones.getD []).map fun b => b.weights.map WeightGroup.objectID) =
    some [[], [1]] := by
  decide +kernel

example : skinResult.map (fun r => (r.setBones.getD []).flatMap fun b => b.weights.flatMap fun w =>
    w.vertexes.map fun v => (v.vertexID, v.weight)) = some [(1, 1), (3, 1 / 2)] := by
  decide +kernel

/-- The morphs of the sample. -/
example : skinResult.map (fun r => r.morphs.map fun m => (m.base, m.target.map fun t => t.name)) =
    some [("Box".toList, ["Smile".toList])] := by
  decide +kernel

theorem skinScene_last (m : Nat) (h : 5 ≤ m) :
    skinScene.model m = ⟨[], false, Mat4.one, ⟨0, 0, 0⟩, none, [], none, []⟩ := by
  simp only [skinScene]
  rw [if_neg (by omega), if_neg (by omega), if_neg (by omega), if_neg (by omega), if_neg (by omega)]

theorem skinScene_edge (m c : Nat) (hc : c ∈ (skinScene.model m).children) :
    (m = 0 ∧ c = 1) ∨ (m = 0 ∧ c = 3) ∨ (m = 1 ∧ c = 2) ∨ (m = 3 ∧ c = 4) := by
  have hm : m = 0 ∨ m = 1 ∨ m = 2 ∨ m = 3 ∨ m = 4 ∨ 5 ≤ m := by omega
  rcases hm with rfl | rfl | rfl | rfl | rfl | h
  · have e : (skinScene.model 0).children = [1, 3] := rfl
    rw [e] at hc; simp at hc; omega
  · have e : (skinScene.model 1).children = [2] := rfl
    rw [e] at hc; simp at hc; omega
  · have e : (skinScene.model 2).children = [] := rfl
    rw [e] at hc; simp at hc
  · have e : (skinScene.model 3).children = [4] := rfl
    rw [e] at hc; simp at hc; omega
  · have e : (skinScene.model 4).children = [] := rfl
    rw [e] at hc; simp at hc
  · rw [skinScene_last m h] at hc; simp at hc

/-- The hypotheses on the document hold for the sample. -/
theorem skinScene_links : (∀ m c, c ∈ (skinScene.model m).children → (skinScene.model c).parent = some m) ∧
    (∀ m, (skinScene.model m).children.Nodup) ∧ (skinScene.model skinScene.scene).parent = none ∧
    (∀ m c, c ∈ (skinScene.model m).children → 5 - c < 5 - m) := by
  refine ⟨?_, ?_, rfl, ?_⟩
  · intro m c hc
    rcases skinScene_edge m c hc with ⟨rfl, rfl⟩ | ⟨rfl, rfl⟩ | ⟨rfl, rfl⟩ | ⟨rfl, rfl⟩ <;> rfl
  · intro m
    have hm : m = 0 ∨ m = 1 ∨ m = 2 ∨ m = 3 ∨ m = 4 ∨ 5 ≤ m := by omega
    rcases hm with rfl | rfl | rfl | rfl | rfl | h
    · exact (by decide : [1, 3].Nodup)
    · exact (by decide : [2].Nodup)
    · exact List.nodup_nil
    · exact (by decide : [4].Nodup)
    · exact List.nodup_nil
    · rw [skinScene_last m h]; exact List.nodup_nil
  · intro m c hc
    rcases skinScene_edge m c hc with ⟨rfl, rfl⟩ | ⟨rfl, rfl⟩ | ⟨rfl, rfl⟩ | ⟨rfl, rfl⟩ <;> decide

theorem skinScene_good : GoodScene skinScene := by
  have hm : ∀ m, m = 0 ∨ m = 1 ∨ m = 2 ∨ m = 3 ∨ m = 4 ∨ 5 ≤ m := by omega
  have hgeo : ∀ m g, (skinScene.model m).geometry = some g → g = skinGeometry ∨ g = sampleGeometry := by
    intro m g hg
    rcases hm m with rfl | rfl | rfl | rfl | rfl | h
    · have e : (skinScene.model 0).geometry = none := rfl
      rw [e] at hg; simp at hg
    · have e : (skinScene.model 1).geometry = some skinGeometry := rfl
      rw [e] at hg; exact Or.inl (Option.some.inj hg).symm
    · have e : (skinScene.model 2).geometry = some sampleGeometry := rfl
      rw [e] at hg; exact Or.inr (Option.some.inj hg).symm
    · have e : (skinScene.model 3).geometry = none := rfl
      rw [e] at hg; simp at hg
    · have e : (skinScene.model 4).geometry = none := rfl
      rw [e] at hg; simp at hg
    · rw [skinScene_last m h] at hg; simp at hg
  have h0 : Height skinScene 0 0 := .top 0 rfl
  have h1 : Height skinScene 1 1 := .step 1 0 0 rfl h0
  have h3 : Height skinScene 3 1 := .step 3 0 0 rfl h0
  constructor
  · intro m p hp
    rcases hm m with rfl | rfl | rfl | rfl | rfl | h
    · have e : (skinScene.model 0).parent = none := rfl
      rw [e] at hp; simp at hp
    · have e : (skinScene.model 1).parent = some 0 := rfl
      rw [e] at hp; cases hp; decide
    · have e : (skinScene.model 2).parent = some 1 := rfl
      rw [e] at hp; cases hp; decide
    · have e : (skinScene.model 3).parent = some 0 := rfl
      rw [e] at hp; cases hp; decide
    · have e : (skinScene.model 4).parent = some 3 := rfl
      rw [e] at hp; cases hp; decide
    · rw [skinScene_last m h] at hp; simp at hp
  · intro m
    rcases hm m with rfl | rfl | rfl | rfl | rfl | h
    · exact ⟨0, h0, by decide⟩
    · exact ⟨1, h1, by decide⟩
    · exact ⟨2, .step 2 1 1 rfl h1, by decide⟩
    · exact ⟨1, h3, by decide⟩
    · exact ⟨2, .step 4 3 1 rfl h3, by decide⟩
    · exact ⟨0, .top m (by rw [skinScene_last m h]), by decide⟩
  · intro m g hg
    rcases hgeo m g hg with rfl | rfl <;> decide +kernel
  · intro m g hg
    rcases hgeo m g hg with rfl | rfl <;> decide +kernel
  · intro m g hg
    rcases hgeo m g hg with rfl | rfl <;> decide +kernel
  · intro m g hg d hd t ht
    have hd' : d.target = none ∨ d.target = some 4 := by
      rcases hgeo m g hg with rfl | rfl
      · rcases List.mem_cons.1 hd with rfl | hd
        · exact Or.inr rfl
        · cases List.mem_singleton.1 hd
          exact Or.inl rfl
      · exact absurd hd (List.not_mem_nil)
    rcases hd' with e | e
    · rw [e] at ht; exact absurd ht (by simp)
    · rw [e] at ht; cases ht; exact ⟨by decide, by decide⟩
  · intro m g hg
    rcases hgeo m g hg with rfl | rfl <;> decide +kernel
  · intro m g hg
    rcases hgeo m g hg with rfl | rfl <;> decide +kernel

example : ∃ r, fbxConvert (119 / 2) skinScene FOptions.default 6 0 [] [] = some r :=
  convert_total _ skinScene FOptions.default 0 [] [] skinScene_good (by decide) (fun m => 5 - m)
    skinScene_links.2.2.2 6 (by decide)

example : Converted skinScene FOptions.default 2 :=
  ⟨1, ⟨by decide, Or.inr ⟨rfl, 1, skinGeometry, .self 1, rfl⟩⟩, .down 1 2 2 (by decide) (.self 2)⟩

example : ¬ TopModel skinScene FOptions.default 3 := by
  rintro ⟨_, h | ⟨h, _⟩⟩
  · simp [FOptions.default] at h
  · have e : (skinScene.model 3).limb = true := rfl
    rw [e] at h; simp at h

/-- A deformer that names the scene itself is a panic. -/
example : convertDeformer skinScene ⟨false, some 0, [], [], [], Mat4.one⟩ 1 emptyState = none :=
  convertDeformer_scene skinScene _ 1 emptyState [] []
    ⟨rfl, List.nodup_nil, by simp, by simp, by simp, by simp [emptyState], by simp, by simp⟩ rfl

end Examples

/-! ### C120: names -/

theorem trimSuffix_append (s p : Str) : trimSuffix (s ++ p) p = s := by
  unfold trimSuffix
  rw [if_pos (by rw [List.isSuffixOf_iff_suffix]; exact List.suffix_append s p)]
  simp

theorem trimPrefix_append (s p : Str) : trimPrefix (p ++ s) p = s := by
  unfold trimPrefix
  rw [if_pos (by rw [List.isPrefixOf_iff_prefix]; exact List.prefix_append p s)]
  simp

theorem trimPrefix_other (s p : Str) (h : ¬ p <+: s) : trimPrefix s p = s := by
  unfold trimPrefix
  rw [if_neg (by rwa [List.isPrefixOf_iff_prefix])]

section

variable [Add F] [Sub F] [Mul F] [Div F] [Zero F] [One F] [Neg F] [DecidableEq F] [FloatOps F]

/-- C120. In documents of the text format, where a model is called `Model::name`, object and bone are called
`name` (if `name` itself has no such ending). -/
theorem names_text_partial (facet : F) (sc : FScene F) (opt : FOptions F) (fuel base : Nat) (objects : List (Object F))
    (morphs : List MorphTargetList) (r : FResult F) (hn : opt.targetModelName = [])
    (hroot : (sc.model sc.scene).parent = none)
    (h : fbxConvert facet sc opt fuel base objects morphs = some r) :
    ∃ tagged order, r.objects = objects ++ tagged.map Prod.snd ∧ TreeOk sc opt tagged ∧
      BonesOk sc opt (r.setBones.getD []) order ∧
      ∀ m name, (sc.model m).name = "Model::".toList ++ name → ¬ "::Model".toList <:+ name →
        (∀ o, (some m, o) ∈ tagged → o.name = name) ∧
        ∀ (i : Nat) (b : Bone F), order[i]? = some m → (r.setBones.getD [])[i]? = some b → b.name = name := by
  obtain ⟨tagged, order, h1, h2, h3, _⟩ := weights_spec facet sc opt fuel base objects morphs r hn hroot h
  refine ⟨tagged, order, h1, h2, h3, ?_⟩
  intro m name hm hs
  refine ⟨fun o ho => ?_, fun i b hi hb => ?_⟩
  · rw [(h2.object m o ho).1, hm, trimPrefix_append]
    unfold trimSuffix
    rw [if_neg (by rwa [List.isSuffixOf_iff_suffix])]
  · rw [h3.name i m b hi hb, hm, trimPrefix_append]

/-- C120. In documents of the binary format, where a model is called `name::Model`, the object is called
`name`, but the bone keeps the ending: for every document and every bone. -/
theorem names_binary_false (facet : F) (sc : FScene F) (opt : FOptions F) (fuel base : Nat) (objects : List (Object F))
    (morphs : List MorphTargetList) (r : FResult F) (hn : opt.targetModelName = [])
    (hroot : (sc.model sc.scene).parent = none)
    (h : fbxConvert facet sc opt fuel base objects morphs = some r) :
    ∃ tagged order, r.objects = objects ++ tagged.map Prod.snd ∧ TreeOk sc opt tagged ∧
      BonesOk sc opt (r.setBones.getD []) order ∧
      ∀ m name, (sc.model m).name = name ++ "::Model".toList → ¬ "Model::".toList <+: name ++ "::Model".toList →
        (∀ o, (some m, o) ∈ tagged → o.name = name) ∧
        ∀ (i : Nat) (b : Bone F), order[i]? = some m → (r.setBones.getD [])[i]? = some b →
          b.name = name ++ "::Model".toList := by
  obtain ⟨tagged, order, h1, h2, h3, _⟩ := weights_spec facet sc opt fuel base objects morphs r hn hroot h
  refine ⟨tagged, order, h1, h2, h3, ?_⟩
  intro m name hm hs
  refine ⟨fun o ho => ?_, fun i b hi hb => ?_⟩
  · rw [(h2.object m o ho).1, hm, trimPrefix_other _ _ hs, trimSuffix_append]
  · rw [h3.name i m b hi hb, hm, trimPrefix_other _ _ hs]

/-! ### C121: one target model -/

/-- C121. With `TargetModelName` the document gets no bones, whatever deformers the mesh has. -/
theorem target_no_bones_false (facet : F) (sc : FScene F) (opt : FOptions F) (fuel base : Nat) (objects : List (Object F))
    (morphs : List MorphTargetList) (r : FResult F) (hn : opt.targetModelName ≠ [])
    (h : fbxConvert facet sc opt fuel base objects morphs = some r) : r.setBones = none := by
  simp only [fbxConvert] at h
  rw [if_pos hn] at h
  split at h
  · simp only [Option.some.injEq] at h
    rw [← h]
  · rw [Option.map_eq_some_iff] at h
    obtain ⟨st, _, rfl⟩ := h
    rfl

/-- C121. With `TargetModelName` the objects are those of the first child of the scene with that name and
of everything below it; nothing is added if there is none. -/
theorem target_objects_partial (facet : F) (sc : FScene F) (opt : FOptions F) (fuel base : Nat) (objects : List (Object F))
    (morphs : List MorphTargetList) (r : FResult F) (hn : opt.targetModelName ≠ [])
    (h : fbxConvert facet sc opt fuel base objects morphs = some r) :
    (r.objects = objects ∧ r.morphs = morphs ∧
      ∀ m ∈ (sc.model sc.scene).children, (sc.model m).name ≠ opt.targetModelName ++ "::Model".toList) ∨
    ∃ m A B, (sc.model sc.scene).children = A ++ m :: B ∧ (sc.model m).name = opt.targetModelName ++ "::Model".toList ∧
      (∀ a ∈ A, (sc.model a).name ≠ opt.targetModelName ++ "::Model".toList) ∧
      ∃ tagged : List (Option Nat × Object F), r.objects = objects ++ tagged.map Prod.snd ∧
        (∀ x, (∃ o, (some x, o) ∈ tagged) ↔ KeptBelow sc opt m x) ∧
        ∀ x o, (some x, o) ∈ tagged →
          o.name = trimSuffix (trimPrefix (sc.model x).name "Model::".toList) "::Model".toList := by
  simp only [fbxConvert] at h
  rw [if_pos hn] at h
  split at h
  · rename_i hf
    simp only [Option.some.injEq] at h
    left
    rw [← h]
    refine ⟨rfl, rfl, ?_⟩
    intro m hm e
    rw [List.find?_eq_none] at hf
    exact hf m hm (decide_eq_true e)
  · rename_i m hf
    rw [Option.map_eq_some_iff] at h
    obtain ⟨st, hst, rfl⟩ := h
    right
    obtain ⟨e1, A, B, e2, e3⟩ := List.find?_eq_some_iff_append.1 hf
    have hinv : BInv sc (⟨objects, morphs, [], fun _ => none⟩ : FState F) [] [] [] :=
      ⟨rfl, List.nodup_nil, by simp, by simp, by simp, by simp, by simp, by simp⟩
    obtain ⟨vs, outs, new, hv, hgrow⟩ := convertModel_spec facet sc opt base _ _ _ _ _ _ _ _ hinv hst
    have hlen := hgrow.made.length
    refine ⟨m, A, B, e2, of_decide_eq_true e1, fun a ha => of_decide_eq_false (by
      have := e3 a ha
      rwa [Bool.not_eq_true'] at this), (vs.zip outs).flatMap tagOne, ?_, ?_, ?_⟩
    · simp only
      rw [hgrow.objects, flatOuts_tagged _ _ hlen]
    · intro x
      rw [← visits_mem sc opt base _ _ _ _ _ hv x]
      constructor
      · rintro ⟨o, ho⟩
        obtain ⟨z, hz, h1, _⟩ := (mem_tagged _ x o).1 ho
        exact ⟨z.1, (List.of_mem_zip (a := z.1) (b := z.2) hz).1, h1⟩
      · rintro ⟨v, hv, rfl⟩
        obtain ⟨i, hi, rfl⟩ := List.getElem_of_mem hv
        refine ⟨(outs[i]'(by omega)).1, (mem_tagged _ _ _).2 ⟨(vs[i], outs[i]'(by omega)), ?_, rfl, rfl⟩⟩
        rw [← List.getElem_zip (h := by rw [List.length_zip]; omega)]
        exact List.getElem_mem _
    · intro x o ho
      obtain ⟨z, hz, rfl, rfl⟩ := (mem_tagged _ x o).1 ho
      obtain ⟨_, _, hok⟩ := hgrow.made.mem z hz
      exact hok.obj.2.2.2.1

end

/-! ### C122: the scale of weights -/

section

local instance ratOpsFbxConv2 : FloatOps ℚ := ⟨id, fun a b => decide (a < b), fun a b => decide (a ≤ b)⟩

/-- The conversion of the sample with `TargetModelName` set: the box with its shape and the lid, no bones. -/
example : (fbxConvert (119 / 2) skinScene { FOptions.default with targetModelName := "Box".toList } 4 0 [] []).map
    (fun r => (r.objects.map fun o => o.name, r.setBones.isNone)) =
    some (["Box".toList, "Smile".toList, "Lid".toList], true) := by
  decide +kernel

/-- The hypotheses of `names_binary_false` hold for the bones of the sample. -/
example : (skinScene.model 3).name = "Hips".toList ++ "::Model".toList ∧
    ¬ "Model::".toList <+: "Hips".toList ++ "::Model".toList := by
  constructor
  · rfl
  · decide +kernel

/-- C122. A vertex that is bound with the weight 1 to its only bone does not have the weight 1 in the glTF
document exported from the result: weights are passed on as they are, while the exporter takes them as
percent. -/
theorem weight_scale_false : ¬ ∀ (sc : FScene ℚ) (r : FResult ℚ) (x : Nat) (g : FGeometry ℚ) (d : FDeformer ℚ)
    (o : Object ℚ) (m k : Nat) (joints : List Nat) (skin : List (VSkin ℚ)) (s : VSkin ℚ),
    fbxConvert (119 / 2) sc FOptions.default 4 0 [] [] = some r →
    (sc.model x).geometry = some g → g.deformers.filter (fun d => !d.channel) = [d] → d.target = some m →
    d.indexes.length = d.weights.length → ((k : Int), (1 : ℚ)) ∈ d.indexes.zip d.weights → r.objects[0]? = some o →
    o.name ++ "::Model".toList = (sc.model x).name →
    getWeights (1 / 100) (r.setBones.getD []) o [] = some (joints, skin) → skin[k]? = some s →
    s.sum = 1 := by
  intro h
  have hr : ∃ r, skinResult = some r := by
    have : skinResult.isSome = true := by decide +kernel
    exact Option.isSome_iff_exists.1 this
  obtain ⟨r, hr⟩ := hr
  have e1 : skinResult.bind (fun r => r.objects[0]?.map fun o => o.name) = some "Box".toList := by decide +kernel
  have e2 : skinResult.bind (fun r => r.objects[0]?.bind fun o =>
      (getWeights (1 / 100) (r.setBones.getD []) o []).bind fun p => p.2[0]?.map VSkin.sum) = some (1 / 100) := by
    decide +kernel
  rw [hr] at e1 e2
  simp only [Option.bind_some] at e1 e2
  rw [Option.map_eq_some_iff] at e1
  obtain ⟨o, ho, hname⟩ := e1
  rw [ho] at e2
  simp only [Option.bind_some] at e2
  rw [Option.bind_eq_some_iff] at e2
  obtain ⟨⟨joints, skin⟩, hg, e2⟩ := e2
  rw [Option.map_eq_some_iff] at e2
  obtain ⟨s, hs, e2⟩ := e2
  have := h skinScene r 1 skinGeometry _ o 4 0 joints skin s hr rfl rfl rfl rfl (by decide +kernel) ho
    (by rw [hname]; rfl) hg hs
  rw [e2] at this
  norm_num at this

end

end Verif.Conv
