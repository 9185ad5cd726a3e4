import Verif.Conv.FbxConvFindings
import Verif.Conv.GltfSkinProps

/-! Property C122: what becomes of FBX weights in an exported glTF document. -/

namespace Verif.Conv

open Verif.Geom
open Verif.Mqo (Object Bone VertexWeight WeightGroup MorphTargetList)

local instance ratOpsWeight : FloatOps ℚ := ⟨id, fun a b => decide (a < b), fun a b => decide (a ≤ b)⟩

variable {F : Type}

/-- The weights with which the deformers of a mesh bind vertex `k` to the model `m`. -/
def boundWeights (g : FGeometry F) (m k : Nat) : List F :=
  (g.deformers.filter fun d => !d.channel && decide (d.target = some m) &&
    decide (d.weights.length = d.indexes.length)).flatMap fun d =>
      ((d.indexes.zip d.weights).filter fun p => p.1 = (k : Int)).map Prod.snd

theorem flatMap_places {α β γ : Type} (f : α → List γ) (g : β → List γ) : ∀ (as : List α) (bs : List β),
    as.length = bs.length → (∀ (i : Nat) a b, as[i]? = some a → bs[i]? = some b → f a = g b) →
    as.flatMap f = bs.flatMap g := by
  intro as
  induction as with
  | nil =>
    intro bs h _
    cases bs with
    | nil => rfl
    | cons b bs => simp at h
  | cons a as ih =>
    intro bs h hp
    cases bs with
    | nil => simp at h
    | cons b bs =>
      rw [List.flatMap_cons, List.flatMap_cons, hp 0 a b rfl rfl,
        ih bs (by simpa using h) fun i a b ha hb => hp (i + 1) a b (by simpa using ha) (by simpa using hb)]

theorem groupWeights_append (o : Object F) (v : Nat) (a b : List (VertexWeight F)) :
    groupWeights o v (a ++ b) = groupWeights o v a ++ groupWeights o v b := by
  simp [groupWeights]

theorem groupWeights_flatMap {α : Type} (o : Object F) (v : Nat) (f : α → List (VertexWeight F)) (l : List α) :
    groupWeights o v (l.flatMap f) = l.flatMap fun a => groupWeights o v (f a) := by
  induction l with
  | nil => rfl
  | cons a l ih => rw [List.flatMap_cons, List.flatMap_cons, groupWeights_append, ih]

theorem influences_weights [Mul F] (h : F) (o : Object F) (v : Nat) (bones : List (Bone F)) :
    (skinInfluences h o v 0 (skinGroups bones o)).map Prod.snd =
      (bones.flatMap fun b => groupWeights o v ((b.weights.filter fun g => g.objectID = o.uid).flatMap WeightGroup.vertexes)).map
        fun w => w * h := by
  have e : ∀ (gs : List (Int × List (VertexWeight F))) (j : Nat),
      (skinInfluences h o v j gs).map Prod.snd = (gs.flatMap fun g => groupWeights o v g.2).map fun w => w * h := by
    intro gs
    induction gs with
    | nil => intro j; rfl
    | cons g gs ih =>
      intro j
      have : skinInfluences h o v j (g :: gs) =
          (groupWeights o v g.2).map (fun w => (j, w * h)) ++ skinInfluences h o v (j + 1) gs := by
        simp [skinInfluences, List.zipIdx_cons]
      rw [this, List.map_append, ih, List.flatMap_cons, List.map_append, List.map_map]
      rfl
  rw [e]
  congr 1
  unfold skinGroups
  rw [List.flatMap_assoc]
  apply List.flatMap_congr
  intro b _
  rw [groupWeights_flatMap, List.flatMap_map]

variable [Field F] [DecidableEq F] [FloatOps F]

/-- C122, up to the factor `h`, which is 1/100. A vertex of a converted mesh that has at most four weights has exactly these,
multiplied by `h`, in the order of the bones: what is bound with the same weight stays so, and the ratios are kept. -/
theorem weight_ratio_partial (facet : F) (sc : FScene F) (opt : FOptions F) (fuel base : Nat) (objects : List (Object F))
    (morphs : List MorphTargetList) (r : FResult F) (hn : opt.targetModelName = [])
    (hroot : (sc.model sc.scene).parent = none)
    (h : fbxConvert facet sc opt fuel base objects morphs = some r) :
    ∃ tagged order, r.objects = objects ++ tagged.map Prod.snd ∧ TreeOk sc opt tagged ∧
      BonesOk sc opt (r.setBones.getD []) order ∧
      ∀ x o g, (some x, o) ∈ tagged → (sc.model x).geometry = some g →
        (∀ d ∈ g.deformers, ∀ i ∈ d.indexes, 0 ≤ i ∧ i < g.vertices.length) →
        ∀ (k : Nat) (hk : F) (idToJoint : List (Int × Nat)) (joints : List Nat) (skin : List (VSkin F)) (s : VSkin F),
          getWeights hk (r.setBones.getD []) o idToJoint = some (joints, skin) → skin[k]? = some s →
          (order.flatMap fun m => boundWeights g m k).length ≤ 4 →
          s.slots.map Prod.snd = (order.flatMap fun m => boundWeights g m k).map (fun w => w * hk) ++
            List.replicate (4 - (order.flatMap fun m => boundWeights g m k).length) 0 := by
  obtain ⟨tagged, order, h1, h2, h3, h4, h5⟩ := weights_spec facet sc opt fuel base objects morphs r hn hroot h
  refine ⟨tagged, order, h1, h2, h3, ?_⟩
  intro x o g ho hg hd k hk idToJoint joints skin s he hs hf
  have hb : ((r.setBones.getD []).flatMap fun b =>
      groupWeights o k ((b.weights.filter fun g => g.objectID = o.uid).flatMap WeightGroup.vertexes)) =
      order.flatMap fun m => boundWeights g m k := by
    apply flatMap_places _ _ _ _ h3.length
    intro i b m hbi hmi
    rw [(h5 i m b hmi hbi).2.2 x o g ho hg, groupWeights_flatMap]
    unfold boundWeights
    apply List.flatMap_congr
    intro d hdm
    have hdm := List.mem_of_mem_filter hdm
    unfold groupWeights
    rw [List.filter_map, List.map_map]
    have : (d.indexes.zip d.weights).filter ((fun vw : VertexWeight F => decide (o.getVertexIndexByID vw.vertexID = (k : Int))) ∘
        fun p => ⟨p.1 + 1, p.2⟩) = (d.indexes.zip d.weights).filter fun p => p.1 = (k : Int) := by
      apply List.filter_congr
      intro p hp
      have hp1 := (List.of_mem_zip (a := p.1) (b := p.2) hp).1
      obtain ⟨p0, p1⟩ := hd d hdm p.1 hp1
      obtain ⟨n, hn⟩ := Int.eq_ofNat_of_zero_le p0
      have := h4 x o g ho hg n (by omega)
      simp only [Function.comp, decide_eq_decide]
      rw [hn, this]
    rw [this]
    rfl
  have hinf := influences_weights hk o k (r.setBones.getD [])
  rw [hb] at hinf
  have hlen := congrArg List.length hinf
  simp only [List.length_map] at hlen
  rw [getWeights_few hk _ o idToJoint joints skin he k s hs (by omega), List.map_append, hinf, hlen]
  simp

/-- The sample has a vertex with one weight. -/
example : (∀ d ∈ skinGeometry.deformers, ∀ i ∈ d.indexes, 0 ≤ i ∧ i < (skinGeometry.vertices.length : Int)) ∧
    (skinScene.model 1).geometry = some skinGeometry ∧ ([3, 4].flatMap fun m => boundWeights skinGeometry m 0) = [1] ∧
    skinResult.bind (fun r => r.objects[0]?.bind fun o =>
      (getWeights (1 / 100) (r.setBones.getD []) o []).bind fun p => p.2[0]?.map fun s => s.slots.map Prod.snd) =
        some [1 / 100, 0, 0, 0] := by
  refine ⟨by decide +kernel, rfl, by decide +kernel, by decide +kernel⟩

end Verif.Conv
