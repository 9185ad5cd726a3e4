import Verif.Vrm.PresetsProps
import Verif.Conv.GltfNodesProps
import Verif.Conv.BonesProps

/-!
C202: the skeleton of a PMX or PMD model that is saved as VRM with an embedded preset.
-/

namespace Verif.Vrm

open Verif.Conv
open Verif.Geom (FloatOps)

section

variable {T S F : Type}

/-- converter/mqo2gltf.go:785-807 and 864: the nodes of a document, first those of the objects and then those of the bones. A bone
node has no mesh; `body` is what lines 796-805 add to it. The object nodes are given. -/
def exportNodes (objs : List (ENode F)) (body : Nat → Option (NodeBody F)) (nodes : List (GNode F)) : List (ENode F) :=
  objs ++ nodes.zipIdx.map fun x => ⟨x.1.name, none, x.1.children, body x.2⟩

/-- Converted bones are numbered from 1, keep their names, and their parents exist. -/
theorem mqoBones_valid [Mul F] [One F] [Neg F] [Zero F] [FloatOps F] (known : List Str) (threshold : F)
    (bones : List (MmdBone F)) (bs : List (Mqo.Bone F)) (h : mqoBones known threshold bones = some bs)
    (hp : ∀ b ∈ bones, b.parent < bones.length) :
    ValidBones bs ∧ bs.map (·.name) = bones.map (·.name) := by
  unfold mqoBones at h
  obtain ⟨hl, hg⟩ := mapM_getElem? _ _ _ h
  rw [List.length_zipIdx] at hl
  have key : ∀ (i : Nat) b, bones[i]? = some b → ∃ b', bs[i]? = some b' ∧ b'.id = i + 1 ∧ b'.name = b.name ∧
      b'.parent ≤ bones.length := by
    intro i b hb
    obtain ⟨y, hy1, hy2⟩ := hg i (b, i) (by simp [List.getElem?_zipIdx, hb])
    simp only [mqoBone] at hy2
    have hpar := hp b (List.mem_of_getElem? hb)
    cases hi : inheritedParent known threshold bones b with
    | none => rw [hi] at hy2; simp at hy2
    | some q =>
      rw [hi] at hy2
      simp only [Option.some.injEq] at hy2
      subst hy2
      refine ⟨_, hy1, rfl, rfl, ?_⟩
      show q ≤ _
      unfold inheritedParent at hi
      split at hi
      · rename_i hc
        split at hi
        · simp at hi
        · split at hi
          · simp at hi
          · split at hi <;> (simp only [Option.some.injEq] at hi; have := hc.2.2.1; omega)
      · simp only [Option.some.injEq] at hi
        omega
  have key' : ∀ (i : Nat) b', bs[i]? = some b' → b'.id = i + 1 ∧ b'.parent ≤ bs.length ∧ (bones[i]?).map (·.name) = some b'.name := by
    intro i b' hb'
    have hlt : i < bones.length := hl ▸ (List.getElem?_eq_some_iff.1 hb').1
    obtain ⟨b2, h1, h2, h3, h4⟩ := key i bones[i] (List.getElem?_eq_getElem hlt)
    rw [hb', Option.some.injEq] at h1
    subst h1
    exact ⟨h2, hl ▸ h4, by rw [List.getElem?_eq_getElem hlt, Option.map_some, h3]⟩
  refine ⟨⟨?_, ?_⟩, ?_⟩
  · refine List.nodup_iff_injective_getElem.2 ?_
    rintro ⟨i, hi⟩ ⟨j, hj⟩ hij
    simp only [List.length_map] at hi hj
    simp only [List.getElem_map] at hij
    rw [(key' i _ (List.getElem?_eq_getElem hi)).1, (key' j _ (List.getElem?_eq_getElem hj)).1] at hij
    simp only [Fin.mk.injEq]
    omega
  · intro b hb hpos
    obtain ⟨i, hi⟩ := List.getElem?_of_mem hb
    have h2 := (key' i b hi).2.1
    have hlt : b.parent.toNat - 1 < bs.length := by omega
    refine List.mem_map.2 ⟨bs[b.parent.toNat - 1], List.getElem_mem hlt, ?_⟩
    rw [(key' _ _ (List.getElem?_eq_getElem hlt)).1]
    omega
  · apply List.ext_getElem?
    intro i
    rw [List.getElem?_map, List.getElem?_map]
    cases hb : bs[i]? with
    | none =>
      rw [List.getElem?_eq_none_iff, hl] at hb
      rw [List.getElem?_eq_none hb]
      rfl
    | some b' => exact (key' i b' hb).2.2.symm

variable [CommRing F] [DecidableEq F] [LT F] [DecidableLT F] [FloatOps F]

/-- C202. Take the bones of a PMX or PMD model with different names and existing parents. They are converted to bone nodes with the
same names. If the model is then saved as VRM with one of the embedded presets, and no object has the name of a bone, then: if
for each required bone the model has a bone with one of its names in the preset, no required bone is missing in the file. A bone
whose name is the only one in the model that the preset has for a humanoid bone is the node of that humanoid bone. No node
is used for two humanoid bones. -/
theorem pmx_vrm_skeleton (known : List Str) (threshold scale : F) (bones : List (MmdBone F)) (bs : List (Mqo.Bone F))
    (hbs : mqoBones known threshold bones = some bs) (hp : ∀ b ∈ bones, b.parent < bones.length)
    (hd : (bones.map (·.name)).Nodup) (objs : List (ENode F)) (body : Nat → Option (NodeBody F))
    (ho : ∀ n ∈ objs, ∀ b ∈ bones, n.name ≠ b.name) :
    ∃ nodes roots, addBoneNodes scale objs.length bs = some (nodes, roots) ∧ nodes.map (·.name) = bones.map (·.name) ∧
      ∀ (src : Sources (Config T S F)) (o : Orders) (fuel : Nat) (noInfo : T) (auto : S) (physics all : Bool)
        (name : Str) (d d' : VDoc T S F), d.nodes = exportNodes objs body nodes →
        saveVRM src o fuel noInfo auto physics all name d = some (false, d') →
        ∀ table, (table = mmdBones ∨ table = mmdEnBones ∨ table = mmdJaBones) →
        (usedConfig src noInfo name).conf.bones ++ (presetConf src (usedConfig src noInfo name)).bones = table →
        ∃ e', d'.ext = some e' ∧ (e'.bones.map (·.node)).Nodup ∧
          ((∀ m ∈ table, m.bone ∈ requiredBones → ∃ b ∈ bones, b.name ∈ m.names) → validateBones e'.bones = none) ∧
          ∀ m ∈ table, ∀ (k : Nat) b, bones[k]? = some b → b.name ∈ m.names →
            (∀ n, (n ∈ m.names ∨ n = m.bone) → n ∈ bones.map (·.name) ∨ n ∈ objs.map (·.name) → n = b.name) →
            ∃ x ∈ e'.bones, x.bone = m.bone ∧ x.node = objs.length + k := by
  obtain ⟨hv, hn⟩ := mqoBones_valid known threshold bones bs hbs hp
  have hrun := addBoneNodes_run scale objs.length bs hv
  generalize hN : (bs.zipIdx.map fun p => boneNode scale objs.length bs bs.length p.2 p.1) = nodes at hrun
  have hnames : nodes.map (·.name) = bones.map (·.name) := by
    rw [← hn, ← hN]
    apply List.ext_getElem?
    intro k
    simp only [List.getElem?_map, List.getElem?_zipIdx]
    cases bs[k]? <;> simp [boneNode]
  refine ⟨nodes, _, hrun, hnames, ?_⟩
  intro src o fuel noInfo auto physics all name d d' hdn h table ht hb
  have hsub : Table table := by
    rcases ht with rfl | rfl | rfl
    exacts [table_mmd, table_en, table_ja]
  obtain ⟨e', h1, -, h3, h4, h5, h6⟩ := preset_skeleton src o fuel noInfo auto physics all name d d' h table ht hb
  have hboneAt : ∀ (k : Nat) b, bones[k]? = some b → ∃ n : ENode F, d.nodes[objs.length + k]? = some n ∧ n.name = b.name ∧ n.mesh = none := by
    intro k b hk
    have hk' : (nodes.map (·.name))[k]? = some b.name := by rw [hnames, List.getElem?_map, hk]; rfl
    rw [List.getElem?_map, Option.map_eq_some_iff] at hk'
    obtain ⟨g, hg, hgn⟩ := hk'
    refine ⟨⟨g.name, none, g.children, body k⟩, ?_, hgn, rfl⟩
    rw [hdn, exportNodes, List.getElem?_append_right (by omega), Nat.add_sub_cancel_left, List.getElem?_map, List.getElem?_zipIdx, hg]
    simp
  have hnodeAt : ∀ (i : Nat) (n : ENode F), d.nodes[i]? = some n →
      (n ∈ objs) ∨ ∃ k b, i = objs.length + k ∧ bones[k]? = some b ∧ n.name = b.name := by
    intro i n hi
    rw [hdn, exportNodes] at hi
    by_cases hlt : i < objs.length
    · rw [List.getElem?_append_left hlt] at hi
      exact .inl (List.mem_of_getElem? hi)
    · rw [List.getElem?_append_right (by omega), List.getElem?_map, List.getElem?_zipIdx] at hi
      cases hg : nodes[i - objs.length]? with
      | none => rw [hg] at hi; simp at hi
      | some g =>
        rw [hg] at hi
        simp only [Option.map_some, Option.some.injEq] at hi
        have hk' : (bones.map (·.name))[i - objs.length]? = some g.name := by rw [← hnames, List.getElem?_map, hg]; rfl
        rw [List.getElem?_map, Option.map_eq_some_iff] at hk'
        obtain ⟨b, hb1, hb2⟩ := hk'
        exact .inr ⟨i - objs.length, b, by omega, hb1, by rw [← hi, ← hb2]⟩
  have hsame : ∀ (j k : Nat) b b', bones[j]? = some b → bones[k]? = some b' → b.name = b'.name → j = k := by
    intro j k b b' hj hk e
    have hj' : (bones.map (·.name))[j]? = some b'.name := by rw [List.getElem?_map, hj, ← e]; rfl
    have hk' : (bones.map (·.name))[k]? = some b'.name := by rw [List.getElem?_map, hk]; rfl
    obtain ⟨hil, hiv⟩ := List.getElem?_eq_some_iff.1 hj'
    obtain ⟨hjl, hjv⟩ := List.getElem?_eq_some_iff.1 hk'
    exact (List.Nodup.getElem_inj_iff hd).1 (hiv.trans hjv.symm)
  have hplace : ∀ (k : Nat) b, bones[k]? = some b → ∀ (i : Nat) (n : ENode F), d.nodes[i]? = some n → n.name = b.name → i = objs.length + k := by
    intro k b hk i n hi hname
    rcases hnodeAt i n hi with hobj | ⟨j, b', e, hj, hj'⟩
    · exact absurd hname (ho n hobj b (List.mem_of_getElem? hk))
    · rw [e, hsame j k b' b hj hk (hj'.symm.trans hname)]
  have hhas : ∀ m : BoneMapping, ∀ (k : Nat) b, bones[k]? = some b → b.name ∈ m.names → HasBone d m := by
    intro m k b hk hm
    obtain ⟨n, hn1, hn2, hn3⟩ := hboneAt k b hk
    exact ⟨_, n, hn1, hn2 ▸ hm, hn3, fun j x hx hxn => hplace k b hk j x hx (hxn.trans hn2)⟩
  refine ⟨e', h1, h3, ?_, ?_⟩
  · intro hall
    refine h6 ?_
    intro m hm hr
    obtain ⟨b, hb1, hb2⟩ := hall m hm hr
    obtain ⟨k, hk⟩ := List.getElem?_of_mem hb1
    exact hhas m k b hk hb2
  · intro m hm k b hk hmem honly
    obtain ⟨x, hx, hxb⟩ := h5 m hm (hhas m k b hk hmem)
    refine ⟨x, hx, hxb, ?_⟩
    obtain ⟨m', hm', hmb', n, hn1, hn2⟩ := h4 x hx
    have hmm : m' = m := List.inj_on_of_nodup_map hsub.bones hm' hm (hmb'.trans hxb)
    subst hmm
    rw [← hmb'] at hn2
    refine hplace k b hk _ n hn1 (honly _ hn2 ?_)
    rcases hnodeAt _ n hn1 with hobj | ⟨j, b', -, hj, hj'⟩
    · exact .inr (List.mem_map.2 ⟨n, hobj, rfl⟩)
    · exact .inl (List.mem_map.2 ⟨b', List.mem_of_getElem? hj, hj'.symm⟩)

end

/-! ### A case for the hypotheses -/

namespace PmxCase

local instance ratOpsPmxVrm : FloatOps ℚ := ⟨id, fun a b => decide (a < b), fun a b => decide (a ≤ b)⟩

/-- A bone for each entry of the preset, all below the first. -/
def bones : List (MmdBone ℚ) :=
  mmdBones.zipIdx.map fun x => ⟨(x.1.names[0]?).getD [], ⟨x.2, 1, 0⟩, if x.2 = 0 then -1 else 0, 0, false, -1, 0, false⟩

def objs : List (ENode ℚ) := [⟨"Body".toList, some 0, [], none⟩]

def converted : List (Mqo.Bone ℚ) := (mqoBones [] 0 bones).getD []

def boneNodes : List (GNode ℚ) := ((addBoneNodes 1 1 converted).getD ([], [])).1

def model : VDoc Str Nat ℚ := ⟨exportNodes objs (fun _ => none) boneNodes, [none], ⟨[], [], [], [], [], []⟩, none⟩

theorem converts : mqoBones [] 0 bones = some converted := by
  have hs : (mqoBones [] 0 bones).isSome = true := by decide +kernel
  unfold converted
  cases hm : mqoBones [] 0 bones with
  | none => rw [hm] at hs; simp at hs
  | some l => rfl

theorem ranked : ∀ x ∈ (model.nodes.map ENode.view).zipIdx, ∀ c ∈ x.1.children, x.2 = 1 ∧ c ≠ 1 ∧
    c < (model.nodes.map ENode.view).length := by decide +kernel

theorem complete : ∀ m ∈ mmdBones, m.bone ∈ requiredBones → ∃ b ∈ bones, b.name ∈ m.names := by decide +kernel

theorem distinct : (bones.map (·.name)).Nodup := by decide +kernel

theorem parents : ∀ b ∈ bones, b.parent < bones.length := by decide +kernel

theorem apart : ∀ n ∈ objs, ∀ b ∈ bones, n.name ≠ b.name := by decide +kernel

theorem ends : ∃ d', saveVRM PresetCase.src ⟨fun _ _ => [], []⟩ 2 [] 0 true true "mmd".toList model = some (false, d') := by
  obtain ⟨err, d', h, -, he⟩ := vrm_ends_partial PresetCase.src ⟨fun _ _ => [], []⟩ 2 [] 0 true true "mmd".toList PresetCase.config (by rfl) model
    (fun i => if i = 1 then 1 else 0)
    (by
      intro a n hn c hc
      obtain ⟨e1, e2, e3⟩ := ranked (n, a) (List.mem_zipIdx_iff_getElem?.2 hn) c hc
      simp only at e1
      refine ⟨e3, ?_⟩
      show (if c = 1 then 1 else 0) < if a = 1 then 1 else 0
      rw [if_neg e2, if_pos e1]
      omega)
    (by intro t; show (if t = 1 then 1 else 0) < 2; split <;> omega) (by simp) (by intro m hm; simp [PresetCase.config] at hm) (by intro hp; exact absurd rfl hp)
  have : err = false := by
    rw [← Bool.not_eq_true, he]
    simp [PresetCase.config]
  subst this
  exact ⟨d', h⟩

/-- No required bone is missing in the file. -/
example : ∃ d' e', saveVRM PresetCase.src ⟨fun _ _ => [], []⟩ 2 [] 0 true true "mmd".toList model = some (false, d') ∧ d'.ext = some e' ∧
    validateBones e'.bones = none ∧ (e'.bones.map (·.node)).Nodup := by
  obtain ⟨nodes, roots, h1, -, h2⟩ := pmx_vrm_skeleton (T := Str) (S := Nat) [] 0 1 bones converted converts parents distinct objs
    (fun _ => none) apart
  have hnodes : model.nodes = exportNodes objs (fun _ => none) nodes := by
    have h1' : addBoneNodes 1 1 converted = some (nodes, roots) := h1
    have : boneNodes = nodes := by
      unfold boneNodes
      rw [h1']
      rfl
    rw [← this]
    rfl
  obtain ⟨d', h⟩ := ends
  obtain ⟨e', k1, k2, k3, -⟩ := h2 PresetCase.src _ 2 [] 0 true true "mmd".toList model d' hnodes h mmdBones (.inl rfl) (by rfl)
  exact ⟨d', e', h, k1, k3 complete, k2⟩

end PmxCase

end Verif.Vrm
