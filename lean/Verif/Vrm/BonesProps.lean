import Verif.Vrm.Config
import Mathlib.Data.List.Induction
import Mathlib.Data.List.Nodup

/-!
C50: the required bone check. C51: humanoid bones after `ApplyConfig`. C93: the first person bone. C54: merging
presets. C94: the extension of the document.
-/

namespace Verif.Vrm

/-! ### C50 -/

theorem boneMap_append (bs : List VBone) (b : VBone) (s : Str) :
    boneMap (bs ++ [b]) s = if s = b.bone then some b.node else boneMap bs s := by
  simp [boneMap]

theorem boneMap_none (bs : List VBone) (s : Str) : boneMap bs s = none ↔ ∀ b ∈ bs, b.bone ≠ s := by
  induction bs using List.reverseRecOn with
  | nil => simp [boneMap]
  | append_singleton bs b ih =>
    rw [boneMap_append]
    by_cases h : s = b.bone
    · simp [h]
    · rw [if_neg h, ih]
      constructor
      · intro h1 x hx
        rcases List.mem_append.mp hx with hx | hx
        · exact h1 x hx
        · have : x = b := by simpa using hx
          rw [this]
          exact Ne.symm h
      · intro h1 x hx
        exact h1 x (List.mem_append.mpr (.inl hx))

theorem foldl_filter {α : Type} (p : α → Bool) (l : List α) : ∀ acc : List α,
    l.foldl (fun errs name => if p name then errs ++ [name] else errs) acc = acc ++ l.filter p := by
  induction l with
  | nil => intro acc; simp
  | cons a l ih =>
    intro acc
    rw [List.foldl_cons, ih]
    cases h : p a <;> simp [h]

/-- C50. `CheckRequiredBones` gives exactly the required names no humanoid bone has, in their order. -/
theorem checkRequiredBones_spec (bones : List VBone) :
    checkRequiredBones bones = requiredBones.filter (fun name => decide (∀ b ∈ bones, b.bone ≠ name)) := by
  unfold checkRequiredBones
  have h := foldl_filter (fun name => decide (boneMap bones name = none)) requiredBones []
  simp only [decide_eq_true_eq, List.nil_append] at h
  rw [h]
  apply List.filter_congr
  intro s _
  simp only [boneMap_none]

/-- C50. `ValidateBones` fails exactly if a required bone is missing; the error names the missing ones. -/
theorem validateBones_spec (bones : List VBone) :
    (validateBones bones = none ↔ ∀ name ∈ requiredBones, ∃ b ∈ bones, b.bone = name) ∧
    ∀ e, validateBones bones = some e → e = requiredBones.filter (fun name => decide (∀ b ∈ bones, b.bone ≠ name)) := by
  unfold validateBones
  rw [checkRequiredBones_spec]
  constructor
  · simp only [List.length_pos_iff, ne_eq, ite_eq_right_iff, reduceCtorEq, imp_false, not_not, List.filter_eq_nil_iff,
      decide_eq_true_eq, not_forall, exists_prop]
    constructor
    · intro h a ha
      by_contra hno
      exact h ⟨a, ha, hno⟩
    · rintro h ⟨a, ha, hno⟩
      exact hno (h a ha)
  · intro e h
    simp only at h
    split at h
    · exact (Option.some.inj h).symm
    · simp at h

/-- C50. A document that passes has each bone the VRM specification requires: the trunk, and on either side the
arm and the leg with hand and foot. -/
theorem validateBones_vrm (bones : List VBone) (h : validateBones bones = none) :
    (∀ name ∈ ["hips", "spine", "chest", "neck", "head"], ∃ b ∈ bones, b.bone = String.toList name) ∧
    ∀ side ∈ ["left", "right"],
      ∀ part ∈ ["UpperArm", "LowerArm", "Hand", "UpperLeg", "LowerLeg", "Foot"],
        ∃ b ∈ bones, b.bone = String.toList side ++ String.toList part := by
  have h := (validateBones_spec bones).1.mp h
  constructor
  · intro name hn
    refine h _ ?_
    revert name
    decide
  · intro side hs part hp
    refine h _ ?_
    revert side part
    decide

/-- The hypothesis holds for a document with the bones and a tail. -/
example : validateBones ((requiredBones ++ ["tail".toList]).map fun n => ⟨n, 1, true, false⟩) = none := by decide

example : checkRequiredBones [⟨"hips".toList, 3, true, false⟩, ⟨"tail".toList, 4, true, false⟩] =
    requiredBones.drop 1 := by decide

/-! ### C94 -/

/-- C94. After asking for the extension it is in the document, listed as used at most once more than before,
and asking again gives the same one and changes nothing. -/
theorem getVRM_spec {V : Type} (new : V) (d : ExtDoc V) :
    (getVRM new d).2.ext = some (getVRM new d).1 ∧
    (∀ new', getVRM new' (getVRM new d).2 = ((getVRM new d).1, (getVRM new d).2)) ∧
    (d.ext = none → "VRM".toList ∈ (getVRM new d).2.used) ∧
    (d.used.Nodup → (getVRM new d).2.used.Nodup) ∧ ∀ e ∈ d.used, e ∈ (getVRM new d).2.used := by
  obtain ⟨ext, used⟩ := d
  cases ext with
  | some v => simp [getVRM]
  | none =>
    simp only [getVRM, true_and]
    refine ⟨fun _ => trivial, fun _ => ?_, ?_, ?_⟩
    · split <;> simp_all
    · intro h
      split
      · exact h
      · rename_i hn
        rw [List.nodup_append]
        refine ⟨h, by simp, ?_⟩
        rintro a ha b hb rfl
        have : a = "VRM".toList := by simpa using hb
        rw [this] at ha
        exact hn ha
    · intro e he
      split <;> simp [he]

example : (getVRM 5 ⟨none, ["KHR".toList]⟩).2.used = ["KHR".toList, "VRM".toList] := by decide

/-! ### C54 -/

theorem mergeMaterials_some {M : Type} (preset : Str → Option M) (ks : List Str) : ∀ f : Str → Option M,
    ∃ g, mergeMaterials preset ks (some f) = some (some g) ∧
      ∀ s, g s = (f s).or (if s ∈ ks then preset s else none) := by
  induction ks with
  | nil => intro f; exact ⟨f, rfl, by simp⟩
  | cons k ks ih =>
    intro f
    rw [mergeMaterials]
    cases hk : preset k with
    | none =>
      simp only
      obtain ⟨g, e, h⟩ := ih f
      refine ⟨g, e, ?_⟩
      intro s
      rw [h]
      by_cases hs : s = k
      · simp [hs, hk]
      · simp [hs]
    | some m =>
      simp only
      obtain ⟨g, e, h⟩ := ih (if f k = none then fun s => if s = k then some m else f s else f)
      refine ⟨g, e, ?_⟩
      intro s
      rw [h]
      by_cases hf : f k = none
      · rw [if_pos hf]
        by_cases hs : s = k
        · simp [hs, hk, hf]
        · simp [hs]
      · rw [if_neg hf]
        by_cases hs : s = k
        · subst hs
          cases hx : f s with
          | none => exact absurd hx hf
          | some x => simp
        · simp [hs]

/-- C54, for configs with a section for materials: merging succeeds, whatever the order of the iteration;
each own setting is kept, missing ones come from the preset, and the own mappings and groups come first.
Missing: configs without that section, see `mergePreset_false`. -/
theorem mergePreset_partial {M G C : Type} (ks : List Str) (c preset : Conf M G C) (f g : Str → Option M)
    (hc : c.materials = some f) (hp : preset.materials = some g) (hks : ∀ s, s ∈ ks ↔ g s ≠ none) :
    ∃ c' h, mergePreset ks c preset = some c' ∧ c'.materials = some h ∧
      (∀ s m, f s = some m → h s = some m) ∧ (∀ s, f s = none → h s = g s) ∧
      c'.bones = c.bones ++ preset.bones ∧ c'.morphs = c.morphs ++ preset.morphs ∧
      c'.groups = c.groups ++ preset.groups ∧ c'.colliders = c.colliders ++ preset.colliders := by
  obtain ⟨h, e, hh⟩ := mergeMaterials_some g ks f
  refine ⟨_, h, by rw [mergePreset, hc, hp]; simp only [Option.getD_some, e]; rfl, rfl, ?_, ?_, rfl, rfl, rfl, rfl⟩
  · intro s m hs
    rw [hh, hs]
    rfl
  · intro s hs
    rw [hh, hs]
    by_cases hk : s ∈ ks
    · simp [hk]
    · rw [if_neg hk]
      have := mt (hks s).mpr hk
      simp only [ne_eq, not_not] at this
      simp [this]

/-- Merging a preset without materials always succeeds. -/
theorem mergePreset_none {M G C : Type} (c preset : Conf M G C) :
    mergePreset [] c preset =
      some ⟨c.materials, c.bones ++ preset.bones, c.morphs ++ preset.morphs, c.groups ++ preset.groups, c.colliders ++ preset.colliders⟩ := rfl

/-- C54 is false of the code: with a config without material settings every preset that has some crashes. -/
theorem mergePreset_false {M G C : Type} (ks : List Str) (c preset : Conf M G C) (g : Str → Option M) (s : Str) (m : M)
    (hc : c.materials = none) (hp : preset.materials = some g) (hks : ∀ s, s ∈ ks ↔ g s ≠ none) (hs : g s = some m) :
    mergePreset ks c preset = none := by
  rw [mergePreset, hc, hp]
  simp only [Option.getD_some, Option.map_eq_none_iff]
  have hmem : s ∈ ks := (hks s).mpr (by simp [hs])
  cases ks with
  | nil => simp at hmem
  | cons k ks =>
    rw [mergeMaterials]
    have : g k ≠ none := (hks k).mp (by simp)
    cases hk : g k with
    | none => exact absurd hk this
    | some m => rfl

example : ∃ (c p : Conf Nat Nat Nat) (f g : Str → Option Nat), c.materials = some f ∧ p.materials = some g ∧
    (∀ s, s ∈ ["skin".toList] ↔ g s ≠ none) ∧ f "face".toList = some 2 :=
  ⟨⟨some fun s => if s = "face".toList then some 2 else none, [], [], [], []⟩,
   ⟨some fun s => if s = "skin".toList then some 1 else none, [], [], [], []⟩, _, _, rfl, rfl, by
    intro s; by_cases h : s = "skin".toList <;> simp_all, by decide⟩

/-! ### C51 -/

theorem nodeMapFrom_spec (nodes : List VNode) : ∀ (i : Nat) (m : Str → Option Nat) (s : Str) (id : Nat),
    nodeMapFrom i nodes m s = some id ↔
      (∃ k n, id = i + k ∧ nodes[k]? = some n ∧ n.name = s ∧ ∀ (j : Nat) (n' : VNode), k < j → nodes[j]? = some n' → n'.name ≠ s) ∨
      (m s = some id ∧ ∀ n ∈ nodes, n.name ≠ s) := by
  induction nodes with
  | nil => intro i m s id; simp [nodeMapFrom]
  | cons n ns ih =>
    intro i m s id
    rw [nodeMapFrom, ih]
    constructor
    · rintro (⟨k, n', h1, h2, h3, h4⟩ | ⟨h1, h2⟩)
      · left
        refine ⟨k + 1, n', by omega, by simpa using h2, h3, ?_⟩
        intro j n'' hj hn
        cases j with
        | zero => omega
        | succ j => exact h4 j n'' (by omega) (by simpa using hn)
      · by_cases hs : s = n.name
        · left
          rw [if_pos hs] at h1
          refine ⟨0, n, by have := Option.some.inj h1; omega, rfl, hs.symm, ?_⟩
          intro j n'' hj hn
          cases j with
          | zero => omega
          | succ j =>
            have hn' : ns[j]? = some n'' := by simpa using hn
            exact h2 n'' (List.mem_of_getElem? hn')
        · right
          rw [if_neg hs] at h1
          refine ⟨h1, ?_⟩
          intro n' hn'
          rcases List.mem_cons.mp hn' with rfl | hn'
          · exact Ne.symm hs
          · exact h2 n' hn'
    · rintro (⟨k, n', h1, h2, h3, h4⟩ | ⟨h1, h2⟩)
      · cases k with
        | zero =>
          right
          have : n = n' := by simpa using h2
          subst this
          refine ⟨by rw [if_pos h3.symm]; simp [h1], ?_⟩
          intro x hx
          obtain ⟨j, hj⟩ := List.getElem?_of_mem hx
          exact h4 (j + 1) x (by omega) (by simpa using hj)
        | succ k =>
          left
          refine ⟨k, n', by omega, by simpa using h2, h3, ?_⟩
          intro j n'' hj hn
          exact h4 (j + 1) n'' (by omega) (by simpa using hn)
      · right
        have hs : s ≠ n.name := Ne.symm (h2 n (by simp))
        exact ⟨by rw [if_neg hs]; exact h1, fun x hx => h2 x (by simp [hx])⟩

/-- The node of a name is the last one with that name. -/
theorem nodeMap_spec (nodes : List VNode) (s : Str) (id : Nat) :
    nodeMap nodes s = some id ↔
      ∃ n, nodes[id]? = some n ∧ n.name = s ∧ ∀ (j : Nat) (n' : VNode), id < j → nodes[j]? = some n' → n'.name ≠ s := by
  unfold nodeMap
  rw [nodeMapFrom_spec]
  constructor
  · rintro (⟨k, n, h1, h2⟩ | h)
    · have : id = k := by omega
      subst this
      exact ⟨n, h2⟩
    · simp at h
  · rintro ⟨n, h⟩
    exact .inl ⟨id, n, by omega, h⟩

/-- A name that can be used for a bone: it belongs to a node without mesh. -/
def Usable (nodes : List VNode) (name : Str) (id : Nat) : Prop :=
  nodeMap nodes name = some id ∧ ∃ n, nodes[id]? = some n ∧ n.mesh = none

theorem hasMesh_of_map (nodes : List VNode) (name : Str) (id : Nat) (h : nodeMap nodes name = some id) :
    hasMesh nodes id = false ↔ Usable nodes name id := by
  obtain ⟨n, hn, _⟩ := (nodeMap_spec nodes name id).mp h
  simp [hasMesh, hn, Usable, h]

theorem findBone_none (nodes : List VNode) (ns : List Str) :
    findBone nodes ns = none ↔ ∀ name ∈ ns, ∀ id, ¬ Usable nodes name id := by
  induction ns with
  | nil => simp [findBone]
  | cons name ns ih =>
    rw [findBone]
    cases h : nodeMap nodes name with
    | none =>
      simp only
      rw [ih]
      constructor
      · intro h1 x hx id hu
        rcases List.mem_cons.mp hx with rfl | hx
        · rw [hu.1] at h; simp at h
        · exact h1 x hx id hu
      · intro h1 x hx
        exact h1 x (by simp [hx])
    | some id =>
      simp only
      cases hm : hasMesh nodes id with
      | false =>
        simp only [Bool.false_eq_true, if_false, reduceCtorEq, false_iff]
        intro h1
        exact h1 name (by simp) id ((hasMesh_of_map nodes name id h).mp hm)
      | true =>
        simp only [if_true]
        rw [ih]
        constructor
        · intro h1 x hx id' hu
          rcases List.mem_cons.mp hx with rfl | hx
          · have := hu.1
            rw [h] at this
            have := Option.some.inj this
            subst this
            have := (hasMesh_of_map nodes x id h).mpr hu
            rw [hm] at this
            simp at this
          · exact h1 x hx id' hu
        · intro h1 x hx
          exact h1 x (by simp [hx])

theorem findBone_some (nodes : List VNode) (ns : List Str) (id : Nat) :
    findBone nodes ns = some id ↔
      ∃ pre name post, ns = pre ++ name :: post ∧ Usable nodes name id ∧ ∀ n ∈ pre, ∀ id', ¬ Usable nodes n id' := by
  induction ns with
  | nil => simp [findBone]
  | cons name ns ih =>
    have skip : (∀ id', ¬ Usable nodes name id') → ((findBone nodes ns = some id) ↔
        ∃ pre n post, name :: ns = pre ++ n :: post ∧ Usable nodes n id ∧ ∀ n ∈ pre, ∀ id', ¬ Usable nodes n id') := by
      intro hno
      rw [ih]
      constructor
      · rintro ⟨pre, n, post, h1, h2, h3⟩
        refine ⟨name :: pre, n, post, by simp [h1], h2, ?_⟩
        intro x hx
        rcases List.mem_cons.mp hx with rfl | hx
        · exact hno
        · exact h3 x hx
      · rintro ⟨pre, n, post, h1, h2, h3⟩
        cases pre with
        | nil =>
          simp only [List.nil_append, List.cons.injEq] at h1
          rw [← h1.1] at h2
          exact absurd h2 (hno id)
        | cons x pre =>
          simp only [List.cons_append, List.cons.injEq] at h1
          exact ⟨pre, n, post, h1.2, h2, fun y hy => h3 y (by simp [hy])⟩
    rw [findBone]
    cases h : nodeMap nodes name with
    | none =>
      simp only
      apply skip
      intro id' hu
      rw [hu.1] at h
      simp at h
    | some id0 =>
      simp only
      cases hm : hasMesh nodes id0 with
      | false =>
        have hu := (hasMesh_of_map nodes name id0 h).mp hm
        simp only [Bool.false_eq_true, if_false, Option.some.injEq]
        constructor
        · rintro rfl
          exact ⟨[], name, ns, rfl, hu, by simp⟩
        · rintro ⟨pre, n, post, h1, h2, h3⟩
          cases pre with
          | nil =>
            simp only [List.nil_append, List.cons.injEq] at h1
            rw [← h1.1] at h2
            have := h2.1
            rw [h] at this
            exact Option.some.inj this
          | cons x pre =>
            simp only [List.cons_append, List.cons.injEq] at h1
            exact absurd hu (h3 name (by simp [h1.1]) id0)
      | true =>
        simp only [if_true]
        apply skip
        intro id' hu
        have h' := hu.1
        rw [h] at h'
        have := Option.some.inj h'
        subst this
        have := (hasMesh_of_map nodes name id0 h).mpr hu
        rw [hm] at this
        simp at this

/-- The mapping says nothing about the document: it has names, but none of them can be used. -/
def Idle (nodes : List VNode) (m : BoneMapping) : Prop :=
  m.names ≠ [] ∧ ∀ name ∈ m.names, ∀ id, ¬ Usable nodes name id

/-- The mapping gives the bone to the node: `name` is its first name that can be used. -/
def Gives (nodes : List VNode) (m : BoneMapping) (id : Nat) : Prop :=
  ∃ pre name post, m.names = pre ++ name :: post ∧ Usable nodes name id ∧ ∀ n ∈ pre, ∀ id', ¬ Usable nodes n id'

/-- What the mappings so far say about each bone. -/
structure BoneInv (nodes : List VNode) (ms : List BoneMapping) (s : BoneState) : Prop where
  found : ∀ β, s.found β = none ↔ ∀ m ∈ ms, m.bone = β → Idle nodes m
  val : ∀ (β : Str) (x : Int), s.found β = some x → ∃ pre m post, ms = pre ++ m :: post ∧ m.bone = β ∧
    (∀ m' ∈ pre, m'.bone = β → Idle nodes m') ∧
    ((m.names = [] ∧ x = -1) ∨ ∃ id : Nat, x = id ∧ Gives nodes m id)
  bones : ∀ b ∈ s.bones, s.found b.bone = some (b.node : Int)
  all : ∀ (β : Str) (id : Nat), s.found β = some (id : Int) → ∃ b ∈ s.bones, b.bone = β ∧ b.node = id
  nodup : (s.bones.map (·.bone)).Nodup

theorem applyMapping_inv (nodes : List VNode) (ms : List BoneMapping) (s : BoneState) (h : BoneInv nodes ms s)
    (m : BoneMapping) : BoneInv nodes (ms ++ [m]) (applyMapping nodes s m) := by
  have ext : ∀ (β : Str) (x : Int), s.found β = some x → ∃ pre m' post, ms ++ [m] = pre ++ m' :: post ∧ m'.bone = β ∧
      (∀ m'' ∈ pre, m''.bone = β → Idle nodes m'') ∧
      ((m'.names = [] ∧ x = -1) ∨ ∃ id : Nat, x = id ∧ Gives nodes m' id) := by
    intro β x hx
    obtain ⟨pre, m', post, h1, h2⟩ := h.val β x hx
    exact ⟨pre, m', post ++ [m], by simp [h1], h2⟩
  have fnd : ∀ β, (∀ m' ∈ ms ++ [m], m'.bone = β → Idle nodes m') ↔ s.found β = none ∧ (m.bone = β → Idle nodes m) := by
    intro β
    rw [h.found]
    constructor
    · intro h1
      exact ⟨fun x hx => h1 x (List.mem_append.mpr (.inl hx)), h1 m (by simp)⟩
    · rintro ⟨h1, h2⟩ x hx
      rcases List.mem_append.mp hx with hx | hx
      · exact h1 x hx
      · have : x = m := by simpa using hx
        rw [this]
        exact h2
  unfold applyMapping
  by_cases hf : (s.found m.bone).isSome = true
  · rw [if_pos hf]
    refine ⟨?_, ext, h.bones, h.all, h.nodup⟩
    intro β
    rw [fnd]
    constructor
    · intro h1
      refine ⟨h1, ?_⟩
      rintro rfl
      rw [h1] at hf
      simp at hf
    · exact fun h1 => h1.1
  · rw [if_neg hf]
    have hn : s.found m.bone = none := by simpa using hf
    have hidle := (h.found m.bone).mp hn
    by_cases he : m.names = []
    · rw [if_pos he]
      refine ⟨?_, ?_, ?_, ?_, h.nodup⟩
      · intro β
        rw [fnd]
        simp only
        by_cases hb : β = m.bone
        · subst hb
          simp only [if_true, reduceCtorEq, false_iff, not_and]
          intro _ h2
          exact (h2 trivial).1 he
        · rw [if_neg hb]
          simp [Ne.symm hb]
      · intro β x hx
        simp only at hx
        by_cases hb : β = m.bone
        · subst hb
          rw [if_pos rfl] at hx
          exact ⟨ms, m, [], by simp, rfl, hidle, .inl ⟨he, (Option.some.inj hx).symm⟩⟩
        · rw [if_neg hb] at hx
          exact ext β x hx
      · intro b hb
        have := h.bones b hb
        simp only
        rw [if_neg]
        · exact this
        · intro hbb
          rw [hbb, hn] at this
          simp at this
      · intro β id hid
        simp only at hid
        by_cases hb : β = m.bone
        · rw [if_pos hb] at hid
          have := Option.some.inj hid
          omega
        · rw [if_neg hb] at hid
          exact h.all β id hid
    · rw [if_neg he]
      cases hfb : findBone nodes m.names with
      | none =>
        simp only
        refine ⟨?_, ext, h.bones, h.all, h.nodup⟩
        intro β
        rw [fnd]
        constructor
        · intro h1
          exact ⟨h1, fun _ => ⟨he, (findBone_none nodes m.names).mp hfb⟩⟩
        · exact fun h1 => h1.1
      | some id =>
        simp only
        have hg := (findBone_some nodes m.names id).mp hfb
        have hnew : ∀ b ∈ s.bones, b.bone ≠ m.bone := by
          intro b hb hbb
          have := h.bones b hb
          rw [hbb, hn] at this
          simp at this
        refine ⟨?_, ?_, ?_, ?_, ?_⟩
        · intro β
          rw [fnd]
          simp only
          by_cases hb : β = m.bone
          · subst hb
            simp only [if_true, reduceCtorEq, false_iff, not_and]
            intro _ h2
            have := (findBone_none nodes m.names).mpr (h2 trivial).2
            rw [hfb] at this
            simp at this
          · rw [if_neg hb]
            simp [Ne.symm hb]
        · intro β x hx
          simp only at hx
          by_cases hb : β = m.bone
          · subst hb
            rw [if_pos rfl] at hx
            exact ⟨ms, m, [], by simp, rfl, hidle, .inr ⟨id, (Option.some.inj hx).symm, hg⟩⟩
          · rw [if_neg hb] at hx
            exact ext β x hx
        · intro b hb
          simp only
          rcases List.mem_append.mp hb with hb | hb
          · rw [if_neg (hnew b hb)]
            exact h.bones b hb
          · have : b = ⟨m.bone, id, m.useDefault || !m.limits, m.limits⟩ := by simpa using hb
            subst this
            simp
        · intro β id' hid
          simp only at hid
          by_cases hb : β = m.bone
          · rw [if_pos hb] at hid
            have := Option.some.inj hid
            exact ⟨_, List.mem_append.mpr (.inr (List.mem_singleton.mpr rfl)), hb.symm, by simp only; omega⟩
          · rw [if_neg hb] at hid
            obtain ⟨b, hb1, hb2⟩ := h.all β id' hid
            exact ⟨b, List.mem_append.mpr (.inl hb1), hb2⟩
        · rw [List.map_append, List.nodup_append]
          refine ⟨h.nodup, by simp, ?_⟩
          intro a ha c hc
          obtain ⟨b, hb, rfl⟩ := List.mem_map.mp ha
          have : c = m.bone := by simpa using hc
          rw [this]
          exact hnew b hb

theorem applyMappings_inv (nodes : List VNode) (ms : List BoneMapping) : BoneInv nodes ms (applyMappings nodes ms) := by
  induction ms using List.reverseRecOn with
  | nil => exact ⟨by simp [applyMappings], by simp [applyMappings], by simp [applyMappings], by simp [applyMappings], by simp [applyMappings]⟩
  | append_singleton ms m ih =>
    have : applyMappings nodes (ms ++ [m]) = applyMapping nodes (applyMappings nodes ms) m := by simp [applyMappings]
    rw [this]
    exact applyMapping_inv nodes ms _ ih m

/-- The bones added by the fallback. -/
theorem fallback_spec (nodes : List VNode) (found : Str → Option Int) (names : List Str) : ∀ (bones : List VBone),
    names.Nodup → (bones.map (·.bone)).Nodup → (∀ b ∈ bones, b.bone ∈ names → (found b.bone).isSome = true) →
    let r := names.foldl (fun bones name =>
      if (found name).isSome then bones
      else match nodeMap nodes name with
        | some id => bones ++ [⟨name, id, true, false⟩]
        | none => bones) bones
    (r.map (·.bone)).Nodup ∧ ∀ b, b ∈ r ↔ b ∈ bones ∨
      (b.bone ∈ names ∧ found b.bone = none ∧ nodeMap nodes b.bone = some b.node ∧ b.useDefault = true ∧ b.limits = false) := by
  induction names with
  | nil => intro bones _ h _; simpa using h
  | cons name names ih =>
    intro bones hn hb hf
    obtain ⟨hn1, hn2⟩ := List.nodup_cons.mp hn
    simp only [List.foldl_cons]
    by_cases hs : (found name).isSome = true
    · rw [if_pos hs]
      obtain ⟨h1, h2⟩ := ih bones hn2 hb (fun b hb1 hb2 => hf b hb1 (by simp [hb2]))
      refine ⟨h1, ?_⟩
      intro b
      rw [h2]
      constructor
      · rintro (h | ⟨h, h'⟩)
        · exact .inl h
        · exact .inr ⟨by simp [h], h'⟩
      · rintro (h | ⟨h, h'⟩)
        · exact .inl h
        · rcases List.mem_cons.mp h with h | h
          · rw [← h, h'.1] at hs
            simp at hs
          · exact .inr ⟨h, h'⟩
    · rw [if_neg hs]
      have hs' : found name = none := by simpa using hs
      cases hm : nodeMap nodes name with
      | none =>
        simp only
        obtain ⟨h1, h2⟩ := ih bones hn2 hb (fun b hb1 hb2 => hf b hb1 (by simp [hb2]))
        refine ⟨h1, ?_⟩
        intro b
        rw [h2]
        constructor
        · rintro (h | ⟨h, h'⟩)
          · exact .inl h
          · exact .inr ⟨by simp [h], h'⟩
        · rintro (h | ⟨h, h'⟩)
          · exact .inl h
          · rcases List.mem_cons.mp h with h | h
            · rw [h, hm] at h'
              simp at h'
            · exact .inr ⟨h, h'⟩
      | some id =>
        simp only
        have hnew : ∀ b ∈ bones, b.bone ≠ name := by
          intro b hb1 hb2
          have := hf b hb1 (by simp [hb2])
          rw [hb2] at this
          exact hs this
        obtain ⟨h1, h2⟩ := ih (bones ++ [⟨name, id, true, false⟩]) hn2 (by
            rw [List.map_append, List.nodup_append]
            refine ⟨hb, by simp, ?_⟩
            intro a ha c hc
            obtain ⟨b, hb1, rfl⟩ := List.mem_map.mp ha
            have : c = name := by simpa using hc
            rw [this]
            exact hnew b hb1)
          (by
            intro b hb1 hb2
            rcases List.mem_append.mp hb1 with hb1 | hb1
            · exact hf b hb1 (by simp [hb2])
            · have : b = ⟨name, id, true, false⟩ := by simpa using hb1
              rw [this] at hb2
              exact absurd hb2 hn1)
        refine ⟨h1, ?_⟩
        intro b
        rw [h2, List.mem_append, List.mem_singleton]
        constructor
        · rintro ((h | h) | ⟨h, h'⟩)
          · exact .inl h
          · right
            subst h
            exact ⟨by simp, hs', hm, rfl, rfl⟩
          · exact .inr ⟨by simp [h], h'⟩
        · rintro (h | ⟨h, h1, h2, h3, h4⟩)
          · exact .inl (.inl h)
          · rcases List.mem_cons.mp h with h | h
            · left; right
              rw [h, hm] at h2
              obtain ⟨bb, bn, bu, bl⟩ := b
              simp only at h h2 h3 h4
              have := Option.some.inj h2
              rw [h, h3, h4, this]
            · exact .inr ⟨h, h1, h2, h3, h4⟩

theorem requiredBones_nodup : requiredBones.Nodup := by decide

/-- C51. Each bone appears at most once. It is at a node exactly if either the first mapping for it that is
not idle gives it that node, or all mappings for it are idle, it is required, and the node has its name. In
particular an empty mapping, which is not idle and gives nothing, suppresses the bone. -/
theorem humanoidBones_spec (nodes : List VNode) (ms : List BoneMapping) :
    ((humanoidBones nodes ms).map (·.bone)).Nodup ∧
    ∀ (β : Str) (id : Nat), (∃ b ∈ humanoidBones nodes ms, b.bone = β ∧ b.node = id) ↔
      (∃ pre m post, ms = pre ++ m :: post ∧ m.bone = β ∧ (∀ m' ∈ pre, m'.bone = β → Idle nodes m') ∧ Gives nodes m id) ∨
      (β ∈ requiredBones ∧ (∀ m ∈ ms, m.bone = β → Idle nodes m) ∧ nodeMap nodes β = some id) := by
  have hi := applyMappings_inv nodes ms
  obtain ⟨h1, h2⟩ := fallback_spec nodes (applyMappings nodes ms).found requiredBones (applyMappings nodes ms).bones
    requiredBones_nodup hi.nodup (fun b hb _ => by rw [hi.bones b hb]; rfl)
  refine ⟨h1, ?_⟩
  intro β id
  have hmem : ∀ b, b ∈ humanoidBones nodes ms ↔ _ := h2
  constructor
  · rintro ⟨b, hb, rfl, rfl⟩
    rcases (hmem b).mp hb with h | ⟨h, h', h'', _⟩
    · left
      obtain ⟨pre, m, post, k1, k2, k3, k4⟩ := hi.val b.bone b.node (hi.bones b h)
      refine ⟨pre, m, post, k1, k2, k3, ?_⟩
      rcases k4 with ⟨_, k4⟩ | ⟨id, k4, k5⟩
      · omega
      · have : b.node = id := by omega
        rw [this]
        exact k5
    · exact .inr ⟨h, (hi.found b.bone).mp h', h''⟩
  · rintro (⟨pre, m, post, k1, k2, k3, k4⟩ | ⟨h, h', h''⟩)
    · have hne : (applyMappings nodes ms).found β ≠ none := by
        intro hno
        have := (hi.found β).mp hno m (by simp [k1]) k2
        obtain ⟨p, name, q, e, hu, _⟩ := k4
        exact this.2 name (by simp [e]) id hu
      obtain ⟨x, hx⟩ := Option.ne_none_iff_exists'.mp hne
      obtain ⟨pre', m', post', l1, l2, l3, l4⟩ := hi.val β x hx
      have hgi : ¬ Idle nodes m := by
        rintro ⟨_, hid⟩
        obtain ⟨p, name, q, e, hu, _⟩ := k4
        exact hid name (by simp [e]) id hu
      have hgi' : ¬ Idle nodes m' := by
        rintro ⟨hne, hid⟩
        rcases l4 with ⟨l4, _⟩ | ⟨_, _, p, name, q, e, hu, _⟩
        · exact hne l4
        · exact hid name (by simp [e]) _ hu
      -- both are the first mapping that is not idle
      have heq : pre = pre' ∧ m = m' := by
        rw [k1] at l1
        rcases List.append_eq_append_iff.mp l1 with ⟨as, e1, e2⟩ | ⟨as, e1, e2⟩
        · cases as with
          | nil =>
            simp only [List.append_nil] at e1
            simp only [List.nil_append, List.cons.injEq] at e2
            exact ⟨e1.symm, e2.1⟩
          | cons y as =>
            simp only [List.cons_append, List.cons.injEq] at e2
            exact absurd (l3 m (by rw [e1, e2.1]; simp) k2) hgi
        · cases as with
          | nil =>
            simp only [List.append_nil] at e1
            simp only [List.nil_append, List.cons.injEq] at e2
            exact ⟨e1, e2.1.symm⟩
          | cons y as =>
            simp only [List.cons_append, List.cons.injEq] at e2
            exact absurd (k3 m' (by rw [e1, e2.1]; simp) l2) hgi'
      rw [← heq.2] at l4
      have hx' : x = (id : Int) := by
        rcases l4 with ⟨l4, _⟩ | ⟨id', l5, l6⟩
        · obtain ⟨p, name, q, e, _⟩ := k4
          rw [l4] at e
          simp at e
        · have := (findBone_some nodes m.names id).mpr k4
          rw [(findBone_some nodes m.names id').mpr l6] at this
          have := Option.some.inj this
          rw [l5, this]
      rw [hx'] at hx
      obtain ⟨b, hb, e1, e2⟩ := hi.all β id hx
      exact ⟨b, (hmem b).mpr (.inl hb), e1, e2⟩
    · exact ⟨⟨β, id, true, false⟩, (hmem _).mpr (.inr ⟨h, (hi.found β).mpr h', h'', rfl, rfl⟩), rfl, rfl⟩

/-- C51: bones that come from mappings are at existing nodes without mesh whose name is listed. Missing: the
fallback of the required bones, see `humanoidBones_mesh_false`. -/
theorem humanoidBones_node_partial (nodes : List VNode) (ms : List BoneMapping) (b : VBone)
    (hb : b ∈ humanoidBones nodes ms) (hm : ∃ m ∈ ms, m.bone = b.bone ∧ ¬ Idle nodes m) :
    ∃ n, nodes[b.node]? = some n ∧ n.mesh = none ∧ ∃ m ∈ ms, m.bone = b.bone ∧ n.name ∈ m.names := by
  rcases ((humanoidBones_spec nodes ms).2 b.bone b.node).mp ⟨b, hb, rfl, rfl⟩ with
    ⟨pre, m, post, k1, k2, k3, p, name, q, e, ⟨hu1, n, hn, hmesh⟩, _⟩ | ⟨h1, h2, h3⟩
  · obtain ⟨n', hn', hname, _⟩ := (nodeMap_spec nodes name b.node).mp hu1
    rw [hn] at hn'
    have := Option.some.inj hn'
    subst this
    exact ⟨n, hn, hmesh, m, by simp [k1], k2, by rw [hname, e]; simp⟩
  · obtain ⟨m, hm1, hm2, hm3⟩ := hm
    exact absurd (h2 m hm1 hm2) hm3

/-- The bones always refer to existing nodes. -/
theorem humanoidBones_exist (nodes : List VNode) (ms : List BoneMapping) (b : VBone)
    (hb : b ∈ humanoidBones nodes ms) : ∃ n, nodes[b.node]? = some n := by
  rcases ((humanoidBones_spec nodes ms).2 b.bone b.node).mp ⟨b, hb, rfl, rfl⟩ with
    ⟨pre, m, post, k1, k2, k3, p, name, q, e, ⟨hu1, n, hn, hmesh⟩, _⟩ | ⟨h1, h2, h3⟩
  · exact ⟨n, hn⟩
  · obtain ⟨n', hn', _⟩ := (nodeMap_spec nodes b.bone b.node).mp h3
    exact ⟨n', hn'⟩

/-- C51 is false of the code: a required bone without usable mapping is taken from a node of that name even
if it is a mesh. -/
theorem humanoidBones_mesh_false (nodes : List VNode) (ms : List BoneMapping) (β : Str) (id : Nat) (n : VNode)
    (hβ : β ∈ requiredBones) (hms : ∀ m ∈ ms, m.bone = β → Idle nodes m) (hid : nodeMap nodes β = some id)
    (hn : nodes[id]? = some n) (hmesh : n.mesh ≠ none) :
    ∃ b ∈ humanoidBones nodes ms, b.bone = β ∧ ∃ n, nodes[b.node]? = some n ∧ n.mesh ≠ none := by
  obtain ⟨b, h1, h2, h3⟩ := ((humanoidBones_spec nodes ms).2 β id).mpr (.inr ⟨hβ, hms, hid⟩)
  exact ⟨b, h1, h2, n, by rw [h3]; exact hn, hmesh⟩

example : humanoidBones [⟨"head".toList, some 0, [], none⟩] [] = [⟨"head".toList, 0, true, false⟩] := by decide +kernel

/-- A document and a config: the user config suppresses the neck, the preset comes after it. -/
example : humanoidBones [⟨"Body".toList, some 0, [], none⟩, ⟨"center".toList, none, [], none⟩, ⟨"kubi".toList, none, [], none⟩]
    [⟨"neck".toList, false, false, [], []⟩, ⟨"hips".toList, false, true, "center".toList, ["Body".toList]⟩,
     ⟨"neck".toList, false, false, [], ["kubi".toList]⟩] = [⟨"hips".toList, 1, false, true⟩] := by decide +kernel

/-- The document passes the check after `ApplyConfig` exactly if each required bone is given by its first
mapping that is not idle or, if there is none, there is a node of its name. -/
theorem validate_after_apply (nodes : List VNode) (ms : List BoneMapping) :
    validateBones (humanoidBones nodes ms) = none ↔ ∀ β ∈ requiredBones, ∃ id,
      (∃ pre m post, ms = pre ++ m :: post ∧ m.bone = β ∧ (∀ m' ∈ pre, m'.bone = β → Idle nodes m') ∧ Gives nodes m id) ∨
      ((∀ m ∈ ms, m.bone = β → Idle nodes m) ∧ nodeMap nodes β = some id) := by
  rw [(validateBones_spec _).1]
  constructor
  · intro h β hβ
    obtain ⟨b, hb, e⟩ := h β hβ
    refine ⟨b.node, ?_⟩
    rcases ((humanoidBones_spec nodes ms).2 β b.node).mp ⟨b, hb, e, rfl⟩ with h | ⟨_, h⟩
    · exact .inl h
    · exact .inr h
  · intro h β hβ
    obtain ⟨id, h⟩ := h β hβ
    obtain ⟨b, hb, e, _⟩ := ((humanoidBones_spec nodes ms).2 β id).mpr (h.imp (fun h => h) (fun h => ⟨hβ, h⟩))
    exact ⟨b, hb, e⟩

/-! ### C93 -/

/-- C93: if the head is not suppressed, the first person bone is the head bone of the document. Missing: a
suppressed head, see `firstPerson_false`. -/
theorem firstPerson_partial (nodes : List VNode) (ms : List BoneMapping) (x : Int) (hx : firstPerson nodes ms = some x)
    (hs : ∀ m ∈ ms, m.bone = "head".toList → m.names ≠ []) :
    ∃ b ∈ humanoidBones nodes ms, b.bone = "head".toList ∧ x = b.node := by
  have hi := applyMappings_inv nodes ms
  obtain ⟨pre, m, post, k1, k2, k3, k4⟩ := hi.val _ x hx
  rcases k4 with ⟨h, _⟩ | ⟨id, rfl, h⟩
  · exact absurd h (hs m (by simp [k1]) k2)
  · obtain ⟨b, hb, e1, e2⟩ := ((humanoidBones_spec nodes ms).2 "head".toList id).mpr (.inl ⟨pre, m, post, k1, k2, k3, h⟩)
    exact ⟨b, hb, e1, by rw [e2]⟩

/-- C93 is false of the code: whenever the config suppresses the head, the first person bone is node -1. -/
theorem firstPerson_false (nodes : List VNode) (m : BoneMapping) (ms : List BoneMapping)
    (hb : m.bone = "head".toList) (he : m.names = []) : firstPerson nodes (m :: ms) = some (-1) := by
  have hi := applyMappings_inv nodes (m :: ms)
  unfold firstPerson
  cases h : (applyMappings nodes (m :: ms)).found "head".toList with
  | none => exact absurd he ((hi.found _).mp h m (by simp) hb).1
  | some x =>
    obtain ⟨pre, m', post, k1, k2, k3, k4⟩ := hi.val _ x h
    cases pre with
    | nil =>
      simp only [List.nil_append, List.cons.injEq] at k1
      rcases k4 with ⟨_, k4⟩ | ⟨id, _, p, name, q, e, _⟩
      · rw [k4]
      · rw [← k1.1, he] at e
        simp at e
    | cons y pre =>
      simp only [List.cons_append, List.cons.injEq] at k1
      exact absurd he (k3 m (by simp [k1.1]) hb).1

example : firstPerson [] [⟨"head".toList, false, false, [], []⟩] = some (-1) ∧
    firstPerson [⟨"atama".toList, none, [], none⟩] [⟨"head".toList, false, false, [], ["atama".toList]⟩] = some 0 := by
  decide +kernel

end Verif.Vrm
