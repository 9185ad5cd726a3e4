import Verif.Vrm.Presets
import Verif.Vrm.ExportPartsProps

/-!
C201: the skeletons that the embedded presets give.
-/

namespace Verif.Vrm

/-- What is needed of a table of mappings: one mapping for each bone, all required bones, and no name for two bones. A name of
a required bone may be used only for that bone. -/
structure Table (ms : List BoneMapping) : Prop where
  bones : (ms.map (·.bone)).Nodup
  required : ∀ β ∈ requiredBones, β ∈ ms.map (·.bone)
  names : ∀ m ∈ ms, m.names ≠ []
  apart : ∀ m ∈ ms, ∀ m' ∈ ms, m.bone = m'.bone ∨ ∀ n ∈ m.names, n ∉ m'.names
  own : ∀ m ∈ ms, ∀ n ∈ m.names, n ∈ requiredBones → n = m.bone

theorem table_mmd : Table mmdBones :=
  ⟨by decide +kernel, by decide +kernel, by decide +kernel, by decide +kernel, by decide +kernel⟩

theorem table_en : Table mmdEnBones :=
  ⟨by decide +kernel, by decide +kernel, by decide +kernel, by decide +kernel, by decide +kernel⟩

theorem table_ja : Table mmdJaBones :=
  ⟨by decide +kernel, by decide +kernel, by decide +kernel, by decide +kernel, by decide +kernel⟩

theorem first_usable (nodes : List VNode) (l : List Str) (h : ∃ n ∈ l, ∃ id, Usable nodes n id) :
    ∃ pre name post id, l = pre ++ name :: post ∧ Usable nodes name id ∧ ∀ n ∈ pre, ∀ id', ¬ Usable nodes n id' := by
  induction l with
  | nil => simp at h
  | cons x l ih =>
    by_cases hx : ∃ id, Usable nodes x id
    · obtain ⟨id, hx⟩ := hx
      exact ⟨[], x, l, id, rfl, hx, by simp⟩
    · obtain ⟨n, hn, id, hu⟩ := h
      rcases List.mem_cons.1 hn with rfl | hn
      · exact absurd ⟨id, hu⟩ hx
      · obtain ⟨pre, name, post, id', e, h1, h2⟩ := ih ⟨n, hn, id, hu⟩
        refine ⟨x :: pre, name, post, id', by rw [e]; rfl, h1, ?_⟩
        intro n' hn' id'' hu'
        rcases List.mem_cons.1 hn' with rfl | hn'
        · exact hx ⟨_, hu'⟩
        · exact h2 n' hn' id'' hu'

/-- The node of a bone has a name of its mapping or the name of the bone, which is then required. -/
theorem bone_name (nodes : List VNode) (ms : List BoneMapping) (ht : Table ms) (b : VBone) (hb : b ∈ humanoidBones nodes ms) :
    ∃ m ∈ ms, m.bone = b.bone ∧ ∃ n, nodes[b.node]? = some n ∧ (n.name ∈ m.names ∨ (n.name = b.bone ∧ b.bone ∈ requiredBones)) := by
  rcases ((humanoidBones_spec nodes ms).2 b.bone b.node).1 ⟨b, hb, rfl, rfl⟩ with
    ⟨pre, m, post, e, hm, -, p1, name, p2, e2, hu, -⟩ | ⟨h1, -, h3⟩
  · obtain ⟨n, hn, hname, -⟩ := (nodeMap_spec _ _ _).1 hu.1
    exact ⟨m, by rw [e]; simp, hm, n, hn, .inl (by rw [hname, e2]; simp)⟩
  · obtain ⟨n, hn, hname, -⟩ := (nodeMap_spec _ _ _).1 h3
    obtain ⟨m, hm, hmb⟩ := List.mem_map.1 (ht.required _ h1)
    exact ⟨m, hm, hmb, n, hn, .inr ⟨hname, h1⟩⟩

theorem nodes_nodup (nodes : List VNode) (ms : List BoneMapping) (ht : Table ms) :
    ((humanoidBones nodes ms).map (·.node)).Nodup := by
  have hnd := (humanoidBones_spec nodes ms).1
  refine List.Nodup.map_on ?_ (List.Nodup.of_map _ hnd)
  intro x hx y hy hxy
  obtain ⟨m, hm, hmb, n, hn, h⟩ := bone_name nodes ms ht x hx
  obtain ⟨m', hm', hmb', n', hn', h'⟩ := bone_name nodes ms ht y hy
  rw [hxy, hn'] at hn
  rw [Option.some.injEq] at hn
  subst hn
  refine List.inj_on_of_nodup_map hnd hx hy ?_
  rcases h with h | ⟨h, hr⟩ <;> rcases h' with h' | ⟨h', hr'⟩
  · rcases ht.apart m hm m' hm' with e | e
    · rw [← hmb, ← hmb', e]
    · exact absurd h' (e _ h)
  · have := ht.own m hm _ h (h' ▸ hr')
    rw [← hmb, ← this, h']
  · have := ht.own m' hm' _ h' (h ▸ hr)
    rw [← hmb', ← this, h]
  · rw [← h, h']

theorem bone_given (nodes : List VNode) (ms : List BoneMapping) (ht : Table ms) (m : BoneMapping) (hm : m ∈ ms)
    (h : ∃ n ∈ m.names, ∃ id, Usable nodes n id) : ∃ b ∈ humanoidBones nodes ms, b.bone = m.bone := by
  obtain ⟨p1, name, p2, id, e, h1, h2⟩ := first_usable nodes m.names h
  obtain ⟨pre, post, rfl⟩ := List.append_of_mem hm
  obtain ⟨b, hb, hbb, -⟩ := ((humanoidBones_spec nodes _).2 m.bone id).2 (.inl ⟨pre, m, post, rfl, rfl, by
    intro m' hm' hb
    exfalso
    have := ht.bones
    rw [List.map_append, List.map_cons, List.nodup_append] at this
    exact this.2.2 _ (List.mem_map.2 ⟨m', hm', rfl⟩) _ List.mem_cons_self hb, p1, name, p2, e, h1, h2⟩)
  exact ⟨b, hb, hbb⟩

section

variable {T S F : Type} [Zero F] [DecidableEq F] [LT F] [DecidableLT F]

/-- The document has a node without mesh that only has a name of the mapping. -/
def HasBone (d : VDoc T S F) (m : BoneMapping) : Prop :=
  ∃ (i : Nat) (n : ENode F), d.nodes[i]? = some n ∧ n.name ∈ m.names ∧ n.mesh = none ∧
    ∀ (j : Nat) (x : ENode F), d.nodes[j]? = some x → x.name = n.name → j = i

/-- C201. With one of the embedded presets (and no mappings of its own) a VRM file has each humanoid bone at most once and no
node for two bones. The node of a bone has one of the names of the preset for that bone, or the name of the bone. A bone of
the preset is in the file if the document has a node for it, and if the document has nodes for all required bones the check
for missing bones finds none. -/
theorem preset_skeleton (src : Sources (Config T S F)) (o : Orders) (fuel : Nat) (noInfo : T) (auto : S) (physics all : Bool)
    (name : Str) (d d' : VDoc T S F) (h : saveVRM src o fuel noInfo auto physics all name d = some (false, d'))
    (table : List BoneMapping) (ht : table = mmdBones ∨ table = mmdEnBones ∨ table = mmdJaBones)
    (hb : (usedConfig src noInfo name).conf.bones ++ (presetConf src (usedConfig src noInfo name)).bones = table) :
    ∃ e', d'.ext = some e' ∧ (e'.bones.map (·.bone)).Nodup ∧ (e'.bones.map (·.node)).Nodup ∧
      (∀ b ∈ e'.bones, ∃ m ∈ table, m.bone = b.bone ∧
        ∃ n : ENode F, d.nodes[b.node]? = some n ∧ (n.name ∈ m.names ∨ n.name = b.bone)) ∧
      (∀ m ∈ table, HasBone d m → ∃ b ∈ e'.bones, b.bone = m.bone) ∧
      ((∀ m ∈ table, m.bone ∈ requiredBones → HasBone d m) → validateBones e'.bones = none) := by
  have htab : Table table := by
    rcases ht with rfl | rfl | rfl
    exacts [table_mmd, table_en, table_ja]
  obtain ⟨e', h1, h2, h3⟩ := saved_bones src o fuel noInfo auto physics all name d d' h
  rw [hb, h2, bare_view] at h3
  have hgiven : ∀ m ∈ table, HasBone d m → ∃ b ∈ e'.bones, b.bone = m.bone := by
    rintro m hm ⟨i, n, hn, hname, hmesh, hu⟩
    rw [h3]
    refine bone_given _ _ htab m hm ⟨n.name, hname, i, ?_, ?_⟩
    · rw [nodeMap_bare]
      refine (nodeMap_spec _ _ _).2 ⟨n.view, by rw [List.getElem?_map, hn]; rfl, rfl, ?_⟩
      intro j x hij hx hxn
      rw [List.getElem?_map, Option.map_eq_some_iff] at hx
      obtain ⟨y, hy, rfl⟩ := hx
      have := hu j y hy hxn
      omega
    · exact ⟨{ n.view with body := none }, by unfold bare; rw [List.getElem?_map, List.getElem?_map, hn]; rfl, hmesh⟩
  refine ⟨e', h1, by rw [h3]; exact (humanoidBones_spec _ _).1, by rw [h3]; exact nodes_nodup _ _ htab, ?_, hgiven, ?_⟩
  · intro b hbm
    rw [h3] at hbm
    obtain ⟨m, hm, hmb, n, hn, hor⟩ := bone_name _ _ htab b hbm
    obtain ⟨n', hn', -, -, hname⟩ := bare_get _ _ _ hn
    rw [List.getElem?_map, Option.map_eq_some_iff] at hn'
    obtain ⟨n2, hn2, rfl⟩ := hn'
    rw [hname] at hor
    exact ⟨m, hm, hmb, n2, hn2, hor.imp id And.left⟩
  · intro hall
    have : ∀ β ∈ requiredBones, ∃ b ∈ e'.bones, b.bone = β := by
      intro β hβ
      obtain ⟨m, hm, rfl⟩ := List.mem_map.1 (htab.required β hβ)
      exact hgiven m hm (hall m hm hβ)
    exact (validateBones_spec _).1.2 this

omit [Zero F] [DecidableEq F] [LT F] [DecidableLT F] in
theorem hasBone_of_nodup (d : VDoc T S F) (m : BoneMapping) (hd : (d.nodes.map (·.name)).Nodup)
    (h : ∃ n ∈ d.nodes, n.name ∈ m.names ∧ n.mesh = none) : HasBone d m := by
  obtain ⟨n, hn, h1, h2⟩ := h
  obtain ⟨i, hi⟩ := List.getElem?_of_mem hn
  refine ⟨i, n, hi, h1, h2, ?_⟩
  intro j x hx hxn
  have hi' : (d.nodes.map (·.name))[i]? = some n.name := by rw [List.getElem?_map, hi]; rfl
  have hj' : (d.nodes.map (·.name))[j]? = some n.name := by rw [List.getElem?_map, hx, ← hxn]; rfl
  obtain ⟨hil, hiv⟩ := List.getElem?_eq_some_iff.1 hi'
  obtain ⟨hjl, hjv⟩ := List.getElem?_eq_some_iff.1 hj'
  exact (List.Nodup.getElem_inj_iff hd).1 (hjv.trans hiv.symm)

end

/-! ### A case for the hypotheses -/

namespace PresetCase

/-- The preset as it is loaded. -/
def config : Config Str Nat ℚ := ⟨[], ⟨some fun s => if s = "*".toList then some ⟨false, [], 0⟩ else none, mmdBones, [], [], []⟩, false, false, false, []⟩

def src : Sources (Config Str Nat ℚ) where
  executable := true
  beside := fun _ => none
  embedded := fun s => if s = "mmd.json".toList then some [1] else none
  file := fun _ => none
  parse := fun b => if b = [1] then some config else none

/-- A model with a node for each bone, some with the Japanese and some with the English name, and a mesh. -/
def model : VDoc Str Nat ℚ where
  nodes := (mmdBones.zipIdx.map fun x => ⟨(x.1.names[x.2 % 2]?).getD [], none, [], none⟩) ++ [⟨"Body".toList, some 0, [], none⟩]
  meshes := [none]
  x := ⟨[], [], [], [], [], []⟩
  ext := none

theorem ends : ∃ d', saveVRM src ⟨fun _ _ => [], []⟩ 1 [] 0 true true "mmd".toList model = some (false, d') := by
  obtain ⟨err, d', h, -, he⟩ := vrm_ends_partial src ⟨fun _ _ => [], []⟩ 1 [] 0 true true "mmd".toList config (by rfl) model (fun _ => 0)
    (by
      intro a n hn c hc
      exfalso
      have hall : ∀ n ∈ model.nodes.map ENode.view, n.children = [] := by decide +kernel
      rw [hall n (List.mem_of_getElem? hn)] at hc
      simp at hc)
    (by simp) (by simp) (by intro m hm; simp [config] at hm) (by intro hp; exact absurd rfl hp)
  have : err = false := by
    rw [← Bool.not_eq_true, he]
    simp [config]
  subst this
  exact ⟨d', h⟩

/-- The file has all required bones. -/
example : ∃ d' e', saveVRM src ⟨fun _ _ => [], []⟩ 1 [] 0 true true "mmd".toList model = some (false, d') ∧ d'.ext = some e' ∧
    validateBones e'.bones = none ∧ (e'.bones.map (·.node)).Nodup := by
  obtain ⟨d', h⟩ := ends
  obtain ⟨e', h1, -, h3, -, -, h6⟩ := preset_skeleton src _ 1 [] 0 true true "mmd".toList model d' h mmdBones (.inl rfl)
    (by rfl)
  refine ⟨d', e', h, h1, h6 ?_, h3⟩
  intro m hm _
  refine hasBone_of_nodup model m (by decide +kernel) ?_
  revert m
  decide +kernel

end PresetCase

end Verif.Vrm
