import Verif.Vrm.Export
import Verif.Vrm.MorphProps
import Verif.Vrm.SpringProps
import Verif.Gltf.ExtensionsProps
import Mathlib.Data.List.Nodup
import Mathlib.Algebra.Order.Ring.Rat

/-!
C194: which config is used for a VRM file. C195: saving a VRM file as VRM again. C196: what a preset can change.
C197: saving as VRM ends with a file.
-/

namespace Verif.Vrm

open Verif.Conv (NodeBody ColliderGroup convertColliders applyColliders)
open Verif.Gltf (XDoc XMat Setting applySettings applySetting addVRM removeExtension physicsName materialProperties settingOf)

/-! ### C194 -/

/-- C194. The config for a VRM file: the option if it is given; otherwise the file beside the input with the ending
`.vrmconfig.json`, if there is one; otherwise the preset `mmd` for PMX and PMD files; otherwise none. A name with a dot or
slash is a file; other names are presets, and a file beside the program comes before the embedded one. -/
theorem config_used {C : Type} (src : Sources C) (found : Str → Bool) (flag input inputExt : Str) (hx : src.executable = true) :
    let guess := input.take (input.length - (Cmd.ext input).length) ++ ".vrmconfig.json".toList
    let used := loadConfig src (configName found flag input inputExt ".vrm".toList)
    (flag ≠ [] → ('.' ∈ flag ∨ '/' ∈ flag) → used = (src.file flag).bind src.parse) ∧
    (flag ≠ [] → '.' ∉ flag → '/' ∉ flag → ∀ data, src.beside (flag ++ ".json".toList) = some data → used = src.parse data) ∧
    (flag ≠ [] → '.' ∉ flag → '/' ∉ flag → src.beside (flag ++ ".json".toList) = none →
      ∀ data, src.embedded (flag ++ ".json".toList) = some data → used = src.parse data) ∧
    (flag = [] → found guess = true → used = (src.file guess).bind src.parse) ∧
    (flag = [] → found guess = false → (inputExt = ".pmx".toList ∨ inputExt = ".pmd".toList) →
      src.beside "mmd.json".toList = none → ∀ data, src.embedded "mmd.json".toList = some data → used = src.parse data) ∧
    (flag = [] → found guess = false → inputExt ≠ ".pmx".toList → inputExt ≠ ".pmd".toList →
      src.beside ".json".toList = none → src.embedded ".json".toList = none → used = src.parse []) := by
  intro guess used
  have hdot : '.' ∈ guess := List.mem_append.2 (.inr (by decide))
  have hne : guess ≠ [] := List.ne_nil_of_mem hdot
  have hflag : flag ≠ [] → configName found flag input inputExt ".vrm".toList = flag := by
    intro h
    unfold configName
    simp [h]
  have hmmd : Cmd.isMMD inputExt = true ↔ inputExt = ".pmx".toList ∨ inputExt = ".pmd".toList := by
    unfold Cmd.isMMD
    rw [Bool.or_eq_true, beq_iff_eq, beq_iff_eq]
  have hX : ∀ X : Str, (if ".vrm".toList = ".vrm".toList ∧ flag = [] ∧ found guess = true then guess else flag) = X →
      configName found flag input inputExt ".vrm".toList =
        if Cmd.isMMD inputExt = true ∧ ".vrm".toList = ".vrm".toList ∧ X = [] then "mmd".toList else X := by
    rintro _ rfl; rfl
  have hguess : flag = [] → found guess = true → configName found flag input inputExt ".vrm".toList = guess := by
    intro h h2
    rw [hX guess (if_pos ⟨rfl, h, h2⟩), if_neg (fun h => hne h.2.2)]
  have hrest : flag = [] → found guess = false → configName found flag input inputExt ".vrm".toList =
      if Cmd.isMMD inputExt = true then "mmd".toList else [] := by
    intro h h2
    rw [hX [] ((if_neg (by simp [h2])).trans h)]
    by_cases hm : Cmd.isMMD inputExt = true
    · rw [if_pos ⟨hm, rfl, rfl⟩, if_pos hm]
    · rw [if_neg (fun h => hm h.1), if_neg hm]
  refine ⟨?_, ?_, ?_, ?_, ?_, ?_⟩
  · intro h hd
    show loadConfig src (configName found flag input inputExt ".vrm".toList) = _
    rw [hflag h]
    unfold loadConfig
    rw [if_neg (by rintro ⟨h1, h2⟩; exact hd.elim h1 h2)]
  · intro h h1 h2 data hb
    show loadConfig src (configName found flag input inputExt ".vrm".toList) = _
    rw [hflag h]
    unfold loadConfig
    rw [if_pos ⟨h1, h2⟩, if_pos hx, hb]
  · intro h h1 h2 hb data he
    show loadConfig src (configName found flag input inputExt ".vrm".toList) = _
    rw [hflag h]
    unfold loadConfig
    rw [if_pos ⟨h1, h2⟩, if_pos hx, hb, he]
    rfl
  · intro h h2
    show loadConfig src (configName found flag input inputExt ".vrm".toList) = _
    rw [hguess h h2]
    unfold loadConfig
    rw [if_neg (fun h => h.1 hdot)]
  · intro h h2 hm hb data he
    show loadConfig src (configName found flag input inputExt ".vrm".toList) = _
    rw [hrest h h2, if_pos (hmmd.2 hm)]
    unfold loadConfig
    have hb' : src.beside ("mmd".toList ++ ".json".toList) = none := hb
    have he' : src.embedded ("mmd".toList ++ ".json".toList) = some data := he
    rw [if_pos (by decide), if_pos hx, hb', he']
    rfl
  · intro h h2 h3 h4 hb he
    show loadConfig src (configName found flag input inputExt ".vrm".toList) = _
    rw [hrest h h2, if_neg (fun hm => (hmmd.1 hm).elim h3 h4)]
    unfold loadConfig
    have hb' : src.beside ([] ++ ".json".toList) = none := hb
    have he' : src.embedded ([] ++ ".json".toList) = none := he
    rw [if_pos (by decide), if_pos hx, hb', he']
    rfl

/-- A PMX file without config and with one beside it. -/
example : configName (fun _ => false) [] "a/b.pmx".toList ".pmx".toList ".vrm".toList = "mmd".toList ∧
    configName (fun s => s == "a/b.vrmconfig.json".toList) [] "a/b.pmx".toList ".pmx".toList ".vrm".toList = "a/b.vrmconfig.json".toList ∧
    configName (fun _ => true) "mine".toList "a/b.pmx".toList ".pmx".toList ".vrm".toList = "mine".toList ∧
    configName (fun _ => false) [] "a/b.vrm".toList ".vrm".toList ".vrm".toList = [] := by decide +kernel

/-- C194 is false of the code for files whose name has no dot and no slash: they are never read. -/
theorem plain_name_false {C : Type} (src : Sources C) (name : Str) (h1 : '.' ∉ name) (h2 : '/' ∉ name)
    (file : Str → Option (List UInt8)) : loadConfig { src with file := file } name = loadConfig src name := by
  unfold loadConfig
  simp only [h1, h2, not_false_eq_true, and_self, if_true]

example : '.' ∉ "myconfig".toList ∧ '/' ∉ "myconfig".toList := by decide

section

variable {T S F : Type}

/-! ### Nodes without bodies -/

/-- The nodes after the physics extension has been removed. -/
def bare (ns : List VNode) : List VNode := ns.map fun n => { n with body := none }

theorem bare_view (ns : List (ENode F)) : (ns.map ENode.bare).map ENode.view = bare (ns.map ENode.view) := by
  unfold bare
  rw [List.map_map, List.map_map]
  rfl

theorem nodeMapFrom_bare (ns : List VNode) : ∀ i m, nodeMapFrom i (bare ns) m = nodeMapFrom i ns m := by
  induction ns with
  | nil => intro i m; rfl
  | cons n ns ih => intro i m; exact ih _ _

theorem nodeMap_bare (ns : List VNode) : nodeMap (bare ns) = nodeMap ns := nodeMapFrom_bare ns 0 _

theorem bare_get (ns : List VNode) (i : Nat) (n : VNode) (h : (bare ns)[i]? = some n) :
    ∃ n', ns[i]? = some n' ∧ n.mesh = n'.mesh ∧ n.children = n'.children ∧ n.name = n'.name := by
  unfold bare at h
  rw [List.getElem?_map, Option.map_eq_some_iff] at h
  obtain ⟨n', h1, rfl⟩ := h
  exact ⟨n', h1, rfl, rfl, rfl⟩

theorem ranked_bare (ns : List VNode) (rank : Nat → Nat) (h : Ranked ns rank) : Ranked (bare ns) rank := by
  intro a n hn c hc
  obtain ⟨n', h1, -, h2, -⟩ := bare_get ns a n hn
  have : (bare ns).length = ns.length := by unfold bare; simp
  rw [this]
  exact h a n' h1 c (h2 ▸ hc)

/-! ### C195 -/

variable [Zero F] [DecidableEq F] [LT F] [DecidableLT F]

theorem applySettings_none (ms : List (XMat F)) (used : List Str) :
    applySettings (fun _ => none) ms used = (ms, used) := by
  induction ms with
  | nil => rfl
  | cons m ms ih =>
    unfold applySettings
    simp only [settingOf, ih]

/-- What the config is after `DetectSpringBones` and `ConvertColliders`. -/
theorem withPhysics_spec (auto : S) (fuel : Nat) (nodes : List (ENode F)) (c c' : Config T S F)
    (h : withPhysics auto fuel nodes c = some c') :
    c'.preset = c.preset ∧ c'.info = c.info ∧ c'.exportAllMorph = c.exportAllMorph ∧ c'.conf.bones = c.conf.bones ∧
      c'.conf.morphs = c.conf.morphs ∧ c'.conf.materials = c.conf.materials ∧
      (∃ more, c'.conf.groups = c.conf.groups ++ more) ∧
      ∃ more, c'.conf.colliders = c.conf.colliders ++ more := by
  unfold withPhysics at h
  rw [Option.map_eq_some_iff] at h
  obtain ⟨c1, h1, h2⟩ := h
  have key : c1.preset = c.preset ∧ c1.info = c.info ∧ c1.exportAllMorph = c.exportAllMorph ∧ c1.conf.bones = c.conf.bones ∧
      c1.conf.morphs = c.conf.morphs ∧ c1.conf.materials = c.conf.materials ∧
      (∃ more, c1.conf.groups = c.conf.groups ++ more) ∧ c1.conf.colliders = c.conf.colliders := by
    split at h1
    · unfold withSprings at h1
      rw [Option.map_eq_some_iff] at h1
      obtain ⟨is, -, h1⟩ := h1
      simp only at h1
      split at h1
      · subst h1
        exact ⟨rfl, rfl, rfl, rfl, rfl, rfl, ⟨_, rfl⟩, rfl⟩
      · subst h1
        exact ⟨rfl, rfl, rfl, rfl, rfl, rfl, ⟨[], by simp⟩, rfl⟩
    · rw [Option.some.injEq] at h1
      subst h1
      exact ⟨rfl, rfl, rfl, rfl, rfl, rfl, ⟨[], by simp⟩, rfl⟩
  obtain ⟨a1, a2, a3, a4, a5, a6, a7, a8⟩ := key
  split at h2
  · subst h2
    exact ⟨a1, a2, a3, a4, a5, a6, a7, _, by rw [← a8]⟩
  · subst h2
    exact ⟨a1, a2, a3, a4, a5, a6, a7, [], by rw [a8]; simp⟩

/-- Saving without config: what the document is. -/
theorem save_without_config (src : Sources (Config T S F)) (o : Orders) (fuel : Nat) (noInfo : T) (auto : S) (name : Str)
    (hname : loadConfig src name = none) (d : VDoc T S F) (e : Ext T S F) (he : d.ext = some e) :
    ∃ d', saveVRM src o fuel noInfo auto false false name d = some (false, d') ∧
      d'.ext = some { e with
        version := "modelconv-v0.2".toList
        info := noInfo
        bones := humanoidBones (bare (d.nodes.map ENode.view)) []
        properties := materialProperties e.properties (addVRM (removeExtension physicsName d.x)) } ∧
      d'.x = addVRM (removeExtension physicsName d.x) := by
  have hx : firstPerson (bare (d.nodes.map ENode.view)) [] = none := rfl
  unfold saveVRM
  rw [hname]
  simp only [Option.getD_none, Config.empty, withFlags, Bool.or_false]
  unfold applyVRMConfig withPhysics
  simp only [Bool.false_eq_true, if_false, Option.map_some]
  unfold applyConfig
  simp only [ne_eq, not_true_eq_false, if_false]
  unfold applyMerged
  simp only [addSprings, applyMorphs, Option.map_some, getVRM, he, Bool.false_eq_true, if_false, List.append_nil,
    Option.getD_none, applySettings_none, bare_view, hx, applyColliders, List.filterMap_nil]
  refine ⟨_, rfl, ?_, rfl⟩
  cases e.firstPerson <;> rfl

/-- C195, the part that holds: saving a VRM file as VRM without config keeps the first person bone, the blend shapes, the
spring bones and the colliders, and the properties of the materials. Missing: see `resave_false`. -/
theorem resave_partial (src : Sources (Config T S F)) (o : Orders) (fuel : Nat) (noInfo : T) (auto : S) (name : Str)
    (hname : loadConfig src name = none) (d : VDoc T S F) (e : Ext T S F) (he : d.ext = some e)
    (hp : e.properties.length = d.x.mats.length) :
    ∃ d' e', saveVRM src o fuel noInfo auto false false name d = some (false, d') ∧ d'.ext = some e' ∧
      e'.firstPerson = e.firstPerson ∧ e'.blend = e.blend ∧ e'.groups = e.groups ∧ e'.colliders = e.colliders ∧
      e'.properties = e.properties := by
  obtain ⟨d', h1, h2, -⟩ := save_without_config src o fuel noInfo auto name hname d e he
  refine ⟨d', _, h1, h2, rfl, rfl, rfl, rfl, ?_⟩
  show materialProperties e.properties (addVRM (removeExtension physicsName d.x)) = _
  unfold materialProperties
  rw [if_neg]
  have : (addVRM (removeExtension physicsName d.x)).mats.length = d.x.mats.length := by
    unfold addVRM removeExtension
    split <;> simp
  rw [this, hp]
  simp

/-- C195 is false of the code: saving a VRM file as VRM without config always replaces title, author and license by empty
ones and drops every humanoid bone that is not one of the required bones or whose node is not named like the bone. -/
theorem resave_false (src : Sources (Config T S F)) (o : Orders) (fuel : Nat) (noInfo : T) (auto : S) (name : Str)
    (hname : loadConfig src name = none) (d : VDoc T S F) (e : Ext T S F) (he : d.ext = some e) :
    ∃ d' e', saveVRM src o fuel noInfo auto false false name d = some (false, d') ∧ d'.ext = some e' ∧
      e'.info = noInfo ∧
      ∀ b ∈ e'.bones, b.bone ∈ requiredBones ∧ ∃ n, d.nodes[b.node]? = some n ∧ n.name = b.bone := by
  obtain ⟨d', h1, h2, -⟩ := save_without_config src o fuel noInfo auto name hname d e he
  refine ⟨d', _, h1, h2, rfl, ?_⟩
  intro b hb
  rcases ((humanoidBones_spec _ []).2 b.bone b.node).mp ⟨b, hb, rfl, rfl⟩ with ⟨pre, m, post, k, -⟩ | ⟨k1, -, k2⟩
  · simp at k
  · refine ⟨k1, ?_⟩
    rw [nodeMap_bare] at k2
    obtain ⟨n, hn, hname', -⟩ := (nodeMap_spec _ _ _).mp k2
    rw [List.getElem?_map, Option.map_eq_some_iff] at hn
    obtain ⟨n', hn1, rfl⟩ := hn
    exact ⟨n', hn1, hname'⟩

/-- C194 is false of the code for configs that cannot be read: the file is saved as if there were no config, and no error
is reported. -/
theorem config_error_false (src : Sources (Config T S F)) (o : Orders) (fuel : Nat) (noInfo : T) (auto : S) (physics all : Bool)
    (name other : Str) (h : loadConfig src name = none) (h' : loadConfig src other = none) (d : VDoc T S F) :
    saveVRM src o fuel noInfo auto physics all name d = saveVRM src o fuel noInfo auto physics all other d ∧
    ∀ err d', saveVRM src o fuel noInfo auto physics all name d = some (err, d') → err = false := by
  constructor
  · unfold saveVRM
    rw [h, h']
  · intro err d' hs
    unfold saveVRM at hs
    rw [h] at hs
    unfold applyVRMConfig at hs
    split at hs
    · simp at hs
    · rename_i c hc
      have hpre : c.preset = [] := (withPhysics_spec auto fuel d.nodes _ c hc).1
      unfold applyConfig at hs
      simp only [hpre, ne_eq, not_true_eq_false, if_false] at hs
      rw [Option.map_eq_some_iff] at hs
      obtain ⟨_, -, e⟩ := hs
      simp only [Prod.mk.injEq] at e
      exact e.1.symm

/-! ### C196 -/

/-- The written material `m'` is the material `m` with what the setting says. -/
def Follows (x : Setting F) (m m' : XMat F) : Prop :=
  m'.name = m.name ∧
  (x.forceUnlit = false → ∀ e, e ∈ m'.exts ↔ e ∈ m.exts ∧ e ≠ physicsName) ∧ (x.forceUnlit = true → m'.exts = [Gltf.unlitExt]) ∧
  (x.alphaMode = "blend".toList → m'.mode = .blend) ∧ (x.alphaMode = "mask".toList → m'.mode = .mask) ∧
  (x.alphaMode = "opaque".toList → m'.mode = .opaqueMode) ∧ (x.alphaMode = [] → m'.mode = m.mode) ∧
  (0 < x.alpha → m.alpha.isSome = true → m'.alpha = some x.alpha) ∧ (m.alpha = none → m'.alpha = none) ∧
  (¬ 0 < x.alpha → m'.alpha = m.alpha)

theorem follows_of_settings (g : Str → Option (Setting F)) (x : Gltf.XDoc F) (i : Nat) (m : XMat F) (s : Setting F)
    (hm : x.mats[i]? = some m) (hs : g m.name = some s ∨ (g m.name = none ∧ g "*".toList = some s)) :
    ∃ m', (applySettings g (addVRM (removeExtension physicsName x)).mats
      (addVRM (removeExtension physicsName x)).used).1[i]? = some m' ∧ Follows s m m' := by
  have hmats : (addVRM (removeExtension physicsName x)).mats[i]? =
      some { m with exts := m.exts.filter (· ≠ physicsName) } := by
    have : (addVRM (removeExtension physicsName x)).mats = (removeExtension physicsName x).mats := by
      unfold addVRM; split <;> rfl
    rw [this]
    unfold removeExtension
    simp [hm]
  have hall := Gltf.settings_exact g (addVRM (removeExtension physicsName x)).mats (addVRM (removeExtension physicsName x)).used
  rw [List.forall₂_iff_get] at hall
  obtain ⟨hlen, hall⟩ := hall
  obtain ⟨hi, hmi⟩ := List.getElem?_eq_some_iff.1 hmats
  have hi' : i < (applySettings g (addVRM (removeExtension physicsName x)).mats
      (addVRM (removeExtension physicsName x)).used).1.length := hlen ▸ hi
  have h := hall i hi hi'
  simp only [List.get_eq_getElem] at h
  rw [hmi] at h
  obtain ⟨h1, -, h3⟩ := h
  obtain ⟨a1, a2, a3, a4, a5, a6, a7, a8, a9⟩ := h3 s hs
  refine ⟨_, List.getElem?_eq_getElem hi', h1, ?_, a2, a3, a4, a5, a6, a7, a8, a9⟩
  intro hf e
  rw [a1 hf]
  simp

/-- What is written with a config and its preset. -/
theorem save_merged (src : Sources (Config T S F)) (o : Orders) (fuel : Nat) (noInfo : T) (auto : S) (physics all : Bool)
    (name : Str) (c p : Config T S F) (hc : loadConfig src name = some c) (hpre : c.preset ≠ [])
    (hp : loadConfig src c.preset = some p) (d d' : VDoc T S F) (err : Bool)
    (h : saveVRM src o fuel noInfo auto physics all name d = some (err, d')) :
    ∃ ms e', mergeMaterials (p.conf.materials.getD fun _ => none) o.keys c.conf.materials = some ms ∧
      err = false ∧ d'.ext = some e' ∧ d'.nodes = d.nodes.map ENode.bare ∧ e'.info = c.info ∧
      e'.bones = humanoidBones (d'.nodes.map ENode.view) (c.conf.bones ++ p.conf.bones) ∧
      d'.x.mats = (applySettings (ms.getD fun _ => none) (addVRM (removeExtension physicsName d.x)).mats
        (addVRM (removeExtension physicsName d.x)).used).1 := by
  unfold saveVRM at h
  rw [hc, Option.getD_some] at h
  unfold applyVRMConfig at h
  split at h
  · simp at h
  · rename_i c1 hc1
    obtain ⟨k1, k2, k3, k4, k5, k6, -⟩ := withPhysics_spec auto fuel d.nodes _ c1 hc1
    have k1' : c1.preset = c.preset := k1
    unfold applyConfig at h
    simp only [k1', hp, if_pos hpre] at h
    split at h
    · simp at h
    · rename_i conf hm
      unfold mergePreset at hm
      rw [Option.map_eq_some_iff] at hm
      obtain ⟨ms, hm1, hm2⟩ := hm
      rw [k6] at hm1
      rw [Option.map_eq_some_iff] at h
      obtain ⟨d2, h1, h2⟩ := h
      simp only [Prod.mk.injEq] at h2
      obtain ⟨rfl, rfl⟩ := h2
      unfold applyMerged at h1
      simp only at h1
      split at h1
      · simp at h1
      · split at h1
        · simp at h1
        · rw [Option.some.injEq] at h1
          subst h1
          refine ⟨ms, _, hm1, rfl, rfl, rfl, k2, ?_, ?_⟩
          · show humanoidBones _ conf.bones = _
            rw [← hm2]
            simp only [k4]
            rfl
          · rw [← hm2]

/-- C196. Title, author and license come from the config, not from its preset. A bone that the config gives to a node has
that node, whatever the preset says, and a material that the config names has the setting of the config. -/
theorem own_config_wins (src : Sources (Config T S F)) (o : Orders) (fuel : Nat) (noInfo : T) (auto : S) (physics all : Bool)
    (name : Str) (c p : Config T S F) (hc : loadConfig src name = some c) (hpre : c.preset ≠ [])
    (hp : loadConfig src c.preset = some p) (d d' : VDoc T S F) (err : Bool)
    (h : saveVRM src o fuel noInfo auto physics all name d = some (err, d')) :
    err = false ∧ ∃ e', d'.ext = some e' ∧ e'.info = c.info ∧
      (∀ pre m post id, c.conf.bones = pre ++ m :: post → (∀ m' ∈ pre, m'.bone = m.bone → Idle (d'.nodes.map ENode.view) m') →
        Gives (d'.nodes.map ENode.view) m id → ∀ b ∈ e'.bones, b.bone = m.bone → b.node = id) ∧
      (∀ pre m post id, c.conf.bones = pre ++ m :: post → (∀ m' ∈ pre, m'.bone = m.bone → Idle (d'.nodes.map ENode.view) m') →
        Gives (d'.nodes.map ENode.view) m id → ∃ b ∈ e'.bones, b.bone = m.bone ∧ b.node = id) ∧
      ∀ f, c.conf.materials = some f → ∀ (i : Nat) (m : XMat F) s, d.x.mats[i]? = some m → f m.name = some s →
        ∃ m', d'.x.mats[i]? = some m' ∧ Follows s m m' := by
  obtain ⟨ms, e', h1, rfl, h3, h4, h5, h6, h7⟩ := save_merged src o fuel noInfo auto physics all name c p hc hpre hp d d' err h
  have hbone : ∀ pre m post id, c.conf.bones = pre ++ m :: post →
      (∀ m' ∈ pre, m'.bone = m.bone → Idle (d'.nodes.map ENode.view) m') →
      Gives (d'.nodes.map ENode.view) m id → ∃ b ∈ e'.bones, b.bone = m.bone ∧ b.node = id := by
    intro pre m post id hb hi hg
    rw [h6]
    exact ((humanoidBones_spec _ _).2 m.bone id).2 (.inl ⟨pre, m, post ++ p.conf.bones, by rw [hb]; simp, rfl, hi, hg⟩)
  refine ⟨rfl, e', h3, h5, ?_, hbone, ?_⟩
  · intro pre m post id hb hi hg b hbm hbe
    obtain ⟨b', hb1, hb2, hb3⟩ := hbone pre m post id hb hi hg
    have hnd := (humanoidBones_spec (d'.nodes.map ENode.view) (c.conf.bones ++ p.conf.bones)).1
    rw [← h6] at hnd
    rw [← hb3, List.inj_on_of_nodup_map hnd hbm hb1 (by rw [hbe, hb2])]
  · intro f hf i m s hm hs
    rw [hf] at h1
    obtain ⟨g, hg1, hg2⟩ := mergeMaterials_some (p.conf.materials.getD fun _ => none) o.keys f
    rw [hg1, Option.some.injEq] at h1
    subst h1
    rw [h7]
    exact follows_of_settings g d.x i m s hm (.inl (by rw [hg2, hs]; rfl))

/-- C196: a setting of the preset for a named material is used before the setting of the config for all materials (`*`). -/
theorem own_wildcard_false (src : Sources (Config T S F)) (o : Orders) (fuel : Nat) (noInfo : T) (auto : S) (physics all : Bool)
    (name : Str) (c p : Config T S F) (hc : loadConfig src name = some c) (hpre : c.preset ≠ [])
    (hp : loadConfig src c.preset = some p) (d d' : VDoc T S F) (err : Bool)
    (h : saveVRM src o fuel noInfo auto physics all name d = some (err, d'))
    (f g : Str → Option (Setting F)) (hf : c.conf.materials = some f) (hg : p.conf.materials = some g)
    (i : Nat) (m : XMat F) (hm : d.x.mats[i]? = some m) (hfm : f m.name = none) (s : Setting F) (hgm : g m.name = some s)
    (hkey : m.name ∈ o.keys) :
    ∃ m', d'.x.mats[i]? = some m' ∧ Follows s m m' := by
  obtain ⟨ms, e', h1, -, -, -, -, -, h7⟩ := save_merged src o fuel noInfo auto physics all name c p hc hpre hp d d' err h
  rw [hf, hg] at h1
  obtain ⟨k, hk1, hk2⟩ := mergeMaterials_some g o.keys f
  rw [Option.getD_some, hk1, Option.some.injEq] at h1
  subst h1
  rw [h7]
  exact follows_of_settings k d.x i m s hm (.inl (by rw [hk2, hfm, if_pos hkey, hgm]; rfl))

/-- C196: what else a preset holds (title, options, a preset of its own) changes nothing. -/
theorem preset_scope (src src' : Sources (Config T S F)) (o : Orders) (fuel : Nat) (noInfo : T) (auto : S) (physics all : Bool)
    (name : Str) (c p p' : Config T S F) (hc : loadConfig src name = some c) (hc' : loadConfig src' name = some c)
    (hp : loadConfig src c.preset = some p) (hp' : loadConfig src' c.preset = some p')
    (hpp : p'.conf = p.conf) (d : VDoc T S F) :
    saveVRM src' o fuel noInfo auto physics all name d = saveVRM src o fuel noInfo auto physics all name d := by
  unfold saveVRM
  rw [hc, hc', Option.getD_some]
  unfold applyVRMConfig
  split
  · rfl
  · rename_i c1 hc1
    have k1 : c1.preset = c.preset := (withPhysics_spec auto fuel d.nodes _ c1 hc1).1
    unfold applyConfig
    simp only [k1, hp, hp', hpp]

/-- C196: when the preset cannot be loaded an error is returned, yet a document is written: it has
the title of the config, but no bones, expressions and springs, and the materials are unchanged. -/
theorem preset_missing_false (src : Sources (Config T S F)) (o : Orders) (fuel : Nat) (noInfo : T) (auto : S) (all : Bool)
    (name : Str) (c : Config T S F) (hc : loadConfig src name = some c) (hpre : c.preset ≠ [])
    (hp : loadConfig src c.preset = none) (ha : c.animationBoneFromPhysics = false) (d : VDoc T S F) (hd : d.ext = none) :
    ∃ d' e', saveVRM src o fuel noInfo auto false all name d = some (true, d') ∧ d'.ext = some e' ∧
      e'.info = c.info ∧ e'.bones = [] ∧ e'.blend = [] ∧ e'.groups = [] ∧ d'.nodes = d.nodes.map ENode.bare ∧
      d'.x.mats.map (·.mode) = d.x.mats.map (·.mode) ∧ d'.x.mats.map (·.alpha) = d.x.mats.map (·.alpha) := by
  unfold saveVRM
  rw [hc, Option.getD_some]
  unfold applyVRMConfig withPhysics
  simp only [withFlags, ha, Bool.or_false, Bool.false_eq_true, if_false, Option.map_some]
  have hm : ∀ x : Gltf.XDoc F, (addVRM (removeExtension physicsName x)).mats = (removeExtension physicsName x).mats := by
    intro x; unfold addVRM; split <;> rfl
  split <;>
  · unfold applyConfig
    simp only [hp, if_pos hpre]
    refine ⟨_, _, rfl, rfl, rfl, rfl, ?_, ?_, rfl, ?_, ?_⟩
    · rw [hd]; rfl
    · rw [hd]; rfl
    · rw [hm]; unfold removeExtension; simp
    · rw [hm]; unfold removeExtension; simp

/-! ### C197 -/

theorem springKids_total (f : Nat → Option Int) (cs : List Nat) : (∀ c ∈ cs, ∃ l, f c = some l) →
    ∀ l, ∃ r, springKids f cs l = some r := by
  induction cs with
  | nil => intro _ l; exact ⟨l, rfl⟩
  | cons c cs ih =>
    intro h l
    obtain ⟨d, hd⟩ := h c (by simp)
    rw [springKids, hd]
    simp only
    split
    · exact ⟨_, rfl⟩
    · exact ih (fun x hx => h x (by simp [hx])) _

theorem springLen_total (nodes : List VNode) (rank : Nat → Nat) (hr : Ranked nodes rank) :
    ∀ (fuel i : Nat), rank i < fuel → i < nodes.length → ∃ l, springLen nodes fuel i = some l := by
  intro fuel
  induction fuel with
  | zero => intro i hi; omega
  | succ fuel ih =>
    intro i hi hl
    rw [springLen, List.getElem?_eq_getElem hl]
    simp only
    split
    · split <;> exact ⟨_, rfl⟩
    · exact ⟨_, rfl⟩
    · apply springKids_total
      intro c hc
      obtain ⟨h1, h2⟩ := hr i _ (List.getElem?_eq_getElem hl) c hc
      exact ih c (by omega) h1

theorem parentsFrom_lt (ns : List VNode) : ∀ (k : Nat) (m : Nat → Option Nat), (∀ j p, m j = some p → p < k) →
    ∀ j p, parentsFrom k ns m j = some p → p < k + ns.length := by
  induction ns with
  | nil => intro k m hm j p h; exact hm j p h
  | cons n ns ih =>
    intro k m hm j p h
    rw [parentsFrom] at h
    have := ih (k + 1) _ (fun j' p' h' => by
      split at h'
      · simp only [Option.some.injEq] at h'; omega
      · have := hm j' p' h'; omega) j p h
    simp only [List.length_cons]
    omega

theorem detectSprings_total (nodes : List VNode) (rank : Nat → Nat) (hr : Ranked nodes rank) (fuel : Nat)
    (hfuel : ∀ t, rank t < fuel) (is : List Nat) : (∀ i ∈ is, i < nodes.length) → ∃ r, detectSprings nodes fuel is = some r := by
  induction is with
  | nil => intro _; exact ⟨_, rfl⟩
  | cons i is ih =>
    intro h
    obtain ⟨r, hr'⟩ := ih fun x hx => h x (by simp [hx])
    have hi := h i (by simp)
    have : ∃ b, springRoot nodes fuel i = some b := by
      unfold springRoot
      obtain ⟨l, hl⟩ := springLen_total nodes rank hr fuel i (hfuel i) hi
      rw [hl]
      simp only
      split
      · have hp : (parents nodes i).getD 0 < nodes.length := by
          cases e : parents nodes i with
          | none => exact lt_of_le_of_lt (Nat.zero_le _) hi
          | some p =>
            have := parentsFrom_lt nodes 0 (fun _ => none) (by simp) i p e
            simpa using this
        obtain ⟨l', hl'⟩ := springLen_total nodes rank hr fuel _ (hfuel _) hp
        rw [hl']
        exact ⟨_, rfl⟩
      · exact ⟨_, rfl⟩
    obtain ⟨b, hb⟩ := this
    rw [detectSprings, hb, hr']
    exact ⟨_, rfl⟩

theorem addSprings_total (nodes : List VNode) (rank : Nat → Nat) (hr : Ranked nodes rank) (fuel : Nat)
    (hfuel : ∀ t, rank t < fuel) (pick : Nat → Str → List Nat) (hpick : ∀ i s, ∀ n ∈ pick i s, n < nodes.length)
    (gs : List (GroupSetting S)) : ∀ i m, ∃ r, addSprings nodes fuel pick i gs m = some r := by
  induction gs with
  | nil => intro i m; exact ⟨_, rfl⟩
  | cons g gs ih =>
    intro i m
    obtain ⟨⟨m', bones⟩, h⟩ := addMatched_total nodes rank hr fuel hfuel (g.names.flatMap (pick i)) (by
      intro n hn
      obtain ⟨s, -, hs⟩ := List.mem_flatMap.1 hn
      exact hpick i s n hs) (m, [])
    obtain ⟨r, hr'⟩ := ih (i + 1) m'
    rw [addSprings, h]
    simp only [hr', Option.map_some]
    exact ⟨_, rfl⟩

/-- A config that names a node for an expression names one with a mesh. -/
def MorphsFit (d : VDoc T S F) (ms : List MorphMapping) : Prop :=
  ∀ m ∈ ms, m.targetName = [] → ∀ (id : Nat) (n : ENode F), nodeMap (d.nodes.map ENode.view) m.nodeName = some id → d.nodes[id]? = some n →
    n.mesh ≠ none

/-- C197: saving as VRM ends with a file, and the only error is a preset that cannot be loaded. Missing: nodes that do not
form a forest, expressions that name a node without mesh and a config without material settings whose preset has some; see
`preset_crash_false` and `node_crash_false`. -/
theorem vrm_ends_partial (src : Sources (Config T S F)) (o : Orders) (fuel : Nat) (noInfo : T) (auto : S) (physics all : Bool)
    (name : Str) (c : Config T S F) (hc : (loadConfig src name).getD (Config.empty noInfo) = c) (d : VDoc T S F)
    (rank : Nat → Nat) (hr : Ranked (d.nodes.map ENode.view) rank) (hfuel : ∀ t, rank t < fuel)
    (hpick : ∀ i s, ∀ n ∈ o.pick i s, n < d.nodes.length)
    (hm : MorphsFit d c.conf.morphs)
    (hp : c.preset ≠ [] → ∀ p, loadConfig src c.preset = some p →
      MorphsFit d p.conf.morphs ∧ (c.conf.materials = none → p.conf.materials = none)) :
    ∃ err d', saveVRM src o fuel noInfo auto physics all name d = some (err, d') ∧ d'.ext ≠ none ∧
      (err = true ↔ c.preset ≠ [] ∧ loadConfig src c.preset = none) := by
  have hphys : ∃ c', withPhysics auto fuel d.nodes (withFlags physics all c) = some c' := by
    unfold withPhysics
    split
    · unfold withSprings
      obtain ⟨r, h⟩ := detectSprings_total _ rank hr fuel hfuel (List.range d.nodes.length) (by simp)
      rw [h]
      exact ⟨_, rfl⟩
    · exact ⟨_, rfl⟩
  obtain ⟨c', hc'⟩ := hphys
  obtain ⟨k1, -, k3, k4, k5, k6, -⟩ := withPhysics_spec auto fuel d.nodes _ c' hc'
  have k1' : c'.preset = c.preset := k1
  have k5' : c'.conf.morphs = c.conf.morphs := k5
  have k6' : c'.conf.materials = c.conf.materials := k6
  unfold saveVRM
  rw [hc]
  unfold applyVRMConfig
  rw [hc']
  simp only
  have happ : ∀ (conf : Conf (Setting F) (GroupSetting S) (ColliderGroup F)) (e : Ext T S F) (x : XDoc F) (ext : Option (Ext T S F)) (b : Bool),
      MorphsFit d conf.morphs → ∃ d', applyMerged o fuel b conf e ⟨d.nodes.map ENode.bare, d.meshes, x, ext⟩ = some d' ∧ d'.ext ≠ none := by
    intro conf e x ext b hfit
    unfold applyMerged
    simp only
    obtain ⟨r, h⟩ := addSprings_total ((d.nodes.map ENode.bare).map ENode.view) rank
      (by rw [bare_view]; exact ranked_bare _ _ hr) fuel hfuel o.pick (by simpa using hpick) conf.groups 0 (fun _ => false)
    rw [h]
    simp only
    obtain ⟨s, h2⟩ := applyMorphs_partial ((d.nodes.map ENode.bare).map ENode.view) d.meshes conf.morphs (by
      intro m hm ht id n hid hn
      rw [bare_view] at hid hn
      rw [nodeMap_bare] at hid
      obtain ⟨n', hn', hmesh, -⟩ := bare_get _ _ _ hn
      rw [hmesh]
      rw [List.getElem?_map, Option.map_eq_some_iff] at hn'
      obtain ⟨n2, hn2, rfl⟩ := hn'
      exact hfit m hm ht id n2 hid hn2) ⟨[], e.blend⟩
    rw [h2]
    exact ⟨_, rfl, by simp⟩
  unfold applyConfig
  simp only [k1']
  by_cases hpre : c.preset = []
  · rw [if_neg (by simp [hpre])]
    obtain ⟨d', h1, h2⟩ := happ c'.conf _ _ _ _ (by rw [k5']; exact hm)
    exact ⟨false, d', by rw [h1]; rfl, h2, by simp [hpre]⟩
  · rw [if_pos hpre]
    cases hl : loadConfig src c.preset with
    | none => exact ⟨true, _, rfl, by simp, by simp [hpre]⟩
    | some p =>
      obtain ⟨f1, f2⟩ := hp hpre p hl
      have hmerge : ∃ conf, mergePreset o.keys c'.conf p.conf = some conf ∧ conf.morphs = c'.conf.morphs ++ p.conf.morphs := by
        unfold mergePreset
        have : ∃ ms, mergeMaterials (p.conf.materials.getD fun _ => none) o.keys c'.conf.materials = some ms := by
          rw [k6']
          cases hm' : c.conf.materials with
          | some f =>
            obtain ⟨g, hg, -⟩ := mergeMaterials_some (p.conf.materials.getD fun _ => none) o.keys f
            exact ⟨_, hg⟩
          | none =>
            rw [f2 hm']
            refine ⟨none, ?_⟩
            induction o.keys with
            | nil => rfl
            | cons k ks ih => rw [mergeMaterials]; exact ih
        obtain ⟨ms, h⟩ := this
        rw [h]
        exact ⟨_, rfl, rfl⟩
      obtain ⟨conf, hconf, hmo⟩ := hmerge
      simp only [hconf]
      obtain ⟨d', h1, h2⟩ := happ conf _ _ _ _ (by
        rw [hmo, k5']
        intro m hmm
        rcases List.mem_append.1 hmm with h | h
        · exact hm m h
        · exact f1 m h)
      exact ⟨false, d', by rw [h1]; rfl, h2, by simp⟩

/-- C197 is false of the code: a config without material settings that names a preset with some ends the program, for every
document. -/
theorem preset_crash_false (src : Sources (Config T S F)) (o : Orders) (fuel : Nat) (noInfo : T) (auto : S) (physics all : Bool)
    (name : Str) (c p : Config T S F) (hc : loadConfig src name = some c) (hpre : c.preset ≠ [])
    (hp : loadConfig src c.preset = some p) (hm : c.conf.materials = none)
    (g : Str → Option (Setting F)) (hg : p.conf.materials = some g) (hkeys : ∀ s, s ∈ o.keys ↔ g s ≠ none)
    (s : Str) (x : Setting F) (hs : g s = some x) (d : VDoc T S F) :
    saveVRM src o fuel noInfo auto physics all name d = none := by
  unfold saveVRM
  rw [hc, Option.getD_some]
  unfold applyVRMConfig
  split
  · rfl
  · rename_i c1 hc1
    obtain ⟨k1, -, -, -, -, k6, -⟩ := withPhysics_spec auto fuel d.nodes _ c1 hc1
    have k1' : c1.preset = c.preset := k1
    unfold applyConfig
    simp only [k1', hp, if_pos hpre]
    rw [mergePreset_false o.keys c1.conf p.conf g s x (k6.trans hm) hg hkeys hs]

/-- C197 is false of the code: an expression that names a node without mesh ends the program. -/
theorem node_crash_false (src : Sources (Config T S F)) (o : Orders) (fuel : Nat) (noInfo : T) (auto : S) (physics all : Bool)
    (name : Str) (c : Config T S F) (hc : loadConfig src name = some c) (hpre : c.preset = [])
    (m : MorphMapping) (ms : List MorphMapping) (hms : c.conf.morphs = m :: ms) (ht : m.targetName = [])
    (d : VDoc T S F) (id : Nat) (n : ENode F) (hid : nodeMap (d.nodes.map ENode.view) m.nodeName = some id)
    (hn : d.nodes[id]? = some n) (hmesh : n.mesh = none) :
    saveVRM src o fuel noInfo auto physics all name d = none := by
  unfold saveVRM
  rw [hc, Option.getD_some]
  unfold applyVRMConfig
  split
  · rfl
  · rename_i c1 hc1
    obtain ⟨k1, -, -, -, k5, -, -⟩ := withPhysics_spec auto fuel d.nodes _ c1 hc1
    have k1' : c1.preset = c.preset := k1
    have k5' : c1.conf.morphs = c.conf.morphs := k5
    unfold applyConfig
    simp only [k1', hpre, ne_eq, not_true_eq_false, if_false, Option.map_eq_none_iff]
    unfold applyMerged
    simp only
    split
    · rfl
    · rw [k5', hms, applyMorphs_false _ _ m ms _ id n.bare.view ht (by rw [bare_view, nodeMap_bare]; exact hid)
        (by simp [hn]) hmesh]

end

/-! ### Cases for the hypotheses -/

namespace ExportCase

/-- A setting for one material. -/
def forName (name : String) (x : Setting ℚ) : Str → Option (Setting ℚ) := fun s => if s = name.toList then some x else none

/-- A config that names the preset `mmd`, with a bone and a setting for all materials. -/
def own : Config Str Nat ℚ :=
  ⟨"Title".toList, ⟨some (forName "*" ⟨false, "blend".toList, 0⟩), [⟨"hips".toList, true, false, "Hips".toList, []⟩], [], [], []⟩,
    false, false, true, "mmd".toList⟩

/-- The same without material settings. -/
def ownNoMaterials : Config Str Nat ℚ := { own with conf := { own.conf with materials := none } }

/-- A config for an expression of a node without mesh. -/
def ownMorph : Config Str Nat ℚ :=
  ⟨"Title".toList, ⟨none, [], [⟨"joy".toList, "Hips".toList, [], 0, 0⟩], [], []⟩, false, false, false, []⟩

/-- A config for a preset that does not exist. -/
def ownMissing : Config Str Nat ℚ := { own with animationBoneFromPhysics := false, preset := "other".toList }

/-- A preset with another node for the bone, another bone and a setting for the material `Skin`. -/
def mmd : Config Str Nat ℚ :=
  ⟨[], ⟨some (forName "Skin" ⟨true, "opaque".toList, 1⟩), [⟨"hips".toList, true, false, "Leg".toList, []⟩,
    ⟨"leftUpperLeg".toList, true, false, "Leg".toList, []⟩], [⟨"joy".toList, [], "smile".toList, 0, 0⟩], [], []⟩,
    true, true, true, "other".toList⟩

def src : Sources (Config Str Nat ℚ) where
  executable := true
  beside := fun _ => none
  embedded := fun s => if s = "mmd.json".toList then some [2] else none
  file := fun s => if s = "a.json".toList then some [1] else if s = "b.json".toList then some [3]
    else if s = "c.json".toList then some [4] else if s = "d.json".toList then some [5] else none
  parse := fun b => if b = [1] then some own else if b = [2] then some mmd else if b = [3] then some ownNoMaterials
    else if b = [4] then some ownMorph else if b = [5] then some ownMissing else none

/-- Another preset with the same settings. -/
def src2 : Sources (Config Str Nat ℚ) :=
  { src with parse := fun b => if b = [2] then some { mmd with info := "x".toList, preset := [] } else src.parse b }

def o : Orders := ⟨fun _ _ => [], ["Skin".toList]⟩

/-- Hips with a leg and a mesh; the leg has physics. -/
def doc : VDoc Str Nat ℚ where
  nodes := [⟨"Hips".toList, none, [1, 2], none⟩, ⟨"Leg".toList, none, [], some ⟨[], 1, false, 0, 0⟩⟩, ⟨"Body".toList, some 0, [], none⟩]
  meshes := [some ["smile".toList]]
  x := ⟨[⟨"Skin".toList, [physicsName], .mask, some 1⟩], [[], [physicsName], []], [], [], [], [physicsName]⟩
  ext := none

def withExt : VDoc Str Nat ℚ :=
  { doc with ext := some ⟨"Old".toList, [⟨"hips".toList, 0, true, false⟩], some 0, [⟨"joy".toList, "joy".toList, [(0, 0)], 0⟩], [⟨7, [1]⟩], [],
    ["Skin".toList], "UniVRM".toList⟩ }

def rank : Nat → Nat := fun i => if i = 0 then 1 else 0

theorem ranked : Ranked (doc.nodes.map ENode.view) rank := by
  intro a n hn c hc
  match a with
  | 0 =>
    simp only [doc, List.map_cons, List.getElem?_cons_zero, Option.some.injEq] at hn
    subst hn
    simp only [ENode.view, List.mem_cons, List.not_mem_nil, or_false] at hc
    rcases hc with rfl | rfl <;> decide
  | 1 =>
    simp only [doc, List.map_cons, List.getElem?_cons_succ, List.getElem?_cons_zero, Option.some.injEq] at hn
    subst hn
    simp [ENode.view] at hc
  | 2 =>
    simp only [doc, List.map_cons, List.getElem?_cons_succ, List.getElem?_cons_zero, Option.some.injEq] at hn
    subst hn
    simp [ENode.view] at hc
  | k + 3 => simp [doc] at hn

theorem loads : loadConfig src "a.json".toList = some own := by rfl
theorem loads2 : loadConfig src2 "a.json".toList = some own := by rfl
theorem loadsPreset : loadConfig src own.preset = some mmd := by rfl

/-- C197 for this document, and with it the hypothesis of C196. -/
theorem saved : ∃ d', saveVRM src o 2 [] 0 true true "a.json".toList doc = some (false, d') := by
  obtain ⟨err, d', h, -, he⟩ := vrm_ends_partial src o 2 [] 0 true true "a.json".toList own (by rw [loads]; rfl) doc rank ranked
    (by intro t; unfold rank; split <;> decide) (by simp [o]) (by intro m hm; simp [own] at hm)
    (by
      intro _ p hp
      rw [loadsPreset, Option.some.injEq] at hp
      subst hp
      refine ⟨?_, by simp [own]⟩
      intro m hm ht
      simp only [mmd, List.mem_singleton] at hm
      subst hm
      exact absurd ht (by decide))
  have : err = false := by
    rw [← Bool.not_eq_true, he, loadsPreset]
    simp
  subst this
  exact ⟨d', h⟩

/-- C194: the file is used when the option names it. -/
example : configName (fun _ => true) [] "m.pmx".toList ".pmx".toList ".vrm".toList = "m.vrmconfig.json".toList := by decide +kernel
example : configName (fun _ => false) [] "m.pmx".toList ".pmx".toList ".vrm".toList = "mmd".toList := by decide +kernel
example : loadConfig src (configName (fun _ => false) "a.json".toList "m.pmx".toList ".pmx".toList ".vrm".toList) = some own := by rfl
example : src.executable = true := rfl
example : ('.' ∉ "conf".toList) ∧ '/' ∉ "conf".toList ∧ src.parse [] = none := by decide +kernel
example : loadConfig src "x.json".toList = none := by rfl

/-- C195: a file with title, bones, expressions and springs. -/
example : ∃ e, withExt.ext = some e ∧ e.properties.length = withExt.x.mats.length ∧ e.info ≠ [] ∧ e.groups ≠ [] :=
  ⟨_, rfl, by decide, by decide, by decide⟩

/-- C196: the config gives `hips` to a node. -/
example : Gives ((doc.nodes.map ENode.bare).map ENode.view) ⟨"hips".toList, true, false, "Hips".toList, []⟩ 0 :=
  ⟨[], "Hips".toList, [], by decide, ⟨by decide, _, rfl, rfl⟩, by simp⟩

/-- C196: the preset wins over the setting for all materials. -/
example : ∃ d' m', saveVRM src o 2 [] 0 true true "a.json".toList doc = some (false, d') ∧ d'.x.mats[0]? = some m' ∧
    Follows ⟨true, "opaque".toList, 1⟩ ⟨"Skin".toList, [physicsName], .mask, some 1⟩ m' := by
  obtain ⟨d', h⟩ := saved
  obtain ⟨m', h1, h2⟩ := own_wildcard_false src o 2 [] 0 true true "a.json".toList own mmd loads (by decide) loadsPreset doc d' false h
    _ _ rfl rfl 0 _ rfl (by decide) ⟨true, "opaque".toList, 1⟩ (by rfl) (by decide)
  exact ⟨d', m', h, h1, h2⟩

example : saveVRM src2 o 2 [] 0 true true "a.json".toList doc = saveVRM src o 2 [] 0 true true "a.json".toList doc :=
  preset_scope src src2 o 2 [] 0 true true "a.json".toList own mmd { mmd with info := "x".toList, preset := [] } loads loads2 loadsPreset
    (by rfl) rfl doc

example : ∃ d' e', saveVRM src o 2 [] 0 false true "d.json".toList doc = some (true, d') ∧ d'.ext = some e' ∧ e'.bones = [] := by
  obtain ⟨d', e', h1, h2, -, h3, -⟩ := preset_missing_false src o 2 [] 0 true "d.json".toList ownMissing (by rfl) (by decide) (by rfl) rfl doc rfl
  exact ⟨d', e', h1, h2, h3⟩

/-- C197: the two crashes. -/
example : saveVRM src o 2 [] 0 true true "b.json".toList doc = none :=
  preset_crash_false src o 2 [] 0 true true "b.json".toList ownNoMaterials mmd (by rfl) (by decide) (by rfl) rfl _ rfl
    (by intro s; simp only [o, List.mem_singleton, forName]; by_cases h : s = "Skin".toList <;> simp [h])
    "Skin".toList ⟨true, "opaque".toList, 1⟩ (by rfl) doc

example : saveVRM src o 2 [] 0 true true "c.json".toList doc = none :=
  node_crash_false src o 2 [] 0 true true "c.json".toList ownMorph (by rfl) rfl _ [] rfl rfl doc 0 _ (by decide) rfl rfl

end ExportCase

end Verif.Vrm
