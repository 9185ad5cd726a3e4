import Verif.Vrm.ExportProps
import Verif.Conv.PhysicsProps

/-!
C198: the spring bones of a VRM file. C199: its colliders. C200: its expressions. All of them for the whole export, with
config, preset and options.
-/

namespace Verif.Vrm

open Verif.Conv (NodeBody ColliderGroup convertColliders applyColliders vrmColliders)
open Verif.Gltf (XDoc XMat Setting applySettings addVRM removeExtension physicsName materialProperties)

section

variable {T S F : Type} [Zero F] [DecidableEq F] [LT F] [DecidableLT F]

/-- What the preset of a config adds. -/
def presetConf (src : Sources (Config T S F)) (c : Config T S F) : Conf (Setting F) (GroupSetting S) (ColliderGroup F) :=
  if c.preset = [] then ⟨none, [], [], [], []⟩ else ((loadConfig src c.preset).map Config.conf).getD ⟨none, [], [], [], []⟩

/-- The config that is used: the one that is loaded or an empty one. -/
def usedConfig (src : Sources (Config T S F)) (noInfo : T) (name : Str) : Config T S F :=
  (loadConfig src name).getD (Config.empty noInfo)

/-- What is written without error, step by step. -/
theorem saved_parts (src : Sources (Config T S F)) (o : Orders) (fuel : Nat) (noInfo : T) (auto : S) (physics all : Bool)
    (name : Str) (d d' : VDoc T S F) (h : saveVRM src o fuel noInfo auto physics all name d = some (false, d')) :
    ∃ c1 groups s e',
      withPhysics auto fuel d.nodes (withFlags physics all (usedConfig src noInfo name)) = some c1 ∧
      d'.nodes = d.nodes.map ENode.bare ∧ d'.ext = some e' ∧
      addSprings (d'.nodes.map ENode.view) fuel o.pick 0 (c1.conf.groups ++ (presetConf src (usedConfig src noInfo name)).groups)
        (fun _ => false) = some groups ∧
      applyMorphs (d'.nodes.map ENode.view) d.meshes
        ((usedConfig src noInfo name).conf.morphs ++ (presetConf src (usedConfig src noInfo name)).morphs)
        ⟨[], (d.ext.map Ext.blend).getD []⟩ = some s ∧
      e'.groups = (d.ext.map Ext.groups).getD [] ++ groups ∧
      e'.colliders = (d.ext.map Ext.colliders).getD [] ++ applyColliders (d.nodes.map (·.name))
        (c1.conf.colliders ++ (presetConf src (usedConfig src noInfo name)).colliders) ∧
      e'.blend = s.groups ++ (if (usedConfig src noInfo name).exportAllMorph || all then restGroups s.used 0 d.meshes else []) ∧
      e'.bones = humanoidBones (d'.nodes.map ENode.view)
        ((usedConfig src noInfo name).conf.bones ++ (presetConf src (usedConfig src noInfo name)).bones) := by
  unfold saveVRM at h
  change applyVRMConfig src o fuel noInfo auto (withFlags physics all (usedConfig src noInfo name)) d = _ at h
  generalize hc : usedConfig src noInfo name = c at *
  unfold applyVRMConfig at h
  split at h
  · simp at h
  · rename_i c1 hc1
    obtain ⟨k1, k2, k3, k4, k5, k6, -⟩ := withPhysics_spec auto fuel d.nodes _ c1 hc1
    have k1' : c1.preset = c.preset := k1
    have k3' : c1.exportAllMorph = (c.exportAllMorph || all) := k3
    have k4' : c1.conf.bones = c.conf.bones := k4
    have k5' : c1.conf.morphs = c.conf.morphs := k5
    have key : ∀ (conf P : Conf (Setting F) (GroupSetting S) (ColliderGroup F)) (e : Ext T S F) (x : XDoc F) (d2 : VDoc T S F),
        conf.groups = c1.conf.groups ++ P.groups → conf.morphs = c1.conf.morphs ++ P.morphs →
        conf.colliders = c1.conf.colliders ++ P.colliders → conf.bones = c1.conf.bones ++ P.bones →
        e.groups = (d.ext.map Ext.groups).getD [] → e.colliders = (d.ext.map Ext.colliders).getD [] →
        e.blend = (d.ext.map Ext.blend).getD [] →
        applyMerged o fuel c1.exportAllMorph conf e ⟨d.nodes.map ENode.bare, d.meshes, x, d.ext⟩ = some d2 →
        ∃ groups s e', d2.nodes = d.nodes.map ENode.bare ∧ d2.ext = some e' ∧
          addSprings (d2.nodes.map ENode.view) fuel o.pick 0 (c1.conf.groups ++ P.groups) (fun _ => false) = some groups ∧
          applyMorphs (d2.nodes.map ENode.view) d.meshes (c.conf.morphs ++ P.morphs)
            ⟨[], (d.ext.map Ext.blend).getD []⟩ = some s ∧
          e'.groups = (d.ext.map Ext.groups).getD [] ++ groups ∧
          e'.colliders = (d.ext.map Ext.colliders).getD [] ++ applyColliders (d.nodes.map (·.name)) (c1.conf.colliders ++ P.colliders) ∧
          e'.blend = s.groups ++ (if c.exportAllMorph || all then restGroups s.used 0 d.meshes else []) ∧
          e'.bones = humanoidBones (d2.nodes.map ENode.view) (c.conf.bones ++ P.bones) := by
      intro conf P e x d2 g1 g2 g3 g4 e1 e2 e3 ha
      unfold applyMerged at ha
      simp only at ha
      split at ha
      · simp at ha
      · rename_i groups hg
        split at ha
        · simp at ha
        · rename_i s hs
          rw [Option.some.injEq] at ha
          subst ha
          rw [g1] at hg
          rw [g2, k5', e3] at hs
          refine ⟨groups, s, _, rfl, rfl, hg, hs, ?_, ?_, ?_, ?_⟩
          · rw [← e1]
          · rw [← e2, ← g3]
            simp only [List.map_map]
            rfl
          · rw [← k3']
          · rw [← k4', ← g4]
    have hold : ∀ (used : List Str), (getVRM (Ext.new noInfo) ⟨d.ext, used⟩).1.groups = (d.ext.map Ext.groups).getD [] ∧
        (getVRM (Ext.new noInfo) ⟨d.ext, used⟩).1.colliders = (d.ext.map Ext.colliders).getD [] ∧
        (getVRM (Ext.new noInfo) ⟨d.ext, used⟩).1.blend = (d.ext.map Ext.blend).getD [] := by
      intro used
      unfold getVRM
      cases d.ext <;> exact ⟨rfl, rfl, rfl⟩
    unfold applyConfig at h
    simp only [k1'] at h
    by_cases hpre : c.preset = []
    · rw [if_neg (by simp [hpre])] at h
      rw [Option.map_eq_some_iff] at h
      obtain ⟨d2, h1, h2⟩ := h
      simp only [Prod.mk.injEq, true_and] at h2
      subst h2
      have hP : presetConf src c = ⟨none, [], [], [], []⟩ := by unfold presetConf; rw [if_pos hpre]
      rw [hP]
      have r0 := fun a b c g4 e1 e2 e3 => key c1.conf ⟨none, [], [], [], []⟩ _ _ _ a b c g4 e1 e2 e3 h1
      obtain ⟨groups, s, e', r⟩ := r0 (by simp) (by simp) (by simp) (by simp) (hold _).1 (hold _).2.1 (hold _).2.2
      exact ⟨c1, groups, s, e', hc1, r⟩
    · rw [if_pos hpre] at h
      cases hl : loadConfig src c.preset with
      | none => rw [hl] at h; simp at h
      | some p =>
        rw [hl] at h
        simp only at h
        have hP : presetConf src c = p.conf := by unfold presetConf; rw [if_neg hpre, hl]; rfl
        split at h
        · simp at h
        · rename_i conf hm
          rw [Option.map_eq_some_iff] at h
          obtain ⟨d2, h1, h2⟩ := h
          simp only [Prod.mk.injEq, true_and] at h2
          subst h2
          unfold mergePreset at hm
          rw [Option.map_eq_some_iff] at hm
          obtain ⟨ms, -, rfl⟩ := hm
          rw [hP]
          have r0 := fun a b c g4 e1 e2 e3 => key _ p.conf _ _ _ a b c g4 e1 e2 e3 h1
          obtain ⟨groups, s, e', r⟩ := r0 rfl rfl rfl rfl (hold _).1 (hold _).2.1 (hold _).2.2
          exact ⟨c1, groups, s, e', hc1, r⟩

theorem saved_bones (src : Sources (Config T S F)) (o : Orders) (fuel : Nat) (noInfo : T) (auto : S) (physics all : Bool)
    (name : Str) (d d' : VDoc T S F) (h : saveVRM src o fuel noInfo auto physics all name d = some (false, d')) :
    ∃ e', d'.ext = some e' ∧ d'.nodes = d.nodes.map ENode.bare ∧ e'.bones = humanoidBones (d'.nodes.map ENode.view)
      ((usedConfig src noInfo name).conf.bones ++ (presetConf src (usedConfig src noInfo name)).bones) := by
  obtain ⟨c1, groups, s, e', -, h2, h3, -, -, -, -, -, h9⟩ := saved_parts src o fuel noInfo auto physics all name d d' h
  exact ⟨e', h3, h2, h9⟩

/-! ### C198 -/

/-- The groups that are written for settings `gs` when the names of each setting give the nodes in `raw`. -/
def written (gs : List (GroupSetting S)) (raw : List (List Nat)) : List (BoneGroup S) :=
  (gs.zip raw).filterMap fun x =>
    if x.1.group.bones = [] ∧ x.2 = [] then none else some ⟨x.1.group.settings, x.1.group.bones ++ x.2.map Int.ofNat⟩

omit [Zero F] [DecidableEq F] [LT F] [DecidableLT F] in
theorem addSprings_spec (nodes : List VNode) (fuel : Nat) (pick : Nat → Str → List Nat) (gs : List (GroupSetting S)) :
    ∀ (i : Nat) (m : Nat → Bool) (pre : List Nat) (r : List (BoneGroup S)), SpringInv nodes m pre →
    addSprings nodes fuel pick i gs m = some r →
    ∃ raw : List (List Nat), raw.length = gs.length ∧ r = written gs raw ∧ (pre ++ raw.flatten).Pairwise (Apart nodes) ∧
      (∀ (k : Nat) g b, gs[k]? = some g → raw[k]? = some b → ∀ n ∈ b, hasMesh nodes n = false ∧ ∃ s ∈ g.names, n ∈ pick (i + k) s) ∧
      (∀ (k : Nat) g, gs[k]? = some g → ∀ s ∈ g.names, ∀ n ∈ pick (i + k) s, hasMesh nodes n = false →
        ∃ a ∈ pre ++ raw.flatten, ¬ Apart nodes a n) := by
  induction gs with
  | nil =>
    intro i m pre r hi h
    simp only [addSprings, Option.some.injEq] at h
    subst h
    exact ⟨[], rfl, rfl, by simpa using hi.apart, by simp, by simp⟩
  | cons g gs ih =>
    intro i m pre r hi h
    rw [addSprings] at h
    cases e : addMatched nodes fuel (g.names.flatMap (pick i)) (m, []) with
    | none => rw [e] at h; simp at h
    | some x =>
      obtain ⟨m', bones⟩ := x
      rw [e] at h
      simp only [Option.map_eq_some_iff] at h
      obtain ⟨r', h1, h2⟩ := h
      obtain ⟨s1, ⟨new, s2, s3⟩, s4⟩ := addMatched_spec nodes fuel _ m pre [] m' bones (by simpa using hi) e
      simp only [List.nil_append] at s2
      subst s2
      obtain ⟨raw, t1, t2, t3, t4, t5⟩ := ih (i + 1) m' (pre ++ bones) r' s1 h1
      refine ⟨bones :: raw, by simp [t1], ?_, by simpa using t3, ?_, ?_⟩
      · rw [← h2, t2]
        unfold written
        rw [List.zip_cons_cons, List.filterMap_cons]
        by_cases hb : g.group.bones = [] ∧ bones = []
        · simp [hb]
        · have hlen : 0 < (g.group.bones ++ bones.map Int.ofNat).length := by
            rw [List.length_pos_iff]
            intro hh
            simp only [List.append_eq_nil_iff, List.map_eq_nil_iff] at hh
            exact hb hh
          rw [if_pos hlen]
          simp only [if_neg hb]
      · intro k g' b hk hb n hn
        cases k with
        | zero =>
          simp only [List.getElem?_cons_zero, Option.some.injEq] at hk hb
          subst hk hb
          obtain ⟨u1, u2⟩ := s3 n hn
          obtain ⟨s, hs1, hs2⟩ := List.mem_flatMap.1 u1
          exact ⟨u2, s, hs1, hs2⟩
        | succ k =>
          simp only [List.getElem?_cons_succ] at hk hb
          have := t4 k g' b hk hb n hn
          rwa [show i + (k + 1) = i + 1 + k by omega]
      · intro k g' hk s hs n hn hm
        cases k with
        | zero =>
          simp only [List.getElem?_cons_zero, Option.some.injEq] at hk
          subst hk
          obtain ⟨a, ha, hap⟩ := s4 n (List.mem_flatMap.2 ⟨s, hs, hn⟩) hm
          refine ⟨a, ?_, hap⟩
          simp only [List.flatten_cons, List.mem_append] at ha ⊢
          tauto
        | succ k =>
          simp only [List.getElem?_cons_succ] at hk
          rw [show i + (k + 1) = i + 1 + k by omega] at hn
          obtain ⟨a, ha, hap⟩ := t5 k g' hk s hs n hn hm
          refine ⟨a, ?_, hap⟩
          simp only [List.flatten_cons, List.mem_append] at ha ⊢
          tauto

/-- The group made from physics: its names are those of the nodes where a chain starts. -/
theorem withPhysics_groups (auto : S) (fuel : Nat) (nodes : List (ENode F)) (c c1 : Config T S F)
    (h : withPhysics auto fuel nodes c = some c1) :
    ∃ made : List (GroupSetting S), c1.conf.groups = c.conf.groups ++ made ∧
      (c.animationBoneFromPhysics = false → made = []) ∧
      (c.animationBoneFromPhysics = true → ∃ is, detectSprings (nodes.map ENode.view) fuel (List.range nodes.length) = some is ∧
        ∀ i ∈ is, ∀ n, nodes[i]? = some n → ∃ g ∈ made, g.group.settings = auto ∧ n.name ∈ g.names) := by
  unfold withPhysics at h
  rw [Option.map_eq_some_iff] at h
  obtain ⟨c2, h1, h2⟩ := h
  have hg : c1.conf.groups = c2.conf.groups := by
    rw [← h2]; split <;> rfl
  rw [hg]
  split at h1
  · rename_i hp
    unfold withSprings at h1
    rw [Option.map_eq_some_iff] at h1
    obtain ⟨is, hi, h1⟩ := h1
    simp only at h1
    split at h1
    · subst h1
      refine ⟨_, rfl, by simp [hp], fun _ => ⟨is, hi, ?_⟩⟩
      intro i hi' n hn
      exact ⟨_, List.mem_singleton.2 rfl, rfl, List.mem_filterMap.2 ⟨i, hi', by rw [hn]; rfl⟩⟩
    · rename_i hlen
      subst h1
      refine ⟨[], by simp, fun _ => rfl, fun _ => ⟨is, hi, ?_⟩⟩
      intro i hi' n hn
      have : n.name ∈ is.filterMap fun i => (nodes[i]?).map (·.name) := List.mem_filterMap.2 ⟨i, hi', by rw [hn]; rfl⟩
      exact absurd (List.length_pos_of_mem this) hlen
  · rename_i hp
    rw [Option.some.injEq] at h1
    subst h1
    exact ⟨[], by simp, fun _ => rfl, fun hx => absurd hx hp⟩

/-- C198. The spring bones of a VRM file: those of the document come first. Then comes one group for each setting of the
config, for the one made from physics and for each setting of the preset, in this order, with the bones the setting lists by
number and nodes for its names; groups without bones are left out. No two nodes taken for names overlap. Each is without mesh
and matched by a name of its group, and each matched node without mesh is taken unless it overlaps one that is. -/
theorem springs_written (pm : Str → Str → Bool) (src : Sources (Config T S F)) (o : Orders) (fuel : Nat) (noInfo : T) (auto : S)
    (physics all : Bool) (name : Str) (d d' : VDoc T S F)
    (h : saveVRM src o fuel noInfo auto physics all name d = some (false, d'))
    (ho : ∀ i s, MatchNodeName pm (d'.nodes.map ENode.view) s (o.pick i s)) :
    ∃ e' made raw, d'.ext = some e' ∧
      ((usedConfig src noInfo name).animationBoneFromPhysics = false → physics = false → made = []) ∧
      let gs := (usedConfig src noInfo name).conf.groups ++ made ++ (presetConf src (usedConfig src noInfo name)).groups
      e'.groups = (d.ext.map Ext.groups).getD [] ++ written gs raw ∧ raw.length = gs.length ∧
      raw.flatten.Pairwise (fun a b => ∀ t, ¬ (Desc (d'.nodes.map ENode.view) a t ∧ Desc (d'.nodes.map ENode.view) b t)) ∧
      (∀ (k : Nat) g b, gs[k]? = some g → raw[k]? = some b → ∀ n ∈ b, hasMesh (d'.nodes.map ENode.view) n = false ∧
        ∃ s ∈ g.names, ∃ x : ENode F, d'.nodes[n]? = some x ∧ (x.name = s ∨ (('*' ∈ s ∨ '?' ∈ s) ∧ pm s x.name = true))) ∧
      (∀ g ∈ gs, ∀ s ∈ g.names, ∀ n, hasMesh (d'.nodes.map ENode.view) n = false →
        ((('*' ∈ s ∨ '?' ∈ s) ∧ ∃ nm, nodeMap (d'.nodes.map ENode.view) nm = some n ∧ pm s nm = true) ∨
          ('*' ∉ s ∧ '?' ∉ s ∧ nodeMap (d'.nodes.map ENode.view) s = some n)) →
        ∃ a ∈ raw.flatten, ∃ t, Desc (d'.nodes.map ENode.view) a t ∧ Desc (d'.nodes.map ENode.view) n t) := by
  obtain ⟨c1, groups, s, e', h1, -, h3, h4, -, h6, -⟩ := saved_parts src o fuel noInfo auto physics all name d d' h
  obtain ⟨made, m1, m2, -⟩ := withPhysics_groups auto fuel d.nodes _ c1 h1
  have m1' : c1.conf.groups = (usedConfig src noInfo name).conf.groups ++ made := m1
  rw [m1'] at h4
  obtain ⟨raw, t1, t2, t3, t4, t5⟩ := addSprings_spec _ fuel o.pick _ 0 (fun _ => false) [] groups ⟨by simp, by simp⟩ h4
  refine ⟨e', made, raw, h3, ?_, by rw [h6, t2], t1, by rw [List.nil_append] at t3; exact t3, ?_, ?_⟩
  · intro ha hp
    apply m2
    show (_ || _) = false
    rw [ha, hp]; rfl
  · intro k g b hg hb n hn
    obtain ⟨u1, s', hs, hn'⟩ := t4 k g b hg hb n hn
    refine ⟨u1, s', hs, ?_⟩
    have hmatch := ho (0 + k) s'
    unfold MatchNodeName at hmatch
    split at hmatch
    · rename_i hw
      obtain ⟨nm, v1, v2⟩ := (hmatch.2 n).1 hn'
      obtain ⟨x, hx, hxn, -⟩ := (nodeMap_spec _ _ _).1 v1
      rw [List.getElem?_map, Option.map_eq_some_iff] at hx
      obtain ⟨y, hy, rfl⟩ := hx
      exact ⟨y, hy, .inr ⟨hw, by rw [← hxn] at v2; exact v2⟩⟩
    · rw [hmatch] at hn'
      obtain ⟨x, hx, hxn, -⟩ := (nodeMap_spec _ _ _).1 (by simpa using hn')
      rw [List.getElem?_map, Option.map_eq_some_iff] at hx
      obtain ⟨y, hy, rfl⟩ := hx
      exact ⟨y, hy, .inl hxn⟩
  · intro g hg s' hs n hmesh hn
    obtain ⟨k, hk⟩ := List.getElem?_of_mem hg
    have hmem : n ∈ o.pick (0 + k) s' := by
      have hmatch := ho (0 + k) s'
      unfold MatchNodeName at hmatch
      rcases hn with ⟨hw, hx⟩ | ⟨w1, w2, hx⟩
      · rw [if_pos hw] at hmatch
        exact (hmatch.2 n).2 hx
      · rw [if_neg (by tauto)] at hmatch
        rw [hmatch, hx]
        simp
    obtain ⟨a, ha, hap⟩ := t5 k g hk s' hs n hmem hmesh
    refine ⟨a, by simpa using ha, ?_⟩
    unfold Apart at hap
    simpa [not_forall] using hap

/-- C198: with the option for physics, each node without mesh where a free chain of bodies starts has a spring bone above or
below it, if its name is unique and is no pattern. -/
theorem physics_springs (pm : Str → Str → Bool) (src : Sources (Config T S F)) (o : Orders) (fuel : Nat) (noInfo : T) (auto : S)
    (physics all : Bool) (name : Str) (d d' : VDoc T S F)
    (h : saveVRM src o fuel noInfo auto physics all name d = some (false, d'))
    (ho : ∀ i s, MatchNodeName pm (d'.nodes.map ENode.view) s (o.pick i s))
    (hp : physics = true ∨ (usedConfig src noInfo name).animationBoneFromPhysics = true)
    (i p : Nat) (n : ENode F) (hn : d.nodes[i]? = some n) (hpar : parents (d.nodes.map ENode.view) i = some p)
    (hb : n.body ≠ none) (hf : Free (d.nodes.map ENode.view) i) (hnf : ¬ Free (d.nodes.map ENode.view) p)
    (hmesh : n.mesh = none) (hstar : '*' ∉ n.name) (hq : '?' ∉ n.name)
    (huniq : ∀ (j : Nat) (x : ENode F), d.nodes[j]? = some x → x.name = n.name → j = i) :
    ∃ e' g a, d'.ext = some e' ∧ g ∈ e'.groups ∧ Int.ofNat a ∈ g.bones ∧
      ∃ t, Desc (d'.nodes.map ENode.view) a t ∧ Desc (d'.nodes.map ENode.view) i t := by
  obtain ⟨c1, groups, s, e', h1, h2, h3, h4, -, h6, -⟩ := saved_parts src o fuel noInfo auto physics all name d d' h
  obtain ⟨made, m1, -, m3⟩ := withPhysics_groups auto fuel d.nodes _ c1 h1
  obtain ⟨is, hi1, hi2⟩ := m3 (by show (_ || _) = true; rcases hp with hp | hp <;> simp [hp])
  have hmem : i ∈ is := by
    refine (detectSprings_partial _ fuel is (by simpa using hi1) i p n.view (by rw [List.getElem?_map, hn]; rfl) hpar).2 ⟨?_, hf, hnf⟩
    unfold ENode.view
    simpa using hb
  obtain ⟨g, hg1, -, hg3⟩ := hi2 i hmem n hn
  obtain ⟨raw, t1, t2, -, -, t5⟩ := addSprings_spec _ fuel o.pick _ 0 (fun _ => false) [] groups ⟨by simp, by simp⟩ h4
  obtain ⟨k, hk⟩ := List.getElem?_of_mem (show g ∈ c1.conf.groups ++ (presetConf src (usedConfig src noInfo name)).groups by
    rw [m1]; simp [hg1])
  have hid : nodeMap (d'.nodes.map ENode.view) n.name = some i := by
    rw [h2, bare_view, nodeMap_bare]
    refine (nodeMap_spec _ _ _).2 ⟨n.view, by rw [List.getElem?_map, hn]; rfl, rfl, ?_⟩
    intro j x hij hx hxn
    rw [List.getElem?_map, Option.map_eq_some_iff] at hx
    obtain ⟨y, hy, rfl⟩ := hx
    have := huniq j y hy hxn
    omega
  have hpick : i ∈ o.pick (0 + k) n.name := by
    have := ho (0 + k) n.name
    unfold MatchNodeName at this
    rw [if_neg (by tauto), hid] at this
    rw [this]; simp
  have hno : hasMesh (d'.nodes.map ENode.view) i = false := by
    unfold hasMesh
    rw [h2, bare_view]
    unfold bare
    simp [hn, ENode.view, hmesh]
  obtain ⟨a, ha, hap⟩ := t5 k g hk n.name hg3 i hpick hno
  simp only [List.nil_append] at ha
  obtain ⟨b, hb1, hb2⟩ := List.mem_flatten.1 ha
  obtain ⟨j, hj⟩ := List.getElem?_of_mem hb1
  have hjl : j < raw.length := (List.getElem?_eq_some_iff.1 hj).1
  obtain ⟨gj, hgj⟩ : ∃ gj, (c1.conf.groups ++ (presetConf src (usedConfig src noInfo name)).groups)[j]? = some gj :=
    ⟨_, List.getElem?_eq_getElem (t1 ▸ hjl)⟩
  refine ⟨e', ⟨gj.group.settings, gj.group.bones ++ b.map Int.ofNat⟩, a, h3, ?_, ?_, ?_⟩
  · rw [h6, t2]
    refine List.mem_append.2 (.inr (List.mem_filterMap.2 ⟨(gj, b), ?_, ?_⟩))
    · refine List.mem_of_getElem? (i := j) ?_
      rw [List.getElem?_zip_eq_some]
      exact ⟨hgj, hj⟩
    · rw [if_neg]
      rintro ⟨-, hx⟩
      simp only at hx
      rw [hx] at hb2
      simp at hb2
  · exact List.mem_append.2 (.inr (List.mem_map.2 ⟨a, hb2, rfl⟩))
  · unfold Apart at hap
    simpa [not_forall] using hap

/-! ### C199 -/

omit [LT F] [DecidableLT F] in
theorem withPhysics_colliders (auto : S) (fuel : Nat) (nodes : List (ENode F)) (c c1 : Config T S F)
    (h : withPhysics auto fuel nodes c = some c1) :
    c1.conf.colliders = c.conf.colliders ++
      if c.convertPhysicsCollider then convertColliders 0 (nodes.map fun n => (n.name, n.body)) else [] := by
  unfold withPhysics at h
  rw [Option.map_eq_some_iff] at h
  obtain ⟨c2, h1, h2⟩ := h
  have hc : c2.conf.colliders = c.conf.colliders ∧ c2.convertPhysicsCollider = c.convertPhysicsCollider := by
    split at h1
    · unfold withSprings at h1
      rw [Option.map_eq_some_iff] at h1
      obtain ⟨is, -, h1⟩ := h1
      simp only at h1
      split at h1 <;> subst h1 <;> exact ⟨rfl, rfl⟩
    · rw [Option.some.injEq] at h1
      subst h1
      exact ⟨rfl, rfl⟩
  rw [← h2, hc.2]
  split
  · rw [← hc.1]
  · rw [hc.1]; simp

omit [Zero F] [DecidableEq F] [LT F] [DecidableLT F] in
theorem mem_applyColliders (nodes : List (ENode F)) (hd : (nodes.map (·.name)).Nodup) (g : ColliderGroup F) (gs : List (ColliderGroup F)) :
    g ∈ applyColliders (nodes.map (·.name)) gs ↔
      ∃ s ∈ gs, s.nodeName = g.nodeName ∧ s.colliders = g.colliders ∧ ∃ n : ENode F, nodes[g.node]? = some n ∧ n.name = g.nodeName := by
  unfold applyColliders
  rw [List.mem_filterMap]
  constructor
  · rintro ⟨s, hs, hx⟩
    rw [Option.map_eq_some_iff] at hx
    obtain ⟨i, hi, rfl⟩ := hx
    have := Verif.Conv.lastNamed_some _ _ _ hi
    rw [List.getElem?_map, Option.map_eq_some_iff] at this
    exact ⟨s, hs, rfl, rfl, this⟩
  · rintro ⟨s, hs, e1, e2, n, e3, e4⟩
    refine ⟨s, hs, ?_⟩
    rw [Verif.Conv.lastNamed_unique _ hd g.node s.nodeName (by rw [List.getElem?_map, e3, Option.map_some, e4, e1])]
    rw [Option.map_some, Option.some.injEq]
    obtain ⟨gn, gc, gm⟩ := g
    obtain ⟨sn, sc, sm⟩ := s
    simp only at e1 e2
    subst e1 e2
    rfl

/-- C199. The colliders of a VRM file whose nodes have different names: those of the document, those of config and preset at
the nodes they name, and, with the option for physics, the spheres and capsules of each static body at its node. -/
theorem colliders_written (src : Sources (Config T S F)) (o : Orders) (fuel : Nat) (noInfo : T) (auto : S)
    (physics all : Bool) (name : Str) (d d' : VDoc T S F)
    (h : saveVRM src o fuel noInfo auto physics all name d = some (false, d'))
    (hd : (d.nodes.map (·.name)).Nodup) :
    ∃ e' new, d'.ext = some e' ∧ e'.colliders = (d.ext.map Ext.colliders).getD [] ++ new ∧
      ∀ g, g ∈ new ↔
        (∃ s ∈ (usedConfig src noInfo name).conf.colliders ++ (presetConf src (usedConfig src noInfo name)).colliders,
          s.nodeName = g.nodeName ∧ s.colliders = g.colliders ∧ ∃ n : ENode F, d.nodes[g.node]? = some n ∧ n.name = g.nodeName) ∨
        ((physics = true ∨ (usedConfig src noInfo name).convertPhysicsCollider = true) ∧
          ∃ (n : ENode F) (p : NodeBody F), d.nodes[g.node]? = some n ∧ n.body = some p ∧ p.static = true ∧ g.nodeName = n.name ∧
            g.colliders ≠ [] ∧ g.colliders = (p.shapes.filter fun s =>
              (s.shapeType = "SPHERE".toList ∨ s.shapeType = "CAPSULE".toList) ∧ s.offsetScale.x ≠ 0).map fun s =>
                ⟨s.offsetScale.x, s.offsetTranslation⟩) := by
  obtain ⟨c1, groups, s, e', h1, h2, h3, -, -, -, h7, -⟩ := saved_parts src o fuel noInfo auto physics all name d d' h
  have hcol := withPhysics_colliders auto fuel d.nodes _ c1 h1
  have hcol' : c1.conf.colliders = (usedConfig src noInfo name).conf.colliders ++
      if (usedConfig src noInfo name).convertPhysicsCollider || physics then convertColliders 0 (d.nodes.map fun n => (n.name, n.body)) else [] := hcol
  refine ⟨e', _, h3, h7, ?_⟩
  intro g
  have hnames : (d.nodes.map fun n => (n.name, n.body)).map (·.1) = d.nodes.map (·.name) := by
    rw [List.map_map]; rfl
  have hmade := Verif.Conv.colliders_partial (d.nodes.map fun n => (n.name, n.body)) (by rw [hnames]; exact hd) g
  have happ := fun gs => mem_applyColliders d.nodes hd g gs
  have hsplit : ∀ a b : List (ColliderGroup F), applyColliders (d.nodes.map (·.name)) (a ++ b) =
      applyColliders (d.nodes.map (·.name)) a ++ applyColliders (d.nodes.map (·.name)) b := by
    intro a b; unfold applyColliders; rw [List.filterMap_append]
  rw [hcol', hsplit, hsplit, List.mem_append, List.mem_append, happ (usedConfig src noInfo name).conf.colliders,
    happ (presetConf src (usedConfig src noInfo name)).colliders]
  have hphys : g ∈ applyColliders (d.nodes.map (·.name)) (if (usedConfig src noInfo name).convertPhysicsCollider || physics then
      convertColliders 0 (d.nodes.map fun n => (n.name, n.body)) else []) ↔
      (physics = true ∨ (usedConfig src noInfo name).convertPhysicsCollider = true) ∧
        g ∈ vrmColliders (d.nodes.map fun n => (n.name, n.body)) := by
    unfold vrmColliders
    rw [hnames]
    by_cases hb : ((usedConfig src noInfo name).convertPhysicsCollider || physics) = true
    · rw [if_pos hb]
      rw [Bool.or_eq_true] at hb
      tauto
    · rw [if_neg hb]
      rw [Bool.or_eq_true] at hb
      have : g ∉ applyColliders (d.nodes.map (·.name)) [] := by unfold applyColliders; simp
      tauto
  rw [hphys, hmade]
  constructor
  · rintro ((⟨s, hs, hx⟩ | ⟨hp, nm, p, e1, e2⟩) | ⟨s, hs, hx⟩)
    · exact .inl ⟨s, List.mem_append.2 (.inl hs), hx⟩
    · rw [List.getElem?_map, Option.map_eq_some_iff] at e1
      obtain ⟨n, hn, hnp⟩ := e1
      simp only [Prod.mk.injEq] at hnp
      obtain ⟨rfl, hnb⟩ := hnp
      exact .inr ⟨hp, n, p, hn, hnb, e2⟩
    · exact .inl ⟨s, List.mem_append.2 (.inr hs), hx⟩
  · rintro (⟨s, hs, hx⟩ | ⟨hp, n, p, e1, e2, e3⟩)
    · rcases List.mem_append.1 hs with hs | hs
      · exact .inl (.inl ⟨s, hs, hx⟩)
      · exact .inr ⟨s, hs, hx⟩
    · exact .inl (.inr ⟨hp, n.name, p, by rw [List.getElem?_map, e1, Option.map_some, e2], e3⟩)

/-! ### C200 -/

omit [Zero F] [DecidableEq F] [LT F] [DecidableLT F] in
theorem applyMorphs_named (nodes : List VNode) (meshes : List (Option (List Str))) (ms : List MorphMapping) :
    ∀ s s', applyMorphs nodes meshes ms s = some s' →
    ∃ new : List BlendGroup, s'.groups = s.groups ++ new ∧
      (∀ g ∈ new, ∃ m ∈ ms, g.name = m.name ∧ g.preset = m.name) ∧
      ∀ m ∈ ms, ∀ mi i, Maps nodes meshes m mi i → ∃ g ∈ new, g.name = m.name ∧ g.preset = m.name ∧ (mi, i) ∈ g.binds := by
  induction ms with
  | nil =>
    intro s s' h
    simp only [applyMorphs, Option.some.injEq] at h
    subst h
    exact ⟨[], by simp, by simp, by simp⟩
  | cons m ms ih =>
    intro s s' h
    rw [applyMorphs] at h
    cases e : applyMorph nodes meshes s m with
    | none => rw [e] at h; simp at h
    | some s1 =>
      rw [e] at h
      obtain ⟨n1, a1, -, a3, a4, -⟩ := applyMorph_spec nodes meshes s s1 m e
      obtain ⟨n2, b1, b3, b2⟩ := ih s1 s' h
      refine ⟨n1 ++ n2, by rw [b1, a1, List.append_assoc], ?_, ?_⟩
      · intro g hg
        rcases List.mem_append.1 hg with hg | hg
        · exact ⟨m, List.mem_cons_self, a3 g hg⟩
        · obtain ⟨m', hm', r⟩ := b3 g hg
          exact ⟨m', List.mem_cons_of_mem _ hm', r⟩
      intro m' hm' mi i hmap
      rcases List.mem_cons.1 hm' with rfl | hm'
      · obtain ⟨g, hg, hgb⟩ := (a4 mi i).2 hmap
        exact ⟨g, List.mem_append.2 (.inl hg), (a3 g hg).1, (a3 g hg).2, hgb⟩
      · obtain ⟨g, hg, r⟩ := b2 m' hm' mi i hmap
        exact ⟨g, List.mem_append.2 (.inr hg), r⟩

omit [Zero F] [DecidableEq F] [LT F] [DecidableLT F] in
theorem maps_bare (nodes : List VNode) (meshes : List (Option (List Str))) (m : MorphMapping) (mi : Nat) (i : Int) :
    Maps (bare nodes) meshes m mi i ↔ Maps nodes meshes m mi i := by
  unfold Maps
  rw [nodeMap_bare]
  refine or_congr Iff.rfl (and_congr Iff.rfl (and_congr Iff.rfl (exists_congr fun id => ?_)))
  constructor
  · rintro ⟨n, h1, h2, h3⟩
    obtain ⟨n', k1, k2, -⟩ := bare_get nodes id n h2
    exact ⟨n', h1, k1, by rw [← k2, h3]⟩
  · rintro ⟨n, h1, h2, h3⟩
    exact ⟨{ n with body := none }, h1, by unfold bare; rw [List.getElem?_map, h2]; rfl, h3⟩

/-- C200. The expressions of a VRM file: those of the document come first. Every morph target that a mapping of config or
preset names is bound by an expression with the name of the mapping and by no expression without mapping. A target of a mesh that no mapping names is bound by no
expression, but with the option for all morphs by exactly one, which has the name of the target. -/
theorem expressions_written (src : Sources (Config T S F)) (o : Orders) (fuel : Nat) (noInfo : T) (auto : S)
    (physics all : Bool) (name : Str) (d d' : VDoc T S F)
    (h : saveVRM src o fuel noInfo auto physics all name d = some (false, d')) :
    ∃ e' new, d'.ext = some e' ∧ e'.blend = (d.ext.map Ext.blend).getD [] ++ new ∧
      let ms := (usedConfig src noInfo name).conf.morphs ++ (presetConf src (usedConfig src noInfo name)).morphs
      (∀ m ∈ ms, ∀ mi i, Maps (d.nodes.map ENode.view) d.meshes m mi i →
        ∃ g ∈ new, g.name = m.name ∧ g.preset = m.name ∧ (mi, i) ∈ g.binds) ∧
      (∀ (mi i : Nat), (∃ m ∈ ms, Maps (d.nodes.map ENode.view) d.meshes m mi i) → ∀ g ∈ new, (mi, (i : Int)) ∈ g.binds →
        ∃ m ∈ ms, g.name = m.name ∧ g.preset = m.name) ∧
      ∀ (mi i : Nat) (nm : Str), HasTarget d.meshes mi i nm → (∀ m ∈ ms, ¬ Maps (d.nodes.map ENode.view) d.meshes m mi i) →
        new.filter (fun g => decide ((mi, (i : Int)) ∈ g.binds)) =
          if all = true ∨ (usedConfig src noInfo name).exportAllMorph = true then [⟨nm, [], [(mi, (i : Int))], 0⟩] else [] := by
  obtain ⟨c1, groups, s, e', h1, h2, h3, -, h5, -, -, h8, -⟩ := saved_parts src o fuel noInfo auto physics all name d d' h
  rw [h2, bare_view] at h5
  obtain ⟨new, k1, k2, k3⟩ := applyMorphs_spec _ _ _ _ s h5
  obtain ⟨new', l1, l3, l2⟩ := applyMorphs_named _ _ _ _ s h5
  have : new' = new := List.append_cancel_left (l1.symm.trans k1)
  subst this
  simp only [maps_bare] at k2 k3 l2
  refine ⟨e', _, h3, by rw [h8, k1, List.append_assoc], ?_, ?_, ?_⟩
  · intro m hm mi i hmap
    obtain ⟨g, hg, r⟩ := l2 m hm mi i hmap
    exact ⟨g, List.mem_append.2 (.inl hg), r⟩
  · intro mi i hmap g hg hb
    rcases List.mem_append.1 hg with hg | hg
    · exact l3 g hg
    · exfalso
      have hu : (mi, (i : Int)) ∈ s.used := (k3 mi i).2 (.inr hmap)
      have hr := restGroups_spec s.used d.meshes 0 mi i
      rw [if_neg (by simp [hu]), List.filter_eq_nil_iff] at hr
      split at hg
      · exact hr g hg (by simpa using hb)
      · simp at hg
  · rintro mi i nm ⟨names, hn1, hn2⟩ hno
    have hno' : ¬ ∃ m ∈ (usedConfig src noInfo name).conf.morphs ++ (presetConf src (usedConfig src noInfo name)).morphs,
        Maps (d.nodes.map ENode.view) d.meshes m mi i := fun ⟨m, hm, hx⟩ => hno m hm hx
    have hnew : new'.filter (fun g => decide ((mi, (i : Int)) ∈ g.binds)) = [] := by
      rw [List.filter_eq_nil_iff]
      intro g hg hb
      exact hno' ((k2 mi i).1 ⟨g, hg, by simpa using hb⟩)
    rw [List.filter_append, hnew, List.nil_append]
    have hu : (mi, (i : Int)) ∉ s.used := by
      rw [k3 mi i]
      simp only [List.not_mem_nil, false_or]
      exact hno'
    have hr := restGroups_spec s.used d.meshes 0 mi i
    simp only [Nat.zero_le, true_and, Nat.sub_zero, hn1, hn2, if_pos hu] at hr
    by_cases hb : all = true ∨ (usedConfig src noInfo name).exportAllMorph = true
    · rw [if_pos hb, if_pos (by rw [Bool.or_eq_true]; tauto)]
      exact hr
    · rw [if_neg hb, if_neg (by rw [Bool.or_eq_true]; tauto)]
      rfl

end

/-! ### A case for the hypotheses -/

namespace ExportCase

/-- Names are looked up; no pattern matches. -/
def o2 : Orders :=
  ⟨fun _ s => if '*' ∈ s ∨ '?' ∈ s then [] else (nodeMap ((doc.nodes.map ENode.bare).map ENode.view) s).toList, ["Skin".toList]⟩

theorem matches2 (i : Nat) (s : Str) :
    MatchNodeName (fun _ _ => false) ((doc.nodes.map ENode.bare).map ENode.view) s (o2.pick i s) := by
  unfold MatchNodeName
  split
  · rename_i hw
    have : o2.pick i s = [] := if_pos hw
    rw [this]
    simp
  · rename_i hw
    exact if_neg hw

theorem saved2 : ∃ d', saveVRM src o2 2 [] 0 true true "a.json".toList doc = some (false, d') ∧ d'.nodes = doc.nodes.map ENode.bare := by
  obtain ⟨err, d', h, -, he⟩ := vrm_ends_partial src o2 2 [] 0 true true "a.json".toList own (by rw [loads]; rfl) doc rank ranked
    (by intro t; unfold rank; split <;> decide)
    (by intro i s n hn; simpa using matchNodeName_exists _ _ _ _ (matches2 i s) n hn)
    (by intro m hm; simp [own] at hm)
    (by
      intro _ p hp
      rw [loadsPreset, Option.some.injEq] at hp
      subst hp
      refine ⟨?_, by simp [own]⟩
      intro m hm ht
      simp only [mmd, List.mem_singleton] at hm
      subst hm
      exact absurd ht (by decide))
  have : err = false := by
    rw [← Bool.not_eq_true, he, loadsPreset]
    simp
  subst this
  obtain ⟨-, -, -, -, -, hn, -⟩ := saved_parts src o2 2 [] 0 true true "a.json".toList doc d' h
  exact ⟨d', h, hn⟩

/-- C198: the leg has a body and hangs from a node without one. -/
example : ∃ d' e' g a, saveVRM src o2 2 [] 0 true true "a.json".toList doc = some (false, d') ∧ d'.ext = some e' ∧
    g ∈ e'.groups ∧ Int.ofNat a ∈ g.bones := by
  obtain ⟨d', h, hn⟩ := saved2
  obtain ⟨e', g, a, h1, h2, h3, -⟩ := physics_springs (fun _ _ => false) src o2 2 [] 0 true true "a.json".toList doc d' h
    (by rw [hn]; exact matches2) (.inl rfl) 1 0 _ rfl (by decide) (by decide)
    (by
      intro t n ht hn hb
      cases ht with
      | refl =>
        simp only [doc, List.map_cons, List.getElem?_cons_succ, List.getElem?_cons_zero, Option.some.injEq] at hn
        subst hn
        rcases hb with hb | ⟨hb, -⟩ <;> simp [ENode.view] at hb
      | step hm hc _ =>
        simp only [doc, List.map_cons, List.getElem?_cons_succ, List.getElem?_cons_zero, Option.some.injEq] at hm
        subst hm
        simp [ENode.view] at hc)
    (by
      intro hf
      exact hf 0 _ (.refl 0) rfl (.inr ⟨rfl, by decide⟩))
    rfl (by decide) (by decide)
    (by
      intro j x hx hxn
      match j with
      | 0 =>
        simp only [doc, List.getElem?_cons_zero, Option.some.injEq] at hx
        subst hx
        exact absurd hxn (by decide)
      | 1 => rfl
      | 2 =>
        simp only [doc, List.getElem?_cons_succ, List.getElem?_cons_zero, Option.some.injEq] at hx
        subst hx
        exact absurd hxn (by decide)
      | k + 3 => simp [doc] at hx)
  exact ⟨d', e', g, a, h, h1, h2, h3⟩

/-- C199. -/
example : (doc.nodes.map (·.name)).Nodup := by decide

/-- C200: the preset maps the target of the mesh. -/
example : HasTarget doc.meshes 0 0 "smile".toList ∧
    Maps (doc.nodes.map ENode.view) doc.meshes ⟨"joy".toList, [], "smile".toList, 0, 0⟩ 0 0 :=
  ⟨⟨_, rfl, rfl⟩, .inl ⟨by decide, 0, by decide, rfl⟩⟩

end ExportCase

end Verif.Vrm
