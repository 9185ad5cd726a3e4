import Verif.Gltf.Motion
import Verif.Gltf.AnimProps
import Verif.Gltf.BoneAnimProps
import Verif.Mmd.VmdProps
import Mathlib.Data.List.Perm.Basic

/-! Properties C187 (a VMD file becomes the animation of the model) and C188 (curves and morphs of several
meshes). -/

namespace Verif.Gltf

open Verif.Mmd (Bytes BoneSample MorphSample BoneChannel MorphChannel boneChannels morphChannels Animation VmdFile
  loadVMD)
open Verif.Mqo (Str Bone)
open Verif.Geom

variable {F : Type}

/-! ### Channels of a motion -/

theorem mem_of_mapGet {κ α : Type} [DecidableEq κ] (l : List (κ × α)) (h : (l.map Prod.fst).Nodup) (k : κ) (v : α) :
    (k, v) ∈ l ↔ Mmd.mapGet l k = some v := by
  induction l with
  | nil => simp [Mmd.mapGet]
  | cons p l ih =>
    obtain ⟨k', v'⟩ := p
    rw [List.map_cons, List.nodup_cons] at h
    rw [Mmd.mapGet, List.mem_cons]
    split
    · rename_i e
      subst e
      constructor
      · rintro (e | e)
        · cases e; rfl
        · exact absurd (List.mem_map.mpr ⟨_, e, rfl⟩) h.1
      · intro e; left; cases e; rfl
    · rename_i e
      rw [← ih h.2]
      constructor
      · rintro (e' | e')
        · exact absurd (congrArg Prod.fst e').symm e
        · exact e'
      · exact Or.inr

/-- The samples of target `t`, in the order of their frames. -/
structure KeysOf {α : Type} (target : α → Bytes) (frame : α → Nat) (l : List α) (keys : Bytes → List α) : Prop where
  perm : ∀ t, (keys t).Perm (l.filter fun s => target s = t)
  sorted : ∀ t, (keys t).Pairwise fun a b => frame a ≤ frame b

/-- The bone channels of a motion: one for each target with keys. -/
theorem boneMap_spec (a : Animation) (hf : ∀ s ∈ a.bone, s.frame < 2 ^ 32) (bm : List (Bytes × BoneChannel))
    (h : IsBoneMap a bm) : ∃ keys, KeysOf BoneSample.target BoneSample.frame a.bone keys ∧
      (bm.map Prod.fst).Nodup ∧ ∀ t c, (t, c) ∈ bm ↔ keys t ≠ [] ∧
        c = ⟨t, (keys t).map (·.frame), (keys t).map (·.rotation), (keys t).map (·.position)⟩ := by
  obtain ⟨sorted, hp, hs, hb⟩ := h
  refine ⟨fun t => sorted.filter fun s => s.target = t, ⟨fun t => hp.filter _, fun t => hs.filter _⟩, ?_, ?_⟩
  · exact ((hb.map Prod.fst).nodup_iff).mpr (Mmd.channels_nodup sorted []).1
  · intro t c
    rw [hb.mem_iff, mem_of_mapGet _ (Mmd.channels_nodup sorted []).1, Mmd.boneChannels_get]
    have hm : (sorted.filter fun s => s.target = t).map (fun s => s.frame % 2 ^ 32) =
        (sorted.filter fun s => s.target = t).map (·.frame) := by
      apply List.map_congr_left
      intro s hs
      exact Nat.mod_eq_of_lt (hf s (hp.mem_iff.1 (List.mem_of_mem_filter hs)))
    split
    · rename_i e; simp [e]
    · rename_i e
      simp only [ne_eq, e, not_false_eq_true, true_and, Option.some.injEq]
      rw [hm]
      exact eq_comm

/-- The morph channels of a motion: one for each target with keys. -/
theorem morphMap_spec (a : Animation) (hf : ∀ s ∈ a.morph, s.frame < 2 ^ 32) (mm : List (Bytes × MorphChannel))
    (h : IsMorphMap a mm) : ∃ keys, KeysOf MorphSample.target MorphSample.frame a.morph keys ∧
      (mm.map Prod.fst).Nodup ∧ ∀ t c, (t, c) ∈ mm ↔ keys t ≠ [] ∧
        c = ⟨t, (keys t).map (·.frame), (keys t).map (·.value)⟩ := by
  obtain ⟨sorted, hp, hs, hb⟩ := h
  refine ⟨fun t => sorted.filter fun s => s.target = t, ⟨fun t => hp.filter _, fun t => hs.filter _⟩, ?_, ?_⟩
  · exact ((hb.map Prod.fst).nodup_iff).mpr (Mmd.channels_nodup [] sorted).2
  · intro t c
    rw [hb.mem_iff, mem_of_mapGet _ (Mmd.channels_nodup [] sorted).2, Mmd.morphChannels_get]
    have hm : (sorted.filter fun s => s.target = t).map (fun s => s.frame % 2 ^ 32) =
        (sorted.filter fun s => s.target = t).map (·.frame) := by
      apply List.map_congr_left
      intro s hs
      exact Nat.mod_eq_of_lt (hf s (hp.mem_iff.1 (List.mem_of_mem_filter hs)))
    split
    · rename_i e; simp [e]
    · rename_i e
      simp only [ne_eq, e, not_false_eq_true, true_and, Option.some.injEq]
      rw [hm]
      exact eq_comm

/-! ### Nodes of morphs -/

theorem lookup_of_nodup {κ α : Type} [BEq κ] [LawfulBEq κ] (l : List (κ × α)) (h : (l.map Prod.fst).Nodup) {k : κ} {v : α}
    (hm : (k, v) ∈ l) : l.lookup k = some v := by
  induction l with
  | nil => cases hm
  | cons p ps ih =>
    obtain ⟨k', c⟩ := p
    simp only [List.map_cons, List.nodup_cons] at h
    rcases List.mem_cons.mp hm with e | e
    · cases e; simp [List.lookup]
    · have : k ≠ k' := by
        rintro rfl
        exact h.1 (List.mem_map.mpr ⟨_, e, rfl⟩)
      have hb : (k == k') = false := by simpa using this
      rw [List.lookup_cons, hb]
      exact ih h.2 e

theorem morphTargets_keys (nodes : List MeshNode) : (morphTargets nodes).map Prod.fst = nodes.flatMap (·.2) := by
  unfold morphTargets
  induction nodes with
  | nil => rfl
  | cons n ns ih =>
    rw [List.flatMap_cons, List.map_append, ih, List.flatMap_cons, List.map_map]
    congr 1
    have : (Prod.fst ∘ fun x : Str × Nat => (x.1, n.1, x.2, n.2.length)) = Prod.fst := rfl
    rw [this, List.zipIdx_map_fst]

/-- With distinct names the place of a target is found. -/
theorem findTarget_of (nodes : List MeshNode) (hd : (nodes.flatMap (·.2)).Nodup) {n : Nat} {names : List Str} {i : Nat}
    {name : Str} (hn : (n, names) ∈ nodes) (hi : names[i]? = some name) :
    findTarget (morphTargets nodes) name = some (n, i, names.length) := by
  unfold findTarget
  apply lookup_of_nodup
  · rw [List.map_reverse, List.nodup_reverse, morphTargets_keys]; exact hd
  · rw [List.mem_reverse, morphTargets, List.mem_flatMap]
    exact ⟨_, hn, List.mem_map.mpr ⟨(name, i), List.mem_zipIdx_iff_getElem?.mpr hi, rfl⟩⟩

theorem mem_morphNodes (targets : List (Str × Nat × Nat × Nat)) (tracks : List (MorphTrack F)) (n : Nat) :
    n ∈ morphNodes targets tracks ↔ nodeTracks targets tracks n ≠ [] := by
  simp only [morphNodes, List.mem_dedup, List.mem_filterMap, Option.map_eq_some_iff, nodeTracks, ne_eq,
    List.filter_eq_nil_iff]
  constructor
  · rintro ⟨m, hm, t, ht, rfl⟩ h
    exact h m hm (by simp [ht])
  · intro h
    push Not at h
    obtain ⟨m, hm, h⟩ := h
    cases ht : findTarget targets m.target with
    | none => rw [ht] at h; cases h
    | some t => rw [ht] at h; exact ⟨m, hm, t, ht, by simpa using h⟩

theorem morph_fold (env : MotionEnv F) (targets : List (Str × Nat × Nat × Nat)) (tracks : List (MorphTrack F))
    (w : Nat → List Nat × List UInt8) (order : List Nat)
    (hw : ∀ n ∈ order, nodeWeights env.byte targets (nodeTracks targets tracks n) = some (w n)) :
    ∀ (st : AnimState F) (es : List (TrackEntry F)), st.entries = es.map some →
    ∃ st', order.foldlM (addMorphNode env targets tracks) st = some st' ∧ st.accs <+: st'.accs ∧
      st'.entries = (es ++ order.map fun n =>
        ((n, .weights, (w n).1.map env.num.time, .weights (w n).2) : TrackEntry F)).map some := by
  induction order with
  | nil => intro st es h; exact ⟨st, rfl, List.prefix_refl _, by simpa using h⟩
  | cons n ns ih =>
    intro st es h
    obtain ⟨st', e1, e2, e3⟩ := ih (fun m hm => hw m (by simp [hm]))
      { st with
        accs := st.accs ++ [.keys ((w n).1.map env.num.time), .weights (w n).2]
        samplers := st.samplers ++ [(st.accs.length, st.accs.length + 1)]
        channels := st.channels ++ [(n, .weights, st.samplers.length)] }
      (es ++ [(n, .weights, (w n).1.map env.num.time, .weights (w n).2)]) (by
        unfold AnimState.entries
        rw [List.map_append, List.map_append]
        congr 1
        · exact entries_append _ _ h
        · simp [resolveTrack])
    refine ⟨st', ?_, ?_, ?_⟩
    · rw [List.foldlM_cons, addMorphNode, hw n (by simp)]
      exact e1
    · exact (List.prefix_append _ _).trans e2
    · rw [e3]; simp

/-! ### The whole motion -/

section motion

variable [Add F] [Sub F] [Mul F] [Neg F] [Zero F] [One F] [DecidableEq F]

/-- The rotation that bone `b` gets from a key (C124 says what it is). -/
def rotationAt (env : MotionEnv F) (bones : List (Nat × Bone F)) (b : Bone F) (s : BoneSample) : Vec4 F :=
  trackRotation env.num b.rotationOffset (offsetQuat env.num bones b)
    ⟨env.val s.rotation.x, env.val s.rotation.y, env.val s.rotation.z, env.val s.rotation.w⟩

/-- The offset of a key. -/
def offsetAt (env : MotionEnv F) (s : BoneSample) : Vec3 F :=
  ⟨env.val s.position.x, env.val s.position.y, env.val s.position.z⟩

/-- What the channels of an animation have to show, for bone keys `bk` and morph keys `mk`. -/
structure MotionShown (env : MotionEnv F) (bones : List (Nat × Bone F)) (nodes : List MeshNode)
    (bk : Bytes → List BoneSample) (mk : Bytes → List MorphSample) (shown : List (Option (TrackEntry F))) : Prop where
  linked : none ∉ shown
  distinct : (shown.map fun x => x.map fun e => (e.1, e.2.1)).Nodup
  rotations : ∀ n times data, some (n, .rotation, times, data) ∈ shown ↔ ∃ b t, (n, b) ∈ bones ∧ b.name = env.text t ∧
    (∃ s ∈ bk t, rotationAt env bones b s ≠ ⟨0, 0, 0, 1⟩) ∧ times = (bk t).map (fun s => env.num.time s.frame) ∧
    data = .rotations ((bk t).map (rotationAt env bones b))
  translations : ∀ n times data, some (n, .translation, times, data) ∈ shown ↔ ∃ b t, (n, b) ∈ bones ∧
    b.name = env.text t ∧ (∃ s ∈ bk t, offsetAt env s ≠ ⟨0, 0, 0⟩) ∧
    times = (bk t).map (fun s => env.num.time s.frame) ∧
    data = .positions ((bk t).map fun s => trackPosition env.num b.rotationOffset b.pos (offsetAt env s))
  weightNodes : ∀ n times data, some (n, .weights, times, data) ∈ shown →
    ∃ names t, (n, names) ∈ nodes ∧ env.text t ∈ names ∧ mk t ≠ []
  weights : ∀ n names fr, (n, names) ∈ nodes → (∃ t, env.text t ∈ names ∧ mk t ≠ []) →
    (∀ t, env.text t ∈ names → mk t ≠ [] → (mk t).map (·.frame) = fr) →
    ∃ l, some (n, .weights, fr.map env.num.time, .weights l) ∈ shown ∧ l.length = names.length * fr.length ∧
      (∀ i t k s, names[i]? = some (env.text t) → (mk t)[k]? = some s →
        l[k * names.length + i]? = some (env.byte (env.val s.value))) ∧
      ∀ i name k, names[i]? = some name → (∀ t, env.text t = name → mk t = []) → k < fr.length →
        l[k * names.length + i]? = some 0

theorem motion_shown (env : MotionEnv F) (a : Animation) (hfb : ∀ s ∈ a.bone, s.frame < 2 ^ 32)
    (hfm : ∀ s ∈ a.morph, s.frame < 2 ^ 32)
    (htextb : ∀ s ∈ a.bone, ∀ s' ∈ a.bone, env.text s.target = env.text s'.target → s.target = s'.target)
    (htext : ∀ s ∈ a.morph, ∀ s' ∈ a.morph, env.text s.target = env.text s'.target → s.target = s'.target)
    (bones : List (Nat × Bone F)) (hb : DistinctBones bones) (nodes : List MeshNode) (hn : (nodes.map (·.1)).Nodup)
    (hd : (nodes.flatMap (·.2)).Nodup) (bm : List (Bytes × BoneChannel)) (hbm : IsBoneMap a bm)
    (mm : List (Bytes × MorphChannel)) (hmm : IsMorphMap a mm) (order : List Nat)
    (ho : order.Perm (morphNodes (morphTargets nodes) (mm.map fun p => env.morphTrack p.2))) (doc : AnimDoc F) :
    ∃ bk mk doc' anim, KeysOf BoneSample.target BoneSample.frame a.bone bk ∧
      KeysOf MorphSample.target MorphSample.frame a.morph mk ∧
      addAnimation env bones nodes order a.name bm mm doc = some doc' ∧ doc.accs <+: doc'.accs ∧
      doc'.animations = doc.animations ++ (if anim.channels = [] then [] else [anim]) ∧
      anim.name = env.text a.name ∧
      MotionShown env bones nodes bk mk (anim.channels.map (resolveTrack anim.samplers doc'.accs)) := by
  obtain ⟨bk, hbk, hbn, hbc⟩ := boneMap_spec a hfb bm hbm
  obtain ⟨mk, hmk, hmn, hmc⟩ := morphMap_spec a hfm mm hmm
  set tracks := bm.map fun p => env.boneTrack p.2 with htr
  set mtracks := mm.map fun p => env.morphTrack p.2 with hmtr
  -- the morph tracks
  have hmem : ∀ x, x ∈ mtracks ↔ ∃ t, mk t ≠ [] ∧ x = ⟨env.text t, (mk t).map (·.frame),
      ((mk t).map (·.value)).map env.val⟩ := by
    intro x
    rw [hmtr, List.mem_map]
    constructor
    · rintro ⟨⟨t, c⟩, hp, rfl⟩
      obtain ⟨h1, rfl⟩ := (hmc t c).mp hp
      exact ⟨t, h1, rfl⟩
    · rintro ⟨t, h1, rfl⟩
      exact ⟨(t, _), (hmc t _).mpr ⟨h1, rfl⟩, rfl⟩
  have hmka : ∀ t, mk t ≠ [] → ∃ s ∈ a.morph, s.target = t := by
    intro t ht
    obtain ⟨s, hs⟩ := List.exists_mem_of_ne_nil _ ht
    have := (hmk.perm t).mem_iff.mp hs
    rw [List.mem_filter] at this
    exact ⟨s, this.1, by simpa using this.2⟩
  have hinj : ∀ t t', mk t ≠ [] → mk t' ≠ [] → env.text t = env.text t' → t = t' := by
    intro t t' h1 h2 e
    obtain ⟨s, hs, rfl⟩ := hmka t h1
    obtain ⟨s', hs', rfl⟩ := hmka t' h2
    exact htext s hs s' hs' e
  have hdis : (mtracks.map (·.target)).Nodup := by
    rw [hmtr, List.map_map]
    have e : ((fun x : MorphTrack F => x.target) ∘ fun p : Bytes × MorphChannel => env.morphTrack p.2) =
        fun p => env.text p.2.target := rfl
    rw [e]
    refine List.Nodup.map_on ?_ (List.Nodup.of_map _ hmn)
    rintro ⟨t, c⟩ hx ⟨t', c'⟩ hy e
    obtain ⟨h1, rfl⟩ := (hmc t c).mp hx
    obtain ⟨h2, rfl⟩ := (hmc t' c').mp hy
    have := hinj t t' h1 h2 e
    subst this
    rfl
  have hnt : ∀ n x, x ∈ nodeTracks (morphTargets nodes) mtracks n ↔ x ∈ mtracks ∧
      ∃ t, findTarget (morphTargets nodes) x.target = some t ∧ t.1 = n := by
    intro n x
    rw [nodeTracks, List.mem_filter]
    refine and_congr_right fun _ => ?_
    cases findTarget (morphTargets nodes) x.target <;> simp
  have hweights : ∀ n ∈ order, ∃ names m ms l, (n, names) ∈ nodes ∧
      nodeTracks (morphTargets nodes) mtracks n = m :: ms ∧
      nodeWeights env.byte (morphTargets nodes) (nodeTracks (morphTargets nodes) mtracks n) = some (m.frames, l) ∧
      l.length = names.length * m.frames.length ∧
      (∀ x ∈ m :: ms, x.frames.length = m.frames.length → ∃ i, names[i]? = some x.target ∧
        ∀ (k : Nat) (w : F), x.weights[k]? = some w → l[k * names.length + i]? = some (env.byte w)) ∧
      (∀ (k i : Nat) (name : Str), k < m.frames.length → names[i]? = some name →
        (∀ x ∈ m :: ms, x.frames.length = m.frames.length → x.target ≠ name) →
        l[k * names.length + i]? = some 0) := by
    intro n hnO
    have hne := (mem_morphNodes _ _ n).mp (ho.mem_iff.mp hnO)
    cases hc : nodeTracks (morphTargets nodes) mtracks n with
    | nil => exact absurd hc hne
    | cons m ms =>
      have hm := (hnt n m).mp (by rw [hc]; simp)
      obtain ⟨_, t, ht, rfl⟩ := hm
      obtain ⟨⟨n', names⟩, h1, h2, _⟩ := findTarget_mem nodes _ _ ht
      simp only at h2
      subst h2
      obtain ⟨l, e, h3, h4, h5⟩ := nodeWeights_spec env.byte nodes hn t.1 names h1 m ms
        (fun x hx => ((hnt t.1 x).mp (by rw [hc]; exact hx)).2)
        (by rw [← hc]; exact hdis.sublist (List.filter_sublist.map _))
        (fun x hx => by
          obtain ⟨hx, _⟩ := (hnt t.1 x).mp (by rw [hc]; exact hx)
          obtain ⟨t, _, rfl⟩ := (hmem x).mp hx
          simp)
      exact ⟨names, m, ms, l, h1, rfl, e, h3, h4, h5⟩
  haveI : Inhabited (MorphTrack F) := ⟨⟨[], [], []⟩⟩
  choose! names hd' tl ls hw using hweights
  have inv := channels_inv env.num bones doc.accs tracks
  obtain ⟨st, e1, e2, e3⟩ := morph_fold env (morphTargets nodes) mtracks (fun n => ((hd' n).frames, ls n)) order
    (fun n h => (hw n h).2.2.1) _ _ inv.shown
  have hsh : ∀ e, some e ∈ st.entries ↔ (∃ t ∈ tracks, e ∈ expectedEntries env.num bones t) ∨
      ∃ n ∈ order, e = (n, .weights, (hd' n).frames.map env.num.time, .weights (ls n)) := by
    intro e
    rw [e3, List.mem_map]
    simp only [Option.some.injEq, exists_eq_right, List.mem_append, List.mem_flatMap, List.mem_map]
    refine or_congr Iff.rfl (exists_congr fun n => and_congr_right fun _ => eq_comm)
  have hbt : ∀ x, x ∈ tracks ↔ ∃ t, bk t ≠ [] ∧ x = env.boneTrack ⟨t, (bk t).map (·.frame), (bk t).map (·.rotation),
      (bk t).map (·.position)⟩ := by
    intro x
    rw [htr, List.mem_map]
    constructor
    · rintro ⟨⟨t, c⟩, hp, rfl⟩
      obtain ⟨h1, rfl⟩ := (hbc t c).mp hp
      exact ⟨t, h1, rfl⟩
    · rintro ⟨t, h1, rfl⟩
      exact ⟨(t, _), (hbc t _).mpr ⟨h1, rfl⟩, rfl⟩
  have hbdis : (tracks.map (·.target)).Nodup := by
    rw [htr, List.map_map]
    have e : ((fun x : BoneTrack F => x.target) ∘ fun p : Bytes × BoneChannel => env.boneTrack p.2) =
        fun p => env.text p.2.target := rfl
    rw [e]
    have hk : ∀ t, bk t ≠ [] → ∃ s ∈ a.bone, s.target = t := by
      intro t ht
      obtain ⟨s, hs⟩ := List.exists_mem_of_ne_nil _ ht
      have := (hbk.perm t).mem_iff.mp hs
      rw [List.mem_filter] at this
      exact ⟨s, this.1, by simpa using this.2⟩
    refine List.Nodup.map_on ?_ (List.Nodup.of_map _ hbn)
    rintro ⟨t, c⟩ hx ⟨t', c'⟩ hy e
    obtain ⟨h1, rfl⟩ := (hbc t c).mp hx
    obtain ⟨h2, rfl⟩ := (hbc t' c').mp hy
    obtain ⟨s, hs, rfl⟩ := hk t h1
    obtain ⟨s', hs', rfl⟩ := hk t' h2
    have := htextb s hs s' hs' e
    rw [this]
  refine ⟨bk, mk, ⟨st.accs, if 0 < st.channels.length then
    doc.animations ++ [⟨env.text a.name, st.samplers, st.channels⟩] else doc.animations⟩, ⟨env.text a.name, st.samplers, st.channels⟩, hbk, hmk, ?_, inv.keep.trans e2, ?_, rfl, ?_⟩
  · show Option.map _ (addMorphChannels env nodes order mtracks (addBoneChannels env.num bones doc.accs tracks)) = _
    unfold addMorphChannels
    rw [e1]
    rfl
  · show (if 0 < st.channels.length then _ else _) = _
    cases st.channels <;> simp
  · show MotionShown env bones nodes bk mk st.entries
    have hwt : ∀ n times data, some (n, .weights, times, data) ∈ st.entries ↔
        n ∈ order ∧ times = (hd' n).frames.map env.num.time ∧ data = .weights (ls n) := by
      intro n times data
      rw [hsh]
      constructor
      · rintro (⟨t, ht, he⟩ | ⟨n', h1, h2⟩)
        · obtain ⟨n', b, _, _, (⟨_, h⟩ | ⟨_, h⟩)⟩ := (mem_expected env.num bones hb t _).mp he <;> cases h
        · cases h2; exact ⟨h1, rfl, rfl⟩
      · rintro ⟨h1, rfl, rfl⟩
        exact Or.inr ⟨n, h1, rfl⟩
    refine ⟨?_, ?_, ?_, ?_, ?_, ?_⟩
    · rw [e3, List.mem_map]
      rintro ⟨_, _, h⟩
      cases h
    · rw [e3, List.map_map]
      have e : ((fun x : Option (TrackEntry F) => x.map fun e => (e.1, e.2.1)) ∘ some) =
          some ∘ fun e : TrackEntry F => (e.1, e.2.1) := rfl
      rw [e, ← List.map_map]
      refine List.Nodup.map (Option.some_injective _) ?_
      rw [List.map_append]
      refine List.Nodup.append (expected_nodup env.num bones hb tracks hbdis) ?_ ?_
      · rw [List.map_map]
        have e : ((fun e : TrackEntry F => (e.1, e.2.1)) ∘ fun n =>
            ((n, .weights, (hd' n).frames.map env.num.time, .weights (ls n)) : TrackEntry F)) =
            fun n => (n, TrackPath.weights) := rfl
        rw [e]
        refine List.Nodup.map (fun x y h => (Prod.mk.inj h).1) ?_
        exact ho.nodup_iff.mpr (List.nodup_dedup _)
      · intro x hx hy
        simp only [List.mem_map, List.mem_flatMap] at hx hy
        obtain ⟨e, ⟨t, _, he⟩, rfl⟩ := hx
        obtain ⟨_, ⟨n, _, rfl⟩, hxy⟩ := hy
        have h2 := (Prod.mk.inj hxy).2
        obtain ⟨n', b, _, _, (⟨_, h⟩ | ⟨_, h⟩)⟩ := (mem_expected env.num bones hb t _).mp he <;> rw [h] at h2 <;> cases h2
    · intro n times data
      rw [hsh]
      constructor
      · rintro (⟨t, ht, he⟩ | ⟨n', h1, h2⟩)
        · obtain ⟨n', b, h1, h2, h3⟩ := (mem_expected env.num bones hb t _).mp he
          obtain ⟨t, h4, rfl⟩ := (hbt _).mp ht
          rcases h3 with ⟨h3, h⟩ | ⟨_, h⟩
          · cases h
            obtain ⟨q, hq, hq1⟩ := h3
            simp only [MotionEnv.boneTrack, List.mem_map] at hq
            obtain ⟨_, ⟨s, hs, rfl⟩, rfl⟩ := hq
            exact ⟨b, t, h1, h2, ⟨s, hs, hq1⟩, by simp [MotionEnv.boneTrack], by
              simp [MotionEnv.boneTrack, rotationAt]⟩
          · cases h
        · cases h2
      · rintro ⟨b, t, h1, h2, ⟨s, hs, hs1⟩, rfl, rfl⟩
        refine Or.inl ⟨_, (hbt _).mpr ⟨t, List.ne_nil_of_mem hs, rfl⟩, (mem_expected env.num bones hb _ _).mpr
          ⟨n, b, h1, h2, Or.inl ⟨⟨_, ?_, hs1⟩, ?_⟩⟩⟩
        · simp only [MotionEnv.boneTrack, List.mem_map]
          exact ⟨_, ⟨s, hs, rfl⟩, rfl⟩
        · simp [rotationEntry, MotionEnv.boneTrack, rotationAt]
    · intro n times data
      rw [hsh]
      constructor
      · rintro (⟨t, ht, he⟩ | ⟨n', h1, h2⟩)
        · obtain ⟨n', b, h1, h2, h3⟩ := (mem_expected env.num bones hb t _).mp he
          obtain ⟨t, h4, rfl⟩ := (hbt _).mp ht
          rcases h3 with ⟨_, h⟩ | ⟨h3, h⟩
          · cases h
          · cases h
            obtain ⟨q, hq, hq1⟩ := h3
            simp only [MotionEnv.boneTrack, List.mem_map] at hq
            obtain ⟨_, ⟨s, hs, rfl⟩, rfl⟩ := hq
            exact ⟨b, t, h1, h2, ⟨s, hs, hq1⟩, by simp [MotionEnv.boneTrack], by
              simp [MotionEnv.boneTrack, offsetAt]⟩
        · cases h2
      · rintro ⟨b, t, h1, h2, ⟨s, hs, hs1⟩, rfl, rfl⟩
        refine Or.inl ⟨_, (hbt _).mpr ⟨t, List.ne_nil_of_mem hs, rfl⟩, (mem_expected env.num bones hb _ _).mpr
          ⟨n, b, h1, h2, Or.inr ⟨⟨_, ?_, hs1⟩, ?_⟩⟩⟩
        · simp only [MotionEnv.boneTrack, List.mem_map]
          exact ⟨_, ⟨s, hs, rfl⟩, rfl⟩
        · simp [translationEntry, MotionEnv.boneTrack, offsetAt]
    · intro n times data h
      obtain ⟨h1, _⟩ := (hwt n times data).mp h
      obtain ⟨h2, h3, _⟩ := hw n h1
      obtain ⟨h4, t, ht, rfl⟩ := (hnt n (hd' n)).mp (by rw [h3]; simp)
      obtain ⟨⟨n', names'⟩, g1, g2, g3, _⟩ := findTarget_mem nodes _ _ ht
      simp only at g2 g3
      subst g2
      obtain ⟨u, hu, hu2⟩ := (hmem _).mp h4
      exact ⟨names', u, g1, by rw [← show _ = env.text u from congrArg MorphTrack.target hu2]; exact List.mem_of_getElem? g3, hu⟩
    · intro n nm fr hnn hex hfr
      -- the tracks of this node
      have htn : ∀ (t : Bytes), mk t ≠ [] → ∀ i : Nat, nm[i]? = some (env.text t) →
          (⟨env.text t, (mk t).map (·.frame), ((mk t).map (·.value)).map env.val⟩ : MorphTrack F) ∈
            nodeTracks (morphTargets nodes) mtracks n := by
        intro t ht i hi
        exact (hnt n _).mpr ⟨(hmem _).mpr ⟨t, ht, rfl⟩, _, findTarget_of nodes hd hnn hi, rfl⟩
      obtain ⟨t0, ht0, hm0⟩ := hex
      obtain ⟨i0, hi0⟩ := List.mem_iff_getElem?.mp ht0
      have hno : n ∈ order := ho.mem_iff.mpr ((mem_morphNodes _ _ n).mpr (List.ne_nil_of_mem (htn t0 hm0 i0 hi0)))
      obtain ⟨w1, w2, w3, w4, w5, w6⟩ := hw n hno
      have hnm : names n = nm := by
        have := List.inj_on_of_nodup_map hn w1 hnn rfl
        exact congrArg Prod.snd this
      rw [hnm] at w1 w4 w5 w6
      have hfrm : ∀ x ∈ nodeTracks (morphTargets nodes) mtracks n, x.frames = fr := by
        intro x hx
        obtain ⟨h1, t, h2, h3⟩ := (hnt n x).mp hx
        obtain ⟨⟨n', names'⟩, g1, g2, g3, _⟩ := findTarget_mem nodes _ _ h2
        simp only at g2 g3
        have : (n', names') = (n, nm) := List.inj_on_of_nodup_map hn g1 hnn (g2.trans h3)
        cases this
        obtain ⟨u, hu, rfl⟩ := (hmem _).mp h1
        exact hfr u (List.mem_of_getElem? g3) hu
      have hf0 : (hd' n).frames = fr := hfrm _ (by rw [w2]; simp)
      refine ⟨ls n, (hwt n _ _).mpr ⟨hno, by rw [hf0], rfl⟩, by rw [w4, hf0], ?_, ?_⟩
      · intro i t k s hi hs
        have hne : mk t ≠ [] := by intro h; rw [h] at hs; cases hs
        have hx := htn t hne i hi
        obtain ⟨j, hj, hv⟩ := w5 _ (by rw [← w2]; exact hx) (by rw [hf0]; exact congrArg List.length (hfrm _ hx))
        have hij : i = j := by
          have a1 := findTarget_of nodes hd hnn hi
          have a2 := findTarget_of nodes hd hnn hj
          have := a1.symm.trans a2
          cases this; rfl
        subst hij
        exact hv k _ (by simp [hs])
      · intro i name k hi hno' hk
        refine w6 k i name (by rw [hf0]; exact hk) hi ?_
        intro x hx _ he
        obtain ⟨h1, _⟩ := (hnt n x).mp (by rw [w2]; exact hx)
        obtain ⟨u, hu, rfl⟩ := (hmem _).mp h1
        exact hu (hno' u he)

/-- C187. A VMD file and a model become an animation: the file is read, the animation is appended (if it has a
channel), and it shows for each bone of the model the keys of the file with its name, in the order of time, each
with its own time and value, and for each mesh whose animated morphs have common key times their weights;
nothing else is shown. This holds for every order in which equal frames are sorted and maps are visited. -/
theorem motion_file (env : MotionEnv F) (sjis : Bytes → Bytes) (hsj : sjis VmdFile.tagText = VmdFile.tagText)
    (f : VmdFile) (h : f.OK) (rest : Bytes)
    (htextb : ∀ s ∈ (f.anim sjis).bone, ∀ s' ∈ (f.anim sjis).bone,
      env.text s.target = env.text s'.target → s.target = s'.target)
    (htext : ∀ s ∈ (f.anim sjis).morph, ∀ s' ∈ (f.anim sjis).morph,
      env.text s.target = env.text s'.target → s.target = s'.target)
    (bones : List (Nat × Bone F)) (hb : DistinctBones bones) (nodes : List MeshNode) (hn : (nodes.map (·.1)).Nodup)
    (hd : (nodes.flatMap (·.2)).Nodup) :
    ∃ a, loadVMD sjis (f.bytes ++ rest) = .ok a ∧
    ∀ bm, IsBoneMap a bm → ∀ mm, IsMorphMap a mm → ∀ order,
    order.Perm (morphNodes (morphTargets nodes) (mm.map fun p => env.morphTrack p.2)) → ∀ doc : AnimDoc F,
    ∃ bk mk doc' anim,
      KeysOf BoneSample.target BoneSample.frame (f.bones.map fun k =>
        ⟨sjis (k.name.takeWhile (· != 0)), k.frame, k.position, k.rotation, k.params⟩) bk ∧
      KeysOf MorphSample.target MorphSample.frame (f.morphs.map fun k =>
        ⟨sjis (k.name.takeWhile (· != 0)), k.frame, k.value⟩) mk ∧
      addAnimation env bones nodes order a.name bm mm doc = some doc' ∧ doc.accs <+: doc'.accs ∧
      doc'.animations = doc.animations ++ (if anim.channels = [] then [] else [anim]) ∧
      anim.name = env.text (sjis (f.name.takeWhile (· != 0))) ∧
      MotionShown env bones nodes bk mk (anim.channels.map (resolveTrack anim.samplers doc'.accs)) := by
  refine ⟨_, Mmd.vmd_load sjis hsj f h rest, ?_⟩
  intro bm hbm mm hmm order ho doc
  refine motion_shown env (f.anim sjis) ?_ ?_ htextb htext bones hb nodes hn hd bm hbm mm hmm order ho doc
  · intro s hs
    obtain ⟨k, hk, rfl⟩ := List.mem_map.mp hs
    exact (h.bones k hk).2.1
  · intro s hs
    obtain ⟨k, hk, rfl⟩ := List.mem_map.mp hs
    exact (h.morphs k hk).2

end motion

/-! ### Curves, and morphs of several meshes -/

/-- The file with the same curve for all bone keys. -/
def withCurve (f : VmdFile) (c : Bytes) : VmdFile := { f with bones := f.bones.map fun k => { k with params := c } }

/-- C188 is false: whatever curves a file has, its animation is also that of the file in which all keys have the
curve `c`. -/
theorem curves_false (sjis : Bytes → Bytes) (f : VmdFile) (c : Bytes) :
    (∀ bm, IsBoneMap (f.anim sjis) bm → IsBoneMap ((withCurve f c).anim sjis) bm) ∧
    (∀ mm, IsMorphMap (f.anim sjis) mm ↔ IsMorphMap ((withCurve f c).anim sjis) mm) ∧
    (f.anim sjis).name = ((withCurve f c).anim sjis).name := by
  refine ⟨?_, fun _ => Iff.rfl, rfl⟩
  rintro bm ⟨sorted, hp, hs, hb⟩
  have hl : ((withCurve f c).anim sjis).bone = (f.anim sjis).bone.map fun s => { s with params := c } := by
    simp [VmdFile.anim, withCurve, VmdFile.BoneKey.sample, List.map_map, Function.comp_def]
  refine ⟨sorted.map fun s => { s with params := c }, by rw [hl]; exact hp.map _, ?_, ?_⟩
  · rw [List.pairwise_map]; exact hs
  · have : boneChannels (sorted.map fun s => { s with params := c }) = boneChannels sorted := by
      unfold boneChannels
      rw [List.foldl_map]
      rfl
    rw [this]; exact hb

/-- C189 is false: a mesh whose morphs are also morphs of later meshes gets no channel, whatever the motion. -/
theorem shared_morph_false (before after : List MeshNode) (n : Nat) (names : List Str)
    (hn : ((before ++ (n, names) :: after).map (·.1)).Nodup) (hs : ∀ x ∈ names, ∃ p ∈ after, x ∈ p.2)
    (tracks : List (MorphTrack F)) : n ∉ morphNodes (morphTargets (before ++ (n, names) :: after)) tracks := by
  rw [mem_morphNodes, not_not, nodeTracks, List.filter_eq_nil_iff]
  intro m _ hm
  cases ht : findTarget (morphTargets (before ++ (n, names) :: after)) m.target with
  | none => rw [ht] at hm; cases hm
  | some t =>
    rw [ht] at hm
    have hm : t.1 = n := by simpa using hm
    obtain ⟨p, hp, h1, h2, _⟩ := findTarget_mem _ _ _ ht
    have hpe : p = (n, names) := List.inj_on_of_nodup_map hn hp (by simp) (h1.trans hm)
    subst hpe
    obtain ⟨q, hq, hx⟩ := hs m.target (List.mem_of_getElem? h2)
    have hsplit : morphTargets (before ++ (n, names) :: after) =
        morphTargets (before ++ [(n, names)]) ++ morphTargets after := by simp [morphTargets]
    have hk : ∃ t', (morphTargets after).reverse.lookup m.target = some t' := by
      cases hl : (morphTargets after).reverse.lookup m.target with
      | some t' => exact ⟨t', rfl⟩
      | none =>
        rw [List.lookup_eq_none_iff] at hl
        obtain ⟨i, hi⟩ := List.mem_iff_getElem?.mp hx
        have := hl (m.target, q.1, i, q.2.length) (by
          rw [List.mem_reverse, morphTargets, List.mem_flatMap]
          exact ⟨q, hq, List.mem_map.mpr ⟨(m.target, i), List.mem_zipIdx_iff_getElem?.mpr hi, rfl⟩⟩)
        simp at this
    obtain ⟨t', ht'⟩ := hk
    rw [findTarget, hsplit, List.reverse_append, List.lookup_append, ht', Option.some_or] at ht
    cases ht
    obtain ⟨p', hp', g1, _⟩ := findTarget_mem after m.target t ht'
    rw [List.map_append, List.map_cons, List.nodup_append] at hn
    exact (List.nodup_cons.mp hn.2.1).1 (List.mem_map.mpr ⟨p', hp', g1.trans hm⟩)

/-! ### Sample -/

/-- Numbers and texts of the sample: values are the bit patterns themselves. -/
def motionEnv : MotionEnv ℚ where
  num := sampleNum
  val u := u.toNat
  text b := b.map fun c => Char.ofNat c.toNat
  byte x := UInt8.ofNat x.num.toNat

/-- A name field of `n` bytes. -/
def nameField (n : Nat) (name : String) : Bytes :=
  (name.toList.map fun c => UInt8.ofNat c.toNat) ++ List.replicate (n - name.length) 0

/-- The hip moves (its keys are not in order), the tail is no bone of the model; two morphs. -/
def motionVmd : VmdFile where
  tag := VmdFile.tagText ++ [0, 0, 0, 0, 0]
  name := nameField 20 "walk"
  bones := [⟨nameField 15 "hip", 15, ⟨0, 1, 2⟩, ⟨0, 0, 0, 1⟩, List.replicate 64 20⟩,
    ⟨nameField 15 "tail", 3, ⟨1, 1, 1⟩, ⟨0, 0, 0, 1⟩, List.replicate 64 20⟩,
    ⟨nameField 15 "hip", 0, ⟨0, 0, 0⟩, ⟨0, 0, 0, 1⟩, List.replicate 64 20⟩]
  morphs := [⟨nameField 15 "smile", 0, 7⟩, ⟨nameField 15 "blink", 0, 5⟩, ⟨nameField 15 "blink", 10, 6⟩,
    ⟨nameField 15 "smile", 10, 8⟩]

/-- Node 8 has a mesh with three morphs. -/
def motionNodes : List MeshNode := [(8, ["blink".toList, "cry".toList, "smile".toList])]

theorem motionVmd_ok : motionVmd.OK where
  tag := by decide
  name := by decide
  nbones := by decide
  bones := by decide
  nmorphs := by decide
  morphs := by decide

/-- The samples of `motionVmd` in the order of their frames. -/
def motionSorted : List BoneSample :=
  ((motionVmd.anim id).bone.drop 2) ++ ((motionVmd.anim id).bone.drop 1).take 1 ++ ((motionVmd.anim id).bone.take 1)

def motionMorphs : List MorphSample :=
  ((motionVmd.anim id).morph.take 3) ++ ((motionVmd.anim id).morph.drop 3)

/-- The hypotheses of `motion_file` hold for the sample. -/
example : motionVmd.OK ∧
    (∀ s ∈ (motionVmd.anim id).bone, ∀ s' ∈ (motionVmd.anim id).bone,
      motionEnv.text s.target = motionEnv.text s'.target → s.target = s'.target) ∧
    (∀ s ∈ (motionVmd.anim id).morph, ∀ s' ∈ (motionVmd.anim id).morph,
      motionEnv.text s.target = motionEnv.text s'.target → s.target = s'.target) ∧
    DistinctBones sampleJoints ∧ (motionNodes.map (·.1)).Nodup ∧ (motionNodes.flatMap (·.2)).Nodup :=
  ⟨motionVmd_ok, by decide +kernel, by decide +kernel, ⟨by decide +kernel, by decide +kernel, by decide +kernel⟩,
    by decide, by decide⟩

example : IsBoneMap (motionVmd.anim id) (boneChannels motionSorted) ∧
    IsMorphMap (motionVmd.anim id) (morphChannels motionMorphs) :=
  ⟨⟨motionSorted, by decide +kernel, by decide +kernel, List.Perm.refl _⟩,
    ⟨motionMorphs, by decide +kernel, by decide +kernel, List.Perm.refl _⟩⟩

example : [8].Perm (morphNodes (morphTargets motionNodes)
    ((morphChannels motionMorphs).map fun p => motionEnv.morphTrack p.2)) := by decide +kernel

/-- The hip gets its keys in order, the tail nothing; the mesh gets the weights of both morphs. -/
example : (addAnimation motionEnv sampleJoints motionNodes [8] (motionVmd.anim id).name (boneChannels motionSorted)
    (morphChannels motionMorphs) ⟨[], []⟩).map (·.animations) =
    some [⟨"walk".toList, [(0, 1), (2, 3)], [(4, .translation, 0), (8, .weights, 1)]⟩] := by decide +kernel

example : (addAnimation motionEnv sampleJoints motionNodes [8] (motionVmd.anim id).name (boneChannels motionSorted)
    (morphChannels motionMorphs) ⟨[], []⟩).map (·.accs) =
    some [.keys [0, 1/2], .positions [⟨0, 4/5, 0⟩, ⟨0, 22/25, -4/25⟩], .keys [0, 1/3],
      .weights [5, 0, 7, 6, 0, 8]] := by decide +kernel

/-- Other curves, the same animation. -/
example : (withCurve motionVmd (List.replicate 64 107)).OK ∧
    (withCurve motionVmd (List.replicate 64 107)).bytes ≠ motionVmd.bytes :=
  ⟨⟨by decide, by decide, by decide, by decide, by decide, by decide⟩, by decide +kernel⟩

/-- Two meshes with the morph `smile`. -/
example : (([] ++ (4, ["smile".toList]) :: [(7, ["smile".toList, "cry".toList])] : List MeshNode).map (·.1)).Nodup ∧
    ∀ x ∈ ["smile".toList], ∃ p ∈ ([(7, ["smile".toList, "cry".toList])] : List MeshNode), x ∈ p.2 := by decide

end Verif.Gltf
