import Verif.Gltf.BoneAnim
import Mathlib.Data.List.Nodup

/-! Lemmas about the loop over the bone tracks. -/

namespace Verif.Gltf

open Verif.Geom
open Verif.Mqo (Str Bone)

variable {F : Type}

/-- What an exported channel says: node, path, times and values. -/
abbrev TrackEntry (F : Type) := Nat × TrackPath × List F × AccData F

/-- Following the numbers of a channel to its sampler and the accessors. -/
def resolveTrack (samplers : List (Nat × Nat)) (accs : List (AccData F)) (c : Nat × TrackPath × Nat) :
    Option (TrackEntry F) :=
  match samplers[c.2.2]? with
  | none => none
  | some s =>
    match accs[s.1]?, accs[s.2]? with
    | some (.keys l), some d => some (c.1, c.2.1, l, d)
    | _, _ => none

/-- What the channels of an animation say. -/
def AnimState.entries (st : AnimState F) : List (Option (TrackEntry F)) :=
  st.channels.map (resolveTrack st.samplers st.accs)

theorem getElem?_append_some {α : Type} {l : List α} {i : Nat} {a : α} (m : List α) (h : l[i]? = some a) :
    (l ++ m)[i]? = some a := by
  rw [List.getElem?_append_left (List.getElem?_eq_some_iff.mp h).1, h]

theorem resolveTrack_append {s : List (Nat × Nat)} {a : List (AccData F)} {c : Nat × TrackPath × Nat}
    {e : TrackEntry F} (s' : List (Nat × Nat)) (a' : List (AccData F)) (h : resolveTrack s a c = some e) :
    resolveTrack (s ++ s') (a ++ a') c = some e := by
  unfold resolveTrack at h ⊢
  cases h1 : s[c.2.2]? with
  | none => rw [h1] at h; cases h
  | some p =>
    rw [getElem?_append_some s' h1]
    rw [h1] at h
    simp only at h ⊢
    cases h2 : a[p.1]? with
    | none => rw [h2] at h; cases h
    | some x =>
      cases h3 : a[p.2]? with
      | none => rw [h2, h3] at h; cases x <;> cases h
      | some y =>
        rw [getElem?_append_some a' h2, getElem?_append_some a' h3]
        rw [h2, h3] at h
        exact h

/-- The state says `es`, keeps the accessors `base`, and the keys accessor to be used again is right. -/
structure TrackInv (num : AnimNum F) (base : List (AccData F)) (es : List (TrackEntry F)) (st : AnimState F) :
    Prop where
  keep : base <+: st.accs
  shown : st.entries = es.map some
  prev : ∀ f a, st.prev = some (f, a) → st.accs[a]? = some (.keys (f.map num.time))

theorem entries_append {es : List (TrackEntry F)} {ch : List (Nat × TrackPath × Nat)} {s : List (Nat × Nat)}
    {a : List (AccData F)} (s' : List (Nat × Nat)) (a' : List (AccData F))
    (h : ch.map (resolveTrack s a) = es.map some) :
    ch.map (resolveTrack (s ++ s') (a ++ a')) = es.map some := by
  induction ch generalizing es with
  | nil => simpa using h
  | cons c ch ih =>
    cases es with
    | nil => cases h
    | cons e es =>
      simp only [List.map_cons, List.cons.injEq] at h ⊢
      exact ⟨resolveTrack_append s' a' h.1, ih h.2⟩

theorem TrackInv.keys {num : AnimNum F} {base : List (AccData F)} {es : List (TrackEntry F)} {st : AnimState F}
    (h : TrackInv num base es st) (frames : List Nat) :
    TrackInv num base es (keysAccessor num frames st).2 ∧
      (keysAccessor num frames st).2.accs[(keysAccessor num frames st).1]? = some (.keys (frames.map num.time)) := by
  have new : TrackInv num base es { st with accs := st.accs ++ [.keys (frames.map num.time)] } := by
    refine ⟨h.keep.trans (List.prefix_append _ _), ?_, ?_⟩
    · have := entries_append [] [AccData.keys (frames.map num.time)] h.shown
      simpa [AnimState.entries] using this
    · intro f a hp
      exact getElem?_append_some _ (h.prev f a hp)
  unfold keysAccessor
  split
  · rename_i f acc hp
    by_cases hf : frames = f
    · rw [if_pos hf]; exact ⟨h, hf ▸ h.prev f acc hp⟩
    · rw [if_neg hf]; exact ⟨new, by simp⟩
  · exact ⟨new, by simp⟩

theorem TrackInv.track {num : AnimNum F} {base : List (AccData F)} {es : List (TrackEntry F)} {st : AnimState F}
    (h : TrackInv num base es st) (n : Nat) (path : TrackPath) (k : Nat) (l : List F) (data : AccData F)
    (hk : st.accs[k]? = some (.keys l)) :
    TrackInv num base (es ++ [(n, path, l, data)]) (addTrack n path k data st) ∧
      (addTrack n path k data st).accs[k]? = some (.keys l) := by
  have hk' := getElem?_append_some [data] hk
  refine ⟨⟨h.keep.trans (List.prefix_append _ _), ?_, ?_⟩, hk'⟩
  · have := entries_append [(k, st.accs.length)] [data] h.shown
    simp only [AnimState.entries, addTrack, List.map_append, List.map_cons, List.map_nil]
    rw [this]
    congr 2
    simp [resolveTrack, hk']
  · intro f a hp
    exact getElem?_append_some _ (h.prev f a hp)

variable [Add F] [Sub F] [Mul F] [Neg F] [Zero F] [One F] [DecidableEq F]

/-- The entries of a track for node `n` and bone data. -/
def trackEntries (num : AnimNum F) (n : Nat) (rot pos : Vec3 F) (off : Vec4 F) (t : BoneTrack F) :
    List (TrackEntry F) :=
  (if (t.rotations.map (trackRotation num rot off)).any (· ≠ ⟨0, 0, 0, 1⟩) then
    [(n, .rotation, t.frames.map num.time, .rotations (t.rotations.map (trackRotation num rot off)))] else []) ++
  (if t.positions.any (· ≠ ⟨0, 0, 0⟩) then
    [(n, .translation, t.frames.map num.time, .positions (t.positions.map (trackPosition num rot pos)))] else [])

/-- The entries of a track. -/
def expectedEntries (num : AnimNum F) (bones : List (Nat × Bone F)) (t : BoneTrack F) : List (TrackEntry F) :=
  match boneNodeOf bones t.target with
  | none => []
  | some n =>
    match bones.lookup n with
    | some b => trackEntries num n b.rotationOffset b.pos (offsetQuat num bones b) t
    | none => trackEntries num n ⟨0, 0, 0⟩ ⟨0, 0, 0⟩ ⟨0, 0, 0, 1⟩ t

theorem TrackInv.add {num : AnimNum F} {base : List (AccData F)} {es : List (TrackEntry F)} {st : AnimState F}
    (h : TrackInv num base es st) (n : Nat) (rot pos : Vec3 F) (off : Vec4 F) (t : BoneTrack F) :
    TrackInv num base (es ++ trackEntries num n rot pos off t) (addTracks num n rot pos off t st) := by
  obtain ⟨h1, hk⟩ := h.keys t.frames
  unfold addTracks
  generalize keysAccessor num t.frames st = x at h1 hk
  simp only [trackEntries, ← List.append_assoc]
  have fin : ∀ {es' : List (TrackEntry F)} {s : AnimState F}, TrackInv num base es' s →
      s.accs[x.1]? = some (.keys (t.frames.map num.time)) →
      TrackInv num base es' { s with prev := some (t.frames, x.1) } := by
    intro es' s hs hk
    refine ⟨hs.keep, hs.shown, ?_⟩
    intro f a hp
    simp only [Option.some.injEq, Prod.mk.injEq] at hp
    rw [← hp.1, ← hp.2]; exact hk
  have last : ∀ {es' : List (TrackEntry F)} {s : AnimState F}, TrackInv num base es' s →
      s.accs[x.1]? = some (.keys (t.frames.map num.time)) →
      TrackInv num base (es' ++ if t.positions.any (· ≠ ⟨0, 0, 0⟩) then
        [(n, .translation, t.frames.map num.time, .positions (t.positions.map (trackPosition num rot pos)))] else [])
        { (if t.positions.any (· ≠ ⟨0, 0, 0⟩) then
          addTrack n .translation x.1 (.positions (t.positions.map (trackPosition num rot pos))) s else s) with
          prev := some (t.frames, x.1) } := by
    intro es' s hs hk
    by_cases hp : t.positions.any (· ≠ ⟨0, 0, 0⟩) = true
    · rw [if_pos hp, if_pos hp]
      obtain ⟨a, b⟩ := hs.track n .translation x.1 _ (.positions (t.positions.map (trackPosition num rot pos))) hk
      exact fin a b
    · rw [if_neg hp, if_neg hp, List.append_nil]; exact fin hs hk
  by_cases hr : (t.rotations.map (trackRotation num rot off)).any (· ≠ ⟨0, 0, 0, 1⟩) = true
  · rw [if_pos hr, if_pos hr]
    obtain ⟨a, b⟩ := h1.track n .rotation x.1 _ (.rotations (t.rotations.map (trackRotation num rot off))) hk
    exact last a b
  · rw [if_neg hr, if_neg hr, List.append_nil]; exact last h1 hk

theorem TrackInv.step {num : AnimNum F} {bones : List (Nat × Bone F)} {base : List (AccData F)}
    {es : List (TrackEntry F)} {st : AnimState F} (h : TrackInv num base es st) (t : BoneTrack F) :
    TrackInv num base (es ++ expectedEntries num bones t) (addBoneTrack num bones st t) := by
  unfold expectedEntries addBoneTrack
  cases boneNodeOf bones t.target with
  | none => rw [List.append_nil]; exact h
  | some n =>
    simp only
    cases bones.lookup n with
    | none => exact h.add n _ _ _ t
    | some b => exact h.add n _ _ _ t

theorem tracks_inv (num : AnimNum F) (bones : List (Nat × Bone F)) (base : List (AccData F))
    (tracks : List (BoneTrack F)) (es : List (TrackEntry F)) (st : AnimState F) (h : TrackInv num base es st) :
    TrackInv num base (es ++ tracks.flatMap (expectedEntries num bones)) (tracks.foldl (addBoneTrack num bones) st) := by
  induction tracks generalizing es st with
  | nil => simpa using h
  | cons t ts ih =>
    have := ih _ _ (h.step (bones := bones) t)
    simpa [List.append_assoc] using this

theorem channels_inv (num : AnimNum F) (bones : List (Nat × Bone F)) (accs : List (AccData F))
    (tracks : List (BoneTrack F)) :
    TrackInv num accs (tracks.flatMap (expectedEntries num bones)) (addBoneChannels num bones accs tracks) := by
  have := tracks_inv num bones accs tracks [] ⟨accs, [], [], none⟩
    ⟨List.prefix_refl _, rfl, fun _ _ h => by cases h⟩
  simpa [addBoneChannels] using this

omit [Add F] [Sub F] [Mul F] [Neg F] [Zero F] [One F] [DecidableEq F] in
/-- With distinct names, `boneNodeOf` finds the bone with the name. -/
theorem boneNodeOf_iff (bones : List (Nat × Bone F)) (hn : (bones.map (·.2.name)).Nodup) (name : Str) (n : Nat) :
    boneNodeOf bones name = some n ↔ ∃ b, (n, b) ∈ bones ∧ b.name = name := by
  constructor
  · intro h
    simp only [boneNodeOf, Option.map_eq_some_iff] at h
    obtain ⟨p, hp, rfl⟩ := h
    have := List.mem_of_getLast? hp
    rw [List.mem_filter] at this
    exact ⟨p.2, this.1, by simpa using this.2⟩
  · rintro ⟨b, hb, rfl⟩
    have hm : (n, b) ∈ bones.filter fun p => p.2.name = b.name := by simp [List.mem_filter, hb]
    cases hl : (bones.filter fun p => p.2.name = b.name).getLast? with
    | none => rw [List.getLast?_eq_none_iff.mp hl] at hm; cases hm
    | some p =>
      have hp := List.mem_of_getLast? hl
      rw [List.mem_filter] at hp
      have e : p = (n, b) := List.inj_on_of_nodup_map hn hp.1 hb (by simpa using hp.2)
      simp [boneNodeOf, hl, e]

omit [Add F] [Sub F] [Mul F] [Neg F] [Zero F] [One F] [DecidableEq F] in
theorem boneWithID_iff (bones : List (Nat × Bone F)) (hn : (bones.map (·.2.id)).Nodup) (id : Int) (b : Bone F) :
    boneWithID bones id = some b ↔ ∃ n, (n, b) ∈ bones ∧ b.id = id := by
  constructor
  · intro h
    simp only [boneWithID, Option.map_eq_some_iff] at h
    obtain ⟨p, hp, rfl⟩ := h
    have := List.mem_of_getLast? hp
    rw [List.mem_filter] at this
    exact ⟨p.1, this.1, by simpa using this.2⟩
  · rintro ⟨n, hb, rfl⟩
    have hm : (n, b) ∈ bones.filter fun p => p.2.id = b.id := by simp [List.mem_filter, hb]
    cases hl : (bones.filter fun p => p.2.id = b.id).getLast? with
    | none => rw [List.getLast?_eq_none_iff.mp hl] at hm; cases hm
    | some p =>
      have hp := List.mem_of_getLast? hl
      rw [List.mem_filter] at hp
      have e : p = (n, b) := List.inj_on_of_nodup_map hn hp.1 hb (by simpa using hp.2)
      simp [boneWithID, hl, e]

omit [Add F] [Sub F] [Mul F] [Neg F] [Zero F] [One F] [DecidableEq F] in
theorem lookup_of_mem {bones : List (Nat × Bone F)} (hn : (bones.map (·.1)).Nodup) {n : Nat} {b : Bone F}
    (h : (n, b) ∈ bones) : bones.lookup n = some b := by
  induction bones with
  | nil => cases h
  | cons p ps ih =>
    obtain ⟨k, c⟩ := p
    simp only [List.map_cons, List.nodup_cons] at hn
    rcases List.mem_cons.mp h with e | e
    · cases e; simp [List.lookup]
    · have : n ≠ k := by
        rintro rfl
        exact hn.1 (List.mem_map.mpr ⟨_, e, rfl⟩)
      have hb : (n == k) = false := by simpa using this
      rw [List.lookup_cons, hb]
      exact ih hn.2 e

end Verif.Gltf
