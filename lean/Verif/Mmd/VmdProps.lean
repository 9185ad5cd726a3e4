import Verif.Mmd.Vmd
import Verif.Mmd.PmdLemmas
import Mathlib.Data.List.Sort
import Mathlib.Data.List.Induction

/-! Properties C16 (animation channels), C63 (VMD files) and C64 (truncated VMD files). -/

namespace Verif.Mmd

open Verif.Geom PmdFile

/-! ## C16 -/

section maps

variable {κ α : Type} [DecidableEq κ]

theorem mapGet_mapSet (m : List (κ × α)) (k k' : κ) (v : α) :
    mapGet (mapSet m k v) k' = if k = k' then some v else mapGet m k' := by
  induction m with
  | nil => simp [mapSet, mapGet]
  | cons p m ih =>
    obtain ⟨q, w⟩ := p
    by_cases h : q = k
    · subst h
      simp only [mapSet, if_true, mapGet]
      split_ifs <;> rfl
    · simp only [mapSet, if_neg h, mapGet, ih]
      by_cases h2 : q = k'
      · subst h2; rw [if_pos rfl, if_neg (Ne.symm h), if_pos rfl]
      · rw [if_neg h2, if_neg h2]

theorem mapSet_keys (m : List (κ × α)) (k : κ) (v : α) (h : (m.map Prod.fst).Nodup) :
    ((mapSet m k v).map Prod.fst).Nodup ∧
      ∀ x, x ∈ (mapSet m k v).map Prod.fst → x = k ∨ x ∈ m.map Prod.fst := by
  induction m with
  | nil => simp [mapSet]
  | cons p m ih =>
    obtain ⟨q, w⟩ := p
    simp only [List.map_cons, List.nodup_cons] at h
    obtain ⟨h1, h2⟩ := h
    obtain ⟨i1, i2⟩ := ih h2
    by_cases hq : q = k
    · subst hq
      simp only [mapSet, if_true, List.map_cons, List.nodup_cons]
      exact ⟨⟨h1, h2⟩, fun x hx => Or.inr hx⟩
    · simp only [mapSet, if_neg hq, List.map_cons, List.nodup_cons, List.mem_cons]
      refine ⟨⟨fun hx => ?_, i1⟩, ?_⟩
      · rcases i2 q hx with h | h
        · exact hq h
        · exact h1 h
      · rintro x (rfl | hx)
        · exact Or.inr (Or.inl rfl)
        · rcases i2 x hx with h | h
          · exact Or.inl h
          · exact Or.inr (Or.inr h)

end maps

theorem boneChannels_get (l : List BoneSample) (t : Bytes) :
    mapGet (boneChannels l) t =
      if l.filter (fun s => s.target = t) = [] then none else
      some ⟨t, (l.filter fun s => s.target = t).map fun s => s.frame % 2 ^ 32,
        (l.filter fun s => s.target = t).map BoneSample.rotation,
        (l.filter fun s => s.target = t).map BoneSample.position⟩ := by
  induction l using List.reverseRecOn with
  | nil => rfl
  | append_singleton l s ih =>
    rw [boneChannels, List.foldl_append, List.foldl_cons, List.foldl_nil, ← boneChannels, addBone,
      mapGet_mapSet]
    by_cases h : s.target = t
    · rw [if_pos h, h, ih]
      by_cases he : l.filter (fun s => s.target = t) = []
      · simp [List.filter_append, h, he]
      · simp [List.filter_append, h, he]
    · rw [if_neg h, ih]
      simp [List.filter_append, h]

theorem morphChannels_get (l : List MorphSample) (t : Bytes) :
    mapGet (morphChannels l) t =
      if l.filter (fun s => s.target = t) = [] then none else
      some ⟨t, (l.filter fun s => s.target = t).map fun s => s.frame % 2 ^ 32,
        (l.filter fun s => s.target = t).map MorphSample.value⟩ := by
  induction l using List.reverseRecOn with
  | nil => rfl
  | append_singleton l s ih =>
    rw [morphChannels, List.foldl_append, List.foldl_cons, List.foldl_nil, ← morphChannels, addMorph,
      mapGet_mapSet]
    by_cases h : s.target = t
    · rw [if_pos h, h, ih]
      by_cases he : l.filter (fun s => s.target = t) = []
      · simp [List.filter_append, h, he]
      · simp [List.filter_append, h, he]
    · rw [if_neg h, ih]
      simp [List.filter_append, h]

/-- C16, bones. Whatever order by frame the sort produces: a target without samples has no channel;
every other target has one, whose keys are exactly the samples of that target, once each, ordered by
frame, with frame, rotation and position of one sample at the same place. -/
theorem bone_channels (samples sorted : List BoneSample) (hp : sorted.Perm samples)
    (hs : sorted.Pairwise fun a b => a.frame ≤ b.frame) (hf : ∀ s ∈ samples, s.frame < 2 ^ 32) (t : Bytes) :
    match mapGet (boneChannels sorted) t with
    | none => ∀ s ∈ samples, s.target ≠ t
    | some c => c.target = t ∧ ∃ keys : List BoneSample, keys ≠ [] ∧
        keys.Perm (samples.filter fun s => s.target = t) ∧
        keys.Pairwise (fun a b => a.frame ≤ b.frame) ∧ c.frames = keys.map BoneSample.frame ∧
        c.rotations = keys.map BoneSample.rotation ∧ c.positions = keys.map BoneSample.position := by
  rw [boneChannels_get]
  by_cases he : sorted.filter (fun s => s.target = t) = []
  · rw [if_pos he]
    intro s hm ht
    have := List.filter_eq_nil_iff.1 he s (hp.mem_iff.2 hm)
    simp [ht] at this
  · rw [if_neg he]
    refine ⟨rfl, _, he, hp.filter _, hs.filter _, ?_, rfl, rfl⟩
    apply List.map_congr_left
    intro s hm
    exact Nat.mod_eq_of_lt (hf s (hp.mem_iff.1 (List.mem_of_mem_filter hm)))

/-- C16, morphs. -/
theorem morph_channels (samples sorted : List MorphSample) (hp : sorted.Perm samples)
    (hs : sorted.Pairwise fun a b => a.frame ≤ b.frame) (hf : ∀ s ∈ samples, s.frame < 2 ^ 32) (t : Bytes) :
    match mapGet (morphChannels sorted) t with
    | none => ∀ s ∈ samples, s.target ≠ t
    | some c => c.target = t ∧ ∃ keys : List MorphSample, keys ≠ [] ∧
        keys.Perm (samples.filter fun s => s.target = t) ∧
        keys.Pairwise (fun a b => a.frame ≤ b.frame) ∧ c.frames = keys.map MorphSample.frame ∧
        c.weights = keys.map MorphSample.value := by
  rw [morphChannels_get]
  by_cases he : sorted.filter (fun s => s.target = t) = []
  · rw [if_pos he]
    intro s hm ht
    have := List.filter_eq_nil_iff.1 he s (hp.mem_iff.2 hm)
    simp [ht] at this
  · rw [if_neg he]
    refine ⟨rfl, _, he, hp.filter _, hs.filter _, ?_, rfl⟩
    apply List.map_congr_left
    intro s hm
    exact Nat.mod_eq_of_lt (hf s (hp.mem_iff.1 (List.mem_of_mem_filter hm)))

/-- C16. There is one channel per target. -/
theorem channels_nodup (bs : List BoneSample) (ms : List MorphSample) :
    ((boneChannels bs).map Prod.fst).Nodup ∧ ((morphChannels ms).map Prod.fst).Nodup := by
  constructor
  · induction bs using List.reverseRecOn with
    | nil => simp [boneChannels]
    | append_singleton l s ih =>
      rw [boneChannels, List.foldl_append, List.foldl_cons, List.foldl_nil, ← boneChannels, addBone]
      exact (mapSet_keys _ _ _ ih).1
  · induction ms using List.reverseRecOn with
    | nil => simp [morphChannels]
    | append_singleton l s ih =>
      rw [morphChannels, List.foldl_append, List.foldl_cons, List.foldl_nil, ← morphChannels, addMorph]
      exact (mapSet_keys _ _ _ ih).1

/-- C16. When no target has two samples on one frame, the channels do not depend on how the sort
treats equal elements. -/
theorem bone_channels_unique (samples s1 s2 : List BoneSample) (hp1 : s1.Perm samples)
    (hp2 : s2.Perm samples) (hs1 : s1.Pairwise fun a b => a.frame ≤ b.frame)
    (hs2 : s2.Pairwise fun a b => a.frame ≤ b.frame)
    (hd : ∀ a ∈ samples, ∀ b ∈ samples, a.target = b.target → a.frame = b.frame → a = b) (t : Bytes) :
    mapGet (boneChannels s1) t = mapGet (boneChannels s2) t := by
  have : s1.filter (fun s => s.target = t) = s2.filter (fun s => s.target = t) := by
    refine List.Perm.eq_of_pairwise (le := fun a b => a.frame ≤ b.frame) ?_ (hs1.filter _) (hs2.filter _)
      ((hp1.trans hp2.symm).filter _)
    intro a b ha hb h1 h2
    simp only [List.mem_filter, decide_eq_true_eq] at ha hb
    exact hd a (hp1.mem_iff.1 ha.1) b (hp2.mem_iff.1 hb.1) (ha.2.trans hb.2.symm) (by omega)
  rw [boneChannels_get, boneChannels_get, this]

/-- Three samples of two targets, out of order. -/
example : ∃ samples sorted : List BoneSample, sorted.Perm samples ∧ sorted ≠ samples ∧
    sorted.Pairwise (fun a b => a.frame ≤ b.frame) ∧ (∀ s ∈ samples, s.frame < 2 ^ 32) ∧
    (mapGet (boneChannels sorted) [97]).map BoneChannel.frames = some [1, 5] := by
  refine ⟨[⟨[97], 5, V3.zero, V4.zero, []⟩, ⟨[98], 3, V3.zero, V4.zero, []⟩, ⟨[97], 1, V3.zero, V4.zero, []⟩],
    [⟨[97], 1, V3.zero, V4.zero, []⟩, ⟨[98], 3, V3.zero, V4.zero, []⟩, ⟨[97], 5, V3.zero, V4.zero, []⟩],
    by decide, by decide, by decide, by decide, by decide⟩

/-! ## C63: specification of the VMD layout -/

namespace VmdFile

structure BoneKey where
  /-- 15 bytes -/
  name : Bytes
  frame : Nat
  position : V3
  rotation : V4
  /-- 64 bytes -/
  params : Bytes

structure MorphKey where
  /-- 15 bytes -/
  name : Bytes
  frame : Nat
  value : UInt32

end VmdFile

open VmdFile

structure VmdFile where
  /-- 30 bytes, `Vocaloid Motion Data 0002` and a zero byte first -/
  tag : Bytes
  /-- 20 bytes -/
  name : Bytes
  bones : List BoneKey
  morphs : List MorphKey

namespace VmdFile

def BoneKey.bytes (k : BoneKey) : Bytes :=
  k.name ++ (u32 k.frame ++ (encV3 k.position ++ (encV4 k.rotation ++ k.params)))

def MorphKey.bytes (k : MorphKey) : Bytes := k.name ++ (u32 k.frame ++ f32Bytes k.value)

/-- The file up to and including the morph keys (camera, light and shadow sections may follow). -/
def bytes (f : VmdFile) : Bytes :=
  f.tag ++ (f.name ++ (u32 f.bones.length ++ (f.bones.flatMap BoneKey.bytes ++
    (u32 f.morphs.length ++ f.morphs.flatMap MorphKey.bytes))))

/-- `"Vocaloid Motion Data 0002"`. -/
def tagText : Bytes :=
  [0x56, 0x6F, 0x63, 0x61, 0x6C, 0x6F, 0x69, 0x64, 0x20, 0x4D, 0x6F, 0x74, 0x69, 0x6F, 0x6E, 0x20, 0x44, 0x61, 0x74,
   0x61, 0x20, 0x30, 0x30, 0x30, 0x32]

structure OK (f : VmdFile) : Prop where
  tag : f.tag.length = 30 ∧ f.tag.takeWhile (· != 0) = tagText
  name : f.name.length = 20
  nbones : f.bones.length < 2 ^ 32
  bones : ∀ k ∈ f.bones, k.name.length = 15 ∧ k.frame < 2 ^ 32 ∧ k.params.length = 64
  nmorphs : f.morphs.length < 2 ^ 32
  morphs : ∀ k ∈ f.morphs, k.name.length = 15 ∧ k.frame < 2 ^ 32

def BoneKey.sample (sjis : Bytes → Bytes) (k : BoneKey) : BoneSample :=
  ⟨sjis (k.name.takeWhile (· != 0)), k.frame, k.position, k.rotation, k.params⟩

def MorphKey.sample (sjis : Bytes → Bytes) (k : MorphKey) : MorphSample :=
  ⟨sjis (k.name.takeWhile (· != 0)), k.frame, k.value⟩

def anim (sjis : Bytes → Bytes) (f : VmdFile) : Animation :=
  ⟨sjis (f.name.takeWhile (· != 0)), f.bones.map (BoneKey.sample sjis), f.morphs.map (MorphKey.sample sjis)⟩

end VmdFile

theorem reads_intE {n : Nat} (h : n < 2 ^ 32) : Reads readIntE (u32 n) (n, false) := by
  refine (reads_buf' 4 (u32 n) (by simp [u32])).map ?_
  simp only
  rw [u32, ofLe_leBytes, Nat.mod_eq_of_lt (by norm_num; omega)]

theorem reads_samples {α β : Type} (l : List α) (enc : α → Bytes) (r : Rd (β × Bool)) (f : α → β)
    (h : ∀ a ∈ l, Reads r (enc a) (f a, false)) :
    Reads (readSamples r l.length false) (l.flatMap enc) (l.map f, false) := by
  induction l with
  | nil => exact fun _ => rfl
  | cons a l ih =>
    rw [List.flatMap_cons]
    exact (h a (by simp)).bind ((ih fun b hb => h b (by simp [hb])).map rfl)

theorem reads_boneKey (sjis : Bytes → Bytes) (k : BoneKey)
    (h : k.name.length = 15 ∧ k.frame < 2 ^ 32 ∧ k.params.length = 64) :
    Reads (readBoneSample sjis) k.bytes (k.sample sjis, false) := by
  unfold readBoneSample BoneKey.bytes
  exact (reads_str sjis h.1).bind ((reads_intE h.2.1).bind ((reads_V3 _).bind ((reads_V4 _).bind
    ((reads_buf' 64 _ h.2.2).map rfl))))

theorem reads_morphKey (sjis : Bytes → Bytes) (k : MorphKey)
    (h : k.name.length = 15 ∧ k.frame < 2 ^ 32) :
    Reads (readMorphSample sjis) k.bytes (k.sample sjis, false) := by
  unfold readMorphSample MorphKey.bytes
  exact (reads_str sjis h.1).bind ((reads_intE h.2).bind ((reads_float _).map rfl))

theorem reads_vmd (sjis : Bytes → Bytes) (hm : sjis tagText = tagText) (f : VmdFile) (h : f.OK) :
    Reads (parseVMD sjis) f.bytes (f.anim sjis, false) := by
  unfold parseVMD VmdFile.bytes
  refine (reads_str sjis h.tag.1).bind ?_
  rw [h.tag.2, if_neg (by rw [hm]; exact not_not.2 rfl)]
  exact (reads_str sjis h.name).bind ((reads_intE h.nbones).bind
    ((reads_samples _ BoneKey.bytes _ _ fun k hk => reads_boneKey sjis k (h.bones k hk)).bind
      ((reads_intE h.nmorphs).bind
        ((reads_samples _ MorphKey.bytes _ _ fun k hk => reads_morphKey sjis k (h.morphs k hk)).map rfl))))

/-- C63. A VMD file is read as the format prescribes: all bone and morph keys, in order, whatever
follows. The decoder leaves the ASCII tag alone. -/
theorem vmd_load (sjis : Bytes → Bytes) (hm : sjis tagText = tagText) (f : VmdFile) (h : f.OK)
    (rest : Bytes) : loadVMD sjis (f.bytes ++ rest) = .ok (f.anim sjis) := by
  rw [loadVMD, reads_vmd sjis hm f h rest]
  rfl

def sampleVmd : VmdFile where
  tag := tagText ++ [0, 0, 0, 0, 0]
  name := 97 :: List.replicate 19 0
  bones := [⟨98 :: List.replicate 14 0, 7, ⟨1, 2, 3⟩, ⟨4, 5, 6, 7⟩, List.replicate 64 20⟩]
  morphs := [⟨99 :: List.replicate 14 0, 3, 0x3f800000⟩, ⟨99 :: List.replicate 14 0, 4, 0⟩]

theorem sampleVmd_ok : sampleVmd.OK where
  tag := by decide
  name := by decide
  nbones := by decide
  bones := by decide
  nmorphs := by decide
  morphs := by decide

example : sampleVmd.OK := sampleVmd_ok

/-! ## C64 -/

/-- Splitting a prefix of a two-part string. -/
theorem prefix_split {s a b : Bytes} (h : s <+: a ++ b) :
    (s.length < a.length) ∨ ∃ s', s = a ++ s' ∧ s' <+: b := by
  by_cases hl : s.length < a.length
  · exact Or.inl hl
  · right
    obtain ⟨t, ht⟩ := h
    have h1 : a <+: s := by
      refine List.prefix_of_prefix_length_le (l₃ := a ++ b) (List.prefix_append a b) ⟨t, ht⟩ (by omega)
    obtain ⟨s', rfl⟩ := h1
    refine ⟨s', rfl, t, ?_⟩
    rw [List.append_assoc] at ht
    exact List.append_cancel_left ht

theorem readString_short (sjis : Bytes → Bytes) (n : Nat) (s : Bytes) (h : s.length < n) :
    readString sjis n s = .ok (sjis [], []) := by
  show (readBuf n s >>= fun p => _) = _
  rw [readBuf, if_neg (by omega)]
  have : cstr (List.replicate n 0) = [] := by
    cases n with
    | zero => rfl
    | succ n => simp [cstr, List.replicate_succ]
  show Except.ok (sjis (cstr (List.replicate n 0)), []) = _
  rw [this]

theorem readIntE_short (s : Bytes) (h : s.length < 4) : readIntE s = .ok ((0, true), []) := by
  show (readBuf 4 s >>= fun p => _) = _
  rw [readBuf, if_neg (by omega)]
  rfl

theorem bind_run {α β : Type} {r : Rd α} {f : α → Rd β} {s s' : Bytes} {a : α} (h : r s = .ok (a, s')) :
    (r >>= f) s = f a s' := by
  show (r s >>= fun p => f p.1 p.2) = _
  rw [h]
  rfl

/-- A reader that, on less input than `n` bytes, uses everything up and reports an error unless it got
at least `m` bytes. -/
def Short {α : Type} (r : Rd (α × Bool)) (n m : Nat) : Prop :=
  ∀ s, s.length < n → ∃ a e, r s = .ok ((a, e), []) ∧ (s.length < m → e = true)

theorem readV3_short (s : Bytes) (h : s.length < 12) : readV3 s = .ok (V3.zero, []) := by
  show (readBuf 12 s >>= fun p => _) = _
  rw [readBuf, if_neg (by omega)]; rfl

theorem readV4_short (s : Bytes) (h : s.length < 16) : readV4 s = .ok (V4.zero, []) := by
  show (readBuf 16 s >>= fun p => _) = _
  rw [readBuf, if_neg (by omega)]; rfl

theorem readFloat_short (s : Bytes) (h : s.length < 4) : readFloat s = .ok (0, []) := by
  show (readLE 4 s >>= fun p => _) = _
  have : readLE 4 s = .ok (0, []) := by
    show (readBuf 4 s >>= fun p => _) = _
    rw [readBuf, if_neg (by omega)]; rfl
  rw [this]; rfl

theorem readBuf_short (n : Nat) (s : Bytes) (h : s.length < n) : readBuf n s = .ok (none, []) := by
  rw [readBuf, if_neg (by omega)]

theorem readBuf_long (n : Nat) (s : Bytes) (h : n ≤ s.length) :
    readBuf n s = .ok (some (s.take n), s.drop n) := by
  rw [readBuf, if_pos h]

theorem readString_run (sjis : Bytes → Bytes) (n : Nat) (s : Bytes) :
    ∃ a, readString sjis n s = .ok (a, s.drop n) := by
  by_cases h : n ≤ s.length
  · refine ⟨sjis (cstr (s.take n)), ?_⟩
    show (readBuf n s >>= fun p => _) = _
    rw [readBuf_long n s h]
    rfl
  · rw [readString_short sjis n s (by omega), List.drop_of_length_le (by omega)]
    exact ⟨_, rfl⟩

theorem readIntE_run (s : Bytes) : ∃ a, readIntE s = .ok ((a, decide (s.length < 4)), s.drop 4) := by
  by_cases h : 4 ≤ s.length
  · have : ¬ s.length < 4 := by omega
    refine ⟨ofLe (s.take 4), ?_⟩
    show (readBuf 4 s >>= fun p => _) = _
    rw [readBuf_long 4 s h, decide_eq_false this]
    rfl
  · have : s.length < 4 := by omega
    rw [readIntE_short s this, decide_eq_true this, List.drop_of_length_le (by omega)]
    exact ⟨_, rfl⟩

theorem readBuf_run (n : Nat) (s : Bytes) : ∃ a, readBuf n s = .ok (a, s.drop n) := by
  by_cases h : n ≤ s.length
  · exact ⟨_, readBuf_long n s h⟩
  · rw [readBuf_short n s (by omega), List.drop_of_length_le (by omega)]; exact ⟨_, rfl⟩

theorem readV3_run (s : Bytes) : ∃ a, readV3 s = .ok (a, s.drop 12) := by
  obtain ⟨b, hb⟩ := readBuf_run 12 s
  unfold readV3
  rw [bind_run hb]
  cases b <;> exact ⟨_, rfl⟩

theorem readV4_run (s : Bytes) : ∃ a, readV4 s = .ok (a, s.drop 16) := by
  obtain ⟨b, hb⟩ := readBuf_run 16 s
  unfold readV4
  rw [bind_run hb]
  cases b <;> exact ⟨_, rfl⟩

theorem readFloat_run (s : Bytes) : ∃ a, readFloat s = .ok (a, s.drop 4) := by
  by_cases h : 4 ≤ s.length
  · refine ⟨UInt32.ofNat (ofLe (s.take 4)), ?_⟩
    have : readLE 4 s = .ok (ofLe (s.take 4), s.drop 4) := by
      show (readBuf 4 s >>= fun p => _) = _
      rw [readBuf_long 4 s h]; rfl
    show (readLE 4 s >>= fun p => _) = _
    rw [this]; rfl
  · rw [readFloat_short s (by omega), List.drop_of_length_le (by omega)]; exact ⟨_, rfl⟩

theorem short_boneSample (sjis : Bytes → Bytes) : Short (readBoneSample sjis) 111 19 := by
  intro s hs
  obtain ⟨a1, h1⟩ := readString_run sjis 15 s
  obtain ⟨a2, h2⟩ := readIntE_run (s.drop 15)
  obtain ⟨a3, h3⟩ := readV3_run ((s.drop 15).drop 4)
  obtain ⟨a4, h4⟩ := readV4_run (((s.drop 15).drop 4).drop 12)
  obtain ⟨a5, h5⟩ := readBuf_run 64 ((((s.drop 15).drop 4).drop 12).drop 16)
  have h6 : ((((s.drop 15).drop 4).drop 12).drop 16).drop 64 = [] := by
    simp only [List.drop_drop]; exact List.drop_of_length_le (by omega)
  rw [h6] at h5
  unfold readBoneSample
  rw [bind_run h1, bind_run h2, bind_run h3, bind_run h4, bind_run h5]
  refine ⟨_, _, rfl, ?_⟩
  intro h
  simp only [List.length_drop, decide_eq_true_eq]
  omega

theorem short_morphSample (sjis : Bytes → Bytes) : Short (readMorphSample sjis) 23 19 := by
  intro s hs
  obtain ⟨a1, h1⟩ := readString_run sjis 15 s
  obtain ⟨a2, h2⟩ := readIntE_run (s.drop 15)
  obtain ⟨a3, h3⟩ := readFloat_run ((s.drop 15).drop 4)
  have h6 : ((s.drop 15).drop 4).drop 4 = [] := by
    simp only [List.drop_drop]; exact List.drop_of_length_le (by omega)
  rw [h6] at h3
  unfold readMorphSample
  rw [bind_run h1, bind_run h2, bind_run h3]
  refine ⟨_, _, rfl, ?_⟩
  intro h
  simp only [List.length_drop, decide_eq_true_eq]
  omega

/-- Reading samples from nothing reports an error (or keeps the one before). -/
theorem samples_nil {α : Type} {r : Rd (α × Bool)} {n m : Nat} (h : Short r n m) (hm : 0 < m) (hn : 0 < n) (k : Nat) :
    ∃ l, readSamples r k true [] = .ok ((l, true), []) := by
  induction k with
  | zero => exact ⟨_, rfl⟩
  | succ k ih =>
    obtain ⟨a, e, h1, h2⟩ := h [] hn
    obtain ⟨l, hl⟩ := ih
    refine ⟨a :: l, ?_⟩
    rw [h2 hm] at h1
    rw [readSamples, bind_run h1, bind_run hl]
    rfl

theorem readSamples_succ {α : Type} (r : Rd (α × Bool)) (k : Nat) (e : Bool) :
    readSamples r (k + 1) e = r >>= fun s => readSamples r k s.2 >>= fun l => pure (s.1 :: l.1, l.2) := rfl

/-- A truncated list of samples: the error is set unless only the tail of the last sample is missing;
the input is used up in any case. -/
theorem samples_truncated {α β : Type} {r : Rd (α × Bool)} {n m : Nat} (hr : Short r n m) (hm : 0 < m)
    (hmn : m ≤ n) (l : List β) (enc : β → Bytes) (f : β → α)
    (h : ∀ a ∈ l, Reads r (enc a) (f a, false) ∧ (enc a).length = n) :
    ∀ (e : Bool) (s : Bytes), s <+: l.flatMap enc → s.length < (l.flatMap enc).length →
      ∃ x e', readSamples r l.length e s = .ok ((x, e'), []) ∧
        (s.length < (l.flatMap enc).length - (n - m) → e' = true) := by
  induction l with
  | nil => intro e s _ hl; simp at hl
  | cons a l ih =>
    intro e s hp hl
    obtain ⟨ha, hn⟩ := h a (by simp)
    rw [List.flatMap_cons] at hp hl
    rw [List.length_cons, readSamples_succ, List.flatMap_cons, List.length_append]
    rw [List.length_append] at hl
    rcases prefix_split hp with hlt | ⟨s', rfl, hp'⟩
    · rw [hn] at hlt
      obtain ⟨x, e1, h1, h2⟩ := hr s hlt
      by_cases hle : l = []
      · subst hle
        refine ⟨[x], e1, ?_, ?_⟩
        · rw [bind_run h1]; rfl
        · intro hs
          simp only [List.flatMap_nil, List.length_nil] at hs
          exact h2 (by omega)
      · by_cases hx : e1 = true
        · subst hx
          obtain ⟨y, hy⟩ := samples_nil hr hm (by omega) l.length
          refine ⟨x :: y, true, ?_, fun _ => rfl⟩
          rw [bind_run h1, bind_run hy]; rfl
        · obtain ⟨b, l', rfl⟩ := List.exists_cons_of_ne_nil hle
          obtain ⟨x2, e2, h3, h4⟩ := hr [] (by simp only [List.length_nil]; omega)
          rw [h4 (by simpa using hm)] at h3
          obtain ⟨y, hy⟩ := samples_nil hr hm (by omega) l'.length
          refine ⟨x :: x2 :: y, true, ?_, fun _ => rfl⟩
          have h5 : readSamples r (b :: l').length e1 [] = .ok ((x2 :: y, true), []) := by
            rw [List.length_cons, readSamples_succ, bind_run h3, bind_run hy]; rfl
          rw [bind_run h1, bind_run h5]; rfl
    · obtain ⟨x, e', h1, h2⟩ := ih (fun b hb => h b (by simp [hb])) false s' hp'
        (by simp only [List.length_append] at hl; omega)
      refine ⟨f a :: x, e', ?_, ?_⟩
      · rw [bind_run (ha s'), bind_run h1]; rfl
      · intro hs
        simp only [List.length_append] at hs
        exact h2 (by omega)

theorem vmd_tail (sjis : Bytes → Bytes) (name : Bytes) (bones : List BoneSample) :
    (do
      let mn ← readIntE
      let morphs ← readSamples (readMorphSample sjis) mn.1 mn.2
      return ((⟨name, bones, morphs.1⟩, morphs.2) : Animation × Bool) : Rd (Animation × Bool)) [] =
      .ok ((⟨name, bones, []⟩, true), []) := rfl

theorem BoneKey.bytes_length {k : BoneKey} (h : k.name.length = 15 ∧ k.frame < 2 ^ 32 ∧ k.params.length = 64) :
    k.bytes.length = 111 := by
  simp [BoneKey.bytes, u32, encV3, encV4, f32Bytes, h.1, h.2.2]

theorem MorphKey.bytes_length {k : MorphKey} (h : k.name.length = 15 ∧ k.frame < 2 ^ 32) :
    k.bytes.length = 23 := by
  simp [MorphKey.bytes, u32, f32Bytes, h.1]

/-- The result of reading a cut file: the error flag is set unless only bytes of the last morph weight
are missing. -/
theorem vmd_cut (sjis : Bytes → Bytes) (hm : sjis tagText = tagText) (f : VmdFile) (h : f.OK)
    (s : Bytes) (hp : s <+: f.bytes) (hl : s.length < f.bytes.length) (h30 : 30 ≤ s.length) :
    ∃ a e, parseVMD sjis s = .ok ((a, e), []) ∧
      (s.length < f.bytes.length - (if f.morphs = [] then 0 else 4) → e = true) := by
  unfold VmdFile.bytes at hp hl ⊢
  rcases prefix_split hp with hlt | ⟨s1, rfl, hp1⟩
  · rw [h.tag.1] at hlt; omega
  unfold parseVMD
  rw [bind_run (reads_str sjis h.tag.1 s1), h.tag.2, if_neg (by rw [hm]; exact not_not.2 rfl)]
  rcases prefix_split hp1 with hlt | ⟨s2, rfl, hp2⟩
  · rw [h.name] at hlt
    rw [bind_run (readString_short sjis 20 s1 hlt)]
    exact ⟨_, _, rfl, fun _ => rfl⟩
  rw [bind_run (reads_str sjis h.name s2)]
  rcases prefix_split hp2 with hlt | ⟨s3, rfl, hp3⟩
  · rw [bind_run (readIntE_short s2 (by simpa [u32] using hlt))]
    exact ⟨_, _, rfl, fun _ => rfl⟩
  rw [bind_run (reads_intE h.nbones s3)]
  rcases prefix_split hp3 with hlt | ⟨s4, rfl, hp4⟩
  · have hp3' : s3 <+: f.bones.flatMap BoneKey.bytes :=
      List.prefix_of_prefix_length_le hp3 (List.prefix_append _ _) (by omega)
    obtain ⟨x, e', h1, -⟩ := samples_truncated (short_boneSample sjis) (by norm_num) (by norm_num) f.bones
      BoneKey.bytes (BoneKey.sample sjis)
      (fun k hk => ⟨reads_boneKey sjis k (h.bones k hk), BoneKey.bytes_length (h.bones k hk)⟩) false s3 hp3' hlt
    rw [bind_run h1]
    exact ⟨_, _, rfl, fun _ => rfl⟩
  rw [bind_run (reads_samples f.bones BoneKey.bytes _ _ (fun k hk => reads_boneKey sjis k (h.bones k hk)) s4)]
  rcases prefix_split hp4 with hlt | ⟨s5, rfl, hp5⟩
  · rw [bind_run (readIntE_short s4 (by simpa [u32] using hlt))]
    exact ⟨_, _, rfl, fun _ => rfl⟩
  rw [bind_run (reads_intE h.nmorphs s5)]
  obtain ⟨x, e', h1, h2⟩ := samples_truncated (short_morphSample sjis) (by norm_num) (by norm_num) f.morphs
    MorphKey.bytes (MorphKey.sample sjis)
    (fun k hk => ⟨reads_morphKey sjis k (h.morphs k hk), MorphKey.bytes_length (h.morphs k hk)⟩) false s5 hp5
    (by simp only [List.length_append] at hl; omega)
  rw [bind_run h1]
  refine ⟨_, _, rfl, fun hs => h2 ?_⟩
  simp only [List.length_append] at hs hl
  have hne : f.morphs ≠ [] := by
    intro h0
    rw [h0] at hl
    simp only [List.flatMap_nil, List.length_nil] at hl
    omega
  rw [if_neg hne] at hs
  omega

/-- C64 is false: every file with a morph key loads without an error when bytes of the last weight are
missing. -/
theorem vmd_truncated_false : ∃ f : VmdFile, f.OK ∧ ∃ cut rest, rest ≠ [] ∧ f.bytes = cut ++ rest ∧
    ∀ sjis : Bytes → Bytes, sjis tagText = tagText → ∃ a, loadVMD sjis cut = .ok a := by
  refine ⟨⟨tagText ++ [0, 0, 0, 0, 0], List.replicate 20 0, [], [⟨List.replicate 15 0, 0, 0x3f800000⟩]⟩,
    ⟨by decide, by decide, by decide, by decide, by decide, by decide⟩,
    tagText ++ [0, 0, 0, 0, 0] ++ List.replicate 20 0 ++ [0, 0, 0, 0, 1, 0, 0, 0] ++ List.replicate 19 0 ++ [0, 0, 0x80],
    [0x3f], by decide, by decide, ?_⟩
  intro sjis hm
  have hs : tagText ++ [0, 0, 0, 0, 0] ++ List.replicate 20 0 ++ [0, 0, 0, 0, 1, 0, 0, 0] ++
      List.replicate 19 0 ++ [0, 0, 0x80] = (tagText ++ [0, 0, 0, 0, 0]) ++ (List.replicate 20 0 ++
        ([0, 0, 0, 0, 1, 0, 0, 0] ++ List.replicate 19 0 ++ [0, 0, 0x80])) := by decide
  have h1 := reads_str sjis (n := 30) (b := tagText ++ [0, 0, 0, 0, 0]) (by decide)
    (List.replicate 20 0 ++ ([0, 0, 0, 0, 1, 0, 0, 0] ++ List.replicate 19 0 ++ [0, 0, 0x80]))
  refine ⟨⟨sjis [], [], [⟨sjis [], 0, 0⟩]⟩, ?_⟩
  have h2 : parseVMD sjis ((tagText ++ [0, 0, 0, 0, 0]) ++ (List.replicate 20 0 ++
        ([0, 0, 0, 0, 1, 0, 0, 0] ++ List.replicate 19 0 ++ [0, 0, 0x80]))) =
      .ok ((⟨sjis [], [], [⟨sjis [], 0, 0⟩]⟩, false), []) := by
    unfold parseVMD
    have h3 : (tagText ++ [0, 0, 0, 0, 0]).takeWhile (fun x : UInt8 => x != 0) = tagText := by decide
    rw [bind_run h1, h3, if_neg (by rw [hm]; exact not_not.2 rfl)]
    rfl
  rw [hs, loadVMD, h2]
  rfl

/-- C64, the part that holds: a VMD file cut anywhere before its last four bytes is reported; when it
has no morph keys, anywhere. Missing: cuts inside the last morph weight, for which it is false. -/
theorem vmd_truncated_partial (sjis : Bytes → Bytes) (hm : sjis tagText = tagText)
    (h0 : sjis [] = []) (f : VmdFile) (h : f.OK) (s : Bytes) (hp : s <+: f.bytes)
    (hl : s.length < f.bytes.length - if f.morphs = [] then 0 else 4) :
    loadVMD sjis s = .error .error := by
  by_cases h30 : 30 ≤ s.length
  · obtain ⟨a, e, h1, h2⟩ := vmd_cut sjis hm f h s hp (by omega) h30
    rw [h2 hl] at h1
    rw [loadVMD, h1]
    rfl
  · have : parseVMD sjis s = .error .error := by
      unfold parseVMD
      rw [bind_run (readString_short sjis 30 s (by omega)), h0, if_pos (by decide)]
      rfl
    rw [loadVMD, this]

set_option maxRecDepth 100000 in
/-- A cut in the middle of the bone keys of a real file. -/
example : sampleVmd.OK ∧ sampleVmd.bytes.take 100 <+: sampleVmd.bytes ∧
    (sampleVmd.bytes.take 100).length < sampleVmd.bytes.length - if sampleVmd.morphs = [] then 0 else 4 :=
  ⟨sampleVmd_ok, List.take_prefix _ _, by decide⟩

end Verif.Mmd
