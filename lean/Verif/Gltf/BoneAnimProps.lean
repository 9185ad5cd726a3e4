import Verif.Gltf.BoneAnimLemmas
import Mathlib.Analysis.Complex.Trigonometric
import Verif.Conv.GltfNodesProps
import Verif.Conv.MmdToMqo
import Mathlib.Tactic.LinearCombination
import Mathlib.Data.Rat.Defs

/-! Properties C123 (bone tracks), C124 (rotations), C125 to C127 (translations). -/

namespace Verif.Gltf

open Verif.Geom
open Verif.Mqo (Str Bone)
open Verif.Conv (GNode addBoneNodes ValidBones)

variable {F : Type}

/-- The bones with their nodes: a map, and bones with distinct names and ids. -/
structure DistinctBones (bones : List (Nat × Bone F)) : Prop where
  nodes : (bones.map (·.1)).Nodup
  names : (bones.map (·.2.name)).Nodup
  ids : (bones.map (·.2.id)).Nodup

section tracks

variable [Add F] [Sub F] [Mul F] [Neg F] [Zero F] [One F] [DecidableEq F]

/-- The entry of the rotations of `t` for bone `b` at node `n`. -/
def rotationEntry (num : AnimNum F) (bones : List (Nat × Bone F)) (n : Nat) (b : Bone F) (t : BoneTrack F) :
    TrackEntry F :=
  (n, .rotation, t.frames.map num.time,
    .rotations (t.rotations.map (trackRotation num b.rotationOffset (offsetQuat num bones b))))

/-- The entry of the translations of `t` for bone `b` at node `n`. -/
def translationEntry (num : AnimNum F) (n : Nat) (b : Bone F) (t : BoneTrack F) : TrackEntry F :=
  (n, .translation, t.frames.map num.time, .positions (t.positions.map (trackPosition num b.rotationOffset b.pos)))

/-- Does the track turn the bone? -/
def Turns (num : AnimNum F) (bones : List (Nat × Bone F)) (b : Bone F) (t : BoneTrack F) : Prop :=
  ∃ q ∈ t.rotations, trackRotation num b.rotationOffset (offsetQuat num bones b) q ≠ ⟨0, 0, 0, 1⟩

/-- Does the track move the bone? -/
def Moves (t : BoneTrack F) : Prop := ∃ p ∈ t.positions, p ≠ ⟨0, 0, 0⟩

theorem mem_expected (num : AnimNum F) (bones : List (Nat × Bone F)) (h : DistinctBones bones) (t : BoneTrack F)
    (e : TrackEntry F) :
    e ∈ expectedEntries num bones t ↔ ∃ n b, (n, b) ∈ bones ∧ b.name = t.target ∧
      ((Turns num bones b t ∧ e = rotationEntry num bones n b t) ∨ (Moves t ∧ e = translationEntry num n b t)) := by
  have key : ∀ n b, (n, b) ∈ bones → (e ∈ trackEntries num n b.rotationOffset b.pos (offsetQuat num bones b) t ↔
      ((Turns num bones b t ∧ e = rotationEntry num bones n b t) ∨ (Moves t ∧ e = translationEntry num n b t))) := by
    intro n b _
    have hr : ((t.rotations.map (trackRotation num b.rotationOffset (offsetQuat num bones b))).any
        (· ≠ ⟨0, 0, 0, 1⟩) = true) ↔ Turns num bones b t := by
      simp [Turns, List.any_eq_true]
    have hm : (t.positions.any (· ≠ ⟨0, 0, 0⟩) = true) ↔ Moves t := by
      simp [Moves, List.any_eq_true]
    unfold trackEntries
    rw [List.mem_append]
    refine or_congr ?_ ?_
    · split
      · rename_i h; simp [hr.mp h, rotationEntry]
      · rename_i h; simp [mt hr.mpr h]
    · split
      · rename_i h; simp [hm.mp h, translationEntry]
      · rename_i h; simp [mt hm.mpr h]
  constructor
  · intro he
    unfold expectedEntries at he
    cases hn : boneNodeOf bones t.target with
    | none => rw [hn] at he; cases he
    | some n =>
      obtain ⟨b, hb, hname⟩ := (boneNodeOf_iff bones h.names _ _).mp hn
      rw [hn] at he
      simp only [lookup_of_mem h.nodes hb] at he
      exact ⟨n, b, hb, hname, (key n b hb).mp he⟩
  · rintro ⟨n, b, hb, hname, he⟩
    unfold expectedEntries
    rw [(boneNodeOf_iff bones h.names _ _).mpr ⟨b, hb, hname⟩]
    simp only [lookup_of_mem h.nodes hb]
    exact (key n b hb).mpr he

/-- C123. Every exported channel is well linked, the accessors already there stay, and the channels say
exactly: for each track and the bone with its name, the rotations (if the track turns the bone) and the
translations (if it moves the bone), at the times of its own keys. The order in which the maps are visited
does not matter. -/
theorem bone_tracks (num : AnimNum F) (bones : List (Nat × Bone F)) (h : DistinctBones bones)
    (accs : List (AccData F)) (tracks : List (BoneTrack F)) :
    accs <+: (addBoneChannels num bones accs tracks).accs ∧
    (∀ x ∈ (addBoneChannels num bones accs tracks).entries, x ≠ none) ∧
    ∀ e, some e ∈ (addBoneChannels num bones accs tracks).entries ↔
      ∃ t ∈ tracks, ∃ n b, (n, b) ∈ bones ∧ b.name = t.target ∧
        ((Turns num bones b t ∧ e = rotationEntry num bones n b t) ∨ (Moves t ∧ e = translationEntry num n b t)) := by
  have inv := channels_inv num bones accs tracks
  refine ⟨inv.keep, ?_, ?_⟩
  · intro x hx
    rw [inv.shown, List.mem_map] at hx
    obtain ⟨e, _, rfl⟩ := hx
    exact Option.some_ne_none e
  · intro e
    rw [inv.shown, List.mem_map]
    simp only [Option.some.injEq, exists_eq_right, List.mem_flatMap, mem_expected num bones h]

theorem expected_nodup (num : AnimNum F) (bones : List (Nat × Bone F)) (h : DistinctBones bones)
    (tracks : List (BoneTrack F)) (ht : (tracks.map (·.target)).Nodup) :
    ((tracks.flatMap (expectedEntries num bones)).map fun e => (e.1, e.2.1)).Nodup := by
  induction tracks with
  | nil => exact List.nodup_nil
  | cons t ts ih =>
    simp only [List.map_cons, List.nodup_cons] at ht
    simp only [List.flatMap_cons, List.map_append]
    refine List.Nodup.append ?_ (ih ht.2) ?_
    · unfold expectedEntries
      split
      · exact List.nodup_nil
      · split <;> (unfold trackEntries; split <;> split <;> simp)
    · intro x hx hy
      simp only [List.mem_map, List.mem_flatMap] at hx hy
      obtain ⟨e, he, rfl⟩ := hx
      obtain ⟨e', ⟨t', ht', he'⟩, heq⟩ := hy
      obtain ⟨n, b, hb, hname, hc⟩ := (mem_expected num bones h t e).mp he
      obtain ⟨n', b', hb', hname', hc'⟩ := (mem_expected num bones h t' e').mp he'
      have hn : e.1 = n := by rcases hc with ⟨_, rfl⟩ | ⟨_, rfl⟩ <;> rfl
      have hn' : e'.1 = n' := by rcases hc' with ⟨_, rfl⟩ | ⟨_, rfl⟩ <;> rfl
      have hnn : n' = n := by rw [← hn, ← hn']; exact (Prod.mk.inj heq).1
      have hp : (n', b') = (n, b) := List.inj_on_of_nodup_map h.nodes hb' hb hnn
      have hbb : b' = b := congrArg Prod.snd hp
      exact ht.1 (List.mem_map.mpr ⟨t', ht', by rw [← hname', ← hname, hbb]⟩)

/-- C123. No node has two channels with the same path, as glTF demands. -/
theorem bone_tracks_nodup (num : AnimNum F) (bones : List (Nat × Bone F)) (h : DistinctBones bones)
    (accs : List (AccData F)) (tracks : List (BoneTrack F)) (ht : (tracks.map (·.target)).Nodup) :
    ((addBoneChannels num bones accs tracks).channels.map fun c => (c.1, c.2.1)).Nodup := by
  have inv := channels_inv num bones accs tracks
  have e1 : (addBoneChannels num bones accs tracks).channels.map (fun c => (c.1, c.2.1)) =
      (tracks.flatMap (expectedEntries num bones)).map fun e => (e.1, e.2.1) := by
    have hs := inv.shown
    generalize tracks.flatMap (expectedEntries num bones) = es at hs
    unfold AnimState.entries at hs
    generalize (addBoneChannels num bones accs tracks).channels = ch at hs
    induction ch generalizing es with
    | nil => cases es with
      | nil => rfl
      | cons _ _ => cases hs
    | cons c ch ih =>
      cases es with
      | nil => cases hs
      | cons e es =>
        simp only [List.map_cons, List.cons.injEq] at hs ⊢
        refine ⟨?_, ih es hs.2⟩
        have h1 := hs.1
        unfold resolveTrack at h1
        split at h1
        · cases h1
        · split at h1
          · rw [← Option.some.inj h1]
          · cases h1
  rw [e1]
  exact expected_nodup num bones h tracks ht

end tracks

/-! ### Rotations -/

section rotation

variable [CommRing F]

/-- The mirror image between the two handed systems. -/
def flipZ (v : Vec3 F) : Vec3 F := ⟨v.x, v.y, -v.z⟩

theorem applyTo_mirror (q : Vec4 F) (v : Vec3 F) :
    Vec4.applyTo ⟨-q.x, -q.y, q.z, q.w⟩ (flipZ v) = flipZ (q.applyTo v) := by
  simp only [Vec4.applyTo, flipZ, Vec3.mk.injEq]
  refine ⟨?_, ?_, ?_⟩ <;> ring

theorem quat_applyTo_mul (p q : Vec4 F) (v : Vec3 F) : (p.mul q).applyTo v = p.applyTo (q.applyTo v) := by
  simp only [Vec4.applyTo, Vec4.mul, Vec3.mk.injEq]
  refine ⟨?_, ?_, ?_⟩ <;> ring

theorem turnY_applyTo (c s : F) (h : c * c + s * s = 1) (u v : Vec3 F) (w : F) :
    Vec4.applyTo ⟨(turnY c s u).x, (turnY c s u).y, (turnY c s u).z, w⟩ (turnY c s v) =
      turnY c s (Vec4.applyTo ⟨u.x, u.y, u.z, w⟩ v) := by
  have hd : ∀ a b : Vec3 F, (turnY c s a).dot (turnY c s b) = a.dot b := by
    intro a b; simp only [turnY, Vec3.dot]; linear_combination (a.x * b.x + a.z * b.z) * h
  have hc : ∀ a b : Vec3 F, (turnY c s a).cross (turnY c s b) = turnY c s (a.cross b) := by
    intro a b
    simp only [turnY, Vec3.cross, Vec3.mk.injEq]
    refine ⟨?_, ?_, ?_⟩
    · ring
    · linear_combination (a.z * b.x - a.x * b.z) * h
    · ring
  have f : ∀ (u v : Vec3 F), Vec4.applyTo ⟨u.x, u.y, u.z, w⟩ v =
      ((v.scale (w * w - u.dot u)).add (u.scale (2 * u.dot v))).add ((u.cross v).scale (2 * w)) := by
    intro u v
    simp only [Vec4.applyTo, Vec3.add, Vec3.scale, Vec3.dot, Vec3.cross, Vec3.mk.injEq]
    refine ⟨?_, ?_, ?_⟩ <;> ring
  rw [f, f, hd, hd, hc]
  simp only [turnY, Vec3.add, Vec3.scale, Vec3.mk.injEq]
  exact ⟨by ring, trivial, by ring⟩

theorem turnZ_applyTo (c s : F) (h : c * c + s * s = 1) (u v : Vec3 F) (w : F) :
    Vec4.applyTo ⟨(turnZ c s u).x, (turnZ c s u).y, (turnZ c s u).z, w⟩ (turnZ c s v) =
      turnZ c s (Vec4.applyTo ⟨u.x, u.y, u.z, w⟩ v) := by
  have hd : ∀ a b : Vec3 F, (turnZ c s a).dot (turnZ c s b) = a.dot b := by
    intro a b; simp only [turnZ, Vec3.dot]; linear_combination (a.x * b.x + a.y * b.y) * h
  have hc : ∀ a b : Vec3 F, (turnZ c s a).cross (turnZ c s b) = turnZ c s (a.cross b) := by
    intro a b
    simp only [turnZ, Vec3.cross, Vec3.mk.injEq]
    refine ⟨?_, ?_, ?_⟩
    · ring
    · ring
    · linear_combination (a.x * b.y - a.y * b.x) * h
  have f : ∀ (u v : Vec3 F), Vec4.applyTo ⟨u.x, u.y, u.z, w⟩ v =
      ((v.scale (w * w - u.dot u)).add (u.scale (2 * u.dot v))).add ((u.cross v).scale (2 * w)) := by
    intro u v
    simp only [Vec4.applyTo, Vec3.add, Vec3.scale, Vec3.dot, Vec3.cross, Vec3.mk.injEq]
    refine ⟨?_, ?_, ?_⟩ <;> ring
  rw [f, f, hd, hd, hc]
  simp only [turnZ, Vec3.add, Vec3.scale, Vec3.mk.injEq]
  exact ⟨by ring, by ring, trivial⟩

/-- C124. In exact arithmetic an exported rotation does to a mirrored and turned vector what the rotation of
the source (after the correction for the parent) does to the vector itself. -/
theorem rotation_sample (num : AnimNum F) (hcs : ∀ a, num.cos a * num.cos a + num.sin a * num.sin a = 1)
    (rot : Vec3 F) (off q : Vec4 F) (v : Vec3 F) :
    (trackRotation num rot off q).applyTo (turnBoth num rot (flipZ v)) =
      turnBoth num rot (flipZ (q.applyTo (off.applyTo v))) := by
  rw [← quat_applyTo_mul, ← applyTo_mirror]
  unfold trackRotation turnBoth
  rw [turnZ_applyTo _ _ (hcs _), turnY_applyTo _ _ (hcs _)]

/-- C124. Exported rotations are unit quaternions when those of the source are. -/
theorem rotation_unit [DecidableEq F] (num : AnimNum F)
    (hcs : ∀ a, num.cos a * num.cos a + num.sin a * num.sin a = 1) (bones : List (Nat × Bone F)) (b : Bone F)
    (q : Vec4 F) (hq : q.lenSqr = 1) :
    (trackRotation num b.rotationOffset (offsetQuat num bones b) q).lenSqr = 1 := by
  have ho : (offsetQuat num bones b).lenSqr = 1 := by
    unfold offsetQuat
    split
    · simp [Vec4.lenSqr]
    · split
      · rename_i p _ _
        have := hcs (num.half ((p.rotationOffset.x - b.rotationOffset.x) * num.cos p.rotationOffset.y))
        simp only [Vec4.lenSqr]
        linear_combination this
      · simp [Vec4.lenSqr]
  generalize offsetQuat num bones b = off at ho
  have hy := hcs b.rotationOffset.y
  have hx := hcs b.rotationOffset.x
  have hm : (q.mul off).lenSqr = 1 := by
    have : (q.mul off).lenSqr = q.lenSqr * off.lenSqr := by simp only [Vec4.mul, Vec4.lenSqr]; ring
    rw [this, hq, ho, one_mul]
  rw [← hm]
  simp only [trackRotation, turnBoth, turnY, turnZ, Vec4.lenSqr]
  generalize q.mul off = s
  generalize num.cos b.rotationOffset.y = cy at hy ⊢
  generalize num.sin b.rotationOffset.y = sy at hy ⊢
  generalize num.cos b.rotationOffset.x = cx at hx ⊢
  generalize num.sin b.rotationOffset.x = sx at hx ⊢
  linear_combination ((-s.x * cy - s.z * sy) * (-s.x * cy - s.z * sy) + s.y * s.y) * hx +
    (s.x * s.x + s.z * s.z) * hy

/-- C124. The correction is a turn about the z axis by the difference of the offsets of the parent and the bone,
as seen from the turned parent; without a difference or a parent it is no turn. -/
theorem correction_turn [DecidableEq F] (num : AnimNum F)
    (hc : ∀ a, num.cos (num.half a) * num.cos (num.half a) - num.sin (num.half a) * num.sin (num.half a) = num.cos a)
    (hs : ∀ a, 2 * (num.sin (num.half a) * num.cos (num.half a)) = num.sin a)
    (hcs : ∀ a, num.cos a * num.cos a + num.sin a * num.sin a = 1) (h0 : num.cos 0 = 1) (h1 : num.sin 0 = 0)
    (bones : List (Nat × Bone F)) (b : Bone F) (v : Vec3 F) :
    (∀ p, boneWithID bones b.parent = some p →
      (offsetQuat num bones b).applyTo v =
        turnZ (num.cos ((p.rotationOffset.x - b.rotationOffset.x) * num.cos p.rotationOffset.y))
          (num.sin ((p.rotationOffset.x - b.rotationOffset.x) * num.cos p.rotationOffset.y)) v) ∧
    (boneWithID bones b.parent = none → (offsetQuat num bones b).applyTo v = v) := by
  have hone : Vec4.applyTo ⟨0, 0, 0, 1⟩ v = v := by
    obtain ⟨x, y, z⟩ := v
    simp [Vec4.applyTo]
  constructor
  · intro p hp
    unfold offsetQuat
    rw [hp]
    simp only
    split
    · generalize (p.rotationOffset.x - b.rotationOffset.x) * num.cos p.rotationOffset.y = d
      rw [← hc d, ← hs d]
      have := hcs (num.half d)
      generalize num.cos (num.half d) = c at this ⊢
      generalize num.sin (num.half d) = s at this ⊢
      obtain ⟨x, y, z⟩ := v
      simp only [Vec4.applyTo, turnZ, Vec3.mk.injEq]
      refine ⟨by ring, by ring, ?_⟩
      linear_combination z * this
    · rename_i h
      have h := not_not.mp h
      rw [h, sub_self, zero_mul, h0, h1, hone]
      obtain ⟨x, y, z⟩ := v
      simp [turnZ]
  · intro hp
    unfold offsetQuat
    rw [hp]
    exact hone

end rotation

/-! ### Translations -/

section translation

variable [CommRing F]

theorem turnBoth_zero (num : AnimNum F) (rot : Vec3 F) : turnBoth num rot ⟨0, 0, 0⟩ = ⟨0, 0, 0⟩ := by
  simp [turnBoth, turnY, turnZ]

/-- Where a point of an MMD model is in the glTF model: the conversion to MQO (converter/mmd2mqo.go:25-27), the
scale `k` of the command, turned by 180 degrees or not (cmd/modelconv/main.go:210-218, 259), and the scale of
the export. -/
def exportedPlace (k milli : F) (turned : Bool) (p : Vec3 F) : Vec3 F :=
  ((Mat4.scaling (if turned then -k else k) k (if turned then -k else k)).applyTo (Conv.mmdToMqoVec p)).scale milli

/-- The offset of a bone for a model that was turned or not, cmd/modelconv/main.go:260-264. -/
def turnOffset (pi : F) (turned : Bool) : Vec3 F := ⟨0, if turned then pi else 0, 0⟩

/-- C125. For a bone that stood at `p` in the MMD model, the exported translation for the offset `d` is the
place where the conversion with the default scale 80 and the export put a vertex at `p + d`, for turned
models too. -/
theorem translation_sample (num : AnimNum F) (pi : F) (h0 : num.cos 0 = 1 ∧ num.sin 0 = 0)
    (hpi : num.cos pi = -1 ∧ num.sin pi = 0) (hm : num.move = 80 * num.milli) (turned : Bool) (p d pos : Vec3 F)
    (hpos : pos.scale num.milli = exportedPlace 80 num.milli turned p) :
    trackPosition num (turnOffset pi turned) pos d = exportedPlace 80 num.milli turned (p.add d) := by
  rw [trackPosition, hpos]
  cases turned
  · simp only [turnBoth, turnY, turnZ, turnOffset, h0.1, h0.2, hm, exportedPlace, Mat4.scaling, Mat4.applyTo,
      Conv.mmdToMqoVec, Vec3.add, Vec3.scale, Vec3.mk.injEq, Bool.false_eq_true, if_false]
    refine ⟨?_, ?_, ?_⟩ <;> ring
  · simp only [turnBoth, turnY, turnZ, turnOffset, h0.1, h0.2, hpi.1, hpi.2, hm, exportedPlace, Mat4.scaling,
      Mat4.applyTo, Conv.mmdToMqoVec, Vec3.add, Vec3.scale, Vec3.mk.injEq, if_true]
    refine ⟨?_, ?_, ?_⟩ <;> ring

/-- C127 is false of the code: in a model converted with another scale than 80, every key with an offset puts
the bone elsewhere. -/
theorem translation_scale_false [NoZeroDivisors F] (num : AnimNum F) (h0 : num.cos 0 = 1 ∧ num.sin 0 = 0)
    (hm : num.move = 80 * num.milli) (h1 : num.milli ≠ 0) (k : F) (hk : k ≠ 80) (p d pos : Vec3 F)
    (hpos : pos.scale num.milli = exportedPlace k num.milli false p) (hd : d ≠ ⟨0, 0, 0⟩) :
    trackPosition num ⟨0, 0, 0⟩ pos d ≠ exportedPlace k num.milli false (p.add d) := by
  rw [trackPosition, hpos]
  simp only [turnBoth, turnY, turnZ, h0.1, h0.2, hm, exportedPlace, Mat4.scaling, Mat4.applyTo,
      Conv.mmdToMqoVec, Vec3.add, Vec3.scale, ne_eq, Vec3.mk.injEq, Bool.false_eq_true, if_false]
  rintro ⟨hx, hy, hz⟩
  have z : ∀ c : F, (k - 80) * (num.milli * c) = 0 → c = 0 := by
    intro c hc
    rcases mul_eq_zero.mp hc with h | h
    · exact absurd (sub_eq_zero.mp h) hk
    · exact (mul_eq_zero.mp h).resolve_left h1
  apply hd
  obtain ⟨a, b, c⟩ := d
  have ea := z a (by linear_combination -hx)
  have eb := z b (by linear_combination -hy)
  have ec := z c (by linear_combination hz)
  rw [ea, eb, ec]

/-- C126, for bones without parent: a key without offset puts the node where it rests, if the model was
exported with the scale 0.001. Missing: bones with a parent, see `rest_translation_false`. -/
theorem rest_translation_partial [DecidableEq F] (num : AnimNum F) (base : Nat) (bones : List (Bone F))
    (hv : ValidBones bones) (i : Nat) (b : Bone F) (hb : bones[i]? = some b) (hr : ¬ 0 < b.parent) :
    ∃ nodes roots n, addBoneNodes num.milli base bones = some (nodes, roots) ∧ nodes[i]? = some n ∧
      trackPosition num b.rotationOffset b.pos ⟨0, 0, 0⟩ = n.translation := by
  refine ⟨_, _, Conv.boneNode num.milli base bones bones.length i b, Conv.addBoneNodes_run num.milli base bones hv,
    by simp [List.getElem?_zipIdx, hb], ?_⟩
  have hi := (List.getElem?_eq_some_iff.mp hb).1
  simp only [Conv.boneNode, hi, if_true, Conv.boneTranslation, hr, if_false]
  have := turnBoth_zero num b.rotationOffset
  simp [trackPosition, this, Vec3.add]

/-- C126 is false of the code: for a bone with a parent, a key without offset puts the node away from where
it rests by the position of the parent. -/
theorem rest_translation_false [DecidableEq F] (num : AnimNum F) (base : Nat) (bones : List (Bone F))
    (hv : ValidBones bones) (i j : Nat) (b p : Bone F) (hb : bones[i]? = some b) (hj : bones[j]? = some p)
    (hp : 0 < b.parent) (hid : b.parent = p.id) (hpos : p.pos.scale num.milli ≠ ⟨0, 0, 0⟩) :
    ∃ nodes roots n, addBoneNodes num.milli base bones = some (nodes, roots) ∧ nodes[i]? = some n ∧
      trackPosition num b.rotationOffset b.pos ⟨0, 0, 0⟩ = n.translation.add (p.pos.scale num.milli) ∧
      trackPosition num b.rotationOffset b.pos ⟨0, 0, 0⟩ ≠ n.translation := by
  have hi := (List.getElem?_eq_some_iff.mp hb).1
  have e : trackPosition num b.rotationOffset b.pos ⟨0, 0, 0⟩ =
      (Conv.boneNode num.milli base bones bones.length i b).translation.add (p.pos.scale num.milli) := by
    simp only [Conv.boneNode, hi, if_true, Conv.boneTranslation, hid, Conv.find_parent bones hv.nodup j p hj]
    have h0 := turnBoth_zero num b.rotationOffset
    rw [if_pos (hid ▸ hp)]
    simp only [trackPosition, zero_mul, neg_zero, h0, Vec3.add, Vec3.sub, Vec3.scale, Vec3.mk.injEq]
    refine ⟨?_, ?_, ?_⟩ <;> ring
  refine ⟨_, _, _, Conv.addBoneNodes_run num.milli base bones hv, by simp only [List.getElem?_map, List.getElem?_zipIdx,
    hb, Option.map_some, Nat.zero_add], e, ?_⟩
  rw [e]
  intro h
  apply hpos
  generalize (Conv.boneNode num.milli base bones bones.length i b).translation = a at h
  generalize p.pos.scale num.milli = d at h ⊢
  obtain ⟨a1, a2, a3⟩ := a
  obtain ⟨d1, d2, d3⟩ := d
  simpa [Vec3.add] using h

end translation

/-! ### Sample -/

/-- Numbers for the samples: an angle other than 0 has cosine 3/5 and sine 4/5. -/
def sampleNum : AnimNum ℚ where
  cos a := if a = 0 then 1 else 3/5
  sin a := if a = 0 then 0 else 4/5
  time k := k / 30
  half a := a / 2
  move := 2/25
  milli := 1/1000

/-- A bone of the samples. -/
def sampleBone (id : Int) (name : String) (parent : Int) (pos off : Vec3 ℚ) : Bone ℚ where
  id := id
  name := name.toList
  group := 0
  parent := parent
  pos := pos
  movable := 0
  hide := 0
  dummy := 0
  color := []
  upVector := none
  rotate := none
  ik := none
  weights := []
  weightMap := []
  rotationOffset := off

/-- A hip, a leg below it that was adjusted, and an arm. -/
def sampleBones : List (Bone ℚ) :=
  [sampleBone 1 "hip" 0 ⟨0, 800, 0⟩ ⟨0, 0, 0⟩, sampleBone 2 "leg" 1 ⟨100, 700, 0⟩ ⟨1, 0, 0⟩,
    sampleBone 3 "arm" 1 ⟨100, 1300, 0⟩ ⟨0, 0, 0⟩]

/-- The nodes of the bones are 4, 5 and 6; the map is visited in another order. -/
def sampleJoints : List (Nat × Bone ℚ) :=
  [(5, sampleBone 2 "leg" 1 ⟨100, 700, 0⟩ ⟨1, 0, 0⟩), (4, sampleBone 1 "hip" 0 ⟨0, 800, 0⟩ ⟨0, 0, 0⟩),
    (6, sampleBone 3 "arm" 1 ⟨100, 1300, 0⟩ ⟨0, 0, 0⟩)]

/-- Two tracks with the same keys, one without bone. -/
def sampleTracks : List (BoneTrack ℚ) :=
  [⟨"leg".toList, [0, 15], [⟨0, 0, 0, 1⟩, ⟨3/5, 0, 0, 4/5⟩], [⟨0, 0, 0⟩, ⟨0, 0, 0⟩]⟩,
   ⟨"tail".toList, [3], [⟨1, 0, 0, 0⟩], [⟨0, 0, 0⟩]⟩,
   ⟨"hip".toList, [0, 15], [⟨0, 0, 0, 1⟩, ⟨0, 0, 0, 1⟩], [⟨0, 0, 0⟩, ⟨0, 1, 2⟩]⟩]

/-- The hypotheses of `bone_tracks`, `bone_tracks_nodup` and `rotation_sample` hold for the sample. -/
example : DistinctBones sampleJoints ∧ (sampleTracks.map (·.target)).Nodup :=
  ⟨⟨by decide +kernel, by decide +kernel, by decide +kernel⟩, by decide +kernel⟩

example (a : ℚ) : sampleNum.cos a * sampleNum.cos a + sampleNum.sin a * sampleNum.sin a = 1 := by
  simp only [sampleNum]; split <;> norm_num

/-- The hypotheses of `correction_turn` hold for the functions of real numbers. -/
example (num : AnimNum ℝ) (h1 : num.cos = Real.cos) (h2 : num.sin = Real.sin) (h3 : num.half = fun a => a / 2) (a : ℝ) :
    num.cos (num.half a) * num.cos (num.half a) - num.sin (num.half a) * num.sin (num.half a) = num.cos a ∧
    2 * (num.sin (num.half a) * num.cos (num.half a)) = num.sin a ∧ num.cos 0 = 1 ∧ num.sin 0 = 0 := by
  simp only [h1, h2, h3]
  have e : a = 2 * (a / 2) := by ring
  refine ⟨?_, ?_, Real.cos_zero, Real.sin_zero⟩
  · conv_rhs => rw [e, Real.cos_two_mul']
    ring
  · conv_rhs => rw [e, Real.sin_two_mul]
    ring

/-- Numbers with a half turn, here the angle 3. The hypotheses of `translation_sample` hold for a bone at
(1, 10, 2), turned and not turned, and those of `translation_scale_false` for the scale 1. -/
def halfTurnNum : AnimNum ℚ := { sampleNum with cos := fun a => if a = 3 then -1 else 1, sin := fun _ => 0 }

example : (halfTurnNum.cos 0 = 1 ∧ halfTurnNum.sin 0 = 0) ∧ (halfTurnNum.cos 3 = -1 ∧ halfTurnNum.sin 3 = 0) ∧
    halfTurnNum.move = 80 * halfTurnNum.milli ∧ halfTurnNum.milli ≠ 0 := by decide +kernel

example : (⟨-80, 800, 160⟩ : Vec3 ℚ).scale halfTurnNum.milli = exportedPlace 80 halfTurnNum.milli true ⟨1, 10, 2⟩ ∧
    (⟨80, 800, -160⟩ : Vec3 ℚ).scale halfTurnNum.milli = exportedPlace 80 halfTurnNum.milli false ⟨1, 10, 2⟩ ∧
    (⟨1, 10, -2⟩ : Vec3 ℚ).scale halfTurnNum.milli = exportedPlace 1 halfTurnNum.milli false ⟨1, 10, 2⟩ := by
  decide +kernel

/-- The leg turns, the hip moves; the keys are stored once. -/
example : (addBoneChannels sampleNum sampleJoints [] sampleTracks).channels =
    [(5, .rotation, 0), (4, .translation, 1)] := by decide +kernel

example : (addBoneChannels sampleNum sampleJoints [] sampleTracks).samplers = [(0, 1), (0, 2)] := by
  decide +kernel

example : (addBoneChannels sampleNum sampleJoints [] sampleTracks).accs[2]? =
    some (.positions [⟨0, 4/5, 0⟩, ⟨0, 22/25, -4/25⟩]) := by decide +kernel

/-- A rotation with unit length, and one that is turned by an offset. -/
example : (⟨3/5, 0, 0, 4/5⟩ : Vec4 ℚ).lenSqr = 1 := by decide +kernel

/-- The hypotheses of `rest_translation_partial` hold for the hip, those of `rest_translation_false` for the
leg. -/
example : ValidBones sampleBones := ⟨by decide +kernel, by decide +kernel⟩

example : sampleBones[0]? = some (sampleBone 1 "hip" 0 ⟨0, 800, 0⟩ ⟨0, 0, 0⟩) ∧
    sampleBones[1]? = some (sampleBone 2 "leg" 1 ⟨100, 700, 0⟩ ⟨1, 0, 0⟩) ∧
    (⟨0, 800, 0⟩ : Vec3 ℚ).scale sampleNum.milli ≠ ⟨0, 0, 0⟩ := ⟨rfl, rfl, by decide +kernel⟩

end Verif.Gltf
