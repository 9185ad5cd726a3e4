import Verif.Mqo.Core

/-! Model of the bone tracks of converter/glbanim.go. -/

namespace Verif.Gltf

open Verif.Geom
open Verif.Mqo (Str Bone)

variable {F : Type}

/-- The channel of one bone, mmd/vmd.go (`BoneChannel`). -/
structure BoneTrack (F : Type) where
  target : Str
  frames : List Nat
  rotations : List (Vec4 F)
  positions : List (Vec3 F)

/-- The numbers and functions of the Go library used by the code: `math.Cos` and `math.Sin` rounded to
float32, `float32(k)/30`, the halving of an angle, `80 * 0.001` and `0.001`. -/
structure AnimNum (F : Type) where
  cos : F → F
  sin : F → F
  time : Nat → F
  half : F → F
  move : F
  milli : F

/-- The data of an accessor. -/
inductive AccData (F : Type) where
  | keys (l : List F)
  | rotations (l : List (Vec4 F))
  | positions (l : List (Vec3 F))
  | weights (l : List UInt8)
deriving DecidableEq

/-- `gltf.TRSRotation`, `gltf.TRSTranslation` and `gltf.TRSWeights`. -/
inductive TrackPath where
  | rotation
  | translation
  | weights
deriving DecidableEq

/-- The parts of the document and the animation written by converter/glbanim.go:35-251: accessors, samplers
(input and output) and channels (node, path and sampler). `prev` is `prevCh.Frames` with `prevKeysAcc`. -/
structure AnimState (F : Type) where
  accs : List (AccData F)
  samplers : List (Nat × Nat)
  channels : List (Nat × TrackPath × Nat)
  prev : Option (List Nat × Nat)

/-- converter/glbanim.go:38-41: `boneToNode`; `bones` is the map in the order in which it is visited, the
last bone with a name counts. -/
def boneNodeOf (bones : List (Nat × Bone F)) (name : Str) : Option Nat :=
  ((bones.filter fun p => p.2.name = name).getLast?).map (·.1)

/-- converter/glbanim.go:43-46: `boneByID`. -/
def boneWithID (bones : List (Nat × Bone F)) (id : Int) : Option (Bone F) :=
  ((bones.filter fun p => p.2.id = id).getLast?).map (·.2)

/-- converter/glbanim.go:97-102 and 140-144: turning about the y axis. -/
def turnY [Add F] [Sub F] [Mul F] (c s : F) (v : Vec3 F) : Vec3 F := ⟨v.x * c - v.z * s, v.y, v.x * s + v.z * c⟩

/-- converter/glbanim.go:104-109 and 146-150: turning about the z axis. -/
def turnZ [Add F] [Sub F] [Mul F] (c s : F) (v : Vec3 F) : Vec3 F := ⟨v.x * c - v.y * s, v.x * s + v.y * c, v.z⟩

/-- converter/glbanim.go:86-89 with 97-109 and 140-150: both turns for the offset `rot`. -/
def turnBoth [Add F] [Sub F] [Mul F] (num : AnimNum F) (rot v : Vec3 F) : Vec3 F :=
  turnZ (num.cos rot.x) (num.sin rot.x) (turnY (num.cos rot.y) (num.sin rot.y) v)

/-- converter/glbanim.go:72, 77-82: `qOffset`. -/
def offsetQuat [Sub F] [Mul F] [Zero F] [One F] [DecidableEq F] (num : AnimNum F) (bones : List (Nat × Bone F))
    (b : Bone F) : Vec4 F :=
  match boneWithID bones b.parent with
  | none => ⟨0, 0, 0, 1⟩
  | some p =>
    if b.rotationOffset.x ≠ p.rotationOffset.x then
      let d := (p.rotationOffset.x - b.rotationOffset.x) * num.cos p.rotationOffset.y
      ⟨0, 0, num.sin (num.half d), num.cos (num.half d)⟩
    else ⟨0, 0, 0, 1⟩

/-- converter/glbanim.go:94-109: one rotation sample. -/
def trackRotation [Add F] [Sub F] [Mul F] [Neg F] (num : AnimNum F) (rot : Vec3 F) (off q : Vec4 F) : Vec4 F :=
  let s := q.mul off
  let v := turnBoth num rot ⟨-s.x, -s.y, s.z⟩
  ⟨v.x, v.y, v.z, s.w⟩

/-- converter/glbanim.go:138-150, 154: one translation sample. -/
def trackPosition [Add F] [Sub F] [Mul F] [Neg F] (num : AnimNum F) (rot pos p : Vec3 F) : Vec3 F :=
  (pos.scale num.milli).add (turnBoth num rot ⟨p.x * num.move, p.y * num.move, -p.z * num.move⟩)

/-- converter/glbanim.go:119-132 and 158-171: samples, sampler and channel are appended. -/
def addTrack (n : Nat) (path : TrackPath) (keysAcc : Nat) (data : AccData F) (st : AnimState F) : AnimState F :=
  { st with
    accs := st.accs ++ [data]
    samplers := st.samplers ++ [(keysAcc, st.accs.length)]
    channels := st.channels ++ [(n, path, st.samplers.length)] }

/-- converter/glbanim.go:59-68: the accessor with the keys. -/
def keysAccessor (num : AnimNum F) (frames : List Nat) (st : AnimState F) : Nat × AnimState F :=
  match st.prev with
  | some (f, acc) =>
    if frames = f then (acc, st)
    else (st.accs.length, { st with accs := st.accs ++ [.keys (frames.map num.time)] })
  | none => (st.accs.length, { st with accs := st.accs ++ [.keys (frames.map num.time)] })

/-- converter/glbanim.go:59-68 and 91-172, 178-179: the tracks of node `n`, with the data of its bone. -/
def addTracks [Add F] [Sub F] [Mul F] [Neg F] [Zero F] [One F] [DecidableEq F] (num : AnimNum F) (n : Nat)
    (rot pos : Vec3 F) (off : Vec4 F) (t : BoneTrack F) (st : AnimState F) : AnimState F :=
  let x := keysAccessor num t.frames st
  let rotations := t.rotations.map (trackRotation num rot off)
  let st := if rotations.any (· ≠ ⟨0, 0, 0, 1⟩) then addTrack n .rotation x.1 (.rotations rotations) x.2 else x.2
  let st := if t.positions.any (· ≠ ⟨0, 0, 0⟩) then
      addTrack n .translation x.1 (.positions (t.positions.map (trackPosition num rot pos))) st
    else st
  { st with prev := some (t.frames, x.1) }

/-- converter/glbanim.go:58-180: one channel. Without the message about IK, which changes nothing. -/
def addBoneTrack [Add F] [Sub F] [Mul F] [Neg F] [Zero F] [One F] [DecidableEq F] (num : AnimNum F)
    (bones : List (Nat × Bone F)) (st : AnimState F) (t : BoneTrack F) : AnimState F :=
  match boneNodeOf bones t.target with
  | none => st
  | some n =>
    match bones.lookup n with
    | some b => addTracks num n b.rotationOffset b.pos (offsetQuat num bones b) t st
    | none => addTracks num n ⟨0, 0, 0⟩ ⟨0, 0, 0⟩ ⟨0, 0, 0, 1⟩ t st

/-- converter/glbanim.go:35-182 (`addBoneChannels`) for a document with the accessors `accs`. `bones` and
`tracks` are the maps in the order in which they are visited (Go leaves it open). -/
def addBoneChannels [Add F] [Sub F] [Mul F] [Neg F] [Zero F] [One F] [DecidableEq F] (num : AnimNum F)
    (bones : List (Nat × Bone F)) (accs : List (AccData F)) (tracks : List (BoneTrack F)) : AnimState F :=
  tracks.foldl (addBoneTrack num bones) ⟨accs, [], [], none⟩

end Verif.Gltf
