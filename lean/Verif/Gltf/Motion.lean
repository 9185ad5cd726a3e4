import Verif.Gltf.BoneAnim
import Verif.Gltf.Anim
import Verif.Mmd.Vmd
import Mathlib.Data.List.Dedup

/-! Model of adding a VMD motion to a glTF document: converter/glbanim.go:184-262 with the channels of
mmd/vmd_parser.go:72-103. -/

namespace Verif.Gltf

open Verif.Mmd (Bytes BoneSample MorphSample BoneChannel MorphChannel boneChannels morphChannels Animation)
open Verif.Mqo (Str Bone)
open Verif.Geom

variable {F : Type}

/-- What the model leaves open: the value of a float32, the characters of a Go string and `uint8(v * 255)`. -/
structure MotionEnv (F : Type) where
  num : AnimNum F
  val : UInt32 → F
  text : Bytes → Str
  byte : F → UInt8

/-- The channel of a bone (mmd/vmd_parser.go:57-63) with numbers and texts. -/
def MotionEnv.boneTrack (env : MotionEnv F) (c : BoneChannel) : BoneTrack F where
  target := env.text c.target
  frames := c.frames
  rotations := c.rotations.map fun r => ⟨env.val r.x, env.val r.y, env.val r.z, env.val r.w⟩
  positions := c.positions.map fun p => ⟨env.val p.x, env.val p.y, env.val p.z⟩

/-- The channel of a morph (mmd/vmd_parser.go:65-70) with numbers and texts. -/
def MotionEnv.morphTrack (env : MotionEnv F) (c : MorphChannel) : MorphTrack F where
  target := env.text c.target
  frames := c.frames
  weights := c.weights.map env.val

/-- converter/glbanim.go:203-209: the nodes that have an entry in `nodeChannels`. -/
def morphNodes (targets : List (Str × Nat × Nat × Nat)) (tracks : List (MorphTrack F)) : List Nat :=
  (tracks.filterMap fun m => (findTarget targets m.target).map (·.1)).dedup

/-- converter/glbanim.go:211-249: the entry `ni` of `nodeChannels`; `none` is a panic. -/
def addMorphNode (env : MotionEnv F) (targets : List (Str × Nat × Nat × Nat)) (tracks : List (MorphTrack F))
    (st : AnimState F) (ni : Nat) : Option (AnimState F) :=
  (nodeWeights env.byte targets (nodeTracks targets tracks ni)).map fun w =>
    { st with
      accs := st.accs ++ [.keys (w.1.map env.num.time), .weights w.2]
      samplers := st.samplers ++ [(st.accs.length, st.accs.length + 1)]
      channels := st.channels ++ [(ni, .weights, st.samplers.length)] }

/-- converter/glbanim.go:184-251 (`addMorphChannels`). `nodes` are the nodes with meshes and target names,
`order` is the order in which the map `nodeChannels` is visited. -/
def addMorphChannels (env : MotionEnv F) (nodes : List MeshNode) (order : List Nat) (tracks : List (MorphTrack F)) :
    AnimState F → Option (AnimState F) :=
  fun st => order.foldlM (addMorphNode env (morphTargets nodes) tracks) st

/-- `gltf.Animation`. -/
structure GAnimation where
  name : Str
  samplers : List (Nat × Nat)
  channels : List (Nat × TrackPath × Nat)
deriving DecidableEq

/-- The parts of a glTF document that matter: accessors and animations. -/
structure AnimDoc (F : Type) where
  accs : List (AccData F)
  animations : List GAnimation

/-- converter/glbanim.go:253-262 (`AddAnimationTpGlb`). `bm` and `mm` are the maps of channels, in the order in
which they are visited. -/
def addAnimation [Add F] [Sub F] [Mul F] [Neg F] [Zero F] [One F] [DecidableEq F] (env : MotionEnv F)
    (bones : List (Nat × Bone F)) (nodes : List MeshNode) (order : List Nat) (name : Bytes)
    (bm : List (Bytes × BoneChannel)) (mm : List (Bytes × MorphChannel)) (doc : AnimDoc F) : Option (AnimDoc F) :=
  (addMorphChannels env nodes order (mm.map fun p => env.morphTrack p.2)
    (addBoneChannels env.num bones doc.accs (bm.map fun p => env.boneTrack p.2))).map fun st =>
      { accs := st.accs
        animations := if 0 < st.channels.length then
            doc.animations ++ [⟨env.text name, st.samplers, st.channels⟩] else doc.animations }

/-- The map of mmd/vmd_parser.go:72-87 (`GetBoneChannels`), visited in some order; `sort.Slice` sorts by frame
and leaves the order of equal frames open. -/
def IsBoneMap (a : Animation) (bm : List (Bytes × BoneChannel)) : Prop :=
  ∃ sorted : List BoneSample, sorted.Perm a.bone ∧ sorted.Pairwise (fun x y => x.frame ≤ y.frame) ∧
    bm.Perm (boneChannels sorted)

/-- The map of mmd/vmd_parser.go:89-103 (`GetMorphChannels`), visited in some order. -/
def IsMorphMap (a : Animation) (mm : List (Bytes × MorphChannel)) : Prop :=
  ∃ sorted : List MorphSample, sorted.Perm a.morph ∧ sorted.Pairwise (fun x y => x.frame ≤ y.frame) ∧
    mm.Perm (morphChannels sorted)

end Verif.Gltf
