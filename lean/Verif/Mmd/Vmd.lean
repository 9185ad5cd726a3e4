import Verif.Mmd.Pmd

/-! Model of mmd/vmd_parser.go. -/

namespace Verif.Mmd

open Verif.Geom

/-- mmd/vmd_parser.go:27-33. -/
structure BoneSample where
  target : Bytes
  frame : Nat
  position : V3
  rotation : V4
  params : Bytes
deriving DecidableEq, Repr

/-- mmd/vmd_parser.go:35-39. -/
structure MorphSample where
  target : Bytes
  frame : Nat
  value : UInt32
deriving DecidableEq, Repr

/-- mmd/vmd_parser.go:19-25. Camera and light samples are never filled by the parser. -/
structure Animation where
  name : Bytes
  bone : List BoneSample
  morph : List MorphSample
deriving DecidableEq, Repr

/-- mmd/vmd_parser.go:57-63. `Keyframes` is never filled. -/
structure BoneChannel where
  target : Bytes
  frames : List Nat
  rotations : List V4
  positions : List V3
deriving DecidableEq, Repr

/-- mmd/vmd_parser.go:65-70. -/
structure MorphChannel where
  target : Bytes
  frames : List Nat
  weights : List UInt32
deriving DecidableEq, Repr

/-- `m[k] = v` on a Go map kept as an association list. -/
def mapSet {κ α : Type} [DecidableEq κ] (m : List (κ × α)) (k : κ) (v : α) : List (κ × α) :=
  match m with
  | [] => [(k, v)]
  | (k', v') :: rest => if k' = k then (k, v) :: rest else (k', v') :: mapSet rest k v

/-- `m[k]`. -/
def mapGet {κ α : Type} [DecidableEq κ] (m : List (κ × α)) (k : κ) : Option α :=
  match m with
  | [] => none
  | (k', v') :: rest => if k' = k then some v' else mapGet rest k

/-- mmd/vmd_parser.go:76-84: one sample is put into its channel. `uint32(s.Frame)` is reduction
modulo 2³². -/
def addBone (r : List (Bytes × BoneChannel)) (s : BoneSample) : List (Bytes × BoneChannel) :=
  let a := (mapGet r s.target).getD ⟨s.target, [], [], []⟩
  mapSet r s.target ⟨a.target, a.frames ++ [s.frame % 2 ^ 32], a.rotations ++ [s.rotation],
    a.positions ++ [s.position]⟩

/-- mmd/vmd_parser.go:72-87, after the samples have been sorted in place. -/
def boneChannels (sorted : List BoneSample) : List (Bytes × BoneChannel) := sorted.foldl addBone []

/-- mmd/vmd_parser.go:93-100. -/
def addMorph (r : List (Bytes × MorphChannel)) (s : MorphSample) : List (Bytes × MorphChannel) :=
  let a := (mapGet r s.target).getD ⟨s.target, [], []⟩
  mapSet r s.target ⟨a.target, a.frames ++ [s.frame % 2 ^ 32], a.weights ++ [s.value]⟩

/-- mmd/vmd_parser.go:89-103, after the samples have been sorted in place. -/
def morphChannels (sorted : List MorphSample) : List (Bytes × MorphChannel) := sorted.foldl addMorph []

/-- mmd/base_parser.go:29-33: the number and whether `p.err` is now set. -/
def readIntE : Rd (Nat × Bool) := do
  match ← readBuf 4 with
  | some b => return (ofLe b, false)
  | none => return (0, true)

/-- mmd/vmd_parser.go:123-131. The second component is `p.err ≠ nil` after the sample. -/
def readBoneSample (sjis : Bytes → Bytes) : Rd (BoneSample × Bool) := do
  let target ← readString sjis 15
  let frame ← readIntE
  let position ← readV3
  let rotation ← readV4
  let params ← readBuf 64
  return (⟨target, frame.1, position, rotation, params.getD (List.replicate 64 0)⟩, frame.2)

/-- mmd/vmd_parser.go:134-140. -/
def readMorphSample (sjis : Bytes → Bytes) : Rd (MorphSample × Bool) := do
  let target ← readString sjis 15
  let frame ← readIntE
  let value ← readFloat
  return (⟨target, frame.1, value⟩, frame.2)

/-- A counted loop of samples; `e` is the error state before, the result has the one after. -/
def readSamples {α : Type} (r : Rd (α × Bool)) : Nat → Bool → Rd (List α × Bool)
  | 0, e => return ([], e)
  | n + 1, _ => do
    let s ← r
    let l ← readSamples r n s.2
    return (s.1 :: l.1, l.2)

/-- `"Vocaloid Motion Data 0002"`. -/
def vmdMagic : Bytes :=
  [86, 111, 99, 97, 108, 111, 105, 100, 32, 77, 111, 116, 105, 111, 110, 32, 68, 97, 116, 97, 32,
   48, 48, 48, 50]

/-- mmd/vmd_parser.go:111-143 (`Parse`): the animation and whether an error is returned with it. -/
def parseVMD (sjis : Bytes → Bytes) : Rd (Animation × Bool) := do
  let fmt ← readString sjis 30
  if fmt ≠ vmdMagic then throw .error
  else
    let name ← readString sjis 20
    let bn ← readIntE
    let bones ← readSamples (readBoneSample sjis) bn.1 bn.2
    let mn ← readIntE
    let morphs ← readSamples (readMorphSample sjis) mn.1 mn.2
    return (⟨name, bones.1, morphs.1⟩, morphs.2)

/-- What `NewVMDParser(r).Parse()` returns for a file: the animation, or an error. (With an error the
code also returns the animation it has so far; callers ignore it.) -/
def loadVMD (sjis : Bytes → Bytes) (b : Bytes) : Except Stop Animation :=
  match parseVMD sjis b with
  | .error e => .error e
  | .ok ((a, err), _) => if err then .error .error else .ok a

end Verif.Mmd
