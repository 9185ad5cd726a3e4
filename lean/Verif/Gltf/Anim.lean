import Verif.Mqo.Doc

/-! Model of the morph tracks of converter/glbanim.go. -/

namespace Verif.Gltf

open Verif.Mqo (Str)

/-- The channel of one morph: key frames and weights, mmd/vmd.go (`MorphChannel`). -/
structure MorphTrack (F : Type) where
  target : Str
  frames : List Nat
  weights : List F

/-- A node with a mesh: its number and the names of its morph targets (converter/glbanim.go:186-194, nodes
without mesh, primitives or names are left out). -/
abbrev MeshNode := Nat × List Str

/-- `targets` is a map from names to (node, index, number of targets), converter/glbanim.go:185-201: later
entries replace earlier ones. The list is in the order of assignment. -/
def morphTargets (nodes : List MeshNode) : List (Str × Nat × Nat × Nat) :=
  nodes.flatMap fun n => n.2.zipIdx.map fun x => (x.1, n.1, x.2, n.2.length)

/-- Lookup in `targets`: the last assignment counts. -/
def findTarget (targets : List (Str × Nat × Nat × Nat)) (name : Str) : Option (Nat × Nat × Nat) :=
  targets.reverse.lookup name

variable {F : Type}

/-- converter/glbanim.go:203-209: the channels of node `ni`, in the order in which the map of channels is
visited (`tracks`; Go leaves the order open). -/
def nodeTracks (targets : List (Str × Nat × Nat × Nat)) (tracks : List (MorphTrack F)) (ni : Nat) : List (MorphTrack F) :=
  tracks.filter fun m => (findTarget targets m.target).any fun t => t.1 = ni

/-- converter/glbanim.go:226-228: the weights of one channel are stored, `f` counts the keys; `none` is an
index panic. `q` is the conversion to a byte, `uint8(v * 255)`. -/
def storeWeights (q : F → UInt8) (size ti : Nat) : Nat → List F → List UInt8 → Option (List UInt8)
  | _, [], l => some l
  | f, v :: vs, l => if f * size + ti < l.length then storeWeights q size ti (f + 1) vs (l.set (f * size + ti) (q v)) else none

/-- converter/glbanim.go:221-229. -/
def storeTracks (q : F → UInt8) (targets : List (Str × Nat × Nat × Nat)) (count size : Nat) :
    List (MorphTrack F) → List UInt8 → Option (List UInt8)
  | [], l => some l
  | m :: ms, l =>
    if m.frames.length ≠ count then storeTracks q targets count size ms l
    else
      match findTarget targets m.target with
      | none => none
      | some t =>
        match storeWeights q size t.2.1 0 m.weights l with
        | none => none
        | some l => storeTracks q targets count size ms l

/-- converter/glbanim.go:211-229: the keys (as frame numbers; the code divides them by 30) and the weights
of a node. `none` is a panic. -/
def nodeWeights (q : F → UInt8) (targets : List (Str × Nat × Nat × Nat)) : List (MorphTrack F) → Option (List Nat × List UInt8)
  | [] => none
  | m :: ms =>
    match findTarget targets m.target with
    | none => none
    | some t =>
      (storeTracks q targets m.frames.length t.2.2 (m :: ms) (List.replicate (t.2.2 * m.frames.length) 0)).map
        fun l => (m.frames, l)

end Verif.Gltf
