import Verif.Mqo.Core

/-! Model of `getWeights` in converter/mqo2gltf.go. -/

namespace Verif.Conv

open Verif.Geom
open Verif.Mqo (Bone Object VertexWeight)

variable {F : Type}

/-- One vertex while the weights are collected: `njoint[v]` and the four pairs of `joints[v]` and
`weights[v]` (converter/mqo2gltf.go:220-222). The joint is a natural number (Go: `uint16`; objects with
more than 65536 joints are not modelled). -/
structure VSkin (F : Type) where
  n : Nat
  slots : List (Nat × F)
deriving DecidableEq

/-- converter/mqo2gltf.go:232-234. -/
def VSkin.empty [Zero F] : VSkin F := ⟨0, [(0, 0), (0, 0), (0, 0), (0, 0)]⟩

/-- converter/mqo2gltf.go:243-249: the place of the smallest weight below `m`, if any; `i` counts the
slots already seen. -/
def smallest [FloatOps F] : F → Option Nat → Nat → List (Nat × F) → Option Nat
  | _, best, _, [] => best
  | m, best, i, e :: es =>
    if lt e.2 m then smallest e.2 (some i) (i + 1) es else smallest m best (i + 1) es

/-- converter/mqo2gltf.go:239-258: one influence of joint `j`. `h` is 0.01. -/
def VSkin.put [Mul F] [FloatOps F] (h : F) (j : Nat) (s : VSkin F) (w : F) : VSkin F :=
  if s.n < 4 then ⟨s.n + 1, s.slots.set s.n (j, w * h)⟩
  else
    match smallest (w * h) none 0 s.slots with
    | none => ⟨s.n + 1, s.slots⟩
    | some i => ⟨s.n + 1, s.slots.set i (j, w * h)⟩

/-- The sum of the four weights, converter/mqo2gltf.go:264-267. -/
def VSkin.sum [Add F] [Zero F] (s : VSkin F) : F := s.slots.foldl (fun a e => a + e.2) 0

/-- converter/mqo2gltf.go:262-273. -/
def VSkin.norm [Add F] [Div F] [Zero F] [FloatOps F] (s : VSkin F) : VSkin F :=
  if 4 < s.n then
    if lt 0 s.sum then ⟨s.n, s.slots.map fun e => (e.1, e.2 / s.sum)⟩ else s
  else s

/-- One pass over the weights of a group (converter/mqo2gltf.go:237-259, 260-274) that changes the
vertices one by one; `none` is the index panic for an unknown vertex. -/
def forVertexes (o : Object F) (f : F → VSkin F → VSkin F) :
    List (VertexWeight F) → List (VSkin F) → Option (List (VSkin F))
  | [], l => some l
  | vw :: rest, l =>
    let v := o.getVertexIndexByID vw.vertexID
    if 0 ≤ v ∧ v < l.length then forVertexes o f rest (l.modify v.toNat (f vw.weight)) else none

/-- converter/mqo2gltf.go:226-230: the groups of weights for the object, with the id of their bone. -/
def skinGroups (bones : List (Bone F)) (o : Object F) : List (Int × List (VertexWeight F)) :=
  bones.flatMap fun b =>
    (b.weights.filter fun g => g.objectID = o.uid).map fun g => (b.id, g.vertexes)

/-- converter/mqo2gltf.go:236-274, for the groups with joint number `j` and following. -/
def skinLoop [Add F] [Mul F] [Div F] [Zero F] [FloatOps F] (h : F) (o : Object F) :
    Nat → List (Int × List (VertexWeight F)) → List (VSkin F) → Option (List (VSkin F))
  | _, [], l => some l
  | j, g :: gs, l =>
    match forVertexes o (fun w s => s.put h j w) g.2 l with
    | none => none
    | some l =>
      match forVertexes o (fun _ s => s.norm) g.2 l with
      | none => none
      | some l => skinLoop h o (j + 1) gs l

/-- converter/mqo2gltf.go:219-279 (`getWeights`): the joint nodes and the four slots of every vertex
(`nil` in Go if there is no group). `idToJoint` is the map made by `addBoneNodes`; 0 for missing keys. -/
def getWeights [Add F] [Mul F] [Div F] [Zero F] [FloatOps F] (h : F) (bones : List (Bone F)) (o : Object F)
    (idToJoint : List (Int × Nat)) : Option (List Nat × List (VSkin F)) :=
  let groups := skinGroups bones o
  if groups.isEmpty then some ([], [])
  else
    (skinLoop h o 0 groups (o.vertexes.map fun _ => VSkin.empty)).map fun l =>
      (groups.map fun g => (idToJoint.lookup g.1).getD 0, l)

end Verif.Conv
