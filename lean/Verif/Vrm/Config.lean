/-!
Model of vrm/vrm.go, vrm/vrm_extension.go and converter/vrmconfig.go.

Strings are lists of characters. Maps are functions into `Option`; where Go iterates over a map, the order is
a parameter.
-/

namespace Verif.Vrm

/-- Strings. -/
abbrev Str := List Char

/-- A glTF node as far as vrmconfig.go is concerned. `body` is the physics extension of the node, with its
`Static` flag. -/
structure VNode where
  name : Str
  mesh : Option Nat
  children : List Nat
  body : Option Bool
deriving DecidableEq

/-- vrm/vrm.go:81-90 (`Bone`); `limits` stands for `Min`, `Max` or `Center` being set. -/
structure VBone where
  bone : Str
  node : Nat
  useDefault : Bool
  limits : Bool
deriving DecidableEq

/-- vrm/vrm.go:14-20 (`RequiredBones`). -/
def requiredBones : List Str :=
  ["hips", "spine", "chest", "neck", "head",
   "leftUpperArm", "leftLowerArm", "leftHand",
   "rightUpperArm", "rightLowerArm", "rightHand",
   "leftUpperLeg", "leftLowerLeg", "leftFoot",
   "rightUpperLeg", "rightLowerLeg", "rightFoot"].map String.toList

/-- vrm/vrm.go:47-50: the map of assigned bones. -/
def boneMap (bones : List VBone) : Str → Option Nat :=
  bones.foldl (fun m b => fun s => if s = b.bone then some b.node else m s) (fun _ => none)

/-- vrm/vrm.go:46-58 (`CheckRequiredBones`). -/
def checkRequiredBones (bones : List VBone) : List Str :=
  let m := boneMap bones
  requiredBones.foldl (fun errs name => if m name = none then errs ++ [name] else errs) []

/-- vrm/vrm_extension.go:51-57 (`ValidateBones`): `some` is the error with the missing bones. -/
def validateBones (bones : List VBone) : Option (List Str) :=
  let errs := checkRequiredBones bones
  if 0 < errs.length then some errs else none

/-- A document as `VRM()` sees it: the VRM extension, if there is one of the right type, and the list of
extensions used. -/
structure ExtDoc (V : Type) where
  ext : Option V
  used : List Str

/-- vrm/vrm_extension.go:27-40 (`VRM`); `new` is `NewVRM()`. The extension has to be stored in the document
(Go returns a pointer to it). -/
def getVRM {V : Type} (new : V) (d : ExtDoc V) : V × ExtDoc V :=
  match d.ext with
  | some v => (v, d)
  | none => (new, ⟨some new, if "VRM".toList ∈ d.used then d.used else d.used ++ ["VRM".toList]⟩)

/-! ### Config -/

/-- converter/vrmconfig.go:45-49 (`BoneMapping`). -/
structure BoneMapping where
  bone : Str
  useDefault : Bool
  limits : Bool
  nodeName : Str
  nodeNames : List Str
deriving DecidableEq

/-- converter/vrmconfig.go:51-58 (`MorphMapping`); `values` is the number of material values. -/
structure MorphMapping where
  name : Str
  nodeName : Str
  targetName : Str
  targetIndex : Int
  values : Nat
deriving DecidableEq

/-- converter/vrmconfig.go:18-33 (`Config`), without metadata and flags. `M` is the type of material
settings, `G` of bone groups, `C` of collider groups. `none` is a nil map. -/
structure Conf (M G C : Type) where
  materials : Option (Str → Option M)
  bones : List BoneMapping
  morphs : List MorphMapping
  groups : List G
  colliders : List C

/-- converter/vrmconfig.go:98-102: the loop over the materials of the preset, in the order `ks`; `none` is
the panic for a write to a nil map. -/
def mergeMaterials {M : Type} (preset : Str → Option M) :
    List Str → Option (Str → Option M) → Option (Option (Str → Option M))
  | [], c => some c
  | k :: ks, c =>
    match preset k with
    | none => mergeMaterials preset ks c
    | some m =>
      match c with
      | none => none
      | some f => mergeMaterials preset ks (some (if f k = none then fun s => if s = k then some m else f s else f))

/-- converter/vrmconfig.go:97-107 (`MergePreset`); `ks` are the keys of the materials of the preset in the
order of the iteration. -/
def mergePreset {M G C : Type} (ks : List Str) (c preset : Conf M G C) : Option (Conf M G C) :=
  (mergeMaterials (preset.materials.getD fun _ => none) ks c.materials).map fun ms =>
    ⟨ms, c.bones ++ preset.bones, c.morphs ++ preset.morphs, c.groups ++ preset.groups, c.colliders ++ preset.colliders⟩

/-- converter/vrmconfig.go:314-317: the map from names to nodes; the last node of a name wins. -/
def nodeMapFrom : Nat → List VNode → (Str → Option Nat) → Str → Option Nat
  | _, [], m => m
  | i, n :: ns, m => nodeMapFrom (i + 1) ns (fun s => if s = n.name then some i else m s)

/-- converter/vrmconfig.go:314-317. -/
def nodeMap (nodes : List VNode) : Str → Option Nat := nodeMapFrom 0 nodes fun _ => none

/-- `doc.Nodes[id].Mesh != nil`; the node exists whenever the code asks. -/
def hasMesh (nodes : List VNode) (id : Nat) : Bool :=
  match nodes[id]? with
  | some n => n.mesh.isSome
  | none => false

/-- The names of a mapping after converter/vrmconfig.go:149-152. -/
def BoneMapping.names (m : BoneMapping) : List Str :=
  if m.nodeName ≠ [] then m.nodeNames ++ [m.nodeName] else m.nodeNames

/-- converter/vrmconfig.go:159-173: the first name that belongs to a node without mesh. -/
def findBone (nodes : List VNode) : List Str → Option Nat
  | [] => none
  | n :: ns =>
    match nodeMap nodes n with
    | some id => if hasMesh nodes id then findBone nodes ns else some id
    | none => findBone nodes ns

/-- `foundBones` and `ext.Humanoid.Bones`. In `found`, -1 stands for a suppressed bone. -/
structure BoneState where
  found : Str → Option Int
  bones : List VBone

/-- converter/vrmconfig.go:145-177: one mapping. -/
def applyMapping (nodes : List VNode) (s : BoneState) (m : BoneMapping) : BoneState :=
  if (s.found m.bone).isSome then s
  else if m.names = [] then { s with found := fun b => if b = m.bone then some (-1) else s.found b }
  else
    match findBone nodes m.names with
    | some id =>
      ⟨fun b => if b = m.bone then some (id : Int) else s.found b,
        s.bones ++ [⟨m.bone, id, m.useDefault || !m.limits, m.limits⟩]⟩
    | none => s

/-- converter/vrmconfig.go:145-177, starting with no bones (lines 318-319). -/
def applyMappings (nodes : List VNode) (ms : List BoneMapping) : BoneState :=
  ms.foldl (applyMapping nodes) ⟨fun _ => none, []⟩

/-- converter/vrmconfig.go:363-370: required bones that were not found are looked up by their name. -/
def fallbackBones (nodes : List VNode) (s : BoneState) : List VBone :=
  requiredBones.foldl (fun bones name =>
    if (s.found name).isSome then bones
    else match nodeMap nodes name with
      | some id => bones ++ [⟨name, id, true, false⟩]
      | none => bones) s.bones

/-- The humanoid bones after `ApplyConfig`. -/
def humanoidBones (nodes : List VNode) (ms : List BoneMapping) : List VBone :=
  fallbackBones nodes (applyMappings nodes ms)

/-- converter/vrmconfig.go:355-361: the first person bone, if there was none. -/
def firstPerson (nodes : List VNode) (ms : List BoneMapping) : Option Int :=
  (applyMappings nodes ms).found "head".toList

/-! ### Spring bones -/

/-- converter/vrmconfig.go:127-131. -/
def findAny (f : Nat → Option Bool) : List Nat → Option Bool
  | [] => some false
  | c :: cs =>
    match f c with
    | none => none
    | some true => some true
    | some false => findAny f cs

/-- converter/vrmconfig.go:123-133 (`findReursive`): is the node or a descendant registered? `none` if the
fuel runs out (the code does not terminate on cycles) or a child does not exist (panic). -/
def findRec (nodes : List VNode) (m : Nat → Bool) : Nat → Nat → Option Bool
  | 0, _ => none
  | fuel + 1, t =>
    if m t then some true
    else
      match nodes[t]? with
      | none => none
      | some n => findAny (findRec nodes m fuel) n.children

/-- converter/vrmconfig.go:137-139. -/
def registerAll (f : Nat → (Nat → Bool) → Option (Nat → Bool)) : List Nat → (Nat → Bool) → Option (Nat → Bool)
  | [], m => some m
  | c :: cs, m =>
    match f c m with
    | none => none
    | some m => registerAll f cs m

/-- converter/vrmconfig.go:135-140 (`registerReursive`). Simplified: the map only says which nodes are
registered, the name is used for messages only. -/
def registerRec (nodes : List VNode) : Nat → Nat → (Nat → Bool) → Option (Nat → Bool)
  | 0, _, _ => none
  | fuel + 1, t, m =>
    match nodes[t]? with
    | none => none
    | some n => registerAll (registerRec nodes fuel) n.children (fun j => j = t || m j)

/-- converter/vrmconfig.go:109-121 (`matchNodeName`) as a relation: `l` is a possible result. `pm` is
`path.Match`; a pattern gives the matching nodes in any order. -/
def MatchNodeName (pm : Str → Str → Bool) (nodes : List VNode) (pattern : Str) (l : List Nat) : Prop :=
  if '*' ∈ pattern ∨ '?' ∈ pattern then
    l.Nodup ∧ ∀ id, id ∈ l ↔ ∃ name, nodeMap nodes name = some id ∧ pm pattern name = true
  else l = (nodeMap nodes pattern).toList

/-- converter/vrmconfig.go:212-223: the nodes matched by one name. -/
def addMatched (nodes : List VNode) (fuel : Nat) :
    List Nat → (Nat → Bool) × List Nat → Option ((Nat → Bool) × List Nat)
  | [], s => some s
  | n :: ns, s =>
    if hasMesh nodes n then addMatched nodes fuel ns s
    else
      match findRec nodes s.1 fuel n with
      | none => none
      | some true => addMatched nodes fuel ns s
      | some false =>
        match registerRec nodes fuel n s.1 with
        | none => none
        | some m => addMatched nodes fuel ns (m, s.2 ++ [n])

/-- converter/vrmconfig.go:208-234: the groups; each group is given by the nodes its names match. Groups
without bones are left out. The bones a group lists by number are not modelled. -/
def addGroups (nodes : List VNode) (fuel : Nat) :
    List (List (List Nat)) → (Nat → Bool) → Option ((Nat → Bool) × List (List Nat))
  | [], m => some (m, [])
  | g :: gs, m =>
    match addMatched nodes fuel g.flatten (m, []) with
    | none => none
    | some (m, bones) =>
      (addGroups nodes fuel gs m).map fun r => (r.1, if 0 < bones.length then bones :: r.2 else r.2)

/-- converter/vrmconfig.go:208-234, starting with an empty map (line 144). -/
def springGroups (nodes : List VNode) (fuel : Nat) (gs : List (List (List Nat))) : Option (List (List Nat)) :=
  (addGroups nodes fuel gs fun _ => false).map (·.2)

/-- converter/vrmconfig.go:403-412. -/
def springKids (f : Nat → Option Int) : List Nat → Int → Option Int
  | [], l => some l
  | c :: cs, l =>
    match f c with
    | none => none
    | some d => if d < 0 then some (-1) else springKids f cs (if l ≤ d then d + 1 else l)

/-- converter/vrmconfig.go:392-414 (`springLen`). -/
def springLen (nodes : List VNode) : Nat → Nat → Option Int
  | 0, _ => none
  | fuel + 1, i =>
    match nodes[i]? with
    | none => none
    | some n =>
      match n.body with
      | none => if n.children = [] then some 0 else some (-1)
      | some true => some (-1)
      | some false => springKids (springLen nodes fuel) n.children 1

/-- converter/vrmconfig.go:417-422: the parent of each node; the last one wins. -/
def parentsFrom : Nat → List VNode → (Nat → Option Nat) → Nat → Option Nat
  | _, [], m => m
  | i, n :: ns, m => parentsFrom (i + 1) ns (fun j => if j ∈ n.children then some i else m j)

/-- converter/vrmconfig.go:417-422. -/
def parents (nodes : List VNode) : Nat → Option Nat := parentsFrom 0 nodes fun _ => none

/-- converter/vrmconfig.go:426: a node that starts a chain. A node without parent has the zero value of the
map, node 0, as its parent. -/
def springRoot (nodes : List VNode) (fuel i : Nat) : Option Bool :=
  match springLen nodes fuel i with
  | none => none
  | some l =>
    if 0 < l then (springLen nodes fuel ((parents nodes i).getD 0)).map fun p => decide (p < 0) else some false

/-- converter/vrmconfig.go:424-430: the nodes whose names are collected. -/
def detectSprings (nodes : List VNode) (fuel : Nat) : List Nat → Option (List Nat)
  | [] => some []
  | i :: is =>
    match springRoot nodes fuel i with
    | none => none
    | some b => (detectSprings nodes fuel is).map fun r => if b then i :: r else r

/-! ### Morphs -/

/-- vrm/vrm.go:112-117, 119-123: a blend shape group with its binds (mesh and index). -/
structure BlendGroup where
  name : Str
  preset : Str
  binds : List (Nat × Int)
  values : Nat
deriving DecidableEq

/-- converter/vrmconfig.go:250-259: the target of a name in the meshes; `none` is a mesh without names. The
last target of a name wins. -/
def targetsFrom : Nat → List (Option (List Str)) → (Str → Option (Nat × Nat)) → Str → Option (Nat × Nat)
  | _, [], m => m
  | mi, names :: ms, m =>
    targetsFrom (mi + 1) ms
      ((names.getD []).zipIdx.foldl (fun m x => fun s => if s = x.1 then some (mi, x.2) else m s) m)

/-- converter/vrmconfig.go:250-259. -/
def targets (meshes : List (Option (List Str))) : Str → Option (Nat × Nat) := targetsFrom 0 meshes fun _ => none

/-- `blendShapeMap` (its keys) and `BlendShapeGroups`. -/
structure MorphState where
  used : List (Nat × Int)
  groups : List BlendGroup

/-- converter/vrmconfig.go:260-296: one morph mapping. `none` is the panic for a node without mesh. -/
def applyMorph (nodes : List VNode) (meshes : List (Option (List Str))) (s : MorphState) (m : MorphMapping) :
    Option MorphState :=
  if m.targetName ≠ [] then
    match targets meshes m.targetName with
    | some t => some ⟨(t.1, (t.2 : Int)) :: s.used, s.groups ++ [⟨m.name, m.name, [(t.1, (t.2 : Int))], m.values⟩]⟩
    | none => some (if 0 < m.values then { s with groups := s.groups ++ [⟨m.name, m.name, [], m.values⟩] } else s)
  else
    match nodeMap nodes m.nodeName with
    | none => some s
    | some id =>
      match nodes[id]? with
      | none => none
      | some n =>
        match n.mesh with
        | none => none
        | some mesh => some ⟨(mesh, m.targetIndex) :: s.used, s.groups ++ [⟨m.name, m.name, [(mesh, m.targetIndex)], 0⟩]⟩

/-- converter/vrmconfig.go:260-296. -/
def applyMorphs (nodes : List VNode) (meshes : List (Option (List Str))) :
    List MorphMapping → MorphState → Option MorphState
  | [], s => some s
  | m :: ms, s =>
    match applyMorph nodes meshes s m with
    | none => none
    | some s => applyMorphs nodes meshes ms s

/-- converter/vrmconfig.go:333-351: the groups for the targets of the meshes that are not used. -/
def restGroups (used : List (Nat × Int)) : Nat → List (Option (List Str)) → List BlendGroup
  | _, [] => []
  | mi, names :: ms =>
    ((names.getD []).zipIdx.filterMap fun x =>
      if (mi, (x.2 : Int)) ∈ used then none else some ⟨x.1, [], [(mi, (x.2 : Int))], 0⟩) ++ restGroups used (mi + 1) ms

/-- The blend shape groups after `ApplyConfig` with `ExportAllMorph`; `old` are the groups the document
had. -/
def allMorphs (nodes : List VNode) (meshes : List (Option (List Str))) (ms : List MorphMapping) (old : List BlendGroup) :
    Option (List BlendGroup) :=
  (applyMorphs nodes meshes ms ⟨[], old⟩).map fun s => s.groups ++ restGroups s.used 0 meshes

end Verif.Vrm
