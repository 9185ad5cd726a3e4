import Verif.Vrm.Config
import Verif.Conv.Physics
import Verif.Gltf.Extensions
import Verif.Cmd.Main

/-!
Model of the export of VRM files as a whole: the choice of the config (cmd/modelconv/main.go:185-200), loading it
(converter/vrmconfig.go:69-95), `ApplyVRMConfig` (479-493), `ApplyConfig` (299-373) and saving (cmd/modelconv/main.go:91-113).

`ToSingleFile` always returns nil (gltfutil/gltf_utils.go:49-79), so it gives no error here; what it does to images is in
Cmd/Paths. `FixJointComponentType` and `ResetJointMatrix` change joints and skins only and are in Gltf/Joints. The number
of lines that are logged is left out.
-/

namespace Verif.Vrm

open Verif.Conv (NodeBody ColliderGroup convertColliders applyColliders)
open Verif.Gltf (XDoc XMat Setting applySettings vrmDoc addVRM removeExtension physicsName materialProperties)

/-! ### Configs -/

/-- vrm/vrm.go:134-144 (`SecondaryAnimationBoneGroup`): the bones and everything else. -/
structure BoneGroup (S : Type) where
  settings : S
  bones : List Int
deriving DecidableEq

/-- converter/vrmconfig.go:35-38 (`AnimationBoneGroupSettings`). -/
structure GroupSetting (S : Type) where
  group : BoneGroup S
  names : List Str
deriving DecidableEq

/-- converter/vrmconfig.go:18-33 (`Config`). `T` is the type of metadata. -/
structure Config (T S F : Type) where
  info : T
  conf : Conf (Setting F) (GroupSetting S) (ColliderGroup F)
  exportAllMorph : Bool
  convertPhysicsCollider : Bool
  animationBoneFromPhysics : Bool
  preset : Str

/-- `&converter.Config{}`, cmd/modelconv/main.go:95. -/
def Config.empty {T S F : Type} (noInfo : T) : Config T S F := ⟨noInfo, ⟨none, [], [], [], []⟩, false, false, false, []⟩

/-- Where configs come from. `beside` is the content of a file of the directory `vrmconfig_presets` next to the
executable, `embedded` that of an embedded file, `file` that of any file by its path; `parse` is `json.Unmarshal`. -/
structure Sources (C : Type) where
  executable : Bool
  beside : Str → Option (List UInt8)
  embedded : Str → Option (List UInt8)
  file : Str → Option (List UInt8)
  parse : List UInt8 → Option C

/-- converter/vrmconfig.go:69-95 (`LoadVRMConfig`). In the branch for presets `err` is declared anew, so errors of reading
are forgotten and the data is empty. -/
def loadConfig {C : Type} (src : Sources C) (name : Str) : Option C :=
  if '.' ∉ name ∧ '/' ∉ name then
    if src.executable then
      src.parse (match src.beside (name ++ ".json".toList) with
        | some data => data
        | none => (src.embedded (name ++ ".json".toList)).getD [])
    else none
  else (src.file name).bind src.parse

/-- cmd/modelconv/main.go:185-200: the name of the config. `flag` is the option, `found` says whether a file exists. -/
def configName (found : Str → Bool) (flag input inputExt outputExt : Str) : Str :=
  let guess := input.take (input.length - (Cmd.ext input).length) ++ ".vrmconfig.json".toList
  let flag := if outputExt = ".vrm".toList ∧ flag = [] ∧ found guess = true then guess else flag
  if Cmd.isMMD inputExt = true ∧ outputExt = ".vrm".toList ∧ flag = [] then "mmd".toList else flag

/-! ### Documents -/

/-- A node of the document. -/
structure ENode (F : Type) where
  name : Str
  mesh : Option Nat
  children : List Nat
  body : Option (NodeBody F)

/-- The node as the functions for bones and springs see it. -/
def ENode.view {F : Type} (n : ENode F) : VNode := ⟨n.name, n.mesh, n.children, n.body.map NodeBody.static⟩

/-- The node without its physics extension (gltfutil/gltf_utils.go:21-47). -/
def ENode.bare {F : Type} (n : ENode F) : ENode F := { n with body := none }

/-- vrm/vrm.go:22-33 (`VRM`). -/
structure Ext (T S F : Type) where
  info : T
  bones : List VBone
  firstPerson : Option Int
  blend : List BlendGroup
  groups : List (BoneGroup S)
  colliders : List (ColliderGroup F)
  properties : List Str
  version : Str

/-- vrm/vrm.go:35-37 (`NewVRM`). -/
def Ext.new {T S F : Type} (noInfo : T) : Ext T S F := ⟨noInfo, [], none, [], [], [], [], []⟩

/-- A glTF document; `meshes` are the names of the morph targets of each mesh. -/
structure VDoc (T S F : Type) where
  nodes : List (ENode F)
  meshes : List (Option (List Str))
  x : XDoc F
  ext : Option (Ext T S F)

/-- What Go leaves open: the order in which a map of nodes is searched for the pattern of a group, and the order of the
material settings of a preset. Two equal patterns in one group may be matched in different orders, but the second one
adds nothing. -/
structure Orders where
  pick : Nat → Str → List Nat
  keys : List Str

/-- converter/vrmconfig.go:208-234: the groups of spring bones; `i` is the number of the group. -/
def addSprings {S : Type} (nodes : List VNode) (fuel : Nat) (pick : Nat → Str → List Nat) :
    Nat → List (GroupSetting S) → (Nat → Bool) → Option (List (BoneGroup S))
  | _, [], _ => some []
  | i, g :: gs, m =>
    match addMatched nodes fuel (g.names.flatMap (pick i)) (m, []) with
    | none => none
    | some (m, bones) =>
      (addSprings nodes fuel pick (i + 1) gs m).map fun r =>
        if 0 < (g.group.bones ++ bones.map Int.ofNat).length then ⟨g.group.settings, g.group.bones ++ bones.map Int.ofNat⟩ :: r else r

variable {T S F : Type}

/-- converter/vrmconfig.go:142-297 and 332-370: the config with the merged preset applied to the document. `e` is the
extension so far. -/
def applyMerged [Zero F] [LT F] [DecidableLT F] (o : Orders) (fuel : Nat) (all : Bool)
    (c : Conf (Setting F) (GroupSetting S) (ColliderGroup F)) (e : Ext T S F) (d : VDoc T S F) : Option (VDoc T S F) :=
  let nodes := d.nodes.map ENode.view
  match addSprings nodes fuel o.pick 0 c.groups (fun _ => false) with
  | none => none
  | some groups =>
    match applyMorphs nodes d.meshes c.morphs ⟨[], e.blend⟩ with
    | none => none
    | some s =>
      let r := applySettings (c.materials.getD fun _ => none) d.x.mats d.x.used
      some { d with
        x := { d.x with mats := r.1, used := r.2 }
        ext := some { e with
          bones := humanoidBones nodes c.bones
          groups := e.groups ++ groups
          colliders := e.colliders ++ applyColliders (d.nodes.map (·.name)) c.colliders
          blend := s.groups ++ (if all then restGroups s.used 0 d.meshes else [])
          firstPerson := match e.firstPerson with
            | some p => some p
            | none => firstPerson nodes c.bones } }

/-- converter/vrmconfig.go:299-373 (`ApplyConfig`). `none` is a panic or an endless loop; the flag says whether an error is
returned. -/
def applyConfig [Zero F] [LT F] [DecidableLT F] (src : Sources (Config T S F)) (o : Orders) (fuel : Nat) (noInfo : T)
    (c : Config T S F) (d : VDoc T S F) : Option (Bool × VDoc T S F) :=
  let e := (getVRM (Ext.new noInfo) ⟨d.ext, d.x.used⟩).1
  let d := { d with x := addVRM d.x }
  let e := { e with
    version := "modelconv-v0.2".toList
    info := c.info
    properties := materialProperties e.properties d.x
    bones := [] }
  if c.preset ≠ [] then
    match loadConfig src c.preset with
    | none => some (true, { d with ext := some e })
    | some p =>
      match mergePreset o.keys c.conf p.conf with
      | none => none
      | some conf => (applyMerged o fuel c.exportAllMorph conf e d).map fun d => (false, d)
  else (applyMerged o fuel c.exportAllMorph c.conf e d).map fun d => (false, d)

/-- converter/vrmconfig.go:415-444 (`DetectSpringBones`); `auto` are the fixed settings of the new group. -/
def withSprings (auto : S) (fuel : Nat) (nodes : List (ENode F)) (c : Config T S F) : Option (Config T S F) :=
  (detectSprings (nodes.map ENode.view) fuel (List.range nodes.length)).map fun is =>
    let names := is.filterMap fun i => (nodes[i]?).map (·.name)
    if 0 < names.length then { c with conf := { c.conf with groups := c.conf.groups ++ [⟨⟨auto, []⟩, names⟩] } } else c

/-- converter/vrmconfig.go:483-488: the config with what is made from physics. -/
def withPhysics [Zero F] [DecidableEq F] (auto : S) (fuel : Nat) (nodes : List (ENode F)) (c : Config T S F) : Option (Config T S F) :=
  (if c.animationBoneFromPhysics then withSprings auto fuel nodes c else some c).map fun c =>
    if c.convertPhysicsCollider then
      { c with conf := { c.conf with colliders := c.conf.colliders ++ convertColliders 0 (nodes.map fun n => (n.name, n.body)) } }
    else c

/-- converter/vrmconfig.go:479-493 (`ApplyVRMConfig`). -/
def applyVRMConfig [Zero F] [DecidableEq F] [LT F] [DecidableLT F] (src : Sources (Config T S F)) (o : Orders) (fuel : Nat)
    (noInfo : T) (auto : S) (c : Config T S F) (d : VDoc T S F) : Option (Bool × VDoc T S F) :=
  match withPhysics auto fuel d.nodes c with
  | none => none
  | some c =>
    applyConfig src o fuel noInfo c { d with nodes := d.nodes.map ENode.bare, x := removeExtension physicsName d.x }

/-- cmd/modelconv/main.go:97-103: the options of the program. -/
def withFlags (physics allMorphs : Bool) (c : Config T S F) : Config T S F where
  info := c.info
  conf := c.conf
  exportAllMorph := c.exportAllMorph || allMorphs
  convertPhysicsCollider := c.convertPhysicsCollider || physics
  animationBoneFromPhysics := c.animationBoneFromPhysics || physics
  preset := c.preset

/-- cmd/modelconv/main.go:91-113: saving a document as VRM. The result is whether an error is reported and the document
that is written. Missing bones are logged only. -/
def saveVRM [Zero F] [DecidableEq F] [LT F] [DecidableLT F] (src : Sources (Config T S F)) (o : Orders) (fuel : Nat)
    (noInfo : T) (auto : S) (physics allMorphs : Bool) (name : Str) (d : VDoc T S F) : Option (Bool × VDoc T S F) :=
  applyVRMConfig src o fuel noInfo auto (withFlags physics allMorphs ((loadConfig src name).getD (Config.empty noInfo))) d

end Verif.Vrm
