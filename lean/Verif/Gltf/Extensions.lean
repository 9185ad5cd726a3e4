import Verif.Mqo.Core
import Mathlib.Data.List.Dedup

/-! Model of the extensions of exported documents: converter/mqo2gltf.go:461-467, 852-860, 901-922, gltfutil/gltf_utils.go:21-47,
converter/vrmconfig.go:179-206, 304-311, 479-493 and vrm/vrm_extension.go:27-49. The content of an extension is left out, an object
has the list of the names of its extensions. -/

namespace Verif.Gltf

open Verif.Mqo (Str)

variable {F : Type}

/-- Alpha modes of materials (type of the library). -/
inductive XAlpha where
  | opaqueMode | mask | blend
deriving DecidableEq

/-- A material: name, extensions, alpha mode and alpha of the base color (`none` without base color). -/
structure XMat (F : Type) where
  name : Str
  exts : List Str
  mode : XAlpha
  alpha : Option F
deriving DecidableEq

/-- A document: materials, the extensions of the nodes, of the document, of the kinds of objects that `RemoveExtension` looks at
(accessors, animations, skins, cameras, samplers, scenes), of all other kinds, and the list of used extensions. -/
structure XDoc (F : Type) where
  mats : List (XMat F)
  nodes : List (List Str)
  root : List Str
  seen : List (List Str)
  unseen : List (List Str)
  used : List Str
deriving DecidableEq

def lightsName : Str := "KHR_lights_punctual".toList
def physicsName : Str := "BLENDER_physics".toList
def unlitExt : Str := "KHR_materials_unlit".toList
def vrmName : Str := "VRM".toList

/-- An object or bone as it is exported: its light, if it has one (bones have none), and whether there is a collision shape for its
node. -/
structure XObject (L : Type) where
  light : Option L
  body : Bool

/-- converter/mqo2gltf.go:852-860: the index in the extension of each node, and the lights. -/
def exportLights {L : Type} : List (XObject L) → List L → List (Option Nat) × List L
  | [], ls => ([], ls)
  | o :: os, ls =>
    match o.light with
    | none => let r := exportLights os ls; (none :: r.1, r.2)
    | some l => let r := exportLights os (ls ++ [l]); (some ls.length :: r.1, r.2)

/-- The names of the extensions of the node of an object. -/
def nodeExts {L : Type} (lights physics : Bool) (o : XObject L) : List Str :=
  (if lights && o.light.isSome then [lightsName] else []) ++ (if physics && o.body then [physicsName] else [])

/-- converter/mqo2gltf.go:901-922: the extensions of an exported document. `order` is the order in which Go goes through the map of
extensions. Bodies are added with the option for physics only (mqo2gltf.go:795-805, 891-898). -/
def exportDoc {L : Type} (order : List Str → List Str) (lights physics : Bool) (mats : List (XMat F)) (os : List (XObject L)) : XDoc F :=
  let l := if lights && os.any (fun o => o.light.isSome) then [lightsName] else []
  let p := if physics then [physicsName] else []
  { mats := mats
    nodes := os.map (nodeExts lights physics)
    root := l
    seen := []
    unseen := []
    used := order ((mats.flatMap (·.exts) ++ l ++ p).dedup) }

/-- gltfutil/gltf_utils.go:21-47 (`RemoveExtension`). -/
def removeExtension (e : Str) (d : XDoc F) : XDoc F :=
  let del := fun (l : List Str) => l.filter (· ≠ e)
  { d with
    mats := d.mats.map fun m => { m with exts := del m.exts }
    nodes := d.nodes.map del
    root := del d.root
    seen := d.seen.map del }

/-- vrm/vrm_extension.go:27-40 (`VRM`) with `IsExtentionUsed`. -/
def addVRM (d : XDoc F) : XDoc F :=
  if vrmName ∈ d.root then d
  else { d with root := d.root ++ [vrmName], used := if vrmName ∈ d.used then d.used else d.used ++ [vrmName] }

/-- converter/vrmconfig.go:60-64. -/
structure Setting (F : Type) where
  forceUnlit : Bool
  alphaMode : Str
  alpha : F

/-- converter/vrmconfig.go:182-187: the setting of a material. -/
def settingOf (s : Str → Option (Setting F)) (name : Str) : Option (Setting F) :=
  match s name with
  | some x => some x
  | none => s "*".toList

/-- converter/vrmconfig.go:188-204: what a setting does to a material. -/
def applySetting [Zero F] [LT F] [DecidableLT F] (x : Setting F) (m : XMat F) : XMat F :=
  { m with
    exts := if x.forceUnlit then [unlitExt] else m.exts
    mode := if x.alphaMode = "blend".toList then .blend
      else if x.alphaMode = "mask".toList then .mask
      else if x.alphaMode = "opaque".toList then .opaqueMode
      else m.mode
    alpha := if 0 < x.alpha then m.alpha.map (fun _ => x.alpha) else m.alpha }

/-- converter/vrmconfig.go:179-206: the materials and the used extensions. -/
def applySettings [Zero F] [LT F] [DecidableLT F] (s : Str → Option (Setting F)) : List (XMat F) → List Str → List (XMat F) × List Str
  | [], used => ([], used)
  | m :: ms, used =>
    match settingOf s m.name with
    | none => let r := applySettings s ms used; (m :: r.1, r.2)
    | some x =>
      let used' := if x.forceUnlit then (if unlitExt ∈ used then used else used ++ [unlitExt]) else used
      let r := applySettings s ms used'
      (applySetting x m :: r.1, r.2)

/-- converter/vrmconfig.go:479-493 (`ApplyVRMConfig`) as far as it is about extensions. -/
def vrmDoc [Zero F] [LT F] [DecidableLT F] (s : Str → Option (Setting F)) (d : XDoc F) : XDoc F :=
  let d := addVRM (removeExtension physicsName d)
  let r := applySettings s d.mats d.used
  { d with mats := r.1, used := r.2 }

/-- converter/vrmconfig.go:304-311: the names of the material properties of the VRM extension. -/
def materialProperties (old : List Str) (d : XDoc F) : List Str :=
  if old.length ≠ d.mats.length then d.mats.map (·.name) else old

end Verif.Gltf
