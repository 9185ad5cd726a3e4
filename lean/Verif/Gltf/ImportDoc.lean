import Verif.Gltf.Import

/-! Model of converter/gltf2mqo.go:127-153: objects and bones of a whole glTF document. -/

namespace Verif.Gltf

open Verif.Geom
open Verif.Mqo (Face)

variable {F : Type}

/-- A glTF node as the importer sees it. `rotation` is not used by the code. -/
structure INode (F : Type) where
  name : Mqo.Str
  mesh : Option Nat
  translation : Vec3 F
  rotation : Vec4 F
  children : List Nat

/-- The parts of a glTF document that become objects and bones; `skins` are the skeleton nodes of the skins, if given. -/
structure GltfIn (F : Type) where
  nodes : List (INode F)
  meshes : List (Mqo.Str × List (Prim F))
  skins : List (Option Nat)

/-- What the importer sets of an object: name, vertices and faces. -/
structure IObject (F : Type) where
  name : Mqo.Str
  vertexes : List (Vec3 F)
  faces : List (Face F)

/-- The nodes as bones. -/
def GltfIn.bnodes (doc : GltfIn F) : List (BNode F) := doc.nodes.map fun n => ⟨n.name, n.translation, n.children⟩

/-- converter/gltf2mqo.go:134-138: the object of one node, nothing for a node without mesh; `none` is a panic. -/
def importNode (doc : GltfIn F) (n : INode F) : Option (Option (IObject F)) :=
  match n.mesh with
  | none => some none
  | some i =>
    match doc.meshes[i]? with
    | none => none
    | some m => (importMesh m.2 ([], [])).map fun o => some ⟨m.1, o.1, o.2⟩

/-- converter/gltf2mqo.go:134-138. -/
def importObjects (doc : GltfIn F) : List (INode F) → Option (List (IObject F))
  | [] => some []
  | n :: ns =>
    match importNode doc n, importObjects doc ns with
    | some o, some os => some (o.toList ++ os)
    | _, _ => none

/-- converter/gltf2mqo.go:140-149: the skeletons of the skins, each once; `seen` is the map of the code. -/
def importSkins [Add F] (nodes : List (BNode F)) (fuel : Nat) : List Nat → List (Option Nat) → List (IBone F) →
    Option (List (IBone F))
  | _, [], bones => some bones
  | seen, none :: ss, bones => importSkins nodes fuel seen ss bones
  | seen, some s :: ss, bones =>
    if s ∈ seen then importSkins nodes fuel seen ss bones
    else
      match importBones nodes fuel s 0 bones with
      | none => none
      | some bones => importSkins nodes fuel (s :: seen) ss bones

/-- converter/gltf2mqo.go:127-153 (`Convert`): objects and bones (the materials are the subject of C133). -/
def importDocument [Add F] (fuel : Nat) (doc : GltfIn F) : Option (List (IObject F) × List (IBone F)) :=
  match importObjects doc doc.nodes, importSkins doc.bnodes fuel [] doc.skins [] with
  | some os, some bs => some (os, bs)
  | _, _ => none

end Verif.Gltf
