import Verif.Mqo.Doc

/-! Model of converter/gltf2mqo.go: meshes and bones. -/

namespace Verif.Gltf

open Verif.Geom
open Verif.Mqo (Face)

variable {F : Type}

/-- A glTF primitive with its accessors already read (the glTF library reads them): `none` if the
attribute is missing. -/
structure Prim (F : Type) where
  indices : Option (List Nat)
  pos : Option (List (Vec3 F))
  uv : Option (List (Vec2 F))
  material : Option Nat

/-- converter/gltf2mqo.go:93-99: the face of three indices; `none` is an index panic. -/
def importFace (mat : Nat) (uv : List (Vec2 F)) (a b c : Nat) : Option (Face F) :=
  if a < uv.length then do
    let ua ← uv[a]?
    let uc ← uv[c]?
    let ub ← uv[b]?
    some ⟨0, [a, c, b], mat, [ua, uc, ub], []⟩
  else some ⟨0, [a, c, b], mat, [], []⟩

/-- converter/gltf2mqo.go:92-101: all complete triples of indices. -/
def importFaces (mat : Nat) (uv : List (Vec2 F)) : List Nat → Option (List (Face F))
  | a :: b :: c :: rest => do
    let f ← importFace mat uv a b c
    let fs ← importFaces mat uv rest
    some (f :: fs)
  | _ => some []

/-- converter/gltf2mqo.go:58-102: one primitive. -/
def importPrim (p : Prim F) (o : List (Vec3 F) × List (Face F)) : Option (List (Vec3 F) × List (Face F)) :=
  match p.indices with
  | none => some o
  | some is => do
    let fs ← importFaces (p.material.getD 0) (p.uv.getD []) is
    some (o.1 ++ p.pos.getD [], o.2 ++ fs)

/-- converter/gltf2mqo.go:56-105 (`convertMesh`): the vertices and faces of the object. -/
def importMesh : List (Prim F) → List (Vec3 F) × List (Face F) → Option (List (Vec3 F) × List (Face F))
  | [], o => some o
  | p :: ps, o => do
    let o ← importPrim p o
    importMesh ps o

/-- A glTF node, as far as bones are concerned. -/
structure BNode (F : Type) where
  name : Mqo.Str
  translation : Vec3 F
  children : List Nat

/-- What the importer sets of a bone (converter/gltf2mqo.go:113-119). -/
structure IBone (F : Type) where
  id : Nat
  name : Mqo.Str
  pos : Vec3 F
  parent : Nat

mutual
/-- converter/gltf2mqo.go:107-125 (`convertBones`). `none` is an index panic or running out of `fuel`, the
depth of the recursion, which Go does not bound. -/
def importBones [Add F] (nodes : List (BNode F)) : Nat → Nat → Nat → List (IBone F) → Option (List (IBone F))
  | 0, _, _, _ => none
  | fuel + 1, node, parent, bones =>
    match nodes[node]? with
    | none => none
    | some n =>
      if 0 < parent then
        match bones[parent - 1]? with
        | none => none
        | some q =>
          importChildren nodes fuel n.children (bones.length + 1)
            (bones ++ [⟨bones.length + 1, n.name, n.translation.add q.pos, parent⟩])
      else
        importChildren nodes fuel n.children (bones.length + 1)
          (bones ++ [⟨bones.length + 1, n.name, n.translation, parent⟩])
/-- converter/gltf2mqo.go:121-123. -/
def importChildren [Add F] (nodes : List (BNode F)) : Nat → List Nat → Nat → List (IBone F) → Option (List (IBone F))
  | _, [], _, bones => some bones
  | fuel, c :: cs, parent, bones =>
    match importBones nodes fuel c parent bones with
    | none => none
    | some bones => importChildren nodes fuel cs parent bones
end

end Verif.Gltf
