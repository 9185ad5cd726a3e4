import Verif.Conv.GltfMesh
import Mathlib.Logic.Function.Basic

/-! Model of shared geometry and of the matrices of object nodes in converter/mqo2gltf.go: the end of
`ConvertObject` (664-737) and the loop over the objects (808-873).

Simplified: accessors are given by their contents; joints, weights and morph targets, which are never shared, are
left out. -/

namespace Verif.Conv

open Verif.Geom
open Verif.Mqo (Str)

variable {F : Type}

/-- The contents of the accessors of a mesh that can be shared. -/
structure Attrs (F : Type) where
  pos : List (Vec3 F)
  uv : Option (List (Vec2 F))
  nrm : Option (List (Vec3 F))
deriving DecidableEq

/-- `geomCache` (converter/mqo2gltf.go:138-143); `matrix` is set when it is first used. -/
structure GeomCache (F : Type) where
  matrix : Mat4 F
  attrs : Option (Attrs F)
  indices : List (List Nat)
deriving DecidableEq

/-- A mesh of the file: its attributes, and material and indices of each primitive. -/
structure OutMesh (F : Type) where
  attrs : Attrs F
  prims : List (Nat × List Nat)
deriving DecidableEq

/-- converter/mqo2gltf.go:675-683: attributes of the object itself; `normals` is line 680. -/
def ownAttrs (normals : Bool) (m : GMesh F) : Attrs F :=
  ⟨m.pos, if m.useUV then some m.uv else none, if normals then some m.nrm else none⟩

/-- converter/mqo2gltf.go:667-683. An attribute that the first object does not have gets the number of another
accessor in the program; here it is absent. -/
def attrsOf (normals : Bool) (m : GMesh F) : Option (GeomCache F) → Attrs F
  | some g =>
    match g.attrs with
    | some a =>
      if m.skipped then ownAttrs normals m
      else ⟨a.pos, if m.useUV then a.uv else none, if normals then a.nrm else none⟩
    | none => ownAttrs normals m
  | none => ownAttrs normals m

/-- converter/mqo2gltf.go:690-695. -/
def updateCache (normals : Bool) (m : GMesh F) (g : GeomCache F) : GeomCache F :=
  if m.skipped = false ∧ g.attrs = none then
    { g with attrs := some (ownAttrs normals m), indices := g.indices ++ m.prims.map (·.2) }
  else g

/-- converter/mqo2gltf.go:713-720. -/
def indicesOf (m : GMesh F) : Option (GeomCache F) → List (List Nat)
  | some g => if m.skipped then m.prims.map (·.2) else g.indices
  | none => m.prims.map (·.2)

/-- converter/mqo2gltf.go:664-737: the mesh written and the cache after it; `none` is an index panic (line 726). -/
def writeMesh (normals : Bool) (m : GMesh F) (shared : Option (GeomCache F)) :
    Option (OutMesh F × Option (GeomCache F)) :=
  let attrs := attrsOf normals m shared
  let shared := shared.map (updateCache normals m)
  let indices := indicesOf m shared
  if indices.length < m.prims.length then none
  else some (⟨attrs, (m.prims.map (·.1)).zip indices⟩, shared)

/-- What the loop over the objects reads of a visible object; `mesh` is the result of 585-663. -/
structure GItem (F : Type) where
  key : Option Str
  light : Bool
  internal : Option (Mat4 F)
  normals : Bool
  mesh : GMesh F

/-- converter/mqo2gltf.go:836-844: the geometry to share; the outer `none` is a nil dereference (line 841). -/
def sharedOf [Add F] [Sub F] [Mul F] [Div F] [Zero F] [DecidableEq F] (reuse : Bool) (count : Str → Nat)
    (caches : Str → Option (GeomCache F)) (x : GItem F) : Option (Option (Str × GeomCache F)) :=
  match x.key with
  | some k =>
    if reuse = true ∧ 1 < count k then
      match caches k with
      | some g => some (some (k, g))
      | none =>
        match x.internal with
        | some t => some (some (k, ⟨t.inverse, none, []⟩))
        | none => none
    else some none
  | none => some none

/-- converter/mqo2gltf.go:862-873: the matrix of the node; `none` is the default matrix. -/
def nodeMatrix [Add F] [Mul F] [Zero F] [One F] (scale : F) (lights : Bool) (x : GItem F) (shared : Option (GeomCache F)) :
    Option (Mat4 F) :=
  match x.internal with
  | none => none
  | some t =>
    if (lights = true ∧ x.light = true) ∨ shared.isSome = true then
      let m := t.translationScale scale
      let m := match shared with
        | some g => m.mul g.matrix
        | none => m
      some { m with m3 := 0, m7 := 0, m11 := 0, m15 := 1 }
    else none

/-- converter/mqo2gltf.go:835-873: one visible object. -/
def exportItem [Add F] [Sub F] [Mul F] [Div F] [Zero F] [One F] [DecidableEq F] (scale : F) (reuse lights : Bool)
    (count : Str → Nat) (caches : Str → Option (GeomCache F)) (x : GItem F) :
    Option ((OutMesh F × Option (Mat4 F)) × (Str → Option (GeomCache F))) :=
  match sharedOf reuse count caches x with
  | none => none
  | some none =>
    match writeMesh x.normals x.mesh none with
    | none => none
    | some (m, _) => some ((m, nodeMatrix scale lights x none), caches)
  | some (some (k, g)) =>
    match writeMesh x.normals x.mesh (some g) with
    | none => none
    | some (m, g') => some ((m, nodeMatrix scale lights x (some g)), Function.update caches k g')

/-- converter/mqo2gltf.go:821-873: the visible objects in order. -/
def exportItems [Add F] [Sub F] [Mul F] [Div F] [Zero F] [One F] [DecidableEq F] (scale : F) (reuse lights : Bool)
    (count : Str → Nat) :
    (Str → Option (GeomCache F)) → List (GItem F) → Option (List (OutMesh F × Option (Mat4 F)))
  | _, [] => some []
  | caches, x :: xs =>
    match exportItem scale reuse lights count caches x with
    | none => none
    | some (y, caches) =>
      match exportItems scale reuse lights count caches xs with
      | none => none
      | some ys => some (y :: ys)

end Verif.Conv
