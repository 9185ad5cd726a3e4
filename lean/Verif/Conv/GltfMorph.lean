import Verif.Conv.GltfNodes
import Verif.Conv.GltfMesh

/-! Model of how converter/mqo2gltf.go chooses the morph targets of the exported meshes. -/

namespace Verif.Conv

open Verif.Geom
open Verif.Mqo (Str Object MorphTargetList)

variable {F : Type}

/-- converter/mqo2gltf.go:746-752: `objectByName`; the last object with a name wins. -/
def objectNamed (objects : List (Object F)) (name : Str) : Option (Object F) :=
  (objects.filter fun o => o.name = name).getLast?

/-- converter/mqo2gltf.go:755-757: `morphBases`; the last list with a base wins. -/
def morphBase (lists : List MorphTargetList) (name : Str) : Option MorphTargetList :=
  (lists.filter fun l => l.base = name).getLast?

/-- converter/mqo2gltf.go:819-831: the morph targets of an object node. `none` is the nil dereference for a
target without an object. -/
def gltfMorphs (convertMorph : Bool) (lists : List MorphTargetList) (objects : List (Object F))
    (o : Object F) : Option (List (Object F)) :=
  if convertMorph then
    match morphBase lists o.name with
    | none => some []
    | some l =>
      match l.target.mapM fun t => objectNamed objects t.name with
      | none => none
      | some ps => some (ps.filter fun p => p.vertexes.length = o.vertexes.length)
  else some []

/-- converter/mqo2gltf.go:697-712: the names and offsets of the morph targets of a mesh. -/
def meshTargets [Sub F] [Mul F] (scale : F) (m : GMesh F) (ps : List (Object F)) :
    Option (List (Str × List (Vec3 F))) :=
  ps.mapM fun p =>
    match morphDeltas scale m p.vertexes with
    | none => none
    | some ds => some (p.name, ds)

/-- converter/mqo2gltf.go:819-874: the name of the node of an object with its mesh (`none` for hidden objects)
and the morph targets, for a document without bones, lights and shared geometry. -/
def exportNode [Add F] [Sub F] [Mul F] [Div F] [Zero F] [One F] [FloatOps F] (scale eps h : F)
    (convertMorph : Bool) (lists : List MorphTargetList) (objects : List (Object F)) (map : List (Int × Nat))
    (o : Object F) : Option (Str × Option (GMesh F × List (Str × List (Vec3 F)))) :=
  match gltfMorphs convertMorph lists objects o with
  | none => none
  | some ps =>
    if o.visible then
      match convertObject scale eps h [] [] map o with
      | none => none
      | some (m, _) =>
        match meshTargets scale m ps with
        | none => none
        | some ts => some (o.name, some (m, ts))
    else some (o.name, none)

/-- converter/mqo2gltf.go:745-874, 910-916: what the export shows of a document without bones, lights and
shared geometry: the nodes and the numbers of the exported materials. `none` is a panic. -/
def exportShapes [Add F] [Sub F] [Mul F] [Div F] [Zero F] [One F] [FloatOps F] (scale eps h : F)
    (ignoreHierarchy convertMorph : Bool) (lists : List MorphTargetList) (objects : List (Object F))
    (materials : List (Mqo.Material F)) :
    Option (List (Str × Option (GMesh F × List (Str × List (Vec3 F)))) × List Nat) :=
  let targets := targetObjects ignoreHierarchy lists objects
  let map := materialMap (materialUsed targets) materials
  match targets.mapM (exportNode scale eps h convertMorph lists objects map) with
  | none => none
  | some nodes => some (nodes, exportedMaterials (materialUsed targets) materials)

end Verif.Conv
