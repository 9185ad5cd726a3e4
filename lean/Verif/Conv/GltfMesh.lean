import Verif.Conv.GltfSkin

/-! Model of `ConvertObject` in converter/mqo2gltf.go, without shared geometry (`shared` is nil) and
without the UV bounds used to look for transparent texels. -/

namespace Verif.Conv

open Verif.Geom
open Verif.Mqo (Object Face)

variable {F : Type}

/-- The variables of converter/mqo2gltf.go:591-605. `skin` are `joints0` and `weights0`; `prims` are
`materials` and `indices`: the triangles of each material, in order of first use. -/
structure GMesh (F : Type) where
  src : List Nat
  pos : List (Vec3 F)
  uv : List (Vec2 F)
  nrm : List (Vec3 F)
  skin : List (VSkin F)
  assigned : List (Nat × List Nat)
  prims : List (Nat × List Nat)
  useUV : Bool
  skipped : Bool
deriving DecidableEq

/-- converter/mqo2gltf.go:630-635: the last assigned vertex with nearly the same UV. The outer `none` is
an index panic. -/
def lastNear [Add F] [Sub F] [Mul F] [FloatOps F] (eps : F) (uvs : List (Vec2 F)) (uv : Vec2 F) :
    List Nat → Option Nat → Option (Option Nat)
  | [], found => some found
  | v :: vs, found =>
    match uvs[v]? with
    | none => none
    | some t => lastNear eps uvs uv vs (if lt (uv.sub t).lenSqr eps then some v else found)

/-- `indicesMap[index] = append(indicesMap[index], v)`. -/
def assign (m : List (Nat × List Nat)) (index v : Nat) : List (Nat × List Nat) :=
  if index ∈ m.map (·.1) then m.map fun p => if p.1 = index then (p.1, p.2 ++ [v]) else p
  else m ++ [(index, [v])]

/-- converter/mqo2gltf.go:626-651: one corner of a face with UVs; `normal` is `none` for a nil pointer. -/
def uvCorner [Add F] [Sub F] [Mul F] [FloatOps F] (eps : F) (hasJoints : Bool) (m : GMesh F) (index : Nat)
    (uv : Vec2 F) (normal : Option (Vec3 F)) : Option (GMesh F × Nat) :=
  match m.assigned.lookup index with
  | some vs =>
    match lastNear eps m.uv uv vs none with
    | none => none
    | some (some v) => some (m, v)
    | some none =>
      match m.pos[index]?, normal,
          (if hasJoints then (m.skin[index]?).map fun s => m.skin ++ [s] else some m.skin) with
      | some p, some n, some skin =>
        let v := m.pos.length
        some ({ m with
          src := m.src ++ [index], pos := m.pos ++ [p], uv := m.uv ++ [uv], nrm := m.nrm ++ [n]
          skin := skin
          assigned := assign m.assigned index v }, v)
      | _, _, _ => none
  | none =>
    if index < m.uv.length ∧ index < m.nrm.length then
      match normal with
      | some n => some ({ m with
          uv := m.uv.set index uv, nrm := m.nrm.set index n, assigned := assign m.assigned index index }, index)
      | none => none
    else none

/-- converter/mqo2gltf.go:625-653: the corners of a face with UVs; `i` counts the corners done. -/
def uvCorners [Add F] [Sub F] [Mul F] [FloatOps F] (eps : F) (hasJoints : Bool) (f : Face F) :
    Nat → List Nat → GMesh F → Option (GMesh F × List Nat)
  | _, [], m => some (m, [])
  | i, index :: rest, m =>
    match f.uvs[i]?, f.normals[i]? with
    | some uv, some normal =>
      match uvCorner eps hasJoints m index uv normal with
      | none => none
      | some (m, v) =>
        match uvCorners eps hasJoints f (i + 1) rest m with
        | none => none
        | some (m, vs) => some (m, v :: vs)
    | _, _ => none

/-- converter/mqo2gltf.go:655-657: the corners of a face without UVs. -/
def plainCorners (f : Face F) : Nat → List Nat → GMesh F → Option (GMesh F)
  | _, [], m => some m
  | i, index :: rest, m =>
    match f.normals[i]? with
    | some (some n) =>
      if index < m.nrm.length then plainCorners f (i + 1) rest { m with nrm := m.nrm.set index n } else none
    | _ => none

/-- converter/mqo2gltf.go:659-662. -/
def addTriangle (prims : List (Nat × List Nat)) (mat a b c : Nat) : List (Nat × List Nat) :=
  if mat ∈ prims.map (·.1) then prims.map fun p => if p.1 = mat then (p.1, p.2 ++ [c, b, a]) else p
  else prims ++ [(mat, [c, b, a])]

/-- converter/mqo2gltf.go:659-662 for the vertices of a face (at least three). -/
def addFace (m : GMesh F) (mat : Nat) : List Nat → Option (GMesh F)
  | a :: b :: c :: _ => some { m with prims := addTriangle m.prims mat a b c }
  | _ => none

/-- converter/mqo2gltf.go:606-663: one face. -/
def meshFace [Add F] [Sub F] [Mul F] [FloatOps F] (eps : F) (hasJoints : Bool) (materials : List (Int × Nat))
    (m : GMesh F) (f : Face F) : Option (GMesh F) :=
  if f.verts.length < 3 then some m
  else
    match materials.lookup f.material with
    | none => some { m with skipped := true }
    | some mat =>
      if 0 < f.uvs.length then
        match uvCorners eps hasJoints f 0 f.verts { m with useUV := true } with
        | none => none
        | some (m, vs) => addFace m mat vs
      else
        match plainCorners f 0 f.verts m with
        | none => none
        | some m => addFace m mat f.verts

/-- converter/mqo2gltf.go:606-663. -/
def meshFaces [Add F] [Sub F] [Mul F] [FloatOps F] (eps : F) (hasJoints : Bool) (materials : List (Int × Nat)) :
    List (Face F) → GMesh F → Option (GMesh F)
  | [], m => some m
  | f :: fs, m =>
    match meshFace eps hasJoints materials m f with
    | none => none
    | some m => meshFaces eps hasJoints materials fs m

/-- converter/mqo2gltf.go:591-605. -/
def startMesh [Mul F] [Zero F] (scale : F) (o : Object F) (skin : List (VSkin F)) : GMesh F where
  src := List.range o.vertexes.length
  pos := o.vertexes.map (·.scale scale)
  uv := o.vertexes.map fun _ => ⟨0, 0⟩
  nrm := o.vertexes.map fun _ => ⟨0, 0, 0⟩
  skin := skin
  assigned := []
  prims := []
  useUV := false
  skipped := false

/-- converter/mqo2gltf.go:591-663, for an object with normals and triangles. `skin` and `hasJoints` come
from `getWeights`. -/
def meshOf [Add F] [Sub F] [Mul F] [Zero F] [FloatOps F] (scale eps : F) (hasJoints : Bool)
    (skin : List (VSkin F)) (materials : List (Int × Nat)) (o : Object F) : Option (GMesh F) :=
  meshFaces eps hasJoints materials o.faces (startMesh scale o skin)

/-- converter/mqo2gltf.go:585-663 (`ConvertObject` up to writing the data). `h` is 0.01. -/
def convertObject [Add F] [Sub F] [Mul F] [Div F] [Zero F] [One F] [FloatOps F] (scale eps h : F)
    (bones : List (Mqo.Bone F)) (idToJoint : List (Int × Nat)) (materials : List (Int × Nat)) (o : Object F) :
    Option (GMesh F × List Nat) :=
  match o.fixNormals with
  | none => none
  | some o =>
    match o.triangulate with
    | none => none
    | some o =>
      match getWeights h bones o idToJoint with
      | none => none
      | some (joints, skin) =>
        match meshOf scale eps (0 < joints.length) skin materials o with
        | none => none
        | some m => some (m, joints)

/-- converter/mqo2gltf.go:700-705: the offsets of a morph target; `none` is an index panic. -/
def morphDeltas [Sub F] [Mul F] (scale : F) (m : GMesh F) (target : List (Vec3 F)) : Option (List (Vec3 F)) :=
  m.src.mapM fun i =>
    match target[i]?, m.pos[i]? with
    | some v, some p => some ((v.scale scale).sub p)
    | _, _ => none

end Verif.Conv
