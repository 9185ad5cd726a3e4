import Verif.Conv.Graph
import Verif.Mqo.Doc
import Mathlib.Algebra.Ring.Basic

/-!
converter/mmd2mqo.go. Numbers are of any ring `F`.
-/

namespace Verif.Conv

open Verif.Geom
open Verif.Mqo (Str)

/-- The parts of `mmd.Vertex` that the converter reads (mmd/mmd.go). -/
structure MmdVertex (F : Type) where
  pos : Vec3 F
  normal : Vec3 F
  uv : Vec2 F
  bones : List Nat
  boneWeights : List F

/-- The parts of `mmd.Morph` that concern vertices. Targets are Go `int`s. -/
structure MmdMorph (F : Type) where
  name : Str
  vertex : List (Int × Vec3 F)
  uv : List (Int × Vec2 F)

/-- The parts of `mmd.Material` that decide where faces go. `Count` is an `int` in the code; here it
is a natural number (the PMX reader takes any 32 bit number; a negative one is not modelled). -/
structure MmdMaterial where
  name : Str
  count : Nat

/-- The parts of `mmd.Document` used here. Vertex numbers in faces are natural numbers: the readers
produce no others. A face has three vertices in the code (`[3]int`); nothing here depends on it. -/
structure MmdDoc (F : Type) where
  vertexes : List (MmdVertex F)
  faces : List (List Nat)
  materials : List MmdMaterial
  morphs : List (MmdMorph F)

variable {F : Type}

/-- mmd2mqo.go:25-27. -/
def mmdToMqoVec [Mul F] [One F] [Neg F] (v : Vec3 F) : Vec3 F := ⟨v.x, v.y, v.z * -1⟩

/-- mmd2mqo.go:163-168: for every vertex the faces that use it, once per use, in order. -/
def v2fOf (nv : Nat) (faces : List (List Nat)) : List (List Nat) :=
  faces.zipIdx.foldl (fun v2f (f, fid) => f.foldl (fun v2f vid => v2f.modify vid (· ++ [fid])) v2f)
    (List.replicate nv [])

/-- The lists that the two nested loops of `newFg` run over (mmd2mqo.go:138-139). -/
def faceAdj (faces : List (List Nat)) (v2f : List (List Nat)) (fi : Nat) : List Nat :=
  (faces.getD fi []).flatMap fun vi => v2f.getD vi []

/-- mmd2mqo.go:183-190 and 193-200, one target. -/
def morphFaceGroupStep (v2f : List (List Nat)) (f2fg : List Nat) (l : List Nat) (t : Nat) :
    List Nat :=
  match v2f.getD t [] with
  | [] => l
  | f :: _ => if f2fg.getD f 0 ∈ l then l else l ++ [f2fg.getD f 0]

/-- mmd2mqo.go:181-201, one morph: the face groups of its targets, each once. -/
def morphFaceGroups (v2f : List (List Nat)) (f2fg : List Nat) (targets : List Nat) : List Nat :=
  targets.foldl (morphFaceGroupStep v2f f2fg) []

/-- mmd2mqo.go:202-207. -/
def fg2mOf (nfg : Nat) (m2fg : List (List Nat)) : List (List Nat) :=
  m2fg.zipIdx.foldl (fun fg2m (fgs, mi) => fgs.foldl (fun a fg => a.modify fg (· ++ [mi])) fg2m)
    (List.replicate nfg [])

/-- mmd2mqo.go:217-224. -/
def fg2mgOf (nfg : Nat) (mg2m : List (List Nat)) (m2fg : List (List Nat)) : List Nat :=
  mg2m.zipIdx.foldl (fun a (ms, mg) =>
    ms.foldl (fun a mi => (m2fg.getD mi []).foldl (fun a fg => a.set fg mg) a) a)
    (List.replicate nfg 0)

/-- mmd2mqo.go:225-229. -/
def mg2fsOf (nmg nf : Nat) (fg2mg f2fg : List Nat) : List (List Nat) :=
  (List.range nf).foldl (fun a fi => a.modify (fg2mg.getD (f2fg.getD fi 0) 0) (· ++ [fi]))
    (List.replicate nmg [])

/-- Vertex numbers of the targets of a morph, vertex targets first; `none` if one is out of range. -/
def targetsOf (nv : Nat) (m : MmdMorph F) : Option (List Nat) :=
  (m.vertex.map (·.1) ++ m.uv.map (·.1)).mapM fun (t : Int) =>
    if 0 ≤ t ∧ t < (nv : Int) then some t.toNat else none

/-- mmd2mqo.go:161-231 (`genMorphGroup`): the morphs and the faces of every group. `none` is a panic
by an index out of range, in `v2f[vid]` (line 166) or `v2f[mv.Target]` (lines 183, 193). -/
def genMorphGroup (d : MmdDoc F) : Option (List (List Nat) × List (List Nat)) :=
  if d.faces.all (·.all (· < d.vertexes.length)) then
    let v2f := v2fOf d.vertexes.length d.faces
    match groupAll (faceAdj d.faces v2f) (fun _ => true) d.faces.length with
    | none => none
    | some (f2fg, fgs) =>
      match d.morphs.mapM (targetsOf d.vertexes.length) with
      | none => none
      | some targets =>
        let m2fg := targets.map (morphFaceGroups v2f f2fg)
        let fg2m := fg2mOf fgs.length m2fg
        match groupAll (fun mi => (m2fg.getD mi []).flatMap fun fg => fg2m.getD fg [])
            (fun mi => !(m2fg.getD mi []).isEmpty) m2fg.length with
        | none => none
        | some (_, mg2m) =>
          let fg2mg := fg2mgOf fgs.length mg2m m2fg
          some (mg2m, mg2fsOf mg2m.length d.faces.length fg2mg f2fg)
  else none

/-- State of `convertFaces`: the vertex map and the vertices of the object. -/
structure FaceState (F : Type) where
  vmap : List (Nat × Nat)
  verts : List (Vec3 F)

/-- mmd2mqo.go:103-114, one corner. -/
def convertCorner [Mul F] [One F] [Neg F] (d : MmdDoc F) (s : FaceState F) (vi : Nat) :
    Option (Nat × FaceState F) :=
  match d.vertexes[vi]? with
  | none => none
  | some v =>
    match s.vmap.lookup vi with
    | some mv => some (mv, s)
    | none => some (s.verts.length,
        ⟨s.vmap ++ [(vi, s.verts.length)], s.verts ++ [mmdToMqoVec v.pos]⟩)

/-- mmd2mqo.go:103-114: the corners of a face. -/
def convertCorners [Mul F] [One F] [Neg F] (d : MmdDoc F) : FaceState F → List Nat →
    Option (List Nat × FaceState F)
  | s, [] => some ([], s)
  | s, vi :: l =>
    match convertCorner d s vi with
    | none => none
    | some (x, s1) =>
      match convertCorners d s1 l with
      | none => none
      | some (xs, s2) => some (x :: xs, s2)

/-- A face of an MQO object as this converter makes it. -/
structure OutFace (F : Type) where
  verts : List Nat
  material : Nat
  uvs : List (Vec2 F)
  normals : List (Vec3 F)

/-- mmd2mqo.go:95-117 (`convertFaces`) on a new object with an empty vertex map. -/
def convertFaces [Mul F] [One F] [Neg F] (d : MmdDoc F) (face2mat : List Nat) :
    FaceState F → List Nat → Option (List (OutFace F) × FaceState F)
  | s, [] => some ([], s)
  | s, fi :: fis =>
    match d.faces[fi]?, face2mat[fi]? with
    | some f, some m =>
      match convertCorners d s f, f.mapM (fun vi => d.vertexes[vi]?) with
      | some (vs, s1), some src =>
        match convertFaces d face2mat s1 fis with
        | none => none
        | some (fs, s2) =>
          some (⟨vs, m, src.map (·.uv), src.map fun v => mmdToMqoVec v.normal⟩ :: fs, s2)
      | _, _ => none
    | _, _ => none

/-- An object of the result: what `convertFaces` filled in, and its vertex map. -/
structure OutObject (F : Type) where
  name : Str
  verts : List (Vec3 F)
  faces : List (OutFace F)
  vmap : List (Nat × Nat)
  /-- made for a morph -/
  target : Bool

/-- mmd2mqo.go:254-256: `face2mat[fi] = matIdx` for a range; `none` is an index panic. -/
def setRange (a : List Nat) (from' n v : Nat) : Option (List Nat) :=
  if from' + n ≤ a.length ∨ n = 0 then
    some ((List.range n).foldl (fun a k => a.set (from' + k) v) a)
  else none

/-- mmd2mqo.go:246-276, the loop over materials: the objects of the faces that no morph touches. -/
def baseObjects [Mul F] [One F] [Neg F] (d : MmdDoc F) (base : List Nat) :
    List MmdMaterial → Nat → Nat → List Nat → Option (List (OutObject F) × List Nat)
  | [], _, _, face2mat => some ([], face2mat)
  | m :: ms, idx, vpos, face2mat =>
    match setRange face2mat vpos (m.count / 3) idx with
    | none => none
    | some face2mat =>
      let faces := ((List.range (m.count / 3)).map (vpos + ·)).filter (· ∈ base)
      match convertFaces d face2mat ⟨[], []⟩ faces with
      | none => none
      | some (fs, s) =>
        match baseObjects d base ms (idx + 1) (vpos + m.count / 3) face2mat with
        | none => none
        | some (os, face2mat) =>
          if fs.isEmpty ∧ m.count ≠ 0 then some (os, face2mat)
          else some (⟨['M', '_'] ++ m.name, s.verts, fs, s.vmap, false⟩ :: os, face2mat)

/-- mmd2mqo.go:309-314: the vertices of a morph target. The map answers 0 for an unknown vertex;
`none` is the index panic on an object without vertices. -/
def moveVerts [Add F] [Mul F] [One F] [Neg F] (vmap : List (Nat × Nat)) :
    List (Int × Vec3 F) → List (Vec3 F) → Option (List (Vec3 F))
  | [], vs => some vs
  | (t, off) :: l, vs =>
    let k := if 0 ≤ t then (vmap.lookup t.toNat).getD 0 else 0
    match vs[k]? with
    | none => none
    | some v => moveVerts vmap l (vs.set k ⟨v.x + off.x, v.y + off.y, v.z + off.z * -1⟩)

/-- Decimal digits. -/
def decimal (n : Nat) : Str := Nat.toDigits 10 n

/-- mmd2mqo.go:326-330, one face: the UVs of all corners at vertex `k` are moved. -/
def shiftUVs [Add F] (k : Nat) (off : Vec2 F) (verts : List Nat) (uvs : List (Vec2 F)) :
    List (Vec2 F) :=
  verts.zipWith (fun v uv => if v = k then ⟨uv.x + off.x, uv.y + off.y⟩ else uv) uvs

/-- mmd2mqo.go:322-331, the UVs of one face (every face is changed independently of the others). The
map answers 0 for an unknown vertex. -/
def moveUVs [Add F] (vmap : List (Nat × Nat)) (verts : List Nat) :
    List (Int × Vec2 F) → List (Vec2 F) → List (Vec2 F)
  | [], uvs => uvs
  | (t, off) :: l, uvs =>
    if t < 0 then moveUVs vmap verts l uvs
    else moveUVs vmap verts l (shiftUVs ((vmap.lookup t.toNat).getD 0) off verts uvs)

/-- mmd2mqo.go:303-332, one morph of a group. `Clone` (mqo/mqo.go:316-319) does not copy normals. -/
def morphTarget [Add F] [Mul F] [One F] [Neg F] (d : MmdDoc F) (base : OutObject F) (mi : Nat) :
    Option (OutObject F) :=
  match d.morphs[mi]? with
  | none => none
  | some m =>
    match moveVerts base.vmap m.vertex base.verts with
    | none => none
    | some vs => some ⟨m.name, vs, base.faces.map fun f =>
        ⟨f.verts, f.material, moveUVs base.vmap f.verts m.uv f.uvs, []⟩, base.vmap, true⟩

/-- mmd2mqo.go:279-336, the groups from `mg` on. -/
def morphObjects [Add F] [Mul F] [One F] [Neg F] (d : MmdDoc F) (face2mat : List Nat) :
    Nat → List (List Nat × List Nat) → Option (List (OutObject F))
  | _, [] => some []
  | mg, (ms, faces) :: rest =>
    match convertFaces d face2mat ⟨[], []⟩ faces with
    | none => none
    | some (fs, s) =>
      let base : OutObject F := ⟨['M', 'o', 'r', 'p', 'h', 'B', 'a', 's', 'e'] ++ decimal mg,
        s.verts, fs, s.vmap, false⟩
      match ms.mapM (morphTarget d base), morphObjects d face2mat (mg + 1) rest with
      | some ts, some os => some (base :: ts ++ os)
      | _, _ => none

/-- mmd2mqo.go:233-336 (`Convert`), the objects. Bones, weights, materials and physics are separate.
-/
def convertObjects [Add F] [Mul F] [One F] [Neg F] (d : MmdDoc F) : Option (List (OutObject F)) :=
  match genMorphGroup d with
  | none => none
  | some (mg2m, mg2fs) =>
    match baseObjects d (mg2fs.headD []) d.materials 0 0 (List.replicate d.faces.length 0) with
    | none => none
    | some (os, face2mat) =>
      match morphObjects d face2mat 1 ((mg2m.zip mg2fs).drop 1) with
      | none => none
      | some ms => some (os ++ ms)

end Verif.Conv
