import Verif.Mqo.Doc
import Verif.Geom.Triangulate

/-! Model of the document operations in mqo/mqo.go, mqo/utils.go, mqo/bone_plugin.go and
mqo/morph_plugin.go. `Option` results: `none` is a panic (or, for `freshN`, a loop that has not ended
after the given number of rounds). -/

namespace Verif.Mqo

open Verif.Geom

variable {F : Type}

/-! ### Names and ids -/

/-- `fmt.Sprintf("%s_%d", name, n)`. -/
def suffixed (name : Str) (n : Nat) : Str := name ++ '_' :: Nat.toDigits 10 n

/-- mqo/mqo.go:69-72 (and 80-83): the search for a free number. The first argument bounds the number
of rounds. -/
def freshN (used : List Str) (name : Str) : Nat → Nat → Option Nat
  | 0, _ => none
  | fuel + 1, n => if suffixed name n ∈ used then freshN used name fuel (n + 1) else some n

/-- mqo/mqo.go:66-76 (and 77-87), `used` is the map of names so far. -/
def fixNamesLoop (used : List Str) : List Str → Option (List Str)
  | [] => some []
  | name :: rest =>
    if name ∈ used then
      match freshN used name (used.length + 1) 2 with
      | none => none
      | some n => (fixNamesLoop (suffixed name n :: used) rest).map (suffixed name n :: ·)
    else (fixNamesLoop (name :: used) rest).map (name :: ·)

/-- mqo/mqo.go:65-88. -/
def Document.fixNames (doc : Document F) : Option (Document F) := do
  let os ← fixNamesLoop [] (doc.objects.map Object.name)
  let ms ← fixNamesLoop [] (doc.materials.map Material.name)
  return { doc with
    objects := doc.objects.zipWith (fun o n => { o with name := n }) os
    materials := doc.materials.zipWith (fun m n => { m with name := n }) ms }

/-- mqo/mqo.go:31-37. -/
def fixObjectIDs (objects : List (Object F)) : List (Object F) :=
  objects.mapIdx fun i o => if o.uid = 0 then { o with uid := i + 1 } else o

/-- mqo/mqo.go:39-46. -/
def getObjectByID (objects : List (Object F)) (id : Int) : Option (Object F) :=
  objects.find? fun o => o.uid = id

/-! ### Faces and objects -/

/-- mqo/mqo.go:238-240: the swapping loop, `j` is one more than in the code. The first argument bounds
the number of rounds; running out of it is not a normal end. -/
def swapLoop {α : Type} : Nat → Nat → Nat → List α → Option (List α)
  | 0, _, _, _ => none
  | fuel + 1, i, j, l =>
    if i + 1 < j then
      match l[i]?, l[j - 1]? with
      | some a, some b => swapLoop fuel (i + 1) (j - 1) ((l.set i b).set (j - 1) a)
      | _, _ => none
    else some l

/-- mqo/mqo.go:237-247. -/
def Face.flip (f : Face F) : Option (Face F) := do
  let verts ← swapLoop (f.verts.length + 1) 0 f.verts.length f.verts
  let uvs ← swapLoop (f.uvs.length + 1) 0 f.uvs.length f.uvs
  let normals ← swapLoop (f.normals.length + 1) 0 f.normals.length f.normals
  return { f with verts := verts, uvs := uvs, normals := normals }

/-- mqo/mqo.go:54-57: popping the stack of depths and transforms. The last entry is never popped. -/
def popStack {M : Type} (depth : Int) : List (Int × M) → List (Int × M)
  | top :: below :: rest => if top.1 ≤ depth then popStack depth (below :: rest) else top :: below :: rest
  | s => s

/-- mqo/mqo.go:53-61, with the product of transforms as a parameter. -/
def worldLoop {M : Type} (mul : M → M → M) : List (Int × M) → List (Int × M) → Option (List M)
  | _, [] => some []
  | stack, (depth, local_) :: rest =>
    match popStack depth stack with
    | [] => none
    | top :: st =>
      let t := mul top.2 local_
      (worldLoop mul ((depth, t) :: top :: st) rest).map (t :: ·)

/-- mqo/mqo.go:48-63 (`GetWorldTransforms`): objects are given by depth and local transform. -/
def worldTransforms {M : Type} (mul : M → M → M) (one : M) (objs : List (Int × M)) : Option (List M) :=
  worldLoop mul [(-1, one)] objs

/-- mqo/mqo.go:308-323 (`Clone`): the face ids and normals are not copied. -/
def Object.clone (o : Object F) : Object F :=
  { o with faces := o.faces.map fun f => ⟨0, f.verts, f.material, f.uvs, []⟩ }

/-- mqo/mqo.go:325-333. -/
def Object.getVertexIndexByID (o : Object F) (uid : Int) : Int :=
  match o.vertexByUID.lookup uid with
  | some v => v
  | none => if (o.vertexes.length : Int) ≥ uid then uid - 1 else -1

/-! ### Transforms and normals (mqo/utils.go) -/

/-- mqo/utils.go:18-20: the matrix for normals. -/
def normalTransform [Add F] [Sub F] [Mul F] [Div F] [Zero F] [DecidableEq F] (m : Mat4 F) : Mat4 F :=
  ({ m with m12 := 0, m13 := 0, m14 := 0 } : Mat4 F).inverse.transposed

/-- mqo/utils.go:10-28 (`Object.ApplyTransform`). -/
def Object.applyTransform [Add F] [Sub F] [Mul F] [Div F] [Zero F] [DecidableEq F] (m : Mat4 F)
    (o : Object F) : Object F :=
  { o with
    vertexes := o.vertexes.map m.applyTo
    internalTransform := o.internalTransform.map m.mul
    faces := o.faces.map fun f => { f with normals := f.normals.map (Option.map (normalTransform m).applyTo) } }

/-- mqo/utils.go:52-55: the corner normal of the face's corner `i`, `none` for an index out of range. -/
def cornerNormal [Add F] [Sub F] [Mul F] [Div F] [Zero F] [One F] [FloatOps F] (vs : List (Vec3 F))
    (verts : List Nat) (i v : Nat) : Option (Vec3 F) := do
  let a ← verts[(i + verts.length - 1) % verts.length]?
  let pa ← vs[a]?
  let pv ← vs[v]?
  let b ← verts[(i + 1) % verts.length]?
  let pb ← vs[b]?
  return ((pa.sub pv).cross (pb.sub pv)).normalize

/-- mqo/utils.go:47-57: one face; `i` counts the corners already done. -/
def smoothFace [Add F] [Sub F] [Mul F] [Div F] [Zero F] [One F] [FloatOps F] (vs : List (Vec3 F))
    (f : Face F) : Nat → List Nat → List (Vec3 F) → Option (List (Vec3 F))
  | _, [], normal => some normal
  | i, v :: rest, normal => do
    let nv ← normal[v]?
    match f.normals[i]? with
    | some (some n) => smoothFace vs f (i + 1) rest (normal.set v (nv.add n))
    | _ => do
      let c ← cornerNormal vs f.verts i v
      smoothFace vs f (i + 1) rest (normal.set v (nv.add c))

/-- mqo/utils.go:46-58. -/
def smoothFaces [Add F] [Sub F] [Mul F] [Div F] [Zero F] [One F] [FloatOps F] (vs : List (Vec3 F)) :
    List (Face F) → List (Vec3 F) → Option (List (Vec3 F))
  | [], normal => some normal
  | f :: fs, normal => do smoothFaces vs fs (← smoothFace vs f 0 f.verts normal)

/-- mqo/utils.go:43-63 (`GetSmoothNormals`). -/
def Object.smoothNormals [Add F] [Sub F] [Mul F] [Div F] [Zero F] [One F] [FloatOps F] (o : Object F) :
    Option (List (Vec3 F)) := do
  let normal ← smoothFaces o.vertexes o.faces (o.vertexes.map fun _ => ⟨0, 0, 0⟩)
  return normal.map Vec3.normalize

/-- mqo/utils.go:68-77. -/
def faceWithNormals (normals : List (Vec3 F)) (f : Face F) : Option (Face F) := do
  if f.normals.length = f.verts.length then return f
  let ns ← f.verts.mapM fun v => (normals[v]?).map some
  return { f with normals := ns }

/-- mqo/utils.go:65-79 (`FixhNormals`). The normals are computed when first needed; at that time the
faces before have all got theirs already, with as many normals as corners, so they are unchanged. -/
def Object.fixNormals [Add F] [Sub F] [Mul F] [Div F] [Zero F] [One F] [FloatOps F] (o : Object F) :
    Option (Object F) :=
  if o.faces.all fun f => f.normals.length = f.verts.length then some o
  else do
    let normals ← o.smoothNormals
    let fs ← o.faces.mapM (faceWithNormals normals)
    return { o with faces := fs }

/-- mqo/utils.go:96-101: the entries of three corners, of a list that may be empty. -/
def pick3 {α : Type} (l : List α) (t : Nat × Nat × Nat) : Option (List α) :=
  if 0 < l.length then do
    let a ← l[t.1]?
    let b ← l[t.2.1]?
    let c ← l[t.2.2]?
    some [a, b, c]
  else some []

/-- mqo/utils.go:92-103: one triangle of a polygon. -/
def triFace (f : Face F) (t : Nat × Nat × Nat) : Option (Face F) := do
  let a ← f.verts[t.1]?
  let b ← f.verts[t.2.1]?
  let c ← f.verts[t.2.2]?
  let uvs ← pick3 f.uvs t
  let normals ← pick3 f.normals t
  return ⟨0, [a, b, c], f.material, uvs, normals⟩

/-- mqo/utils.go:84-105: the faces one face is replaced with. -/
def triangulateFace [Add F] [Sub F] [Mul F] [Div F] [Zero F] [One F] [FloatOps F] (vs : List (Vec3 F))
    (f : Face F) : Option (List (Face F)) :=
  if f.verts.length = 3 then some [f]
  else do
    let poly ← f.verts.mapM (vs[·]?)
    let tris ← triangulate poly
    tris.mapM (triFace f)

/-- mqo/utils.go:81-107 (`Triangulate`). -/
def Object.triangulate [Add F] [Sub F] [Mul F] [Div F] [Zero F] [One F] [FloatOps F] (o : Object F) :
    Option (Object F) := do
  let fs ← o.faces.mapM (triangulateFace o.vertexes)
  return { o with faces := fs.flatten }

/-! ### Bones (mqo/bone_plugin.go) -/

/-- mqo/bone_plugin.go:152-165. -/
def Bone.setVertexWeight (b : Bone F) (objectID vertID : Int) (weight : F) : Bone F :=
  match b.weightMap.lookup objectID with
  | some i => { b with weights := b.weights.modify i fun g => { g with vertexes := g.vertexes ++ [⟨vertID, weight⟩] } }
  | none => { b with
      weights := b.weights ++ [⟨objectID, [⟨vertID, weight⟩]⟩]
      weightMap := (objectID, b.weights.length) :: b.weightMap }

/-- mqo/bone_plugin.go:213-223: the ids of the objects with weights. -/
def BonePlugin.weightedObjects (p : BonePlugin F) : List Int :=
  p.bones.flatMap (fun b => b.weights.map WeightGroup.objectID) ++ p.boneSet.flatMap BoneOld.weightObjects

/-- mqo/bone_plugin.go:225-233: the ids to append. -/
def BonePlugin.objIDs (p : BonePlugin F) (objects : List (Object F)) : List Int :=
  (objects.mapIdx fun i o => if o.uid ≤ 0 then (i : Int) + 1 else o.uid).filter (· ∈ p.weightedObjects)

/-- mqo/bone_plugin.go:210-234 (`PreSerialize`). -/
def BonePlugin.preSerialize (p : BonePlugin F) (objects : List (Object F)) : BonePlugin F :=
  { p with name := "Bone".toList, obj := p.obj ++ p.objIDs objects }

/-! ### Morphs (mqo/morph_plugin.go) -/

/-- mqo/morph_plugin.go:81-84: `objByID[name]`; the last object of a name wins. The result is the place
of the object. -/
def objIndex (objects : List (Object F)) (name : Str) : Option Nat :=
  ((objects.zipIdx.filter fun p => p.1.name = name).map Prod.snd).getLast?

/-- mqo/morph_plugin.go:97-105: moving the vertices of one object by `diff`. -/
def shiftObject [Add F] (diff : List (Vec3 F)) (objects : List (Object F)) (i : Nat) : List (Object F) :=
  objects.modify i fun o =>
    if o.vertexes.length = diff.length then { o with vertexes := o.vertexes.zipWith Vec3.add diff } else o

/-- mqo/morph_plugin.go:96-106. `k` counts the targets already handled, `base` is the place of the base
object; names are looked up in the original list (the map is built once, and names do not change). -/
def shiftTargets [Add F] (orig : List (Object F)) (diff : List (Vec3 F)) (base target : Nat) :
    Nat → List MorphTarget → List (Object F) → List (Object F)
  | _, [], objs => objs
  | k, t :: ts, objs =>
    let o := if k = target then some base else objIndex orig t.name
    shiftTargets orig diff base target (k + 1) ts
      (match o with
       | some i => shiftObject diff objs i
       | none => objs)

/-- mqo/morph_plugin.go:80-108 (`MorphTargetList.Apply`): the new objects and whether something was
done. `none`: target number out of range. -/
def MorphTargetList.apply [Add F] [Sub F] [Mul F] (m : MorphTargetList) (objects : List (Object F))
    (target : Nat) (value : F) : Option (List (Object F) × Bool) := do
  let t ← m.target[target]?
  match objIndex objects m.base, objIndex objects t.name with
  | some bi, some ti => do
    let bobj ← objects[bi]?
    let tobj ← objects[ti]?
    if bobj.vertexes.length = tobj.vertexes.length then
      let diff := tobj.vertexes.zipWith (fun tv bv => (tv.sub bv).scale value) bobj.vertexes
      return (shiftTargets objects diff bi target 0 m.target objects, true)
    else return (objects, false)
  | _, _ => return (objects, false)

/-- mqo/morph_plugin.go:63-66: `matByID[name]`; the last material of a name wins. -/
def matIndex (materials : List (Material F)) (name : Str) : Option Nat :=
  ((materials.zipIdx.filter fun p => p.1.name = name).map Prod.snd).getLast?

/-- `"$MORPH:" + name + ":"`. -/
def morphPrefix (name : Str) : Str := ['$', 'M', 'O', 'R', 'P', 'H', ':'] ++ name ++ [':']

/-- mqo/morph_plugin.go:68-77. The loop runs over the materials by place (`todo`); `orig` is used for
names. A missing target material is a nil pointer: the check on line 72 tests the wrong variable. -/
def materialMorphLoop [Add F] [Sub F] [Mul F] [One F] (orig : List (Material F)) (name : Str) (value : F) :
    List Nat → List (Material F) → Option (List (Material F))
  | [], ms => some ms
  | i :: todo, ms => do
    let m ← ms[i]?
    if (morphPrefix name).isPrefixOf m.name then
      match matIndex orig (m.name.drop (morphPrefix name).length) with
      | none => none
      | some j =>
        materialMorphLoop orig name value todo
          (ms.modify j fun t => { t with color := (t.color.scale (1 - value)).add (m.color.scale value) })
    else materialMorphLoop orig name value todo ms

/-- mqo/morph_plugin.go:62-78 (`ApplyMaterialMorph`). -/
def applyMaterialMorph [Add F] [Sub F] [Mul F] [One F] (materials : List (Material F)) (name : Str) (value : F) :
    Option (List (Material F)) :=
  materialMorphLoop materials name value (List.range materials.length) materials

end Verif.Mqo
