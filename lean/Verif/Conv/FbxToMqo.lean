import Verif.Mqo.Core
import Mathlib.Logic.Function.Basic

/-! Model of converter/fbx2mqo.go: from a loaded FBX document to objects, morphs and bones.

The FBX document is given by what its accessors return. Models are pointers, here numbers. `none` is a
panic or a stack overflow. Materials are given by their places in the list of the document, so
`materialIDMap` is `base + place` (or always 0 with `MaterialOverride`); their colours are not
modelled here. -/

namespace Verif.Conv

open Verif.Geom
open Verif.Mqo (Str Object Face Bone MorphTarget MorphTargetList)

variable {F : Type}

/-- fbx/fbx_geometry.go:189-210 (`GeometryShape`): the results of its methods. -/
structure FShape (F : Type) where
  name : Str
  vertices : List (Vec3 F)
  indexes : List Int

/-- fbx/fbx_geometry.go:212-258 (`Deformer`): the results of its methods. `channel` is
`Kind() == "BlendShapeChannel"`. -/
structure FDeformer (F : Type) where
  channel : Bool
  target : Option Nat
  shapes : List (FShape F)
  weights : List F
  indexes : List Int
  link : Mat4 F

/-- fbx/fbx_geometry.go:9-14, 59-100, 148-187 (`Geometry`): the results of its methods. The mapping
and reference types of the layer elements are `matMap`, `nrmMap`, `nrmRef`, `uvMap` and `uvRef`. `nrmRef` and
`nrmIndex` are there for the statements only; the converter does not read them. -/
structure FGeometry (F : Type) where
  vertices : List (Vec3 F)
  polygons : List (List Nat)
  pvCount : Nat
  matMap : Str
  mats : List Int
  nrmMap : Str
  nrmRef : Str
  nrmIndex : List Int
  nrms : List (Vec3 F)
  uvMap : Str
  uvRef : Str
  uvs : List (Vec2 F)
  uvIndex : List Int
  deformers : List (FDeformer F)
  shapes : List (FShape F)

/-- fbx/fbx_model.go:9-13, 54-108 (`Model`): the results of its methods. `limb` is `Kind() == "LimbNode"`;
`materials` are the places of `FindRefs("Material")`. -/
structure FModel (F : Type) where
  name : Str
  limb : Bool
  matrix : Mat4 F
  pivot : Vec3 F
  parent : Option Nat
  children : List Nat
  geometry : Option (FGeometry F)
  materials : List Nat

/-- fbx/fbx_document.go:14-25 (`Document`). All models have numbers below `count`. -/
structure FScene (F : Type) where
  model : Nat → FModel F
  count : Nat
  scene : Nat
  coord : Mat4 F
  materialCount : Nat

/-- converter/fbx2mqo.go:12-20. -/
structure FOptions (F : Type) where
  disableBlendShape : Bool
  disableBone : Bool
  wholeNode : Bool
  objectDepth : Int
  rootTransform : Option (Mat4 F)
  targetModelName : Str
  materialOverride : Option (List Int)

/-- `NewFBXToMQOConverter(nil)`, converter/fbx2mqo.go:37-44. -/
def FOptions.default : FOptions F := ⟨false, false, false, 0, none, [], none⟩

/-- converter/fbx2mqo.go:26-35: the parts of the state that change. `boneMap` is `boneNodeMap`. -/
structure FState (F : Type) where
  objects : List (Object F)
  morphs : List MorphTargetList
  bones : List (Bone F)
  boneMap : Nat → Option Int

/-- `strings.TrimPrefix`. -/
def trimPrefix (s p : Str) : Str := if p.isPrefixOf s then s.drop p.length else s

/-- `strings.TrimSuffix`. -/
def trimSuffix (s p : Str) : Str := if p.isSuffixOf s then s.take (s.length - p.length) else s

/-! ### Geometry -/

/-- converter/fbx2mqo.go:198: `matByPolygon`. -/
def FGeometry.matByPolygon (g : FGeometry F) : Bool :=
  g.matMap = "ByPolygon".toList && g.polygons.length ≤ g.mats.length

/-- converter/fbx2mqo.go:226-231: `matIdx` of polygon `i`. -/
def FGeometry.matIdx (g : FGeometry F) (i : Nat) : Option Int :=
  if g.matByPolygon then g.mats[i]?
  else if g.matMap = "AllSame".toList ∧ 0 < g.mats.length then g.mats[0]?
  else some 0

/-- converter/fbx2mqo.go:232-234; `none`: a negative place. -/
def faceMaterial (materialIDs : List Int) (matIdx : Int) : Option Int :=
  if matIdx < materialIDs.length then
    if matIdx < 0 then none else materialIDs[matIdx.toNat]?
  else some 0

/-- converter/fbx2mqo.go:218-220. -/
def fbxNormalMatrix [Add F] [Sub F] [Mul F] [Div F] [Zero F] [DecidableEq F] (m : Mat4 F) : Mat4 F :=
  ({ m with m12 := 0, m13 := 0, m14 := 0 } : Mat4 F).inverse.transposed

/-- converter/fbx2mqo.go:238-242: the normals appended for corner `n` with vertex `v`; `vcount` corners
were in the polygons before. -/
def cornerNormal [Add F] [Mul F] [Div F] [Zero F] [One F] [FloatOps F] (g : FGeometry F) (nm : Mat4 F)
    (vcount n v : Nat) : List (Option (Vec3 F)) :=
  if g.nrmMap = "ByControlPoint".toList ∧ g.vertices.length ≤ g.nrms.length ∧ v < g.nrms.length then
    (g.nrms[v]?).toList.map fun x => some (nm.applyTo x).normalize
  else if g.nrmMap = "ByPolygonVertex".toList then
    (g.nrms[vcount + n]?).toList.map fun x => some (nm.applyTo x).normalize
  else []

/-- converter/fbx2mqo.go:203-216: the coordinates and indexes in use. An empty list is a nil slice. -/
def FGeometry.uvTable (g : FGeometry F) : List (Vec2 F) × List Int :=
  if g.uvMap = "ByPolygonVertex".toList then
    if g.uvRef = "IndexToDirect".toList then
      if g.uvIndex.length < g.pvCount then ([], []) else (g.uvs, g.uvIndex)
    else if g.uvs.length < g.pvCount then ([], []) else (g.uvs, [])
  else ([], [])

/-- `uv[k]` for an index of any sign. -/
def at? {α : Type} (l : List α) (k : Int) : Option α := if k < 0 then none else l[k.toNat]?

/-- converter/fbx2mqo.go:247-248 and 252-253. -/
def flipV [Sub F] [One F] (v : Vec2 F) : Vec2 F := ⟨v.x, 1 - v.y⟩

/-- converter/fbx2mqo.go:245-255: the texture coordinates of a polygon with `len` corners. -/
def polygonUVs [Sub F] [One F] (g : FGeometry F) (vcount len : Nat) : Option (List (Vec2 F)) :=
  if g.uvTable.2 ≠ [] then
    (List.range len).mapM fun n =>
      match g.uvTable.2[vcount + n]? with
      | some k => (at? g.uvTable.1 k).map flipV
      | none => none
  else if g.uvTable.1 ≠ [] then
    (List.range len).mapM fun n => (g.uvTable.1[vcount + n]?).map flipV
  else some []

/-- converter/fbx2mqo.go:235-243: the normals of a polygon. -/
def polygonNormals [Add F] [Mul F] [Div F] [Zero F] [One F] [FloatOps F] (g : FGeometry F) (nm : Mat4 F)
    (vcount : Nat) : Nat → List Nat → List (Option (Vec3 F))
  | _, [] => []
  | n, v :: vs => cornerNormal g nm vcount n v ++ polygonNormals g nm vcount (n + 1) vs

/-- converter/fbx2mqo.go:224-258: one polygon. -/
def fbxFace [Add F] [Sub F] [Mul F] [Div F] [Zero F] [One F] [FloatOps F] (g : FGeometry F) (nm : Mat4 F)
    (materialIDs : List Int) (i vcount : Nat) (f : List Nat) : Option (Face F) := do
  let k ← g.matIdx i
  let mat ← faceMaterial materialIDs k
  let uvs ← polygonUVs g vcount f.length
  Face.flip ⟨0, f, mat, uvs, polygonNormals g nm vcount 0 f⟩

/-- converter/fbx2mqo.go:222-259. -/
def fbxFaces [Add F] [Sub F] [Mul F] [Div F] [Zero F] [One F] [FloatOps F] (g : FGeometry F) (nm : Mat4 F)
    (materialIDs : List Int) : Nat → Nat → List (List Nat) → Option (List (Face F))
  | _, _, [] => some []
  | i, vcount, f :: fs => do
    let face ← fbxFace g nm materialIDs i vcount f
    let rest ← fbxFaces g nm materialIDs (i + 1) (vcount + f.length) fs
    return face :: rest

/-! ### Shapes -/

/-- converter/fbx2mqo.go:341-345: moving the listed vertices; `none`: an index panic. -/
def shapeLoop [Add F] [Mul F] (t : Mat4 F) (base : List (Vec3 F)) :
    List (Int × Vec3 F) → List (Vec3 F) → Option (List (Vec3 F))
  | [], vs => some vs
  | (idx, d) :: rest, vs =>
    if idx < vs.length then
      match at? base idx with
      | some b => shapeLoop t base rest (vs.set idx.toNat (t.applyTo (b.add d)))
      | none => none
    else shapeLoop t base rest vs

/-- converter/fbx2mqo.go:329-348. -/
def fbxShape [Add F] [Mul F] (s : FShape F) (src : Object F) (base : List (Vec3 F)) (t : Mat4 F) :
    Option (Object F) :=
  let o := { src.clone with name := s.name }
  if s.vertices.length ≠ s.indexes.length then some o
  else (shapeLoop t base (s.indexes.zip s.vertices) o.vertexes).map fun vs => { o with vertexes := vs }

/-! ### Bones -/

/-- fbx/fbx_model.go:74-79. The first argument bounds the depth; running out of it is a stack overflow. -/
def worldMat [Add F] [Mul F] (sc : FScene F) : Nat → Nat → Option (Mat4 F)
  | 0, _ => none
  | fuel + 1, m =>
    match (sc.model m).parent with
    | none => some (sc.model m).matrix
    | some p => (worldMat sc fuel p).map fun w => w.mul (sc.model m).matrix

/-- converter/fbx2mqo.go:295-302: the models from `m` up to the scene or to the first with a bone. The
first argument bounds the number of rounds. -/
def bonePath (sc : FScene F) : Nat → Option Nat → (Nat → Option Int) →
    Option (List Nat × (Nat → Option Int))
  | 0, _, _ => none
  | _ + 1, none, bm => some ([], bm)
  | fuel + 1, some m, bm =>
    if m = sc.scene then some ([], bm)
    else
      match bm m with
      | some _ => some ([], bm)
      | none =>
        match bonePath sc fuel (sc.model m).parent (Function.update bm m (some 0)) with
        | none => none
        | some (path, bm) => some (m :: path, bm)

/-- converter/fbx2mqo.go:307-312: `mqo.Bone` with the given fields, the others zero. -/
def newBone [Zero F] (id : Int) (name : Str) (pos : Vec3 F) (parent : Int) : Bone F where
  id := id
  name := name
  group := 0
  parent := parent
  pos := pos
  movable := 0
  hide := 0
  dummy := 0
  color := []
  upVector := none
  rotate := none
  ik := none
  weights := []
  weightMap := []
  rotationOffset := ⟨0, 0, 0⟩

/-- `c.boneNodeMap[m.Parent]`: 0 for a missing key and for nil. -/
def parentBone (sc : FScene F) (bm : Nat → Option Int) (m : Nat) : Int :=
  match (sc.model m).parent with
  | some p => (bm p).getD 0
  | none => 0

/-- converter/fbx2mqo.go:303-315: the models in order from the top. -/
def addBones [Add F] [Mul F] [Zero F] (sc : FScene F) :
    List Nat → FState F → Option (FState F)
  | [], st => some st
  | m :: ms, st =>
    match worldMat sc (sc.count + 1) m with
    | none => none
    | some w =>
      let id : Int := st.bones.length + 1
      addBones sc ms { st with
        bones := st.bones ++ [newBone id (trimPrefix (sc.model m).name "Model::".toList)
          ((sc.coord.mul w).applyTo ⟨0, 0, 0⟩) (parentBone sc st.boneMap m)]
        boneMap := Function.update st.boneMap m (some id) }

/-- converter/fbx2mqo.go:318-326. -/
def deformerWeights (d : FDeformer F) (objID : Int) (b : Bone F) : Bone F :=
  if d.weights.length = d.indexes.length then
    (d.indexes.zip d.weights).foldl (fun b p => b.setVertexWeight objID (p.1 + 1) p.2) b
  else b

/-- converter/fbx2mqo.go:287-327. -/
def convertDeformer [Add F] [Mul F] [Zero F] (sc : FScene F) (d : FDeformer F) (objID : Int) (st : FState F) :
    Option (FState F) :=
  match d.target with
  | none => some st
  | some model =>
    match bonePath sc (sc.count + 2) (some model) st.boneMap with
    | none => none
    | some (path, bm) =>
      match addBones sc path.reverse { st with boneMap := bm } with
      | none => none
      | some st =>
        let k := (st.boneMap model).getD 0 - 1
        match at? st.bones k with
        | none => none
        | some b => some { st with
            bones := st.bones.set k.toNat
              (deformerWeights d objID { b with pos := (sc.coord.mul d.link).applyTo ⟨0, 0, 0⟩ }) }

/-! ### Objects -/

/-- converter/fbx2mqo.go:263-277: the deformers in order; shapes are appended to `shapes`. -/
def convertDeformers [Add F] [Mul F] [Zero F] (sc : FScene F) (opt : FOptions F) (obj : Object F)
    (base : List (Vec3 F)) (t : Mat4 F) :
    List (FDeformer F) → FState F → List (Object F) → Option (FState F × List (Object F))
  | [], st, shapes => some (st, shapes)
  | d :: ds, st, shapes =>
    if d.channel then
      if opt.disableBlendShape then convertDeformers sc opt obj base t ds st shapes
      else
        match d.shapes.mapM fun s => fbxShape s obj base t with
        | none => none
        | some os => convertDeformers sc opt obj base t ds st (shapes ++ os)
    else if opt.disableBone then convertDeformers sc opt obj base t ds st shapes
    else
      match convertDeformer sc d obj.uid st with
      | none => none
      | some st => convertDeformers sc opt obj base t ds st shapes

/-- converter/fbx2mqo.go:188-285. The result is the object with vertices and faces, the shapes and the
state. -/
def convertGeometry [Add F] [Sub F] [Mul F] [Div F] [Zero F] [One F] [DecidableEq F] [FloatOps F]
    (sc : FScene F) (opt : FOptions F) (g : FGeometry F) (obj : Object F) (t : Mat4 F)
    (materialIDs : List Int) (st : FState F) : Option (Object F × List (Object F) × FState F) :=
  match fbxFaces g (fbxNormalMatrix t) materialIDs 0 0 g.polygons with
  | none => none
  | some faces =>
    let obj := { obj with vertexes := obj.vertexes ++ g.vertices.map t.applyTo, faces := obj.faces ++ faces }
    match convertDeformers sc opt obj g.vertices t g.deformers st [] with
    | none => none
    | some (st, shapes) =>
      if opt.disableBlendShape then some (obj, shapes, st)
      else
        match g.shapes.mapM fun s => fbxShape s obj g.vertices t with
        | none => none
        | some os => some (obj, shapes ++ os, st)

/-- converter/fbx2mqo.go:140-149: the loop over the material indexes; `over` are the ids not yet used.
`none`: a negative index. -/
def overrideLoop (seen : List Int) (ids : List Int) : List Int → List Int → Option (List Int)
  | [], _ => some ids
  | _, [] => some ids
  | m :: ms, o :: over =>
    if m ∈ seen ∨ (ids.length : Int) ≤ m then overrideLoop seen ids ms (o :: over)
    else if m < 0 then none
    else overrideLoop (m :: seen) (ids.set m.toNat o) ms over

/-- converter/fbx2mqo.go:128-152. -/
def overrideMaterials (ids : List Int) (g : Option (FGeometry F)) : Option (List Int) :=
  match g with
  | none => some ids
  | some g =>
    if 1 < ids.length ∧ 1 < g.mats.length then overrideLoop [] (ids.map fun _ => 0) g.mats ids
    else some ids

/-- `len(c.MaterialOverride) > 0`. -/
def FOptions.override (opt : FOptions F) : Option (List Int) :=
  match opt.materialOverride with
  | some (a :: l) => some (a :: l)
  | _ => none

/-- converter/fbx2mqo.go:121-154: the transform and the material ids of a model at depth `d`; `base` is the
number of materials before the conversion. -/
def modelSetup [Add F] [Mul F] [Zero F] [One F] [Neg F] (sc : FScene F) (opt : FOptions F) (base : Nat) (m : Nat)
    (d : Int) (parent : Mat4 F) : Option (Mat4 F × List Int) :=
  let md := sc.model m
  let ids := md.materials.map fun k => if opt.materialOverride.isNone then ((base + k : Nat) : Int) else 0
  let t := parent.mul md.matrix
  if 0 < opt.objectDepth ∧ d = opt.objectDepth then
    let t := match opt.rootTransform with
      | some r => r.mul ((Mat4.translation (-md.pivot.x) (-md.pivot.y) (-md.pivot.z)).mul sc.coord)
      | none => t
    match opt.override with
    | some over => (overrideMaterials over md.geometry).map fun ids => (t, ids)
    | none => some (t, ids)
  else some (t, ids)

/-- converter/fbx2mqo.go:163-167: a shape gets its id, depth and visibility and is appended. -/
def addShapes (d : Int) : List (Object F) → List (Object F) → List (Object F)
  | [], objs => objs
  | o :: os, objs =>
    addShapes d os (objs ++ [{ o with uid := objs.length + 1, depth := d + 1, visible := false }])

/-- converter/fbx2mqo.go:155-169: `i` is the place of the object. -/
def storeGeometry (d : Int) (i : Nat) (obj : Object F) (shapes : List (Object F)) (st : FState F) : FState F :=
  let st := { st with objects := st.objects.set i obj }
  if shapes = [] then st
  else { st with
    objects := addShapes d shapes st.objects
    morphs := st.morphs ++ [⟨obj.name, shapes.map fun o => ⟨o.name, 0⟩⟩] }

/-- converter/fbx2mqo.go:108-113 and 155-169: the object of a model, without its children. -/
def convertOne [Add F] [Sub F] [Mul F] [Div F] [Zero F] [One F] [Neg F] [DecidableEq F] [FloatOps F]
    (facet : F) (sc : FScene F) (opt : FOptions F) (base : Nat) (m : Nat) (d : Int) (parent : Mat4 F)
    (st : FState F) : Option (Mat4 F × FState F) :=
  match modelSetup sc opt base m d parent with
  | none => none
  | some (t, ids) =>
    let name := trimSuffix (trimPrefix (sc.model m).name "Model::".toList) "::Model".toList
    let obj : Object F := { Mqo.newObject facet name with uid := st.objects.length + 1, depth := d }
    let st' := { st with objects := st.objects ++ [obj] }
    match (sc.model m).geometry with
    | none => some (t, st')
    | some g =>
      match convertGeometry sc opt g obj t ids st' with
      | none => none
      | some (obj, shapes, st'') => some (t, storeGeometry d st.objects.length obj shapes st'')

/-- converter/fbx2mqo.go:108-174 (`convertModel`). The first argument bounds the depth of the recursion;
running out of it is a stack overflow. `facet` is 59.5. -/
def convertModel [Add F] [Sub F] [Mul F] [Div F] [Zero F] [One F] [Neg F] [DecidableEq F] [FloatOps F]
    (facet : F) (sc : FScene F) (opt : FOptions F) (base : Nat) :
    Nat → Int → Mat4 F → FState F → Nat → Option (FState F)
  | 0, _, _, _, _ => none
  | fuel + 1, d, parent, st, m =>
    match convertOne facet sc opt base m d parent st with
    | none => none
    | some (t, st) =>
      ((sc.model m).children.filter fun c => opt.wholeNode || !(sc.model c).limb).foldlM
        (convertModel facet sc opt base fuel (d + 1) t) st

/-- converter/fbx2mqo.go:176-186. -/
def hasGeometry (sc : FScene F) : Nat → Nat → Option Bool
  | 0, _ => none
  | fuel + 1, m =>
    if (sc.model m).geometry.isSome then some true
    else anyGeometry (hasGeometry sc fuel) (sc.model m).children
where
  /-- converter/fbx2mqo.go:180-184. -/
  anyGeometry (f : Nat → Option Bool) : List Nat → Option Bool
    | [] => some false
    | c :: cs =>
      match f c with
      | none => none
      | some true => some true
      | some false => anyGeometry f cs

/-- converter/fbx2mqo.go:80-81: is the model converted? -/
def wanted (sc : FScene F) (opt : FOptions F) (fuel : Nat) (m : Nat) : Option Bool :=
  if opt.wholeNode then some true
  else if (sc.model m).limb then some false
  else hasGeometry sc fuel m

/-- converter/fbx2mqo.go:79-83: the models under the scene that are converted. -/
def wantedModels (sc : FScene F) (opt : FOptions F) (fuel : Nat) : List Nat → Option (List Nat)
  | [] => some []
  | m :: ms => do
    let b ← wanted sc opt fuel m
    let rest ← wantedModels sc opt fuel ms
    return if b then m :: rest else rest

/-- The result of a conversion: `setBones` is `none` when `SetBones` is not called. -/
structure FResult (F : Type) where
  objects : List (Object F)
  morphs : List MorphTargetList
  setBones : Option (List (Bone F))

/-- converter/fbx2mqo.go:85-87. -/
def withBones (st : FState F) : FResult F :=
  ⟨st.objects, st.morphs, if st.bones = [] then none else some st.bones⟩

/-- converter/fbx2mqo.go:63-88 and 50-61 (`ConvertTo`) for a document with the given objects and number of
materials. `fuel` bounds the depth of all recursions. Simplified: the child models are all tested before
the first is converted, which differs only in what happened before a stack overflow. -/
def fbxConvert [Add F] [Sub F] [Mul F] [Div F] [Zero F] [One F] [Neg F] [DecidableEq F] [FloatOps F]
    (facet : F) (sc : FScene F) (opt : FOptions F) (fuel base : Nat) (objects : List (Object F))
    (morphs : List MorphTargetList) : Option (FResult F) :=
  let t := sc.coord.mul (sc.model sc.scene).matrix
  let st : FState F := ⟨objects, morphs, [], fun _ => none⟩
  let kids := (sc.model sc.scene).children
  if opt.targetModelName ≠ [] then
    match kids.find? fun m => (sc.model m).name = opt.targetModelName ++ "::Model".toList with
    | none => some ⟨objects, morphs, none⟩
    | some m =>
      (convertModel facet sc opt base fuel opt.objectDepth t st m).map fun st => ⟨st.objects, st.morphs, none⟩
  else
    match wantedModels sc opt fuel kids with
    | none => none
    | some ms => (ms.foldlM (convertModel facet sc opt base fuel opt.objectDepth t) st).map withBones

end Verif.Conv
