import Verif.Conv.FbxToMqo
import Verif.Mqo.Doc
import Verif.Unity.Builtin
import Mathlib.Algebra.Field.Defs
import Mathlib.Logic.Function.Basic

/-! Model of converter/unity2mqo.go: from a loaded Unity scene to an MQO document.

The scene is given by what its accessors return. Game objects are pointers, here numbers. `none` is a panic
or a stack overflow. Simplified: a null in a list of materials (a panic) does not occur; the FBX document kept
from the mesh before is the one loaded again, since the converter does not change it; the asset with the empty
GUID is not an FBX file. -/

namespace Verif.Conv

open Verif.Geom
open Verif.Mqo (Str Object Face Bone MorphTargetList Material PhysicsShape PhysicsBody)
open Verif.Unity (Trig Mesh builtinMesh)

variable {F : Type}

/-- unity/unity.go:54-58 (`Ref`). -/
structure URef where
  fileID : Int
  guid : Str
  type : Int
deriving DecidableEq

/-- unity/unity.go:62-64 (`IsValid`); `none` is nil. -/
def URef.valid : Option URef → Bool
  | some r => r.fileID ≠ 0
  | none => false

/-- unity/unity_components.go:52-66 (`Transform`). `children` are the game objects of `GetChildren()` in
order; `none`: `GetGameObject()` returns nil. -/
structure UTransform (F : Type) where
  position : Vec3 F
  rotation : Vec4 F
  scale : Vec3 F
  children : List (Option Nat)

/-- unity/unity_components.go:130-142 (`MeshRenderer`): the GUIDs of its materials. -/
structure URenderer where
  enabled : Bool
  materials : List Str

/-- unity/unity_components.go:191-213 (`Light`), the fields used. -/
structure ULight (F : Type) where
  type : Int
  color : Vec4 F
  intensity : F
  range : F
  spotAngle : F
  innerSpotAngle : F
deriving DecidableEq

/-- unity/unity_components.go:144-155 (`Rigidbody`), the fields used. -/
structure URigidbody (F : Type) where
  mass : F
  drag : F
  angularDrag : F
  isKinematic : Bool

/-- unity/unity.go:66-79 (`GameObject`): the results of `GetTransform`, `GetComponent` and `GetComponents`. The
colliders (unity/unity_components.go:157-189) are pairs of centre and size, centre and radius, centre, radius and
height, and references of meshes. Simplified: the other fields of colliders (trigger, direction, enabled), which the
converter does not read, are left out; a mesh collider with a null mesh (a panic) does not occur. -/
structure UObject (F : Type) where
  name : Str
  active : Bool
  transform : Option (UTransform F)
  meshFilter : Option (Option URef)
  meshRenderer : Option URenderer
  light : Option (ULight F)
  boxes : List (Vec3 F × Vec3 F)
  spheres : List (Vec3 F × F)
  capsules : List (Vec3 F × F × F)
  meshColliders : List URef
  rigidbody : Option (URigidbody F)

/-- unity/unity_material.go:40-44 (`TextureEnv`); the offset is there for the statements only, the converter
does not read it. -/
structure UTexEnv (F : Type) where
  texture : Option URef
  scale : Vec2 F
  offset : Vec2 F

/-- unity/unity_material.go:10-27, 46-71 (`Material`): the results of the accessors for the names the converter
asks for. -/
structure UMaterial (F : Type) where
  name : Str
  color : Option (Vec4 F)
  emission : Option (Vec4 F)
  mainTex : Option (UTexEnv F)
  bumpMap : Option (UTexEnv F)

/-- An FBX file: the document, its materials converted, `UnitScaleFactor` and the names of its meta file. -/
structure UFbx (F : Type) where
  scene : FScene F
  materials : List (Material F)
  unit : F
  recycleName : Int → Str

/-- The scene and its assets. `material` is `LoadMaterial` (`none`: an error), `asset` the path of a GUID,
`saved` says whether a texture is there or can be copied, `fbx` the meshes that can be loaded. -/
structure UScene (F : Type) where
  object : Nat → UObject F
  roots : List Nat
  material : Str → Option (UMaterial F)
  asset : Str → Option Str
  saved : Str → Bool
  fbx : Str → Option (UFbx F)

/-- converter/unity2mqo.go:17-21. -/
structure UOptions (F : Type) where
  saveTexture : Bool
  convertScale : F
  convertPhysics : Bool

/-- The mathematics from elsewhere: `euler` is the rotation of `SetRotation` (mqo/mqo.go:288-291), `angle` and
`size` are the rotation (as angles) and the scale of `Decompose`. `facet` is 59.5, `diffuse` is 0.8. -/
structure UMath (F : Type) where
  trig : Trig F
  euler : Vec4 F → Vec3 F
  angle : Mat4 F → Vec3 F
  size : Mat4 F → Vec3 F
  facet : F
  diffuse : F

/-- converter/unity2mqo.go:27-40: the document and the state. `mat` is the map from GUIDs to places and texture
scales, `guidOf` is `matToGUID`. `bones` is `none` without bone plug-in. `lights` and `shared` are the entries
of `Extra` by place of the object. -/
structure UState (F : Type) where
  objects : List (Object F)
  materials : List (Material F)
  morphs : List MorphTargetList
  bones : Option (List (Bone F))
  bodies : List (PhysicsBody F)
  lights : List (Nat × ULight F)
  shared : List (Nat × (Str × Int))
  mat : Str → Option (Nat × Option (Vec2 F))
  guidOf : Nat → Option Str

/-- unity/unity_components.go:68-73 (`GetMatrix`). -/
def UTransform.matrix [Field F] (t : UTransform F) : Mat4 F :=
  ((Mat4.translation t.position.x t.position.y (-t.position.z)).mul
    (Mat4.rotation ⟨-t.rotation.x, -t.rotation.y, t.rotation.z, t.rotation.w⟩)).mul
    (Mat4.scaling t.scale.x t.scale.y t.scale.z)

/-! ### Materials -/

/-- `filepath.Base` of a path with slashes that does not end in one. -/
def baseName (p : Str) : Str := (p.reverse.takeWhile (· ≠ '/')).reverse

/-- converter/unity2mqo.go:305-325 (`saveTexrure`): the name given back; empty when the copy cannot be made. -/
def saveTexture (sc : UScene F) (guid path : Str) : Str :=
  if sc.saved guid then "saved_textures/".toList ++ guid ++ "_".toList ++ baseName path else []

/-- converter/unity2mqo.go:129-136 and 140-146: the texture of a material. -/
def unityTexture (sc : UScene F) (opt : UOptions F) : Option (UTexEnv F) → Str
  | some t =>
    match t.texture with
    | some r =>
      if r.fileID = 0 then []
      else
        match sc.asset r.guid with
        | some path => if opt.saveTexture then saveTexture sc r.guid path else []
        | none => []
    | none => []
  | none => []

/-- converter/unity2mqo.go:137: the scale of the texture coordinates. -/
def unityScale : Option (UTexEnv F) → Option (Vec2 F)
  | some t => if URef.valid t.texture then some t.scale else none
  | none => none

/-- The GUID of the default material. -/
def defaultGUID : Str := "0000000000000000f000000000000000".toList

/-- converter/unity2mqo.go:111 and 113-115: a material that cannot be loaded. -/
def plainUnity [Field F] (M : UMath F) (guid : Str) : Material F where
  name := if guid = defaultGUID then "UnityDefaultMaterial".toList else guid
  uid := 0
  color := ⟨1, 1, 1, 1⟩
  diffuse := M.diffuse
  ambient := 0
  emission := 0
  specular := 0
  power := 0
  texture := []
  bumpTexture := []
  alphaTexture := []
  emissionColor := none
  doubleSided := false
  shader := 0
  ex2 := none

/-- converter/unity2mqo.go:120-125. -/
def unityEmission [Field F] [FloatOps F] : Option (Vec4 F) → Option (Vec3 F)
  | some c => if FloatOps.lt 0 (Vec3.len ⟨c.x, c.y, c.z⟩) then some ⟨c.x, c.y, c.z⟩ else none
  | none => none

/-- converter/unity2mqo.go:111-147. -/
def unityMaterial [Field F] [FloatOps F] (M : UMath F) (sc : UScene F) (opt : UOptions F) (guid : Str) : Material F :=
  match sc.material guid with
  | some m => { plainUnity M guid with
      name := m.name
      color := m.color.getD ⟨1, 1, 1, 1⟩
      emissionColor := unityEmission m.emission
      texture := unityTexture sc opt m.mainTex
      bumpTexture := unityTexture sc opt m.bumpMap }
  | none => plainUnity M guid

/-- converter/unity2mqo.go:98-151: one material of a renderer; the result is its place. -/
def addMaterial [Field F] [FloatOps F] (M : UMath F) (sc : UScene F) (opt : UOptions F) (guid : Str)
    (st : UState F) : Nat × UState F :=
  match st.mat guid with
  | some (i, _) => (i, st)
  | none =>
    let i := st.materials.length
    (i, { st with
      materials := st.materials ++ [unityMaterial M sc opt guid]
      mat := Function.update st.mat guid (some (i, match sc.material guid with
        | some m => unityScale m.mainTex
        | none => none))
      guidOf := Function.update st.guidOf i (some guid) })

/-- converter/unity2mqo.go:97-151. -/
def addMaterials [Field F] [FloatOps F] (M : UMath F) (sc : UScene F) (opt : UOptions F) :
    List Str → UState F → List Nat × UState F
  | [], st => ([], st)
  | g :: gs, st =>
    let (i, st) := addMaterial M sc opt g st
    let (is, st) := addMaterials M sc opt gs st
    (i :: is, st)

/-! ### Meshes -/

/-- unity/unity_builtin.go:9-16: the GUID of the built-in meshes. -/
def builtinGUID : Str := "0000000000000000e000000000000000".toList

/-- unity/unity_builtin.go:9-16 (`UnityMeshes[*ref]`), the key has type 0. -/
def builtinName (r : URef) : Str :=
  if r.guid = builtinGUID ∧ r.type = 0 then
    if r.fileID = 10202 then "Cube".toList
    else if r.fileID = 10206 then "Cylinder".toList
    else if r.fileID = 10207 then "Sphere".toList
    else if r.fileID = 10208 then "Capsule".toList
    else if r.fileID = 10209 then "Plane".toList
    else if r.fileID = 10210 then "Quad".toList
    else []
  else []

/-- The slice of the texture coordinates of each face: faces of the meshes have slices of their own, but the
two caps of the cylinder have the same one (unity/unity_builtin.go:156-157). -/
def uvSlices (cylinder : Bool) (n : Nat) : List Nat :=
  if cylinder then List.range (n - 1) ++ [n - 2] else List.range n

/-- converter/unity2mqo.go:373-388 (`AddGeometry`) on an object. -/
def addGeometry [Field F] (o : Object F) (t : Mat4 F) (mat : Nat) (m : Mesh F) : Object F :=
  { o with
    vertexes := o.vertexes ++ m.vs.map t.applyTo
    faces := o.faces ++ (m.faces.zipIdx.map fun (f, n) =>
      { uid := 0
        verts := f.map fun (i : Int) => (i + (o.vertexes.length : Int)).toNat
        material := mat
        uvs := ((m.uvs[n]?).getD []).map fun u => ⟨u.1, u.2⟩
        normals := [] }) }

/-- converter/unity2mqo.go:171: the scale of the material at a place of the document. -/
def scaleOf (st : UState F) (material : Int) : Option (Vec2 F) :=
  let guid := (if material < 0 then none else st.guidOf material.toNat).getD []
  match st.mat guid with
  | some (_, s) => s
  | none => none

/-- converter/unity2mqo.go:173-176. -/
def scaleUVs [Field F] (s : Vec2 F) (uvs : List (Vec2 F)) : List (Vec2 F) :=
  uvs.map fun u => ⟨u.x * s.x, u.y * s.y⟩

/-- converter/unity2mqo.go:170-178 on the slices: every face scales its slice. -/
def scaleSlices [Field F] (st : UState F) : List (Int × Nat) → (Nat → List (Vec2 F)) → Nat → List (Vec2 F)
  | [], heap => heap
  | (mat, k) :: fs, heap =>
    match scaleOf st mat with
    | some s => scaleSlices st fs (Function.update heap k (scaleUVs s (heap k)))
    | none => scaleSlices st fs heap

/-- converter/unity2mqo.go:168-179: the loop body for an object whose faces have the slices `slices`. -/
def finishObject [Field F] (st : UState F) (visible : Bool) (slices : List Nat) (o : Object F) : Object F :=
  let heap : Nat → List (Vec2 F) := fun k =>
    match (o.faces.zip slices).find? fun p => p.2 = k with
    | some p => p.1.uvs
    | none => []
  let heap := scaleSlices st ((o.faces.map Face.material).zip slices) heap
  { o with
    visible := visible
    faces := (o.faces.zip slices).map fun p => { p.1 with uvs := heap p.2 } }

/-- converter/unity2mqo.go:156-163 and 168-179: a built-in mesh goes into the object at place `i`. -/
def addBuiltin [Field F] (M : UMath F) (r : URef) (mats : List Nat) (t : Mat4 F) (visible : Bool) (i : Nat)
    (o : Object F) (st : UState F) : UState F :=
  match builtinMesh M.trig true r.fileID with
  | some m =>
    let o := { o with name := o.name ++ "(".toList ++ builtinName r ++ ")".toList }
    let o := addGeometry o t (mats.head?.getD 0) m
    let o := finishObject st visible (uvSlices (builtinName r = "Cylinder".toList) m.faces.length) o
    { st with objects := st.objects.set i o }
  | none => st

/-- converter/unity2mqo.go:355-363: the options of the FBX converter. `materials` is nil without materials. -/
def fbxOptions [Field F] (fb : UFbx F) (r : URef) (depth : Int) (mats : List Nat) (t : Mat4 F) : FOptions F where
  disableBlendShape := false
  disableBone := false
  wholeNode := false
  objectDepth := depth + 1
  rootTransform := some (t.mul (Mat4.scaling (-(fb.unit * (1 / 100))) (fb.unit * (1 / 100)) (-(fb.unit * (1 / 100)))))
  targetModelName := fb.recycleName r.fileID
  materialOverride := if mats = [] then none else some (mats.map fun (k : Nat) => (k : Int))

/-- converter/unity2mqo.go:364-367: a single new object at place `n`. -/
def markShared (r : URef) (t : Mat4 F) (n : Nat) (st : UState F) : UState F :=
  if st.objects.length = n + 1 then
    { st with
      objects := st.objects.modify n fun o => { o with internalTransform := some t }
      shared := st.shared ++ [(n, (r.guid, r.fileID))] }
  else st

/-- converter/unity2mqo.go:168-179: the loop over the objects from place `n` on. -/
def finishFrom [Field F] (visible : Bool) (n : Nat) (st : UState F) : UState F :=
  { st with objects := st.objects.take n ++
      (st.objects.drop n).map fun o => finishObject st visible (List.range o.faces.length) o }

/-- converter/unity2mqo.go:327-371 (`importMesh`) and 164-179: a mesh of an FBX file; `o` is the object at place
`i`, the last one. `fuel` bounds the recursions of the FBX converter. -/
def addFbx [Field F] [DecidableEq F] [FloatOps F] (M : UMath F) (sc : UScene F) (fuel : Nat) (r : URef) (mats : List Nat)
    (t : Mat4 F) (visible : Bool) (i : Nat) (o : Object F) (st : UState F) : Option (UState F) :=
  match sc.fbx r.guid with
  | none => some st
  | some fb =>
    let objects := st.objects.set i { o with name := o.name ++ "(FBX)".toList }
    let base := st.materials.length
    match fbxConvert M.facet fb.scene (fbxOptions fb r o.depth mats t) fuel base objects st.morphs with
    | none => none
    | some res =>
      let st := { st with
        objects := res.objects
        materials := if mats = [] then st.materials ++ fb.materials else st.materials
        morphs := res.morphs
        bones := match res.setBones with
          | some b => some b
          | none => st.bones }
      some (finishFrom visible (i + 1) (markShared r t (i + 1) st))

/-- converter/unity2mqo.go:93-181. -/
def addMesh [Field F] [DecidableEq F] [FloatOps F] (M : UMath F) (sc : UScene F) (opt : UOptions F) (fuel : Nat)
    (x : UObject F) (t : Mat4 F) (active : Bool) (i : Nat) (o : Object F) (st : UState F) : Option (UState F) :=
  match x.meshFilter, x.meshRenderer with
  | some (some r), some rend =>
    if r.fileID = 0 then some st
    else
      let ms := addMaterials M sc opt rend.materials st
      if builtinName r ≠ [] then
        some (addBuiltin M r ms.1 t (active && rend.enabled) i o ms.2)
      else addFbx M sc fuel r ms.1 t (active && rend.enabled) i o ms.2
  | _, _ => some st

/-! ### Lights and bodies -/

/-- converter/unity2mqo.go:183-201. -/
def addLight (x : UObject F) (t : Mat4 F) (i : Nat) (st : UState F) : UState F :=
  match x.light with
  | none => st
  | some l => { st with
      objects := st.objects.modify i fun o => { o with internalTransform := some t }
      lights := st.lights ++ [(i, l)] }

/-- converter/unity2mqo.go:226-232. -/
def boxShape [Field F] (M : UMath F) (t : Mat4 F) (c : Vec3 F × Vec3 F) : PhysicsShape F where
  type := "BOX".toList
  size := c.2.scale ((M.size t).x * (1 / 2))
  position := t.applyTo c.1
  rotation := M.angle t

/-- converter/unity2mqo.go:236-242. -/
def sphereShape [Field F] (M : UMath F) (t : Mat4 F) (c : Vec3 F × F) : PhysicsShape F where
  type := "SPHERE".toList
  size := ⟨c.2 * (M.size t).x, c.2 * (M.size t).y, c.2 * (M.size t).z⟩
  position := t.applyTo c.1
  rotation := M.angle t

/-- converter/unity2mqo.go:246-252; `c.2` is radius and height. -/
def capsuleShape [Field F] (M : UMath F) (t : Mat4 F) (c : Vec3 F × F × F) : PhysicsShape F where
  type := "CAPSULE".toList
  size := ⟨c.2.1 * (M.size t).x, (c.2.2 - c.2.1 * 2) * (M.size t).y, c.2.1 * (M.size t).z⟩
  position := t.applyTo c.1
  rotation := M.angle t

/-- converter/unity2mqo.go:256-279. -/
def meshShape [Field F] (M : UMath F) (opt : UOptions F) (t : Mat4 F) (r : URef) : List (PhysicsShape F) :=
  let s := opt.convertScale
  if builtinName r = [] then []
  else if builtinName r = "Cube".toList then
    [⟨"BOX".toList, ⟨1 * s, 1 * s, 1 * s⟩, t.applyTo ⟨0, 0, 0⟩, M.angle t⟩]
  else if builtinName r = "Sphere".toList then
    [⟨"SPHERE".toList, ⟨1 / 2 * s, 1 / 2 * s, 1 / 2 * s⟩, t.applyTo ⟨0, 0, 0⟩, ⟨0, 0, 0⟩⟩]
  else [⟨"MESH".toList, ⟨0, 0, 0⟩, ⟨0, 0, 0⟩, ⟨0, 0, 0⟩⟩]

/-- converter/unity2mqo.go:221-280. -/
def unityShapes [Field F] (M : UMath F) (opt : UOptions F) (x : UObject F) (t : Mat4 F) : List (PhysicsShape F) :=
  x.boxes.map (boxShape M t) ++ x.spheres.map (sphereShape M t) ++ x.capsules.map (capsuleShape M t) ++
    x.meshColliders.flatMap (meshShape M opt t)

/-- converter/unity2mqo.go:284-287: the rigid body of an object. -/
def UObject.body [Field F] (x : UObject F) : URigidbody F := x.rigidbody.getD ⟨1, 0, 0, true⟩

/-- converter/unity2mqo.go:220-303 (`convertRigidBody`); `name` and `uid` are those of the object. -/
def addBody [Field F] (M : UMath F) (opt : UOptions F) (x : UObject F) (t : Mat4 F) (name : Str) (uid : Int)
    (st : UState F) : UState F :=
  let shapes := unityShapes M opt x t
  if shapes.length = 0 then st
  else { st with bodies := st.bodies ++ [{
      shapes := shapes
      mass := x.body.mass
      kinematic := x.body.isKinematic
      collisionGroup := 1
      collisionMask := -1
      restitution := 0
      friction := 0
      linearDamping := x.body.drag
      angularDamping := x.body.angularDrag
      name := name
      targetBoneID := 0
      targetObjID := uid }] }

/-! ### Objects -/

/-- converter/unity2mqo.go:80-87: the object before its components. -/
def unityObject [Field F] (M : UMath F) (opt : UOptions F) (x : UObject F) (d : Int) (active : Bool) (n : Nat) : Object F :=
  let o : Object F := { Mqo.newObject M.facet x.name with uid := n + 1, depth := d, visible := active }
  match x.transform with
  | none => o
  | some tr => { o with
      translation := some ((⟨tr.position.x, tr.position.y, -tr.position.z⟩ : Vec3 F).scale opt.convertScale)
      scale := some tr.scale
      rotation := some (M.euler ⟨-tr.rotation.x, -tr.rotation.y, tr.rotation.z, tr.rotation.w⟩) }

/-- converter/unity2mqo.go:93-205: mesh, light and body of the object at place `i`. -/
def addComponents [Field F] [DecidableEq F] [FloatOps F] (M : UMath F) (sc : UScene F) (opt : UOptions F) (fuel : Nat)
    (x : UObject F) (t : Mat4 F) (active : Bool) (i : Nat) (o : Object F) (st : UState F) : Option (UState F) :=
  match addMesh M sc opt fuel x t active i o st with
  | none => none
  | some st =>
    let st := addLight x t i st
    let name := ((st.objects[i]?).map Object.name).getD []
    some (if opt.convertPhysics then addBody M opt x t name o.uid st else st)

/-- converter/unity2mqo.go:79-205: one game object without its children. -/
def unityOne [Field F] [DecidableEq F] [FloatOps F] (M : UMath F) (sc : UScene F) (opt : UOptions F) (fuel : Nat)
    (x : UObject F) (d : Int) (parent : Mat4 F) (active : Bool) (st : UState F) : Option (UState F) :=
  let o := unityObject M opt x d active st.objects.length
  let st' := { st with objects := st.objects ++ [o] }
  match x.transform with
  | none => some st'
  | some tr => addComponents M sc opt fuel x (parent.mul tr.matrix) active st.objects.length o st'

/-- converter/unity2mqo.go:79-218 (`convertObject`). The first argument bounds the depth of the recursion;
running out of it is a stack overflow. -/
def convertGameObject [Field F] [DecidableEq F] [FloatOps F] (M : UMath F) (sc : UScene F) (opt : UOptions F) (ffuel : Nat) :
    Nat → Int → Mat4 F → Bool → UState F → Nat → Option (UState F)
  | 0, _, _, _, _, _ => none
  | fuel + 1, d, parent, active, st, k =>
    let x := sc.object k
    match unityOne M sc opt ffuel x d parent (active && x.active) st with
    | none => none
    | some st =>
      match x.transform with
      | none => some st
      | some tr =>
        (tr.children.filterMap id).foldlM
          (convertGameObject M sc opt ffuel fuel (d + 1) (parent.mul tr.matrix) (active && x.active)) st

/-- `mqo.NewDocument()` and the empty maps. -/
def UState.start : UState F where
  objects := []
  materials := []
  morphs := []
  bones := none
  bodies := []
  lights := []
  shared := []
  mat := fun _ => none
  guidOf := fun _ => none

/-- converter/unity2mqo.go:73-75: the dummy material. -/
def dummyUnity [Field F] : Material F where
  name := "dummy".toList
  uid := 0
  color := ⟨1, 1, 1, 1⟩
  diffuse := 0
  ambient := 0
  emission := 0
  specular := 0
  power := 0
  texture := []
  bumpTexture := []
  alphaTexture := []
  emissionColor := none
  doubleSided := false
  shader := 0
  ex2 := none

/-- converter/unity2mqo.go:73-75. -/
def withDummy [Field F] (st : UState F) : UState F :=
  if st.materials.length = 0 then { st with materials := [dummyUnity] } else st

/-- converter/unity2mqo.go:54-78 (`Convert`). -/
def unityConvert [Field F] [DecidableEq F] [FloatOps F] (M : UMath F) (sc : UScene F) (opt : UOptions F)
    (ffuel fuel : Nat) : Option (UState F) :=
  let s := opt.convertScale
  (sc.roots.foldlM (convertGameObject M sc opt ffuel fuel 0 (Mat4.scaling s s s) true) UState.start).map withDummy

end Verif.Conv
