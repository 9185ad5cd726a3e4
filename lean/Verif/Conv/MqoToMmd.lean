import Verif.Conv.MmdToMqo
import Verif.Mqo.Core

/-!
converter/mqo2mmd.go, and the bones, weights and bodies of converter/mmd2mqo.go.

Numbers are of any type `F` with the operations used. Keys of the vertex map contain UVs; equality of
numbers is Lean's (Go: NaN differs from itself, so a corner with a NaN in its UVs always makes a new
vertex).
-/

namespace Verif.Conv

open Verif.Geom
open Verif.Mqo (Str Object Face Material Bone PhysicsBody PhysicsShape MorphTargetList WeightGroup
  VertexWeight)

variable {F : Type}

/-- mqo2mmd.go:218-220. -/
def mqoToMmdVec [Mul F] [One F] [Neg F] (s : F) (v : Vec3 F) : Vec3 F :=
  ⟨v.x * s, v.y * s, v.z * s * -1⟩

/-! ### Faces -/

/-- What `Convert` appends to: vertices, faces and the entries of the morphs. -/
structure MmdOut (F : Type) where
  vertexes : List (MmdVertex F)
  faces : List (List Nat)
  morphs : List (Str × List (Nat × Vec3 F))

/-- mqo2mmd.go:66-67, the maps of one object and one material: keys of `indices` are vertex and UV. -/
structure CornerMaps (F : Type) where
  indices : List ((Nat × Vec2 F) × Nat)
  vmap : List (Nat × Nat)

/-- mqo2mmd.go:99: append to the morph of this name (the last one, see line 50). -/
def addMorphEntry (morphs : List (Str × List (Nat × Vec3 F))) (name : Str) (e : Nat × Vec3 F) :
    List (Str × List (Nat × Vec3 F)) :=
  match ((morphs.zipIdx.filter fun p => p.1.1 = name).map Prod.snd).getLast? with
  | some i => morphs.modify i fun m => (m.1, m.2 ++ [e])
  | none => morphs

/-- mqo2mmd.go:94-106: the morph entries of a new vertex. The comparison on line 97 is between
pointers; documents do not share vertices, so it is always true. -/
def morphEntries [Sub F] [Mul F] [One F] [Neg F] [Zero F] (s : F) (objects : List (Object F))
    (targets : List Mqo.MorphTarget) (pos : Vec3 F) (v id : Nat)
    (morphs : List (Str × List (Nat × Vec3 F))) : List (Str × List (Nat × Vec3 F)) :=
  targets.foldl (fun ms t =>
    match (Mqo.objIndex objects t.name).bind fun i => objects[i]? with
    | none => ms
    | some target =>
      match target.vertexes[v]? with
      | none => ms
      | some q =>
        let p := mqoToMmdVec s q
        addMorphEntry ms t.name (id, ⟨p.x - pos.x, p.y - pos.y, 0⟩)) morphs

/-- mqo2mmd.go:75-108, one corner. `targets` are those of the morph list based on this object. -/
def mmdCorner [Sub F] [Mul F] [One F] [Neg F] [Zero F] [DecidableEq F] (s : F)
    (objects : List (Object F)) (targets : List Mqo.MorphTarget) (o : Object F)
    (normals : List (Vec3 F)) (uv : Vec2 F) (v : Nat) (out : MmdOut F) (maps : CornerMaps F) :
    Option (Nat × MmdOut F × CornerMaps F) :=
  match maps.indices.lookup (v, uv) with
  | some id => some (id, out, maps)
  | none =>
    match o.vertexes[v]?, normals[v]? with
    | some p, some n =>
      let id := out.vertexes.length
      let pos := mqoToMmdVec s p
      some (id, ⟨out.vertexes ++ [⟨pos, n, uv, [], []⟩], out.faces,
          morphEntries s objects targets pos v id out.morphs⟩,
        ⟨((v, uv), id) :: maps.indices, maps.vmap ++ [(v, id)]⟩)
    | _, _ => none

/-- mqo2mmd.go:76-79. -/
def cornerUV [Zero F] (uvs : List (Vec2 F)) (i : Nat) : Vec2 F := uvs.getD i ⟨0, 0⟩

/-- mqo2mmd.go:75-108: the corners from number `i` on. -/
def mmdCorners [Sub F] [Mul F] [One F] [Neg F] [Zero F] [DecidableEq F] (s : F)
    (objects : List (Object F)) (targets : List Mqo.MorphTarget) (o : Object F)
    (normals : List (Vec3 F)) (uvs : List (Vec2 F)) : Nat → List Nat → MmdOut F → CornerMaps F →
    Option (List Nat × MmdOut F × CornerMaps F)
  | _, [], out, maps => some ([], out, maps)
  | i, v :: vs, out, maps =>
    match mmdCorner s objects targets o normals (cornerUV uvs i) v out maps with
    | none => none
    | some (id, out, maps) =>
      match mmdCorners s objects targets o normals uvs (i + 1) vs out maps with
      | none => none
      | some (ids, out, maps) => some (id :: ids, out, maps)

/-- mqo2mmd.go:109-113: the triangles of a polygon; `d` stands for entries out of range, which do not
occur. -/
def fan {α : Type} (d : α) (ids : List α) : List (List α) :=
  (List.range (ids.length - 2)).map fun n => [ids.getD 0 d, ids.getD (n + 1) d, ids.getD (n + 2) d]

/-- mqo2mmd.go:70-114: the faces of one object that have material `mi`. -/
def mmdFaces [Sub F] [Mul F] [One F] [Neg F] [Zero F] [DecidableEq F] (s : F)
    (objects : List (Object F)) (targets : List Mqo.MorphTarget) (o : Object F)
    (normals : List (Vec3 F)) (mi : Nat) : List (Face F) → MmdOut F → CornerMaps F →
    Option (MmdOut F × CornerMaps F)
  | [], out, maps => some (out, maps)
  | f :: fs, out, maps =>
    if f.verts.length < 3 ∨ f.material ≠ (mi : Int) then
      mmdFaces s objects targets o normals mi fs out maps
    else
      match mmdCorners s objects targets o normals f.uvs 0 f.verts out maps with
      | none => none
      | some (ids, out, maps) =>
        mmdFaces s objects targets o normals mi fs { out with faces := out.faces ++ fan 0 ids } maps

/-- mqo2mmd.go:142-149: one weight entry goes to all vertices made from its vertex. `hundredth` is the
constant 0.01. -/
def addWeight [Mul F] (hundredth : F) (bi : Nat) (w : F) (vs : List (MmdVertex F)) (ids : List Nat) :
    List (MmdVertex F) :=
  ids.foldl (fun vs id => vs.modify id fun v =>
    if 4 ≤ v.boneWeights.length then v
    else { v with bones := v.bones ++ [bi], boneWeights := v.boneWeights ++ [w * hundredth] }) vs

/-- mqo2mmd.go:136-151, one bone. -/
def setBoneWeights [Mul F] (hundredth : F) (o : Object F) (vmap : List (Nat × Nat)) (bi : Nat)
    (b : Bone F) (vs : List (MmdVertex F)) : List (MmdVertex F) :=
  b.weights.foldl (fun vs g =>
    if g.objectID = o.uid then
      g.vertexes.foldl (fun vs vw =>
        addWeight hundredth bi vw.weight vs
          ((vmap.filter fun p => (p.1 : Int) = o.getVertexIndexByID vw.vertexID).map Prod.snd)) vs
    else vs) vs

/-- mqo2mmd.go:134-153 (`setWeights`). -/
def setWeights [Mul F] (hundredth : F) (o : Object F) (vmap : List (Nat × Nat)) (bones : List (Bone F))
    (vs : List (MmdVertex F)) : List (MmdVertex F) :=
  bones.zipIdx.foldl (fun vs (b, bi) => setBoneWeights hundredth o vmap bi b vs) vs

/-- The constants and the parts of the document that do not change during `Convert`. -/
structure MmdCtx (F : Type) where
  scale : F
  hundredth : F
  objects : List (Object F)
  bones : List (Bone F)
  morphLists : List MorphTargetList

/-- mqo2mmd.go:44, 94: the targets of the morph list whose base has this name; the last one wins. -/
def targetsFor (lists : List MorphTargetList) (name : Str) : List Mqo.MorphTarget :=
  match (lists.filter fun m => m.base = name).getLast? with
  | some m => m.target
  | none => []

/-- mqo2mmd.go:59: objects that are exported as a mesh. -/
def exported (lists : List MorphTargetList) (o : Object F) : Bool :=
  o.visible && !(lists.any fun m => m.target.any fun t => t.name = o.name)

/-- mqo2mmd.go:58-116: all objects, for one material. -/
def mmdObjects [Add F] [Sub F] [Mul F] [Div F] [One F] [Neg F] [Zero F] [DecidableEq F] [FloatOps F]
    (c : MmdCtx F) (mi : Nat) : List (Object F) → MmdOut F → Option (MmdOut F)
  | [], out => some out
  | o :: os, out =>
    if exported c.morphLists o then
      match o.smoothNormals with
      | none => none
      | some normals =>
        match mmdFaces c.scale c.objects (targetsFor c.morphLists o.name) o normals mi o.faces out
            ⟨[], []⟩ with
        | none => none
        | some (out, maps) =>
          mmdObjects c mi os { out with
            vertexes := setWeights c.hundredth o maps.vmap c.bones out.vertexes }
    else mmdObjects c mi os out

/-- mqo2mmd.go:56-123: the materials with number `mi` and following. `Count` is three times the number
of faces appended. -/
def mmdMaterials [Add F] [Sub F] [Mul F] [Div F] [One F] [Neg F] [Zero F] [DecidableEq F] [FloatOps F]
    (c : MmdCtx F) : Nat → List (Material F) → MmdOut F → Option (MmdOut F × List MmdMaterial)
  | _, [], out => some (out, [])
  | mi, m :: ms, out =>
    match mmdObjects c mi c.objects out with
    | none => none
    | some out1 =>
      match mmdMaterials c (mi + 1) ms out1 with
      | none => none
      | some (out2, rest) =>
        some (out2, ⟨m.name, (out1.faces.length - out.faces.length) * 3⟩ :: rest)

/-- mqo2mmd.go:18-123 (`Convert`): vertices, faces, morphs and material counts. Materials' colours and
textures are left out; bones and bodies are below. -/
def toMmd [Add F] [Sub F] [Mul F] [Div F] [One F] [Neg F] [Zero F] [DecidableEq F] [FloatOps F]
    (scale hundredth : F) (materials : List (Material F)) (objects : List (Object F))
    (bones : List (Bone F)) (lists : List MorphTargetList) :
    Option (MmdOut F × List MmdMaterial) :=
  mmdMaterials ⟨scale, hundredth, Mqo.fixObjectIDs objects, bones, lists⟩ 0 materials
    ⟨[], [], lists.flatMap fun m => m.target.map fun t => (t.name, [])⟩

/-! ### Bones -/

/-- The parts of `mmd.Bone` (mmd/mmd.go:88-109) the converters use, without IK. -/
structure MmdBone (F : Type) where
  name : Str
  pos : Vec3 F
  parent : Int
  layer : Int
  inheritRotation : Bool
  inheritParent : Int
  influence : F
  translatable : Bool

/-- mmd2mqo.go:63-72: the parent after looking at rotation inheritance; `none` is the index panic of
line 67. -/
def inheritedParent [FloatOps F] (known : List Str) (threshold : F) (bones : List (MmdBone F))
    (b : MmdBone F) : Option Int :=
  if b.inheritRotation ∧ lt threshold b.influence = true ∧ b.inheritParent < bones.length ∧
      known ≠ [] then
    if b.inheritParent < 0 then none
    else
      match bones[b.inheritParent.toNat]? with
      | none => none
      | some p => if p.name ∈ known then some (b.inheritParent + 1) else some (b.parent + 1)
  else some (b.parent + 1)

/-- mmd2mqo.go:52-77 (`convertBones`, without IK). -/
def mqoBone [Mul F] [One F] [Neg F] [Zero F] [FloatOps F] (known : List Str) (threshold : F)
    (bones : List (MmdBone F)) (i : Nat) (b : MmdBone F) : Option (Bone F) :=
  match inheritedParent known threshold bones b with
  | none => none
  | some parent => some {
      id := i + 1, name := b.name, group := b.layer, parent := parent, pos := mmdToMqoVec b.pos
      movable := if b.translatable then 1 else 0, hide := 0, dummy := 0, color := []
      upVector := none, rotate := none, ik := none, weights := [], weightMap := []
      rotationOffset := ⟨0, 0, 0⟩ }

/-- mmd2mqo.go:55-77. -/
def mqoBones [Mul F] [One F] [Neg F] [Zero F] [FloatOps F] (known : List Str) (threshold : F)
    (bones : List (MmdBone F)) : Option (List (Bone F)) :=
  bones.zipIdx.mapM fun (b, i) => mqoBone known threshold bones i b

/-- mqo2mmd.go:20-25: `boneIndexByID`; the last bone of an id wins, an unknown id gives 0. -/
def boneIndex (bones : List (Bone F)) (id : Int) : Nat :=
  ((bones.zipIdx.filter fun p => p.1.id = id).map Prod.snd).getLast?.getD 0

/-- mqo2mmd.go:20-33 and 155-163: names, positions and parents. Tails and flags are left out. -/
def mmdBones [Mul F] [One F] [Neg F] (s : F) (bones : List (Bone F)) : List (Str × Vec3 F × Int) :=
  bones.map fun b => (b.name, mqoToMmdVec s b.pos,
    if b.parent > 0 then (boneIndex bones b.parent : Int) else -1)

/-! ### Weights, from MMD to MQO -/

/-- mmd2mqo.go:124-130 (`more` is 100) and 289-295 (`more` is 1): one influence. The list holds, per
bone, the weight that was set for the vertex at hand. -/
def weightStep [Add F] [Mul F] [Zero F] [FloatOps F] (hundred more : F) (l : List (Nat × F))
    (e : Nat × F) : List (Nat × F) :=
  if lt 0 e.2 then
    if e.1 ∈ l.map (·.1) then l.map fun p => if p.1 = e.1 then (p.1, p.2 + more * e.2) else p
    else l ++ [(e.1, hundred * e.2)]
  else l

/-- mmd2mqo.go:121-131 and 286-296: the weights set for one vertex, per bone. `none` is an index
panic: fewer weights than bones, or an unknown bone. -/
def vertexWeights [Add F] [Mul F] [Zero F] [FloatOps F] (hundred more : F) (nbones : Nat)
    (bones : List Nat) (ws : List F) : Option (List (Nat × F)) :=
  if bones.length ≤ ws.length ∧ ∀ e ∈ bones.zip ws, lt 0 e.2 = true → e.1 < nbones then
    some ((bones.zip ws).foldl (weightStep hundred more) [])
  else none

/-! ### Rigid bodies -/

/-- The parts of `mmd.RigidBody` both converters handle. -/
structure MmdBody (F : Type) where
  name : Str
  bone : Int
  group : Int
  groupTarget : Int
  shape : Nat
  size : Vec3 F
  position : Vec3 F
  rotation : Vec3 F
  mass : F
  linearDamping : F
  angularDamping : F
  restitution : F
  friction : F
  mode : Nat
deriving DecidableEq

/-- mmd2mqo.go:359-370. -/
def shapeName : Nat → Str
  | 0 => "SPHERE".toList
  | 1 => "BOX".toList
  | 2 => "CAPSULE".toList
  | _ => []

/-- mmd2mqo.go:358-388. -/
def mqoBody [Mul F] [One F] [Neg F] (b : MmdBody F) : PhysicsBody F where
  shapes := [⟨shapeName b.shape, mmdToMqoVec b.size, mmdToMqoVec b.position, b.rotation⟩]
  mass := b.mass
  kinematic := b.mode = 0
  collisionGroup := b.group
  collisionMask := b.groupTarget
  restitution := b.restitution
  friction := b.friction
  linearDamping := b.linearDamping
  angularDamping := b.angularDamping
  name := b.name
  targetBoneID := b.bone + 1
  targetObjID := 0

/-- mqo2mmd.go:179-190. -/
def shapeNumber (t : Str) : Nat :=
  if t = "SPHERE".toList then 0 else if t = "BOX".toList then 1 else if t = "CAPSULE".toList then 2
  else 0

/-- mqo2mmd.go:176-216 (`convertBody`). -/
def mmdBody [Mul F] [One F] [Neg F] (s : F) (bones : List (Bone F)) (b : PhysicsBody F) :
    List (MmdBody F) :=
  b.shapes.mapIdx fun i sh => {
    name := if 0 < i then b.name ++ '_' :: Nat.toDigits 10 i else b.name
    bone := boneIndex bones b.targetBoneID
    group := b.collisionGroup
    groupTarget := b.collisionMask
    shape := shapeNumber sh.type
    size := mqoToMmdVec s sh.size
    position := mqoToMmdVec s sh.position
    rotation := sh.rotation
    mass := b.mass
    linearDamping := b.linearDamping
    angularDamping := b.angularDamping
    restitution := b.restitution
    friction := b.friction
    mode := if b.kinematic then 1 else 0 }

/-- mqo/physics_plugin.go:93-102 with a scale matrix (`Decompose` answers its factors up to signs, and
the absolute value is taken): the size of a shape. `abs` is `geom.Abs`. -/
def scaleSize [Mul F] (abs : F → F) (k size : Vec3 F) : Vec3 F :=
  ⟨abs (size.x * k.x), abs (size.y * k.y), abs (size.z * k.z)⟩

end Verif.Conv
