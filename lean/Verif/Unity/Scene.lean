import Verif.Unity.Yaml
import Verif.Geom.Mat
import Mathlib.Algebra.Field.Defs
import Mathlib.Logic.Function.Basic

/-! Model of the loading of Unity scenes and prefabs: unity/unity.go, unity/unity_scene.go and the transforms of
unity/unity_components.go.

A file is the list of its decoded documents, with different ids. Scenes, game objects and components are pointers: a
loaded scene is a number, an element is a scene and its id in the file. `none` is a panic or a stack overflow.
Simplified: documents that cannot be decoded are left out; the map `addedChildren` is a list in the order of
insertion (its order is random in the program, which matters only if two references mean the same transform). -/

namespace Verif.Unity

open Verif.Geom

variable {F : Type}

/-- unity/unity.go:54-58 (`Ref`). -/
structure Ref where
  fileID : Int
  guid : Str
  type : Int
deriving DecidableEq

/-- unity/unity.go:62-64 (`IsValid`). -/
def Ref.valid (r : Ref) : Bool := r.fileID ≠ 0

/-- unity/unity.go:62-64 (`IsValid`); `none` is nil. -/
def validRef : Option Ref → Bool
  | some r => r.valid
  | none => false

/-- A scene and the id of an element. -/
abbrev Ptr := Nat × Int

/-- unity/unity.go:66-79 (`GameObject`). -/
structure GameObject where
  name : Str
  active : Int
  components : List Ref
  source : Option Ref
  inst : Option Ref

/-- unity/unity_components.go:32-41, 52-66 (`Transform`). `added` is the field `children`, empty for nil. -/
structure Transform (F : Type) where
  gameObject : Ref
  source : Option Ref
  inst : Option Ref
  father : Ref
  children : List Ref
  position : Vec3 F
  rotation : Vec4 F
  scale : Vec3 F
  added : List Ptr

/-- A value of a document. -/
inductive Value (F : Type) where
  | int (n : Int)
  | real (x : F)
  | text (s : Str)
  | null

/-- What follows the name of a field in a property path: nothing, a field, an element of an array, or something else. -/
inductive PathRest where
  | none
  | field (s : Str)
  | data (i : Nat)
  | other
deriving DecidableEq

/-- unity/unity.go:119-124. -/
structure Modification (F : Type) where
  target : Option Ref
  name : Str
  rest : PathRest
  value : Value F
  reference : Option Ref

/-- unity/unity.go:117-131 (`PrefabInstance`) as in the file. -/
structure PrefabDoc (F : Type) where
  mods : List (Modification F)
  parent : Option Ref
  source : Option Ref

/-- unity/unity_components.go:125-128, 144-213: the components other than transforms and renderers, with the fields
the converter reads. The numbers of a light are its type, intensity, range, outer and inner angle; a capsule has a radius
and a height. `unknown` is any other element. -/
inductive Comp (F : Type) where
  | filter (mesh : Option Ref)
  | light (type : Int) (color : Vec4 F) (intensity range outer inner : F)
  | body (mass drag angularDrag : F) (kinematic : Int)
  | box (center size : Vec3 F)
  | sphere (center : Vec3 F) (radius : F)
  | capsule (center : Vec3 F) (radius height : F)
  | mesh (mesh : Option Ref)
  | unknown

/-- An element of a loaded scene. -/
inductive Elem (F : Type) where
  | object (o : GameObject)
  | transform (t : Transform F)
  | renderer (enabled : Int) (materials : List (Option Ref))
  | prefab (scene : Nat)
  | other (c : Comp F)

/-- A document of a file. -/
inductive Doc (F : Type) where
  | object (o : GameObject)
  | transform (t : Transform F)
  | renderer (enabled : Int) (materials : List (Option Ref))
  | prefab (p : PrefabDoc F)
  | other (c : Comp F)

/-- All scenes loaded so far: their number, GUIDs, elements and root objects. -/
structure Heap (F : Type) where
  count : Nat
  guid : Nat → Str
  elem : Ptr → Option (Elem F)
  roots : Nat → List Ptr

/-! ### Looking up -/

/-- unity/unity.go:20-34 (`GetElement`, `GetElement2`): the place of the element. -/
def getElement (h : Heap F) (s : Nat) (r : Ref) (inst : Option Ref) : Option Ptr :=
  if r.valid = false then none
  else if r.guid ≠ [] ∧ r.guid ≠ h.guid s ∧ validRef inst = true then
    match inst with
    | some i =>
      match h.elem (s, i.fileID) with
      | some (.prefab s') => if (h.elem (s', r.fileID)).isSome then some (s', r.fileID) else none
      | _ => none
    | none => none
  else if (h.elem (s, r.fileID)).isSome then some (s, r.fileID) else none

/-- The transform at a place. -/
def Heap.transform (h : Heap F) (p : Ptr) : Option (Transform F) :=
  match h.elem p with
  | some (.transform t) => some t
  | _ => none

/-- The game object at a place. -/
def Heap.object (h : Heap F) (p : Ptr) : Option GameObject :=
  match h.elem p with
  | some (.object o) => some o
  | _ => none

/-- The element found is a transform. -/
def findTransform (h : Heap F) (s : Nat) (r : Ref) (inst : Option Ref) : Option Ptr :=
  match getElement h s r inst with
  | some p => if (h.transform p).isSome then some p else none
  | none => none

/-- unity/unity.go:41-52 (`GetTransform` of a scene). -/
def sceneTransform (h : Heap F) (s : Nat) (r : Ref) (inst : Option Ref) : Option Ptr :=
  match findTransform h s r inst with
  | some p =>
    match h.transform p with
    | some t =>
      match t.source with
      | some src =>
        if t.gameObject.valid = false ∧ src.valid = true then
          match findTransform h p.1 src t.inst with
          | some q => some q
          | none => some p
        else some p
      | none => some p
    | none => none
  | none => none

/-- unity/unity.go:108-115 (`GetTransform` of a game object): the first component that is a transform. -/
def objectTransform (h : Heap F) (p : Ptr) : Option Ptr :=
  match h.object p with
  | some o => o.components.findSome? fun c => findTransform h p.1 c o.inst
  | none => none

/-- unity/unity_components.go:47-50 (`GetGameObject`). -/
def transformObject (h : Heap F) (p : Ptr) : Option Ptr :=
  match h.transform p with
  | some t =>
    match getElement h p.1 t.gameObject t.inst with
    | some q => if (h.object q).isSome then some q else none
    | none => none
  | none => none

/-- unity/unity_components.go:83-95 (`GetChildren`). The list is kept in the program, with the same result. -/
def getChildren (h : Heap F) (p : Ptr) : List Ptr :=
  match h.transform p with
  | some t => if t.added ≠ [] then t.added else t.children.filterMap fun c => sceneTransform h p.1 c t.inst
  | none => []

/-- unity/unity_components.go:97-108 (`AddChild`). -/
def addChild (h : Heap F) (p child : Ptr) : Heap F :=
  match h.transform p with
  | some t =>
    let cs := getChildren h p
    let t := { t with added := if child ∈ cs then cs else cs ++ [child] }
    { h with elem := Function.update h.elem p (some (.transform t)) }
  | none => h

/-- unity/unity_components.go:110-114 (`GetParent`). -/
def getParent (h : Heap F) (p : Ptr) : Option Ptr :=
  match h.transform p with
  | some t => findTransform h p.1 t.father none
  | none => none

/-! ### Modifications -/

/-- unity/unity_scene.go:120-129: the number; 0 for a value that is not one. -/
def Value.number [Field F] : Value F → F
  | .int n => (n : F)
  | .real x => x
  | _ => 0

/-- unity/unity_scene.go:146-147: the integer. `trunc` is the conversion of `float32` to `int`; integers above 2^24
are rounded in the program. -/
def Value.integer (trunc : F → Int) : Value F → Int
  | .int n => n
  | .real x => trunc x
  | _ => 0

/-- unity/unity_scene.go:150-151: the text; empty for a value that is not one. -/
def Value.string : Value F → Str
  | .text s => s
  | _ => []

/-- unity/unity_scene.go:152-159. -/
def setVec3 (v : Vec3 F) (rest : PathRest) (x : F) : Vec3 F :=
  if rest = .field "x".toList then { v with x := x }
  else if rest = .field "y".toList then { v with y := x }
  else if rest = .field "z".toList then { v with z := x }
  else v

/-- unity/unity_scene.go:160-169. -/
def setVec4 (v : Vec4 F) (rest : PathRest) (x : F) : Vec4 F :=
  if rest = .field "x".toList then { v with x := x }
  else if rest = .field "y".toList then { v with y := x }
  else if rest = .field "z".toList then { v with z := x }
  else if rest = .field "w".toList then { v with w := x }
  else v

/-- unity/unity_scene.go:170-179. -/
def setColor (v : Vec4 F) (rest : PathRest) (x : F) : Vec4 F :=
  if rest = .field "r".toList then { v with x := x }
  else if rest = .field "g".toList then { v with y := x }
  else if rest = .field "b".toList then { v with z := x }
  else if rest = .field "a".toList then { v with w := x }
  else v

/-- unity/unity_scene.go:130-186: one modification of a component, for the fields of `Comp`. -/
def modifyComp [Field F] (trunc : F → Int) (m : Modification F) : Comp F → Comp F
  | .filter r => if m.name = "m_Mesh".toList then .filter m.reference else .filter r
  | .mesh r => if m.name = "m_Mesh".toList then .mesh m.reference else .mesh r
  | .light t c i r o n =>
    if m.name = "m_Type".toList then .light (m.value.integer trunc) c i r o n
    else if m.name = "m_Color".toList then .light t (setColor c m.rest m.value.number) i r o n
    else if m.name = "m_Intensity".toList then .light t c m.value.number r o n
    else if m.name = "m_Range".toList then .light t c i m.value.number o n
    else if m.name = "m_SpotAngle".toList then .light t c i r m.value.number n
    else if m.name = "m_InnerSpotAngle".toList then .light t c i r o m.value.number
    else .light t c i r o n
  | .body a d r k =>
    if m.name = "m_Mass".toList then .body m.value.number d r k
    else if m.name = "m_Drag".toList then .body a m.value.number r k
    else if m.name = "m_AngularDrag".toList then .body a d m.value.number k
    else if m.name = "m_IsKinematic".toList then .body a d r (m.value.integer trunc)
    else .body a d r k
  | .box c s =>
    if m.name = "m_Center".toList then .box (setVec3 c m.rest m.value.number) s
    else if m.name = "m_Size".toList then .box c (setVec3 s m.rest m.value.number)
    else .box c s
  | .sphere c r =>
    if m.name = "m_Center".toList then .sphere (setVec3 c m.rest m.value.number) r
    else if m.name = "m_Radius".toList then .sphere c m.value.number
    else .sphere c r
  | .capsule c r l =>
    if m.name = "m_Center".toList then .capsule (setVec3 c m.rest m.value.number) r l
    else if m.name = "m_Radius".toList then .capsule c m.value.number l
    else if m.name = "m_Height".toList then .capsule c r m.value.number
    else .capsule c r l
  | .unknown => .unknown

/-- unity/unity_scene.go:130-186: one modification of an element. Simplified: names and flags of game objects, the
pose of transforms, flags and materials of renderers, and the fields of the other components that are modelled. -/
def modify [Field F] (trunc : F → Int) (m : Modification F) : Elem F → Elem F
  | .object o =>
    if m.name = "m_Name".toList then .object { o with name := m.value.string }
    else if m.name = "m_IsActive".toList then .object { o with active := m.value.integer trunc }
    else .object o
  | .transform t =>
    if m.name = "m_LocalPosition".toList then .transform { t with position := setVec3 t.position m.rest m.value.number }
    else if m.name = "m_LocalRotation".toList then .transform { t with rotation := setVec4 t.rotation m.rest m.value.number }
    else if m.name = "m_LocalScale".toList then .transform { t with scale := setVec3 t.scale m.rest m.value.number }
    else .transform t
  | .renderer e ms =>
    if m.name = "m_Enabled".toList then .renderer (m.value.integer trunc) ms
    else if m.name = "m_Materials".toList then
      match m.rest with
      | .data i => .renderer e (ms.set i m.reference)
      | _ => .renderer e ms
    else .renderer e ms
  | .other c => .other (modifyComp trunc m c)
  | .prefab s => .prefab s

/-- unity/unity_scene.go:115-187: the loop over the modifications of an instance; `s` is its scene. -/
def modifyAll [Field F] (trunc : F → Int) (s : Nat) (mods : List (Modification F)) (h : Heap F) : Heap F :=
  mods.foldl (fun h m =>
    match m.target with
    | some r =>
      match getElement h s r none with
      | some p => { h with elem := Function.update h.elem p ((h.elem p).map (modify trunc m)) }
      | none => h
    | none => h) h

/-! ### Loading -/

/-- The state of the loop over the documents: `objects` and `addedChildren`. -/
structure Loading (F : Type) where
  heap : Heap F
  objects : List Ptr
  added : List (Ref × Ptr)

/-- The new scene number `n` gets an element. -/
def Loading.put (st : Loading F) (n : Nat) (id : Int) (e : Elem F) : Loading F :=
  { st with heap := { st.heap with elem := Function.update st.heap.elem (n, id) (some e) } }

/-- unity/unity_scene.go:105-106: the father of the root of an instance is set. -/
def setFather (h : Heap F) (p : Ptr) (r : Ref) : Heap F :=
  match h.transform p with
  | some t => { h with elem := Function.update h.elem p (some (.transform { t with father := r })) }
  | none => h

/-- unity/unity_scene.go:101-114: the root of the instance loaded as scene `s` into scene `n`. -/
def placeRoot (n s : Nat) (parent : Option Ref) (st : Loading F) : Option (Loading F) :=
  match (st.heap.roots s).head? with
  | none => some st
  | some root =>
    match objectTransform st.heap root with
    | none => some { st with objects := st.objects ++ [root] }
    | some tr =>
      match parent with
      | none => none
      | some par =>
        let father : Ref := { par with guid := st.heap.guid n }
        let o := st.heap.object root
        let h := setFather st.heap tr father
        let found := match o with
          | some o => o.components.filter fun c => (findTransform h s c o.inst).isSome
          | none => []
        some { heap := h, objects := st.objects ++ [root], added := st.added ++ found.map fun _ => (father, tr) }

/-- unity/unity_scene.go:209-212: a game object is a root. -/
def isRoot (h : Heap F) (p : Ptr) : Bool :=
  match objectTransform h p with
  | some tr =>
    match h.transform tr, h.object p with
    | some t, some o => !t.father.valid && !validRef o.source
    | _, _ => false
  | none => false

/-- unity/unity_scene.go:216-222: one child is added. -/
def addInstance (n : Nat) (h : Heap F) (e : Ref × Ptr) : Heap F :=
  match sceneTransform h n e.1 none with
  | some p => addChild h p e.2
  | none => h

/-- unity/unity_scene.go:207-223: the end of the loading of scene `n`. -/
def finish (n : Nat) (st : Loading F) : Heap F :=
  let h := { st.heap with roots := Function.update st.heap.roots n (st.objects.filter (isRoot st.heap)) }
  st.added.foldl (addInstance n) h

/-- unity/unity_scene.go:57: a new scene. -/
def newScene (guid : Str) (h : Heap F) : Heap F :=
  { count := h.count + 1
    guid := Function.update h.guid h.count guid
    elem := fun p => if p.1 = h.count then none else h.elem p
    roots := Function.update h.roots h.count [] }

/-- unity/unity_scene.go:84-187: an instance of a prefab in scene `n`; `load` loads a prefab. -/
def loadInstance [Field F] (trunc : F → Int) (assets : Str → Option (List (Int × Doc F)))
    (load : Str → List (Int × Doc F) → Heap F → Option (Heap F)) (n : Nat) (id : Int) (p : PrefabDoc F)
    (st : Loading F) : Option (Loading F) :=
  match p.source with
  | none => some st
  | some src =>
    if src.valid = false then some st
    else
      match assets src.guid with
      | none => some st
      | some docs =>
        let s := st.heap.count
        match load src.guid docs st.heap with
        | none => none
        | some h =>
          match placeRoot n s p.parent { st with heap := h } with
          | none => none
          | some st => some ({ st with heap := modifyAll trunc s p.mods st.heap }.put n id (.prefab s))

/-- unity/unity_scene.go:62-205: one document of the file of scene `n`. -/
def loadDoc [Field F] (trunc : F → Int) (assets : Str → Option (List (Int × Doc F)))
    (load : Str → List (Int × Doc F) → Heap F → Option (Heap F)) (n : Nat) (st : Loading F) (d : Int × Doc F) :
    Option (Loading F) :=
  match d.2 with
  | .object o => some { st.put n d.1 (.object o) with objects := st.objects ++ [(n, d.1)] }
  | .transform t => some (st.put n d.1 (.transform { t with added := [] }))
  | .renderer e ms => some (st.put n d.1 (.renderer e ms))
  | .other c => some (st.put n d.1 (.other c))
  | .prefab p => loadInstance trunc assets load n d.1 p st

/-- unity/unity_scene.go:36-225 (`LoadSceneAsset`) with the GUID and the documents of the asset; `assets` are the
assets that can be opened. The first argument bounds the nesting of prefabs. The new scene has the number
`h.count`. -/
def loadScene [Field F] (trunc : F → Int) (assets : Str → Option (List (Int × Doc F))) :
    Nat → Str → List (Int × Doc F) → Heap F → Option (Heap F)
  | 0, _, _, _ => none
  | fuel + 1, guid, docs, h =>
    (docs.foldlM (loadDoc trunc assets (loadScene trunc assets fuel) h.count) ⟨newScene guid h, [], []⟩).map
      (finish h.count)

end Verif.Unity
