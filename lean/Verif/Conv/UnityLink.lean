import Verif.Conv.UnityToMqo
import Verif.Unity.Scene

/-! What the converter of converter/unity2mqo.go reads from a loaded Unity scene: the game objects with their
components, as the accessors of unity/unity.go and unity/unity_components.go give them. -/

namespace Verif.Conv

open Verif.Geom
open Verif.Mqo (Str)
open Verif.Unity (Ref Ptr Heap Elem Comp getElement objectTransform transformObject getChildren)

variable {F : Type}

/-- unity/unity.go:54-58 (`Ref`). -/
def refOf (r : Ref) : URef := ⟨r.fileID, r.guid, r.type⟩

/-- unity/unity.go:85-106: the components of a game object, in order, as far as they are found. -/
def componentsOf (h : Heap F) (p : Ptr) : List (Elem F) :=
  match h.object p with
  | some o => o.components.filterMap fun c => (getElement h p.1 c o.inst).bind h.elem
  | none => []

/-- unity/unity.go:85-95 (`GetComponent`): the first component of a type; `f` takes the components of the type. -/
def getComponent {α : Type} (h : Heap F) (p : Ptr) (f : Elem F → Option α) : Option α := (componentsOf h p).findSome? f

/-- unity/unity.go:97-106 (`GetComponents`): all components of a type. -/
def getComponents {α : Type} (h : Heap F) (p : Ptr) (f : Elem F → Option α) : List α := (componentsOf h p).filterMap f

/-- `*unity.MeshFilter`: its mesh. -/
def asFilter : Elem F → Option (Option URef)
  | .other (.filter r) => some (r.map refOf)
  | _ => none

/-- `*unity.MeshRenderer`: nulls in the list of materials (a panic) are left out. -/
def asRenderer : Elem F → Option URenderer
  | .renderer e ms => some ⟨decide (e ≠ 0), ms.filterMap (Option.map Ref.guid)⟩
  | _ => none

/-- `*unity.Light`. -/
def asLight : Elem F → Option (ULight F)
  | .other (.light t c i r o n) => some ⟨t, c, i, r, o, n⟩
  | _ => none

/-- `*unity.Rigidbody`. -/
def asBody : Elem F → Option (URigidbody F)
  | .other (.body m d a k) => some ⟨m, d, a, decide (k ≠ 0)⟩
  | _ => none

/-- `*unity.BoxCollider`. -/
def asBox : Elem F → Option (Vec3 F × Vec3 F)
  | .other (.box c s) => some (c, s)
  | _ => none

/-- `*unity.SphereCollider`. -/
def asSphere : Elem F → Option (Vec3 F × F)
  | .other (.sphere c r) => some (c, r)
  | _ => none

/-- `*unity.CapsuleCollider`. -/
def asCapsule : Elem F → Option (Vec3 F × F × F)
  | .other (.capsule c r l) => some (c, r, l)
  | _ => none

/-- `*unity.MeshCollider`; one without a mesh (a panic) is left out. -/
def asMesh : Elem F → Option URef
  | .other (.mesh r) => r.map refOf
  | _ => none

/-- Numbers for the game objects. They are pointers in the program; any numbers will do that tell them apart. -/
structure Numbering where
  num : Ptr → Nat
  ptr : Nat → Ptr
  inv : ∀ p, ptr (num p) = p

/-- converter/unity2mqo.go:79-92, 206-217: the transform of a game object. -/
def linkTransform (N : Numbering) (h : Heap F) (q : Ptr) : Option (UTransform F) :=
  (h.transform q).map fun t => ⟨t.position, t.rotation, t.scale,
    (getChildren h q).map fun c => (transformObject h c).map N.num⟩

/-- converter/unity2mqo.go:79-303: what the converter reads from a game object. -/
def linkObject (N : Numbering) (h : Heap F) (p : Ptr) : UObject F where
  name := ((h.object p).map fun o => o.name).getD []
  active := ((h.object p).map fun o => decide (o.active ≠ 0)).getD false
  transform := (objectTransform h p).bind (linkTransform N h)
  meshFilter := getComponent h p asFilter
  meshRenderer := getComponent h p asRenderer
  light := getComponent h p asLight
  boxes := getComponents h p asBox
  spheres := getComponents h p asSphere
  capsules := getComponents h p asCapsule
  meshColliders := getComponents h p asMesh
  rigidbody := getComponent h p asBody

/-- The scene the converter gets: the game objects and roots are those of the loaded scene number `n`, the materials,
textures and meshes those of `assets`. -/
def linkScene (N : Numbering) (assets : UScene F) (h : Heap F) (n : Nat) : UScene F :=
  { assets with
    object := fun k => linkObject N h (N.ptr k)
    roots := (h.roots n).map N.num }

end Verif.Conv
