import Verif.Mqo.Core

/-! Model of the node hierarchy, the bone nodes and the material numbers of converter/mqo2gltf.go. -/

namespace Verif.Conv

open Verif.Geom
open Verif.Mqo (Str Bone Object Material MorphTargetList)

variable {F : Type}

/-! ### Bone nodes -/

/-- The parts of `gltf.Node` that `addBoneNodes` fills in. -/
structure GNode (F : Type) where
  name : Str
  translation : Vec3 F
  children : List Nat
deriving DecidableEq

/-- converter/mqo2gltf.go:181-189: the maps from bone ids to nodes and bones; the last bone with an id
wins. The number does not include the nodes in front of the bone nodes. -/
def findBone (bones : List (Bone F)) (id : Int) : Option Nat :=
  ((bones.zipIdx.filter fun p => p.1.id = id).getLast?).map (·.2)

/-- converter/mqo2gltf.go:191-206: one bone; `base` is the number of nodes in front of the bone nodes.
The state is the list of bone nodes and the nodes added to the scene. `none` is the nil dereference for
an unknown parent. -/
def linkBone [Sub F] [Mul F] (scale : F) (base : Nat) (bones : List (Bone F))
    (st : List (GNode F) × List Nat) (b : Bone F) : Option (List (GNode F) × List Nat) :=
  match findBone bones b.id with
  | none => none
  | some i =>
    if 0 < b.parent then
      match findBone bones b.parent with
      | none => none
      | some p =>
        match bones[p]? with
        | none => none
        | some parent =>
          let nodes := st.1.modify i fun n => { n with translation := (b.pos.sub parent.pos).scale scale }
          some (nodes.modify p fun n => { n with children := n.children ++ [base + i] }, st.2)
    else
      some (st.1.modify i fun n => { n with translation := b.pos.scale scale }, st.2 ++ [base + i])

/-- The loop of converter/mqo2gltf.go:191-206. -/
def linkBones [Sub F] [Mul F] (scale : F) (base : Nat) (bones : List (Bone F)) :
    List (Bone F) → List (GNode F) × List Nat → Option (List (GNode F) × List Nat)
  | [], st => some st
  | b :: bs, st =>
    match linkBone scale base bones st b with
    | none => none
    | some st => linkBones scale base bones bs st

/-- converter/mqo2gltf.go:179-208 (`addBoneNodes`): the bone nodes and the nodes added to the scene. -/
def addBoneNodes [Sub F] [Mul F] [Zero F] (scale : F) (base : Nat) (bones : List (Bone F)) :
    Option (List (GNode F) × List Nat) :=
  linkBones scale base bones bones (bones.map fun b => ⟨b.name, ⟨0, 0, 0⟩, []⟩, [])

/-- converter/mqo2gltf.go:286-291 (`addSkin`): the inverse bind matrix of a joint. -/
def inverseBind [Mul F] [Neg F] [Zero F] [One F] (scale : F) (b : Bone F) : Mat4 F :=
  Mat4.translation (-b.pos.x * scale) (-b.pos.y * scale) (-b.pos.z * scale)

/-! ### Object nodes -/

/-- converter/mqo2gltf.go:876-888: the parent of every object node. An object is given by its depth and
whether its node has the default matrix; `i` is the number of the node, `path` is `nodePath`. Go stores
the relation as lists of children and scene roots; here it is the parent of each node in turn (`none`:
scene root). The outer `none` is the panic for a negative depth. -/
def nodeParents (ignore : Bool) : Nat → List Nat → List (Int × Bool) → Option (List (Option Nat))
  | _, _, [] => some []
  | i, path, (d, plain) :: rest =>
    if d < 0 ∧ d < path.length then none
    else
      let path := if d < path.length then path.take d.toNat else path
      let parent := if !ignore then path.getLast? else none
      match nodeParents ignore (i + 1) (if plain then path ++ [i] else path) rest with
      | none => none
      | some r => some (parent :: r)

/-! ### Materials -/

/-- converter/mqo2gltf.go:755-760, 766: the objects that become nodes. -/
def targetObjects (ignoreHierarchy : Bool) (lists : List MorphTargetList) (objects : List (Object F)) :
    List (Object F) :=
  objects.filter fun o => (!ignoreHierarchy || (o.visible && 0 < o.faces.length)) &&
    !(lists.any fun m => m.target.any fun t => t.name = o.name)

/-- converter/mqo2gltf.go:739-743, 768-770: the material numbers of the faces of visible objects. -/
def materialUsed (targets : List (Object F)) (i : Nat) : Bool :=
  targets.any fun o => o.visible && o.faces.any fun f => f.material = (i : Int)

/-- converter/mqo2gltf.go:780. -/
def ignoredName (name : Str) : Bool :=
  (['$', 'I', 'G', 'N', 'O', 'R', 'E'] : Str).isSuffixOf name ||
    (['$', 'M', 'O', 'R', 'P', 'H', ':'] : Str).isPrefixOf name

/-- converter/mqo2gltf.go:774-784: the materials with number `i` and following, `count` already have a
number. -/
def materialMapFrom (used : Nat → Bool) : Nat → Nat → List (Material F) → List (Int × Nat)
  | _, _, [] => []
  | i, count, m :: ms =>
    if used i && !ignoredName m.name then ((i : Int), count) :: materialMapFrom used (i + 1) (count + 1) ms
    else materialMapFrom used (i + 1) count ms

/-- converter/mqo2gltf.go:774-784. -/
def materialMap (used : Nat → Bool) (materials : List (Material F)) : List (Int × Nat) :=
  materialMapFrom used 0 0 materials

/-- converter/mqo2gltf.go:910-916: the materials that are exported, by their number in the source. -/
def exportedMaterials (used : Nat → Bool) (materials : List (Material F)) : List Nat :=
  (List.range materials.length).filter fun i => ((materialMap used materials).lookup (i : Int)).isSome

end Verif.Conv
