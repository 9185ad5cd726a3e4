import Verif.Geom.Mat

/-! Model of `ApplyTransform` (gltfutil/gltf_utils.go:81-161). -/

namespace Verif.Gltf

open Verif.Geom

variable {F : Type}

/-- An accessor of positions with its decoded elements. Simplified: the elements belong to the accessor (the
code decodes and encodes them in the buffer; accessors with overlapping bytes are not modelled). -/
structure PAcc (F : Type) where
  data : List (Vec3 F)
  min : Vec3 F
  max : Vec3 F
deriving DecidableEq

/-- A primitive: the accessor of its positions and, per morph target, of the position deltas. -/
structure TPrim where
  position : Option Nat
  targets : List (Option Nat)

/-- The parts of a document `ApplyTransform` works on: accessors, the primitives of all meshes, the
translations of the nodes and, per skin, the inverse bind matrices. -/
structure TDoc (F : Type) where
  accs : List (PAcc F)
  prims : List TPrim
  nodes : List (Vec3 F)
  skins : List (List (Mat4 F))

/-- gltfutil/gltf_utils.go:91-98: `accs[a] = diff`, if there is an accessor. -/
def setDiff (diff : Bool) (a : Option Nat) (accs : Nat → Option Bool) : Nat → Option Bool :=
  fun j => if a = some j then some diff else accs j

/-- gltfutil/gltf_utils.go:91-98: one primitive; `accs` is the map from accessors to `diff`. -/
def markPrim (p : TPrim) (accs : Nat → Option Bool) : Nat → Option Bool :=
  p.targets.foldl (fun accs t => setDiff true t accs) (setDiff false p.position accs)

/-- gltfutil/gltf_utils.go:88-100. -/
def markPrims (ps : List TPrim) : Nat → Option Bool :=
  ps.foldl (fun accs p => markPrim p accs) (fun _ => none)

/-- `math.Min` and `math.Max` for numbers (NaN not modelled). -/
def fmin [FloatOps F] (a b : F) : F := if lt b a then b else a

/-- `math.Max`. -/
def fmax [FloatOps F] (a b : F) : F := if lt a b then b else a

/-- gltfutil/gltf_utils.go:112-124: transforms the elements and collects the bounds; `big` is
`math.MaxFloat32`. -/
def transformAcc [Add F] [Mul F] [Neg F] [FloatOps F] (big : F) (m : Mat4 F) (acc : PAcc F) : PAcc F :=
  let data := acc.data.map m.applyTo
  ⟨data,
    data.foldl (fun b v => ⟨fmin b.x v.x, fmin b.y v.y, fmin b.z v.z⟩) ⟨big, big, big⟩,
    data.foldl (fun b v => ⟨fmax b.x v.x, fmax b.y v.y, fmax b.z v.z⟩) ⟨-big, -big, -big⟩⟩

/-- gltfutil/gltf_utils.go:85-86: the matrix for differences. The code clones a new identity matrix (not
`transformMat`). -/
def scaleMat [Zero F] [One F] : Mat4 F := { (Mat4.one : Mat4 F) with m12 := 0, m13 := 0, m14 := 0 }

/-- gltfutil/gltf_utils.go:101-131: the keys of the map in some order; `none` is the panic for an accessor
that does not exist. -/
def transformAccs [Zero F] [One F] [Add F] [Mul F] [Neg F] [FloatOps F] (big : F) (m : Mat4 F)
    (diff : Nat → Option Bool) : List Nat → List (PAcc F) → Option (List (PAcc F))
  | [], accs => some accs
  | a :: as, accs =>
    match accs[a]? with
    | none => none
    | some acc =>
      transformAccs big m diff as (accs.set a (transformAcc big (if diff a = some true then scaleMat else m) acc))

/-- gltfutil/gltf_utils.go:148-155: one inverse bind matrix. -/
def scaleBind [Zero F] [One F] [Add F] [Mul F] [Div F] [FloatOps F] (b : Mat4 F) : Mat4 F :=
  let b := (scaleMat : Mat4 F).mul b
  let x := (⟨b.m0, b.m1, b.m2⟩ : Vec3 F).normalize
  let y := (⟨b.m4, b.m5, b.m6⟩ : Vec3 F).normalize
  let z := (⟨b.m8, b.m9, b.m10⟩ : Vec3 F).normalize
  { b with m0 := x.x, m1 := x.y, m2 := x.z, m4 := y.x, m5 := y.y, m6 := y.z, m8 := z.x, m9 := z.y, m10 := z.z }

/-- gltfutil/gltf_utils.go:81-161; `order` is the order in which the map is iterated. -/
def applyTransform [Zero F] [One F] [Add F] [Mul F] [Neg F] [Div F] [FloatOps F] (big : F) (m : Mat4 F)
    (order : List Nat) (d : TDoc F) : Option (TDoc F) :=
  (transformAccs big m (markPrims d.prims) order d.accs).map fun accs =>
    { d with accs := accs, nodes := d.nodes.map (scaleMat : Mat4 F).applyTo, skins := d.skins.map (·.map scaleBind) }

end Verif.Gltf
