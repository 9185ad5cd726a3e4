import Verif.Geom.Mat

/-! Model of gltfutil/gltf_joint.go. -/

namespace Verif.Gltf

open Verif.Geom

variable {F : Type}

/-! ### ResetJointMatrix -/

/-- A glTF node as far as `ResetJointMatrix` is concerned: the code looks at the rotation, the translation,
the skin and the children; scale and matrix are ignored by it. -/
structure JNode (F : Type) where
  trans : Vec3 F
  rot : Vec4 F
  hasSkin : Bool
  children : List Nat
deriving DecidableEq

/-- The rotation `{0, 0, 0, 1}`. -/
def noRot [Zero F] [One F] : Vec4 F := ⟨0, 0, 0, 1⟩

/-- gltfutil/gltf_joint.go:70-84: one child of a node with rotation `a`. -/
def turnChild [Add F] [Sub F] [Mul F] [Neg F] [One F] (a : Vec4 F) (c : JNode F) : JNode F :=
  let p2 := (a.mul ⟨c.trans.x, c.trans.y, c.trans.z, 1⟩).mul a.inverse
  { c with trans := ⟨p2.x, p2.y, p2.z⟩, rot := a.mul c.rot }

/-- gltfutil/gltf_joint.go:67-85; `none` is the panic for a child that does not exist. -/
def turnChildren [Add F] [Sub F] [Mul F] [Neg F] [One F] (a : Vec4 F) :
    List Nat → List (JNode F) → Option (List (JNode F))
  | [], l => some l
  | c :: cs, l => if c < l.length then turnChildren a cs (l.modify c (turnChild a)) else none

/-- gltfutil/gltf_joint.go:60-86: one node; the flag says if it was changed. -/
def resetNode [Add F] [Sub F] [Mul F] [Neg F] [Zero F] [One F] [DecidableEq F] (l : List (JNode F)) (i : Nat) :
    Option (List (JNode F) × Bool) :=
  match l[i]? with
  | none => some (l, false)
  | some n =>
    if n.rot = noRot ∨ n.hasSkin = true then some (l, false)
    else (turnChildren n.rot n.children (l.set i { n with rot := noRot })).map (·, true)

/-- gltfutil/gltf_joint.go:59-87: one pass over the nodes `is`. -/
def resetPass [Add F] [Sub F] [Mul F] [Neg F] [Zero F] [One F] [DecidableEq F] :
    List Nat → List (JNode F) → Bool → Option (List (JNode F) × Bool)
  | [], l, fixed => some (l, fixed)
  | i :: is, l, fixed =>
    match resetNode l i with
    | none => none
    | some (l, b) => resetPass is l (fixed || b)

/-- gltfutil/gltf_joint.go:57-91: at most `k` passes (10 in the code). -/
def resetPasses [Add F] [Sub F] [Mul F] [Neg F] [Zero F] [One F] [DecidableEq F] :
    Nat → List (JNode F) → Option (List (JNode F))
  | 0, l => some l
  | k + 1, l =>
    match resetPass (List.range l.length) l false with
    | none => none
    | some (l, fixed) => if fixed then resetPasses k l else some l

/-- gltfutil/gltf_joint.go:57-91: the nodes after `ResetJointMatrix`. -/
def resetNodes [Add F] [Sub F] [Mul F] [Neg F] [Zero F] [One F] [DecidableEq F] (l : List (JNode F)) :
    Option (List (JNode F)) := resetPasses 10 l

/-- gltfutil/gltf_joint.go:43-51: the new inverse bind matrix. -/
def resetBind [Add F] [Mul F] [Zero F] [One F] (m : Mat4 F) : Mat4 F :=
  ⟨1, 0, 0, 0, 0, 1, 0, 0, 0, 0, 1, 0,
   m.m0 * m.m12 + m.m1 * m.m13 + m.m2 * m.m14,
   m.m4 * m.m12 + m.m5 * m.m13 + m.m6 * m.m14,
   m.m8 * m.m12 + m.m9 * m.m13 + m.m10 * m.m14, 1⟩

/-! ### FixJointComponentType -/

/-- A glTF accessor, buffer view and buffer, as far as the code looks at them. Sizes are natural numbers
(Go: uint32). `ctype` is the component type: 2 is unsigned byte, 4 unsigned short. -/
structure Acc where
  view : Option Nat
  offset : Nat
  ctype : Nat
deriving DecidableEq

structure BufView where
  buffer : Nat
  offset : Nat
  length : Nat
  stride : Nat
deriving DecidableEq

structure Buf where
  data : List UInt8
  length : Nat
deriving DecidableEq

/-- The parts of a glTF document that `FixJointComponentType` changes. -/
structure JDoc where
  accs : List Acc
  views : List BufView
  bufs : List Buf
deriving DecidableEq

/-- gltfutil/gltf_joint.go:111-114: every byte becomes a little-endian 16 bit number. -/
def widen (l : List UInt8) : List UInt8 := l.flatMap fun b => [b, 0]

/-- gltfutil/gltf_joint.go:109-121: the data of a view is widened and moved to the end of its buffer;
`none` is a panic. -/
def widenView (d : JDoc) (v : Nat) : Option JDoc :=
  match d.views[v]? with
  | none => none
  | some view =>
    match d.bufs[view.buffer]? with
    | none => none
    | some buf =>
      if view.offset + view.length ≤ buf.data.length then
        let dst := widen ((buf.data.drop view.offset).take view.length)
        some { d with
          views := d.views.set v { view with length := view.length * 2, stride := view.stride * 2, offset := buf.data.length }
          bufs := d.bufs.set view.buffer ⟨buf.data ++ dst, buf.length + dst.length⟩ }
      else none

/-- gltfutil/gltf_joint.go:98-122: one `JOINTS_0` attribute; `fixed` are the views already done. (For other
attributes the code only looks the accessor up.) -/
def fixAttr (d : JDoc) (fixed : List Nat) (a : Nat) : Option (JDoc × List Nat) :=
  match d.accs[a]? with
  | none => none
  | some acc =>
    if acc.ctype = 2 then
      match acc.view with
      | none => none
      | some v =>
        match d.views[v]? with
        | none => none
        | some view =>
          if view.buffer < d.bufs.length then
            let d := { d with accs := d.accs.set a { acc with ctype := 4 } }
            if v ∈ fixed then some (d, fixed) else (widenView d v).map (·, v :: fixed)
          else none
    else some (d, fixed)

/-- gltfutil/gltf_joint.go:94-126: all `JOINTS_0` attributes of all primitives, in the order of the loops. -/
def fixAttrs : List Nat → JDoc → List Nat → Option (JDoc × List Nat)
  | [], d, fixed => some (d, fixed)
  | a :: as, d, fixed =>
    match fixAttr d fixed a with
    | none => none
    | some (d, fixed) => fixAttrs as d fixed

end Verif.Gltf
