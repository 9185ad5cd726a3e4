import Mathlib.Data.List.Basic

/-! Model of `UpdateBoneRef`, mqo/bone_plugin.go:100-110. -/

namespace Verif.Mqo

/-- mqo/bone_plugin.go:63-98 (`BoneOld`); `rest` is everything but the id and the references. -/
structure OldBone (R : Type) where
  id : Int
  parent : Int
  children : List Int
  rest : R

variable {R : Type}

/-- mqo/bone_plugin.go:104-109: the bones from place `i` on are added to their parents; `none` is the panic for a parent that does
not exist. The pointers of the list are different. -/
def linkRefs : Nat → List (OldBone R) → List (OldBone R) → Option (List (OldBone R))
  | _, [], acc => some acc
  | i, b :: bs, acc =>
    if 0 < b.parent then
      if (b.parent - 1).toNat < acc.length then
        linkRefs (i + 1) bs (acc.modify (b.parent - 1).toNat fun p => { p with children := p.children ++ [(i : Int) + 1] })
      else none
    else linkRefs (i + 1) bs acc

/-- mqo/bone_plugin.go:100-110 (`UpdateBoneRef`). -/
def updateBoneRef (bones : List (OldBone R)) : Option (List (OldBone R)) :=
  linkRefs 0 bones (bones.map fun b => { b with children := [] })

end Verif.Mqo
