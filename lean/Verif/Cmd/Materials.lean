import Verif.Cmd.Main
import Verif.Gltf.Material

/-! Model of the options of cmd/modelconv/main.go that change materials. Patterns are given by the names they match;
`parse` is `strconv.ParseFloat`. -/

namespace Verif.Cmd

open Verif.Geom Verif.Mqo

variable {F : Type}

/-- mqo/mqo.go:160-165 (`SetGltfAlphaMode`) with `NewMaterialEx2` (mqo/mqo.go:175-182). -/
def setAlphaMode (m : Material F) (mode : Int) : Material F :=
  let e : Ex2 F := match m.ex2 with
    | some e => if e.shaderName = "glTF".toList then e else ⟨[], "glTF".toList, [], [], []⟩
    | none => ⟨[], "glTF".toList, [], [], []⟩
  { m with ex2 := some { e with
      shaderParams := ("AlphaMode".toList, .int mode) :: e.shaderParams.filter fun p => p.1 ≠ "AlphaMode".toList } }

/-- cmd/modelconv/main.go:320-321, 357-358. -/
def ignoreMaterial [Zero F] (m : Material F) : Material F :=
  { m with name := m.name ++ "$IGNORE".toList, color := { m.color with w := 0 } }

/-- cmd/modelconv/main.go:349-367: a material with a name that matches. `none` is the exit of the program. -/
def alphaRule [Zero F] [One F] (parse : Str → Option F) (v : Str) (m : Material F) : Option (Material F) :=
  if v = "opaque".toList then some { setAlphaMode m 1 with color := { m.color with w := 1 } }
  else if v = "mask".toList then some (setAlphaMode m 2)
  else if v = "blend".toList then some (setAlphaMode m 3)
  else if v = "0".toList then some (ignoreMaterial m)
  else
    match parse v with
    | some a =>
      if (Gltf.ofMaterial m).shaderName = "glTF".toList then some { setAlphaMode m 3 with color := { m.color with w := a } }
      else some { m with color := { m.color with w := a } }
    | none => none

/-- cmd/modelconv/main.go:348-368: one rule and one material. -/
def alphaStep [Zero F] [One F] (parse : Str → Option F) (m : Material F) (r : (Str → Bool) × Str) : Option (Material F) :=
  if r.1 m.name then alphaRule parse r.2 m else some m

/-- cmd/modelconv/main.go:341-370 (`-alpha`): the rules with a value. The program works rule by rule on all materials;
as a material does not depend on others this is the same for each (but if a value is invalid, the program always ends). -/
def alphaOverrides [Zero F] [One F] (parse : Str → Option F) (rules : List ((Str → Bool) × Str)) (mats : List (Material F)) :
    Option (List (Material F)) :=
  rules.foldlM (fun mats r => mats.mapM fun m => alphaStep parse m r) mats

/-- cmd/modelconv/main.go:372-380 (`-unlit`). -/
def unlit (m : Str → Bool) (mats : List (Material F)) : List (Material F) :=
  mats.map fun x => if m x.name then { x with shader := 1, ex2 := none } else x

/-- cmd/modelconv/main.go:316-324, 341-380: the options in the order of the program. -/
def materialOptions [Zero F] [One F] (parse : Str → Option F) (hidemat : Str → Bool) (rules : List ((Str → Bool) × Str))
    (unlits : Str → Bool) (mats : List (Material F)) : Option (List (Material F)) :=
  (alphaOverrides parse rules (hideMaterials hidemat mats)).map (unlit unlits)

end Verif.Cmd
