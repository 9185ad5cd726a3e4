import Verif.Mqo.Core
import Mathlib.Algebra.Field.Defs

/-!
Model of the decisions and document edits of cmd/modelconv/main.go. Matching a name against the patterns of
an option (`path.Match`) is a parameter.
-/

namespace Verif.Cmd
open Verif.Geom Verif.Mqo

variable {F : Type}

/-- cmd/modelconv/main.go:54-56 (`isGltf`). -/
def isGltf (ext : Str) : Bool := ext == ".glb".toList || ext == ".gltf".toList || ext == ".vrm".toList

/-- cmd/modelconv/main.go:58-60 (`isMMD`). -/
def isMMD (ext : Str) : Bool := ext == ".pmx".toList || ext == ".pmd".toList

/-- cmd/modelconv/main.go:62-64 (`isMQO`). -/
def isMQO (ext : Str) : Bool := ext == ".mqo".toList || ext == ".mqoz".toList

/-- cmd/modelconv/main.go:70-75 (`defaultOutputExt`). -/
def defaultOutputExt (inputExt : Str) : Str := if isMQO inputExt then ".glb".toList else ".mqo".toList

/-- `filepath.Ext`: from the last dot of the last part of the path. `suffix` is what follows the position. -/
def ext (path : Str) : Str :=
  let r := path.reverse.takeWhile (fun c => c != '/' && c != '.')
  match path.reverse.drop r.length with
  | '.' :: _ => '.' :: r.reverse
  | _ => []

/-- `strings.ToLower`, for ASCII. -/
def lower (s : Str) : Str := s.map Char.toLower

/-- cmd/modelconv/main.go:167-183: the output path and type for the input, the option `-format` (empty if
not given) and the second argument, if there is one. -/
def outputOf (input format : Str) (arg : Option Str) : Str × Str :=
  let inputExt := lower (ext input)
  match arg with
  | none =>
    let outputExt := if format = [] then defaultOutputExt inputExt else '.' :: format
    (input.take (input.length - inputExt.length) ++ outputExt, outputExt)
  | some output => (output, if format = [] then lower (ext output) else '.' :: format)

/-- cmd/modelconv/main.go:202-221: the scale that is applied; `none` when there is nothing to do. -/
def scaleVec [Mul F] [Neg F] [One F] [DecidableEq F] (scale sx sy sz : F) (rot180 : Bool) : Option (Vec3 F) :=
  let v : Vec3 F := ⟨scale * sx, scale * sy, scale * sz⟩
  let v : Vec3 F := if rot180 then ⟨v.x * -1, v.y, v.z * -1⟩ else v
  if v.x = 1 ∧ v.y = 1 ∧ v.z = 1 then none else some v

/-- cmd/modelconv/main.go:257-259 with mqo/utils.go:31-35: the geometry of the objects under the scale (the
local transforms of the objects and the plugins are left out). -/
def applyScale [Field F] [DecidableEq F] (s : Option (Vec3 F)) (objects : List (Object F)) : List (Object F) :=
  match s with
  | none => objects
  | some v => objects.map (Object.applyTransform (Mat4.scaling v.x v.y v.z))

/-- cmd/modelconv/main.go:277-280: the index of the bone with a name; the last one counts. -/
def lastNamed (bones : List (Bone F)) (n : Str) : Option Nat :=
  (List.range bones.length).reverse.find? fun i => bones[i]?.map Bone.name == some n

/-- cmd/modelconv/main.go:276-291 (`-chparent`): `none` is the crash for an unknown parent. The map of the
names is made once in the code; it does not change because neither names nor ids do. -/
def chparent (bones : List (Bone F)) : List (Str × Str) → Option (List (Bone F))
  | [] => some bones
  | (b, p) :: rest =>
    match lastNamed bones b with
    | none => chparent bones rest
    | some i =>
      match (lastNamed bones p).bind (bones[·]?) with
      | none => none
      | some q => chparent (bones.modify i fun x => { x with parent := q.id }) rest

/-- cmd/modelconv/main.go:309-311: hides the objects that follow with a larger depth. -/
def hideRun (d : Int) : List (Object F) → List (Object F)
  | [] => []
  | o :: os => if d < o.depth then { o with visible := false } :: hideRun d os else o :: os

/-- cmd/modelconv/main.go:305-313: one round of the loop. -/
def hideAt (m : Str → Bool) (objs : List (Object F)) (idx : Nat) : List (Object F) :=
  match objs[idx]? with
  | none => objs
  | some o =>
    if m o.name then objs.take idx ++ { o with visible := false } :: hideRun o.depth (objs.drop (idx + 1))
    else objs

/-- cmd/modelconv/main.go:303-314 (`-hide`). -/
def hide (m : Str → Bool) (objs : List (Object F)) : List (Object F) :=
  (List.range objs.length).foldl (hideAt m) objs

/-- cmd/modelconv/main.go:316-324 (`-hidemat`). -/
def hideMaterials [Zero F] (m : Str → Bool) (mats : List (Material F)) : List (Material F) :=
  mats.map fun x => if m x.name then { x with name := x.name ++ "$IGNORE".toList, color := { x.color with w := 0 } } else x

end Verif.Cmd
