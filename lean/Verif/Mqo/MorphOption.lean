import Verif.Mqo.Core

/-! Model of `MorphPlugin.Apply` (mqo/morph_plugin.go:50-60) and of the option `-morph` (cmd/modelconv/main.go:326-339).
The option is given by its rules, a name and a number each; splitting of the text and `strconv.ParseFloat` are left
out. -/

namespace Verif.Mqo

open Verif.Geom

variable {F : Type}

/-- mqo/morph_plugin.go:52-56: one list of targets. `k` counts the targets already looked at, `ts` are those left. -/
def applyTargets [Add F] [Sub F] [Mul F] (m : MorphTargetList) (name : Str) (value : F) :
    Nat → List MorphTarget → List (Object F) → Option (List (Object F))
  | _, [], objs => some objs
  | k, t :: ts, objs =>
    if t.name = name then
      match m.apply objs k value with
      | some r => applyTargets m name value (k + 1) ts r.1
      | none => none
    else applyTargets m name value (k + 1) ts objs

/-- mqo/morph_plugin.go:51-57: all lists of targets. -/
def applyLists [Add F] [Sub F] [Mul F] (ls : List MorphTargetList) (name : Str) (value : F) (objs : List (Object F)) :
    Option (List (Object F)) :=
  ls.foldlM (fun objs m => applyTargets m name value 0 m.target objs) objs

/-- mqo/morph_plugin.go:50-60 (`MorphPlugin.Apply`): objects and materials. -/
def applyMorph [Add F] [Sub F] [Mul F] [One F] (ls : List MorphTargetList) (st : List (Object F) × List (Material F))
    (r : Str × F) : Option (List (Object F) × List (Material F)) :=
  match applyLists ls r.1 r.2 st.1, applyMaterialMorph st.2 r.1 r.2 with
  | some os, some ms => some (os, ms)
  | _, _ => none

/-- cmd/modelconv/main.go:326-339 (`-morph`). -/
def morphOption [Add F] [Sub F] [Mul F] [One F] (ls : List MorphTargetList) (rules : List (Str × F))
    (st : List (Object F) × List (Material F)) : Option (List (Object F) × List (Material F)) :=
  rules.foldlM (applyMorph ls) st

end Verif.Mqo
