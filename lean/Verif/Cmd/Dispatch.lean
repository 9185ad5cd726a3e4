import Verif.Cmd.Paths
import Mathlib.Algebra.Field.Defs

/-! Model of which conversion the command does: cmd/modelconv/main.go:154-254, 390-395, `saveDocument` 117-152,
`saveGltfDocument` 77-115, cmd/modelconv/utils.go:29-103, with the default scales of the converters. -/

namespace Verif.Cmd
open Verif.Geom Verif.Mqo

variable {F : Type}

/-- The kinds of documents that can be read. -/
inductive Kind where
  | mqo | gltf | mmd | unity | fbx
deriving DecidableEq

/-- cmd/modelconv/utils.go:29-95 (`loadDocument`): by which reader a file is read; `none` is an error. -/
def inputKind (e : Str) : Option Kind :=
  if isMQO e then some .mqo
  else if isGltf e then some .gltf
  else if isMMD e then some .mmd
  else if isUnity e then some .unity
  else if e = ".fbx".toList then some .fbx
  else none

/-- What is in a file that is written. -/
inductive Format where
  | glb | gltf | vrm | mqoText | mqoZip | pmx | fbxText
deriving DecidableEq

/-- cmd/modelconv/main.go:77-115 (`saveGltfDocument`). -/
def gltfFormat (e : Str) : Option Format :=
  if e = ".glb".toList then some .glb
  else if e = ".gltf".toList then some .gltf
  else if e = ".vrm".toList then some .vrm
  else none

/-- cmd/modelconv/main.go:117-152 (`saveDocument`), with mqo/mqo_writer.go:269-272 and cmd/modelconv/utils.go:97-103: the
format of the file and the animations that are added to it. -/
def saveFormat (path e : Str) (inputs : List Str) : Option (Format × List Str) :=
  if isGltf e then
    (gltfFormat e).map fun f => (f, inputs.tail.filter fun i => lower (ext i) = ".vmd".toList)
  else if isMQO e then some (if (".mqoz".toList).isSuffixOf path then .mqoZip else .mqoText, [])
  else if e = ".pmx".toList then some (.pmx, [])
  else none

/-- cmd/modelconv/main.go:223-254 and 390-395: the format of the file that is written and the animations in it; `none` is an
error. `inputs` are all arguments but the output, the first one being the model. -/
def written (inputs : List Str) (path e : Str) : Option (Format × List Str) :=
  match inputs with
  | [] => none
  | input :: _ =>
    let ie := lower (ext input)
    if isGltf ie && isGltf e then (gltfFormat e).map fun f => (f, [])
    else if ie = ".fbx".toList ∧ e = ".fbx".toList then some (.fbxText, [])
    else if (inputKind ie).isSome then saveFormat path e inputs
    else none

/-- cmd/modelconv/main.go:202-208: the option `-scale`, 0 for the default. -/
def autoScale [Field F] [DecidableEq F] (scale : F) (e : Str) : F :=
  if scale = 0 then (if isMMD e then 80 else 1) else scale

/-- The factor by which a reader changes lengths: converter/unity2mqo.go:46-48, the others leave them. -/
def loadFactor [Field F] : Kind → F
  | .unity => 1000
  | _ => 1

/-- The factor by which a writer changes lengths: converter/mqo2gltf.go:149-151, converter/mqo2mmd.go:15. -/
def saveFactor [Field F] : Format → F
  | .glb | .gltf | .vrm => 1 / 1000
  | .pmx => 1 / 80
  | _ => 1

/-- The factor by which lengths change from the input to the output, with the option `-scale`. -/
def lengthFactor [Field F] [DecidableEq F] (scale : F) (input path e : Str) : Option F :=
  let ie := lower (ext input)
  match written [input] path e, inputKind ie with
  | some (f, _), some k =>
    if isGltf ie && isGltf e then some (autoScale scale ie)
    else if f = .fbxText then some 1
    else some (loadFactor k * autoScale scale ie * saveFactor f)
  | _, _ => none

end Verif.Cmd
