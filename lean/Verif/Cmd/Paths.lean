import Verif.Cmd.Main

/-! Model of what the program does with paths: external images of glTF files (gltfutil/gltf_utils.go), names of the
buffers and paths of Unity scenes (cmd/modelconv). The functions of `path/filepath` are modelled after their
documentation and source for systems with `/` as separator. -/

namespace Verif.Cmd
open Verif.Mqo (Str)

/-! ### Paths -/

/-- The parts of a path between the separators. -/
def splitSlash : Str → List Str
  | [] => [[]]
  | c :: cs =>
    if c = '/' then [] :: splitSlash cs
    else
      match splitSlash cs with
      | [] => [[c]]
      | x :: xs => (c :: x) :: xs

/-- One step of `filepath.Clean`; the list is the path so far, last part first. -/
def cleanStep (abs : Bool) (st : List Str) (c : Str) : List Str :=
  if c = [] ∨ c = ['.'] then st
  else if c = ['.', '.'] then
    match st with
    | [] => if abs then [] else [['.', '.']]
    | x :: r => if x = ['.', '.'] then ['.', '.'] :: st else r
  else c :: st

/-- The parts of the cleaned path. -/
def cleanParts (abs : Bool) (l : List Str) : List Str := (l.foldl (cleanStep abs) []).reverse

/-- A cleaned path: absolute or not, and its parts. -/
structure Path where
  abs : Bool
  parts : List Str
deriving DecidableEq

/-- `filepath.Clean`. -/
def clean (s : Str) : Path :=
  let abs := s.head? = some '/'
  ⟨abs, cleanParts abs (splitSlash s)⟩

/-- What is left of two lists of parts behind the common ones. -/
def stripCommon : List Str → List Str → List Str × List Str
  | a :: as, b :: bs => if a = b then stripCommon as bs else (a :: as, b :: bs)
  | as, bs => (as, bs)

/-- `filepath.Rel` on cleaned paths; `none` is an error. -/
def relPath (base targ : Path) : Option Path :=
  if base.abs ≠ targ.abs then none
  else
    let r := stripCommon base.parts targ.parts
    if r.1.head? = some ['.', '.'] then none
    else some ⟨false, r.1.map (fun _ => ['.', '.']) ++ r.2⟩

/-- The place a path names for a program that runs in `cwd` (without symbolic links). -/
def locate (cwd : List Str) (p : Path) : List Str :=
  if p.abs then p.parts else cleanParts true (cwd ++ p.parts)

/-! ### External images -/

abbrev Data := List UInt8

/-- The parts of `gltf.Image` that are used. -/
structure GImage where
  uri : Str
  mime : Str
  view : Option Nat
deriving DecidableEq

/-- gltfutil/gltf_utils.go:55-56: the content of the file that is opened for an image. A failing `filepath.Rel` gives
the empty path, which cannot be opened. -/
def openImage (fs : List Str → Option Data) (cwd : List Str) (srcDir uri : Str) : Option Data :=
  match relPath (clean srcDir) (clean uri) with
  | none => none
  | some p => fs (locate cwd p)

/-- gltfutil/gltf_utils.go:66-72: the type, if the image has none. -/
def imageMime (m : GImage) : Str :=
  if m.mime = [] then
    if (".png".toList).isSuffixOf (lower m.uri) then "image/png".toList else "image/jpeg".toList
  else m.mime

/-- gltfutil/gltf_utils.go:53-77: one image. `views` are the contents of the buffer views; `WriteBufferView` of the
library adds one. -/
def embedImage (fs : List Str → Option Data) (cwd : List Str) (srcDir : Str) (m : GImage) (views : List Data) :
    GImage × List Data :=
  if m.view = none ∧ m.uri ≠ [] then
    match openImage fs cwd srcDir m.uri with
    | none => (m, views)
    | some d => (⟨[], imageMime m, some views.length⟩, views ++ [d])
  else (m, views)

/-- gltfutil/gltf_utils.go:49-79 (`ToSingleFile`), the images. -/
def toSingleFile (fs : List Str → Option Data) (cwd : List Str) (srcDir : Str) :
    List GImage → List Data → List GImage × List Data
  | [], views => ([], views)
  | m :: ms, views =>
    let r := embedImage fs cwd srcDir m views
    let rest := toSingleFile fs cwd srcDir ms r.2
    (r.1 :: rest.1, rest.2)

/-! ### Names of buffers -/

/-- `%d`. -/
def decimal (n : Nat) : Str := Nat.toDigits 10 n

/-- cmd/modelconv/main.go:85-89: the names of the files for the buffers with number `i` and following; `stem` is the
name of the output without directory and extension. -/
def bufferNames (stem : Str) : Nat → List Str → List Str
  | _, [] => []
  | i, uri :: rest => (if uri = [] then stem ++ decimal i ++ ".bin".toList else uri) :: bufferNames stem (i + 1) rest

/-! ### Unity scenes -/

/-- cmd/modelconv/main.go:66-68 (`isUnity`). -/
def isUnity (e : Str) : Bool := e == ".unity".toList || e == ".prefab".toList || e == ".unitypackage".toList

/-- `strings.Index`: what comes before the first occurrence, and what begins with it. -/
def splitAt (pat : Str) : Str → Option (Str × Str)
  | [] => if pat = [] then some ([], []) else none
  | c :: cs =>
    if pat.isPrefixOf (c :: cs) then some ([], c :: cs)
    else (splitAt pat cs).map fun r => (c :: r.1, r.2)

/-- `strings.SplitN(input, "#", 2)`: the part before the first `#`, and the part behind it if there is one. -/
def splitHash (s : Str) : Str × Option Str :=
  let a := s.takeWhile (· != '#')
  match s.drop a.length with
  | [] => (a, none)
  | _ :: rest => (a, some rest)

/-- `"Assets/"`. -/
def assetsDir : Str := "Assets/".toList

/-- cmd/modelconv/utils.go:59-67: the file or directory with the assets, and the path of the scene in it. -/
def unityPaths (input : Str) : Str × Str :=
  match splitHash input with
  | (a, some b) => (a, b)
  | (a, none) =>
    match splitAt assetsDir input with
    | some (pre, rest) =>
      if lower (ext input) ≠ ".unitypackage".toList then (pre ++ rest.take 6, rest) else (a, [])
    | none => (a, [])

/-- cmd/modelconv/utils.go:70-74: whether it is opened as a package. -/
def opensPackage (source : Str) : Bool := (".unitypackage".toList).isSuffixOf source

/-- `filepath.Dir`, cleaned: the parts of the path without the last one. -/
def dirOf (s : Str) : Path :=
  let abs := s.head? = some '/'
  ⟨abs, cleanParts abs (splitSlash s).dropLast⟩

/-- cmd/modelconv/main.go:382-390: the directory for the textures of a Unity scene. `none` is the panic for a path
without `Assets/`. -/
def unityBaseDir (input : Str) : Option Path :=
  if isUnity (lower (ext input)) ∧ ¬ opensPackage input then
    match splitHash input with
    | (a, some _) => some (dirOf a)
    | (_, none) => (splitAt assetsDir input).map fun r => dirOf (r.1 ++ r.2.take 6)
  else some (dirOf input)

/-- The path with these parts, as it is written. -/
def joinSlash : List Str → Str
  | [] => []
  | [a] => a
  | a :: b :: rest => a ++ '/' :: joinSlash (b :: rest)

/-- unity/unity_assets.go:270-302 (`scanAssets`): the assets by path, for a directory `source` of assets. `files` are
the places of the files in it that have a readable meta file (without `.meta`), with the identifiers in them. The paths
are relative to the directory that `source` is in. -/
def scanAssets (source : Path) (files : List (List Str × Str)) : List (Str × Str) :=
  files.map fun f => (joinSlash (f.1.drop (source.parts.length - 1)), f.2)

/-- unity/unity_scene.go:13-34 (`LoadScene`): the path of the scene that is loaded; `none` is an error. The assets are
in no particular order in the code. -/
def chooseScene (paths : List Str) (scene : Str) : Option Str :=
  if scene ∈ paths then some scene
  else
    let scenes := paths.filter fun p => (".unity".toList).isSuffixOf p
    if scene = [] ∧ scenes.length = 1 then scenes.getLast? else none

/-- cmd/modelconv/utils.go:58-80 for a directory: the scene that is loaded. -/
def loadedScene (input : Str) (files : List (List Str × Str)) : Option Str :=
  let names := unityPaths input
  chooseScene ((scanAssets (clean names.1) files).map (·.1)) names.2

end Verif.Cmd
