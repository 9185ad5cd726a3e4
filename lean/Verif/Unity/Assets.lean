import Verif.Unity.Package
import Mathlib.Data.List.Infix

/-! Model of opening a package: unity/unity_assets.go:60-182 with the extraction 184-232. The archive is the list of its
entries; the file system is given by its directories and the contents of its files. -/

namespace Verif.Unity

abbrev Data := List UInt8

/-- An entry of the archive with the types that are used (unity/unity_assets.go:213-229). -/
inductive TarEntry where
  | dir (name : Str)
  | file (name : Str) (data : Data)
  | other
deriving DecidableEq

/-- Directories and files by their parts. -/
structure Fs where
  dirs : List (List Str)
  files : List Str → Option Data

/-- `os.MkdirAll`: all directories on the way; `none` if there is a file. -/
def Fs.mkdirAll (fs : Fs) (p : List Str) : Option Fs :=
  if (p.inits.any fun q => (fs.files q).isSome) then none else some { fs with dirs := fs.dirs ++ p.inits }

/-- `os.Create` and `io.Copy`: `none` if the directory is missing or there is a directory of that name. -/
def Fs.create (fs : Fs) (p : List Str) (d : Data) : Option Fs :=
  if p.dropLast ∈ fs.dirs ∧ p ∉ fs.dirs then some { fs with files := fun q => if q = p then some d else fs.files q }
  else none

/-- unity/unity_assets.go:211-229: one entry. -/
def extractEntry (dst : List Str) (fs : Fs) (e : TarEntry) : Option Fs :=
  match e with
  | .dir n =>
    let p := entryPath dst n
    if p ∈ fs.dirs ∨ (fs.files p).isSome = true then some fs else fs.mkdirAll p
  | .file n d => fs.create (entryPath dst n) d
  | .other => some fs

/-- unity/unity_assets.go:184-232 (`extractPackage`), after the archive has been read. -/
def extract (dst : List Str) (entries : List TarEntry) (fs : Fs) : Option Fs := entries.foldlM (extractEntry dst) fs

/-- unity/unity_assets.go:25-28. -/
structure Asset where
  guid : Str
  path : Str
deriving DecidableEq

/-- unity/unity_assets.go:153-179: the asset of one directory. `text` turns bytes into a string. -/
def scanOne (text : Data → Str) (fs : Fs) (dst : List Str) (g : Str) : Option Asset :=
  (fs.files (dst ++ [g, "pathname".toList])).map fun d => ⟨g, text d⟩

/-- unity/unity_assets.go:139-182 (`scanPackage`): the assets in the order of `os.ReadDir`; `names` are the names of
the directories in `dst` in this order. Left out: a directory called `pathname`, which is an error. -/
def scanPackage (text : Data → Str) (fs : Fs) (dst : List Str) (names : List Str) : List Asset :=
  names.filterMap (scanOne text fs dst)

/-- unity/unity_assets.go:84-86 (`GetAsset`). -/
def getAsset (as : List Asset) (guid : Str) : Option Asset := (as.filter fun a => a.guid = guid).getLast?

/-- unity/unity_assets.go:88-90 (`GetAssetByPath`): a later asset with the same path replaces an earlier one. -/
def getAssetByPath (as : List Asset) (path : Str) : Option Asset := (as.filter fun a => a.path = path).getLast?

/-- unity/unity_assets.go:112-118 (`Open`): the content of an asset. -/
def openAsset (fs : Fs) (dst : List Str) (as : List Asset) (path : Str) : Option Data :=
  match getAssetByPath as path with
  | some a => fs.files (dst ++ [a.guid, "asset".toList])
  | none => none

/-- unity/unity_material.go:73-101 (`LoadMaterial`), from the documents of the file: the first one that has no tag or the
tag of materials and can be decoded. `none` is an error. -/
def loadMaterial {α : Type} (decode : YDoc → Option α) (docs : List YDoc) : Option α :=
  (docs.filter fun d => d.tag = [] ∨ d.tag = "tag:unity3d.com,2011:21".toList).findSome? decode

end Verif.Unity
