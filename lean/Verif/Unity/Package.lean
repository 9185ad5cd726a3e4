import Verif.Unity.Yaml

/-!
Model of the paths used when a package is extracted (unity/unity_assets.go:184-232).
-/

namespace Verif.Unity

/-- The parts of a path between slashes. -/
def splitSlash : Str → List Str
  | [] => [[]]
  | c :: cs =>
    if c = '/' then [] :: splitSlash cs
    else match splitSlash cs with
      | p :: ps => (c :: p) :: ps
      | [] => [[c]]

/-- `filepath.Clean` for an absolute path, on its parts: empty parts and `.` are dropped, `..` removes the
part before it (at the root: nothing). `acc` are the parts so far, last first. -/
def cleanParts : List Str → List Str → List Str
  | acc, [] => acc.reverse
  | acc, p :: ps =>
    if p = [] ∨ p = ['.'] then cleanParts acc ps
    else if p = ['.', '.'] then cleanParts acc.tail ps
    else cleanParts (p :: acc) ps

/-- unity/unity_assets.go:211: `filepath.Join(dst, header.Name)`, as parts, for a directory given by its
parts. -/
def entryPath (dst : List Str) (name : Str) : List Str := cleanParts [] (dst ++ splitSlash name)

/-- unity/unity_assets.go:184-232 (`extractPackage`): the paths of the directories and files that are
created, in order. Errors of the file system are left out (they end the loop early). -/
def extractPaths (dst : List Str) (names : List Str) : List (List Str) := names.map (entryPath dst)

end Verif.Unity
