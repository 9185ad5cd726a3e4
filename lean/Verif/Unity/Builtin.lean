import Verif.Geom.Vec
import Mathlib.Algebra.Field.Defs

/-!
Model of unity/unity_builtin.go. Trigonometry is a parameter. Numbers are exact (the code computes in
float64 and rounds to float32). Indices are integers because the code subtracts.
-/

namespace Verif.Unity
open Verif.Geom

/-- `math.Cos`, `math.Sin` and `math.Pi`. -/
structure Trig (F : Type) where
  cos : F → F
  sin : F → F
  pi : F

/-- A mesh: vertices, faces, texture coordinates for every corner of every face. -/
structure Mesh (F : Type) where
  vs : List (Vec3 F)
  faces : List (List Int)
  uvs : List (List (F × F))

variable {F : Type} [Field F]

/-- unity/unity_builtin.go:47-72 (`Cube`). -/
def cube : Mesh F :=
  let h : F := 1 / 2
  { vs := [⟨-h, -h, -h⟩, ⟨h, -h, -h⟩, ⟨h, h, -h⟩, ⟨-h, h, -h⟩, ⟨-h, -h, h⟩, ⟨h, -h, h⟩, ⟨h, h, h⟩, ⟨-h, h, h⟩]
    faces := [[0, 1, 2, 3], [7, 6, 5, 4], [4, 5, 1, 0], [3, 2, 6, 7], [2, 1, 5, 6], [0, 3, 7, 4]]
    uvs := [[(1, 1), (0, 1), (0, 0), (1, 0)], [(1, 1), (0, 1), (0, 0), (1, 0)], [(1, 1), (0, 1), (0, 0), (1, 0)],
      [(1, 1), (0, 1), (0, 0), (1, 0)], [(1, 0), (1, 1), (0, 1), (0, 0)], [(0, 1), (0, 0), (1, 0), (1, 1)]] }

/-- unity/unity_builtin.go:84-100: the vertices of row `i`. -/
def sphereRow (T : Trig F) (sh sv i : Nat) : List (Vec3 F) :=
  if i = 0 then [⟨0, 1 / 2, 0⟩]
  else if i = sv then [⟨0, -(1 / 2), 0⟩]
  else
    let t : F := i / sv * T.pi
    (List.range sh).map fun (j : Nat) =>
      let t2 : F := j / sh * 2 * T.pi
      ⟨T.cos t2 * (T.sin t * (1 / 2)), T.cos t * (1 / 2), T.sin t2 * (T.sin t * (1 / 2))⟩

/-- unity/unity_builtin.go:106-128: the face `j` of row `i`. -/
def sphereFace (sh sv : Nat) (ofs : Int) (i j : Nat) : List Int :=
  let i1 : Int := ((i : Int) - 1) * sh
  let i2 : Int := (i : Int) * sh
  let j2 : Int := ((j + 1) % sh : Nat)
  if i = 0 then [ofs - 1, i2 + j + ofs, i2 + j2 + ofs]
  else if (i : Int) = (sv : Int) - 1 then [i1 + j + ofs, i2 + ofs, i1 + j2 + ofs]
  else [i1 + j + ofs, i2 + j + ofs, i2 + j2 + ofs, i1 + j2 + ofs]

/-- unity/unity_builtin.go:106-128: its texture coordinates. -/
def sphereUV (sh sv : Nat) (i j : Nat) : List (F × F) :=
  let u (j : Nat) : F := j / sh
  let v (i : Nat) : F := i / sv
  if i = 0 then [(u j, v i), (u j, v (i + 1)), (u (j + 1), v (i + 1))]
  else if (i : Int) = (sv : Int) - 1 then [(u j, v i), (u j, v (i + 1)), (u (j + 1), v i)]
  else [(u j, v i), (u j, v (i + 1)), (u (j + 1), v (i + 1)), (u (j + 1), v i)]

/-- unity/unity_builtin.go:80-89: the offset of the vertices after the first loop. -/
def sphereOfs (sh t b : Nat) (voffset : Int) : Int :=
  voffset - (if 2 < t then ((t : Int) - 1) * sh else 0) + (if t = 0 ∧ t ≤ b then 1 else 0)

/-- The values `t`, `t + 1`, …, `b - 1` of a loop variable. -/
def span (t b : Nat) : List Nat := (List.range (b - t)).map (t + ·)

/-- unity/unity_builtin.go:78-132 (`sphereInternal`). -/
def sphereInternal (T : Trig F) (sh sv t b : Nat) (voffset : Int) : Mesh F :=
  let ofs := sphereOfs sh t b voffset
  { vs := (span t (b + 1)).flatMap (sphereRow T sh sv)
    faces := (span t b).flatMap fun i => (List.range sh).map (sphereFace sh sv ofs i)
    uvs := (span t b).flatMap fun i => (List.range sh).map (sphereUV sh sv i) }

/-- unity/unity_builtin.go:74-76 (`Sphere`). -/
def sphere (T : Trig F) (sh sv : Nat) : Mesh F := sphereInternal T sh sv 0 sv 0

/-- unity/unity_builtin.go:147-153, 176-182: texture coordinates of a side. -/
def sideUV (s i : Nat) : List (F × F) :=
  [(1 - (i : F) / s, 0), (1 - (i : F) / s, 1), (1 - ((i + 1 : Nat) : F) / s, 1), (1 - ((i + 1 : Nat) : F) / s, 0)]

/-- unity/unity_builtin.go:134-159 (`Cylinder`). -/
def cylinder (T : Trig F) (s : Nat) : Mesh F :=
  let top := (List.range s).map fun (i : Nat) => ((i : Int) * 2)
  let bottom := (List.range s).map fun (i : Nat) => (((s : Int) - i - 1) * 2 + 1)
  let topuv : List (F × F) := (List.range s).map fun (i : Nat) => ((i : F) / s, 1)
  { vs := (List.range s).flatMap fun (i : Nat) =>
      let t : F := i / s * T.pi * 2
      [⟨T.cos t * (1 / 2), 1, T.sin t * (1 / 2)⟩, ⟨T.cos t * (1 / 2), -1, T.sin t * (1 / 2)⟩]
    faces := ((List.range s).map fun (i : Nat) =>
      let n : Int := ((i + 1) % s : Nat)
      [(i : Int) * 2, (i : Int) * 2 + 1, n * 2 + 1, n * 2]) ++ [top, bottom]
    uvs := (List.range s).map (sideUV s) ++ [topuv, topuv] }

/-- Moves vertices up (unity/unity_builtin.go:167-169, 185-187). -/
def lift (h : F) (vs : List (Vec3 F)) : List (Vec3 F) := vs.map fun v => ⟨v.x, v.y + h, v.z⟩

/-- unity/unity_builtin.go:161-192 (`Capsule`). -/
def capsule (T : Trig F) (s : Nat) : Mesh F :=
  let m1 := sphereInternal T s 8 0 4 0
  let vs := lift (1 / 2) m1.vs
  let st : Int := (vs.length : Int) - s
  let side := (List.range s).map fun (i : Nat) =>
    let n : Int := ((i + 1) % s : Nat)
    [st + i, st + i + s, st + n + s, st + n]
  let m2 := sphereInternal T s 8 4 8 vs.length
  { vs := vs ++ lift (-(1 / 2)) m2.vs
    faces := m1.faces ++ side ++ m2.faces
    uvs := m1.uvs ++ (List.range s).map (sideUV s) ++ m2.uvs }

/-- unity/unity_builtin.go:194-208 (`Quad`). -/
def quad : Mesh F :=
  let h : F := 1 / 2
  { vs := [⟨-h, -h, 0⟩, ⟨h, -h, 0⟩, ⟨-h, h, 0⟩, ⟨h, h, 0⟩], faces := [[1, 0, 2, 3]],
    uvs := [[(1, 1), (0, 1), (0, 0), (1, 0)]] }

/-- unity/unity_builtin.go:210-224 (`Plane`). -/
def plane : Mesh F :=
  { vs := [⟨-5, 0, -5⟩, ⟨5, 0, -5⟩, ⟨5, 0, 5⟩, ⟨-5, 0, 5⟩], faces := [[0, 1, 2, 3]],
    uvs := [[(1, 1), (0, 1), (0, 0), (1, 0)]] }

/-- unity/unity_builtin.go:9-16, 27-45 (`GetBuiltinMesh`): the mesh of a reference, by its file id; `builtin`
says whether the GUID is the one of the built-in meshes. -/
def builtinMesh (T : Trig F) (builtin : Bool) (fileID : Int) : Option (Mesh F) :=
  if builtin then
    if fileID = 10202 then some cube
    else if fileID = 10206 then some (cylinder T 32)
    else if fileID = 10207 then some (sphere T 32 16)
    else if fileID = 10208 then some (capsule T 32)
    else if fileID = 10209 then some plane
    else if fileID = 10210 then some quad
    else none
  else none

end Verif.Unity
