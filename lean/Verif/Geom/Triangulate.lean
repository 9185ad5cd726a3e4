import Verif.Geom.Vec

/-!
Model of geom/utils.go `Triangulate` and `IsInTriangle`.

`none` stands for a Go panic (index out of range). Points are values, so a nil `*Vector3` in the
input (which would panic in Go) is outside the model.
-/

namespace Verif.Geom

variable {F : Type} [Add F] [Sub F] [Mul F] [Zero F] [FloatOps F]

/-- geom/utils.go:24-28. -/
def isInTriangle (p a b c : Vec3 F) : Bool :=
  let ab := b.sub a
  let bc := c.sub b
  let ca := a.sub c
  let c1 := ab.cross (p.sub a)
  let c2 := bc.cross (p.sub b)
  let c3 := ca.cross (p.sub c)
  lt 0 (c1.dot c2) && lt 0 (c2.dot c3) && lt 0 (c3.dot c1)

/-- geom/utils.go:35-44: the normalised sum of the corner cross products. `is` are the loop
values of `i` still to come. -/
def polyNormalLoop (poly : List (Vec3 F)) : List Nat → Vec3 F → Option (Vec3 F)
  | [], n => some n
  | i :: is, n => do
    let v0 ← poly[(i + poly.length - 1) % poly.length]?
    let v1 ← poly[i]?
    let v2 ← poly[(i + 1) % poly.length]?
    polyNormalLoop poly is (n.add ((v0.sub v1).cross (v2.sub v1)))

/-- geom/utils.go:35-44. -/
def polyNormal [Div F] [One F] (poly : List (Vec3 F)) : Option (Vec3 F) := do
  let n ← polyNormalLoop poly (List.range poly.length) ⟨0, 0, 0⟩
  return n.normalize

/-- geom/utils.go:62-67: no remaining point lies strictly inside the candidate ear. -/
def noneInside (poly : List (Vec3 F)) (v0 v1 v2 : Vec3 F) : List Nat → Option Bool
  | [] => some true
  | j :: js => do
    let p ← poly[j]?
    if isInTriangle p v0 v1 v2 then return false else noneInside poly v0 v1 v2 js

/-- geom/utils.go:50-77: one backwards sweep. The first argument is `i + 1`. The Go variable
`count` always equals `len(ii)` here and is not carried separately. -/
def earSweep (poly : List (Vec3 F)) (n : Vec3 F) :
    Nat → List Nat → List (Nat × Nat × Nat) → Option (List Nat × List (Nat × Nat × Nat))
  | 0, ii, dst => some (ii, dst)
  | i + 1, ii, dst => do
    let count := ii.length
    let i0 ← ii[(i + count - 1) % count]?
    let i1 ← ii[i]?
    let i2 ← ii[(i + 1) % count]?
    let v0 ← poly[i0]?
    let v1 ← poly[i1]?
    let v2 ← poly[i2]?
    if le 0 (((v0.sub v1).cross (v2.sub v1)).dot n) then do
      let tmp := ii.take i ++ ii.drop (i + 1)
      let ok ← noneInside poly v0 v1 v2 tmp
      if ok then
        if tmp.length < 3 then some (tmp, dst ++ [(i0, i1, i2)])
        else earSweep poly n i tmp (dst ++ [(i0, i1, i2)])
      else earSweep poly n i ii dst
    else earSweep poly n i ii dst

/-- geom/utils.go:80-82: the fan used when no ear was found. -/
def fan (ii : List Nat) : Nat → Nat → List (Nat × Nat × Nat) → Option (List (Nat × Nat × Nat))
  | 0, _, dst => some dst
  | k + 1, i, dst => do
    let a ← ii[0]?
    let b ← ii[i + 1]?
    let c ← ii[i + 2]?
    fan ii k (i + 1) (dst ++ [(a, b, c)])

/-- geom/utils.go:48-85. The first argument bounds the number of sweeps; running out of it means
"does not terminate" and is `none`. -/
def earLoop (poly : List (Vec3 F)) (n : Vec3 F) :
    Nat → List Nat → List (Nat × Nat × Nat) → Option (List (Nat × Nat × Nat))
  | 0, _, _ => none
  | fuel + 1, ii, dst =>
    if 3 ≤ ii.length then do
      let (ii', dst') ← earSweep poly n ii.length ii dst
      if ii.length = ii'.length then fan ii' (ii'.length - 2) 0 dst'
      else earLoop poly n fuel ii' dst'
    else some dst

/-- geom/utils.go:30-87. -/
def triangulate [Div F] [One F] (poly : List (Vec3 F)) : Option (List (Nat × Nat × Nat)) :=
  if poly.length < 3 then some []
  else do
    let n ← polyNormal poly
    earLoop poly n (poly.length + 1) (List.range poly.length) []

end Verif.Geom
