/-!
Model of geom/vector2.go, geom/vector3.go and the Vector4/Quaternion part of geom/quaternion.go.

The number type `F` is arbitrary: the definitions only use the operations Go uses, in the same
order. Theorems about structure hold for every interpretation of the operations (float32 included);
theorems about algebra instantiate `F` with a ring, a field or the reals.
-/

namespace Verif.Geom

/-- The operations on `Element` (float32) used beside `+ - * /`: `math.Sqrt` and the comparisons
`<` and `<=`, as arbitrary functions. `a > b` is `lt b a`, `a >= b` is `le b a`. -/
class FloatOps (F : Type) where
  sqrt : F → F
  lt : F → F → Bool
  le : F → F → Bool

export FloatOps (sqrt lt le)

/-- geom/vector2.go:5-8. -/
@[ext] structure Vec2 (F : Type) where
  x : F
  y : F
deriving DecidableEq, Repr

/-- geom/vector3.go:7-11. -/
@[ext] structure Vec3 (F : Type) where
  x : F
  y : F
  z : F
deriving DecidableEq, Repr

/-- geom/quaternion.go:5-10 (`Vector4`, also used as `Quaternion`, line 73). -/
@[ext] structure Vec4 (F : Type) where
  x : F
  y : F
  z : F
  w : F
deriving DecidableEq, Repr

variable {F : Type}

namespace Vec3

/-- geom/vector3.go:25-27. -/
def add [Add F] (v w : Vec3 F) : Vec3 F := ⟨v.x + w.x, v.y + w.y, v.z + w.z⟩

/-- geom/vector3.go:29-31. -/
def sub [Sub F] (v w : Vec3 F) : Vec3 F := ⟨v.x - w.x, v.y - w.y, v.z - w.z⟩

/-- geom/vector3.go:33-35. -/
def dot [Add F] [Mul F] (v w : Vec3 F) : F := v.x * w.x + v.y * w.y + v.z * w.z

/-- geom/vector3.go:37-43. -/
def cross [Sub F] [Mul F] (v w : Vec3 F) : Vec3 F :=
  ⟨v.y * w.z - v.z * w.y, v.z * w.x - v.x * w.z, v.x * w.y - v.y * w.x⟩

/-- geom/vector3.go:45-47. -/
def scale [Mul F] (v : Vec3 F) (s : F) : Vec3 F := ⟨v.x * s, v.y * s, v.z * s⟩

/-- geom/vector3.go:53-55. -/
def lenSqr [Add F] [Mul F] (v : Vec3 F) : F := v.x * v.x + v.y * v.y + v.z * v.z

/-- geom/vector3.go:49-51. The detour over float64 is folded into `sqrt`. -/
def len [Add F] [Mul F] [FloatOps F] (v : Vec3 F) : F :=
  sqrt (v.x * v.x + v.y * v.y + v.z * v.z)

/-- geom/vector3.go:57-67. The Go code updates in place and returns the receiver; the value is
the same. In the zero case only `X` is set. -/
def normalize [Add F] [Mul F] [Div F] [Zero F] [One F] [FloatOps F] (v : Vec3 F) : Vec3 F :=
  let l := v.len
  if lt 0 l then ⟨v.x / l, v.y / l, v.z / l⟩ else ⟨1, v.y, v.z⟩

end Vec3

namespace Vec2

/-- geom/vector2.go:14-16. -/
def add [Add F] (v w : Vec2 F) : Vec2 F := ⟨v.x + w.x, v.y + w.y⟩

/-- geom/vector2.go:18-20. -/
def sub [Sub F] (v w : Vec2 F) : Vec2 F := ⟨v.x - w.x, v.y - w.y⟩

/-- geom/vector2.go:34-36. -/
def len [Add F] [Mul F] [FloatOps F] (v : Vec2 F) : F := sqrt (v.x * v.x + v.y * v.y)

/-- geom/vector2.go:38-40. -/
def lenSqr [Add F] [Mul F] (v : Vec2 F) : F := v.x * v.x + v.y * v.y

/-- geom/vector2.go:42-51. -/
def normalize [Add F] [Mul F] [Div F] [Zero F] [One F] [FloatOps F] (v : Vec2 F) : Vec2 F :=
  let l := v.len
  if lt 0 l then ⟨v.x / l, v.y / l⟩ else ⟨1, v.y⟩

end Vec2

namespace Vec4

/-- geom/quaternion.go:16-18. -/
def add [Add F] (v w : Vec4 F) : Vec4 F := ⟨v.x + w.x, v.y + w.y, v.z + w.z, v.w + w.w⟩

/-- geom/quaternion.go:20-22. -/
def sub [Sub F] (v w : Vec4 F) : Vec4 F := ⟨v.x - w.x, v.y - w.y, v.z - w.z, v.w - w.w⟩

/-- geom/quaternion.go:24-26. -/
def scale [Mul F] (v : Vec4 F) (s : F) : Vec4 F := ⟨v.x * s, v.y * s, v.z * s, v.w * s⟩

/-- geom/quaternion.go:28-30. -/
def dot [Add F] [Mul F] (v u : Vec4 F) : F := v.x * u.x + v.y * u.y + v.z * u.z + v.w * u.w

/-- geom/quaternion.go:36-38. -/
def lenSqr [Add F] [Mul F] (v : Vec4 F) : F := v.x * v.x + v.y * v.y + v.z * v.z + v.w * v.w

/-- geom/quaternion.go:32-34. -/
def len [Add F] [Mul F] [FloatOps F] (v : Vec4 F) : F :=
  sqrt (v.x * v.x + v.y * v.y + v.z * v.z + v.w * v.w)

/-- geom/quaternion.go:40-51. -/
def normalize [Add F] [Mul F] [Div F] [Zero F] [One F] [FloatOps F] (v : Vec4 F) : Vec4 F :=
  let l := v.len
  if lt 0 l then ⟨v.x / l, v.y / l, v.z / l, v.w / l⟩ else ⟨v.x, v.y, v.z, 1⟩

/-- Hamilton product, geom/quaternion.go:64-71. -/
def mul [Add F] [Sub F] [Mul F] (a b : Vec4 F) : Vec4 F where
  w := a.w * b.w - a.x * b.x - a.y * b.y - a.z * b.z
  x := a.w * b.x + a.x * b.w + a.y * b.z - a.z * b.y
  y := a.w * b.y - a.x * b.z + a.y * b.w + a.z * b.x
  z := a.w * b.z + a.x * b.y - a.y * b.x + a.z * b.w

/-- geom/quaternion.go:83-85 (conjugate; the inverse only for unit quaternions). -/
def inverse [Neg F] (v : Vec4 F) : Vec4 F := ⟨-v.x, -v.y, -v.z, v.w⟩

/-- geom/quaternion.go:87-99. -/
def applyTo [Add F] [Sub F] [Mul F] [Neg F] (q : Vec4 F) (v : Vec3 F) : Vec3 F :=
  let ix := q.w * v.x + q.y * v.z - q.z * v.y
  let iy := q.w * v.y + q.z * v.x - q.x * v.z
  let iz := q.w * v.z + q.x * v.y - q.y * v.x
  let iw := -q.x * v.x - q.y * v.y - q.z * v.z
  ⟨ix * q.w + iw * -q.x + iy * -q.z - iz * -q.y,
   iy * q.w + iw * -q.y + iz * -q.x - ix * -q.z,
   iz * q.w + iw * -q.z + ix * -q.y - iy * -q.x⟩

end Vec4

end Verif.Geom
