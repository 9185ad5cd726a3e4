import Verif.Geom.Vec

/-!
Model of geom/matrix4.go (column-major 4x4 matrices) and `Matrix4.ApplyTo` of geom/vector3.go.
The index arithmetic is copied literally from the source.
-/

namespace Verif.Geom

/-- geom/matrix4.go:6, `[16]Element`. -/
@[ext] structure Mat4 (F : Type) where
  m0 : F
  m1 : F
  m2 : F
  m3 : F
  m4 : F
  m5 : F
  m6 : F
  m7 : F
  m8 : F
  m9 : F
  m10 : F
  m11 : F
  m12 : F
  m13 : F
  m14 : F
  m15 : F
deriving DecidableEq, Repr

variable {F : Type}

namespace Mat4

/-- geom/matrix4.go:8-15 (`NewMatrix4`). -/
def one [Zero F] [One F] : Mat4 F :=
  ⟨1, 0, 0, 0, 0, 1, 0, 0, 0, 0, 1, 0, 0, 0, 0, 1⟩

/-- `&Matrix4{}`, the zero value. -/
def zero [Zero F] : Mat4 F :=
  ⟨0, 0, 0, 0, 0, 0, 0, 0, 0, 0, 0, 0, 0, 0, 0, 0⟩

/-- geom/matrix4.go:27-34 (`NewScaleMatrix4`). -/
def scaling [Zero F] [One F] (x y z : F) : Mat4 F :=
  ⟨x, 0, 0, 0, 0, y, 0, 0, 0, 0, z, 0, 0, 0, 0, 1⟩

/-- geom/matrix4.go:36-43 (`NewTranslateMatrix4`). -/
def translation [Zero F] [One F] (x y z : F) : Mat4 F :=
  ⟨1, 0, 0, 0, 0, 1, 0, 0, 0, 0, 1, 0, x, y, z, 1⟩

/-- geom/matrix4.go:45-58 (`NewRotationMatrix4FromQuaternion`). -/
def rotation [Zero F] [One F] [OfNat F 2] [Add F] [Sub F] [Mul F] (q : Vec4 F) : Mat4 F :=
  let x := q.x
  let y := q.y
  let z := q.z
  let w := q.w
  ⟨1 - 2 * y * y - 2 * z * z, 2 * x * y + 2 * z * w, 2 * x * z - 2 * y * w, 0,
   2 * x * y - 2 * z * w, 1 - 2 * x * x - 2 * z * z, 2 * y * z + 2 * x * w, 0,
   2 * x * z + 2 * y * w, 2 * y * z - 2 * x * w, 1 - 2 * x * x - 2 * y * y, 0,
   0, 0, 0, 1⟩

/-- geom/matrix4.go:60-67. -/
def add [Add F] (m a : Mat4 F) : Mat4 F :=
  ⟨m.m0 + a.m0, m.m1 + a.m1, m.m2 + a.m2, m.m3 + a.m3,
   m.m4 + a.m4, m.m5 + a.m5, m.m6 + a.m6, m.m7 + a.m7,
   m.m8 + a.m8, m.m9 + a.m9, m.m10 + a.m10, m.m11 + a.m11,
   m.m12 + a.m12, m.m13 + a.m13, m.m14 + a.m14, m.m15 + a.m15⟩

/-- geom/matrix4.go:69-76. -/
def sub [Sub F] (m a : Mat4 F) : Mat4 F :=
  ⟨m.m0 - a.m0, m.m1 - a.m1, m.m2 - a.m2, m.m3 - a.m3,
   m.m4 - a.m4, m.m5 - a.m5, m.m6 - a.m6, m.m7 - a.m7,
   m.m8 - a.m8, m.m9 - a.m9, m.m10 - a.m10, m.m11 - a.m11,
   m.m12 - a.m12, m.m13 - a.m13, m.m14 - a.m14, m.m15 - a.m15⟩

/-- geom/matrix4.go:78-85. -/
def scale [Mul F] (m : Mat4 F) (s : F) : Mat4 F :=
  ⟨m.m0 * s, m.m1 * s, m.m2 * s, m.m3 * s,
   m.m4 * s, m.m5 * s, m.m6 * s, m.m7 * s,
   m.m8 * s, m.m9 * s, m.m10 * s, m.m11 * s,
   m.m12 * s, m.m13 * s, m.m14 * s, m.m15 * s⟩

/-- geom/matrix4.go:87-110. The receiver is called `b` in the source, too. -/
def mul [Add F] [Mul F] (b a : Mat4 F) : Mat4 F where
  m0 := a.m0 * b.m0 + a.m1 * b.m4 + a.m2 * b.m8 + a.m3 * b.m12
  m1 := a.m0 * b.m1 + a.m1 * b.m5 + a.m2 * b.m9 + a.m3 * b.m13
  m2 := a.m0 * b.m2 + a.m1 * b.m6 + a.m2 * b.m10 + a.m3 * b.m14
  m3 := a.m0 * b.m3 + a.m1 * b.m7 + a.m2 * b.m11 + a.m3 * b.m15
  m4 := a.m4 * b.m0 + a.m5 * b.m4 + a.m6 * b.m8 + a.m7 * b.m12
  m5 := a.m4 * b.m1 + a.m5 * b.m5 + a.m6 * b.m9 + a.m7 * b.m13
  m6 := a.m4 * b.m2 + a.m5 * b.m6 + a.m6 * b.m10 + a.m7 * b.m14
  m7 := a.m4 * b.m3 + a.m5 * b.m7 + a.m6 * b.m11 + a.m7 * b.m15
  m8 := a.m8 * b.m0 + a.m9 * b.m4 + a.m10 * b.m8 + a.m11 * b.m12
  m9 := a.m8 * b.m1 + a.m9 * b.m5 + a.m10 * b.m9 + a.m11 * b.m13
  m10 := a.m8 * b.m2 + a.m9 * b.m6 + a.m10 * b.m10 + a.m11 * b.m14
  m11 := a.m8 * b.m3 + a.m9 * b.m7 + a.m10 * b.m11 + a.m11 * b.m15
  m12 := a.m12 * b.m0 + a.m13 * b.m4 + a.m14 * b.m8 + a.m15 * b.m12
  m13 := a.m12 * b.m1 + a.m13 * b.m5 + a.m14 * b.m9 + a.m15 * b.m13
  m14 := a.m12 * b.m2 + a.m13 * b.m6 + a.m14 * b.m10 + a.m15 * b.m14
  m15 := a.m12 * b.m3 + a.m13 * b.m7 + a.m14 * b.m11 + a.m15 * b.m15

/-- geom/matrix4.go:114 and 125. -/
def t11 [Add F] [Sub F] [Mul F] (m : Mat4 F) : F :=
  m.m9 * m.m14 * m.m7 - m.m13 * m.m10 * m.m7 + m.m13 * m.m6 * m.m11 - m.m5 * m.m14 * m.m11 - m.m9 * m.m6 * m.m15 + m.m5 * m.m10 * m.m15

/-- geom/matrix4.go:115 and 126. -/
def t12 [Add F] [Sub F] [Mul F] (m : Mat4 F) : F :=
  m.m12 * m.m10 * m.m7 - m.m8 * m.m14 * m.m7 - m.m12 * m.m6 * m.m11 + m.m4 * m.m14 * m.m11 + m.m8 * m.m6 * m.m15 - m.m4 * m.m10 * m.m15

/-- geom/matrix4.go:116 and 127. -/
def t13 [Add F] [Sub F] [Mul F] (m : Mat4 F) : F :=
  m.m8 * m.m13 * m.m7 - m.m12 * m.m9 * m.m7 + m.m12 * m.m5 * m.m11 - m.m4 * m.m13 * m.m11 - m.m8 * m.m5 * m.m15 + m.m4 * m.m9 * m.m15

/-- geom/matrix4.go:117 and 128. -/
def t14 [Add F] [Sub F] [Mul F] (m : Mat4 F) : F :=
  m.m12 * m.m9 * m.m6 - m.m8 * m.m13 * m.m6 - m.m12 * m.m5 * m.m10 + m.m4 * m.m13 * m.m10 + m.m8 * m.m5 * m.m14 - m.m4 * m.m9 * m.m14

/-- geom/matrix4.go:112-121 (same expression again at 129). -/
def det [Add F] [Sub F] [Mul F] (m : Mat4 F) : F :=
  m.m0 * m.t11 + m.m1 * m.t12 + m.m2 * m.t13 + m.m3 * m.t14

/-- geom/matrix4.go:123-155. The test `det == 0` is a decidable equality of `F`. -/
def inverse [Add F] [Sub F] [Mul F] [Div F] [Zero F] [DecidableEq F] (m : Mat4 F) : Mat4 F :=
  let det := m.det
  let t11 := m.t11
  let t12 := m.t12
  let t13 := m.t13
  let t14 := m.t14
  if det = 0 then zero
  else {
    m0 := t11 / det
    m1 := (m.m13 * m.m10 * m.m3 - m.m9 * m.m14 * m.m3 - m.m13 * m.m2 * m.m11 + m.m1 * m.m14 * m.m11 + m.m9 * m.m2 * m.m15 - m.m1 * m.m10 * m.m15) / det
    m2 := (m.m5 * m.m14 * m.m3 - m.m13 * m.m6 * m.m3 + m.m13 * m.m2 * m.m7 - m.m1 * m.m14 * m.m7 - m.m5 * m.m2 * m.m15 + m.m1 * m.m6 * m.m15) / det
    m3 := (m.m9 * m.m6 * m.m3 - m.m5 * m.m10 * m.m3 - m.m9 * m.m2 * m.m7 + m.m1 * m.m10 * m.m7 + m.m5 * m.m2 * m.m11 - m.m1 * m.m6 * m.m11) / det
    m4 := t12 / det
    m5 := (m.m8 * m.m14 * m.m3 - m.m12 * m.m10 * m.m3 + m.m12 * m.m2 * m.m11 - m.m0 * m.m14 * m.m11 - m.m8 * m.m2 * m.m15 + m.m0 * m.m10 * m.m15) / det
    m6 := (m.m12 * m.m6 * m.m3 - m.m4 * m.m14 * m.m3 - m.m12 * m.m2 * m.m7 + m.m0 * m.m14 * m.m7 + m.m4 * m.m2 * m.m15 - m.m0 * m.m6 * m.m15) / det
    m7 := (m.m4 * m.m10 * m.m3 - m.m8 * m.m6 * m.m3 + m.m8 * m.m2 * m.m7 - m.m0 * m.m10 * m.m7 - m.m4 * m.m2 * m.m11 + m.m0 * m.m6 * m.m11) / det
    m8 := t13 / det
    m9 := (m.m12 * m.m9 * m.m3 - m.m8 * m.m13 * m.m3 - m.m12 * m.m1 * m.m11 + m.m0 * m.m13 * m.m11 + m.m8 * m.m1 * m.m15 - m.m0 * m.m9 * m.m15) / det
    m10 := (m.m4 * m.m13 * m.m3 - m.m12 * m.m5 * m.m3 + m.m12 * m.m1 * m.m7 - m.m0 * m.m13 * m.m7 - m.m4 * m.m1 * m.m15 + m.m0 * m.m5 * m.m15) / det
    m11 := (m.m8 * m.m5 * m.m3 - m.m4 * m.m9 * m.m3 - m.m8 * m.m1 * m.m7 + m.m0 * m.m9 * m.m7 + m.m4 * m.m1 * m.m11 - m.m0 * m.m5 * m.m11) / det
    m12 := t14 / det
    m13 := (m.m8 * m.m13 * m.m2 - m.m12 * m.m9 * m.m2 + m.m12 * m.m1 * m.m10 - m.m0 * m.m13 * m.m10 - m.m8 * m.m1 * m.m14 + m.m0 * m.m9 * m.m14) / det
    m14 := (m.m12 * m.m5 * m.m2 - m.m4 * m.m13 * m.m2 - m.m12 * m.m1 * m.m6 + m.m0 * m.m13 * m.m6 + m.m4 * m.m1 * m.m14 - m.m0 * m.m5 * m.m14) / det
    m15 := (m.m4 * m.m9 * m.m2 - m.m8 * m.m5 * m.m2 + m.m8 * m.m1 * m.m6 - m.m0 * m.m9 * m.m6 - m.m4 * m.m1 * m.m10 + m.m0 * m.m5 * m.m10) / det }

/-- geom/matrix4.go:157-164. -/
def transposed (m : Mat4 F) : Mat4 F :=
  ⟨m.m0, m.m4, m.m8, m.m12,
   m.m1, m.m5, m.m9, m.m13,
   m.m2, m.m6, m.m10, m.m14,
   m.m3, m.m7, m.m11, m.m15⟩

/-- geom/matrix4.go:219-227. -/
def translationScale [Mul F] (m : Mat4 F) (s : F) : Mat4 F :=
  { m with m12 := m.m12 * s, m13 := m.m13 * s, m14 := m.m14 * s }

/-- geom/vector3.go:75-81 (`Matrix4.ApplyTo`). -/
def applyTo [Add F] [Mul F] (m : Mat4 F) (v : Vec3 F) : Vec3 F :=
  ⟨m.m0 * v.x + m.m4 * v.y + m.m8 * v.z + m.m12,
   m.m1 * v.x + m.m5 * v.y + m.m9 * v.z + m.m13,
   m.m2 * v.x + m.m6 * v.y + m.m10 * v.z + m.m14⟩

/-- geom/matrix4.go:23-25 (`NewTRSMatrix4`). -/
def trs [Zero F] [One F] [OfNat F 2] [Add F] [Sub F] [Mul F] (t : Vec3 F) (r : Vec4 F)
    (s : Vec3 F) : Mat4 F :=
  (translation t.x t.y t.z).mul ((rotation r).mul (scaling s.x s.y s.z))

end Mat4

end Verif.Geom
