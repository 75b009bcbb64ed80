import Verif.Math.Vec3

/-!
Matrices, quaternions and rigid transforms (include/reactphysics3d/mathematics/Matrix3x3.h, Quaternion.h, Transform.h,
src/mathematics/Matrix3x3.cpp, Quaternion.cpp).  Simplification: exact arithmetic; the square root is an argument.
-/

namespace RP3D

/-- `Matrix3x3` by rows (Matrix3x3.h:44-56). -/
@[ext] structure M3 (α : Type) where
  r0 : V3 α
  r1 : V3 α
  r2 : V3 α
deriving DecidableEq, Repr

namespace M3
variable {α : Type}

/-- The constructor from nine numbers (Matrix3x3.h:166-181). -/
def of (a1 a2 a3 b1 b2 b3 c1 c2 c3 : α) : M3 α := ⟨⟨a1, a2, a3⟩, ⟨b1, b2, b3⟩, ⟨c1, c2, c3⟩⟩

/-- `getTranspose` (Matrix3x3.h:202-208). -/
def transpose (m : M3 α) : M3 α := of m.r0.x m.r1.x m.r2.x m.r0.y m.r1.y m.r2.y m.r0.z m.r1.z m.r2.z

variable [Field α]

/-- `getDeterminant` (Matrix3x3.h:211-217). -/
def det (m : M3 α) : α :=
  m.r0.x * (m.r1.y * m.r2.z - m.r2.y * m.r1.z) - m.r0.y * (m.r1.x * m.r2.z - m.r2.x * m.r1.z) +
    m.r0.z * (m.r1.x * m.r2.y - m.r2.x * m.r1.y)

/-- `getTrace` (Matrix3x3.h:220-224). -/
def trace (m : M3 α) : α := m.r0.x + m.r1.y + m.r2.z

/-- `identity`, `zero` (Matrix3x3.h:234-241). -/
def one : M3 α := of 1 0 0 0 1 0 0 0 1
def zero : M3 α := of 0 0 0 0 0 0 0 0 0

/-- `operator+` (Matrix3x3.h:263-270). -/
def add (a b : M3 α) : M3 α := ⟨a.r0 + b.r0, a.r1 + b.r1, a.r2 + b.r2⟩

/-- `operator*(decimal, Matrix3x3)` (Matrix3x3.h:290-294). -/
def scale (k : α) (m : M3 α) : M3 α :=
  of (m.r0.x * k) (m.r0.y * k) (m.r0.z * k) (m.r1.x * k) (m.r1.y * k) (m.r1.z * k) (m.r2.x * k) (m.r2.y * k) (m.r2.z * k)

/-- `operator*(Matrix3x3, Matrix3x3)` (Matrix3x3.h:302-321). -/
def mul (a b : M3 α) : M3 α :=
  of (a.r0.x * b.r0.x + a.r0.y * b.r1.x + a.r0.z * b.r2.x)
     (a.r0.x * b.r0.y + a.r0.y * b.r1.y + a.r0.z * b.r2.y)
     (a.r0.x * b.r0.z + a.r0.y * b.r1.z + a.r0.z * b.r2.z)
     (a.r1.x * b.r0.x + a.r1.y * b.r1.x + a.r1.z * b.r2.x)
     (a.r1.x * b.r0.y + a.r1.y * b.r1.y + a.r1.z * b.r2.y)
     (a.r1.x * b.r0.z + a.r1.y * b.r1.z + a.r1.z * b.r2.z)
     (a.r2.x * b.r0.x + a.r2.y * b.r1.x + a.r2.z * b.r2.x)
     (a.r2.x * b.r0.y + a.r2.y * b.r1.y + a.r2.z * b.r2.y)
     (a.r2.x * b.r0.z + a.r2.y * b.r1.z + a.r2.z * b.r2.z)

/-- `operator*(Matrix3x3, Vector3)` (Matrix3x3.h:324-331). -/
def act (m : M3 α) (v : V3 α) : V3 α :=
  ⟨m.r0.x * v.x + m.r0.y * v.y + m.r0.z * v.z,
   m.r1.x * v.x + m.r1.y * v.y + m.r1.z * v.z,
   m.r2.x * v.x + m.r2.y * v.y + m.r2.z * v.z⟩

/-- `getInverse(determinant)` (Matrix3x3.cpp:33-53). -/
def inverseWith (d : α) (m : M3 α) : M3 α :=
  scale (1 / d)
    (of (m.r1.y * m.r2.z - m.r2.y * m.r1.z) (-(m.r0.y * m.r2.z - m.r2.y * m.r0.z)) (m.r0.y * m.r1.z - m.r0.z * m.r1.y)
        (-(m.r1.x * m.r2.z - m.r2.x * m.r1.z)) (m.r0.x * m.r2.z - m.r2.x * m.r0.z) (-(m.r0.x * m.r1.z - m.r1.x * m.r0.z))
        (m.r1.x * m.r2.y - m.r2.x * m.r1.y) (-(m.r0.x * m.r2.y - m.r2.x * m.r0.y)) (m.r0.x * m.r1.y - m.r0.y * m.r1.x))

/-- `getInverse` (Matrix3x3.h:244-246). -/
def inverse (m : M3 α) : M3 α := inverseWith m.det m

/-- `computeSkewSymmetricMatrixForCrossProduct` (Matrix3x3.h:251-253). -/
def skew (v : V3 α) : M3 α := of 0 (-v.z) v.y v.z 0 (-v.x) (-v.y) v.x 0

end M3

/-- `Quaternion` (Quaternion.h:46-61). -/
@[ext] structure Quat (α : Type) where
  x : α
  y : α
  z : α
  w : α
deriving DecidableEq, Repr

namespace Quat
variable {α : Type} [Field α]

/-- `identity` (Quaternion.h:273-275). -/
def one : Quat α := ⟨0, 0, 0, 1⟩

/-- `lengthSquare` (Quaternion.h:232-235). -/
def lengthSq (q : Quat α) : α := q.x * q.x + q.y * q.y + q.z * q.z + q.w * q.w

/-- `getConjugate` and `getInverse` (Quaternion.h:278-287). -/
def conj (q : Quat α) : Quat α := ⟨-q.x, -q.y, -q.z, q.w⟩

/-- `operator+`, multiplication with a number (Quaternion.h:312-316, 344-346). -/
def add (p q : Quat α) : Quat α := ⟨p.x + q.x, p.y + q.y, p.z + q.z, p.w + q.w⟩
def scale (q : Quat α) (k : α) : Quat α := ⟨k * q.x, k * q.y, k * q.z, k * q.w⟩

/-- `getUnit` (Quaternion.h:261-270) with the length `l`. -/
def divBy (q : Quat α) (l : α) : Quat α := ⟨q.x / l, q.y / l, q.z / l, q.w / l⟩

/-- `operator*(Quaternion)` (Quaternion.h:349-361). -/
def mul (p q : Quat α) : Quat α :=
  ⟨p.w * q.x + q.w * p.x + p.y * q.z - p.z * q.y,
   p.w * q.y + q.w * p.y + p.z * q.x - p.x * q.z,
   p.w * q.z + q.w * p.z + p.x * q.y - p.y * q.x,
   p.w * q.w - p.x * q.x - p.y * q.y - p.z * q.z⟩

/-- `operator*(Vector3)` (Quaternion.h:365-379). -/
def rot (q : Quat α) (p : V3 α) : V3 α :=
  let prodX := q.w * p.x + q.y * p.z - q.z * p.y
  let prodY := q.w * p.y + q.z * p.x - q.x * p.z
  let prodZ := q.w * p.z + q.x * p.y - q.y * p.x
  let prodW := -q.x * p.x - q.y * p.y - q.z * p.z
  ⟨q.w * prodX - prodY * q.z + prodZ * q.y - prodW * q.x,
   q.w * prodY - prodZ * q.x + prodX * q.z - prodW * q.y,
   q.w * prodZ - prodX * q.y + prodY * q.x - prodW * q.z⟩

variable [LinearOrder α]

/-- `getMatrix` (Quaternion.cpp:138-165). -/
def matrix (q : Quat α) : M3 α :=
  let nQ := q.x * q.x + q.y * q.y + q.z * q.z + q.w * q.w
  let s := if nQ > 0 then 2 / nQ else 0
  let xs := q.x * s
  let ys := q.y * s
  let zs := q.z * s
  let wxs := q.w * xs
  let wys := q.w * ys
  let wzs := q.w * zs
  let xxs := q.x * xs
  let xys := q.x * ys
  let xzs := q.x * zs
  let yys := q.y * ys
  let yzs := q.y * zs
  let zzs := q.z * zs
  M3.of (1 - yys - zzs) (xys - wzs) (xzs + wys)
        (xys + wzs) (1 - xxs - zzs) (yzs - wxs)
        (xzs - wys) (yzs + wxs) (1 - xxs - yys)

/-- The constructor from a rotation matrix (Quaternion.cpp:55-117); `sqrt` is the square root. -/
def ofMatrix (sqrt : α → α) (m : M3 α) : Quat α :=
  if m.trace < 0 then
    if m.r1.y > m.r0.x then
      if m.r2.z > m.r1.y then
        let r := sqrt (m.r2.z - m.r0.x - m.r1.y + 1)
        let s := 1 / 2 / r
        ⟨(m.r2.x + m.r0.z) * s, (m.r1.z + m.r2.y) * s, 1 / 2 * r, (m.r1.x - m.r0.y) * s⟩
      else
        let r := sqrt (m.r1.y - m.r2.z - m.r0.x + 1)
        let s := 1 / 2 / r
        ⟨(m.r0.y + m.r1.x) * s, 1 / 2 * r, (m.r1.z + m.r2.y) * s, (m.r0.z - m.r2.x) * s⟩
    else if m.r2.z > m.r0.x then
      let r := sqrt (m.r2.z - m.r0.x - m.r1.y + 1)
      let s := 1 / 2 / r
      ⟨(m.r2.x + m.r0.z) * s, (m.r1.z + m.r2.y) * s, 1 / 2 * r, (m.r1.x - m.r0.y) * s⟩
    else
      let r := sqrt (m.r0.x - m.r1.y - m.r2.z + 1)
      let s := 1 / 2 / r
      ⟨1 / 2 * r, (m.r0.y + m.r1.x) * s, (m.r2.x + m.r0.z) * s, (m.r2.y - m.r1.z) * s⟩
  else
    let r := sqrt (m.trace + 1)
    let s := 1 / 2 / r
    ⟨(m.r2.y - m.r1.z) * s, (m.r0.z - m.r2.x) * s, (m.r1.x - m.r0.y) * s, 1 / 2 * r⟩

end Quat

/-- `Transform` (Transform.h:41-51). -/
@[ext] structure Trans (α : Type) where
  pos : V3 α
  ori : Quat α
deriving DecidableEq, Repr

namespace Trans
variable {α : Type} [Field α]

/-- `identity` (Transform.h:183-185). -/
def one : Trans α := ⟨0, Quat.one⟩

/-- `getInverse` (Transform.h:162-165). -/
def inverse (t : Trans α) : Trans α := ⟨t.ori.conj.rot (-t.pos), t.ori.conj⟩

/-- `operator*(Vector3)` (Transform.h:193-195). -/
def act (t : Trans α) (v : V3 α) : V3 α := t.ori.rot v + t.pos

/-- `operator*(Transform)` (Transform.h:198-224). -/
def mul (t u : Trans α) : Trans α :=
  let prodX := t.ori.w * u.pos.x + t.ori.y * u.pos.z - t.ori.z * u.pos.y
  let prodY := t.ori.w * u.pos.y + t.ori.z * u.pos.x - t.ori.x * u.pos.z
  let prodZ := t.ori.w * u.pos.z + t.ori.x * u.pos.y - t.ori.y * u.pos.x
  let prodW := -t.ori.x * u.pos.x - t.ori.y * u.pos.y - t.ori.z * u.pos.z
  ⟨⟨t.pos.x + t.ori.w * prodX - prodY * t.ori.z + prodZ * t.ori.y - prodW * t.ori.x,
    t.pos.y + t.ori.w * prodY - prodZ * t.ori.x + prodX * t.ori.z - prodW * t.ori.y,
    t.pos.z + t.ori.w * prodZ - prodX * t.ori.y + prodY * t.ori.x - prodW * t.ori.z⟩,
   ⟨t.ori.w * u.ori.x + u.ori.w * t.ori.x + t.ori.y * u.ori.z - t.ori.z * u.ori.y,
    t.ori.w * u.ori.y + u.ori.w * t.ori.y + t.ori.z * u.ori.x - t.ori.x * u.ori.z,
    t.ori.w * u.ori.z + u.ori.w * t.ori.z + t.ori.x * u.ori.y - t.ori.y * u.ori.x,
    t.ori.w * u.ori.w - t.ori.x * u.ori.x - t.ori.y * u.ori.y - t.ori.z * u.ori.z⟩⟩

end Trans
end RP3D
