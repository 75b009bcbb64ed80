import Verif.Math.Rigid

/-!
Orientations given by angles and interpolated transforms (src/mathematics/Quaternion.cpp:35-53, 121-136, 169-238, Quaternion.h, Transform.h:168-180,
src/mathematics/Vector3.cpp:33-43).  Simplification: exact arithmetic; the functions of `std` are arguments (`Trig`), `none` is a broken assertion.
-/

namespace RP3D

/-- `std::sin`, `std::cos`, `std::acos`, `std::sqrt` and `MACHINE_EPSILON` (configuration.h:120). -/
structure Trig (α : Type) where
  sin : α → α
  cos : α → α
  acos : α → α
  sqrt : α → α
  me : α

namespace V3
variable {α : Type} [Field α] [LinearOrder α]

/-- `Vector3::getUnit` (Vector3.cpp:33-43). -/
def getUnit (T : Trig α) (v : V3 α) : V3 α :=
  let l := T.sqrt (v.x * v.x + v.y * v.y + v.z * v.z)
  if l < T.me then v
  else
    let i := 1 / l
    ⟨v.x * i, v.y * i, v.z * i⟩

end V3

namespace Quat
variable {α : Type} [Field α] [LinearOrder α]

/-- `dot` (Quaternion.h:290-292). -/
def dot (p q : Quat α) : α := p.x * q.x + p.y * q.y + p.z * q.z + p.w * q.w

/-- `length` (Quaternion.h:227-229). -/
def length (T : Trig α) (q : Quat α) : α := T.sqrt (q.x * q.x + q.y * q.y + q.z * q.z + q.w * q.w)

/-- `normalize` (Quaternion.h:238-249). -/
def normalize (T : Trig α) (q : Quat α) : Option (Quat α) :=
  let l := q.length T
  if l > T.me then some ⟨q.x / l, q.y / l, q.z / l, q.w / l⟩ else none

/-- `isUnit` (Quaternion.h:300-304); the tolerance is 1e-5. `isFinite` always holds for exact numbers. -/
def isUnit (T : Trig α) (q : Quat α) : Bool := decide (|q.length T - 1| < 1 / 100000)

/-- `initWithEulerAngles` and `fromEulerAngles` (Quaternion.cpp:35-53, 210-238). -/
def ofEuler (T : Trig α) (angleX angleY angleZ : α) : Option (Quat α) :=
  let sinX := T.sin (angleX * (1 / 2))
  let cosX := T.cos (angleX * (1 / 2))
  let sinY := T.sin (angleY * (1 / 2))
  let cosY := T.cos (angleY * (1 / 2))
  let sinZ := T.sin (angleZ * (1 / 2))
  let cosZ := T.cos (angleZ * (1 / 2))
  let cosYcosZ := cosY * cosZ
  let sinYcosZ := sinY * cosZ
  let cosYsinZ := cosY * sinZ
  let sinYsinZ := sinY * sinZ
  normalize T ⟨sinX * cosYcosZ - cosX * sinYsinZ, cosX * sinYcosZ + sinX * cosYsinZ, cosX * cosYsinZ - sinX * sinYcosZ,
    cosX * cosYcosZ + sinX * sinYsinZ⟩

/-- `getRotationAngleAxis` (Quaternion.cpp:122-136): the angle and the axis. -/
def angleAxis (T : Trig α) (q : Quat α) : α × V3 α :=
  let angle := T.acos q.w * 2
  let a := (⟨q.x, q.y, q.z⟩ : V3 α).getUnit T
  (angle, ⟨a.x, a.y, a.z⟩)

/-- `slerp` (Quaternion.cpp:169-207). -/
def slerp (T : Trig α) (q1 q2 : Quat α) (t : α) : Option (Quat α) :=
  if t ≥ 0 ∧ t ≤ 1 then
    let c := q1.dot q2
    let cosineTheta := if c < 0 then -c else c
    let invert : α := if c < 0 then -1 else 1
    if 1 - cosineTheta < 1 / 100000 then
      some ((q1.scale (1 - t)).add (q2.scale (t * invert)))
    else
      let theta := T.acos cosineTheta
      let sineTheta := T.sin theta
      let coeff1 := T.sin ((1 - t) * theta) / sineTheta
      let coeff2 := T.sin (t * theta) / sineTheta * invert
      some ((q1.scale coeff1).add (q2.scale coeff2))
  else none

end Quat

namespace Trans
variable {α : Type} [Field α] [LinearOrder α]

/-- `interpolateTransforms` (Transform.h:168-180). -/
def interpolate (T : Trig α) (old new : Trans α) (f : α) : Option (Trans α) :=
  let p := V3.smul (1 - f) old.pos + V3.smul f new.pos
  (old.ori.slerp T new.ori f).map fun q => ⟨p, q⟩

end Trans
end RP3D
