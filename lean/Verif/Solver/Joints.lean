import Verif.Solver.Contact

/-!
Model of the velocity solvers of the four joints (src/systems/SolveBallAndSocketJointSystem.cpp, SolveFixedJointSystem.cpp,
SolveHingeJointSystem.cpp, SolveSliderJointSystem.cpp: initBeforeSolve, warmstart, solveVelocityConstraint, the angle of the hinge) and of
ConstraintSolverSystem.cpp:60-113.

Simplifications.
* Exact arithmetic; square root, arc cosine, `atan2` and `fmod` are arguments.
* The components of a joint in the component arrays are one record; the joints of a type form a list.
* `solvePositionConstraint` (only for the technique NON_LINEAR_GAUSS_SEIDEL) is not part of this file.
-/

namespace RP3D
namespace Joints
open Solver
variable {K : Type}

/-- `Vector2`, `Matrix2x2` by rows. -/
@[ext] structure V2 (K : Type) where
  x : K
  y : K

@[ext] structure M2 (K : Type) where
  a : K
  b : K
  c : K
  d : K

/-- What the solvers of joints read of a body: as for contacts, and orientation, local center of mass, whether the type is DYNAMIC. -/
structure JBody (K : Type) extends SBody K where
  q : Quat K
  com : V3 K
  dyn : Bool

/-- `mTimeStep`, `BETA`, `MACHINE_EPSILON`, `mIsWarmStartingActive`, `PI_RP3D` and the functions of the C++ library. -/
structure JCfg (K : Type) where
  dt : K
  beta : K
  eps : K
  warm : Bool
  pi : K
  sqrt : K → K
  acos : K → K
  atan2 : K → K → K
  fmod : K → K → K

/-- Two bodies of a joint with the data of the moment. -/
structure Two (K : Type) where
  b1 : Nat
  b2 : Nat
  m1 : K
  m2 : K
  I1 : M3 K
  I2 : M3 K
  ll1 : V3 K
  ll2 : V3 K
  la1 : V3 K
  la2 : V3 K

def two (body : Nat → JBody K) (b1 b2 : Nat) : Two K :=
  ⟨b1, b2, (body b1).m, (body b2).m, (body b1).I, (body b2).I, (body b1).ll, (body b2).ll, (body b1).la, (body b2).la⟩

variable [Field K] [LinearOrder K]

namespace M2
/-- Matrix2x2.h:200-204. -/
def det (m : M2 K) : K := m.a * m.d - m.c * m.b
/-- Matrix2x2.cpp:31-43. -/
def inverseWith (d : K) (m : M2 K) : M2 K := ⟨1 / d * m.d, 1 / d * -m.b, 1 / d * -m.c, 1 / d * m.a⟩
def zero : M2 K := ⟨0, 0, 0, 0⟩
/-- `operator*(Matrix2x2, Vector2)`. -/
def act (m : M2 K) (v : V2 K) : V2 K := ⟨m.a * v.x + m.b * v.y, m.c * v.x + m.d * v.y⟩
end M2

/-! ### Impulses -/

/-- `v1 += inverseMass1 * linearLock1 * P1; w1 += angularLock1 * (I1 * A1)` and the same for the second body
(SolveBallAndSocketJointSystem.cpp:201-211, 283-293). -/
def kick (c : Two K) (P1 A1 P2 A2 : V3 K) (V : Nat → Vel K) : Nat → Vel K :=
  let V := upd V c.b1 { V c.b1 with v := (V c.b1).v + V3.had (V3.smul c.m1 c.ll1) P1, w := (V c.b1).w + V3.had c.la1 (c.I1.act A1) }
  upd V c.b2 { V c.b2 with v := (V c.b2).v + V3.had (V3.smul c.m2 c.ll2) P2, w := (V c.b2).w + V3.had c.la2 (c.I2.act A2) }

/-- The same for angular velocities only (SolveBallAndSocketJointSystem.cpp:258-267). -/
def turn (c : Two K) (A1 A2 : V3 K) (V : Nat → Vel K) : Nat → Vel K :=
  let V := upd V c.b1 { V c.b1 with w := (V c.b1).w + V3.had c.la1 (c.I1.act A1) }
  upd V c.b2 { V c.b2 with w := (V c.b2).w + V3.had c.la2 (c.I2.act A2) }

/-- The same for linear velocities only (SolveSliderJointSystem.cpp:448-458). -/
def shove (c : Two K) (P1 P2 : V3 K) (V : Nat → Vel K) : Nat → Vel K :=
  let V := upd V c.b1 { V c.b1 with v := (V c.b1).v + V3.had (V3.smul c.m1 c.ll1) P1 }
  upd V c.b2 { V c.b2 with v := (V c.b2).v + V3.had (V3.smul c.m2 c.ll2) P2 }

/-- `getUnit`, `normalize` (Vector3.cpp:33-43, Vector3.h:219-227). -/
def unitOf (cfg : JCfg K) (n : V3 K) : V3 K := if cfg.sqrt n.lengthSq < cfg.eps then n else V3.smul (1 / cfg.sqrt n.lengthSq) n

/-- `Quaternion::normalize` (Quaternion.h:239-250). -/
def unitQ (cfg : JCfg K) (q : Quat K) : Quat K := q.divBy (cfg.sqrt q.lengthSq)

/-- `K = J M^-1 J^t` of the three translation constraints (SolveBallAndSocketJointSystem.cpp:83-98). -/
def massMatrix (m1 m2 : K) (I1 I2 : M3 K) (r1 r2 : V3 K) : M3 K :=
  let m := m1 + m2
  M3.add (M3.add (M3.of m 0 0 0 m 0 0 0 m) (M3.mul (M3.mul (M3.skew r1) I1) (M3.skew r1).transpose))
    (M3.mul (M3.mul (M3.skew r2) I2) (M3.skew r2).transpose)

/-- The inverse if the determinant is large enough and a body is dynamic, else zero (SolveBallAndSocketJointSystem.cpp:100-108). -/
def inverseOrZero (cfg : JCfg K) (dyn : Bool) (m : M3 K) : M3 K :=
  if cfg.eps < |m.det| then (if dyn then m.inverseWith m.det else M3.zero) else M3.zero

/-- For the rotation of fixed joints and sliders (SolveFixedJointSystem.cpp:119-126, SolveSliderJointSystem.cpp:198-206): the matrix itself stays if
it is not inverted. -/
def inverseOrSame (cfg : JCfg K) (dyn : Bool) (m : M3 K) : M3 K :=
  if cfg.eps < |m.det| then (if dyn then m.inverseWith m.det else m) else m

/-- The 2x2 version (SolveHingeJointSystem.cpp:142-150, SolveSliderJointSystem.cpp:185-194). -/
def inverseOrZero2 (cfg : JCfg K) (dyn : Bool) (m : M2 K) : M2 K :=
  if cfg.eps < |m.det| then (if dyn then m.inverseWith m.det else M2.zero) else M2.zero

/-- Vector from the center of mass to the anchor (SolveBallAndSocketJointSystem.cpp:78-79). -/
def arm (B : JBody K) (a : V3 K) : V3 K := B.q.rot (a - B.com)

/-- The impulse `l` at the anchors of the two bodies (SolveBallAndSocketJointSystem.cpp:278-293, SolveFixedJointSystem.cpp:241-259,
SolveHingeJointSystem.cpp:449-464). -/
def pin (c : Two K) (r1 r2 l : V3 K) (V : Nat → Vel K) : Nat → Vel K := kick c (-l) (V3.cross l r1) l (-(V3.cross l r2)) V

/-! ### Ball-and-socket joint -/

structure Ball (K : Type) where
  b1 : Nat
  b2 : Nat
  /-- `mPositionCorrectionTechniques` is BAUMGARTE_JOINTS -/
  baum : Bool
  /-- `mLocalAnchorPointBody*` -/
  a1 : V3 K
  a2 : V3 K
  r1 : V3 K
  r2 : V3 K
  /-- `mInverseMassMatrix`, `mBiasVector`, `mImpulse` -/
  k : M3 K
  bias : V3 K
  imp : V3 K
  /-- `mIsConeLimitEnabled`, `mConeLimitHalfAngle`, `mConeLimitACrossB`, `mIsConeLimitViolated`, `mConeLimitImpulse`,
  `mInverseMassMatrixConeLimit`, `mBConeLimit` -/
  coneOn : Bool
  half : K
  axb : V3 K
  cone : Bool
  coneImp : K
  coneK : K
  coneBias : K

/-- `initBeforeSolve` (SolveBallAndSocketJointSystem.cpp:49-159); the angle is that of SolveBallAndSocketJointSystem.h:148-154. -/
def Ball.init (cfg : JCfg K) (body : Nat → JBody K) (J : Ball K) : Ball K :=
  let A := body J.b1
  let B := body J.b2
  let r1 := arm A J.a1
  let r2 := arm B J.a2
  let u1 := unitOf cfg r1
  let u2 := unitOf cfg r2
  let axb := V3.cross u1 (-u2)
  let err := J.half - cfg.acos (V3.dot u1 (-u2))
  let viol := decide (err < 0)
  { J with r1 := r1, r2 := r2
           k := inverseOrZero cfg (A.dyn || B.dyn) (massMatrix A.m B.m A.I B.I r1 r2)
           bias := if J.baum then V3.smul (cfg.beta / cfg.dt) (B.x + r2 - A.x - r1) else 0
           imp := if cfg.warm then J.imp else 0
           axb := axb, cone := viol
           coneImp := if !viol || viol != J.cone then 0 else J.coneImp
           coneK := if J.coneOn then invOf (V3.dot axb (A.I.act axb) + V3.dot axb (B.I.act axb)) else J.coneK
           coneBias := if J.coneOn then (if J.baum then cfg.beta / cfg.dt * err else 0) else J.coneBias }

/-- `warmstart` (SolveBallAndSocketJointSystem.cpp:162-213). -/
def Ball.warm (body : Nat → JBody K) (J : Ball K) (V : Nat → Vel K) : Nat → Vel K :=
  let t := V3.smul J.coneImp J.axb
  kick (two body J.b1 J.b2) (-J.imp) (V3.cross J.imp J.r1 + t) J.imp (-(V3.cross J.imp J.r2) + -t) V

/-- The cone limit (SolveBallAndSocketJointSystem.cpp:239-270). -/
def Ball.limit (body : Nat → JBody K) (J : Ball K) (V : Nat → Vel K) : (Nat → Vel K) × Ball K :=
  if J.coneOn then
    if J.cone then
      let Jv := V3.dot J.axb ((V J.b1).w - (V J.b2).w)
      let new := max (J.coneImp + J.coneK * (-Jv - J.coneBias)) 0
      let d := new - J.coneImp
      (turn (two body J.b1 J.b2) (V3.smul d J.axb) (V3.smul (-d) J.axb) V, { J with coneImp := new })
    else (V, J)
  else (V, J)

/-- The three translation constraints (SolveBallAndSocketJointSystem.cpp:272-293). -/
def Ball.joint (body : Nat → JBody K) (J : Ball K) (V : Nat → Vel K) : (Nat → Vel K) × Ball K :=
  let d := J.k.act (-(rel (V J.b1) (V J.b2) J.r1 J.r2) - J.bias)
  (pin (two body J.b1 J.b2) J.r1 J.r2 d V, { J with imp := J.imp + d })

/-- `solveVelocityConstraint` (SolveBallAndSocketJointSystem.cpp:216-295). -/
def Ball.solve (body : Nat → JBody K) (J : Ball K) (V : Nat → Vel K) : (Nat → Vel K) × Ball K :=
  let s := J.limit body V
  s.2.joint body s.1

/-! ### Fixed joint -/

structure Fixed (K : Type) where
  b1 : Nat
  b2 : Nat
  baum : Bool
  a1 : V3 K
  a2 : V3 K
  /-- `mInitOrientationDifferenceInv` -/
  d : Quat K
  r1 : V3 K
  r2 : V3 K
  /-- `mInverseMassMatrixTranslation`, `mBiasTranslation`, `mImpulseTranslation` -/
  k : M3 K
  bias : V3 K
  imp : V3 K
  /-- `mInverseMassMatrixRotation`, `mBiasRotation`, `mImpulseRotation` -/
  kr : M3 K
  biasR : V3 K
  impR : V3 K

/-- `2 * qError.getVectorV()` with `qError = q2 * initOrientationDifferenceInv * q1^-1` (SolveFixedJointSystem.cpp:131-134). -/
def turnError (A B : JBody K) (d : Quat K) : V3 K :=
  let e := (B.q.mul d).mul A.q.conj
  V3.smul 2 ⟨e.x, e.y, e.z⟩

/-- `initBeforeSolve` (SolveFixedJointSystem.cpp:48-142). -/
def Fixed.init (cfg : JCfg K) (body : Nat → JBody K) (J : Fixed K) : Fixed K :=
  let A := body J.b1
  let B := body J.b2
  let r1 := arm A J.a1
  let r2 := arm B J.a2
  { J with r1 := r1, r2 := r2
           k := inverseOrZero cfg (A.dyn || B.dyn) (massMatrix A.m B.m A.I B.I r1 r2)
           bias := if J.baum then V3.smul (cfg.beta / cfg.dt) (B.x + r2 - A.x - r1) else 0
           imp := if cfg.warm then J.imp else 0
           kr := inverseOrSame cfg (A.dyn || B.dyn) (M3.add A.I B.I)
           biasR := if J.baum then V3.smul (cfg.beta / cfg.dt) (turnError A B J.d) else 0
           impR := if cfg.warm then J.impR else 0 }

/-- `warmstart` (SolveFixedJointSystem.cpp:145-202). -/
def Fixed.warm (body : Nat → JBody K) (J : Fixed K) (V : Nat → Vel K) : Nat → Vel K :=
  kick (two body J.b1 J.b2) (-J.imp) (V3.cross J.imp J.r1 + -J.impR) J.imp (-(V3.cross J.imp J.r2) + J.impR) V

/-- The translation constraints (SolveFixedJointSystem.cpp:233-259). -/
def Fixed.joint (body : Nat → JBody K) (J : Fixed K) (V : Nat → Vel K) : (Nat → Vel K) × Fixed K :=
  let d := J.k.act (-(rel (V J.b1) (V J.b2) J.r1 J.r2) - J.bias)
  (pin (two body J.b1 J.b2) J.r1 J.r2 d V, { J with imp := J.imp + d })

/-- The rotation constraints (SolveFixedJointSystem.cpp:261-283). -/
def Fixed.rotation (body : Nat → JBody K) (J : Fixed K) (V : Nat → Vel K) : (Nat → Vel K) × Fixed K :=
  let d := J.kr.act (-((V J.b2).w - (V J.b1).w) - J.biasR)
  (turn (two body J.b1 J.b2) (-d) d V, { J with impR := J.impR + d })

/-- `solveVelocityConstraint` (SolveFixedJointSystem.cpp:205-285). -/
def Fixed.solve (body : Nat → JBody K) (J : Fixed K) (V : Nat → Vel K) : (Nat → Vel K) × Fixed K :=
  let s := J.joint body V
  s.2.rotation body s.1

/-! ### Hinge joint -/

structure Hinge (K : Type) where
  b1 : Nat
  b2 : Nat
  baum : Bool
  a1 : V3 K
  a2 : V3 K
  /-- `mHingeLocalAxisBody1`, `mHingeLocalAxisBody2`, `mInitOrientationDifferenceInv` -/
  l1 : V3 K
  l2 : V3 K
  d : Quat K
  r1 : V3 K
  r2 : V3 K
  /-- `mA1`, `mB2CrossA1`, `mC2CrossA1` -/
  ax : V3 K
  ba : V3 K
  ca : V3 K
  k : M3 K
  bias : V3 K
  imp : V3 K
  kr : M2 K
  biasR : V2 K
  impR : V2 K
  /-- `mIsLimitEnabled`, `mLowerLimit`, `mUpperLimit`, `mIsLowerLimitViolated`, `mIsUpperLimitViolated`, `mBLowerLimit`, `mBUpperLimit`,
  `mImpulseLowerLimit`, `mImpulseUpperLimit`, `mInverseMassMatrixLimitMotor` -/
  limitOn : Bool
  lower : K
  upper : K
  low : Bool
  up : Bool
  biasL : K
  biasU : K
  impL : K
  impU : K
  km : K
  /-- `mIsMotorEnabled`, `mMotorSpeed`, `mMaxMotorTorque`, `mImpulseMotor` -/
  motorOn : Bool
  speed : K
  max : K
  impM : K

/-- `computeNormalizedAngle` (SolveHingeJointSystem.cpp:719-734). -/
def normalAngle (cfg : JCfg K) (angle : K) : K :=
  let a := cfg.fmod angle (2 * cfg.pi)
  if a < -cfg.pi then a + 2 * cfg.pi else if cfg.pi < a then a - 2 * cfg.pi else a

/-- `computeCorrespondingAngleNearLimits` (SolveHingeJointSystem.cpp:739-756). -/
def nearLimits (cfg : JCfg K) (angle lower upper : K) : K :=
  if upper ≤ lower then angle
  else if upper < angle then
    if |normalAngle cfg (angle - lower)| < |normalAngle cfg (angle - upper)| then angle - 2 * cfg.pi else angle
  else if angle < lower then
    if |normalAngle cfg (lower - angle)| < |normalAngle cfg (upper - angle)| then angle else angle + 2 * cfg.pi
  else angle

/-- `computeCurrentHingeAngle` (SolveHingeJointSystem.cpp:759-799). -/
def hingeAngle (cfg : JCfg K) (d : Quat K) (ax : V3 K) (lower upper : K) (q1 q2 : Quat K) : K :=
  let diff := unitQ cfg (q2.mul q1.conj)
  let rel := unitQ cfg (diff.mul d)
  let v : V3 K := ⟨rel.x, rel.y, rel.z⟩
  let sin := cfg.sqrt v.lengthSq
  let a := if 0 ≤ V3.dot v ax then 2 * cfg.atan2 sin rel.w else 2 * cfg.atan2 sin (-rel.w)
  nearLimits cfg (normalAngle cfg a) lower upper

/-- What the constructor stores (HingeJoint.cpp:78-82). -/
def hingeDiff (cfg : JCfg K) (q1 q2 : Quat K) : Quat K := (unitQ cfg (q2.mul q1.conj)).conj

/-- `initBeforeSolve` (SolveHingeJointSystem.cpp:48-213). -/
def Hinge.init (cfg : JCfg K) (body : Nat → JBody K) (J : Hinge K) : Hinge K :=
  let A := body J.b1
  let B := body J.b2
  let r1 := arm A J.a1
  let r2 := arm B J.a2
  let ax := unitOf cfg (A.q.rot J.l1)
  let ax2 := unitOf cfg (B.q.rot J.l2)
  let b := orthogonal cfg.sqrt ax2
  let c := V3.cross ax2 b
  let ba := V3.cross b ax
  let ca := V3.cross c ax
  let angle := hingeAngle cfg J.d ax J.lower J.upper A.q B.q
  let eL := angle - J.lower
  let eU := J.upper - angle
  let low := decide (eL ≤ 0)
  let up := decide (eU ≤ 0)
  let on := J.motorOn || (J.limitOn && (low || up))
  let impL := if cfg.warm then J.impL else 0
  let impU := if cfg.warm then J.impU else 0
  { J with r1 := r1, r2 := r2, ax := ax, ba := ba, ca := ca
           k := inverseOrZero cfg (A.dyn || B.dyn) (massMatrix A.m B.m A.I B.I r1 r2)
           bias := if J.baum then V3.smul (cfg.beta / cfg.dt) (B.x + r2 - A.x - r1) else 0
           imp := if cfg.warm then J.imp else 0
           kr := inverseOrZero2 cfg (A.dyn || B.dyn)
             ⟨V3.dot ba (A.I.act ba) + V3.dot ba (B.I.act ba), V3.dot ba (A.I.act ca) + V3.dot ba (B.I.act ca),
              V3.dot ca (A.I.act ba) + V3.dot ca (B.I.act ba), V3.dot ca (A.I.act ca) + V3.dot ca (B.I.act ca)⟩
           biasR := if J.baum then ⟨cfg.beta / cfg.dt * V3.dot ax b, cfg.beta / cfg.dt * V3.dot ax c⟩ else ⟨0, 0⟩
           impR := if cfg.warm then J.impR else ⟨0, 0⟩
           low := low, up := up
           impL := if !low || low != J.low then 0 else impL
           impU := if !up || up != J.up then 0 else impU
           impM := if cfg.warm then J.impM else 0
           km := if on then invOf (V3.dot ax (A.I.act ax) + V3.dot ax (B.I.act ax)) else J.km
           biasL := if on && J.limitOn then (if J.baum then cfg.beta / cfg.dt * eL else 0) else J.biasL
           biasU := if on && J.limitOn then (if J.baum then cfg.beta / cfg.dt * eU else 0) else J.biasU }

/-- `-b2CrossA1 * x - c2CrossA1 * y` (SolveHingeJointSystem.cpp:248, 431). -/
def Hinge.swing (J : Hinge K) (l : V2 K) : V3 K := V3.smul l.x (-J.ba) - V3.smul l.y J.ca

/-- `b2CrossA1 * x + c2CrossA1 * y` (SolveHingeJointSystem.cpp:437). -/
def Hinge.swing' (J : Hinge K) (l : V2 K) : V3 K := V3.smul l.x J.ba + V3.smul l.y J.ca

/-- `warmstart` (SolveHingeJointSystem.cpp:216-293). -/
def Hinge.warm (body : Nat → JBody K) (J : Hinge K) (V : Nat → Vel K) : Nat → Vel K :=
  let R := J.swing J.impR
  let L := V3.smul (J.impU - J.impL) J.ax
  let M := V3.smul (-J.impM) J.ax
  kick (two body J.b1 J.b2) (-J.imp) (V3.cross J.imp J.r1 + R + L + M) J.imp (-(V3.cross J.imp J.r2) + -R + -L + -M) V

/-- The lower limit (SolveHingeJointSystem.cpp:340-364). -/
def Hinge.limitL (body : Nat → JBody K) (J : Hinge K) (V : Nat → Vel K) : (Nat → Vel K) × Hinge K :=
  if J.limitOn && J.low then
    let Jv := V3.dot ((V J.b2).w - (V J.b1).w) J.ax
    let new := Max.max (J.impL + J.km * (-Jv - J.biasL)) 0
    let d := new - J.impL
    (turn (two body J.b1 J.b2) (V3.smul (-d) J.ax) (V3.smul d J.ax) V, { J with impL := new })
  else (V, J)

/-- The upper limit (SolveHingeJointSystem.cpp:366-388). -/
def Hinge.limitU (body : Nat → JBody K) (J : Hinge K) (V : Nat → Vel K) : (Nat → Vel K) × Hinge K :=
  if J.limitOn && J.up then
    let Jv := -(V3.dot ((V J.b2).w - (V J.b1).w) J.ax)
    let new := Max.max (J.impU + J.km * (-Jv - J.biasU)) 0
    let d := new - J.impU
    (turn (two body J.b1 J.b2) (V3.smul d J.ax) (V3.smul (-d) J.ax) V, { J with impU := new })
  else (V, J)

/-- The motor (SolveHingeJointSystem.cpp:391-416). -/
def Hinge.motor (cfg : JCfg K) (body : Nat → JBody K) (J : Hinge K) (V : Nat → Vel K) : (Nat → Vel K) × Hinge K :=
  if J.motorOn then
    let Jv := V3.dot J.ax ((V J.b1).w - (V J.b2).w)
    let m := J.max * cfg.dt
    let new := min (Max.max (J.impM + J.km * (-Jv - J.speed)) (-m)) m
    let d := new - J.impM
    (turn (two body J.b1 J.b2) (V3.smul (-d) J.ax) (V3.smul d J.ax) V, { J with impM := new })
  else (V, J)

/-- The two rotation constraints (SolveHingeJointSystem.cpp:418-440). -/
def Hinge.rotation (body : Nat → JBody K) (J : Hinge K) (V : Nat → Vel K) : (Nat → Vel K) × Hinge K :=
  let Jv : V2 K := ⟨-(V3.dot J.ba (V J.b1).w) + V3.dot J.ba (V J.b2).w, -(V3.dot J.ca (V J.b1).w) + V3.dot J.ca (V J.b2).w⟩
  let d := J.kr.act ⟨-Jv.x - J.biasR.x, -Jv.y - J.biasR.y⟩
  (turn (two body J.b1 J.b2) (J.swing d) (J.swing' d) V, { J with impR := ⟨J.impR.x + d.x, J.impR.y + d.y⟩ })

/-- The three translation constraints (SolveHingeJointSystem.cpp:442-464). -/
def Hinge.joint (body : Nat → JBody K) (J : Hinge K) (V : Nat → Vel K) : (Nat → Vel K) × Hinge K :=
  let d := J.k.act (-(rel (V J.b1) (V J.b2) J.r1 J.r2) - J.bias)
  (pin (two body J.b1 J.b2) J.r1 J.r2 d V, { J with imp := J.imp + d })

/-- `solveVelocityConstraint` (SolveHingeJointSystem.cpp:296-466). -/
def Hinge.solve (cfg : JCfg K) (body : Nat → JBody K) (J : Hinge K) (V : Nat → Vel K) : (Nat → Vel K) × Hinge K :=
  let s := J.limitL body V
  let s := s.2.limitU body s.1
  let s := s.2.motor cfg body s.1
  let s := s.2.rotation body s.1
  s.2.joint body s.1

/-! ### Slider joint -/

structure Slider (K : Type) where
  b1 : Nat
  b2 : Nat
  baum : Bool
  a1 : V3 K
  a2 : V3 K
  /-- `mSliderAxisBody1`, `mInitOrientationDifferenceInv` -/
  l1 : V3 K
  d : Quat K
  r1 : V3 K
  r2 : V3 K
  /-- `mSliderAxisWorld`, `mN1`, `mN2` -/
  ax : V3 K
  n1 : V3 K
  n2 : V3 K
  /-- `mR1PlusUCrossN1`, `mR1PlusUCrossN2`, `mR1PlusUCrossSliderAxis`, `mR2CrossN1`, `mR2CrossN2`, `mR2CrossSliderAxis` -/
  c1 : V3 K
  c2 : V3 K
  cx : V3 K
  e1 : V3 K
  e2 : V3 K
  ex : V3 K
  k : M2 K
  bias : V2 K
  imp : V2 K
  kr : M3 K
  biasR : V3 K
  impR : V3 K
  limitOn : Bool
  lower : K
  upper : K
  low : Bool
  up : Bool
  biasL : K
  biasU : K
  impL : K
  impU : K
  /-- `mInverseMassMatrixLimit`, `mInverseMassMatrixMotor` -/
  kl : K
  km : K
  motorOn : Bool
  speed : K
  max : K
  impM : K

/-- `initBeforeSolve` (SolveSliderJointSystem.cpp:48-239). The mass of the limits is computed before `mR2CrossSliderAxis` gets its new value
(lines 128-138, 158). -/
def Slider.init (cfg : JCfg K) (body : Nat → JBody K) (J : Slider K) : Slider K :=
  let A := body J.b1
  let B := body J.b2
  let r1 := arm A J.a1
  let r2 := arm B J.a2
  let ax := unitOf cfg (A.q.rot J.l1)
  let n1 := orthogonal cfg.sqrt ax
  let n2 := V3.cross ax n1
  let u := B.x + r2 - A.x - r1
  let c1 := V3.cross (r1 + u) n1
  let c2 := V3.cross (r1 + u) n2
  let cx := V3.cross (r1 + u) ax
  let e1 := V3.cross r2 n1
  let e2 := V3.cross r2 n2
  let s := V3.dot u ax
  let eL := s - J.lower
  let eU := J.upper - s
  let low := decide (eL ≤ 0)
  let up := decide (eU ≤ 0)
  let on := J.limitOn && (low || up)
  let m := A.m + B.m
  { J with r1 := r1, r2 := r2, ax := ax, n1 := n1, n2 := n2, c1 := c1, c2 := c2, cx := cx, e1 := e1, e2 := e2, ex := V3.cross r2 ax
           low := low, up := up
           bias := if J.baum then ⟨cfg.beta / cfg.dt * V3.dot u n1, cfg.beta / cfg.dt * V3.dot u n2⟩ else ⟨0, 0⟩
           kl := if on then invOf (m + V3.dot cx (A.I.act cx) + V3.dot J.ex (B.I.act J.ex)) else J.kl
           biasL := if on then (if J.baum then cfg.beta / cfg.dt * eL else 0) else J.biasL
           biasU := if on then (if J.baum then cfg.beta / cfg.dt * eU else 0) else J.biasU
           k := inverseOrZero2 cfg (A.dyn || B.dyn)
             ⟨m + V3.dot c1 (A.I.act c1) + V3.dot e1 (B.I.act e1), V3.dot c1 (A.I.act c2) + V3.dot e1 (B.I.act e2),
              V3.dot c2 (A.I.act c1) + V3.dot e2 (B.I.act e1), m + V3.dot c2 (A.I.act c2) + V3.dot e2 (B.I.act e2)⟩
           kr := inverseOrSame cfg (A.dyn || B.dyn) (M3.add A.I B.I)
           biasR := if J.baum then V3.smul (cfg.beta / cfg.dt) (turnError A B J.d) else 0
           km := if J.motorOn then invOf m else J.km
           imp := if cfg.warm then J.imp else ⟨0, 0⟩
           impR := if cfg.warm then J.impR else 0
           impL := if !cfg.warm || !low || low != J.low then 0 else J.impL
           impU := if !cfg.warm || !up || up != J.up then 0 else J.impU
           impM := if cfg.warm then J.impM else 0 }

/-- `warmstart` (SolveSliderJointSystem.cpp:242-319). -/
def Slider.warm (body : Nat → JBody K) (J : Slider K) (V : Nat → Vel K) : Nat → Vel K :=
  let l := J.impU - J.impL
  let L := V3.smul l J.ax
  let M := V3.smul J.impM J.ax
  kick (two body J.b1 J.b2)
    (V3.smul J.imp.x (-J.n1) - V3.smul J.imp.y J.n2 + L + M)
    (V3.smul J.imp.x (-J.c1) - V3.smul J.imp.y J.c2 + -J.impR + V3.smul l J.cx)
    (V3.smul J.imp.x J.n1 + V3.smul J.imp.y J.n2 + -L + -M)
    (V3.smul J.imp.x J.e1 + V3.smul J.imp.y J.e2 + J.impR + V3.smul (-l) J.ex) V

/-- Velocity of the second body along the axis as seen from the first one (SolveSliderJointSystem.cpp:377-378, 407-408). -/
def Slider.along (J : Slider K) (V : Nat → Vel K) : K :=
  V3.dot J.ax (V J.b2).v + V3.dot J.ex (V J.b2).w - V3.dot J.ax (V J.b1).v - V3.dot J.cx (V J.b1).w

/-- The lower limit (SolveSliderJointSystem.cpp:373-401). -/
def Slider.limitL (body : Nat → JBody K) (J : Slider K) (V : Nat → Vel K) : (Nat → Vel K) × Slider K :=
  if J.limitOn && J.low then
    let new := Max.max (J.impL + J.kl * (-(J.along V) - J.biasL)) 0
    let d := new - J.impL
    (kick (two body J.b1 J.b2) (V3.smul (-d) J.ax) (V3.smul (-d) J.cx) (V3.smul d J.ax) (V3.smul d J.ex) V, { J with impL := new })
  else (V, J)

/-- The upper limit (SolveSliderJointSystem.cpp:403-431). -/
def Slider.limitU (body : Nat → JBody K) (J : Slider K) (V : Nat → Vel K) : (Nat → Vel K) × Slider K :=
  if J.limitOn && J.up then
    let new := Max.max (J.impU + J.kl * (J.along V - J.biasU)) 0
    let d := new - J.impU
    (kick (two body J.b1 J.b2) (V3.smul d J.ax) (V3.smul d J.cx) (V3.smul (-d) J.ax) (V3.smul (-d) J.ex) V, { J with impU := new })
  else (V, J)

/-- The motor (SolveSliderJointSystem.cpp:434-459). -/
def Slider.motor (cfg : JCfg K) (body : Nat → JBody K) (J : Slider K) (V : Nat → Vel K) : (Nat → Vel K) × Slider K :=
  if J.motorOn then
    let Jv := V3.dot J.ax (V J.b1).v - V3.dot J.ax (V J.b2).v
    let m := J.max * cfg.dt
    let new := min (Max.max (J.impM + J.km * (-Jv - J.speed)) (-m)) m
    let d := new - J.impM
    (shove (two body J.b1 J.b2) (V3.smul d J.ax) (V3.smul (-d) J.ax) V, { J with impM := new })
  else (V, J)

/-- The rotation constraints (SolveSliderJointSystem.cpp:461-481). -/
def Slider.rotation (body : Nat → JBody K) (J : Slider K) (V : Nat → Vel K) : (Nat → Vel K) × Slider K :=
  let d := J.kr.act (-((V J.b2).w - (V J.b1).w) - J.biasR)
  (turn (two body J.b1 J.b2) (-d) d V, { J with impR := J.impR + d })

/-- The two translation constraints (SolveSliderJointSystem.cpp:483-511). -/
def Slider.joint (body : Nat → JBody K) (J : Slider K) (V : Nat → Vel K) : (Nat → Vel K) × Slider K :=
  let Jv : V2 K :=
    ⟨-(V3.dot J.n1 (V J.b1).v) - V3.dot (V J.b1).w J.c1 + V3.dot J.n1 (V J.b2).v + V3.dot (V J.b2).w J.e1,
     -(V3.dot J.n2 (V J.b1).v) - V3.dot (V J.b1).w J.c2 + V3.dot J.n2 (V J.b2).v + V3.dot (V J.b2).w J.e2⟩
  let d := J.k.act ⟨-Jv.x - J.bias.x, -Jv.y - J.bias.y⟩
  let P := V3.smul d.x (-J.n1) - V3.smul d.y J.n2
  (kick (two body J.b1 J.b2) P (V3.smul d.x (-J.c1) - V3.smul d.y J.c2) (-P) (V3.smul d.x J.e1 + V3.smul d.y J.e2) V,
   { J with imp := ⟨J.imp.x + d.x, J.imp.y + d.y⟩ })

/-- `solveVelocityConstraint` (SolveSliderJointSystem.cpp:322-513). -/
def Slider.solve (cfg : JCfg K) (body : Nat → JBody K) (J : Slider K) (V : Nat → Vel K) : (Nat → Vel K) × Slider K :=
  let s := J.limitL body V
  let s := s.2.limitU body s.1
  let s := s.2.motor cfg body s.1
  let s := s.2.rotation body s.1
  s.2.joint body s.1

/-! ### All joints -/

inductive Joint (K : Type)
  | ball (J : Ball K)
  | fixed (J : Fixed K)
  | hinge (J : Hinge K)
  | slider (J : Slider K)

def Joint.b1 : Joint K → Nat
  | .ball J => J.b1
  | .fixed J => J.b1
  | .hinge J => J.b1
  | .slider J => J.b1

def Joint.b2 : Joint K → Nat
  | .ball J => J.b2
  | .fixed J => J.b2
  | .hinge J => J.b2
  | .slider J => J.b2

def Joint.init (cfg : JCfg K) (body : Nat → JBody K) : Joint K → Joint K
  | .ball J => .ball (J.init cfg body)
  | .fixed J => .fixed (J.init cfg body)
  | .hinge J => .hinge (J.init cfg body)
  | .slider J => .slider (J.init cfg body)

def Joint.warm (body : Nat → JBody K) (V : Nat → Vel K) : Joint K → Nat → Vel K
  | .ball J => J.warm body V
  | .fixed J => J.warm body V
  | .hinge J => J.warm body V
  | .slider J => J.warm body V

def Joint.solve (cfg : JCfg K) (body : Nat → JBody K) (V : Nat → Vel K) : Joint K → (Nat → Vel K) × Joint K
  | .ball J => ((J.solve body V).1, .ball (J.solve body V).2)
  | .fixed J => ((J.solve body V).1, .fixed (J.solve body V).2)
  | .hinge J => ((J.solve cfg body V).1, .hinge (J.solve cfg body V).2)
  | .slider J => ((J.solve cfg body V).1, .slider (J.solve cfg body V).2)

/-- `ConstraintSolverSystem::initialize` (ConstraintSolverSystem.cpp:64-94): the warm start of all joints. The code takes the four types one after the
other; here the joints come in one list, in any order. -/
def warmAll (cfg : JCfg K) (body : Nat → JBody K) (Js : List (Joint K)) (V : Nat → Vel K) : Nat → Vel K :=
  if cfg.warm then Js.foldl (fun V J => J.warm body V) V else V

/-- `solveVelocityConstraints` (ConstraintSolverSystem.cpp:97-105). -/
def solveAll (cfg : JCfg K) (body : Nat → JBody K) : (Nat → Vel K) → List (Joint K) → (Nat → Vel K) × List (Joint K)
  | V, [] => (V, [])
  | V, J :: Js =>
    let s := J.solve cfg body V
    let r := solveAll cfg body s.1 Js
    (r.1, s.2 :: r.2)

/-- The iterations of `solveContactsAndConstraints` (PhysicsWorld.cpp:334-339). -/
def loop (cfg : Cfg K) (jc : JCfg K) (body : Nat → JBody K) : Nat → (Nat → Vel K) × List (Joint K) × List (Man K) →
    (Nat → Vel K) × List (Joint K) × List (Man K)
  | 0, s => s
  | n + 1, s =>
    let a := solveAll jc body s.1 s.2.1
    let b := Solver.solve cfg a.1 s.2.2
    loop cfg jc body n (b.1, a.2, b.2)

/-- `solveContactsAndConstraints` (PhysicsWorld.cpp:321-345): contacts first, then joints are initialised and warm started. -/
def solveStep (cfg : Cfg K) (jc : JCfg K) (body : Nat → JBody K) (V : Nat → Vel K) (Js : List (Joint K)) (Xs : List (XMan K)) (n : Nat) :
    (Nat → Vel K) × List (Joint K) × List (Man K) :=
  let w := warmStart V (Xs.map (initMan cfg jc.sqrt fun b => (body b).toSBody))
  let Js := Js.map (Joint.init jc body)
  loop cfg jc body n (warmAll jc body Js w.1, Js, w.2)

/-! ### What the user reads -/

/-- `getReactionForce` times the time step (BallAndSocketJoint.cpp:143-146, FixedJoint.cpp:78-81, HingeJoint.cpp:275-278, SliderJoint.cpp:301-317). -/
def Joint.reactionForce : Joint K → V3 K
  | .ball J => J.imp
  | .fixed J => J.imp
  | .hinge J => J.imp
  | .slider J => V3.smul J.imp.x J.n1 + V3.smul J.imp.y J.n2 + V3.smul J.impL J.ax + V3.smul (-J.impU) J.ax + V3.smul (-J.impM) J.ax

/-- `getReactionTorque` times the time step (BallAndSocketJoint.cpp:152-155, FixedJoint.cpp:87-90, HingeJoint.cpp:284-300, SliderJoint.cpp:323-327). -/
def Joint.reactionTorque : Joint K → V3 K
  | .ball _ => 0
  | .fixed J => J.impR
  | .hinge J => V3.smul J.impR.x J.ba + V3.smul J.impR.y J.ca + V3.smul J.impL J.ax + V3.smul (-J.impU) J.ax + V3.smul J.impM J.ax
  | .slider J => J.impR

/-- `SliderJoint::getTranslation` (SliderJoint.cpp:129-159) with the transforms of the bodies. -/
def sliderTranslation (cfg : JCfg K) (J : Slider K) (t1 t2 : Trans K) : K :=
  let u := (t2.pos + t2.ori.rot J.a2) - (t1.pos + t1.ori.rot J.a1)
  V3.dot u (unitOf cfg (t1.ori.rot J.l1))

end Joints
end RP3D
