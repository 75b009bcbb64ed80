import Verif.Solver.Joints
import Verif.Dynamics.Body

/-!
Model of the position solvers of the four joints, `solvePositionConstraint` (src/systems/SolveBallAndSocketJointSystem.cpp:298-445,
SolveFixedJointSystem.cpp:288-448, SolveHingeJointSystem.cpp:469-716, SolveSliderJointSystem.cpp:516-828), of
ConstraintSolverSystem.cpp:105-113 and of the iterations PhysicsWorld.cpp:348-360.

Simplifications.
* Exact arithmetic; square root, arc cosine, `atan2` and `fmod` are arguments.
* The assertion `l > MACHINE_EPSILON` of `Quaternion::normalize` is not modelled; a quaternion of length zero stays zero.
* The enabled joints of a type are a list in the order of their components. The same component holds the data of the velocity solver, so the records
are those of `Verif.Solver.Joints`.
-/

namespace RP3D
namespace Joints
open Solver
variable {K : Type}

/-- `mConstrainedPositions` (the center of mass) and `mConstrainedOrientations` of a body. -/
@[ext] structure Pose (K : Type) where
  x : V3 K
  q : Quat K

/-- What the position solvers read of a body: `mInverseMasses`, `mInverseInertiaTensorsLocal`, `mCentersOfMassLocal`, `mLinearLockAxisFactors`,
`mAngularLockAxisFactors` and whether `mBodyTypes` is DYNAMIC. -/
structure PBody (K : Type) where
  m : K
  i : V3 K
  com : V3 K
  ll : V3 K
  la : V3 K
  dyn : Bool

variable [Field K] [LinearOrder K]

/-- The data and the pose of a body of the world. -/
def PBody.ofDyn (d : Dyn K) : PBody K := ⟨d.invMass, d.invInertia, d.comLocal, d.linLock, d.angLock, decide (d.type = .dynamic)⟩
def Pose.ofDyn (d : Dyn K) : Pose K := ⟨d.cPos, d.cOri⟩

/-! ### Corrections -/

/-- `q += Quaternion(0, w) * q * 0.5; q.normalize()` (SolveBallAndSocketJointSystem.cpp:375-376). -/
def spin (cfg : JCfg K) (w : V3 K) (q : Quat K) : Quat K := unitQ cfg (q.add (((⟨w.x, w.y, w.z, 0⟩ : Quat K).mul q).scale (1 / 2)))

/-- Pseudo velocities of the two bodies, and the update of position and orientation, first of body 1 then of body 2
(SolveBallAndSocketJointSystem.cpp:416-442). -/
def place (cfg : JCfg K) (c : Two K) (P1 A1 P2 A2 : V3 K) (X : Nat → Pose K) : Nat → Pose K :=
  let X := upd X c.b1 ⟨(X c.b1).x + V3.had (V3.smul c.m1 c.ll1) P1, spin cfg (V3.had c.la1 (c.I1.act A1)) (X c.b1).q⟩
  upd X c.b2 ⟨(X c.b2).x + V3.had (V3.smul c.m2 c.ll2) P2, spin cfg (V3.had c.la2 (c.I2.act A2)) (X c.b2).q⟩

/-- The same for orientations only (SolveBallAndSocketJointSystem.cpp:366-386). -/
def twist (cfg : JCfg K) (c : Two K) (A1 A2 : V3 K) (X : Nat → Pose K) : Nat → Pose K :=
  let X := upd X c.b1 ⟨(X c.b1).x, spin cfg (V3.had c.la1 (c.I1.act A1)) (X c.b1).q⟩
  upd X c.b2 ⟨(X c.b2).x, spin cfg (V3.had c.la2 (c.I2.act A2)) (X c.b2).q⟩

/-- The two bodies with the inverse inertia tensors of the pose at the beginning (SolveBallAndSocketJointSystem.cpp:320-325). -/
def twoAt (body : Nat → PBody K) (X : Nat → Pose K) (b1 b2 : Nat) : Two K :=
  ⟨b1, b2, (body b1).m, (body b2).m, Dyn.worldInertia (X b1).q.matrix (body b1).i, Dyn.worldInertia (X b2).q.matrix (body b2).i,
   (body b1).ll, (body b2).ll, (body b1).la, (body b2).la⟩

/-- Vector from the center of mass to the anchor (SolveBallAndSocketJointSystem.cpp:327-331). The orientation is not normalised here. -/
def armAt (body : Nat → PBody K) (X : Nat → Pose K) (b : Nat) (a : V3 K) : V3 K := (X b).q.rot (a - (body b).com)

/-- The three translation constraints (SolveBallAndSocketJointSystem.cpp:390-443, SolveFixedJointSystem.cpp:334-384,
SolveHingeJointSystem.cpp:656-714): mass matrix and correction. Nothing is done if the determinant is small. -/
def pull (cfg : JCfg K) (dyn : Bool) (c : Two K) (r1 r2 : V3 K) (X : Nat → Pose K) : (Nat → Pose K) × M3 K :=
  let M := massMatrix c.m1 c.m2 c.I1 c.I2 r1 r2
  let k := inverseOrZero cfg dyn M
  if cfg.eps < |M.det| then
    let l := k.act (-((X c.b2).x + r2 - (X c.b1).x - r1))
    (place cfg c (-l) (V3.cross l r1) l (-(V3.cross l r2)) X, k)
  else (X, k)

/-- `2 * qError.getVectorV()` (SolveFixedJointSystem.cpp:414-425). -/
def turnErr (q1 q2 d : Quat K) : V3 K :=
  let e := (q2.mul d).mul q1.conj
  V3.smul 2 ⟨e.x, e.y, e.z⟩

/-- The three rotation constraints (SolveFixedJointSystem.cpp:386-446, SolveSliderJointSystem.cpp:697-760). -/
def align (cfg : JCfg K) (dyn : Bool) (c : Two K) (d : Quat K) (X : Nat → Pose K) : (Nat → Pose K) × M3 K :=
  let M := M3.add c.I1 c.I2
  let k := inverseOrSame cfg dyn M
  if cfg.eps < |M.det| then
    let l := k.act (-(turnErr (X c.b1).q (X c.b2).q d))
    (twist cfg c (-l) l X, k)
  else (X, k)

/-! ### Ball-and-socket joint -/

/-- The cone limit (SolveBallAndSocketJointSystem.cpp:344-388). -/
def Ball.cone' (cfg : JCfg K) (c : Two K) (J : Ball K) (X : Nat → Pose K) : (Nat → Pose K) × Ball K :=
  if J.coneOn then
    let u1 := unitOf cfg J.r1
    let u2 := unitOf cfg J.r2
    let axb := V3.cross u1 (-u2)
    let err := J.half - cfg.acos (V3.dot u1 (-u2))
    if err < 0 then
      let k := invOf (V3.dot axb (c.I1.act axb) + V3.dot axb (c.I2.act axb))
      let l := k * -err
      (twist cfg c (V3.smul l axb) (V3.smul (-l) axb) X, { J with axb := axb, cone := true, coneK := k })
    else (X, { J with axb := axb, cone := false })
  else (X, J)

/-- `solvePositionConstraint` (SolveBallAndSocketJointSystem.cpp:298-445) for one joint. -/
def Ball.position (cfg : JCfg K) (body : Nat → PBody K) (J : Ball K) (X : Nat → Pose K) : (Nat → Pose K) × Ball K :=
  let c := twoAt body X J.b1 J.b2
  let J := { J with r1 := armAt body X J.b1 J.a1, r2 := armAt body X J.b2 J.a2 }
  let s := J.cone' cfg c X
  let t := pull cfg ((body J.b1).dyn || (body J.b2).dyn) c J.r1 J.r2 s.1
  (t.1, { s.2 with k := t.2 })

/-! ### Fixed joint -/

/-- `solvePositionConstraint` (SolveFixedJointSystem.cpp:288-448) for one joint. -/
def Fixed.position (cfg : JCfg K) (body : Nat → PBody K) (J : Fixed K) (X : Nat → Pose K) : (Nat → Pose K) × Fixed K :=
  let c := twoAt body X J.b1 J.b2
  let dyn := (body J.b1).dyn || (body J.b2).dyn
  let r1 := armAt body X J.b1 J.a1
  let r2 := armAt body X J.b2 J.a2
  let s := pull cfg dyn c r1 r2 X
  let t := align cfg dyn c J.d s.1
  (t.1, { J with r1 := r1, r2 := r2, k := s.2, kr := t.2 })

/-! ### Hinge joint -/

/-- The limits (SolveHingeJointSystem.cpp:534-603). `inverseMassMatrixLimitMotor` is read before the new value is stored (line 538), and it is this old
value that the corrections use (lines 554, 581) and whose sign decides about the new value (line 546). A new mass of zero is one over zero here, zero. -/
def Hinge.limits' (cfg : JCfg K) (c : Two K) (J : Hinge K) (eL eU : K) (X : Nat → Pose K) : (Nat → Pose K) × Hinge K :=
  if J.limitOn then
    let old := J.km
    let km := if J.low || J.up then
        (if 0 < old then 1 / (V3.dot J.ax (c.I1.act J.ax) + V3.dot J.ax (c.I2.act J.ax)) else 0)
      else J.km
    let X := if J.low then twist cfg c (V3.smul (-(old * -eL)) J.ax) (V3.smul (old * -eL) J.ax) X else X
    let X := if J.up then twist cfg c (V3.smul (old * -eU) J.ax) (V3.smul (-(old * -eU)) J.ax) X else X
    (X, { J with km := km })
  else (X, J)

/-- The two rotation constraints (SolveHingeJointSystem.cpp:605-654); `b`, `v` are `b2`, `c2`. -/
def Hinge.rotate' (cfg : JCfg K) (dyn : Bool) (c : Two K) (J : Hinge K) (b v : V3 K) (X : Nat → Pose K) : (Nat → Pose K) × Hinge K :=
  let M : M2 K :=
    ⟨V3.dot J.ba (c.I1.act J.ba) + V3.dot J.ba (c.I2.act J.ba), V3.dot J.ba (c.I1.act J.ca) + V3.dot J.ba (c.I2.act J.ca),
     V3.dot J.ca (c.I1.act J.ba) + V3.dot J.ca (c.I2.act J.ba), V3.dot J.ca (c.I1.act J.ca) + V3.dot J.ca (c.I2.act J.ca)⟩
  let k := inverseOrZero2 cfg dyn M
  if cfg.eps < |M.det| then
    let l := k.act ⟨-V3.dot J.ax b, -V3.dot J.ax v⟩
    (twist cfg c (J.swing l) (J.swing' l) X, { J with kr := k })
  else (X, { J with kr := k })

/-- `solvePositionConstraint` (SolveHingeJointSystem.cpp:469-716) for one joint. -/
def Hinge.position (cfg : JCfg K) (body : Nat → PBody K) (J : Hinge K) (X : Nat → Pose K) : (Nat → Pose K) × Hinge K :=
  let c := twoAt body X J.b1 J.b2
  let dyn := (body J.b1).dyn || (body J.b2).dyn
  let q1 := (X J.b1).q
  let q2 := (X J.b2).q
  let ax := unitOf cfg (q1.rot J.l1)
  let ax2 := unitOf cfg (q2.rot J.l2)
  let b := orthogonal cfg.sqrt ax2
  let v := V3.cross ax2 b
  let angle := hingeAngle cfg J.d ax J.lower J.upper q1 q2
  let eL := angle - J.lower
  let eU := J.upper - angle
  let J := { J with r1 := armAt body X J.b1 J.a1, r2 := armAt body X J.b2 J.a2, ax := ax, ba := V3.cross b ax, ca := V3.cross v ax,
                    low := decide (eL ≤ 0), up := decide (eU ≤ 0) }
  let s := J.limits' cfg c eL eU X
  let t := s.2.rotate' cfg dyn c b v s.1
  let p := pull cfg dyn c J.r1 J.r2 t.1
  (p.1, { t.2 with k := p.2 })

/-! ### Slider joint -/

/-- The difference of the anchors, with the levers of the beginning (SolveSliderJointSystem.cpp:564, 623, 662). -/
def Slider.between (J : Slider K) (X : Nat → Pose K) : V3 K := (X J.b2).x + J.r2 - (X J.b1).x - J.r1

/-- The limits (SolveSliderJointSystem.cpp:593-695). -/
def Slider.limits' (cfg : JCfg K) (c : Two K) (J : Slider K) (X : Nat → Pose K) : (Nat → Pose K) × Slider K :=
  if J.limitOn then
    let kl := if J.low || J.up then invOf (c.m1 + c.m2 + V3.dot J.cx (c.I1.act J.cx) + V3.dot J.ex (c.I2.act J.ex)) else J.kl
    let X := if J.low then
        let l := kl * -(V3.dot (J.between X) J.ax - J.lower)
        place cfg c (V3.smul (-l) J.ax) (V3.smul (-l) J.cx) (V3.smul l J.ax) (V3.smul l J.ex) X
      else X
    let X := if J.up then
        let l := kl * -(J.upper - V3.dot (J.between X) J.ax)
        place cfg c (V3.smul l J.ax) (V3.smul l J.cx) (V3.smul (-l) J.ax) (V3.smul (-l) J.ex) X
      else X
    (X, { J with kl := kl })
  else (X, J)

/-- The two translation constraints (SolveSliderJointSystem.cpp:762-826); `u` is the difference of the anchors at the beginning. -/
def Slider.pull' (cfg : JCfg K) (dyn : Bool) (c : Two K) (J : Slider K) (u : V3 K) (X : Nat → Pose K) : (Nat → Pose K) × Slider K :=
  let m := c.m1 + c.m2
  let M : M2 K :=
    ⟨m + V3.dot J.c1 (c.I1.act J.c1) + V3.dot J.e1 (c.I2.act J.e1), V3.dot J.c1 (c.I1.act J.c2) + V3.dot J.e1 (c.I2.act J.e2),
     V3.dot J.c2 (c.I1.act J.c1) + V3.dot J.e2 (c.I2.act J.e1), m + V3.dot J.c2 (c.I1.act J.c2) + V3.dot J.e2 (c.I2.act J.e2)⟩
  let k := inverseOrZero2 cfg dyn M
  if cfg.eps < |M.det| then
    let l := k.act ⟨-V3.dot u J.n1, -V3.dot u J.n2⟩
    (place cfg c (V3.smul l.x (-J.n1) - V3.smul l.y J.n2) (V3.smul l.x (-J.c1) - V3.smul l.y J.c2)
      (V3.smul l.x J.n1 + V3.smul l.y J.n2) (V3.smul l.x J.e1 + V3.smul l.y J.e2) X, { J with k := k })
  else (X, { J with k := k })

/-- `solvePositionConstraint` (SolveSliderJointSystem.cpp:516-828) for one joint. -/
def Slider.position (cfg : JCfg K) (body : Nat → PBody K) (J : Slider K) (X : Nat → Pose K) : (Nat → Pose K) × Slider K :=
  let c := twoAt body X J.b1 J.b2
  let dyn := (body J.b1).dyn || (body J.b2).dyn
  let r1 := armAt body X J.b1 J.a1
  let r2 := armAt body X J.b2 J.a2
  let u := (X J.b2).x + r2 - (X J.b1).x - r1
  let ax := unitOf cfg ((X J.b1).q.rot J.l1)
  let n1 := orthogonal cfg.sqrt ax
  let n2 := V3.cross ax n1
  let s := V3.dot u ax
  let J := { J with r1 := r1, r2 := r2, ax := ax, n1 := n1, n2 := n2
                    low := decide (s - J.lower ≤ 0), up := decide (J.upper - s ≤ 0)
                    e1 := V3.cross r2 n1, e2 := V3.cross r2 n2, ex := V3.cross r2 ax
                    c1 := V3.cross (r1 + u) n1, c2 := V3.cross (r1 + u) n2, cx := V3.cross (r1 + u) ax }
  let a := J.limits' cfg c X
  let r := align cfg dyn c J.d a.1
  Slider.pull' cfg dyn c { a.2 with kr := r.2 } u r.1

/-! ### All joints -/

/-- The enabled components of the four types of joints. -/
structure Pins (K : Type) where
  balls : List (Ball K)
  fixeds : List (Fixed K)
  hinges : List (Hinge K)
  sliders : List (Slider K)

/-- The loop over the joints of a type: `continue` if the technique is not NON_LINEAR_GAUSS_SEIDEL (SolveBallAndSocketJointSystem.cpp:302-309). -/
def each {J : Type} (baum : J → Bool) (f : J → (Nat → Pose K) → (Nat → Pose K) × J) : (Nat → Pose K) → List J → (Nat → Pose K) × List J
  | X, [] => (X, [])
  | X, j :: js =>
    let s := if baum j then (X, j) else f j X
    let r := each baum f s.1 js
    (r.1, s.2 :: r.2)

/-- The loop over the sliders: here it is `return` (SolveSliderJointSystem.cpp:520-527). -/
def eachSlider {J : Type} (baum : J → Bool) (f : J → (Nat → Pose K) → (Nat → Pose K) × J) : (Nat → Pose K) → List J → (Nat → Pose K) × List J
  | X, [] => (X, [])
  | X, j :: js =>
    if baum j then (X, j :: js)
    else
      let s := f j X
      let r := eachSlider baum f s.1 js
      (r.1, s.2 :: r.2)

/-- `solvePositionConstraints` (ConstraintSolverSystem.cpp:105-113). -/
def positionAll (cfg : JCfg K) (body : Nat → PBody K) (X : Nat → Pose K) (S : Pins K) : (Nat → Pose K) × Pins K :=
  let a := each Ball.baum (Ball.position cfg body) X S.balls
  let b := each Fixed.baum (Fixed.position cfg body) a.1 S.fixeds
  let c := each Hinge.baum (Hinge.position cfg body) b.1 S.hinges
  let d := eachSlider Slider.baum (Slider.position cfg body) c.1 S.sliders
  (d.1, ⟨a.2, b.2, c.2, d.2⟩)

/-- `solvePositionCorrection` (PhysicsWorld.cpp:348-360). -/
def correct (cfg : JCfg K) (body : Nat → PBody K) : Nat → (Nat → Pose K) × Pins K → (Nat → Pose K) × Pins K
  | 0, s => s
  | n + 1, s => correct cfg body n (positionAll cfg body s.1 s.2)

end Joints
end RP3D
