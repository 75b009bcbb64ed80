import Verif.Solver.Position
import Verif.Dynamics.World

/-!
Model of the mechanics of a whole step: `PhysicsWorld::update` (PhysicsWorld.cpp:239-306) with the models of the solvers put in. `DW.update` (Dynamics/Body.lean) leaves open
what the solvers write; here it is what Solver/Contact.lean, Solver/Joints.lean and Solver/Position.lean compute.

Simplifications.
* The contact manifolds of the step are an argument, any manifolds: collision detection (PhysicsWorld.cpp:255, 261) is modelled elsewhere.
* The joints of a step are an argument, the enabled ones (PhysicsWorld.cpp:270).
* A body that does not exist has default values here; no contact and no joint refers to it.
-/

namespace RP3D
namespace Whole
open Solver Joints
variable {K : Type} [Field K] [LinearOrder K]

/-- What the solvers of contacts and joints read of a body. -/
def jbody (d : Dyn K) : JBody K :=
  ⟨⟨d.comWorld, d.vel, d.ang, d.invMass, d.invInertiaW, d.linLock, d.angLock⟩, d.tr.ori, d.comLocal, decide (d.type = .dynamic)⟩

/-- The constrained and the split velocities of a body. -/
def velOf (d : Dyn K) : Vel K := ⟨d.cVel, d.cAng, d.sVel, d.sAng⟩

/-- The joints in the order in which ConstraintSolverSystem.cpp:80-103 visits them. -/
def joints (S : Pins K) : List (Joint K) := S.balls.map .ball ++ S.fixeds.map .fixed ++ S.hinges.map .hinge ++ S.sliders.map .slider

/-- The joints of each type. -/
def pins (Js : List (Joint K)) : Pins K where
  balls := Js.filterMap fun | .ball J => some J | _ => none
  fixeds := Js.filterMap fun | .fixed J => some J | _ => none
  hinges := Js.filterMap fun | .hinge J => some J | _ => none
  sliders := Js.filterMap fun | .slider J => some J | _ => none

/-- What a step depends on besides the bodies. -/
structure In (K : Type) where
  dt : K
  /-- the gravity vector, `none` if gravity is disabled -/
  g : Option (V3 K)
  islands : List (List Nat)
  /-- settings of the solvers; their time step is `dt` -/
  cc : Cfg K
  jc : JCfg K
  /-- contact manifolds and joints -/
  mans : List (XMan K)
  pins : Pins K
  /-- `mNbVelocitySolverIterations`, `mNbPositionSolverIterations` -/
  nv : Nat
  np : Nat
  /-- the length of a quaternion, addition of the sleep timer, `DECIMAL_LARGEST` -/
  len : Quat K → K
  add : K → K → K
  big : K

def In.args (i : In K) (vels : Nat → Option (Dyn.Vels K)) (poss : Nat → Option (V3 K × Quat K)) : DW.Args K :=
  ⟨i.dt, i.g, i.islands, if i.cc.split then 1 else 0, vels, poss, i.len, i.add, i.big⟩

/-- The body with an index. -/
def dyn (w : DW K) (b : Nat) : Dyn K := (w.body b).getD (Dyn.create ⟨0, ⟨0, 0, 0, 1⟩⟩)

/-- The bodies after `integrateRigidBodiesVelocities` (PhysicsWorld.cpp:261-273). -/
def ready (i : In K) (w : DW K) : DW K := DW.prepared (i.args (fun _ => none) fun _ => none) w

/-- `solveContactsAndConstraints` (PhysicsWorld.cpp:276, 321-345). -/
def solved (i : In K) (w : DW K) : (Nat → Vel K) × List (Joint K) × List (Man K) :=
  solveStep { i.cc with dt := i.dt } { i.jc with dt := i.dt } (fun b => jbody (dyn (ready i w) b)) (fun b => velOf (dyn (ready i w) b)) (joints i.pins) i.mans i.nv

def vels (i : In K) (w : DW K) (b : Nat) : Dyn.Vels K := let v := (solved i w).1 b; ⟨v.v, v.w, v.vs, v.ws⟩

/-- The bodies after `integrateRigidBodiesPositions` (PhysicsWorld.cpp:279). -/
def midway (i : In K) (w : DW K) (b : Nat) : Dyn K := ((dyn (ready i w) b).solveVel (some (vels i w b))).integratePos i.dt (if i.cc.split then 1 else 0)

/-- `solvePositionCorrection` (PhysicsWorld.cpp:282, 348-360). -/
def corrected (i : In K) (w : DW K) : (Nat → Pose K) × Pins K :=
  correct { i.jc with dt := i.dt } (fun b => PBody.ofDyn (midway i w b)) i.np (fun b => Pose.ofDyn (midway i w b), pins (solved i w).2.1)

def poss (i : In K) (w : DW K) (b : Nat) : V3 K × Quat K := (((corrected i w).1 b).x, ((corrected i w).1 b).q)

/-- `update` (PhysicsWorld.cpp:239-306). -/
def update (i : In K) (w : DW K) : DW K := DW.update (i.args (fun b => some (vels i w b)) fun b => some (poss i w b)) w

end Whole
end RP3D
