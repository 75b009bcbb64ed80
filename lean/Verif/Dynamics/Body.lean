import Verif.Math.Rigid
import Verif.World.Model

/-!
Model of the dynamics of rigid bodies: the columns of `RigidBodyComponents`, the calls of `RigidBody` that write them
(src/body/RigidBody.cpp), and what a step of the world does to a body (src/systems/DynamicsSystem.cpp,
src/engine/PhysicsWorld.cpp).

Simplifications.
* Exact arithmetic; the addition of the sleep timer is an argument, so that nothing is assumed about its rounding.
* What the contact and joint solvers write into the constrained velocities and positions is an argument, any values (C52 is about
  the solver).
* The effect of these calls on the overlapping pairs is in World/Model.lean.
* A change of a missing body is ignored; the histories only use existing bodies.
-/

namespace RP3D

/-- Componentwise product (Vector3.h:352-354). -/
def V3.had {K : Type} [Mul K] (a b : V3 K) : V3 K := ⟨a.x * b.x, a.y * b.y, a.z * b.z⟩

/-- One row of `RigidBodyComponents` (RigidBodyComponents.h:61-170), with the transform of the body and the flag of `BodyComponents`. -/
@[ext] structure Dyn (K : Type) where
  type : BType
  /-- `mIsActive` -/
  active : Bool
  /-- `mIsAllowedToSleep` -/
  allowed : Bool
  /-- `mIsSleeping` -/
  sleeping : Bool
  /-- the components of the body are in the disabled part -/
  disabled : Bool
  sleepTime : K
  /-- `mLinearVelocities`, `mAngularVelocities` -/
  vel : V3 K
  ang : V3 K
  /-- `mExternalForces`, `mExternalTorques` -/
  force : V3 K
  torque : V3 K
  linDamp : K
  angDamp : K
  mass : K
  invMass : K
  /-- `mLocalInertiaTensors`, `mInverseInertiaTensorsLocal`, `mInverseInertiaTensorsWorld` -/
  inertia : V3 K
  invInertia : V3 K
  invInertiaW : M3 K
  /-- `mConstrainedLinearVelocities`, `mConstrainedAngularVelocities`, `mSplitLinearVelocities`, `mSplitAngularVelocities` -/
  cVel : V3 K
  cAng : V3 K
  sVel : V3 K
  sAng : V3 K
  /-- `mConstrainedPositions`, `mConstrainedOrientations` -/
  cPos : V3 K
  cOri : Quat K
  /-- `mCentersOfMassLocal`, `mCentersOfMassWorld` -/
  comLocal : V3 K
  comWorld : V3 K
  /-- `mIsGravityEnabled` -/
  gravity : Bool
  linLock : V3 K
  angLock : V3 K
  /-- the transform of the body (`TransformComponents`) -/
  tr : Trans K

namespace Dyn
variable {K : Type} [Field K] [LinearOrder K]

/-- `createRigidBody` (PhysicsWorld.cpp:401-441) with `RigidBodyComponents::addComponent` (RigidBodyComponents.cpp:206-244). -/
def create (t : Trans K) : Dyn K where
  type := .dynamic
  active := true
  allowed := true
  sleeping := false
  disabled := false
  sleepTime := 0
  vel := 0
  ang := 0
  force := 0
  torque := 0
  linDamp := 0
  angDamp := 0
  mass := 1
  invMass := 1 / 1
  inertia := ⟨1, 1, 1⟩
  invInertia := ⟨1, 1, 1⟩
  invInertiaW := M3.one
  cVel := 0
  cAng := 0
  sVel := 0
  sAng := 0
  cPos := 0
  cOri := ⟨0, 0, 0, 1⟩
  comLocal := 0
  comWorld := t.pos
  gravity := true
  linLock := ⟨1, 1, 1⟩
  angLock := ⟨1, 1, 1⟩
  tr := t

/-- `setIsSleeping` (RigidBody.cpp:1006-1057) with `setBodyDisabled` (PhysicsWorld.cpp:168-186). -/
def setIsSleeping (d : Dyn K) (b : Bool) : Dyn K :=
  if d.sleeping = b then d
  else if d.type = .static then d
  else if !d.active then d
  else
    let d1 := { d with sleepTime := 0, sleeping := b, disabled := b }
    if b then { d1 with vel := 0, ang := 0, force := 0, torque := 0 } else d1

/-- The inverse of a mass as written in `setType`, `setMass`, … (RigidBody.cpp:95-100). -/
def invOf (m : K) : K := if m > 0 then 1 / m else 0

/-- The inverse of a principal moment of inertia (RigidBody.cpp:104-106). -/
def invOfI (x : K) : K := if x ≠ 0 then 1 / x else 0

/-- The inverse of a local inertia tensor (RigidBody.cpp:104-106). -/
def invOfTensor (v : V3 K) : V3 K := ⟨invOfI v.x, invOfI v.y, invOfI v.z⟩

/-- `setType` (RigidBody.cpp:66-131): the part for static bodies. -/
def setTypeStatic (d : Dyn K) : Dyn K := { d with vel := 0, ang := 0, cPos := d.tr.pos, cOri := d.tr.ori }

/-- `setType` (RigidBody.cpp:66-131): the part for static and kinematic bodies. -/
def setTypeFixed (d : Dyn K) : Dyn K := { d with invMass := 0, invInertia := 0, invInertiaW := M3.zero }

/-- `setType` (RigidBody.cpp:66-131): the part for dynamic bodies. -/
def setTypeDynamic (d : Dyn K) : Dyn K := { d with invMass := invOf d.mass, invInertia := invOfTensor d.inertia }

/-- `setType` (RigidBody.cpp:66-131). -/
def setType (d : Dyn K) (t : BType) : Dyn K :=
  if d.type = t then d
  else
    let d1 := { d with type := t }
    let d2 := if t = BType.static then d1.setTypeStatic else d1
    let d3 := if t = BType.static ∨ t = BType.kinematic then d2.setTypeFixed else d2.setTypeDynamic
    let d4 := { d3 with disabled := decide (t = BType.static) }
    let d5 := d4.setIsSleeping false
    { d5 with force := 0, torque := 0 }

/-- `applyWorldForceAtWorldPosition` (RigidBody.cpp:221-239). -/
def applyForce (d : Dyn K) (f p : V3 K) : Dyn K :=
  if d.type ≠ .dynamic then d
  else
    let d1 := if d.sleeping then d.setIsSleeping false else d
    { d1 with force := d1.force + f, torque := d1.torque + V3.cross (p - d1.comWorld) f }

/-- `applyWorldForceAtLocalPosition` (RigidBody.cpp:170-190). -/
def applyForceLocalPos (d : Dyn K) (f p : V3 K) : Dyn K := d.applyForce f (d.tr.act p)

/-- `applyLocalForceAtWorldPosition`, `applyLocalForceAtLocalPosition` (RigidBody.cpp:202-208, 151-157). -/
def applyLocalForce (d : Dyn K) (f p : V3 K) : Dyn K := d.applyForce (d.tr.ori.rot f) p
def applyLocalForceLocalPos (d : Dyn K) (f p : V3 K) : Dyn K := d.applyForceLocalPos (d.tr.ori.rot f) p

/-- `applyWorldForceAtCenterOfMass` (RigidBody.cpp:298-312), `applyLocalForceAtCenterOfMass` (RigidBody.cpp:282-288). -/
def applyForceCenter (d : Dyn K) (f : V3 K) : Dyn K :=
  if d.type ≠ .dynamic then d
  else
    let d1 := if d.sleeping then d.setIsSleeping false else d
    { d1 with force := d1.force + f }
def applyLocalForceCenter (d : Dyn K) (f : V3 K) : Dyn K := d.applyForceCenter (d.tr.ori.rot f)

/-- `applyWorldTorque` (RigidBody.cpp:938-952), `applyLocalTorque` (RigidBody.cpp:961-967). -/
def applyTorque (d : Dyn K) (m : V3 K) : Dyn K :=
  if d.type ≠ .dynamic then d
  else
    let d1 := if d.sleeping then d.setIsSleeping false else d
    { d1 with torque := d1.torque + m }
def applyLocalTorque (d : Dyn K) (m : V3 K) : Dyn K := d.applyTorque (d.tr.ori.rot m)

/-- `resetForce`, `resetTorque` (RigidBody.cpp:970-987). -/
def resetForce (d : Dyn K) : Dyn K := if d.type ≠ .dynamic then d else { d with force := 0 }
def resetTorque (d : Dyn K) : Dyn K := if d.type ≠ .dynamic then d else { d with torque := 0 }

/-- `setLocalInertiaTensor` (RigidBody.cpp:255-273), and the end of `updateLocalInertiaTensorFromColliders` (RigidBody.cpp:475-500). -/
def setInertia (d : Dyn K) (i : V3 K) : Dyn K :=
  let d1 := { d with inertia := i }
  if d.type = .dynamic then { d1 with invInertia := invOfTensor i } else d1

/-- The end of `updateMassFromColliders` (RigidBody.cpp:522-540). -/
def storeMass (d : Dyn K) (m : K) : Dyn K :=
  let d1 := { d with mass := m }
  if d.type = .dynamic then { d1 with invMass := invOf m } else d1

/-- `setMass` (RigidBody.cpp:619-650). -/
def setMass (d : Dyn K) (m : K) : Dyn K := if m < 0 then d else d.storeMass m

/-- `setLocalCenterOfMass` (RigidBody.cpp:334-354), `updateLocalCenterOfMassFromColliders` (RigidBody.cpp:367-387). -/
def setCenter (d : Dyn K) (c : V3 K) : Dyn K :=
  let d1 := { d with comLocal := c, comWorld := d.tr.act c }
  { d1 with vel := d1.vel + V3.cross d1.ang (d1.comWorld - d.comWorld) }

/-- What a collider contributes to the mass of its body: its mass (volume times density), its transform in the body, and the inertia tensor of
its shape (`CollisionShape::getLocalInertiaTensor`). -/
structure MassCol (K : Type) where
  mass : K
  tr : Trans K
  inertia : V3 K

/-- `updateMassFromColliders` (RigidBody.cpp:503-519): the total mass. -/
def totalMass (cs : List (MassCol K)) : K := cs.foldl (fun m c => m + c.mass) 0

/-- `computeCenterOfMass` (RigidBody.cpp:390-415). -/
def computeCenter (cs : List (MassCol K)) : V3 K :=
  let s := cs.foldl (fun a c => a + V3.smul c.mass c.tr.pos) 0
  let m := totalMass cs
  if m > 0 then ⟨s.x / m, s.y / m, s.z / m⟩ else s

/-- One collider in `computeMassAndInertiaTensorLocal` (RigidBody.cpp:431-468). -/
def colTensor (com : V3 K) (c : MassCol K) : M3 K :=
  let r := c.tr.ori.matrix
  let t := r.transpose
  let t' : M3 K := ⟨V3.smul c.inertia.x t.r0, V3.smul c.inertia.y t.r1, V3.smul c.inertia.z t.r2⟩
  let i := r.mul t'
  let o := c.tr.pos - com
  let q := V3.lengthSq o
  let m : M3 K := ⟨⟨q, 0, 0⟩ + V3.smul (-o.x) o, ⟨0, q, 0⟩ + V3.smul (-o.y) o, ⟨0, 0, q⟩ + V3.smul (-o.z) o⟩
  i.add (m.scale c.mass)

/-- `computeMassAndInertiaTensorLocal` (RigidBody.cpp:418-472): the inertia tensor. -/
def computeInertia (com : V3 K) (cs : List (MassCol K)) : V3 K :=
  let t := cs.foldl (fun a c => M3.add a (colTensor com c)) M3.zero
  ⟨t.r0.x, t.r1.y, t.r2.z⟩

/-- `updateMassPropertiesFromColliders` (RigidBody.cpp:548-612). -/
def updateMassProperties (d : Dyn K) (cs : List (MassCol K)) : Dyn K :=
  let c := computeCenter cs
  let d1 := { d with comLocal := c, comWorld := d.tr.act c }
  let d2 := if d.type = .dynamic then { d1 with vel := d1.vel + V3.cross d1.ang (d1.comWorld - d.comWorld) } else d1
  let d3 := d2.setInertia (computeInertia c cs)
  d3.storeMass (totalMass cs)

/-- `setLinearVelocity` (RigidBody.cpp:794-809), `setAngularVelocity` (RigidBody.cpp:815-830). -/
def setLinearVelocity (d : Dyn K) (v : V3 K) : Dyn K :=
  if d.type = .static then d
  else
    let d1 := { d with vel := v }
    if V3.lengthSq v > 0 then d1.setIsSleeping false else d1
def setAngularVelocity (d : Dyn K) (v : V3 K) : Dyn K :=
  if d.type = .static then d
  else
    let d1 := { d with ang := v }
    if V3.lengthSq v > 0 then d1.setIsSleeping false else d1

/-- `setTransform` (RigidBody.cpp:837-863). -/
def setTransform (d : Dyn K) (t : Trans K) : Dyn K :=
  let d1 := { d with comWorld := t.act d.comLocal }
  let d2 := { d1 with vel := d1.vel + V3.cross d1.ang (d1.comWorld - d.comWorld) }
  let d3 := if d.type = .static then { d2 with cPos := t.pos, cOri := t.ori } else d2
  { d3.setIsSleeping false with tr := t }

/-- `setIsAllowedToSleep` (RigidBody.cpp:1154-1163). -/
def setAllowed (d : Dyn K) (b : Bool) : Dyn K :=
  let d1 := { d with allowed := b }
  if !b then d1.setIsSleeping false else d1

/-- `setIsActive` (RigidBody.cpp:1185-1193, Body.cpp:247-292). -/
def setIsActive (d : Dyn K) (b : Bool) : Dyn K :=
  if d.active = b then d else { d.setIsSleeping (!b) with active := b }

/-- `setLinearDamping`, `setAngularDamping` (RigidBody.cpp:753-787). -/
def setLinearDamping (d : Dyn K) (k : K) : Dyn K := if k ≥ 0 then { d with linDamp := k } else d
def setAngularDamping (d : Dyn K) (k : K) : Dyn K := if k ≥ 0 then { d with angDamp := k } else d

/-- The calls of the user on a body, and `wake`/`sleep`: `setIsSleeping` called by the engine (neighbours of a removed collider, joints,
`enableSleeping`). -/
inductive Op (K : Type)
  | setType (t : BType)
  | force (f p : V3 K)
  | forceLocalPos (f p : V3 K)
  | localForce (f p : V3 K)
  | localForceLocalPos (f p : V3 K)
  | forceCenter (f : V3 K)
  | localForceCenter (f : V3 K)
  | torque (m : V3 K)
  | localTorque (m : V3 K)
  | resetForce
  | resetTorque
  | setInertia (i : V3 K)
  | inertiaFromColliders (cs : List (MassCol K))
  | massFromColliders (cs : List (MassCol K))
  | setMass (m : K)
  | setCenter (c : V3 K)
  | centerFromColliders (cs : List (MassCol K))
  | massProperties (cs : List (MassCol K))
  | linearVelocity (v : V3 K)
  | angularVelocity (v : V3 K)
  | transform (t : Trans K)
  | allowed (b : Bool)
  | active (b : Bool)
  | linearDamping (k : K)
  | angularDamping (k : K)
  | gravity (b : Bool)
  | linearLock (v : V3 K)
  | angularLock (v : V3 K)
  | sleep (b : Bool)

def exec (d : Dyn K) : Op K → Dyn K
  | .setType t => d.setType t
  | .force f p => d.applyForce f p
  | .forceLocalPos f p => d.applyForceLocalPos f p
  | .localForce f p => d.applyLocalForce f p
  | .localForceLocalPos f p => d.applyLocalForceLocalPos f p
  | .forceCenter f => d.applyForceCenter f
  | .localForceCenter f => d.applyLocalForceCenter f
  | .torque m => d.applyTorque m
  | .localTorque m => d.applyLocalTorque m
  | .resetForce => d.resetForce
  | .resetTorque => d.resetTorque
  | .setInertia i => d.setInertia i
  | .inertiaFromColliders cs => d.setInertia (computeInertia d.comLocal cs)
  | .massFromColliders cs => d.storeMass (totalMass cs)
  | .setMass m => d.setMass m
  | .setCenter c => d.setCenter c
  | .centerFromColliders cs => d.setCenter (computeCenter cs)
  | .massProperties cs => d.updateMassProperties cs
  | .linearVelocity v => d.setLinearVelocity v
  | .angularVelocity v => d.setAngularVelocity v
  | .transform t => d.setTransform t
  | .allowed b => d.setAllowed b
  | .active b => d.setIsActive b
  | .linearDamping k => d.setLinearDamping k
  | .angularDamping k => d.setAngularDamping k
  | .gravity b => { d with gravity := b }
  | .linearLock v => { d with linLock := v }
  | .angularLock v => { d with angLock := v }
  | .sleep b => d.setIsSleeping b

/-- `computeWorldInertiaTensorInverse` (RigidBody.h:246-261). -/
def worldInertia (o : M3 K) (i : V3 K) : M3 K :=
  o.mul (M3.of (o.r0.x * i.x) (o.r1.x * i.x) (o.r2.x * i.x)
               (o.r0.y * i.y) (o.r1.y * i.y) (o.r2.y * i.y)
               (o.r0.z * i.z) (o.r1.z * i.z) (o.r2.z * i.z))

/-- `updateBodiesInverseWorldInertiaTensors` (PhysicsWorld.cpp:310-318) for one body. -/
def updateInertia (d : Dyn K) : Dyn K :=
  if d.disabled then d else { d with invInertiaW := worldInertia d.tr.ori.matrix d.invInertia }

/-- The force and the torque in `integrateRigidBodiesVelocities` (DynamicsSystem.cpp:119-141). -/
def integrateForce (dt : K) (d : Dyn K) : Dyn K :=
  { d with
    sVel := 0
    sAng := 0
    cVel := d.vel + V3.had (V3.smul (dt * d.invMass) d.linLock) d.force
    cAng := d.ang + V3.had (V3.smul dt d.angLock) (d.invInertiaW.act d.torque) }

/-- Gravity in `integrateRigidBodiesVelocities` (DynamicsSystem.cpp:144-158); `g` is `none` if gravity is disabled in the world. -/
def integrateGravity (dt : K) (g : Option (V3 K)) (d : Dyn K) : Dyn K :=
  match g with
  | none => d
  | some g =>
    if d.gravity then { d with cVel := d.cVel + V3.had (V3.smul d.mass (V3.smul (dt * d.invMass) d.linLock)) g } else d

/-- Damping in `integrateRigidBodiesVelocities` (DynamicsSystem.cpp:173-182). -/
def integrateDamping (dt : K) (d : Dyn K) : Dyn K :=
  { d with cVel := V3.smul (1 / (1 + d.linDamp * dt)) d.cVel, cAng := V3.smul (1 / (1 + d.angDamp * dt)) d.cAng }

/-- `integrateRigidBodiesVelocities` (DynamicsSystem.cpp:117-183) for one body. -/
def integrateVel (dt : K) (g : Option (V3 K)) (d : Dyn K) : Dyn K :=
  if d.disabled then d else integrateDamping dt (integrateGravity dt g (integrateForce dt d))

/-- What the velocity solvers leave in the constrained and split velocities of a body. -/
structure Vels (K : Type) where
  cVel : V3 K
  cAng : V3 K
  sVel : V3 K
  sAng : V3 K

/-- The velocity solvers; `none` for a body no contact and no joint touches. -/
def solveVel (s : Option (Vels K)) (d : Dyn K) : Dyn K :=
  match s with
  | none => d
  | some s => { d with cVel := s.cVel, cAng := s.cAng, sVel := s.sVel, sAng := s.sAng }

/-- `integrateRigidBodiesPositions` (DynamicsSystem.cpp:44-71) for one body; `split` is the factor 1 or 0. -/
def integratePos (dt split : K) (d : Dyn K) : Dyn K :=
  if d.disabled then d
  else
    let v := d.cVel + V3.smul split d.sVel
    let w := d.cAng + V3.smul split d.sAng
    { d with
      cPos := d.comWorld + V3.smul dt v
      cOri := d.tr.ori.add ((((⟨w.x, w.y, w.z, 0⟩ : Quat K).mul d.tr.ori).scale (1 / 2)).scale dt) }

/-- The joint position solvers; `none` for a body no joint touches. -/
def solvePos (s : Option (V3 K × Quat K)) (d : Dyn K) : Dyn K :=
  match s with
  | none => d
  | some s => { d with cPos := s.1, cOri := s.2 }

/-- `updateBodiesState` (DynamicsSystem.cpp:74-110) for one body; `len` is the length of a quaternion. -/
def updateState (len : Quat K → K) (d : Dyn K) : Dyn K :=
  if d.disabled then d
  else
    let o := d.cOri.divBy (len d.cOri)
    { d with
      vel := d.cVel
      ang := d.cAng
      comWorld := d.cPos
      tr := ⟨d.cPos - o.rot d.comLocal, o⟩ }

/-- `resetBodiesForceAndTorque` (DynamicsSystem.cpp:186-194) for one body. -/
def resetForces (d : Dyn K) : Dyn K := { d with force := 0, torque := 0 }

end Dyn

/-- The bodies of a world and the settings of the sleeping technique. -/
structure DW (K : Type) where
  body : Nat → Option (Dyn K)
  /-- `mIsSleepingEnabled` -/
  sleepOn : Bool
  /-- `mSleepLinearVelocity`, `mSleepAngularVelocity`, `mTimeBeforeSleep` -/
  limL : K
  limA : K
  before : K

namespace DW
variable {K : Type} [Field K] [LinearOrder K]

def mapAll (w : DW K) (f : Nat → Dyn K → Dyn K) : DW K := { w with body := fun b => (w.body b).map (f b) }
def modify (w : DW K) (b : Nat) (f : Dyn K → Dyn K) : DW K := { w with body := upd w.body b ((w.body b).map f) }

/-- The test of `updateSleepingBodies` (PhysicsWorld.cpp:894-896), negated. -/
def atRest (w : DW K) (d : Dyn K) : Bool :=
  !(decide (V3.lengthSq d.vel > w.limL * w.limL) || decide (V3.lengthSq d.ang > w.limA * w.limA) || !d.allowed)

/-- The timer of one body in `updateSleepingBodies` (PhysicsWorld.cpp:886-910); the second component is `minSleepTime`. -/
def tick (add : K → K → K) (dt : K) (s : DW K × K) (b : Nat) : DW K × K :=
  match s.1.body b with
  | none => s
  | some d =>
    if d.type = .static then s
    else if s.1.atRest d then
      let t := add d.sleepTime dt
      (s.1.modify b fun d => { d with sleepTime := t }, if t < s.2 then t else s.2)
    else (s.1.modify b fun d => { d with sleepTime := 0 }, 0)

/-- One island in `updateSleepingBodies` (PhysicsWorld.cpp:881-928); `big` is `DECIMAL_LARGEST`. -/
def sleepIsland (add : K → K → K) (big dt : K) (w : DW K) (i : List Nat) : DW K :=
  let s := i.foldl (tick add dt) (w, big)
  if s.2 ≥ s.1.before then i.foldl (fun w b => w.modify b fun d => d.setIsSleeping true) s.1 else s.1

/-- `updateSleepingBodies` (PhysicsWorld.cpp:871-930). -/
def updateSleeping (add : K → K → K) (big dt : K) (w : DW K) (is : List (List Nat)) : DW K :=
  is.foldl (sleepIsland add big dt) w

/-- What the rest of the engine contributes to a step. -/
structure Args (K : Type) where
  dt : K
  /-- the gravity vector, `none` if gravity is disabled -/
  g : Option (V3 K)
  /-- the bodies of the islands (C29) -/
  islands : List (List Nat)
  /-- 1 if split impulses are active, 0 otherwise -/
  split : K
  /-- what the velocity solvers and the position solvers write -/
  vels : Nat → Option (Dyn.Vels K)
  poss : Nat → Option (V3 K × Quat K)
  /-- the length of a quaternion -/
  len : Quat K → K
  /-- addition of the sleep timer, and `DECIMAL_LARGEST` -/
  add : K → K → K
  big : K

/-- `createIslands` wakes every body of an island that is not static (PhysicsWorld.cpp:749-753). -/
def wakeIslands (a : Args K) (w : DW K) : DW K :=
  w.mapAll fun b d => if a.islands.any (fun i => i.contains b) then d.setIsSleeping false else d

/-- A body up to the end of the velocity integration in `update` (PhysicsWorld.cpp:260-275). -/
def prepared (a : Args K) (w : DW K) : DW K := (wakeIslands a w).mapAll fun _ d => (d.updateInertia).integrateVel a.dt a.g

/-- `update` up to `updateSleepingBodies` (PhysicsWorld.cpp:252-287). -/
def moved (a : Args K) (w : DW K) : DW K :=
  (prepared a w).mapAll fun b d => (((d.solveVel (a.vels b)).integratePos a.dt a.split).solvePos (a.poss b)).updateState a.len

/-- `update` (PhysicsWorld.cpp:239-306). -/
def update (a : Args K) (w : DW K) : DW K :=
  let w1 := moved a w
  let w2 := if w1.sleepOn then updateSleeping a.add a.big a.dt w1 a.islands else w1
  w2.mapAll fun _ d => d.resetForces

/-- `enableSleeping` (PhysicsWorld.cpp:935-951). -/
def enableSleeping (w : DW K) (b : Bool) : DW K :=
  let w1 := { w with sleepOn := b }
  if !b then w1.mapAll fun _ d => d.setIsSleeping false else w1

/-- Calls on the world. -/
inductive Op (K : Type)
  | create (b : Nat) (t : Trans K)
  | destroy (b : Nat)
  | call (b : Nat) (o : Dyn.Op K)
  | enableSleeping (b : Bool)
  | limits (l a t : K)
  | update (a : Args K)

def exec (w : DW K) : Op K → DW K
  | .create b t => { w with body := upd w.body b (some (Dyn.create t)) }
  | .destroy b => { w with body := upd w.body b none }
  | .call b o => w.modify b fun d => d.exec o
  | .enableSleeping b => w.enableSleeping b
  | .limits l a t => { w with limL := l, limA := a, before := t }
  | .update a => w.update a

end DW
end RP3D
