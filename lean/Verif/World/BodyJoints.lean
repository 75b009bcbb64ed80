import Verif.Engine.Components

/-!
Model of joints and bodies with the positions of their components (src/engine/PhysicsWorld.cpp: createRigidBody, createJoint, destroyJoint,
destroyRigidBody, ~PhysicsWorld; src/body/RigidBody.cpp: setIsSleeping, setType, setIsActive).

`mBodyComponents`, `mTransformComponents` and `mRigidBodyComponents` always get the same additions, removals and changes of the disabled flag in the
same order (PhysicsWorld.cpp:171-178, 414-424, 463-465), so one table stands for the three. Simplification: colliders are left out
(`removeAllColliders` in line 454 runs before the reference to the joints is taken; the bodies that it wakes are woken by
separate operations here), and so are the tables of the four kinds of joints (C14, C59).
-/

namespace RP3D

/-- The columns of a body that matter here: `mBodyTypes` (static or not), `mIsActive`, `mIsSleeping`, `mJoints`. -/
@[ext] structure JBody where
  static : Bool
  active : Bool
  sleeping : Bool
  joints : List Nat
deriving DecidableEq, Repr

/-- The tables of bodies and joints (a joint has its two bodies), `mRigidBodies`, and a record of what has been destroyed. -/
structure JWorld where
  rb : Comps JBody
  jc : Comps (Nat × Nat)
  list : List Nat
  deadJoints : List Nat
  deadBodies : List Nat

namespace JWorld

def empty : JWorld := ⟨Comps.empty, Comps.empty, [], [], []⟩

/-- A write to columns of a body. -/
def change (w : JWorld) (b : Nat) (g : JBody → JBody) : Option JWorld := do
  let d ← w.rb.getData b
  let rb ← w.rb.setData b (g d)
  return { w with rb := rb }

/-- `setBodyDisabled` (PhysicsWorld.cpp:168-186). -/
def setBodyDisabled (w : JWorld) (b : Nat) (v : Bool) : Option JWorld := do
  let old ← w.rb.isDisabled b
  if v = old then some w
  else
    let rb ← w.rb.setDisabled id b v
    return { w with rb := rb }

/-- `RigidBody::setIsSleeping` (RigidBody.cpp:1006-1059). -/
def setIsSleeping (w : JWorld) (b : Nat) (v : Bool) : Option JWorld := do
  let d ← w.rb.getData b
  if d.sleeping = v ∨ d.static = true ∨ d.active = false then some w
  else
    let w ← w.change b fun d => { d with sleeping := v }
    w.setBodyDisabled b v

/-- `RigidBody::setType` (RigidBody.cpp:66-133), to static or from static. -/
def setStatic (w : JWorld) (b : Nat) (v : Bool) : Option JWorld := do
  let d ← w.rb.getData b
  if d.static = v then some w
  else
    let w ← w.change b fun d => { d with static := v }
    let w ← w.setBodyDisabled b v
    w.setIsSleeping b false

/-- `RigidBody::setIsActive` (RigidBody.cpp:1185-1193). -/
def setActive (w : JWorld) (b : Nat) (v : Bool) : Option JWorld := do
  let d ← w.rb.getData b
  if d.active = v then some w
  else
    let w ← w.setIsSleeping b (!v)
    w.change b fun d => { d with active := v }

/-- `createRigidBody` (PhysicsWorld.cpp:401-442) with the new entity `b` (C13). -/
def createBody (w : JWorld) (b : Nat) : Option JWorld := do
  let rb ← w.rb.add b false ⟨false, true, false, []⟩
  return { w with rb := rb, list := w.list ++ [b] }

/-- `createJoint` (PhysicsWorld.cpp:483-600) with the new entity `j`. -/
def createJoint (w : JWorld) (j b1 b2 : Nat) : Option JWorld := do
  let d1 ← w.rb.isDisabled b1
  let d2 ← w.rb.isDisabled b2
  let jc ← w.jc.add j (d1 && d2) (b1, b2)
  let w ← { w with jc := jc }.change b1 fun d => { d with joints := d.joints ++ [j] }
  w.change b2 fun d => { d with joints := d.joints ++ [j] }

/-- `setJointDisabled` (PhysicsWorld.cpp:189-206), for the table of all joints. -/
def setJointDisabled (w : JWorld) (j : Nat) (v : Bool) : Option JWorld := do
  let old ← w.jc.isDisabled j
  if v = old then some w
  else
    let jc ← w.jc.setDisabled id j v
    return { w with jc := jc }

/-- One round of `enableDisableJoints` (PhysicsWorld.cpp:375-392). -/
def arrangeJoint (w : JWorld) (j : Nat) : Option JWorld := do
  let (b1, b2) ← w.jc.getData j
  let d1 ← w.rb.isDisabled b1
  let d2 ← w.rb.isDisabled b2
  w.setJointDisabled j (d1 && d2)

/-- `removeJointFromBody` (RigidBodyComponents.h:852-856): `Array::remove` of an absent element is out of bounds. -/
def removeJoint (w : JWorld) (b j : Nat) : Option JWorld := do
  let d ← w.rb.getData b
  if j ∈ d.joints then w.change b fun d => { d with joints := d.joints.erase j } else none

/-- `destroyJoint` (PhysicsWorld.cpp:606-655). -/
def destroyJoint (w : JWorld) (j : Nat) : Option JWorld := do
  let (b1, b2) ← w.jc.getData j
  let w ← w.setIsSleeping b1 false
  let w ← w.setIsSleeping b2 false
  let w ← w.removeJoint b1 j
  let w ← w.removeJoint b2 j
  let jc ← w.jc.remove j
  return { w with jc := jc, deadJoints := w.deadJoints ++ [j] }

/-- The loop of `destroyRigidBody` (PhysicsWorld.cpp:457-460): `joints` refers to the column `mJoints` at the index `i` at which the body
was when the reference was taken. Each round removes a joint, so one round more than there are joints is enough. -/
def jointLoop (i : Nat) : Nat → JWorld → Option JWorld
  | 0, _ => none
  | n + 1, w => do
    let s ← w.rb.slots i
    match s.2.joints with
    | [] => some w
    | j :: _ =>
      let w ← w.destroyJoint j
      jointLoop i n w

/-- `destroyRigidBody` (PhysicsWorld.cpp:448-477). -/
def destroyBody (w : JWorld) (b : Nat) : Option JWorld := do
  let i ← w.rb.map b
  let w ← w.jointLoop i (w.jc.nb + 1)
  let rb ← w.rb.remove b
  return { w with rb := rb, list := w.list.erase b, deadBodies := w.deadBodies ++ [b] }

/-- The loop over the joints in the destructor (PhysicsWorld.cpp:144-147). -/
def teardownJoints : Nat → Nat → JWorld → Option JWorld
  | 0, _, _ => none
  | n + 1, i, w =>
    if i < w.jc.nb then do
      let s ← w.jc.slots i
      let w ← w.destroyJoint s.1
      teardownJoints n (i + 1) w
    else some w

/-- The loop over the bodies in the destructor (PhysicsWorld.cpp:150-154). -/
def teardownBodies : Nat → JWorld → Option JWorld
  | 0, w => some w
  | i + 1, w => do
    let b ← w.list[i]?
    let w ← w.destroyBody b
    teardownBodies i w

/-- `~PhysicsWorld` (PhysicsWorld.cpp:131-165). -/
def teardown (w : JWorld) : Option JWorld := do
  let w ← w.teardownJoints (w.jc.nb + 1) 0
  w.teardownBodies w.list.length

/-- The operations of the user and of the simulation step. -/
inductive Op
  | createBody (b : Nat)
  | createJoint (j b1 b2 : Nat)
  | destroyJoint (j : Nat)
  | destroyBody (b : Nat)
  | setSleeping (b : Nat) (v : Bool)
  | setStatic (b : Nat) (v : Bool)
  | setActive (b : Nat) (v : Bool)
  | arrangeJoint (j : Nat)

def step (w : JWorld) : Op → Option JWorld
  | .createBody b => w.createBody b
  | .createJoint j b1 b2 => w.createJoint j b1 b2
  | .destroyJoint j => w.destroyJoint j
  | .destroyBody b => w.destroyBody b
  | .setSleeping b v => w.setIsSleeping b v
  | .setStatic b v => w.setStatic b v
  | .setActive b v => w.setActive b v
  | .arrangeJoint j => w.arrangeJoint j

def run (w : JWorld) : List Op → Option JWorld
  | [] => some w
  | op :: ops => do
    let w ← w.step op
    w.run ops

end JWorld
end RP3D
