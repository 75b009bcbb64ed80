import Mathlib.Algebra.Order.Field.Basic

/-!
# Settings of hinge, slider and ball-and-socket joints

Model of the calls by which a user reads and changes the limits and the motor of a joint
(src/constraint/HingeJoint.cpp, src/constraint/SliderJoint.cpp,
src/constraint/BallAndSocketJoint.cpp, src/constraint/Joint.cpp), and of the descriptions from
which the joints are created (include/reactphysics3d/constraint/HingeJoint.h, SliderJoint.h).

The hinge and the slider store the same settings and most of their calls have the same text, so
there is one record for the two, with a `Kind` telling them apart where they differ.  A broken
assertion is `none`.  Numbers are of an ordered field; `pi` is the constant `PI_RP3D`
(configuration.h:123).
-/

namespace RP3D.JointSettings

/-- The part of a body read and written by `RigidBody::setIsSleeping`. -/
structure Body (α : Type) where
  static : Bool
  active : Bool
  sleeping : Bool
  sleepTime : α
deriving DecidableEq, Repr

/-- `RigidBody::setIsSleeping(false)` (RigidBody.cpp:1006-1030). -/
def Body.wake {α : Type} [Zero α] (b : Body α) : Body α :=
  if b.sleeping = false then b
  else if b.static = true then b
  else if b.active = false then b
  else { b with sleeping := false, sleepTime := 0 }

/-- The two classes of joints with limits and a motor. -/
inductive Kind | hinge | slider
deriving DecidableEq, Repr

/-- The columns of `HingeJointComponents` / `SliderJointComponents` holding settings and
accumulated impulses; `rest` stands for the impulses of the translation and rotation
constraints. -/
structure Joint (α : Type) where
  kind : Kind
  limitOn : Bool
  motorOn : Bool
  lower : α
  upper : α
  speed : α
  maxMotor : α
  impLower : α
  impUpper : α
  impMotor : α
  rest : α
  body1 : Body α
  body2 : Body α
deriving DecidableEq, Repr

variable {α : Type} [Field α] [LinearOrder α]

namespace Joint

/-- `Joint::awakeBodies` (Joint.cpp:74-86). -/
def awake (j : Joint α) : Joint α :=
  { j with body1 := j.body1.wake, body2 := j.body2.wake }

/-- `resetLimits` (HingeJoint.cpp:154-162, SliderJoint.cpp:196-204). -/
def resetLimits (j : Joint α) : Joint α :=
  { j with impLower := 0, impUpper := 0 }.awake

/-- `enableLimit` (HingeJoint.cpp:90-99, SliderJoint.cpp:98-109). -/
def enableLimit (j : Joint α) (b : Bool) : Option (Joint α) :=
  if b ≠ j.limitOn then some { j with limitOn := b }.resetLimits else some j

/-- `enableMotor` (HingeJoint.cpp:106-113, SliderJoint.cpp:116-123). -/
def enableMotor (j : Joint α) (b : Bool) : Option (Joint α) :=
  some { j with motorOn := b, impMotor := 0 }.awake

/-- The assertion of `setMinAngleLimit` on the stored limit (HingeJoint.cpp:121-123) or of
`setMinTranslationLimit` on the new one (SliderJoint.cpp:167). -/
def minCheck (pi : α) (j : Joint α) (x : α) : Bool :=
  match j.kind with
  | .hinge => decide (j.lower ≤ 0) && decide (-2 * pi ≤ j.lower)
  | .slider => decide (x ≤ j.upper)

/-- `setMinAngleLimit` (HingeJoint.cpp:119-132), `setMinTranslationLimit`
(SliderJoint.cpp:165-176). -/
def setMin (pi : α) (j : Joint α) (x : α) : Option (Joint α) :=
  if minCheck pi j x = false then none
  else if x ≠ j.lower then some { j with lower := x }.resetLimits else some j

/-- The assertion of `setMaxAngleLimit` on the stored limit (HingeJoint.cpp:140-142) or of
`setMaxTranslationLimit` on the new one (SliderJoint.cpp:184). -/
def maxCheck (pi : α) (j : Joint α) (x : α) : Bool :=
  match j.kind with
  | .hinge => decide (0 ≤ j.upper) && decide (j.upper ≤ 2 * pi)
  | .slider => decide (j.lower ≤ x)

/-- `setMaxAngleLimit` (HingeJoint.cpp:138-151), `setMaxTranslationLimit`
(SliderJoint.cpp:182-193). -/
def setMax (pi : α) (j : Joint α) (x : α) : Option (Joint α) :=
  if maxCheck pi j x = false then none
  else if x ≠ j.upper then some { j with upper := x }.resetLimits else some j

/-- `setMotorSpeed` (HingeJoint.cpp:168-177, SliderJoint.cpp:210-219). -/
def setSpeed (j : Joint α) (x : α) : Option (Joint α) :=
  if x ≠ j.speed then some { j with speed := x }.awake else some j

/-- `setMaxMotorTorque` (HingeJoint.cpp:183-195), `setMaxMotorForce`
(SliderJoint.cpp:225-237).  The assertion is about the stored value. -/
def setMaxMotor (j : Joint α) (x : α) : Option (Joint α) :=
  if x ≠ j.maxMotor then
    if 0 ≤ j.maxMotor then some { j with maxMotor := x }.awake else none
  else some j

end Joint

/-- Descriptions of joints, by the three kinds of constructors of `HingeJointInfo`
(HingeJoint.h:96-233) and `SliderJointInfo` (SliderJoint.h:93-221); world-space and local-space
constructors treat these fields alike. -/
inductive Info (α : Type) where
  | plain
  | limits (lower upper : α)
  | limitsMotor (lower upper speed maxMotor : α)
deriving DecidableEq, Repr

/-- The field `isLimitEnabled` of a description (HingeJoint.h:103, 123, 147; SliderJoint.h:100,
120, 145). -/
def Info.limitOn : Info α → Bool
  | .plain => false
  | _ => true

/-- The field `isMotorEnabled` of a description (HingeJoint.h:104, 124, 148, 173, 200, 231;
SliderJoint.h:100, 120, 145, 167, 190, 218). -/
def Info.motorOn : Kind → Info α → Bool
  | .slider, .limitsMotor .. => true
  | _, _ => false

/-- The fields for the limits and the motor of a description (same lines). -/
def Info.values : Info α → α × α × α × α
  | .plain => (-1, 1, 0, 0)
  | .limits l u => (l, u, 0, 0)
  | .limitsMotor l u s m => (l, u, s, m)

/-- The assertions of the constructors of joints (HingeJoint.cpp:66-69; SliderJoint.cpp:41-43). -/
def createCheck (pi : α) (k : Kind) (l u m : α) : Bool :=
  match k with
  | .hinge => decide (l ≤ 0) && decide (-2 * pi ≤ l) && decide (0 ≤ u) && decide (u ≤ 2 * pi)
  | .slider => decide (0 ≤ u) && decide (l ≤ 0) && decide (0 ≤ m)

/-- `createJoint` for a hinge or a slider (PhysicsWorld.cpp:483-600; HingeJoint.cpp:34-83;
SliderJoint.cpp:36-91), as far as settings go: the impulses start at zero. -/
def create (pi : α) (k : Kind) (i : Info α) (b1 b2 : Body α) : Option (Joint α) :=
  let v := i.values
  if createCheck pi k v.1 v.2.1 v.2.2.2 = false then none
  else some ⟨k, i.limitOn, i.motorOn k, v.1, v.2.1, v.2.2.1, v.2.2.2, 0, 0, 0, 0, b1, b2⟩

/-- What can happen to a joint: the calls above, and anything else (`other`), such as steps of the
simulation, by which impulses and bodies become whatever they become. -/
inductive Op (α : Type) where
  | enableLimit (b : Bool)
  | enableMotor (b : Bool)
  | setMin (x : α)
  | setMax (x : α)
  | setSpeed (x : α)
  | setMaxMotor (x : α)
  | other (impLower impUpper impMotor rest : α) (body1 body2 : Body α)

/-- One event. -/
def step (pi : α) (j : Joint α) : Op α → Option (Joint α)
  | .enableLimit b => j.enableLimit b
  | .enableMotor b => j.enableMotor b
  | .setMin x => j.setMin pi x
  | .setMax x => j.setMax pi x
  | .setSpeed x => j.setSpeed x
  | .setMaxMotor x => j.setMaxMotor x
  | .other a b c d b1 b2 =>
    some { j with impLower := a, impUpper := b, impMotor := c, rest := d, body1 := b1, body2 := b2 }

/-- Several events in turn. -/
def run (pi : α) (j : Joint α) : List (Op α) → Option (Joint α)
  | [] => some j
  | o :: os => (step pi j o).bind fun j' => run pi j' os

/-! ## The cone of a ball-and-socket joint -/

/-- The settings and impulses of a ball-and-socket joint. -/
structure Cone (α : Type) where
  on : Bool
  half : α
  impCone : α
  rest : α
  body1 : Body α
  body2 : Body α
deriving DecidableEq, Repr

namespace Cone

/-- `resetLimits` (BallAndSocketJoint.cpp:130-137). -/
def resetLimits (j : Cone α) : Cone α :=
  { j with impCone := 0, body1 := j.body1.wake, body2 := j.body2.wake }

/-- `enableConeLimit` (BallAndSocketJoint.cpp:71-75). -/
def enable (j : Cone α) (b : Bool) : Cone α := { j with on := b }.resetLimits

/-- `setConeLimitHalfAngle` (BallAndSocketJoint.cpp:89-97). -/
def setHalf (j : Cone α) (x : α) : Cone α :=
  if j.half ≠ x then { j with half := x }.resetLimits else j

end Cone

end RP3D.JointSettings
