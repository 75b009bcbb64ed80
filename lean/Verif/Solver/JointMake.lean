import Verif.Solver.Position

/-! Model of the constructors of the four joints: src/constraint/BallAndSocketJoint.cpp:38-62, FixedJoint.cpp:34-73, HingeJoint.cpp:34-83,
SliderJoint.cpp:39-91, with the initial values of their components (BallAndSocketJointComponents.cpp:151-183, FixedJointComponents.cpp:137-165,
HingeJointComponents.cpp:222-271, SliderJointComponents.cpp:244-297), as PhysicsWorld::createJoint puts them together (PhysicsWorld.cpp:483-592).

The settings of limits and motors are those of C127 and are not repeated: here they are arguments. The assertions on limits are hypotheses of the theorems. -/

namespace RP3D
namespace Joints
open Solver
variable {K : Type} [Field K] [LinearOrder K]

/-- The anchor in world space, or the two anchors in the spaces of the bodies (`isUsingLocalSpaceAnchors`). -/
inductive Anchor (K : Type) where
  | world (p : V3 K)
  | own (a1 a2 : V3 K)

/-- The anchor points in the spaces of the bodies (BallAndSocketJoint.cpp:44-58, FixedJoint.cpp:44-54, HingeJoint.cpp:44-56, SliderJoint.cpp:56-69). -/
def Anchor.points (t1 t2 : Trans K) : Anchor K → V3 K × V3 K
  | .world p => (t1.inverse.act p, t2.inverse.act p)
  | .own a1 a2 => (a1, a2)

/-- The axis in world space, or in the spaces of the bodies; sliders have no second one. -/
inductive Axis (K : Type) where
  | world (n : V3 K)
  | own (l1 l2 : V3 K)

/-- The axes in the spaces of the bodies (HingeJoint.cpp:49-50, 59-62; SliderJoint.cpp:61, 71-73). Only those from world space are normalised. -/
def Axis.dirs (cfg : JCfg K) (t1 t2 : Trans K) : Axis K → V3 K × V3 K
  | .world n => (unitOf cfg (t1.ori.conj.rot n), unitOf cfg (t2.ori.conj.rot n))
  | .own l1 l2 => (l1, l2)

/-- Limits and motor: enabled, lower, upper; enabled, speed, strength. -/
structure Drive (K : Type) where
  limitOn : Bool
  lower : K
  upper : K
  motorOn : Bool
  speed : K
  max : K

/-- A ball-and-socket joint; its cone is disabled and has the half angle PI (PhysicsWorld.cpp:499). -/
def Ball.make (cfg : JCfg K) (b1 b2 : Nat) (baum : Bool) (t1 t2 : Trans K) (a : Anchor K) : Ball K :=
  ⟨b1, b2, baum, (a.points t1 t2).1, (a.points t1 t2).2, 0, 0, M3.zero, 0, 0, false, cfg.pi, 0, false, 0, 0, 0⟩

/-- A fixed joint. -/
def Fixed.make (b1 b2 : Nat) (baum : Bool) (t1 t2 : Trans K) (a : Anchor K) : Fixed K :=
  ⟨b1, b2, baum, (a.points t1 t2).1, (a.points t1 t2).2, t2.ori.conj.mul t1.ori, 0, 0, M3.zero, 0, 0, M3.zero, 0, 0⟩

/-- A hinge. -/
def Hinge.make (cfg : JCfg K) (b1 b2 : Nat) (baum : Bool) (t1 t2 : Trans K) (a : Anchor K) (n : Axis K) (s : Drive K) : Hinge K :=
  ⟨b1, b2, baum, (a.points t1 t2).1, (a.points t1 t2).2, (n.dirs cfg t1 t2).1, (n.dirs cfg t1 t2).2, (unitQ cfg (t2.ori.mul t1.ori.conj)).conj, 0, 0, 0, 0, 0,
    M3.zero, 0, 0, M2.zero, ⟨0, 0⟩, ⟨0, 0⟩, s.limitOn, s.lower, s.upper, false, false, 0, 0, 0, 0, 0, s.motorOn, s.speed, s.max, 0⟩

/-- A slider. -/
def Slider.make (cfg : JCfg K) (b1 b2 : Nat) (baum : Bool) (t1 t2 : Trans K) (a : Anchor K) (n : Axis K) (s : Drive K) : Slider K :=
  ⟨b1, b2, baum, (a.points t1 t2).1, (a.points t1 t2).2, (n.dirs cfg t1 t2).1, t2.inverse.ori.mul t1.ori, 0, 0, 0, 0, 0, 0, 0, 0, 0, 0, 0, M2.zero, ⟨0, 0⟩, ⟨0, 0⟩,
    M3.zero, 0, 0, s.limitOn, s.lower, s.upper, false, false, 0, 0, 0, 0, 0, 0, s.motorOn, s.speed, s.max, 0⟩

end Joints
end RP3D
