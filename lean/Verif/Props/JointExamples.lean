import Verif.Props.JointEnergy

/-! C92-C95, C97: what fails, and examples. The square root of the examples is only asked for 0, 1 and 4. -/

namespace RP3D
namespace JointProps
open Solver Joints SolverProps

deriving instance DecidableEq for Vel

section
variable {K : Type} [Field K] [LinearOrder K] [IsStrictOrderedRing K]

/-- **C93 fails.** If the determinant of the mass matrix is not above `MACHINE_EPSILON`, the solver of a ball-and-socket joint leaves all velocities
alone, whatever they are (SolveBallAndSocketJointSystem.cpp:100-108). -/
theorem heavy_ignored {jc : JCfg K} {body : Nat → JBody K} {J N : Ball K} (hs : (J.init jc body).Same N)
    (hd : |(anchorMass body J.b1 J.b2 J.a1 J.a2).det| ≤ jc.eps) (V : Nat → Vel K) : (N.joint body V).1 = V := by
  obtain ⟨_, _, _, _, _, _, _, h8, _⟩ := Ball.fields hs
  have hk : ∀ a, N.k.act a = 0 := fun a => by
    rw [h8]
    unfold inverseOrZero
    rw [if_neg (not_lt.2 hd)]
    unfold M3.zero M3.of M3.act
    ext <;> simp
  unfold Ball.joint
  dsimp only
  rw [hk, pin_zero]

/-- **C94 fails.** An iteration of the motor of a hinge that is not at its maximal torque doubles the distance of the relative angular velocity from the
speed of the motor: the sign of the impulse is wrong (SolveHingeJointSystem.cpp:396-416). -/
theorem hinge_motor_doubles {jc : JCfg K} {body : Nat → JBody K} (J : Hinge K) (hb : J.b1 ≠ J.b2) (h1 : Unlocked (body J.b1)) (h2 : Unlocked (body J.b2))
    (ho : J.motorOn = true) (hp : 0 < V3.dot J.ax ((body J.b1).I.act J.ax) + V3.dot J.ax ((body J.b2).I.act J.ax))
    (hk : J.km = invOf (V3.dot J.ax ((body J.b1).I.act J.ax) + V3.dot J.ax ((body J.b2).I.act J.ax))) (V : Nat → Vel K)
    (hm : |J.impM + J.km * (V3.dot ((V J.b2).w - (V J.b1).w) J.ax - J.speed)| ≤ J.max * jc.dt) :
    V3.dot (((J.motor jc body V).1 J.b2).w - ((J.motor jc body V).1 J.b1).w) J.ax - J.speed =
      2 * (V3.dot ((V J.b2).w - (V J.b1).w) J.ax - J.speed) := by
  have e : -V3.dot J.ax ((V J.b1).w - (V J.b2).w) = V3.dot ((V J.b2).w - (V J.b1).w) J.ax := by
    simp only [V3.dot, V3.sub_x, V3.sub_y, V3.sub_z]; ring
  unfold Hinge.motor
  rw [if_pos ho]
  dsimp only
  rw [e, max_eq_left (abs_le.1 hm).1, min_eq_left (abs_le.1 hm).2, axis_rel hb h1 h2, hk, add_sub_cancel_left]
  have := invOf_mul hp
  linear_combination (V3.dot ((V J.b2).w - (V J.b1).w) J.ax - J.speed) * this

end

namespace Ex

def jc : JCfg ℚ := ⟨1, 1 / 5, 1 / 8388608, true, 355 / 113, fun x => if x = 4 then 2 else x, fun _ => 355 / 226, fun _ _ => 0, fun x _ => x⟩
def cc : Cfg ℚ := ⟨1, 1 / 5, 1 / 100, true, 1 / 2, 1 / 1000⟩

/-- A body with mass and inertia tensor 1. -/
def unit (x : V3 ℚ) : JBody ℚ := ⟨⟨x, 0, 0, 1, M3.one, ⟨1, 1, 1⟩, ⟨1, 1, 1⟩⟩, Quat.one, 0, true⟩
/-- Two bodies, two meters apart in the given direction. -/
def both (x : V3 ℚ) (b : Nat) : JBody ℚ := if b = 0 then unit 0 else unit x
/-- The second body moves. -/
def moving (v w : V3 ℚ) (b : Nat) : Vel ℚ := if b = 1 then ⟨v, w, 0, 0⟩ else ⟨0, 0, 0, 0⟩
def m1 : Nat → ℚ := fun _ => 1
def L1 : Nat → M3 ℚ := fun _ => M3.one

def ball (a1 a2 : V3 ℚ) : Ball ℚ := ⟨0, 1, false, a1, a2, 0, 0, M3.zero, 0, 0, false, 1, 0, false, 0, 0, 0⟩
def weld (a1 a2 : V3 ℚ) : Fixed ℚ := ⟨0, 1, false, a1, a2, Quat.one, 0, 0, M3.zero, 0, 0, M3.zero, 0, 0⟩
def hinge (a1 a2 : V3 ℚ) : Hinge ℚ :=
  ⟨0, 1, false, a1, a2, ⟨0, 0, 1⟩, ⟨0, 0, 1⟩, Quat.one, 0, 0, 0, 0, 0, M3.zero, 0, 0, M2.zero, ⟨0, 0⟩, ⟨0, 0⟩, false, -1, 1, false, false, 0, 0, 0, 0, 0,
    false, 1, 100, 0⟩
def slider (a1 a2 : V3 ℚ) : Slider ℚ :=
  ⟨0, 1, false, a1, a2, ⟨1, 0, 0⟩, Quat.one, 0, 0, 0, 0, 0, 0, 0, 0, 0, 0, 0, M2.zero, ⟨0, 0⟩, ⟨0, 0⟩, M3.zero, 0, 0, false, -1, 1, false, false, 0, 0, 0, 0,
    0, 0, false, 1, 100, 0⟩

theorem both_unlocked (x : V3 ℚ) (b : Nat) : Unlocked (both x b) := by
  unfold both
  split_ifs <;> exact ⟨rfl, rfl⟩

theorem both_movable (x : V3 ℚ) : Movable jc (both x) 0 1 := ⟨by decide, both_unlocked x 0, both_unlocked x 1, rfl, by decide +kernel⟩

theorem one_act (a : V3 ℚ) : (M3.one : M3 ℚ).act a = a := by
  unfold M3.one M3.of M3.act
  ext <;> simp

theorem both_I (x : V3 ℚ) (b : Nat) : (both x b).I = M3.one ∧ (both x b).m = 1 := by
  unfold both
  split_ifs <;> exact ⟨rfl, rfl⟩

theorem both_turn (x : V3 ℚ) (S : Finset Nat) : FreeTurn (both x) m1 L1 S := fun b _ => by
  obtain ⟨h1, h2⟩ := both_I x b
  obtain ⟨h3, h4⟩ := both_unlocked x b
  refine ⟨by rw [h2, mul_one]; rfl, h3, fun a => ?_, h4⟩
  rw [h1]
  show M3.one.act (M3.one.act a) = a
  rw [one_act, one_act]

theorem both_bodies (x : V3 ℚ) (S : Finset Nat) (V : Nat → Vel ℚ) : Bodies (both x) m1 L1 S V := by
  refine ⟨fun b _ => ⟨both_unlocked x b, by rw [(both_I x b).2]; decide, fun a => ?_⟩, fun b _ => Or.inl ⟨by rw [(both_I x b).2, mul_one]; rfl, fun a => ?_, fun a c => ?_⟩⟩
  · rw [(both_I x b).1, one_act]
    simp only [V3.dot]
    nlinarith [mul_self_nonneg a.x, mul_self_nonneg a.y, mul_self_nonneg a.z]
  · rw [(both_I x b).1]
    show M3.one.act (M3.one.act a) = a
    rw [one_act, one_act]
  · show V3.dot a (M3.one.act c) = V3.dot c (M3.one.act a)
    rw [one_act, one_act, dot_comm']

end Ex
open Ex

/-! ### C92 -/

/-- The hypotheses of `momentum_step_kept` and `angular_kept_partial` hold of two bodies with a joint, and the joint does something. -/
example : Free (fun b => (both ⟨2, 0, 0⟩ b).toSBody) m1 {0, 1} ∧ FreeTurn (both ⟨2, 0, 0⟩) m1 L1 {0, 1} ∧
    Meets (both ⟨2, 0, 0⟩) (.ball (ball ⟨1, 0, 0⟩ ⟨-1, 0, 0⟩)) ∧ Meets (both ⟨2, 0, 0⟩) (.slider (slider ⟨1, 0, 0⟩ ⟨-1, 0, 0⟩)) ∧
    ((solveStep cc jc (both ⟨2, 0, 0⟩) (moving ⟨0, 1, 0⟩ 0) [.ball (ball ⟨1, 0, 0⟩ ⟨-1, 0, 0⟩)] [] 10).1 0).v = ⟨0, 1 / 4, 0⟩ := by
  refine ⟨fun b _ => ⟨by rw [(both_I _ b).2, mul_one]; rfl, (both_unlocked _ b).1⟩, both_turn _ _, by show anchor _ _ = anchor _ _; decide +kernel, ⟨rfl, rfl⟩, by decide +kernel⟩

/-- A slider with motor between two bodies side by side. -/
def Ex.driven : Slider ℚ := { slider 0 ⟨0, -2, 0⟩ with motorOn := true }

/-- **C92 fails.** The motor of a slider pushes both bodies at their centers of mass (SolveSliderJointSystem.cpp:448-458): two bodies side by side,
at rest, begin to turn about each other. -/
theorem slider_motor_turns : angular {0, 1} m1 L1 (fun b => (both ⟨0, 2, 0⟩ b).x) (moving 0 0) = 0 ∧
    angular {0, 1} m1 L1 (fun b => (both ⟨0, 2, 0⟩ b).x) (solveStep cc jc (both ⟨0, 2, 0⟩) (moving 0 0) [.slider driven] [] 10).1 ≠ 0 := by
  decide +kernel

theorem slider_motor_turns_negates : ¬ ∀ (body : Nat → JBody ℚ) (V : Nat → Vel ℚ) (Js : List (Joint ℚ)) (n : Nat) (mass : Nat → ℚ) (L : Nat → M3 ℚ)
    (S : Finset Nat), FreeTurn body mass L S → (∀ J ∈ Js, J.b1 ∈ S ∧ J.b2 ∈ S) →
    angular S mass L (fun b => (body b).x) (solveStep cc jc body V Js [] n).1 = angular S mass L (fun b => (body b).x) V := by
  intro h
  have h' := h (both ⟨0, 2, 0⟩) (moving 0 0) [.slider driven] 10 m1 L1 {0, 1} (both_turn _ _) (by
    intro J hJ
    rcases List.mem_cons.1 hJ with rfl | hJ
    · decide
    · exact absurd hJ (by simp))
  exact slider_motor_turns.2 (h'.trans slider_motor_turns.1)

/-! ### C93 -/

/-- Examples for `ball_velocity`, `fixed_velocity`, `hinge_velocity` and `slider_velocity`. -/
example : Movable jc (both ⟨2, 0, 0⟩) 0 1 ∧ jc.eps < |(anchorMass (both ⟨2, 0, 0⟩) 0 1 ⟨1, 0, 0⟩ ⟨-1, 0, 0⟩).det| ∧
    jc.eps < |(M3.add (both ⟨2, 0, 0⟩ 0).I (both ⟨2, 0, 0⟩ 1).I).det| ∧ jc.eps < |(sliderMass jc (both ⟨2, 0, 0⟩) (slider ⟨1, 0, 0⟩ ⟨-1, 0, 0⟩)).det| :=
  ⟨both_movable _, by decide +kernel, by decide +kernel, by decide +kernel⟩

example : let a := sliderAxis jc (both ⟨2, 0, 0⟩) (slider ⟨1, 0, 0⟩ ⟨-1, 0, 0⟩)
    let n1 := orthogonal jc.sqrt a
    V3.dot n1 n1 = 1 ∧ V3.dot n1 a = 0 ∧ V3.dot a a = 1 := by decide +kernel

/-- The joint is closed with one fifth of the separation of the anchors in a time step. -/
example : let J := { ball ⟨1, 0, 0⟩ ⟨-1, 0, 0⟩ with baum := true }
    let W := (solveStep cc jc (both ⟨3, 0, 0⟩) (moving ⟨0, 1, 0⟩ 0) [.ball J] [] 10).1
    pointVel (both ⟨3, 0, 0⟩ 1) (W 1) J.a2 - pointVel (both ⟨3, 0, 0⟩ 0) (W 0) J.a1 = ⟨-1 / 5, 0, 0⟩ := by decide +kernel

/-- Examples for `ball_solved`, `fixed_solved`, `hinge_solved` and `slider_solved`: joints between bodies that move together. -/
example : let V : Nat → Vel ℚ := fun _ => ⟨⟨0, 1, 0⟩, 0, 0, 0⟩
    Ball.Solved jc (both ⟨2, 0, 0⟩) ((ball ⟨1, 0, 0⟩ ⟨-1, 0, 0⟩).init jc (both ⟨2, 0, 0⟩)) V ∧
    Fixed.Solved jc (both ⟨2, 0, 0⟩) ((weld ⟨1, 0, 0⟩ ⟨-1, 0, 0⟩).init jc (both ⟨2, 0, 0⟩)) V ∧
    Hinge.Solved jc (both ⟨2, 0, 0⟩) ((hinge ⟨1, 0, 0⟩ ⟨-1, 0, 0⟩).init jc (both ⟨2, 0, 0⟩)) V ∧
    Slider.Solved jc (both ⟨2, 0, 0⟩) ((slider ⟨1, 0, 0⟩ ⟨-1, 0, 0⟩).init jc (both ⟨2, 0, 0⟩)) V ∧
    jc.eps < |(hingeMass (both ⟨2, 0, 0⟩) ((hinge ⟨1, 0, 0⟩ ⟨-1, 0, 0⟩).init jc (both ⟨2, 0, 0⟩))).det| := by
  refine ⟨⟨by decide +kernel, fun h => ?_⟩, ⟨by decide +kernel, by decide +kernel⟩,
    ⟨by decide +kernel, by decide +kernel, by decide +kernel, fun h => ?_, fun h => ?_⟩,
    ⟨by decide +kernel, by decide +kernel, by decide +kernel, fun h => ?_, fun h => ?_, fun h => ?_⟩, by decide +kernel⟩
  all_goals exact absurd h (by decide +kernel)

/-- A body of 1000 kg. -/
def Ex.heavy (x : V3 ℚ) : JBody ℚ := { unit x with m := 1 / 1000, I := M3.of (1 / 1000) 0 0 0 (1 / 1000) 0 0 0 (1 / 1000) }
def Ex.heavies (b : Nat) : JBody ℚ := if b = 0 then heavy 0 else heavy ⟨2, 0, 0⟩

/-- **C93 fails.** A ball-and-socket joint between two bodies of 1000 kg does nothing: the bodies fly apart as if there was no joint. -/
theorem heavy_fly_apart : |(anchorMass heavies 0 1 ⟨1, 0, 0⟩ ⟨-1, 0, 0⟩).det| ≤ jc.eps ∧ ∀ n,
    ((solveStep cc jc heavies (moving ⟨1, 0, 0⟩ 0) [.ball (ball ⟨1, 0, 0⟩ ⟨-1, 0, 0⟩)] [] n).1 1).v = ⟨1, 0, 0⟩ ∧
    ((solveStep cc jc heavies (moving ⟨1, 0, 0⟩ 0) [.ball (ball ⟨1, 0, 0⟩ ⟨-1, 0, 0⟩)] [] n).1 0).v = 0 := by
  have hd : |(anchorMass heavies 0 1 ⟨1, 0, 0⟩ ⟨-1, 0, 0⟩).det| ≤ jc.eps := by decide +kernel
  refine ⟨hd, fun n => ?_⟩
  set J := ball ⟨1, 0, 0⟩ ⟨-1, 0, 0⟩ with hJ
  have key : ∀ (n : Nat) (N : Ball ℚ) (V : Nat → Vel ℚ), (J.init jc heavies).Same N → (loop cc jc heavies n (V, [.ball N], [])).1 = V := by
    intro n
    induction n with
    | zero => intro N V _; rfl
    | succ n ih =>
      intro N V hs
      have hc : N.coneOn = false := by rw [show N = _ from hs]; rfl
      have e : N.solve heavies V = N.joint heavies V := by
        unfold Ball.solve Ball.limit
        rw [hc]
        rfl
      have e2 : (N.solve heavies V).1 = V := by rw [e]; exact heavy_ignored hs hd V
      show (loop cc jc heavies n ((N.solve heavies V).1, [.ball (N.solve heavies V).2], [])).1 = V
      rw [e2]
      exact ih _ V (hs.trans (N.solve_ok heavies V).1)
  have hw : warmAll jc heavies [Joint.ball (J.init jc heavies)] (moving ⟨1, 0, 0⟩ 0) = moving ⟨1, 0, 0⟩ 0 := by
    have hf : Fresh (Joint.ball (J.init jc heavies)) := ⟨by decide +kernel, by decide +kernel⟩
    show Joint.warm heavies (moving ⟨1, 0, 0⟩ 0) (Joint.ball (J.init jc heavies)) = _
    exact hf.warm heavies _
  have hs : (solveStep cc jc heavies (moving ⟨1, 0, 0⟩ 0) [.ball J] [] n).1 = moving ⟨1, 0, 0⟩ 0 := by
    show (loop cc jc heavies n (warmAll jc heavies [Joint.ball (J.init jc heavies)] (moving ⟨1, 0, 0⟩ 0), [.ball (J.init jc heavies)], [])).1 = _
    rw [hw]
    exact key n _ _ (Joint.Same.refl (Joint.ball (J.init jc heavies)))
  rw [hs]
  exact ⟨rfl, rfl⟩

/-- Bodies that cannot turn about the third axis. -/
def Ex.stiff (x : V3 ℚ) : JBody ℚ := { unit x with I := M3.of 10 0 0 0 10 0 0 0 0 }
def Ex.stiffs (b : Nat) : JBody ℚ := if b = 0 then stiff 0 else stiff ⟨2, 0, 0⟩

/-- **C93, C97 fail.** If the sum of the inverse inertia tensors is singular, a fixed joint takes the matrix itself for its inverse
(SolveFixedJointSystem.cpp:119-126): the angular velocity is multiplied by -399 in every iteration. -/
theorem weld_explodes : let W := fun n => (solveStep cc jc stiffs (moving 0 ⟨1, 0, 0⟩) [.fixed (weld 0 0)] [] n).1
    (W 0 1).w - (W 0 0).w = ⟨1, 0, 0⟩ ∧ (W 1 1).w - (W 1 0).w = ⟨-399, 0, 0⟩ ∧ (W 2 1).w - (W 2 0).w = ⟨159201, 0, 0⟩ := by
  decide +kernel

/-! ### C94 -/

/-- An example for `limits_push`: joints that the user has just created. -/
example : Life [Joint.hinge (hinge 0 0), .slider (slider 0 0), .ball (ball 0 0)] :=
  Life.change [] _ Life.none (by
    intro N hN
    simp only [List.mem_cons, List.not_mem_nil, or_false] at hN
    rcases hN with rfl | rfl | rfl <;> exact ⟨Or.inl rfl, Or.inl rfl⟩)

/-- An example for `motors_bounded`: a weak motor reaches its maximal force. -/
example : Strong jc.dt (.slider { driven with max := 1 / 10 }) ∧
    ((solveStep cc jc (both ⟨0, 2, 0⟩) (moving 0 0) [.slider { driven with max := 1 / 10 }] [] 10).2.1.map fun J =>
      match J with | .slider J => J.impM | _ => 0) = [-1 / 10] :=
  ⟨by show (0 : ℚ) ≤ _; decide +kernel, by decide +kernel⟩

/-- A hinge with motor. -/
def Ex.turning : Hinge ℚ := { hinge 0 0 with motorOn := true }

/-- **C94 fails.** Two bodies at rest with a hinge whose motor has speed 1 and torque enough: after one, two and three iterations the relative angular
velocity is -1, -3 and -7. -/
theorem hinge_motor_diverges : let W := fun n => (solveStep cc jc (both ⟨2, 0, 0⟩) (moving 0 0) [.hinge Ex.turning] [] n).1
    V3.dot ((W 1 1).w - (W 1 0).w) ⟨0, 0, 1⟩ = -1 ∧ V3.dot ((W 2 1).w - (W 2 0).w) ⟨0, 0, 1⟩ = -3 ∧
      V3.dot ((W 3 1).w - (W 3 0).w) ⟨0, 0, 1⟩ = -7 := by decide +kernel

/-- The hypotheses of `hinge_motor_doubles`. -/
example : let J := Ex.turning.init jc (both ⟨2, 0, 0⟩)
    J.motorOn = true ∧ 0 < V3.dot J.ax ((both ⟨2, 0, 0⟩ J.b1).I.act J.ax) + V3.dot J.ax ((both ⟨2, 0, 0⟩ J.b2).I.act J.ax) ∧
    J.km = invOf (V3.dot J.ax ((both ⟨2, 0, 0⟩ J.b1).I.act J.ax) + V3.dot J.ax ((both ⟨2, 0, 0⟩ J.b2).I.act J.ax)) ∧
    |J.impM + J.km * (V3.dot ((moving 0 0 J.b2).w - (moving 0 0 J.b1).w) J.ax - J.speed)| ≤ J.max * jc.dt := by decide +kernel

/-- The motor of a slider reaches its speed. -/
example : let W := (solveStep cc jc (both ⟨2, 0, 0⟩) (moving 0 0) [.slider { slider ⟨1, 0, 0⟩ ⟨-1, 0, 0⟩ with motorOn := true }] [] 10).1
    V3.dot ((W 1).v - (W 0).v) ⟨1, 0, 0⟩ = 1 := by decide +kernel

/-- A slider that is below its lower limit and whose second body is ten meters off. -/
def Ex.far : Slider ℚ := { slider 0 ⟨0, 10, 0⟩ with limitOn := true, lower := 1, upper := 2 }

/-- **C94, C97 fail.** In the first step the mass of the limit of a slider is computed with the lever of the step before, which is zero
(SolveSliderJointSystem.cpp:128-138, 158): the second body comes with speed 1 and leaves with speed 25, and the energy grows thirteenfold. -/
theorem slider_limit_stale : let V := moving ⟨-1, 0, 0⟩ 0
    let W := (solveStep cc jc (both ⟨0, -10, 0⟩) V [.slider far] [] 1).1
    V3.dot ⟨1, 0, 0⟩ (sliderVel (both ⟨0, -10, 0⟩) far V) = -1 ∧ V3.dot ⟨1, 0, 0⟩ (sliderVel (both ⟨0, -10, 0⟩) far W) = 25 ∧
      energy2 {0, 1} m1 L1 V = 1 ∧ energy2 {0, 1} m1 L1 W = 13 := by decide +kernel

/-! ### C95 -/

/-- The hypotheses of `reaction_force` and `reaction_torque`; the force is not zero. -/
example : (0 : Nat) ≠ 1 ∧ Free (fun b => (both ⟨2, 0, 0⟩ b).toSBody) m1 {0, 1} ∧ FreeTurn (both ⟨2, 0, 0⟩) m1 L1 {0, 1} ∧
    ((solveStep cc jc (both ⟨2, 0, 0⟩) (moving ⟨0, 1, 0⟩ 0) [.ball (ball ⟨1, 0, 0⟩ ⟨-1, 0, 0⟩)] [] 10).2.1.map Joint.reactionForce) = [⟨0, -1 / 4, 0⟩] :=
  ⟨by decide, fun b _ => ⟨by rw [(both_I _ b).2, mul_one]; rfl, (both_unlocked _ b).1⟩, both_turn _ _, by decide +kernel⟩

/-- A joint with a cone limit of half angle 1, bent by a right angle. -/
def Ex.cone : Ball ℚ := { ball ⟨1, 0, 0⟩ ⟨0, -1, 0⟩ with coneOn := true }

/-- **C95 fails.** The cone limit of a ball-and-socket joint turns the second body, but `getReactionTorque` is always zero
(BallAndSocketJoint.cpp:152-155). -/
theorem cone_torque_untold : let s := solveStep cc jc (both ⟨1, 1, 0⟩) (moving ⟨-1, 0, 0⟩ ⟨0, 0, 1⟩) [.ball cone] [] 1
    s.2.1.map Joint.reactionTorque = [0] ∧
      s.2.1.map (fun N => ⟨0, 0, 1⟩ + V3.cross (lever (both ⟨1, 1, 0⟩) N) N.reactionForce + N.reactionTorque) = [⟨0, 0, 7 / 6⟩] ∧
      (L1 1).act (s.1 1).w = ⟨0, 0, 2 / 3⟩ := by decide +kernel

/-- **C95 fails.** The motor of a slider acts at the center of mass, but its reaction force is that of a force at the anchor. -/
theorem slider_motor_untold : (solveStep cc jc (both ⟨0, 2, 0⟩) (moving 0 0) [.slider driven] [] 10).2.1.map untold ≠ [0] := by decide +kernel

/-! ### C97 -/

/-- The hypotheses of `first_step_loses_partial`, for all four joints; energy is lost. -/
example : Bodies (both ⟨2, 0, 0⟩) m1 L1 {0, 1} (moving ⟨0, 1, 0⟩ 0) ∧
    (∀ J ∈ [Joint.ball (ball ⟨1, 0, 0⟩ ⟨-1, 0, 0⟩), .fixed (weld ⟨1, 0, 0⟩ ⟨-1, 0, 0⟩), .hinge (hinge ⟨1, 0, 0⟩ ⟨-1, 0, 0⟩),
      .slider (slider ⟨1, 0, 0⟩ ⟨-1, 0, 0⟩)], Calm jc (both ⟨2, 0, 0⟩) J ∧ Fresh J ∧ Pair {0, 1} J.b1 J.b2) ∧
    energy2 {0, 1} m1 L1 (moving ⟨0, 1, 0⟩ 0) = 1 ∧
    energy2 {0, 1} m1 L1 (solveStep cc jc (both ⟨2, 0, 0⟩) (moving ⟨0, 1, 0⟩ 0) [.ball (ball ⟨1, 0, 0⟩ ⟨-1, 0, 0⟩)] [] 10).1 = 3 / 4 := by
  refine ⟨both_bodies _ _ _, ?_, by decide +kernel, by decide +kernel⟩
  intro J hJ
  have hp : Pair {0, 1} 0 1 := ⟨by decide, by decide, by decide⟩
  simp only [List.mem_cons, List.not_mem_nil, or_false] at hJ
  rcases hJ with rfl | rfl | rfl | rfl
  · exact ⟨rfl, ⟨rfl, rfl⟩, hp⟩
  · exact ⟨⟨rfl, by decide +kernel, rfl⟩, ⟨rfl, rfl⟩, hp⟩
  · exact ⟨⟨rfl, rfl⟩, ⟨rfl, rfl, rfl, rfl, rfl⟩, hp⟩
  · exact ⟨⟨rfl, rfl, by decide +kernel, rfl, fun h => absurd h (by decide), by decide +kernel, by decide +kernel, by decide +kernel⟩,
      ⟨rfl, rfl, rfl, rfl, rfl⟩, hp⟩

end JointProps
end RP3D
