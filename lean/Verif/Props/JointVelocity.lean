import Verif.Solver.JointKick
import Verif.Props.JointImpulses

/-! C93, C94: velocities that the joints demand. -/

set_option linter.unusedSectionVars false

namespace RP3D
namespace JointProps
open Solver Joints SolverProps
variable {K : Type} [Field K] [LinearOrder K] [IsStrictOrderedRing K]

/-- Velocity of a point of a body, given in local space. -/
def pointVel (B : JBody K) (V : Vel K) (a : V3 K) : V3 K := V.v + V3.cross V.w (B.q.rot (a - B.com))

theorem rel_point (body : Nat → JBody K) (V : Nat → Vel K) (b1 b2 : Nat) (a1 a2 : V3 K) :
    rel (V b1) (V b2) (arm (body b1) a1) (arm (body b2) a2) = pointVel (body b2) (V b2) a2 - pointVel (body b1) (V b1) a1 := by
  unfold rel pointVel arm
  abel

/-! ### The last joint of a step -/

theorem solveAll_append (jc : JCfg K) (body : Nat → JBody K) : ∀ (V : Nat → Vel K) (Js Ks : List (Joint K)), solveAll jc body V (Js ++ Ks) =
    ((solveAll jc body (solveAll jc body V Js).1 Ks).1, (solveAll jc body V Js).2 ++ (solveAll jc body (solveAll jc body V Js).1 Ks).2)
  | _, [], _ => rfl
  | V, J :: Js, Ks => by
    simp only [List.cons_append, solveAll]
    rw [solveAll_append jc body _ Js Ks]

theorem Joint.Same.refl (J : Joint K) : J.Same J := by
  cases J <;> exact rfl

/-- After a step without contacts the velocities are those that the last joint has left. -/
theorem step_last (cfg : Cfg K) (jc : JCfg K) (body : Nat → JBody K) (V : Nat → Vel K) (Js : List (Joint K)) (J : Joint K) (n : Nat) :
    ∃ (W : Nat → Vel K) (N : Joint K), (J.init jc body).Same N ∧ (solveStep cfg jc body V (Js ++ [J]) [] (n + 1)).1 = (N.solve jc body W).1 := by
  have key : ∀ (n : Nat) (W : Nat → Vel K) (Ks : List (Joint K)) (A : Joint K), (J.init jc body).Same A →
      ∃ (W' : Nat → Vel K) (N : Joint K), (J.init jc body).Same N ∧ (loop cfg jc body (n + 1) (W, Ks ++ [A], [])).1 = (N.solve jc body W').1 := by
    intro n
    induction n with
    | zero =>
      intro W Ks A hA
      refine ⟨(solveAll jc body W Ks).1, A, hA, ?_⟩
      simp only [loop, solveAll_append, solveAll, Solver.solve]
    | succ n ih =>
      intro W Ks A hA
      rw [loop]
      simp only [solveAll_append, solveAll, Solver.solve]
      exact ih _ _ _ (hA.trans (A.solve_ok jc body _).1)
  unfold solveStep
  simp only [List.map_append, List.map_cons, List.map_nil, warmStart]
  exact key n _ _ _ (Joint.Same.refl _)

/-! ### Anchors -/

/-- Mass matrix of the anchors. -/
def anchorMass (body : Nat → JBody K) (b1 b2 : Nat) (a1 a2 : V3 K) : M3 K :=
  massMatrix (body b1).m (body b2).m (body b1).I (body b2).I (arm (body b1) a1) (arm (body b2) a2)

/-- The velocity with which the anchors shall come together. -/
def closing (jc : JCfg K) (body : Nat → JBody K) (baum : Bool) (b1 b2 : Nat) (a1 a2 : V3 K) : V3 K :=
  if baum then V3.smul (jc.beta / jc.dt) (anchor (body b2) a2 - anchor (body b1) a1) else 0

theorem closing_eq (jc : JCfg K) (body : Nat → JBody K) (baum : Bool) (b1 b2 : Nat) (a1 a2 : V3 K) :
    (if baum then V3.smul (jc.beta / jc.dt) ((body b2).x + arm (body b2) a2 - (body b1).x - arm (body b1) a1) else 0) =
      closing jc body baum b1 b2 a1 a2 := by
  unfold closing
  congr 2
  rw [anchor_eq, anchor_eq]
  abel

/-- Two bodies that a joint can move against each other. -/
structure Movable (jc : JCfg K) (body : Nat → JBody K) (b1 b2 : Nat) : Prop where
  two : b1 ≠ b2
  free1 : Unlocked (body b1)
  free2 : Unlocked (body b2)
  dyn : ((body b1).dyn || (body b2).dyn) = true
  eps : 0 ≤ jc.eps

theorem pin_solves {jc : JCfg K} {body : Nat → JBody K} {b1 b2 : Nat} (hm : Movable jc body b1 b2) {a1 a2 : V3 K}
    (hd : jc.eps < |(anchorMass body b1 b2 a1 a2).det|) (bias : V3 K) (V : Nat → Vel K) :
    let r1 := arm (body b1) a1
    let r2 := arm (body b2) a2
    let d := (inverseOrZero jc ((body b1).dyn || (body b2).dyn) (massMatrix (body b1).m (body b2).m (body b1).I (body b2).I r1 r2)).act
      (-(rel (V b1) (V b2) r1 r2) - bias)
    pointVel (body b2) (pin (two body b1 b2) r1 r2 d V b2) a2 - pointVel (body b1) (pin (two body b1 b2) r1 r2 d V b1) a1 = -bias := by
  intro r1 r2 d
  rw [← rel_point, pin_rel hm.two hm.free1 hm.free2]
  have := inverseOrZero_act (m := anchorMass body b1 b2 a1 a2) hm.eps hd hm.dyn (-(rel (V b1) (V b2) r1 r2) - bias)
  change _ + (anchorMass body b1 b2 a1 a2).act ((inverseOrZero jc _ (anchorMass body b1 b2 a1 a2)).act _) = _
  rw [this]
  abel

/-- **C93 (ball-and-socket joint).** After a step that solves this joint last, the anchors of the two bodies approach each other with `beta / dt` of
their separation, and have equal velocities with the other technique of position correction. -/
theorem ball_velocity (cfg : Cfg K) (jc : JCfg K) (body : Nat → JBody K) (V : Nat → Vel K) (Js : List (Joint K)) (J : Ball K) (n : Nat)
    (hm : Movable jc body J.b1 J.b2) (hd : jc.eps < |(anchorMass body J.b1 J.b2 J.a1 J.a2).det|) :
    let W := (solveStep cfg jc body V (Js ++ [.ball J]) [] (n + 1)).1
    pointVel (body J.b2) (W J.b2) J.a2 - pointVel (body J.b1) (W J.b1) J.a1 = -(closing jc body J.baum J.b1 J.b2 J.a1 J.a2) := by
  intro W
  obtain ⟨W0, N, hs, e⟩ := step_last cfg jc body V Js (.ball J) n
  cases N with
  | ball N =>
    have hs : (J.init jc body).Same N := hs
    have h1 := (N.limit_ok body W0).1
    have hl := hs.trans h1
    have e' : W = ((N.limit body W0).2.joint body (N.limit body W0).1).1 := e
    rw [e']
    generalize (N.limit body W0).2 = M at hl ⊢
    generalize (N.limit body W0).1 = W1
    rw [show M = _ from hl, ← closing_eq]
    exact pin_solves hm hd _ W1
  | fixed N => exact hs.elim
  | hinge N => exact hs.elim
  | slider N => exact hs.elim

/-- **C93 (hinge).** The same for the anchors of a hinge. -/
theorem hinge_velocity (cfg : Cfg K) (jc : JCfg K) (body : Nat → JBody K) (V : Nat → Vel K) (Js : List (Joint K)) (J : Hinge K) (n : Nat)
    (hm : Movable jc body J.b1 J.b2) (hd : jc.eps < |(anchorMass body J.b1 J.b2 J.a1 J.a2).det|) :
    let W := (solveStep cfg jc body V (Js ++ [.hinge J]) [] (n + 1)).1
    pointVel (body J.b2) (W J.b2) J.a2 - pointVel (body J.b1) (W J.b1) J.a1 = -(closing jc body J.baum J.b1 J.b2 J.a1 J.a2) := by
  intro W
  obtain ⟨W0, N, hs, e⟩ := step_last cfg jc body V Js (.hinge J) n
  cases N with
  | hinge N =>
    have hs : (J.init jc body).Same N := hs
    have h1 := (Hinge.next (Hinge.next (Hinge.next (N.limitL_ok body W0) (Hinge.limitU_ok body _ _)) (Hinge.motor_ok jc body _ _))
      (Hinge.rotation_ok body _ _)).1
    have hl := hs.trans h1
    have e' : W = (Hinge.joint body (Hinge.rotation body (Hinge.motor jc body (Hinge.limitU body (N.limitL body W0).2 (N.limitL body W0).1).2
      (Hinge.limitU body (N.limitL body W0).2 (N.limitL body W0).1).1).2 (Hinge.motor jc body (Hinge.limitU body (N.limitL body W0).2
      (N.limitL body W0).1).2 (Hinge.limitU body (N.limitL body W0).2 (N.limitL body W0).1).1).1).2 (Hinge.rotation body (Hinge.motor jc body
      (Hinge.limitU body (N.limitL body W0).2 (N.limitL body W0).1).2 (Hinge.limitU body (N.limitL body W0).2 (N.limitL body W0).1).1).2
      (Hinge.motor jc body (Hinge.limitU body (N.limitL body W0).2 (N.limitL body W0).1).2 (Hinge.limitU body (N.limitL body W0).2
      (N.limitL body W0).1).1).1).1).1 := e
    rw [e']
    generalize (Hinge.rotation body _ _).1 = W1
    generalize (Hinge.rotation body _ _).2 = M at hl ⊢
    rw [show M = _ from hl, ← closing_eq]
    exact pin_solves hm hd _ W1
  | fixed N => exact hs.elim
  | ball N => exact hs.elim
  | slider N => exact hs.elim

/-! ### Rotation of fixed joints -/

/-- Twice the vector part of the rotation that has to be undone, over time. -/
def turning (jc : JCfg K) (body : Nat → JBody K) (baum : Bool) (b1 b2 : Nat) (d : Quat K) : V3 K :=
  if baum then V3.smul (jc.beta / jc.dt) (turnError (body b1) (body b2) d) else 0

/-- **C93 (fixed joint).** After a step that solves this joint last, the bodies turn against each other just so fast that `beta / dt` of the error of
their relative orientation vanishes; they turn together with the other technique. -/
theorem fixed_velocity (cfg : Cfg K) (jc : JCfg K) (body : Nat → JBody K) (V : Nat → Vel K) (Js : List (Joint K)) (J : Fixed K) (n : Nat)
    (hm : Movable jc body J.b1 J.b2) (hd : jc.eps < |(M3.add (body J.b1).I (body J.b2).I).det|) :
    let W := (solveStep cfg jc body V (Js ++ [.fixed J]) [] (n + 1)).1
    (W J.b2).w - (W J.b1).w = -(turning jc body J.baum J.b1 J.b2 J.d) := by
  intro W
  obtain ⟨W0, N, hs, e⟩ := step_last cfg jc body V Js (.fixed J) n
  cases N with
  | fixed N =>
    have hs : (J.init jc body).Same N := hs
    have hl := hs.trans (N.joint_ok body W0).1
    have e' : W = ((N.joint body W0).2.rotation body (N.joint body W0).1).1 := e
    rw [e']
    generalize (N.joint body W0).2 = M at hl ⊢
    generalize (N.joint body W0).1 = W1
    have f1 : M.b1 = J.b1 := by rw [show M = _ from hl]; rfl
    have f2 : M.b2 = J.b2 := by rw [show M = _ from hl]; rfl
    have f3 : M.kr = inverseOrSame jc ((body J.b1).dyn || (body J.b2).dyn) (M3.add (body J.b1).I (body J.b2).I) := by rw [show M = _ from hl]; rfl
    have f4 : M.biasR = turning jc body J.baum J.b1 J.b2 J.d := by rw [show M = _ from hl]; rfl
    unfold Fixed.rotation
    dsimp only
    rw [f1, f2, f3, f4, turn_rel hm.two hm.free1 hm.free2, inverseOrSame_act hm.eps hd hm.dyn]
    abel
  | ball N => exact hs.elim
  | hinge N => exact hs.elim
  | slider N => exact hs.elim

/-- The error is zero just if the second body has the orientation relative to the first one that it had at the creation of the joint
(FixedJoint.cpp:71, SliderJoint.cpp:90). -/
theorem turnError_zero {A B : JBody K} {p1 p2 : Quat K} (h1 : A.q.lengthSq = 1) (h2 : B.q.lengthSq = 1) (g1 : p1.lengthSq = 1) (g2 : p2.lengthSq = 1) :
    turnError A B (p2.conj.mul p1) = 0 ↔ ∀ v, A.q.conj.rot (B.q.rot v) = p1.conj.rot (p2.rot v) := by
  set e := (B.q.mul (p2.conj.mul p1)).mul A.q.conj with he
  have hu : e.lengthSq = 1 := unit_mul (unit_mul h2 (unit_mul (unit_inverse g2) g1)) (unit_inverse h1)
  have hr : ∀ v, e.rot v = B.q.rot (p2.conj.rot (p1.rot (A.q.conj.rot v))) := fun v => by rw [he, rot_mul, rot_mul, rot_mul]
  have hz : turnError A B (p2.conj.mul p1) = 0 ↔ e.x = 0 ∧ e.y = 0 ∧ e.z = 0 := by
    unfold turnError
    rw [← he]
    constructor
    · intro h
      have hx := congrArg V3.x h
      have hy := congrArg V3.y h
      have hz := congrArg V3.z h
      simp at hx hy hz
      exact ⟨hx, hy, hz⟩
    · rintro ⟨hx, hy, hz⟩
      ext <;> simp [hx, hy, hz]
  have hi : (e.x = 0 ∧ e.y = 0 ∧ e.z = 0) ↔ ∀ v, e.rot v = v := by
    constructor
    · rintro ⟨hx, hy, hz⟩ v
      have hw : e.w * e.w = 1 := by rw [← hu, Quat.lengthSq, hx, hy, hz]; ring
      unfold Quat.rot
      rw [hx, hy, hz]
      ext
      · dsimp only; linear_combination v.x * hw
      · dsimp only; linear_combination v.y * hw
      · dsimp only; linear_combination v.z * hw
    · intro h
      have a := congrArg V3.x (h ⟨1, 0, 0⟩)
      have b := congrArg V3.y (h ⟨0, 1, 0⟩)
      simp only [Quat.rot] at a b
      rw [Quat.lengthSq] at hu
      have hyz : e.y * e.y + e.z * e.z = 0 := by linarith
      have hxz : e.x * e.x + e.z * e.z = 0 := by linarith
      refine ⟨?_, ?_, ?_⟩
      · exact mul_self_eq_zero.1 (by nlinarith [mul_self_nonneg e.x, mul_self_nonneg e.z])
      · exact mul_self_eq_zero.1 (by nlinarith [mul_self_nonneg e.y, mul_self_nonneg e.z])
      · exact mul_self_eq_zero.1 (by nlinarith [mul_self_nonneg e.x, mul_self_nonneg e.z])
  rw [hz, hi]
  constructor
  · intro h v
    have := h (A.q.rot (p1.conj.rot (p2.rot v)))
    rw [hr, rot_conj h1, rot_conj' g1, rot_conj g2] at this
    rw [this, rot_conj h1]
  · intro h v
    have := h (p2.conj.rot (p1.rot (A.q.conj.rot v)))
    rw [rot_conj' g2, rot_conj g1] at this
    rw [hr, ← rot_conj' h1 (B.q.rot _), this, rot_conj' h1]

/-! ### Slider -/

/-- The axis of a slider and two directions perpendicular to it. -/
def sliderAxis (jc : JCfg K) (body : Nat → JBody K) (J : Slider K) : V3 K := unitOf jc ((body J.b1).q.rot J.l1)

/-- Velocity of the second anchor as seen from the first body. -/
def sliderVel (body : Nat → JBody K) (J : Slider K) (W : Nat → Vel K) : V3 K :=
  pointVel (body J.b2) (W J.b2) J.a2 - ((W J.b1).v + V3.cross (W J.b1).w (anchor (body J.b2) J.a2 - (body J.b1).x))

/-- Mass matrix of the two directions. -/
def sliderMass (jc : JCfg K) (body : Nat → JBody K) (J : Slider K) : M2 K :=
  let A := body J.b1
  let B := body J.b2
  let n1 := orthogonal jc.sqrt (sliderAxis jc body J)
  let n2 := V3.cross (sliderAxis jc body J) n1
  let s := anchor B J.a2 - A.x
  let r2 := arm B J.a2
  let q := fun a b => V3.dot (V3.cross s a) (A.I.act (V3.cross s b)) + V3.dot (V3.cross r2 a) (B.I.act (V3.cross r2 b))
  ⟨A.m + B.m + q n1 n1, q n1 n2, q n2 n1, A.m + B.m + q n2 n2⟩

theorem slider_solves {jc : JCfg K} {body : Nat → JBody K} {b1 b2 : Nat} (hm : Movable jc body b1 b2) {n1 n2 s r2 : V3 K}
    (h11 : V3.dot n1 n1 = 1) (h22 : V3.dot n2 n2 = 1) (h12 : V3.dot n1 n2 = 0) {m : M2 K}
    (hm' : m = ⟨(body b1).m + (body b2).m + (V3.dot (V3.cross s n1) ((body b1).I.act (V3.cross s n1)) + V3.dot (V3.cross r2 n1) ((body b2).I.act (V3.cross r2 n1))),
      V3.dot (V3.cross s n1) ((body b1).I.act (V3.cross s n2)) + V3.dot (V3.cross r2 n1) ((body b2).I.act (V3.cross r2 n2)),
      V3.dot (V3.cross s n2) ((body b1).I.act (V3.cross s n1)) + V3.dot (V3.cross r2 n2) ((body b2).I.act (V3.cross r2 n1)),
      (body b1).m + (body b2).m + (V3.dot (V3.cross s n2) ((body b1).I.act (V3.cross s n2)) + V3.dot (V3.cross r2 n2) ((body b2).I.act (V3.cross r2 n2)))⟩)
    (hd : jc.eps < |m.det|) (bias : V2 K) (V : Nat → Vel K) :
    let vel := fun (W : Nat → Vel K) => ((W b2).v + V3.cross (W b2).w r2) - ((W b1).v + V3.cross (W b1).w s)
    let d := (inverseOrZero2 jc ((body b1).dyn || (body b2).dyn) m).act ⟨-V3.dot n1 (vel V) - bias.x, -V3.dot n2 (vel V) - bias.y⟩
    let P := V3.smul d.x (-n1) - V3.smul d.y n2
    let W := kick (two body b1 b2) P (V3.smul d.x (-(V3.cross s n1)) - V3.smul d.y (V3.cross s n2)) (-P)
      (V3.smul d.x (V3.cross r2 n1) + V3.smul d.y (V3.cross r2 n2)) V
    V3.dot n1 (vel W) = -bias.x ∧ V3.dot n2 (vel W) = -bias.y := by
  intro vel d P W
  have hi := inverseOrZero2_act hm.eps hd hm.dyn (⟨-V3.dot n1 (vel V) - bias.x, -V3.dot n2 (vel V) - bias.y⟩ : V2 K)
  change m.act d = _ at hi
  obtain ⟨e1, e2, _⟩ := kick_free hm.two hm.free1 hm.free2 P (V3.smul d.x (-(V3.cross s n1)) - V3.smul d.y (V3.cross s n2)) (-P)
      (V3.smul d.x (V3.cross r2 n1) + V3.smul d.y (V3.cross r2 n2)) V
  have hx := congrArg V2.x hi
  have hy := congrArg V2.y hi
  have triple : ∀ (n w r : V3 K), V3.dot n (V3.cross w r) = V3.dot (V3.cross r n) w := fun n w r => by simp only [V3.dot, V3.cross]; ring
  have lin : ∀ (M : M3 K) (x y : K) (a b c : V3 K), V3.dot c (M.act (V3.smul x a + V3.smul y b)) = x * V3.dot c (M.act a) + y * V3.dot c (M.act b) :=
    fun M x y a b c => by simp only [V3.dot, M3.act, V3.smul_x, V3.smul_y, V3.smul_z, V3.add_x, V3.add_y, V3.add_z]; ring
  have lin' : ∀ (M : M3 K) (x y : K) (a b c : V3 K), V3.dot c (M.act (V3.smul x (-a) - V3.smul y b)) = -(x * V3.dot c (M.act a) + y * V3.dot c (M.act b)) :=
    fun M x y a b c => by
      simp only [V3.dot, M3.act, V3.smul_x, V3.smul_y, V3.smul_z, V3.sub_x, V3.sub_y, V3.sub_z, V3.neg_x, V3.neg_y, V3.neg_z]; ring
  have da : ∀ a b c : V3 K, V3.dot a (b + c) = V3.dot a b + V3.dot a c := fun a b c => by
    simp only [V3.dot, V3.add_x, V3.add_y, V3.add_z]; ring
  have ds : ∀ a b c : V3 K, V3.dot a (b - c) = V3.dot a b - V3.dot a c := fun a b c => by
    simp only [V3.dot, V3.sub_x, V3.sub_y, V3.sub_z]; ring
  have dm : ∀ (a b : V3 K) (k : K), V3.dot a (V3.smul k b) = k * V3.dot a b := fun a b k => by
    simp only [V3.dot, V3.smul_x, V3.smul_y, V3.smul_z]; ring
  have dn : ∀ (a b : V3 K), V3.dot a (-b) = -V3.dot a b := fun a b => by
    simp only [V3.dot, V3.neg_x, V3.neg_y, V3.neg_z]; ring
  have h21 : V3.dot n2 n1 = 0 := by rw [← h12]; simp only [V3.dot]; ring
  have gen : ∀ n : V3 K, V3.dot n (vel W) = V3.dot n (vel V) - ((body b1).m + (body b2).m) * V3.dot n P
      + (d.x * V3.dot (V3.cross s n) ((body b1).I.act (V3.cross s n1)) + d.y * V3.dot (V3.cross s n) ((body b1).I.act (V3.cross s n2)))
      + (d.x * V3.dot (V3.cross r2 n) ((body b2).I.act (V3.cross r2 n1)) + d.y * V3.dot (V3.cross r2 n) ((body b2).I.act (V3.cross r2 n2))) := by
    intro n
    simp only [vel, W, e1, e2]
    rw [ds, ds, da, da, da, da, da, da, triple, triple, triple, triple, da, da, lin, lin', dm, dm, dn]
    ring
  have hP1 : V3.dot n1 P = -d.x := by
    simp only [P]; rw [ds, dm, dm, dn, h11, h12]; ring
  have hP2 : V3.dot n2 P = -d.y := by
    simp only [P]; rw [ds, dm, dm, dn, h22, h21]; ring
  rw [hm'] at hx hy
  simp only [M2.act] at hx hy
  constructor
  · rw [gen, hP1]; linear_combination hx
  · rw [gen, hP2]; linear_combination hy

/-- **C93 (slider).** After a step that solves this joint last, the velocity of the second body as seen from the first one has across the axis just
the components that bring it back with `beta / dt` of its distance. -/
theorem slider_velocity (cfg : Cfg K) (jc : JCfg K) (body : Nat → JBody K) (V : Nat → Vel K) (Js : List (Joint K)) (J : Slider K) (n : Nat)
    (hm : Movable jc body J.b1 J.b2) (hd : jc.eps < |(sliderMass jc body J).det|)
    (hn : let n1 := orthogonal jc.sqrt (sliderAxis jc body J)
      V3.dot n1 n1 = 1 ∧ V3.dot n1 (sliderAxis jc body J) = 0 ∧ V3.dot (sliderAxis jc body J) (sliderAxis jc body J) = 1) :
    let W := (solveStep cfg jc body V (Js ++ [.slider J]) [] (n + 1)).1
    let n1 := orthogonal jc.sqrt (sliderAxis jc body J)
    let n2 := V3.cross (sliderAxis jc body J) n1
    V3.dot n1 (sliderVel body J W) = -V3.dot n1 (closing jc body J.baum J.b1 J.b2 J.a1 J.a2) ∧
      V3.dot n2 (sliderVel body J W) = -V3.dot n2 (closing jc body J.baum J.b1 J.b2 J.a1 J.a2) := by
  intro W n1 n2
  obtain ⟨W0, N, hs, e⟩ := step_last cfg jc body V Js (.slider J) n
  cases N with
  | slider N =>
    have hs : (J.init jc body).Same N := hs
    have h1 := (Slider.next (Slider.next (Slider.next (N.limitL_ok body W0) (Slider.limitU_ok body _ _)) (Slider.motor_ok jc body _ _))
      (Slider.rotation_ok body _ _)).1
    have hl := hs.trans h1
    obtain ⟨M, W1, hM, e'⟩ : ∃ (M : Slider K) (W1 : Nat → Vel K), (J.init jc body).Same M ∧ W = (M.joint body W1).1 := ⟨_, _, hl, e⟩
    obtain ⟨k1, k2, k3⟩ := hn
    have h22 : V3.dot n2 n2 = 1 := by
      have : V3.dot n2 n2 = V3.dot (sliderAxis jc body J) (sliderAxis jc body J) * V3.dot n1 n1 - V3.dot n1 (sliderAxis jc body J) * V3.dot n1 (sliderAxis jc body J) := by
        simp only [n2, V3.dot, V3.cross]; ring
      rw [this, k1, k2, k3]; ring
    have h12 : V3.dot n1 n2 = 0 := by simp only [n2, V3.dot, V3.cross]; ring
    have hr : arm (body J.b1) J.a1 + ((body J.b2).x + arm (body J.b2) J.a2 - (body J.b1).x - arm (body J.b1) J.a1) = anchor (body J.b2) J.a2 - (body J.b1).x := by
      rw [anchor_eq]; abel
    have key := slider_solves (s := anchor (body J.b2) J.a2 - (body J.b1).x) (r2 := arm (body J.b2) J.a2) hm k1 h22 h12 (m := sliderMass jc body J) rfl hd
      ⟨V3.dot n1 (closing jc body J.baum J.b1 J.b2 J.a1 J.a2), V3.dot n2 (closing jc body J.baum J.b1 J.b2 J.a1 J.a2)⟩ W1
    have hb : (if J.baum then (⟨jc.beta / jc.dt * V3.dot ((body J.b2).x + arm (body J.b2) J.a2 - (body J.b1).x - arm (body J.b1) J.a1) n1,
        jc.beta / jc.dt * V3.dot ((body J.b2).x + arm (body J.b2) J.a2 - (body J.b1).x - arm (body J.b1) J.a1) n2⟩ : V2 K) else ⟨0, 0⟩) =
        ⟨V3.dot n1 (closing jc body J.baum J.b1 J.b2 J.a1 J.a2), V3.dot n2 (closing jc body J.baum J.b1 J.b2 J.a1 J.a2)⟩ := by
      rw [← closing_eq]
      split_ifs
      · ext <;> simp only [V3.dot, V3.smul_x, V3.smul_y, V3.smul_z] <;> ring
      · ext <;> simp [V3.dot]
    have hk : (⟨(body J.b1).m + (body J.b2).m + V3.dot (V3.cross (anchor (body J.b2) J.a2 - (body J.b1).x) n1) ((body J.b1).I.act (V3.cross (anchor (body J.b2) J.a2 - (body J.b1).x) n1)) +
        V3.dot (V3.cross (arm (body J.b2) J.a2) n1) ((body J.b2).I.act (V3.cross (arm (body J.b2) J.a2) n1)),
        V3.dot (V3.cross (anchor (body J.b2) J.a2 - (body J.b1).x) n1) ((body J.b1).I.act (V3.cross (anchor (body J.b2) J.a2 - (body J.b1).x) n2)) +
        V3.dot (V3.cross (arm (body J.b2) J.a2) n1) ((body J.b2).I.act (V3.cross (arm (body J.b2) J.a2) n2)),
        V3.dot (V3.cross (anchor (body J.b2) J.a2 - (body J.b1).x) n2) ((body J.b1).I.act (V3.cross (anchor (body J.b2) J.a2 - (body J.b1).x) n1)) +
        V3.dot (V3.cross (arm (body J.b2) J.a2) n2) ((body J.b2).I.act (V3.cross (arm (body J.b2) J.a2) n1)),
        (body J.b1).m + (body J.b2).m + V3.dot (V3.cross (anchor (body J.b2) J.a2 - (body J.b1).x) n2) ((body J.b1).I.act (V3.cross (anchor (body J.b2) J.a2 - (body J.b1).x) n2)) +
        V3.dot (V3.cross (arm (body J.b2) J.a2) n2) ((body J.b2).I.act (V3.cross (arm (body J.b2) J.a2) n2))⟩ : M2 K) = sliderMass jc body J := by
      unfold sliderMass
      ext
      · exact add_assoc _ _ _
      · rfl
      · rfl
      · exact add_assoc _ _ _
    have vd : ∀ (m v1 v2 w1 w2 s r : V3 K), -(V3.dot m v1) - V3.dot w1 (V3.cross s m) + V3.dot m v2 + V3.dot w2 (V3.cross r m) =
        V3.dot m (v2 + V3.cross w2 r - (v1 + V3.cross w1 s)) := fun m v1 v2 w1 w2 s r => by
      simp only [V3.dot, V3.cross, V3.add_x, V3.add_y, V3.add_z, V3.sub_x, V3.sub_y, V3.sub_z]; ring
    have f1 : M.b1 = J.b1 := by rw [show M = _ from hM]; rfl
    have f2 : M.b2 = J.b2 := by rw [show M = _ from hM]; rfl
    have f3 : M.n1 = n1 := by rw [show M = _ from hM]; rfl
    have f4 : M.n2 = n2 := by rw [show M = _ from hM]; rfl
    have f5 : M.c1 = V3.cross (anchor (body J.b2) J.a2 - (body J.b1).x) n1 := by rw [show M = _ from hM, ← hr]; rfl
    have f6 : M.c2 = V3.cross (anchor (body J.b2) J.a2 - (body J.b1).x) n2 := by rw [show M = _ from hM, ← hr]; rfl
    have f7 : M.e1 = V3.cross (arm (body J.b2) J.a2) n1 := by rw [show M = _ from hM]; rfl
    have f8 : M.e2 = V3.cross (arm (body J.b2) J.a2) n2 := by rw [show M = _ from hM]; rfl
    have f9 : M.k = inverseOrZero2 jc ((body J.b1).dyn || (body J.b2).dyn) (sliderMass jc body J) := by
      rw [show M = _ from hM, ← hk, ← hr]; rfl
    have f10 : M.bias = ⟨V3.dot n1 (closing jc body J.baum J.b1 J.b2 J.a1 J.a2), V3.dot n2 (closing jc body J.baum J.b1 J.b2 J.a1 J.a2)⟩ := by
      rw [show M = _ from hM, ← hb]; rfl
    rw [e']
    unfold sliderVel pointVel Slider.joint
    dsimp only
    rw [f1, f2, f3, f4, f5, f6, f7, f8, f9, f10, vd, vd]
    exact key
  | ball N => exact hs.elim
  | fixed N => exact hs.elim
  | hinge N => exact hs.elim

end JointProps
end RP3D
