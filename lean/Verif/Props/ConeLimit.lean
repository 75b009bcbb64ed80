import Verif.Props.JointHold
import Verif.Props.HingeAngle
import Verif.Solver.JointLemmas
import Mathlib.Analysis.SpecialFunctions.Trigonometric.Inverse

/-! C147: the cone limit of a ball-and-socket joint. -/

namespace RP3D
namespace ConeLimit
open Solver Joints

/-- `BallAndSocketJoint::getConeHalfAngle` (BallAndSocketJoint.cpp:111-127, SolveBallAndSocketJointSystem.h:148-154). -/
def coneHalfAngle {K : Type} [Field K] [LinearOrder K] (cfg : JCfg K) (A B : JBody K) (J : Ball K) : K :=
  cfg.acos (V3.dot (unitOf cfg (arm A J.a1)) (-unitOf cfg (arm B J.a2)))

/-! ### Specification -/

/-- `θ` is the angle between two vectors. -/
def Between (θ : ℝ) (a b : V3 ℝ) : Prop :=
  0 ≤ θ ∧ θ ≤ Real.pi ∧ V3.dot a b = Real.sqrt a.lengthSq * Real.sqrt b.lengthSq * Real.cos θ

/-- It is the only one, unless a vector is zero. -/
theorem between_unique {θ φ : ℝ} {a b : V3 ℝ} (ha : 0 < a.lengthSq) (hb : 0 < b.lengthSq) (h : Between θ a b) (k : Between φ a b) : θ = φ := by
  have hp : 0 < Real.sqrt a.lengthSq * Real.sqrt b.lengthSq := mul_pos (Real.sqrt_pos.2 ha) (Real.sqrt_pos.2 hb)
  exact Real.injOn_cos ⟨h.1, h.2.1⟩ ⟨k.1, k.2.1⟩ (mul_left_cancel₀ hp.ne' (h.2.2.symm.trans k.2.2))

/-- The axis of the first body goes from its center of mass to the anchor, that of the second body from the anchor to its center of mass: the angle is zero if the joint is stretched. -/
def axis1 {K : Type} [Field K] [LinearOrder K] (A : JBody K) (J : Ball K) : V3 K := A.q.rot (J.a1 - A.com)
def axis2 {K : Type} [Field K] [LinearOrder K] (B : JBody K) (J : Ball K) : V3 K := B.q.rot (B.com - J.a2)

/-- How fast the scalar product of two vectors grows that turn with angular velocities `w1`, `w2`. -/
def rate {K : Type} [Field K] (w1 w2 u1 u2 : V3 K) : K := V3.dot (V3.cross w1 u1) u2 + V3.dot u1 (V3.cross w2 u2)

/-- A body that is turned with the rest of the world. -/
def turned {K : Type} [Field K] [LinearOrder K] (g : Quat K) (A : JBody K) : JBody K := { A with q := g.mul A.q }

/-! ### The angle -/

theorem arm_axis {K : Type} [Field K] [LinearOrder K] [IsStrictOrderedRing K] (B : JBody K) (J : Ball K) : -arm B J.a2 = axis2 B J := by
  unfold arm axis2 Quat.rot; ext <;> simp <;> ring

theorem unit_sqrt {cfg : JCfg ℝ} (hs : cfg.sqrt = Real.sqrt) {v : V3 ℝ} (he : cfg.eps ≤ Real.sqrt v.lengthSq) : unitOf cfg v = V3.smul (1 / Real.sqrt v.lengthSq) v := by
  unfold unitOf; rw [hs, if_neg (not_lt.2 he)]

/-- **C147, the reading.** `getConeHalfAngle` is the angle between the axes of the two bodies, in [0, pi]. -/
theorem cone_angle {cfg : JCfg ℝ} (hs : cfg.sqrt = Real.sqrt) (hc : cfg.acos = Real.arccos) (h0 : 0 < cfg.eps) (A B : JBody ℝ) (J : Ball ℝ)
    (h1 : cfg.eps ≤ Real.sqrt (axis1 A J).lengthSq) (h2 : cfg.eps ≤ Real.sqrt (axis2 B J).lengthSq) :
    Between (coneHalfAngle cfg A B J) (axis1 A J) (axis2 B J) := by
  have e : (arm B J.a2).lengthSq = (axis2 B J).lengthSq := by rw [← arm_axis]; simp only [V3.lengthSq, V3.neg_x, V3.neg_y, V3.neg_z]; ring
  have u2 : -unitOf cfg (arm B J.a2) = V3.smul (1 / Real.sqrt (axis2 B J).lengthSq) (axis2 B J) := by
    rw [unit_sqrt hs (by rw [e]; exact h2), e, ← arm_axis]; ext <;> simp
  have u1 : unitOf cfg (arm A J.a1) = V3.smul (1 / Real.sqrt (axis1 A J).lengthSq) (axis1 A J) := unit_sqrt hs h1
  unfold coneHalfAngle
  rw [hc, u1, u2]
  generalize axis1 A J = a at *
  generalize axis2 B J = b at *
  have pa : 0 < Real.sqrt a.lengthSq := lt_of_lt_of_le h0 h1
  have pb : 0 < Real.sqrt b.lengthSq := lt_of_lt_of_le h0 h2
  have qa : Real.sqrt a.lengthSq ^ 2 = a.lengthSq := Real.sq_sqrt (Real.sqrt_pos.1 pa).le
  have qb : Real.sqrt b.lengthSq ^ 2 = b.lengthSq := Real.sq_sqrt (Real.sqrt_pos.1 pb).le
  have cs : V3.dot a b ^ 2 ≤ a.lengthSq * b.lengthSq := by
    simp only [V3.dot, V3.lengthSq]
    nlinarith [sq_nonneg (a.x * b.y - a.y * b.x), sq_nonneg (a.y * b.z - a.z * b.y), sq_nonneg (a.z * b.x - a.x * b.z)]
  unfold Between
  generalize Real.sqrt a.lengthSq = s at *
  generalize Real.sqrt b.lengthSq = t at *
  have ed : V3.dot (V3.smul (1 / s) a) (V3.smul (1 / t) b) = V3.dot a b / (s * t) := by
    simp only [V3.dot, V3.smul]; field_simp
  have hb : |V3.dot a b| ≤ s * t := by
    rw [← qa, ← qb, ← mul_pow] at cs
    exact abs_le_of_sq_le_sq cs (mul_pos pa pb).le
  rw [ed]
  refine ⟨Real.arccos_nonneg _, Real.arccos_le_pi _, ?_⟩
  have hp := mul_pos pa pb
  rw [Real.cos_arccos]
  · field_simp
  · rw [le_div_iff₀ hp]; linarith [(abs_le.1 hb).1]
  · rw [div_le_iff₀ hp]; linarith [(abs_le.1 hb).2]

variable {K : Type} [Field K] [LinearOrder K] [IsStrictOrderedRing K]

theorem unitOf_neg (cfg : JCfg K) (v : V3 K) : unitOf cfg (-v) = -unitOf cfg v := by
  unfold unitOf
  rw [show (-v).lengthSq = v.lengthSq by simp only [V3.lengthSq, V3.neg_x, V3.neg_y, V3.neg_z]; ring]
  split_ifs
  · rfl
  · ext <;> simp

/-- **C147, turning the scene.** The reading does not change when both bodies are turned together. -/
theorem cone_angle_turned (cfg : JCfg K) {g : Quat K} (hg : g.lengthSq = 1) (A B : JBody K) (J : Ball K) :
    coneHalfAngle cfg (turned g A) (turned g B) J = coneHalfAngle cfg A B J := by
  have e : ∀ (C : JBody K) a, arm (turned g C) a = g.rot (arm C a) := fun C a => rot_mul g C.q _
  unfold coneHalfAngle
  rw [e, e, HingeProps.unitOf_rot hg, HingeProps.unitOf_rot hg, show -g.rot (unitOf cfg (arm B J.a2)) = g.rot (-unitOf cfg (arm B J.a2)) by
    unfold Quat.rot; ext <;> simp <;> ring, rot_dot hg]

/-- **C147, the step.** A step takes the limit for violated exactly if the angle that the user reads before the step exceeds it. -/
theorem cone_violated (cfg : JCfg K) (body : Nat → JBody K) (J : Ball K) :
    (J.init cfg body).cone = true ↔ J.half < coneHalfAngle cfg (body J.b1) (body J.b2) J := by
  show decide (J.half - coneHalfAngle cfg (body J.b1) (body J.b2) J < 0) = true ↔ _
  rw [decide_eq_true_iff, sub_neg]

/-- Below the limit, or with the limit disabled, nothing happens. -/
theorem cone_idle (cfg : JCfg K) (body : Nat → JBody K) (J : Ball K) (V : Nat → Vel K) (h : J.coneOn = false ∨ coneHalfAngle cfg (body J.b1) (body J.b2) J ≤ J.half) :
    ((J.init cfg body).limit body V).1 = V := by
  unfold Ball.limit
  rcases h with h | h
  · rw [show (J.init cfg body).coneOn = J.coneOn from rfl, h]; rfl
  · rw [Bool.eq_false_iff.2 fun k => absurd ((cone_violated cfg body J).1 k) (not_lt.2 h)]
    split_ifs <;> simp_all

/-- The resistance to a turn about the axis on which the limit acts. -/
def kappa (cfg : JCfg K) (body : Nat → JBody K) (J : Ball K) : K :=
  let n := V3.cross (unitOf cfg (axis1 (body J.b1) J)) (unitOf cfg (axis2 (body J.b2) J))
  V3.dot n ((body J.b1).I.act n) + V3.dot n ((body J.b2).I.act n)

/-- **C147, the limit acts.** Beyond the limit, and unless the joint is exactly folded, the axes do not separate any further after the correction: their scalar product grows, with
BAUMGARTE_JOINTS in proportion to the excess. -/
theorem cone_stops_partial (cfg : JCfg K) (body : Nat → JBody K) (J : Ball K) (V : Nat → Vel K) (hb : J.b1 ≠ J.b2) (hon : J.coneOn = true)
    (h1 : (body J.b1).la = ⟨1, 1, 1⟩) (h2 : (body J.b2).la = ⟨1, 1, 1⟩) (hv : J.half < coneHalfAngle cfg (body J.b1) (body J.b2) J) (hk : 0 < kappa cfg body J) :
    let W := ((J.init cfg body).limit body V).1
    (if J.baum then cfg.beta / cfg.dt * (coneHalfAngle cfg (body J.b1) (body J.b2) J - J.half) else 0) ≤
      rate (W J.b1).w (W J.b2).w (unitOf cfg (axis1 (body J.b1) J)) (unitOf cfg (axis2 (body J.b2) J)) := by
  have hviol := (cone_violated cfg body J).2 hv
  have ea : (J.init cfg body).axb = V3.cross (unitOf cfg (axis1 (body J.b1) J)) (unitOf cfg (axis2 (body J.b2) J)) := by
    show V3.cross _ (-unitOf cfg (arm (body J.b2) J.a2)) = _
    rw [← unitOf_neg, arm_axis]; rfl
  have ek : (J.init cfg body).coneK = 1 / kappa cfg body J := by
    show (if J.coneOn then invOf (V3.dot (J.init cfg body).axb ((body J.b1).I.act (J.init cfg body).axb) + V3.dot (J.init cfg body).axb ((body J.b2).I.act (J.init cfg body).axb)) else _) = _
    rw [if_pos hon, ea]
    exact if_pos hk
  have eb : (J.init cfg body).coneBias = -(if J.baum then cfg.beta / cfg.dt * (coneHalfAngle cfg (body J.b1) (body J.b2) J - J.half) else 0) := by
    show (if J.coneOn then (if J.baum then cfg.beta / cfg.dt * (J.half - coneHalfAngle cfg (body J.b1) (body J.b2) J) else 0) else _) = _
    rw [if_pos hon]
    split_ifs <;> ring
  have hkd : kappa cfg body J = V3.dot (J.init cfg body).axb ((body J.b1).I.act (J.init cfg body).axb) + V3.dot (J.init cfg body).axb ((body J.b2).I.act (J.init cfg body).axb) := by
    rw [ea]; rfl
  dsimp only
  have er : ∀ w1 w2 u1 u2 : V3 K, rate w1 w2 u1 u2 = V3.dot (V3.cross u1 u2) (w1 - w2) := by
    intro w1 w2 u1 u2; unfold rate; simp only [V3.dot, V3.cross, V3.sub_x, V3.sub_y, V3.sub_z]; ring
  rw [er, ← ea]
  rw [← neg_neg (ite _ _ _), ← eb]
  unfold Ball.limit
  rw [show (J.init cfg body).coneOn = true from hon, if_pos rfl, hviol, if_pos rfl]
  dsimp only
  rw [show (J.init cfg body).b1 = J.b1 from rfl, show (J.init cfg body).b2 = J.b2 from rfl, ek]
  generalize (J.init cfg body).axb = n at *
  generalize (J.init cfg body).coneBias = β at *
  generalize (J.init cfg body).coneImp = l at *
  generalize kappa cfg body J = k at *
  have hd : ∀ d : K, V3.dot n (((turn (two body J.b1 J.b2) (V3.smul d n) (V3.smul (-d) n) V) J.b1).w - ((turn (two body J.b1 J.b2) (V3.smul d n) (V3.smul (-d) n) V) J.b2).w) =
      V3.dot n ((V J.b1).w - (V J.b2).w) + k * d := by
    intro d
    unfold turn two
    dsimp only
    rw [upd_ne _ _ hb, upd_same, upd_same, upd_ne _ _ hb.symm, h1, h2, hkd]
    simp only [V3.dot, V3.had, V3.smul, M3.act, V3.sub_x, V3.sub_y, V3.sub_z, V3.add_x, V3.add_y, V3.add_z]
    ring
  rw [hd]
  generalize V3.dot n ((V J.b1).w - (V J.b2).w) = v at *
  have hm : l + 1 / k * (-v - β) ≤ max (l + 1 / k * (-v - β)) 0 := le_max_left _ _
  generalize max (l + 1 / k * (-v - β)) 0 = m at *
  have : k * (1 / k * (-v - β)) = -v - β := by field_simp
  nlinarith [mul_le_mul_of_nonneg_left (show 1 / k * (-v - β) ≤ m - l by linarith) hk.le]

/-! ### Where it fails -/

/-- The limit acts about the product of the axes; where that is zero, it does nothing to the velocities. -/
theorem no_product (cfg : JCfg K) (body : Nat → JBody K) (J : Ball K) (h : V3.cross (unitOf cfg (arm (body J.b1) J.a1)) (-unitOf cfg (arm (body J.b2) J.a2)) = 0) (V : Nat → Vel K) :
    ((J.init cfg body).limit body V).1 = V := by
  have ea : (J.init cfg body).axb = 0 := h
  unfold Ball.limit
  split_ifs
  · dsimp only
    rw [ea]
    have t : ∀ c : Two K, ∀ a b : K, turn c (V3.smul a 0) (V3.smul b 0) V = V := by
      intro c a b
      have z : ∀ (M : M3 K) (l : V3 K) (x : K) (v : V3 K), v + V3.had l (M.act (V3.smul x 0)) = v := by
        intro M l x v; ext <;> simp [V3.had, M3.act]
      funext i
      unfold turn upd
      dsimp only
      simp only [z]
      split_ifs <;> simp_all
    exact t _ _ _
  · rfl
  · rfl

/-- The same for the positions. -/
theorem no_product_position {cfg : JCfg K} (hs : IsSqrt cfg.sqrt) (c : Two K) (J : Ball K) {X : Nat → Pose K} (h1 : (X c.b1).q.lengthSq = 1) (h2 : (X c.b2).q.lengthSq = 1)
    (h : V3.cross (unitOf cfg J.r1) (-unitOf cfg J.r2) = 0) : (J.cone' cfg c X).1 = X := by
  unfold Ball.cone'
  dsimp only
  rw [h]
  split_ifs
  · dsimp only
    rw [smul_zero_right, smul_zero_right]
    exact twist_zero hs c h1 h2
  · rfl
  · rfl

/-- **C147 fails, no axis.** If the anchor is the center of mass of the second body, the reading is a right angle however the bodies are turned, and the limit does nothing. -/
theorem no_axis (cfg : JCfg ℝ) (hc : cfg.acos = Real.arccos) (body : Nat → JBody ℝ) (J : Ball ℝ) (h : J.a2 = (body J.b2).com) :
    coneHalfAngle cfg (body J.b1) (body J.b2) J = Real.pi / 2 ∧ ∀ V, ((J.init cfg body).limit body V).1 = V := by
  have e : arm (body J.b2) J.a2 = 0 := by unfold arm; rw [h]; unfold Quat.rot; ext <;> simp
  have u : -unitOf cfg (arm (body J.b2) J.a2) = 0 := by
    rw [e]; unfold unitOf; split_ifs <;> ext <;> simp
  constructor
  · unfold coneHalfAngle
    rw [u, hc, show V3.dot (unitOf cfg (arm (body J.b1) J.a1)) 0 = 0 by simp [V3.dot], Real.arccos_zero]
  · intro V
    exact no_product cfg body J (by rw [u]; unfold V3.cross; ext <;> simp) V

/-- **C147 fails, a folded joint.** The two bodies are on the same side of the anchor: the angle is pi, far beyond the limit of a right angle, and the limit does nothing, neither to the
velocities nor to the positions. -/
theorem folded : ∃ (body : Nat → JBody ℝ) (J : Ball ℝ), J.coneOn = true ∧ J.half = Real.pi / 2 ∧ (body 0).dyn = true ∧ (body 1).dyn = true ∧ J.b1 = 0 ∧ J.b2 = 1 ∧
    coneHalfAngle HingeProps.realCfg (body 0) (body 1) J = Real.pi ∧ (∀ V, ((J.init HingeProps.realCfg body).limit body V).1 = V) ∧
    ∀ (c : Two ℝ) (X : Nat → Pose ℝ), (X c.b1).q.lengthSq = 1 → (X c.b2).q.lengthSq = 1 → ((J.init HingeProps.realCfg body).cone' HingeProps.realCfg c X).1 = X := by
  let B : JBody ℝ := ⟨⟨0, 0, 0, 1, M3.one, ⟨1, 1, 1⟩, ⟨1, 1, 1⟩⟩, ⟨0, 0, 0, 1⟩, 0, true⟩
  let J : Ball ℝ := ⟨0, 1, false, ⟨1, 0, 0⟩, ⟨1, 0, 0⟩, 0, 0, M3.zero, 0, 0, true, Real.pi / 2, 0, false, 0, 0, 0⟩
  have ha : arm B ⟨1, 0, 0⟩ = ⟨1, 0, 0⟩ := by unfold arm Quat.rot; ext <;> simp [B]
  have hu : unitOf HingeProps.realCfg (⟨1, 0, 0⟩ : V3 ℝ) = ⟨1, 0, 0⟩ :=
    HingeProps.unitOf_unit RayProps.realSqrt (by norm_num [HingeProps.realCfg]) (by simp [V3.lengthSq])
  have hx : V3.cross (⟨1, 0, 0⟩ : V3 ℝ) (-⟨1, 0, 0⟩) = 0 := by unfold V3.cross; ext <;> simp
  refine ⟨fun _ => B, J, rfl, rfl, rfl, rfl, rfl, rfl, ?_, ?_, ?_⟩
  · show HingeProps.realCfg.acos (V3.dot (unitOf HingeProps.realCfg (arm B ⟨1, 0, 0⟩)) (-unitOf HingeProps.realCfg (arm B ⟨1, 0, 0⟩))) = _
    rw [ha, hu, show V3.dot (⟨1, 0, 0⟩ : V3 ℝ) (-⟨1, 0, 0⟩) = -1 by simp [V3.dot]]
    exact Real.arccos_neg_one
  · intro V
    refine no_product _ _ J ?_ V
    show V3.cross (unitOf HingeProps.realCfg (arm B ⟨1, 0, 0⟩)) (-unitOf HingeProps.realCfg (arm B ⟨1, 0, 0⟩)) = 0
    rw [ha, hu, hx]
  · intro c X h1 h2
    refine no_product_position RayProps.realSqrt c _ h1 h2 ?_
    show V3.cross (unitOf HingeProps.realCfg (arm B ⟨1, 0, 0⟩)) (-unitOf HingeProps.realCfg (arm B ⟨1, 0, 0⟩)) = 0
    rw [ha, hu, hx]

/-! ### Examples -/

/-- A body with unit inertia at the origin, and a joint bent by a right angle whose limit is half of that. -/
noncomputable def exBody : JBody ℝ := ⟨⟨0, 0, 0, 1, M3.one, ⟨1, 1, 1⟩, ⟨1, 1, 1⟩⟩, ⟨0, 0, 0, 1⟩, 0, true⟩
noncomputable def exJoint : Ball ℝ := ⟨0, 1, false, ⟨1, 0, 0⟩, ⟨0, -1, 0⟩, 0, 0, M3.zero, 0, 0, true, Real.pi / 4, 0, false, 0, 0, 0⟩

theorem ex_axis1 : axis1 exBody exJoint = ⟨1, 0, 0⟩ := by unfold axis1 Quat.rot; ext <;> simp [exBody, exJoint]
theorem ex_axis2 : axis2 exBody exJoint = ⟨0, 1, 0⟩ := by unfold axis2 Quat.rot; ext <;> simp [exBody, exJoint]

theorem ex_eps : HingeProps.realCfg.eps ≤ 1 := by norm_num [HingeProps.realCfg]

/-- The hypotheses of `cone_angle` hold, and the angle is a right one. -/
theorem ex_angle : coneHalfAngle HingeProps.realCfg exBody exBody exJoint = Real.pi / 2 := by
  have h := cone_angle (cfg := HingeProps.realCfg) rfl rfl (by norm_num [HingeProps.realCfg]) exBody exBody exJoint
    (by rw [ex_axis1]; simpa [V3.lengthSq] using ex_eps) (by rw [ex_axis2]; simpa [V3.lengthSq] using ex_eps)
  rw [ex_axis1, ex_axis2] at h
  refine between_unique (by simp [V3.lengthSq]) (by simp [V3.lengthSq]) h ⟨by positivity, by linarith [Real.pi_pos], ?_⟩
  simp [V3.dot]

/-- The hypotheses of `cone_stops_partial` hold for it. -/
example : exJoint.b1 ≠ exJoint.b2 ∧ exJoint.coneOn = true ∧ exBody.la = ⟨1, 1, 1⟩ ∧ exJoint.half < coneHalfAngle HingeProps.realCfg exBody exBody exJoint ∧
    0 < kappa HingeProps.realCfg (fun _ => exBody) exJoint := by
  refine ⟨by simp [exJoint], rfl, rfl, ?_, ?_⟩
  · rw [ex_angle]; show Real.pi / 4 < _; linarith [Real.pi_pos]
  · have hu : ∀ v : V3 ℝ, v.lengthSq = 1 → unitOf HingeProps.realCfg v = v := fun v hv =>
      HingeProps.unitOf_unit RayProps.realSqrt ex_eps hv
    unfold kappa
    dsimp only
    rw [ex_axis1, ex_axis2, hu _ (by simp [V3.lengthSq]), hu _ (by simp [V3.lengthSq])]
    norm_num [V3.cross, V3.dot, exBody, M3.act, M3.one, M3.of]

/-- A turn of the scene that is not trivial, for `cone_angle_turned`; a joint with its anchor at the center of mass, for `no_axis`. -/
example : (⟨3 / 5, 0, 0, 4 / 5⟩ : Quat ℝ).lengthSq = 1 := by norm_num [Quat.lengthSq]
example : ({ exJoint with a2 := 0 } : Ball ℝ).a2 = exBody.com := rfl

end ConeLimit
end RP3D
