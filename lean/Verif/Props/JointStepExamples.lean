import Verif.Props.JointStepExact
import Verif.Props.PositionExamples

/-! C129: cone limits overshoot; cases that meet the hypotheses. -/

namespace RP3D
namespace Joints
open Solver

namespace Ex

noncomputable def jcone : JCfg ℝ := { jr with acos := Real.arccos }

/-- A pendulum at the static body 0 whose two levers, of length 1, have the angle arccos (9999 / 10001), about 1.1 degrees. -/
noncomputable def bob (b : Nat) : Pose ℝ := if b = 1 then ⟨⟨20000 / 10001, 200 / 10001, 0⟩, Quat.one⟩ else ⟨0, Quat.one⟩
noncomputable def bobJoint (half : ℝ) : Ball ℝ := { ballR with a2 := ⟨-9999 / 10001, -200 / 10001, 0⟩, coneOn := true, half := half }

end Ex

open Ex

theorem sqrt_real : IsSqrt jcone.sqrt := RayProps.realSqrt

theorem free_axes (b : Nat) : FreeAxes (bodyR b) := by
  unfold bodyR
  split <;> exact ⟨rfl, rfl⟩

theorem bob_unit (b : Nat) : (bob b).q.lengthSq = 1 := by
  unfold bob
  split <;> norm_num [Quat.one, Quat.lengthSq]

theorem rot_one (v : V3 ℝ) : (Quat.one : Quat ℝ).rot v = v := rot_one' v

theorem unit_stays {v : V3 ℝ} (h : v.lengthSq = 1) : unitOf jcone v = v := by
  unfold unitOf
  rw [h]
  have : jcone.sqrt 1 = 1 := Real.sqrt_one
  rw [this, if_neg (by norm_num [jcone, jr])]
  ext <;> simp

/-- The cosine of the angle of the two levers. -/
noncomputable def leverCos (half : ℝ) (Z : Nat → Pose ℝ) : ℝ :=
  V3.dot (unitOf jcone (armAt bodyR Z 0 (bobJoint half).a1)) (-unitOf jcone (armAt bodyR Z 1 (bobJoint half).a2))

/-- **C129 fails for cone limits.** The axis about which the bodies are turned is not normalised, so the turn is too large by the factor one over the sine of
the angle. The pendulum, beyond any limit that is at most half of its angle of 1.1 degrees, is thrown to an angle of at least 23 degrees by one
iteration: the cosine is below 23/25. -/
theorem cone_overshoots (half : ℝ) (h0 : 0 ≤ half) (h1 : 2 * half ≤ Real.arccos (9999 / 10001)) :
    leverCos half bob = 9999 / 10001 ∧ leverCos half ((bobJoint half).position jcone bodyR bob).1 ≤ 23 / 25 := by
  have r1 : armAt bodyR bob 0 (bobJoint half).a1 = ⟨1, 0, 0⟩ := by
    unfold armAt
    simp only [bob, bodyR, bobJoint, ballR, stuckR, if_true, if_neg (by decide : ¬ (0 = 1))]
    rw [rot_one]; ext <;> simp
  have r2 : armAt bodyR bob 1 (bobJoint half).a2 = ⟨-9999 / 10001, -200 / 10001, 0⟩ := by
    unfold armAt
    simp only [bob, bodyR, bobJoint, ballR, freeR, if_true, if_neg (by decide : ¬ (1 = 0))]
    rw [rot_one]; ext <;> simp
  have u1 : unitOf jcone (armAt bodyR bob 0 (bobJoint half).a1) = ⟨1, 0, 0⟩ := by rw [r1]; exact unit_stays (by norm_num [V3.lengthSq])
  have u2 : unitOf jcone (armAt bodyR bob 1 (bobJoint half).a2) = ⟨-9999 / 10001, -200 / 10001, 0⟩ := by
    rw [r2]; exact unit_stays (by norm_num [V3.lengthSq])
  have hc : leverCos half bob = 9999 / 10001 := by
    unfold leverCos; rw [u1, u2]; norm_num [V3.dot]
  refine ⟨hc, ?_⟩
  have hsin : Real.sin (Real.arccos (9999 / 10001)) = 200 / 10001 := by
    rw [Real.sin_arccos, show (1 - (9999 / 10001 : ℝ) ^ 2) = (200 / 10001) ^ 2 by norm_num]
    exact Real.sqrt_sq (by norm_num)
  have t0 : 200 / 10001 ≤ Real.arccos (9999 / 10001) := by
    rw [← hsin]; exact Real.sin_le (Real.arccos_nonneg _)
  have t1 : Real.arccos (9999 / 10001) ≤ 4 / 125 := by
    have hh : Real.arccos (9999 / 10001) ≤ Real.pi / 2 := Real.arccos_le_pi_div_two.2 (by norm_num)
    have := Real.mul_le_sin (Real.arccos_nonneg (9999 / 10001)) hh
    rw [hsin, div_mul_eq_mul_div, div_le_iff₀ Real.pi_pos] at this
    have hpi := Real.pi_lt_d2
    linarith
  have key := cone_exact (cfg := jcone) sqrt_real (body := bodyR) bob (J := bobJoint half) (by decide : (0 : Nat) ≠ 1) (free_axes 0) (free_axes 1) rfl
    (j := 1) one_pos rfl (bob_unit 0) (bob_unit 1) (by
      show (bob 0).x + armAt bodyR bob 0 (bobJoint half).a1 = (bob 1).x + armAt bodyR bob 1 (bobJoint half).a2
      rw [r1, r2]
      simp only [bob, if_true, if_neg (by decide : ¬ (0 = 1))]
      ext <;> norm_num) rfl
  dsimp only at key
  have g : ∀ Z, V3.dot (unitOf jcone (armAt bodyR Z (bobJoint half).b1 (bobJoint half).a1)) (-unitOf jcone (armAt bodyR Z (bobJoint half).b2 (bobJoint half).a2)) =
    leverCos half Z := fun Z => rfl
  rw [g, g, hc] at key
  have hS : V3.dot (V3.cross (unitOf jcone (armAt bodyR bob (bobJoint half).b1 (bobJoint half).a1)) (-unitOf jcone (armAt bodyR bob (bobJoint half).b2 (bobJoint half).a2)))
      (V3.cross (unitOf jcone (armAt bodyR bob (bobJoint half).b1 (bobJoint half).a1)) (-unitOf jcone (armAt bodyR bob (bobJoint half).b2 (bobJoint half).a2))) =
      (200 / 10001) ^ 2 := by
    have a1 : unitOf jcone (armAt bodyR bob (bobJoint half).b1 (bobJoint half).a1) = ⟨1, 0, 0⟩ := u1
    have a2 : unitOf jcone (armAt bodyR bob (bobJoint half).b2 (bobJoint half).a2) = ⟨-9999 / 10001, -200 / 10001, 0⟩ := u2
    rw [a1, a2]
    norm_num [V3.dot, V3.cross]
  rw [hS] at key
  have ha : jcone.acos (9999 / 10001) - (bobJoint half).half = Real.arccos (9999 / 10001) - half := rfl
  rw [ha] at key
  generalize Real.arccos (9999 / 10001) = θ at *
  have hD : 0 < θ - half := by linarith
  have key := key hD (by norm_num)
  generalize leverCos half ((bobJoint half).position jcone bodyR bob).1 = z at *
  have hx : 1 / 16 ≤ (θ - half) * (θ - half) / (4 * (200 / 10001) ^ 2) := by
    rw [le_div_iff₀ (by norm_num)]
    have : 100 / 10001 ≤ θ - half := by linarith
    nlinarith
  generalize (θ - half) * (θ - half) / (4 * (200 / 10001) ^ 2) = x at *
  nlinarith

/-- `fixed_converges_partial`, `fixed_flipped`: a body at a static one, turned by about 74 degrees, with either sign of its quaternion. -/
noncomputable def Ex.tilted (s : ℝ) (b : Nat) : Pose ℝ := if b = 1 then ⟨0, ⟨0, 0, s * (3 / 5), s * (4 / 5)⟩⟩ else ⟨0, Quat.one⟩
noncomputable def Ex.weld : Fixed ℝ := ⟨0, 1, false, 0, 0, Quat.one, 0, 0, M3.zero, 0, 0, M3.zero, 0, 0⟩

theorem weld_case {s : ℝ} (hs : s = 1 ∨ s = -1) : jcone.eps < |(twoAt bodyR (tilted s) 0 1).I2.det| ∧ (tilted s 0).q.lengthSq = 1 ∧
    (tilted s 1).q.lengthSq = 1 ∧ weld.d.lengthSq = 1 ∧ anchorAt bodyR (tilted s) 0 weld.a1 = anchorAt bodyR (tilted s) 1 weld.a2 ∧
    turnCos (tilted s 0).q (tilted s 1).q weld.d = s * (4 / 5) := by
  have hq : (tilted s 1).q.lengthSq = 1 := by
    rcases hs with rfl | rfl <;> norm_num [tilted, Quat.lengthSq]
  refine ⟨?_, by norm_num [tilted, Quat.one, Quat.lengthSq], hq, by norm_num [weld, Quat.one, Quat.lengthSq], ?_, ?_⟩
  · have : (twoAt bodyR (tilted s) 0 1).I2 = M3.of 1 0 0 0 1 0 0 0 1 := by
      show Dyn.worldInertia (tilted s 1).q.matrix (bodyR 1).i = _
      have hi : (bodyR 1).i = ⟨1, 1, 1⟩ := by simp [bodyR, freeR]
      rw [hi, matrix_of_unit hq]
      unfold Dyn.worldInertia M3.mul M3.of
      rcases hs with rfl | rfl <;> ext <;> norm_num [tilted, M3.transpose, M3.of]
    rw [this]
    norm_num [M3.det, M3.of, jcone, jr]
  · unfold anchorAt
    have z : ∀ q : Quat ℝ, q.rot (0 - 0) = 0 := fun q => by unfold Quat.rot; ext <;> simp
    have c0 : (bodyR 0).com = 0 := rfl
    have c1 : (bodyR 1).com = 0 := rfl
    have a0 : weld.a1 = 0 := rfl
    have a1 : weld.a2 = 0 := rfl
    rw [c0, c1, a0, a1, z, z]
    simp [tilted]
  · simp only [turnCos, tilted, weld, Quat.one, Quat.mul, Quat.conj, if_true, if_neg (by decide : ¬ (0 = 1))]
    ring

/-- The two signs: the error shrinks to less than a quarter of it, or it grows. -/
example : (let Y := (weld.position jcone bodyR (tilted 1)).1;
      V3.dot (turnErr (Y 0).q (Y 1).q weld.d) (turnErr (Y 0).q (Y 1).q weld.d) ≤ (9 / 25) * (9 / 25) * (36 / 25)) ∧
    (let Y := (weld.position jcone bodyR (tilted (-1))).1;
      5 / 4 * (36 / 25) ≤ V3.dot (turnErr (Y 0).q (Y 1).q weld.d) (turnErr (Y 0).q (Y 1).q weld.d)) := by
  have he : 0 ≤ jcone.eps := by norm_num [jcone, jr]
  have er : ∀ s : ℝ, s * s = 1 → V3.dot (turnErr (tilted s 0).q (tilted s 1).q weld.d) (turnErr (tilted s 0).q (tilted s 1).q weld.d) = 36 / 25 := by
    intro s hs
    simp only [turnErr, tilted, weld, Quat.one, Quat.mul, Quat.conj, V3.dot, if_true, if_neg (by decide : ¬ (0 = 1)), V3.smul_x, V3.smul_y, V3.smul_z]
    linear_combination (36 / 25) * hs
  constructor
  · obtain ⟨w1, w2, w3, w4, w5, w6⟩ := weld_case (s := 1) (Or.inl rfl)
    have := (fixed_converges_partial sqrt_real he (body := bodyR) (tilted 1) (J := weld) (by decide : (0 : Nat) ≠ 1) (free_axes 0) (free_axes 1) rfl rfl w1 w2 w3 w4
      w5 (by
        show 0 ≤ turnCos (tilted 1 0).q (tilted 1 1).q weld.d
        rw [w6]; norm_num)).2
    have e : V3.dot (turnErr (tilted 1 weld.b1).q (tilted 1 weld.b2).q weld.d) (turnErr (tilted 1 weld.b1).q (tilted 1 weld.b2).q weld.d) = 36 / 25 :=
      er 1 (by norm_num)
    rw [e] at this
    refine le_trans this (by norm_num)
  · obtain ⟨w1, w2, w3, w4, w5, w6⟩ := weld_case (s := -1) (Or.inr rfl)
    have := fixed_flipped sqrt_real he (body := bodyR) (tilted (-1)) (J := weld) (by decide : (0 : Nat) ≠ 1) (free_axes 0) (free_axes 1) rfl rfl w1 w2 w3 w4
      w5 (by
        show turnCos (tilted (-1) 0).q (tilted (-1) 1).q weld.d ≤ -1 / 2
        rw [w6]; norm_num)
    have e : V3.dot (turnErr (tilted (-1) weld.b1).q (tilted (-1) weld.b2).q weld.d) (turnErr (tilted (-1) weld.b1).q (tilted (-1) weld.b2).q weld.d) = 36 / 25 :=
      er (-1) (by norm_num)
    dsimp only at this
    rw [e] at this
    exact this

/-- The hypotheses of `ball_step_partial`, `fixed_step_partial` and `hinge_step_partial` hold of two free bodies, one of them turned; the ball-and-socket joint has a cone. -/
example : 0 ≤ JointProps.Ex.jc.eps ∧ FreeAxes free ∧ free.dyn = true ∧
    JointProps.Ex.jc.eps < |(massMatrix free.m free.m (twoAt (fun _ => free) swung 0 1).I1 (twoAt (fun _ => free) swung 0 1).I2 (armAt (fun _ => free) swung 0 ⟨2, 0, 0⟩)
      (armAt (fun _ => free) swung 1 ⟨0, 1, 0⟩)).det| ∧
    JointProps.Ex.jc.eps < |(M3.add (twoAt (fun _ => free) swung 0 1).I1 (twoAt (fun _ => free) swung 0 1).I2).det| ∧
    (let axis := V3.cross (unitOf JointProps.Ex.jc (armAt (fun _ => free) swung 0 ⟨2, 0, 0⟩)) (-unitOf JointProps.Ex.jc (armAt (fun _ => free) swung 1 ⟨0, 1, 0⟩));
      0 < V3.dot axis ((twoAt (fun _ => free) swung 0 1).I1.act axis) + V3.dot axis ((twoAt (fun _ => free) swung 0 1).I2.act axis)) ∧
    (let ax : V3 ℚ := ⟨0, 0, 1⟩;
      let b := orthogonal JointProps.Ex.jc.sqrt ⟨0, 0, 1⟩;
      let ba := V3.cross b ax;
      let ca := V3.cross (V3.cross ⟨0, 0, 1⟩ b) ax;
      let c := twoAt (fun _ => free) swung 0 1;
      JointProps.Ex.jc.eps < |(⟨V3.dot ba (c.I1.act ba) + V3.dot ba (c.I2.act ba), V3.dot ba (c.I1.act ca) + V3.dot ba (c.I2.act ca),
          V3.dot ca (c.I1.act ba) + V3.dot ca (c.I2.act ba), V3.dot ca (c.I1.act ca) + V3.dot ca (c.I2.act ca)⟩ : M2 ℚ).det|) := by
  refine ⟨by decide +kernel, ⟨by decide +kernel, by decide +kernel⟩, by decide +kernel, by decide +kernel, by decide +kernel, by decide +kernel, by decide +kernel⟩

noncomputable def Ex.rail : Slider ℝ :=
  ⟨0, 1, false, 0, 0, ⟨1, 0, 0⟩, Quat.one, 0, 0, 0, 0, 0, 0, 0, 0, 0, 0, 0, M2.zero, ⟨0, 0⟩, ⟨0, 0⟩, M3.zero, 0, 0, true, -1, 1, false, false, 0, 0, 0, 0,
    0, 0, false, 1, 100, 0⟩

/-- `slider_step_partial` for a body on a static rail, a tenth beside the axis and 1 beyond the upper limit. -/
example : ∃ (d e : V3 ℝ) (Y Z : Nat → Pose ℝ) (l m n : Nudge ℝ), V3.dot d d = 1 ∧ V3.dot e e = 1 ∧ V3.dot d e = 0 ∧ Nudged jcone 0 1 l poseR Y ∧
    l.along 0 0 ⟨2, 1 / 10, 0⟩ ⟨1, 0, 0⟩ = -1 ∧ Nudged jcone 0 1 m Y Z ∧ Nudged jcone 0 1 n Z (rail.position jcone bodyR poseR).1 ∧
    n.along 0 0 ⟨2, 1 / 10, 0⟩ d = -V3.dot ⟨2, 1 / 10, 0⟩ d ∧ n.along 0 0 ⟨2, 1 / 10, 0⟩ e = -V3.dot ⟨2, 1 / 10, 0⟩ e := by
  have hi : Inertial (1 : ℝ) (bodyR 1).i := by show Inertial (1 : ℝ) (⟨1, 1, 1⟩ : V3 ℝ); unfold Inertial; norm_num
  have h0 : Inertial (1 : ℝ) (bodyR 0).i := by show Inertial (1 : ℝ) (0 : V3 ℝ); unfold Inertial; norm_num
  have z : (Quat.one : Quat ℝ).rot (0 - 0) = 0 := by unfold Quat.rot; ext <;> simp
  have r1 : armAt bodyR poseR rail.b1 rail.a1 = 0 := z
  have r2 : armAt bodyR poseR rail.b2 rail.a2 = 0 := z
  have hax : unitOf jcone ((poseR rail.b1).q.rot rail.l1) = ⟨1, 0, 0⟩ := by
    have : (poseR rail.b1).q.rot rail.l1 = ⟨1, 0, 0⟩ := rot_one _
    rw [this]; exact unit_stays (by norm_num [V3.lengthSq])
  have hu : anchorAt bodyR poseR rail.b2 rail.a2 - anchorAt bodyR poseR rail.b1 rail.a1 = ⟨2, 1 / 10, 0⟩ := by
    have e1 : anchorAt bodyR poseR rail.b1 rail.a1 = 0 + (Quat.one : Quat ℝ).rot (0 - 0) := rfl
    have e2 : anchorAt bodyR poseR rail.b2 rail.a2 = ⟨2, 1 / 10, 0⟩ + (Quat.one : Quat ℝ).rot (0 - 0) := rfl
    rw [e1, e2, z]; ext <;> simp
  have I1 : (twoAt bodyR poseR rail.b1 rail.b2).I1 = M3.zero := by
    show Dyn.worldInertia (Quat.one : Quat ℝ).matrix (0 : V3 ℝ) = _
    rw [matrix_of_unit (by norm_num [Quat.one, Quat.lengthSq])]
    unfold Dyn.worldInertia M3.mul M3.of
    ext <;> norm_num [Quat.one, M3.transpose, M3.of, M3.zero]
  have I2 : (twoAt bodyR poseR rail.b1 rail.b2).I2 = M3.of 1 0 0 0 1 0 0 0 1 := by
    show Dyn.worldInertia (Quat.one : Quat ℝ).matrix (⟨1, 1, 1⟩ : V3 ℝ) = _
    rw [matrix_of_unit (by norm_num [Quat.one, Quat.lengthSq])]
    unfold Dyn.worldInertia M3.mul M3.of
    ext <;> norm_num [Quat.one, M3.transpose, M3.of]
  have key := slider_step_partial (cfg := jcone) sqrt_real (by norm_num [jcone, jr]) (body := bodyR) poseR (J := rail) (by decide : (0 : Nat) ≠ 1) (free_axes 0)
    (free_axes 1) (.inr rfl) h0 hi (by norm_num [bodyR, rail, freeR, stuckR]) (by rw [hax]; norm_num [V3.dot]) (fun _ => by norm_num [rail]) (by
      rw [I1, I2]; norm_num [M3.add, M3.zero, M3.of, M3.det, jcone, jr])
  dsimp only at key
  rw [r1, r2, hax, hu, I1, I2] at key
  obtain ⟨d, e, k1, k2, k3, -, -, k⟩ := key
  have m1 : (twoAt bodyR poseR rail.b1 rail.b2).m1 = 0 := rfl
  have m2 : (twoAt bodyR poseR rail.b1 rail.b2).m2 = 1 := rfl
  obtain ⟨Y, Z, m, n, -, -, -, k4, k5, -, -, -, k6, k7, k8⟩ := k (by
    rw [m1, m2]
    norm_num [V3.cross, V3.dot, M3.act, M3.zero, M3.of, M2.det, jcone, jr])
  obtain ⟨l, l1, l2⟩ := k4 rfl (by norm_num [V3.dot, rail])
  exact ⟨d, e, Y, Z, l, m, n, k1, k2, k3, l1, by rw [l2]; norm_num [V3.dot, rail], k5, k6, k7, k8⟩

end Joints
end RP3D
