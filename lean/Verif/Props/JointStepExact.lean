import Verif.Props.JointStep
import Verif.Props.RayExamples
import Mathlib.Analysis.SpecialFunctions.Trigonometric.Inverse
import Mathlib.Analysis.SpecialFunctions.Trigonometric.Bounds
import Mathlib.Analysis.Real.Pi.Bounds

/-! C129: exact results of the corrections of orientations and of cone limits for a body connected to an immovable one. They converge for orientations, but
not if one of the two quaternions has the opposite sign, and not for cone limits at small angles. -/

set_option linter.unusedSectionVars false

namespace RP3D
namespace Joints
open Solver
variable {K : Type} [Field K] [LinearOrder K] [IsStrictOrderedRing K]

/-- The scalar part of the error of orientations: the cosine of half of the angle, up to the sign. -/
def turnCos (q1 q2 d : Quat K) : K := ((q2.mul d).mul q1.conj).w

theorem turn_unit {q1 q2 d : Quat K} (h1 : q1.lengthSq = 1) (h2 : q2.lengthSq = 1) (hd : d.lengthSq = 1) :
    V3.dot (turnErr q1 q2 d) (turnErr q1 q2 d) / 4 + turnCos q1 q2 d * turnCos q1 q2 d = 1 := by
  have e : ((q2.mul d).mul q1.conj).lengthSq = 1 := by
    have c : q1.conj.lengthSq = 1 := by rw [← h1]; simp [Quat.conj, Quat.lengthSq]
    rw [mul_lengthSq, mul_lengthSq, h2, hd, c]; ring
  unfold turnErr turnCos
  dsimp only
  generalize (q2.mul d).mul q1.conj = p at *
  rw [← e]
  simp only [V3.dot, V3.smul_x, V3.smul_y, V3.smul_z, Quat.lengthSq]
  ring

/-- A quaternion with the opposite sign is the same orientation with the opposite error. -/
theorem turn_flip (q1 q2 d : Quat K) (v : V3 K) : (q2.scale (-1)).rot v = q2.rot v ∧ turnErr q1 (q2.scale (-1)) d = -turnErr q1 q2 d ∧
    turnCos q1 (q2.scale (-1)) d = -turnCos q1 q2 d := by
  refine ⟨?_, ?_, ?_⟩
  · unfold Quat.rot Quat.scale; ext <;> simp <;> ring
  · unfold turnErr Quat.mul Quat.conj Quat.scale; ext <;> simp <;> ring
  · unfold turnCos Quat.mul Quat.conj Quat.scale; simp; ring

theorem spin_turn {cfg : JCfg K} (hs : IsSqrt cfg.sqrt) {q1 q2 d : Quat K} (h2 : q2.lengthSq = 1) :
    ∃ f, turnErr q1 (spin cfg (-turnErr q1 q2 d) q2) d = V3.smul (f * (1 - turnCos q1 q2 d)) (turnErr q1 q2 d) ∧
      turnCos q1 (spin cfg (-turnErr q1 q2 d) q2) d = f * (turnCos q1 q2 d + V3.dot (turnErr q1 q2 d) (turnErr q1 q2 d) / 4) ∧ 0 < f ∧
      f * f * (1 + V3.dot (turnErr q1 q2 d) (turnErr q1 q2 d) / 4) = 1 := by
  rw [spin_eq]
  set w := -turnErr q1 q2 d with hw
  have hww : V3.dot (turnErr q1 q2 d) (turnErr q1 q2 d) = V3.dot w w := by
    rw [hw]; unfold V3.dot; simp only [V3.neg_x, V3.neg_y, V3.neg_z]; ring
  have hl : ((⟨w.x / 2, w.y / 2, w.z / 2, 1⟩ : Quat K).mul q2).lengthSq = 1 + V3.dot w w / 4 := by rw [mul_lengthSq, half_lengthSq, h2, mul_one]
  obtain ⟨p1, p2⟩ := sqrt_pos hs (half_pos w)
  have ne := p1.ne'
  refine ⟨1 / cfg.sqrt (1 + V3.dot w w / 4), ?_, ?_, by positivity, ?_⟩
  · unfold unitQ
    rw [hl]
    generalize cfg.sqrt (1 + V3.dot w w / 4) = k at *
    have hx : w.x = -(2 * ((q2.mul d).mul q1.conj).x) := rfl
    have hy : w.y = -(2 * ((q2.mul d).mul q1.conj).y) := rfl
    have hz : w.z = -(2 * ((q2.mul d).mul q1.conj).z) := rfl
    have key : ∀ p : Quat K, ((p.divBy k).mul d).mul q1.conj = ((p.mul d).mul q1.conj).divBy k := fun p => by
      unfold Quat.mul Quat.divBy Quat.conj; ext <;> simp only [] <;> field_simp
    have key2 : ∀ p q : Quat K, ((p.mul q).mul d).mul q1.conj = p.mul ((q.mul d).mul q1.conj) := fun p q => by
      unfold Quat.mul; ext <;> simp <;> ring
    unfold turnErr turnCos
    dsimp only
    rw [key, key2, hx, hy, hz]
    generalize (q2.mul d).mul q1.conj = p
    unfold Quat.divBy Quat.mul
    ext <;> simp only [V3.smul_x, V3.smul_y, V3.smul_z] <;> field_simp <;> ring
  · unfold unitQ
    rw [hl, hww]
    have hww' : V3.dot w w = 4 * (((q2.mul d).mul q1.conj).x * ((q2.mul d).mul q1.conj).x + ((q2.mul d).mul q1.conj).y * ((q2.mul d).mul q1.conj).y +
      ((q2.mul d).mul q1.conj).z * ((q2.mul d).mul q1.conj).z) := by
        rw [hw]; unfold turnErr V3.dot; simp only [V3.neg_x, V3.neg_y, V3.neg_z, V3.smul_x, V3.smul_y, V3.smul_z]; ring
    generalize hk : cfg.sqrt (1 + V3.dot w w / 4) = k at *
    rw [hww']
    have hx : w.x = -(2 * ((q2.mul d).mul q1.conj).x) := rfl
    have hy : w.y = -(2 * ((q2.mul d).mul q1.conj).y) := rfl
    have hz : w.z = -(2 * ((q2.mul d).mul q1.conj).z) := rfl
    have key : ∀ p : Quat K, ((p.divBy k).mul d).mul q1.conj = ((p.mul d).mul q1.conj).divBy k := fun p => by
      unfold Quat.mul Quat.divBy Quat.conj; ext <;> simp only [] <;> field_simp
    have key2 : ∀ p q : Quat K, ((p.mul q).mul d).mul q1.conj = p.mul ((q.mul d).mul q1.conj) := fun p q => by
      unfold Quat.mul; ext <;> simp <;> ring
    unfold turnCos
    rw [key, key2, hx, hy, hz]
    generalize (q2.mul d).mul q1.conj = p
    unfold Quat.divBy Quat.mul
    simp only
    field_simp
    ring
  · rw [hww, div_mul_div_comm, p2, one_mul, one_div]
    exact inv_mul_cancel₀ (half_pos w).ne'

/-- A fixed joint to an immovable body, whose anchors are at the same point: the orientation of the second body is turned by the error. -/
theorem fixed_turn {cfg : JCfg K} (hs : IsSqrt cfg.sqrt) (he : 0 ≤ cfg.eps) {body : Nat → PBody K} (X : Nat → Pose K) {J : Fixed K} (hb : J.b1 ≠ J.b2)
    (h1 : FreeAxes (body J.b1)) (h2 : FreeAxes (body J.b2)) (hd : (body J.b2).dyn = true) (hi : (body J.b1).i = 0)
    (hR : cfg.eps < |(twoAt body X J.b1 J.b2).I2.det|) (q1 : (X J.b1).q.lengthSq = 1) (q2 : (X J.b2).q.lengthSq = 1)
    (hg : anchorAt body X J.b1 J.a1 = anchorAt body X J.b2 J.a2) :
    ((J.position cfg body X).1 J.b1).q = (X J.b1).q ∧
    ((J.position cfg body X).1 J.b2).q = spin cfg (-turnErr (X J.b1).q (X J.b2).q J.d) (X J.b2).q := by
  have hdyn : ((body J.b1).dyn || (body J.b2).dyn) = true := by simp [hd]
  have hpull : (pull cfg ((body J.b1).dyn || (body J.b2).dyn) (twoAt body X J.b1 J.b2) (armAt body X J.b1 J.a1) (armAt body X J.b2 J.a2) X).1 = X :=
    pull_zero hs _ _ q1 q2 hg
  have hpo : (J.position cfg body X).1 = (align cfg ((body J.b1).dyn || (body J.b2).dyn) (twoAt body X J.b1 J.b2) J.d
      (pull cfg ((body J.b1).dyn || (body J.b2).dyn) (twoAt body X J.b1 J.b2) (armAt body X J.b1 J.a1) (armAt body X J.b2 J.a2) X).1).1 := rfl
  rw [hpull] at hpo
  have hI : (twoAt body X J.b1 J.b2).I1 = M3.zero := by
    show Dyn.worldInertia _ (body J.b1).i = _
    rw [hi]
    unfold Dyn.worldInertia M3.zero M3.mul M3.of
    ext <;> simp
  have hadd : M3.add (twoAt body X J.b1 J.b2).I1 (twoAt body X J.b1 J.b2).I2 = (twoAt body X J.b1 J.b2).I2 := by
    rw [hI]; unfold M3.add M3.zero M3.of; ext <;> simp
  obtain ⟨n, hn, -, -, n3, l, n4⟩ := align_rate he X X hb h1 h2 hdyn J.d (by rw [hadd]; exact hR)
  have hw1 : n.w1 = 0 := by rw [n4, hI]; unfold M3.act M3.zero M3.of; ext <;> simp
  have hw2 : n.w2 = -turnErr (X J.b1).q (X J.b2).q J.d := by rw [← n3, hw1]; ext <;> simp
  rw [hpo, hn.1, hn.2.1, hw1, hw2]
  exact ⟨by rw [spin_zero]; exact unitQ_of_unit hs q1, rfl⟩

/-- **C129 (orientations converge).** If the scalar part of the error is not negative, it stays so and the error afterwards is at most of third order. -/
theorem fixed_converges_partial {cfg : JCfg K} (hs : IsSqrt cfg.sqrt) (he : 0 ≤ cfg.eps) {body : Nat → PBody K} (X : Nat → Pose K) {J : Fixed K}
    (hb : J.b1 ≠ J.b2) (h1 : FreeAxes (body J.b1)) (h2 : FreeAxes (body J.b2)) (hd : (body J.b2).dyn = true) (hi : (body J.b1).i = 0)
    (hR : cfg.eps < |(twoAt body X J.b1 J.b2).I2.det|) (q1 : (X J.b1).q.lengthSq = 1) (q2 : (X J.b2).q.lengthSq = 1) (hJ : J.d.lengthSq = 1)
    (hg : anchorAt body X J.b1 J.a1 = anchorAt body X J.b2 J.a2) (hc : 0 ≤ turnCos (X J.b1).q (X J.b2).q J.d) :
    let Y := (J.position cfg body X).1
    let e := turnErr (X J.b1).q (X J.b2).q J.d
    let e' := turnErr (Y J.b1).q (Y J.b2).q J.d
    0 ≤ turnCos (Y J.b1).q (Y J.b2).q J.d ∧ V3.dot e' e' ≤ (V3.dot e e / 4) * (V3.dot e e / 4) * V3.dot e e := by
  dsimp only
  obtain ⟨y1, y2⟩ := fixed_turn hs he X hb h1 h2 hd hi hR q1 q2 hg
  rw [y1, y2]
  obtain ⟨f, f1, f2, f3, f4⟩ := spin_turn hs (q1 := (X J.b1).q) (d := J.d) q2
  have hu := turn_unit q1 q2 hJ
  rw [f1, f2]
  have hE := dot_self_nonneg (turnErr (X J.b1).q (X J.b2).q J.d)
  generalize turnErr (X J.b1).q (X J.b2).q J.d = e at *
  generalize turnCos (X J.b1).q (X J.b2).q J.d = s at *
  have e1 : ∀ k : K, V3.dot (V3.smul k e) (V3.smul k e) = k * k * V3.dot e e := fun k => by
    unfold V3.dot; simp only [V3.smul_x, V3.smul_y, V3.smul_z]; ring
  rw [e1]
  generalize V3.dot e e = E at *
  have hs1 : s ≤ 1 := by nlinarith
  refine ⟨mul_nonneg f3.le (by linarith), mul_le_mul_of_nonneg_right ?_ hE⟩
  have hf : f * f ≤ 1 := by nlinarith [mul_nonneg (mul_self_nonneg f) hE]
  have h3 : 1 - s ≤ E / 4 := by nlinarith
  calc f * (1 - s) * (f * (1 - s)) = f * f * ((1 - s) * (1 - s)) := by ring
    _ ≤ 1 * ((1 - s) * (1 - s)) := mul_le_mul_of_nonneg_right hf (mul_self_nonneg _)
    _ = (1 - s) * (1 - s) := one_mul _
    _ ≤ _ := mul_self_le_mul_self (by linarith) h3

/-- **C129 fails.** With the opposite sign of the quaternion of one body, which is the same orientation, the correction turns the bodies apart: the square
of the error grows by a quarter at least as long as the angle is below a third of a full turn. -/
theorem fixed_flipped {cfg : JCfg K} (hs : IsSqrt cfg.sqrt) (he : 0 ≤ cfg.eps) {body : Nat → PBody K} (X : Nat → Pose K) {J : Fixed K}
    (hb : J.b1 ≠ J.b2) (h1 : FreeAxes (body J.b1)) (h2 : FreeAxes (body J.b2)) (hd : (body J.b2).dyn = true) (hi : (body J.b1).i = 0)
    (hR : cfg.eps < |(twoAt body X J.b1 J.b2).I2.det|) (q1 : (X J.b1).q.lengthSq = 1) (q2 : (X J.b2).q.lengthSq = 1) (hJ : J.d.lengthSq = 1)
    (hg : anchorAt body X J.b1 J.a1 = anchorAt body X J.b2 J.a2) (hc : turnCos (X J.b1).q (X J.b2).q J.d ≤ -1 / 2) :
    let Y := (J.position cfg body X).1
    let e := turnErr (X J.b1).q (X J.b2).q J.d
    let e' := turnErr (Y J.b1).q (Y J.b2).q J.d
    5 / 4 * V3.dot e e ≤ V3.dot e' e' := by
  dsimp only
  obtain ⟨y1, y2⟩ := fixed_turn hs he X hb h1 h2 hd hi hR q1 q2 hg
  rw [y1, y2]
  obtain ⟨f, f1, f2, f3, f4⟩ := spin_turn hs (q1 := (X J.b1).q) (d := J.d) q2
  have hu := turn_unit q1 q2 hJ
  rw [f1]
  have hE := dot_self_nonneg (turnErr (X J.b1).q (X J.b2).q J.d)
  generalize turnErr (X J.b1).q (X J.b2).q J.d = e at *
  generalize turnCos (X J.b1).q (X J.b2).q J.d = s at *
  have e1 : ∀ k : K, V3.dot (V3.smul k e) (V3.smul k e) = k * k * V3.dot e e := fun k => by
    unfold V3.dot; simp only [V3.smul_x, V3.smul_y, V3.smul_z]; ring
  rw [e1]
  generalize V3.dot e e = E at *
  refine mul_le_mul_of_nonneg_right ?_ hE
  have h3 : 9 / 4 ≤ (1 - s) * (1 - s) := by nlinarith
  have h4 : E / 4 ≤ 3 / 4 := by nlinarith
  have hf : 4 / 7 ≤ f * f := by nlinarith [mul_nonneg (mul_self_nonneg f) (show (0 : K) ≤ 3 / 4 - E / 4 by linarith)]
  calc (5 / 4 : K) ≤ 4 / 7 * (9 / 4) := by norm_num
    _ ≤ f * f * ((1 - s) * (1 - s)) := mul_le_mul hf h3 (by norm_num) (mul_self_nonneg f)
    _ = f * (1 - s) * (f * (1 - s)) := by ring

/-! ### Cone limits -/

theorem unitOf_same {cfg : JCfg K} {a b : V3 K} (h : a.lengthSq = b.lengthSq) : ∃ k, unitOf cfg a = V3.smul k a ∧ unitOf cfg b = V3.smul k b := by
  unfold unitOf
  rw [h]
  split
  · exact ⟨1, by ext <;> simp, by ext <;> simp⟩
  · exact ⟨_, rfl, rfl⟩

theorem transpose_rot {q : Quat K} (hq : q.lengthSq = 1) (v : V3 K) : q.matrix.transpose.act v = q.conj.rot v := by
  rw [← matrix_act (unit_inverse hq), matrix_of_unit hq, matrix_of_unit (unit_inverse hq)]
  simp only [M3.transpose, M3.of, M3.act, Quat.conj, V3.mk.injEq]
  refine ⟨?_, ?_, ?_⟩ <;> ring

/-- The cosine of the angle between the levers after an iteration, for a ball-and-socket joint of an immovable body and one with equal moments of inertia,
whose anchors are at the same point. -/
theorem cone_exact {cfg : JCfg K} (hs : IsSqrt cfg.sqrt) {body : Nat → PBody K} (X : Nat → Pose K) {J : Ball K} (hb : J.b1 ≠ J.b2)
    (h1 : FreeAxes (body J.b1)) (h2 : FreeAxes (body J.b2)) (hi : (body J.b1).i = 0) {j : K} (hj : 0 < j) (hj2 : (body J.b2).i = ⟨j, j, j⟩)
    (q1 : (X J.b1).q.lengthSq = 1) (q2 : (X J.b2).q.lengthSq = 1) (hg : anchorAt body X J.b1 J.a1 = anchorAt body X J.b2 J.a2) (hc : J.coneOn = true) :
    let angle := fun Z : Nat → Pose K => V3.dot (unitOf cfg (armAt body Z J.b1 J.a1)) (-unitOf cfg (armAt body Z J.b2 J.a2))
    let D := cfg.acos (angle X) - J.half
    let S := V3.dot (V3.cross (unitOf cfg (armAt body X J.b1 J.a1)) (-unitOf cfg (armAt body X J.b2 J.a2)))
      (V3.cross (unitOf cfg (armAt body X J.b1 J.a1)) (-unitOf cfg (armAt body X J.b2 J.a2)))
    0 < D → 0 < S → (1 + D * D / (4 * S)) * angle (J.position cfg body X).1 = (1 - D * D / (4 * S)) * angle X + D := by
  intro angle D S hD hS
  set u1 := unitOf cfg (armAt body X J.b1 J.a1) with hu1
  set u2 := unitOf cfg (armAt body X J.b2 J.a2) with hu2
  set J' : Ball K := { J with r1 := armAt body X J.b1 J.a1, r2 := armAt body X J.b2 J.a2 } with hJ
  have hI1 : ∀ v : V3 K, (twoAt body X J.b1 J.b2).I1.act v = 0 := fun v => by
    show (Dyn.worldInertia _ (body J.b1).i).act v = 0
    rw [hi]; exact inertia_zero _ _
  have hI2 : ∀ v : V3 K, (twoAt body X J.b1 J.b2).I2.act v = V3.smul j v := fun v => by
    show (Dyn.worldInertia (X J.b2).q.matrix (body J.b2).i).act v = _
    rw [hj2, worldInertia_act, matrix_act q2]
    have e : ∀ w : V3 K, V3.had ⟨j, j, j⟩ w = V3.smul j w := fun w => rfl
    have t := transpose_rot q2 v
    have r : (X J.b2).q.rot (V3.smul j ((X J.b2).q.conj.rot v)) = V3.smul j ((X J.b2).q.rot ((X J.b2).q.conj.rot v)) := by
      unfold Quat.rot; ext <;> simp <;> ring
    rw [e, t, r, rot_conj' q2]
  obtain ⟨-, c2⟩ := cone_rate cfg (body := body) X X (J := J') hb h1 h2 hc
  obtain ⟨n, n1, n2, n3, n4, l, n5, n6⟩ := c2 (by linarith) (by
    rw [hI1, hI2]
    have : V3.dot (V3.cross u1 (-u2)) 0 + V3.dot (V3.cross u1 (-u2)) (V3.smul j (V3.cross u1 (-u2))) = j * S := by
      show _ = j * V3.dot (V3.cross u1 (-u2)) (V3.cross u1 (-u2))
      unfold V3.dot; simp; ring
    show 0 < V3.dot (V3.cross u1 (-u2)) 0 + V3.dot (V3.cross u1 (-u2)) (V3.smul j (V3.cross u1 (-u2)))
    rw [this]; exact mul_pos hj hS)
  rw [hI1] at n5
  rw [hI2] at n6
  set Y := (J'.cone' cfg (twoAt body X J.b1 J.b2) X).1 with hY
  have y1 : Y J.b1 = X J.b1 := by
    have := n1.1
    rw [n2, n5, spin_zero, unitQ_of_unit hs q1] at this
    have e : (X J'.b1).x + 0 = (X J'.b1).x := by ext <;> simp
    rw [e] at this
    exact this
  have y2 : Y J.b2 = ⟨(X J.b2).x, spin cfg n.w2 (X J.b2).q⟩ := by
    have := n1.2.1
    rw [n3] at this
    have e : (X J'.b2).x + 0 = (X J'.b2).x := by ext <;> simp
    rw [e] at this
    exact this
  have hpo : (J.position cfg body X).1 = Y := by
    have h : (J.position cfg body X).1 = (pull cfg ((body J.b1).dyn || (body J.b2).dyn) (twoAt body X J.b1 J.b2) (armAt body X J.b1 J.a1)
      (armAt body X J.b2 J.a2) Y).1 := rfl
    rw [h]
    refine pull_zero hs _ _ ?_ ?_ ?_
    · show (Y J.b1).q.lengthSq = 1
      rw [y1, q1]
    · show (Y J.b2).q.lengthSq = 1
      rw [y2]
      exact spin_unit hs _ (by rw [q2]; exact one_ne_zero)
    · show (Y J.b1).x + _ = (Y J.b2).x + _
      rw [y1, y2]
      exact hg
  rw [hpo]
  have a1 : armAt body Y J.b1 J.a1 = armAt body X J.b1 J.a1 := by unfold armAt; rw [y1]
  have a2 : armAt body Y J.b2 J.a2 = (spin cfg n.w2 (X J.b2).q).rot (J.a2 - (body J.b2).com) := by unfold armAt; rw [y2]
  have hlen : (armAt body X J.b2 J.a2).lengthSq = (armAt body Y J.b2 J.a2).lengthSq := by
    rw [a2]
    unfold armAt
    have d1 := rot_dot q2 (J.a2 - (body J.b2).com) (J.a2 - (body J.b2).com)
    have d2 := rot_dot (spin_unit hs n.w2 (q := (X J.b2).q) (by rw [q2]; exact one_ne_zero)) (J.a2 - (body J.b2).com) (J.a2 - (body J.b2).com)
    rw [← d2] at d1
    exact d1
  obtain ⟨k, k1, k2⟩ := unitOf_same (cfg := cfg) hlen
  set w := n.w2 with hw
  have hx : V3.dot w u2 = 0 := by
    rw [n6]
    show V3.dot (V3.smul j (V3.smul (-l) (V3.cross u1 (-u2)))) u2 = 0
    unfold V3.dot V3.cross; simp; ring
  have hD1 : D = j * l * S := by
    have : n.between u1 (-u2) = D := n4
    rw [← this]
    unfold Nudge.between
    rw [n5, ← hw, n6]
    show V3.dot (V3.cross 0 u1) (-u2) + V3.dot u1 (V3.cross (V3.smul j (V3.smul (-l) (V3.cross u1 (-u2)))) (-u2)) =
      j * l * V3.dot (V3.cross u1 (-u2)) (V3.cross u1 (-u2))
    unfold V3.dot V3.cross; simp; ring
  have hww : V3.dot w w = D * D / S := by
    rw [eq_div_iff hS.ne', hD1, n6]
    show V3.dot (V3.smul j (V3.smul (-l) (V3.cross u1 (-u2)))) (V3.smul j (V3.smul (-l) (V3.cross u1 (-u2)))) * S = _
    have : V3.dot (V3.smul j (V3.smul (-l) (V3.cross u1 (-u2)))) (V3.smul j (V3.smul (-l) (V3.cross u1 (-u2)))) = j * j * (l * l) * S := by
      show _ = j * j * (l * l) * V3.dot (V3.cross u1 (-u2)) (V3.cross u1 (-u2))
      unfold V3.dot; simp; ring
    rw [this]; ring
  have hD2 : V3.dot u1 (V3.cross w (-u2)) = D := by
    have : n.between u1 (-u2) = D := n4
    rw [← this]
    unfold Nudge.between
    rw [n5, ← hw]
    unfold V3.dot V3.cross; simp
  have hq : D * D / (4 * S) = V3.dot w w / 4 := by rw [hww]; field_simp
  have hu2' : unitOf cfg (armAt body Y J.b2 J.a2) = V3.smul (1 / (1 + V3.dot w w / 4)) (V3.smul (1 - V3.dot w w / 4) u2 + V3.cross w u2) := by
    rw [k2, a2, spin_rot hs w q2]
    have r : (X J.b2).q.rot (J.a2 - (body J.b2).com) = armAt body X J.b2 J.a2 := rfl
    rw [r]
    have hx' : V3.smul (k * (V3.dot w (armAt body X J.b2 J.a2) / 2)) w = 0 := by
      have : k * V3.dot w (armAt body X J.b2 J.a2) = 0 := by
        rw [← hx, hu2, k1]; unfold V3.dot; simp; ring
      have e : k * (V3.dot w (armAt body X J.b2 J.a2) / 2) = 0 := by rw [← mul_div_assoc, this, zero_div]
      rw [e]; ext <;> simp
    rw [hu2, k1]
    generalize armAt body X J.b2 J.a2 = r2 at *
    have ex := congrArg V3.x hx'
    have ey := congrArg V3.y hx'
    have ez := congrArg V3.z hx'
    simp only [V3.smul_x, V3.smul_y, V3.smul_z, V3.zero_x, V3.zero_y, V3.zero_z] at ex ey ez
    generalize 1 / (1 + V3.dot w w / 4) = z
    ext
    · simp only [V3.smul_x, V3.smul_y, V3.smul_z, V3.add_x, V3.cross]; linear_combination z * ex
    · simp only [V3.smul_x, V3.smul_y, V3.smul_z, V3.add_y, V3.cross]; linear_combination z * ey
    · simp only [V3.smul_x, V3.smul_y, V3.smul_z, V3.add_z, V3.cross]; linear_combination z * ez
  show (1 + D * D / (4 * S)) * V3.dot (unitOf cfg (armAt body Y J.b1 J.a1)) (-unitOf cfg (armAt body Y J.b2 J.a2)) =
    (1 - D * D / (4 * S)) * V3.dot u1 (-u2) + D
  rw [hu2', a1, ← hu1, hq, ← hD2]
  have hp := (half_pos w).ne'
  have e : V3.dot u1 (-V3.smul (1 / (1 + V3.dot w w / 4)) (V3.smul (1 - V3.dot w w / 4) u2 + V3.cross w u2)) =
      1 / (1 + V3.dot w w / 4) * ((1 - V3.dot w w / 4) * V3.dot u1 (-u2) + V3.dot u1 (V3.cross w (-u2))) := by
    generalize 1 / (1 + V3.dot w w / 4) = z
    generalize 1 - V3.dot w w / 4 = y
    unfold V3.dot V3.cross; simp; ring
  rw [e, ← mul_assoc, mul_one_div_cancel hp, one_mul]

end Joints
end RP3D
