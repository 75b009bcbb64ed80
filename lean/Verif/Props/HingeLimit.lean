import Verif.Props.PositionExamples

/-! The limits of hinges in the position solver (C112). -/

set_option linter.unusedSectionVars false

namespace RP3D
namespace Joints
open Solver JointProps.Ex
variable {K : Type} [Field K] [LinearOrder K] [IsStrictOrderedRing K]

/-- The same hinge without limits. -/
def Hinge.noLimit (J : Hinge K) : Hinge K := { J with limitOn := false }

theorem limits_idle {cfg : JCfg K} (hs : IsSqrt cfg.sqrt) (c : Two K) {X : Nat → Pose K} (hq : ∀ b, (X b).q.lengthSq = 1) (J : Hinge K) (hk : J.km = 0)
    (eL eU : K) : J.limits' cfg c eL eU X = (X, J) := by
  have t : twist cfg c 0 0 X = X := twist_zero hs c (hq _) (hq _)
  unfold Hinge.limits'
  split
  · rw [hk]
    dsimp only
    simp only [zero_mul, neg_zero, smul_zero_left, t, ite_self, lt_irrefl, if_false]
    rw [← hk]
  · rfl

theorem Hinge.position_idle {cfg : JCfg K} (hs : IsSqrt cfg.sqrt) (body : Nat → PBody K) {X : Nat → Pose K} (hq : ∀ b, (X b).q.lengthSq = 1) {J : Hinge K}
    (hk : J.km = 0) : (J.position cfg body X).1 = (J.noLimit.position cfg body X).1 ∧
      (J.position cfg body X).2.noLimit = (J.noLimit.position cfg body X).2 ∧ (J.position cfg body X).2.km = 0 := by
  have rk : ∀ (N : Hinge K) (dyn : Bool) (c : Two K) (b v : V3 K) (X : Nat → Pose K), (N.rotate' cfg dyn c b v X).2.km = N.km ∧
      (N.rotate' cfg dyn c b v X).1 = (N.noLimit.rotate' cfg dyn c b v X).1 ∧
      (N.rotate' cfg dyn c b v X).2.noLimit = (N.noLimit.rotate' cfg dyn c b v X).2 := by
    intro N dyn c b v X
    unfold Hinge.rotate' Hinge.noLimit
    dsimp only
    split <;> exact ⟨rfl, rfl, rfl⟩
  set N : Hinge K := { J with r1 := armAt body X J.b1 J.a1, r2 := armAt body X J.b2 J.a2, ax := unitOf cfg ((X J.b1).q.rot J.l1), ba := V3.cross (orthogonal cfg.sqrt (unitOf cfg ((X J.b2).q.rot J.l2))) (unitOf cfg ((X J.b1).q.rot J.l1)), ca := V3.cross (V3.cross (unitOf cfg ((X J.b2).q.rot J.l2)) (orthogonal cfg.sqrt (unitOf cfg ((X J.b2).q.rot J.l2)))) (unitOf cfg ((X J.b1).q.rot J.l1)), low := decide (hingeAngle cfg J.d (unitOf cfg ((X J.b1).q.rot J.l1)) J.lower J.upper (X J.b1).q (X J.b2).q - J.lower ≤ 0), up := decide (J.upper - hingeAngle cfg J.d (unitOf cfg ((X J.b1).q.rot J.l1)) J.lower J.upper (X J.b1).q (X J.b2).q ≤ 0) } with hN
  set b := orthogonal cfg.sqrt (unitOf cfg ((X J.b2).q.rot J.l2)) with hb
  set v := V3.cross (unitOf cfg ((X J.b2).q.rot J.l2)) b with hv
  set dyn := ((body J.b1).dyn || (body J.b2).dyn) with hdyn
  set a := hingeAngle cfg J.d (unitOf cfg ((X J.b1).q.rot J.l1)) J.lower J.upper (X J.b1).q (X J.b2).q with ha
  have p : ∀ M : Hinge K, M = N ∨ M = N.noLimit → M.limits' cfg (twoAt body X J.b1 J.b2) (a - J.lower) (J.upper - a) X = (X, M) := by
    rintro M (rfl | rfl)
    · exact limits_idle hs _ hq N (show J.km = 0 from hk) _ _
    · exact limits_idle hs _ hq N.noLimit (show J.km = 0 from hk) _ _
  have e1 : J.position cfg body X = ((pull cfg dyn (twoAt body X J.b1 J.b2) N.r1 N.r2 (N.rotate' cfg dyn (twoAt body X J.b1 J.b2) b v X).1).1,
      { (N.rotate' cfg dyn (twoAt body X J.b1 J.b2) b v X).2 with
        k := (pull cfg dyn (twoAt body X J.b1 J.b2) N.r1 N.r2 (N.rotate' cfg dyn (twoAt body X J.b1 J.b2) b v X).1).2 }) := by
    show (let s := N.limits' cfg (twoAt body X J.b1 J.b2) (a - J.lower) (J.upper - a) X
      let t := s.2.rotate' cfg dyn (twoAt body X J.b1 J.b2) b v s.1
      let p := pull cfg dyn (twoAt body X J.b1 J.b2) N.r1 N.r2 t.1
      (p.1, { t.2 with k := p.2 })) = _
    rw [p N (.inl rfl)]
  have e2 : J.noLimit.position cfg body X = ((pull cfg dyn (twoAt body X J.b1 J.b2) N.r1 N.r2
      (N.noLimit.rotate' cfg dyn (twoAt body X J.b1 J.b2) b v X).1).1, { (N.noLimit.rotate' cfg dyn (twoAt body X J.b1 J.b2) b v X).2 with
        k := (pull cfg dyn (twoAt body X J.b1 J.b2) N.r1 N.r2 (N.noLimit.rotate' cfg dyn (twoAt body X J.b1 J.b2) b v X).1).2 }) := by
    show (let s := N.noLimit.limits' cfg (twoAt body X J.b1 J.b2) (a - J.lower) (J.upper - a) X
      let t := s.2.rotate' cfg dyn (twoAt body X J.b1 J.b2) b v s.1
      let p := pull cfg dyn (twoAt body X J.b1 J.b2) N.r1 N.r2 t.1
      (p.1, { t.2 with k := p.2 })) = _
    rw [p N.noLimit (.inr rfl)]
  obtain ⟨r1, r2, r3⟩ := rk N dyn (twoAt body X J.b1 J.b2) b v X
  rw [e1, e2, ← r2, ← r3]
  exact ⟨rfl, rfl, r1.trans hk⟩

theorem each_idle {cfg : JCfg K} (hs : IsSqrt cfg.sqrt) (body : Nat → PBody K) : ∀ (js : List (Hinge K)) {X : Nat → Pose K} (_ : ∀ b, (X b).q.lengthSq = 1)
    (_ : ∀ J ∈ js, J.km = 0),
    (each Hinge.baum (Hinge.position cfg body) X js).1 = (each Hinge.baum (Hinge.position cfg body) X (js.map Hinge.noLimit)).1 ∧
      (each Hinge.baum (Hinge.position cfg body) X js).2.map Hinge.noLimit = (each Hinge.baum (Hinge.position cfg body) X (js.map Hinge.noLimit)).2 ∧
      ∀ J ∈ (each Hinge.baum (Hinge.position cfg body) X js).2, J.km = 0
  | [], X, _, _ => ⟨rfl, rfl, by simp [each]⟩
  | J :: js, X, hq, hk => by
    have c : ∀ (I : Hinge K) (ks : List (Hinge K)), each Hinge.baum (Hinge.position cfg body) X (I :: ks) =
      ((each Hinge.baum (Hinge.position cfg body) (if I.baum then (X, I) else I.position cfg body X).1 ks).1,
        (if I.baum then (X, I) else I.position cfg body X).2 ::
          (each Hinge.baum (Hinge.position cfg body) (if I.baum then (X, I) else I.position cfg body X).1 ks).2) := fun _ _ => rfl
    have hk' : ∀ I ∈ js, I.km = 0 := fun I hI => hk I (List.mem_cons_of_mem _ hI)
    have e : J.noLimit.baum = J.baum := rfl
    rw [List.map_cons, c, c, e]
    by_cases hb : J.baum = true
    · rw [if_pos hb, if_pos hb]
      obtain ⟨h1, h2, h3⟩ := each_idle hs body js hq hk'
      refine ⟨h1, ?_, ?_⟩
      · dsimp only
        rw [List.map_cons, h2]
      · dsimp only
        intro I hI
        rcases List.mem_cons.1 hI with h | h
        · rw [h]; exact hk J List.mem_cons_self
        · exact h3 I h
    · rw [if_neg hb, if_neg hb]
      obtain ⟨p1, p2, p3⟩ := Hinge.position_idle hs body hq (hk J List.mem_cons_self)
      have hq' : ∀ b, ((J.position cfg body X).1 b).q.lengthSq = 1 := fun b =>
        (Hinge.position_ok (cfg := cfg) (body := body) (P := fun _ _ => True) J trivial X).1.unit hs b (hq b)
      obtain ⟨h1, h2, h3⟩ := each_idle hs body js hq' hk'
      rw [← p1]
      refine ⟨h1, ?_, ?_⟩
      · dsimp only
        rw [List.map_cons, h2, p2]
      · dsimp only
        intro I hI
        rcases List.mem_cons.1 hI with h | h
        · rw [h]; exact p3
        · exact h3 I h

/-- All hinges without limits. -/
def Pins.noLimits (S : Pins K) : Pins K := { S with hinges := S.hinges.map Hinge.noLimit }

/-- **C112 fails.** The position solver takes the inverse mass of the limit from before (SolveHingeJointSystem.cpp:538, 554, 581). It is zero from the
creation of the hinge until a step begins with a limit violated or with a motor, and as long as it is zero the limits have no effect, in any number of
iterations. -/
theorem limit_idle {cfg : JCfg K} (hs : IsSqrt cfg.sqrt) (body : Nat → PBody K) : ∀ (n : Nat) {X : Nat → Pose K} (_ : ∀ b, (X b).q.lengthSq = 1)
    {S : Pins K} (_ : ∀ J ∈ S.hinges, J.km = 0), (correct cfg body n (X, S)).1 = (correct cfg body n (X, S.noLimits)).1
  | 0, _, _, _, _ => rfl
  | n + 1, X, hq, S, hk => by
    obtain ⟨h1, h2, h3⟩ := each_idle hs body S.hinges (X := (each Fixed.baum (Fixed.position cfg body) (each Ball.baum (Ball.position cfg body) X S.balls).1 S.fixeds).1)
      (fun b => by
        refine (each_ok (c1 := Fixed.b1) (c2 := Fixed.b2) (baum := Fixed.baum) (cfg := cfg) (body := body) (f := Fixed.position cfg body)
          (fun P j X h => Fixed.position_ok j h X) S.fixeds _).1.unit hs b ?_
        exact (each_ok (c1 := Ball.b1) (c2 := Ball.b2) (baum := Ball.baum) (cfg := cfg) (body := body) (f := Ball.position cfg body)
          (fun P j X h => Ball.position_ok j h X) S.balls _).1.unit hs b (hq b)) hk
    have e1 : (positionAll cfg body X S.noLimits).1 = (positionAll cfg body X S).1 := by
      unfold positionAll Pins.noLimits
      dsimp only
      rw [h1]
    have e2 : (positionAll cfg body X S.noLimits).2 = (positionAll cfg body X S).2.noLimits := by
      unfold positionAll Pins.noLimits
      dsimp only
      rw [h1, h2]
    show (correct cfg body n ((positionAll cfg body X S).1, (positionAll cfg body X S).2)).1 =
      (correct cfg body n ((positionAll cfg body X S.noLimits).1, (positionAll cfg body X S.noLimits).2)).1
    rw [e1, e2]
    exact limit_idle hs body n (fun b => (positionAll_ok cfg body X S).1.unit hs b (hq b)) h3

/-- A hinge that is not beyond its limits at the beginning of a step and has no motor keeps the inverse mass of before. -/
theorem init_keeps_mass {cfg : JCfg K} {body : Nat → JBody K} {J : Hinge K} (hm : J.motorOn = false)
    (h : J.limitOn = false ∨ ((J.init cfg body).low = false ∧ (J.init cfg body).up = false)) : (J.init cfg body).km = J.km := by
  unfold Hinge.init at *
  dsimp only at *
  rw [hm]
  rcases h with h | ⟨h1, h2⟩
  · rw [h]; rfl
  · rw [h1, h2]; simp

/-- **C112, the part that holds.** With the inverse mass of the moment, two bodies without locked rotations, and one limit violated, the limit turns the
bodies by pseudo velocities whose difference along the axis is minus the error: it turns the angle back to the limit, in first order. What is missing: the
inverse mass may be an old one, see `limit_idle`. -/
theorem limit_turn_partial (cfg : JCfg K) (body : Nat → PBody K) (X : Nat → Pose K) (J : Hinge K) (hb : J.b1 ≠ J.b2) (ho : J.limitOn = true)
    (h1 : (body J.b1).la = ⟨1, 1, 1⟩) (h2 : (body J.b2).la = ⟨1, 1, 1⟩) (eL eU : K) (hl : J.low = decide (eL ≤ 0)) (hu : J.up = decide (eU ≤ 0))
    (hm : J.km * (V3.dot J.ax ((twoAt body X J.b1 J.b2).I1.act J.ax) + V3.dot J.ax ((twoAt body X J.b1 J.b2).I2.act J.ax)) = 1)
    (hsum : 0 < eL + eU) :
    ∃ w1 w2, (eL ≤ 0 ∨ eU ≤ 0 → (J.limits' cfg (twoAt body X J.b1 J.b2) eL eU X).1 J.b1 = ⟨(X J.b1).x, spin cfg w1 (X J.b1).q⟩ ∧
        (J.limits' cfg (twoAt body X J.b1 J.b2) eL eU X).1 J.b2 = ⟨(X J.b2).x, spin cfg w2 (X J.b2).q⟩) ∧
      (eL ≤ 0 → V3.dot J.ax (w2 - w1) = -eL) ∧ (eU ≤ 0 → V3.dot J.ax (w2 - w1) = eU) ∧
      (0 < eL → 0 < eU → (J.limits' cfg (twoAt body X J.b1 J.b2) eL eU X).1 = X) := by
  have o : ∀ (P : V3 K), V3.had (⟨1, 1, 1⟩ : V3 K) P = P := fun P => by ext <;> simp [V3.had]
  have tw : ∀ A1 A2 : V3 K, twist cfg (twoAt body X J.b1 J.b2) A1 A2 X J.b1 = ⟨(X J.b1).x, spin cfg ((twoAt body X J.b1 J.b2).I1.act A1) (X J.b1).q⟩ ∧
      twist cfg (twoAt body X J.b1 J.b2) A1 A2 X J.b2 = ⟨(X J.b2).x, spin cfg ((twoAt body X J.b1 J.b2).I2.act A2) (X J.b2).q⟩ := by
    intro A1 A2
    have e0 : ∀ (k : V3 K), V3.had k (-0 : V3 K) = 0 := fun k => by ext <;> simp [V3.had]
    have e1 : ∀ v : V3 K, v + 0 = v := fun v => by ext <;> simp
    rw [twist_eq]
    refine ⟨?_, ?_⟩
    · rw [place_at]
      have : ¬ J.b1 = (twoAt body X J.b1 J.b2).b2 := hb
      have t1 : J.b1 = (twoAt body X J.b1 J.b2).b1 := rfl
      rw [if_neg this, if_pos t1]
      show Pose.mk ((X J.b1).x + V3.had _ (-0)) (spin cfg (V3.had (body J.b1).la _) (X J.b1).q) = _
      rw [e0, e1, h1, o]
    · rw [place_at]
      have : ¬ J.b2 = (twoAt body X J.b1 J.b2).b1 := Ne.symm hb
      have t2 : J.b2 = (twoAt body X J.b1 J.b2).b2 := rfl
      rw [if_neg this]
      dsimp only
      rw [if_pos t2]
      show Pose.mk ((X J.b2).x + V3.had _ 0) (spin cfg (V3.had (body J.b2).la _) (X J.b2).q) = _
      rw [had_zero, e1, h2, o]
  have lin : ∀ (I : M3 K) (k : K) (a : V3 K), V3.dot a (I.act (V3.smul k a)) = k * V3.dot a (I.act a) := fun I k a => by
    unfold M3.act V3.dot; simp only [V3.smul_x, V3.smul_y, V3.smul_z]; ring
  have dsub : ∀ a b c : V3 K, V3.dot a (b - c) = V3.dot a b - V3.dot a c := fun a b c => by
    unfold V3.dot; simp only [V3.sub_x, V3.sub_y, V3.sub_z]; ring
  rcases le_or_gt eL 0 with hL | hL
  · have hU : ¬ eU ≤ 0 := fun h => by linarith
    have e : (J.limits' cfg (twoAt body X J.b1 J.b2) eL eU X).1 =
        twist cfg (twoAt body X J.b1 J.b2) (V3.smul (-(J.km * -eL)) J.ax) (V3.smul (J.km * -eL) J.ax) X := by
      unfold Hinge.limits'
      rw [if_pos ho]
      dsimp only
      rw [hl, hu, decide_eq_true hL, decide_eq_false hU]
      simp
    refine ⟨_, _, fun _ => by rw [e]; exact tw _ _, fun _ => ?_, fun h => absurd h hU, fun h => absurd h (not_lt.2 hL)⟩
    rw [dsub, lin, lin]
    linear_combination (-eL) * hm
  · rcases le_or_gt eU 0 with hU | hU
    · have e : (J.limits' cfg (twoAt body X J.b1 J.b2) eL eU X).1 =
          twist cfg (twoAt body X J.b1 J.b2) (V3.smul (J.km * -eU) J.ax) (V3.smul (-(J.km * -eU)) J.ax) X := by
        unfold Hinge.limits'
        rw [if_pos ho]
        dsimp only
        rw [hl, hu, decide_eq_false (not_le.2 hL), decide_eq_true hU]
        simp
      refine ⟨_, _, fun _ => by rw [e]; exact tw _ _, fun h => absurd h (not_le.2 hL), fun _ => ?_, fun _ h => absurd h (not_lt.2 hU)⟩
      rw [dsub, lin, lin]
      linear_combination eU * hm
    · refine ⟨0, 0, fun h => ?_, fun h => absurd h (not_le.2 hL), fun h => absurd h (not_le.2 hU), fun _ _ => ?_⟩
      · rcases h with h | h
        · exact absurd h (not_le.2 hL)
        · exact absurd h (not_le.2 hU)
      · unfold Hinge.limits'
        rw [if_pos ho]
        dsimp only
        rw [hl, hu, decide_eq_false (not_le.2 hL), decide_eq_false (not_le.2 hU)]
        simp

/-! ### Examples -/

namespace Ex

/-- A hinge whose angle is 1/2, beyond its upper limit 1/4: body 1 is turned, and the arc tangent of the example says so. -/
def jh : JCfg ℚ := { jc with atan2 := fun _ c => if c = 1 then 0 else 1 / 4 }
def swung (b : Nat) : Pose ℚ := if b = 1 then ⟨⟨2, 0, 0⟩, ⟨0, 0, 3 / 5, 4 / 5⟩⟩ else ⟨0, Quat.one⟩
def door : Hinge ℚ := { hinge ⟨2, 0, 0⟩ 0 with limitOn := true, lower := -1, upper := 1 / 4 }

end Ex

/-- **C112 fails.** A new hinge beyond its upper limit is left alone, and is turned back once the inverse mass is there. -/
theorem limit_not_corrected :
    hingeAngle Ex.jh Ex.door.d (unitOf Ex.jh ((Ex.swung 0).q.rot Ex.door.l1)) Ex.door.lower Ex.door.upper (Ex.swung 0).q (Ex.swung 1).q = 1 / 2 ∧
    (correct Ex.jh (fun _ => Ex.free) 1 (Ex.swung, ⟨[], [], [Ex.door], []⟩)).1 1 = Ex.swung 1 ∧
    (correct Ex.jh (fun _ => Ex.free) 1 (Ex.swung, ⟨[], [], [{ Ex.door with km := 1 / 2 }], []⟩)).1 1 ≠ Ex.swung 1 := by
  decide +kernel

/-- The hypotheses of `limit_turn_partial` hold of that hinge with its inverse mass. -/
example : ∃ J : Hinge ℚ, J.b1 ≠ J.b2 ∧ J.limitOn = true ∧ Ex.free.la = ⟨1, 1, 1⟩ ∧ J.low = decide ((3 / 2 : ℚ) ≤ 0) ∧ J.up = decide ((-1 / 4 : ℚ) ≤ 0) ∧
    J.km * (V3.dot J.ax ((twoAt (fun _ => Ex.free) Ex.swung J.b1 J.b2).I1.act J.ax) +
      V3.dot J.ax ((twoAt (fun _ => Ex.free) Ex.swung J.b1 J.b2).I2.act J.ax)) = 1 ∧ (0 : ℚ) < 3 / 2 + -1 / 4 :=
  ⟨{ Ex.door with ax := ⟨0, 0, 1⟩, up := true, km := 1 / 2 }, by decide, rfl, rfl, by decide +kernel, by decide +kernel, by decide +kernel, by norm_num⟩

/-- The hypotheses of `init_keeps_mass` hold of a hinge inside of its limits. -/
example : Ex.door.motorOn = false ∧ (Ex.door.init jc (both ⟨2, 0, 0⟩)).low = false ∧ (Ex.door.init jc (both ⟨2, 0, 0⟩)).up = false := by decide +kernel

/-! ### Examples with a square root -/

namespace Ex

noncomputable def jr : JCfg ℝ := ⟨1, 1 / 5, 1 / 8388608, true, 355 / 113, Real.sqrt, fun _ => 0, fun _ _ => 0, fun x _ => x⟩
noncomputable def freeR : PBody ℝ := ⟨1, ⟨1, 1, 1⟩, 0, ⟨1, 1, 1⟩, ⟨1, 1, 1⟩, true⟩
noncomputable def stuckR : PBody ℝ := ⟨0, 0, 0, ⟨1, 1, 1⟩, ⟨1, 1, 1⟩, false⟩
/-- Body 0 is static. -/
noncomputable def bodyR (b : Nat) : PBody ℝ := if b = 0 then stuckR else freeR
/-- The anchors are a tenth apart. -/
noncomputable def poseR (b : Nat) : Pose ℝ := if b = 1 then ⟨⟨2, 1 / 10, 0⟩, Quat.one⟩ else ⟨0, Quat.one⟩
noncomputable def ballR : Ball ℝ := ⟨0, 1, false, ⟨1, 0, 0⟩, ⟨-1, 0, 0⟩, 0, 0, M3.zero, 0, 0, false, 1, 0, false, 0, 0, 0⟩
/-- A second pendulum at the same static body. -/
noncomputable def ballR' : Ball ℝ := { ballR with b2 := 2 }
noncomputable def pinsR : Pins ℝ := ⟨[ballR', ballR], [], [], []⟩

theorem unit_pose (b : Nat) : (poseR b).q.lengthSq = 1 := by
  unfold poseR
  split <;> norm_num [Quat.one, Quat.lengthSq]

end Ex

theorem rot_one' (v : V3 ℝ) : (Quat.one : Quat ℝ).rot v = v := by
  unfold Quat.one Quat.rot
  ext <;> simp

/-- The hypotheses of `ball_pass_partial`, `ball_converges_partial`, `ball_converges_later_partial` and `ball_closes_partial` hold of a pendulum beside another one, whose anchors are
apart. -/
example : IsSqrt Ex.jr.sqrt ∧ 0 ≤ Ex.jr.eps ∧ UnitAt Ex.poseR Ex.ballR ∧ Movable Ex.jr Ex.bodyR 1 1 Ex.ballR ∧ Alone Ex.bodyR Ex.pinsR Ex.ballR ∧
    gapSq Ex.bodyR Ex.poseR 0 1 Ex.ballR.a1 Ex.ballR.a2 = 1 / 100 ∧ rate Ex.bodyR 1 1 Ex.ballR = 1 / 8 := by
  have hi : Inertial (1 : ℝ) (⟨1, 1, 1⟩ : V3 ℝ) := by unfold Inertial; norm_num
  have h0 : Inertial (1 : ℝ) (0 : V3 ℝ) := by unfold Inertial; norm_num
  refine ⟨RayProps.realSqrt, by norm_num [Ex.jr], fun c _ => Ex.unit_pose c, ⟨by decide, ⟨rfl, rfl, h0⟩, ⟨rfl, rfl, hi⟩, ?_, ?_, rfl, ?_, ?_, rfl⟩,
    ⟨rfl, [Ex.ballR'], [], rfl, ?_⟩, ?_, ?_⟩
  · norm_num [Ex.bodyR, Ex.ballR, Ex.freeR, Ex.stuckR]
  · norm_num [Ex.bodyR, Ex.ballR, Ex.freeR, Ex.stuckR, Ex.jr]
  · norm_num [Ex.bodyR, Ex.ballR, Ex.freeR, Ex.stuckR, V3.dot]
  · norm_num [Ex.bodyR, Ex.ballR, Ex.freeR, Ex.stuckR, V3.dot]
  · rintro c (rfl | rfl)
    · exact .inl ⟨rfl, rfl⟩
    · refine .inr ⟨?_, by simp [Ex.pinsR], by simp [Ex.pinsR], by simp [Ex.pinsR]⟩
      intro j hj _
      simp only [List.append_nil, List.mem_singleton] at hj
      subst hj
      exact ⟨by decide, by decide⟩
  · have e0 : Ex.poseR 0 = ⟨0, Quat.one⟩ := rfl
    have e1 : Ex.poseR 1 = ⟨⟨2, 1 / 10, 0⟩, Quat.one⟩ := rfl
    unfold gapSq anchorAt
    rw [e0, e1]
    simp only [rot_one']
    norm_num [Ex.bodyR, Ex.ballR, Ex.freeR, Ex.stuckR, V3.dot]
  · norm_num [rate, Ex.bodyR, Ex.ballR, Ex.freeR, Ex.stuckR]

/-- The hypotheses of `correct_hold_partial` and `limit_idle` hold of a joint whose anchors meet. -/
example : IsSqrt Ex.jr.sqrt ∧ (∀ b, (Ex.poseR b).q.lengthSq = 1) ∧
    Pins.Holds Ex.jr Ex.bodyR Ex.poseR ⟨[{ Ex.ballR with a2 := ⟨-1, -1 / 10, 0⟩ }], [], [], []⟩ := by
  refine ⟨RayProps.realSqrt, Ex.unit_pose, ⟨?_, by simp, by simp, by simp⟩⟩
  intro J hJ _
  simp only [List.mem_singleton] at hJ
  subst hJ
  refine ⟨?_, fun h => absurd h (by decide)⟩
  have e0 : Ex.poseR 0 = ⟨0, Quat.one⟩ := rfl
  have e1 : Ex.poseR 1 = ⟨⟨2, 1 / 10, 0⟩, Quat.one⟩ := rfl
  show anchorAt Ex.bodyR Ex.poseR 0 ⟨1, 0, 0⟩ = anchorAt Ex.bodyR Ex.poseR 1 ⟨-1, -1 / 10, 0⟩
  unfold anchorAt
  rw [e0, e1]
  simp only [rot_one']
  ext <;> norm_num [Ex.bodyR, Ex.ballR, Ex.freeR, Ex.stuckR]

/-- C108: the hypotheses of `correct_static`, `correct_locked` and `correct_unit` hold of the static body 0 of two pendulums, those of `correct_others` of
body 3. -/
example : (Ex.bodyR 0).m = 0 ∧ (Ex.bodyR 0).i = 0 ∧ (Ex.poseR 0).q.lengthSq = 1 ∧ (∀ c, ¬ Ex.pinsR.Acts 3 c ∧ ¬ Ex.pinsR.Acts c 3) :=
  ⟨rfl, rfl, Ex.unit_pose 0, fun c => by
    constructor <;> rintro (⟨j, hj, _, h1, h2⟩ | ⟨j, hj, _⟩ | ⟨j, hj, _⟩ | ⟨j, hj, _⟩)
    all_goals first
      | (simp only [Ex.pinsR, List.mem_cons, List.not_mem_nil, or_false] at hj
         rcases hj with rfl | rfl <;> simp [Ex.ballR, Ex.ballR'] at h1 h2)
      | simp [Ex.pinsR] at hj⟩

/-- C108: the hypotheses of `correct_center` hold of two bodies with a ball-and-socket joint, and the joint moves them. -/
example : (∀ b ∈ ({0, 1} : Finset Nat), (1 : ℚ) * Ex.free.m = 1 ∧ Ex.free.ll = ⟨1, 1, 1⟩) ∧
    (∀ a b, (⟨[ball ⟨1, 0, 0⟩ ⟨-2, 0, 0⟩], [], [], []⟩ : Pins ℚ).Acts a b → (a ∈ ({0, 1} : Finset Nat) ↔ b ∈ ({0, 1} : Finset Nat))) ∧
    ((correct jc (fun _ => Ex.free) 1 (Ex.off, ⟨[ball ⟨1, 0, 0⟩ ⟨-2, 0, 0⟩], [], [], []⟩)).1 0).x ≠ (Ex.off 0).x := by
  refine ⟨fun b _ => ⟨by decide +kernel, rfl⟩, ?_, by decide +kernel⟩
  rintro a b (⟨j, hj, _, h1, h2⟩ | ⟨j, hj, _⟩ | ⟨j, hj, _⟩ | ⟨j, hj, _⟩)
  · simp only [List.mem_singleton] at hj
    subst hj
    rw [← h1, ← h2]
    decide
  all_goals simp at hj

end Joints
end RP3D
