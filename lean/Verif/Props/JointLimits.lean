import Verif.Props.JointVelocity

/-! C94: limits and motors of joints; what the solvers leave alone. -/

set_option linter.unusedSectionVars false

namespace RP3D
namespace JointProps
open Solver Joints SolverProps
variable {K : Type} [Field K] [LinearOrder K] [IsStrictOrderedRing K]

/-! ### Signs of the impulses -/

/-- Limits only push. -/
def LimitsPush : Joint K → Prop
  | .ball J => 0 ≤ J.coneImp
  | .fixed _ => True
  | .hinge J => 0 ≤ J.impL ∧ 0 ≤ J.impU
  | .slider J => 0 ≤ J.impL ∧ 0 ≤ J.impU

/-- The motors are not stronger than the user says. -/
def MotorBounded (dt : K) : Joint K → Prop
  | .ball _ => True
  | .fixed _ => True
  | .hinge J => J.motorOn = true → |J.impM| ≤ J.max * dt
  | .slider J => J.motorOn = true → |J.impM| ≤ J.max * dt

theorem LimitsPush.init {J : Joint K} (h : LimitsPush J) (jc : JCfg K) (body : Nat → JBody K) : LimitsPush (J.init jc body) := by
  cases J with
  | ball J =>
    change 0 ≤ (Ball.init jc body J).coneImp
    unfold Ball.init
    dsimp only
    split_ifs
    · exact le_refl _
    · exact h
  | fixed J => trivial
  | hinge J =>
    obtain ⟨h1, h2⟩ := h
    change 0 ≤ (Hinge.init jc body J).impL ∧ 0 ≤ (Hinge.init jc body J).impU
    unfold Hinge.init
    dsimp only
    constructor <;> split_ifs <;> first | exact le_refl _ | assumption
  | slider J =>
    obtain ⟨h1, h2⟩ := h
    change 0 ≤ (Slider.init jc body J).impL ∧ 0 ≤ (Slider.init jc body J).impU
    unfold Slider.init
    dsimp only
    constructor <;> split_ifs <;> first | exact le_refl _ | assumption

theorem Hinge.limitL_imp (body : Nat → JBody K) (J : Hinge K) (V : Nat → Vel K) : (0 ≤ J.impL → 0 ≤ (J.limitL body V).2.impL) ∧
    (J.limitL body V).2.impU = J.impU := by
  unfold Hinge.limitL
  split_ifs
  · exact ⟨fun _ => le_max_right _ _, rfl⟩
  · exact ⟨id, rfl⟩

theorem Hinge.limitU_imp (body : Nat → JBody K) (J : Hinge K) (V : Nat → Vel K) : (0 ≤ J.impU → 0 ≤ (J.limitU body V).2.impU) ∧
    (J.limitU body V).2.impL = J.impL := by
  unfold Hinge.limitU
  split_ifs
  · exact ⟨fun _ => le_max_right _ _, rfl⟩
  · exact ⟨id, rfl⟩

theorem Slider.limitL_imp (body : Nat → JBody K) (J : Slider K) (V : Nat → Vel K) : (0 ≤ J.impL → 0 ≤ (J.limitL body V).2.impL) ∧
    (J.limitL body V).2.impU = J.impU := by
  unfold Slider.limitL
  split_ifs
  · exact ⟨fun _ => le_max_right _ _, rfl⟩
  · exact ⟨id, rfl⟩

theorem Slider.limitU_imp (body : Nat → JBody K) (J : Slider K) (V : Nat → Vel K) : (0 ≤ J.impU → 0 ≤ (J.limitU body V).2.impU) ∧
    (J.limitU body V).2.impL = J.impL := by
  unfold Slider.limitU
  split_ifs
  · exact ⟨fun _ => le_max_right _ _, rfl⟩
  · exact ⟨id, rfl⟩

theorem Hinge.motor_imp (jc : JCfg K) (body : Nat → JBody K) (J : Hinge K) (V : Nat → Vel K) : (J.motor jc body V).2.impL = J.impL ∧
    (J.motor jc body V).2.impU = J.impU := by
  unfold Hinge.motor
  split_ifs <;> exact ⟨rfl, rfl⟩

theorem Slider.motor_imp (jc : JCfg K) (body : Nat → JBody K) (J : Slider K) (V : Nat → Vel K) : (J.motor jc body V).2.impL = J.impL ∧
    (J.motor jc body V).2.impU = J.impU := by
  unfold Slider.motor
  split_ifs <;> exact ⟨rfl, rfl⟩

theorem LimitsPush.solve {J : Joint K} (h : LimitsPush J) (jc : JCfg K) (body : Nat → JBody K) (V : Nat → Vel K) :
    LimitsPush (J.solve jc body V).2 := by
  cases J with
  | ball J =>
    change 0 ≤ (J.limit body V).2.coneImp
    unfold Ball.limit
    split_ifs
    · exact le_max_right _ _
    · exact h
    · exact h
  | fixed J => trivial
  | hinge J =>
    set A := J.limitL body V with hA
    set B := A.2.limitU body A.1 with hB
    change 0 ≤ (B.2.motor jc body B.1).2.impL ∧ 0 ≤ (B.2.motor jc body B.1).2.impU
    rw [(Hinge.motor_imp jc body _ _).1, (Hinge.motor_imp jc body _ _).2]
    refine ⟨?_, ?_⟩
    · rw [hB, (Hinge.limitU_imp body _ _).2]; exact (Hinge.limitL_imp body J V).1 h.1
    · exact (Hinge.limitU_imp body _ _).1 (by rw [hA, (Hinge.limitL_imp body J V).2]; exact h.2)
  | slider J =>
    set A := J.limitL body V with hA
    set B := A.2.limitU body A.1 with hB
    change 0 ≤ (B.2.motor jc body B.1).2.impL ∧ 0 ≤ (B.2.motor jc body B.1).2.impU
    rw [(Slider.motor_imp jc body _ _).1, (Slider.motor_imp jc body _ _).2]
    refine ⟨?_, ?_⟩
    · rw [hB, (Slider.limitU_imp body _ _).2]; exact (Slider.limitL_imp body J V).1 h.1
    · exact (Slider.limitU_imp body _ _).1 (by rw [hA, (Slider.limitL_imp body J V).2]; exact h.2)

theorem solveAll_each (jc : JCfg K) (body : Nat → JBody K) {P Q : Joint K → Prop} (hP : ∀ J V, P J → Q (J.solve jc body V).2) :
    ∀ (V : Nat → Vel K) (Js : List (Joint K)), (∀ J ∈ Js, P J) → ∀ J ∈ (solveAll jc body V Js).2, Q J
  | _, [], _ => by simp [solveAll]
  | V, J :: Js, h => by
    intro N hN
    simp only [solveAll] at hN
    rcases List.mem_cons.1 hN with rfl | hN
    · exact hP J V (h J List.mem_cons_self)
    · exact solveAll_each jc body hP _ Js (fun q hq => h q (List.mem_cons_of_mem _ hq)) N hN

theorem loop_each (cfg : Cfg K) (jc : JCfg K) (body : Nat → JBody K) {P : Joint K → Prop} (hP : ∀ J V, P J → P (J.solve jc body V).2) :
    ∀ (n : Nat) (s : (Nat → Vel K) × List (Joint K) × List (Man K)), (∀ J ∈ s.2.1, P J) → ∀ J ∈ (loop cfg jc body n s).2.1, P J
  | 0, _, h => h
  | n + 1, s, h => loop_each cfg jc body hP n _ (solveAll_each jc body hP s.1 s.2.1 h)

theorem step_each (cfg : Cfg K) (jc : JCfg K) (body : Nat → JBody K) {P : Joint K → Prop} (hP : ∀ J V, P J → P (J.solve jc body V).2)
    (V : Nat → Vel K) (Js : List (Joint K)) (Xs : List (XMan K)) (n : Nat) (h : ∀ J ∈ Js, P (J.init jc body)) :
    ∀ J ∈ (solveStep cfg jc body V Js Xs n).2.1, P J := by
  refine loop_each cfg jc body hP n _ ?_
  intro J hJ
  simp only [List.mem_map] at hJ
  obtain ⟨N, hN, rfl⟩ := hJ
  exact h N hN

/-- Impulses of limits, zero for the joints that have none. -/
def limitImps : Joint K → K × K
  | .ball J => (J.coneImp, 0)
  | .fixed _ => (0, 0)
  | .hinge J => (J.impL, J.impU)
  | .slider J => (J.impL, J.impU)

theorem limitsPush_iff (J : Joint K) : LimitsPush J ↔ 0 ≤ (limitImps J).1 ∧ 0 ≤ (limitImps J).2 := by
  cases J with
  | ball J => exact ⟨fun h => ⟨h, le_refl _⟩, fun h => h.1⟩
  | fixed J => exact ⟨fun _ => ⟨le_refl _, le_refl _⟩, fun _ => trivial⟩
  | hinge J => exact Iff.rfl
  | slider J => exact Iff.rfl

/-- Joints as they occur between steps: none, those a step leaves, and those that the user has created, destroyed or changed in between; the functions of
the joints leave impulses of limits or set them to zero (BallAndSocketJoint.cpp:130-137, HingeJoint.cpp:154-162, SliderJoint.cpp:196-204). -/
inductive Life : List (Joint K) → Prop
  | none : Life []
  | step (Js) (cfg : Cfg K) (jc : JCfg K) (body V Xs n) : Life Js → Life (solveStep cfg jc body V Js Xs n).2.1
  | change (Js Ns) : Life Js → (∀ N ∈ Ns, ((limitImps N).1 = 0 ∨ ∃ J ∈ Js, (limitImps N).1 = (limitImps J).1) ∧
      ((limitImps N).2 = 0 ∨ ∃ J ∈ Js, (limitImps N).2 = (limitImps J).2)) → Life Ns

/-- **C94 (limits).** Over any life of the joints, no limit ever pulls. -/
theorem limits_push {Js : List (Joint K)} (h : Life Js) : ∀ J ∈ Js, LimitsPush J := by
  induction h with
  | none => simp
  | step Js cfg jc body V Xs n _ ih =>
    exact step_each cfg jc body (fun J V h => h.solve jc body V) V Js Xs n fun J hJ => (ih J hJ).init jc body
  | change Js Ns _ hc ih =>
    intro N hN
    rw [limitsPush_iff]
    obtain ⟨h1, h2⟩ := hc N hN
    constructor
    · rcases h1 with h | ⟨J, hJ, h⟩
      · rw [h]
      · rw [h]; exact ((limitsPush_iff J).1 (ih J hJ)).1
    · rcases h2 with h | ⟨J, hJ, h⟩
      · rw [h]
      · rw [h]; exact ((limitsPush_iff J).1 (ih J hJ)).2

theorem clamp_bound {m : K} (hm : 0 ≤ m) (x : K) : |min (max x (-m)) m| ≤ m := by
  rw [abs_le]
  refine ⟨le_min (le_max_right _ _) (by linarith), min_le_right _ _⟩

/-- The maximal force or torque is not negative, as the functions of the joints assert. -/
def Strong (dt : K) : Joint K → Prop
  | .ball _ => True
  | .fixed _ => True
  | .hinge J => 0 ≤ J.max * dt
  | .slider J => 0 ≤ J.max * dt

theorem Strong.init {jc : JCfg K} {J : Joint K} (h : Strong jc.dt J) (body : Nat → JBody K) : Strong jc.dt (J.init jc body) := by
  cases J <;> exact h

theorem Strong.of_same {dt : K} {J N : Joint K} (h : Strong dt J) (hs : J.Same N) : Strong dt N := by
  cases J <;> cases N <;> first | exact hs.elim | skip
  · trivial
  · trivial
  · rename_i J N; have hs : N = _ := hs; rw [hs]; exact h
  · rename_i J N; have hs : N = _ := hs; rw [hs]; exact h

theorem motor_solve {J : Joint K} (jc : JCfg K) (body : Nat → JBody K) (V : Nat → Vel K) (h : Strong jc.dt J) :
    MotorBounded jc.dt (J.solve jc body V).2 := by
  cases J with
  | ball J => trivial
  | fixed J => trivial
  | hinge J =>
    set A := J.limitL body V with hA
    set B := A.2.limitU body A.1 with hB
    have hs : J.Same B.2 := (Hinge.next (J.limitL_ok body V) (Hinge.limitU_ok body _ _)).1
    have hm : B.2.max = J.max := by rw [hs]
    have h : 0 ≤ J.max * jc.dt := h
    change (B.2.motor jc body B.1).2.motorOn = true → |(B.2.motor jc body B.1).2.impM| ≤ (B.2.motor jc body B.1).2.max * jc.dt
    unfold Hinge.motor
    split_ifs with hon
    · intro _
      dsimp only
      rw [hm]
      exact clamp_bound h _
    · intro h'; exact absurd h' hon
  | slider J =>
    set A := J.limitL body V with hA
    set B := A.2.limitU body A.1 with hB
    have hs : J.Same B.2 := (Slider.next (J.limitL_ok body V) (Slider.limitU_ok body _ _)).1
    have hm : B.2.max = J.max := by rw [hs]
    have h : 0 ≤ J.max * jc.dt := h
    change (B.2.motor jc body B.1).2.motorOn = true → |(B.2.motor jc body B.1).2.impM| ≤ (B.2.motor jc body B.1).2.max * jc.dt
    unfold Slider.motor
    split_ifs with hon
    · intro _
      dsimp only
      rw [hm]
      exact clamp_bound h _
    · intro h'; exact absurd h' hon

/-- **C94 (motors).** After a step with at least one iteration the impulse of every motor is at most the maximal force or torque times the time step,
whatever was stored before. -/
theorem motors_bounded (cfg : Cfg K) (jc : JCfg K) (body : Nat → JBody K) (V : Nat → Vel K) (Js : List (Joint K)) (Xs : List (XMan K)) (n : Nat)
    (h : ∀ J ∈ Js, Strong jc.dt J) : ∀ J ∈ (solveStep cfg jc body V Js Xs (n + 1)).2.1, MotorBounded jc.dt J := by
  have key : ∀ J V, Strong jc.dt J → Strong jc.dt (J.solve jc body V).2 ∧ MotorBounded jc.dt (J.solve jc body V).2 := fun J V hJ =>
    ⟨hJ.of_same (J.solve_ok jc body V).1, motor_solve jc body V hJ⟩
  have h' : ∀ J ∈ Js.map (Joint.init jc body), Strong jc.dt J := by
    intro J hJ
    simp only [List.mem_map] at hJ
    obtain ⟨N, hN, rfl⟩ := hJ
    exact (h N hN).init body
  unfold solveStep
  simp only [loop]
  intro J hJ
  exact (loop_each cfg jc body (P := fun J => Strong jc.dt J ∧ MotorBounded jc.dt J) (fun J V hJ => key J V hJ.1) n _
    (solveAll_each jc body (P := Strong jc.dt) key _ _ h') J hJ).2

/-! ### What the solvers leave alone -/

/-- Impulse `l ≥ 0` and velocity `y ≥ 0` of which one is zero. -/
def Compl (l y : K) : Prop := 0 ≤ l ∧ 0 ≤ y ∧ (l = 0 ∨ y = 0)

/-- A motor with impulse `f` of at most `m` has reached its speed, or pushes with all its might towards it. -/
def Drives (f m u s : K) : Prop := |f| ≤ m ∧ (u = s ∨ (f = m ∧ u ≤ s) ∨ (f = -m ∧ s ≤ u))

theorem max_fix {k : K} (hk : 0 < k) (l x : K) : max (l + k * x) 0 = l ↔ Compl l (-x) := by
  unfold Compl
  constructor
  · intro h
    rcases max_choice (l + k * x) 0 with h' | h'
    · rw [h'] at h
      have hx : x = 0 := by
        have : k * x = 0 := by linarith
        exact (mul_eq_zero.1 this).resolve_left (ne_of_gt hk)
      subst hx
      refine ⟨?_, by simp, Or.inr (by simp)⟩
      rw [max_eq_left_iff] at h'
      linarith
    · rw [h'] at h
      subst h
      rw [max_eq_right_iff, zero_add] at h'
      have : x ≤ 0 := by
        by_contra hc
        exact absurd (mul_pos hk (not_le.1 hc)) (not_lt.2 h')
      exact ⟨le_refl _, by linarith, Or.inl rfl⟩
  · rintro ⟨h1, h2, h3 | h3⟩
    · subst h3
      rw [zero_add, max_eq_right_iff]
      exact mul_nonpos_of_nonneg_of_nonpos hk.le (by linarith)
    · have : x = 0 := by linarith
      subst this
      rw [mul_zero, add_zero, max_eq_left h1]

theorem clamp_fix {k m : K} (hk : 0 < k) (hm : 0 ≤ m) (l u s : K) : min (max (l + k * (u - s)) (-m)) m = l ↔ Drives (-l) m u s := by
  unfold Drives
  rw [abs_neg]
  constructor
  · intro h
    have hb : |l| ≤ m := by rw [← h]; exact clamp_bound hm _
    refine ⟨hb, ?_⟩
    rcases lt_trichotomy u s with hc | hc | hc
    · right; left
      refine ⟨?_, hc.le⟩
      have hlt : l + k * (u - s) < l := by nlinarith
      rcases min_choice (max (l + k * (u - s)) (-m)) m with h' | h'
      · rw [h'] at h
        rcases max_choice (l + k * (u - s)) (-m) with h'' | h''
        · rw [h''] at h; linarith
        · rw [h''] at h; linarith
      · rw [h'] at h
        have h2 : m ≤ max (l + k * (u - s)) (-m) := min_eq_right_iff.1 h'
        rcases le_max_iff.1 h2 with h3 | h3
        · linarith
        · linarith
    · exact Or.inl hc
    · right; right
      refine ⟨?_, hc.le⟩
      have hlt : l < l + k * (u - s) := by nlinarith
      rcases min_choice (max (l + k * (u - s)) (-m)) m with h' | h'
      · rw [h'] at h
        have := le_max_left (l + k * (u - s)) (-m)
        linarith
      · rw [h'] at h; linarith
  · rintro ⟨hb, h | ⟨h1, h2⟩ | ⟨h1, h2⟩⟩
    · subst h
      rw [sub_self, mul_zero, add_zero, max_eq_left (abs_le.1 hb).1, min_eq_left (abs_le.1 hb).2]
    · have hl : l = -m := by linarith
      subst hl
      have : -m + k * (u - s) ≤ -m := by nlinarith
      rw [max_eq_right this, min_eq_left (by linarith)]
    · have hl : l = m := by linarith
      subst hl
      have : l ≤ l + k * (u - s) := by nlinarith
      rw [max_eq_left (by linarith), min_eq_right this]

/-- The demands of a ball-and-socket joint on the velocities and impulses. -/
def Ball.Solved (jc : JCfg K) (body : Nat → JBody K) (J : Ball K) (V : Nat → Vel K) : Prop :=
  pointVel (body J.b2) (V J.b2) J.a2 - pointVel (body J.b1) (V J.b1) J.a1 = -(closing jc body J.baum J.b1 J.b2 J.a1 J.a2) ∧
    (J.coneOn = true → J.cone = true → Compl J.coneImp (V3.dot J.axb ((V J.b1).w - (V J.b2).w) + J.coneBias))

/-- The demands of a fixed joint. -/
def Fixed.Solved (jc : JCfg K) (body : Nat → JBody K) (J : Fixed K) (V : Nat → Vel K) : Prop :=
  pointVel (body J.b2) (V J.b2) J.a2 - pointVel (body J.b1) (V J.b1) J.a1 = -(closing jc body J.baum J.b1 J.b2 J.a1 J.a2) ∧
    (V J.b2).w - (V J.b1).w = -(turning jc body J.baum J.b1 J.b2 J.d)

/-- The demands of a hinge without motor: common anchor, common axis, limits. -/
def Hinge.Solved (jc : JCfg K) (body : Nat → JBody K) (J : Hinge K) (V : Nat → Vel K) : Prop :=
  pointVel (body J.b2) (V J.b2) J.a2 - pointVel (body J.b1) (V J.b1) J.a1 = -(closing jc body J.baum J.b1 J.b2 J.a1 J.a2) ∧
    V3.dot J.ba ((V J.b2).w - (V J.b1).w) = -J.biasR.x ∧ V3.dot J.ca ((V J.b2).w - (V J.b1).w) = -J.biasR.y ∧
    (J.limitOn = true → J.low = true → Compl J.impL (V3.dot ((V J.b2).w - (V J.b1).w) J.ax + J.biasL)) ∧
    (J.limitOn = true → J.up = true → Compl J.impU (-V3.dot ((V J.b2).w - (V J.b1).w) J.ax + J.biasU))

theorem inj3 {m k : M3 K} (h : ∀ a, m.act (k.act a) = a) {a : V3 K} (hz : k.act a = 0) : a = 0 := by
  rw [← h a, hz, act_zerov]

theorem inj2 {m k : M2 K} (h : ∀ a, m.act (k.act a) = a) {a : V2 K} (hz : k.act a = ⟨0, 0⟩) : a = ⟨0, 0⟩ := by
  rw [← h a, hz]
  unfold M2.act
  ext <;> simp

theorem kick_zero (c : Two K) (V : Nat → Vel K) : kick c 0 0 0 0 V = V := by
  funext b
  rw [kick_eq]
  have : linK c ⟨0, 0, 0, 0⟩ b = 0 ∧ angK c ⟨0, 0, 0, 0⟩ b = 0 := by
    unfold linK angK M3.act
    constructor <;> split_ifs <;> ext <;> simp [V3.had]
  rw [this.1, this.2, add_zero, add_zero]

theorem turn_zero (c : Two K) (a b : V3 K) (V : Nat → Vel K) : turn c (V3.smul 0 a) (V3.smul 0 b) V = V := by
  rw [turn_eq, zero_smul', zero_smul', kick_zero]

theorem pin_zero (c : Two K) (r1 r2 : V3 K) (V : Nat → Vel K) : pin c r1 r2 0 V = V := by
  unfold pin
  have : ∀ r : V3 K, V3.cross 0 r = 0 := fun r => by ext <;> simp [V3.cross]
  rw [this, this, neg_zero, kick_zero]

/-! #### Ball-and-socket joint -/

theorem Ball.fields {jc : JCfg K} {body : Nat → JBody K} {J N : Ball K} (hs : (J.init jc body).Same N) :
    N.b1 = J.b1 ∧ N.b2 = J.b2 ∧ N.a1 = J.a1 ∧ N.a2 = J.a2 ∧ N.baum = J.baum ∧ N.r1 = arm (body J.b1) J.a1 ∧ N.r2 = arm (body J.b2) J.a2 ∧
      N.k = inverseOrZero jc ((body J.b1).dyn || (body J.b2).dyn) (anchorMass body J.b1 J.b2 J.a1 J.a2) ∧
      N.bias = closing jc body J.baum J.b1 J.b2 J.a1 J.a2 := by
  have : N = _ := hs
  rw [this, ← closing_eq]
  exact ⟨rfl, rfl, rfl, rfl, rfl, rfl, rfl, rfl, rfl⟩

/-- **C93 (ball-and-socket joint).** The solver leaves the velocities alone if they are as the joint demands, and only then. -/
theorem ball_solved {jc : JCfg K} {body : Nat → JBody K} {J N : Ball K} (hs : (J.init jc body).Same N) (hm : Movable jc body J.b1 J.b2)
    (hd : jc.eps < |(anchorMass body J.b1 J.b2 J.a1 J.a2).det|) (hk : N.coneOn = true → N.cone = true → 0 < N.coneK) (V : Nat → Vel K) :
    (Ball.Solved jc body N V → N.solve body V = (V, N)) ∧ ((N.solve body V).2 = N → Ball.Solved jc body N V) := by
  obtain ⟨f1, f2, f3, f4, f5, f6, f7, f8, f9⟩ := Ball.fields hs
  have hi := inverseOrZero_act (m := anchorMass body J.b1 J.b2 J.a1 J.a2) hm.eps hd hm.dyn
  rw [← f8] at hi
  have hrel : ∀ W : Nat → Vel K, rel (W N.b1) (W N.b2) N.r1 N.r2 = pointVel (body N.b2) (W N.b2) N.a2 - pointVel (body N.b1) (W N.b1) N.a1 := fun W => by
    rw [f1, f2, f3, f4, f6, f7, rel_point]
  have hb : N.bias = closing jc body N.baum N.b1 N.b2 N.a1 N.a2 := by rw [f9, f1, f2, f3, f4, f5]
  have hl : (N.coneOn = true → N.cone = true → Compl N.coneImp (V3.dot N.axb ((V N.b1).w - (V N.b2).w) + N.coneBias)) ↔ (N.limit body V).2.coneImp = N.coneImp := by
    unfold Ball.limit
    split_ifs with h1 h2
    · dsimp only
      rw [max_fix (hk h1 h2)]
      have : -(-V3.dot N.axb ((V N.b1).w - (V N.b2).w) - N.coneBias) = V3.dot N.axb ((V N.b1).w - (V N.b2).w) + N.coneBias := by ring
      rw [this]
      exact ⟨fun h => h h1 h2, fun h _ _ => h⟩
    · exact ⟨fun _ => rfl, fun _ _ h => absurd h h2⟩
    · exact ⟨fun _ => rfl, fun _ h => absurd h h1⟩
  have hl' : (N.limit body V).2.coneImp = N.coneImp → N.limit body V = (V, N) := by
    unfold Ball.limit
    split_ifs with h1 h2
    · dsimp only
      intro h
      rw [h, sub_self, neg_zero, turn_zero]
    · exact fun _ => rfl
    · exact fun _ => rfl
  have hz : ∀ M : V3 K, -M - N.bias = 0 ↔ M = -N.bias := fun M => by
    constructor
    · intro h; rw [sub_eq_zero] at h; rw [← h, neg_neg]
    · intro h; rw [h, neg_neg, sub_self]
  constructor
  · rintro ⟨h1, h2⟩
    have e := hl' (hl.1 h2)
    unfold Ball.solve
    rw [e]
    unfold Ball.joint
    dsimp only
    rw [(hz _).2 (by rw [hrel, h1, hb]), act_zerov, pin_zero, add_zero]
  · intro h
    have hc : (N.limit body V).2.coneImp = N.coneImp := by
      have := congrArg Ball.coneImp h
      exact this
    have e := hl' hc
    have h0 : (N.joint body V).2 = N := by
      have h' := h
      unfold Ball.solve at h'
      rw [e] at h'
      exact h'
    have h1 := congrArg Ball.imp h0
    unfold Ball.joint at h1
    dsimp only at h1
    have h2 := inj3 hi (add_eq_left.1 h1)
    rw [hz, hrel, hb] at h2
    exact ⟨h2, hl.2 hc⟩

/-! #### Fixed joint -/

theorem Fixed.fields {jc : JCfg K} {body : Nat → JBody K} {J N : Fixed K} (hs : (J.init jc body).Same N) :
    N.b1 = J.b1 ∧ N.b2 = J.b2 ∧ N.a1 = J.a1 ∧ N.a2 = J.a2 ∧ N.baum = J.baum ∧ N.r1 = arm (body J.b1) J.a1 ∧ N.r2 = arm (body J.b2) J.a2 ∧
      N.k = inverseOrZero jc ((body J.b1).dyn || (body J.b2).dyn) (anchorMass body J.b1 J.b2 J.a1 J.a2) ∧
      N.bias = closing jc body J.baum J.b1 J.b2 J.a1 J.a2 ∧ N.d = J.d ∧
      N.kr = inverseOrSame jc ((body J.b1).dyn || (body J.b2).dyn) (M3.add (body J.b1).I (body J.b2).I) ∧ N.biasR = turning jc body J.baum J.b1 J.b2 J.d := by
  have : N = _ := hs
  rw [this, ← closing_eq]
  exact ⟨rfl, rfl, rfl, rfl, rfl, rfl, rfl, rfl, rfl, rfl, rfl, rfl⟩

/-- **C93 (fixed joint).** The same for the fixed joint. -/
theorem fixed_solved {jc : JCfg K} {body : Nat → JBody K} {J N : Fixed K} (hs : (J.init jc body).Same N) (hm : Movable jc body J.b1 J.b2)
    (hd : jc.eps < |(anchorMass body J.b1 J.b2 J.a1 J.a2).det|) (hd' : jc.eps < |(M3.add (body J.b1).I (body J.b2).I).det|) (V : Nat → Vel K) :
    (Fixed.Solved jc body N V → N.solve body V = (V, N)) ∧ ((N.solve body V).2 = N → Fixed.Solved jc body N V) := by
  obtain ⟨f1, f2, f3, f4, f5, f6, f7, f8, f9, f10, f11, f12⟩ := Fixed.fields hs
  have hi := inverseOrZero_act (m := anchorMass body J.b1 J.b2 J.a1 J.a2) hm.eps hd hm.dyn
  have hi' := inverseOrSame_act hm.eps hd' hm.dyn
  rw [← f8] at hi
  rw [← f11] at hi'
  have hrel : ∀ W : Nat → Vel K, rel (W N.b1) (W N.b2) N.r1 N.r2 = pointVel (body N.b2) (W N.b2) N.a2 - pointVel (body N.b1) (W N.b1) N.a1 := fun W => by
    rw [f1, f2, f3, f4, f6, f7, rel_point]
  have hb : N.bias = closing jc body N.baum N.b1 N.b2 N.a1 N.a2 := by rw [f9, f1, f2, f3, f4, f5]
  have hbR : N.biasR = turning jc body N.baum N.b1 N.b2 N.d := by rw [f12, f1, f2, f5, f10]
  have hz : ∀ M B : V3 K, -M - B = 0 ↔ M = -B := fun M B => by
    constructor
    · intro h; rw [sub_eq_zero] at h; rw [← h, neg_neg]
    · intro h; rw [h, neg_neg, sub_self]
  have hj : rel (V N.b1) (V N.b2) N.r1 N.r2 = -N.bias → N.joint body V = (V, N) := by
    intro h
    unfold Fixed.joint
    dsimp only
    rw [(hz _ _).2 h, act_zerov, pin_zero, add_zero]
  constructor
  · rintro ⟨h1, h2⟩
    unfold Fixed.solve
    rw [hj (by rw [hrel, h1, hb])]
    unfold Fixed.rotation
    dsimp only
    rw [(hz _ _).2 (by rw [h2, hbR]), act_zerov, turn_eq, neg_zero, kick_zero, add_zero]
  · intro h
    have h1 : (N.joint body V).2.imp = N.imp := by
      have := congrArg Fixed.imp h
      exact this
    have h2 : rel (V N.b1) (V N.b2) N.r1 N.r2 = -N.bias := by
      unfold Fixed.joint at h1
      dsimp only at h1
      exact (hz _ _).1 (inj3 hi (add_eq_left.1 h1))
    have h3 := congrArg Fixed.impR h
    unfold Fixed.solve at h3
    rw [hj h2] at h3
    unfold Fixed.rotation at h3
    dsimp only at h3
    have h4 := (hz _ _).1 (inj3 hi' (add_eq_left.1 h3))
    rw [hrel, hb] at h2
    rw [hbR] at h4
    exact ⟨h2, h4⟩

/-! #### Hinge -/

theorem Hinge.fields {jc : JCfg K} {body : Nat → JBody K} {J N : Hinge K} (hs : (J.init jc body).Same N) :
    N.b1 = J.b1 ∧ N.b2 = J.b2 ∧ N.a1 = J.a1 ∧ N.a2 = J.a2 ∧ N.baum = J.baum ∧ N.r1 = arm (body J.b1) J.a1 ∧ N.r2 = arm (body J.b2) J.a2 ∧
      N.k = inverseOrZero jc ((body J.b1).dyn || (body J.b2).dyn) (anchorMass body J.b1 J.b2 J.a1 J.a2) ∧
      N.bias = closing jc body J.baum J.b1 J.b2 J.a1 J.a2 := by
  have : N = _ := hs
  rw [this, ← closing_eq]
  exact ⟨rfl, rfl, rfl, rfl, rfl, rfl, rfl, rfl, rfl⟩

/-- Mass matrix of the rotation constraints of a hinge. -/
def hingeMass (body : Nat → JBody K) (J : Hinge K) : M2 K :=
  let A := body J.b1
  let B := body J.b2
  let q := fun a b => V3.dot a (A.I.act b) + V3.dot a (B.I.act b)
  ⟨q J.ba J.ba, q J.ba J.ca, q J.ca J.ba, q J.ca J.ca⟩

theorem Hinge.fields2 {jc : JCfg K} {body : Nat → JBody K} {J N : Hinge K} (hs : (J.init jc body).Same N) :
    N.kr = inverseOrZero2 jc ((body J.b1).dyn || (body J.b2).dyn) (hingeMass body N) := by
  have : N = _ := hs
  rw [this]
  rfl

theorem neg_sub_zero {M B : V3 K} : -M - B = 0 ↔ M = -B := by
  constructor
  · intro h; rw [sub_eq_zero] at h; rw [← h, neg_neg]
  · intro h; rw [h, neg_neg, sub_self]

/-- **C93 (hinge).** The same for a hinge without motor. -/
theorem hinge_solved {jc : JCfg K} {body : Nat → JBody K} {J N : Hinge K} (hs : (J.init jc body).Same N) (hm : Movable jc body J.b1 J.b2)
    (hd : jc.eps < |(anchorMass body J.b1 J.b2 J.a1 J.a2).det|) (hd' : jc.eps < |(hingeMass body N).det|) (ho : N.motorOn = false)
    (hk : N.limitOn = true → 0 < N.km) (V : Nat → Vel K) :
    (Hinge.Solved jc body N V → N.solve jc body V = (V, N)) ∧ ((N.solve jc body V).2 = N → Hinge.Solved jc body N V) := by
  obtain ⟨f1, f2, f3, f4, f5, f6, f7, f8, f9⟩ := Hinge.fields hs
  have hi := inverseOrZero_act (m := anchorMass body J.b1 J.b2 J.a1 J.a2) hm.eps hd hm.dyn
  rw [← f8] at hi
  have hi' := inverseOrZero2_act hm.eps hd' hm.dyn
  rw [← Hinge.fields2 hs] at hi'
  have hrel : rel (V N.b1) (V N.b2) N.r1 N.r2 = pointVel (body N.b2) (V N.b2) N.a2 - pointVel (body N.b1) (V N.b1) N.a1 := by
    rw [f1, f2, f3, f4, f6, f7, rel_point]
  have hb : N.bias = closing jc body N.baum N.b1 N.b2 N.a1 N.a2 := by rw [f9, f1, f2, f3, f4, f5]
  have hL : (N.limitOn = true → N.low = true → Compl N.impL (V3.dot ((V N.b2).w - (V N.b1).w) N.ax + N.biasL)) ↔ (N.limitL body V).2.impL = N.impL := by
    unfold Hinge.limitL
    split_ifs with h1
    · rw [Bool.and_eq_true] at h1
      dsimp only
      rw [max_fix (hk h1.1)]
      have : -(-V3.dot ((V N.b2).w - (V N.b1).w) N.ax - N.biasL) = V3.dot ((V N.b2).w - (V N.b1).w) N.ax + N.biasL := by ring
      rw [this]
      exact ⟨fun h => h h1.1 h1.2, fun h _ _ => h⟩
    · rw [Bool.and_eq_true] at h1
      exact ⟨fun _ => rfl, fun _ h h' => absurd ⟨h, h'⟩ h1⟩
  have hL' : (N.limitL body V).2.impL = N.impL → N.limitL body V = (V, N) := by
    unfold Hinge.limitL
    split_ifs with h1
    · dsimp only
      intro h
      rw [h, sub_self, neg_zero, turn_zero]
    · exact fun _ => rfl
  have hU : (N.limitOn = true → N.up = true → Compl N.impU (-V3.dot ((V N.b2).w - (V N.b1).w) N.ax + N.biasU)) ↔ (N.limitU body V).2.impU = N.impU := by
    unfold Hinge.limitU
    split_ifs with h1
    · rw [Bool.and_eq_true] at h1
      dsimp only
      rw [max_fix (hk h1.1)]
      have : -(- -V3.dot ((V N.b2).w - (V N.b1).w) N.ax - N.biasU) = -V3.dot ((V N.b2).w - (V N.b1).w) N.ax + N.biasU := by ring
      rw [this]
      exact ⟨fun h => h h1.1 h1.2, fun h _ _ => h⟩
    · rw [Bool.and_eq_true] at h1
      exact ⟨fun _ => rfl, fun _ h h' => absurd ⟨h, h'⟩ h1⟩
  have hU' : (N.limitU body V).2.impU = N.impU → N.limitU body V = (V, N) := by
    unfold Hinge.limitU
    split_ifs with h1
    · dsimp only
      intro h
      rw [h, sub_self, neg_zero, turn_zero]
    · exact fun _ => rfl
  have hM : N.motor jc body V = (V, N) := by
    unfold Hinge.motor
    rw [ho]
    rfl
  have ds : ∀ a : V3 K, -(V3.dot a (V N.b1).w) + V3.dot a (V N.b2).w = V3.dot a ((V N.b2).w - (V N.b1).w) := fun a => by
    simp only [V3.dot, V3.sub_x, V3.sub_y, V3.sub_z]; ring
  have hR : V3.dot N.ba ((V N.b2).w - (V N.b1).w) = -N.biasR.x ∧ V3.dot N.ca ((V N.b2).w - (V N.b1).w) = -N.biasR.y →
      N.rotation body V = (V, N) := by
    rintro ⟨h1, h2⟩
    have hz : (⟨-(-N.biasR.x) - N.biasR.x, -(-N.biasR.y) - N.biasR.y⟩ : V2 K) = ⟨0, 0⟩ := by ext <;> simp
    have h0 : ∀ m : M2 K, m.act ⟨0, 0⟩ = ⟨0, 0⟩ := fun m => by unfold M2.act; ext <;> simp
    unfold Hinge.rotation
    dsimp only
    rw [ds, ds, h1, h2, hz, h0]
    unfold Hinge.swing Hinge.swing'
    dsimp only
    rw [zero_smul', zero_smul', zero_smul', sub_zero, add_zero, turn_eq, kick_zero, add_zero, add_zero]
  have hR' : (N.rotation body V).2.impR = N.impR → V3.dot N.ba ((V N.b2).w - (V N.b1).w) = -N.biasR.x ∧ V3.dot N.ca ((V N.b2).w - (V N.b1).w) = -N.biasR.y := by
    intro h
    unfold Hinge.rotation at h
    dsimp only at h
    rw [ds, ds] at h
    have hx := congrArg V2.x h
    have hy := congrArg V2.y h
    dsimp only at hx hy
    have := inj2 hi' (V2.ext (add_eq_left.1 hx) (add_eq_left.1 hy))
    have ex := congrArg V2.x this
    have ey := congrArg V2.y this
    dsimp only at ex ey
    exact ⟨by linarith, by linarith⟩
  have hJ : rel (V N.b1) (V N.b2) N.r1 N.r2 = -N.bias → N.joint body V = (V, N) := by
    intro h
    unfold Hinge.joint
    dsimp only
    rw [neg_sub_zero.2 h, act_zerov, pin_zero, add_zero]
  have hJ' : (N.joint body V).2.imp = N.imp → rel (V N.b1) (V N.b2) N.r1 N.r2 = -N.bias := by
    intro h
    unfold Hinge.joint at h
    dsimp only at h
    exact neg_sub_zero.1 (inj3 hi (add_eq_left.1 h))
  constructor
  · rintro ⟨h1, h2, h3, h4, h5⟩
    unfold Hinge.solve
    rw [hL' (hL.1 h4)]
    dsimp only
    rw [hU' (hU.1 h5)]
    dsimp only
    rw [hM]
    dsimp only
    rw [hR ⟨h2, h3⟩]
    dsimp only
    exact hJ (by rw [hrel, h1, hb])
  · intro h
    have c1 : (N.limitL body V).2.impL = N.impL := by
      have := congrArg Hinge.impL h
      rw [← this]
      change _ = (Hinge.motor jc body _ _).2.impL
      rw [(Hinge.motor_imp jc body _ _).1, (Hinge.limitU_imp body _ _).2]
    unfold Hinge.solve at h
    rw [hL' c1] at h
    dsimp only at h
    have c2 : (N.limitU body V).2.impU = N.impU := by
      have := congrArg Hinge.impU h
      rw [← this]
      change _ = (Hinge.motor jc body _ _).2.impU
      rw [(Hinge.motor_imp jc body _ _).2]
    rw [hU' c2] at h
    dsimp only at h
    rw [hM] at h
    dsimp only at h
    have c3 := hR' (by have := congrArg Hinge.impR h; exact this)
    rw [hR c3] at h
    dsimp only at h
    have c4 := hJ' (congrArg Hinge.imp h)
    rw [hrel, hb] at c4
    exact ⟨c4, c3.1, c3.2, hL.2 c1, hU.2 c2⟩

/-! #### Slider -/

/-- The demands of a slider: no motion across the axis, no turning, limits, motor. -/
def Slider.Solved (jc : JCfg K) (body : Nat → JBody K) (J : Slider K) (V : Nat → Vel K) : Prop :=
  V3.dot J.n1 (sliderVel body J V) = -J.bias.x ∧ V3.dot J.n2 (sliderVel body J V) = -J.bias.y ∧
    (V J.b2).w - (V J.b1).w = -(turning jc body J.baum J.b1 J.b2 J.d) ∧
    (J.limitOn = true → J.low = true → Compl J.impL (V3.dot J.ax (sliderVel body J V) + J.biasL)) ∧
    (J.limitOn = true → J.up = true → Compl J.impU (-V3.dot J.ax (sliderVel body J V) + J.biasU)) ∧
    (J.motorOn = true → Drives (-J.impM) (J.max * jc.dt) (V3.dot J.ax ((V J.b2).v - (V J.b1).v)) J.speed)

theorem Slider.fields {jc : JCfg K} {body : Nat → JBody K} {J N : Slider K} (hs : (J.init jc body).Same N) :
    N.b1 = J.b1 ∧ N.b2 = J.b2 ∧ N.d = J.d ∧ N.a2 = J.a2 ∧ N.baum = J.baum ∧
      N.c1 = V3.cross (anchor (body J.b2) J.a2 - (body J.b1).x) N.n1 ∧ N.c2 = V3.cross (anchor (body J.b2) J.a2 - (body J.b1).x) N.n2 ∧
      N.cx = V3.cross (anchor (body J.b2) J.a2 - (body J.b1).x) N.ax ∧
      N.e1 = V3.cross (arm (body J.b2) J.a2) N.n1 ∧ N.e2 = V3.cross (arm (body J.b2) J.a2) N.n2 ∧ N.ex = V3.cross (arm (body J.b2) J.a2) N.ax ∧
      N.k = inverseOrZero2 jc ((body J.b1).dyn || (body J.b2).dyn) (sliderMass jc body J) ∧
      N.kr = inverseOrSame jc ((body J.b1).dyn || (body J.b2).dyn) (M3.add (body J.b1).I (body J.b2).I) ∧
      N.biasR = turning jc body J.baum J.b1 J.b2 J.d := by
  have : N = _ := hs
  have hr : arm (body J.b1) J.a1 + ((body J.b2).x + arm (body J.b2) J.a2 - (body J.b1).x - arm (body J.b1) J.a1) = anchor (body J.b2) J.a2 - (body J.b1).x := by
    rw [anchor_eq]; abel
  rw [this, ← hr]
  refine ⟨rfl, rfl, rfl, rfl, rfl, rfl, rfl, rfl, rfl, rfl, rfl, ?_, rfl, rfl⟩
  unfold sliderMass
  dsimp only
  rw [← hr, ← add_assoc, ← add_assoc]
  rfl

/-- **C93, C94 (slider).** The same for the slider, with its motor. -/
theorem slider_solved {jc : JCfg K} {body : Nat → JBody K} {J N : Slider K} (hs : (J.init jc body).Same N) (hm : Movable jc body J.b1 J.b2)
    (hd : jc.eps < |(sliderMass jc body J).det|) (hd' : jc.eps < |(M3.add (body J.b1).I (body J.b2).I).det|)
    (hk : N.limitOn = true → 0 < N.kl) (hk' : N.motorOn = true → 0 < N.km ∧ 0 ≤ N.max * jc.dt) (V : Nat → Vel K) :
    (Slider.Solved jc body N V → N.solve jc body V = (V, N)) ∧ ((N.solve jc body V).2 = N → Slider.Solved jc body N V) := by
  obtain ⟨f1, f2, f3, f4, f5, g1, g2, g3, g4, g5, g6, f6, f7, f8⟩ := Slider.fields hs
  have hi := inverseOrZero2_act hm.eps hd hm.dyn
  rw [← f6] at hi
  have hi' := inverseOrSame_act hm.eps hd' hm.dyn
  rw [← f7] at hi'
  have hbR : N.biasR = turning jc body N.baum N.b1 N.b2 N.d := by rw [f8, f1, f2, f5, f3]
  have vd : ∀ m : V3 K, V3.dot m (sliderVel body N V) = V3.dot m (V N.b2).v + V3.dot (V3.cross (arm (body J.b2) J.a2) m) (V N.b2).w
      - V3.dot m (V N.b1).v - V3.dot (V3.cross (anchor (body J.b2) J.a2 - (body J.b1).x) m) (V N.b1).w := fun m => by
    unfold sliderVel pointVel
    rw [f1, f2, f4]
    change V3.dot m ((V J.b2).v + V3.cross (V J.b2).w (arm (body J.b2) J.a2) - _) = _
    simp only [V3.dot, V3.cross, V3.add_x, V3.add_y, V3.add_z, V3.sub_x, V3.sub_y, V3.sub_z]; ring
  have hal : N.along V = V3.dot N.ax (sliderVel body N V) := by
    unfold Slider.along
    rw [vd, g3, g6]
  have hL : (N.limitOn = true → N.low = true → Compl N.impL (V3.dot N.ax (sliderVel body N V) + N.biasL)) ↔ (N.limitL body V).2.impL = N.impL := by
    unfold Slider.limitL
    split_ifs with h1
    · rw [Bool.and_eq_true] at h1
      dsimp only
      rw [max_fix (hk h1.1), hal]
      have : -(-V3.dot N.ax (sliderVel body N V) - N.biasL) = V3.dot N.ax (sliderVel body N V) + N.biasL := by ring
      rw [this]
      exact ⟨fun h => h h1.1 h1.2, fun h _ _ => h⟩
    · rw [Bool.and_eq_true] at h1
      exact ⟨fun _ => rfl, fun _ h h' => absurd ⟨h, h'⟩ h1⟩
  have hL' : (N.limitL body V).2.impL = N.impL → N.limitL body V = (V, N) := by
    unfold Slider.limitL
    split_ifs with h1
    · dsimp only
      intro h
      rw [h, sub_self, neg_zero, zero_smul', zero_smul', zero_smul', kick_zero]
    · exact fun _ => rfl
  have hU : (N.limitOn = true → N.up = true → Compl N.impU (-V3.dot N.ax (sliderVel body N V) + N.biasU)) ↔ (N.limitU body V).2.impU = N.impU := by
    unfold Slider.limitU
    split_ifs with h1
    · rw [Bool.and_eq_true] at h1
      dsimp only
      rw [max_fix (hk h1.1), hal]
      have : -(V3.dot N.ax (sliderVel body N V) - N.biasU) = -V3.dot N.ax (sliderVel body N V) + N.biasU := by ring
      rw [this]
      exact ⟨fun h => h h1.1 h1.2, fun h _ _ => h⟩
    · rw [Bool.and_eq_true] at h1
      exact ⟨fun _ => rfl, fun _ h h' => absurd ⟨h, h'⟩ h1⟩
  have hU' : (N.limitU body V).2.impU = N.impU → N.limitU body V = (V, N) := by
    unfold Slider.limitU
    split_ifs with h1
    · dsimp only
      intro h
      rw [h, sub_self, neg_zero, zero_smul', zero_smul', zero_smul', kick_zero]
    · exact fun _ => rfl
  have hM : (N.motorOn = true → Drives (-N.impM) (N.max * jc.dt) (V3.dot N.ax ((V N.b2).v - (V N.b1).v)) N.speed) ↔ (N.motor jc body V).2.impM = N.impM := by
    unfold Slider.motor
    split_ifs with h1
    · dsimp only
      have : -(V3.dot N.ax (V N.b1).v - V3.dot N.ax (V N.b2).v) - N.speed = V3.dot N.ax ((V N.b2).v - (V N.b1).v) - N.speed := by
        simp only [V3.dot, V3.sub_x, V3.sub_y, V3.sub_z]; ring
      rw [this, clamp_fix (hk' h1).1 (hk' h1).2]
      exact ⟨fun h => h h1, fun h _ => h⟩
    · exact ⟨fun _ => rfl, fun _ h => absurd h h1⟩
  have hM' : (N.motor jc body V).2.impM = N.impM → N.motor jc body V = (V, N) := by
    unfold Slider.motor
    split_ifs with h1
    · dsimp only
      intro h
      rw [h, sub_self, neg_zero, zero_smul', shove_eq, kick_zero]
    · exact fun _ => rfl
  have hR : (V N.b2).w - (V N.b1).w = -N.biasR → N.rotation body V = (V, N) := by
    intro h
    unfold Slider.rotation
    dsimp only
    rw [neg_sub_zero.2 h, act_zerov, turn_eq, neg_zero, kick_zero, add_zero]
  have hR' : (N.rotation body V).2.impR = N.impR → (V N.b2).w - (V N.b1).w = -N.biasR := by
    intro h
    unfold Slider.rotation at h
    dsimp only at h
    exact neg_sub_zero.1 (inj3 hi' (add_eq_left.1 h))
  have d1 : -(V3.dot N.n1 (V N.b1).v) - V3.dot (V N.b1).w N.c1 + V3.dot N.n1 (V N.b2).v + V3.dot (V N.b2).w N.e1 = V3.dot N.n1 (sliderVel body N V) := by
    rw [vd, g1, g4]
    simp only [V3.dot, V3.cross]; ring
  have d2 : -(V3.dot N.n2 (V N.b1).v) - V3.dot (V N.b1).w N.c2 + V3.dot N.n2 (V N.b2).v + V3.dot (V N.b2).w N.e2 = V3.dot N.n2 (sliderVel body N V) := by
    rw [vd, g2, g5]
    simp only [V3.dot, V3.cross]; ring
  have hJ : V3.dot N.n1 (sliderVel body N V) = -N.bias.x ∧ V3.dot N.n2 (sliderVel body N V) = -N.bias.y → N.joint body V = (V, N) := by
    rintro ⟨h1, h2⟩
    have hz : (⟨-(-N.bias.x) - N.bias.x, -(-N.bias.y) - N.bias.y⟩ : V2 K) = ⟨0, 0⟩ := by ext <;> simp
    have h0 : ∀ m : M2 K, m.act ⟨0, 0⟩ = ⟨0, 0⟩ := fun m => by unfold M2.act; ext <;> simp
    unfold Slider.joint
    dsimp only
    rw [d1, d2, h1, h2, hz, h0]
    dsimp only
    simp only [zero_smul', sub_zero, add_zero, neg_zero, kick_zero]
  have hJ' : (N.joint body V).2.imp = N.imp → V3.dot N.n1 (sliderVel body N V) = -N.bias.x ∧ V3.dot N.n2 (sliderVel body N V) = -N.bias.y := by
    intro h
    unfold Slider.joint at h
    dsimp only at h
    rw [d1, d2] at h
    have hx := congrArg V2.x h
    have hy := congrArg V2.y h
    dsimp only at hx hy
    have := inj2 hi (V2.ext (add_eq_left.1 hx) (add_eq_left.1 hy))
    have ex := congrArg V2.x this
    have ey := congrArg V2.y this
    dsimp only at ex ey
    exact ⟨by linarith, by linarith⟩
  constructor
  · rintro ⟨h1, h2, h3, h4, h5, h6⟩
    unfold Slider.solve
    rw [hL' (hL.1 h4)]
    dsimp only
    rw [hU' (hU.1 h5)]
    dsimp only
    rw [hM' (hM.1 h6)]
    dsimp only
    rw [hR (by rw [h3, hbR])]
    dsimp only
    exact hJ ⟨h1, h2⟩
  · intro h
    have c1 : (N.limitL body V).2.impL = N.impL := by
      have := congrArg Slider.impL h
      rw [← this]
      change _ = (Slider.motor jc body _ _).2.impL
      rw [(Slider.motor_imp jc body _ _).1, (Slider.limitU_imp body _ _).2]
    unfold Slider.solve at h
    rw [hL' c1] at h
    dsimp only at h
    have c2 : (N.limitU body V).2.impU = N.impU := by
      have := congrArg Slider.impU h
      rw [← this]
      change _ = (Slider.motor jc body _ _).2.impU
      rw [(Slider.motor_imp jc body _ _).2]
    rw [hU' c2] at h
    dsimp only at h
    have c3 : (N.motor jc body V).2.impM = N.impM := by have := congrArg Slider.impM h; exact this
    rw [hM' c3] at h
    dsimp only at h
    have c4 := hR' (by have := congrArg Slider.impR h; exact this)
    rw [hR c4] at h
    dsimp only at h
    have c5 := hJ' (congrArg Slider.imp h)
    rw [hbR] at c4
    exact ⟨c5.1, c5.2, c4, hL.2 c1, hU.2 c2, hM.2 c3⟩

end JointProps
end RP3D
