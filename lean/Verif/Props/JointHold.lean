import Verif.Props.JointPosition

/-! Joints that hold are left alone by the position solvers (C109). -/

set_option linter.unusedSectionVars false

namespace RP3D
namespace Joints
open Solver
variable {K : Type} [Field K] [LinearOrder K] [IsStrictOrderedRing K]

/-! ### Joints that hold -/

/-- Where the anchor point `a` of the body is in the world. -/
def anchorAt (body : Nat → PBody K) (X : Nat → Pose K) (b : Nat) (a : V3 K) : V3 K := (X b).x + (X b).q.rot (a - (body b).com)

/-- The angle of the cone is not beyond its limit. -/
def Ball.ConeOk (cfg : JCfg K) (body : Nat → PBody K) (X : Nat → Pose K) (J : Ball K) : Prop :=
  cfg.acos (V3.dot (unitOf cfg ((X J.b1).q.rot (J.a1 - (body J.b1).com))) (-unitOf cfg ((X J.b2).q.rot (J.a2 - (body J.b2).com)))) ≤
    J.half

/-- The anchors are at the same point. -/
def Ball.Holds (cfg : JCfg K) (body : Nat → PBody K) (X : Nat → Pose K) (J : Ball K) : Prop :=
  anchorAt body X J.b1 J.a1 = anchorAt body X J.b2 J.a2 ∧ (J.coneOn = true → J.ConeOk cfg body X)

/-- The orientations differ as they did when the joint was created. -/
def Aligned (X : Nat → Pose K) (b1 b2 : Nat) (d : Quat K) : Prop :=
  (X b2).q.mul d = (X b1).q ∨ (X b2).q.mul d = (X b1).q.scale (-1)

/-- The anchors are at the same point, and the bodies are not turned against each other. -/
def Fixed.Holds (body : Nat → PBody K) (X : Nat → Pose K) (J : Fixed K) : Prop :=
  anchorAt body X J.b1 J.a1 = anchorAt body X J.b2 J.a2 ∧ Aligned X J.b1 J.b2 J.d

/-- The anchors are at the same point, the axes are parallel, and the angle is within the limits. -/
def Hinge.Holds (cfg : JCfg K) (body : Nat → PBody K) (X : Nat → Pose K) (J : Hinge K) : Prop :=
  anchorAt body X J.b1 J.a1 = anchorAt body X J.b2 J.a2 ∧ V3.cross ((X J.b1).q.rot J.l1) ((X J.b2).q.rot J.l2) = 0 ∧
    (X J.b2).q.rot J.l2 ≠ 0 ∧
    (J.limitOn = true → J.lower ≤ hingeAngle cfg J.d (unitOf cfg ((X J.b1).q.rot J.l1)) J.lower J.upper (X J.b1).q (X J.b2).q ∧
      hingeAngle cfg J.d (unitOf cfg ((X J.b1).q.rot J.l1)) J.lower J.upper (X J.b1).q (X J.b2).q ≤ J.upper)

/-- The difference of the anchors is along the axis, the bodies are not turned against each other, and the translation is within the limits. -/
def Slider.Holds (cfg : JCfg K) (body : Nat → PBody K) (X : Nat → Pose K) (J : Slider K) : Prop :=
  V3.cross (anchorAt body X J.b2 J.a2 - anchorAt body X J.b1 J.a1) ((X J.b1).q.rot J.l1) = 0 ∧ (X J.b1).q.rot J.l1 ≠ 0 ∧
    Aligned X J.b1 J.b2 J.d ∧
    (J.limitOn = true → J.lower ≤ V3.dot (anchorAt body X J.b2 J.a2 - anchorAt body X J.b1 J.a1) (unitOf cfg ((X J.b1).q.rot J.l1)) ∧
      V3.dot (anchorAt body X J.b2 J.a2 - anchorAt body X J.b1 J.a1) (unitOf cfg ((X J.b1).q.rot J.l1)) ≤ J.upper)

/-! ### No correction -/

theorem act_zero' (m : M3 K) : m.act 0 = 0 := by unfold M3.act; ext <;> simp
theorem act2_zero (m : M2 K) : m.act ⟨0, 0⟩ = ⟨0, 0⟩ := by unfold M2.act; ext <;> simp
theorem neg_zero' : (-0 : V3 K) = 0 := by ext <;> simp
theorem cross_zero_left (a : V3 K) : V3.cross 0 a = 0 := by unfold V3.cross; ext <;> simp
theorem smul_zero_left (a : V3 K) : V3.smul 0 a = 0 := by ext <;> simp
theorem smul_zero_right (k : K) : V3.smul k (0 : V3 K) = 0 := by ext <;> simp

theorem place_zero {cfg : JCfg K} (hs : IsSqrt cfg.sqrt) (c : Two K) {X : Nat → Pose K} (h1 : (X c.b1).q.lengthSq = 1)
    (h2 : (X c.b2).q.lengthSq = 1) : place cfg c 0 0 0 0 X = X := by
  funext b
  have a : ∀ v : V3 K, v + 0 = v := fun v => by ext <;> simp
  rw [place_at]
  simp only [act_zero', had_zero, spin_zero, a]
  by_cases e1 : b = c.b1
  · subst e1
    rw [if_pos rfl, unitQ_of_unit hs h1]
    split
    · rw [unitQ_of_unit hs h1]
    · rfl
  · rw [if_neg e1]
    split
    · rename_i e2; subst e2; rw [unitQ_of_unit hs h2]
    · rfl

theorem twist_zero {cfg : JCfg K} (hs : IsSqrt cfg.sqrt) (c : Two K) {X : Nat → Pose K} (h1 : (X c.b1).q.lengthSq = 1)
    (h2 : (X c.b2).q.lengthSq = 1) : twist cfg c 0 0 X = X := by
  rw [twist_eq, neg_zero', place_zero hs c h1 h2]

theorem pull_zero {cfg : JCfg K} (hs : IsSqrt cfg.sqrt) (dyn : Bool) (c : Two K) {X : Nat → Pose K} (h1 : (X c.b1).q.lengthSq = 1)
    (h2 : (X c.b2).q.lengthSq = 1) {r1 r2 : V3 K} (h : (X c.b1).x + r1 = (X c.b2).x + r2) : (pull cfg dyn c r1 r2 X).1 = X := by
  have e : (X c.b2).x + r2 - (X c.b1).x - r1 = 0 := by rw [← h]; abel
  unfold pull
  dsimp only
  rw [e, neg_zero', act_zero', neg_zero', cross_zero_left, cross_zero_left, neg_zero']
  split
  · exact place_zero hs c h1 h2
  · rfl

theorem align_zero {cfg : JCfg K} (hs : IsSqrt cfg.sqrt) (dyn : Bool) (c : Two K) {X : Nat → Pose K} (h1 : (X c.b1).q.lengthSq = 1)
    (h2 : (X c.b2).q.lengthSq = 1) {d : Quat K} (h : Aligned X c.b1 c.b2 d) : (align cfg dyn c d X).1 = X := by
  have e : turnErr (X c.b1).q (X c.b2).q d = 0 := by
    unfold turnErr
    rcases h with h | h <;> rw [h] <;> unfold Quat.mul Quat.conj
    · ext <;> simp <;> ring
    · unfold Quat.scale; ext <;> simp <;> ring
  unfold align
  dsimp only
  rw [e, neg_zero', act_zero', neg_zero']
  split
  · exact twist_zero hs c h1 h2
  · rfl

theorem orth_dot (sqrt : K → K) (n : V3 K) : V3.dot n (orthogonal sqrt n) = 0 := by
  unfold orthogonal
  dsimp only
  split_ifs <;> simp [V3.dot] <;> ring

theorem unitOf_smul (cfg : JCfg K) (v : V3 K) : ∃ k, unitOf cfg v = V3.smul k v := by
  unfold unitOf
  split
  · exact ⟨1, by ext <;> simp⟩
  · exact ⟨_, rfl⟩

theorem unitOf_ne {cfg : JCfg K} (hs : IsSqrt cfg.sqrt) {v : V3 K} (h : v ≠ 0) : V3.dot (unitOf cfg v) (unitOf cfg v) ≠ 0 := by
  have hl : 0 < v.lengthSq := by
    rcases (show 0 ≤ v.lengthSq by simp only [V3.lengthSq]; nlinarith [mul_self_nonneg v.x, mul_self_nonneg v.y, mul_self_nonneg v.z]).lt_or_eq with g | g
    · exact g
    · exfalso
      apply h
      simp only [V3.lengthSq] at g
      have := mul_self_nonneg v.x
      have := mul_self_nonneg v.y
      have := mul_self_nonneg v.z
      ext
      · exact mul_self_eq_zero.1 (by linarith)
      · exact mul_self_eq_zero.1 (by linarith)
      · exact mul_self_eq_zero.1 (by linarith)
  have e : V3.dot v v = v.lengthSq := rfl
  unfold unitOf
  split
  · rw [e]; exact ne_of_gt hl
  · have hp := (sqrt_pos hs hl).1
    have : V3.dot (V3.smul (1 / cfg.sqrt v.lengthSq) v) (V3.smul (1 / cfg.sqrt v.lengthSq) v) =
        (1 / cfg.sqrt v.lengthSq) * (1 / cfg.sqrt v.lengthSq) * v.lengthSq := by
      simp only [V3.dot, V3.smul_x, V3.smul_y, V3.smul_z, V3.lengthSq]; ring
    rw [this]
    have h1 : 1 / cfg.sqrt v.lengthSq ≠ 0 := one_div_ne_zero (ne_of_gt hp)
    exact mul_ne_zero (mul_ne_zero h1 h1) (ne_of_gt hl)

/-- A vector parallel to the unit vector of `v` has no part along the two other axes. -/
theorem parallel_zero {cfg : JCfg K} (hs : IsSqrt cfg.sqrt) {u v : V3 K} (h : V3.cross u v = 0) (hv : v ≠ 0) :
    V3.dot u (orthogonal cfg.sqrt (unitOf cfg v)) = 0 ∧ V3.dot u (V3.cross (unitOf cfg v) (orthogonal cfg.sqrt (unitOf cfg v))) = 0 := by
  have hn := unitOf_ne hs hv
  have hb := orth_dot cfg.sqrt (unitOf cfg v)
  generalize orthogonal cfg.sqrt (unitOf cfg v) = b at *
  have hc : V3.cross u (unitOf cfg v) = 0 := by
    obtain ⟨k, hk⟩ := unitOf_smul cfg v
    rw [hk]
    have hx := congrArg V3.x h
    have hy := congrArg V3.y h
    have hz := congrArg V3.z h
    simp only [V3.cross, V3.zero_x, V3.zero_y, V3.zero_z] at hx hy hz
    ext
    · simp only [V3.cross, V3.smul_x, V3.smul_y, V3.smul_z, V3.zero_x]; linear_combination k * hx
    · simp only [V3.cross, V3.smul_x, V3.smul_y, V3.smul_z, V3.zero_y]; linear_combination k * hy
    · simp only [V3.cross, V3.smul_x, V3.smul_y, V3.smul_z, V3.zero_z]; linear_combination k * hz
  generalize unitOf cfg v = a at *
  have hx := congrArg V3.x hc
  have hy := congrArg V3.y hc
  have hz := congrArg V3.z hc
  simp only [V3.cross, V3.zero_x, V3.zero_y, V3.zero_z] at hx hy hz
  constructor
  · have : V3.dot u b * V3.dot a a = 0 := by
      simp only [V3.dot] at hb ⊢
      linear_combination (u.x * a.x + u.y * a.y + u.z * a.z) * hb + (b.y * a.z - b.z * a.y) * hx + (b.z * a.x - b.x * a.z) * hy +
        (b.x * a.y - b.y * a.x) * hz
    exact (mul_eq_zero.1 this).resolve_right hn
  · simp only [V3.dot, V3.cross]
    linear_combination b.x * hx + b.y * hy + b.z * hz

/-! ### The four joints -/

theorem Ball.position_hold {cfg : JCfg K} (hs : IsSqrt cfg.sqrt) (body : Nat → PBody K) {X : Nat → Pose K} {J : Ball K} (h1 : (X J.b1).q.lengthSq = 1)
    (h2 : (X J.b2).q.lengthSq = 1) (h : J.Holds cfg body X) : (J.position cfg body X).1 = X := by
  have hc : ∀ N : Ball K, N.coneOn = J.coneOn → N.half = J.half → N.r1 = armAt body X J.b1 J.a1 → N.r2 = armAt body X J.b2 J.a2 → ∀ c,
      (N.cone' cfg c X).1 = X := by
    intro N e1 e2 e3 e4 c
    unfold Ball.cone'
    dsimp only
    split
    · rename_i ho
      rw [if_neg]
      have := h.2 (e1 ▸ ho)
      unfold Ball.ConeOk at this
      rw [e2, e3, e4]
      exact not_lt.2 (sub_nonneg.2 this)
    · rfl
  unfold Ball.position
  dsimp only
  rw [hc]
  · exact pull_zero hs _ _ h1 h2 h.1
  all_goals rfl

theorem Fixed.position_hold {cfg : JCfg K} (hs : IsSqrt cfg.sqrt) (body : Nat → PBody K) {X : Nat → Pose K} {J : Fixed K} (h1 : (X J.b1).q.lengthSq = 1)
    (h2 : (X J.b2).q.lengthSq = 1) (h : J.Holds body X) : (J.position cfg body X).1 = X := by
  unfold Fixed.position
  dsimp only
  rw [pull_zero hs _ _ h1 h2 h.1]
  exact align_zero hs _ _ h1 h2 h.2

theorem Hinge.position_hold {cfg : JCfg K} (hs : IsSqrt cfg.sqrt) (body : Nat → PBody K) {X : Nat → Pose K} {J : Hinge K} (h1 : (X J.b1).q.lengthSq = 1)
    (h2 : (X J.b2).q.lengthSq = 1) (h : J.Holds cfg body X) : (J.position cfg body X).1 = X := by
  obtain ⟨ha, hp, hn, hl⟩ := h
  have hL : ∀ (N : Hinge K) (c : Two K) (eL eU : K), c.b1 = J.b1 → c.b2 = J.b2 → (N.limitOn = true → 0 ≤ eL ∧ 0 ≤ eU) →
      N.low = decide (eL ≤ 0) → N.up = decide (eU ≤ 0) → (N.limits' cfg c eL eU X).1 = X := by
    intro N c eL eU c1 c2 hon l u
    have t : twist cfg c 0 0 X = X := twist_zero hs c (by rw [c1]; exact h1) (by rw [c2]; exact h2)
    unfold Hinge.limits'
    split
    · rename_i ho
      obtain ⟨g1, g2⟩ := hon ho
      dsimp only
      have a : (if N.low then twist cfg c (V3.smul (-(N.km * -eL)) N.ax) (V3.smul (N.km * -eL) N.ax) X else X) = X := by
        split
        · rename_i hlow
          rw [l] at hlow
          have : eL = 0 := le_antisymm (of_decide_eq_true hlow) g1
          rw [this, neg_zero, mul_zero, neg_zero, smul_zero_left, t]
        · rfl
      rw [a]
      split
      · rename_i hup
        rw [u] at hup
        have : eU = 0 := le_antisymm (of_decide_eq_true hup) g2
        rw [this, neg_zero, mul_zero, neg_zero, smul_zero_left, t]
      · rfl
    · rfl
  have hR : ∀ (N : Hinge K) (dyn : Bool) (c : Two K) (b v : V3 K), c.b1 = J.b1 → c.b2 = J.b2 → V3.dot N.ax b = 0 → V3.dot N.ax v = 0 →
      (N.rotate' cfg dyn c b v X).1 = X := by
    intro N dyn c b v c1 c2 g1 g2
    unfold Hinge.rotate'
    dsimp only
    split
    · dsimp only
      rw [g1, g2, neg_zero, act2_zero]
      have s1 : N.swing ⟨0, 0⟩ = 0 := by unfold Hinge.swing; ext <;> simp
      have s2 : N.swing' ⟨0, 0⟩ = 0 := by unfold Hinge.swing'; ext <;> simp
      rw [s1, s2]
      exact twist_zero hs c (by rw [c1]; exact h1) (by rw [c2]; exact h2)
    · rfl
  have hax : ∀ (N : Hinge K) (c : Two K) (eL eU : K), (N.limits' cfg c eL eU X).2.ax = N.ax := by
    intro N c eL eU
    unfold Hinge.limits'
    split <;> rfl
  obtain ⟨p1, p2⟩ := parallel_zero hs (cfg := cfg) (u := unitOf cfg ((X J.b1).q.rot J.l1)) (v := (X J.b2).q.rot J.l2)
    (by
      obtain ⟨k, hk⟩ := unitOf_smul cfg ((X J.b1).q.rot J.l1)
      rw [hk]
      have hx := congrArg V3.x hp
      have hy := congrArg V3.y hp
      have hz := congrArg V3.z hp
      simp only [V3.cross, V3.zero_x, V3.zero_y, V3.zero_z] at hx hy hz
      ext
      · simp only [V3.cross, V3.smul_x, V3.smul_y, V3.smul_z, V3.zero_x]; linear_combination k * hx
      · simp only [V3.cross, V3.smul_x, V3.smul_y, V3.smul_z, V3.zero_y]; linear_combination k * hy
      · simp only [V3.cross, V3.smul_x, V3.smul_y, V3.smul_z, V3.zero_z]; linear_combination k * hz) hn
  unfold Hinge.position
  dsimp only
  rw [hL]
  · rw [hR]
    · exact pull_zero hs _ _ h1 h2 ha
    · rfl
    · rfl
    · rw [hax]; exact p1
    · rw [hax]; exact p2
  · rfl
  · rfl
  · exact fun ho => ⟨sub_nonneg.2 (hl ho).1, sub_nonneg.2 (hl ho).2⟩
  · rfl
  · rfl

theorem Slider.position_hold {cfg : JCfg K} (hs : IsSqrt cfg.sqrt) (body : Nat → PBody K) {X : Nat → Pose K} {J : Slider K} (h1 : (X J.b1).q.lengthSq = 1)
    (h2 : (X J.b2).q.lengthSq = 1) (h : J.Holds cfg body X) : (J.position cfg body X).1 = X := by
  obtain ⟨hp, hn, ha, hl⟩ := h
  have eu : anchorAt body X J.b2 J.a2 - anchorAt body X J.b1 J.a1 =
      (X J.b2).x + armAt body X J.b2 J.a2 - (X J.b1).x - armAt body X J.b1 J.a1 := by unfold anchorAt armAt; abel
  rw [eu] at hp hl
  obtain ⟨p1, p2⟩ := parallel_zero hs (cfg := cfg) hp hn
  have hL : ∀ (N : Slider K) (c : Two K), c.b1 = J.b1 → c.b2 = J.b2 →
      (N.limitOn = true → N.lower ≤ V3.dot (N.between X) N.ax ∧ V3.dot (N.between X) N.ax ≤ N.upper) →
      N.low = decide (V3.dot (N.between X) N.ax - N.lower ≤ 0) → N.up = decide (N.upper - V3.dot (N.between X) N.ax ≤ 0) →
      (N.limits' cfg c X).1 = X := by
    intro N c c1 c2 hon l u
    have t : place cfg c 0 0 0 0 X = X := place_zero hs c (by rw [c1]; exact h1) (by rw [c2]; exact h2)
    unfold Slider.limits'
    split
    · rename_i ho
      obtain ⟨g1, g2⟩ := hon ho
      dsimp only
      generalize (if (N.low || N.up) = true then _ else N.kl) = kl
      have a : (if N.low = true then place cfg c (V3.smul (-(kl * -(V3.dot (N.between X) N.ax - N.lower))) N.ax)
          (V3.smul (-(kl * -(V3.dot (N.between X) N.ax - N.lower))) N.cx) (V3.smul (kl * -(V3.dot (N.between X) N.ax - N.lower)) N.ax)
          (V3.smul (kl * -(V3.dot (N.between X) N.ax - N.lower)) N.ex) X else X) = X := by
        split
        · rename_i hlow
          rw [l] at hlow
          have : V3.dot (N.between X) N.ax - N.lower = 0 := le_antisymm (of_decide_eq_true hlow) (sub_nonneg.2 g1)
          rw [this, neg_zero, mul_zero, neg_zero, smul_zero_left, smul_zero_left, smul_zero_left, t]
        · rfl
      rw [a]
      split
      · rename_i hup
        rw [u] at hup
        have : N.upper - V3.dot (N.between X) N.ax = 0 := le_antisymm (of_decide_eq_true hup) (sub_nonneg.2 g2)
        rw [this, neg_zero, mul_zero, neg_zero, smul_zero_left, smul_zero_left, smul_zero_left, t]
      · rfl
    · rfl
  have hn1 : ∀ (N : Slider K) (c : Two K), (N.limits' cfg c X).2.n1 = N.n1 ∧ (N.limits' cfg c X).2.n2 = N.n2 := by
    intro N c
    unfold Slider.limits'
    split <;> exact ⟨rfl, rfl⟩
  have hP : ∀ (N : Slider K) (dyn : Bool) (c : Two K) (u : V3 K), c.b1 = J.b1 → c.b2 = J.b2 → V3.dot u N.n1 = 0 → V3.dot u N.n2 = 0 →
      (Slider.pull' cfg dyn c N u X).1 = X := by
    intro N dyn c u c1 c2 g1 g2
    unfold Slider.pull'
    dsimp only
    split
    · dsimp only
      rw [g1, g2, neg_zero, act2_zero]
      have z : ∀ a b : V3 K, V3.smul 0 a - V3.smul 0 b = 0 ∧ V3.smul 0 a + V3.smul 0 b = 0 := fun a b => ⟨by ext <;> simp, by ext <;> simp⟩
      dsimp only
      rw [(z _ _).1, (z _ _).1, (z _ _).2, (z _ _).2]
      exact place_zero hs c (by rw [c1]; exact h1) (by rw [c2]; exact h2)
    · rfl
  unfold Slider.position
  dsimp only
  rw [hL]
  · rw [align_zero hs _ _ h1 h2 ha]
    refine hP _ _ _ _ rfl rfl ?_ ?_
    · dsimp only; rw [(hn1 _ _).1]; exact p1
    · dsimp only; rw [(hn1 _ _).2]; exact p2
  · rfl
  · rfl
  · exact hl
  · rfl
  · rfl

/-! ### All joints and iterations -/

theorem Ball.holds_after (cfg : JCfg K) (body : Nat → PBody K) (X Y : Nat → Pose K) (J : Ball K) (h : J.Holds cfg body Y) :
    (J.position cfg body X).2.Holds cfg body Y := by
  have hc : ∀ (N : Ball K) (c : Two K), N.Holds cfg body Y → ∀ k, ({ (N.cone' cfg c X).2 with k := k } : Ball K).Holds cfg body Y := by
    intro N c hN k
    unfold Ball.cone'
    dsimp only
    split
    · split <;> exact hN
    · exact hN
  refine hc _ _ ?_ _
  exact h

theorem Hinge.holds_after (cfg : JCfg K) (body : Nat → PBody K) (X Y : Nat → Pose K) (J : Hinge K) (h : J.Holds cfg body Y) :
    (J.position cfg body X).2.Holds cfg body Y := by
  have hl : ∀ (N : Hinge K) (c : Two K) (eL eU : K) (Z : Nat → Pose K), N.Holds cfg body Y → (N.limits' cfg c eL eU Z).2.Holds cfg body Y := by
    intro N c eL eU Z hN
    unfold Hinge.limits'
    dsimp only
    split <;> exact hN
  have hr : ∀ (N : Hinge K) (dyn : Bool) (c : Two K) (b v : V3 K) (Z : Nat → Pose K), N.Holds cfg body Y → ∀ k,
      ({ (N.rotate' cfg dyn c b v Z).2 with k := k } : Hinge K).Holds cfg body Y := by
    intro N dyn c b v Z hN k
    unfold Hinge.rotate'
    dsimp only
    split <;> exact hN
  refine hr _ _ _ _ _ _ (hl _ _ _ _ _ ?_) _
  exact h

theorem Slider.holds_after (cfg : JCfg K) (body : Nat → PBody K) (X Y : Nat → Pose K) (J : Slider K) (h : J.Holds cfg body Y) :
    (J.position cfg body X).2.Holds cfg body Y := by
  have hl : ∀ (N : Slider K) (c : Two K) (Z : Nat → Pose K), N.Holds cfg body Y → ∀ kr,
      ({ (N.limits' cfg c Z).2 with kr := kr } : Slider K).Holds cfg body Y := by
    intro N c Z hN kr
    unfold Slider.limits'
    dsimp only
    split <;> exact hN
  have hr : ∀ (N : Slider K) (dyn : Bool) (c : Two K) (u : V3 K) (Z : Nat → Pose K), N.Holds cfg body Y →
      (Slider.pull' cfg dyn c N u Z).2.Holds cfg body Y := by
    intro N dyn c u Z hN
    unfold Slider.pull'
    dsimp only
    split <;> exact hN
  refine hr _ _ _ _ _ (hl _ _ _ ?_ _)
  exact h

section lists
variable {J : Type} {baum : J → Bool} {f : J → (Nat → Pose K) → (Nat → Pose K) × J} {X : Nat → Pose K} {H : J → Prop}

theorem each_hold (hf : ∀ j, H j → (f j X).1 = X ∧ H (f j X).2 ∧ baum (f j X).2 = baum j) : ∀ js : List J, (∀ j ∈ js, baum j = false → H j) →
    (each baum f X js).1 = X ∧ ∀ j ∈ (each baum f X js).2, baum j = false → H j
  | [], _ => ⟨rfl, by simp [each]⟩
  | j :: js, h => by
    unfold each
    dsimp only
    have hjs := each_hold hf js fun i hi => h i (List.mem_cons_of_mem _ hi)
    by_cases hb : baum j
    · rw [if_pos hb]
      refine ⟨hjs.1, fun i hi hi' => ?_⟩
      rcases List.mem_cons.1 hi with e | e
      · subst e; exact absurd hb (by simp [hi'])
      · exact hjs.2 i e hi'
    · rw [if_neg hb]
      have hb' : baum j = false := by simpa using hb
      obtain ⟨a, b, c⟩ := hf j (h j List.mem_cons_self hb')
      rw [a]
      refine ⟨hjs.1, fun i hi hi' => ?_⟩
      rcases List.mem_cons.1 hi with e | e
      · subst e; exact b
      · exact hjs.2 i e hi'

theorem eachSlider_hold (hf : ∀ j, H j → (f j X).1 = X ∧ H (f j X).2 ∧ baum (f j X).2 = baum j) : ∀ js : List J, (∀ j ∈ js, baum j = false → H j) →
    (eachSlider baum f X js).1 = X ∧ ∀ j ∈ (eachSlider baum f X js).2, baum j = false → H j
  | [], _ => ⟨rfl, by simp [eachSlider]⟩
  | j :: js, h => by
    unfold eachSlider
    dsimp only
    by_cases hb : baum j
    · rw [if_pos hb]
      exact ⟨rfl, h⟩
    · rw [if_neg hb]
      have hb' : baum j = false := by simpa using hb
      obtain ⟨a, b, c⟩ := hf j (h j List.mem_cons_self hb')
      have hjs := eachSlider_hold hf js fun i hi => h i (List.mem_cons_of_mem _ hi)
      rw [a]
      refine ⟨hjs.1, fun i hi hi' => ?_⟩
      rcases List.mem_cons.1 hi with e | e
      · subst e; exact b
      · exact hjs.2 i e hi'

end lists

/-- All joints with the technique NON_LINEAR_GAUSS_SEIDEL hold. -/
structure Pins.Holds (cfg : JCfg K) (body : Nat → PBody K) (X : Nat → Pose K) (S : Pins K) : Prop where
  balls : ∀ J ∈ S.balls, J.baum = false → J.Holds cfg body X
  fixeds : ∀ J ∈ S.fixeds, J.baum = false → J.Holds body X
  hinges : ∀ J ∈ S.hinges, J.baum = false → J.Holds cfg body X
  sliders : ∀ J ∈ S.sliders, J.baum = false → J.Holds cfg body X

theorem positionAll_hold {cfg : JCfg K} (hs : IsSqrt cfg.sqrt) (body : Nat → PBody K) {X : Nat → Pose K} (hq : ∀ b, (X b).q.lengthSq = 1) {S : Pins K}
    (h : S.Holds cfg body X) : (positionAll cfg body X S).1 = X ∧ (positionAll cfg body X S).2.Holds cfg body X := by
  obtain ⟨a1, a2⟩ := each_hold (baum := Ball.baum) (H := fun J => J.Holds cfg body X) (f := Ball.position cfg body) (X := X)
    (fun J hJ => ⟨J.position_hold hs body (hq _) (hq _) hJ, J.holds_after cfg body X X hJ,
      (Ball.position_ok (P := fun _ _ => True) J trivial X).2.2.2⟩) S.balls h.balls
  obtain ⟨b1, b2⟩ := each_hold (baum := Fixed.baum) (H := fun J => J.Holds body X) (f := Fixed.position cfg body) (X := X)
    (fun J hJ => ⟨J.position_hold hs body (hq _) (hq _) hJ, hJ, rfl⟩) S.fixeds h.fixeds
  obtain ⟨c1, c2⟩ := each_hold (baum := Hinge.baum) (H := fun J => J.Holds cfg body X) (f := Hinge.position cfg body) (X := X)
    (fun J hJ => ⟨J.position_hold hs body (hq _) (hq _) hJ, J.holds_after cfg body X X hJ,
      (Hinge.position_ok (P := fun _ _ => True) J trivial X).2.2.2⟩) S.hinges h.hinges
  obtain ⟨d1, d2⟩ := eachSlider_hold (baum := Slider.baum) (H := fun J => J.Holds cfg body X) (f := Slider.position cfg body) (X := X)
    (fun J hJ => ⟨J.position_hold hs body (hq _) (hq _) hJ, J.holds_after cfg body X X hJ,
      (Slider.position_ok (P := fun _ _ => True) J trivial X).2.2.2⟩) S.sliders h.sliders
  unfold positionAll
  dsimp only
  rw [a1, b1, c1]
  exact ⟨d1, ⟨a2, b2, c2, d2⟩⟩

/-- **C109.** If the orientations are unit quaternions and all joints hold, the position solvers move no body, in any number of iterations. What is
missing: the orientations that the integration hands to the solvers are no unit quaternions, see `moving_hold_lost`. -/
theorem correct_hold_partial {cfg : JCfg K} (hs : IsSqrt cfg.sqrt) (body : Nat → PBody K) {X : Nat → Pose K} (hq : ∀ b, (X b).q.lengthSq = 1) :
    ∀ (n : Nat) {S : Pins K}, S.Holds cfg body X → (correct cfg body n (X, S)).1 = X
  | 0, _, _ => rfl
  | n + 1, S, h => by
    obtain ⟨a, b⟩ := positionAll_hold hs body hq h
    have e : positionAll cfg body X S = (X, (positionAll cfg body X S).2) := Prod.ext a rfl
    unfold correct
    dsimp only
    rw [e]
    exact correct_hold_partial hs body hq n b

end Joints
end RP3D
