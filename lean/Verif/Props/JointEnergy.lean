import Verif.Props.JointLimits

/-! C97: joints do not make energy. -/

set_option linter.unusedSectionVars false

namespace RP3D
namespace JointProps
open Solver Joints SolverProps
variable {K : Type} [Field K] [LinearOrder K] [IsStrictOrderedRing K]

/-- Twice the kinetic energy of a set of bodies. -/
def energy2 (S : Finset Nat) (mass : Nat → K) (L : Nat → M3 K) (V : Nat → Vel K) : K :=
  ∑ b ∈ S, (mass b * V3.dot (V b).v (V b).v + V3.dot (V b).w ((L b).act (V b).w))

/-- Body `b` is movable with mass and inertia tensor, or static and at rest. -/
def Inert (body : Nat → JBody K) (mass : Nat → K) (L : Nat → M3 K) (V : Nat → Vel K) (b : Nat) : Prop :=
  (mass b * (body b).m = 1 ∧ (∀ a, (L b).act ((body b).I.act a) = a) ∧ (∀ a c, V3.dot a ((L b).act c) = V3.dot c ((L b).act a))) ∨
    ((body b).m = 0 ∧ (∀ a, (body b).I.act a = 0) ∧ (V b).v = 0 ∧ (V b).w = 0)

/-- Bodies as they are made: masses and inertia tensors are not negative. -/
def Solid (body : Nat → JBody K) (b : Nat) : Prop := Unlocked (body b) ∧ 0 ≤ (body b).m ∧ ∀ a, 0 ≤ V3.dot a ((body b).I.act a)

theorem dot_add_right (a b c : V3 K) : V3.dot a (b + c) = V3.dot a b + V3.dot a c := by simp only [V3.dot, V3.add_x, V3.add_y, V3.add_z]; ring
theorem dot_add_left (a b c : V3 K) : V3.dot (a + b) c = V3.dot a c + V3.dot b c := by simp only [V3.dot, V3.add_x, V3.add_y, V3.add_z]; ring
theorem dot_comm' (a b : V3 K) : V3.dot a b = V3.dot b a := by simp only [V3.dot]; ring
theorem dot_smul_right (k : K) (a b : V3 K) : V3.dot a (V3.smul k b) = k * V3.dot a b := by simp only [V3.dot, V3.smul_x, V3.smul_y, V3.smul_z]; ring
theorem dot_smul_left (k : K) (a b : V3 K) : V3.dot (V3.smul k a) b = k * V3.dot a b := by simp only [V3.dot, V3.smul_x, V3.smul_y, V3.smul_z]; ring
theorem dot_zero_left (a : V3 K) : V3.dot 0 a = 0 := by simp [V3.dot]
theorem dot_zero_right (a : V3 K) : V3.dot a 0 = 0 := by simp [V3.dot]

/-- The work of an impulse on one body. -/
theorem work {body : Nat → JBody K} {mass : Nat → K} {L : Nat → M3 K} {V : Nat → Vel K} {b : Nat} (h : Inert body mass L V b) (P A : V3 K) :
    mass b * V3.dot ((V b).v + V3.smul (body b).m P) ((V b).v + V3.smul (body b).m P) +
        V3.dot ((V b).w + (body b).I.act A) ((L b).act ((V b).w + (body b).I.act A)) =
      mass b * V3.dot (V b).v (V b).v + V3.dot (V b).w ((L b).act (V b).w) +
        (2 * (V3.dot P (V b).v + V3.dot A (V b).w) + ((body b).m * V3.dot P P + V3.dot A ((body b).I.act A))) := by
  rcases h with ⟨h1, h2, h3⟩ | ⟨h1, h2, h3, h4⟩
  · rw [act_addv, h2, dot_add_right, dot_add_left, dot_add_left, dot_smul_right, dot_smul_left, dot_add_left, dot_add_right, dot_add_right,
      dot_smul_right, dot_smul_left, h3 ((body b).I.act A), h2, dot_comm' (V b).v P, dot_comm' (V b).w A, dot_comm' ((body b).I.act A) A]
    linear_combination (2 * V3.dot P (V b).v + (body b).m * V3.dot P P) * h1
  · rw [h1, h2, h3, h4]
    simp only [zero_smul', add_zero, dot_zero_left, dot_zero_right, mul_zero, zero_mul]

/-- Energy after an impulse of a joint. -/
theorem kick_energy {body : Nat → JBody K} {mass : Nat → K} {L : Nat → M3 K} {S : Finset Nat} {b1 b2 : Nat} (hb : b1 ≠ b2) (m1 : b1 ∈ S) (m2 : b2 ∈ S)
    (u1 : Unlocked (body b1)) (u2 : Unlocked (body b2)) {V : Nat → Vel K} (hi : ∀ b ∈ S, Inert body mass L V b) (P1 A1 P2 A2 : V3 K) :
    energy2 S mass L (kick (two body b1 b2) P1 A1 P2 A2 V) = energy2 S mass L V +
      (2 * (V3.dot P1 (V b1).v + V3.dot A1 (V b1).w + V3.dot P2 (V b2).v + V3.dot A2 (V b2).w) +
        ((body b1).m * V3.dot P1 P1 + V3.dot A1 ((body b1).I.act A1) + (body b2).m * V3.dot P2 P2 + V3.dot A2 ((body b2).I.act A2))) ∧
    ∀ b ∈ S, Inert body mass L (kick (two body b1 b2) P1 A1 P2 A2 V) b := by
  obtain ⟨e1, e2, e3⟩ := kick_free hb u1 u2 P1 A1 P2 A2 V
  constructor
  · have e : ∀ b ∈ S, (mass b * V3.dot (kick (two body b1 b2) P1 A1 P2 A2 V b).v (kick (two body b1 b2) P1 A1 P2 A2 V b).v +
        V3.dot (kick (two body b1 b2) P1 A1 P2 A2 V b).w ((L b).act (kick (two body b1 b2) P1 A1 P2 A2 V b).w)) =
        (mass b * V3.dot (V b).v (V b).v + V3.dot (V b).w ((L b).act (V b).w)) +
        ((if b1 = b then 2 * (V3.dot P1 (V b1).v + V3.dot A1 (V b1).w) + ((body b1).m * V3.dot P1 P1 + V3.dot A1 ((body b1).I.act A1)) else 0) +
        (if b2 = b then 2 * (V3.dot P2 (V b2).v + V3.dot A2 (V b2).w) + ((body b2).m * V3.dot P2 P2 + V3.dot A2 ((body b2).I.act A2)) else 0)) := by
      intro b hb'
      by_cases h1 : b1 = b
      · have h2 : ¬ b2 = b := fun h => hb (h1.trans h.symm)
        rw [if_pos h1, if_neg h2, add_zero]
        subst h1
        rw [e1]
        exact work (hi b1 hb') P1 A1
      · by_cases h2 : b2 = b
        · rw [if_neg h1, if_pos h2, zero_add]
          subst h2
          rw [e2]
          exact work (hi b2 hb') P2 A2
        · rw [if_neg h1, if_neg h2, e3 b (Ne.symm h1) (Ne.symm h2), add_zero, add_zero]
    unfold energy2
    rw [Finset.sum_congr rfl e, Finset.sum_add_distrib (f := fun b => mass b * V3.dot (V b).v (V b).v + V3.dot (V b).w ((L b).act (V b).w))]
    refine congrArg _ ?_
    rw [Finset.sum_add_distrib, Finset.sum_ite_eq, Finset.sum_ite_eq, if_pos m1, if_pos m2]
    ring
  · intro b hb'
    have key : ∀ c ∈ S, ∀ (P A : V3 K) (x y : V3 K) (W : Nat → Vel K), W c = ⟨(V c).v + V3.smul (body c).m P, (V c).w + (body c).I.act A, x, y⟩ →
        Inert body mass L W c := by
      intro c hc P A x y W hW
      rcases hi c hc with h | ⟨h1, h2, h3, h4⟩
      · exact Or.inl h
      · refine Or.inr ⟨h1, h2, ?_, ?_⟩
        · rw [hW, h1, h3, zero_smul', add_zero]
        · rw [hW, h2, h4, add_zero]
    by_cases h1 : b = b1
    · subst h1; exact key b hb' P1 A1 _ _ _ e1
    · by_cases h2 : b = b2
      · subst h2; exact key b hb' P2 A2 _ _ _ e2
      · rcases hi b hb' with h | ⟨h3, h4, h5, h6⟩
        · exact Or.inl h
        · exact Or.inr ⟨h3, h4, by rw [e3 b h1 h2]; exact h5, by rw [e3 b h1 h2]; exact h6⟩

/-- A set of bodies with the velocities of the moment. -/
structure Bodies (body : Nat → JBody K) (mass : Nat → K) (L : Nat → M3 K) (S : Finset Nat) (V : Nat → Vel K) : Prop where
  solid : ∀ b ∈ S, Solid body b
  inert : ∀ b ∈ S, Inert body mass L V b

/-- The velocities `W` come from `V` without gain of energy. -/
def Loses (body : Nat → JBody K) (mass : Nat → K) (L : Nat → M3 K) (S : Finset Nat) (V W : Nat → Vel K) : Prop :=
  Bodies body mass L S W ∧ energy2 S mass L W ≤ energy2 S mass L V

theorem Loses.refl {body : Nat → JBody K} {mass : Nat → K} {L : Nat → M3 K} {S : Finset Nat} {V : Nat → Vel K} (h : Bodies body mass L S V) :
    Loses body mass L S V V := ⟨h, le_refl _⟩

theorem Loses.trans {body : Nat → JBody K} {mass : Nat → K} {L : Nat → M3 K} {S : Finset Nat} {V W U : Nat → Vel K} (h : Loses body mass L S V W)
    (g : Loses body mass L S W U) : Loses body mass L S V U := ⟨g.1, g.2.trans h.2⟩

/-- Two different bodies of the set. -/
structure Pair (S : Finset Nat) (b1 b2 : Nat) : Prop where
  ne : b1 ≠ b2
  m1 : b1 ∈ S
  m2 : b2 ∈ S

theorem kick_loses {body : Nat → JBody K} {mass : Nat → K} {L : Nat → M3 K} {S : Finset Nat} {V : Nat → Vel K} (h : Bodies body mass L S V)
    {b1 b2 : Nat} (hp : Pair S b1 b2) {P1 A1 P2 A2 : V3 K}
    (hq : 2 * (V3.dot P1 (V b1).v + V3.dot A1 (V b1).w + V3.dot P2 (V b2).v + V3.dot A2 (V b2).w) +
      ((body b1).m * V3.dot P1 P1 + V3.dot A1 ((body b1).I.act A1) + (body b2).m * V3.dot P2 P2 + V3.dot A2 ((body b2).I.act A2)) ≤ 0) :
    Loses body mass L S V (kick (two body b1 b2) P1 A1 P2 A2 V) := by
  obtain ⟨e1, e2⟩ := kick_energy hp.ne hp.m1 hp.m2 (h.solid b1 hp.m1).1 (h.solid b2 hp.m2).1 h.inert P1 A1 P2 A2
  exact ⟨⟨h.solid, e2⟩, by rw [e1]; linarith⟩

/-! ### Solved systems of equations lose energy -/

theorem inverseOrZero_cases {jc : JCfg K} (he : 0 ≤ jc.eps) (dyn : Bool) (m : M3 K) (a : V3 K) :
    (inverseOrZero jc dyn m).act a = 0 ∨ m.act ((inverseOrZero jc dyn m).act a) = a := by
  by_cases hd : jc.eps < |m.det|
  · by_cases hy : dyn = true
    · exact Or.inr (inverseOrZero_act he hd hy a)
    · left; unfold inverseOrZero; rw [if_pos hd, if_neg hy]; unfold M3.zero M3.of M3.act; ext <;> simp
  · left; unfold inverseOrZero; rw [if_neg hd]; unfold M3.zero M3.of M3.act; ext <;> simp

theorem inverseOrZero2_cases {jc : JCfg K} (he : 0 ≤ jc.eps) (dyn : Bool) (m : M2 K) (a : V2 K) :
    (inverseOrZero2 jc dyn m).act a = ⟨0, 0⟩ ∨ m.act ((inverseOrZero2 jc dyn m).act a) = a := by
  by_cases hd : jc.eps < |m.det|
  · by_cases hy : dyn = true
    · exact Or.inr (inverseOrZero2_act he hd hy a)
    · left; unfold inverseOrZero2; rw [if_pos hd, if_neg hy]; unfold M2.zero M2.act; ext <;> simp
  · left; unfold inverseOrZero2; rw [if_neg hd]; unfold M2.zero M2.act; ext <;> simp

theorem pin_loses {jc : JCfg K} (he : 0 ≤ jc.eps) {body : Nat → JBody K} {mass : Nat → K} {L : Nat → M3 K} {S : Finset Nat} {V : Nat → Vel K}
    (h : Bodies body mass L S V) {b1 b2 : Nat} (hp : Pair S b1 b2) (dyn : Bool) (r1 r2 : V3 K) :
    Loses body mass L S V (pin (two body b1 b2) r1 r2
      ((inverseOrZero jc dyn (massMatrix (body b1).m (body b2).m (body b1).I (body b2).I r1 r2)).act (-(rel (V b1) (V b2) r1 r2) - 0)) V) := by
  rw [sub_zero]
  rcases inverseOrZero_cases he dyn (massMatrix (body b1).m (body b2).m (body b1).I (body b2).I r1 r2) (-(rel (V b1) (V b2) r1 r2)) with hz | hz
  · rw [hz, pin_zero]; exact Loses.refl h
  · generalize (inverseOrZero jc dyn (massMatrix (body b1).m (body b2).m (body b1).I (body b2).I r1 r2)).act (-(rel (V b1) (V b2) r1 r2)) = d at hz
    unfold pin
    refine kick_loses h hp ?_
    obtain ⟨_, p1, p2⟩ := h.solid b1 hp.m1
    obtain ⟨_, q1, q2⟩ := h.solid b2 hp.m2
    have hl : V3.dot (-d) (V b1).v + V3.dot (V3.cross d r1) (V b1).w + V3.dot d (V b2).v + V3.dot (-(V3.cross d r2)) (V b2).w =
        V3.dot d (rel (V b1) (V b2) r1 r2) := by
      unfold rel
      simp only [V3.dot, V3.cross, V3.add_x, V3.add_y, V3.add_z, V3.sub_x, V3.sub_y, V3.sub_z, V3.neg_x, V3.neg_y, V3.neg_z]; ring
    have hq : (body b1).m * V3.dot (-d) (-d) + V3.dot (V3.cross d r1) ((body b1).I.act (V3.cross d r1)) + (body b2).m * V3.dot d d +
        V3.dot (-(V3.cross d r2)) ((body b2).I.act (-(V3.cross d r2))) =
        V3.dot d ((massMatrix (body b1).m (body b2).m (body b1).I (body b2).I r1 r2).act d) := by
      rw [massMatrix_act]
      unfold M3.act
      simp only [V3.dot, V3.cross, V3.add_x, V3.add_y, V3.add_z, V3.sub_x, V3.sub_y, V3.sub_z, V3.neg_x, V3.neg_y, V3.neg_z, V3.smul_x, V3.smul_y, V3.smul_z]
      ring
    have hr : V3.dot d (rel (V b1) (V b2) r1 r2) = -V3.dot d ((massMatrix (body b1).m (body b2).m (body b1).I (body b2).I r1 r2).act d) := by
      rw [hz]
      simp only [V3.dot, V3.neg_x, V3.neg_y, V3.neg_z]; ring
    have sq : ∀ a : V3 K, 0 ≤ V3.dot a a := fun a => by
      simp only [V3.dot]; nlinarith [mul_self_nonneg a.x, mul_self_nonneg a.y, mul_self_nonneg a.z]
    have n1 := mul_nonneg p1 (sq (-d))
    have n2 := mul_nonneg q1 (sq d)
    have n3 := p2 (V3.cross d r1)
    have n4 := q2 (-(V3.cross d r2))
    rw [hl, hr]
    linarith

theorem turn_loses {jc : JCfg K} (he : 0 ≤ jc.eps) {body : Nat → JBody K} {mass : Nat → K} {L : Nat → M3 K} {S : Finset Nat} {V : Nat → Vel K}
    (h : Bodies body mass L S V) {b1 b2 : Nat} (hp : Pair S b1 b2) {dyn : Bool} (hd : jc.eps < |(M3.add (body b1).I (body b2).I).det|) (hy : dyn = true) :
    Loses body mass L S V (turn (two body b1 b2) (-(inverseOrSame jc dyn (M3.add (body b1).I (body b2).I)).act (-((V b2).w - (V b1).w) - 0))
      ((inverseOrSame jc dyn (M3.add (body b1).I (body b2).I)).act (-((V b2).w - (V b1).w) - 0)) V) := by
  rw [sub_zero]
  have hz := inverseOrSame_act he hd hy (-((V b2).w - (V b1).w))
  generalize (inverseOrSame jc dyn (M3.add (body b1).I (body b2).I)).act (-((V b2).w - (V b1).w)) = d at hz
  rw [turn_eq]
  refine kick_loses h hp ?_
  have n1 := (h.solid b1 hp.m1).2.2 (-d)
  have n2 := (h.solid b2 hp.m2).2.2 d
  have hl : V3.dot 0 (V b1).v + V3.dot (-d) (V b1).w + V3.dot 0 (V b2).v + V3.dot d (V b2).w = V3.dot d ((V b2).w - (V b1).w) := by
    simp only [V3.dot, V3.sub_x, V3.sub_y, V3.sub_z, V3.neg_x, V3.neg_y, V3.neg_z, V3.zero_x, V3.zero_y, V3.zero_z]; ring
  have hr : V3.dot d ((V b2).w - (V b1).w) = -V3.dot d ((M3.add (body b1).I (body b2).I).act d) := by
    rw [hz]
    simp only [V3.dot, V3.neg_x, V3.neg_y, V3.neg_z]; ring
  have hq : V3.dot (-d) ((body b1).I.act (-d)) + V3.dot d ((body b2).I.act d) = V3.dot d ((M3.add (body b1).I (body b2).I).act d) := by
    unfold M3.add M3.act
    simp only [V3.dot, V3.neg_x, V3.neg_y, V3.neg_z, V3.add_x, V3.add_y, V3.add_z]; ring
  rw [hl, hr, dot_zero_left]
  linarith

/-- An impulse `l ≥ 0` that is changed to stop the velocity `y`, with mass `1 / κ`. -/
theorem row_loses {κ : K} (hκ : 0 ≤ κ) {l : K} (hl : 0 ≤ l) (y : K) :
    2 * ((max (l + invOf κ * (-y)) 0 - l) * y) + (max (l + invOf κ * (-y)) 0 - l) * (max (l + invOf κ * (-y)) 0 - l) * κ ≤ 0 := by
  rcases hκ.lt_or_eq with h | h
  · have hk := invOf_mul h
    have hp : 0 < invOf κ := by unfold invOf; rw [if_pos h]; exact one_div_pos.2 h
    set k := invOf κ
    rcases max_choice (l + k * (-y)) 0 with h' | h'
    · rw [h']
      have : (l + k * (-y) - l) * (l + k * (-y) - l) * κ = k * y * y * (k * κ) := by ring
      rw [this, hk]
      nlinarith [mul_nonneg hp.le (mul_self_nonneg y)]
    · rw [h', zero_sub]
      rw [max_eq_right_iff] at h'
      have h2 : l ≤ k * y := by linarith
      have h3 : l * κ ≤ y := by
        have := mul_le_mul_of_nonneg_right h2 hκ
        nlinarith
      have h4 : l * (l * κ) ≤ l * y := mul_le_mul_of_nonneg_left h3 hl
      have h5 : 0 ≤ l * (l * κ) := mul_nonneg hl (mul_nonneg hl hκ)
      nlinarith
  · have : invOf κ = 0 := by unfold invOf; rw [← h, if_neg (lt_irrefl _)]
    rw [this, zero_mul, add_zero, max_eq_left hl, sub_self]
    simp

/-- The same for an angular impulse along an axis. -/
theorem axis_loses {body : Nat → JBody K} {mass : Nat → K} {L : Nat → M3 K} {S : Finset Nat} {V : Nat → Vel K}
    (h : Bodies body mass L S V) {b1 b2 : Nat} (hp : Pair S b1 b2) (a : V3 K) {l : K} (hl : 0 ≤ l) :
    let κ := V3.dot a ((body b1).I.act a) + V3.dot a ((body b2).I.act a)
    let d := max (l + invOf κ * (-V3.dot a ((V b1).w - (V b2).w) - 0)) 0 - l
    Loses body mass L S V (turn (two body b1 b2) (V3.smul d a) (V3.smul (-d) a) V) := by
  intro κ d
  rw [turn_eq]
  refine kick_loses h hp ?_
  have hκ : 0 ≤ κ := add_nonneg ((h.solid b1 hp.m1).2.2 a) ((h.solid b2 hp.m2).2.2 a)
  have hr := row_loses hκ hl (V3.dot a ((V b1).w - (V b2).w))
  simp only [d, sub_zero] at hr ⊢
  generalize max (l + invOf κ * (-V3.dot a ((V b1).w - (V b2).w))) 0 - l = e at hr ⊢
  have e1 : V3.dot 0 (V b1).v + V3.dot (V3.smul e a) (V b1).w + V3.dot 0 (V b2).v + V3.dot (V3.smul (-e) a) (V b2).w = e * V3.dot a ((V b1).w - (V b2).w) := by
    simp only [V3.dot, V3.sub_x, V3.sub_y, V3.sub_z, V3.smul_x, V3.smul_y, V3.smul_z, V3.zero_x, V3.zero_y, V3.zero_z]; ring
  have e2 : (body b1).m * V3.dot 0 0 + V3.dot (V3.smul e a) ((body b1).I.act (V3.smul e a)) + (body b2).m * V3.dot 0 0 +
      V3.dot (V3.smul (-e) a) ((body b2).I.act (V3.smul (-e) a)) = e * e * κ := by
    simp only [κ]
    unfold M3.act
    simp only [V3.dot, V3.smul_x, V3.smul_y, V3.smul_z, V3.zero_x, V3.zero_y, V3.zero_z]; ring
  rw [e1, e2]
  exact hr

/-! ### The joints -/

/-- Joints without position correction in the velocities, without motor, and with mass matrices that are not singular or not used. -/
def Calm (jc : JCfg K) (body : Nat → JBody K) : Joint K → Prop
  | .ball J => J.baum = false
  | .fixed J => J.baum = false ∧ jc.eps < |(M3.add (body J.b1).I (body J.b2).I).det| ∧ ((body J.b1).dyn || (body J.b2).dyn) = true
  | .hinge J => J.baum = false ∧ J.motorOn = false
  | .slider J => J.baum = false ∧ J.motorOn = false ∧ jc.eps < |(M3.add (body J.b1).I (body J.b2).I).det| ∧ ((body J.b1).dyn || (body J.b2).dyn) = true ∧
      (J.limitOn = true → J.ex = V3.cross (arm (body J.b2) J.a2) (sliderAxis jc body J)) ∧
      V3.dot (sliderAxis jc body J) (sliderAxis jc body J) = 1 ∧
      V3.dot (orthogonal jc.sqrt (sliderAxis jc body J)) (orthogonal jc.sqrt (sliderAxis jc body J)) = 1 ∧
      V3.dot (orthogonal jc.sqrt (sliderAxis jc body J)) (sliderAxis jc body J) = 0

theorem closing_none (jc : JCfg K) (body : Nat → JBody K) (b1 b2 : Nat) (a1 a2 : V3 K) : closing jc body false b1 b2 a1 a2 = 0 := rfl
theorem turning_none (jc : JCfg K) (body : Nat → JBody K) (b1 b2 : Nat) (d : Quat K) : turning jc body false b1 b2 d = 0 := rfl

theorem Ball.solve_loses {jc : JCfg K} (he : 0 ≤ jc.eps) {body : Nat → JBody K} {mass : Nat → K} {L : Nat → M3 K} {S : Finset Nat} {J N : Ball K}
    (hs : (J.init jc body).Same N) (hc : Calm jc body (.ball J)) (hl : LimitsPush (.ball N)) (hp : Pair S J.b1 J.b2) {V : Nat → Vel K}
    (h : Bodies body mass L S V) : Loses body mass L S V (N.solve body V).1 := by
  obtain ⟨f1, f2, _, _, _, _, _, _, _⟩ := Ball.fields hs
  have hN : N = _ := hs
  have hb : J.baum = false := hc
  have h1 : Loses body mass L S V (N.limit body V).1 := by
    unfold Ball.limit
    split_ifs with c1 c2
    · have k1 : N.coneOn = J.coneOn := by rw [hN]; rfl
      have k2 : N.coneK = invOf (V3.dot N.axb ((body J.b1).I.act N.axb) + V3.dot N.axb ((body J.b2).I.act N.axb)) := by
        rw [k1] at c1
        rw [hN]
        unfold Ball.init
        dsimp only
        rw [if_pos c1]
      have k3 : N.coneBias = 0 := by
        rw [k1] at c1
        rw [hN]
        unfold Ball.init
        dsimp only
        rw [if_pos c1, hb]
        rfl
      dsimp only
      rw [k2, k3, f1, f2]
      exact axis_loses h hp N.axb hl
    · exact Loses.refl h
    · exact Loses.refl h
  refine h1.trans ?_
  have hs' := hs.trans (N.limit_ok body V).1
  obtain ⟨g1, g2, g3, g4, g5, g6, g7, g8, g9⟩ := Ball.fields hs'
  change Loses body mass L S (N.limit body V).1 ((N.limit body V).2.joint body (N.limit body V).1).1
  unfold Ball.joint
  dsimp only
  rw [g1, g2, g6, g7, g8, g9, hb, closing_none]
  exact pin_loses he h1.1 hp _ _ _

theorem Fixed.solve_loses {jc : JCfg K} (he : 0 ≤ jc.eps) {body : Nat → JBody K} {mass : Nat → K} {L : Nat → M3 K} {S : Finset Nat} {J N : Fixed K}
    (hs : (J.init jc body).Same N) (hc : Calm jc body (.fixed J)) (hp : Pair S J.b1 J.b2) {V : Nat → Vel K}
    (h : Bodies body mass L S V) : Loses body mass L S V (N.solve body V).1 := by
  obtain ⟨hb, hd, hy⟩ := hc
  obtain ⟨g1, g2, g3, g4, g5, g6, g7, g8, g9, _, _, _⟩ := Fixed.fields hs
  have h1 : Loses body mass L S V (N.joint body V).1 := by
    unfold Fixed.joint
    dsimp only
    rw [g1, g2, g6, g7, g8, g9, hb, closing_none]
    exact pin_loses he h hp _ _ _
  refine h1.trans ?_
  obtain ⟨k1, k2, _, _, _, _, _, _, _, _, k3, k4⟩ := Fixed.fields (hs.trans (N.joint_ok body V).1)
  change Loses body mass L S (N.joint body V).1 ((N.joint body V).2.rotation body (N.joint body V).1).1
  unfold Fixed.rotation
  dsimp only
  rw [k1, k2, k3, k4, hb, turning_none]
  exact turn_loses he h1.1 hp hd hy

theorem Hinge.rotation_loses {jc : JCfg K} (he : 0 ≤ jc.eps) {body : Nat → JBody K} {mass : Nat → K} {L : Nat → M3 K} {S : Finset Nat} {J N : Hinge K}
    (hs : (J.init jc body).Same N) (hb : J.baum = false) (hp : Pair S J.b1 J.b2) {V : Nat → Vel K}
    (h : Bodies body mass L S V) : Loses body mass L S V (N.rotation body V).1 := by
  have hN : N = _ := hs
  have g1 : N.b1 = J.b1 := by rw [hN]; rfl
  have g2 : N.b2 = J.b2 := by rw [hN]; rfl
  have g3 : N.biasR = ⟨0, 0⟩ := by rw [hN]; unfold Hinge.init; dsimp only; rw [hb]; rfl
  have gk := Hinge.fields2 hs
  unfold Hinge.rotation
  dsimp only
  rw [g3, gk]
  dsimp only
  rcases inverseOrZero2_cases he ((body J.b1).dyn || (body J.b2).dyn) (hingeMass body N)
    ⟨-(-(V3.dot N.ba (V N.b1).w) + V3.dot N.ba (V N.b2).w) - 0, -(-(V3.dot N.ca (V N.b1).w) + V3.dot N.ca (V N.b2).w) - 0⟩ with hz | hz
  · rw [hz]
    unfold Hinge.swing Hinge.swing'
    dsimp only
    rw [zero_smul', zero_smul', zero_smul', sub_zero, add_zero, turn_eq, kick_zero]
    exact Loses.refl h
  · generalize (inverseOrZero2 jc _ (hingeMass body N)).act _ = d at hz ⊢
    rw [turn_eq, g1, g2]
    rw [g1, g2] at hz
    refine kick_loses h hp ?_
    have n1 := (h.solid J.b1 hp.m1).2.2 (N.swing' d)
    have n2 := (h.solid J.b2 hp.m2).2.2 (N.swing' d)
    have es : N.swing d = -N.swing' d := by
      unfold Hinge.swing Hinge.swing'
      ext <;> simp <;> ring
    have hx := congrArg V2.x hz
    have hy := congrArg V2.y hz
    simp only [M2.act, hingeMass, g1, g2] at hx hy
    have hl : V3.dot 0 (V J.b1).v + V3.dot (N.swing d) (V J.b1).w + V3.dot 0 (V J.b2).v + V3.dot (N.swing' d) (V J.b2).w =
        d.x * (-(V3.dot N.ba (V J.b1).w) + V3.dot N.ba (V J.b2).w) + d.y * (-(V3.dot N.ca (V J.b1).w) + V3.dot N.ca (V J.b2).w) := by
      unfold Hinge.swing Hinge.swing'
      simp only [V3.dot, V3.sub_x, V3.sub_y, V3.sub_z, V3.add_x, V3.add_y, V3.add_z, V3.smul_x, V3.smul_y, V3.smul_z, V3.neg_x, V3.neg_y, V3.neg_z,
        V3.zero_x, V3.zero_y, V3.zero_z]
      ring
    have q : ∀ M : M3 K, V3.dot (N.swing' d) (M.act (N.swing' d)) = d.x * (d.x * V3.dot N.ba (M.act N.ba) + d.y * V3.dot N.ba (M.act N.ca)) +
        d.y * (d.x * V3.dot N.ca (M.act N.ba) + d.y * V3.dot N.ca (M.act N.ca)) := fun M => by
      unfold Hinge.swing' M3.act
      simp only [V3.dot, V3.add_x, V3.add_y, V3.add_z, V3.smul_x, V3.smul_y, V3.smul_z]
      ring
    have qs : ∀ M : M3 K, V3.dot (N.swing d) (M.act (N.swing d)) = V3.dot (N.swing' d) (M.act (N.swing' d)) := fun M => by
      rw [es]
      unfold M3.act
      simp only [V3.dot, V3.neg_x, V3.neg_y, V3.neg_z]; ring
    have hq := q (body J.b1).I
    have hq2 := q (body J.b2).I
    rw [hl, qs, dot_zero_left, mul_zero, mul_zero, add_zero, zero_add]
    have : d.x * (-(V3.dot N.ba (V J.b1).w) + V3.dot N.ba (V J.b2).w) + d.y * (-(V3.dot N.ca (V J.b1).w) + V3.dot N.ca (V J.b2).w) =
        -(V3.dot (N.swing' d) ((body J.b1).I.act (N.swing' d)) + V3.dot (N.swing' d) ((body J.b2).I.act (N.swing' d))) := by
      linear_combination d.x * hx + d.y * hy + hq + hq2
    linarith

theorem Hinge.solve_loses {jc : JCfg K} (he : 0 ≤ jc.eps) {body : Nat → JBody K} {mass : Nat → K} {L : Nat → M3 K} {S : Finset Nat} {J N : Hinge K}
    (hs : (J.init jc body).Same N) (hc : Calm jc body (.hinge J)) (hl : LimitsPush (.hinge N)) (hp : Pair S J.b1 J.b2) {V : Nat → Vel K}
    (h : Bodies body mass L S V) : Loses body mass L S V (N.solve jc body V).1 := by
  obtain ⟨hb, hm⟩ := hc
  have lim : ∀ M : Hinge K, (J.init jc body).Same M → M.limitOn = true → (M.low = true ∨ M.up = true) →
      M.b1 = J.b1 ∧ M.b2 = J.b2 ∧ M.km = invOf (V3.dot M.ax ((body J.b1).I.act M.ax) + V3.dot M.ax ((body J.b2).I.act M.ax)) ∧ M.biasL = 0 ∧ M.biasU = 0 := by
    intro M hM ho hlu
    have hM' : M = _ := hM
    rw [hM'] at ho hlu ⊢
    have e1 : (Hinge.init jc body J).limitOn = J.limitOn := rfl
    change J.limitOn = true at ho
    change (Hinge.init jc body J).low = true ∨ (Hinge.init jc body J).up = true at hlu
    refine ⟨rfl, rfl, ?_, ?_, ?_⟩
    · unfold Hinge.init at hlu ⊢
      dsimp only at hlu ⊢
      rw [if_pos]
      rw [ho, hm]
      simpa using hlu
    · unfold Hinge.init at hlu ⊢
      dsimp only at hlu ⊢
      rw [if_pos, hb]
      · rfl
      · rw [ho, hm]; simpa using hlu
    · unfold Hinge.init at hlu ⊢
      dsimp only at hlu ⊢
      rw [if_pos, hb]
      · rfl
      · rw [ho, hm]; simpa using hlu
  have neg_axis : ∀ (a w1 w2 : V3 K), V3.dot (w2 - w1) a = V3.dot (-a) (w1 - w2) := fun a w1 w2 => by
    simp only [V3.dot, V3.sub_x, V3.sub_y, V3.sub_z, V3.neg_x, V3.neg_y, V3.neg_z]; ring
  have smul_negs : ∀ (k : K) (a : V3 K), V3.smul (-k) a = V3.smul k (-a) := fun k a => by ext <;> simp
  have h1 : Loses body mass L S V (N.limitL body V).1 := by
    unfold Hinge.limitL
    split_ifs with c
    · rw [Bool.and_eq_true] at c
      obtain ⟨k1, k2, k3, k4, _⟩ := lim N hs c.1 (Or.inl c.2)
      have sw : V3.dot N.ax ((body J.b1).I.act N.ax) + V3.dot N.ax ((body J.b2).I.act N.ax) =
          V3.dot (-N.ax) ((body J.b1).I.act (-N.ax)) + V3.dot (-N.ax) ((body J.b2).I.act (-N.ax)) := by
        unfold M3.act; simp only [V3.dot, V3.neg_x, V3.neg_y, V3.neg_z]; ring
      dsimp only
      rw [k1, k2, k3, k4, sw, neg_axis, smul_negs, ← neg_neg (max _ _ - N.impL), smul_negs (-(max _ _ - N.impL)) N.ax, neg_neg (max _ _ - N.impL)]
      exact axis_loses h hp (-N.ax) hl.1
    · exact Loses.refl h
  set A := N.limitL body V with hA
  have sA : (J.init jc body).Same A.2 := hs.trans (N.limitL_ok body V).1
  have lA : 0 ≤ A.2.impU := by rw [hA, (Hinge.limitL_imp body N V).2]; exact hl.2
  have h2 : Loses body mass L S A.1 (A.2.limitU body A.1).1 := by
    unfold Hinge.limitU
    split_ifs with c
    · rw [Bool.and_eq_true] at c
      obtain ⟨k1, k2, k3, _, k5⟩ := lim A.2 sA c.1 (Or.inr c.2)
      have nn : ∀ (a w1 w2 : V3 K), -V3.dot (w2 - w1) a = V3.dot a (w1 - w2) := fun a w1 w2 => by
        simp only [V3.dot, V3.sub_x, V3.sub_y, V3.sub_z]; ring
      dsimp only
      rw [k1, k2, k3, k5, nn]
      exact axis_loses h1.1 hp A.2.ax lA
    · exact Loses.refl h1.1
  set B := A.2.limitU body A.1 with hB
  have sB : (J.init jc body).Same B.2 := sA.trans (A.2.limitU_ok body A.1).1
  have hM : B.2.motor jc body B.1 = B := by
    have : B.2.motorOn = false := by rw [show B.2 = _ from sB]; exact hm
    unfold Hinge.motor
    rw [this]
    rfl
  have h3 := Hinge.rotation_loses he sB hb hp h2.1
  set C := B.2.rotation body B.1 with hC
  have sC : (J.init jc body).Same C.2 := sB.trans (B.2.rotation_ok body B.1).1
  have e : N.solve jc body V = C.2.joint body C.1 := by
    unfold Hinge.solve
    dsimp only
    rw [← hA, ← hB, hM, ← hC]
  rw [e]
  refine (h1.trans h2).trans (h3.trans ?_)
  obtain ⟨g1, g2, g3, g4, g5, g6, g7, g8, g9⟩ := Hinge.fields sC
  unfold Hinge.joint
  dsimp only
  rw [g1, g2, g6, g7, g8, g9, hb, closing_none]
  exact pin_loses he h3.1 hp _ _ _

/-! #### Slider -/

/-- An impulse along the axis of a slider. -/
theorem slide_loses {body : Nat → JBody K} {mass : Nat → K} {L : Nat → M3 K} {S : Finset Nat} {V : Nat → Vel K}
    (h : Bodies body mass L S V) {b1 b2 : Nat} (hp : Pair S b1 b2) {a c e : V3 K} (ha : V3.dot a a = 1) {l : K} (hl : 0 ≤ l) :
    let κ := (body b1).m + (body b2).m + V3.dot c ((body b1).I.act c) + V3.dot e ((body b2).I.act e)
    let d := max (l + invOf κ * (-(V3.dot a (V b2).v + V3.dot e (V b2).w - V3.dot a (V b1).v - V3.dot c (V b1).w))) 0 - l
    Loses body mass L S V (kick (two body b1 b2) (V3.smul (-d) a) (V3.smul (-d) c) (V3.smul d a) (V3.smul d e) V) := by
  intro κ d
  refine kick_loses h hp ?_
  obtain ⟨_, p1, p2⟩ := h.solid b1 hp.m1
  obtain ⟨_, q1, q2⟩ := h.solid b2 hp.m2
  have hκ : 0 ≤ κ := by
    have := p2 c; have := q2 e
    simp only [κ]; linarith
  have hr := row_loses hκ hl (V3.dot a (V b2).v + V3.dot e (V b2).w - V3.dot a (V b1).v - V3.dot c (V b1).w)
  simp only [d] at hr ⊢
  generalize max (l + invOf κ * (-(V3.dot a (V b2).v + V3.dot e (V b2).w - V3.dot a (V b1).v - V3.dot c (V b1).w))) 0 - l = x at hr ⊢
  have e2 : ∀ (M : M3 K) (k : K) (b : V3 K), V3.dot (V3.smul k b) (M.act (V3.smul k b)) = k * k * V3.dot b (M.act b) := fun M k b => by
    unfold M3.act
    simp only [V3.dot, V3.smul_x, V3.smul_y, V3.smul_z]; ring
  rw [e2, e2, dot_smul_left, dot_smul_left, dot_smul_left, dot_smul_left, dot_smul_left, dot_smul_right, dot_smul_left, dot_smul_right, ha]
  simp only [κ] at hr
  linarith

theorem slide_mass (m1 m2 : K) (I1 I2 : M3 K) (c e : V3 K) : m1 + m2 + V3.dot c (I1.act c) + V3.dot e (I2.act e) =
    m1 + m2 + V3.dot (-c) (I1.act (-c)) + V3.dot (-e) (I2.act (-e)) := by
  unfold M3.act; simp only [V3.dot, V3.neg_x, V3.neg_y, V3.neg_z]; ring

theorem Slider.joint_loses {jc : JCfg K} (he : 0 ≤ jc.eps) {body : Nat → JBody K} {mass : Nat → K} {L : Nat → M3 K} {S : Finset Nat} {J N : Slider K}
    (hs : (J.init jc body).Same N) (hc : Calm jc body (.slider J)) (hp : Pair S J.b1 J.b2) {V : Nat → Vel K}
    (h : Bodies body mass L S V) : Loses body mass L S V (N.joint body V).1 := by
  obtain ⟨hb, _, _, _, _, ka, kn, kan⟩ := hc
  obtain ⟨f1, f2, f3, f4, f5, g1, g2, g3, g4, g5, g6, f6, f7, f8⟩ := Slider.fields hs
  have hN : N = _ := hs
  have hbias : N.bias = ⟨0, 0⟩ := by rw [hN]; unfold Slider.init; dsimp only; rw [hb]; rfl
  have en1 : N.n1 = orthogonal jc.sqrt (sliderAxis jc body J) := by rw [hN]; rfl
  have en2 : N.n2 = V3.cross (sliderAxis jc body J) (orthogonal jc.sqrt (sliderAxis jc body J)) := by rw [hN]; rfl
  rw [← en1] at kn kan en2
  have k22 : V3.dot N.n2 N.n2 = 1 := by
    have : V3.dot N.n2 N.n2 = V3.dot (sliderAxis jc body J) (sliderAxis jc body J) * V3.dot N.n1 N.n1 -
        V3.dot N.n1 (sliderAxis jc body J) * V3.dot N.n1 (sliderAxis jc body J) := by
      rw [en2]; simp only [V3.dot, V3.cross]; ring
    rw [this, kn, kan, ka]; ring
  have k12 : V3.dot N.n1 N.n2 = 0 := by rw [en2]; simp only [V3.dot, V3.cross]; ring
  have hm : sliderMass jc body J = ⟨(body J.b1).m + (body J.b2).m + (V3.dot N.c1 ((body J.b1).I.act N.c1) + V3.dot N.e1 ((body J.b2).I.act N.e1)),
      V3.dot N.c1 ((body J.b1).I.act N.c2) + V3.dot N.e1 ((body J.b2).I.act N.e2),
      V3.dot N.c2 ((body J.b1).I.act N.c1) + V3.dot N.e2 ((body J.b2).I.act N.e1),
      (body J.b1).m + (body J.b2).m + (V3.dot N.c2 ((body J.b1).I.act N.c2) + V3.dot N.e2 ((body J.b2).I.act N.e2))⟩ := by
    rw [g1, g2, g4, g5, en2, en1]
    rfl
  unfold Slider.joint
  dsimp only
  rw [hbias, f6]
  dsimp only
  rcases inverseOrZero2_cases he ((body J.b1).dyn || (body J.b2).dyn) (sliderMass jc body J)
    ⟨-(-(V3.dot N.n1 (V N.b1).v) - V3.dot (V N.b1).w N.c1 + V3.dot N.n1 (V N.b2).v + V3.dot (V N.b2).w N.e1) - 0,
     -(-(V3.dot N.n2 (V N.b1).v) - V3.dot (V N.b1).w N.c2 + V3.dot N.n2 (V N.b2).v + V3.dot (V N.b2).w N.e2) - 0⟩ with hz | hz
  · rw [hz]
    dsimp only
    simp only [zero_smul', sub_zero, add_zero, neg_zero, kick_zero]
    exact Loses.refl h
  · generalize (inverseOrZero2 jc _ (sliderMass jc body J)).act _ = d at hz ⊢
    rw [f1, f2] at hz ⊢
    refine kick_loses h hp ?_
    obtain ⟨_, p1, p2⟩ := h.solid J.b1 hp.m1
    obtain ⟨_, q1, q2⟩ := h.solid J.b2 hp.m2
    have hx := congrArg V2.x hz
    have hy := congrArg V2.y hz
    rw [hm] at hx hy
    simp only [M2.act] at hx hy
    have eP : ∀ a : V3 K, V3.dot (V3.smul d.x (-N.n1) - V3.smul d.y N.n2) a = -(d.x * V3.dot N.n1 a + d.y * V3.dot N.n2 a) := fun a => by
      simp only [V3.dot, V3.sub_x, V3.sub_y, V3.sub_z, V3.smul_x, V3.smul_y, V3.smul_z, V3.neg_x, V3.neg_y, V3.neg_z]; ring
    have eP' : ∀ a : V3 K, V3.dot (-(V3.smul d.x (-N.n1) - V3.smul d.y N.n2)) a = d.x * V3.dot N.n1 a + d.y * V3.dot N.n2 a := fun a => by
      simp only [V3.dot, V3.sub_x, V3.sub_y, V3.sub_z, V3.smul_x, V3.smul_y, V3.smul_z, V3.neg_x, V3.neg_y, V3.neg_z]; ring
    have eC : ∀ a : V3 K, V3.dot (V3.smul d.x (-N.c1) - V3.smul d.y N.c2) a = -(d.x * V3.dot a N.c1 + d.y * V3.dot a N.c2) := fun a => by
      simp only [V3.dot, V3.sub_x, V3.sub_y, V3.sub_z, V3.smul_x, V3.smul_y, V3.smul_z, V3.neg_x, V3.neg_y, V3.neg_z]; ring
    have eE : ∀ a : V3 K, V3.dot (V3.smul d.x N.e1 + V3.smul d.y N.e2) a = d.x * V3.dot a N.e1 + d.y * V3.dot a N.e2 := fun a => by
      simp only [V3.dot, V3.add_x, V3.add_y, V3.add_z, V3.smul_x, V3.smul_y, V3.smul_z]; ring
    have n21 : V3.dot N.n2 N.n1 = 0 := by rw [dot_comm', k12]
    have ePP : V3.dot (V3.smul d.x (-N.n1) - V3.smul d.y N.n2) (V3.smul d.x (-N.n1) - V3.smul d.y N.n2) = d.x * d.x + d.y * d.y := by
      rw [eP, dot_comm' N.n1, dot_comm' N.n2, eP, eP, kn, k22, k12, n21]; ring
    have ePP' : V3.dot (-(V3.smul d.x (-N.n1) - V3.smul d.y N.n2)) (-(V3.smul d.x (-N.n1) - V3.smul d.y N.n2)) = d.x * d.x + d.y * d.y := by
      rw [← ePP]; simp only [V3.dot, V3.neg_x, V3.neg_y, V3.neg_z]; ring
    have qC : ∀ M : M3 K, V3.dot (V3.smul d.x (-N.c1) - V3.smul d.y N.c2) (M.act (V3.smul d.x (-N.c1) - V3.smul d.y N.c2)) =
        d.x * (d.x * V3.dot N.c1 (M.act N.c1) + d.y * V3.dot N.c1 (M.act N.c2)) + d.y * (d.x * V3.dot N.c2 (M.act N.c1) + d.y * V3.dot N.c2 (M.act N.c2)) := fun M => by
      unfold M3.act
      simp only [V3.dot, V3.sub_x, V3.sub_y, V3.sub_z, V3.smul_x, V3.smul_y, V3.smul_z, V3.neg_x, V3.neg_y, V3.neg_z]; ring
    have qE : ∀ M : M3 K, V3.dot (V3.smul d.x N.e1 + V3.smul d.y N.e2) (M.act (V3.smul d.x N.e1 + V3.smul d.y N.e2)) =
        d.x * (d.x * V3.dot N.e1 (M.act N.e1) + d.y * V3.dot N.e1 (M.act N.e2)) + d.y * (d.x * V3.dot N.e2 (M.act N.e1) + d.y * V3.dot N.e2 (M.act N.e2)) := fun M => by
      unfold M3.act
      simp only [V3.dot, V3.add_x, V3.add_y, V3.add_z, V3.smul_x, V3.smul_y, V3.smul_z]; ring
    have n1 := p2 (V3.smul d.x (-N.c1) - V3.smul d.y N.c2)
    have n2 := q2 (V3.smul d.x N.e1 + V3.smul d.y N.e2)
    have n3 : 0 ≤ (body J.b1).m * (d.x * d.x + d.y * d.y) := mul_nonneg p1 (add_nonneg (mul_self_nonneg _) (mul_self_nonneg _))
    have n4 : 0 ≤ (body J.b2).m * (d.x * d.x + d.y * d.y) := mul_nonneg q1 (add_nonneg (mul_self_nonneg _) (mul_self_nonneg _))
    rw [qC] at n1 ⊢
    rw [qE] at n2 ⊢
    rw [ePP, ePP', eP, eP', eC, eE]
    have key : d.x * (-(V3.dot N.n1 (V J.b1).v) - V3.dot (V J.b1).w N.c1 + V3.dot N.n1 (V J.b2).v + V3.dot (V J.b2).w N.e1) +
        d.y * (-(V3.dot N.n2 (V J.b1).v) - V3.dot (V J.b1).w N.c2 + V3.dot N.n2 (V J.b2).v + V3.dot (V J.b2).w N.e2) =
        -((body J.b1).m * (d.x * d.x + d.y * d.y) + (body J.b2).m * (d.x * d.x + d.y * d.y) +
        (d.x * (d.x * V3.dot N.c1 ((body J.b1).I.act N.c1) + d.y * V3.dot N.c1 ((body J.b1).I.act N.c2)) +
          d.y * (d.x * V3.dot N.c2 ((body J.b1).I.act N.c1) + d.y * V3.dot N.c2 ((body J.b1).I.act N.c2))) +
        (d.x * (d.x * V3.dot N.e1 ((body J.b2).I.act N.e1) + d.y * V3.dot N.e1 ((body J.b2).I.act N.e2)) +
          d.y * (d.x * V3.dot N.e2 ((body J.b2).I.act N.e1) + d.y * V3.dot N.e2 ((body J.b2).I.act N.e2)))) := by
      linear_combination d.x * hx + d.y * hy
    linarith

theorem Slider.solve_loses {jc : JCfg K} (he : 0 ≤ jc.eps) {body : Nat → JBody K} {mass : Nat → K} {L : Nat → M3 K} {S : Finset Nat} {J N : Slider K}
    (hs : (J.init jc body).Same N) (hc : Calm jc body (.slider J)) (hl : LimitsPush (.slider N)) (hp : Pair S J.b1 J.b2) {V : Nat → Vel K}
    (h : Bodies body mass L S V) : Loses body mass L S V (N.solve jc body V).1 := by
  have hc' := hc
  obtain ⟨hb, hm, hd, hy, hx, ka, _, _⟩ := hc
  have lim : ∀ M : Slider K, (J.init jc body).Same M → M.limitOn = true → (M.low = true ∨ M.up = true) →
      M.kl = invOf ((body J.b1).m + (body J.b2).m + V3.dot M.cx ((body J.b1).I.act M.cx) + V3.dot M.ex ((body J.b2).I.act M.ex)) ∧
        M.biasL = 0 ∧ M.biasU = 0 := by
    intro M hM ho hlu
    have hM' : M = _ := hM
    rw [hM'] at ho hlu ⊢
    change J.limitOn = true at ho
    change (Slider.init jc body J).low = true ∨ (Slider.init jc body J).up = true at hlu
    have ex' := hx ho
    refine ⟨?_, ?_, ?_⟩
    · unfold Slider.init at hlu ⊢
      dsimp only at hlu ⊢
      rw [if_pos, ex']
      · rfl
      · rw [ho]; simpa using hlu
    · unfold Slider.init at hlu ⊢
      dsimp only at hlu ⊢
      rw [if_pos, hb]
      · rfl
      · rw [ho]; simpa using hlu
    · unfold Slider.init at hlu ⊢
      dsimp only at hlu ⊢
      rw [if_pos, hb]
      · rfl
      · rw [ho]; simpa using hlu
  have geo : ∀ M : Slider K, (J.init jc body).Same M → M.b1 = J.b1 ∧ M.b2 = J.b2 ∧ V3.dot M.ax M.ax = 1 ∧ V3.dot (-M.ax) (-M.ax) = 1 := by
    intro M hM
    have hM' : M = _ := hM
    have e : M.ax = sliderAxis jc body J := by rw [hM']; rfl
    refine ⟨by rw [hM']; rfl, by rw [hM']; rfl, by rw [e, ka], ?_⟩
    rw [e, ← ka]; simp only [V3.dot, V3.neg_x, V3.neg_y, V3.neg_z]; ring
  have smul_negs : ∀ (k : K) (a : V3 K), V3.smul (-k) a = V3.smul k (-a) := fun k a => by ext <;> simp
  have smul_negs' : ∀ (k : K) (a : V3 K), V3.smul k a = V3.smul (-k) (-a) := fun k a => by ext <;> simp
  have h1 : Loses body mass L S V (N.limitL body V).1 := by
    unfold Slider.limitL
    split_ifs with c
    · rw [Bool.and_eq_true] at c
      obtain ⟨k1, k2, _⟩ := lim N hs c.1 (Or.inl c.2)
      obtain ⟨g1, g2, g3, _⟩ := geo N hs
      unfold Slider.along
      dsimp only
      rw [g1, g2, k1, k2, sub_zero]
      exact slide_loses h hp g3 hl.1
    · exact Loses.refl h
  set A := N.limitL body V with hA
  have sA : (J.init jc body).Same A.2 := hs.trans (N.limitL_ok body V).1
  have lA : 0 ≤ A.2.impU := by rw [hA, (Slider.limitL_imp body N V).2]; exact hl.2
  have h2 : Loses body mass L S A.1 (A.2.limitU body A.1).1 := by
    unfold Slider.limitU
    split_ifs with c
    · rw [Bool.and_eq_true] at c
      obtain ⟨k1, _, k3⟩ := lim A.2 sA c.1 (Or.inr c.2)
      obtain ⟨g1, g2, _, g4⟩ := geo A.2 sA
      have vn : ∀ (a c e v1 v2 w1 w2 : V3 K), V3.dot a v2 + V3.dot e w2 - V3.dot a v1 - V3.dot c w1 - 0 =
          -(V3.dot (-a) v2 + V3.dot (-e) w2 - V3.dot (-a) v1 - V3.dot (-c) w1) := fun a c e v1 v2 w1 w2 => by
        simp only [V3.dot, V3.neg_x, V3.neg_y, V3.neg_z]; ring
      unfold Slider.along
      dsimp only
      rw [g1, g2, k1, k3, vn, slide_mass]
      have := slide_loses h1.1 hp g4 (c := -A.2.cx) (e := -A.2.ex) lA
      dsimp only at this
      simp only [smul_negs, neg_neg] at this ⊢
      exact this
    · exact Loses.refl h1.1
  set B := A.2.limitU body A.1 with hB
  have sB : (J.init jc body).Same B.2 := sA.trans (A.2.limitU_ok body A.1).1
  have hM : B.2.motor jc body B.1 = B := by
    have : B.2.motorOn = false := by rw [show B.2 = _ from sB]; exact hm
    unfold Slider.motor
    rw [this]
    rfl
  obtain ⟨f1, f2, f3, f4, f5, _, _, _, _, _, _, _, f7, f8⟩ := Slider.fields sB
  have h3 : Loses body mass L S B.1 (B.2.rotation body B.1).1 := by
    unfold Slider.rotation
    dsimp only
    rw [f1, f2, f7, f8, hb, turning_none]
    exact turn_loses he h2.1 hp hd hy
  set C := B.2.rotation body B.1 with hC
  have sC : (J.init jc body).Same C.2 := sB.trans (B.2.rotation_ok body B.1).1
  have e : N.solve jc body V = C.2.joint body C.1 := by
    unfold Slider.solve
    dsimp only
    rw [← hA, ← hB, hM, ← hC]
  rw [e]
  exact (h1.trans h2).trans (h3.trans (Slider.joint_loses he sC hc' hp h3.1))

/-! ### All joints -/

theorem joint_loses {jc : JCfg K} (he : 0 ≤ jc.eps) {body : Nat → JBody K} {mass : Nat → K} {L : Nat → M3 K} {S : Finset Nat} {J N : Joint K}
    (hs : (J.init jc body).Same N) (hc : Calm jc body J) (hl : LimitsPush N) (hp : Pair S J.b1 J.b2) {V : Nat → Vel K}
    (h : Bodies body mass L S V) : Loses body mass L S V (N.solve jc body V).1 := by
  cases J <;> cases N <;> first | exact hs.elim | skip
  · exact Ball.solve_loses he hs hc hl hp h
  · exact Fixed.solve_loses he hs hc hp h
  · exact Hinge.solve_loses he hs hc hl hp h
  · exact Slider.solve_loses he hs hc hl hp h

/-- The states of a list of joints in the course of a step. -/
def During (jc : JCfg K) (body : Nat → JBody K) (S : Finset Nat) (J N : Joint K) : Prop :=
  (J.init jc body).Same N ∧ Calm jc body J ∧ LimitsPush N ∧ Pair S J.b1 J.b2

theorem solveAll_loses {jc : JCfg K} (he : 0 ≤ jc.eps) {body : Nat → JBody K} {mass : Nat → K} {L : Nat → M3 K} {S : Finset Nat} :
    ∀ {Js Ns : List (Joint K)} {V : Nat → Vel K}, List.Forall₂ (During jc body S) Js Ns → Bodies body mass L S V →
      Loses body mass L S V (solveAll jc body V Ns).1 ∧ List.Forall₂ (During jc body S) Js (solveAll jc body V Ns).2
  | _, _, _, .nil, hb => ⟨Loses.refl hb, .nil⟩
  | _, _, V, .cons (a := J) (b := N) (l₁ := Js) (l₂ := Ns) ⟨h1, h2, h3, h4⟩ ht, hb => by
    have a := joint_loses he h1 h2 h3 h4 hb
    obtain ⟨b, c⟩ := solveAll_loses he ht a.1
    exact ⟨a.trans b, .cons ⟨h1.trans (N.solve_ok jc body V).1, h2, h3.solve jc body V, h4⟩ c⟩

theorem loop_loses (cfg : Cfg K) {jc : JCfg K} (he : 0 ≤ jc.eps) {body : Nat → JBody K} {mass : Nat → K} {L : Nat → M3 K} {S : Finset Nat} :
    ∀ (n : Nat) {Js Ns : List (Joint K)} {V : Nat → Vel K}, List.Forall₂ (During jc body S) Js Ns → Bodies body mass L S V →
      Loses body mass L S V (loop cfg jc body n (V, Ns, [])).1
  | 0, _, _, _, _, hb => Loses.refl hb
  | n + 1, Js, Ns, V, hd, hb => by
    obtain ⟨a, b⟩ := solveAll_loses he hd hb
    rw [loop]
    exact a.trans (loop_loses cfg he n b a.1)

/-- **C97, partial.** The iterations of a step never make kinetic energy: with joints that correct positions by the other technique and have no motor, the
energy after any number of iterations is at most that after the warm start. Missing: position correction in the velocities, which is meant to move bodies,
singular mass matrices (`weld_explodes`) and sliders whose axis has turned since the step before (`slider_limit_stale`). -/
theorem iterations_lose_partial (cfg : Cfg K) {jc : JCfg K} (he : 0 ≤ jc.eps) {body : Nat → JBody K} {mass : Nat → K} {L : Nat → M3 K} {S : Finset Nat}
    (Js : List (Joint K)) (hj : ∀ J ∈ Js, Calm jc body J ∧ LimitsPush J ∧ Pair S J.b1 J.b2) (V : Nat → Vel K)
    (hb : Bodies body mass L S (warmAll jc body (Js.map (Joint.init jc body)) V)) (n : Nat) :
    energy2 S mass L (solveStep cfg jc body V Js [] n).1 ≤ energy2 S mass L (warmAll jc body (Js.map (Joint.init jc body)) V) := by
  have hd : List.Forall₂ (During jc body S) Js (Js.map (Joint.init jc body)) := by
    clear hb
    induction Js with
    | nil => exact .nil
    | cons J Js ih =>
      obtain ⟨h1, h2, h3⟩ := hj J List.mem_cons_self
      exact .cons ⟨Joint.Same.refl _, h1, h2.init jc body, h3⟩ (ih fun q hq => hj q (List.mem_cons_of_mem _ hq))
  exact (loop_loses cfg he n hd hb).2

/-- Joints without stored impulses, as after their creation. -/
def Fresh : Joint K → Prop
  | .ball J => J.imp = 0 ∧ J.coneImp = 0
  | .fixed J => J.imp = 0 ∧ J.impR = 0
  | .hinge J => J.imp = 0 ∧ J.impR = ⟨0, 0⟩ ∧ J.impL = 0 ∧ J.impU = 0 ∧ J.impM = 0
  | .slider J => J.imp = ⟨0, 0⟩ ∧ J.impR = 0 ∧ J.impL = 0 ∧ J.impU = 0 ∧ J.impM = 0

theorem fresh_push {J : Joint K} (h : Fresh J) : LimitsPush J := by
  cases J with
  | ball J => exact le_of_eq h.2.symm
  | fixed J => trivial
  | hinge J => exact ⟨le_of_eq h.2.2.1.symm, le_of_eq h.2.2.2.1.symm⟩
  | slider J => exact ⟨le_of_eq h.2.2.1.symm, le_of_eq h.2.2.2.1.symm⟩

theorem Fresh.init {J : Joint K} (h : Fresh J) (jc : JCfg K) (body : Nat → JBody K) : Fresh (J.init jc body) := by
  cases J with
  | ball J =>
    obtain ⟨h1, h2⟩ := h
    simp only [Joint.init, Ball.init, Fresh, h1, h2, ite_self, and_self]
  | fixed J =>
    obtain ⟨h1, h2⟩ := h
    simp only [Joint.init, Fixed.init, Fresh, h1, h2, ite_self, and_self]
  | hinge J =>
    obtain ⟨h1, h2, h3, h4, h5⟩ := h
    simp only [Joint.init, Hinge.init, Fresh, h1, h2, h3, h4, h5, ite_self, and_self]
  | slider J =>
    obtain ⟨h1, h2, h3, h4, h5⟩ := h
    simp only [Joint.init, Slider.init, Fresh, h1, h2, h3, h4, h5, ite_self, and_self]

theorem Fresh.warm {J : Joint K} (h : Fresh J) (body : Nat → JBody K) (V : Nat → Vel K) : J.warm body V = V := by
  have z : ∀ r : V3 K, V3.cross 0 r = 0 := fun r => by ext <;> simp [V3.cross]
  cases J with
  | ball J =>
    obtain ⟨h1, h2⟩ := h
    simp only [Joint.warm, Ball.warm, h1, h2, zero_smul', z, neg_zero, add_zero, kick_zero]
  | fixed J =>
    obtain ⟨h1, h2⟩ := h
    simp only [Joint.warm, Fixed.warm, h1, h2, z, neg_zero, add_zero, kick_zero]
  | hinge J =>
    obtain ⟨h1, h2, h3, h4, h5⟩ := h
    simp only [Joint.warm, Hinge.warm, Hinge.swing, h1, h2, h3, h4, h5, zero_smul', z, sub_self, neg_zero, add_zero, kick_zero]
  | slider J =>
    obtain ⟨h1, h2, h3, h4, h5⟩ := h
    simp only [Joint.warm, Slider.warm, h1, h2, h3, h4, h5, zero_smul', sub_self, neg_zero, add_zero, kick_zero]

/-- **C97, partial.** In the first step after the creation of its joints a set of bodies does not gain kinetic energy. -/
theorem first_step_loses_partial (cfg : Cfg K) {jc : JCfg K} (he : 0 ≤ jc.eps) {body : Nat → JBody K} {mass : Nat → K} {L : Nat → M3 K} {S : Finset Nat}
    (Js : List (Joint K)) (hj : ∀ J ∈ Js, Calm jc body J ∧ Fresh J ∧ Pair S J.b1 J.b2) (V : Nat → Vel K) (hb : Bodies body mass L S V) (n : Nat) :
    energy2 S mass L (solveStep cfg jc body V Js [] n).1 ≤ energy2 S mass L V := by
  have hw : warmAll jc body (Js.map (Joint.init jc body)) V = V := by
    unfold warmAll
    split_ifs
    · clear hb
      induction Js with
      | nil => rfl
      | cons J Js ih =>
        rw [List.map_cons, List.foldl_cons, ((hj J List.mem_cons_self).2.1.init jc body).warm]
        exact ih fun q hq => hj q (List.mem_cons_of_mem _ hq)
    · rfl
  have := iterations_lose_partial cfg he Js (fun J hJ => ⟨(hj J hJ).1, fresh_push (hj J hJ).2.1, (hj J hJ).2.2⟩) V (by rw [hw]; exact hb) n
  rw [hw] at this
  exact this

end JointProps
end RP3D
