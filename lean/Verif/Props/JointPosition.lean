import Verif.Solver.PositionLemmas
import Verif.Props.ContactSolver

/-! What the position solvers may move (C108). -/

set_option linter.unusedSectionVars false

namespace RP3D
namespace Joints
open Solver
variable {K : Type} [Field K] [LinearOrder K] [IsStrictOrderedRing K]

/-! ### Turning an orientation -/

theorem lengthSq_nonneg (q : Quat K) : 0 ≤ q.lengthSq := by
  unfold Quat.lengthSq; nlinarith [mul_self_nonneg q.x, mul_self_nonneg q.y, mul_self_nonneg q.z, mul_self_nonneg q.w]

theorem unitQ_unit {cfg : JCfg K} (hs : IsSqrt cfg.sqrt) {q : Quat K} (hq : q.lengthSq ≠ 0) : (unitQ cfg q).lengthSq = 1 := by
  obtain ⟨h1, h2⟩ := sqrt_pos hs (lt_of_le_of_ne (lengthSq_nonneg q) (Ne.symm hq))
  have e : (unitQ cfg q).lengthSq = q.lengthSq / (cfg.sqrt q.lengthSq * cfg.sqrt q.lengthSq) := by
    unfold unitQ Quat.divBy
    generalize cfg.sqrt q.lengthSq = l at *
    simp only [Quat.lengthSq]
    field_simp
  rw [e, h2, div_self hq]

theorem sqrt_one' {sqrt : K → K} (hs : IsSqrt sqrt) : sqrt 1 = 1 := by
  obtain ⟨h1, h2⟩ := sqrt_pos hs (one_pos : (0 : K) < 1)
  nlinarith [sq_nonneg (sqrt 1 - 1)]

theorem unitQ_of_unit {cfg : JCfg K} (hs : IsSqrt cfg.sqrt) {q : Quat K} (hq : q.lengthSq = 1) : unitQ cfg q = q := by
  unfold unitQ Quat.divBy
  rw [hq, sqrt_one' hs]
  ext <;> simp

/-- The quaternion before it is normalised. -/
theorem spin_eq (cfg : JCfg K) (w : V3 K) (q : Quat K) : spin cfg w q = unitQ cfg ((⟨w.x / 2, w.y / 2, w.z / 2, 1⟩ : Quat K).mul q) := by
  unfold spin
  congr 1
  unfold Quat.add Quat.scale Quat.mul
  ext <;> simp <;> ring

theorem mul_lengthSq (p q : Quat K) : (p.mul q).lengthSq = p.lengthSq * q.lengthSq := by
  unfold Quat.mul Quat.lengthSq; ring

theorem half_lengthSq (w : V3 K) : (⟨w.x / 2, w.y / 2, w.z / 2, 1⟩ : Quat K).lengthSq = 1 + V3.dot w w / 4 := by
  unfold Quat.lengthSq V3.dot; ring

theorem half_pos (w : V3 K) : 0 < 1 + V3.dot w w / 4 := by
  have : 0 ≤ V3.dot w w := by unfold V3.dot; nlinarith [mul_self_nonneg w.x, mul_self_nonneg w.y, mul_self_nonneg w.z]
  linarith

theorem spin_unit {cfg : JCfg K} (hs : IsSqrt cfg.sqrt) (w : V3 K) {q : Quat K} (hq : q.lengthSq ≠ 0) : (spin cfg w q).lengthSq = 1 := by
  rw [spin_eq]
  refine unitQ_unit hs ?_
  rw [mul_lengthSq, half_lengthSq]
  exact mul_ne_zero (ne_of_gt (half_pos w)) hq

theorem spin_zero (cfg : JCfg K) (q : Quat K) : spin cfg 0 q = unitQ cfg q := by
  rw [spin_eq]
  congr 1
  unfold Quat.mul
  ext <;> simp

/-- How a point of the body turns. -/
theorem spin_rot {cfg : JCfg K} (hs : IsSqrt cfg.sqrt) (w : V3 K) {q : Quat K} (hq : q.lengthSq = 1) (v : V3 K) :
    (spin cfg w q).rot v = V3.smul (1 / (1 + V3.dot w w / 4))
      (V3.smul (1 - V3.dot w w / 4) (q.rot v) + V3.cross w (q.rot v) + V3.smul (V3.dot w (q.rot v) / 2) w) := by
  rw [spin_eq]
  have hl : ((⟨w.x / 2, w.y / 2, w.z / 2, 1⟩ : Quat K).mul q).lengthSq = 1 + V3.dot w w / 4 := by rw [mul_lengthSq, half_lengthSq, hq, mul_one]
  have e : ∀ (p : Quat K) (v : V3 K), 0 < p.lengthSq → (unitQ cfg p).rot v = V3.smul (1 / p.lengthSq) (p.rot v) := by
    intro p v hp
    obtain ⟨h1, h2⟩ := sqrt_pos hs hp
    rw [← h2]
    unfold unitQ Quat.divBy
    generalize cfg.sqrt p.lengthSq = l at *
    unfold Quat.rot
    ext <;> simp only [V3.smul_x, V3.smul_y, V3.smul_z] <;> field_simp
  rw [e _ _ (by rw [hl]; exact half_pos w), hl, rot_mul]
  congr 1
  generalize q.rot v = u
  unfold Quat.rot V3.dot V3.cross
  ext <;> simp <;> ring

/-! ### One correction -/

theorem place_at (cfg : JCfg K) (c : Two K) (P1 A1 P2 A2 : V3 K) (X : Nat → Pose K) (b : Nat) : place cfg c P1 A1 P2 A2 X b =
    let p : Pose K := if b = c.b1 then ⟨(X b).x + V3.had (V3.smul c.m1 c.ll1) P1, spin cfg (V3.had c.la1 (c.I1.act A1)) (X b).q⟩ else X b
    if b = c.b2 then ⟨p.x + V3.had (V3.smul c.m2 c.ll2) P2, spin cfg (V3.had c.la2 (c.I2.act A2)) p.q⟩ else p := by
  unfold place upd
  dsimp only
  by_cases h2 : b = c.b2
  · subst h2
    by_cases h1 : c.b2 = c.b1
    · simp [h1]
    · simp [h1]
  · by_cases h1 : b = c.b1
    · subst h1; simp [h2]
    · simp [h1, h2]

/-- What holds for one body when a correction moves it by any impulses, holds after all corrections. -/
theorem Moves.body {cfg : JCfg K} {body : Nat → PBody K} {P : Nat → Nat → Prop} {X Y : Nat → Pose K} (h : Moves cfg body P X Y) (b : Nat)
    (R : Pose K → Prop) (h0 : R (X b))
    (hr : ∀ (p : Pose K) (o : M3 K) (L A : V3 K), R p → R ⟨p.x + V3.had (V3.smul (body b).m (body b).ll) L,
      spin cfg (V3.had (body b).la ((Dyn.worldInertia o (body b).i).act A)) p.q⟩) : R (Y b) := by
  induction h with
  | refl => exact h0
  | step _ b1 b2 hp o1 o2 L A1 A2 ih =>
    rw [place_at]
    unfold twoOf
    dsimp only
    by_cases h1 : b = b1
    · subst h1
      by_cases h2 : b = b2
      · subst h2
        rw [if_pos rfl, if_pos rfl]
        exact hr _ o2 _ _ (hr _ o1 _ _ ih)
      · rw [if_neg h2, if_pos rfl]
        exact hr _ o1 _ _ ih
    · rw [if_neg h1]
      by_cases h2 : b = b2
      · subst h2
        rw [if_pos rfl]
        exact hr _ o2 _ _ ih
      · rw [if_neg h2]
        exact ih

/-! ### All joints and iterations -/

/-- **C108 (others).** A body of no joint with the technique NON_LINEAR_GAUSS_SEIDEL stays where it is. -/
theorem correct_others (cfg : JCfg K) (body : Nat → PBody K) (n : Nat) (X : Nat → Pose K) (S : Pins K) (b : Nat)
    (h : ∀ c, ¬ S.Acts b c ∧ ¬ S.Acts c b) : (correct cfg body n (X, S)).1 b = X b := by
  have hm := correct_moves cfg body n X S
  generalize (correct cfg body n (X, S)).1 = Z at hm ⊢
  induction hm with
  | refl => rfl
  | step _ b1 b2 hp o1 o2 L A1 A2 ih =>
    have n1 : ¬ b = b1 := fun e => (h b2).1 (e ▸ hp)
    have n2 : ¬ b = b2 := fun e => (h b1).2 (e ▸ hp)
    rw [place_at]
    unfold twoOf
    dsimp only
    rw [if_neg n2, if_neg n1]
    exact ih

/-- **C108 (orientations).** Orientations that are not zero stay as they are or become unit quaternions; unit quaternions stay unit quaternions. -/
theorem correct_unit {cfg : JCfg K} (hs : IsSqrt cfg.sqrt) (body : Nat → PBody K) (n : Nat) (X : Nat → Pose K) (S : Pins K) (b : Nat)
    (h : (X b).q.lengthSq ≠ 0) : (correct cfg body n (X, S)).1 b = X b ∨ ((correct cfg body n (X, S)).1 b).q.lengthSq = 1 := by
  refine (correct_moves cfg body n X S).body b (fun p => p = X b ∨ p.q.lengthSq = 1) (.inl rfl) fun p o L A hp => .inr (spin_unit hs _ ?_)
  rcases hp with hp | hp
  · rw [hp]; exact h
  · rw [hp]; exact one_ne_zero

theorem correct_unit' {cfg : JCfg K} (hs : IsSqrt cfg.sqrt) (body : Nat → PBody K) (n : Nat) (X : Nat → Pose K) (S : Pins K) (b : Nat)
    (h : (X b).q.lengthSq = 1) : ((correct cfg body n (X, S)).1 b).q.lengthSq = 1 := by
  rcases correct_unit hs body n X S b (by rw [h]; exact one_ne_zero) with g | g
  · rw [g]; exact h
  · exact g

theorem had_at (a b : V3 K) : (V3.had a b).x = a.x * b.x ∧ (V3.had a b).y = a.y * b.y ∧ (V3.had a b).z = a.z * b.z := ⟨rfl, rfl, rfl⟩

/-- **C108 (locked axes).** Coordinates of the center of mass of a body with zero inverse mass, and along locked axes, stay. -/
theorem correct_locked (cfg : JCfg K) (body : Nat → PBody K) (n : Nat) (X : Nat → Pose K) (S : Pins K) (b : Nat) :
    ((body b).m = 0 ∨ (body b).ll.x = 0 → ((correct cfg body n (X, S)).1 b).x.x = (X b).x.x) ∧
    ((body b).m = 0 ∨ (body b).ll.y = 0 → ((correct cfg body n (X, S)).1 b).x.y = (X b).x.y) ∧
    ((body b).m = 0 ∨ (body b).ll.z = 0 → ((correct cfg body n (X, S)).1 b).x.z = (X b).x.z) := by
  have hm := correct_moves cfg body n X S
  refine ⟨fun h => ?_, fun h => ?_, fun h => ?_⟩
  · refine hm.body b (fun p => p.x.x = (X b).x.x) rfl fun p o L A hp => ?_
    have : (V3.smul (body b).m (body b).ll).x = 0 := by rcases h with h | h <;> simp [h]
    simp only [V3.add_x, (had_at _ _).1, this, zero_mul, add_zero, hp]
  · refine hm.body b (fun p => p.x.y = (X b).x.y) rfl fun p o L A hp => ?_
    have : (V3.smul (body b).m (body b).ll).y = 0 := by rcases h with h | h <;> simp [h]
    simp only [V3.add_y, (had_at _ _).2.1, this, zero_mul, add_zero, hp]
  · refine hm.body b (fun p => p.x.z = (X b).x.z) rfl fun p o L A hp => ?_
    have : (V3.smul (body b).m (body b).ll).z = 0 := by rcases h with h | h <;> simp [h]
    simp only [V3.add_z, (had_at _ _).2.2, this, zero_mul, add_zero, hp]

theorem inertia_zero (o : M3 K) (A : V3 K) : (Dyn.worldInertia o (0 : V3 K)).act A = 0 := by
  unfold Dyn.worldInertia M3.mul M3.of M3.act
  ext <;> simp

/-- **C108 (locked orientation).** A body with zero inverse inertia, or with all three rotations locked, keeps its orientation. -/
theorem correct_locked_turn {cfg : JCfg K} (hs : IsSqrt cfg.sqrt) (body : Nat → PBody K) (n : Nat) (X : Nat → Pose K) (S : Pins K) (b : Nat)
    (h : (body b).i = 0 ∨ (body b).la = 0) (hq : (X b).q.lengthSq ≠ 0) : ((correct cfg body n (X, S)).1 b).q = (X b).q ∨
      ((correct cfg body n (X, S)).1 b).q = unitQ cfg (X b).q := by
  refine (correct_moves cfg body n X S).body b (fun p => p.q = (X b).q ∨ p.q = unitQ cfg (X b).q) (.inl rfl) fun p o L A hp => .inr ?_
  have hw : V3.had (body b).la ((Dyn.worldInertia o (body b).i).act A) = 0 := by
    rcases h with h | h
    · rw [h, inertia_zero, had_zero]
    · rw [h]; ext <;> simp [V3.had]
  dsimp only
  rw [hw, spin_zero]
  rcases hp with hp | hp
  · rw [hp]
  · rw [hp, unitQ_of_unit hs (unitQ_unit hs hq)]

/-- **C108 (immovable bodies).** A body with zero inverse mass and zero inverse inertia, as a static one, stays where it is. -/
theorem correct_static {cfg : JCfg K} (hs : IsSqrt cfg.sqrt) (body : Nat → PBody K) (n : Nat) (X : Nat → Pose K) (S : Pins K) (b : Nat)
    (hm : (body b).m = 0) (hi : (body b).i = 0) (hq : (X b).q.lengthSq = 1) : (correct cfg body n (X, S)).1 b = X b := by
  obtain ⟨h1, h2, h3⟩ := correct_locked cfg body n X S b
  have hx : ((correct cfg body n (X, S)).1 b).x = (X b).x := by ext; exacts [h1 (.inl hm), h2 (.inl hm), h3 (.inl hm)]
  refine Pose.ext hx ?_
  rcases correct_locked_turn hs body n X S b (.inl hi) (by rw [hq]; exact one_ne_zero) with h | h
  · exact h
  · rw [h, unitQ_of_unit hs hq]

/-- **C108 (one axis of rotation).** A body that may turn about one axis of the world only, keeps the coordinates along this axis of all of its
points, as seen from its center of mass. -/
theorem correct_one_axis {cfg : JCfg K} (hs : IsSqrt cfg.sqrt) (body : Nat → PBody K) (n : Nat) (X : Nat → Pose K) (S : Pins K) (b : Nat)
    (hq : (X b).q.lengthSq = 1) (v : V3 K) :
    ((body b).la.y = 0 → (body b).la.z = 0 → (((correct cfg body n (X, S)).1 b).q.rot v).x = ((X b).q.rot v).x) ∧
    ((body b).la.x = 0 → (body b).la.z = 0 → (((correct cfg body n (X, S)).1 b).q.rot v).y = ((X b).q.rot v).y) ∧
    ((body b).la.x = 0 → (body b).la.y = 0 → (((correct cfg body n (X, S)).1 b).q.rot v).z = ((X b).q.rot v).z) := by
  have hm := correct_moves cfg body n X S
  have ne : ∀ k : K, 0 < 1 + k * k / 4 := fun k => by nlinarith [mul_self_nonneg k]
  refine ⟨fun h1 h2 => ?_, fun h1 h2 => ?_, fun h1 h2 => ?_⟩
  · refine (hm.body b (fun p => p.q.lengthSq = 1 ∧ (p.q.rot v).x = ((X b).q.rot v).x) ⟨hq, rfl⟩ fun p o L A hp => ⟨spin_unit hs _ ?_, ?_⟩).2
    · rw [hp.1]; exact one_ne_zero
    · dsimp only
      rw [spin_rot hs _ hp.1]
      generalize (Dyn.worldInertia o (body b).i).act A = a
      have := ne ((body b).la.x * a.x)
      simp only [V3.dot, V3.cross, V3.add_x, V3.smul_x, (had_at _ _).1, (had_at _ _).2.1, (had_at _ _).2.2, h1, h2, zero_mul, add_zero, sub_zero, hp.2]
      field_simp
      ring
  · refine (hm.body b (fun p => p.q.lengthSq = 1 ∧ (p.q.rot v).y = ((X b).q.rot v).y) ⟨hq, rfl⟩ fun p o L A hp => ⟨spin_unit hs _ ?_, ?_⟩).2
    · rw [hp.1]; exact one_ne_zero
    · dsimp only
      rw [spin_rot hs _ hp.1]
      generalize (Dyn.worldInertia o (body b).i).act A = a
      have := ne ((body b).la.y * a.y)
      simp only [V3.dot, V3.cross, V3.add_y, V3.smul_y, (had_at _ _).1, (had_at _ _).2.1, (had_at _ _).2.2, h1, h2, zero_mul, add_zero, zero_add,
        sub_zero, hp.2]
      field_simp
      ring
  · refine (hm.body b (fun p => p.q.lengthSq = 1 ∧ (p.q.rot v).z = ((X b).q.rot v).z) ⟨hq, rfl⟩ fun p o L A hp => ⟨spin_unit hs _ ?_, ?_⟩).2
    · rw [hp.1]; exact one_ne_zero
    · dsimp only
      rw [spin_rot hs _ hp.1]
      generalize (Dyn.worldInertia o (body b).i).act A = a
      have := ne ((body b).la.z * a.z)
      simp only [V3.dot, V3.cross, V3.add_z, V3.smul_z, (had_at _ _).1, (had_at _ _).2.1, (had_at _ _).2.2, h1, h2, zero_mul, add_zero, zero_add,
        sub_zero, hp.2]
      field_simp
      ring

/-! ### The center of mass of a group of bodies -/

theorem smul_add' (k : K) (a b : V3 K) : V3.smul k (a + b) = V3.smul k a + V3.smul k b := by ext <;> simp [mul_add]

/-- The sum of mass times center of mass. -/
def massCenter (S : Finset Nat) (mass : Nat → K) (X : Nat → Pose K) : V3 K := ∑ b ∈ S, V3.smul (mass b) (X b).x

/-- **C108 (center of mass).** If the bodies of a group have no locked translations and no corrected joint leads out of the group, their common
center of mass stays. -/
theorem correct_center (cfg : JCfg K) (body : Nat → PBody K) (n : Nat) (X : Nat → Pose K) (S : Pins K) (G : Finset Nat) (mass : Nat → K)
    (hf : ∀ b ∈ G, mass b * (body b).m = 1 ∧ (body b).ll = ⟨1, 1, 1⟩) (hj : ∀ a b, S.Acts a b → (a ∈ G ↔ b ∈ G)) :
    massCenter G mass (correct cfg body n (X, S)).1 = massCenter G mass X := by
  have hm := correct_moves cfg body n X S
  generalize (correct cfg body n (X, S)).1 = Z at hm ⊢
  induction hm with
  | refl => rfl
  | @step Y _ b1 b2 hp o1 o2 L A1 A2 ih =>
    rw [← ih]
    unfold massCenter
    have hs : ∀ {k m : K} (_ : k * m = 1) (P : V3 K), V3.smul k (V3.had (V3.smul m ⟨1, 1, 1⟩) P) = P := fun h P => by
      ext <;> simp [V3.had, ← mul_assoc, h]
    have e : ∀ b ∈ G, V3.smul (mass b) (place cfg (twoOf body o1 o2 b1 b2) (-L) A1 L A2 Y b).x =
        V3.smul (mass b) (Y b).x + ((if b2 = b then L else 0) - (if b1 = b then L else 0)) := by
      intro b hb
      obtain ⟨k1, k2⟩ := hf b hb
      rw [place_at]
      unfold twoOf
      dsimp only
      by_cases h1 : b = b1
      · subst h1
        by_cases h2 : b = b2
        · subst h2
          simp only [if_true, k2, smul_add', hs k1]
          abel
        · simp only [if_true, if_neg h2, if_neg (Ne.symm h2), k2, smul_add', hs k1]
          abel
      · simp only [if_neg h1, if_neg (Ne.symm h1)]
        by_cases h2 : b = b2
        · subst h2
          simp only [if_true, k2, smul_add', hs k1]
          abel
        · simp only [if_neg h2, if_neg (Ne.symm h2)]
          abel
    rw [Finset.sum_congr rfl e, Finset.sum_add_distrib, Finset.sum_sub_distrib, Finset.sum_ite_eq, Finset.sum_ite_eq]
    by_cases h : b1 ∈ G
    · rw [if_pos h, if_pos ((hj _ _ hp).1 h), sub_self, add_zero]
    · rw [if_neg h, if_neg fun g => h ((hj _ _ hp).2 g), sub_self, add_zero]

end Joints
end RP3D
