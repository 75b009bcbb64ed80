import Verif.Solver.Run
import Verif.Props.RayExamples
import Mathlib.Algebra.BigOperators.Ring.Finset
import Mathlib.Tactic.Positivity

/-! C52, C86, C87: the contact solver. -/

namespace RP3D
namespace SolverProps
open Solver
variable {K : Type} [Field K] [LinearOrder K] [IsStrictOrderedRing K]

/-! ### Impulses -/

theorem solvePoint_nonneg (cfg : Cfg K) (M : Man K) (V : Nat → Vel K) (p : CPoint K) (h : 0 ≤ p.split) :
    0 ≤ (solvePoint cfg M V p).2.imp ∧ 0 ≤ (solvePoint cfg M V p).2.split := by
  unfold solvePoint
  dsimp only
  by_cases hs : cfg.split = true
  · simp only [hs, if_true]
    exact ⟨le_max_right _ _, le_max_right _ _⟩
  · simp only [hs, if_false, Bool.false_eq_true]
    exact ⟨le_max_right _ _, h⟩

theorem solvePoints_nonneg (cfg : Cfg K) (M : Man K) : ∀ (V : Nat → Vel K) (ps : List (CPoint K)), (∀ p ∈ ps, 0 ≤ p.split) →
    ∀ p ∈ (solvePoints cfg M V ps).2, 0 ≤ p.imp ∧ 0 ≤ p.split
  | _, [], _ => by simp [solvePoints]
  | V, p :: ps, h => by
    intro q hq
    simp only [solvePoints] at hq
    rcases List.mem_cons.1 hq with rfl | hq
    · exact solvePoint_nonneg cfg M V p (h p List.mem_cons_self)
    · exact solvePoints_nonneg cfg M _ ps (fun q hq => h q (List.mem_cons_of_mem _ hq)) q hq

/-- Impulses that only push. -/
def Pushing (M : Man K) : Prop := ∀ p ∈ M.pts, 0 ≤ p.imp ∧ 0 ≤ p.split

theorem solveMan_pushing (cfg : Cfg K) (V : Nat → Vel K) (M : Man K) (h : Pushing M) : Pushing (solveMan cfg V M).2 :=
  solvePoints_nonneg cfg M V M.pts fun p hp => (h p hp).2

theorem solve_pushing (cfg : Cfg K) : ∀ (V : Nat → Vel K) (Ms : List (Man K)), (∀ M ∈ Ms, Pushing M) → ∀ M ∈ (solve cfg V Ms).2, Pushing M
  | _, [], _ => by simp [solve]
  | V, M :: Ms, h => by
    intro N hN
    simp only [solve] at hN
    rcases List.mem_cons.1 hN with rfl | hN
    · exact solveMan_pushing cfg V M (h M List.mem_cons_self)
    · exact solve_pushing cfg _ Ms (fun q hq => h q (List.mem_cons_of_mem _ hq)) N hN

theorem iterate_pushing (cfg : Cfg K) : ∀ (Js : List ((Nat → Vel K) → Nat → Vel K)) (s : (Nat → Vel K) × List (Man K)), (∀ M ∈ s.2, Pushing M) →
    ∀ M ∈ (iterate cfg Js s).2, Pushing M
  | [], _, h => h
  | J :: Js, s, h => iterate_pushing cfg Js _ (solve_pushing cfg (J s.1) s.2 h)

theorem warmPoints_pushing (M : Man K) : ∀ (V : Nat → Vel K) (ps : List (CPoint K)), (∀ p ∈ ps, 0 ≤ p.imp ∧ 0 ≤ p.split) →
    ∀ p ∈ (warmPoints M V ps).2, 0 ≤ p.imp ∧ 0 ≤ p.split
  | _, [], _ => by simp [warmPoints]
  | V, p :: ps, h => by
    intro q hq
    simp only [warmPoints] at hq
    rcases List.mem_cons.1 hq with rfl | hq
    · unfold warmPoint
      split_ifs
      · exact h p List.mem_cons_self
      · exact ⟨le_refl _, (h p List.mem_cons_self).2⟩
    · exact warmPoints_pushing M _ ps (fun q hq => h q (List.mem_cons_of_mem _ hq)) q hq

theorem warmMan_pushing (V : Nat → Vel K) (M : Man K) (h : Pushing M) : Pushing (warmMan V M).2 := by
  unfold warmMan
  split_ifs
  · exact warmPoints_pushing M V M.pts h
  · exact warmPoints_pushing M V M.pts h

theorem warmStart_pushing : ∀ (V : Nat → Vel K) (Ms : List (Man K)), (∀ M ∈ Ms, Pushing M) → ∀ M ∈ (warmStart V Ms).2, Pushing M
  | _, [], _ => by simp [warmStart]
  | V, M :: Ms, h => by
    intro N hN
    simp only [warmStart] at hN
    rcases List.mem_cons.1 hN with rfl | hN
    · exact warmMan_pushing V M (h M List.mem_cons_self)
    · exact warmStart_pushing _ Ms (fun q hq => h q (List.mem_cons_of_mem _ hq)) N hN

theorem runSolver_pushing (cfg : Cfg K) (sqrt : K → K) (body : Nat → SBody K) (V : Nat → Vel K) (Xs : List (XMan K))
    (Js : List ((Nat → Vel K) → Nat → Vel K)) (h : ∀ X ∈ Xs, ∀ x ∈ X.pts, 0 ≤ x.imp) :
    ∀ M ∈ (runSolver cfg sqrt body V Xs Js).2, Pushing M := by
  refine iterate_pushing cfg Js _ (warmStart_pushing V _ ?_)
  intro M hM p hp
  simp only [List.mem_map] at hM
  obtain ⟨X, hX, rfl⟩ := hM
  simp only [initMan, List.mem_map] at hp
  obtain ⟨x, hx, rfl⟩ := hp
  exact ⟨h X hX x hx, le_refl _⟩

/-- Manifolds as they occur between steps: new ones without impulses, those a step leaves, and those made from earlier ones, where every point has no
impulse or the impulse of an earlier point (`initContactsWithPreviousOnes`, CollisionDetectionSystem.cpp:1069-1147). -/
inductive Stored : List (XMan K) → Prop
  | none : Stored []
  | step (Xs) (cfg : Cfg K) (sqrt : K → K) (body V Js) : Stored Xs →
      Stored ((Xs.zip (runSolver cfg sqrt body V Xs Js).2).map fun q => store q.2 q.1)
  | carry (Xs Ys) : Stored Xs → (∀ Y ∈ Ys, ∀ y ∈ Y.pts, y.imp = 0 ∨ ∃ X ∈ Xs, ∃ x ∈ X.pts, y.imp = x.imp) → Stored Ys

theorem stored_nonneg {Xs : List (XMan K)} (h : Stored Xs) : ∀ X ∈ Xs, ∀ x ∈ X.pts, 0 ≤ x.imp := by
  induction h with
  | none => simp
  | step Xs cfg sqrt body V Js _ ih =>
    intro X hX x hx
    simp only [List.mem_map, Prod.exists] at hX
    obtain ⟨Y, M, hYM, rfl⟩ := hX
    simp only [store, List.mem_map, Prod.exists] at hx
    obtain ⟨y, p, hyp, rfl⟩ := hx
    exact (runSolver_pushing cfg sqrt body V Xs Js ih M (List.of_mem_zip hYM).2 p (List.of_mem_zip hyp).2).1
  | carry Xs Ys _ hc ih =>
    intro Y hY y hy
    rcases hc Y hY y hy with h | ⟨X, hX, x, hx, h⟩
    · rw [h]
    · rw [h]; exact ih X hX x hx

/-- **C52 (normal impulses).** Over any sequence of steps, after any number of iterations, with any joints: no contact ever pulls. -/
theorem normal_impulses {Xs : List (XMan K)} (h : Stored Xs) (cfg : Cfg K) (sqrt : K → K) (body : Nat → SBody K) (V : Nat → Vel K)
    (Js : List ((Nat → Vel K) → Nat → Vel K)) : ∀ M ∈ (runSolver cfg sqrt body V Xs Js).2, ∀ p ∈ M.pts, 0 ≤ p.imp ∧ 0 ≤ p.split :=
  runSolver_pushing cfg sqrt body V Xs Js (stored_nonneg h)

theorem total_nonneg (ps : List (CPoint K)) (h : ∀ p ∈ ps, 0 ≤ p.imp) : 0 ≤ total ps := by
  refine List.sum_nonneg fun x hx => ?_
  simp only [List.mem_map] at hx
  obtain ⟨p, hp, rfl⟩ := hx
  exact h p hp

theorem clamp_abs {l : K} (hl : 0 ≤ l) (x : K) : |clamp l x| ≤ l := by
  unfold clamp
  rw [abs_le]
  exact ⟨le_max_left _ _, max_le (by linarith) (min_le_right _ _)⟩

/-- Friction impulses within the limit. -/
def Within (M : Man K) : Prop := |M.f1| ≤ M.mu * total M.pts ∧ |M.f2| ≤ M.mu * total M.pts ∧ |M.tw| ≤ M.mu * total M.pts

theorem solveMan_within (cfg : Cfg K) (V : Nat → Vel K) (M : Man K) (h : Pushing M) (hm : 0 ≤ M.mu) : Within (solveMan cfg V M).2 := by
  have hl : 0 ≤ M.mu * total (solvePoints cfg M V M.pts).2 :=
    mul_nonneg hm (total_nonneg _ fun p hp => (solveMan_pushing cfg V M h p hp).1)
  exact ⟨clamp_abs hl _, clamp_abs hl _, clamp_abs hl _⟩

theorem solve_within (cfg : Cfg K) : ∀ (V : Nat → Vel K) (Ms : List (Man K)), (∀ M ∈ Ms, Pushing M ∧ 0 ≤ M.mu) →
    ∀ M ∈ (solve cfg V Ms).2, Pushing M ∧ 0 ≤ M.mu ∧ Within M
  | _, [], _ => by simp [solve]
  | V, M :: Ms, h => by
    intro N hN
    simp only [solve] at hN
    rcases List.mem_cons.1 hN with rfl | hN
    · exact ⟨solveMan_pushing cfg V M (h M List.mem_cons_self).1, (h M List.mem_cons_self).2,
        solveMan_within cfg V M (h M List.mem_cons_self).1 (h M List.mem_cons_self).2⟩
    · exact solve_within cfg _ Ms (fun q hq => h q (List.mem_cons_of_mem _ hq)) N hN

theorem iterate_within (cfg : Cfg K) : ∀ (Js : List ((Nat → Vel K) → Nat → Vel K)) (s : (Nat → Vel K) × List (Man K)), Js ≠ [] →
    (∀ M ∈ s.2, Pushing M ∧ 0 ≤ M.mu) → ∀ M ∈ (iterate cfg Js s).2, Within M
  | [], _, hn, _ => absurd rfl hn
  | [J], s, _, h => fun M hM => (solve_within cfg (J s.1) s.2 h M hM).2.2
  | J :: J' :: Js, s, _, h => iterate_within cfg (J' :: Js) _ (by simp) fun M hM =>
      ⟨(solve_within cfg (J s.1) s.2 h M hM).1, (solve_within cfg (J s.1) s.2 h M hM).2.1⟩

theorem warmMan_mu (V : Nat → Vel K) (M : Man K) : (warmMan V M).2.mu = M.mu := by
  unfold warmMan
  split_ifs <;> rfl

theorem warmStart_mu : ∀ (V : Nat → Vel K) (Ms : List (Man K)), (∀ M ∈ Ms, 0 ≤ M.mu) → ∀ M ∈ (warmStart V Ms).2, 0 ≤ M.mu
  | _, [], _ => by simp [warmStart]
  | V, M :: Ms, h => by
    intro N hN
    simp only [warmStart] at hN
    rcases List.mem_cons.1 hN with rfl | hN
    · rw [warmMan_mu]; exact h M List.mem_cons_self
    · exact warmStart_mu _ Ms (fun q hq => h q (List.mem_cons_of_mem _ hq)) N hN

/-- **C52 (friction).** After at least one iteration every friction impulse of a manifold, also that of the twist friction, is at most the
friction coefficient times the sum of the normal impulses. -/
theorem friction_limits {Xs : List (XMan K)} (h : Stored Xs) (hm : ∀ X ∈ Xs, 0 ≤ X.mu) (cfg : Cfg K) (sqrt : K → K) (body : Nat → SBody K)
    (V : Nat → Vel K) (Js : List ((Nat → Vel K) → Nat → Vel K)) (hj : Js ≠ []) : ∀ M ∈ (runSolver cfg sqrt body V Xs Js).2,
      |M.f1| ≤ M.mu * (M.pts.map CPoint.imp).sum ∧ |M.f2| ≤ M.mu * (M.pts.map CPoint.imp).sum ∧ |M.tw| ≤ M.mu * (M.pts.map CPoint.imp).sum := by
  refine iterate_within cfg Js _ hj fun M hM => ⟨?_, ?_⟩
  · exact runSolver_pushing cfg sqrt body V Xs [] (stored_nonneg h) M hM
  · refine warmStart_mu V _ ?_ M hM
    intro N hN
    simp only [List.mem_map] at hN
    obtain ⟨X, hX, rfl⟩ := hN
    exact hm X hX

/-! ### Velocities -/

theorem iterate_ok (cfg : Cfg K) : ∀ (n : Nat) (s : (Nat → Vel K) × List (Man K)), (∀ M ∈ s.2, GoodM M) →
    (∀ b, ((iterate cfg (List.replicate n id) s).1 b).v = (s.1 b).v + (linAll b (iterate cfg (List.replicate n id) s).2 - linAll b s.2) ∧
      ((iterate cfg (List.replicate n id) s).1 b).w = (s.1 b).w + (angAll b (iterate cfg (List.replicate n id) s).2 - angAll b s.2))
  | 0, s, _ => by
    intro b
    simp only [List.replicate_zero, iterate, sub_self, add_zero, and_self]
  | n + 1, s, h => by
    intro b
    obtain ⟨_, h2, h3⟩ := solve_ok cfg s.1 s.2 h
    have ih := iterate_ok cfg n (solve cfg s.1 s.2) h2 b
    simp only [List.replicate_succ, iterate, id]
    rw [ih.1, ih.2, (h3 b).1, (h3 b).2]
    exact ⟨by abel, by abel⟩

theorem init_good (cfg : Cfg K) (sqrt : K → K) (body : Nat → SBody K) (Xs : List (XMan K)) : ∀ M ∈ Xs.map (initMan cfg sqrt body), GoodM M := by
  intro M hM
  simp only [List.mem_map] at hM
  obtain ⟨X, _, rfl⟩ := hM
  exact initMan_good cfg sqrt body X

/-- **C87 (linear velocities).** The impulses a step leaves in the contacts are exactly those it has applied: the linear velocity of every body has
changed by inverse mass times the sum of these impulses, whatever was stored before and however many iterations there are. -/
theorem linear_accounting (cfg : Cfg K) (sqrt : K → K) (body : Nat → SBody K) (V : Nat → Vel K) (Xs : List (XMan K)) (n b : Nat) :
    ((runSolver cfg sqrt body V Xs (List.replicate n id)).1 b).v = (V b).v + linAll b (runSolver cfg sqrt body V Xs (List.replicate n id)).2 := by
  obtain ⟨_, h2, h3⟩ := warmStart_ok V (Xs.map (initMan cfg sqrt body)) (init_good cfg sqrt body Xs)
  have := (iterate_ok cfg n _ h2 b).1
  rw [runSolver, this, (h3 b).1]
  abel

/-- The angular velocities: the twist impulse of the last step comes once too often. -/
theorem angular_formula (cfg : Cfg K) (sqrt : K → K) (body : Nat → SBody K) (V : Nat → Vel K) (Xs : List (XMan K)) (n b : Nat) :
    ((runSolver cfg sqrt body V Xs (List.replicate n id)).1 b).w = (V b).w + angAll b (runSolver cfg sqrt body V Xs (List.replicate n id)).2 +
      twistAll b (warmStart V (Xs.map (initMan cfg sqrt body))).2 := by
  obtain ⟨_, h2, h3⟩ := warmStart_ok V (Xs.map (initMan cfg sqrt body)) (init_good cfg sqrt body Xs)
  have := (iterate_ok cfg n _ h2 b).2
  rw [runSolver, this, (h3 b).2.1]
  abel

theorem warmMan_tw (V : Nat → Vel K) (M : Man K) (h : M.tw = 0) : (warmMan V M).2.tw = 0 := by
  unfold warmMan
  split_ifs
  · exact h
  · rfl

theorem warm_twist_zero (b : Nat) : ∀ (V : Nat → Vel K) (Ms : List (Man K)), (∀ M ∈ Ms, M.tw = 0) → twistAll b (warmStart V Ms).2 = 0
  | _, [], _ => rfl
  | V, M :: Ms, h => by
    simp only [warmStart, twistAll]
    rw [warmMan_tw V M (h M List.mem_cons_self), warm_twist_zero b _ Ms fun q hq => h q (List.mem_cons_of_mem _ hq), zero_smul', angOf_zero, add_zero]

/-- **C87 (angular velocities), partial.** The same for the angular velocities if no twist impulse is stored from the step before. Missing: stored
twist impulses (`twist_twice`). -/
theorem angular_accounting_partial (cfg : Cfg K) (sqrt : K → K) (body : Nat → SBody K) (V : Nat → Vel K) (Xs : List (XMan K)) (n b : Nat)
    (h : ∀ X ∈ Xs, X.tw = 0) :
    ((runSolver cfg sqrt body V Xs (List.replicate n id)).1 b).w = (V b).w + angAll b (runSolver cfg sqrt body V Xs (List.replicate n id)).2 := by
  rw [angular_formula, warm_twist_zero, add_zero]
  intro M hM
  simp only [List.mem_map] at hM
  obtain ⟨X, hX, rfl⟩ := hM
  exact h X hX

/-! ### Momentum -/

/-- Masses and locks of a manifold are those of its bodies. -/
def Fits (body : Nat → SBody K) (M : Man K) : Prop :=
  M.m1 = (body M.b1).m ∧ M.m2 = (body M.b2).m ∧ M.I1 = (body M.b1).I ∧ M.I2 = (body M.b2).I ∧
    M.ll1 = (body M.b1).ll ∧ M.ll2 = (body M.b2).ll ∧ M.la1 = (body M.b1).la ∧ M.la2 = (body M.b2).la

theorem Fits.of_same {body : Nat → SBody K} {M N : Man K} (h : Fits body M) (hs : MSame M N) : Fits body N := by
  rw [hs.eq]
  exact h

theorem initMan_fits (cfg : Cfg K) (sqrt : K → K) (body : Nat → SBody K) (X : XMan K) : Fits body (initMan cfg sqrt body X) :=
  ⟨rfl, rfl, rfl, rfl, rfl, rfl, rfl, rfl⟩

theorem forall_same {P : Man K → Prop} (hP : ∀ M N, P M → MSame M N → P N) {Ms Ns : List (Man K)} (h : List.Forall₂ MSame Ms Ns)
    (hm : ∀ M ∈ Ms, P M) : ∀ N ∈ Ns, P N := by
  induction h with
  | nil => simp
  | cons hab _ ih =>
    intro N hN
    rcases List.mem_cons.1 hN with rfl | hN
    · exact hP _ _ (hm _ List.mem_cons_self) hab
    · exact ih (fun M hM => hm M (List.mem_cons_of_mem _ hM)) N hN

/-- Momentum of a set of bodies. -/
def momentum (S : Finset Nat) (mass : Nat → K) (V : Nat → Vel K) : V3 K := ∑ b ∈ S, V3.smul (mass b) (V b).v

/-- Bodies with a mass and no locked axis. -/
def Free (body : Nat → SBody K) (mass : Nat → K) (S : Finset Nat) : Prop := ∀ b ∈ S, mass b * (body b).m = 1 ∧ (body b).ll = ⟨1, 1, 1⟩

/-- The impulses that come from outside of a set of bodies. -/
def outer (S : Finset Nat) : List (Man K) → V3 K
  | [] => 0
  | M :: Ms => ((if M.b2 ∈ S then impulse M else 0) - (if M.b1 ∈ S then impulse M else 0)) + outer S Ms

theorem smul_addv (k : K) (a b : V3 K) : V3.smul k (a + b) = V3.smul k a + V3.smul k b := by ext <;> simp [mul_add]
theorem smul_subv (k : K) (a b : V3 K) : V3.smul k (a - b) = V3.smul k a - V3.smul k b := by ext <;> simp [mul_sub]
theorem smul_zerov (k : K) : V3.smul k (0 : V3 K) = 0 := by ext <;> simp

theorem smul_had {k m : K} (h : k * m = 1) (P : V3 K) : V3.smul k (V3.had (V3.smul m P) ⟨1, 1, 1⟩) = P := by
  ext <;> simp [V3.had, ← mul_assoc, h]

theorem linOf_mass {body : Nat → SBody K} {mass : Nat → K} {S : Finset Nat} (hf : Free body mass S) {M : Man K} (hm : Fits body M) {b : Nat}
    (hb : b ∈ S) (P : V3 K) : V3.smul (mass b) (linOf M b P) = (if M.b2 = b then P else 0) - (if M.b1 = b then P else 0) := by
  obtain ⟨e1, e2, _, _, e3, e4, _, _⟩ := hm
  obtain ⟨k1, k2⟩ := hf b hb
  unfold linOf
  rw [smul_subv]
  congr 1
  · split_ifs with h
    · rw [e2, e4, h, k2, smul_had k1]
    · exact smul_zerov _
  · split_ifs with h
    · rw [e1, e3, h, k2, smul_had k1]
    · exact smul_zerov _

theorem sum_linOf {body : Nat → SBody K} {mass : Nat → K} {S : Finset Nat} (hf : Free body mass S) {M : Man K} (hm : Fits body M) (P : V3 K) :
    ∑ b ∈ S, V3.smul (mass b) (linOf M b P) = (if M.b2 ∈ S then P else 0) - (if M.b1 ∈ S then P else 0) := by
  rw [Finset.sum_congr rfl fun b hb => linOf_mass hf hm hb P, Finset.sum_sub_distrib, Finset.sum_ite_eq, Finset.sum_ite_eq]

theorem sum_linAll {body : Nat → SBody K} {mass : Nat → K} {S : Finset Nat} (hf : Free body mass S) : ∀ (Ms : List (Man K)),
    (∀ M ∈ Ms, Fits body M) → ∑ b ∈ S, V3.smul (mass b) (linAll b Ms) = outer S Ms
  | [], _ => Finset.sum_eq_zero fun b _ => smul_zerov _
  | M :: Ms, h => by
    simp only [linAll, outer, smul_addv, Finset.sum_add_distrib, linEff]
    rw [sum_linOf hf (h M List.mem_cons_self), sum_linAll hf Ms fun q hq => h q (List.mem_cons_of_mem _ hq)]

theorem momentum_of {S : Finset Nat} {mass : Nat → K} {V W : Nat → Vel K} {f : Nat → V3 K} (h : ∀ b, (W b).v = (V b).v + f b) :
    momentum S mass W = momentum S mass V + ∑ b ∈ S, V3.smul (mass b) (f b) := by
  unfold momentum
  rw [← Finset.sum_add_distrib]
  exact Finset.sum_congr rfl fun b _ => by rw [h, smul_addv]

theorem iterate_momentum (cfg : Cfg K) {body : Nat → SBody K} {mass : Nat → K} {S : Finset Nat} (hf : Free body mass S) :
    ∀ (Js : List ((Nat → Vel K) → Nat → Vel K)) (s : (Nat → Vel K) × List (Man K)), (∀ J ∈ Js, ∀ V, momentum S mass (J V) = momentum S mass V) →
    (∀ M ∈ s.2, GoodM M) → (∀ M ∈ s.2, Fits body M) →
    momentum S mass (iterate cfg Js s).1 = momentum S mass s.1 + (outer S (iterate cfg Js s).2 - outer S s.2)
  | [], s, _, _, _ => by simp only [iterate, sub_self, add_zero]
  | J :: Js, s, hj, hg, hfit => by
    obtain ⟨h1, h2, h3⟩ := solve_ok cfg (J s.1) s.2 hg
    have hfit' := forall_same (P := Fits body) (fun M N h hs => h.of_same hs) h1 hfit
    have ih := iterate_momentum cfg hf Js (solve cfg (J s.1) s.2) (fun J hJ => hj J (List.mem_cons_of_mem _ hJ)) h2 hfit'
    rw [iterate, ih, momentum_of fun b => (h3 b).1, hj J List.mem_cons_self]
    simp only [smul_subv, Finset.sum_sub_distrib]
    rw [sum_linAll hf _ hfit', sum_linAll hf _ hfit]
    abel

/-- **C52 (momentum).** The momentum of a set of bodies changes by the impulses of the contacts with bodies outside of the set and by nothing else;
the joints may do anything that keeps this momentum. -/
theorem momentum_balance (cfg : Cfg K) (sqrt : K → K) (body : Nat → SBody K) (V : Nat → Vel K) (Xs : List (XMan K))
    (Js : List ((Nat → Vel K) → Nat → Vel K)) (mass : Nat → K) (S : Finset Nat) (hf : Free body mass S)
    (hj : ∀ J ∈ Js, ∀ V, momentum S mass (J V) = momentum S mass V) :
    momentum S mass (runSolver cfg sqrt body V Xs Js).1 = momentum S mass V + outer S (runSolver cfg sqrt body V Xs Js).2 := by
  obtain ⟨h1, h2, h3⟩ := warmStart_ok V (Xs.map (initMan cfg sqrt body)) (init_good cfg sqrt body Xs)
  have hi : ∀ M ∈ Xs.map (initMan cfg sqrt body), Fits body M := by
    intro M hM
    simp only [List.mem_map] at hM
    obtain ⟨X, _, rfl⟩ := hM
    exact initMan_fits cfg sqrt body X
  have hfit := forall_same (P := Fits body) (fun M N h hs => h.of_same hs) h1 hi
  rw [runSolver, iterate_momentum cfg hf Js _ hj h2 hfit, momentum_of fun b => (h3 b).1, sum_linAll hf _ hfit]
  abel

theorem outer_inner {S : Finset Nat} : ∀ (Ms : List (Man K)), (∀ M ∈ Ms, M.b1 ∈ S ∧ M.b2 ∈ S) → outer S Ms = 0
  | [], _ => rfl
  | M :: Ms, h => by
    rw [outer, if_pos (h M List.mem_cons_self).1, if_pos (h M List.mem_cons_self).2, sub_self, zero_add,
      outer_inner Ms fun q hq => h q (List.mem_cons_of_mem _ hq)]

theorem iterate_same (cfg : Cfg K) : ∀ (Js : List ((Nat → Vel K) → Nat → Vel K)) (s : (Nat → Vel K) × List (Man K)), (∀ M ∈ s.2, GoodM M) →
    ∀ {P : Man K → Prop}, (∀ M N, P M → MSame M N → P N) → (∀ M ∈ s.2, P M) → ∀ M ∈ (iterate cfg Js s).2, P M
  | [], _, _, _, _, h => h
  | J :: Js, s, hg, _, hP, h => by
    obtain ⟨h1, h2, _⟩ := solve_ok cfg (J s.1) s.2 hg
    exact iterate_same cfg Js _ h2 hP (forall_same hP h1 h)

theorem runSolver_same (cfg : Cfg K) (sqrt : K → K) (body : Nat → SBody K) (V : Nat → Vel K) (Xs : List (XMan K))
    (Js : List ((Nat → Vel K) → Nat → Vel K)) {P : Man K → Prop} (hP : ∀ M N, P M → MSame M N → P N)
    (h : ∀ X ∈ Xs, P (initMan cfg sqrt body X)) : ∀ M ∈ (runSolver cfg sqrt body V Xs Js).2, P M := by
  obtain ⟨h1, h2, _⟩ := warmStart_ok V (Xs.map (initMan cfg sqrt body)) (init_good cfg sqrt body Xs)
  refine iterate_same cfg Js _ h2 hP (forall_same hP h1 ?_)
  intro M hM
  simp only [List.mem_map] at hM
  obtain ⟨X, hX, rfl⟩ := hM
  exact h X hX

/-- **C52 (momentum).** Contacts among the bodies of a set keep its momentum. -/
theorem momentum_kept (cfg : Cfg K) (sqrt : K → K) (body : Nat → SBody K) (V : Nat → Vel K) (Xs : List (XMan K))
    (Js : List ((Nat → Vel K) → Nat → Vel K)) (mass : Nat → K) (S : Finset Nat) (hf : Free body mass S)
    (hj : ∀ J ∈ Js, ∀ V, momentum S mass (J V) = momentum S mass V) (hx : ∀ X ∈ Xs, X.b1 ∈ S ∧ X.b2 ∈ S) :
    momentum S mass (runSolver cfg sqrt body V Xs Js).1 = momentum S mass V := by
  rw [momentum_balance cfg sqrt body V Xs Js mass S hf hj, outer_inner, add_zero]
  refine runSolver_same cfg sqrt body V Xs Js (P := fun M => M.b1 ∈ S ∧ M.b2 ∈ S) (fun M N h hs => ?_) hx
  have e1 : N.b1 = M.b1 := by rw [hs.eq]
  have e2 : N.b2 = M.b2 := by rw [hs.eq]
  rw [e1, e2]
  exact h

end SolverProps
end RP3D
