import Verif.Solver.JointLemmas
import Verif.Props.ContactSolver

/-! C92, C95: impulses of joints, momentum, and what the reaction force and torque tell. -/

set_option linter.unusedSectionVars false

namespace RP3D
namespace JointProps
open Solver Joints SolverProps
variable {K : Type} [Field K] [LinearOrder K] [IsStrictOrderedRing K]

theorem loop_ok (cfg : Cfg K) (jc : JCfg K) (body : Nat → JBody K) : ∀ (n : Nat) (s : (Nat → Vel K) × List (Joint K) × List (Man K)),
    (∀ M ∈ s.2.2, GoodM M) → ∀ b,
      ((loop cfg jc body n s).1 b).v = (s.1 b).v + (linJ body b (loop cfg jc body n s).2.1 - linJ body b s.2.1) +
        (linAll b (loop cfg jc body n s).2.2 - linAll b s.2.2) ∧
      ((loop cfg jc body n s).1 b).w = (s.1 b).w + (angJ body b (loop cfg jc body n s).2.1 - angJ body b s.2.1) +
        (angAll b (loop cfg jc body n s).2.2 - angAll b s.2.2)
  | 0, s, _ => by
    intro b
    simp only [loop, sub_self, add_zero, and_self]
  | n + 1, s, h => by
    intro b
    obtain ⟨_, k2⟩ := solveAll_ok jc body s.1 s.2.1
    obtain ⟨_, h2, h3⟩ := solve_ok cfg (solveAll jc body s.1 s.2.1).1 s.2.2 h
    have ih := loop_ok cfg jc body n ((solve cfg (solveAll jc body s.1 s.2.1).1 s.2.2).1, (solveAll jc body s.1 s.2.1).2,
      (solve cfg (solveAll jc body s.1 s.2.1).1 s.2.2).2) h2 b
    simp only [loop]
    dsimp only at ih
    rw [ih.1, ih.2, (h3 b).1, (h3 b).2, k2 b]
    exact ⟨by dsimp only; abel, by dsimp only; abel⟩

theorem loop_same (cfg : Cfg K) (jc : JCfg K) (body : Nat → JBody K) : ∀ (n : Nat) (s : (Nat → Vel K) × List (Joint K) × List (Man K)),
    (∀ M ∈ s.2.2, GoodM M) → ∀ {P : Joint K → Prop} {Q : Man K → Prop}, (∀ M N, P M → M.Same N → P N) → (∀ M N, Q M → MSame M N → Q N) →
    (∀ J ∈ s.2.1, P J) → (∀ M ∈ s.2.2, Q M) → (∀ J ∈ (loop cfg jc body n s).2.1, P J) ∧ ∀ M ∈ (loop cfg jc body n s).2.2, Q M
  | 0, _, _, _, _, _, _, h, g => ⟨h, g⟩
  | n + 1, s, hg, P, Q, hP, hQ, h, g => by
    obtain ⟨k1, _⟩ := solveAll_ok jc body s.1 s.2.1
    obtain ⟨h1, h2, _⟩ := solve_ok cfg (solveAll jc body s.1 s.2.1).1 s.2.2 hg
    refine loop_same cfg jc body n ((solve cfg (solveAll jc body s.1 s.2.1).1 s.2.2).1, (solveAll jc body s.1 s.2.1).2,
      (solve cfg (solveAll jc body s.1 s.2.1).1 s.2.2).2) h2 hP hQ ?_ (forall_same hQ h1 g)
    dsimp only
    clear hg h1 h2 g
    generalize s.2.1 = js at k1 h
    generalize (solveAll jc body s.1 _).2 = ks at k1
    induction k1 with
    | nil => simp
    | cons hab _ ih =>
      intro N hN
      rcases List.mem_cons.1 hN with rfl | hN
      · exact hP _ _ (h _ List.mem_cons_self) hab
      · exact ih (fun M hM => h M (List.mem_cons_of_mem _ hM)) N hN

/-- What holds of the joints and manifolds after their initialisation holds at the end of the step, if impulses do not matter for it. -/
theorem step_same (cfg : Cfg K) (jc : JCfg K) (body : Nat → JBody K) (V : Nat → Vel K) (Js : List (Joint K)) (Xs : List (XMan K)) (n : Nat)
    {P : Joint K → Prop} {Q : Man K → Prop} (hP : ∀ M N, P M → M.Same N → P N) (hQ : ∀ M N, Q M → MSame M N → Q N)
    (h : ∀ J ∈ Js, P (J.init jc body)) (g : ∀ X ∈ Xs, Q (initMan cfg jc.sqrt (fun b => (body b).toSBody) X)) :
    (∀ J ∈ (solveStep cfg jc body V Js Xs n).2.1, P J) ∧ ∀ M ∈ (solveStep cfg jc body V Js Xs n).2.2, Q M := by
  obtain ⟨h1, h2, _⟩ := warmStart_ok V (Xs.map (initMan cfg jc.sqrt fun b => (body b).toSBody)) (init_good cfg jc.sqrt _ Xs)
  refine loop_same cfg jc body n _ h2 hP hQ ?_ (forall_same hQ h1 ?_)
  · intro J hJ
    simp only [List.mem_map] at hJ
    obtain ⟨N, hN, rfl⟩ := hJ
    exact h N hN
  · intro M hM
    simp only [List.mem_map] at hM
    obtain ⟨X, hX, rfl⟩ := hM
    exact g X hX

/-- The velocities after a step: those before and the effect of all impulses that the joints and contacts report. -/
theorem step_accounting (cfg : Cfg K) (jc : JCfg K) (body : Nat → JBody K) (V : Nat → Vel K) (Js : List (Joint K)) (Xs : List (XMan K)) (n b : Nat)
    (hw : jc.warm = true) :
    ((solveStep cfg jc body V Js Xs n).1 b).v = (V b).v + linJ body b (solveStep cfg jc body V Js Xs n).2.1 +
      linAll b (solveStep cfg jc body V Js Xs n).2.2 ∧
    ((solveStep cfg jc body V Js Xs n).1 b).w = (V b).w + angJ body b (solveStep cfg jc body V Js Xs n).2.1 +
      angAll b (solveStep cfg jc body V Js Xs n).2.2 + twistAll b (warmStart V (Xs.map (initMan cfg jc.sqrt fun b => (body b).toSBody))).2 := by
  obtain ⟨_, h2, h3⟩ := warmStart_ok V (Xs.map (initMan cfg jc.sqrt fun b => (body b).toSBody)) (init_good cfg jc.sqrt _ Xs)
  have := loop_ok cfg jc body n (warmAll jc body (Js.map (Joint.init jc body)) (warmStart V (Xs.map (initMan cfg jc.sqrt fun b => (body b).toSBody))).1,
    Js.map (Joint.init jc body), (warmStart V (Xs.map (initMan cfg jc.sqrt fun b => (body b).toSBody))).2) h2 b
  unfold solveStep
  dsimp only at this ⊢
  rw [this.1, this.2, warmAll_ok jc body hw, (h3 b).1, (h3 b).2.1]
  exact ⟨by dsimp only; abel, by dsimp only; abel⟩

/-! ### Momentum -/

/-- The impulse on the second body is what `getReactionForce` tells, the impulse on the first one is the opposite. -/
theorem load_force (J : Joint K) : J.load.P2 = J.reactionForce ∧ J.load.P1 = -J.reactionForce := by
  cases J with
  | ball J => exact ⟨rfl, rfl⟩
  | fixed J => exact ⟨rfl, rfl⟩
  | hinge J => exact ⟨rfl, rfl⟩
  | slider J =>
    constructor <;> simp only [Joint.load, Slider.load, Joint.reactionForce] <;> ext <;> simp <;> ring

/-- The impulses of joints that come from outside of a set of bodies. -/
def outerJ (S : Finset Nat) (Js : List (Joint K)) : V3 K :=
  (Js.map fun J => (if J.b2 ∈ S then J.reactionForce else 0) - (if J.b1 ∈ S then J.reactionForce else 0)).sum

theorem had_smul {k m : K} (h : k * m = 1) (P : V3 K) : V3.smul k (V3.had (V3.smul m ⟨1, 1, 1⟩) P) = P := by
  ext <;> simp [V3.had, ← mul_assoc, h]

theorem sum_linK {body : Nat → JBody K} {mass : Nat → K} {S : Finset Nat} (hf : Free (fun b => (body b).toSBody) mass S) (J : Joint K) :
    ∑ b ∈ S, V3.smul (mass b) (linK (two body J.b1 J.b2) J.load b) =
      (if J.b2 ∈ S then J.reactionForce else 0) - (if J.b1 ∈ S then J.reactionForce else 0) := by
  have e : ∀ b ∈ S, V3.smul (mass b) (linK (two body J.b1 J.b2) J.load b) =
      (if J.b2 = b then J.reactionForce else 0) - (if J.b1 = b then J.reactionForce else 0) := by
    intro b hb
    obtain ⟨k1, k2⟩ := hf b hb
    dsimp only at k1 k2
    unfold linK two
    dsimp only
    rw [(load_force J).1, (load_force J).2, smul_addv, sub_eq_add_neg, add_comm]
    congr 1
    · split_ifs with h
      · rw [h, k2, had_smul k1]
      · exact smul_zerov _
    · split_ifs with h
      · rw [h, k2, had_smul k1]
      · rw [smul_zerov, neg_zero]
  rw [Finset.sum_congr rfl e, Finset.sum_sub_distrib, Finset.sum_ite_eq, Finset.sum_ite_eq]

theorem sum_linJ {body : Nat → JBody K} {mass : Nat → K} {S : Finset Nat} (hf : Free (fun b => (body b).toSBody) mass S) :
    ∀ Js : List (Joint K), ∑ b ∈ S, V3.smul (mass b) (linJ body b Js) = outerJ S Js
  | [] => Finset.sum_eq_zero fun b _ => smul_zerov _
  | J :: Js => by
    simp only [linJ, outerJ, List.map_cons, List.sum_cons, smul_addv, Finset.sum_add_distrib]
    rw [sum_linK hf, sum_linJ hf Js]
    rfl

/-- **C92 (momentum).** In a step with any joints and contacts the momentum of a set of bodies changes by the reaction forces of the joints and the
impulses of the contacts with bodies outside of the set, and by nothing else. -/
theorem momentum_step (cfg : Cfg K) (jc : JCfg K) (body : Nat → JBody K) (V : Nat → Vel K) (Js : List (Joint K)) (Xs : List (XMan K)) (n : Nat)
    (hw : jc.warm = true) (mass : Nat → K) (S : Finset Nat) (hf : Free (fun b => (body b).toSBody) mass S) :
    momentum S mass (solveStep cfg jc body V Js Xs n).1 =
      momentum S mass V + outerJ S (solveStep cfg jc body V Js Xs n).2.1 + outer S (solveStep cfg jc body V Js Xs n).2.2 := by
  have hfit := (step_same cfg jc body V Js Xs n (P := fun _ => True) (Q := Fits fun b => (body b).toSBody) (fun _ _ _ _ => trivial)
    (fun M N h hs => h.of_same hs) (fun _ _ => trivial) fun X _ => initMan_fits _ _ _ X).2
  rw [momentum_of fun b => (step_accounting cfg jc body V Js Xs n b hw).1.trans (add_assoc _ _ _)]
  simp only [smul_addv, Finset.sum_add_distrib]
  rw [sum_linJ hf, sum_linAll hf _ hfit, add_assoc]

theorem outerJ_inner {S : Finset Nat} {Js : List (Joint K)} (h : ∀ J ∈ Js, J.b1 ∈ S ∧ J.b2 ∈ S) : outerJ S Js = 0 := by
  unfold outerJ
  refine List.sum_eq_zero fun x hx => ?_
  simp only [List.mem_map] at hx
  obtain ⟨J, hJ, rfl⟩ := hx
  rw [if_pos (h J hJ).1, if_pos (h J hJ).2, sub_self]

theorem init_bodies (cfg : JCfg K) (body : Nat → JBody K) (J : Joint K) : (J.init cfg body).b1 = J.b1 ∧ (J.init cfg body).b2 = J.b2 := by
  cases J <;> exact ⟨rfl, rfl⟩

/-- **C92 (momentum).** Joints and contacts among the bodies of a set keep its momentum. -/
theorem momentum_step_kept (cfg : Cfg K) (jc : JCfg K) (body : Nat → JBody K) (V : Nat → Vel K) (Js : List (Joint K)) (Xs : List (XMan K)) (n : Nat)
    (hw : jc.warm = true) (mass : Nat → K) (S : Finset Nat) (hf : Free (fun b => (body b).toSBody) mass S)
    (hj : ∀ J ∈ Js, J.b1 ∈ S ∧ J.b2 ∈ S) (hx : ∀ X ∈ Xs, X.b1 ∈ S ∧ X.b2 ∈ S) :
    momentum S mass (solveStep cfg jc body V Js Xs n).1 = momentum S mass V := by
  have h := step_same cfg jc body V Js Xs n (P := fun J => J.b1 ∈ S ∧ J.b2 ∈ S) (Q := fun M => M.b1 ∈ S ∧ M.b2 ∈ S)
    (fun M N h hs => by rw [hs.bodies.1, hs.bodies.2]; exact h)
    (fun M N h hs => by
      have e1 : N.b1 = M.b1 := by rw [hs.eq]
      have e2 : N.b2 = M.b2 := by rw [hs.eq]
      rw [e1, e2]; exact h)
    (fun J hJ => by rw [(init_bodies jc body J).1, (init_bodies jc body J).2]; exact hj J hJ) (fun X hX => hx X hX)
  rw [momentum_step cfg jc body V Js Xs n hw mass S hf, outerJ_inner h.1, outer_inner _ h.2, add_zero, add_zero]

/-! ### Angular momentum -/

/-- Angular momentum about the origin of a set of bodies with centers of mass `x` and inertia tensors `L`. -/
def angular (S : Finset Nat) (mass : Nat → K) (L : Nat → M3 K) (x : Nat → V3 K) (V : Nat → Vel K) : V3 K :=
  ∑ b ∈ S, (V3.cross (x b) (V3.smul (mass b) (V b).v) + (L b).act (V b).w)

/-- Bodies with mass and inertia tensor and no locked axis. -/
def FreeTurn (body : Nat → JBody K) (mass : Nat → K) (L : Nat → M3 K) (S : Finset Nat) : Prop :=
  ∀ b ∈ S, mass b * (body b).m = 1 ∧ (body b).ll = ⟨1, 1, 1⟩ ∧ (∀ a, (L b).act ((body b).I.act a) = a) ∧ (body b).la = ⟨1, 1, 1⟩

theorem act_addv (M : M3 K) (a b : V3 K) : M.act (a + b) = M.act a + M.act b := by
  unfold M3.act; ext <;> simp <;> ring
theorem act_zerov (M : M3 K) : M.act 0 = 0 := by
  unfold M3.act; ext <;> simp
theorem cross_addv (a b c : V3 K) : V3.cross a (b + c) = V3.cross a b + V3.cross a c := by
  ext <;> simp [V3.cross] <;> ring
theorem cross_zerov (a : V3 K) : V3.cross a 0 = 0 := by
  ext <;> simp [V3.cross]
theorem had_ones (a : V3 K) : V3.had (⟨1, 1, 1⟩ : V3 K) a = a := by
  ext <;> simp [V3.had]

/-- The moment about the origin of the impulses of a joint. -/
def moment (body : Nat → JBody K) (J : Joint K) : V3 K :=
  V3.cross (body J.b1).x J.load.P1 + J.load.A1 + (V3.cross (body J.b2).x J.load.P2 + J.load.A2)

theorem sum_moment {body : Nat → JBody K} {mass : Nat → K} {L : Nat → M3 K} {S : Finset Nat} (hf : FreeTurn body mass L S) (J : Joint K)
    (hj : J.b1 ∈ S ∧ J.b2 ∈ S) :
    ∑ b ∈ S, (V3.cross (body b).x (V3.smul (mass b) (linK (two body J.b1 J.b2) J.load b)) + (L b).act (angK (two body J.b1 J.b2) J.load b)) =
      moment body J := by
  have e : ∀ b ∈ S, V3.cross (body b).x (V3.smul (mass b) (linK (two body J.b1 J.b2) J.load b)) + (L b).act (angK (two body J.b1 J.b2) J.load b) =
      (if J.b1 = b then V3.cross (body J.b1).x J.load.P1 + J.load.A1 else 0) + (if J.b2 = b then V3.cross (body J.b2).x J.load.P2 + J.load.A2 else 0) := by
    intro b hb
    obtain ⟨k1, k2, k3, k4⟩ := hf b hb
    unfold linK angK two
    dsimp only
    by_cases h1 : J.b1 = b <;> by_cases h2 : J.b2 = b
    · rw [if_pos h1, if_pos h2, if_pos h1, if_pos h2, if_pos h1, if_pos h2, h1, h2, k2, k4, smul_addv, had_smul k1, had_smul k1, had_ones, had_ones,
        act_addv, k3, k3, cross_addv]
      abel
    · rw [if_pos h1, if_neg h2, if_pos h1, if_neg h2, if_pos h1, if_neg h2, h1, k2, k4, add_zero, add_zero, add_zero, had_smul k1, had_ones, k3]
    · rw [if_neg h1, if_pos h2, if_neg h1, if_pos h2, if_neg h1, if_pos h2, h2, k2, k4, zero_add, zero_add, zero_add, had_smul k1, had_ones, k3]
    · rw [if_neg h1, if_neg h2, if_neg h1, if_neg h2, if_neg h1, if_neg h2, add_zero, smul_zerov, cross_zerov, act_zerov, add_zero]
  rw [Finset.sum_congr rfl e, Finset.sum_add_distrib, Finset.sum_ite_eq, Finset.sum_ite_eq, if_pos hj.1, if_pos hj.2, moment]

theorem sum_moments {body : Nat → JBody K} {mass : Nat → K} {L : Nat → M3 K} {S : Finset Nat} (hf : FreeTurn body mass L S) : ∀ Js : List (Joint K),
    (∀ J ∈ Js, J.b1 ∈ S ∧ J.b2 ∈ S) →
    ∑ b ∈ S, (V3.cross (body b).x (V3.smul (mass b) (linJ body b Js)) + (L b).act (angJ body b Js)) = (Js.map (moment body)).sum
  | [], _ => Finset.sum_eq_zero fun b _ => by simp only [linJ, angJ]; rw [smul_zerov, cross_zerov, act_zerov, add_zero]
  | J :: Js, h => by
    rw [List.map_cons, List.sum_cons, ← sum_moment hf J (h J List.mem_cons_self), ← sum_moments hf Js fun q hq => h q (List.mem_cons_of_mem _ hq),
      ← Finset.sum_add_distrib]
    refine Finset.sum_congr rfl fun b _ => ?_
    simp only [linJ, angJ, smul_addv, cross_addv, act_addv]
    abel

/-- What of a joint belongs to the geometry of its bodies. -/
def Placed (body : Nat → JBody K) : Joint K → Prop
  | .ball J => J.r1 = arm (body J.b1) J.a1 ∧ J.r2 = arm (body J.b2) J.a2
  | .fixed J => J.r1 = arm (body J.b1) J.a1 ∧ J.r2 = arm (body J.b2) J.a2
  | .hinge J => J.r1 = arm (body J.b1) J.a1 ∧ J.r2 = arm (body J.b2) J.a2
  | .slider J =>
    let d := (body J.b2).x - (body J.b1).x
    J.c1 = V3.cross (d + J.r2) J.n1 ∧ J.c2 = V3.cross (d + J.r2) J.n2 ∧ J.cx = V3.cross (d + J.r2) J.ax ∧
      J.e1 = V3.cross J.r2 J.n1 ∧ J.e2 = V3.cross J.r2 J.n2 ∧ J.ex = V3.cross J.r2 J.ax

theorem init_placed (jc : JCfg K) (body : Nat → JBody K) (J : Joint K) : Placed body (J.init jc body) := by
  cases J with
  | ball J => exact ⟨rfl, rfl⟩
  | fixed J => exact ⟨rfl, rfl⟩
  | hinge J => exact ⟨rfl, rfl⟩
  | slider J =>
    have e : ∀ (x1 x2 r1 r2 : V3 K), r1 + (x2 + r2 - x1 - r1) = x2 - x1 + r2 := fun x1 x2 r1 r2 => by abel
    simp only [Joint.init, Slider.init, Placed, e, and_self]

theorem Placed.of_same {body : Nat → JBody K} {J N : Joint K} (h : Placed body J) (hs : J.Same N) : Placed body N := by
  cases J <;> cases N <;> first | exact hs.elim | skip
  · rename_i J N; have hs : N = _ := hs; rw [hs]; exact h
  · rename_i J N; have hs : N = _ := hs; rw [hs]; exact h
  · rename_i J N; have hs : N = _ := hs; rw [hs]; exact h
  · rename_i J N; have hs : N = _ := hs; rw [hs]; exact h

/-- World position of the anchors of a joint. -/
def anchor (B : JBody K) (a : V3 K) : V3 K := B.x + B.q.rot (a - B.com)

theorem anchor_eq (B : JBody K) (a : V3 K) : anchor B a = B.x + arm B a := rfl

/-- The moment by which a joint disturbs the angular momentum: if anchors are apart; and the motor of a slider, which acts at the centers of mass. -/
def defect (body : Nat → JBody K) : Joint K → V3 K
  | .ball J => V3.cross (anchor (body J.b2) J.a2 - anchor (body J.b1) J.a1) J.imp
  | .fixed J => V3.cross (anchor (body J.b2) J.a2 - anchor (body J.b1) J.a1) J.imp
  | .hinge J => V3.cross (anchor (body J.b2) J.a2 - anchor (body J.b1) J.a1) J.imp
  | .slider J => V3.cross ((body J.b1).x - (body J.b2).x) (V3.smul J.impM J.ax)

theorem moment_eq {body : Nat → JBody K} {J : Joint K} (h : Placed body J) : moment body J = defect body J := by
  cases J with
  | ball J =>
    obtain ⟨h1, h2⟩ := h
    simp only [moment, defect, Joint.b1, Joint.b2, Joint.load, Ball.load, anchor_eq, ← h1, ← h2]
    ext <;> simp [V3.cross] <;> ring
  | fixed J =>
    obtain ⟨h1, h2⟩ := h
    simp only [moment, defect, Joint.b1, Joint.b2, Joint.load, Fixed.load, anchor_eq, ← h1, ← h2]
    ext <;> simp [V3.cross] <;> ring
  | hinge J =>
    obtain ⟨h1, h2⟩ := h
    simp only [moment, defect, Joint.b1, Joint.b2, Joint.load, Hinge.load, anchor_eq, ← h1, ← h2, Hinge.swing]
    ext <;> simp [V3.cross] <;> ring
  | slider J =>
    obtain ⟨h1, h2, h3, h4, h5, h6⟩ := h
    simp only [moment, defect, Joint.b1, Joint.b2, Joint.load, Slider.load, h1, h2, h3, h4, h5, h6]
    ext <;> simp [V3.cross] <;> ring

/-- **C92 (angular momentum).** Joints among the bodies of a set change its angular momentum in a step by their defects, and by nothing else. -/
theorem angular_step (cfg : Cfg K) (jc : JCfg K) (body : Nat → JBody K) (V : Nat → Vel K) (Js : List (Joint K)) (n : Nat)
    (hw : jc.warm = true) (mass : Nat → K) (L : Nat → M3 K) (S : Finset Nat) (hf : FreeTurn body mass L S) (hj : ∀ J ∈ Js, J.b1 ∈ S ∧ J.b2 ∈ S) :
    angular S mass L (fun b => (body b).x) (solveStep cfg jc body V Js [] n).1 =
      angular S mass L (fun b => (body b).x) V + ((solveStep cfg jc body V Js [] n).2.1.map (defect body)).sum := by
  obtain ⟨h1, h2⟩ := step_same cfg jc body V Js [] n (P := fun J => (J.b1 ∈ S ∧ J.b2 ∈ S) ∧ Placed body J) (Q := fun _ => False)
    (fun M N h hs => ⟨by rw [hs.bodies.1, hs.bodies.2]; exact h.1, h.2.of_same hs⟩) (fun _ _ h _ => h)
    (fun J hJ => ⟨by rw [(init_bodies jc body J).1, (init_bodies jc body J).2]; exact hj J hJ, init_placed jc body J⟩) (fun X hX => by cases hX)
  have h0 : (solveStep cfg jc body V Js [] n).2.2 = [] := List.eq_nil_iff_forall_not_mem.2 fun M hM => h2 M hM
  rw [← List.map_congr_left fun J hJ => moment_eq (h1 J hJ).2, ← sum_moments hf _ fun J hJ => (h1 J hJ).1]
  unfold angular
  rw [← Finset.sum_add_distrib]
  refine Finset.sum_congr rfl fun b _ => ?_
  obtain ⟨e1, e2⟩ := step_accounting cfg jc body V Js [] n b hw
  rw [e1, e2, h0]
  simp only [List.map_nil, warmStart, linAll, angAll, twistAll, add_zero, smul_addv, cross_addv, act_addv]
  abel

/-- Joints whose anchors meet, and sliders without motor and without impulse of a motor. -/
def Meets (body : Nat → JBody K) : Joint K → Prop
  | .ball J => anchor (body J.b1) J.a1 = anchor (body J.b2) J.a2
  | .fixed J => anchor (body J.b1) J.a1 = anchor (body J.b2) J.a2
  | .hinge J => anchor (body J.b1) J.a1 = anchor (body J.b2) J.a2
  | .slider J => J.motorOn = false ∧ J.impM = 0

theorem Meets.init {body : Nat → JBody K} (jc : JCfg K) {J : Joint K} (h : Meets body J) : Meets body (J.init jc body) := by
  cases J with
  | ball J => exact h
  | fixed J => exact h
  | hinge J => exact h
  | slider J =>
    refine ⟨h.1, ?_⟩
    simp only [Slider.init, h.2, ite_self]

theorem Meets.solve {body : Nat → JBody K} (jc : JCfg K) {J : Joint K} (h : Meets body J) (V : Nat → Vel K) : Meets body (J.solve jc body V).2 := by
  have hs := (J.solve_ok jc body V).1
  cases J with
  | ball J =>
    have hs : (J.solve body V).2 = _ := hs
    simp only [Joint.solve]
    rw [hs]; exact h
  | fixed J =>
    have hs : (J.solve body V).2 = _ := hs
    simp only [Joint.solve]
    rw [hs]; exact h
  | hinge J =>
    have hs : (J.solve jc body V).2 = _ := hs
    simp only [Joint.solve]
    rw [hs]; exact h
  | slider J =>
    obtain ⟨h1, h2⟩ := h
    have k : ∀ (N : Slider K) (W : Nat → Vel K), N.motorOn = false → (N.motor jc body W).2 = N := fun N W hN => by
      unfold Slider.motor; rw [hN]; rfl
    have l : ∀ (N : Slider K) (W : Nat → Vel K), (N.limitL body W).2.impM = N.impM ∧ (N.limitL body W).2.motorOn = N.motorOn := fun N W => by
      unfold Slider.limitL; split_ifs <;> exact ⟨rfl, rfl⟩
    have u : ∀ (N : Slider K) (W : Nat → Vel K), (N.limitU body W).2.impM = N.impM ∧ (N.limitU body W).2.motorOn = N.motorOn := fun N W => by
      unfold Slider.limitU; split_ifs <;> exact ⟨rfl, rfl⟩
    have hm : ((J.limitL body V).2.limitU body (J.limitL body V).1).2.motorOn = false := by rw [(u _ _).2, (l _ _).2, h1]
    refine ⟨?_, ?_⟩
    · change ((((J.limitL body V).2.limitU body (J.limitL body V).1).2.motor jc body _).2).motorOn = false
      rw [k _ _ hm, hm]
    · change ((((J.limitL body V).2.limitU body (J.limitL body V).1).2.motor jc body _).2).impM = 0
      rw [k _ _ hm, (u _ _).1, (l _ _).1, h2]

theorem Meets.solveAll {body : Nat → JBody K} (jc : JCfg K) : ∀ (V : Nat → Vel K) {Js : List (Joint K)}, (∀ J ∈ Js, Meets body J) →
    ∀ J ∈ (solveAll jc body V Js).2, Meets body J
  | _, [], _ => by simp [Joints.solveAll]
  | V, J :: Js, h => by
    intro N hN
    simp only [Joints.solveAll] at hN
    rcases List.mem_cons.1 hN with rfl | hN
    · exact (h J List.mem_cons_self).solve jc V
    · exact Meets.solveAll jc _ (fun q hq => h q (List.mem_cons_of_mem _ hq)) N hN

theorem Meets.loop {body : Nat → JBody K} (cfg : Cfg K) (jc : JCfg K) : ∀ (n : Nat) (s : (Nat → Vel K) × List (Joint K) × List (Man K)),
    (∀ J ∈ s.2.1, Meets body J) → ∀ J ∈ (loop cfg jc body n s).2.1, Meets body J
  | 0, _, h => h
  | n + 1, s, h => Meets.loop cfg jc n _ (Meets.solveAll jc s.1 h)

/-- **C92 (angular momentum), partial.** Joints whose anchors meet at the beginning of the step, and sliders without motor, keep the angular momentum.
Missing: joints that have drifted apart (`angular_step` gives the defect) and sliders with motor (`slider_motor_turns`). -/
theorem angular_kept_partial (cfg : Cfg K) (jc : JCfg K) (body : Nat → JBody K) (V : Nat → Vel K) (Js : List (Joint K)) (n : Nat)
    (hw : jc.warm = true) (mass : Nat → K) (L : Nat → M3 K) (S : Finset Nat) (hf : FreeTurn body mass L S) (hj : ∀ J ∈ Js, J.b1 ∈ S ∧ J.b2 ∈ S)
    (hm : ∀ J ∈ Js, Meets body J) :
    angular S mass L (fun b => (body b).x) (solveStep cfg jc body V Js [] n).1 = angular S mass L (fun b => (body b).x) V := by
  have h : ∀ J ∈ (solveStep cfg jc body V Js [] n).2.1, Meets body J := by
    refine Meets.loop cfg jc n _ ?_
    intro J hJ
    simp only [List.mem_map] at hJ
    obtain ⟨N, hN, rfl⟩ := hJ
    exact (hm N hN).init jc
  rw [angular_step cfg jc body V Js n hw mass L S hf hj, List.sum_eq_zero, add_zero]
  intro x hx
  simp only [List.mem_map] at hx
  obtain ⟨J, hJ, rfl⟩ := hx
  have k := h J hJ
  have z : ∀ a : V3 K, V3.cross 0 a = 0 := fun a => by ext <;> simp [V3.cross]
  cases J with
  | ball J => have k : _ = _ := k; rw [defect, k, sub_self, z]
  | fixed J => have k : _ = _ := k; rw [defect, k, sub_self, z]
  | hinge J => have k : _ = _ := k; rw [defect, k, sub_self, z]
  | slider J => rw [defect, k.2, zero_smul', cross_zerov]

/-! ### Reactions -/

/-- **C95.** After a step with a joint alone the second body has received just the impulse that `getReactionForce` tells, and the first one the
opposite. -/
theorem reaction_force (cfg : Cfg K) (jc : JCfg K) (body : Nat → JBody K) (V : Nat → Vel K) (J : Joint K) (n : Nat) (hw : jc.warm = true)
    (mass : Nat → K) (hb : J.b1 ≠ J.b2) (hf : Free (fun b => (body b).toSBody) mass {J.b1, J.b2}) :
    ∃ N : Joint K, (solveStep cfg jc body V [J] [] n).2.1 = [N] ∧
      V3.smul (mass J.b2) ((solveStep cfg jc body V [J] [] n).1 J.b2).v = V3.smul (mass J.b2) (V J.b2).v + N.reactionForce ∧
      V3.smul (mass J.b1) ((solveStep cfg jc body V [J] [] n).1 J.b1).v = V3.smul (mass J.b1) (V J.b1).v - N.reactionForce := by
  have one : ∀ (m : Nat) (W : Nat → Vel K) (A : Joint K), A.b1 = J.b1 ∧ A.b2 = J.b2 →
      ∃ N, (loop cfg jc body m (W, [A], [])).2 = ([N], []) ∧ N.b1 = J.b1 ∧ N.b2 = J.b2 := by
    intro m
    induction m with
    | zero => intro W A hA; exact ⟨A, rfl, hA⟩
    | succ m ih =>
      intro W A hA
      have hs := (A.solve_ok jc body W).1.bodies
      exact ih (A.solve jc body W).1 (A.solve jc body W).2 ⟨hs.1.trans hA.1, hs.2.trans hA.2⟩
  obtain ⟨N, h1, h2, h3⟩ := one n (warmAll jc body [J.init jc body] V) (J.init jc body) (init_bodies jc body J)
  have e : (solveStep cfg jc body V [J] [] n).2 = ([N], []) := h1
  refine ⟨N, by rw [e], ?_, ?_⟩
  · rw [(step_accounting cfg jc body V [J] [] n J.b2 hw).1, e]
    simp only [linJ, linAll, add_zero]
    rw [smul_addv]
    congr 1
    obtain ⟨k1, k2⟩ := hf J.b2 (by simp)
    dsimp only at k1 k2
    unfold linK two
    dsimp only
    rw [h2, h3, if_neg hb, if_pos rfl, zero_add, k2, had_smul k1, (load_force N).1]
  · rw [(step_accounting cfg jc body V [J] [] n J.b1 hw).1, e]
    simp only [linJ, linAll, add_zero]
    rw [smul_addv, sub_eq_add_neg]
    congr 1
    obtain ⟨k1, k2⟩ := hf J.b1 (by simp)
    dsimp only at k1 k2
    unfold linK two
    dsimp only
    rw [h2, h3, if_neg (Ne.symm hb), if_pos rfl, add_zero, k2, had_smul k1, (load_force N).2]

/-- The anchor of the second body relative to its center of mass, in world space. -/
def lever (body : Nat → JBody K) : Joint K → V3 K
  | .ball J => arm (body J.b2) J.a2
  | .fixed J => arm (body J.b2) J.a2
  | .hinge J => arm (body J.b2) J.a2
  | .slider J => arm (body J.b2) J.a2

/-- The angular impulse on the second body in terms of force and torque at the anchor, but for the cone limit of the ball-and-socket joint and the
motor of the slider. -/
def untold : Joint K → V3 K
  | .ball J => -(V3.smul J.coneImp J.axb)
  | .fixed _ => 0
  | .hinge _ => 0
  | .slider J => V3.cross J.r2 (V3.smul J.impM J.ax)

def Lever (body : Nat → JBody K) : Joint K → Prop
  | .ball J => J.r2 = arm (body J.b2) J.a2
  | .fixed J => J.r2 = arm (body J.b2) J.a2
  | .hinge J => J.r2 = arm (body J.b2) J.a2
  | .slider J => J.r2 = arm (body J.b2) J.a2

theorem init_lever (jc : JCfg K) (body : Nat → JBody K) (J : Joint K) : Lever body (J.init jc body) := by
  cases J <;> exact rfl

theorem Lever.of_same {body : Nat → JBody K} {J N : Joint K} (h : Lever body J) (hs : J.Same N) : Lever body N := by
  cases J <;> cases N <;> first | exact hs.elim | skip
  · rename_i J N; have hs : N = _ := hs; rw [hs]; exact h
  · rename_i J N; have hs : N = _ := hs; rw [hs]; exact h
  · rename_i J N; have hs : N = _ := hs; rw [hs]; exact h
  · rename_i J N; have hs : N = _ := hs; rw [hs]; exact h

theorem load_torque {body : Nat → JBody K} {J : Joint K} (h : Placed body J) (hl : Lever body J) :
    J.load.A2 = V3.cross (lever body J) J.reactionForce + J.reactionTorque + untold J := by
  cases J with
  | ball J =>
    have hl : J.r2 = _ := hl
    simp only [Joint.load, Ball.load, lever, Joint.reactionForce, Joint.reactionTorque, untold, ← hl]
    ext <;> simp [V3.cross] <;> ring
  | fixed J =>
    have hl : J.r2 = _ := hl
    simp only [Joint.load, Fixed.load, lever, Joint.reactionForce, Joint.reactionTorque, untold, ← hl]
    ext <;> simp [V3.cross] <;> ring
  | hinge J =>
    have hl : J.r2 = _ := hl
    simp only [Joint.load, Hinge.load, lever, Joint.reactionForce, Joint.reactionTorque, untold, ← hl, Hinge.swing]
    ext <;> simp [V3.cross] <;> ring
  | slider J =>
    have hl : J.r2 = _ := hl
    obtain ⟨_, _, _, h4, h5, h6⟩ := h
    simp only [Joint.load, Slider.load, lever, Joint.reactionForce, Joint.reactionTorque, untold, ← hl, h4, h5, h6]
    ext <;> simp [V3.cross] <;> ring

/-- **C95 (torque).** The angular impulse on the second body is that of reaction force and torque at its anchor, but for what `untold` says. -/
theorem reaction_torque (cfg : Cfg K) (jc : JCfg K) (body : Nat → JBody K) (V : Nat → Vel K) (J : Joint K) (n : Nat) (hw : jc.warm = true)
    (mass : Nat → K) (L : Nat → M3 K) (hb : J.b1 ≠ J.b2) (hf : FreeTurn body mass L {J.b1, J.b2}) :
    ∃ N : Joint K, (solveStep cfg jc body V [J] [] n).2.1 = [N] ∧
      (L J.b2).act ((solveStep cfg jc body V [J] [] n).1 J.b2).w =
        (L J.b2).act (V J.b2).w + (V3.cross (lever body N) N.reactionForce + N.reactionTorque + untold N) := by
  obtain ⟨h1, h2⟩ := step_same cfg jc body V [J] [] n (P := fun A => (A.b1 = J.b1 ∧ A.b2 = J.b2) ∧ Placed body A ∧ Lever body A) (Q := fun _ => False)
    (fun M N h hs => ⟨by rw [hs.bodies.1, hs.bodies.2]; exact h.1, h.2.1.of_same hs, h.2.2.of_same hs⟩) (fun _ _ h _ => h)
    (fun A hA => by
      rw [List.mem_singleton] at hA
      subst hA
      exact ⟨init_bodies jc body A, init_placed jc body A, init_lever jc body A⟩) (fun X hX => by cases hX)
  have h0 : (solveStep cfg jc body V [J] [] n).2.2 = [] := List.eq_nil_iff_forall_not_mem.2 fun M hM => h2 M hM
  have one : ∀ (m : Nat) (W : Nat → Vel K) (A : Joint K), ∃ N, (loop cfg jc body m (W, [A], [])).2.1 = [N] := by
    intro m
    induction m with
    | zero => intro W A; exact ⟨A, rfl⟩
    | succ m ih => intro W A; exact ih (A.solve jc body W).1 (A.solve jc body W).2
  obtain ⟨N, hN⟩ : ∃ N, (solveStep cfg jc body V [J] [] n).2.1 = [N] := one n _ _
  obtain ⟨⟨e1, e2⟩, hp, hl⟩ := h1 N (by rw [hN]; exact List.mem_singleton.2 rfl)
  refine ⟨N, hN, ?_⟩
  rw [(step_accounting cfg jc body V [J] [] n J.b2 hw).2, h0, hN]
  simp only [List.map_nil, warmStart, angJ, angAll, twistAll, add_zero]
  rw [act_addv, ← load_torque hp hl]
  congr 1
  obtain ⟨_, _, k3, k4⟩ := hf J.b2 (by simp)
  unfold angK two
  dsimp only
  rw [e1, e2, if_neg hb, if_pos rfl, zero_add, k4, had_ones, k3]

end JointProps
end RP3D
