import Verif.Props.JointImpulses
import Verif.Props.Bounce

/-! C142: contacts and the angular momentum. -/

set_option linter.unusedSectionVars false

namespace RP3D
namespace ContactTurn
open Solver Joints SolverProps JointProps
variable {K : Type} [Field K] [LinearOrder K] [IsStrictOrderedRing K]

/-! ### Specification -/

/-- From where the contact point is on the first body to where it is on the second. -/
def gapAt (body : Nat → JBody K) (M : Man K) (r1 r2 : V3 K) : V3 K := (body M.b2).x + r2 - ((body M.b1).x + r1)

/-- The moment by which the normal impulses of a manifold disturb the angular momentum: impulses whose two ends are apart. -/
def pushDefect (body : Nat → JBody K) (M : Man K) : List (CPoint K) → V3 K
  | [] => 0
  | p :: ps => V3.cross (gapAt body M p.r1 p.r2) (V3.smul p.imp p.normal) + pushDefect body M ps

/-- The same for friction, which acts at the mean of the contact points. -/
def rubDefect (body : Nat → JBody K) (M : Man K) : V3 K := V3.cross (gapAt body M M.r1 M.r2) (V3.smul M.f1 M.t1 + V3.smul M.f2 M.t2)

def contactDefect (body : Nat → JBody K) (M : Man K) : V3 K := pushDefect body M M.pts + rubDefect body M

/-- The two points of each contact lie on a line along its normal. -/
def Aligned (X : XMan K) : Prop := ∀ x ∈ X.pts, V3.cross (x.p2 - x.p1) x.normal = 0

/-- The bodies touch without overlap. -/
def Touching (X : XMan K) : Prop := ∀ x ∈ X.pts, x.p1 = x.p2

/-- No friction, and none from the step before. -/
def Smooth (X : XMan K) : Prop := X.mu = 0 ∧ X.f1 = 0 ∧ X.f2 = 0

/-! ### Moments of a manifold -/

/-- The moment about the origin of the impulses `P` with the moments `A`, `B` about the two centers. -/
def turnOf (body : Nat → JBody K) (M : Man K) (P A B : V3 K) : V3 K := V3.cross (body M.b2).x P + B - (V3.cross (body M.b1).x P + A)

theorem cross_subv (a b c : V3 K) : V3.cross a (b - c) = V3.cross a b - V3.cross a c := by ext <;> simp [V3.cross] <;> ring
theorem act_subv (M : M3 K) (a b : V3 K) : M.act (a - b) = M.act a - M.act b := by unfold M3.act; ext <;> simp <;> ring

theorem turn_one {body : Nat → JBody K} {mass : Nat → K} {L : Nat → M3 K} {S : Finset Nat} (hf : FreeTurn body mass L S) {M : Man K} (hm : Fits (fun b => (body b).toSBody) M)
    {b : Nat} (hb : b ∈ S) (P A B : V3 K) :
    V3.cross (body b).x (V3.smul (mass b) (linOf M b P)) + (L b).act (angOf M b A B) =
      (if M.b2 = b then V3.cross (body M.b2).x P + B else 0) - (if M.b1 = b then V3.cross (body M.b1).x P + A else 0) := by
  obtain ⟨k1, k2, k3, k4⟩ := hf b hb
  obtain ⟨f1, f2, f3, f4, f5, f6, f7, f8⟩ := hm
  have o2 : M.b2 = b → V3.smul (mass b) (V3.had (V3.smul M.m2 P) M.ll2) = P ∧ (L b).act (V3.had M.la2 (M.I2.act B)) = B := fun h => by
    dsimp only at f2 f4 f6 f8
    rw [f2, f4, f6, f8, h, k2, k4, smul_had k1, JointProps.had_ones, k3]
    exact ⟨rfl, rfl⟩
  have o1 : M.b1 = b → V3.smul (mass b) (V3.had (V3.smul M.m1 P) M.ll1) = P ∧ (L b).act (V3.had M.la1 (M.I1.act A)) = A := fun h => by
    dsimp only at f1 f3 f5 f7
    rw [f1, f3, f5, f7, h, k2, k4, smul_had k1, JointProps.had_ones, k3]
    exact ⟨rfl, rfl⟩
  unfold linOf angOf
  rw [smul_subv, cross_subv, act_subv]
  by_cases h1 : M.b1 = b <;> by_cases h2 : M.b2 = b
  · rw [if_pos h1, if_pos h2, if_pos h1, if_pos h2, if_pos h1, if_pos h2, (o1 h1).1, (o1 h1).2, (o2 h2).1, (o2 h2).2, h1, h2]
    abel
  · rw [if_pos h1, if_neg h2, if_pos h1, if_neg h2, if_pos h1, if_neg h2, (o1 h1).1, (o1 h1).2, h1, smul_zerov, cross_zerov, act_zerov]
    abel
  · rw [if_neg h1, if_pos h2, if_neg h1, if_pos h2, if_neg h1, if_pos h2, (o2 h2).1, (o2 h2).2, h2, smul_zerov, cross_zerov, act_zerov]
    abel
  · rw [if_neg h1, if_neg h2, if_neg h1, if_neg h2, if_neg h1, if_neg h2, smul_zerov, cross_zerov, act_zerov]
    abel

theorem turn_sum {body : Nat → JBody K} {mass : Nat → K} {L : Nat → M3 K} {S : Finset Nat} (hf : FreeTurn body mass L S) {M : Man K} (hm : Fits (fun b => (body b).toSBody) M)
    (hb : M.b1 ∈ S ∧ M.b2 ∈ S) (P A B : V3 K) :
    ∑ b ∈ S, (V3.cross (body b).x (V3.smul (mass b) (linOf M b P)) + (L b).act (angOf M b A B)) = turnOf body M P A B := by
  rw [Finset.sum_congr rfl fun b h => turn_one hf hm h P A B, Finset.sum_sub_distrib, Finset.sum_ite_eq, Finset.sum_ite_eq, if_pos hb.1, if_pos hb.2, turnOf]

theorem turn_all {body : Nat → JBody K} {mass : Nat → K} {L : Nat → M3 K} {S : Finset Nat} (hf : FreeTurn body mass L S) : ∀ Ms : List (Man K),
    (∀ M ∈ Ms, Fits (fun b => (body b).toSBody) M ∧ M.b1 ∈ S ∧ M.b2 ∈ S) →
    ∑ b ∈ S, (V3.cross (body b).x (V3.smul (mass b) (linAll b Ms)) + (L b).act (angAll b Ms)) = (Ms.map fun M => turnOf body M (impulse M) (moment1 M) (moment2 M)).sum
  | [], _ => Finset.sum_eq_zero fun b _ => by simp only [linAll, angAll]; rw [smul_zerov, cross_zerov, act_zerov, add_zero]
  | M :: Ms, h => by
    obtain ⟨h1, h2⟩ := h M List.mem_cons_self
    rw [List.map_cons, List.sum_cons, ← turn_sum hf h1 h2, ← turn_all hf Ms fun q hq => h q (List.mem_cons_of_mem _ hq), ← Finset.sum_add_distrib]
    refine Finset.sum_congr rfl fun b _ => ?_
    simp only [linAll, angAll, linEff, angEff, smul_addv, cross_addv, act_addv]
    abel

/-- Equal and opposite torques. -/
theorem turn_twists {body : Nat → JBody K} {mass : Nat → K} {L : Nat → M3 K} {S : Finset Nat} (hf : FreeTurn body mass L S) : ∀ Ms : List (Man K),
    (∀ M ∈ Ms, Fits (fun b => (body b).toSBody) M ∧ M.b1 ∈ S ∧ M.b2 ∈ S) → ∑ b ∈ S, (L b).act (twistAll b Ms) = 0
  | [], _ => Finset.sum_eq_zero fun b _ => by simp only [twistAll]; rw [act_zerov]
  | M :: Ms, h => by
    obtain ⟨h1, h2⟩ := h M List.mem_cons_self
    have e := turn_sum hf h1 h2 0 (V3.smul M.tw M.normal) (V3.smul M.tw M.normal)
    rw [show turnOf body M 0 (V3.smul M.tw M.normal) (V3.smul M.tw M.normal) = 0 by unfold turnOf; rw [cross_zerov, cross_zerov]; abel] at e
    rw [Finset.sum_congr rfl fun b _ => by rw [linOf_zero, smul_zerov, cross_zerov, zero_add]] at e
    simp only [twistAll, act_addv]
    rw [Finset.sum_add_distrib, e, turn_twists hf Ms fun q hq => h q (List.mem_cons_of_mem _ hq), add_zero]

/-! ### The geometry of a manifold -/

/-- What of a manifold belongs to the contacts `X`. -/
structure Sits (body : Nat → JBody K) (X : XMan K) (M : Man K) : Prop where
  fits : Fits (fun b => (body b).toSBody) M
  b1 : M.b1 = X.b1
  b2 : M.b2 = X.b2
  mu : M.mu = X.mu
  c11 : M.c11 = V3.cross M.r1 M.t1
  c12 : M.c12 = V3.cross M.r1 M.t2
  c21 : M.c21 = V3.cross M.r2 M.t1
  c22 : M.c22 = V3.cross M.r2 M.t2
  gap : gapAt body M M.r1 M.r2 = V3.smul (1 / (X.pts.length : K)) (sum3 (X.pts.map XPoint.p2)) - V3.smul (1 / (X.pts.length : K)) (sum3 (X.pts.map XPoint.p1))
  pts : List.Forall₂ (fun x p => p.normal = x.normal ∧ p.r1 = x.p1 - (body X.b1).x ∧ p.r2 = x.p2 - (body X.b2).x) X.pts M.pts

theorem Sits.of_same {body : Nat → JBody K} {X : XMan K} {M N : Man K} (h : Sits body X M) (hs : MSame M N) : Sits body X N := by
  have k : List.Forall₂ (fun (x : XPoint K) p => p.normal = x.normal ∧ p.r1 = x.p1 - (body X.b1).x ∧ p.r2 = x.p2 - (body X.b2).x) X.pts N.pts := by
    have hp := hs.pts
    have a := h.pts
    clear hs h
    generalize (body X.b1).x = y1 at *
    generalize (body X.b2).x = y2 at *
    generalize M.pts = ps at a hp
    generalize N.pts = qs at hp
    generalize X.pts = xs at a
    induction hp generalizing xs with
    | nil => exact a
    | @cons p q ps qs hab _ ih =>
      cases a with
      | cons ha a =>
        refine .cons ?_ (ih _ a)
        unfold PSame at hab
        rw [hab]
        exact ha
  obtain ⟨h1, h2, h3, h4, h5, h6, h7, h8, h9, _⟩ := h
  have e := hs.eq
  refine ⟨h1.of_same hs, ?_, ?_, ?_, ?_, ?_, ?_, ?_, ?_, k⟩ <;> rw [e] <;> assumption

theorem init_sits (cfg : Cfg K) (sqrt : K → K) (body : Nat → JBody K) (X : XMan K) : Sits body X (initMan cfg sqrt (fun b => (body b).toSBody) X) := by
  refine ⟨initMan_fits _ _ _ _, rfl, rfl, rfl, rfl, rfl, rfl, rfl, ?_, ?_⟩
  · unfold gapAt initMan
    dsimp only
    abel
  · show List.Forall₂ _ X.pts (X.pts.map _)
    generalize X.pts = xs
    induction xs with
    | nil => exact .nil
    | cons x xs ih => exact .cons ⟨rfl, rfl, rfl⟩ ih

theorem turn_points (body : Nat → JBody K) (M : Man K) : ∀ ps : List (CPoint K),
    V3.cross (body M.b2).x (impSum ps) + momSum CPoint.r2 ps - (V3.cross (body M.b1).x (impSum ps) + momSum CPoint.r1 ps) = pushDefect body M ps
  | [] => by simp only [impSum, momSum, pushDefect, cross_zerov]; abel
  | p :: ps => by
    rw [pushDefect, ← turn_points body M ps]
    simp only [impSum, momSum, cross_addv, gapAt]
    generalize V3.cross (body M.b2).x (impSum ps) = u
    generalize V3.cross (body M.b1).x (impSum ps) = v
    generalize momSum CPoint.r2 ps = y
    generalize momSum CPoint.r1 ps = z
    ext <;> simp [V3.cross] <;> ring

theorem turn_defect {body : Nat → JBody K} {X : XMan K} {M : Man K} (h : Sits body X M) : turnOf body M (impulse M) (moment1 M) (moment2 M) = contactDefect body M := by
  unfold contactDefect turnOf
  rw [← turn_points]
  unfold impulse moment1 moment2 rubDefect gapAt
  rw [h.c11, h.c12, h.c21, h.c22, cross_addv, cross_addv, cross_addv, cross_addv]
  generalize V3.cross (body M.b2).x (impSum M.pts) = u
  generalize V3.cross (body M.b1).x (impSum M.pts) = v
  generalize momSum CPoint.r2 M.pts = y
  generalize momSum CPoint.r1 M.pts = z
  ext <;> simp [V3.cross] <;> ring

/-! ### Steps -/

/-- **C142.** Joints and contacts among the bodies of a set change its angular momentum in a step by their defects, and by nothing else: however many iterations there are and whatever impulses
were stored before. -/
theorem angular_change (cfg : Cfg K) (jc : JCfg K) (body : Nat → JBody K) (V : Nat → Vel K) (Js : List (Joint K)) (Xs : List (XMan K)) (n : Nat)
    (hw : jc.warm = true) (mass : Nat → K) (L : Nat → M3 K) (S : Finset Nat) (hf : FreeTurn body mass L S) (hj : ∀ J ∈ Js, J.b1 ∈ S ∧ J.b2 ∈ S) (hx : ∀ X ∈ Xs, X.b1 ∈ S ∧ X.b2 ∈ S) :
    angular S mass L (fun b => (body b).x) (solveStep cfg jc body V Js Xs n).1 =
      angular S mass L (fun b => (body b).x) V + ((solveStep cfg jc body V Js Xs n).2.1.map (defect body)).sum + ((solveStep cfg jc body V Js Xs n).2.2.map (contactDefect body)).sum := by
  obtain ⟨h1, h2⟩ := step_same cfg jc body V Js Xs n (P := fun J => (J.b1 ∈ S ∧ J.b2 ∈ S) ∧ Placed body J) (Q := fun M => ∃ X ∈ Xs, Sits body X M)
    (fun M N h hs => ⟨by rw [hs.bodies.1, hs.bodies.2]; exact h.1, h.2.of_same hs⟩) (fun M N h hs => h.imp fun X hX => ⟨hX.1, hX.2.of_same hs⟩)
    (fun J hJ => ⟨by rw [(init_bodies jc body J).1, (init_bodies jc body J).2]; exact hj J hJ, init_placed jc body J⟩) (fun X hX => ⟨X, hX, init_sits cfg jc.sqrt body X⟩)
  have fit : ∀ M, (∃ X ∈ Xs, Sits body X M) → Fits (fun b => (body b).toSBody) M ∧ M.b1 ∈ S ∧ M.b2 ∈ S := fun M ⟨X, hX, k⟩ => ⟨k.fits, by rw [k.b1, k.b2]; exact hx X hX⟩
  have h3 : ∀ M ∈ (warmStart V (Xs.map (initMan cfg jc.sqrt fun b => (body b).toSBody))).2, ∃ X ∈ Xs, Sits body X M := by
    obtain ⟨k, _⟩ := warmStart_ok V (Xs.map (initMan cfg jc.sqrt fun b => (body b).toSBody)) (init_good cfg jc.sqrt _ Xs)
    refine forall_same (P := fun M => ∃ X ∈ Xs, Sits body X M) (fun M N h hs => h.imp fun X hX => ⟨hX.1, hX.2.of_same hs⟩) k fun M hM => ?_
    simp only [List.mem_map] at hM
    obtain ⟨X, hX, rfl⟩ := hM
    exact ⟨X, hX, init_sits cfg jc.sqrt body X⟩
  have tw := turn_twists hf _ fun M hM => fit M (h3 M hM)
  rw [← List.map_congr_left fun J hJ => moment_eq (h1 J hJ).2, ← List.map_congr_left (fun M hM => turn_defect (h2 M hM).choose_spec.2), ← sum_moments hf _ fun J hJ => (h1 J hJ).1,
    ← turn_all hf _ fun M hM => fit M (h2 M hM)]
  rw [← add_zero (∑ b ∈ S, (V3.cross (body b).x (V3.smul (mass b) (linAll b _)) + _)), ← tw]
  unfold angular
  rw [← Finset.sum_add_distrib, ← Finset.sum_add_distrib, ← Finset.sum_add_distrib]
  refine Finset.sum_congr rfl fun b _ => ?_
  obtain ⟨e1, e2⟩ := step_accounting cfg jc body V Js Xs n b hw
  rw [e1, e2]
  simp only [smul_addv, cross_addv, act_addv]
  abel

/-! ### Defects -/

theorem cross_zero' (a : V3 K) : V3.cross 0 a = 0 := by ext <;> simp [V3.cross]

/-- Normal impulses of contacts whose two points lie along the normal have no defect. -/
theorem push_aligned {body : Nat → JBody K} {X : XMan K} {M : Man K} (h : Sits body X M) (ha : Aligned X) : pushDefect body M M.pts = 0 := by
  have e1 := h.b1
  have e2 := h.b2
  have a := h.pts
  unfold Aligned at ha
  clear h
  generalize X.pts = xs at a ha
  generalize M.pts = ps at a
  induction a with
  | nil => rfl
  | @cons x p xs ps hp _ ih =>
    rw [pushDefect, ih fun y hy => ha y (List.mem_cons_of_mem _ hy), add_zero]
    have k := ha x List.mem_cons_self
    unfold gapAt
    rw [hp.1, hp.2.1, hp.2.2, e1, e2]
    have : (body X.b2).x + (x.p2 - (body X.b2).x) - ((body X.b1).x + (x.p1 - (body X.b1).x)) = x.p2 - x.p1 := by abel
    rw [this]
    have s : V3.cross (x.p2 - x.p1) (V3.smul p.imp x.normal) = V3.smul p.imp (V3.cross (x.p2 - x.p1) x.normal) := by ext <;> simp [V3.cross] <;> ring
    rw [s, k, smul_zerov]

/-- Bodies that touch without overlap have no defect at all. -/
theorem touching_defect {body : Nat → JBody K} {X : XMan K} {M : Man K} (h : Sits body X M) (ht : Touching X) : contactDefect body M = 0 := by
  have ha : Aligned X := fun x hx => by rw [ht x hx, sub_self, cross_zero']
  have e : X.pts.map XPoint.p1 = X.pts.map XPoint.p2 := List.map_congr_left ht
  unfold contactDefect rubDefect
  rw [push_aligned h ha, h.gap, e, sub_self, cross_zero', add_zero]

/-- Manifolds without friction never get a friction impulse. -/
def Quiet (M : Man K) : Prop := M.mu = 0 ∧ M.f1 = 0 ∧ M.f2 = 0

theorem solveMan_quiet (cfg : Cfg K) (V : Nat → Vel K) {M : Man K} (h : Quiet M) : Quiet (solveMan cfg V M).2 := by
  refine ⟨h.1, ?_, ?_⟩ <;>
  · show clamp (M.mu * _) _ = 0
    rw [h.1, zero_mul, clamp_zero]

theorem warmMan_quiet (V : Nat → Vel K) {M : Man K} (h : Quiet M) : Quiet (warmMan V M).2 := by
  unfold warmMan
  dsimp only
  split_ifs
  · refine ⟨h.1, ?_, ?_⟩ <;>
    · dsimp only
      rw [h.2.1, h.2.2, zero_smul', zero_smul']
      simp [V3.dot]
  · exact ⟨h.1, rfl, rfl⟩

/-- What holds of a manifold in a step: it belongs to contacts of the step and has no friction impulse if these have none. -/
def Held (body : Nat → JBody K) (Xs : List (XMan K)) (M : Man K) : Prop := GoodM M ∧ ∃ X ∈ Xs, Sits body X M ∧ (Smooth X → Quiet M)

theorem solveMan_held (cfg : Cfg K) {body : Nat → JBody K} {Xs : List (XMan K)} (V : Nat → Vel K) {M : Man K} (h : Held body Xs M) : Held body Xs (solveMan cfg V M).2 := by
  obtain ⟨hg, X, hX, hs, hq⟩ := h
  have k := (solveMan_ok cfg V M hg).1
  exact ⟨hg.of_same k, X, hX, hs.of_same k, fun q => solveMan_quiet cfg V (hq q)⟩

theorem warmMan_held {body : Nat → JBody K} {Xs : List (XMan K)} (V : Nat → Vel K) {M : Man K} (h : Held body Xs M) : Held body Xs (warmMan V M).2 := by
  obtain ⟨hg, X, hX, hs, hq⟩ := h
  have k := (warmMan_ok V M hg).1
  exact ⟨hg.of_same k, X, hX, hs.of_same k, fun q => warmMan_quiet V (hq q)⟩

theorem solve_held (cfg : Cfg K) {body : Nat → JBody K} {Xs : List (XMan K)} : ∀ (V : Nat → Vel K) {Ms : List (Man K)}, (∀ M ∈ Ms, Held body Xs M) → ∀ M ∈ (solve cfg V Ms).2, Held body Xs M
  | _, [], _ => fun M hM => by cases hM
  | V, M :: Ms, h => by
    intro N hN
    simp only [solve] at hN
    rcases List.mem_cons.1 hN with rfl | hN
    · exact solveMan_held cfg V (h M List.mem_cons_self)
    · exact solve_held cfg _ (fun q hq => h q (List.mem_cons_of_mem _ hq)) N hN

theorem warm_held {body : Nat → JBody K} {Xs : List (XMan K)} : ∀ (V : Nat → Vel K) {Ms : List (Man K)}, (∀ M ∈ Ms, Held body Xs M) → ∀ M ∈ (warmStart V Ms).2, Held body Xs M
  | _, [], _ => fun M hM => by cases hM
  | V, M :: Ms, h => by
    intro N hN
    simp only [warmStart] at hN
    rcases List.mem_cons.1 hN with rfl | hN
    · exact warmMan_held V (h M List.mem_cons_self)
    · exact warm_held _ (fun q hq => h q (List.mem_cons_of_mem _ hq)) N hN

theorem loop_held (cfg : Cfg K) (jc : JCfg K) {body : Nat → JBody K} {Xs : List (XMan K)} : ∀ (n : Nat) (s : (Nat → Vel K) × List (Joint K) × List (Man K)),
    (∀ M ∈ s.2.2, Held body Xs M) → ∀ M ∈ (loop cfg jc body n s).2.2, Held body Xs M
  | 0, _, h => h
  | n + 1, s, h => loop_held cfg jc n _ (solve_held cfg _ h)

theorem step_held (cfg : Cfg K) (jc : JCfg K) (body : Nat → JBody K) (V : Nat → Vel K) (Js : List (Joint K)) (Xs : List (XMan K)) (n : Nat) :
    ∀ M ∈ (solveStep cfg jc body V Js Xs n).2.2, Held body Xs M := by
  refine loop_held cfg jc n _ (warm_held V fun M hM => ?_)
  have g := init_good cfg jc.sqrt (fun b => (body b).toSBody) Xs M hM
  simp only [List.mem_map] at hM
  obtain ⟨X, hX, rfl⟩ := hM
  exact ⟨g, X, hX, init_sits cfg jc.sqrt body X, id⟩

/-- **C142, partial.** Contacts of bodies that touch without overlap, and contacts without friction of bodies that overlap along the normals, keep the angular momentum of their bodies, together
with joints whose anchors meet and sliders without motor. Missing: friction between bodies that overlap (`angular_change` gives the defect, `friction_turns` is a witness). -/
theorem contacts_keep_partial (cfg : Cfg K) (jc : JCfg K) (body : Nat → JBody K) (V : Nat → Vel K) (Js : List (Joint K)) (Xs : List (XMan K)) (n : Nat)
    (hw : jc.warm = true) (mass : Nat → K) (L : Nat → M3 K) (S : Finset Nat) (hf : FreeTurn body mass L S) (hj : ∀ J ∈ Js, (J.b1 ∈ S ∧ J.b2 ∈ S) ∧ Meets body J)
    (hx : ∀ X ∈ Xs, (X.b1 ∈ S ∧ X.b2 ∈ S) ∧ (Touching X ∨ Aligned X ∧ Smooth X)) :
    angular S mass L (fun b => (body b).x) (solveStep cfg jc body V Js Xs n).1 = angular S mass L (fun b => (body b).x) V := by
  have z1 : ((solveStep cfg jc body V Js Xs n).2.1.map (defect body)).sum = 0 := by
    have h : ∀ J ∈ (solveStep cfg jc body V Js Xs n).2.1, Meets body J := by
      refine Meets.loop cfg jc n _ ?_
      intro J hJ
      simp only [List.mem_map] at hJ
      obtain ⟨N, hN, rfl⟩ := hJ
      exact (hj N hN).2.init jc
    refine List.sum_eq_zero fun x hx => ?_
    simp only [List.mem_map] at hx
    obtain ⟨J, hJ, rfl⟩ := hx
    have k := h J hJ
    cases J with
    | ball J => have k : _ = _ := k; rw [defect, k, sub_self, cross_zero']
    | fixed J => have k : _ = _ := k; rw [defect, k, sub_self, cross_zero']
    | hinge J => have k : _ = _ := k; rw [defect, k, sub_self, cross_zero']
    | slider J => rw [defect, k.2, zero_smul', cross_zerov]
  have z2 : ((solveStep cfg jc body V Js Xs n).2.2.map (contactDefect body)).sum = 0 := by
    refine List.sum_eq_zero fun x h => ?_
    simp only [List.mem_map] at h
    obtain ⟨M, hM, rfl⟩ := h
    obtain ⟨_, X, hX, hs, hq⟩ := step_held cfg jc body V Js Xs n M hM
    rcases (hx X hX).2 with ht | ⟨ha, hm⟩
    · exact touching_defect hs ht
    · unfold contactDefect rubDefect
      rw [push_aligned hs ha, (hq hm).2.1, (hq hm).2.2, zero_smul', zero_smul', add_zero, cross_zerov, add_zero]
  rw [angular_change cfg jc body V Js Xs n hw mass L S hf (fun J hJ => (hj J hJ).1) (fun X hX => (hx X hX).1), z1, z2, add_zero, add_zero]

/-- **C142 (size of the error).** Contacts whose points overlap along their normals change the angular momentum just by the friction: by its impulse at the first body times the way to where it
acts on the second. -/
theorem friction_defect (cfg : Cfg K) (jc : JCfg K) (body : Nat → JBody K) (V : Nat → Vel K) (Js : List (Joint K)) (Xs : List (XMan K)) (n : Nat) (ha : ∀ X ∈ Xs, Aligned X) :
    ∀ M ∈ (solveStep cfg jc body V Js Xs n).2.2, contactDefect body M = V3.cross (gapAt body M M.r1 M.r2) (V3.smul M.f1 M.t1 + V3.smul M.f2 M.t2) := by
  intro M hM
  obtain ⟨_, X, hX, hs, _⟩ := step_held cfg jc body V Js Xs n M hM
  unfold contactDefect
  rw [push_aligned hs (ha X hX), zero_add, rubDefect]

end ContactTurn
end RP3D
