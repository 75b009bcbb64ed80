import Verif.Solver.Lemmas

/-! Lemmas for whole runs of the contact solver. -/

set_option linter.unusedSectionVars false

namespace RP3D
namespace Solver
variable {K : Type} [Field K]

/-- Sum of the normal impulses of a list of points, and of their moments. -/
def impSum : List (CPoint K) → V3 K
  | [] => 0
  | p :: ps => V3.smul p.imp p.normal + impSum ps
def momSum (r : CPoint K → V3 K) : List (CPoint K) → V3 K
  | [] => 0
  | p :: ps => V3.smul p.imp (V3.cross (r p) p.normal) + momSum r ps

/-- The linear impulse accumulated in a manifold. -/
def impulse (M : Man K) : V3 K := impSum M.pts + V3.smul M.f1 M.t1 + V3.smul M.f2 M.t2

/-- The angular impulses accumulated in a manifold, about the centers of the two bodies. -/
def moment1 (M : Man K) : V3 K := momSum CPoint.r1 M.pts + V3.smul M.f1 M.c11 + V3.smul M.f2 M.c12 + V3.smul M.tw M.normal
def moment2 (M : Man K) : V3 K := momSum CPoint.r2 M.pts + V3.smul M.f1 M.c21 + V3.smul M.f2 M.c22 + V3.smul M.tw M.normal

/-- What the accumulated impulses of a manifold do to the velocities of body `b`. -/
def linEff (M : Man K) (b : Nat) : V3 K := linOf M b (impulse M)
def angEff (M : Man K) (b : Nat) : V3 K := angOf M b (moment1 M) (moment2 M)

def linAll (b : Nat) : List (Man K) → V3 K
  | [] => 0
  | M :: Ms => linEff M b + linAll b Ms
def angAll (b : Nat) : List (Man K) → V3 K
  | [] => 0
  | M :: Ms => angEff M b + angAll b Ms
/-- The twist impulses alone. -/
def twistAll (b : Nat) : List (Man K) → V3 K
  | [] => 0
  | M :: Ms => angOf M b (V3.smul M.tw M.normal) (V3.smul M.tw M.normal) + twistAll b Ms

/-- Same point but for the impulses. -/
def PSame (p q : CPoint K) : Prop := q = { p with imp := q.imp, split := q.split }
/-- Same manifold but for the impulses. -/
structure MSame (M N : Man K) : Prop where
  eq : N = { M with f1 := N.f1, f2 := N.f2, tw := N.tw, pts := N.pts }
  pts : List.Forall₂ PSame M.pts N.pts

def GoodM (M : Man K) : Prop := ∀ p ∈ M.pts, Good M p

theorem Good.of_same {M : Man K} {p q : CPoint K} (h : Good M p) (hs : PSame p q) : Good M q := by
  unfold PSame at hs
  rw [hs]
  exact h

theorem GoodM.of_same {M N : Man K} (h : GoodM M) (hs : MSame M N) : GoodM N := by
  intro q hq
  have : ∃ p ∈ M.pts, PSame p q := by
    have hp := hs.pts
    clear hs h
    generalize M.pts = ps at hp ⊢
    generalize N.pts = qs at hp hq
    induction hp with
    | nil => cases hq
    | cons hab _ ih =>
      rcases List.mem_cons.1 hq with rfl | hq
      · exact ⟨_, List.mem_cons_self, hab⟩
      · obtain ⟨p, hp, h⟩ := ih hq
        exact ⟨p, List.mem_cons_of_mem _ hp, h⟩
  obtain ⟨p, hp, hpq⟩ := this
  have hg := (h p hp).of_same hpq
  unfold Good at hg ⊢
  rw [hs.eq]
  exact hg

variable [LinearOrder K]

/-! ### Points -/

theorem solvePoint_ok (cfg : Cfg K) (M : Man K) (V : Nat → Vel K) (p : CPoint K) (hg : Good M p) :
    PSame p (solvePoint cfg M V p).2 ∧ ∀ b, ((solvePoint cfg M V p).1 b).v = (V b).v + linOf M b (V3.smul ((solvePoint cfg M V p).2.imp - p.imp) p.normal) ∧
      ((solvePoint cfg M V p).1 b).w = (V b).w + angOf M b (V3.smul ((solvePoint cfg M V p).2.imp - p.imp) (V3.cross p.r1 p.normal))
        (V3.smul ((solvePoint cfg M V p).2.imp - p.imp) (V3.cross p.r2 p.normal)) := by
  unfold solvePoint
  dsimp only
  by_cases hs : cfg.split = true
  · simp only [hs, if_true]
    refine ⟨rfl, fun b => ?_⟩
    rw [(pushSplit_same _ _ _ _ b).1, (pushSplit_same _ _ _ _ b).2]
    exact ⟨push_v _ _ _ _ _, push_w _ _ hg _ _ _⟩
  · simp only [hs, if_false, Bool.false_eq_true]
    exact ⟨rfl, fun b => ⟨push_v _ _ _ _ _, push_w _ _ hg _ _ _⟩⟩

theorem solvePoints_ok (cfg : Cfg K) (M : Man K) : ∀ (V : Nat → Vel K) (ps : List (CPoint K)), (∀ p ∈ ps, Good M p) →
    List.Forall₂ PSame ps (solvePoints cfg M V ps).2 ∧ ∀ b,
      ((solvePoints cfg M V ps).1 b).v = (V b).v + linOf M b (impSum (solvePoints cfg M V ps).2 - impSum ps) ∧
      ((solvePoints cfg M V ps).1 b).w = (V b).w + angOf M b (momSum CPoint.r1 (solvePoints cfg M V ps).2 - momSum CPoint.r1 ps)
        (momSum CPoint.r2 (solvePoints cfg M V ps).2 - momSum CPoint.r2 ps)
  | V, [], _ => by
    refine ⟨List.Forall₂.nil, fun b => ?_⟩
    simp only [solvePoints, impSum, momSum, sub_self, linOf_zero, angOf_zero, add_zero, and_self]
  | V, p :: ps, h => by
    obtain ⟨h1, h2⟩ := solvePoint_ok cfg M V p (h p List.mem_cons_self)
    obtain ⟨k1, k2⟩ := solvePoints_ok cfg M (solvePoint cfg M V p).1 ps fun q hq => h q (List.mem_cons_of_mem _ hq)
    refine ⟨List.Forall₂.cons h1 k1, fun b => ?_⟩
    have en : (solvePoint cfg M V p).2.normal = p.normal := by rw [h1]
    have e1 : (solvePoint cfg M V p).2.r1 = p.r1 := by rw [h1]
    have e2 : (solvePoint cfg M V p).2.r2 = p.r2 := by rw [h1]
    simp only [solvePoints, impSum, momSum]
    rw [(k2 b).1, (k2 b).2, (h2 b).1, (h2 b).2, en, e1, e2, add_assoc, add_assoc, ← linOf_add, ← angOf_add]
    simp only [smul_sub']
    refine ⟨?_, ?_⟩
    · congr 2; abel
    · congr 2 <;> abel

theorem warmPoint_ok (M : Man K) (V : Nat → Vel K) (p : CPoint K) (hg : Good M p) :
    PSame p (warmPoint M V p).2 ∧ ∀ b, ((warmPoint M V p).1 b).v = (V b).v + linOf M b (V3.smul (warmPoint M V p).2.imp p.normal) ∧
      ((warmPoint M V p).1 b).w = (V b).w + angOf M b (V3.smul (warmPoint M V p).2.imp (V3.cross p.r1 p.normal))
        (V3.smul (warmPoint M V p).2.imp (V3.cross p.r2 p.normal)) ∧ ((warmPoint M V p).1 b).vs = (V b).vs ∧ ((warmPoint M V p).1 b).ws = (V b).ws := by
  unfold warmPoint
  by_cases h : p.resting = true
  · rw [if_pos h]
    exact ⟨rfl, fun b => ⟨push_v _ _ _ _ _, push_w _ _ hg _ _ _, push_split _ _ _ _ _⟩⟩
  · rw [if_neg h]
    refine ⟨rfl, fun b => ?_⟩
    simp only [zero_smul', linOf_zero, angOf_zero, add_zero, and_self]

theorem warmPoints_ok (M : Man K) : ∀ (V : Nat → Vel K) (ps : List (CPoint K)), (∀ p ∈ ps, Good M p) →
    List.Forall₂ PSame ps (warmPoints M V ps).2 ∧ ∀ b, ((warmPoints M V ps).1 b).v = (V b).v + linOf M b (impSum (warmPoints M V ps).2) ∧
      ((warmPoints M V ps).1 b).w = (V b).w + angOf M b (momSum CPoint.r1 (warmPoints M V ps).2) (momSum CPoint.r2 (warmPoints M V ps).2) ∧
      ((warmPoints M V ps).1 b).vs = (V b).vs ∧ ((warmPoints M V ps).1 b).ws = (V b).ws
  | V, [], _ => by
    refine ⟨List.Forall₂.nil, fun b => ?_⟩
    simp only [warmPoints, impSum, momSum, linOf_zero, angOf_zero, add_zero, and_self]
  | V, p :: ps, h => by
    obtain ⟨h1, h2⟩ := warmPoint_ok M V p (h p List.mem_cons_self)
    obtain ⟨k1, k2⟩ := warmPoints_ok M (warmPoint M V p).1 ps fun q hq => h q (List.mem_cons_of_mem _ hq)
    refine ⟨List.Forall₂.cons h1 k1, fun b => ?_⟩
    have en : (warmPoint M V p).2.normal = p.normal := by rw [h1]
    have e1 : (warmPoint M V p).2.r1 = p.r1 := by rw [h1]
    have e2 : (warmPoint M V p).2.r2 = p.r2 := by rw [h1]
    simp only [warmPoints, impSum, momSum]
    rw [(k2 b).1, (k2 b).2.1, (k2 b).2.2.1, (k2 b).2.2.2, (h2 b).1, (h2 b).2.1, (h2 b).2.2.1, (h2 b).2.2.2, en, e1, e2, add_assoc, add_assoc,
      ← linOf_add, ← angOf_add]
    exact ⟨rfl, rfl, rfl, rfl⟩

/-! ### Manifolds -/

theorem linEff_same {M N : Man K} (h : MSame M N) (b : Nat) : linEff N b = linOf M b (impSum N.pts + V3.smul N.f1 M.t1 + V3.smul N.f2 M.t2) := by
  unfold linEff impulse
  have e : ∀ P, linOf N b P = linOf M b P := fun P => by rw [h.eq]; rfl
  have t1 : N.t1 = M.t1 := by rw [h.eq]
  have t2 : N.t2 = M.t2 := by rw [h.eq]
  rw [e, t1, t2]

theorem angEff_same {M N : Man K} (h : MSame M N) (b : Nat) : angEff N b =
    angOf M b (momSum CPoint.r1 N.pts + V3.smul N.f1 M.c11 + V3.smul N.f2 M.c12 + V3.smul N.tw M.normal)
      (momSum CPoint.r2 N.pts + V3.smul N.f1 M.c21 + V3.smul N.f2 M.c22 + V3.smul N.tw M.normal) := by
  unfold angEff moment1 moment2
  have e : ∀ A B, angOf N b A B = angOf M b A B := fun A B => by rw [h.eq]; rfl
  have t1 : N.c11 = M.c11 := by rw [h.eq]
  have t2 : N.c12 = M.c12 := by rw [h.eq]
  have t3 : N.c21 = M.c21 := by rw [h.eq]
  have t4 : N.c22 = M.c22 := by rw [h.eq]
  have t5 : N.normal = M.normal := by rw [h.eq]
  rw [e, t1, t2, t3, t4, t5]

theorem solveMan_ok (cfg : Cfg K) (V : Nat → Vel K) (M : Man K) (hg : GoodM M) : MSame M (solveMan cfg V M).2 ∧ ∀ b,
    ((solveMan cfg V M).1 b).v = (V b).v + (linEff (solveMan cfg V M).2 b - linEff M b) ∧
    ((solveMan cfg V M).1 b).w = (V b).w + (angEff (solveMan cfg V M).2 b - angEff M b) := by
  obtain ⟨h1, h2⟩ := solvePoints_ok cfg M V M.pts hg
  have hs : MSame M (solveMan cfg V M).2 := ⟨rfl, h1⟩
  refine ⟨hs, fun b => ?_⟩
  rw [linEff_same hs, angEff_same hs]
  unfold linEff angEff impulse moment1 moment2 solveMan
  dsimp only
  rw [(twist_same _ _ _ b).1, rub_v, rub_v, (h2 b).1, twist_w, rub_w, rub_w, (h2 b).2, ← linOf_sub, ← angOf_sub]
  simp only [add_assoc]
  simp only [← linOf_add, ← angOf_add, smul_sub']
  refine ⟨?_, ?_⟩
  · congr 2; abel
  · congr 2 <;> abel

theorem warmMan_ok (V : Nat → Vel K) (M : Man K) (hg : GoodM M) : MSame M (warmMan V M).2 ∧ ∀ b,
    ((warmMan V M).1 b).v = (V b).v + linEff (warmMan V M).2 b ∧
    ((warmMan V M).1 b).w = (V b).w + angEff (warmMan V M).2 b +
      angOf M b (V3.smul (warmMan V M).2.tw M.normal) (V3.smul (warmMan V M).2.tw M.normal) ∧
    ((warmMan V M).1 b).vs = (V b).vs ∧ ((warmMan V M).1 b).ws = (V b).ws := by
  obtain ⟨h1, h2⟩ := warmPoints_ok M V M.pts hg
  have hs : MSame M (warmMan V M).2 := by
    unfold warmMan
    split_ifs
    · exact ⟨rfl, h1⟩
    · exact ⟨rfl, h1⟩
  refine ⟨hs, fun b => ?_⟩
  rw [linEff_same hs, angEff_same hs]
  unfold warmMan
  split_ifs
  · dsimp only
    rw [twistWarm_eq]
    rw [(twist_same _ _ _ b).1, (twist_same _ _ _ b).1, rub_v, rub_v, (h2 b).1, twist_w, twist_w, rub_w, rub_w, (h2 b).2.1]
    rw [(twist_same _ _ _ b).2.1, (twist_same _ _ _ b).2.1, (rub_split _ _ _ _ _ _ b).1, (rub_split _ _ _ _ _ _ b).1, (h2 b).2.2.1]
    rw [(twist_same _ _ _ b).2.2, (twist_same _ _ _ b).2.2, (rub_split _ _ _ _ _ _ b).2, (rub_split _ _ _ _ _ _ b).2, (h2 b).2.2.2]
    refine ⟨?_, ?_, rfl, rfl⟩
    · simp only [add_assoc]
      simp only [← linOf_add]
    · simp only [add_assoc]
      simp only [← angOf_add]
      simp only [add_assoc]
  · dsimp only
    rw [(h2 b).1, (h2 b).2.1, (h2 b).2.2.1, (h2 b).2.2.2]
    simp only [zero_smul', add_zero, angOf_zero, and_self]

/-! ### Lists of manifolds -/

theorem solve_ok (cfg : Cfg K) : ∀ (V : Nat → Vel K) (Ms : List (Man K)), (∀ M ∈ Ms, GoodM M) →
    List.Forall₂ MSame Ms (solve cfg V Ms).2 ∧ (∀ M ∈ (solve cfg V Ms).2, GoodM M) ∧ ∀ b,
      ((solve cfg V Ms).1 b).v = (V b).v + (linAll b (solve cfg V Ms).2 - linAll b Ms) ∧
      ((solve cfg V Ms).1 b).w = (V b).w + (angAll b (solve cfg V Ms).2 - angAll b Ms)
  | V, [], _ => by
    refine ⟨List.Forall₂.nil, by simp [solve], fun b => ?_⟩
    simp only [solve, linAll, angAll, sub_self, add_zero, and_self]
  | V, M :: Ms, h => by
    obtain ⟨h1, h2⟩ := solveMan_ok cfg V M (h M List.mem_cons_self)
    obtain ⟨k1, k2, k3⟩ := solve_ok cfg (solveMan cfg V M).1 Ms fun q hq => h q (List.mem_cons_of_mem _ hq)
    refine ⟨List.Forall₂.cons h1 k1, ?_, fun b => ?_⟩
    · intro N hN
      simp only [solve] at hN
      rcases List.mem_cons.1 hN with rfl | hN
      · exact (h M List.mem_cons_self).of_same h1
      · exact k2 N hN
    · simp only [solve, linAll, angAll]
      rw [(k3 b).1, (k3 b).2, (h2 b).1, (h2 b).2]
      exact ⟨by abel, by abel⟩

theorem warmStart_ok : ∀ (V : Nat → Vel K) (Ms : List (Man K)), (∀ M ∈ Ms, GoodM M) →
    List.Forall₂ MSame Ms (warmStart V Ms).2 ∧ (∀ M ∈ (warmStart V Ms).2, GoodM M) ∧ ∀ b,
      ((warmStart V Ms).1 b).v = (V b).v + linAll b (warmStart V Ms).2 ∧
      ((warmStart V Ms).1 b).w = (V b).w + angAll b (warmStart V Ms).2 + twistAll b (warmStart V Ms).2 ∧
      ((warmStart V Ms).1 b).vs = (V b).vs ∧ ((warmStart V Ms).1 b).ws = (V b).ws
  | V, [], _ => by
    refine ⟨List.Forall₂.nil, by simp [warmStart], fun b => ?_⟩
    simp only [warmStart, linAll, angAll, twistAll, add_zero, and_self]
  | V, M :: Ms, h => by
    obtain ⟨h1, h2⟩ := warmMan_ok V M (h M List.mem_cons_self)
    obtain ⟨k1, k2, k3⟩ := warmStart_ok (warmMan V M).1 Ms fun q hq => h q (List.mem_cons_of_mem _ hq)
    refine ⟨List.Forall₂.cons h1 k1, ?_, fun b => ?_⟩
    · intro N hN
      simp only [warmStart] at hN
      rcases List.mem_cons.1 hN with rfl | hN
      · exact (h M List.mem_cons_self).of_same h1
      · exact k2 N hN
    · have e : ∀ A B, angOf (warmMan V M).2 b A B = angOf M b A B := fun A B => by rw [h1.eq]; rfl
      have en : (warmMan V M).2.normal = M.normal := by rw [h1.eq]
      simp only [warmStart, linAll, angAll, twistAll]
      rw [(k3 b).1, (k3 b).2.1, (k3 b).2.2.1, (k3 b).2.2.2, (h2 b).1, (h2 b).2.1, (h2 b).2.2.1, (h2 b).2.2.2, e, en]
      exact ⟨by abel, by abel, rfl, rfl⟩

theorem initMan_good (cfg : Cfg K) (sqrt : K → K) (body : Nat → SBody K) (X : XMan K) : GoodM (initMan cfg sqrt body X) := by
  intro p hp
  simp only [initMan, List.mem_map] at hp
  obtain ⟨x, _, rfl⟩ := hp
  exact ⟨rfl, rfl⟩

end Solver
end RP3D
