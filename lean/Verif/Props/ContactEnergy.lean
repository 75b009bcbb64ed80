import Verif.Props.JointEnergy
import Verif.Props.Bounce

/-! C133: contacts do not make energy. -/

set_option linter.unusedSectionVars false

namespace RP3D
namespace ContactEnergy
open Solver Joints SolverProps JointProps
variable {K : Type} [Field K] [LinearOrder K] [IsStrictOrderedRing K]
variable {body : Nat → JBody K} {mass : Nat → K} {L : Nat → M3 K} {S : Finset Nat} {V W : Nat → Vel K} {M : Man K} {p : CPoint K} {cfg : Cfg K}

/-! ### What the statements are about -/

/-- The bodies of a manifold are two bodies of the set; its masses and tensors are theirs. -/
structure Sits (body : Nat → JBody K) (S : Finset Nat) (M : Man K) : Prop where
  pair : JointProps.Pair S M.b1 M.b2
  fits : Fits (fun b => (body b).toSBody) M
  good : GoodM M

/-- A contact without bias: the position is corrected by the split velocities or the overlap is within the tolerance, and there is no bounce. -/
structure Plain (cfg : Cfg K) (M : Man K) (p : CPoint K) : Prop where
  unit : V3.dot p.normal p.normal = 1
  inv : p.invMass = invOf (kinv M p)
  bias : p.bias = 0
  depth : cfg.split = true ∨ p.depth ≤ cfg.slop
  imp : 0 ≤ p.imp

/-- The friction vectors of a manifold are unit vectors and its masses are those of the two bodies. -/
structure Rough (M : Man K) : Prop where
  unit1 : V3.dot M.t1 M.t1 = 1
  unit2 : V3.dot M.t2 M.t2 = 1
  arm11 : M.c11 = V3.cross M.r1 M.t1
  arm12 : M.c12 = V3.cross M.r1 M.t2
  arm21 : M.c21 = V3.cross M.r2 M.t1
  arm22 : M.c22 = V3.cross M.r2 M.t2
  k1 : M.k1 = invOf (M.m1 + M.m2 + V3.dot (V3.cross (M.I1.act M.c11) M.r1) M.t1 + V3.dot (V3.cross (M.I2.act M.c21) M.r2) M.t1)
  k2 : M.k2 = invOf (M.m1 + M.m2 + V3.dot (V3.cross (M.I1.act M.c12) M.r1) M.t2 + V3.dot (V3.cross (M.I2.act M.c22) M.r2) M.t2)
  kt : M.kt = invOf (V3.dot M.normal (M.I1.act M.normal) + V3.dot M.normal (M.I2.act M.normal))

/-- No friction. -/
def Slippery (M : Man K) : Prop := M.mu = 0 ∧ M.f1 = 0 ∧ M.f2 = 0 ∧ M.tw = 0

/-- The friction impulses of a manifold are still allowed after the normal impulses have been solved. -/
def Roomy (cfg : Cfg K) (V : Nat → Vel K) (M : Man K) : Prop :=
  |M.f1| ≤ M.mu * total (solvePoints cfg M V M.pts).2 ∧ |M.f2| ≤ M.mu * total (solvePoints cfg M V M.pts).2 ∧
    |M.tw| ≤ M.mu * total (solvePoints cfg M V M.pts).2

/-- In one iteration. -/
def Room (cfg : Cfg K) : (Nat → Vel K) → List (Man K) → Prop
  | _, [] => True
  | V, M :: Ms => (Slippery M ∨ Rough M ∧ Roomy cfg V M) ∧ Room cfg (solveMan cfg V M).1 Ms

/-- In all iterations. -/
def Rooms (cfg : Cfg K) (jc : JCfg K) (body : Nat → JBody K) : Nat → (Nat → Vel K) × List (Joint K) × List (Man K) → Prop
  | 0, _ => True
  | n + 1, s => Room cfg (solveAll jc body s.1 s.2.1).1 s.2.2 ∧
      Rooms cfg jc body n ((Solver.solve cfg (solveAll jc body s.1 s.2.1).1 s.2.2).1, (solveAll jc body s.1 s.2.1).2, (Solver.solve cfg (solveAll jc body s.1 s.2.1).1 s.2.2).2)

/-! ### One impulse -/

theorem _root_.RP3D.JointProps.Loses.congr {U : Nat → Vel K} (h : Loses body mass L S V W) (e : ∀ b, (U b).v = (W b).v ∧ (U b).w = (W b).w) : Loses body mass L S V U := by
  obtain ⟨⟨h1, h2⟩, h3⟩ := h
  refine ⟨⟨h1, fun b hb => ?_⟩, ?_⟩
  · rcases h2 b hb with h | ⟨a1, a2, a3, a4⟩
    · exact Or.inl h
    · exact Or.inr ⟨a1, a2, by rw [(e b).1]; exact a3, by rw [(e b).2]; exact a4⟩
  · refine le_trans (le_of_eq ?_) h3
    unfold energy2
    exact Finset.sum_congr rfl fun b _ => by rw [(e b).1, (e b).2]

theorem neg_smulv (d : K) (a : V3 K) : V3.smul (-d) a = -V3.smul d a := by ext <;> simp
theorem act_negv (I : M3 K) (a : V3 K) : I.act (-a) = -I.act a := by ext <;> simp [M3.act] <;> ring
theorem act_smulv (I : M3 K) (d : K) (a : V3 K) : I.act (V3.smul d a) = V3.smul d (I.act a) := by ext <;> simp [M3.act] <;> ring
theorem smul_negv (d : K) (a : V3 K) : V3.smul d (-a) = -V3.smul d a := by ext <;> simp
theorem dot_neg_left (a b : V3 K) : V3.dot (-a) b = -V3.dot a b := by simp only [V3.dot, V3.neg_x, V3.neg_y, V3.neg_z]; ring
theorem dot_neg_right (a b : V3 K) : V3.dot a (-b) = -V3.dot a b := by simp only [V3.dot, V3.neg_x, V3.neg_y, V3.neg_z]; ring

/-- An impulse of size `d` along `t` with the arms `c1`, `c2`. -/
theorem line_loses (hB : Bodies body mass L S V) (hs : Sits body S M) {t c1 c2 : V3 K} {d : K}
    (hv : ∀ b, (W b).v = (V b).v + linOf M b (V3.smul d t)) (hw : ∀ b, (W b).w = (V b).w + angOf M b (V3.smul d c1) (V3.smul d c2))
    (hq : 2 * (d * (V3.dot t (V M.b2).v - V3.dot t (V M.b1).v + V3.dot c2 (V M.b2).w - V3.dot c1 (V M.b1).w)) +
      d * d * ((M.m1 + M.m2) * V3.dot t t + V3.dot c1 (M.I1.act c1) + V3.dot c2 (M.I2.act c2)) ≤ 0) : Loses body mass L S V W := by
  obtain ⟨f1, f2, f3, f4, f5, f6, f7, f8⟩ := hs.fits
  have hp := hs.pair
  obtain ⟨u1, u1'⟩ := (hB.solid _ hp.m1).1
  obtain ⟨u2, u2'⟩ := (hB.solid _ hp.m2).1
  have e1 : M.m1 = (body M.b1).m := f1
  have e2 : M.m2 = (body M.b2).m := f2
  have e3 : M.I1 = (body M.b1).I := f3
  have e4 : M.I2 = (body M.b2).I := f4
  have e5 : M.ll1 = ⟨1, 1, 1⟩ := f5.trans u1
  have e6 : M.ll2 = ⟨1, 1, 1⟩ := f6.trans u2
  have e7 : M.la1 = ⟨1, 1, 1⟩ := f7.trans u1'
  have e8 : M.la2 = ⟨1, 1, 1⟩ := f8.trans u2'
  refine (kick_loses hB hp (P1 := V3.smul (-d) t) (A1 := V3.smul (-d) c1) (P2 := V3.smul d t) (A2 := V3.smul d c2) ?_).congr fun b => ?_
  · simp only [dot_smul_left, dot_smul_right, act_smulv]
    rw [e1, e2, e3, e4] at hq
    refine le_trans (le_of_eq ?_) hq
    ring
  · obtain ⟨g1, g2, g3⟩ := kick_free hp.ne (hB.solid _ hp.m1).1 (hB.solid _ hp.m2).1 (V3.smul (-d) t) (V3.smul (-d) c1) (V3.smul d t) (V3.smul d c2) V
    rw [hv b, hw b]
    unfold linOf angOf
    by_cases h1 : M.b1 = b
    · have h2 : ¬ M.b2 = b := fun h => hp.ne (h1.trans h.symm)
      rw [if_neg h2, if_neg h2, if_pos h1, if_pos h1, e5, e7, SolverProps.had_ones, SolverProps.ones_had]
      subst h1
      rw [g1, e1, e3]
      dsimp only
      rw [neg_smulv, neg_smulv, smul_negv, act_negv, zero_sub, zero_sub]
      exact ⟨rfl, rfl⟩
    · by_cases h2 : M.b2 = b
      · rw [if_pos h2, if_pos h2, if_neg h1, if_neg h1, e6, e8, SolverProps.had_ones, SolverProps.ones_had]
        subst h2
        rw [g2, e2, e4]
        dsimp only
        rw [sub_zero, sub_zero]
        exact ⟨rfl, rfl⟩
      · rw [if_neg h2, if_neg h2, if_neg h1, if_neg h1, g3 b (Ne.symm h1) (Ne.symm h2), sub_zero, add_zero, add_zero]
        exact ⟨rfl, rfl⟩

/-- A part of the step to the minimum. -/
theorem part_work {k s d : K} (hk : 0 ≤ k) (hd : 0 ≤ d ∧ d ≤ -s * invOf k ∨ -s * invOf k ≤ d ∧ d ≤ 0) : 2 * (d * s) + d * d * k ≤ 0 := by
  rcases lt_or_eq_of_le hk with h | h
  · have e : invOf k = 1 / k := if_pos h
    rw [e] at hd
    have hu : k * (-s * (1 / k)) = -s := by field_simp
    generalize -s * (1 / k) = u at hd hu
    have es : s = -(k * u) := by linarith
    have : 2 * (d * s) + d * d * k = k * (d * (d - 2 * u)) := by rw [es]; ring
    rw [this]
    refine mul_nonpos_of_nonneg_of_nonpos hk ?_
    rcases hd with ⟨a, b⟩ | ⟨a, b⟩
    · exact mul_nonpos_of_nonneg_of_nonpos a (by linarith)
    · exact mul_nonpos_of_nonpos_of_nonneg b (by linarith)
  · have e : invOf k = 0 := by rw [← h]; exact if_neg (lt_irrefl _)
    have hd0 : d = 0 := by
      rw [e, mul_zero] at hd
      rcases hd with ⟨a, b⟩ | ⟨a, b⟩ <;> exact le_antisymm (by linarith) (by linarith)
    rw [hd0]; simp

theorem max_part {f u : K} (hf : 0 ≤ f) : 0 ≤ max (f + u) 0 - f ∧ max (f + u) 0 - f ≤ u ∨ u ≤ max (f + u) 0 - f ∧ max (f + u) 0 - f ≤ 0 := by
  rcases le_total (f + u) 0 with h | h
  · rw [max_eq_right h]; right; constructor <;> linarith
  · rw [max_eq_left h]
    rcases le_total u 0 with h2 | h2
    · right; constructor <;> linarith
    · left; constructor <;> linarith

theorem clamp_part {l f u : K} (hf : |f| ≤ l) : 0 ≤ clamp l (f + u) - f ∧ clamp l (f + u) - f ≤ u ∨ u ≤ clamp l (f + u) - f ∧ clamp l (f + u) - f ≤ 0 := by
  obtain ⟨a, b⟩ := abs_le.1 hf
  unfold clamp
  rcases le_total u 0 with h | h
  · right
    rw [min_eq_left (by linarith)]
    exact ⟨by have := le_max_right (-l) (f + u); linarith, by have : max (-l) (f + u) ≤ f := max_le a (by linarith); linarith⟩
  · left
    have h1 : f ≤ min (f + u) l := le_min (by linarith) b
    rw [max_eq_right (by linarith)]
    exact ⟨by linarith, by have := min_le_left (f + u) l; linarith⟩

/-! ### One manifold -/

theorem psd_sum (hB : Bodies body mass L S V) (hs : Sits body S M) (c1 c2 : V3 K) :
    0 ≤ M.m1 ∧ 0 ≤ M.m2 ∧ 0 ≤ V3.dot c1 (M.I1.act c1) ∧ 0 ≤ V3.dot c2 (M.I2.act c2) := by
  obtain ⟨f1, f2, f3, f4, -⟩ := hs.fits
  rw [f1, f2, f3, f4]
  exact ⟨(hB.solid _ hs.pair.m1).2.1, (hB.solid _ hs.pair.m2).2.1, (hB.solid _ hs.pair.m1).2.2 c1, (hB.solid _ hs.pair.m2).2.2 c2⟩

theorem kinv_eq (hg : Good M p) (hn : V3.dot p.normal p.normal = 1) : kinv M p = (M.m1 + M.m2) * V3.dot p.normal p.normal +
    V3.dot (V3.cross p.r1 p.normal) (M.I1.act (V3.cross p.r1 p.normal)) + V3.dot (V3.cross p.r2 p.normal) (M.I2.act (V3.cross p.r2 p.normal)) := by
  unfold kinv
  rw [hg.1, hg.2, triple, triple, hn, mul_one]

theorem sep_eq (t r1 r2 : V3 K) (a b : Vel K) : V3.dot (rel a b r1 r2) t =
    V3.dot t b.v - V3.dot t a.v + V3.dot (V3.cross r2 t) b.w - V3.dot (V3.cross r1 t) a.w := by
  simp only [rel, V3.dot, V3.cross, V3.add_x, V3.add_y, V3.add_z, V3.sub_x, V3.sub_y, V3.sub_z]; ring

theorem plain_bias (h : Plain cfg M p) : biasOf cfg p = 0 := by
  unfold biasOf
  split_ifs with hs
  · exact h.bias
  · rcases h.depth with e | e
    · exact absurd e hs
    · rw [h.bias, add_zero]; exact if_neg (not_lt.2 e)

theorem solvePoint_imp (V : Nat → Vel K) (p : CPoint K) :
    (solvePoint cfg M V p).2.imp = max (p.imp + -(V3.dot (rel (V M.b1) (V M.b2) p.r1 p.r2) p.normal + biasOf cfg p) * p.invMass) 0 := by
  unfold solvePoint biasOf
  by_cases hs : cfg.split = true
  · simp only [hs, if_true]
  · simp only [hs, if_false, Bool.false_eq_true]

theorem Plain.of_same {q : CPoint K} (h : Plain cfg M p) (hs : PSame p q) (hi : 0 ≤ q.imp) : Plain cfg M q := by
  unfold PSame at hs
  rw [hs]
  exact ⟨h.unit, h.inv, h.bias, h.depth, hi⟩

theorem point_loses (hB : Bodies body mass L S V) (hs : Sits body S M) (hg : Good M p) (hp : Plain cfg M p) :
    Loses body mass L S V (solvePoint cfg M V p).1 ∧ Plain cfg M (solvePoint cfg M V p).2 := by
  obtain ⟨h1, h2⟩ := solvePoint_ok cfg M V p hg
  have hi : 0 ≤ (solvePoint cfg M V p).2.imp := by rw [solvePoint_imp]; exact le_max_right _ _
  refine ⟨line_loses hB hs (fun b => (h2 b).1) (fun b => (h2 b).2) ?_, hp.of_same h1 hi⟩
  rw [← kinv_eq hg hp.unit, ← sep_eq]
  obtain ⟨a1, a2, a3, a4⟩ := psd_sum hB hs (V3.cross p.r1 p.normal) (V3.cross p.r2 p.normal)
  have hk : 0 ≤ kinv M p := by rw [kinv_eq hg hp.unit, hp.unit]; linarith
  refine part_work hk ?_
  rw [solvePoint_imp, plain_bias hp, add_zero, hp.inv]
  exact max_part hp.imp

theorem points_lose (hs : Sits body S M) : ∀ (ps : List (CPoint K)) {V : Nat → Vel K}, Bodies body mass L S V → (∀ p ∈ ps, Good M p ∧ Plain cfg M p) →
    Loses body mass L S V (solvePoints cfg M V ps).1 ∧ ∀ p ∈ (solvePoints cfg M V ps).2, Plain cfg M p
  | [], V, hB, _ => ⟨Loses.refl hB, by simp [solvePoints]⟩
  | p :: ps, V, hB, h => by
    obtain ⟨a, b⟩ := point_loses hB hs (h p List.mem_cons_self).1 (h p List.mem_cons_self).2
    obtain ⟨c, d⟩ := points_lose hs ps a.1 fun q hq => h q (List.mem_cons_of_mem _ hq)
    refine ⟨a.trans c, fun q hq => ?_⟩
    simp only [solvePoints, List.mem_cons] at hq
    rcases hq with rfl | hq
    · exact b
    · exact d q hq

theorem rub_loses (hB : Bodies body mass L S V) (hs : Sits body S M) {t r1 r2 c1 c2 : V3 K} {f l k : K} (hc1 : c1 = V3.cross r1 t) (hc2 : c2 = V3.cross r2 t)
    (ht : V3.dot t t = 1) (hk : k = invOf (M.m1 + M.m2 + V3.dot (V3.cross (M.I1.act c1) r1) t + V3.dot (V3.cross (M.I2.act c2) r2) t)) (hf : |f| ≤ l) :
    Loses body mass L S V (rub M t c1 c2 (clamp l (f + -(V3.dot (rel (V M.b1) (V M.b2) r1 r2) t) * k) - f) V) := by
  refine line_loses hB hs (fun b => rub_v M t c1 c2 _ V b) (fun b => rub_w M t c1 c2 _ V b) ?_
  subst hc1 hc2
  rw [← sep_eq, ht, mul_one]
  rw [triple, triple] at hk
  obtain ⟨a1, a2, a3, a4⟩ := psd_sum hB hs (V3.cross r1 t) (V3.cross r2 t)
  refine part_work (by linarith) ?_
  rw [← hk]
  exact clamp_part hf

theorem twist_loses (hB : Bodies body mass L S V) (hs : Sits body S M) {f l : K}
    (hk : M.kt = invOf (V3.dot M.normal (M.I1.act M.normal) + V3.dot M.normal (M.I2.act M.normal))) (hf : |f| ≤ l) :
    Loses body mass L S V (twist M (clamp l (f + -(V3.dot ((V M.b2).w - (V M.b1).w) M.normal) * M.kt) - f) V) := by
  have z : ∀ d : K, V3.smul d (0 : V3 K) = 0 := fun d => by ext <;> simp
  refine line_loses (t := 0) (c1 := M.normal) (c2 := M.normal) (d := clamp l (f + -(V3.dot ((V M.b2).w - (V M.b1).w) M.normal) * M.kt) - f) hB hs
    (fun b => ?_) (fun b => twist_w M _ V b) ?_
  · rw [(twist_same M _ V b).1, z, linOf_zero, add_zero]
  · obtain ⟨a1, a2, a3, a4⟩ := psd_sum hB hs M.normal M.normal
    have e : V3.dot (0 : V3 K) (V M.b2).v - V3.dot 0 (V M.b1).v + V3.dot M.normal (V M.b2).w - V3.dot M.normal (V M.b1).w =
        V3.dot ((V M.b2).w - (V M.b1).w) M.normal := by
      simp only [V3.dot, V3.zero_x, V3.zero_y, V3.zero_z, V3.sub_x, V3.sub_y, V3.sub_z]; ring
    rw [e, dot_zero_left, mul_zero, zero_add]
    refine part_work (by linarith) ?_
    rw [← hk]
    exact clamp_part hf

theorem rub_none (t c1 c2 : V3 K) (b : Nat) : (rub M t c1 c2 0 V b).v = (V b).v ∧ (rub M t c1 c2 0 V b).w = (V b).w := by
  rw [rub_v, rub_w, zero_smul', zero_smul', zero_smul', linOf_zero, angOf_zero, add_zero, add_zero]
  exact ⟨rfl, rfl⟩

theorem twist_none (b : Nat) : (twist M 0 V b).v = (V b).v ∧ (twist M 0 V b).w = (V b).w := by
  rw [(twist_same M 0 V b).1, twist_w, zero_smul', angOf_zero, add_zero]
  exact ⟨rfl, rfl⟩

/-- The manifolds in the course of a step. -/
structure Still (cfg : Cfg K) (body : Nat → JBody K) (S : Finset Nat) (M : Man K) : Prop where
  sits : Sits body S M
  plain : ∀ p ∈ M.pts, Plain cfg M p

theorem Still.solve (h : Still cfg body S M) (hB : Bodies body mass L S V) : Still cfg body S (solveMan cfg V M).2 := by
  obtain ⟨h1, -⟩ := solveMan_ok cfg V M h.sits.good
  obtain ⟨-, hq⟩ := points_lose h.sits M.pts hB fun p hp => ⟨h.sits.good p hp, h.plain p hp⟩
  refine ⟨⟨h.sits.pair, h.sits.fits.of_same h1, h.sits.good.of_same h1⟩, fun p hp => ?_⟩
  have := hq p hp
  exact ⟨this.unit, this.inv, this.bias, this.depth, this.imp⟩

theorem man_loses (h : Still cfg body S M) (hB : Bodies body mass L S V) (hr : Slippery M ∨ Rough M ∧ Roomy cfg V M) :
    Loses body mass L S V (solveMan cfg V M).1 := by
  obtain ⟨hl, -⟩ := points_lose h.sits M.pts hB fun p hp => ⟨h.sits.good p hp, h.plain p hp⟩
  rcases hr with ⟨e1, e2, e3, e4⟩ | ⟨hr, g1, g2, g3⟩
  · refine hl.congr fun b => ?_
    unfold solveMan
    dsimp only
    rw [e1, e2, e3, e4, zero_mul, clamp_zero, clamp_zero, clamp_zero, sub_zero]
    exact ⟨(twist_none b).1.trans ((rub_none _ _ _ b).1.trans (rub_none _ _ _ b).1), (twist_none b).2.trans ((rub_none _ _ _ b).2.trans (rub_none _ _ _ b).2)⟩
  · unfold solveMan
    dsimp only
    have a := rub_loses hl.1 h.sits hr.arm11 hr.arm21 hr.unit1 hr.k1 g1
    have b := rub_loses a.1 h.sits hr.arm12 hr.arm22 hr.unit2 hr.k2 g2
    have c := twist_loses b.1 h.sits hr.kt g3
    exact hl.trans (a.trans (b.trans c))

theorem mans_lose : ∀ (Ms : List (Man K)) {V : Nat → Vel K}, Bodies body mass L S V → (∀ M ∈ Ms, Still cfg body S M) → Room cfg V Ms →
    Loses body mass L S V (Solver.solve cfg V Ms).1 ∧ ∀ M ∈ (Solver.solve cfg V Ms).2, Still cfg body S M
  | [], V, hB, _, _ => ⟨Loses.refl hB, by simp [Solver.solve]⟩
  | M :: Ms, V, hB, h, hr => by
    have a := man_loses (h M List.mem_cons_self) hB hr.1
    have b := (h M List.mem_cons_self).solve hB
    obtain ⟨c, d⟩ := mans_lose Ms a.1 (fun N hN => h N (List.mem_cons_of_mem _ hN)) hr.2
    refine ⟨a.trans c, fun N hN => ?_⟩
    simp only [Solver.solve, List.mem_cons] at hN
    rcases hN with rfl | hN
    · exact b
    · exact d N hN

/-! ### All iterations, with joints -/

theorem loop_loses' {jc : JCfg K} (he : 0 ≤ jc.eps) : ∀ (n : Nat) {Js Ns : List (Joint K)} {Ms : List (Man K)} {V : Nat → Vel K},
    List.Forall₂ (During jc body S) Js Ns → (∀ M ∈ Ms, Still cfg body S M) → Bodies body mass L S V → Rooms cfg jc body n (V, Ns, Ms) →
      Loses body mass L S V (Joints.loop cfg jc body n (V, Ns, Ms)).1
  | 0, _, _, _, _, _, _, hb, _ => Loses.refl hb
  | n + 1, Js, Ns, Ms, V, hd, hm, hb, hr => by
    obtain ⟨a, b⟩ := solveAll_loses he hd hb
    obtain ⟨c, d⟩ := mans_lose Ms a.1 hm hr.1
    rw [Joints.loop]
    exact a.trans (c.trans (loop_loses' he n b d c.1 hr.2))

end ContactEnergy
end RP3D
