import Verif.Solver.Turned

/-! The contact solver with all masses and impulses multiplied by a number (C144). -/

set_option linter.unusedSectionVars false

namespace RP3D
namespace Heavier
open Solver Joints
variable {K : Type} [Field K] [LinearOrder K] [IsStrictOrderedRing K]

/-! ### Specification -/

/-- A contact point with `s` times the stored impulse. -/
def scaleX (s : K) (x : XPoint K) : XPoint K := { x with imp := s * x.imp }

/-- A manifold with `s` times the stored impulses. -/
def scaleXM (s : K) (X : XMan K) : XMan K := { X with f1 := s * X.f1, f2 := s * X.f2, tw := s * X.tw, pts := X.pts.map (scaleX s) }

/-- A tensor that is smaller by the factor `s`. -/
def Less (s : K) (A B : M3 K) : Prop := ∀ x, B.act (V3.smul s x) = A.act x

/-- The same body, `s` times as heavy: the solver reads inverse masses. -/
structure ScaleB (s : K) (A B : SBody K) : Prop where
  x : B.x = A.x
  v : B.v = A.v
  w : B.w = A.w
  m : B.m * s = A.m
  I : Less s A.I B.I
  ll : B.ll = A.ll
  la : B.la = A.la

/-! ### Manifolds -/

/-- A contact of the solver with `s` times the impulses. -/
def scaleP (s : K) (p : CPoint K) : CPoint K :=
  { p with i1 := V3.smul (1 / s) p.i1, i2 := V3.smul (1 / s) p.i2, invMass := s * p.invMass, imp := s * p.imp, split := s * p.split }

/-- A manifold of the solver between bodies that are `s` times as heavy, with `s` times the impulses. -/
structure ScaleM (s : K) (M N : Man K) : Prop where
  b1 : N.b1 = M.b1
  b2 : N.b2 = M.b2
  m1 : N.m1 * s = M.m1
  m2 : N.m2 * s = M.m2
  I1 : Less s M.I1 N.I1
  I2 : Less s M.I2 N.I2
  ll1 : N.ll1 = M.ll1
  ll2 : N.ll2 = M.ll2
  la1 : N.la1 = M.la1
  la2 : N.la2 = M.la2
  mu : N.mu = M.mu
  normal : N.normal = M.normal
  t1 : N.t1 = M.t1
  t2 : N.t2 = M.t2
  o1 : N.o1 = M.o1
  o2 : N.o2 = M.o2
  r1 : N.r1 = M.r1
  r2 : N.r2 = M.r2
  c11 : N.c11 = M.c11
  c12 : N.c12 = M.c12
  c21 : N.c21 = M.c21
  c22 : N.c22 = M.c22
  k1 : N.k1 = s * M.k1
  k2 : N.k2 = s * M.k2
  kt : N.kt = s * M.kt
  f1 : N.f1 = s * M.f1
  f2 : N.f2 = s * M.f2
  tw : N.tw = s * M.tw
  pts : N.pts = M.pts.map (scaleP s)

section basics
variable {s : K} (hs : 0 < s)
include hs

theorem Less.act {A B : M3 K} (h : Less s A B) (x : V3 K) : B.act x = V3.smul (1 / s) (A.act x) := by
  have e : x = V3.smul s (V3.smul (1 / s) x) := by
    ext <;> simp only [V3.smul] <;> field_simp
  have l : ∀ (k : K) (y : V3 K), A.act (V3.smul k y) = V3.smul k (A.act y) := fun k y => by
    ext <;> simp only [M3.act, V3.smul] <;> ring
  conv_lhs => rw [e]
  rw [h, l]

theorem invOf_less (k : K) : Solver.invOf (k / s) = s * Solver.invOf k := by
  unfold Solver.invOf
  by_cases hk : 0 < k
  · rw [if_pos hk, if_pos (div_pos hk hs)]
    field_simp
  · have : ¬ 0 < k / s := fun h => hk (by rwa [lt_div_iff₀ hs, zero_mul] at h)
    rw [if_neg hk, if_neg this, mul_zero]

theorem max_scale (x : K) : max (s * x) 0 = s * max x 0 := by
  rw [show (0 : K) = s * 0 by rw [mul_zero], ← mul_max_of_nonneg _ _ hs.le]
  rw [mul_zero]

theorem clamp_scale (l x : K) : clamp (s * l) (s * x) = s * clamp l x := by
  unfold clamp
  rw [mul_max_of_nonneg _ _ hs.le, mul_min_of_nonneg _ _ hs.le, mul_neg]

theorem mass_eq {a b : K} (h : b * s = a) : b = a / s := by rw [← h]; field_simp

theorem initPoint_scale (cfg : Cfg K) {A B A' B' : SBody K} (hA : ScaleB s A A') (hB : ScaleB s B B') (e : K) (x : XPoint K) :
    initPoint cfg A' B' e (scaleX s x) = scaleP s (initPoint cfg A B e x) := by
  unfold initPoint scaleX scaleP
  dsimp only
  have k : ∀ (I : V3 K) (r n : V3 K), V3.dot (V3.cross (V3.smul (1 / s) I) r) n = V3.dot (V3.cross I r) n / s := fun I r n => by
    simp only [V3.dot, V3.cross, V3.smul]; ring
  rw [hA.x, hB.x, hA.v, hA.w, hB.v, hB.w, hA.I.act hs, hB.I.act hs, k, k, mass_eq hs hA.m, mass_eq hs hB.m, ← add_div, ← add_div, ← add_div, invOf_less hs, mul_zero]

theorem initMan_scale (cfg : Cfg K) (sqrt : K → K) {body body' : Nat → SBody K} {X : XMan K} (hA : ScaleB s (body X.b1) (body' X.b1)) (hB : ScaleB s (body X.b2) (body' X.b2)) :
    ScaleM s (initMan cfg sqrt body X) (initMan cfg sqrt body' (scaleXM s X)) := by
  have en : (X.pts.map (scaleX s)).map XPoint.normal = X.pts.map XPoint.normal := by rw [List.map_map]; rfl
  have e1 : (X.pts.map (scaleX s)).map XPoint.p1 = X.pts.map XPoint.p1 := by rw [List.map_map]; rfl
  have e2 : (X.pts.map (scaleX s)).map XPoint.p2 = X.pts.map XPoint.p2 := by rw [List.map_map]; rfl
  have ep : (X.pts.map (scaleX s)).map (initPoint cfg (body' X.b1) (body' X.b2) X.restitution) =
      (X.pts.map (initPoint cfg (body X.b1) (body X.b2) X.restitution)).map (scaleP s) := by
    rw [List.map_map, List.map_map]
    exact List.map_congr_left fun x _ => initPoint_scale hs cfg hA hB _ x
  have k : ∀ (I : V3 K) (r n : V3 K), V3.dot (V3.cross (V3.smul (1 / s) I) r) n = V3.dot (V3.cross I r) n / s := fun I r n => by
    simp only [V3.dot, V3.cross, V3.smul]; ring
  have k' : ∀ n I : V3 K, V3.dot n (V3.smul (1 / s) I) = V3.dot n I / s := fun n I => by
    simp only [V3.dot, V3.smul]; ring
  unfold initMan scaleXM
  dsimp only
  rw [List.length_map, en, e1, e2, ep, hA.x, hB.x, hA.v, hA.w, hB.v, hB.w, hA.ll, hA.la, hB.ll, hB.la]
  refine { b1 := rfl, b2 := rfl, m1 := hA.m, m2 := hB.m, I1 := hA.I, I2 := hB.I, ll1 := rfl, ll2 := rfl, la1 := rfl, la2 := rfl, mu := rfl, normal := rfl, t1 := rfl, t2 := rfl,
           o1 := rfl, o2 := rfl, r1 := rfl, r2 := rfl, c11 := rfl, c12 := rfl, c21 := rfl, c22 := rfl, k1 := ?_, k2 := ?_, kt := ?_, f1 := rfl, f2 := rfl, tw := rfl, pts := rfl }
  · dsimp only
    rw [hA.I.act hs, hB.I.act hs, k, k, mass_eq hs hA.m, mass_eq hs hB.m, ← add_div, ← add_div, ← add_div, invOf_less hs]
  · dsimp only
    rw [hA.I.act hs, hB.I.act hs, k, k, mass_eq hs hA.m, mass_eq hs hB.m, ← add_div, ← add_div, ← add_div, invOf_less hs]
  · dsimp only
    rw [hA.I.act hs, hB.I.act hs, k', k', ← add_div, invOf_less hs]

end basics

/-! ### Impulses -/

section impulses
variable {s : K} (hs : 0 < s) {M N : Man K}
include hs

omit hs in
theorem mass_imp {a b : K} (h : b * s = a) (d : K) (n : V3 K) : V3.smul b (V3.smul (s * d) n) = V3.smul a (V3.smul d n) := by
  rw [← h]; ext <;> simp only [V3.smul] <;> ring

theorem inv_imp (d : K) (i l : V3 K) : V3.smul (s * d) (V3.had (V3.smul (1 / s) i) l) = V3.smul d (V3.had i l) := by
  ext <;> simp only [V3.smul, V3.had] <;> field_simp

omit hs in
theorem act_imp {A B : M3 K} (h : Less s A B) (d : K) (n : V3 K) : B.act (V3.smul (s * d) n) = A.act (V3.smul d n) := by
  rw [← h]
  refine congrArg _ ?_
  ext <;> simp only [V3.smul] <;> ring

theorem push_scale (h : ScaleM s M N) (p : CPoint K) (d : K) (V : Nat → Vel K) : push N (scaleP s p) (s * d) V = push M p d V := by
  unfold push scaleP
  dsimp only
  rw [h.b1, h.b2, h.ll1, h.ll2, h.la1, h.la2, mass_imp h.m1, mass_imp h.m2, inv_imp hs, inv_imp hs]

theorem pushSplit_scale (h : ScaleM s M N) (p : CPoint K) (d : K) (V : Nat → Vel K) : pushSplit N (scaleP s p) (s * d) V = pushSplit M p d V := by
  unfold pushSplit scaleP
  dsimp only
  rw [h.b1, h.b2, h.ll1, h.ll2, h.la1, h.la2, mass_imp h.m1, mass_imp h.m2, inv_imp hs, inv_imp hs]

omit hs in
theorem rub_scale (h : ScaleM s M N) (t c1 c2 : V3 K) (d : K) (V : Nat → Vel K) : rub N t c1 c2 (s * d) V = rub M t c1 c2 d V := by
  unfold rub
  dsimp only
  rw [h.b1, h.b2, h.ll1, h.ll2, h.la1, h.la2, mass_imp h.m1, mass_imp h.m2, act_imp h.I1, act_imp h.I2]

omit hs in
theorem twist_scale (h : ScaleM s M N) (d : K) (V : Nat → Vel K) : Solver.twist N (s * d) V = Solver.twist M d V := by
  unfold Solver.twist
  dsimp only
  rw [h.b1, h.b2, h.la1, h.la2, h.normal, act_imp h.I1, act_imp h.I2]

omit hs in
theorem twistWarm_scale (h : ScaleM s M N) (d : K) (V : Nat → Vel K) : twistWarm N (s * d) V = twistWarm M d V := by
  unfold twistWarm
  dsimp only
  rw [h.b1, h.b2, h.la1, h.la2, h.normal, act_imp h.I1, act_imp h.I1, act_imp h.I2]

/-! ### Loops -/

theorem warmPoints_scale (h : ScaleM s M N) : ∀ (ps : List (CPoint K)) (V : Nat → Vel K),
    warmPoints N V (ps.map (scaleP s)) = ((warmPoints M V ps).1, (warmPoints M V ps).2.map (scaleP s))
  | [], _ => rfl
  | p :: ps, V => by
    have k : warmPoint N V (scaleP s p) = ((warmPoint M V p).1, scaleP s (warmPoint M V p).2) := by
      unfold warmPoint
      show (if p.resting then _ else _) = _
      by_cases hr : p.resting = true
      · rw [if_pos hr, if_pos hr]
        exact Prod.ext (push_scale hs h p _ V) rfl
      · rw [if_neg hr, if_neg hr]
        simp [scaleP]
    rw [List.map_cons]
    unfold warmPoints
    dsimp only
    rw [k, warmPoints_scale h ps]
    rfl

theorem warmMan_scale (h : ScaleM s M N) (V : Nat → Vel K) : (warmMan V N).1 = (warmMan V M).1 ∧ ScaleM s (warmMan V M).2 (warmMan V N).2 := by
  have ea : (M.pts.map (scaleP s)).any CPoint.resting = M.pts.any CPoint.resting := by rw [List.any_map]; rfl
  have ed : ∀ t : V3 K, V3.dot (V3.smul N.f1 N.o1 + V3.smul N.f2 N.o2) t = s * V3.dot (V3.smul M.f1 M.o1 + V3.smul M.f2 M.o2) t := fun t => by
    rw [h.f1, h.f2, h.o1, h.o2]
    simp only [V3.dot, V3.add_x, V3.add_y, V3.add_z, V3.smul]; ring
  unfold warmMan
  dsimp only
  rw [h.pts, warmPoints_scale hs h, ea]
  by_cases hr : M.pts.any CPoint.resting = true
  · rw [if_pos hr, if_pos hr]
    dsimp only
    refine ⟨?_, { h with f1 := ?_, f2 := ?_, pts := rfl, tw := h.tw }⟩
    · rw [ed, ed, h.t1, h.t2, h.c11, h.c12, h.c21, h.c22, h.tw, rub_scale h, rub_scale h, twistWarm_scale h]
    · show V3.dot _ N.t1 = _
      rw [ed, h.t1]
    · show V3.dot _ N.t2 = _
      rw [ed, h.t2]
  · rw [if_neg hr, if_neg hr]
    exact ⟨rfl, { h with f1 := (mul_zero s).symm, f2 := (mul_zero s).symm, pts := rfl, tw := (mul_zero s).symm }⟩

theorem solvePoint_scale (cfg : Cfg K) (h : ScaleM s M N) (V : Nat → Vel K) (p : CPoint K) :
    solvePoint cfg N V (scaleP s p) = ((solvePoint cfg M V p).1, scaleP s (solvePoint cfg M V p).2) := by
  have em : ∀ a b : K, max (s * p.imp + -(a + b) * (s * p.invMass)) 0 = s * max (p.imp + -(a + b) * p.invMass) 0 := fun a b => by
    rw [← max_scale hs]; congr 1; ring
  have es : ∀ a b : K, max (s * p.split + -(a + b) * (s * p.invMass)) 0 = s * max (p.split + -(a + b) * p.invMass) 0 := fun a b => by
    rw [← max_scale hs]; congr 1; ring
  have eb : depthBias cfg (scaleP s p) = depthBias cfg p := rfl
  have ei : (scaleP s p).imp = s * p.imp := rfl
  have ev : (scaleP s p).invMass = s * p.invMass := rfl
  have ep : (scaleP s p).split = s * p.split := rfl
  have er1 : (scaleP s p).r1 = p.r1 := rfl
  have er2 : (scaleP s p).r2 = p.r2 := rfl
  have en : (scaleP s p).normal = p.normal := rfl
  have ebi : (scaleP s p).bias = p.bias := rfl
  unfold solvePoint
  dsimp only
  by_cases hc : cfg.split = true
  · simp only [hc, if_true]
    rw [eb, ei, ev, ep, er1, er2, en, ebi, em, ← mul_sub, push_scale hs h, h.b1, h.b2, es, ← mul_sub, pushSplit_scale hs h]
    rfl
  · simp only [hc, Bool.false_eq_true, if_false]
    rw [eb, ei, ev, er1, er2, en, ebi, em, ← mul_sub, push_scale hs h, h.b1, h.b2]
    rfl

theorem solvePoints_scale (cfg : Cfg K) (h : ScaleM s M N) : ∀ (ps : List (CPoint K)) (V : Nat → Vel K),
    solvePoints cfg N V (ps.map (scaleP s)) = ((solvePoints cfg M V ps).1, (solvePoints cfg M V ps).2.map (scaleP s))
  | [], _ => rfl
  | p :: ps, V => by
    rw [List.map_cons]
    unfold solvePoints
    dsimp only
    rw [solvePoint_scale hs cfg h, solvePoints_scale cfg h ps]
    rfl

omit hs in
theorem total_scale : ∀ ps : List (CPoint K), total (ps.map (scaleP s)) = s * total ps
  | [] => by simp [total]
  | p :: ps => by
    have := total_scale ps
    unfold total at this ⊢
    rw [List.map_cons, List.map_cons, List.map_cons, List.sum_cons, List.sum_cons, this, mul_add]
    rfl

theorem solveMan_scale (cfg : Cfg K) (h : ScaleM s M N) (V : Nat → Vel K) :
    (solveMan cfg V N).1 = (solveMan cfg V M).1 ∧ ScaleM s (solveMan cfg V M).2 (solveMan cfg V N).2 := by
  have ec : ∀ l a b c : K, clamp (M.mu * (s * l)) (s * a + -b * (s * c)) = s * clamp (M.mu * l) (a + -b * c) := fun l a b c => by
    rw [← clamp_scale hs]; congr 1 <;> ring
  unfold solveMan
  dsimp only
  rw [h.pts, solvePoints_scale hs cfg h]
  dsimp only
  rw [total_scale, h.b1, h.b2, h.r1, h.r2, h.t1, h.t2, h.c11, h.c12, h.c21, h.c22, h.normal, h.mu, h.f1, h.f2, h.tw, h.k1, h.k2, h.kt]
  simp only [ec, ← mul_sub, rub_scale h, twist_scale h]
  exact ⟨trivial, { h with f1 := rfl, f2 := rfl, tw := rfl, pts := rfl, b1 := rfl, b2 := rfl, r1 := rfl, r2 := rfl, t1 := rfl, t2 := rfl, c11 := rfl, c12 := rfl, c21 := rfl, c22 := rfl,
                               normal := rfl, mu := rfl, k1 := rfl, k2 := rfl, kt := rfl }⟩

theorem warmStart_scale : ∀ {Ms Ns : List (Man K)} (V : Nat → Vel K), List.Forall₂ (ScaleM s) Ms Ns →
    (warmStart V Ns).1 = (warmStart V Ms).1 ∧ List.Forall₂ (ScaleM s) (warmStart V Ms).2 (warmStart V Ns).2
  | [], [], _, _ => ⟨rfl, .nil⟩
  | M :: Ms, N :: Ns, V, .cons h hs' => by
    obtain ⟨a, b⟩ := warmMan_scale hs h V
    unfold warmStart
    dsimp only
    rw [a]
    obtain ⟨c, d⟩ := warmStart_scale (warmMan V M).1 hs'
    exact ⟨c, .cons b d⟩

theorem solve_scale (cfg : Cfg K) : ∀ {Ms Ns : List (Man K)} (V : Nat → Vel K), List.Forall₂ (ScaleM s) Ms Ns →
    (solve cfg V Ns).1 = (solve cfg V Ms).1 ∧ List.Forall₂ (ScaleM s) (solve cfg V Ms).2 (solve cfg V Ns).2
  | [], [], _, _ => ⟨rfl, .nil⟩
  | M :: Ms, N :: Ns, V, .cons h hs' => by
    obtain ⟨a, b⟩ := solveMan_scale hs cfg h V
    unfold solve
    dsimp only
    rw [a]
    obtain ⟨c, d⟩ := solve_scale cfg (solveMan cfg V M).1 hs'
    exact ⟨c, .cons b d⟩

theorem loop_scale (cfg : Cfg K) (jc : JCfg K) (body body' : Nat → JBody K) : ∀ (n : Nat) {Ms Ns : List (Man K)} (V : Nat → Vel K), List.Forall₂ (ScaleM s) Ms Ns →
    (loop cfg jc body' n (V, [], Ns)).1 = (loop cfg jc body n (V, [], Ms)).1 ∧ (loop cfg jc body' n (V, [], Ns)).2.1 = [] ∧
      (loop cfg jc body n (V, [], Ms)).2.1 = [] ∧ List.Forall₂ (ScaleM s) (loop cfg jc body n (V, [], Ms)).2.2 (loop cfg jc body' n (V, [], Ns)).2.2
  | 0, _, _, _, h => ⟨rfl, rfl, rfl, h⟩
  | n + 1, Ms, Ns, V, h => by
    obtain ⟨c, d⟩ := solve_scale hs cfg V h
    have := loop_scale cfg jc body body' n (solve cfg V Ms).1 d
    rw [← c] at this
    refine Eq.mp ?_ this
    rw [c]
    show _ = ((loop cfg jc body' n ((solve cfg V Ns).1, [], (solve cfg V Ns).2)).1 = _ ∧ (loop cfg jc body' n ((solve cfg V Ns).1, [], (solve cfg V Ns).2)).2.1 = _ ∧ _ ∧
      List.Forall₂ (ScaleM s) _ (loop cfg jc body' n ((solve cfg V Ns).1, [], (solve cfg V Ns).2)).2.2)
    rw [c]
    rfl

/-- **The solver with heavier bodies.** Without joints, the velocities are the same and all impulses are `s` times as large. -/
theorem solveStep_scale (cfg : Cfg K) (jc : JCfg K) {body body' : Nat → JBody K} (V : Nat → Vel K) {Xs : List (XMan K)}
    (hX : ∀ X ∈ Xs, ScaleB s (body X.b1).toSBody (body' X.b1).toSBody ∧ ScaleB s (body X.b2).toSBody (body' X.b2).toSBody) (n : Nat) :
    (solveStep cfg jc body' V [] (Xs.map (scaleXM s)) n).1 = (solveStep cfg jc body V [] Xs n).1 ∧
      (solveStep cfg jc body' V [] (Xs.map (scaleXM s)) n).2.1 = [] ∧ (solveStep cfg jc body V [] Xs n).2.1 = [] ∧
      List.Forall₂ (ScaleM s) (solveStep cfg jc body V [] Xs n).2.2 (solveStep cfg jc body' V [] (Xs.map (scaleXM s)) n).2.2 := by
  have hM : List.Forall₂ (ScaleM s) (Xs.map (initMan cfg jc.sqrt fun b => (body b).toSBody)) ((Xs.map (scaleXM s)).map (initMan cfg jc.sqrt fun b => (body' b).toSBody)) := by
    rw [List.map_map, List.forall₂_map_left_iff, List.forall₂_map_right_iff, List.forall₂_same]
    exact fun X h => initMan_scale hs cfg jc.sqrt (hX X h).1 (hX X h).2
  obtain ⟨a, b⟩ := warmStart_scale hs V hM
  have := loop_scale hs cfg jc body body' n (warmStart V (Xs.map (initMan cfg jc.sqrt fun b => (body b).toSBody))).1 b
  have e : ∀ (bd : Nat → JBody K) (W : Nat → Vel K) (Ys : List (XMan K)), solveStep cfg jc bd W [] Ys n =
      loop cfg jc bd n ((warmStart W (Ys.map (initMan cfg jc.sqrt fun b => (bd b).toSBody))).1, [], (warmStart W (Ys.map (initMan cfg jc.sqrt fun b => (bd b).toSBody))).2) := by
    intro bd W Ys
    unfold solveStep
    dsimp only
    rw [List.map_nil]
    rw [show ∀ W, warmAll jc bd [] W = W from fun W => by unfold warmAll; split_ifs <;> rfl]
  rw [e, e, a]
  exact this

end impulses
end Heavier
end RP3D
