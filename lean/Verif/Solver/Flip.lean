import Verif.Solver.Lemmas
import Verif.Solver.Joints
import Mathlib.Tactic.Ring
import Mathlib.Tactic.FieldSimp

/-! The contact solver with the two bodies of a contact manifold exchanged (C146). -/

set_option linter.unusedSectionVars false

namespace RP3D
namespace Flip
open Solver Joints
variable {K : Type} [Field K] [LinearOrder K] [IsStrictOrderedRing K]

/-! ### Specification -/

/-- The same contact point seen from the other body: the normal points from the first body to the second one. -/
def flipX (x : XPoint K) : XPoint K := { x with normal := -x.normal, p1 := x.p2, p2 := x.p1 }

/-- The same manifold with the other body as the first one. The friction impulse that is kept from the last step is the force on the second body, hence
reversed: `f1 * t1 + f2 * t2` changes its sign. -/
def flipXM (X : XMan K) : XMan K :=
  { X with b1 := X.b2, b2 := X.b1, t1 := -X.t1, f2 := -X.f2, pts := X.pts.map flipX }

/-- Two manifolds that differ at most in which body is the first one. -/
def Same (X Y : XMan K) : Prop := Y = X ∨ Y = flipXM X

/-- A manifold between two bodies, with a friction coefficient that is not negative (Material.h:124-133). -/
def GoodX (X : XMan K) : Prop := X.b1 ≠ X.b2 ∧ 0 ≤ X.mu

/-! ### Manifolds of the solver -/

def flipP (p : CPoint K) : CPoint K := { p with normal := -p.normal, r1 := p.r2, r2 := p.r1, i1 := -p.i2, i2 := -p.i1 }

def flipM (M : Man K) : Man K :=
  { M with b1 := M.b2, b2 := M.b1, m1 := M.m2, m2 := M.m1, I1 := M.I2, I2 := M.I1, ll1 := M.ll2, ll2 := M.ll1, la1 := M.la2, la2 := M.la1
           normal := -M.normal, t1 := -M.t1, o1 := -M.o1, r1 := M.r2, r2 := M.r1
           c11 := -M.c21, c12 := M.c22, c21 := -M.c11, c22 := M.c12, f2 := -M.f2, pts := M.pts.map flipP }

/-! ### Vectors -/

theorem neg_neg3 (a : V3 K) : - -a = a := by ext <;> simp
theorem dot_nn (a b : V3 K) : V3.dot (-a) (-b) = V3.dot a b := by simp only [V3.dot, V3.neg_x, V3.neg_y, V3.neg_z]; ring
theorem dot_n (a b : V3 K) : V3.dot (-a) b = -V3.dot a b := by simp only [V3.dot, V3.neg_x, V3.neg_y, V3.neg_z]; ring
theorem dot_r (a b : V3 K) : V3.dot a (-b) = -V3.dot a b := by simp only [V3.dot, V3.neg_x, V3.neg_y, V3.neg_z]; ring
theorem len_n (a : V3 K) : (-a).lengthSq = a.lengthSq := by simp only [V3.lengthSq, V3.neg_x, V3.neg_y, V3.neg_z]; ring
theorem cross_n (a b : V3 K) : V3.cross a (-b) = -V3.cross a b := by ext <;> simp [V3.cross] <;> ring
theorem n_cross (a b : V3 K) : V3.cross (-a) b = -V3.cross a b := by ext <;> simp [V3.cross] <;> ring
theorem act_n (I : M3 K) (a : V3 K) : I.act (-a) = -I.act a := by ext <;> simp [M3.act] <;> ring
theorem smul_n (d : K) (a : V3 K) : V3.smul d (-a) = -V3.smul d a := by ext <;> simp
theorem n_smul (d : K) (a : V3 K) : V3.smul (-d) a = -V3.smul d a := by ext <;> simp
theorem had_n (a b : V3 K) : V3.had a (-b) = -V3.had a b := by ext <;> simp [V3.had]
theorem n_had (a b : V3 K) : V3.had (-a) b = -V3.had a b := by ext <;> simp [V3.had]
theorem sub_n (a b : V3 K) : a - -b = a + b := by ext <;> simp
theorem add_n (a b : V3 K) : a + -b = a - b := by ext <;> simp <;> ring
theorem n_sub (a b : V3 K) : -a - -b = -(a - b) := by ext <;> simp <;> ring
theorem n_add (a b : V3 K) : -a + -b = -(a + b) := by ext <;> simp <;> ring

theorem sum3_n (l : List (V3 K)) : sum3 (l.map fun a => -a) = -sum3 l := by
  unfold sum3
  have : ∀ (l : List (V3 K)) (a : V3 K), (l.map fun a => -a).foldl (· + ·) (-a) = -l.foldl (· + ·) a := by
    intro l
    induction l with
    | nil => intro a; rfl
    | cons x l ih => intro a; rw [List.map_cons, List.foldl_cons, List.foldl_cons, n_add]; exact ih _
  have h := this l 0
  rwa [show -(0 : V3 K) = 0 by ext <;> simp] at h

theorem rel_swap (a b : Vel K) (r s : V3 K) : rel b a s r = -rel a b r s := by unfold rel; ext <;> simp <;> ring
theorem relSplit_swap (a b : Vel K) (r s : V3 K) : relSplit b a s r = -relSplit a b r s := by unfold relSplit; ext <;> simp <;> ring

theorem unit_n (cfg : Cfg K) (sqrt : K → K) (n : V3 K) : unit cfg sqrt (-n) = -unit cfg sqrt n := by
  unfold unit; rw [len_n, smul_n]; split_ifs <;> rfl

theorem orthogonal_n (sqrt : K → K) (n : V3 K) : orthogonal sqrt (-n) = -orthogonal sqrt n := by
  unfold orthogonal
  simp only [V3.neg_x, V3.neg_y, V3.neg_z, abs_neg, neg_mul_neg]
  split_ifs <;> rw [← smul_n] <;> congr 1 <;> ext <;> simp

theorem friction_n (cfg : Cfg K) (sqrt : K → K) (dv n : V3 K) : frictionVector cfg sqrt (-dv) (-n) = -frictionVector cfg sqrt dv n := by
  unfold frictionVector
  dsimp only
  rw [dot_nn, smul_n, n_sub, len_n, smul_n, orthogonal_n]
  split_ifs <;> rfl

theorem clamp_n {l : K} (h : 0 ≤ l) (x : K) : clamp l (-x) = -clamp l x := by
  unfold clamp
  rcases le_total x l with h1 | h1 <;> rcases le_total (-l) x with h2 | h2
  · rw [min_eq_left h1, max_eq_right h2, min_eq_left (show -x ≤ l by linarith), max_eq_right (show -l ≤ -x by linarith)]
  · rw [min_eq_left h1, max_eq_left h2, min_eq_right (show l ≤ -x by linarith), max_eq_right (show -l ≤ l by linarith)]; ring
  · rw [min_eq_right h1, max_eq_right (show -l ≤ l by linarith), min_eq_left (show -x ≤ l by linarith), max_eq_left (show -x ≤ -l by linarith)]
  · rw [min_eq_right h1, max_eq_right (show -l ≤ l by linarith), min_eq_left (show -x ≤ l by linarith), max_eq_left (show -x ≤ -l by linarith)]

/-! ### Initialisation -/

theorem initPoint_flip (cfg : Cfg K) (A B : SBody K) (e : K) (x : XPoint K) :
    initPoint cfg B A e (flipX x) = flipP (initPoint cfg A B e x) := by
  have hd : V3.dot (rel ⟨B.v, B.w, 0, 0⟩ ⟨A.v, A.w, 0, 0⟩ (x.p2 - B.x) (x.p1 - A.x)) (-x.normal) =
      V3.dot (rel ⟨A.v, A.w, 0, 0⟩ ⟨B.v, B.w, 0, 0⟩ (x.p1 - A.x) (x.p2 - B.x)) x.normal := by rw [rel_swap, dot_nn]
  unfold initPoint flipP flipX
  dsimp only
  rw [hd, cross_n, cross_n, act_n, act_n, n_cross, n_cross, dot_nn, dot_nn]
  congr 2
  ring

theorem initMan_flip (cfg : Cfg K) (sqrt : K → K) (body : Nat → SBody K) (X : XMan K) :
    initMan cfg sqrt body (flipXM X) = flipM (initMan cfg sqrt body X) := by
  have hn : (X.pts.map flipX).map XPoint.normal = (X.pts.map XPoint.normal).map fun a => -a := by rw [List.map_map, List.map_map]; rfl
  have h1 : (X.pts.map flipX).map XPoint.p1 = X.pts.map XPoint.p2 := by rw [List.map_map]; rfl
  have h2 : (X.pts.map flipX).map XPoint.p2 = X.pts.map XPoint.p1 := by rw [List.map_map]; rfl
  have h3 : ∀ A B : SBody K, (X.pts.map flipX).map (initPoint cfg B A X.restitution) = (X.pts.map (initPoint cfg A B X.restitution)).map flipP := by
    intro A B
    rw [List.map_map, List.map_map]
    exact List.map_congr_left fun x _ => initPoint_flip cfg A B _ x
  unfold initMan flipM flipXM
  dsimp only
  rw [hn, h1, h2, h3, sum3_n, unit_n, List.length_map, rel_swap, friction_n]
  simp only [cross_n, n_cross, act_n, dot_r, dot_n, neg_neg3, neg_neg]
  congr 2
  · ring
  · ring
  · rw [add_comm]

/-! ### Impulses -/

/-- Two bodies may be changed in either order. -/
theorem two_swap {b1 b2 : Nat} (h : b1 ≠ b2) (V : Nat → Vel K) (f g : Vel K → Vel K) :
    (let V := upd V b2 (g (V b2)); upd V b1 (f (V b1))) = let V := upd V b1 (f (V b1)); upd V b2 (g (V b2)) := by
  dsimp only
  rw [upd_ne _ _ h, upd_ne _ _ h.symm]
  funext k; unfold upd; split_ifs <;> simp_all

variable {M : Man K} (h : M.b1 ≠ M.b2)
include h

theorem push_flip (p : CPoint K) (d : K) (V : Nat → Vel K) : push (flipM M) (flipP p) d V = push M p d V := by
  refine Eq.trans ?_ (two_swap h V (fun u => { u with v := u.v - V3.had (V3.smul M.m1 (V3.smul d p.normal)) M.ll1, w := u.w - V3.smul d (V3.had p.i1 M.la1) })
    (fun u => { u with v := u.v + V3.had (V3.smul M.m2 (V3.smul d p.normal)) M.ll2, w := u.w + V3.smul d (V3.had p.i2 M.la2) }))
  unfold push flipM flipP
  simp only [smul_n, n_had, sub_n, add_n]

theorem pushSplit_flip (p : CPoint K) (d : K) (V : Nat → Vel K) : pushSplit (flipM M) (flipP p) d V = pushSplit M p d V := by
  refine Eq.trans ?_ (two_swap h V (fun u => { u with vs := u.vs - V3.had (V3.smul M.m1 (V3.smul d p.normal)) M.ll1, ws := u.ws - V3.smul d (V3.had p.i1 M.la1) })
    (fun u => { u with vs := u.vs + V3.had (V3.smul M.m2 (V3.smul d p.normal)) M.ll2, ws := u.ws + V3.smul d (V3.had p.i2 M.la2) }))
  unfold pushSplit flipM flipP
  simp only [smul_n, n_had, sub_n, add_n]

/-- The friction vector and both arms are reversed. -/
theorem rub_flip (t c1 c2 : V3 K) (d : K) (V : Nat → Vel K) : rub (flipM M) (-t) (-c2) (-c1) d V = rub M t c1 c2 d V := by
  refine Eq.trans ?_ (two_swap h V (fun u => { u with v := u.v - V3.had (V3.smul M.m1 (V3.smul d t)) M.ll1, w := u.w + V3.had M.la1 (M.I1.act (V3.smul d (-c1))) })
    (fun u => { u with v := u.v + V3.had (V3.smul M.m2 (V3.smul d t)) M.ll2, w := u.w + V3.had M.la2 (M.I2.act (V3.smul d c2)) }))
  unfold rub flipM
  simp only [smul_n, n_had, sub_n, add_n, neg_neg3]

/-- Only the impulse is reversed. -/
theorem rub_flip' (t c1 c2 : V3 K) (d : K) (V : Nat → Vel K) : rub (flipM M) t c2 c1 (-d) V = rub M t c1 c2 d V := by
  rw [← rub_flip h]
  unfold rub
  simp only [smul_n, n_smul, neg_neg3]

theorem twist_flip (d : K) (V : Nat → Vel K) : Solver.twist (flipM M) d V = Solver.twist M d V := by
  refine Eq.trans ?_ (two_swap h V (fun u => { u with w := u.w - V3.had M.la1 (M.I1.act (V3.smul d M.normal)) })
    (fun u => { u with w := u.w + V3.had M.la2 (M.I2.act (V3.smul d M.normal)) }))
  unfold Solver.twist flipM
  simp only [smul_n, act_n, had_n, sub_n, add_n]

omit h in
theorem twistWarm_two (M : Man K) (d : K) (V : Nat → Vel K) : twistWarm M d V = Solver.twist M d (Solver.twist M d V) := by
  unfold twistWarm Solver.twist
  simp only [smul_n, act_n, had_n, add_n]

theorem twistWarm_flip (d : K) (V : Nat → Vel K) : twistWarm (flipM M) d V = twistWarm M d V := by
  rw [twistWarm_two, twistWarm_two, twist_flip h, twist_flip h]

/-! ### Warm start -/

theorem warmPoints_flip : ∀ (ps : List (CPoint K)) (V : Nat → Vel K),
    warmPoints (flipM M) V (ps.map flipP) = ((warmPoints M V ps).1, (warmPoints M V ps).2.map flipP)
  | [], _ => rfl
  | p :: ps, V => by
    have h1 : warmPoint (flipM M) V (flipP p) = ((warmPoint M V p).1, flipP (warmPoint M V p).2) := by
      unfold warmPoint
      rw [show (flipP p).resting = p.resting from rfl]
      split_ifs
      · rw [show (flipP p).imp = p.imp from rfl, push_flip h]
      · rfl
    rw [List.map_cons]
    unfold warmPoints
    dsimp only
    rw [h1, warmPoints_flip ps]
    rfl

theorem warmMan_flip (V : Nat → Vel K) : warmMan V (flipM M) = ((warmMan V M).1, flipM (warmMan V M).2) := by
  have hr : (flipM M).pts.any CPoint.resting = M.pts.any CPoint.resting := by
    show (M.pts.map flipP).any _ = _
    rw [List.any_map]; rfl
  have hs : warmPoints (flipM M) V (flipM M).pts = ((warmPoints M V M.pts).1, (warmPoints M V M.pts).2.map flipP) := warmPoints_flip h _ _
  have ho : V3.smul (flipM M).f1 (flipM M).o1 + V3.smul (flipM M).f2 (flipM M).o2 = -(V3.smul M.f1 M.o1 + V3.smul M.f2 M.o2) := by
    show V3.smul M.f1 (-M.o1) + V3.smul (-M.f2) M.o2 = _
    rw [smul_n, n_smul, n_add]
  unfold warmMan
  dsimp only
  rw [hr, hs, ho]
  split_ifs
  · rw [show (flipM M).t1 = -M.t1 from rfl, show (flipM M).t2 = M.t2 from rfl, dot_nn, dot_n, show (flipM M).c11 = -M.c21 from rfl,
      show (flipM M).c21 = -M.c11 from rfl, show (flipM M).c12 = M.c22 from rfl, show (flipM M).c22 = M.c12 from rfl, rub_flip h, rub_flip' h,
      show (flipM M).tw = M.tw from rfl, twistWarm_flip h]
    rfl
  · unfold flipM
    simp only [neg_zero]

/-! ### Iterations -/

theorem solvePoint_flip (cfg : Cfg K) (V : Nat → Vel K) (p : CPoint K) :
    solvePoint cfg (flipM M) V (flipP p) = ((solvePoint cfg M V p).1, flipP (solvePoint cfg M V p).2) := by
  have hb : depthBias cfg (flipP p) = depthBias cfg p := rfl
  have hj : ∀ V : Nat → Vel K, V3.dot (rel (V (flipM M).b1) (V (flipM M).b2) (flipP p).r1 (flipP p).r2) (flipP p).normal =
      V3.dot (rel (V M.b1) (V M.b2) p.r1 p.r2) p.normal := by
    intro V
    show V3.dot (rel (V M.b2) (V M.b1) p.r2 p.r1) (-p.normal) = _
    rw [rel_swap, dot_nn]
  have hs : ∀ V : Nat → Vel K, V3.dot (relSplit (V (flipM M).b1) (V (flipM M).b2) (flipP p).r1 (flipP p).r2) (flipP p).normal =
      V3.dot (relSplit (V M.b1) (V M.b2) p.r1 p.r2) p.normal := by
    intro V
    show V3.dot (relSplit (V M.b2) (V M.b1) p.r2 p.r1) (-p.normal) = _
    rw [relSplit_swap, dot_nn]
  unfold solvePoint
  dsimp only
  rw [hj, hb, hs, push_flip h, pushSplit_flip h]
  split_ifs <;> rfl

theorem solvePoints_flip (cfg : Cfg K) : ∀ (ps : List (CPoint K)) (V : Nat → Vel K),
    solvePoints cfg (flipM M) V (ps.map flipP) = ((solvePoints cfg M V ps).1, (solvePoints cfg M V ps).2.map flipP)
  | [], _ => rfl
  | p :: ps, V => by
    rw [List.map_cons]
    unfold solvePoints
    dsimp only
    rw [solvePoint_flip h, solvePoints_flip cfg ps]
    rfl

omit h in
theorem total_flip (ps : List (CPoint K)) : total (ps.map flipP) = total ps := by unfold total; rw [List.map_map]; rfl

omit h in
theorem total_pos (cfg : Cfg K) (M : Man K) : ∀ (ps : List (CPoint K)) (V : Nat → Vel K), 0 ≤ total (solvePoints cfg M V ps).2
  | [], _ => by simp [solvePoints, total]
  | p :: ps, V => by
    have h1 : 0 ≤ (solvePoint cfg M V p).2.imp := by unfold solvePoint; dsimp only; split_ifs <;> exact le_max_right _ _
    have h2 := total_pos cfg M ps (solvePoint cfg M V p).1
    unfold total at h2 ⊢
    unfold solvePoints
    dsimp only
    rw [List.map_cons, List.sum_cons]
    exact add_nonneg h1 h2

theorem solveMan_flip (hm : 0 ≤ M.mu) (cfg : Cfg K) (V : Nat → Vel K) :
    solveMan cfg V (flipM M) = ((solveMan cfg V M).1, flipM (solveMan cfg V M).2) := by
  have hs : solvePoints cfg (flipM M) V (flipM M).pts = ((solvePoints cfg M V M.pts).1, (solvePoints cfg M V M.pts).2.map flipP) := solvePoints_flip h _ _ _
  have hl : 0 ≤ M.mu * total (solvePoints cfg M V M.pts).2 := mul_nonneg hm (total_pos cfg M _ V)
  have hr1 : ∀ V : Nat → Vel K, V3.dot (rel (V (flipM M).b1) (V (flipM M).b2) (flipM M).r1 (flipM M).r2) (flipM M).t1 =
      V3.dot (rel (V M.b1) (V M.b2) M.r1 M.r2) M.t1 := by
    intro V
    show V3.dot (rel (V M.b2) (V M.b1) M.r2 M.r1) (-M.t1) = _
    rw [rel_swap, dot_nn]
  have hr2 : ∀ V : Nat → Vel K, V3.dot (rel (V (flipM M).b1) (V (flipM M).b2) (flipM M).r1 (flipM M).r2) (flipM M).t2 =
      -V3.dot (rel (V M.b1) (V M.b2) M.r1 M.r2) M.t2 := by
    intro V
    show V3.dot (rel (V M.b2) (V M.b1) M.r2 M.r1) M.t2 = _
    rw [rel_swap, dot_n]
  have hr3 : ∀ V : Nat → Vel K, V3.dot ((V (flipM M).b2).w - (V (flipM M).b1).w) (flipM M).normal = V3.dot ((V M.b2).w - (V M.b1).w) M.normal := by
    intro V
    show V3.dot ((V M.b1).w - (V M.b2).w) (-M.normal) = _
    simp only [V3.dot, V3.neg_x, V3.neg_y, V3.neg_z, V3.sub_x, V3.sub_y, V3.sub_z]; ring
  have ht1 : ∀ d (V : Nat → Vel K), rub (flipM M) (flipM M).t1 (flipM M).c11 (flipM M).c21 d V = rub M M.t1 M.c11 M.c21 d V := fun d V => rub_flip h _ _ _ _ _
  have ht2 : ∀ d (V : Nat → Vel K), rub (flipM M) (flipM M).t2 (flipM M).c12 (flipM M).c22 (-d) V = rub M M.t2 M.c12 M.c22 d V := fun d V => rub_flip' h _ _ _ _ _
  have hc : ∀ x : K, clamp (M.mu * total (solvePoints cfg M V M.pts).2) (-M.f2 + - -x * M.k2) = -clamp (M.mu * total (solvePoints cfg M V M.pts).2) (M.f2 + -x * M.k2) := by
    intro x
    rw [← clamp_n hl]
    congr 1
    ring
  have hd : ∀ x y : K, -x - -y = -(x - y) := by intro x y; ring
  unfold solveMan
  dsimp only
  rw [hs, total_flip, show (flipM M).mu = M.mu from rfl, show (flipM M).f1 = M.f1 from rfl, show (flipM M).f2 = -M.f2 from rfl, show (flipM M).tw = M.tw from rfl,
    show (flipM M).k1 = M.k1 from rfl, show (flipM M).k2 = M.k2 from rfl, show (flipM M).kt = M.kt from rfl]
  dsimp only
  rw [hr1, ht1, hr2, hc, hd, ht2, hr3, twist_flip h]
  rfl

omit h

/-! ### All manifolds -/

/-- Manifolds of the solver that differ at most in which body is the first one. -/
def SameM (M N : Man K) : Prop := N = M ∨ N = flipM M

def Good (M : Man K) : Prop := M.b1 ≠ M.b2 ∧ 0 ≤ M.mu

def Mirror (M N : Man K) : Prop := Good M ∧ SameM M N

theorem warm_good {M : Man K} (h : Good M) (V : Nat → Vel K) : Good (warmMan V M).2 := by unfold warmMan; dsimp only; split_ifs <;> exact h
theorem solve_good {M : Man K} (h : Good M) (cfg : Cfg K) (V : Nat → Vel K) : Good (solveMan cfg V M).2 := h

theorem init_pair {X Y : XMan K} (hg : GoodX X) (h : Same X Y) (cfg : Cfg K) (sqrt : K → K) (body : Nat → SBody K) :
    Mirror (initMan cfg sqrt body X) (initMan cfg sqrt body Y) := by
  rcases h with rfl | rfl
  · exact ⟨hg, .inl rfl⟩
  · exact ⟨hg, .inr (initMan_flip cfg sqrt body X)⟩

theorem warm_pair {M N : Man K} (h : Mirror M N) (V : Nat → Vel K) : (warmMan V N).1 = (warmMan V M).1 ∧ Mirror (warmMan V M).2 (warmMan V N).2 := by
  obtain ⟨hg, rfl | rfl⟩ := h
  · exact ⟨rfl, warm_good hg V, .inl rfl⟩
  · rw [warmMan_flip hg.1]; exact ⟨rfl, warm_good hg V, .inr rfl⟩

theorem solve_pair {M N : Man K} (h : Mirror M N) (cfg : Cfg K) (V : Nat → Vel K) :
    (solveMan cfg V N).1 = (solveMan cfg V M).1 ∧ Mirror (solveMan cfg V M).2 (solveMan cfg V N).2 := by
  obtain ⟨hg, rfl | rfl⟩ := h
  · exact ⟨rfl, solve_good hg cfg V, .inl rfl⟩
  · rw [solveMan_flip hg.1 hg.2]; exact ⟨rfl, solve_good hg cfg V, .inr rfl⟩

theorem warmStart_pair {Ms Ns : List (Man K)} (h : List.Forall₂ Mirror Ms Ns) (V : Nat → Vel K) :
    (warmStart V Ns).1 = (warmStart V Ms).1 ∧ List.Forall₂ Mirror (warmStart V Ms).2 (warmStart V Ns).2 := by
  induction h generalizing V with
  | nil => exact ⟨rfl, .nil⟩
  | cons h _ ih =>
    obtain ⟨h1, h2⟩ := warm_pair h V
    unfold warmStart
    dsimp only
    rw [h1]
    exact ⟨(ih _).1, .cons h2 (ih _).2⟩

theorem solveList_pair {Ms Ns : List (Man K)} (h : List.Forall₂ Mirror Ms Ns) (cfg : Cfg K) (V : Nat → Vel K) :
    (solve cfg V Ns).1 = (solve cfg V Ms).1 ∧ List.Forall₂ Mirror (solve cfg V Ms).2 (solve cfg V Ns).2 := by
  induction h generalizing V with
  | nil => exact ⟨rfl, .nil⟩
  | cons h _ ih =>
    obtain ⟨h1, h2⟩ := solve_pair h cfg V
    unfold solve
    dsimp only
    rw [h1]
    exact ⟨(ih _).1, .cons h2 (ih _).2⟩

theorem loop_pair (cfg : Cfg K) (jc : JCfg K) (body : Nat → JBody K) : ∀ (n : Nat) (V : Nat → Vel K) (Js : List (Joint K)) (Ms Ns : List (Man K)),
    List.Forall₂ Mirror Ms Ns → (loop cfg jc body n (V, Js, Ns)).1 = (loop cfg jc body n (V, Js, Ms)).1 ∧
      (loop cfg jc body n (V, Js, Ns)).2.1 = (loop cfg jc body n (V, Js, Ms)).2.1 ∧
      List.Forall₂ Mirror (loop cfg jc body n (V, Js, Ms)).2.2 (loop cfg jc body n (V, Js, Ns)).2.2
  | 0, V, Js, Ms, Ns, h => ⟨rfl, rfl, h⟩
  | n + 1, V, Js, Ms, Ns, h => by
    obtain ⟨h1, h2⟩ := solveList_pair h cfg (solveAll jc body V Js).1
    unfold loop
    dsimp only
    rw [h1]
    exact loop_pair cfg jc body n _ _ _ _ h2

theorem solveStep_pair (cfg : Cfg K) (jc : JCfg K) (body : Nat → JBody K) (V : Nat → Vel K) (Js : List (Joint K)) {Xs Ys : List (XMan K)}
    (hg : ∀ X ∈ Xs, GoodX X) (h : List.Forall₂ Same Xs Ys) (n : Nat) :
    (solveStep cfg jc body V Js Ys n).1 = (solveStep cfg jc body V Js Xs n).1 ∧
      (solveStep cfg jc body V Js Ys n).2.1 = (solveStep cfg jc body V Js Xs n).2.1 ∧
      List.Forall₂ Mirror (solveStep cfg jc body V Js Xs n).2.2 (solveStep cfg jc body V Js Ys n).2.2 := by
  have hi : List.Forall₂ Mirror (Xs.map (initMan cfg jc.sqrt fun b => (body b).toSBody)) (Ys.map (initMan cfg jc.sqrt fun b => (body b).toSBody)) := by
    induction h with
    | nil => exact .nil
    | cons h _ ih =>
      exact .cons (init_pair (hg _ (List.mem_cons_self ..)) h _ _ _) (ih fun X hX => hg X (List.mem_cons_of_mem _ hX))
  obtain ⟨h1, h2⟩ := warmStart_pair hi V
  unfold solveStep
  dsimp only
  rw [h1]
  exact loop_pair cfg jc body n _ _ _ _ h2

/-- What is kept for the next step is the same as well. -/
theorem store_flip (M : Man K) (X : XMan K) : store (flipM M) (flipXM X) = flipXM (store M X) := by
  have : ∀ (l : List (XPoint K)) (m : List (CPoint K)),
      ((l.map flipX).zip (m.map flipP)).map (fun q => ({ q.1 with imp := q.2.imp, resting := true } : XPoint K)) =
        ((l.zip m).map fun q => ({ q.1 with imp := q.2.imp, resting := true } : XPoint K)).map flipX := by
    intro l
    induction l with
    | nil => intro m; rfl
    | cons x l ih =>
      intro m
      cases m with
      | nil => rfl
      | cons p m => exact congrArg _ (ih m)
  unfold store flipM flipXM
  dsimp only
  rw [this]

end Flip
end RP3D
