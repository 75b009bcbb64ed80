import Verif.Props.ContactTurn
import Verif.Props.Round
import Verif.Solver.Whole

/-! The contact solver in a world that is turned as a whole (C143). -/

set_option linter.unusedSectionVars false

namespace RP3D
namespace Turned
open Solver Joints
variable {K : Type} [Field K] [LinearOrder K] [IsStrictOrderedRing K]

/-! ### Specification -/

/-- The same tensor, turned: it acts on turned vectors as the original one on the original vectors. -/
def Conj (g : Quat K) (A B : M3 K) : Prop := ∀ x, B.act (g.rot x) = g.rot (A.act x)

/-- Turned velocities. -/
def turnV (g : Quat K) (v : Vel K) : Vel K := ⟨g.rot v.v, g.rot v.w, g.rot v.vs, g.rot v.ws⟩

/-- A turned contact point. -/
def turnX (g : Quat K) (x : XPoint K) : XPoint K := { x with normal := g.rot x.normal, p1 := g.rot x.p1, p2 := g.rot x.p2 }

/-- A turned manifold. -/
def turnXM (g : Quat K) (X : XMan K) : XMan K := { X with t1 := g.rot X.t1, t2 := g.rot X.t2, pts := X.pts.map (turnX g) }

/-- No axis is locked. -/
def Loose (B : SBody K) : Prop := B.ll = ⟨1, 1, 1⟩ ∧ B.la = ⟨1, 1, 1⟩

/-- A turned body. -/
structure TurnB (g : Quat K) (A B : SBody K) : Prop where
  x : B.x = g.rot A.x
  v : B.v = g.rot A.v
  w : B.w = g.rot A.w
  m : B.m = A.m
  I : Conj g A.I B.I
  loose : Loose A
  loose' : Loose B

/-- The bodies slide along each other when the step begins: the relative velocity at the middle of the contact points, without its part along the mean normal. -/
def slip (cfg : Cfg K) (sqrt : K → K) (body : Nat → SBody K) (X : XMan K) : V3 K :=
  let A := body X.b1
  let B := body X.b2
  let n := unit cfg sqrt (sum3 (X.pts.map XPoint.normal))
  let r1 := V3.smul (1 / (X.pts.length : K)) (sum3 (X.pts.map XPoint.p1)) - A.x
  let r2 := V3.smul (1 / (X.pts.length : K)) (sum3 (X.pts.map XPoint.p2)) - B.x
  let dv := B.v + V3.cross B.w r2 - A.v - V3.cross A.w r1
  dv - V3.smul (V3.dot dv n) n

/-- Contacts without friction, or between bodies that slide. -/
def Plain (cfg : Cfg K) (sqrt : K → K) (body : Nat → SBody K) (X : XMan K) : Prop :=
  (X.mu = 0 ∧ X.f1 = 0 ∧ X.f2 = 0) ∨ cfg.eps < sqrt (slip cfg sqrt body X).lengthSq

/-! ### Rotations -/

section rot
variable {g : Quat K} (hg : g.lengthSq = 1)

theorem had_ones (x : V3 K) : V3.had x ⟨1, 1, 1⟩ = x := by ext <;> simp [V3.had]
theorem ones_had (x : V3 K) : V3.had ⟨1, 1, 1⟩ x = x := by ext <;> simp [V3.had]
theorem rot_add (q : Quat K) (a b : V3 K) : q.rot (a + b) = q.rot a + q.rot b := by
  ext <;> simp only [Quat.rot, V3.add_x, V3.add_y, V3.add_z] <;> ring
theorem rot_zero (q : Quat K) : q.rot (0 : V3 K) = 0 := by
  ext <;> simp [Quat.rot]

theorem sum3_turn (l : List (V3 K)) : sum3 (l.map g.rot) = g.rot (sum3 l) := by
  unfold sum3
  have : ∀ (l : List (V3 K)) (a : V3 K), (l.map g.rot).foldl (· + ·) (g.rot a) = g.rot (l.foldl (· + ·) a) := by
    intro l
    induction l with
    | nil => intro a; rfl
    | cons x l ih => intro a; rw [List.map_cons, List.foldl_cons, List.foldl_cons, ← rot_add]; exact ih _
  have h := this l 0
  rwa [rot_zero] at h

include hg

theorem rel_turn (a b : Vel K) (r s : V3 K) : rel (turnV g a) (turnV g b) (g.rot r) (g.rot s) = g.rot (rel a b r s) := by
  unfold rel turnV
  rw [rot_cross hg, rot_cross hg, RoundProps.rot_sub, RoundProps.rot_sub, rot_add]

theorem relSplit_turn (a b : Vel K) (r s : V3 K) : relSplit (turnV g a) (turnV g b) (g.rot r) (g.rot s) = g.rot (relSplit a b r s) := by
  unfold relSplit turnV
  rw [rot_cross hg, rot_cross hg, RoundProps.rot_sub, RoundProps.rot_sub, rot_add]

theorem len_turn (a : V3 K) : (g.rot a).lengthSq = a.lengthSq := RoundProps.rot_len hg a

theorem unit_turn (cfg : Cfg K) (sqrt : K → K) (n : V3 K) : unit cfg sqrt (g.rot n) = g.rot (unit cfg sqrt n) := by
  unfold unit
  rw [len_turn hg]
  split_ifs
  · rfl
  · rw [RoundProps.rot_smul]

theorem slide_turn (dv n : V3 K) : g.rot dv - V3.smul (V3.dot (g.rot dv) (g.rot n)) (g.rot n) = g.rot (dv - V3.smul (V3.dot dv n) n) := by
  rw [rot_dot hg, RoundProps.rot_sub, RoundProps.rot_smul]

theorem friction_turn (cfg : Cfg K) (sqrt : K → K) (dv n : V3 K) (h : cfg.eps < sqrt (dv - V3.smul (V3.dot dv n) n).lengthSq) :
    frictionVector cfg sqrt (g.rot dv) (g.rot n) = g.rot (frictionVector cfg sqrt dv n) := by
  unfold frictionVector
  dsimp only
  rw [slide_turn hg, len_turn hg, if_pos h, if_pos h, RoundProps.rot_smul]

end rot

/-! ### Manifolds -/

/-- A turned contact of the solver. -/
def turnP (g : Quat K) (p : CPoint K) : CPoint K :=
  { p with normal := g.rot p.normal, r1 := g.rot p.r1, r2 := g.rot p.r2, i1 := g.rot p.i1, i2 := g.rot p.i2 }

/-- A turned manifold of the solver. The directions of friction do not matter if there is no friction. -/
structure TurnM (g : Quat K) (M N : Man K) : Prop where
  b1 : N.b1 = M.b1
  b2 : N.b2 = M.b2
  m1 : N.m1 = M.m1
  m2 : N.m2 = M.m2
  I1 : Conj g M.I1 N.I1
  I2 : Conj g M.I2 N.I2
  ll1 : M.ll1 = ⟨1, 1, 1⟩ ∧ N.ll1 = ⟨1, 1, 1⟩
  ll2 : M.ll2 = ⟨1, 1, 1⟩ ∧ N.ll2 = ⟨1, 1, 1⟩
  la1 : M.la1 = ⟨1, 1, 1⟩ ∧ N.la1 = ⟨1, 1, 1⟩
  la2 : M.la2 = ⟨1, 1, 1⟩ ∧ N.la2 = ⟨1, 1, 1⟩
  mu : N.mu = M.mu
  normal : N.normal = g.rot M.normal
  o1 : N.o1 = g.rot M.o1
  o2 : N.o2 = g.rot M.o2
  r1 : N.r1 = g.rot M.r1
  r2 : N.r2 = g.rot M.r2
  kt : N.kt = M.kt
  f1 : N.f1 = M.f1
  f2 : N.f2 = M.f2
  tw : N.tw = M.tw
  pts : N.pts = M.pts.map (turnP g)
  rubs : (N.t1 = g.rot M.t1 ∧ N.t2 = g.rot M.t2 ∧ N.c11 = g.rot M.c11 ∧ N.c12 = g.rot M.c12 ∧ N.c21 = g.rot M.c21 ∧ N.c22 = g.rot M.c22 ∧ N.k1 = M.k1 ∧ N.k2 = M.k2) ∨
    (M.mu = 0 ∧ M.f1 = 0 ∧ M.f2 = 0)

section init
variable {g : Quat K} (hg : g.lengthSq = 1)
include hg

theorem initPoint_turn (cfg : Cfg K) {A B A' B' : SBody K} (hA : TurnB g A A') (hB : TurnB g B B') (e : K) (x : XPoint K) :
    initPoint cfg A' B' e (turnX g x) = turnP g (initPoint cfg A B e x) := by
  unfold initPoint turnX turnP
  dsimp only
  have z : (0 : V3 K) = g.rot 0 := (rot_zero g).symm
  have e1 : rel ⟨A'.v, A'.w, 0, 0⟩ ⟨B'.v, B'.w, 0, 0⟩ (g.rot x.p1 - A'.x) (g.rot x.p2 - B'.x) = g.rot (rel ⟨A.v, A.w, 0, 0⟩ ⟨B.v, B.w, 0, 0⟩ (x.p1 - A.x) (x.p2 - B.x)) := by
    rw [← rel_turn hg]
    unfold turnV
    dsimp only
    rw [hA.v, hA.w, hB.v, hB.w, hA.x, hB.x, rot_zero, RoundProps.rot_sub, RoundProps.rot_sub]
  rw [e1, hA.x, hB.x, hA.m, hB.m, ← RoundProps.rot_sub, ← RoundProps.rot_sub, rot_cross hg, rot_cross hg, hA.I, hB.I, rot_cross hg, rot_cross hg, rot_dot hg, rot_dot hg, rot_dot hg]

theorem initMan_turn (cfg : Cfg K) (sqrt : K → K) {body body' : Nat → SBody K} (hb : ∀ b, TurnB g (body b) (body' b)) {X : XMan K} (hX : Plain cfg sqrt body X) :
    TurnM g (initMan cfg sqrt body X) (initMan cfg sqrt body' (turnXM g X)) := by
  have hA := hb X.b1
  have hB := hb X.b2
  have en : unit cfg sqrt (sum3 ((X.pts.map (turnX g)).map XPoint.normal)) = g.rot (unit cfg sqrt (sum3 (X.pts.map XPoint.normal))) := by
    rw [← unit_turn hg, ← sum3_turn, List.map_map, List.map_map]; rfl
  have e1 : V3.smul (1 / ((X.pts.map (turnX g)).length : K)) (sum3 ((X.pts.map (turnX g)).map XPoint.p1)) - (body' X.b1).x =
      g.rot (V3.smul (1 / (X.pts.length : K)) (sum3 (X.pts.map XPoint.p1)) - (body X.b1).x) := by
    rw [hA.x, RoundProps.rot_sub, RoundProps.rot_smul, ← sum3_turn, List.map_map, List.map_map, List.length_map]; rfl
  have e2 : V3.smul (1 / ((X.pts.map (turnX g)).length : K)) (sum3 ((X.pts.map (turnX g)).map XPoint.p2)) - (body' X.b2).x =
      g.rot (V3.smul (1 / (X.pts.length : K)) (sum3 (X.pts.map XPoint.p2)) - (body X.b2).x) := by
    rw [hB.x, RoundProps.rot_sub, RoundProps.rot_smul, ← sum3_turn, List.map_map, List.map_map, List.length_map]; rfl
  have ed : ∀ r s, rel ⟨(body' X.b1).v, (body' X.b1).w, 0, 0⟩ ⟨(body' X.b2).v, (body' X.b2).w, 0, 0⟩ (g.rot r) (g.rot s) =
      g.rot (rel ⟨(body X.b1).v, (body X.b1).w, 0, 0⟩ ⟨(body X.b2).v, (body X.b2).w, 0, 0⟩ r s) := by
    intro r s
    rw [← rel_turn hg]
    unfold turnV
    dsimp only
    rw [hA.v, hA.w, hB.v, hB.w, rot_zero]
  have ep : (X.pts.map (turnX g)).map (initPoint cfg (body' X.b1) (body' X.b2) X.restitution) =
      (X.pts.map (initPoint cfg (body X.b1) (body X.b2) X.restitution)).map (turnP g) := by
    rw [List.map_map, List.map_map]
    exact List.map_congr_left fun x _ => initPoint_turn hg cfg hA hB _ x
  refine ⟨rfl, rfl, hA.m, hB.m, hA.I, hB.I, ⟨hA.loose.1, hA.loose'.1⟩, ⟨hB.loose.1, hB.loose'.1⟩, ⟨hA.loose.2, hA.loose'.2⟩, ⟨hB.loose.2, hB.loose'.2⟩, rfl, en, rfl, rfl,
    e1, e2, ?_, rfl, rfl, rfl, ep, ?_⟩
  · show invOf (V3.dot (unit _ _ _) _ + V3.dot (unit _ _ _) _) = _
    show invOf (V3.dot (unit cfg sqrt (sum3 ((X.pts.map (turnX g)).map XPoint.normal))) ((body' X.b1).I.act (unit cfg sqrt (sum3 ((X.pts.map (turnX g)).map XPoint.normal)))) +
      V3.dot (unit cfg sqrt (sum3 ((X.pts.map (turnX g)).map XPoint.normal))) ((body' X.b2).I.act (unit cfg sqrt (sum3 ((X.pts.map (turnX g)).map XPoint.normal))))) = _
    rw [en, hA.I, hB.I, rot_dot hg, rot_dot hg]
    rfl
  · refine hX.symm.imp (fun h => ?_) id
    have et : (initMan cfg sqrt body' (turnXM g X)).t1 = g.rot (initMan cfg sqrt body X).t1 := by
      show frictionVector cfg sqrt (rel _ _ (V3.smul (1 / ((X.pts.map (turnX g)).length : K)) (sum3 ((X.pts.map (turnX g)).map XPoint.p1)) - (body' X.b1).x)
        (V3.smul (1 / ((X.pts.map (turnX g)).length : K)) (sum3 ((X.pts.map (turnX g)).map XPoint.p2)) - (body' X.b2).x)) (unit cfg sqrt (sum3 ((X.pts.map (turnX g)).map XPoint.normal))) = _
      rw [e1, e2, en]
      erw [ed]
      exact friction_turn hg cfg sqrt _ _ h
    have et2 : (initMan cfg sqrt body' (turnXM g X)).t2 = g.rot (initMan cfg sqrt body X).t2 := by
      show V3.cross (initMan cfg sqrt body' (turnXM g X)).normal (initMan cfg sqrt body' (turnXM g X)).t1 = _
      rw [et, show (initMan cfg sqrt body' (turnXM g X)).normal = g.rot (initMan cfg sqrt body X).normal from en, rot_cross hg]
      rfl
    have er1 : (initMan cfg sqrt body' (turnXM g X)).r1 = g.rot (initMan cfg sqrt body X).r1 := e1
    have er2 : (initMan cfg sqrt body' (turnXM g X)).r2 = g.rot (initMan cfg sqrt body X).r2 := e2
    have c11 : (initMan cfg sqrt body' (turnXM g X)).c11 = g.rot (initMan cfg sqrt body X).c11 := by
      show V3.cross (initMan cfg sqrt body' (turnXM g X)).r1 (initMan cfg sqrt body' (turnXM g X)).t1 = _
      rw [er1, et, rot_cross hg]; rfl
    have c12 : (initMan cfg sqrt body' (turnXM g X)).c12 = g.rot (initMan cfg sqrt body X).c12 := by
      show V3.cross (initMan cfg sqrt body' (turnXM g X)).r1 (initMan cfg sqrt body' (turnXM g X)).t2 = _
      rw [er1, et2, rot_cross hg]; rfl
    have c21 : (initMan cfg sqrt body' (turnXM g X)).c21 = g.rot (initMan cfg sqrt body X).c21 := by
      show V3.cross (initMan cfg sqrt body' (turnXM g X)).r2 (initMan cfg sqrt body' (turnXM g X)).t1 = _
      rw [er2, et, rot_cross hg]; rfl
    have c22 : (initMan cfg sqrt body' (turnXM g X)).c22 = g.rot (initMan cfg sqrt body X).c22 := by
      show V3.cross (initMan cfg sqrt body' (turnXM g X)).r2 (initMan cfg sqrt body' (turnXM g X)).t2 = _
      rw [er2, et2, rot_cross hg]; rfl
    refine ⟨et, et2, c11, c12, c21, c22, ?_, ?_⟩
    · show invOf ((body' X.b1).m + (body' X.b2).m +
        V3.dot (V3.cross ((body' X.b1).I.act (initMan cfg sqrt body' (turnXM g X)).c11) (initMan cfg sqrt body' (turnXM g X)).r1) (initMan cfg sqrt body' (turnXM g X)).t1 +
        V3.dot (V3.cross ((body' X.b2).I.act (initMan cfg sqrt body' (turnXM g X)).c21) (initMan cfg sqrt body' (turnXM g X)).r2) (initMan cfg sqrt body' (turnXM g X)).t1) = _
      rw [c11, c21, er1, er2, et, hA.m, hB.m, hA.I, hB.I, rot_cross hg, rot_cross hg, rot_dot hg, rot_dot hg]
      rfl
    · show invOf ((body' X.b1).m + (body' X.b2).m +
        V3.dot (V3.cross ((body' X.b1).I.act (initMan cfg sqrt body' (turnXM g X)).c12) (initMan cfg sqrt body' (turnXM g X)).r1) (initMan cfg sqrt body' (turnXM g X)).t2 +
        V3.dot (V3.cross ((body' X.b2).I.act (initMan cfg sqrt body' (turnXM g X)).c22) (initMan cfg sqrt body' (turnXM g X)).r2) (initMan cfg sqrt body' (turnXM g X)).t2) = _
      rw [c12, c22, er1, er2, et2, hA.m, hB.m, hA.I, hB.I, rot_cross hg, rot_cross hg, rot_dot hg, rot_dot hg]
      rfl

end init

/-! ### Impulses -/

section impulses
variable {g : Quat K} (hg : g.lengthSq = 1)

/-- The velocities of all bodies, turned. -/
def all (g : Quat K) (V : Nat → Vel K) : Nat → Vel K := fun b => turnV g (V b)

/-- A change of the velocities of two bodies. -/
def bump (a b : Nat) (f h : Vel K → Vel K) (V : Nat → Vel K) : Nat → Vel K :=
  let V := upd V a (f (V a))
  upd V b (h (V b))

theorem all_upd (V : Nat → Vel K) (b : Nat) (x : Vel K) : all g (upd V b x) = upd (all g V) b (turnV g x) := by
  funext c
  unfold all
  by_cases e : c = b
  · subst e; rw [upd_same, upd_same]
  · rw [upd_ne _ _ e, upd_ne _ _ e]

theorem bump_turn (a b : Nat) {f h f' h' : Vel K → Vel K} (k1 : ∀ v, f' (turnV g v) = turnV g (f v)) (k2 : ∀ v, h' (turnV g v) = turnV g (h v)) (V : Nat → Vel K) :
    bump a b f' h' (all g V) = all g (bump a b f h V) := by
  unfold bump
  dsimp only
  rw [all_upd, all_upd, show f' (all g V a) = turnV g (f (V a)) from k1 _, ← all_upd]
  exact congrArg _ (k2 _)

theorem push_turn {M N : Man K} (h : TurnM g M N) (p : CPoint K) (d : K) (V : Nat → Vel K) : push N (turnP g p) d (all g V) = all g (push M p d V) := by
  have e : ∀ (N : Man K) (p : CPoint K) (V : Nat → Vel K), push N p d V =
    bump N.b1 N.b2 (fun v => { v with v := v.v - V3.had (V3.smul N.m1 (V3.smul d p.normal)) N.ll1, w := v.w - V3.smul d (V3.had p.i1 N.la1) })
      (fun v => { v with v := v.v + V3.had (V3.smul N.m2 (V3.smul d p.normal)) N.ll2, w := v.w + V3.smul d (V3.had p.i2 N.la2) }) V := fun _ _ _ => rfl
  rw [e, e, h.b1, h.b2]
  refine bump_turn _ _ (fun v => ?_) (fun v => ?_) V
  · unfold turnV turnP
    dsimp only
    rw [h.m1, h.ll1.1, h.ll1.2, h.la1.1, h.la1.2]
    simp only [had_ones, RoundProps.rot_sub, RoundProps.rot_smul]
  · unfold turnV turnP
    dsimp only
    rw [h.m2, h.ll2.1, h.ll2.2, h.la2.1, h.la2.2]
    simp only [had_ones, rot_add, RoundProps.rot_smul]

theorem pushSplit_turn {M N : Man K} (h : TurnM g M N) (p : CPoint K) (d : K) (V : Nat → Vel K) : pushSplit N (turnP g p) d (all g V) = all g (pushSplit M p d V) := by
  have e : ∀ (N : Man K) (p : CPoint K) (V : Nat → Vel K), pushSplit N p d V =
    bump N.b1 N.b2 (fun v => { v with vs := v.vs - V3.had (V3.smul N.m1 (V3.smul d p.normal)) N.ll1, ws := v.ws - V3.smul d (V3.had p.i1 N.la1) })
      (fun v => { v with vs := v.vs + V3.had (V3.smul N.m2 (V3.smul d p.normal)) N.ll2, ws := v.ws + V3.smul d (V3.had p.i2 N.la2) }) V := fun _ _ _ => rfl
  rw [e, e, h.b1, h.b2]
  refine bump_turn _ _ (fun v => ?_) (fun v => ?_) V
  · unfold turnV turnP
    dsimp only
    rw [h.m1, h.ll1.1, h.ll1.2, h.la1.1, h.la1.2]
    simp only [had_ones, RoundProps.rot_sub, RoundProps.rot_smul]
  · unfold turnV turnP
    dsimp only
    rw [h.m2, h.ll2.1, h.ll2.2, h.la2.1, h.la2.2]
    simp only [had_ones, rot_add, RoundProps.rot_smul]

theorem rub_turn {M N : Man K} (h : TurnM g M N) (t c1 c2 : V3 K) (d : K) (V : Nat → Vel K) :
    rub N (g.rot t) (g.rot c1) (g.rot c2) d (all g V) = all g (rub M t c1 c2 d V) := by
  have e : ∀ (N : Man K) (t c1 c2 : V3 K) (V : Nat → Vel K), rub N t c1 c2 d V =
    bump N.b1 N.b2 (fun v => { v with v := v.v - V3.had (V3.smul N.m1 (V3.smul d t)) N.ll1, w := v.w + V3.had N.la1 (N.I1.act (V3.smul d (-c1))) })
      (fun v => { v with v := v.v + V3.had (V3.smul N.m2 (V3.smul d t)) N.ll2, w := v.w + V3.had N.la2 (N.I2.act (V3.smul d c2)) }) V := fun _ _ _ _ _ => rfl
  rw [e, e, h.b1, h.b2]
  refine bump_turn _ _ (fun v => ?_) (fun v => ?_) V
  · unfold turnV
    dsimp only
    rw [h.m1, h.ll1.1, h.ll1.2, h.la1.1, h.la1.2, ← RoundProps.rot_neg, ← RoundProps.rot_smul, ← RoundProps.rot_smul, ← RoundProps.rot_smul, h.I1]
    simp only [had_ones, ones_had, rot_add, RoundProps.rot_sub]
  · unfold turnV
    dsimp only
    rw [h.m2, h.ll2.1, h.ll2.2, h.la2.1, h.la2.2, ← RoundProps.rot_smul, ← RoundProps.rot_smul, ← RoundProps.rot_smul, h.I2]
    simp only [had_ones, ones_had, rot_add]

theorem twist_turn {M N : Man K} (h : TurnM g M N) (d : K) (V : Nat → Vel K) : twist N d (all g V) = all g (twist M d V) := by
  have e : ∀ (N : Man K) (V : Nat → Vel K), twist N d V =
    bump N.b1 N.b2 (fun v => { v with w := v.w - V3.had N.la1 (N.I1.act (V3.smul d N.normal)) })
      (fun v => { v with w := v.w + V3.had N.la2 (N.I2.act (V3.smul d N.normal)) }) V := fun _ _ => rfl
  rw [e, e, h.b1, h.b2]
  refine bump_turn _ _ (fun v => ?_) (fun v => ?_) V
  · unfold turnV
    dsimp only
    rw [h.la1.1, h.la1.2, h.normal, ← RoundProps.rot_smul, h.I1]
    simp only [ones_had, RoundProps.rot_sub]
  · unfold turnV
    dsimp only
    rw [h.la2.1, h.la2.2, h.normal, ← RoundProps.rot_smul, h.I2]
    simp only [ones_had, rot_add]

theorem twistWarm_turn {M N : Man K} (h : TurnM g M N) (d : K) (V : Nat → Vel K) : twistWarm N d (all g V) = all g (twistWarm M d V) := by
  have e : ∀ (N : Man K) (V : Nat → Vel K), twistWarm N d V = twist N d
    (bump N.b1 N.b2 (fun v => { v with w := v.w + V3.had N.la1 (N.I1.act (V3.smul d (-N.normal))) })
      (fun v => { v with w := v.w + V3.had N.la2 (N.I2.act (V3.smul d N.normal)) }) V) := fun _ _ => rfl
  rw [e, e, ← twist_turn h, h.b1, h.b2]
  refine congrArg _ (bump_turn _ _ (fun v => ?_) (fun v => ?_) V)
  · unfold turnV
    dsimp only
    rw [h.la1.1, h.la1.2, h.normal, ← RoundProps.rot_neg, ← RoundProps.rot_smul, h.I1]
    simp only [ones_had, rot_add]
  · unfold turnV
    dsimp only
    rw [h.la2.1, h.la2.2, h.normal, ← RoundProps.rot_smul, h.I2]
    simp only [ones_had, rot_add]

theorem rub_zero (M : Man K) (t c1 c2 : V3 K) (V : Nat → Vel K) : rub M t c1 c2 0 V = V := by
  have a0 : ∀ (I : M3 K) (c : V3 K), I.act (V3.smul 0 c) = 0 := fun I c => by ext <;> simp [M3.act, V3.smul]
  have s0 : ∀ (k : K) (c : V3 K), V3.smul k (V3.smul 0 c) = 0 := fun k c => by ext <;> simp [V3.smul]
  have h0 : ∀ c : V3 K, V3.had 0 c = 0 := fun c => by ext <;> simp [V3.had]
  have h0' : ∀ c : V3 K, V3.had c 0 = 0 := fun c => by ext <;> simp [V3.had]
  unfold rub
  simp only [a0, s0, h0, h0', sub_zero, add_zero]
  funext c
  have : ∀ (W : Nat → Vel K) (b : Nat), upd W b (W b) = W := fun W b => by
    funext c
    by_cases e : c = b
    · subst e; rw [upd_same]
    · rw [upd_ne _ _ e]
  rw [this, this]

end impulses

/-! ### Loops -/

section loops
variable {g : Quat K} (hg : g.lengthSq = 1)

theorem TurnM.withPts {M N : Man K} (h : TurnM g M N) (l : List (CPoint K)) : TurnM g { M with pts := l } { N with pts := l.map (turnP g) } :=
  { h with pts := rfl }

theorem warmPoints_turn {M N : Man K} (h : TurnM g M N) : ∀ (ps : List (CPoint K)) (V : Nat → Vel K),
    warmPoints N (all g V) (ps.map (turnP g)) = (all g (warmPoints M V ps).1, (warmPoints M V ps).2.map (turnP g))
  | [], _ => rfl
  | p :: ps, V => by
    have k : warmPoint N (all g V) (turnP g p) = (all g (warmPoint M V p).1, turnP g (warmPoint M V p).2) := by
      unfold warmPoint
      show (if p.resting then _ else _) = _
      by_cases hr : p.resting = true
      · rw [if_pos hr, if_pos hr]
        exact Prod.ext (push_turn h p _ V) rfl
      · rw [if_neg hr, if_neg hr]
        rfl
    rw [List.map_cons]
    unfold warmPoints
    dsimp only
    rw [k, warmPoints_turn h ps]
    rfl

include hg

theorem warmMan_turn {M N : Man K} (h : TurnM g M N) (V : Nat → Vel K) : (warmMan (all g V) N).1 = all g (warmMan V M).1 ∧ TurnM g (warmMan V M).2 (warmMan (all g V) N).2 := by
  unfold warmMan
  dsimp only
  rw [h.pts, warmPoints_turn h]
  have ea : (M.pts.map (turnP g)).any CPoint.resting = M.pts.any CPoint.resting := by rw [List.any_map]; rfl
  rw [ea]
  by_cases hr : M.pts.any CPoint.resting = true
  · rw [if_pos hr, if_pos hr]
    dsimp only
    have eo : V3.smul N.f1 N.o1 + V3.smul N.f2 N.o2 = g.rot (V3.smul M.f1 M.o1 + V3.smul M.f2 M.o2) := by
      rw [h.f1, h.f2, h.o1, h.o2, rot_add, RoundProps.rot_smul, RoundProps.rot_smul]
    rw [eo]
    rcases h.rubs with k | k
    · obtain ⟨t1, t2, c11, c12, c21, c22, k1, k2⟩ := k
      rw [t1, t2, rot_dot hg, rot_dot hg, c11, c12, c21, c22, rub_turn h, rub_turn h, h.tw, twistWarm_turn h]
      exact ⟨rfl, { h with f1 := rfl, f2 := rfl, pts := rfl, tw := rfl, rubs := Or.inl ⟨rfl, rfl, rfl, rfl, rfl, rfl, k1, k2⟩ }⟩
    · have z : V3.smul M.f1 M.o1 + V3.smul M.f2 M.o2 = 0 := by
        rw [k.2.1, k.2.2]; ext <;> simp [V3.smul]
      have d0 : ∀ t : V3 K, V3.dot 0 t = 0 := fun t => by simp [V3.dot]
      rw [z, rot_zero, d0, d0, d0, d0, rub_zero, rub_zero, rub_zero, rub_zero, h.tw, twistWarm_turn h]
      exact ⟨rfl, { h with f1 := rfl, f2 := rfl, pts := rfl, tw := rfl, rubs := Or.inr ⟨k.1, rfl, rfl⟩ }⟩
  · rw [if_neg hr, if_neg hr]
    refine ⟨rfl, { h with f1 := rfl, f2 := rfl, pts := rfl, tw := rfl, rubs := h.rubs.imp id fun k => ⟨k.1, rfl, rfl⟩ }⟩

theorem solvePoint_turn (cfg : Cfg K) {M N : Man K} (h : TurnM g M N) (V : Nat → Vel K) (p : CPoint K) :
    solvePoint cfg N (all g V) (turnP g p) = (all g (solvePoint cfg M V p).1, turnP g (solvePoint cfg M V p).2) := by
  have eJ : V3.dot (rel (all g V N.b1) (all g V N.b2) (turnP g p).r1 (turnP g p).r2) (turnP g p).normal = V3.dot (rel (V M.b1) (V M.b2) p.r1 p.r2) p.normal := by
    rw [h.b1, h.b2]
    show V3.dot (rel (turnV g _) (turnV g _) (g.rot _) (g.rot _)) (g.rot _) = _
    rw [rel_turn hg, rot_dot hg]
  have eS : ∀ W : Nat → Vel K, V3.dot (relSplit (all g W N.b1) (all g W N.b2) (turnP g p).r1 (turnP g p).r2) (turnP g p).normal =
      V3.dot (relSplit (W M.b1) (W M.b2) p.r1 p.r2) p.normal := by
    intro W
    rw [h.b1, h.b2]
    show V3.dot (relSplit (turnV g _) (turnV g _) (g.rot _) (g.rot _)) (g.rot _) = _
    rw [relSplit_turn hg, rot_dot hg]
  unfold solvePoint
  dsimp only
  rw [eJ, push_turn h, eS]
  have eb : depthBias cfg (turnP g p) = depthBias cfg p := rfl
  rw [eb]
  by_cases hs : cfg.split = true
  · simp only [hs, if_true]
    rw [pushSplit_turn h]
    rfl
  · simp only [hs, Bool.false_eq_true, if_false]
    rfl

theorem solvePoints_turn (cfg : Cfg K) {M N : Man K} (h : TurnM g M N) : ∀ (ps : List (CPoint K)) (V : Nat → Vel K),
    solvePoints cfg N (all g V) (ps.map (turnP g)) = (all g (solvePoints cfg M V ps).1, (solvePoints cfg M V ps).2.map (turnP g))
  | [], _ => rfl
  | p :: ps, V => by
    rw [List.map_cons]
    unfold solvePoints
    dsimp only
    rw [solvePoint_turn hg cfg h, solvePoints_turn cfg h ps]
    rfl

omit hg in
theorem total_turn (ps : List (CPoint K)) : total (ps.map (turnP g)) = total ps := by
  unfold total
  rw [List.map_map]; rfl

theorem solveMan_turn (cfg : Cfg K) {M N : Man K} (h : TurnM g M N) (V : Nat → Vel K) :
    (solveMan cfg (all g V) N).1 = all g (solveMan cfg V M).1 ∧ TurnM g (solveMan cfg V M).2 (solveMan cfg (all g V) N).2 := by
  have eR : ∀ (W : Nat → Vel K) (t : V3 K), V3.dot (rel (all g W N.b1) (all g W N.b2) N.r1 N.r2) (g.rot t) = V3.dot (rel (W M.b1) (W M.b2) M.r1 M.r2) t := by
    intro W t
    rw [h.b1, h.b2, h.r1, h.r2]
    show V3.dot (rel (turnV g _) (turnV g _) (g.rot _) (g.rot _)) (g.rot _) = _
    rw [rel_turn hg, rot_dot hg]
  have eW : ∀ W : Nat → Vel K, V3.dot ((all g W N.b2).w - (all g W N.b1).w) N.normal = V3.dot ((W M.b2).w - (W M.b1).w) M.normal := by
    intro W
    rw [h.b1, h.b2, h.normal]
    show V3.dot (g.rot _ - g.rot _) (g.rot _) = _
    rw [← RoundProps.rot_sub, rot_dot hg]
  unfold solveMan
  dsimp only
  rw [h.pts, solvePoints_turn hg cfg h]
  dsimp only
  rw [total_turn, h.mu, h.f1, h.f2, h.tw, h.kt]
  rcases h.rubs with k | k
  · obtain ⟨t1, t2, c11, c12, c21, c22, k1, k2⟩ := k
    rw [t1, t2, c11, c12, c21, c22, k1, k2, eR, rub_turn h, eR, rub_turn h, eW, twist_turn h]
    exact ⟨rfl, { h with f1 := rfl, f2 := rfl, pts := rfl, tw := rfl, mu := rfl, kt := rfl, rubs := Or.inl ⟨rfl, rfl, rfl, rfl, rfl, rfl, rfl, rfl⟩ }⟩
  · have c0 : ∀ x y : K, clamp (M.mu * x) y = 0 := fun x y => by rw [k.1, zero_mul, SolverProps.clamp_zero]
    simp only [c0]
    rw [k.2.1, k.2.2, sub_zero, rub_zero, rub_zero, rub_zero, rub_zero, twist_turn h]
    exact ⟨rfl, { h with f1 := rfl, f2 := rfl, pts := rfl, tw := rfl, mu := rfl, kt := rfl, rubs := Or.inr ⟨k.1, rfl, rfl⟩ }⟩

theorem warmStart_turn : ∀ {Ms Ns : List (Man K)} (V : Nat → Vel K), List.Forall₂ (TurnM g) Ms Ns →
    (warmStart (all g V) Ns).1 = all g (warmStart V Ms).1 ∧ List.Forall₂ (TurnM g) (warmStart V Ms).2 (warmStart (all g V) Ns).2
  | [], [], _, _ => ⟨rfl, .nil⟩
  | M :: Ms, N :: Ns, V, .cons h hs => by
    obtain ⟨a, b⟩ := warmMan_turn hg h V
    unfold warmStart
    dsimp only
    rw [a]
    obtain ⟨c, d⟩ := warmStart_turn (warmMan V M).1 hs
    exact ⟨c, .cons b d⟩

theorem solve_turn (cfg : Cfg K) : ∀ {Ms Ns : List (Man K)} (V : Nat → Vel K), List.Forall₂ (TurnM g) Ms Ns →
    (solve cfg (all g V) Ns).1 = all g (solve cfg V Ms).1 ∧ List.Forall₂ (TurnM g) (solve cfg V Ms).2 (solve cfg (all g V) Ns).2
  | [], [], _, _ => ⟨rfl, .nil⟩
  | M :: Ms, N :: Ns, V, .cons h hs => by
    obtain ⟨a, b⟩ := solveMan_turn hg cfg h V
    unfold solve
    dsimp only
    rw [a]
    obtain ⟨c, d⟩ := solve_turn cfg (solveMan cfg V M).1 hs
    exact ⟨c, .cons b d⟩

theorem loop_turn (cfg : Cfg K) (jc : JCfg K) (body body' : Nat → JBody K) : ∀ (n : Nat) {Ms Ns : List (Man K)} (V : Nat → Vel K), List.Forall₂ (TurnM g) Ms Ns →
    (loop cfg jc body' n (all g V, [], Ns)).1 = all g (loop cfg jc body n (V, [], Ms)).1 ∧ (loop cfg jc body' n (all g V, [], Ns)).2.1 = [] ∧
      (loop cfg jc body n (V, [], Ms)).2.1 = [] ∧ List.Forall₂ (TurnM g) (loop cfg jc body n (V, [], Ms)).2.2 (loop cfg jc body' n (all g V, [], Ns)).2.2
  | 0, _, _, _, h => ⟨rfl, rfl, rfl, h⟩
  | n + 1, Ms, Ns, V, h => by
    obtain ⟨c, d⟩ := solve_turn hg cfg V h
    have := loop_turn cfg jc body body' n (solve cfg V Ms).1 d
    rw [← c] at this
    exact this

/-- **The solver in a turned world.** Without joints and locked axes, and if every contact has no friction or is between sliding bodies, the velocities are the turned ones, and the
contacts are the turned ones. -/
theorem solveStep_turn (cfg : Cfg K) (jc : JCfg K) {body body' : Nat → JBody K} (hb : ∀ b, TurnB g (body b).toSBody (body' b).toSBody) (V : Nat → Vel K) {Xs : List (XMan K)}
    (hX : ∀ X ∈ Xs, Plain cfg jc.sqrt (fun b => (body b).toSBody) X) (n : Nat) :
    (solveStep cfg jc body' (all g V) [] (Xs.map (turnXM g)) n).1 = all g (solveStep cfg jc body V [] Xs n).1 ∧
      (solveStep cfg jc body' (all g V) [] (Xs.map (turnXM g)) n).2.1 = [] ∧ (solveStep cfg jc body V [] Xs n).2.1 = [] ∧
      List.Forall₂ (TurnM g) (solveStep cfg jc body V [] Xs n).2.2 (solveStep cfg jc body' (all g V) [] (Xs.map (turnXM g)) n).2.2 := by
  have hM : List.Forall₂ (TurnM g) (Xs.map (initMan cfg jc.sqrt fun b => (body b).toSBody)) ((Xs.map (turnXM g)).map (initMan cfg jc.sqrt fun b => (body' b).toSBody)) := by
    rw [List.map_map, List.forall₂_map_left_iff, List.forall₂_map_right_iff, List.forall₂_same]
    exact fun X h => initMan_turn hg cfg jc.sqrt hb (hX X h)
  obtain ⟨a, b⟩ := warmStart_turn hg V hM
  have := loop_turn hg cfg jc body body' n (warmStart V (Xs.map (initMan cfg jc.sqrt fun b => (body b).toSBody))).1 b
  rw [← a] at this
  have e : ∀ (bd : Nat → JBody K) (W : Nat → Vel K) (Ys : List (XMan K)), solveStep cfg jc bd W [] Ys n =
      loop cfg jc bd n ((warmStart W (Ys.map (initMan cfg jc.sqrt fun b => (bd b).toSBody))).1, [], (warmStart W (Ys.map (initMan cfg jc.sqrt fun b => (bd b).toSBody))).2) := by
    intro bd W Ys
    unfold solveStep
    dsimp only
    rw [List.map_nil]
    rw [show ∀ W, warmAll jc bd [] W = W from fun W => by unfold warmAll; split_ifs <;> rfl]
  rw [e, e]
  exact this

end loops
end Turned
end RP3D
