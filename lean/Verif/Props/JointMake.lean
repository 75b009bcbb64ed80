import Verif.Props.JointStep
import Verif.Props.HingeAngle
import Verif.Solver.JointMake

/-! C130: a position iteration leaves two bodies alone exactly in the poses that the type of their joint stands for, relative to the poses in which the joint
was made. -/

set_option linter.unusedSectionVars false

namespace RP3D
namespace Joints
open Solver
variable {K : Type} [Field K] [LinearOrder K] [IsStrictOrderedRing K]

/-! ### Specification

`A`, `B` are the transforms of the two bodies when the joint was made, `A'`, `B'` the present ones. -/

/-- The point that was at `w` when the joint was made, now, as a point of the body. -/
def now (A A' : Trans K) (w : V3 K) : V3 K := A'.act (A.inverse.act w)

/-- The bodies still agree on the point `w`. -/
def Pinned (A B A' B' : Trans K) (w : V3 K) : Prop := now B B' w = now A A' w

/-- The bodies still agree on all points: they have moved together. -/
def Welded (A B A' B' : Trans K) : Prop := ∀ w, Pinned A B A' B' w

/-- The bodies still agree on the line through `w` with the direction `n`. -/
def Hung (A B A' B' : Trans K) (w n : V3 K) : Prop := ∀ t, Pinned A B A' B' (w + V3.smul t n)

/-- Body 2 hangs on the line the wrong way round. -/
def HungBack (A B A' B' : Trans K) (w n : V3 K) : Prop := ∀ t, now B B' (w + V3.smul t n) = now A A' (w + V3.smul (-t) n)

/-- Body 2 has moved with body 1 and then along the line with the direction `n` of body 1. -/
def Slid (A B A' B' : Trans K) (n : V3 K) : Prop := ∃ t, ∀ w, now B B' w = now A A' (w + V3.smul t n)

/-- What the solver sees of the bodies with the transforms `T`: centers of mass and orientations. -/
def posesOf (body : Nat → PBody K) (T : Nat → Trans K) (b : Nat) : Pose K := ⟨(T b).act (body b).com, (T b).ori⟩

/-! ### Algebra -/

theorem anchorAt_poses (body : Nat → PBody K) (T : Nat → Trans K) (b : Nat) (a : V3 K) : anchorAt body (posesOf body T) b a = (T b).act a := by
  unfold anchorAt posesOf Trans.act Quat.rot
  ext <;> simp <;> ring

theorem rot_smul (q : Quat K) (k : K) (v : V3 K) : q.rot (V3.smul k v) = V3.smul k (q.rot v) := by
  unfold Quat.rot; ext <;> simp <;> ring

theorem rot_neg (q : Quat K) (v : V3 K) : q.rot (-v) = -q.rot v := by
  unfold Quat.rot; ext <;> simp <;> ring

theorem rot_add (q : Quat K) (u v : V3 K) : q.rot (u + v) = q.rot u + q.rot v := by
  unfold Quat.rot; ext <;> simp <;> ring

theorem rot_scale_neg (q : Quat K) (v : V3 K) : (q.scale (-1)).rot v = q.rot v := by
  unfold Quat.scale Quat.rot; ext <;> simp <;> ring

theorem mul_conj {q : Quat K} (h : q.lengthSq = 1) : q.mul q.conj = ⟨0, 0, 0, 1⟩ ∧ q.conj.mul q = ⟨0, 0, 0, 1⟩ := by
  unfold Quat.lengthSq at h
  unfold Quat.mul Quat.conj
  constructor <;> ext <;> simp <;> first | ring1 | linear_combination h

theorem mul_assoc' (p q r : Quat K) : (p.mul q).mul r = p.mul (q.mul r) := by
  unfold Quat.mul; ext <;> simp <;> ring

theorem one_mul' (q : Quat K) : (⟨0, 0, 0, 1⟩ : Quat K).mul q = q := by unfold Quat.mul; ext <;> simp
theorem mul_one' (q : Quat K) : q.mul ⟨0, 0, 0, 1⟩ = q := by unfold Quat.mul; ext <;> simp

/-- Differences of points. -/
theorem act_add (t : Trans K) (u v : V3 K) : t.act (u + v) = t.act u + t.ori.rot v := by
  unfold Trans.act; rw [rot_add]; ext <;> simp <;> ring

theorem now_add (A A' : Trans K) (w v : V3 K) : now A A' (w + v) = now A A' w + A'.ori.rot (A.ori.conj.rot v) := by
  unfold now; rw [act_add, act_add]; rfl

theorem now_of_act {B : Trans K} (hB : B.ori.lengthSq = 1) (B' : Trans K) (p : V3 K) : now B B' (B.act p) = B'.act p := by
  unfold now; rw [trans_inverse_act hB]

/-- A rotation that moves no vector. -/
theorem rot_trivial {r : Quat K} (hr : r.lengthSq = 1) (h : ∀ v : V3 K, r.rot v = v) : r = ⟨0, 0, 0, 1⟩ ∨ r = ⟨0, 0, 0, -1⟩ := by
  have e1 := congrArg V3.x (h ⟨1, 0, 0⟩)
  have e2 := congrArg V3.y (h ⟨0, 1, 0⟩)
  have e3 := congrArg V3.z (h ⟨0, 0, 1⟩)
  simp only [Quat.rot, mul_one, mul_zero, add_zero, sub_zero, zero_sub, zero_add] at e1 e2 e3
  unfold Quat.lengthSq at hr
  have s1 : r.y * r.y + r.z * r.z = 0 := by linear_combination (1 / 2) * (hr - e1)
  have s2 : r.x * r.x + r.z * r.z = 0 := by linear_combination (1 / 2) * (hr - e2)
  have hx : r.x = 0 := mul_self_eq_zero.1 (by nlinarith [mul_self_nonneg r.x, mul_self_nonneg r.z])
  have hz : r.z = 0 := mul_self_eq_zero.1 (by nlinarith [mul_self_nonneg r.x, mul_self_nonneg r.z])
  have hy : r.y = 0 := mul_self_eq_zero.1 (by nlinarith [mul_self_nonneg r.y, mul_self_nonneg r.z])
  have hw : (r.w - 1) * (r.w + 1) = 0 := by rw [hx, hy, hz] at hr; linear_combination hr
  rcases mul_eq_zero.1 hw with w | w
  · exact .inl (by ext <;> simp [hx, hy, hz]; linarith)
  · exact .inr (by ext <;> simp [hx, hy, hz]; linarith)

/-- Quaternions of the same rotation. -/
theorem rot_same {p q : Quat K} (hp : p.lengthSq = 1) (hq : q.lengthSq = 1) (h : ∀ v : V3 K, p.rot v = q.rot v) : p = q ∨ p = q.scale (-1) := by
  have : ∀ v : V3 K, (p.mul q.conj).rot v = v := fun v => by rw [rot_mul, h, rot_conj' hq]
  have e : (p.mul q.conj).mul q = p := by rw [mul_assoc', (mul_conj hq).2, mul_one']
  rcases rot_trivial (unit_mul hp (unit_inverse hq)) this with k | k <;> rw [k] at e
  · exact .inl (by rw [← e, one_mul'])
  · refine .inr ?_
    rw [← e]
    unfold Quat.mul Quat.scale; ext <;> simp

/-- The condition on the orientations of fixed joints and sliders. -/
theorem aligned_iff {A B A' B' : Trans K} (hA : A.ori.lengthSq = 1) (hB : B.ori.lengthSq = 1) (hA' : A'.ori.lengthSq = 1) (hB' : B'.ori.lengthSq = 1) :
    (B'.ori.mul (B.ori.conj.mul A.ori) = A'.ori ∨ B'.ori.mul (B.ori.conj.mul A.ori) = A'.ori.scale (-1)) ↔
      ∀ v, B'.ori.rot (B.ori.conj.rot v) = A'.ori.rot (A.ori.conj.rot v) := by
  constructor
  · intro h v
    have : ∀ u, B'.ori.rot (B.ori.conj.rot (A.ori.rot u)) = A'.ori.rot u := by
      intro u
      rw [← rot_mul, ← rot_mul, mul_assoc']
      rcases h with h | h <;> rw [h]
      exact rot_scale_neg _ _
    rw [← this, rot_conj' hA]
  · intro h
    refine rot_same (unit_mul hB' (unit_mul (unit_inverse hB) hA)) hA' fun v => ?_
    rw [rot_mul, rot_mul, h, rot_conj hA]

/-- A vector orthogonal to two unit vectors and to their product. -/
theorem orth_three {x a n : V3 K} (hc : V3.dot (V3.cross a n) (V3.cross a n) ≠ 0) (h1 : V3.dot x a = 0) (h2 : V3.dot x n = 0)
    (h3 : V3.dot x (V3.cross a n) = 0) : x = 0 := by
  unfold V3.dot V3.cross at *
  dsimp only at *
  ext
  · refine (mul_eq_zero.1 ?_).resolve_right hc
    linear_combination ((a.y * n.z - a.z * n.y)) * h3 + ((n.y * n.y + n.z * n.z) * a.x - (a.y * n.y + a.z * n.z) * n.x) * h1 +
      ((a.y * a.y + a.z * a.z) * n.x - (a.y * n.y + a.z * n.z) * a.x) * h2
  · refine (mul_eq_zero.1 ?_).resolve_right hc
    linear_combination ((a.z * n.x - a.x * n.z)) * h3 + ((n.x * n.x + n.z * n.z) * a.y - (a.x * n.x + a.z * n.z) * n.y) * h1 +
      ((a.x * a.x + a.z * a.z) * n.y - (a.x * n.x + a.z * n.z) * a.y) * h2
  · refine (mul_eq_zero.1 ?_).resolve_right hc
    linear_combination ((a.x * n.y - a.y * n.x)) * h3 + ((n.x * n.x + n.y * n.y) * a.z - (a.x * n.x + a.y * n.y) * n.z) * h1 +
      ((a.x * a.x + a.y * a.y) * n.z - (a.x * n.x + a.y * n.y) * a.z) * h2

theorem cross_unit {a n : V3 K} (ha : V3.dot a a = 1) (hn : V3.dot n n = 1) (h : V3.dot a n = 0) : V3.dot (V3.cross a n) (V3.cross a n) = 1 := by
  unfold V3.dot V3.cross at *
  dsimp only at *
  linear_combination ha * (n.x * n.x + n.y * n.y + n.z * n.z) + hn - (a.x * n.x + a.y * n.y + a.z * n.z) * h

/-- A vector with no component across a unit vector is a multiple of it. -/
theorem along_axis {cfg : JCfg K} (hs : IsSqrt cfg.sqrt) {u a : V3 K} (ha : V3.dot a a = 1) (h1 : V3.dot u (orthogonal cfg.sqrt a) = 0)
    (h2 : V3.dot u (V3.cross a (orthogonal cfg.sqrt a)) = 0) : u = V3.smul (V3.dot u a) a := by
  have hn := orth_unit hs ha
  have hd := orth_dot cfg.sqrt a
  have hc := cross_unit ha hn hd
  generalize orthogonal cfg.sqrt a = n at *
  have : u - V3.smul (V3.dot u a) a = 0 := by
    refine orth_three (a := a) (n := n) (by rw [hc]; exact one_ne_zero) ?_ ?_ ?_
    · unfold V3.dot at *; simp only [V3.sub_x, V3.sub_y, V3.sub_z, V3.smul_x, V3.smul_y, V3.smul_z]
      linear_combination -(u.x * a.x + u.y * a.y + u.z * a.z) * ha
    · unfold V3.dot at *; simp only [V3.sub_x, V3.sub_y, V3.sub_z, V3.smul_x, V3.smul_y, V3.smul_z]
      linear_combination h1 - (u.x * a.x + u.y * a.y + u.z * a.z) * hd
    · unfold V3.dot V3.cross at *; simp only [V3.sub_x, V3.sub_y, V3.sub_z, V3.smul_x, V3.smul_y, V3.smul_z]
      linear_combination h2
  have hx := congrArg V3.x this
  have hy := congrArg V3.y this
  have hz := congrArg V3.z this
  simp only [V3.sub_x, V3.sub_y, V3.sub_z, V3.zero_x, V3.zero_y, V3.zero_z] at hx hy hz
  ext
  · linarith
  · linarith
  · linarith

/-! ### An iteration that moves nothing -/

theorem spin_fixed {cfg : JCfg K} {w : V3 K} {q : Quat K} (hq : q.lengthSq = 1) (h : spin cfg w q = q) : w = 0 := by
  rw [spin_eq] at h
  unfold unitQ at h
  generalize cfg.sqrt _ = l at h
  have e : ((⟨w.x / 2, w.y / 2, w.z / 2, 1⟩ : Quat K).divBy l) = ⟨0, 0, 0, 1⟩ := by
    have : (((⟨w.x / 2, w.y / 2, w.z / 2, 1⟩ : Quat K).mul q).divBy l).mul q.conj = (⟨w.x / 2, w.y / 2, w.z / 2, 1⟩ : Quat K).divBy l := by
      have d : ∀ p r : Quat K, (p.divBy l).mul r = (p.mul r).divBy l := fun p r => by unfold Quat.divBy Quat.mul; ext <;> simp <;> ring
      rw [d, mul_assoc', (mul_conj hq).1, mul_one']
    rw [← this, h, (mul_conj hq).1]
  unfold Quat.divBy at e
  obtain ⟨e1, e2, e3, e4⟩ := Quat.mk.inj e
  have hl : l ≠ 0 := fun hl => by rw [hl, div_zero] at e4; exact zero_ne_one e4
  have z : ∀ a : K, a / 2 / l = 0 → a = 0 := fun a ha => by
    rcases div_eq_zero_iff.1 ha with h | h
    · linarith
    · exact absurd h hl
  ext
  · exact z _ e1
  · exact z _ e2
  · exact z _ e3

theorem two_masses {m1 m2 : K} (hm : m1 + m2 ≠ 0) {l : V3 K} (h1 : V3.smul m1 l = 0) (h2 : V3.smul m2 l = 0) : l = 0 := by
  have x1 := congrArg V3.x h1
  have y1 := congrArg V3.y h1
  have z1 := congrArg V3.z h1
  have x2 := congrArg V3.x h2
  have y2 := congrArg V3.y h2
  have z2 := congrArg V3.z h2
  simp only [V3.smul_x, V3.smul_y, V3.smul_z, V3.zero_x, V3.zero_y, V3.zero_z] at x1 y1 z1 x2 y2 z2
  ext
  · exact (mul_eq_zero.1 (by linear_combination x1 + x2 : (m1 + m2) * l.x = 0)).resolve_left hm
  · exact (mul_eq_zero.1 (by linear_combination y1 + y2 : (m1 + m2) * l.y = 0)).resolve_left hm
  · exact (mul_eq_zero.1 (by linear_combination z1 + z2 : (m1 + m2) * l.z = 0)).resolve_left hm

theorem add_self {a v : V3 K} (h : a + v = a) : v = 0 := by
  have x := congrArg V3.x h
  have y := congrArg V3.y h
  have z := congrArg V3.z h
  simp only [V3.add_x, V3.add_y, V3.add_z] at x y z
  ext
  · exact add_eq_left.1 x
  · exact add_eq_left.1 y
  · exact add_eq_left.1 z

theorem neg_eq_zero' {v : V3 K} (h : -v = 0) : v = 0 := by
  have x := congrArg V3.x h
  have y := congrArg V3.y h
  have z := congrArg V3.z h
  simp only [V3.neg_x, V3.neg_y, V3.neg_z, V3.zero_x, V3.zero_y, V3.zero_z] at x y z
  ext
  · exact neg_eq_zero.1 x
  · exact neg_eq_zero.1 y
  · exact neg_eq_zero.1 z

/-- If the centers of mass stay, the anchors were at the same point. -/
theorem pull_rests {cfg : JCfg K} (he : 0 ≤ cfg.eps) {body : Nat → PBody K} (Z X : Nat → Pose K) {b1 b2 : Nat} (hb : b1 ≠ b2)
    (h1 : FreeAxes (body b1)) (h2 : FreeAxes (body b2)) {dyn : Bool} (hd : dyn = true) (r1 r2 : V3 K) (hm : (body b1).m + (body b2).m ≠ 0)
    (hM : cfg.eps < |(massMatrix (body b1).m (body b2).m (twoAt body Z b1 b2).I1 (twoAt body Z b1 b2).I2 r1 r2).det|)
    (e1 : ((pull cfg dyn (twoAt body Z b1 b2) r1 r2 X).1 b1).x = (X b1).x) (e2 : ((pull cfg dyn (twoAt body Z b1 b2) r1 r2 X).1 b2).x = (X b2).x) :
    (X b1).x + r1 = (X b2).x + r2 := by
  unfold pull at e1 e2
  dsimp only at e1 e2
  have hM' : cfg.eps < |(massMatrix (twoAt body Z b1 b2).m1 (twoAt body Z b1 b2).m2 (twoAt body Z b1 b2).I1 (twoAt body Z b1 b2).I2 r1 r2).det| := hM
  rw [if_pos hM'] at e1 e2
  have ha := inverseOrZero_act he hM' hd (-((X (twoAt body Z b1 b2).b2).x + r2 - (X (twoAt body Z b1 b2).b1).x - r1))
  generalize (inverseOrZero cfg dyn (massMatrix (twoAt body Z b1 b2).m1 (twoAt body Z b1 b2).m2 (twoAt body Z b1 b2).I1 (twoAt body Z b1 b2).I2 r1 r2)).act
    (-((X (twoAt body Z b1 b2).b2).x + r2 - (X (twoAt body Z b1 b2).b1).x - r1)) = l at *
  obtain ⟨p1, p2, -⟩ := place_nudged cfg Z X hb h1 h2 (-l) (V3.cross l r1) l (-(V3.cross l r2))
  dsimp only at e1 e2
  rw [p1] at e1
  rw [p2] at e2
  have l0 : l = 0 := by
    refine two_masses hm ?_ (add_self e2)
    have := add_self e1
    dsimp only at this
    refine neg_eq_zero' ?_
    rw [← this]
    ext <;> simp
  rw [l0, act_zero'] at ha
  have hg := neg_eq_zero' ha.symm
  have hg' : (X b2).x + r2 - (X b1).x - r1 = 0 := hg
  have : (X b1).x + r1 + ((X b2).x + r2 - (X b1).x - r1) = (X b2).x + r2 := by abel
  rw [hg'] at this
  rw [← this]
  ext <;> simp

/-- If the orientations stay, they are as they were when the joint was made. -/
theorem align_rests {cfg : JCfg K} (he : 0 ≤ cfg.eps) {body : Nat → PBody K} (Z X : Nat → Pose K) {b1 b2 : Nat} (hb : b1 ≠ b2)
    (h1 : FreeAxes (body b1)) (h2 : FreeAxes (body b2)) {dyn : Bool} (hd : dyn = true) {d : Quat K} (hdd : d.lengthSq = 1)
    (hM : cfg.eps < |(M3.add (twoAt body Z b1 b2).I1 (twoAt body Z b1 b2).I2).det|) (q1 : (X b1).q.lengthSq = 1) (q2 : (X b2).q.lengthSq = 1)
    (e1 : ((align cfg dyn (twoAt body Z b1 b2) d X).1 b1).q = (X b1).q) (e2 : ((align cfg dyn (twoAt body Z b1 b2) d X).1 b2).q = (X b2).q) :
    Aligned X b1 b2 d := by
  obtain ⟨n, ⟨p1, p2, -⟩, -, -, hw, -⟩ := align_rate he Z X hb h1 h2 hd d hM
  rw [p1] at e1
  rw [p2] at e2
  rw [spin_fixed q1 e1, spin_fixed q2 e2] at hw
  have ht : turnErr (X b1).q (X b2).q d = 0 := neg_eq_zero' (by rw [← hw]; ext <;> simp)
  unfold turnErr at ht
  have hu : (((X b2).q.mul d).mul (X b1).q.conj).lengthSq = 1 := unit_mul (unit_mul q2 hdd) (unit_inverse q1)
  have hb' : (((X b2).q.mul d).mul (X b1).q.conj).mul (X b1).q = (X b2).q.mul d := by rw [mul_assoc', (mul_conj q1).2, mul_one']
  generalize ((X b2).q.mul d).mul (X b1).q.conj = e at *
  have hx : e.x = 0 := by have := congrArg V3.x ht; simpa using this
  have hy : e.y = 0 := by have := congrArg V3.y ht; simpa using this
  have hz : e.z = 0 := by have := congrArg V3.z ht; simpa using this
  unfold Quat.lengthSq at hu
  rw [hx, hy, hz] at hu
  have hw' : (e.w - 1) * (e.w + 1) = 0 := by linear_combination hu
  have he' : e = ⟨0, 0, 0, e.w⟩ := by ext <;> simp [hx, hy, hz]
  unfold Aligned
  rw [← hb', he']
  rcases mul_eq_zero.1 hw' with k | k
  · left; rw [show e.w = 1 by linarith, one_mul']
  · right; rw [show e.w = -1 by linarith]; unfold Quat.mul Quat.scale; ext <;> simp

/-- The mass of the joint, seen from two bodies of which one is dynamic. -/
structure Able (body : Nat → PBody K) (b1 b2 : Nat) : Prop where
  ne : b1 ≠ b2
  free1 : FreeAxes (body b1)
  free2 : FreeAxes (body b2)
  dyn : (body b1).dyn = true ∨ (body b2).dyn = true
  mass : (body b1).m + (body b2).m ≠ 0

theorem Able.or {body : Nat → PBody K} {b1 b2 : Nat} (h : Able body b1 b2) : ((body b1).dyn || (body b2).dyn) = true := by
  rcases h.dyn with k | k <;> simp [k]

theorem Ball.rests_iff {cfg : JCfg K} (hs : IsSqrt cfg.sqrt) (he : 0 ≤ cfg.eps) {body : Nat → PBody K} (X : Nat → Pose K) {J : Ball K}
    (hA : Able body J.b1 J.b2) (hc : J.coneOn = false) (q1 : (X J.b1).q.lengthSq = 1) (q2 : (X J.b2).q.lengthSq = 1)
    (hM : cfg.eps < |(massMatrix (body J.b1).m (body J.b2).m (twoAt body X J.b1 J.b2).I1 (twoAt body X J.b1 J.b2).I2 (armAt body X J.b1 J.a1)
      (armAt body X J.b2 J.a2)).det|) :
    (J.position cfg body X).1 = X ↔ J.Holds cfg body X := by
  refine ⟨fun h => ⟨?_, fun k => by rw [hc] at k; cases k⟩, fun h => J.position_hold hs body q1 q2 h⟩
  have hpo : (J.position cfg body X).1 =
      (pull cfg ((body J.b1).dyn || (body J.b2).dyn) (twoAt body X J.b1 J.b2) (armAt body X J.b1 J.a1) (armAt body X J.b2 J.a2) X).1 := by
    unfold Ball.position Ball.cone'
    dsimp only
    rw [hc]
    rfl
  rw [hpo] at h
  exact pull_rests he X X hA.ne hA.free1 hA.free2 hA.or _ _ hA.mass hM (congrArg Pose.x (congrFun h _)) (congrArg Pose.x (congrFun h _))

theorem Fixed.rests_iff {cfg : JCfg K} (hs : IsSqrt cfg.sqrt) (he : 0 ≤ cfg.eps) {body : Nat → PBody K} (X : Nat → Pose K) {J : Fixed K}
    (hA : Able body J.b1 J.b2) (hd : J.d.lengthSq = 1) (q1 : (X J.b1).q.lengthSq = 1) (q2 : (X J.b2).q.lengthSq = 1)
    (hM : cfg.eps < |(massMatrix (body J.b1).m (body J.b2).m (twoAt body X J.b1 J.b2).I1 (twoAt body X J.b1 J.b2).I2 (armAt body X J.b1 J.a1)
      (armAt body X J.b2 J.a2)).det|)
    (hR : cfg.eps < |(M3.add (twoAt body X J.b1 J.b2).I1 (twoAt body X J.b1 J.b2).I2).det|) :
    (J.position cfg body X).1 = X ↔ J.Holds body X := by
  refine ⟨fun h => ?_, fun h => J.position_hold hs body q1 q2 h⟩
  have hpo : (J.position cfg body X).1 = (align cfg ((body J.b1).dyn || (body J.b2).dyn) (twoAt body X J.b1 J.b2) J.d
      (pull cfg ((body J.b1).dyn || (body J.b2).dyn) (twoAt body X J.b1 J.b2) (armAt body X J.b1 J.a1) (armAt body X J.b2 J.a2) X).1).1 := rfl
  rw [hpo] at h
  obtain ⟨n, hn, v1, v2, -⟩ := align_rate he X (pull cfg ((body J.b1).dyn || (body J.b2).dyn) (twoAt body X J.b1 J.b2) (armAt body X J.b1 J.a1)
    (armAt body X J.b2 J.a2) X).1 hA.ne hA.free1 hA.free2 hA.or J.d hR
  obtain ⟨g1, g2⟩ := nudged_gap hn v1 v2
  rw [h] at g1 g2
  have ha := pull_rests he X X hA.ne hA.free1 hA.free2 hA.or _ _ hA.mass hM g1.symm g2.symm
  have hp := pull_zero hs ((body J.b1).dyn || (body J.b2).dyn) (twoAt body X J.b1 J.b2) q1 q2 ha
  rw [hp] at h
  exact ⟨ha, align_rests he X X hA.ne hA.free1 hA.free2 hA.or hd hR q1 q2 (by rw [h]) (by rw [h])⟩

/-- The matrix of the rotation constraints of a hinge is regular. -/
def Hinge.Turnable (cfg : JCfg K) (body : Nat → PBody K) (X : Nat → Pose K) (J : Hinge K) : Prop :=
  let c := twoAt body X J.b1 J.b2
  let ax := unitOf cfg ((X J.b1).q.rot J.l1)
  let ax2 := unitOf cfg ((X J.b2).q.rot J.l2)
  let b := orthogonal cfg.sqrt ax2
  let ba := V3.cross b ax
  let ca := V3.cross (V3.cross ax2 b) ax
  cfg.eps < |(⟨V3.dot ba (c.I1.act ba) + V3.dot ba (c.I2.act ba), V3.dot ba (c.I1.act ca) + V3.dot ba (c.I2.act ca),
    V3.dot ca (c.I1.act ba) + V3.dot ca (c.I2.act ba), V3.dot ca (c.I1.act ca) + V3.dot ca (c.I2.act ca)⟩ : M2 K).det|

theorem cross_self_smul (k : K) (a : V3 K) : V3.cross (V3.smul k a) a = 0 := by
  unfold V3.cross; ext <;> simp <;> ring

theorem unit_ne_zero {a : V3 K} (h : V3.dot a a = 1) : a ≠ 0 := by
  rintro rfl
  unfold V3.dot at h
  simp at h

theorem Hinge.rests_iff {cfg : JCfg K} (hs : IsSqrt cfg.sqrt) (he : 0 ≤ cfg.eps) (he1 : cfg.eps ≤ 1) {body : Nat → PBody K} (X : Nat → Pose K)
    {J : Hinge K} (hA : Able body J.b1 J.b2) (hl : J.limitOn = false) (l1 : V3.dot J.l1 J.l1 = 1) (l2 : V3.dot J.l2 J.l2 = 1)
    (q1 : (X J.b1).q.lengthSq = 1) (q2 : (X J.b2).q.lengthSq = 1)
    (hM : cfg.eps < |(massMatrix (body J.b1).m (body J.b2).m (twoAt body X J.b1 J.b2).I1 (twoAt body X J.b1 J.b2).I2 (armAt body X J.b1 J.a1)
      (armAt body X J.b2 J.a2)).det|) (hR : J.Turnable cfg body X) :
    (J.position cfg body X).1 = X ↔ J.Holds cfg body X := by
  refine ⟨fun h => ?_, fun h => J.position_hold hs body q1 q2 h⟩
  have u1 : unitOf cfg ((X J.b1).q.rot J.l1) = (X J.b1).q.rot J.l1 := HingeProps.unitOf_unit hs he1 ((rot_dot q1 _ _).trans l1)
  have u2 : unitOf cfg ((X J.b2).q.rot J.l2) = (X J.b2).q.rot J.l2 := HingeProps.unitOf_unit hs he1 ((rot_dot q2 _ _).trans l2)
  have k2 : V3.dot ((X J.b2).q.rot J.l2) ((X J.b2).q.rot J.l2) = 1 := (rot_dot q2 _ _).trans l2
  unfold Hinge.Turnable at hR
  dsimp only at hR
  set ax := unitOf cfg ((X J.b1).q.rot J.l1) with hax
  set ax2 := unitOf cfg ((X J.b2).q.rot J.l2) with hax2
  set angle := hingeAngle cfg J.d ax J.lower J.upper (X J.b1).q (X J.b2).q with hang
  set J' : Hinge K := { J with
    r1 := armAt body X J.b1 J.a1, r2 := armAt body X J.b2 J.a2, ax := ax, ba := V3.cross (orthogonal cfg.sqrt ax2) ax,
    ca := V3.cross (V3.cross ax2 (orthogonal cfg.sqrt ax2)) ax, low := decide (angle - J.lower ≤ 0), up := decide (J.upper - angle ≤ 0) } with hJ
  have hli : J'.limits' cfg (twoAt body X J.b1 J.b2) (angle - J.lower) (J.upper - angle) X = (X, J') := by
    unfold Hinge.limits'
    have : ¬ J'.limitOn = true := by rw [hJ]; simp [hl]
    rw [if_neg this]
  have hpo : (J.position cfg body X).1 = (pull cfg ((body J.b1).dyn || (body J.b2).dyn) (twoAt body X J.b1 J.b2) (armAt body X J.b1 J.a1)
      (armAt body X J.b2 J.a2) ((J'.limits' cfg (twoAt body X J.b1 J.b2) (angle - J.lower) (J.upper - angle) X).2.rotate' cfg
        ((body J.b1).dyn || (body J.b2).dyn) (twoAt body X J.b1 J.b2) (orthogonal cfg.sqrt ax2) (V3.cross ax2 (orthogonal cfg.sqrt ax2))
        (J'.limits' cfg (twoAt body X J.b1 J.b2) (angle - J.lower) (J.upper - angle) X).1).1).1 := rfl
  rw [hli] at hpo
  dsimp only at hpo
  rw [hpo] at h
  obtain ⟨m, hm, m1, m2, m3, m4⟩ := rotate_rate he (body := body) X X (J := J') hA.ne hA.free1 hA.free2 hA.or (orthogonal cfg.sqrt ax2)
    (V3.cross ax2 (orthogonal cfg.sqrt ax2)) rfl rfl hR
  have hm' : Nudged cfg J.b1 J.b2 m X (J'.rotate' cfg ((body J.b1).dyn || (body J.b2).dyn) (twoAt body X J.b1 J.b2) (orthogonal cfg.sqrt ax2)
    (V3.cross ax2 (orthogonal cfg.sqrt ax2)) X).1 := hm
  generalize (J'.rotate' cfg ((body J.b1).dyn || (body J.b2).dyn) (twoAt body X J.b1 J.b2) (orthogonal cfg.sqrt ax2)
    (V3.cross ax2 (orthogonal cfg.sqrt ax2)) X).1 = Y at *
  obtain ⟨g1, g2⟩ := nudged_gap hm' m1 m2
  obtain ⟨n1, n2, -⟩ := hm'
  have y1 : (Y J.b1).q.lengthSq = 1 := by rw [n1]; exact spin_unit hs _ (by rw [q1]; exact one_ne_zero)
  have y2 : (Y J.b2).q.lengthSq = 1 := by rw [n2]; exact spin_unit hs _ (by rw [q2]; exact one_ne_zero)
  have ha : (Y J.b1).x + armAt body X J.b1 J.a1 = (Y J.b2).x + armAt body X J.b2 J.a2 :=
    pull_rests he X Y hA.ne hA.free1 hA.free2 hA.or _ _ hA.mass hM (by rw [h, g1]) (by rw [h, g2])
  have hp := pull_zero hs ((body J.b1).dyn || (body J.b2).dyn) (twoAt body X J.b1 J.b2) y1 y2 ha
  rw [hp] at h
  rw [g1, g2] at ha
  rw [h] at n1 n2
  have w1 : m.w1 = 0 := spin_fixed q1 (congrArg Pose.q n1).symm
  have w2 : m.w2 = 0 := spin_fixed q2 (congrArg Pose.q n2).symm
  have z : ∀ d : V3 K, m.between ax d = 0 := fun d => by
    unfold Nudge.between
    rw [w1, w2]
    unfold V3.dot V3.cross
    simp
  have m3' : m.between ax (orthogonal cfg.sqrt ax2) = -V3.dot ax (orthogonal cfg.sqrt ax2) := m3
  have m4' : m.between ax (V3.cross ax2 (orthogonal cfg.sqrt ax2)) = -V3.dot ax (V3.cross ax2 (orthogonal cfg.sqrt ax2)) := m4
  rw [z] at m3' m4'
  have hal := along_axis hs (cfg := cfg) (u := ax) (a := ax2) (by rw [u2]; exact k2) (by linarith) (by linarith)
  refine ⟨ha, ?_, unit_ne_zero k2, fun k => by rw [hl] at k; cases k⟩
  rw [← u1, ← u2, hal]
  exact cross_self_smul _ _

/-- The matrix of the translation constraints of a slider is regular. -/
def Slider.Movable (cfg : JCfg K) (body : Nat → PBody K) (X : Nat → Pose K) (J : Slider K) : Prop :=
  let c := twoAt body X J.b1 J.b2
  let r1 := armAt body X J.b1 J.a1
  let r2 := armAt body X J.b2 J.a2
  let u := anchorAt body X J.b2 J.a2 - anchorAt body X J.b1 J.a1
  let ax := unitOf cfg ((X J.b1).q.rot J.l1)
  let d := orthogonal cfg.sqrt ax
  let e := V3.cross ax d
  let m := c.m1 + c.m2
  let c1 := V3.cross (r1 + u) d
  let c2 := V3.cross (r1 + u) e
  let e1 := V3.cross r2 d
  let e2 := V3.cross r2 e
  cfg.eps < |(⟨m + V3.dot c1 (c.I1.act c1) + V3.dot e1 (c.I2.act e1), V3.dot c1 (c.I1.act c2) + V3.dot e1 (c.I2.act e2),
    V3.dot c2 (c.I1.act c1) + V3.dot e2 (c.I2.act e1), m + V3.dot c2 (c.I1.act c2) + V3.dot e2 (c.I2.act e2)⟩ : M2 K).det|

theorem two_dirs {x y : K} {d e : V3 K} (hd : V3.dot d d = 1) (he : V3.dot e e = 1) (hde : V3.dot d e = 0)
    (h : V3.smul x d + V3.smul y e = 0) : x = 0 ∧ y = 0 := by
  have h1 := congrArg (fun v => V3.dot v d) h
  have h2 := congrArg (fun v => V3.dot v e) h
  unfold V3.dot at *
  simp only [V3.add_x, V3.add_y, V3.add_z, V3.smul_x, V3.smul_y, V3.smul_z, V3.zero_x, V3.zero_y, V3.zero_z, zero_mul, add_zero] at h1 h2
  constructor
  · linear_combination h1 - x * hd - y * hde
  · linear_combination h2 - y * he - x * hde

/-- If the centers of mass stay, the anchors are at the same place across the axis; then nothing else is changed. -/
theorem slide_pull_rests {cfg : JCfg K} (hs : IsSqrt cfg.sqrt) (he : 0 ≤ cfg.eps) {body : Nat → PBody K} (Z X : Nat → Pose K) {J : Slider K}
    (hA : Able body J.b1 J.b2) (u : V3 K) (n11 : V3.dot J.n1 J.n1 = 1) (n22 : V3.dot J.n2 J.n2 = 1) (n12 : V3.dot J.n1 J.n2 = 0)
    (q1 : (X J.b1).q.lengthSq = 1) (q2 : (X J.b2).q.lengthSq = 1)
    (hM : let c := twoAt body Z J.b1 J.b2
      let m := c.m1 + c.m2
      cfg.eps < |(⟨m + V3.dot J.c1 (c.I1.act J.c1) + V3.dot J.e1 (c.I2.act J.e1), V3.dot J.c1 (c.I1.act J.c2) + V3.dot J.e1 (c.I2.act J.e2),
        V3.dot J.c2 (c.I1.act J.c1) + V3.dot J.e2 (c.I2.act J.e1), m + V3.dot J.c2 (c.I1.act J.c2) + V3.dot J.e2 (c.I2.act J.e2)⟩ : M2 K).det|)
    (e1 : ((Slider.pull' cfg ((body J.b1).dyn || (body J.b2).dyn) (twoAt body Z J.b1 J.b2) J u X).1 J.b1).x = (X J.b1).x)
    (e2 : ((Slider.pull' cfg ((body J.b1).dyn || (body J.b2).dyn) (twoAt body Z J.b1 J.b2) J u X).1 J.b2).x = (X J.b2).x) :
    V3.dot u J.n1 = 0 ∧ V3.dot u J.n2 = 0 ∧
      (Slider.pull' cfg ((body J.b1).dyn || (body J.b2).dyn) (twoAt body Z J.b1 J.b2) J u X).1 = X := by
  dsimp only at hM
  unfold Slider.pull' at *
  dsimp only at *
  rw [if_pos hM] at *
  dsimp only at *
  have ha := inverseOrZero2_act he hM hA.or (⟨-V3.dot u J.n1, -V3.dot u J.n2⟩ : V2 K)
  generalize (inverseOrZero2 cfg ((body J.b1).dyn || (body J.b2).dyn) _).act (⟨-V3.dot u J.n1, -V3.dot u J.n2⟩ : V2 K) = l at *
  obtain ⟨p1, p2, -⟩ := place_nudged cfg Z X hA.ne hA.free1 hA.free2 (V3.smul l.x (-J.n1) - V3.smul l.y J.n2) (V3.smul l.x (-J.c1) - V3.smul l.y J.c2)
      (V3.smul l.x J.n1 + V3.smul l.y J.n2) (V3.smul l.x J.e1 + V3.smul l.y J.e2)
  rw [p1] at e1
  rw [p2] at e2
  have l0 : V3.smul l.x J.n1 + V3.smul l.y J.n2 = 0 := by
    refine two_masses hA.mass ?_ (add_self e2)
    have := add_self e1
    dsimp only at this
    refine neg_eq_zero' ?_
    rw [← this]
    ext <;> simp <;> ring
  obtain ⟨x0, y0⟩ := two_dirs n11 n22 n12 l0
  have hl : l = ⟨0, 0⟩ := by ext <;> assumption
  rw [hl, act2_zero] at ha
  have hx := congrArg V2.x ha
  have hy := congrArg V2.y ha
  dsimp only at hx hy
  refine ⟨by linarith, by linarith, ?_⟩
  rw [hl]
  have z1 : ∀ a b : V3 K, V3.smul 0 (-a) - V3.smul 0 b = 0 := fun a b => by ext <;> simp
  have z2 : ∀ a b : V3 K, V3.smul 0 a + V3.smul 0 b = 0 := fun a b => by ext <;> simp
  dsimp only
  rw [z1, z1, z2, z2]
  exact place_zero hs _ q1 q2

set_option maxHeartbeats 2000000 in
theorem Slider.rests_iff {cfg : JCfg K} (hs : IsSqrt cfg.sqrt) (he : 0 ≤ cfg.eps) (he1 : cfg.eps ≤ 1) {body : Nat → PBody K} (X : Nat → Pose K)
    {J : Slider K} (hA : Able body J.b1 J.b2) (hl : J.limitOn = false) (l1 : V3.dot J.l1 J.l1 = 1) (hd : J.d.lengthSq = 1)
    (q1 : (X J.b1).q.lengthSq = 1) (q2 : (X J.b2).q.lengthSq = 1)
    (hR : cfg.eps < |(M3.add (twoAt body X J.b1 J.b2).I1 (twoAt body X J.b1 J.b2).I2).det|) (hM : J.Movable cfg body X) :
    (J.position cfg body X).1 = X ↔ J.Holds cfg body X := by
  refine ⟨fun h => ?_, fun h => J.position_hold hs body q1 q2 h⟩
  have u1 : unitOf cfg ((X J.b1).q.rot J.l1) = (X J.b1).q.rot J.l1 := HingeProps.unitOf_unit hs he1 ((rot_dot q1 _ _).trans l1)
  have k1 : V3.dot ((X J.b1).q.rot J.l1) ((X J.b1).q.rot J.l1) = 1 := (rot_dot q1 _ _).trans l1
  unfold Slider.Movable at hM
  dsimp only at hM
  set ax := unitOf cfg ((X J.b1).q.rot J.l1) with hax
  have hax' : V3.dot ax ax = 1 := by rw [u1]; exact k1
  have o1 : V3.dot (orthogonal cfg.sqrt ax) (orthogonal cfg.sqrt ax) = 1 := orth_unit hs hax'
  have o3 := cross_unit hax' o1 (orth_dot _ _)
  have o4 : V3.dot (orthogonal cfg.sqrt ax) (V3.cross ax (orthogonal cfg.sqrt ax)) = 0 := by unfold V3.dot V3.cross; ring
  set r1 := armAt body X J.b1 J.a1 with hr1
  set r2 := armAt body X J.b2 J.a2 with hr2
  set u := (X J.b2).x + r2 - (X J.b1).x - r1 with hu
  have huu : anchorAt body X J.b2 J.a2 - anchorAt body X J.b1 J.a1 = u := by
    rw [hu, hr1, hr2]; unfold anchorAt armAt; abel
  rw [huu] at hM
  set J' : Slider K := { J with
    r1 := r1, r2 := r2, ax := ax, n1 := orthogonal cfg.sqrt ax, n2 := V3.cross ax (orthogonal cfg.sqrt ax),
    low := decide (V3.dot u ax - J.lower ≤ 0), up := decide (J.upper - V3.dot u ax ≤ 0),
    e1 := V3.cross r2 (orthogonal cfg.sqrt ax), e2 := V3.cross r2 (V3.cross ax (orthogonal cfg.sqrt ax)), ex := V3.cross r2 ax,
    c1 := V3.cross (r1 + u) (orthogonal cfg.sqrt ax), c2 := V3.cross (r1 + u) (V3.cross ax (orthogonal cfg.sqrt ax)),
    cx := V3.cross (r1 + u) ax } with hJ
  have hli : J'.limits' cfg (twoAt body X J.b1 J.b2) X = (X, J') := by
    unfold Slider.limits'
    have : ¬ J'.limitOn = true := by rw [hJ]; simp [hl]
    rw [if_neg this]
  have hpo : (J.position cfg body X).1 = (Slider.pull' cfg ((body J.b1).dyn || (body J.b2).dyn) (twoAt body X J.b1 J.b2)
      { (J'.limits' cfg (twoAt body X J.b1 J.b2) X).2 with
        kr := (align cfg ((body J.b1).dyn || (body J.b2).dyn) (twoAt body X J.b1 J.b2) J.d
          (J'.limits' cfg (twoAt body X J.b1 J.b2) X).1).2 } u
      (align cfg ((body J.b1).dyn || (body J.b2).dyn) (twoAt body X J.b1 J.b2) J.d (J'.limits' cfg (twoAt body X J.b1 J.b2) X).1).1).1 := rfl
  rw [hli] at hpo
  dsimp only at hpo
  rw [hpo] at h
  obtain ⟨m, hm, v1, v2, -⟩ := align_rate he X X hA.ne hA.free1 hA.free2 hA.or J.d hR
  have hrest : (align cfg ((body J.b1).dyn || (body J.b2).dyn) (twoAt body X J.b1 J.b2) J.d X).1 = X → Aligned X J.b1 J.b2 J.d := fun e =>
    align_rests he X X hA.ne hA.free1 hA.free2 hA.or hd hR q1 q2 (by rw [e]) (by rw [e])
  generalize (align cfg ((body J.b1).dyn || (body J.b2).dyn) (twoAt body X J.b1 J.b2) J.d X).2 = kr at h
  generalize (align cfg ((body J.b1).dyn || (body J.b2).dyn) (twoAt body X J.b1 J.b2) J.d X).1 = Y at *
  obtain ⟨g1, g2⟩ := nudged_gap hm v1 v2
  obtain ⟨n1, n2, -⟩ := hm
  have y1 : (Y J.b1).q.lengthSq = 1 := by rw [n1]; exact spin_unit hs _ (by rw [q1]; exact one_ne_zero)
  have y2 : (Y J.b2).q.lengthSq = 1 := by rw [n2]; exact spin_unit hs _ (by rw [q2]; exact one_ne_zero)
  obtain ⟨a1, a2, a3⟩ := slide_pull_rests hs he (body := body) X Y (J := { J' with kr := kr }) hA u o1 o3 o4 y1 y2 hM
    ((congrArg Pose.x (congrFun h J.b1)).trans g1.symm) ((congrArg Pose.x (congrFun h J.b2)).trans g2.symm)
  have hY : Y = X := a3.symm.trans h
  have hal := along_axis hs (cfg := cfg) (u := u) (a := ax) hax' a1 a2
  refine ⟨?_, unit_ne_zero k1, hrest hY, fun k => by rw [hl] at k; cases k⟩
  rw [huu, ← u1, hal]
  exact cross_self_smul _ _

/-! ### Regular matrices -/

/-- Symmetric, not negative, determinant at least `D`. -/
structure Semi (D : K) (M : M2 K) : Prop where
  sym : M.b = M.c
  quad : ∀ x y : K, 0 ≤ x * x * M.a + 2 * (x * y) * M.b + y * y * M.d
  det : D ≤ M.det

theorem Semi.outer {D k : K} {M N : M2 K} (h : Semi D M) (hk : 0 ≤ k) (u v : K)
    (hN : N = ⟨M.a + k * u * u, M.b + k * u * v, M.c + k * v * u, M.d + k * v * v⟩) : Semi D N := by
  subst hN
  obtain ⟨hs, hq, hd⟩ := h
  refine ⟨?_, fun x y => ?_, ?_⟩
  · dsimp only; rw [hs]; ring
  · have h1 := hq x y
    have h2 : 0 ≤ k * ((x * u + y * v) * (x * u + y * v)) := mul_nonneg hk (mul_self_nonneg _)
    dsimp only
    nlinarith [h1, h2]
  · have h1 := mul_nonneg hk (hq v (-u))
    unfold M2.det at *
    dsimp only
    rw [hs] at h1 ⊢
    rw [hs] at hd
    nlinarith [h1, hd]

/-- Products of two vectors through the inertia of a body, in its own axes. -/
theorem inertia_form (o : M3 K) (i u v : V3 K) : V3.dot u ((Dyn.worldInertia o i).act v) =
    i.x * (o.transpose.act u).x * (o.transpose.act v).x + i.y * (o.transpose.act u).y * (o.transpose.act v).y +
      i.z * (o.transpose.act u).z * (o.transpose.act v).z := by
  rw [worldInertia_act, transpose_dot]
  simp only [V3.dot, (had_at _ _).1, (had_at _ _).2.1, (had_at _ _).2.2]
  ring

theorem own_dot {q : Quat K} (hq : q.lengthSq = 1) (u v : V3 K) : V3.dot u v =
    (q.matrix.transpose.act u).x * (q.matrix.transpose.act v).x + (q.matrix.transpose.act u).y * (q.matrix.transpose.act v).y +
      (q.matrix.transpose.act u).z * (q.matrix.transpose.act v).z := by
  have h : ∀ w : V3 K, q.rot (q.matrix.transpose.act w) = w := fun w => by
    rw [← matrix_act hq]
    have : q.matrix.transpose.act w = q.conj.rot w := by
      rw [matrix_of_unit hq]
      have e : q.w * q.w = 1 - q.x * q.x - q.y * q.y - q.z * q.z := by
        simp only [Quat.lengthSq] at hq; linarith
      simp only [M3.transpose, M3.act, M3.of, Quat.rot, Quat.conj, V3.mk.injEq]
      refine ⟨?_, ?_, ?_⟩
      · linear_combination (-w.x) * e
      · linear_combination (-w.y) * e
      · linear_combination (-w.z) * e
    rw [this, matrix_act hq, rot_conj' hq]
  calc V3.dot u v = V3.dot (q.rot (q.matrix.transpose.act u)) (q.rot (q.matrix.transpose.act v)) := by rw [h, h]
    _ = _ := by rw [rot_dot hq]; unfold V3.dot; rfl

/-- Inverse inertia that is not negative. -/
def Inert (i : V3 K) : Prop := 0 ≤ i.x ∧ 0 ≤ i.y ∧ 0 ≤ i.z
/-- Inverse inertia of at least `l` about all axes. -/
def Least (l : K) (i : V3 K) : Prop := l ≤ i.x ∧ l ≤ i.y ∧ l ≤ i.z

theorem Semi.body {D : K} {M N : M2 K} (h : Semi D M) (o : M3 K) {i : V3 K} (hi : Inert i) (a b : V3 K)
    (hN : N = ⟨M.a + V3.dot a ((Dyn.worldInertia o i).act a), M.b + V3.dot a ((Dyn.worldInertia o i).act b),
      M.c + V3.dot b ((Dyn.worldInertia o i).act a), M.d + V3.dot b ((Dyn.worldInertia o i).act b)⟩) : Semi D N := by
  subst hN
  refine Semi.outer (Semi.outer (Semi.outer h hi.1 (o.transpose.act a).x (o.transpose.act b).x rfl) hi.2.1 (o.transpose.act a).y (o.transpose.act b).y rfl)
    hi.2.2 (o.transpose.act a).z (o.transpose.act b).z ?_
  simp only [inertia_form]
  ext <;> ring

theorem Semi.gram {l : K} (hl : 0 ≤ l) {q : Quat K} (hq : q.lengthSq = 1) {i : V3 K} (hi : Least l i) (a b : V3 K) :
    Semi (l * l * V3.dot (V3.cross a b) (V3.cross a b)) (⟨V3.dot a ((Dyn.worldInertia q.matrix i).act a), V3.dot a ((Dyn.worldInertia q.matrix i).act b),
      V3.dot b ((Dyn.worldInertia q.matrix i).act a), V3.dot b ((Dyn.worldInertia q.matrix i).act b)⟩ : M2 K) := by
  have h0 : Semi (l * l * V3.dot (V3.cross a b) (V3.cross a b)) (⟨l * V3.dot a a, l * V3.dot a b, l * V3.dot b a, l * V3.dot b b⟩ : M2 K) := by
    refine ⟨by unfold V3.dot; ring, fun x y => ?_, ?_⟩
    · have : x * x * (l * V3.dot a a) + 2 * (x * y) * (l * V3.dot a b) + y * y * (l * V3.dot b b) =
          l * V3.dot (V3.smul x a + V3.smul y b) (V3.smul x a + V3.smul y b) := by
        unfold V3.dot; simp only [V3.add_x, V3.add_y, V3.add_z, V3.smul_x, V3.smul_y, V3.smul_z]; ring
      dsimp only
      rw [this]
      exact mul_nonneg hl (dot_self_nonneg _)
    · unfold M2.det V3.dot V3.cross
      apply le_of_eq
      ring
  refine Semi.outer (Semi.outer (Semi.outer h0 (sub_nonneg.2 hi.1) (q.matrix.transpose.act a).x (q.matrix.transpose.act b).x rfl) (sub_nonneg.2 hi.2.1)
    (q.matrix.transpose.act a).y (q.matrix.transpose.act b).y rfl) (sub_nonneg.2 hi.2.2) (q.matrix.transpose.act a).z (q.matrix.transpose.act b).z ?_
  simp only [inertia_form]
  rw [own_dot hq a a, own_dot hq a b, own_dot hq b a, own_dot hq b b]
  ext <;> ring

theorem inertia_definite {l : K} (hl : 0 < l) {q : Quat K} (hq : q.lengthSq = 1) {i : V3 K} (hi : Least l i) :
    Definite l (Dyn.worldInertia q.matrix i) := by
  have h0 : Definite l (M3.of l 0 0 0 l 0 0 0 l) := by
    refine ⟨⟨rfl, rfl, rfl⟩, fun x => ?_, ?_⟩
    · have e : V3.dot x ((M3.of l 0 0 0 l 0 0 0 l).act x) = l * V3.dot x x := by unfold M3.of M3.act V3.dot; ring
      rw [e]
      exact mul_nonneg hl.le (dot_self_nonneg x)
    · unfold M3.of M3.det
      apply le_of_eq
      ring
  have h1 := ((h0.outerAdd hl (sub_nonneg.2 hi.1) ⟨q.matrix.r0.x, q.matrix.r1.x, q.matrix.r2.x⟩).outerAdd hl (sub_nonneg.2 hi.2.1)
    ⟨q.matrix.r0.y, q.matrix.r1.y, q.matrix.r2.y⟩).outerAdd hl (sub_nonneg.2 hi.2.2) ⟨q.matrix.r0.z, q.matrix.r1.z, q.matrix.r2.z⟩
  have c : ∀ u v : V3 K, V3.dot u v = _ := own_dot hq
  unfold V3.dot at c
  have e : outerAdd (outerAdd (outerAdd (M3.of l 0 0 0 l 0 0 0 l) (i.x - l) ⟨q.matrix.r0.x, q.matrix.r1.x, q.matrix.r2.x⟩) (i.y - l)
      ⟨q.matrix.r0.y, q.matrix.r1.y, q.matrix.r2.y⟩) (i.z - l) ⟨q.matrix.r0.z, q.matrix.r1.z, q.matrix.r2.z⟩ = Dyn.worldInertia q.matrix i := by
    generalize q.matrix = o at *
    have xx := c ⟨1, 0, 0⟩ ⟨1, 0, 0⟩
    have yy := c ⟨0, 1, 0⟩ ⟨0, 1, 0⟩
    have zz := c ⟨0, 0, 1⟩ ⟨0, 0, 1⟩
    have xy := c ⟨1, 0, 0⟩ ⟨0, 1, 0⟩
    have xz := c ⟨1, 0, 0⟩ ⟨0, 0, 1⟩
    have yz := c ⟨0, 1, 0⟩ ⟨0, 0, 1⟩
    simp only [M3.transpose, M3.act, M3.of, mul_one, mul_zero, add_zero, zero_add] at xx yy zz xy xz yz
    unfold outerAdd Dyn.worldInertia M3.mul M3.add M3.of
    ext <;> simp
    · linear_combination l * xx
    · linear_combination l * xy
    · linear_combination l * xz
    · linear_combination l * xy
    · linear_combination l * yy
    · linear_combination l * yz
    · linear_combination l * xz
    · linear_combination l * yz
    · linear_combination l * zz
  rw [← e]
  exact h1

theorem Definite.body {l : K} (hl : 0 < l) {A : M3 K} (h : Definite l A) (o : M3 K) {i : V3 K} (hi : Inert i) :
    Definite l (M3.add A (Dyn.worldInertia o i)) := by
  have h1 := ((h.outerAdd hl hi.1 ⟨o.r0.x, o.r1.x, o.r2.x⟩).outerAdd hl hi.2.1 ⟨o.r0.y, o.r1.y, o.r2.y⟩).outerAdd hl hi.2.2 ⟨o.r0.z, o.r1.z, o.r2.z⟩
  have e : Joints.outerAdd (Joints.outerAdd (Joints.outerAdd A i.x ⟨o.r0.x, o.r1.x, o.r2.x⟩) i.y ⟨o.r0.y, o.r1.y, o.r2.y⟩) i.z ⟨o.r0.z, o.r1.z, o.r2.z⟩ =
      M3.add A (Dyn.worldInertia o i) := by
    unfold Joints.outerAdd Dyn.worldInertia M3.mul M3.add M3.of
    ext <;> simp <;> ring
  rw [← e]
  exact h1

/-- Two bodies without locked axes, at least one of them dynamic, that are not too heavy for the solver: the third power of the sum of their inverse masses,
and that of the least inverse inertia `l` of one of them, are beyond the constant with which determinants are compared. -/
structure Light (cfg : JCfg K) (body : Nat → PBody K) (b1 b2 : Nat) (l : K) : Prop where
  ne : b1 ≠ b2
  free1 : FreeAxes (body b1)
  free2 : FreeAxes (body b2)
  dyn : (body b1).dyn = true ∨ (body b2).dyn = true
  mass : 0 < (body b1).m + (body b2).m
  mass3 : cfg.eps < ((body b1).m + (body b2).m) * ((body b1).m + (body b2).m) * ((body b1).m + (body b2).m)
  in1 : Inert (body b1).i
  in2 : Inert (body b2).i
  pos : 0 < l
  least : Least l (body b1).i ∨ Least l (body b2).i
  turn3 : cfg.eps < l * l * l

section
variable {cfg : JCfg K} {body : Nat → PBody K} {b1 b2 : Nat} {l : K}

theorem Light.able (h : Light cfg body b1 b2 l) : Able body b1 b2 := ⟨h.ne, h.free1, h.free2, h.dyn, h.mass.ne'⟩

theorem Inert.inertial {i : V3 K} (h : Inert i) : Inertial (max i.x (max i.y i.z)) i :=
  ⟨⟨h.1, le_max_left _ _⟩, ⟨h.2.1, (le_max_left _ _).trans (le_max_right _ _)⟩, ⟨h.2.2, (le_max_right _ _).trans (le_max_right _ _)⟩⟩

theorem Inertial.mono {a b : K} (hab : a ≤ b) {i : V3 K} (h : Inertial a i) : Inertial b i :=
  ⟨⟨h.1.1, h.1.2.trans hab⟩, ⟨h.2.1.1, h.2.1.2.trans hab⟩, ⟨h.2.2.1, h.2.2.2.trans hab⟩⟩

theorem Light.anchors (h : Light cfg body b1 b2 l) (X : Nat → Pose K) (r1 r2 : V3 K) :
    cfg.eps < |(massMatrix (body b1).m (body b2).m (twoAt body X b1 b2).I1 (twoAt body X b1 b2).I2 r1 r2).det| := by
  have d := massMatrix_definite h.mass (o1 := (X b1).q.matrix) (o2 := (X b2).q.matrix) (h.in1.inertial.mono (le_max_left _ _))
    (h.in2.inertial.mono (le_max_right (max (body b1).i.x (max (body b1).i.y (body b1).i.z)) _)) r1 r2
  exact lt_of_lt_of_le h.mass3 (d.det.trans (le_abs_self _))

theorem Light.turns (h : Light cfg body b1 b2 l) (X : Nat → Pose K) (q1 : (X b1).q.lengthSq = 1) (q2 : (X b2).q.lengthSq = 1) :
    cfg.eps < |(M3.add (twoAt body X b1 b2).I1 (twoAt body X b1 b2).I2).det| := by
  refine lt_of_lt_of_le h.turn3 (le_trans ?_ (le_abs_self _))
  rcases h.least with k | k
  · exact ((inertia_definite h.pos q1 k).body h.pos (X b2).q.matrix h.in2).det
  · have := ((inertia_definite h.pos q2 k).body h.pos (X b1).q.matrix h.in1).det
    have e : M3.add (twoAt body X b1 b2).I1 (twoAt body X b1 b2).I2 = M3.add (Dyn.worldInertia (X b2).q.matrix (body b2).i)
        (Dyn.worldInertia (X b1).q.matrix (body b1).i) := by
      unfold twoAt M3.add
      ext <;> simp [add_comm] <;> rfl
    rw [e]
    exact this

end

/-- The rotation constraints of a hinge are regular unless its axes are nearly at right angles. -/
theorem Light.turnable {cfg : JCfg K} (hs : IsSqrt cfg.sqrt) (he1 : cfg.eps ≤ 1) {body : Nat → PBody K} {X : Nat → Pose K} {J : Hinge K} {l : K}
    (h : Light cfg body J.b1 J.b2 l) (l1 : V3.dot J.l1 J.l1 = 1) (l2 : V3.dot J.l2 J.l2 = 1) (q1 : (X J.b1).q.lengthSq = 1) (q2 : (X J.b2).q.lengthSq = 1)
    (hc : cfg.eps < l * l * (V3.dot ((X J.b1).q.rot J.l1) ((X J.b2).q.rot J.l2) * V3.dot ((X J.b1).q.rot J.l1) ((X J.b2).q.rot J.l2))) :
    J.Turnable cfg body X := by
  have k1 : V3.dot ((X J.b1).q.rot J.l1) ((X J.b1).q.rot J.l1) = 1 := (rot_dot q1 _ _).trans l1
  have k2 : V3.dot ((X J.b2).q.rot J.l2) ((X J.b2).q.rot J.l2) = 1 := (rot_dot q2 _ _).trans l2
  unfold Hinge.Turnable
  dsimp only
  rw [HingeProps.unitOf_unit hs he1 (v := (X J.b1).q.rot J.l1) k1, HingeProps.unitOf_unit hs he1 (v := (X J.b2).q.rot J.l2) k2]
  generalize (X J.b1).q.rot J.l1 = a at *
  generalize (X J.b2).q.rot J.l2 = a2 at *
  have hn := orth_unit hs k2
  have hd := orth_dot cfg.sqrt a2
  generalize orthogonal cfg.sqrt a2 = b at *
  have hv : V3.dot (V3.cross (V3.cross b a) (V3.cross (V3.cross a2 b) a)) (V3.cross (V3.cross b a) (V3.cross (V3.cross a2 b) a)) =
      V3.dot a a2 * V3.dot a a2 := by
    have e1 : ∀ v : V3 K, V3.cross (V3.cross b a) (V3.cross v a) = V3.smul (V3.dot a (V3.cross b v)) a := fun v => by
      unfold V3.cross V3.dot; ext <;> simp <;> ring
    have e2 : V3.dot a (V3.cross b (V3.cross a2 b)) = V3.dot a a2 * V3.dot b b - V3.dot a b * V3.dot a2 b := by
      unfold V3.cross V3.dot; ring
    rw [e1, e2, hn, hd]
    have e3 : ∀ k : K, V3.dot (V3.smul k a) (V3.smul k a) = k * k * V3.dot a a := fun k => by
      unfold V3.dot; simp only [V3.smul_x, V3.smul_y, V3.smul_z]; ring
    rw [e3, k1]; ring
  rw [← hv] at hc
  refine lt_of_lt_of_le hc (le_trans ?_ (le_abs_self _))
  generalize V3.cross b a = ba
  generalize V3.cross (V3.cross a2 b) a = ca
  rcases h.least with k | k
  · exact ((Semi.gram h.pos.le q1 k ba ca).body (X J.b2).q.matrix h.in2 ba ca rfl).det
  · refine ((Semi.gram h.pos.le q2 k ba ca).body (X J.b1).q.matrix h.in1 ba ca ?_).det
    unfold twoAt
    ext <;> exact add_comm _ _

/-- The translation constraints of a slider are regular. -/
theorem Light.movable {cfg : JCfg K} (he1 : cfg.eps ≤ 1) {body : Nat → PBody K} {J : Slider K} {l : K}
    (h : Light cfg body J.b1 J.b2 l) (X : Nat → Pose K) : J.Movable cfg body X := by
  unfold Slider.Movable
  dsimp only
  have hm : cfg.eps < ((body J.b1).m + (body J.b2).m) * ((body J.b1).m + (body J.b2).m) := by
    have h3 := h.mass3
    have h0 := h.mass
    generalize (body J.b1).m + (body J.b2).m = m at *
    by_cases h1 : 1 < m
    · nlinarith
    · have h2 : m * m * m ≤ m * m * 1 := mul_le_mul_of_nonneg_left (not_lt.1 h1) (mul_self_nonneg m)
      linarith
  refine lt_of_lt_of_le hm (le_trans ?_ (le_abs_self _))
  have h0 : Semi (((body J.b1).m + (body J.b2).m) * ((body J.b1).m + (body J.b2).m))
      (⟨(body J.b1).m + (body J.b2).m, 0, 0, (body J.b1).m + (body J.b2).m⟩ : M2 K) := by
    have hp := h.mass.le
    generalize (body J.b1).m + (body J.b2).m = m at *
    refine ⟨rfl, fun x y => ?_, by unfold M2.det; simp⟩
    dsimp only
    have a := mul_nonneg (mul_self_nonneg x) hp
    have b := mul_nonneg (mul_self_nonneg y) hp
    linarith
  generalize V3.cross (armAt body X J.b1 J.a1 + (anchorAt body X J.b2 J.a2 - anchorAt body X J.b1 J.a1)) (orthogonal cfg.sqrt _) = c1
  generalize V3.cross (armAt body X J.b1 J.a1 + (anchorAt body X J.b2 J.a2 - anchorAt body X J.b1 J.a1)) (V3.cross _ _) = c2
  generalize V3.cross (armAt body X J.b2 J.a2) (orthogonal cfg.sqrt _) = e1
  generalize V3.cross (armAt body X J.b2 J.a2) (V3.cross _ _) = e2
  refine ((h0.body (X J.b1).q.matrix h.in1 c1 c2 rfl).body (X J.b2).q.matrix h.in2 e1 e2 ?_).det
  dsimp only
  rw [zero_add, zero_add]
  rfl

/-! ### Joints in the poses of their bodies

`A`, `B` are the transforms of the bodies when the joint is made with an anchor and an axis in world space, `T` their present transforms. -/

theorem mem_parallel {a b : V3 K} (h : V3.cross a b = 0) (hl : V3.dot a a = V3.dot b b) : b = a ∨ b = -a := by
  have hx := congrArg V3.x h
  have hy := congrArg V3.y h
  have hz := congrArg V3.z h
  have e : V3.dot (b - a) (b - a) * V3.dot (b + a) (b + a) = 0 := by
    unfold V3.dot V3.cross at *
    simp only [V3.sub_x, V3.sub_y, V3.sub_z, V3.add_x, V3.add_y, V3.add_z, V3.zero_x, V3.zero_y, V3.zero_z] at *
    linear_combination 4 * (a.y * b.z - a.z * b.y) * hx + 4 * (a.z * b.x - a.x * b.z) * hy + 4 * (a.x * b.y - a.y * b.x) * hz +
      ((a.x * a.x + a.y * a.y + a.z * a.z) - (b.x * b.x + b.y * b.y + b.z * b.z)) * hl
  have z : ∀ v : V3 K, V3.dot v v = 0 → v = 0 := fun v hv => by
    unfold V3.dot at hv
    have hx := mul_self_nonneg v.x
    have hy := mul_self_nonneg v.y
    have hz := mul_self_nonneg v.z
    ext
    · exact mul_self_eq_zero.1 (by linarith)
    · exact mul_self_eq_zero.1 (by linarith)
    · exact mul_self_eq_zero.1 (by linarith)
  rcases mul_eq_zero.1 e with k | k
  · exact .inl (sub_eq_zero.1 (z _ k))
  · exact .inr (eq_neg_of_add_eq_zero_left (z _ k))

theorem poses_unit (body : Nat → PBody K) {T : Nat → Trans K} {b : Nat} (h : (T b).ori.lengthSq = 1) : (posesOf body T b).q.lengthSq = 1 := h

/-- **A ball-and-socket joint is left alone exactly if the bodies agree on its point.** -/
theorem ball_rests_iff {cfg : JCfg K} (hs : IsSqrt cfg.sqrt) (he : 0 ≤ cfg.eps) {body : Nat → PBody K} {b1 b2 : Nat} {l : K} (hL : Light cfg body b1 b2 l)
    (A B : Trans K) {T : Nat → Trans K} (h1 : (T b1).ori.lengthSq = 1) (h2 : (T b2).ori.lengthSq = 1) (baum : Bool) (p : V3 K) :
    ((Ball.make cfg b1 b2 baum A B (.world p)).position cfg body (posesOf body T)).1 = posesOf body T ↔ Pinned A B (T b1) (T b2) p := by
  rw [Ball.rests_iff hs he (posesOf body T) (J := Ball.make cfg b1 b2 baum A B (.world p)) hL.able rfl h1 h2 (hL.anchors _ _ _)]
  unfold Ball.Holds
  rw [anchorAt_poses, anchorAt_poses]
  constructor
  · exact fun h => h.1.symm
  · exact fun h => ⟨h.symm, fun k => by cases k⟩

theorem welded_iff {A B A' B' : Trans K} (p : V3 K) :
    Welded A B A' B' ↔ Pinned A B A' B' p ∧ ∀ v, B'.ori.rot (B.ori.conj.rot v) = A'.ori.rot (A.ori.conj.rot v) := by
  constructor
  · intro h
    refine ⟨h p, fun v => ?_⟩
    have := h (p + v)
    unfold Pinned at this
    rw [now_add, now_add, h p] at this
    exact add_left_cancel this
  · rintro ⟨hp, hv⟩ w
    have e : w = p + (w - p) := by abel
    unfold Pinned
    rw [e, now_add, now_add, hp, hv]

/-- **A fixed joint is left alone exactly if the bodies have moved together.** -/
theorem fixed_rests_iff {cfg : JCfg K} (hs : IsSqrt cfg.sqrt) (he : 0 ≤ cfg.eps) {body : Nat → PBody K} {b1 b2 : Nat} {l : K} (hL : Light cfg body b1 b2 l)
    {A B : Trans K} (hA : A.ori.lengthSq = 1) (hB : B.ori.lengthSq = 1) {T : Nat → Trans K} (h1 : (T b1).ori.lengthSq = 1) (h2 : (T b2).ori.lengthSq = 1)
    (baum : Bool) (p : V3 K) :
    ((Fixed.make b1 b2 baum A B (.world p)).position cfg body (posesOf body T)).1 = posesOf body T ↔ Welded A B (T b1) (T b2) := by
  rw [Fixed.rests_iff hs he (posesOf body T) (J := Fixed.make b1 b2 baum A B (.world p)) hL.able (unit_mul (unit_inverse hB) hA) h1 h2 (hL.anchors _ _ _)
    (hL.turns _ h1 h2), welded_iff p, ← aligned_iff hA hB h1 h2]
  unfold Fixed.Holds
  rw [anchorAt_poses, anchorAt_poses]
  exact and_congr_left fun _ => eq_comm

theorem hung_iff {A B A' B' : Trans K} {p n : V3 K} :
    Hung A B A' B' p n ↔ Pinned A B A' B' p ∧ B'.ori.rot (B.ori.conj.rot n) = A'.ori.rot (A.ori.conj.rot n) := by
  have z : ∀ v : V3 K, p + V3.smul 0 v = p := fun v => by ext <;> simp
  constructor
  · intro h
    have h0 := h 0
    rw [z] at h0
    refine ⟨h0, ?_⟩
    have := h 1
    unfold Pinned at this h0
    rw [now_add, now_add, h0] at this
    have e : V3.smul 1 n = n := by ext <;> simp
    rw [e] at this
    exact add_left_cancel this
  · rintro ⟨hp, hv⟩ t
    unfold Pinned at *
    rw [now_add, now_add, hp, rot_smul, rot_smul, rot_smul, rot_smul, hv]

theorem hungBack_iff {A B A' B' : Trans K} {p n : V3 K} :
    HungBack A B A' B' p n ↔ Pinned A B A' B' p ∧ B'.ori.rot (B.ori.conj.rot n) = -A'.ori.rot (A.ori.conj.rot n) := by
  have z : ∀ v : V3 K, p + V3.smul 0 v = p := fun v => by ext <;> simp
  have e1 : V3.smul 1 n = n := by ext <;> simp
  have e2 : V3.smul (-1) n = -n := by ext <;> simp
  constructor
  · intro h
    have h0 := h 0
    rw [neg_zero, z] at h0
    refine ⟨h0, ?_⟩
    have := h 1
    rw [e1, e2, now_add, now_add, h0, rot_neg, rot_neg] at this
    exact add_left_cancel this
  · rintro ⟨hp, hv⟩ t
    unfold Pinned at *
    rw [now_add, now_add, hp, rot_smul, rot_smul, rot_smul, rot_smul, hv]
    ext <;> simp

/-- **A hinge without limits is left alone exactly if the bodies agree on the line of its axis**, with the same direction or with opposite ones, as long
as the present axes are not nearly at right angles. What is missing: the first alternative alone (`hinge_back_rests`), and the axes at right angles
(`hinge_right_angle`). -/
theorem hinge_rests_iff_partial {cfg : JCfg K} (hs : IsSqrt cfg.sqrt) (he : 0 < cfg.eps) (he1 : cfg.eps ≤ 1) {body : Nat → PBody K} {b1 b2 : Nat} {l : K}
    (hL : Light cfg body b1 b2 l) {A B : Trans K} (hA : A.ori.lengthSq = 1) (hB : B.ori.lengthSq = 1) {T : Nat → Trans K}
    (h1 : (T b1).ori.lengthSq = 1) (h2 : (T b2).ori.lengthSq = 1) (baum : Bool) (p : V3 K) {n : V3 K} (hn : V3.dot n n = 1) (s : Drive K)
    (hoff : s.limitOn = false)
    (hc : cfg.eps < l * l * (V3.dot ((T b1).ori.rot (A.ori.conj.rot n)) ((T b2).ori.rot (B.ori.conj.rot n)) *
      V3.dot ((T b1).ori.rot (A.ori.conj.rot n)) ((T b2).ori.rot (B.ori.conj.rot n)))) :
    ((Hinge.make cfg b1 b2 baum A B (.world p) (.world n) s).position cfg body (posesOf body T)).1 = posesOf body T ↔
      Hung A B (T b1) (T b2) p n ∨ HungBack A B (T b1) (T b2) p n := by
  have a1 : V3.dot (A.ori.conj.rot n) (A.ori.conj.rot n) = 1 := (rot_dot (unit_inverse hA) _ _).trans hn
  have a2 : V3.dot (B.ori.conj.rot n) (B.ori.conj.rot n) = 1 := (rot_dot (unit_inverse hB) _ _).trans hn
  have e1 : (Hinge.make cfg b1 b2 baum A B (.world p) (.world n) s).l1 = A.ori.conj.rot n := HingeProps.unitOf_unit hs he1 a1
  have e2 : (Hinge.make cfg b1 b2 baum A B (.world p) (.world n) s).l2 = B.ori.conj.rot n := HingeProps.unitOf_unit hs he1 a2
  have a3 : V3.dot ((T b1).ori.rot (A.ori.conj.rot n)) ((T b1).ori.rot (A.ori.conj.rot n)) = 1 := (rot_dot h1 _ _).trans a1
  have a4 : V3.dot ((T b2).ori.rot (B.ori.conj.rot n)) ((T b2).ori.rot (B.ori.conj.rot n)) = 1 := (rot_dot h2 _ _).trans a2
  rw [Hinge.rests_iff hs he.le he1 (posesOf body T) (J := Hinge.make cfg b1 b2 baum A B (.world p) (.world n) s) hL.able hoff (by rw [e1]; exact a1)
    (by rw [e2]; exact a2) h1 h2 (hL.anchors _ _ _) (Light.turnable hs he1 (J := Hinge.make cfg b1 b2 baum A B (.world p) (.world n) s) hL (by rw [e1]; exact a1)
      (by rw [e2]; exact a2) h1 h2 (by rw [e1, e2]; exact hc)), hung_iff, hungBack_iff, ← and_or_left]
  unfold Hinge.Holds
  rw [anchorAt_poses, anchorAt_poses, e1, e2]
  constructor
  · rintro ⟨k1, k2, -⟩
    exact ⟨k1.symm, mem_parallel k2 (a3.trans a4.symm)⟩
  · rintro ⟨k1, k2⟩
    refine ⟨k1.symm, ?_, unit_ne_zero a4, fun k => ?_⟩
    · show V3.cross ((T b1).ori.rot (A.ori.conj.rot n)) ((T b2).ori.rot (B.ori.conj.rot n)) = 0
      rcases k2 with k | k <;> rw [k] <;> unfold V3.cross <;> ext <;> simp <;> ring
    · have : s.limitOn = true := k
      rw [hoff] at this
      cases this

theorem slid_iff {A B A' B' : Trans K} (p n : V3 K) : Slid A B A' B' n ↔
    (∃ t, now B B' p - now A A' p = V3.smul t (A'.ori.rot (A.ori.conj.rot n))) ∧ ∀ v, B'.ori.rot (B.ori.conj.rot v) = A'.ori.rot (A.ori.conj.rot v) := by
  constructor
  · rintro ⟨t, h⟩
    have h0 := h p
    rw [now_add, rot_smul, rot_smul] at h0
    refine ⟨⟨t, by rw [h0]; abel⟩, fun v => ?_⟩
    have := h (p + v)
    have e : p + v + V3.smul t n = p + V3.smul t n + v := by abel
    rw [e, now_add, now_add, h p] at this
    exact add_left_cancel this
  · rintro ⟨⟨t, ht⟩, hv⟩
    refine ⟨t, fun w => ?_⟩
    have e : w = p + (w - p) := by abel
    rw [now_add A A' w, rot_smul, rot_smul, ← ht, e, now_add, now_add, hv]
    abel

/-- **A slider without limits is left alone exactly if body 2 has moved with body 1 and then along the axis.** -/
theorem slider_rests_iff {cfg : JCfg K} (hs : IsSqrt cfg.sqrt) (he : 0 < cfg.eps) (he1 : cfg.eps ≤ 1) {body : Nat → PBody K} {b1 b2 : Nat} {l : K}
    (hL : Light cfg body b1 b2 l) {A B : Trans K} (hA : A.ori.lengthSq = 1) (hB : B.ori.lengthSq = 1) {T : Nat → Trans K}
    (h1 : (T b1).ori.lengthSq = 1) (h2 : (T b2).ori.lengthSq = 1) (baum : Bool) (p : V3 K) {n : V3 K} (hn : V3.dot n n = 1) (s : Drive K)
    (hoff : s.limitOn = false) :
    ((Slider.make cfg b1 b2 baum A B (.world p) (.world n) s).position cfg body (posesOf body T)).1 = posesOf body T ↔ Slid A B (T b1) (T b2) n := by
  have a1 : V3.dot (A.ori.conj.rot n) (A.ori.conj.rot n) = 1 := (rot_dot (unit_inverse hA) _ _).trans hn
  have e1 : (Slider.make cfg b1 b2 baum A B (.world p) (.world n) s).l1 = A.ori.conj.rot n := HingeProps.unitOf_unit hs he1 a1
  have a3 : V3.dot ((T b1).ori.rot (A.ori.conj.rot n)) ((T b1).ori.rot (A.ori.conj.rot n)) = 1 := (rot_dot h1 _ _).trans a1
  rw [Slider.rests_iff hs he.le he1 (posesOf body T) (J := Slider.make cfg b1 b2 baum A B (.world p) (.world n) s) hL.able hoff (by rw [e1]; exact a1)
    (unit_mul (unit_inverse hB) hA) h1 h2 (hL.turns _ h1 h2) (Light.movable he1 (J := Slider.make cfg b1 b2 baum A B (.world p) (.world n) s) hL _),
    slid_iff p n, ← aligned_iff hA hB h1 h2]
  unfold Slider.Holds
  rw [anchorAt_poses, anchorAt_poses, e1]
  constructor
  · rintro ⟨k1, -, k2, -⟩
    refine ⟨?_, k2⟩
    have k1' : V3.cross (now B (T b2) p - now A (T b1) p) ((T b1).ori.rot (A.ori.conj.rot n)) = 0 := k1
    generalize (T b1).ori.rot (A.ori.conj.rot n) = a at *
    generalize now B (T b2) p - now A (T b1) p = u at *
    obtain ⟨z1, z2⟩ := parallel_zero hs (cfg := cfg) k1' (unit_ne_zero a3)
    rw [HingeProps.unitOf_unit hs he1 a3] at z1 z2
    exact ⟨_, along_axis hs a3 z1 z2⟩
  · rintro ⟨⟨t, k1⟩, k2⟩
    refine ⟨?_, unit_ne_zero a3, k2, fun k => ?_⟩
    · show V3.cross (now B (T b2) p - now A (T b1) p) ((T b1).ori.rot (A.ori.conj.rot n)) = 0
      rw [k1]
      exact cross_self_smul _ _
    · have : s.limitOn = true := k
      rw [hoff] at this
      cases this

/-- A unit vector at right angles to `a` in the plane of the two directions across `a`. -/
theorem across_axis {cfg : JCfg K} (hs : IsSqrt cfg.sqrt) {u a : V3 K} (ha : V3.dot a a = 1) (h : V3.dot u a = 0) :
    u = V3.smul (V3.dot u (orthogonal cfg.sqrt a)) (orthogonal cfg.sqrt a) +
      V3.smul (V3.dot u (V3.cross a (orthogonal cfg.sqrt a))) (V3.cross a (orthogonal cfg.sqrt a)) := by
  have hn := orth_unit hs ha
  have hd := orth_dot cfg.sqrt a
  have hc := cross_unit ha hn hd
  generalize orthogonal cfg.sqrt a = n at *
  have h1 : V3.dot n (V3.cross a n) = 0 := by unfold V3.dot V3.cross; ring
  have h2 : V3.dot a (V3.cross a n) = 0 := by unfold V3.dot V3.cross; ring
  generalize hv : V3.cross a n = v at *
  have : u - (V3.smul (V3.dot u n) n + V3.smul (V3.dot u v) v) = 0 := by
    have e : ∀ w : V3 K, V3.dot (u - (V3.smul (V3.dot u n) n + V3.smul (V3.dot u v) v)) w = V3.dot u w - V3.dot u n * V3.dot n w - V3.dot u v * V3.dot v w :=
      fun w => by
        generalize V3.dot u n = k1
        generalize V3.dot u v = k2
        unfold V3.dot; simp only [V3.sub_x, V3.sub_y, V3.sub_z, V3.add_x, V3.add_y, V3.add_z, V3.smul_x, V3.smul_y, V3.smul_z]; ring
    have c : ∀ x y : V3 K, V3.dot x y = V3.dot y x := fun x y => by unfold V3.dot; ring
    refine orth_three (a := a) (n := n) (by rw [hv, hc]; exact one_ne_zero) ?_ ?_ ?_
    · rw [e, c n a, c v a, hd, h2, h]; ring
    · rw [e, hn, c v n, h1]; ring
    · rw [hv, e, hc, h1]; ring
  exact sub_eq_zero.1 this

/-- **The bodies of a hinge whose axes are at right angles are not turned back**: the matrix of the rotation constraints is singular, whatever the masses. -/
theorem hinge_right_angle {cfg : JCfg K} (hs : IsSqrt cfg.sqrt) (he : 0 ≤ cfg.eps) (he1 : cfg.eps ≤ 1) {body : Nat → PBody K} {X : Nat → Pose K}
    {J : Hinge K} (hl : J.limitOn = false) (l1 : V3.dot J.l1 J.l1 = 1) (l2 : V3.dot J.l2 J.l2 = 1)
    (q1 : (X J.b1).q.lengthSq = 1) (q2 : (X J.b2).q.lengthSq = 1) (ha : anchorAt body X J.b1 J.a1 = anchorAt body X J.b2 J.a2)
    (hr : V3.dot ((X J.b1).q.rot J.l1) ((X J.b2).q.rot J.l2) = 0) : (J.position cfg body X).1 = X := by
  have k2 : V3.dot ((X J.b2).q.rot J.l2) ((X J.b2).q.rot J.l2) = 1 := (rot_dot q2 _ _).trans l2
  have u1 : unitOf cfg ((X J.b1).q.rot J.l1) = (X J.b1).q.rot J.l1 := HingeProps.unitOf_unit hs he1 ((rot_dot q1 _ _).trans l1)
  have u2 : unitOf cfg ((X J.b2).q.rot J.l2) = (X J.b2).q.rot J.l2 := HingeProps.unitOf_unit hs he1 k2
  rw [← u1, ← u2] at hr
  rw [← u2] at k2
  set ax := unitOf cfg ((X J.b1).q.rot J.l1) with hax
  set ax2 := unitOf cfg ((X J.b2).q.rot J.l2) with hax2
  set angle := hingeAngle cfg J.d ax J.lower J.upper (X J.b1).q (X J.b2).q with hang
  set J' : Hinge K := { J with
    r1 := armAt body X J.b1 J.a1, r2 := armAt body X J.b2 J.a2, ax := ax, ba := V3.cross (orthogonal cfg.sqrt ax2) ax,
    ca := V3.cross (V3.cross ax2 (orthogonal cfg.sqrt ax2)) ax, low := decide (angle - J.lower ≤ 0), up := decide (J.upper - angle ≤ 0) } with hJ
  have hli : J'.limits' cfg (twoAt body X J.b1 J.b2) (angle - J.lower) (J.upper - angle) X = (X, J') := by
    unfold Hinge.limits'
    have : ¬ J'.limitOn = true := by rw [hJ]; simp [hl]
    rw [if_neg this]
  have hpo : (J.position cfg body X).1 = (pull cfg ((body J.b1).dyn || (body J.b2).dyn) (twoAt body X J.b1 J.b2) (armAt body X J.b1 J.a1)
      (armAt body X J.b2 J.a2) ((J'.limits' cfg (twoAt body X J.b1 J.b2) (angle - J.lower) (J.upper - angle) X).2.rotate' cfg
        ((body J.b1).dyn || (body J.b2).dyn) (twoAt body X J.b1 J.b2) (orthogonal cfg.sqrt ax2) (V3.cross ax2 (orthogonal cfg.sqrt ax2))
        (J'.limits' cfg (twoAt body X J.b1 J.b2) (angle - J.lower) (J.upper - angle) X).1).1).1 := rfl
  rw [hli] at hpo
  dsimp only at hpo
  have hro : (J'.rotate' cfg ((body J.b1).dyn || (body J.b2).dyn) (twoAt body X J.b1 J.b2) (orthogonal cfg.sqrt ax2)
      (V3.cross ax2 (orthogonal cfg.sqrt ax2)) X).1 = X := by
    have hac := across_axis hs k2 hr
    obtain ⟨k, e1⟩ : ∃ k, J'.ba = V3.smul k (V3.cross (orthogonal cfg.sqrt ax2) (V3.cross ax2 (orthogonal cfg.sqrt ax2))) :=
      ⟨V3.dot ax (V3.cross ax2 (orthogonal cfg.sqrt ax2)), by
        show V3.cross (orthogonal cfg.sqrt ax2) ax = _
        generalize V3.cross ax2 (orthogonal cfg.sqrt ax2) = v at *
        generalize orthogonal cfg.sqrt ax2 = b at *
        generalize V3.dot ax v = k at *
        generalize V3.dot ax b = m at *
        rw [hac]
        unfold V3.cross; ext <;> simp <;> ring⟩
    obtain ⟨m, e2⟩ : ∃ m, J'.ca = V3.smul m (V3.cross (orthogonal cfg.sqrt ax2) (V3.cross ax2 (orthogonal cfg.sqrt ax2))) :=
      ⟨-V3.dot ax (orthogonal cfg.sqrt ax2), by
        show V3.cross (V3.cross ax2 (orthogonal cfg.sqrt ax2)) ax = _
        generalize V3.cross ax2 (orthogonal cfg.sqrt ax2) = v at *
        generalize orthogonal cfg.sqrt ax2 = b at *
        generalize V3.dot ax v = k at *
        generalize V3.dot ax b = m at *
        rw [hac]
        unfold V3.cross; ext <;> simp <;> ring⟩
    unfold Hinge.rotate'
    dsimp only
    rw [e1, e2]
    have s : ∀ (I : M3 K) (x y : K) (w : V3 K), V3.dot (V3.smul x w) (I.act (V3.smul y w)) = x * y * V3.dot w (I.act w) := fun I x y w => by
      unfold M3.act V3.dot; simp only [V3.smul_x, V3.smul_y, V3.smul_z]; ring
    rw [if_neg]
    simp only [s]
    rw [not_lt]
    refine le_trans (le_of_eq ?_) he
    rw [abs_eq_zero]
    unfold M2.det
    ring
  rw [hpo, hro]
  exact pull_zero hs _ _ q1 q2 ha

/-! ### New joints -/

theorem new_angle {cfg : JCfg K} (hs : IsSqrt cfg.sqrt) (hp : 0 ≤ cfg.pi) (hat : cfg.atan2 0 1 = 0) (hf : cfg.fmod 0 (2 * cfg.pi) = 0)
    {q1 q2 : Quat K} (h1 : q1.lengthSq = 1) (h2 : q2.lengthSq = 1) (ax : V3 K) {lower upper : K} (hlo : lower ≤ 0) (hup : 0 ≤ upper) :
    hingeAngle cfg (unitQ cfg (q2.mul q1.conj)).conj ax lower upper q1 q2 = 0 := by
  have hu : (q2.mul q1.conj).lengthSq = 1 := unit_mul h2 (unit_inverse h1)
  have s0 : cfg.sqrt 0 = 0 := by
    have := (hs 0 le_rfl).2
    exact mul_self_eq_zero.1 this
  unfold hingeAngle
  dsimp only
  rw [unitQ_of_unit hs hu, (mul_conj hu).1, unitQ_of_unit hs (q := ⟨0, 0, 0, 1⟩) (by unfold Quat.lengthSq; norm_num)]
  have z : (⟨0, 0, 0⟩ : V3 K).lengthSq = 0 := by unfold V3.lengthSq; norm_num
  have d : V3.dot (⟨0, 0, 0⟩ : V3 K) ax = 0 := by unfold V3.dot; simp
  dsimp only
  rw [z, d, s0, if_pos le_rfl, hat, mul_zero]
  have na : normalAngle cfg 0 = 0 := by
    unfold normalAngle
    dsimp only
    rw [hf, if_neg (by linarith), if_neg (by linarith)]
  rw [na]
  unfold nearLimits
  rw [if_neg (not_lt.2 hup), if_neg (not_lt.2 hlo)]
  split <;> rfl

/-- A set of joints that have just been made between the bodies with the transforms `T`, with anchors and axes in world space; limits include zero. -/
structure Fresh (cfg : JCfg K) (T : Nat → Trans K) (S : Pins K) : Prop where
  balls : ∀ J ∈ S.balls, ∃ b1 b2 baum p, J = Ball.make cfg b1 b2 baum (T b1) (T b2) (.world p)
  fixeds : ∀ J ∈ S.fixeds, ∃ b1 b2 baum p, J = Fixed.make b1 b2 baum (T b1) (T b2) (.world p)
  hinges : ∀ J ∈ S.hinges, ∃ b1 b2 baum p n s, cfg.eps ≤ cfg.sqrt n.lengthSq ∧ (s.limitOn = true → s.lower ≤ 0 ∧ 0 ≤ s.upper) ∧
    J = Hinge.make cfg b1 b2 baum (T b1) (T b2) (.world p) (.world n) s
  sliders : ∀ J ∈ S.sliders, ∃ b1 b2 baum p n s, cfg.eps ≤ cfg.sqrt n.lengthSq ∧ (s.limitOn = true → s.lower ≤ 0 ∧ 0 ≤ s.upper) ∧
    J = Slider.make cfg b1 b2 baum (T b1) (T b2) (.world p) (.world n) s

theorem new_anchor (body : Nat → PBody K) {T : Nat → Trans K} {b : Nat} (h : (T b).ori.lengthSq = 1) (p : V3 K) :
    anchorAt body (posesOf body T) b ((T b).inverse.act p) = p := by
  rw [anchorAt_poses, trans_act_inverse h]

theorem new_axis {cfg : JCfg K} {q : Quat K} (h : q.lengthSq = 1) (n : V3 K) : q.rot (unitOf cfg (q.conj.rot n)) = unitOf cfg n := by
  rw [HingeProps.unitOf_rot (unit_inverse h), rot_conj' h]

/-- **New joints do not move their bodies**, whatever the number of position iterations, of joints and of bodies. -/
theorem new_joints_rest {cfg : JCfg K} (hs : IsSqrt cfg.sqrt) (he : 0 < cfg.eps) (hp : 0 ≤ cfg.pi) (hat : cfg.atan2 0 1 = 0)
    (hf : cfg.fmod 0 (2 * cfg.pi) = 0) (body : Nat → PBody K) {T : Nat → Trans K} (hT : ∀ b, (T b).ori.lengthSq = 1) {S : Pins K} (hS : Fresh cfg T S)
    (n : Nat) : S.Holds cfg body (posesOf body T) ∧ (correct cfg body n (posesOf body T, S)).1 = posesOf body T := by
  have key : S.Holds cfg body (posesOf body T) := by
    refine ⟨fun J hJ _ => ?_, fun J hJ _ => ?_, fun J hJ _ => ?_, fun J hJ _ => ?_⟩
    · obtain ⟨b1, b2, baum, p, rfl⟩ := hS.balls J hJ
      exact ⟨(new_anchor body (hT b1) p).trans (new_anchor body (hT b2) p).symm, fun k => by cases k⟩
    · obtain ⟨b1, b2, baum, p, rfl⟩ := hS.fixeds J hJ
      refine ⟨(new_anchor body (hT b1) p).trans (new_anchor body (hT b2) p).symm, .inl ?_⟩
      show (T b2).ori.mul ((T b2).ori.conj.mul (T b1).ori) = (T b1).ori
      rw [← mul_assoc', (mul_conj (hT b2)).1, one_mul']
    · obtain ⟨b1, b2, baum, p, m, s, hm, hlim, rfl⟩ := hS.hinges J hJ
      have e1 : (T b1).ori.rot (unitOf cfg ((T b1).ori.conj.rot m)) = unitOf cfg m := new_axis (hT b1) m
      have e2 : (T b2).ori.rot (unitOf cfg ((T b2).ori.conj.rot m)) = unitOf cfg m := new_axis (hT b2) m
      refine ⟨(new_anchor body (hT b1) p).trans (new_anchor body (hT b2) p).symm, ?_, ?_, fun hon => ?_⟩
      · show V3.cross ((T b1).ori.rot (unitOf cfg ((T b1).ori.conj.rot m))) ((T b2).ori.rot (unitOf cfg ((T b2).ori.conj.rot m))) = 0
        rw [e1, e2]; unfold V3.cross; ext <;> simp <;> ring
      · show (T b2).ori.rot (unitOf cfg ((T b2).ori.conj.rot m)) ≠ 0
        rw [e2]
        exact unit_ne_zero (HingeProps.unitOf_length hs he hm)
      · obtain ⟨k1, k2⟩ := hlim hon
        have := new_angle hs hp hat hf (hT b1) (hT b2) (unitOf cfg ((T b1).ori.rot (unitOf cfg ((T b1).ori.conj.rot m)))) k1 k2
        exact ⟨k1.trans this.ge, this.le.trans k2⟩
    · obtain ⟨b1, b2, baum, p, m, s, hm, hlim, rfl⟩ := hS.sliders J hJ
      have e1 : (T b1).ori.rot (unitOf cfg ((T b1).ori.conj.rot m)) = unitOf cfg m := new_axis (hT b1) m
      have hu : anchorAt body (posesOf body T) b2 ((T b2).inverse.act p) - anchorAt body (posesOf body T) b1 ((T b1).inverse.act p) = 0 := by
        rw [new_anchor body (hT b1), new_anchor body (hT b2), sub_self]
      have z : ∀ w : V3 K, V3.dot 0 w = 0 := fun w => by unfold V3.dot; simp
      refine ⟨?_, ?_, .inl ?_, fun hon => ?_⟩
      · show V3.cross (anchorAt body (posesOf body T) b2 ((T b2).inverse.act p) - anchorAt body (posesOf body T) b1 ((T b1).inverse.act p)) _ = 0
        rw [hu, cross_zero_left]
      · show (T b1).ori.rot (unitOf cfg ((T b1).ori.conj.rot m)) ≠ 0
        rw [e1]
        exact unit_ne_zero (HingeProps.unitOf_length hs he hm)
      · show (T b2).ori.mul ((T b2).ori.conj.mul (T b1).ori) = (T b1).ori
        rw [← mul_assoc', (mul_conj (hT b2)).1, one_mul']
      · obtain ⟨k1, k2⟩ := hlim hon
        show s.lower ≤ V3.dot (anchorAt body (posesOf body T) b2 ((T b2).inverse.act p) - anchorAt body (posesOf body T) b1 ((T b1).inverse.act p)) _ ∧
          V3.dot (anchorAt body (posesOf body T) b2 ((T b2).inverse.act p) - anchorAt body (posesOf body T) b1 ((T b1).inverse.act p)) _ ≤ s.upper
        rw [hu, z]
        exact ⟨k1, k2⟩
  exact ⟨key, correct_hold_partial hs body hT n key⟩

end Joints
end RP3D
