import Verif.Props.JointConverge
import Verif.Props.HingeLimit

/-! C129: a position iteration removes the errors of a joint in first order.

The specification: the two bodies of the joint are nudged, that is moved by `v` and turned by `spin w`, which moves a point of the body at the lever `r` by
`v + w × r` and a direction `d` fixed to it by `w × d`, up to terms of second order (`spin_error`). -/

set_option linter.unusedSectionVars false

namespace RP3D
namespace Joints
open Solver
variable {K : Type} [Field K] [LinearOrder K] [IsStrictOrderedRing K]

/-! ### Specification -/

/-- Small motions of two bodies. -/
structure Nudge (K : Type) where
  v1 : V3 K
  w1 : V3 K
  v2 : V3 K
  w2 : V3 K

/-- `Y` is `X` with the bodies `b1`, `b2` nudged. -/
def Nudged (cfg : JCfg K) (b1 b2 : Nat) (n : Nudge K) (X Y : Nat → Pose K) : Prop :=
  Y b1 = ⟨(X b1).x + n.v1, spin cfg n.w1 (X b1).q⟩ ∧ Y b2 = ⟨(X b2).x + n.v2, spin cfg n.w2 (X b2).q⟩ ∧ ∀ b, b ≠ b1 → b ≠ b2 → Y b = X b

/-- How the anchor of the second body moves against that of the first one. -/
def Nudge.anchors (n : Nudge K) (r1 r2 : V3 K) : V3 K := n.v2 + V3.cross n.w2 r2 - (n.v1 + V3.cross n.w1 r1)

/-- How the coordinate of the second anchor along a direction `d` of the first body changes, `u` being the difference of the anchors. -/
def Nudge.along (n : Nudge K) (r1 r2 u d : V3 K) : K := V3.dot (n.anchors r1 r2) d + V3.dot u (V3.cross n.w1 d)

/-- How the product of a direction of the first body and one of the second changes. -/
def Nudge.between (n : Nudge K) (d1 d2 : V3 K) : K := V3.dot (V3.cross n.w1 d1) d2 + V3.dot d1 (V3.cross n.w2 d2)

/-- No locked axes. -/
def FreeAxes (B : PBody K) : Prop := B.ll = ⟨1, 1, 1⟩ ∧ B.la = ⟨1, 1, 1⟩

/-! ### Single corrections -/

theorem place_nudged (cfg : JCfg K) {body : Nat → PBody K} (Z X : Nat → Pose K) {b1 b2 : Nat} (hb : b1 ≠ b2) (h1 : FreeAxes (body b1))
    (h2 : FreeAxes (body b2)) (P1 A1 P2 A2 : V3 K) :
    Nudged cfg b1 b2 ⟨V3.smul (body b1).m P1, (twoAt body Z b1 b2).I1.act A1, V3.smul (body b2).m P2, (twoAt body Z b1 b2).I2.act A2⟩ X
      (place cfg (twoAt body Z b1 b2) P1 A1 P2 A2 X) := by
  have o : ∀ (P : V3 K), V3.had (⟨1, 1, 1⟩ : V3 K) P = P := fun P => by ext <;> simp [V3.had]
  have om : ∀ (k : K) (P : V3 K), V3.had (V3.smul k ⟨1, 1, 1⟩) P = V3.smul k P := fun k P => by ext <;> simp [V3.had]
  unfold twoAt
  refine ⟨?_, ?_, fun b n1 n2 => ?_⟩
  · rw [place_at]
    dsimp only
    rw [if_neg hb, if_pos rfl, h1.1, h1.2, o, om]
  · rw [place_at]
    dsimp only
    rw [if_pos rfl, if_neg (Ne.symm hb), h2.1, h2.2, o, om]
  · rw [place_at]
    dsimp only
    rw [if_neg n2, if_neg n1]

theorem twist_nudged (cfg : JCfg K) {body : Nat → PBody K} (Z X : Nat → Pose K) {b1 b2 : Nat} (hb : b1 ≠ b2) (h1 : FreeAxes (body b1))
    (h2 : FreeAxes (body b2)) (A1 A2 : V3 K) :
    Nudged cfg b1 b2 ⟨0, (twoAt body Z b1 b2).I1.act A1, 0, (twoAt body Z b1 b2).I2.act A2⟩ X (twist cfg (twoAt body Z b1 b2) A1 A2 X) := by
  have h := place_nudged cfg Z X hb h1 h2 (-0) A1 0 A2
  rw [← twist_eq] at h
  rw [neg_zero', smul_zero_right, smul_zero_right] at h
  exact h

theorem act_lin (I : M3 K) (x y : K) (a b d : V3 K) :
    V3.dot d (I.act (V3.smul x a + V3.smul y b)) = x * V3.dot d (I.act a) + y * V3.dot d (I.act b) := by
  unfold M3.act V3.dot; simp only [V3.smul_x, V3.smul_y, V3.smul_z, V3.add_x, V3.add_y, V3.add_z]; ring
theorem act_lin' (I : M3 K) (x y : K) (a b d : V3 K) :
    V3.dot d (I.act (V3.smul x (-a) - V3.smul y b)) = -(x * V3.dot d (I.act a) + y * V3.dot d (I.act b)) := by
  unfold M3.act V3.dot
  simp only [V3.smul_x, V3.smul_y, V3.smul_z, V3.sub_x, V3.sub_y, V3.sub_z, V3.neg_x, V3.neg_y, V3.neg_z]; ring
theorem act_lin1 (I : M3 K) (x : K) (a d : V3 K) : V3.dot d (I.act (V3.smul x a)) = x * V3.dot d (I.act a) := by
  unfold M3.act V3.dot; simp only [V3.smul_x, V3.smul_y, V3.smul_z]; ring

/-- The anchors of a ball-and-socket, fixed or hinge joint. -/
theorem pull_rate {cfg : JCfg K} (he : 0 ≤ cfg.eps) {body : Nat → PBody K} (Z X : Nat → Pose K) {b1 b2 : Nat} (hb : b1 ≠ b2)
    (h1 : FreeAxes (body b1)) (h2 : FreeAxes (body b2)) {dyn : Bool} (hd : dyn = true) (r1 r2 : V3 K)
    (hM : cfg.eps < |(massMatrix (body b1).m (body b2).m (twoAt body Z b1 b2).I1 (twoAt body Z b1 b2).I2 r1 r2).det|) :
    ∃ n, Nudged cfg b1 b2 n X (pull cfg dyn (twoAt body Z b1 b2) r1 r2 X).1 ∧ n.anchors r1 r2 = -((X b2).x + r2 - (X b1).x - r1) := by
  unfold pull
  dsimp only
  have hM' : cfg.eps < |(massMatrix (twoAt body Z b1 b2).m1 (twoAt body Z b1 b2).m2 (twoAt body Z b1 b2).I1 (twoAt body Z b1 b2).I2 r1 r2).det| := hM
  rw [if_pos hM']
  refine ⟨_, place_nudged cfg Z X hb h1 h2 _ _ _ _, ?_⟩
  have ha := inverseOrZero_act he hM' hd (-((X (twoAt body Z b1 b2).b2).x + r2 - (X (twoAt body Z b1 b2).b1).x - r1))
  rw [massMatrix_act] at ha
  generalize (inverseOrZero cfg dyn (massMatrix (twoAt body Z b1 b2).m1 (twoAt body Z b1 b2).m2 (twoAt body Z b1 b2).I1 (twoAt body Z b1 b2).I2 r1 r2)).act
    (-((X (twoAt body Z b1 b2).b2).x + r2 - (X (twoAt body Z b1 b2).b1).x - r1)) = l at *
  refine Eq.trans ?_ ha
  show (_ : V3 K) = V3.smul (body b1).m l + V3.smul (body b2).m l - _ - _
  unfold Nudge.anchors
  dsimp only
  unfold M3.act
  ext <;> simp [V3.cross] <;> ring

/-- The orientations of a fixed or slider joint. -/
theorem align_rate {cfg : JCfg K} (he : 0 ≤ cfg.eps) {body : Nat → PBody K} (Z X : Nat → Pose K) {b1 b2 : Nat} (hb : b1 ≠ b2)
    (h1 : FreeAxes (body b1)) (h2 : FreeAxes (body b2)) {dyn : Bool} (hd : dyn = true) (d : Quat K)
    (hM : cfg.eps < |(M3.add (twoAt body Z b1 b2).I1 (twoAt body Z b1 b2).I2).det|) :
    ∃ n, Nudged cfg b1 b2 n X (align cfg dyn (twoAt body Z b1 b2) d X).1 ∧ n.v1 = 0 ∧ n.v2 = 0 ∧
      n.w2 - n.w1 = -turnErr (X b1).q (X b2).q d ∧ ∃ l, n.w1 = (twoAt body Z b1 b2).I1.act l := by
  unfold align
  dsimp only
  rw [if_pos hM]
  refine ⟨_, twist_nudged cfg Z X hb h1 h2 _ _, rfl, rfl, ?_⟩
  have ha := inverseOrSame_act he hM hd (-turnErr (X b1).q (X b2).q d)
  have e : ∀ l, (M3.add (twoAt body Z b1 b2).I1 (twoAt body Z b1 b2).I2).act l =
      (twoAt body Z b1 b2).I2.act l - (twoAt body Z b1 b2).I1.act (-l) := fun l => by
    unfold M3.add M3.act; ext <;> simp <;> ring
  rw [e] at ha
  exact ⟨ha, _, rfl⟩

/-- The cone limit of a ball-and-socket joint: the cosine of the angle of the levers grows by the excess of the angle. Below the limit nothing happens. -/
theorem cone_rate (cfg : JCfg K) {body : Nat → PBody K} (Z X : Nat → Pose K) {J : Ball K} (hb : J.b1 ≠ J.b2) (h1 : FreeAxes (body J.b1))
    (h2 : FreeAxes (body J.b2)) (hc : J.coneOn = true) :
    let u1 := unitOf cfg J.r1
    let u2 := unitOf cfg J.r2
    let angle := cfg.acos (V3.dot u1 (-u2))
    (angle ≤ J.half → (J.cone' cfg (twoAt body Z J.b1 J.b2) X).1 = X) ∧
    (J.half < angle → 0 < V3.dot (V3.cross u1 (-u2)) ((twoAt body Z J.b1 J.b2).I1.act (V3.cross u1 (-u2))) +
        V3.dot (V3.cross u1 (-u2)) ((twoAt body Z J.b1 J.b2).I2.act (V3.cross u1 (-u2))) →
      ∃ n, Nudged cfg J.b1 J.b2 n X (J.cone' cfg (twoAt body Z J.b1 J.b2) X).1 ∧ n.v1 = 0 ∧ n.v2 = 0 ∧ n.between u1 (-u2) = angle - J.half ∧
        ∃ l, n.w1 = (twoAt body Z J.b1 J.b2).I1.act (V3.smul l (V3.cross u1 (-u2))) ∧
          n.w2 = (twoAt body Z J.b1 J.b2).I2.act (V3.smul (-l) (V3.cross u1 (-u2)))) := by
  dsimp only
  unfold Ball.cone'
  rw [if_pos hc]
  dsimp only
  refine ⟨fun h => ?_, fun h hp => ?_⟩
  · rw [if_neg (by linarith)]
  · rw [if_pos (by linarith)]
    refine ⟨_, twist_nudged cfg Z X hb h1 h2 _ _, rfl, rfl, ?_, _, rfl, rfl⟩
    unfold Nudge.between
    dsimp only
    generalize unitOf cfg J.r1 = u1 at *
    generalize unitOf cfg J.r2 = u2 at *
    generalize cfg.acos (V3.dot u1 (-u2)) = angle at *
    unfold invOf
    rw [if_pos hp]
    have t1 : ∀ w : V3 K, V3.dot (V3.cross w u1) (-u2) = V3.dot (V3.cross u1 (-u2)) w := fun w => by
      unfold V3.dot V3.cross; simp only [V3.neg_x, V3.neg_y, V3.neg_z]; ring
    have t2 : ∀ w : V3 K, V3.dot u1 (V3.cross w (-u2)) = -V3.dot (V3.cross u1 (-u2)) w := fun w => by
      unfold V3.dot V3.cross; simp only [V3.neg_x, V3.neg_y, V3.neg_z]; ring
    rw [t1, t2, act_lin1, act_lin1]
    field_simp
    ring

/-- The axes of a hinge: the products of the axis of the first body with two directions orthogonal to that of the second one become zero. -/
theorem rotate_rate {cfg : JCfg K} (he : 0 ≤ cfg.eps) {body : Nat → PBody K} (Z X : Nat → Pose K) {J : Hinge K} (hb : J.b1 ≠ J.b2)
    (h1 : FreeAxes (body J.b1)) (h2 : FreeAxes (body J.b2)) {dyn : Bool} (hd : dyn = true) (b v : V3 K) (hba : J.ba = V3.cross b J.ax)
    (hca : J.ca = V3.cross v J.ax)
    (hM : let c := twoAt body Z J.b1 J.b2
      cfg.eps < |(⟨V3.dot J.ba (c.I1.act J.ba) + V3.dot J.ba (c.I2.act J.ba), V3.dot J.ba (c.I1.act J.ca) + V3.dot J.ba (c.I2.act J.ca),
        V3.dot J.ca (c.I1.act J.ba) + V3.dot J.ca (c.I2.act J.ba), V3.dot J.ca (c.I1.act J.ca) + V3.dot J.ca (c.I2.act J.ca)⟩ : M2 K).det|) :
    ∃ n, Nudged cfg J.b1 J.b2 n X (J.rotate' cfg dyn (twoAt body Z J.b1 J.b2) b v X).1 ∧ n.v1 = 0 ∧ n.v2 = 0 ∧
      n.between J.ax b = -V3.dot J.ax b ∧ n.between J.ax v = -V3.dot J.ax v := by
  dsimp only at hM
  unfold Hinge.rotate'
  dsimp only
  rw [if_pos hM]
  refine ⟨_, twist_nudged cfg Z X hb h1 h2 _ _, rfl, rfl, ?_⟩
  have ha := inverseOrZero2_act he hM hd (⟨-V3.dot J.ax b, -V3.dot J.ax v⟩ : V2 K)
  generalize (inverseOrZero2 cfg dyn _).act (⟨-V3.dot J.ax b, -V3.dot J.ax v⟩ : V2 K) = l at *
  unfold M2.act at ha
  have ha1 := congrArg V2.x ha
  have ha2 := congrArg V2.y ha
  dsimp only at ha1 ha2
  have t : ∀ w1 w2 d : V3 K, V3.dot (V3.cross w1 J.ax) d + V3.dot J.ax (V3.cross w2 d) = V3.dot (V3.cross d J.ax) w2 - V3.dot (V3.cross d J.ax) w1 :=
    fun w1 w2 d => by unfold V3.dot V3.cross; ring
  unfold Nudge.between Hinge.swing Hinge.swing'
  dsimp only
  rw [t, t, ← hba, ← hca, act_lin, act_lin, act_lin', act_lin', ← ha1, ← ha2]
  constructor <;> ring

/-- The translation of a slider along its axis beyond a limit. -/
theorem slide_limit_rate (cfg : JCfg K) {body : Nat → PBody K} (Z X : Nat → Pose K) {J : Slider K} (hb : J.b1 ≠ J.b2) (h1 : FreeAxes (body J.b1))
    (h2 : FreeAxes (body J.b2)) (u : V3 K) (hax : V3.dot J.ax J.ax = 1) (hex : J.ex = V3.cross J.r2 J.ax) (hcx : J.cx = V3.cross (J.r1 + u) J.ax)
    (hu : J.between X = u) (hon : J.limitOn = true) (hl : J.low = decide (V3.dot u J.ax - J.lower ≤ 0))
    (hp : J.up = decide (J.upper - V3.dot u J.ax ≤ 0)) (hlu : J.lower < J.upper)
    (hm : let c := twoAt body Z J.b1 J.b2
      0 < c.m1 + c.m2 + V3.dot J.cx (c.I1.act J.cx) + V3.dot J.ex (c.I2.act J.ex)) :
    (J.lower < V3.dot u J.ax → V3.dot u J.ax < J.upper → (J.limits' cfg (twoAt body Z J.b1 J.b2) X).1 = X) ∧
    (V3.dot u J.ax ≤ J.lower → ∃ n, Nudged cfg J.b1 J.b2 n X (J.limits' cfg (twoAt body Z J.b1 J.b2) X).1 ∧
      n.along J.r1 J.r2 u J.ax = J.lower - V3.dot u J.ax) ∧
    (J.upper ≤ V3.dot u J.ax → ∃ n, Nudged cfg J.b1 J.b2 n X (J.limits' cfg (twoAt body Z J.b1 J.b2) X).1 ∧
      n.along J.r1 J.r2 u J.ax = J.upper - V3.dot u J.ax) := by
  dsimp only at hm
  have key : ∀ l : K, Nudge.along ⟨V3.smul (body J.b1).m (V3.smul (-l) J.ax), (twoAt body Z J.b1 J.b2).I1.act (V3.smul (-l) J.cx),
      V3.smul (body J.b2).m (V3.smul l J.ax), (twoAt body Z J.b1 J.b2).I2.act (V3.smul l J.ex)⟩ J.r1 J.r2 u J.ax =
      l * ((body J.b1).m + (body J.b2).m + V3.dot J.cx ((twoAt body Z J.b1 J.b2).I1.act J.cx) +
        V3.dot J.ex ((twoAt body Z J.b1 J.b2).I2.act J.ex)) := by
    intro l
    unfold Nudge.along Nudge.anchors
    dsimp only
    have t : ∀ p1 w1 p2 w2 : V3 K, V3.dot (p2 + V3.cross w2 J.r2 - (p1 + V3.cross w1 J.r1)) J.ax + V3.dot u (V3.cross w1 J.ax) =
        V3.dot J.ax p2 - V3.dot J.ax p1 + V3.dot J.ex w2 - V3.dot J.cx w1 := fun p1 w1 p2 w2 => by
      rw [hex, hcx]
      unfold V3.dot V3.cross
      simp only [V3.add_x, V3.add_y, V3.add_z, V3.sub_x, V3.sub_y, V3.sub_z]
      ring
    rw [t, act_lin1, act_lin1]
    have e1 : ∀ k x : K, V3.dot J.ax (V3.smul k (V3.smul x J.ax)) = k * x := fun k x => by
      have : V3.dot J.ax (V3.smul k (V3.smul x J.ax)) = k * x * V3.dot J.ax J.ax := by
        unfold V3.dot; simp only [V3.smul_x, V3.smul_y, V3.smul_z]; ring
      rw [this, hax, mul_one]
    rw [e1, e1]
    ring
  have hk : ∀ y : K, invOf ((twoAt body Z J.b1 J.b2).m1 + (twoAt body Z J.b1 J.b2).m2 + V3.dot J.cx ((twoAt body Z J.b1 J.b2).I1.act J.cx) +
      V3.dot J.ex ((twoAt body Z J.b1 J.b2).I2.act J.ex)) * y * ((body J.b1).m + (body J.b2).m +
      V3.dot J.cx ((twoAt body Z J.b1 J.b2).I1.act J.cx) + V3.dot J.ex ((twoAt body Z J.b1 J.b2).I2.act J.ex)) = y := by
    intro y
    unfold invOf
    rw [if_pos hm]
    have : ((twoAt body Z J.b1 J.b2).m1 + (twoAt body Z J.b1 J.b2).m2 + V3.dot J.cx ((twoAt body Z J.b1 J.b2).I1.act J.cx) +
      V3.dot J.ex ((twoAt body Z J.b1 J.b2).I2.act J.ex)) = ((body J.b1).m + (body J.b2).m +
      V3.dot J.cx ((twoAt body Z J.b1 J.b2).I1.act J.cx) + V3.dot J.ex ((twoAt body Z J.b1 J.b2).I2.act J.ex)) := rfl
    rw [this] at hm ⊢
    have := hm.ne'
    field_simp
  unfold Slider.limits'
  rw [if_pos hon]
  dsimp only
  refine ⟨fun a b => ?_, fun a => ?_, fun a => ?_⟩
  · have k1 : J.low = false := by rw [hl]; exact decide_eq_false (by linarith)
    have k2 : J.up = false := by rw [hp]; exact decide_eq_false (by linarith)
    rw [k1, k2]
    simp
  · have k1 : J.low = true := by rw [hl]; exact decide_eq_true (by linarith)
    have k2 : J.up = false := by rw [hp]; exact decide_eq_false (by linarith)
    rw [k1, k2]
    simp only [Bool.true_or, if_true, Bool.false_eq_true, if_false]
    refine ⟨_, place_nudged cfg Z X hb h1 h2 _ _ _ _, ?_⟩
    rw [key, hk, hu]
    ring
  · have k1 : J.low = false := by rw [hl]; exact decide_eq_false (by linarith)
    have k2 : J.up = true := by rw [hp]; exact decide_eq_true (by linarith)
    rw [k1, k2]
    simp only [Bool.or_true, if_true, Bool.false_eq_true, if_false]
    rw [hu]
    have e : ∀ (l : K), place cfg (twoAt body Z J.b1 J.b2) (V3.smul l J.ax) (V3.smul l J.cx) (V3.smul (-l) J.ax) (V3.smul (-l) J.ex) X =
      place cfg (twoAt body Z J.b1 J.b2) (V3.smul (-(-l)) J.ax) (V3.smul (-(-l)) J.cx) (V3.smul (-l) J.ax) (V3.smul (-l) J.ex) X := fun l => by
        rw [neg_neg]
    rw [e]
    refine ⟨_, place_nudged cfg Z X hb h1 h2 _ _ _ _, ?_⟩
    rw [key, ← mul_neg, hk]
    ring

/-- The translation of a slider across its axis. -/
theorem slide_pull_rate {cfg : JCfg K} (he : 0 ≤ cfg.eps) {body : Nat → PBody K} (Z X : Nat → Pose K) {J : Slider K} (hb : J.b1 ≠ J.b2)
    (h1 : FreeAxes (body J.b1)) (h2 : FreeAxes (body J.b2)) {dyn : Bool} (hd : dyn = true) (u : V3 K)
    (n11 : V3.dot J.n1 J.n1 = 1) (n22 : V3.dot J.n2 J.n2 = 1) (n12 : V3.dot J.n1 J.n2 = 0)
    (he1 : J.e1 = V3.cross J.r2 J.n1) (he2 : J.e2 = V3.cross J.r2 J.n2) (hc1 : J.c1 = V3.cross (J.r1 + u) J.n1) (hc2 : J.c2 = V3.cross (J.r1 + u) J.n2)
    (hM : let c := twoAt body Z J.b1 J.b2
      let m := c.m1 + c.m2
      cfg.eps < |(⟨m + V3.dot J.c1 (c.I1.act J.c1) + V3.dot J.e1 (c.I2.act J.e1), V3.dot J.c1 (c.I1.act J.c2) + V3.dot J.e1 (c.I2.act J.e2),
        V3.dot J.c2 (c.I1.act J.c1) + V3.dot J.e2 (c.I2.act J.e1), m + V3.dot J.c2 (c.I1.act J.c2) + V3.dot J.e2 (c.I2.act J.e2)⟩ : M2 K).det|) :
    ∃ n, Nudged cfg J.b1 J.b2 n X (Slider.pull' cfg dyn (twoAt body Z J.b1 J.b2) J u X).1 ∧
      n.along J.r1 J.r2 u J.n1 = -V3.dot u J.n1 ∧ n.along J.r1 J.r2 u J.n2 = -V3.dot u J.n2 := by
  dsimp only at hM
  unfold Slider.pull'
  dsimp only
  rw [if_pos hM]
  refine ⟨_, place_nudged cfg Z X hb h1 h2 _ _ _ _, ?_⟩
  have ha := inverseOrZero2_act he hM hd (⟨-V3.dot u J.n1, -V3.dot u J.n2⟩ : V2 K)
  generalize (inverseOrZero2 cfg dyn _).act (⟨-V3.dot u J.n1, -V3.dot u J.n2⟩ : V2 K) = l at *
  unfold M2.act at ha
  have ha1 := congrArg V2.x ha
  have ha2 := congrArg V2.y ha
  dsimp only at ha1 ha2
  have t : ∀ p1 w1 p2 w2 d : V3 K, V3.dot (p2 + V3.cross w2 J.r2 - (p1 + V3.cross w1 J.r1)) d + V3.dot u (V3.cross w1 d) =
      V3.dot d p2 - V3.dot d p1 + V3.dot (V3.cross J.r2 d) w2 - V3.dot (V3.cross (J.r1 + u) d) w1 := fun p1 w1 p2 w2 d => by
    unfold V3.dot V3.cross
    simp only [V3.add_x, V3.add_y, V3.add_z, V3.sub_x, V3.sub_y, V3.sub_z]
    ring
  have s2 : ∀ (k : K) (d : V3 K), V3.dot d (V3.smul k (V3.smul l.x J.n1 + V3.smul l.y J.n2)) = k * (l.x * V3.dot J.n1 d + l.y * V3.dot J.n2 d) :=
    fun k d => by unfold V3.dot; simp only [V3.smul_x, V3.smul_y, V3.smul_z, V3.add_x, V3.add_y, V3.add_z]; ring
  have s1 : ∀ (k : K) (d : V3 K), V3.dot d (V3.smul k (V3.smul l.x (-J.n1) - V3.smul l.y J.n2)) = -(k * (l.x * V3.dot J.n1 d + l.y * V3.dot J.n2 d)) :=
    fun k d => by
      unfold V3.dot
      simp only [V3.smul_x, V3.smul_y, V3.smul_z, V3.sub_x, V3.sub_y, V3.sub_z, V3.neg_x, V3.neg_y, V3.neg_z]; ring
  have n21 : V3.dot J.n2 J.n1 = 0 := by rw [← n12]; unfold V3.dot; ring
  unfold Nudge.along Nudge.anchors
  dsimp only
  rw [t, t, ← he1, ← he2, ← hc1, ← hc2, act_lin, act_lin, act_lin', act_lin', s1, s1, s2, s2, n11, n12, n21, n22, ← ha1, ← ha2]
  have m1 : (twoAt body Z J.b1 J.b2).m1 = (body J.b1).m := rfl
  have m2 : (twoAt body Z J.b1 J.b2).m2 = (body J.b2).m := rfl
  rw [m1, m2]
  constructor <;> ring

/-! ### Whole joints -/

theorem nudged_gap {cfg : JCfg K} {b1 b2 : Nat} {n : Nudge K} {X Y : Nat → Pose K} (h : Nudged cfg b1 b2 n X Y) (v1 : n.v1 = 0) (v2 : n.v2 = 0) :
    (Y b1).x = (X b1).x ∧ (Y b2).x = (X b2).x := by
  obtain ⟨h1, h2, -⟩ := h
  rw [h1, h2, v1, v2]
  constructor <;> ext <;> simp

/-- **C129 (ball-and-socket joint).** First the levers are turned towards each other if they are beyond the cone, then the anchors are moved together.
The cosine of the levers changes by `angle - half`, which is too much by the factor one over the sine (`cone_overshoots`). -/
theorem ball_step_partial {cfg : JCfg K} (he : 0 ≤ cfg.eps) {body : Nat → PBody K} (X : Nat → Pose K) {J : Ball K} (hb : J.b1 ≠ J.b2)
    (h1 : FreeAxes (body J.b1)) (h2 : FreeAxes (body J.b2)) (hd : (body J.b1).dyn = true ∨ (body J.b2).dyn = true)
    (hM : cfg.eps < |(massMatrix (body J.b1).m (body J.b2).m (twoAt body X J.b1 J.b2).I1 (twoAt body X J.b1 J.b2).I2 (armAt body X J.b1 J.a1)
      (armAt body X J.b2 J.a2)).det|) :
    let u1 := unitOf cfg (armAt body X J.b1 J.a1)
    let u2 := unitOf cfg (armAt body X J.b2 J.a2)
    let angle := cfg.acos (V3.dot u1 (-u2))
    let axis := V3.cross u1 (-u2)
    (J.coneOn = true → J.half < angle →
      0 < V3.dot axis ((twoAt body X J.b1 J.b2).I1.act axis) + V3.dot axis ((twoAt body X J.b1 J.b2).I2.act axis)) →
    ∃ Y n, (¬ (J.coneOn = true ∧ J.half < angle) → Y = X) ∧
      (J.coneOn = true → J.half < angle → ∃ m, Nudged cfg J.b1 J.b2 m X Y ∧ m.v1 = 0 ∧ m.v2 = 0 ∧ m.between u1 (-u2) = angle - J.half) ∧
      Nudged cfg J.b1 J.b2 n Y (J.position cfg body X).1 ∧
      n.anchors (armAt body X J.b1 J.a1) (armAt body X J.b2 J.a2) = -(anchorAt body X J.b2 J.a2 - anchorAt body X J.b1 J.a1) := by
  intro u1 u2 angle axis hpos
  have hdyn : ((body J.b1).dyn || (body J.b2).dyn) = true := by rcases hd with h | h <;> simp [h]
  set J' : Ball K := { J with r1 := armAt body X J.b1 J.a1, r2 := armAt body X J.b2 J.a2 } with hJ
  have hpo : (J.position cfg body X).1 = (pull cfg ((body J.b1).dyn || (body J.b2).dyn) (twoAt body X J.b1 J.b2) (armAt body X J.b1 J.a1)
      (armAt body X J.b2 J.a2) (J'.cone' cfg (twoAt body X J.b1 J.b2) X).1).1 := rfl
  have hga : ∀ Y : Nat → Pose K, (Y J.b1).x = (X J.b1).x ∧ (Y J.b2).x = (X J.b2).x →
      -((Y J.b2).x + armAt body X J.b2 J.a2 - (Y J.b1).x - armAt body X J.b1 J.a1) = -(anchorAt body X J.b2 J.a2 - anchorAt body X J.b1 J.a1) := by
    rintro Y ⟨e1, e2⟩
    rw [e1, e2]; unfold anchorAt armAt; congr 1; abel
  obtain ⟨n, hn, hg⟩ := pull_rate he X (J'.cone' cfg (twoAt body X J.b1 J.b2) X).1 hb h1 h2 hdyn (armAt body X J.b1 J.a1) (armAt body X J.b2 J.a2) hM
  rw [← hpo] at hn
  by_cases hc : J.coneOn = true
  · obtain ⟨c1, c2⟩ := cone_rate cfg (body := body) X X (J := J') hb h1 h2 hc
    by_cases ha : J.half < angle
    · obtain ⟨m, m1, m2, m3, m4, -⟩ := c2 ha (hpos hc ha)
      exact ⟨_, n, fun h => absurd ⟨hc, ha⟩ h, fun _ _ => ⟨m, m1, m2, m3, m4⟩, hn, by rw [hg]; exact hga _ (nudged_gap m1 m2 m3)⟩
    · have e := c1 (not_lt.1 ha)
      exact ⟨_, n, fun _ => e, fun _ h => absurd h ha, hn, by rw [hg]; exact hga _ (by rw [e]; exact ⟨rfl, rfl⟩)⟩
  · have e : (J'.cone' cfg (twoAt body X J.b1 J.b2) X).1 = X := by
      unfold Ball.cone'
      have : ¬ J'.coneOn = true := hc
      rw [if_neg this]
    exact ⟨_, n, fun _ => e, fun h => absurd h hc, hn, by rw [hg]; exact hga _ (by rw [e]; exact ⟨rfl, rfl⟩)⟩

/-- **C129 (fixed joint).** First the anchors are moved together, then the orientations are turned. The error of the orientation has
the right sign only if the quaternions agree in sign (`fixed_converges_partial`, `fixed_flipped`). -/
theorem fixed_step_partial {cfg : JCfg K} (he : 0 ≤ cfg.eps) {body : Nat → PBody K} (X : Nat → Pose K) {J : Fixed K} (hb : J.b1 ≠ J.b2)
    (h1 : FreeAxes (body J.b1)) (h2 : FreeAxes (body J.b2)) (hd : (body J.b1).dyn = true ∨ (body J.b2).dyn = true)
    (hM : cfg.eps < |(massMatrix (body J.b1).m (body J.b2).m (twoAt body X J.b1 J.b2).I1 (twoAt body X J.b1 J.b2).I2 (armAt body X J.b1 J.a1)
      (armAt body X J.b2 J.a2)).det|)
    (hR : cfg.eps < |(M3.add (twoAt body X J.b1 J.b2).I1 (twoAt body X J.b1 J.b2).I2).det|) :
    ∃ Y m n, Nudged cfg J.b1 J.b2 m X Y ∧
      m.anchors (armAt body X J.b1 J.a1) (armAt body X J.b2 J.a2) = -(anchorAt body X J.b2 J.a2 - anchorAt body X J.b1 J.a1) ∧
      Nudged cfg J.b1 J.b2 n Y (J.position cfg body X).1 ∧ n.v1 = 0 ∧ n.v2 = 0 ∧ n.w2 - n.w1 = -turnErr (Y J.b1).q (Y J.b2).q J.d := by
  have hdyn : ((body J.b1).dyn || (body J.b2).dyn) = true := by rcases hd with h | h <;> simp [h]
  obtain ⟨m, hm, hg⟩ := pull_rate he X X hb h1 h2 hdyn (armAt body X J.b1 J.a1) (armAt body X J.b2 J.a2) hM
  obtain ⟨n, hn, n1, n2, n3, -⟩ := align_rate he X (pull cfg ((body J.b1).dyn || (body J.b2).dyn) (twoAt body X J.b1 J.b2) (armAt body X J.b1 J.a1)
      (armAt body X J.b2 J.a2) X).1 hb h1 h2 hdyn J.d hR
  refine ⟨_, m, n, hm, ?_, hn, n1, n2, n3⟩
  rw [hg]; unfold anchorAt armAt; congr 1; abel

/-- **C129 (hinge).** The axes are turned to each other and the anchors are moved together. The limits: C112. -/
theorem hinge_step_partial {cfg : JCfg K} (he : 0 ≤ cfg.eps) {body : Nat → PBody K} (X : Nat → Pose K) {J : Hinge K} (hb : J.b1 ≠ J.b2)
    (h1 : FreeAxes (body J.b1)) (h2 : FreeAxes (body J.b2)) (hd : (body J.b1).dyn = true ∨ (body J.b2).dyn = true) (hl : J.limitOn = false)
    (hM : cfg.eps < |(massMatrix (body J.b1).m (body J.b2).m (twoAt body X J.b1 J.b2).I1 (twoAt body X J.b1 J.b2).I2 (armAt body X J.b1 J.a1)
      (armAt body X J.b2 J.a2)).det|) :
    let ax := unitOf cfg ((X J.b1).q.rot J.l1)
    let ax2 := unitOf cfg ((X J.b2).q.rot J.l2)
    ∃ b v : V3 K, b = orthogonal cfg.sqrt ax2 ∧ v = V3.cross ax2 b ∧ V3.dot ax2 b = 0 ∧ V3.dot ax2 v = 0 ∧
      ((let c := twoAt body X J.b1 J.b2
        let ba := V3.cross b ax
        let ca := V3.cross v ax
        cfg.eps < |(⟨V3.dot ba (c.I1.act ba) + V3.dot ba (c.I2.act ba), V3.dot ba (c.I1.act ca) + V3.dot ba (c.I2.act ca),
          V3.dot ca (c.I1.act ba) + V3.dot ca (c.I2.act ba), V3.dot ca (c.I1.act ca) + V3.dot ca (c.I2.act ca)⟩ : M2 K).det|) →
      ∃ Y m n, Nudged cfg J.b1 J.b2 m X Y ∧ m.v1 = 0 ∧ m.v2 = 0 ∧ m.between ax b = -V3.dot ax b ∧ m.between ax v = -V3.dot ax v ∧
        Nudged cfg J.b1 J.b2 n Y (J.position cfg body X).1 ∧
        n.anchors (armAt body X J.b1 J.a1) (armAt body X J.b2 J.a2) = -(anchorAt body X J.b2 J.a2 - anchorAt body X J.b1 J.a1)) := by
  intro ax ax2
  have hdyn : ((body J.b1).dyn || (body J.b2).dyn) = true := by rcases hd with h | h <;> simp [h]
  refine ⟨_, _, rfl, rfl, orth_dot _ _, ?_, fun hR => ?_⟩
  · unfold V3.dot V3.cross; ring
  dsimp only at hR
  set angle := hingeAngle cfg J.d ax J.lower J.upper (X J.b1).q (X J.b2).q with hang
  set J' : Hinge K := { J with
    r1 := armAt body X J.b1 J.a1, r2 := armAt body X J.b2 J.a2, ax := ax, ba := V3.cross (orthogonal cfg.sqrt ax2) ax,
    ca := V3.cross (V3.cross ax2 (orthogonal cfg.sqrt ax2)) ax, low := decide (angle - J.lower ≤ 0), up := decide (J.upper - angle ≤ 0) } with hJ
  have hli : J'.limits' cfg (twoAt body X J.b1 J.b2) (angle - J.lower) (J.upper - angle) X = (X, J') := by
    unfold Hinge.limits'
    have : ¬ J'.limitOn = true := by rw [hJ]; simp [hl]
    rw [if_neg this]
  have hpo : (J.position cfg body X).1 = (pull cfg ((body J.b1).dyn || (body J.b2).dyn) (twoAt body X J.b1 J.b2) (armAt body X J.b1 J.a1)
      (armAt body X J.b2 J.a2) ((J'.limits' cfg (twoAt body X J.b1 J.b2) (angle - J.lower) (J.upper - angle) X).2.rotate' cfg
        ((body J.b1).dyn || (body J.b2).dyn) (twoAt body X J.b1 J.b2) (orthogonal cfg.sqrt ax2) (V3.cross ax2 (orthogonal cfg.sqrt ax2))
        (J'.limits' cfg (twoAt body X J.b1 J.b2) (angle - J.lower) (J.upper - angle) X).1).1).1 := rfl
  rw [hli] at hpo
  dsimp only at hpo
  obtain ⟨m, hm, m1, m2, m3, m4⟩ := rotate_rate he (body := body) X X (J := J') hb h1 h2 hdyn (orthogonal cfg.sqrt ax2)
    (V3.cross ax2 (orthogonal cfg.sqrt ax2)) rfl rfl hR
  obtain ⟨n, hn, hg⟩ := pull_rate he X (J'.rotate' cfg ((body J.b1).dyn || (body J.b2).dyn) (twoAt body X J.b1 J.b2) (orthogonal cfg.sqrt ax2)
    (V3.cross ax2 (orthogonal cfg.sqrt ax2)) X).1 hb h1 h2 hdyn (armAt body X J.b1 J.a1) (armAt body X J.b2 J.a2) hM
  rw [← hpo] at hn
  refine ⟨_, m, n, hm, m1, m2, m3, m4, hn, ?_⟩
  obtain ⟨e1, e2⟩ := nudged_gap hm m1 m2
  rw [hg]
  have e1' : ((J'.rotate' cfg ((body J.b1).dyn || (body J.b2).dyn) (twoAt body X J.b1 J.b2) (orthogonal cfg.sqrt ax2)
    (V3.cross ax2 (orthogonal cfg.sqrt ax2)) X).1 J.b1).x = (X J.b1).x := e1
  have e2' : ((J'.rotate' cfg ((body J.b1).dyn || (body J.b2).dyn) (twoAt body X J.b1 J.b2) (orthogonal cfg.sqrt ax2)
    (V3.cross ax2 (orthogonal cfg.sqrt ax2)) X).1 J.b2).x = (X J.b2).x := e2
  rw [e1', e2']
  unfold anchorAt armAt; congr 1; abel

theorem orth_unit {sqrt : K → K} (hs : IsSqrt sqrt) {n : V3 K} (hn : V3.dot n n = 1) :
    V3.dot (orthogonal sqrt n) (orthogonal sqrt n) = 1 := by
  have key : ∀ {a b : K}, 0 < a * a + b * b → (1 / sqrt (a * a + b * b)) * (1 / sqrt (a * a + b * b)) * (a * a + b * b) = 1 := by
    intro a b h
    obtain ⟨p, q⟩ := sqrt_pos hs h
    have := p.ne'
    rw [div_mul_div_comm, q, one_mul, one_div]
    exact inv_mul_cancel₀ h.ne'
  have sq : ∀ {a b : K}, |a| < |b| → 0 < b * b := fun {a b} h => by
    have : b ≠ 0 := by rintro rfl; rw [abs_zero] at h; exact absurd h (not_lt.2 (abs_nonneg a))
    exact mul_self_pos.2 this
  have cmp : ∀ {a b : K}, ¬ |a| < |b| → b * b ≤ a * a := fun {a b} h => by
    have := mul_self_le_mul_self (abs_nonneg b) (not_lt.1 h)
    rwa [abs_mul_abs_self, abs_mul_abs_self] at this
  have lt : ∀ {a b : K}, |a| < |b| → a * a ≤ b * b := fun {a b} h => by
    have := mul_self_le_mul_self (abs_nonneg a) h.le
    rwa [abs_mul_abs_self, abs_mul_abs_self] at this
  have hn' : n.x * n.x + n.y * n.y + n.z * n.z = 1 := hn
  have p1 := mul_self_nonneg n.x
  have p2 := mul_self_nonneg n.y
  have p3 := mul_self_nonneg n.z
  have c0 : 0 < n.y * n.y + n.z * n.z → V3.dot (V3.smul (1 / sqrt (n.y * n.y + n.z * n.z)) ⟨0, -n.z, n.y⟩)
      (V3.smul (1 / sqrt (n.y * n.y + n.z * n.z)) ⟨0, -n.z, n.y⟩) = 1 := fun h => by
    simp only [V3.dot, V3.smul_x, V3.smul_y, V3.smul_z]; linear_combination key h
  have c1 : 0 < n.x * n.x + n.z * n.z → V3.dot (V3.smul (1 / sqrt (n.x * n.x + n.z * n.z)) ⟨-n.z, 0, n.x⟩)
      (V3.smul (1 / sqrt (n.x * n.x + n.z * n.z)) ⟨-n.z, 0, n.x⟩) = 1 := fun h => by
    simp only [V3.dot, V3.smul_x, V3.smul_y, V3.smul_z]; linear_combination key h
  have c2 : 0 < n.x * n.x + n.y * n.y → V3.dot (V3.smul (1 / sqrt (n.x * n.x + n.y * n.y)) ⟨-n.y, n.x, 0⟩)
      (V3.smul (1 / sqrt (n.x * n.x + n.y * n.y)) ⟨-n.y, n.x, 0⟩) = 1 := fun h => by
    simp only [V3.dot, V3.smul_x, V3.smul_y, V3.smul_z]; linear_combination key h
  unfold orthogonal
  by_cases a : |n.x| < |n.y|
  · by_cases b : |n.x| < |n.z|
    · simp only [if_pos a, if_pos b, if_true]
      exact c0 (by linarith [sq a])
    · simp only [if_pos a, if_neg b, OfNat.ofNat_ne_zero, OfNat.ofNat_ne_one, if_false]
      exact c2 (by linarith [sq a])
  · by_cases b : |n.y| < |n.z|
    · simp only [if_neg a, if_pos b, one_ne_zero, if_false, if_true]
      exact c1 (by linarith [sq b])
    · simp only [if_neg a, if_neg b, OfNat.ofNat_ne_zero, OfNat.ofNat_ne_one, if_false]
      exact c2 (by linarith [cmp a, cmp b])

set_option maxHeartbeats 2000000 in
/-- **C129 (slider).** With respect to the axis of the first body, the translation beyond a limit is taken back, then the orientations are turned to each
other, then the translation across the axis is taken back. -/
theorem slider_step_partial {cfg : JCfg K} (hs : IsSqrt cfg.sqrt) (he : 0 ≤ cfg.eps) {body : Nat → PBody K} (X : Nat → Pose K) {J : Slider K} (hb : J.b1 ≠ J.b2)
    (h1 : FreeAxes (body J.b1)) (h2 : FreeAxes (body J.b2)) (hd : (body J.b1).dyn = true ∨ (body J.b2).dyn = true) {Λ : K}
    (i1 : Inertial Λ (body J.b1).i) (i2 : Inertial Λ (body J.b2).i) (hm : 0 < (body J.b1).m + (body J.b2).m)
    (hax : V3.dot (unitOf cfg ((X J.b1).q.rot J.l1)) (unitOf cfg ((X J.b1).q.rot J.l1)) = 1) (hlu : J.limitOn = true → J.lower < J.upper)
    (hR : cfg.eps < |(M3.add (twoAt body X J.b1 J.b2).I1 (twoAt body X J.b1 J.b2).I2).det|) :
    let r1 := armAt body X J.b1 J.a1
    let r2 := armAt body X J.b2 J.a2
    let u := anchorAt body X J.b2 J.a2 - anchorAt body X J.b1 J.a1
    let ax := unitOf cfg ((X J.b1).q.rot J.l1)
    ∃ d e : V3 K, V3.dot d d = 1 ∧ V3.dot e e = 1 ∧ V3.dot d e = 0 ∧ V3.dot ax d = 0 ∧ V3.dot ax e = 0 ∧
      ((let c := twoAt body X J.b1 J.b2
        let m := c.m1 + c.m2
        let c1 := V3.cross (r1 + u) d
        let c2 := V3.cross (r1 + u) e
        let e1 := V3.cross r2 d
        let e2 := V3.cross r2 e
        cfg.eps < |(⟨m + V3.dot c1 (c.I1.act c1) + V3.dot e1 (c.I2.act e1), V3.dot c1 (c.I1.act c2) + V3.dot e1 (c.I2.act e2),
          V3.dot c2 (c.I1.act c1) + V3.dot e2 (c.I2.act e1), m + V3.dot c2 (c.I1.act c2) + V3.dot e2 (c.I2.act e2)⟩ : M2 K).det|) →
      ∃ Y Z m n, (J.limitOn = false → Y = X) ∧
        (J.limitOn = true → J.lower < V3.dot u ax → V3.dot u ax < J.upper → Y = X) ∧
        (J.limitOn = true → V3.dot u ax ≤ J.lower → ∃ l, Nudged cfg J.b1 J.b2 l X Y ∧ l.along r1 r2 u ax = J.lower - V3.dot u ax) ∧
        (J.limitOn = true → J.upper ≤ V3.dot u ax → ∃ l, Nudged cfg J.b1 J.b2 l X Y ∧ l.along r1 r2 u ax = J.upper - V3.dot u ax) ∧
        Nudged cfg J.b1 J.b2 m Y Z ∧ m.v1 = 0 ∧ m.v2 = 0 ∧ m.w2 - m.w1 = -turnErr (Y J.b1).q (Y J.b2).q J.d ∧
        Nudged cfg J.b1 J.b2 n Z (J.position cfg body X).1 ∧ n.along r1 r2 u d = -V3.dot u d ∧ n.along r1 r2 u e = -V3.dot u e) := by
  intro r1 r2 u ax
  have hdyn : ((body J.b1).dyn || (body J.b2).dyn) = true := by rcases hd with h | h <;> simp [h]
  have o1 : V3.dot (orthogonal cfg.sqrt ax) (orthogonal cfg.sqrt ax) = 1 := orth_unit hs hax
  have o2 : V3.dot ax (orthogonal cfg.sqrt ax) = 0 := orth_dot _ _
  have o3 : V3.dot (V3.cross ax (orthogonal cfg.sqrt ax)) (V3.cross ax (orthogonal cfg.sqrt ax)) = 1 := by
    have e : ∀ a b : V3 K, V3.dot (V3.cross a b) (V3.cross a b) = V3.dot a a * V3.dot b b - V3.dot a b * V3.dot a b := fun a b => by
      unfold V3.dot V3.cross; ring
    have hax' : V3.dot ax ax = 1 := hax
    rw [e, o1, o2, hax']; ring
  refine ⟨orthogonal cfg.sqrt ax, V3.cross ax (orthogonal cfg.sqrt ax), o1, o3, by unfold V3.dot V3.cross; ring, o2, by unfold V3.dot V3.cross; ring,
    fun hM => ?_⟩
  dsimp only at hM
  set u' := (X J.b2).x + r2 - (X J.b1).x - r1 with hu'
  have huu : u' = u := by
    show (X J.b2).x + armAt body X J.b2 J.a2 - (X J.b1).x - armAt body X J.b1 J.a1 = anchorAt body X J.b2 J.a2 - anchorAt body X J.b1 J.a1
    unfold anchorAt armAt
    abel
  set J' : Slider K := { J with
    r1 := r1, r2 := r2, ax := ax, n1 := orthogonal cfg.sqrt ax, n2 := V3.cross ax (orthogonal cfg.sqrt ax),
    low := decide (V3.dot u' ax - J.lower ≤ 0), up := decide (J.upper - V3.dot u' ax ≤ 0),
    e1 := V3.cross r2 (orthogonal cfg.sqrt ax), e2 := V3.cross r2 (V3.cross ax (orthogonal cfg.sqrt ax)), ex := V3.cross r2 ax,
    c1 := V3.cross (r1 + u') (orthogonal cfg.sqrt ax), c2 := V3.cross (r1 + u') (V3.cross ax (orthogonal cfg.sqrt ax)),
    cx := V3.cross (r1 + u') ax } with hJ
  have hpo : (J.position cfg body X).1 = (Slider.pull' cfg ((body J.b1).dyn || (body J.b2).dyn) (twoAt body X J.b1 J.b2)
      { (J'.limits' cfg (twoAt body X J.b1 J.b2) X).2 with
        kr := (align cfg ((body J.b1).dyn || (body J.b2).dyn) (twoAt body X J.b1 J.b2) J.d
          (J'.limits' cfg (twoAt body X J.b1 J.b2) X).1).2 } u'
      (align cfg ((body J.b1).dyn || (body J.b2).dyn) (twoAt body X J.b1 J.b2) J.d (J'.limits' cfg (twoAt body X J.b1 J.b2) X).1).1).1 := rfl
  have hsame : ∃ kl, (J'.limits' cfg (twoAt body X J.b1 J.b2) X).2 = { J' with kl := kl } := by
    unfold Slider.limits'
    split
    · exact ⟨_, rfl⟩
    · exact ⟨J'.kl, rfl⟩
  obtain ⟨kl, hkl⟩ := hsame
  rw [hkl, huu] at hpo
  have hlim : J.limitOn = true → _ := fun hon => slide_limit_rate cfg (body := body) X X (J := J') hb h1 h2 u hax rfl (by rw [← huu])
    (by rw [← huu]; rfl) hon (by rw [← huu]) (by rw [← huu]) (hlu hon) (by
      dsimp only
      have k1 := inertia_nonneg (X J.b1).q.matrix i1 J'.cx
      have k2 := inertia_nonneg (X J.b2).q.matrix i2 J'.ex
      show 0 < (body J.b1).m + (body J.b2).m + V3.dot J'.cx ((Dyn.worldInertia (X J.b1).q.matrix (body J.b1).i).act J'.cx) +
        V3.dot J'.ex ((Dyn.worldInertia (X J.b2).q.matrix (body J.b2).i).act J'.ex)
      linarith)
  have hoff : J.limitOn = false → (J'.limits' cfg (twoAt body X J.b1 J.b2) X).1 = X := fun h => by
    unfold Slider.limits'
    have : ¬ J'.limitOn = true := by rw [hJ]; simp [h]
    rw [if_neg this]
  obtain ⟨m, hm1, hm2, hm3, hm4, -⟩ := align_rate he X (J'.limits' cfg (twoAt body X J.b1 J.b2) X).1 hb h1 h2 hdyn J.d hR
  obtain ⟨n, hn1, hn2, hn3⟩ := slide_pull_rate he (body := body) X
    (align cfg ((body J.b1).dyn || (body J.b2).dyn) (twoAt body X J.b1 J.b2) J.d (J'.limits' cfg (twoAt body X J.b1 J.b2) X).1).1
    (J := { J' with
      kl := kl, kr := (align cfg ((body J.b1).dyn || (body J.b2).dyn) (twoAt body X J.b1 J.b2) J.d
        (J'.limits' cfg (twoAt body X J.b1 J.b2) X).1).2 }) hb h1 h2 hdyn u o1 o3
      (by show V3.dot (orthogonal cfg.sqrt ax) (V3.cross ax (orthogonal cfg.sqrt ax)) = 0; unfold V3.dot V3.cross; ring)
      rfl rfl (by rw [← huu]) (by rw [← huu]) (by
        dsimp only
        rw [hJ]
        dsimp only
        rw [huu]
        exact hM)
  exact ⟨_, _, m, n, hoff, fun hon => (hlim hon).1, fun hon => (hlim hon).2.1, fun hon => (hlim hon).2.2, hm1, hm2, hm3, hm4, by rw [hpo]; exact hn1,
    hn2, hn3⟩

end Joints
end RP3D
