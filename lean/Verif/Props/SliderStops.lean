import Verif.Props.JointMakeExamples

/-! C130: a slider with limits is left alone exactly if it is between them. -/

set_option linter.unusedSectionVars false

namespace RP3D
namespace Joints
open Solver
variable {K : Type} [Field K] [LinearOrder K] [IsStrictOrderedRing K]

/-! ### Specification -/

/-- `Slid` by a distance from `lo` to `hi` along the axis. -/
def SlidWithin (A B A' B' : Trans K) (n : V3 K) (lo hi : K) : Prop := ∃ t, lo ≤ t ∧ t ≤ hi ∧ ∀ w, now B B' w = now A A' (w + V3.smul t n)

/-! ### Where the parts of an iteration move the centers of mass -/

theorem smul_zero_vec (v : V3 K) : V3.smul 0 v = 0 := by ext <;> simp

/-- The limits move the centers of mass along the axis, and nothing if they are kept. -/
theorem Slider.limits_shift {cfg : JCfg K} (hs : IsSqrt cfg.sqrt) {body : Nat → PBody K} (X : Nat → Pose K) {J : Slider K} (hA : Able body J.b1 J.b2)
    (q1 : (X J.b1).q.lengthSq = 1) (q2 : (X J.b2).q.lengthSq = 1) (hlu : J.lower ≤ J.upper)
    (hlow : J.low = decide (V3.dot (J.between X) J.ax - J.lower ≤ 0)) (hup : J.up = decide (J.upper - V3.dot (J.between X) J.ax ≤ 0))
    (hS : 0 < (body J.b1).m + (body J.b2).m + V3.dot J.cx ((twoAt body X J.b1 J.b2).I1.act J.cx) + V3.dot J.ex ((twoAt body X J.b1 J.b2).I2.act J.ex)) :
    ∃ l, ((J.limits' cfg (twoAt body X J.b1 J.b2) X).1 J.b1).x = (X J.b1).x + V3.smul (body J.b1).m (V3.smul (-l) J.ax) ∧
      ((J.limits' cfg (twoAt body X J.b1 J.b2) X).1 J.b2).x = (X J.b2).x + V3.smul (body J.b2).m (V3.smul l J.ax) ∧
      (l = 0 → (J.limits' cfg (twoAt body X J.b1 J.b2) X).1 = X ∧
        (J.limitOn = true → J.lower ≤ V3.dot (J.between X) J.ax ∧ V3.dot (J.between X) J.ax ≤ J.upper)) := by
  have none : ∀ v : V3 K, ∀ m : K, v = v + V3.smul m (V3.smul (-0) J.ax) := fun v m => by ext <;> simp
  have none' : ∀ v : V3 K, ∀ m : K, v = v + V3.smul m (V3.smul 0 J.ax) := fun v m => by ext <;> simp
  have kl : invOf ((twoAt body X J.b1 J.b2).m1 + (twoAt body X J.b1 J.b2).m2 + V3.dot J.cx ((twoAt body X J.b1 J.b2).I1.act J.cx) +
      V3.dot J.ex ((twoAt body X J.b1 J.b2).I2.act J.ex)) ≠ 0 := by
    unfold invOf
    split
    · exact one_div_ne_zero (ne_of_gt ‹_›)
    · exact absurd hS ‹_›
  have stay : place cfg (twoAt body X J.b1 J.b2) 0 0 0 0 X = X := place_zero hs _ q1 q2
  unfold Slider.limits'
  by_cases hon : J.limitOn = true
  · rw [if_pos hon]
    dsimp only
    generalize invOf ((twoAt body X J.b1 J.b2).m1 + (twoAt body X J.b1 J.b2).m2 + V3.dot J.cx ((twoAt body X J.b1 J.b2).I1.act J.cx) +
      V3.dot J.ex ((twoAt body X J.b1 J.b2).I2.act J.ex)) = k at *
    by_cases a : V3.dot (J.between X) J.ax - J.lower ≤ 0
    · have ha : J.low = true := by rw [hlow]; exact decide_eq_true a
      by_cases b : J.upper - V3.dot (J.between X) J.ax ≤ 0
      · have hb : J.up = true := by rw [hup]; exact decide_eq_true b
        have z1 : V3.dot (J.between X) J.ax - J.lower = 0 := by linarith
        have z2 : J.upper - V3.dot (J.between X) J.ax = 0 := by linarith
        simp only [ha, hb, Bool.or_self, if_true, z1, neg_zero, mul_zero, smul_zero_vec, stay, z2]
        exact ⟨0, none _ _, none' _ _, fun _ => ⟨trivial, fun _ => ⟨by linarith, by linarith⟩⟩⟩
      · have hb : J.up = false := by rw [hup]; exact decide_eq_false b
        simp only [ha, hb, Bool.or_false, if_true, Bool.false_eq_true, if_false]
        obtain ⟨p1, p2, -⟩ := place_nudged cfg X X hA.ne hA.free1 hA.free2 (V3.smul (-(k * -(V3.dot (J.between X) J.ax - J.lower))) J.ax)
          (V3.smul (-(k * -(V3.dot (J.between X) J.ax - J.lower))) J.cx) (V3.smul (k * -(V3.dot (J.between X) J.ax - J.lower)) J.ax)
          (V3.smul (k * -(V3.dot (J.between X) J.ax - J.lower)) J.ex)
        refine ⟨k * -(V3.dot (J.between X) J.ax - J.lower), by rw [p1], by rw [p2], fun h => ?_⟩
        rw [h, neg_zero]
        simp only [smul_zero_vec]
        have := (mul_eq_zero.1 h).resolve_left kl
        exact ⟨stay, fun _ => ⟨by linarith, by linarith⟩⟩
    · have ha : J.low = false := by rw [hlow]; exact decide_eq_false a
      by_cases b : J.upper - V3.dot (J.between X) J.ax ≤ 0
      · have hb : J.up = true := by rw [hup]; exact decide_eq_true b
        simp only [ha, hb, Bool.or_true, if_true, Bool.false_eq_true, if_false]
        obtain ⟨p1, p2, -⟩ := place_nudged cfg X X hA.ne hA.free1 hA.free2 (V3.smul (k * -(J.upper - V3.dot (J.between X) J.ax)) J.ax)
          (V3.smul (k * -(J.upper - V3.dot (J.between X) J.ax)) J.cx) (V3.smul (-(k * -(J.upper - V3.dot (J.between X) J.ax))) J.ax)
          (V3.smul (-(k * -(J.upper - V3.dot (J.between X) J.ax))) J.ex)
        refine ⟨-(k * -(J.upper - V3.dot (J.between X) J.ax)), by rw [p1, neg_neg], by rw [p2], fun h => ?_⟩
        have h := neg_eq_zero.1 h
        rw [h, neg_zero]
        simp only [smul_zero_vec]
        have := (mul_eq_zero.1 h).resolve_left kl
        exact ⟨stay, fun _ => ⟨by linarith, by linarith⟩⟩
      · have hb : J.up = false := by rw [hup]; exact decide_eq_false b
        simp only [ha, hb, Bool.false_eq_true, if_false]
        exact ⟨0, none _ _, none' _ _, fun _ => ⟨trivial, fun _ => ⟨by linarith, by linarith⟩⟩⟩
  · rw [if_neg hon]
    exact ⟨0, none _ _, none' _ _, fun _ => ⟨rfl, fun h => absurd h hon⟩⟩

/-- The translation constraints move them across the axis. -/
theorem Slider.pull_shift {cfg : JCfg K} {body : Nat → PBody K} (Z X : Nat → Pose K) (J : Slider K) {i j : Nat} (hA : Able body i j) (dyn : Bool) (u : V3 K) :
    ∃ x y, ((Slider.pull' cfg dyn (twoAt body Z i j) J u X).1 i).x = (X i).x + V3.smul (body i).m (V3.smul x (-J.n1) - V3.smul y J.n2) ∧
      ((Slider.pull' cfg dyn (twoAt body Z i j) J u X).1 j).x = (X j).x + V3.smul (body j).m (V3.smul x J.n1 + V3.smul y J.n2) := by
  unfold Slider.pull'
  dsimp only
  split
  · generalize (inverseOrZero2 cfg dyn _).act (⟨-V3.dot u J.n1, -V3.dot u J.n2⟩ : V2 K) = l
    obtain ⟨p1, p2, -⟩ := place_nudged cfg Z X hA.ne hA.free1 hA.free2 (V3.smul l.x (-J.n1) - V3.smul l.y J.n2) (V3.smul l.x (-J.c1) - V3.smul l.y J.c2)
      (V3.smul l.x J.n1 + V3.smul l.y J.n2) (V3.smul l.x J.e1 + V3.smul l.y J.e2)
    exact ⟨l.x, l.y, congrArg Pose.x p1, congrArg Pose.x p2⟩
  · exact ⟨0, 0, by ext <;> simp, by ext <;> simp⟩

/-- They depend on the directions and arms only. -/
theorem Slider.pull_fields (cfg : JCfg K) (dyn : Bool) (c : Two K) {J L : Slider K} (u : V3 K) (X : Nat → Pose K) (h1 : J.n1 = L.n1) (h2 : J.n2 = L.n2)
    (h3 : J.c1 = L.c1) (h4 : J.c2 = L.c2) (h5 : J.e1 = L.e1) (h6 : J.e2 = L.e2) : (Slider.pull' cfg dyn c J u X).1 = (Slider.pull' cfg dyn c L u X).1 := by
  unfold Slider.pull'
  rw [h1, h2, h3, h4, h5, h6]
  dsimp only
  split <;> rfl

set_option maxHeartbeats 2000000 in
theorem Slider.rests_iff_limits {cfg : JCfg K} (hs : IsSqrt cfg.sqrt) (he : 0 ≤ cfg.eps) (he1 : cfg.eps ≤ 1) {body : Nat → PBody K} (X : Nat → Pose K)
    {J : Slider K} (hA : Able body J.b1 J.b2) (hm : 0 < (body J.b1).m + (body J.b2).m) (i1 : Inert (body J.b1).i) (i2 : Inert (body J.b2).i)
    (hlu : J.lower ≤ J.upper) (l1 : V3.dot J.l1 J.l1 = 1) (hd : J.d.lengthSq = 1)
    (q1 : (X J.b1).q.lengthSq = 1) (q2 : (X J.b2).q.lengthSq = 1)
    (hR : cfg.eps < |(M3.add (twoAt body X J.b1 J.b2).I1 (twoAt body X J.b1 J.b2).I2).det|) (hM : J.Movable cfg body X) :
    (J.position cfg body X).1 = X ↔ J.Holds cfg body X := by
  refine ⟨fun h => ?_, fun h => J.position_hold hs body q1 q2 h⟩
  have u1 : unitOf cfg ((X J.b1).q.rot J.l1) = (X J.b1).q.rot J.l1 := HingeProps.unitOf_unit hs he1 ((rot_dot q1 _ _).trans l1)
  have k1 : V3.dot ((X J.b1).q.rot J.l1) ((X J.b1).q.rot J.l1) = 1 := (rot_dot q1 _ _).trans l1
  have off := Slider.rests_iff hs he he1 X (J := { J with limitOn := false }) hA rfl l1 hd q1 q2 hR hM
  have huu : anchorAt body X J.b2 J.a2 - anchorAt body X J.b1 J.a1 = (X J.b2).x + armAt body X J.b2 J.a2 - (X J.b1).x - armAt body X J.b1 J.a1 := by
    unfold anchorAt armAt; abel
  obtain ⟨ax, hax⟩ : ∃ ax, ax = unitOf cfg ((X J.b1).q.rot J.l1) := ⟨_, rfl⟩
  obtain ⟨r1, hr1⟩ : ∃ r1, r1 = armAt body X J.b1 J.a1 := ⟨_, rfl⟩
  obtain ⟨r2, hr2⟩ : ∃ r2, r2 = armAt body X J.b2 J.a2 := ⟨_, rfl⟩
  obtain ⟨u, hu⟩ : ∃ u, u = (X J.b2).x + r2 - (X J.b1).x - r1 := ⟨_, rfl⟩
  have hax' : V3.dot ax ax = 1 := by rw [hax, u1]; exact k1
  obtain ⟨J', hJ⟩ : ∃ J' : Slider K, J' = { J with
    r1 := r1, r2 := r2, ax := ax, n1 := orthogonal cfg.sqrt ax, n2 := V3.cross ax (orthogonal cfg.sqrt ax),
    low := decide (V3.dot u ax - J.lower ≤ 0), up := decide (J.upper - V3.dot u ax ≤ 0),
    e1 := V3.cross r2 (orthogonal cfg.sqrt ax), e2 := V3.cross r2 (V3.cross ax (orthogonal cfg.sqrt ax)), ex := V3.cross r2 ax,
    c1 := V3.cross (r1 + u) (orthogonal cfg.sqrt ax), c2 := V3.cross (r1 + u) (V3.cross ax (orthogonal cfg.sqrt ax)),
    cx := V3.cross (r1 + u) ax } := ⟨_, rfl⟩
  have b1 : J'.b1 = J.b1 := by rw [hJ]
  have b2 : J'.b2 = J.b2 := by rw [hJ]
  have hb : J'.between X = u := by rw [hJ, hu]; rfl
  have nn : ∀ i : V3 K, Inert i → ∀ (o : M3 K) (v : V3 K), 0 ≤ V3.dot v ((Dyn.worldInertia o i).act v) := by
    intro i hi o v
    rw [inertia_form, mul_assoc, mul_assoc, mul_assoc]
    exact add_nonneg (add_nonneg (mul_nonneg hi.1 (mul_self_nonneg _)) (mul_nonneg hi.2.1 (mul_self_nonneg _))) (mul_nonneg hi.2.2 (mul_self_nonneg _))
  obtain ⟨l, s1, s2, s3⟩ := Slider.limits_shift (cfg := cfg) hs (body := body) X (J := J') (by rw [b1, b2]; exact hA) (by rw [b1]; exact q1) (by rw [b2]; exact q2)
    (by rw [hJ]; exact hlu) (by rw [hb, hJ]) (by rw [hb, hJ])
    (by
      rw [b1, b2]
      have p := nn _ i1 (X J.b1).q.matrix J'.cx
      have q := nn _ i2 (X J.b2).q.matrix J'.ex
      have p' : 0 ≤ V3.dot J'.cx ((twoAt body X J.b1 J.b2).I1.act J'.cx) := p
      have q' : 0 ≤ V3.dot J'.ex ((twoAt body X J.b1 J.b2).I2.act J'.ex) := q
      linarith)
  rw [b1, b2] at s1 s2 s3
  have hpo : (J.position cfg body X).1 = (Slider.pull' cfg ((body J.b1).dyn || (body J.b2).dyn) (twoAt body X J.b1 J.b2) J' u
      (align cfg ((body J.b1).dyn || (body J.b2).dyn) (twoAt body X J.b1 J.b2) J.d (J'.limits' cfg (twoAt body X J.b1 J.b2) X).1).1).1 := by
    have e : (J'.limits' cfg (twoAt body X J.b1 J.b2) X).2 = { J' with kl := (J'.limits' cfg (twoAt body X J.b1 J.b2) X).2.kl } := by
      unfold Slider.limits'
      split <;> rfl
    have e2 : (J.position cfg body X).1 = (Slider.pull' cfg ((body J.b1).dyn || (body J.b2).dyn) (twoAt body X J.b1 J.b2)
      { (J'.limits' cfg (twoAt body X J.b1 J.b2) X).2 with
        kr := (align cfg ((body J.b1).dyn || (body J.b2).dyn) (twoAt body X J.b1 J.b2) J.d
          (J'.limits' cfg (twoAt body X J.b1 J.b2) X).1).2 } u
      (align cfg ((body J.b1).dyn || (body J.b2).dyn) (twoAt body X J.b1 J.b2) J.d (J'.limits' cfg (twoAt body X J.b1 J.b2) X).1).1).1 := by
      rw [hJ, hu, hr1, hr2, hax]
      rfl
    rw [e2, e]
    exact Slider.pull_fields _ _ _ _ _ rfl rfl rfl rfl rfl rfl
  have hoff : ({ J with limitOn := false }.position cfg body X).1 = (Slider.pull' cfg ((body J.b1).dyn || (body J.b2).dyn) (twoAt body X J.b1 J.b2) J' u
      (align cfg ((body J.b1).dyn || (body J.b2).dyn) (twoAt body X J.b1 J.b2) J.d X).1).1 := by
    have e2 : ({ J with limitOn := false }.position cfg body X).1 = (Slider.pull' cfg ((body J.b1).dyn || (body J.b2).dyn) (twoAt body X J.b1 J.b2)
      { { J' with limitOn := false } with kr := (align cfg ((body J.b1).dyn || (body J.b2).dyn) (twoAt body X J.b1 J.b2) J.d X).2 } u
      (align cfg ((body J.b1).dyn || (body J.b2).dyn) (twoAt body X J.b1 J.b2) J.d X).1).1 := by
      rw [hJ, hu, hr1, hr2, hax]
      rfl
    rw [e2]
    exact Slider.pull_fields _ _ _ _ _ rfl rfl rfl rfl rfl rfl
  obtain ⟨m, ⟨hm1, hm2, hm3⟩, v1, v2, -⟩ := align_rate he X (J'.limits' cfg (twoAt body X J.b1 J.b2) X).1 hA.ne hA.free1 hA.free2 hA.or J.d hR
  obtain ⟨g1, g2⟩ := nudged_gap ⟨hm1, hm2, hm3⟩ v1 v2
  have n1 : J'.n1 = orthogonal cfg.sqrt ax := by rw [hJ]
  have n2 : J'.n2 = V3.cross ax (orthogonal cfg.sqrt ax) := by rw [hJ]
  have nx : J'.ax = ax := by rw [hJ]
  have hl0 : l = 0 := by
    obtain ⟨x, y, p1, p2⟩ := Slider.pull_shift (cfg := cfg) (body := body) X
      (align cfg ((body J.b1).dyn || (body J.b2).dyn) (twoAt body X J.b1 J.b2) J.d (J'.limits' cfg (twoAt body X J.b1 J.b2) X).1).1
      J' hA ((body J.b1).dyn || (body J.b2).dyn) u
    rw [← hpo, h, g1, s1, n1, n2, nx] at p1
    rw [← hpo, h, g2, s2, n1, n2, nx] at p2
    have d1 : V3.dot ax (orthogonal cfg.sqrt ax) = 0 := orth_dot _ _
    have d2 : V3.dot ax (V3.cross ax (orthogonal cfg.sqrt ax)) = 0 := by unfold V3.dot V3.cross; ring
    generalize orthogonal cfg.sqrt ax = o at *
    generalize V3.cross ax o = o' at *
    have f1 : (body J.b1).m * l = 0 := by
      have := congrArg (fun v => V3.dot ax v) p1
      simp only [V3.dot, V3.add_x, V3.add_y, V3.add_z, V3.sub_x, V3.sub_y, V3.sub_z, V3.smul_x, V3.smul_y, V3.smul_z, V3.neg_x, V3.neg_y, V3.neg_z] at this hax' d1 d2
      linear_combination this - (body J.b1).m * l * hax' - (body J.b1).m * x * d1 - (body J.b1).m * y * d2
    have f2 : (body J.b2).m * l = 0 := by
      have := congrArg (fun v => V3.dot ax v) p2
      simp only [V3.dot, V3.add_x, V3.add_y, V3.add_z, V3.smul_x, V3.smul_y, V3.smul_z] at this hax' d1 d2
      linear_combination -this - (body J.b2).m * l * hax' - (body J.b2).m * x * d1 - (body J.b2).m * y * d2
    have f3 : ((body J.b1).m + (body J.b2).m) * l = 0 := by linear_combination f1 + f2
    exact (mul_eq_zero.1 f3).resolve_left hm.ne'
  obtain ⟨t1, t2⟩ := s3 hl0
  rw [hpo, t1, ← hoff] at h
  obtain ⟨c1, c2, c3, -⟩ := off.1 h
  refine ⟨c1, c2, c3, fun hon => ?_⟩
  have := t2 (by rw [hJ]; exact hon)
  rw [hb, hJ] at this
  rw [huu, ← hr1, ← hr2, ← hu, ← hax]
  exact this

theorem slidWithin_iff {A B A' B' : Trans K} (p n : V3 K) (lo hi : K) : SlidWithin A B A' B' n lo hi ↔
    (∃ t, lo ≤ t ∧ t ≤ hi ∧ now B B' p - now A A' p = V3.smul t (A'.ori.rot (A.ori.conj.rot n))) ∧
      ∀ v, B'.ori.rot (B.ori.conj.rot v) = A'.ori.rot (A.ori.conj.rot v) := by
  constructor
  · rintro ⟨t, a, b, h⟩
    have h0 := h p
    rw [now_add, rot_smul, rot_smul] at h0
    exact ⟨⟨t, a, b, by rw [h0]; abel⟩, ((slid_iff p n).1 ⟨t, h⟩).2⟩
  · rintro ⟨⟨t, a, b, ht⟩, hv⟩
    refine ⟨t, a, b, fun w => ?_⟩
    have e : w = p + (w - p) := by abel
    rw [now_add A A' w, rot_smul, rot_smul, ← ht, e, now_add, now_add, hv]
    abel

theorem dot_smul_unit {a : V3 K} (h : V3.dot a a = 1) (t : K) : V3.dot (V3.smul t a) a = t := by
  unfold V3.dot at *
  simp only [V3.smul_x, V3.smul_y, V3.smul_z]
  linear_combination t * h

/-- **A slider with limits is left alone exactly if body 2 has moved with body 1 and then along the axis, by a distance between the limits.** -/
theorem slider_limits_rest_iff {cfg : JCfg K} (hs : IsSqrt cfg.sqrt) (he : 0 < cfg.eps) (he1 : cfg.eps ≤ 1) {body : Nat → PBody K} {b1 b2 : Nat} {l : K}
    (hL : Light cfg body b1 b2 l) {A B : Trans K} (hA : A.ori.lengthSq = 1) (hB : B.ori.lengthSq = 1) {T : Nat → Trans K}
    (h1 : (T b1).ori.lengthSq = 1) (h2 : (T b2).ori.lengthSq = 1) (baum : Bool) (p : V3 K) {n : V3 K} (hn : V3.dot n n = 1) (s : Drive K)
    (hon : s.limitOn = true) (hlu : s.lower ≤ s.upper) :
    ((Slider.make cfg b1 b2 baum A B (.world p) (.world n) s).position cfg body (posesOf body T)).1 = posesOf body T ↔
      SlidWithin A B (T b1) (T b2) n s.lower s.upper := by
  have a1 : V3.dot (A.ori.conj.rot n) (A.ori.conj.rot n) = 1 := (rot_dot (unit_inverse hA) _ _).trans hn
  have e1 : (Slider.make cfg b1 b2 baum A B (.world p) (.world n) s).l1 = A.ori.conj.rot n := HingeProps.unitOf_unit hs he1 a1
  have a3 : V3.dot ((T b1).ori.rot (A.ori.conj.rot n)) ((T b1).ori.rot (A.ori.conj.rot n)) = 1 := (rot_dot h1 _ _).trans a1
  rw [Slider.rests_iff_limits hs he.le he1 (posesOf body T) (J := Slider.make cfg b1 b2 baum A B (.world p) (.world n) s) hL.able hL.mass hL.in1 hL.in2 hlu
    (by rw [e1]; exact a1) (unit_mul (unit_inverse hB) hA) h1 h2 (hL.turns _ h1 h2)
    (Light.movable he1 (J := Slider.make cfg b1 b2 baum A B (.world p) (.world n) s) hL _), slidWithin_iff p n, ← aligned_iff hA hB h1 h2]
  unfold Slider.Holds
  rw [anchorAt_poses, anchorAt_poses, e1]
  have ua : unitOf cfg ((T b1).ori.rot (A.ori.conj.rot n)) = (T b1).ori.rot (A.ori.conj.rot n) := HingeProps.unitOf_unit hs he1 a3
  constructor
  · rintro ⟨k1, -, k2, k3⟩
    refine ⟨?_, k2⟩
    have k1' : V3.cross (now B (T b2) p - now A (T b1) p) ((T b1).ori.rot (A.ori.conj.rot n)) = 0 := k1
    have k3' : s.lower ≤ V3.dot (now B (T b2) p - now A (T b1) p) (unitOf cfg ((T b1).ori.rot (A.ori.conj.rot n))) ∧
      V3.dot (now B (T b2) p - now A (T b1) p) (unitOf cfg ((T b1).ori.rot (A.ori.conj.rot n))) ≤ s.upper := k3 hon
    rw [ua] at k3'
    generalize (T b1).ori.rot (A.ori.conj.rot n) = a at *
    generalize now B (T b2) p - now A (T b1) p = u at *
    obtain ⟨z1, z2⟩ := parallel_zero hs (cfg := cfg) k1' (unit_ne_zero a3)
    rw [ua] at z1 z2
    exact ⟨_, k3'.1, k3'.2, along_axis hs a3 z1 z2⟩
  · rintro ⟨⟨t, c1, c2, k1⟩, k2⟩
    refine ⟨?_, unit_ne_zero a3, k2, fun _ => ?_⟩
    · show V3.cross (now B (T b2) p - now A (T b1) p) ((T b1).ori.rot (A.ori.conj.rot n)) = 0
      rw [k1]
      exact cross_self_smul _ _
    · show s.lower ≤ V3.dot (now B (T b2) p - now A (T b1) p) (unitOf cfg ((T b1).ori.rot (A.ori.conj.rot n))) ∧
        V3.dot (now B (T b2) p - now A (T b1) p) (unitOf cfg ((T b1).ori.rot (A.ori.conj.rot n))) ≤ s.upper
      rw [ua, k1, dot_smul_unit a3]
      exact ⟨c1, c2⟩

open Ex

/-- A slider with limits 0 and 2 is left alone where it has moved by 1, and moved back where it has moved by 3. -/
example : ((Slider.make jcone 0 1 false here here (.world ⟨1, 2, 3⟩) (.world axisX) ⟨true, 0, 2, false, 0, 0⟩).position jcone bodyR
    (posesOf bodyR (rolled 1))).1 = posesOf bodyR (rolled 1) :=
  (slider_limits_rest_iff sqrt_real eps_pos eps_one light here_unit here_unit (rolled_unit 1 0) (rolled_unit 1 1) false _ (by norm_num [V3.dot, axisX])
    ⟨true, 0, 2, false, 0, 0⟩ rfl (by norm_num)).2 ⟨1, by norm_num, by norm_num, rolled_now 1⟩

example : ((Slider.make jcone 0 1 false here here (.world ⟨1, 2, 3⟩) (.world axisX) ⟨true, 0, 2, false, 0, 0⟩).position jcone bodyR
    (posesOf bodyR (rolled 3))).1 ≠ posesOf bodyR (rolled 3) := fun h => by
  obtain ⟨t, -, h2, h3⟩ := (slider_limits_rest_iff sqrt_real eps_pos eps_one light here_unit here_unit (rolled_unit 3 0) (rolled_unit 3 1) false _
    (by norm_num [V3.dot, axisX]) ⟨true, 0, 2, false, 0, 0⟩ rfl (by norm_num)).1 h
  have h4 : t ≤ 2 := h2
  have e := h3 0
  rw [rolled_now 3 0, now_add, now_add] at e
  have e' := add_left_cancel e
  have ux : V3.dot ((rolled 3 0).ori.rot (here.ori.conj.rot axisX)) ((rolled 3 0).ori.rot (here.ori.conj.rot axisX)) = 1 :=
    (rot_dot (rolled_unit 3 0) _ _).trans ((rot_dot (unit_inverse here_unit) _ _).trans (by norm_num [V3.dot, axisX]))
  rw [rot_smul, rot_smul, rot_smul, rot_smul] at e'
  have e3 := congrArg (fun v => V3.dot v ((rolled 3 0).ori.rot (here.ori.conj.rot axisX))) e'
  simp only [dot_smul_unit ux] at e3
  linarith

end Joints
end RP3D
