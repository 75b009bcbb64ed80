import Verif.Props.Points
import Verif.Props.Segments
import Verif.Narrow.Round

/-! C89: tests of spheres and capsules decide whether the interiors overlap. C90: their contacts separate the shapes. -/

namespace RP3D
namespace RoundProps
open Ray Shape RayProps PointProps Geom GeomProps Round

variable {K : Type} [Field K] [LinearOrder K] [IsStrictOrderedRing K]

/-! ### Specification -/

/-- The points at distance less than `r` from a set of points (the interior of a sphere around its center, of a capsule around its inner segment). -/
def Around (A : V3 K → Prop) (r : K) (x : V3 K) : Prop := ∃ a, A a ∧ OpenBall a r x

/-- The center of a sphere, the inner segment of a capsule of a height, at a pose. -/
def Center (t : Trans K) (x : V3 K) : Prop := x = t.pos
def Axis (t : Trans K) (height : K) (x : V3 K) : Prop := ∃ y, -(height / 2) ≤ y ∧ y ≤ height / 2 ∧ x = t.act ⟨0, y, 0⟩

/-- Two sets have a common point. -/
def Meet (A B : V3 K → Prop) : Prop := ∃ x, A x ∧ B x

/-- A set moved by a vector. -/
def Moved (A : V3 K → Prop) (w x : V3 K) : Prop := ∃ a, A a ∧ x = a + w

/-- A point of the surface: at distance `r` from the set, and not closer to any of its points. -/
def OnSurface (A : V3 K → Prop) (r : K) (x : V3 K) : Prop := (∃ a, A a ∧ dist2 a x = r * r) ∧ ∀ a, A a → r * r ≤ dist2 a x

/-- A correct contact of two round shapes: a unit normal; the points lie on the two surfaces and are separated by the depth along the normal (up to
`tol`); moving shape 2 along the normal by the depth or more ends the overlap; no shorter motion of it does. -/
structure Good (tol : K) (t1 t2 : Trans K) (A1 : V3 K → Prop) (r1 : K) (A2 : V3 K → Prop) (r2 : K) (c : Contact K) : Prop where
  unit : c.normal.lengthSq = 1
  on1 : OnSurface A1 r1 (t1.act c.p1)
  on2 : OnSurface A2 r2 (t2.act c.p2)
  apart : ∀ k, c.depth ≤ k → ¬ Meet (Around A1 r1) (Around (Moved A2 (V3.smul k c.normal)) r2)
  deep : ∃ d, 0 < d ∧ t1.act c.p1 = t2.act c.p2 + V3.smul d c.normal ∧ d ≤ c.depth ∧ c.depth ≤ max d tol ∧
    ∀ w : V3 K, w.lengthSq < d * d → Meet (Around A1 r1) (Around (Moved A2 w) r2)

/-! ### Balls -/

theorem dot_le {u v : V3 K} {a b : K} (ha : 0 ≤ a) (hb : 0 ≤ b) (hu : u.lengthSq ≤ a * a) (hv : v.lengthSq ≤ b * b) : u.dot v ≤ a * b := by
  have hc := cauchy u v
  have hn : 0 ≤ u.lengthSq := by simp only [V3.lengthSq]; nlinarith [mul_self_nonneg u.x, mul_self_nonneg u.y, mul_self_nonneg u.z]
  have h1 : u.lengthSq * v.lengthSq ≤ (a * b) * (a * b) := by
    have := mul_le_mul hu hv (by simp only [V3.lengthSq]; nlinarith [mul_self_nonneg v.x, mul_self_nonneg v.y, mul_self_nonneg v.z]) (mul_nonneg ha ha)
    linarith
  have h2 : u.dot v * u.dot v ≤ (a * b) * (a * b) := by linarith
  by_contra hlt
  nlinarith [not_le.mp hlt, mul_nonneg ha hb]

theorem balls_meet {a b : V3 K} {r1 r2 : K} (h1 : 0 < r1) (h2 : 0 < r2) :
    Meet (OpenBall a r1) (OpenBall b r2) ↔ dist2 a b < (r1 + r2) * (r1 + r2) := by
  constructor
  · rintro ⟨x, hx1, hx2⟩
    unfold OpenBall at hx1 hx2
    have hneg : (-(x - b)).lengthSq = (x - b).lengthSq := by simp only [V3.lengthSq, V3.neg_x, V3.neg_y, V3.neg_z]; ring
    have hd := dot_le h1.le h2.le hx1.le (hneg ▸ hx2.le : (-(x - b)).lengthSq ≤ r2 * r2)
    have e : dist2 a b = (x - a).lengthSq + 2 * (x - a).dot (-(x - b)) + (x - b).lengthSq := by
      simp only [dist2, V3.lengthSq, V3.dot, V3.sub_x, V3.sub_y, V3.sub_z, V3.neg_x, V3.neg_y, V3.neg_z]; ring
    rw [e]; nlinarith
  · intro h
    have hs : 0 < r1 + r2 := by linarith
    refine ⟨at' a b (r1 / (r1 + r2)), ?_, ?_⟩
    · unfold OpenBall
      have e : (at' a b (r1 / (r1 + r2)) - a).lengthSq = dist2 a b / ((r1 + r2) * (r1 + r2)) * (r1 * r1) := by
        simp only [at', dist2, V3.lengthSq, V3.sub_x, V3.sub_y, V3.sub_z]; field_simp; ring
      rw [e]
      have : dist2 a b / ((r1 + r2) * (r1 + r2)) < 1 := (div_lt_one (mul_pos hs hs)).mpr h
      nlinarith [mul_pos h1 h1]
    · unfold OpenBall
      have e : (at' a b (r1 / (r1 + r2)) - b).lengthSq = dist2 a b / ((r1 + r2) * (r1 + r2)) * (r2 * r2) := by
        simp only [at', dist2, V3.lengthSq, V3.sub_x, V3.sub_y, V3.sub_z]; field_simp; ring
      rw [e]
      have : dist2 a b / ((r1 + r2) * (r1 + r2)) < 1 := (div_lt_one (mul_pos hs hs)).mpr h
      nlinarith [mul_pos h2 h2]

theorem around_meet {A B : V3 K → Prop} {r1 r2 : K} (h1 : 0 < r1) (h2 : 0 < r2) :
    Meet (Around A r1) (Around B r2) ↔ ∃ a b, A a ∧ B b ∧ dist2 a b < (r1 + r2) * (r1 + r2) := by
  constructor
  · rintro ⟨x, ⟨a, ha, hx⟩, b, hb, hy⟩
    exact ⟨a, b, ha, hb, (balls_meet h1 h2).mp ⟨x, hx, hy⟩⟩
  · rintro ⟨a, b, ha, hb, h⟩
    obtain ⟨x, hx, hy⟩ := (balls_meet h1 h2).mpr h
    exact ⟨x, ⟨a, ha, hx⟩, b, hb, hy⟩

/-! ### Contacts from supporting planes -/

/-- The contact at two points whose difference is along the normal, when the planes through them at right angles to the normal support the two sets. -/
theorem good_of_support {t1 t2 : Trans K} {A1 A2 : V3 K → Prop} {r1 r2 d0 tol : K} {c1 c2 n : V3 K} (h1 : 0 < r1) (h2 : 0 < r2) (hn : n.lengthSq = 1)
    (hd0 : 0 ≤ d0) (hd : d0 < r1 + r2) (hc1 : A1 c1) (hc2 : A2 c2) (hc : c2 = c1 + V3.smul d0 n) (hs1 : ∀ a, A1 a → n.dot (a - c1) ≤ 0)
    (hs2 : ∀ a, A2 a → 0 ≤ n.dot (a - c2)) {c : Contact K} (e1 : c.normal = n) (e2 : c.depth = max (r1 + r2 - d0) tol)
    (e3 : t1.act c.p1 = c1 + V3.smul r1 n) (e4 : t2.act c.p2 = c2 - V3.smul r2 n) : Good tol t1 t2 A1 r1 A2 r2 c := by
  have hdep : r1 + r2 - d0 ≤ c.depth := by rw [e2]; exact le_max_left _ _
  refine ⟨by rw [e1, hn], ?_, ?_, ?_, r1 + r2 - d0, by linarith, ?_, hdep, by rw [e2], ?_⟩
  · rw [e3]
    have e : ∀ a, dist2 a (c1 + V3.smul r1 n) = (a - c1).lengthSq - 2 * r1 * n.dot (a - c1) + r1 * r1 * n.lengthSq := fun a => by
      simp only [dist2, V3.lengthSq, V3.dot, V3.sub_x, V3.sub_y, V3.sub_z, V3.add_x, V3.add_y, V3.add_z, V3.smul_x, V3.smul_y, V3.smul_z]; ring
    refine ⟨⟨c1, hc1, ?_⟩, fun a ha => ?_⟩
    · rw [e, hn]; simp [V3.lengthSq, V3.dot]
    · rw [e, hn]
      have := hs1 a ha
      have h0 : 0 ≤ (a - c1).lengthSq := by rw [lengthSq_eq]; exact dist2_nonneg _ _
      nlinarith
  · rw [e4]
    have e : ∀ a, dist2 a (c2 - V3.smul r2 n) = (a - c2).lengthSq + 2 * r2 * n.dot (a - c2) + r2 * r2 * n.lengthSq := fun a => by
      simp only [dist2, V3.lengthSq, V3.dot, V3.sub_x, V3.sub_y, V3.sub_z, V3.smul_x, V3.smul_y, V3.smul_z]; ring
    refine ⟨⟨c2, hc2, ?_⟩, fun a ha => ?_⟩
    · rw [e, hn]; simp [V3.lengthSq, V3.dot]
    · rw [e, hn]
      have := hs2 a ha
      have h0 : 0 ≤ (a - c2).lengthSq := by rw [lengthSq_eq]; exact dist2_nonneg _ _
      nlinarith
  · intro k hk
    rw [around_meet h1 h2]
    rintro ⟨a, b, ha, ⟨b, hb, rfl⟩, hab⟩
    have ea : n.dot (b + V3.smul k n - a) = n.dot (b - c2) - n.dot (a - c1) + (d0 + k) * n.lengthSq := by
      rw [hc]
      simp only [V3.lengthSq, V3.dot, V3.sub_x, V3.sub_y, V3.sub_z, V3.add_x, V3.add_y, V3.add_z, V3.smul_x, V3.smul_y, V3.smul_z]; ring
    have q1 := hs1 a ha
    have q2 := hs2 b hb
    have q3 := cauchy n (b + V3.smul k n - a)
    rw [e1, ← lengthSq_eq] at hab
    rw [hn] at ea q3
    have : r1 + r2 ≤ n.dot (b + V3.smul k n - a) := by rw [ea]; linarith
    nlinarith
  · rw [e3, e4, e1, hc]
    ext <;> simp <;> ring
  · intro w hw
    rw [around_meet h1 h2]
    refine ⟨c1, c2 + w, hc1, ⟨c2, hc2, rfl⟩, ?_⟩
    have e : dist2 c1 (c2 + w) = d0 * d0 * n.lengthSq + 2 * (d0 * n.dot w) + w.lengthSq := by
      rw [hc]
      simp only [dist2, V3.lengthSq, V3.dot, V3.add_x, V3.add_y, V3.add_z, V3.smul_x, V3.smul_y, V3.smul_z]; ring
    have hdp : 0 ≤ r1 + r2 - d0 := by linarith
    have q := dot_le (u := n) (v := w) zero_le_one hdp (by rw [hn]; linarith) hw.le
    rw [e, hn]
    nlinarith

/-! ### Frames -/

theorem rot_sub (q : Quat K) (a b : V3 K) : q.rot (a - b) = q.rot a - q.rot b := by
  ext <;> simp only [Quat.rot, V3.sub_x, V3.sub_y, V3.sub_z] <;> ring

theorem rot_neg (q : Quat K) (a : V3 K) : q.rot (-a) = -q.rot a := by
  ext <;> simp only [Quat.rot, V3.neg_x, V3.neg_y, V3.neg_z] <;> ring

theorem rot_smul (q : Quat K) (k : K) (a : V3 K) : q.rot (V3.smul k a) = V3.smul k (q.rot a) := by
  ext <;> simp only [Quat.rot, V3.smul_x, V3.smul_y, V3.smul_z] <;> ring

theorem rot_len {q : Quat K} (h : q.lengthSq = 1) (a : V3 K) : (q.rot a).lengthSq = a.lengthSq := by
  have e : ∀ v : V3 K, v.lengthSq = v.dot v := fun v => by simp only [V3.lengthSq, V3.dot]
  rw [e, rot_dot h, ← e]

theorem act_sub (t : Trans K) (a b : V3 K) : t.act a - t.act b = t.ori.rot (a - b) := by
  rw [rot_sub]; simp only [Trans.act]; ext <;> simp

theorem act_add (t : Trans K) (a : V3 K) (k : K) (b : V3 K) : t.act (a + V3.smul k b) = t.act a + V3.smul k (t.ori.rot b) := by
  simp only [Trans.act, rot_linear]; ext <;> simp <;> ring

theorem act_minus (t : Trans K) (a : V3 K) (k : K) (b : V3 K) : t.act (a - V3.smul k b) = t.act a - V3.smul k (t.ori.rot b) := by
  simp only [Trans.act, rot_sub, rot_smul]; ext <;> simp <;> ring

theorem act_dist {t : Trans K} (h : t.ori.lengthSq = 1) (a b : V3 K) : dist2 (t.act a) (t.act b) = dist2 a b := by
  rw [← lengthSq_eq, ← lengthSq_eq, act_sub, rot_len h]

theorem act_at (t : Trans K) (a b : V3 K) (s : K) : at' (t.act a) (t.act b) s = t.act (at' a b s) := by
  rw [← at'_eq, ← at'_eq, act_add, act_sub]

theorem frame_act {t1 t2 : Trans K} (h2 : t2.ori.lengthSq = 1) (x : V3 K) : t2.act ((t2.inverse.mul t1).act x) = t1.act x := by
  rw [trans_mul_act, trans_act_inverse h2]

theorem frame_unit {t1 t2 : Trans K} (h1 : t1.ori.lengthSq = 1) (h2 : t2.ori.lengthSq = 1) : (t2.inverse.mul t1).ori.lengthSq = 1 := by
  rw [trans_mul_eq]; exact unit_mul (unit_inverse h2) h1

theorem frame_back {t1 t2 : Trans K} (h1 : t1.ori.lengthSq = 1) (h2 : t2.ori.lengthSq = 1) (x : V3 K) :
    t1.act ((t2.inverse.mul t1).inverse.act x) = t2.act x := by
  rw [← frame_act h2 ((t2.inverse.mul t1).inverse.act x), trans_act_inverse (frame_unit h1 h2)]

theorem act_zero (t : Trans K) : t.act 0 = t.pos := by
  simp only [Trans.act]; ext <;> simp [Quat.rot]

theorem center_placed {ts tc : Trans K} (hc : tc.ori.lengthSq = 1) (x : V3 K) :
    Center ts x ↔ Placed tc (fun y => y = (tc.inverse.mul ts).pos) x := by
  unfold Center Placed
  have e : tc.act (tc.inverse.mul ts).pos = ts.pos := by rw [← act_zero (tc.inverse.mul ts), frame_act hc, act_zero]
  constructor
  · intro h; exact ⟨_, rfl, by rw [e, h]⟩
  · rintro ⟨y, rfl, h⟩; rw [h, e]

theorem axis_seg {h : K} (hh : 0 < h) (y : V3 K) :
    OnSeg ⟨0, -(h * (1 / 2)), 0⟩ ⟨0, h * (1 / 2), 0⟩ y ↔ ∃ z, -(h / 2) ≤ z ∧ z ≤ h / 2 ∧ y = ⟨0, z, 0⟩ := by
  unfold OnSeg at'
  constructor
  · rintro ⟨s, s0, s1, rfl⟩
    refine ⟨-(h / 2) + s * h, by nlinarith, by nlinarith, ?_⟩
    ext <;> simp; ring
  · rintro ⟨z, z0, z1, rfl⟩
    refine ⟨(z + h / 2) / h, by apply div_nonneg <;> linarith, by rw [div_le_one hh]; linarith, ?_⟩
    ext <;> simp; field_simp; ring

theorem axis_self {t : Trans K} {h : K} (hh : 0 < h) (x : V3 K) :
    Axis t h x ↔ Placed t (OnSeg ⟨0, -(h * (1 / 2)), 0⟩ ⟨0, h * (1 / 2), 0⟩) x := by
  unfold Axis Placed
  constructor
  · rintro ⟨z, z0, z1, rfl⟩; exact ⟨_, (axis_seg hh _).mpr ⟨z, z0, z1, rfl⟩, rfl⟩
  · rintro ⟨y, hy, rfl⟩
    obtain ⟨z, z0, z1, rfl⟩ := (axis_seg hh _).mp hy
    exact ⟨z, z0, z1, rfl⟩

theorem axis_other {t1 t2 : Trans K} (h2 : t2.ori.lengthSq = 1) {h : K} (hh : 0 < h) (x : V3 K) :
    Axis t1 h x ↔ Placed t2 (OnSeg ((t2.inverse.mul t1).act ⟨0, -(h * (1 / 2)), 0⟩) ((t2.inverse.mul t1).act ⟨0, h * (1 / 2), 0⟩)) x := by
  rw [axis_self hh]
  unfold Placed OnSeg
  constructor
  · rintro ⟨y, ⟨s, s0, s1, rfl⟩, rfl⟩
    exact ⟨_, ⟨s, s0, s1, rfl⟩, by rw [act_at, frame_act h2]⟩
  · rintro ⟨y, ⟨s, s0, s1, rfl⟩, rfl⟩
    exact ⟨_, ⟨s, s0, s1, rfl⟩, by rw [act_at, frame_act h2]⟩

theorem meet_frame {t : Trans K} (ht : t.ori.lengthSq = 1) {A1 A2 L1 L2 : V3 K → Prop} {r1 r2 : K} (h1 : 0 < r1) (h2 : 0 < r2)
    (p1 : ∀ x, A1 x ↔ Placed t L1 x) (p2 : ∀ x, A2 x ↔ Placed t L2 x) :
    Meet (Around A1 r1) (Around A2 r2) ↔ ∃ a b, L1 a ∧ L2 b ∧ dist2 a b < (r1 + r2) * (r1 + r2) := by
  rw [around_meet h1 h2]
  constructor
  · rintro ⟨a, b, ha, hb, h⟩
    obtain ⟨a', ha', rfl⟩ := (p1 a).mp ha
    obtain ⟨b', hb', rfl⟩ := (p2 b).mp hb
    exact ⟨a', b', ha', hb', by rwa [act_dist ht] at h⟩
  · rintro ⟨a, b, ha, hb, h⟩
    exact ⟨t.act a, t.act b, (p1 _).mpr ⟨a, ha, rfl⟩, (p2 _).mpr ⟨b, hb, rfl⟩, by rwa [act_dist ht]⟩

/-- `good_of_support` in the frame of `t`. -/
theorem good_frame {t t1 t2 : Trans K} (ht : t.ori.lengthSq = 1) {A1 A2 L1 L2 : V3 K → Prop} (p1 : ∀ x, A1 x ↔ Placed t L1 x)
    (p2 : ∀ x, A2 x ↔ Placed t L2 x) {r1 r2 d0 tol : K} {c1 c2 n : V3 K} (h1 : 0 < r1) (h2 : 0 < r2) (hn : n.lengthSq = 1)
    (hd0 : 0 ≤ d0) (hd : d0 < r1 + r2) (hc1 : L1 c1) (hc2 : L2 c2) (hc : c2 = c1 + V3.smul d0 n) (hs1 : ∀ a, L1 a → n.dot (a - c1) ≤ 0)
    (hs2 : ∀ a, L2 a → 0 ≤ n.dot (a - c2)) {c : Contact K} (e1 : c.normal = t.ori.rot n) (e2 : c.depth = max (r1 + r2 - d0) tol)
    (e3 : t1.act c.p1 = t.act (c1 + V3.smul r1 n)) (e4 : t2.act c.p2 = t.act (c2 - V3.smul r2 n)) : Good tol t1 t2 A1 r1 A2 r2 c := by
  refine good_of_support (c1 := t.act c1) (c2 := t.act c2) h1 h2 (rot_len ht n ▸ hn) hd0 hd ((p1 _).mpr ⟨c1, hc1, rfl⟩) ((p2 _).mpr ⟨c2, hc2, rfl⟩)
    (by rw [hc, act_add]) ?_ ?_ e1 e2 (by rw [e3, act_add]) (by rw [e4, act_minus])
  · intro a ha
    obtain ⟨a', ha', rfl⟩ := (p1 a).mp ha
    rw [act_sub, rot_dot ht]; exact hs1 a' ha'
  · intro a ha
    obtain ⟨a', ha', rfl⟩ := (p2 a).mp ha
    rw [act_sub, rot_dot ht]; exact hs2 a' ha'

/-! ### Closest points support -/

theorem seg_mix {a b x y : V3 K} (hx : OnSeg a b x) (hy : OnSeg a b y) {s : K} (s0 : 0 ≤ s) (s1 : s ≤ 1) : OnSeg a b (at' x y s) := by
  obtain ⟨p, p0, p1, rfl⟩ := hx
  obtain ⟨q, q0, q1, rfl⟩ := hy
  refine ⟨p + s * (q - p), by nlinarith, by nlinarith, ?_⟩
  unfold at'
  ext <;> simp <;> ring

/-- At a point of a convex set closest to `p`, the plane at right angles to the direction of `p` supports the set. -/
theorem closest_supports {L : V3 K → Prop} (conv : ∀ x y s, L x → L y → 0 ≤ s → s ≤ 1 → L (at' x y s)) {c p : V3 K} (hc : L c)
    (hmin : ∀ x, L x → dist2 c p ≤ dist2 x p) {x : V3 K} (hx : L x) : (p - c).dot (x - c) ≤ 0 := by
  by_contra hpos
  rw [not_le] at hpos
  have key : ∀ s, 0 ≤ s → s ≤ 1 → 2 * s * (p - c).dot (x - c) ≤ s * s * (x - c).lengthSq := by
    intro s s0 s1
    have h := hmin _ (conv c x s hc hx s0 s1)
    have e : dist2 (at' c x s) p = dist2 c p - 2 * s * (p - c).dot (x - c) + s * s * (x - c).lengthSq := by
      simp only [dist2, at', V3.lengthSq, V3.dot, V3.sub_x, V3.sub_y, V3.sub_z]; ring
    rw [e] at h; linarith
  have h1 := key 1 zero_le_one le_rfl
  have hl : 0 < (x - c).lengthSq := by linarith
  have h2 := key ((p - c).dot (x - c) / (x - c).lengthSq) (div_nonneg hpos.le hl.le) (by
    rw [div_le_one hl]
    by_contra hgt
    rw [not_le] at hgt
    linarith)
  have e1 : 2 * ((p - c).dot (x - c) / (x - c).lengthSq) * (p - c).dot (x - c) = 2 * ((p - c).dot (x - c) * (p - c).dot (x - c) / (x - c).lengthSq) := by ring
  have e2 : (p - c).dot (x - c) / (x - c).lengthSq * ((p - c).dot (x - c) / (x - c).lengthSq) * (x - c).lengthSq =
      (p - c).dot (x - c) * (p - c).dot (x - c) / (x - c).lengthSq := by field_simp
  rw [e1, e2] at h2
  have : 0 < (p - c).dot (x - c) * (p - c).dot (x - c) / (x - c).lengthSq := div_pos (mul_pos hpos hpos) hl
  linarith

end RoundProps
end RP3D
