import Verif.Props.RoundTests

/-! C89, C90 for two capsules. -/

namespace RP3D
namespace RoundProps
open Ray Shape RayProps PointProps Geom GeomProps Round

set_option linter.unusedSectionVars false
variable {K : Type} [Field K] [LinearOrder K] [IsStrictOrderedRing K]

theorem dist2_comm (a b : V3 K) : dist2 a b = dist2 b a := by simp only [dist2]; ring

theorem dot_smul (k : K) (u v : V3 K) : (V3.smul k u).dot v = k * u.dot v := by
  simp only [V3.dot, V3.smul_x, V3.smul_y, V3.smul_z]; ring

theorem dot_neg (u v : V3 K) : (-u).dot v = -(u.dot v) := by
  simp only [V3.dot, V3.neg_x, V3.neg_y, V3.neg_z]; ring

theorem len_zero {v : V3 K} (h : v.lengthSq ≤ 0) : v = 0 := by
  simp only [V3.lengthSq] at h
  have hx := mul_self_nonneg v.x
  have hy := mul_self_nonneg v.y
  have hz := mul_self_nonneg v.z
  ext
  · exact mul_self_eq_zero.mp (by linarith)
  · exact mul_self_eq_zero.mp (by linarith)
  · exact mul_self_eq_zero.mp (by linarith)

theorem eq_of_sub {a b : V3 K} (h : a - b = 0) : a = b := by
  have hx := congrArg V3.x h
  have hy := congrArg V3.y h
  have hz := congrArg V3.z h
  simp only [V3.sub_x, V3.sub_y, V3.sub_z, V3.zero_x, V3.zero_y, V3.zero_z] at hx hy hz
  ext <;> linarith

/-- A vector at right angles to a segment does not tell its points apart. -/
theorem dot_on_seg {a b n x c : V3 K} (h : n.dot (b - a) = 0) (hx : OnSeg a b x) (hc : OnSeg a b c) : n.dot (x - c) = 0 := by
  obtain ⟨s, _, _, rfl⟩ := hx
  obtain ⟨t, _, _, rfl⟩ := hc
  have e : n.dot (at' a b s - at' a b t) = (s - t) * n.dot (b - a) := by
    simp only [V3.dot, at', V3.sub_x, V3.sub_y, V3.sub_z]; ring
  rw [e, h, mul_zero]

/-! ### The test of the closest points -/

section
variable {N : Num K} {a1 b1 a2 b2 : V3 K}

theorem closest_overlap (hN : Sane N) (l1 : N.eps < dist2 a1 b1) (l2 : N.eps < dist2 a2 b2) (s : K) :
    (∃ a b, OnSeg a1 b1 a ∧ OnSeg a2 b2 b ∧ dist2 a b < s) ↔
      ((closestSegments N.eps a1 b1 a2 b2).2 - (closestSegments N.eps a1 b1 a2 b2).1).lengthSq < s := by
  obtain ⟨c1, c2, c3⟩ := closest_of_segments N.eps hN.pos.le a1 b1 a2 b2 l1 l2
  rw [lengthSq_eq]
  constructor
  · rintro ⟨a, b, ha, hb, h⟩; have := c3 a b ha hb; linarith
  · intro h; exact ⟨_, _, c1, c2, h⟩

theorem closest_contact_iff (hN : Sane N) (l1 : N.eps < dist2 a1 b1) (l2 : N.eps < dist2 a2 b2) (t2 c12 : Trans K) (r1 r2 : K) (report : Bool) :
    (closestContact N t2 c12 r1 r2 a1 b1 a2 b2 report).1 = true ↔ ∃ a b, OnSeg a1 b1 a ∧ OnSeg a2 b2 b ∧ dist2 a b < (r1 + r2) * (r1 + r2) := by
  rw [closest_overlap hN l1 l2]
  unfold closestContact
  dsimp only
  by_cases h : ((closestSegments N.eps a1 b1 a2 b2).2 - (closestSegments N.eps a1 b1 a2 b2).1).lengthSq < (r1 + r2) * (r1 + r2)
  · rw [if_pos h]; simp [h]
  · rw [if_neg h]; simp [h]

/-- The contact at the closest points of two segments that do not meet. -/
theorem closest_contact_good (hN : Sane N) (l1 : N.eps < dist2 a1 b1) (l2 : N.eps < dist2 a2 b2) {t1 t2 : Trans K} (u1 : t1.ori.lengthSq = 1)
    (u2 : t2.ori.lengthSq = 1) {A1 A2 : V3 K → Prop} (p1 : ∀ x, A1 x ↔ Placed t2 (OnSeg a1 b1) x) (p2 : ∀ x, A2 x ↔ Placed t2 (OnSeg a2 b2) x)
    {r1 r2 : K} (h1 : 0 < r1) (h2 : 0 < r2) (hov : ∃ a b, OnSeg a1 b1 a ∧ OnSeg a2 b2 b ∧ dist2 a b < (r1 + r2) * (r1 + r2))
    (hne : ∀ a b, OnSeg a1 b1 a → OnSeg a2 b2 b → N.eps < dist2 a b) :
    ∃ c, (closestContact N t2 (t2.inverse.mul t1) r1 r2 a1 b1 a2 b2 true).2 = [c] ∧ Good N.eps t1 t2 A1 r1 A2 r2 c := by
  have hlt := (closest_overlap hN l1 l2 _).mp hov
  obtain ⟨k1, k2, k3⟩ := closest_of_segments N.eps hN.pos.le a1 b1 a2 b2 l1 l2
  unfold closestContact
  dsimp only
  generalize closestSegments N.eps a1 b1 a2 b2 = q at *
  obtain ⟨c1, c2⟩ := q
  dsimp only at *
  have hne' : N.eps < (c2 - c1).lengthSq := by rw [lengthSq_eq]; exact hne _ _ k1 k2
  have hroot := (sqrt_lt hN (len_nonneg (c2 - c1)) (by linarith : 0 ≤ r1 + r2)).mpr hlt
  have hv0 : 0 < (c2 - c1).lengthSq := lt_trans hN.pos hne'
  obtain ⟨s1, s2⟩ := scaled hN hv0
  have l0 := (sqrt_pos hN.root hv0).1
  rw [if_pos hlt, if_pos rfl, if_pos hne']
  generalize N.sqrt (c2 - c1).lengthSq = l at *
  refine ⟨_, rfl, good_frame u2 p1 p2 (d0 := l) (c1 := c1) (c2 := c2) (n := V3.smul (1 / l) (c2 - c1)) h1 h2 s1 l0.le hroot k1 k2 ?_ ?_ ?_ rfl rfl ?_ rfl⟩
  · rw [s2]; ext <;> simp
  · intro a ha
    have q := closest_supports (L := OnSeg a1 b1) (p := c2) (fun x y s hx hy s0 s1 => seg_mix hx hy s0 s1) k1 (fun x hx => k3 x c2 hx k2) ha
    rw [dot_smul]
    exact mul_nonpos_of_nonneg_of_nonpos (one_div_pos.mpr l0).le q
  · intro a ha
    have q := closest_supports (L := OnSeg a2 b2) (p := c1) (fun x y s hx hy s0 s1 => seg_mix hx hy s0 s1) k2
      (fun x hx => by rw [dist2_comm c2, dist2_comm x]; exact k3 c1 x k1 hx) ha
    rw [dot_smul]
    have e : (c1 - c2).dot (a - c2) = -((c2 - c1).dot (a - c2)) := by
      simp only [V3.dot, V3.sub_x, V3.sub_y, V3.sub_z]; ring
    rw [e] at q
    exact mul_nonneg (one_div_pos.mpr l0).le (by linarith)
  · rw [frame_back u1 u2]

/-- The contact of two segments that cross. -/
theorem crossing_contact_good (hN : Sane N) (hpar : N.eps * N.eps < N.par) (l1 : N.eps < dist2 a1 b1) (l2 : N.eps < dist2 a2 b2) {t1 t2 : Trans K}
    (u1 : t1.ori.lengthSq = 1) (u2 : t2.ori.lengthSq = 1) {A1 A2 : V3 K → Prop} (p1 : ∀ x, A1 x ↔ Placed t2 (OnSeg a1 b1) x)
    (p2 : ∀ x, A2 x ↔ Placed t2 (OnSeg a2 b2) x) {r1 r2 : K} (h1 : 0 < r1) (h2 : 0 < r2) (hnp : ¬ parallel N (b1 - a1) (b2 - a2))
    (hx : ∃ x, OnSeg a1 b1 x ∧ OnSeg a2 b2 x) :
    ∃ c, (closestContact N t2 (t2.inverse.mul t1) r1 r2 a1 b1 a2 b2 true).2 = [c] ∧ Good 0 t1 t2 A1 r1 A2 r2 c := by
  obtain ⟨k1, k2, k3⟩ := closest_of_segments N.eps hN.pos.le a1 b1 a2 b2 l1 l2
  unfold closestContact
  dsimp only
  generalize closestSegments N.eps a1 b1 a2 b2 = q at *
  obtain ⟨c1, c2⟩ := q
  dsimp only at *
  obtain ⟨x, x1, x2⟩ := hx
  have hz := k3 x x x1 x2
  have hxx : dist2 x x = 0 := by simp [dist2]
  rw [hxx, ← lengthSq_eq] at hz
  have hc : c2 - c1 = 0 := len_zero hz
  have hc' : c2 = c1 := eq_of_sub hc
  have hd : (c2 - c1).lengthSq = 0 := by rw [hc]; simp [V3.lengthSq]
  have hs : 0 < r1 + r2 := by linarith
  have hcr : N.eps * N.eps < ((b1 - a1).cross (b2 - a2)).lengthSq := by
    unfold parallel at hnp; rw [not_lt] at hnp; linarith
  have hcr0 : 0 < ((b1 - a1).cross (b2 - a2)).lengthSq := lt_trans (mul_pos hN.pos hN.pos) hcr
  rw [hd, if_pos (mul_pos hs hs), if_pos rfl, if_neg (not_lt.mpr hN.pos.le), if_neg hnp, unit_eq hN hcr]
  have s1 := (scaled hN hcr0).1
  generalize N.sqrt ((b1 - a1).cross (b2 - a2)).lengthSq = l at *
  have o1 : (V3.smul (1 / l) ((b1 - a1).cross (b2 - a2))).dot (b1 - a1) = 0 := by
    rw [dot_smul]; simp only [V3.dot, V3.cross]; ring
  have o2 : (V3.smul (1 / l) ((b1 - a1).cross (b2 - a2))).dot (b2 - a2) = 0 := by
    rw [dot_smul]; simp only [V3.dot, V3.cross]; ring
  refine ⟨_, rfl, good_frame u2 p1 p2 (d0 := 0) (c1 := c1) (c2 := c2) (n := V3.smul (1 / l) ((b1 - a1).cross (b2 - a2))) h1 h2 s1 le_rfl hs k1 k2
    ?_ ?_ ?_ rfl ?_ ?_ rfl⟩
  · rw [hc']; ext <;> simp
  · intro a ha; rw [dot_on_seg o1 ha k1]
  · intro a ha; rw [dot_on_seg o2 ha k2]
  · rw [sub_zero]; exact (max_eq_left hs.le).symm
  · rw [frame_back u1 u2]

/-! ### Parallel segments -/

/-- The vector from the line of segment 1 to segment 2. -/
def across (a1 b1 a2 : V3 K) : V3 K :=
  a2 - a1 - V3.smul ((b1 - a1).dot (a2 - a1) / (b1 - a1).lengthSq) (b1 - a1)

theorem across_dot (h : 0 < (b1 - a1).lengthSq) : (across a1 b1 a2).dot (b1 - a1) = 0 := by
  have e : (across a1 b1 a2).dot (b1 - a1) = (b1 - a1).dot (a2 - a1) - (b1 - a1).dot (a2 - a1) / (b1 - a1).lengthSq * (b1 - a1).lengthSq := by
    unfold across
    simp only [V3.dot, V3.lengthSq, V3.sub_x, V3.sub_y, V3.sub_z, V3.smul_x, V3.smul_y, V3.smul_z]; ring
  rw [e, div_mul_cancel₀ _ (ne_of_gt h), sub_self]

theorem across_len (h : 0 < (b1 - a1).lengthSq) : ((a2 - a1).cross (a2 - b1)).lengthSq = (across a1 b1 a2).lengthSq * (b1 - a1).lengthSq := by
  have hd := across_dot (a2 := a2) h
  have e : ((a2 - a1).cross (a2 - b1)).lengthSq = ((across a1 b1 a2).cross (b1 - a1)).lengthSq := by
    unfold across
    simp only [V3.cross, V3.lengthSq, V3.sub_x, V3.sub_y, V3.sub_z, V3.smul_x, V3.smul_y, V3.smul_z]; ring
  have e2 : ((across a1 b1 a2).cross (b1 - a1)).lengthSq = (across a1 b1 a2).lengthSq * (b1 - a1).lengthSq - (across a1 b1 a2).dot (b1 - a1) * (across a1 b1 a2).dot (b1 - a1) := by
    simp only [V3.lengthSq, V3.dot, V3.cross]; ring
  rw [e, e2, hd]; ring

theorem line_distance (hN : Sane N) (h : N.eps < (b1 - a1).lengthSq) :
    0 ≤ lineDistance N a1 b1 a2 ∧ lineDistance N a1 b1 a2 * lineDistance N a1 b1 a2 = (across a1 b1 a2).lengthSq := by
  have h0 : 0 < (b1 - a1).lengthSq := lt_trans hN.pos h
  obtain ⟨l0, l1⟩ := sqrt_pos hN.root h0
  have hl : ¬ N.sqrt (b1 - a1).lengthSq < N.eps := fun hl => by nlinarith [hN.pos, hN.le]
  unfold lineDistance
  dsimp only
  rw [if_neg hl]
  obtain ⟨m0, m1⟩ := hN.root _ (len_nonneg ((a2 - a1).cross (a2 - b1)))
  refine ⟨div_nonneg m0 l0.le, ?_⟩
  rw [div_mul_div_comm, m1, l1, across_len h0, mul_div_assoc, div_self (ne_of_gt h0), mul_one]

/-- Exactly parallel segments. -/
def Par (a1 b1 a2 b2 : V3 K) : Prop := (b1 - a1).cross (b2 - a2) = 0

/-- The direction of segment 2 is a multiple of that of segment 1. -/
theorem par_smul (h : 0 < (b1 - a1).lengthSq) (hp : Par a1 b1 a2 b2) :
    b2 - a2 = V3.smul ((b1 - a1).dot (b2 - a2) / (b1 - a1).lengthSq) (b1 - a1) := by
  unfold Par at hp
  generalize b1 - a1 = u at *
  generalize b2 - a2 = w at *
  have hx := congrArg V3.x hp
  have hy := congrArg V3.y hp
  have hz := congrArg V3.z hp
  simp only [V3.cross, V3.zero_x, V3.zero_y, V3.zero_z] at hx hy hz
  have hne : u.x * u.x + u.y * u.y + u.z * u.z ≠ 0 := ne_of_gt h
  ext
  · simp only [V3.smul_x, V3.dot, V3.lengthSq]
    rw [div_mul_eq_mul_div, eq_div_iff hne]
    linear_combination u.y * (-hz) + u.z * hy
  · simp only [V3.smul_y, V3.dot, V3.lengthSq]
    rw [div_mul_eq_mul_div, eq_div_iff hne]
    linear_combination u.x * hz - u.z * hx
  · simp only [V3.smul_z, V3.dot, V3.lengthSq]
    rw [div_mul_eq_mul_div, eq_div_iff hne]
    linear_combination u.y * hx - u.x * hy

/-- Position of segment 2 along segment 1: the coordinate of its first end, and the change of the coordinate along it. -/
def start (a1 b1 a2 : V3 K) : K := (b1 - a1).dot (a2 - a1) / (b1 - a1).lengthSq
def slope (a1 b1 a2 b2 : V3 K) : K := (b1 - a1).dot (b2 - a2) / (b1 - a1).lengthSq

theorem par_point (h : 0 < (b1 - a1).lengthSq) (hp : Par a1 b1 a2 b2) (s : K) :
    at' a2 b2 s - across a1 b1 a2 = at' a1 b1 (start a1 b1 a2 + s * slope a1 b1 a2 b2) := by
  have e := par_smul h hp
  have e1 : at' a2 b2 s = a2 + V3.smul s (b2 - a2) := (at'_eq _ _ _).symm
  rw [e1, e]
  unfold across start slope at'
  ext <;> simp <;> ring

/-- The lines of the segments are at a constant distance. -/
theorem par_dist (h : 0 < (b1 - a1).lengthSq) (hp : Par a1 b1 a2 b2) {a b : V3 K} (ha : OnSeg a1 b1 a) (hb : OnSeg a2 b2 b) :
    (across a1 b1 a2).lengthSq ≤ dist2 a b := by
  obtain ⟨s, _, _, rfl⟩ := ha
  obtain ⟨t, _, _, rfl⟩ := hb
  have e := par_point h hp t
  have e2 : at' a2 b2 t = at' a1 b1 (start a1 b1 a2 + t * slope a1 b1 a2 b2) + across a1 b1 a2 := by rw [← e]; ext <;> simp
  have hd := across_dot (a2 := a2) h
  have e3 : dist2 (at' a1 b1 s) (at' a2 b2 t) = (across a1 b1 a2).lengthSq +
      2 * ((start a1 b1 a2 + t * slope a1 b1 a2 b2 - s) * (across a1 b1 a2).dot (b1 - a1)) +
      (start a1 b1 a2 + t * slope a1 b1 a2 b2 - s) * (start a1 b1 a2 + t * slope a1 b1 a2 b2 - s) * (b1 - a1).lengthSq := by
    rw [e2]
    generalize across a1 b1 a2 = v
    simp only [dist2, at', V3.lengthSq, V3.dot, V3.sub_x, V3.sub_y, V3.sub_z, V3.add_x, V3.add_y, V3.add_z]; ring
  rw [e3, hd]
  nlinarith [mul_nonneg (mul_self_nonneg (start a1 b1 a2 + t * slope a1 b1 a2 b2 - s)) h.le]

theorem clip_params (h : 0 < (b1 - a1).lengthSq) (plane : K)
    (q1 : 0 < planeSegment plane b2 a2 ((b1 - a1).dot a1) (b1 - a1)) (q2 : 0 < planeSegment plane a2 b2 (-((b1 - a1).dot b1)) (-(b1 - a1))) :
    slope a1 b1 a2 b2 ≠ 0 ∧
    planeSegment plane b2 a2 ((b1 - a1).dot a1) (b1 - a1) = (start a1 b1 a2 + slope a1 b1 a2 b2) / slope a1 b1 a2 b2 ∧
    planeSegment plane a2 b2 (-((b1 - a1).dot b1)) (-(b1 - a1)) = (1 - start a1 b1 a2) / slope a1 b1 a2 b2 := by
  have hL := ne_of_gt h
  unfold planeSegment at q1 q2 ⊢
  dsimp only at q1 q2 ⊢
  by_cases c1 : |(b1 - a1).dot (a2 - b2)| > plane
  swap
  · rw [if_neg c1] at q1; linarith
  by_cases c2 : |(-(b1 - a1)).dot (b2 - a2)| > plane
  swap
  · rw [if_neg c2] at q2; linarith
  rw [if_pos c1] at q1 ⊢
  rw [if_pos c2] at q2 ⊢
  have d1 : (b1 - a1).dot (a2 - b2) = -(slope a1 b1 a2 b2 * (b1 - a1).lengthSq) := by
    unfold slope; rw [div_mul_cancel₀ _ hL]
    simp only [V3.dot, V3.sub_x, V3.sub_y, V3.sub_z]; ring
  have d2 : (-(b1 - a1)).dot (b2 - a2) = -(slope a1 b1 a2 b2 * (b1 - a1).lengthSq) := by
    unfold slope; rw [div_mul_cancel₀ _ hL, dot_neg]
  have n1 : (b1 - a1).dot a1 - (b1 - a1).dot b2 = -((start a1 b1 a2 + slope a1 b1 a2 b2) * (b1 - a1).lengthSq) := by
    unfold start slope; rw [add_mul, div_mul_cancel₀ _ hL, div_mul_cancel₀ _ hL]
    simp only [V3.dot, V3.sub_x, V3.sub_y, V3.sub_z]; ring
  have n2 : -((b1 - a1).dot b1) - (-(b1 - a1)).dot a2 = -((1 - start a1 b1 a2) * (b1 - a1).lengthSq) := by
    unfold start; rw [sub_mul, div_mul_cancel₀ _ hL, one_mul, dot_neg]
    simp only [V3.dot, V3.lengthSq, V3.sub_x, V3.sub_y, V3.sub_z]; ring
  rw [n1, d1, neg_div_neg_eq, mul_div_mul_right _ _ hL] at q1
  refine ⟨fun hz => by rw [hz, div_zero] at q1; exact lt_irrefl _ q1, ?_, ?_⟩
  · rw [n1, d1, neg_div_neg_eq, mul_div_mul_right _ _ hL]
  · rw [n2, d2, neg_div_neg_eq, mul_div_mul_right _ _ hL]

/-- The clipped points of segment 2 lie on it, and their feet lie on segment 1. -/
theorem clip_points (h : 0 < (b1 - a1).lengthSq) (hp : Par a1 b1 a2 b2) {p1 p2 : K} (hk : slope a1 b1 a2 b2 ≠ 0)
    (e1 : p1 = (start a1 b1 a2 + slope a1 b1 a2 b2) / slope a1 b1 a2 b2) (e2 : p2 = (1 - start a1 b1 a2) / slope a1 b1 a2 b2)
    (q1 : 0 < p1) (q2 : 0 < p2) :
    (OnSeg a2 b2 (b2 - V3.smul (if 1 < p1 then 1 else p1) (b2 - a2)) ∧
      OnSeg a1 b1 (b2 - V3.smul (if 1 < p1 then 1 else p1) (b2 - a2) - across a1 b1 a2)) ∧
    (OnSeg a2 b2 (a2 + V3.smul (if 1 < p2 then 1 else p2) (b2 - a2)) ∧
      OnSeg a1 b1 (a2 + V3.smul (if 1 < p2 then 1 else p2) (b2 - a2) - across a1 b1 a2)) := by
  have f1 : ∀ m : K, b2 - V3.smul m (b2 - a2) = at' a2 b2 (1 - m) := fun m => by unfold at'; ext <;> simp <;> ring
  have f2 : ∀ m : K, a2 + V3.smul m (b2 - a2) = at' a2 b2 m := fun m => at'_eq _ _ _
  have g1 : p1 * slope a1 b1 a2 b2 = start a1 b1 a2 + slope a1 b1 a2 b2 := by rw [e1, div_mul_cancel₀ _ hk]
  have g2 : p2 * slope a1 b1 a2 b2 = 1 - start a1 b1 a2 := by rw [e2, div_mul_cancel₀ _ hk]
  rw [f1, f2, par_point h hp, par_point h hp]
  generalize slope a1 b1 a2 b2 = k at *
  generalize start a1 b1 a2 = al at *
  rcases lt_or_gt_of_ne hk with kneg | kpos
  · have x1 : al + k < 0 := by nlinarith
    have x2 : 1 < al := by nlinarith
    have y1 : ¬ 1 < p1 := fun hh => by nlinarith
    have y2 : ¬ 1 < p2 := fun hh => by nlinarith
    rw [if_neg y1, if_neg y2]
    rw [not_lt] at y1 y2
    exact ⟨⟨⟨1 - p1, by linarith, by linarith, rfl⟩, ⟨_, by nlinarith, by nlinarith, rfl⟩⟩, ⟨p2, by linarith, by linarith, rfl⟩, ⟨_, by nlinarith, by nlinarith, rfl⟩⟩
  · have x1 : 0 < al + k := by nlinarith
    have x2 : al < 1 := by nlinarith
    constructor
    · by_cases y : 1 < p1
      · rw [if_pos y]
        have : 0 < al := by nlinarith
        exact ⟨⟨1 - 1, by linarith, by linarith, rfl⟩, ⟨_, by nlinarith, by nlinarith, rfl⟩⟩
      · rw [if_neg y]
        rw [not_lt] at y
        exact ⟨⟨1 - p1, by linarith, by linarith, rfl⟩, ⟨_, by nlinarith, by nlinarith, rfl⟩⟩
    · by_cases y : 1 < p2
      · rw [if_pos y]
        have : al + k < 1 := by nlinarith
        exact ⟨⟨1, by linarith, by linarith, rfl⟩, ⟨_, by nlinarith, by nlinarith, rfl⟩⟩
      · rw [if_neg y]
        rw [not_lt] at y
        exact ⟨⟨p2, by linarith, by linarith, rfl⟩, ⟨_, by nlinarith, by nlinarith, rfl⟩⟩

theorem foot_eq (hN : Sane N) (h : N.eps < (b1 - a1).lengthSq) :
    a2 - (a1 + V3.smul ((unit N.eps N.sqrt (b1 - a1)).dot (a2 - a1)) (unit N.eps N.sqrt (b1 - a1))) = across a1 b1 a2 := by
  have h0 : 0 < (b1 - a1).lengthSq := lt_trans hN.pos h
  obtain ⟨l0, l1⟩ := sqrt_pos hN.root h0
  rw [unit_eq hN (sq_lt hN h), dot_smul]
  unfold across
  have hk : 1 / N.sqrt (b1 - a1).lengthSq * (b1 - a1).dot (a2 - a1) * (1 / N.sqrt (b1 - a1).lengthSq) = (b1 - a1).dot (a2 - a1) / (b1 - a1).lengthSq := by
    conv_rhs => rw [← l1]
    have := ne_of_gt l0
    field_simp
  rw [← hk]
  ext <;> simp <;> ring

theorem any_normal (hN : Sane N) (h : N.eps < (b2 - a2).lengthSq) (hy : b2 - a2 = ⟨0, (b2 - a2).y, 0⟩) :
    (anyNormal N (b2 - a2)).lengthSq = 1 ∧ (anyNormal N (b2 - a2)).dot (b2 - a2) = 0 := by
  obtain ⟨w1, w2⟩ := unit_spec hN.root hN.pos (sq_lt hN h)
  have ue := unit_eq hN (sq_lt hN h)
  unfold anyNormal
  dsimp only
  generalize unit N.eps N.sqrt (b2 - a2) = u at *
  have ux : u.x = 0 := by rw [ue, hy]; simp
  have uz : u.z = 0 := by rw [ue, hy]; simp
  have uy : u.y * u.y = 1 := by simp only [V3.lengthSq, ux, uz] at w2; linarith
  have : |u.x| < |u.y| := by
    rw [ux, abs_zero, abs_pos]; intro h0; rw [h0] at uy; simp at uy
  rw [if_pos this, hy]
  constructor
  · simp only [V3.lengthSq, V3.cross, ux, uz]; linarith
  · simp only [V3.dot, V3.cross, ux, uz]; ring

/-- Contacts of parallel capsules side by side. -/
theorem parallel_contacts_good (hN : Sane N) (l1 : N.eps < dist2 a1 b1) (l2 : N.eps < dist2 a2 b2) (hy : b2 - a2 = ⟨0, (b2 - a2).y, 0⟩)
    {t1 t2 : Trans K} (u1 : t1.ori.lengthSq = 1)
    (u2 : t2.ori.lengthSq = 1) {A1 A2 : V3 K → Prop} (p1 : ∀ x, A1 x ↔ Placed t2 (OnSeg a1 b1) x) (p2 : ∀ x, A2 x ↔ Placed t2 (OnSeg a2 b2) x)
    {r1 r2 : K} (h1 : 0 < r1) (h2 : 0 < r2) (hp : Par a1 b1 a2 b2) (hd : lineDistance N a1 b1 a2 < r1 + r2)
    (hne : N.eps < lineDistance N a1 b1 a2 ∨ lineDistance N a1 b1 a2 = 0)
    (q1 : 0 < planeSegment N.plane b2 a2 ((b1 - a1).dot a1) (b1 - a1)) (q2 : 0 < planeSegment N.plane a2 b2 (-((b1 - a1).dot b1)) (-(b1 - a1))) :
    ∀ c ∈ parallelContacts N t2 (t2.inverse.mul t1) r1 r2 a1 b1 a2 b2 (lineDistance N a1 b1 a2) (planeSegment N.plane b2 a2 ((b1 - a1).dot a1) (b1 - a1))
      (planeSegment N.plane a2 b2 (-((b1 - a1).dot b1)) (-(b1 - a1))), Good 0 t1 t2 A1 r1 A2 r2 c := by
  rw [← lengthSq_eq] at l1 l2
  have h0 : 0 < (b1 - a1).lengthSq := lt_trans hN.pos l1
  obtain ⟨k, e1, e2⟩ := clip_params h0 N.plane q1 q2
  obtain ⟨⟨cA, fA⟩, cB, fB⟩ := clip_points h0 hp k e1 e2 q1 q2
  obtain ⟨d0, d1⟩ := line_distance (a2 := a2) hN l1
  have had := across_dot (a2 := a2) h0
  unfold parallelContacts
  dsimp only
  rw [foot_eq hN l1]
  have key : ∃ n : V3 K, n.lengthSq = 1 ∧ n.dot (b1 - a1) = 0 ∧ across a1 b1 a2 = V3.smul (lineDistance N a1 b1 a2) n ∧
      (if N.eps < lineDistance N a1 b1 a2 then across a1 b1 a2 else 0) = across a1 b1 a2 ∧
      (if N.eps < lineDistance N a1 b1 a2 then unit N.eps N.sqrt (across a1 b1 a2) else anyNormal N (b2 - a2)) = n := by
    rcases hne with hne | hne
    · have hl2 : N.eps * N.eps < (across a1 b1 a2).lengthSq := by rw [← d1]; nlinarith [hN.pos]
      have hl0 : 0 < (across a1 b1 a2).lengthSq := lt_trans (mul_pos hN.pos hN.pos) hl2
      have hrt : N.sqrt (across a1 b1 a2).lengthSq = lineDistance N a1 b1 a2 := by
        obtain ⟨m0, m1⟩ := hN.root _ hl0.le
        exact (mul_self_inj m0 d0).mp (by rw [m1, d1])
      obtain ⟨w1, w2⟩ := scaled hN hl0
      refine ⟨V3.smul (1 / N.sqrt (across a1 b1 a2).lengthSq) (across a1 b1 a2), w1, ?_, ?_, by rw [if_pos hne], by rw [if_pos hne, unit_eq hN hl2]⟩
      · rw [dot_smul, had, mul_zero]
      · rw [← hrt, w2]
    · have hz : across a1 b1 a2 = 0 := len_zero (by rw [← d1, hne, zero_mul])
      obtain ⟨w1, w2⟩ := any_normal hN l2 hy
      have hnp : ¬ N.eps < lineDistance N a1 b1 a2 := by rw [hne]; exact not_lt.mpr hN.pos.le
      refine ⟨anyNormal N (b2 - a2), w1, ?_, by rw [hz, hne]; ext <;> simp, by rw [if_neg hnp, hz], by rw [if_neg hnp]⟩
      have aux : ∀ m : V3 K, m.dot (b2 - a2) = slope a1 b1 a2 b2 * m.dot (b1 - a1) := fun m => by
        conv_lhs => rw [par_smul h0 hp]
        unfold slope
        simp only [V3.dot, V3.smul_x, V3.smul_y, V3.smul_z]; ring
      have e' := aux (anyNormal N (b2 - a2))
      rw [w2] at e'
      exact (mul_eq_zero.mp e'.symm).resolve_left k
  obtain ⟨n, n1, n2, n3, n4, n5⟩ := key
  have n6 : n.dot (b2 - a2) = 0 := by
    have e : n.dot (b2 - a2) = (b1 - a1).dot (b2 - a2) / (b1 - a1).lengthSq * n.dot (b1 - a1) := by
      conv_lhs => rw [par_smul h0 hp]
      simp only [V3.dot, V3.smul_x, V3.smul_y, V3.smul_z]; ring
    rw [e, n2, mul_zero]
  rw [n4, n5]
  generalize b2 - V3.smul (if 1 < planeSegment N.plane b2 a2 ((b1 - a1).dot a1) (b1 - a1) then 1 else planeSegment N.plane b2 a2 ((b1 - a1).dot a1) (b1 - a1)) (b2 - a2) = pA at *
  generalize a2 + V3.smul (if 1 < planeSegment N.plane a2 b2 (-((b1 - a1).dot b1)) (-(b1 - a1)) then 1 else planeSegment N.plane a2 b2 (-((b1 - a1).dot b1)) (-(b1 - a1))) (b2 - a2) = pB at *
  have main : ∀ p, OnSeg a2 b2 p → OnSeg a1 b1 (p - across a1 b1 a2) →
      Good 0 t1 t2 A1 r1 A2 r2 ⟨t2.ori.rot n, r1 + r2 - lineDistance N a1 b1 a2, (t2.inverse.mul t1).inverse.act (p - across a1 b1 a2 + V3.smul r1 n), p - V3.smul r2 n⟩ := by
    intro p hp2 hp1
    refine good_frame u2 p1 p2 (d0 := lineDistance N a1 b1 a2) (c1 := p - across a1 b1 a2) (c2 := p) (n := n) h1 h2 n1 d0 hd hp1 hp2 ?_ ?_ ?_ rfl ?_ ?_ rfl
    · rw [← n3]; ext <;> simp
    · intro a ha; rw [dot_on_seg n2 ha hp1]
    · intro a ha; rw [dot_on_seg n6 ha hp2]
    · exact (max_eq_left (by linarith)).symm
    · rw [frame_back u1 u2]
  intro c hc
  rw [List.mem_cons, List.mem_singleton] at hc
  rcases hc with rfl | rfl
  · exact main _ cA fA
  · exact main _ cB fB

end

end RoundProps
end RP3D
