import Verif.Math.Geometry
import Mathlib.Algebra.Order.Ring.Rat
import Mathlib.Tactic.Positivity
import Mathlib.Tactic.LinearCombination

/-!
C43, C44, C45: closest points of segments and barycentric coordinates (exact arithmetic).
-/

namespace RP3D
namespace GeomProps
open Geom

variable {K : Type} [Field K] [LinearOrder K] [IsStrictOrderedRing K]

/-! ### Specification -/

/-- The point of the line through `a` and `b` at parameter `t`. -/
def at' (a b : V3 K) (t : K) : V3 K := ⟨a.x + t * (b.x - a.x), a.y + t * (b.y - a.y), a.z + t * (b.z - a.z)⟩

/-- A point of the segment from `a` to `b`. -/
def OnSeg (a b x : V3 K) : Prop := ∃ t, 0 ≤ t ∧ t ≤ 1 ∧ x = at' a b t

/-- The squared distance of two points. -/
def dist2 (p q : V3 K) : K := (p.x - q.x) * (p.x - q.x) + (p.y - q.y) * (p.y - q.y) + (p.z - q.z) * (p.z - q.z)

theorem at'_eq (a b : V3 K) (t : K) : a + V3.smul t (b - a) = at' a b t := by ext <;> simp [at']

theorem lengthSq_eq (p q : V3 K) : (q - p).lengthSq = dist2 p q := by simp only [V3.lengthSq, dist2, V3.sub_x, V3.sub_y, V3.sub_z]; ring

theorem dist2_nonneg (p q : V3 K) : 0 ≤ dist2 p q := by unfold dist2; nlinarith [mul_self_nonneg (p.x - q.x), mul_self_nonneg (p.y - q.y), mul_self_nonneg (p.z - q.z)]

theorem clamp_mem (v : K) : 0 ≤ clamp v 0 1 ∧ clamp v 0 1 ≤ 1 := by
  unfold clamp
  exact ⟨le_min (le_max_right _ _) zero_le_one, min_le_right _ _⟩

/-- A clamped parameter is optimal for the quadratic with slope `l t - k`. -/
theorem clamp_opt {k l : K} (hl : 0 < l) {s : K} (hs0 : 0 ≤ s) (hs1 : s ≤ 1) :
    0 ≤ (s - clamp (k / l) 0 1) * (clamp (k / l) 0 1 * l - k) := by
  unfold clamp
  rcases le_total (k / l) 0 with h | h
  · rw [max_eq_right h, min_eq_left zero_le_one]
    have hk : k ≤ 0 := by rw [div_le_iff₀ hl] at h; simpa using h
    have : (s - 0) * (0 * l - k) = s * (-k) := by ring
    rw [this]
    exact mul_nonneg hs0 (by linarith)
  · rw [max_eq_left h]
    rcases le_total (k / l) 1 with h1 | h1
    · rw [min_eq_left h1]
      have : k / l * l - k = 0 := by field_simp; ring
      rw [this, mul_zero]
    · rw [min_eq_right h1]
      have hk : l ≤ k := by rw [le_div_iff₀ hl] at h1; simpa using h1
      nlinarith

/-- A clamped parameter that is not at the end (of `v`) on one side. -/
theorem clamp_gt {v : K} (h : 0 < clamp v 0 1) : clamp v 0 1 ≤ v := by
  unfold clamp at h ⊢
  rcases le_total v 0 with hv | hv
  · rw [max_eq_right hv, min_eq_left zero_le_one] at h
    exact absurd h (lt_irrefl _)
  · rw [max_eq_left hv]
    exact min_le_left _ _

theorem clamp_lt {v : K} (h : clamp v 0 1 < 1) : v ≤ clamp v 0 1 := by
  unfold clamp at h ⊢
  rcases le_total (max v 0) 1 with hv | hv
  · rw [min_eq_left hv]
    exact le_max_left _ _
  · rw [min_eq_right hv] at h
    exact absurd h (lt_irrefl _)

/-! ### C43 -/

theorem segment_param (a b c : V3 K) (h : 0 < (b - a).lengthSq) :
    (let t := (c - a).dot (b - a) / (b - a).lengthSq
     let t := if t < 0 then 0 else t
     if t > 1 then 1 else t) = clamp ((c - a).dot (b - a) / (b - a).lengthSq) 0 1 := by
  generalize (c - a).dot (b - a) / (b - a).lengthSq = v
  unfold clamp
  dsimp only
  by_cases h0 : v < 0
  · rw [if_pos h0, max_eq_right (le_of_lt h0), min_eq_left zero_le_one, if_neg (by simp)]
  · rw [if_neg h0, max_eq_left (not_lt.1 h0)]
    by_cases h1 : v > 1
    · rw [if_pos h1, min_eq_right (le_of_lt h1)]
    · rw [if_neg h1, min_eq_left (not_lt.1 h1)]

/-- Moving along a segment changes the squared distance by a convex quadratic. -/
theorem dist_move (a b c : V3 K) (s t : K) :
    dist2 (at' a b s) c - dist2 (at' a b t) c =
      (s - t) * (s - t) * (b - a).lengthSq + 2 * ((s - t) * (t * (b - a).lengthSq - (c - a).dot (b - a))) := by
  simp only [dist2, at', V3.lengthSq, V3.dot, V3.sub_x, V3.sub_y, V3.sub_z]
  ring

/-- **C43.** The result is a point of the segment; no point of the segment is nearer to `c`, unless the squared length of the segment is below the machine
epsilon, and then all its points are that close to the result. -/
theorem closest_on_segment (eps : K) (heps : 0 < eps) (a b c : V3 K) :
    OnSeg a b (closestOnSegment eps a b c) ∧
    ((∀ q, OnSeg a b q → dist2 (closestOnSegment eps a b c) c ≤ dist2 q c) ∨
      (dist2 a b < eps ∧ ∀ q, OnSeg a b q → dist2 (closestOnSegment eps a b c) q < eps)) := by
  unfold closestOnSegment
  dsimp only
  by_cases hl : (b - a).lengthSq < eps
  · rw [if_pos hl]
    refine ⟨⟨0, le_refl _, zero_le_one, by ext <;> simp [at']⟩, Or.inr ⟨lengthSq_eq a b ▸ hl, ?_⟩⟩
    rintro q ⟨t, h0, h1, rfl⟩
    have : dist2 a (at' a b t) = t * t * (b - a).lengthSq := by
      simp only [dist2, at', V3.lengthSq, V3.sub_x, V3.sub_y, V3.sub_z]; ring
    rw [this]
    have hn : 0 ≤ (b - a).lengthSq := lengthSq_eq a b ▸ dist2_nonneg a b
    have ht : t * t ≤ 1 := by nlinarith
    exact lt_of_le_of_lt (by nlinarith) hl
  · rw [if_neg hl]
    have hpos : 0 < (b - a).lengthSq := lt_of_lt_of_le heps (not_lt.1 hl)
    have hp := segment_param a b c hpos
    dsimp only at hp
    rw [hp, at'_eq]
    obtain ⟨h0, h1⟩ := clamp_mem ((c - a).dot (b - a) / (b - a).lengthSq)
    refine ⟨⟨_, h0, h1, rfl⟩, Or.inl ?_⟩
    rintro q ⟨s, hs0, hs1, rfl⟩
    have hm := dist_move a b c s (clamp ((c - a).dot (b - a) / (b - a).lengthSq) 0 1)
    have ho := clamp_opt (k := (c - a).dot (b - a)) hpos hs0 hs1
    nlinarith [mul_nonneg (mul_self_nonneg (s - clamp ((c - a).dot (b - a) / (b - a).lengthSq) 0 1)) (le_of_lt hpos)]

example : closestOnSegment (1/1000 : Rat) ⟨0, 0, 0⟩ ⟨2, 0, 0⟩ ⟨1, 5, 0⟩ = ⟨1, 0, 0⟩ := by ext <;> decide +kernel
example : closestOnSegment (1/1000 : Rat) ⟨0, 0, 0⟩ ⟨2, 0, 0⟩ ⟨9, 5, 0⟩ = ⟨2, 0, 0⟩ := by ext <;> decide +kernel

/-! ### C44 -/

/-- The squared distance of two points on two lines, as a quadratic in the parameters. -/
theorem two_move (p1 q1 p2 q2 : V3 K) (s t s' t' : K) :
    dist2 (at' p1 q1 s') (at' p2 q2 t') - dist2 (at' p1 q1 s) (at' p2 q2 t) =
      dist2 (at' 0 (q1 - p1) (s' - s)) (at' 0 (q2 - p2) (t' - t)) +
      2 * ((s' - s) * ((q1 - p1).dot (p1 - p2) + (q1 - p1).lengthSq * s - (q1 - p1).dot (q2 - p2) * t)) +
      2 * ((t' - t) * ((q2 - p2).lengthSq * t - (q1 - p1).dot (q2 - p2) * s - (q2 - p2).dot (p1 - p2))) := by
  simp only [dist2, at', V3.lengthSq, V3.dot, V3.sub_x, V3.sub_y, V3.sub_z, V3.zero_x, V3.zero_y, V3.zero_z]
  ring

/-- The conditions under which parameters are optimal. -/
structure Kkt (a b c e f s t : K) : Prop where
  s0 : 0 ≤ s
  s1 : s ≤ 1
  t0 : 0 ≤ t
  t1 : t ≤ 1
  gs : ∀ s', 0 ≤ s' → s' ≤ 1 → 0 ≤ (s' - s) * (c + a * s - b * t)
  gt : ∀ t', 0 ≤ t' → t' ≤ 1 → 0 ≤ (t' - t) * (e * t - b * s - f)

/-- Clamping the second parameter to 0 is right: the second line is still nearest outside of the segment after the first parameter was computed again. -/
theorem clamp_stays {a b c e f s : K} (ha : 0 < a) (he : 0 < e) (hden : 0 ≤ a * e - b * b) (hpar : a * e - b * b = 0 → c * e = b * f)
    (hside : 0 < a * e - b * b → (s < 1 → b * f - c * e ≤ s * (a * e - b * b)) ∧ (0 < s → s * (a * e - b * b) ≤ b * f - c * e))
    (hs0 : 0 ≤ s) (hs1 : s ≤ 1) (hneg : b * s + f < 0) : b * clamp (-c / a) 0 1 + f ≤ 0 := by
  obtain ⟨h0, h1⟩ := clamp_mem (-c / a)
  by_contra hcon
  have hcon := not_le.1 hcon
  have hup : 0 < clamp (-c / a) 0 1 → a * clamp (-c / a) 0 1 ≤ -c := by
    intro h
    have := clamp_gt h
    rw [le_div_iff₀ ha] at this
    linarith
  have hlo : clamp (-c / a) 0 1 < 1 → -c ≤ a * clamp (-c / a) 0 1 := by
    intro h
    have := clamp_lt h
    rw [div_le_iff₀ ha] at this
    linarith
  generalize clamp (-c / a) 0 1 = s2 at *
  have hb : b ≠ 0 := by rintro rfl; linarith
  rcases lt_or_gt_of_ne hb with hb | hb
  · have hlt : s2 < s := by nlinarith
    have hc := hlo (by linarith)
    have hce : -(c * e) ≤ a * e * s2 := by nlinarith
    rcases lt_or_eq_of_le hden with hd | hd
    · have h2 := (hside hd).2 (lt_of_le_of_lt h0 hlt)
      have h3 : b * (b * s2 + f) < 0 := mul_neg_of_neg_of_pos hb hcon
      have h4 : 0 < (s - s2) * (a * e - b * b) := mul_pos (by linarith) hd
      nlinarith
    · have hp := hpar hd.symm
      have hz : a * e = b * b := by linarith
      rw [hp, hz] at hce
      have h3 : b * (b * s2 + f) < 0 := mul_neg_of_neg_of_pos hb hcon
      nlinarith
  · have hlt : s < s2 := by nlinarith
    have hc := hup (by linarith)
    have hce : a * e * s2 ≤ -(c * e) := by nlinarith
    rcases lt_or_eq_of_le hden with hd | hd
    · have h2 := (hside hd).1 (lt_of_lt_of_le hlt h1)
      have h3 : 0 < b * (b * s2 + f) := mul_pos hb hcon
      have h4 : 0 < (s2 - s) * (a * e - b * b) := mul_pos (by linarith) hd
      nlinarith
    · have hp := hpar hd.symm
      have hz : a * e = b * b := by linarith
      rw [hp, hz] at hce
      have h3 : 0 < b * (b * s2 + f) := mul_pos hb hcon
      nlinarith

theorem closestParams_kkt {a b c e f : K} (ha : 0 < a) (he : 0 < e) (hden : 0 ≤ a * e - b * b)
    (hpar : a * e - b * b = 0 → c * e = b * f) : Kkt a b c e f (closestParams a b c e f).1 (closestParams a b c e f).2 := by
  unfold closestParams
  dsimp only
  -- the first guess on the first segment
  have hs : ∃ s, (if a * e - b * b ≠ 0 then clamp ((b * f - c * e) / (a * e - b * b)) 0 1 else 0) = s ∧ 0 ≤ s ∧ s ≤ 1 ∧
      (∀ s', 0 ≤ s' → s' ≤ 1 → 0 ≤ (s' - s) * (s * (a * e - b * b) - (b * f - c * e))) ∧
      (0 < a * e - b * b → (s < 1 → b * f - c * e ≤ s * (a * e - b * b)) ∧ (0 < s → s * (a * e - b * b) ≤ b * f - c * e)) := by
    by_cases hd : a * e - b * b = 0
    · rw [if_neg (by simpa using hd)]
      refine ⟨0, rfl, le_refl _, zero_le_one, ?_, fun h => absurd hd (ne_of_gt h)⟩
      intro s' _ _
      have : b * f - c * e = 0 := by rw [hpar hd]; ring
      rw [hd, this]; simp
    · rw [if_pos hd]
      have hd' : 0 < a * e - b * b := lt_of_le_of_ne hden (Ne.symm hd)
      obtain ⟨h0, h1⟩ := clamp_mem ((b * f - c * e) / (a * e - b * b))
      refine ⟨_, rfl, h0, h1, fun s' h0' h1' => clamp_opt hd' h0' h1', fun _ => ⟨fun hlt => ?_, fun hgt => ?_⟩⟩
      · have := clamp_lt hlt
        rwa [div_le_iff₀ hd'] at this
      · have := clamp_gt hgt
        rwa [le_div_iff₀ hd'] at this
  obtain ⟨s, hse, hs0, hs1, hopt, hside⟩ := hs
  rw [hse]
  by_cases ht0 : (b * s + f) / e < 0
  · rw [if_pos ht0]
    have hneg : b * s + f < 0 := by rw [div_lt_iff₀ he] at ht0; simpa using ht0
    obtain ⟨h0, h1⟩ := clamp_mem (-c / a)
    refine ⟨h0, h1, le_refl _, zero_le_one, ?_, ?_⟩
    · intro s' h0' h1'
      have := clamp_opt (k := -c) ha h0' h1'
      dsimp only
      nlinarith
    · intro t' h0' h1'
      dsimp only
      have key := clamp_stays ha he hden hpar hside hs0 hs1 hneg
      nlinarith
  · rw [if_neg ht0]
    by_cases ht1 : (b * s + f) / e > 1
    · rw [if_pos ht1]
      have hbig : e < b * s + f := by rw [gt_iff_lt, lt_div_iff₀ he] at ht1; simpa using ht1
      obtain ⟨h0, h1⟩ := clamp_mem ((b - c) / a)
      refine ⟨h0, h1, zero_le_one, le_refl _, ?_, ?_⟩
      · intro s' h0' h1'
        have := clamp_opt (k := b - c) ha h0' h1'
        dsimp only
        nlinarith
      · intro t' h0' h1'
        dsimp only
        have heq : -b * -(f - e) - (c - b) * e = b * f - c * e := by ring
        have hbb : -b * -b = b * b := by ring
        have key := clamp_stays (a := a) (b := -b) (c := c - b) (e := e) (f := -(f - e)) (s := s) ha he (by rw [hbb]; exact hden)
          (by rw [hbb]; intro h; have := hpar h; linear_combination this) (by rw [hbb, heq]; exact hside) hs0 hs1 (by linarith)
        rw [show -(c - b) = b - c by ring] at key
        nlinarith
    · rw [if_neg ht1]
      refine ⟨hs0, hs1, not_lt.1 ht0, not_lt.1 ht1, ?_, ?_⟩
      · intro s' h0' h1'
        have := hopt s' h0' h1'
        dsimp only
        have heq : (s' - s) * (c + a * s - b * ((b * s + f) / e)) = (s' - s) * (s * (a * e - b * b) - (b * f - c * e)) / e := by
          field_simp; ring
        rw [heq]
        exact div_nonneg this (le_of_lt he)
      · intro t' h0' h1'
        dsimp only
        have heq : e * ((b * s + f) / e) - b * s - f = 0 := by field_simp; ring
        rw [heq, mul_zero]

theorem cauchy (u v : V3 K) : 0 ≤ u.lengthSq * v.lengthSq - u.dot v * u.dot v := by
  have : u.lengthSq * v.lengthSq - u.dot v * u.dot v = (u.cross v).lengthSq := by
    simp only [V3.lengthSq, V3.dot, V3.cross]; ring
  rw [this]
  simp only [V3.lengthSq]
  nlinarith [mul_self_nonneg (u.cross v).x, mul_self_nonneg (u.cross v).y, mul_self_nonneg (u.cross v).z]

theorem parallel_eq (u v r : V3 K) (h : u.lengthSq * v.lengthSq - u.dot v * u.dot v = 0) : u.dot r * v.lengthSq = u.dot v * v.dot r := by
  have hc : (u.cross v).lengthSq = 0 := by
    have : u.lengthSq * v.lengthSq - u.dot v * u.dot v = (u.cross v).lengthSq := by
      simp only [V3.lengthSq, V3.dot, V3.cross]; ring
    rw [← this]; exact h
  simp only [V3.lengthSq] at hc
  have hx : (u.cross v).x = 0 := by nlinarith [mul_self_nonneg (u.cross v).x, mul_self_nonneg (u.cross v).y, mul_self_nonneg (u.cross v).z]
  have hy : (u.cross v).y = 0 := by nlinarith [mul_self_nonneg (u.cross v).x, mul_self_nonneg (u.cross v).y, mul_self_nonneg (u.cross v).z]
  have hz : (u.cross v).z = 0 := by nlinarith [mul_self_nonneg (u.cross v).x, mul_self_nonneg (u.cross v).y, mul_self_nonneg (u.cross v).z]
  simp only [V3.cross] at hx hy hz
  simp only [V3.lengthSq, V3.dot]
  linear_combination (r.y * v.z - r.z * v.y) * hx + (r.z * v.x - r.x * v.z) * hy + (r.x * v.y - r.y * v.x) * hz

/-- **C44.** Both results lie on their segments. If the squared lengths of both segments exceed the machine epsilon no two points of the segments are nearer. -/
theorem closest_of_segments (eps : K) (heps : 0 ≤ eps) (p1 q1 p2 q2 : V3 K) (h1 : eps < dist2 p1 q1) (h2 : eps < dist2 p2 q2) :
    OnSeg p1 q1 (closestSegments eps p1 q1 p2 q2).1 ∧ OnSeg p2 q2 (closestSegments eps p1 q1 p2 q2).2 ∧
    ∀ x y, OnSeg p1 q1 x → OnSeg p2 q2 y → dist2 (closestSegments eps p1 q1 p2 q2).1 (closestSegments eps p1 q1 p2 q2).2 ≤ dist2 x y := by
  have ha : eps < (q1 - p1).lengthSq := lengthSq_eq p1 q1 ▸ h1
  have he : eps < (q2 - p2).lengthSq := lengthSq_eq p2 q2 ▸ h2
  unfold closestSegments
  dsimp only
  rw [if_neg (by rintro ⟨h, -⟩; exact absurd ha (not_lt.2 h)), if_neg (not_le.2 ha), if_neg (not_le.2 he)]
  have hk := closestParams_kkt (c := (q1 - p1).dot (p1 - p2)) (f := (q2 - p2).dot (p1 - p2)) (lt_of_le_of_lt heps ha) (lt_of_le_of_lt heps he)
    (cauchy (q1 - p1) (q2 - p2)) (parallel_eq (q1 - p1) (q2 - p2) (p1 - p2))
  generalize closestParams (q1 - p1).lengthSq ((q1 - p1).dot (q2 - p2)) ((q1 - p1).dot (p1 - p2)) (q2 - p2).lengthSq ((q2 - p2).dot (p1 - p2)) = st at *
  rw [at'_eq, at'_eq]
  refine ⟨⟨_, hk.s0, hk.s1, rfl⟩, ⟨_, hk.t0, hk.t1, rfl⟩, ?_⟩
  rintro x y ⟨s', hs0, hs1, rfl⟩ ⟨t', ht0, ht1, rfl⟩
  have hm := two_move p1 q1 p2 q2 st.1 st.2 s' t'
  have hgs := hk.gs s' hs0 hs1
  have hgt := hk.gt t' ht0 ht1
  have hnn := dist2_nonneg (at' 0 (q1 - p1) (s' - st.1)) (at' 0 (q2 - p2) (t' - st.2))
  linarith

/-- **C44** when a segment is nearly a point: its first end is taken, from which no point of the segment is farther than the square root of the machine
epsilon, and the result on the other segment is nearest to it. -/
theorem closest_of_short_segments (eps : K) (heps : 0 ≤ eps) (p1 q1 p2 q2 : V3 K) :
    (dist2 p1 q1 ≤ eps → (closestSegments eps p1 q1 p2 q2).1 = p1 ∧ (∀ x, OnSeg p1 q1 x → dist2 p1 x ≤ eps) ∧
      OnSeg p2 q2 (closestSegments eps p1 q1 p2 q2).2 ∧
      (eps < dist2 p2 q2 → ∀ y, OnSeg p2 q2 y → dist2 p1 (closestSegments eps p1 q1 p2 q2).2 ≤ dist2 p1 y)) ∧
    (dist2 p2 q2 ≤ eps → (closestSegments eps p1 q1 p2 q2).2 = p2 ∧ (∀ y, OnSeg p2 q2 y → dist2 p2 y ≤ eps) ∧
      OnSeg p1 q1 (closestSegments eps p1 q1 p2 q2).1 ∧
      (eps < dist2 p1 q1 → ∀ x, OnSeg p1 q1 x → dist2 (closestSegments eps p1 q1 p2 q2).1 p2 ≤ dist2 x p2)) := by
  have hnear : ∀ p q : V3 K, dist2 p q ≤ eps → ∀ x, OnSeg p q x → dist2 p x ≤ eps := by
    rintro p q h x ⟨t, h0, h1, rfl⟩
    have : dist2 p (at' p q t) = t * t * dist2 p q := by simp only [dist2, at']; ring
    rw [this]
    have ht : t * t ≤ 1 := by nlinarith
    nlinarith [dist2_nonneg p q]
  have hzero : ∀ p q : V3 K, p + V3.smul 0 (q - p) = p := by intro p q; ext <;> simp
  have hself : ∀ p q : V3 K, OnSeg p q p := fun p q => ⟨0, le_refl _, zero_le_one, by ext <;> simp [at']⟩
  have hsymm : ∀ p q : V3 K, dist2 p q = dist2 q p := by intro p q; simp only [dist2]; ring
  constructor
  · intro h
    have ha : (q1 - p1).lengthSq ≤ eps := lengthSq_eq p1 q1 ▸ h
    unfold closestSegments
    dsimp only
    by_cases he : (q2 - p2).lengthSq ≤ eps
    · rw [if_pos ⟨ha, he⟩]
      exact ⟨rfl, hnear p1 q1 h, hself _ _, fun hlt => absurd (lengthSq_eq p2 q2 ▸ he) (not_le.2 hlt)⟩
    · rw [if_neg (fun hh => he hh.2), if_pos ha]
      refine ⟨hzero _ _, hnear p1 q1 h, ?_, ?_⟩
      · rw [at'_eq]
        exact ⟨_, (clamp_mem _).1, (clamp_mem _).2, rfl⟩
      · rintro - y ⟨t', ht0, ht1, rfl⟩
        dsimp only
        rw [at'_eq]
        have hpos : 0 < (q2 - p2).lengthSq := lt_of_le_of_lt heps (not_le.1 he)
        have hf : (q2 - p2).dot (p1 - p2) = (p1 - p2).dot (q2 - p2) := by simp only [V3.dot]; ring
        rw [hf]
        have hm := dist_move p2 q2 p1 t' (clamp ((p1 - p2).dot (q2 - p2) / (q2 - p2).lengthSq) 0 1)
        have ho := clamp_opt (k := (p1 - p2).dot (q2 - p2)) hpos ht0 ht1
        rw [hsymm p1 (at' p2 q2 t'), hsymm p1 (at' p2 q2 (clamp _ 0 1))]
        nlinarith [mul_nonneg (mul_self_nonneg (t' - clamp ((p1 - p2).dot (q2 - p2) / (q2 - p2).lengthSq) 0 1)) (le_of_lt hpos)]
  · intro h
    have he : (q2 - p2).lengthSq ≤ eps := lengthSq_eq p2 q2 ▸ h
    unfold closestSegments
    dsimp only
    by_cases ha : (q1 - p1).lengthSq ≤ eps
    · rw [if_pos ⟨ha, he⟩]
      exact ⟨rfl, hnear p2 q2 h, hself _ _, fun hlt => absurd (lengthSq_eq p1 q1 ▸ ha) (not_le.2 hlt)⟩
    · rw [if_neg (fun hh => ha hh.1), if_neg ha, if_pos he]
      refine ⟨hzero _ _, hnear p2 q2 h, ?_, ?_⟩
      · rw [at'_eq]
        exact ⟨_, (clamp_mem _).1, (clamp_mem _).2, rfl⟩
      · rintro - y ⟨t', ht0, ht1, rfl⟩
        dsimp only
        rw [at'_eq]
        have hpos : 0 < (q1 - p1).lengthSq := lt_of_le_of_lt heps (not_le.1 ha)
        have hf : -(q1 - p1).dot (p1 - p2) = (p2 - p1).dot (q1 - p1) := by simp only [V3.dot, V3.sub_x, V3.sub_y, V3.sub_z]; ring
        rw [hf]
        have hm := dist_move p1 q1 p2 t' (clamp ((p2 - p1).dot (q1 - p1) / (q1 - p1).lengthSq) 0 1)
        have ho := clamp_opt (k := (p2 - p1).dot (q1 - p1)) hpos ht0 ht1
        nlinarith [mul_nonneg (mul_self_nonneg (t' - clamp ((p2 - p1).dot (q1 - p1) / (q1 - p1).lengthSq) 0 1)) (le_of_lt hpos)]

/-- Two crossing segments in parallel planes. -/
example : closestSegments (1/1000 : Rat) ⟨-1, 0, 0⟩ ⟨1, 0, 0⟩ ⟨0, 1, -1⟩ ⟨0, 1, 3⟩ = (⟨0, 0, 0⟩, ⟨0, 1, 0⟩) := by
  refine Prod.ext ?_ ?_ <;> ext <;> decide +kernel
example : (1/1000 : Rat) < dist2 ⟨-1, 0, 0⟩ ⟨1, 0, 0⟩ ∧ (1/1000 : Rat) < dist2 ⟨0, 1, -1⟩ ⟨0, 1, 3⟩ := by decide +kernel
example : dist2 (⟨0, 0, 0⟩ : V3 Rat) ⟨0, 0, 1/100⟩ ≤ 1/1000 := by decide +kernel

/-! ### C45 -/

/-- **C45.** For a triangle that is not degenerate the coordinates are defined and sum to one. The point they give differs from `p` by a vector orthogonal to the
triangle, so that it is the orthogonal projection of `p` to its plane. -/
theorem barycentric_projection (a b c p : V3 K) (hnd : ((b - a).cross (c - a)).lengthSq ≠ 0) :
    ∃ u v w, barycentric a b c p = some (u, v, w) ∧ u + v + w = 1 ∧
      (p - (V3.smul u a + V3.smul v b + V3.smul w c)).dot (b - a) = 0 ∧ (p - (V3.smul u a + V3.smul v b + V3.smul w c)).dot (c - a) = 0 := by
  have hden : (b - a).dot (b - a) * (c - a).dot (c - a) - (b - a).dot (c - a) * (b - a).dot (c - a) = ((b - a).cross (c - a)).lengthSq := by
    simp only [V3.lengthSq, V3.dot, V3.cross]; ring
  have hne : (b - a).dot (b - a) * (c - a).dot (c - a) - (b - a).dot (c - a) * (b - a).dot (c - a) ≠ 0 := by rw [hden]; exact hnd
  unfold barycentric
  dsimp only
  rw [if_neg hne]
  refine ⟨_, _, _, rfl, by ring, ?_, ?_⟩
  · generalize hD : (b - a).dot (b - a) * (c - a).dot (c - a) - (b - a).dot (c - a) * (b - a).dot (c - a) = D at *
    simp only [V3.dot, V3.sub_x, V3.sub_y, V3.sub_z, V3.add_x, V3.add_y, V3.add_z, V3.smul_x, V3.smul_y, V3.smul_z] at *
    field_simp
    rw [← hD]
    ring
  · generalize hD : (b - a).dot (b - a) * (c - a).dot (c - a) - (b - a).dot (c - a) * (b - a).dot (c - a) = D at *
    simp only [V3.dot, V3.sub_x, V3.sub_y, V3.sub_z, V3.add_x, V3.add_y, V3.add_z, V3.smul_x, V3.smul_y, V3.smul_z] at *
    field_simp
    rw [← hD]
    ring

/-- **C45.** Every point of the plane of the triangle is reproduced, and its coordinates are the given ones. -/
theorem barycentric_unique (a b c : V3 K) (hnd : ((b - a).cross (c - a)).lengthSq ≠ 0) (u v w : K) (h : u + v + w = 1) :
    barycentric a b c (V3.smul u a + V3.smul v b + V3.smul w c) = some (u, v, w) := by
  have hden : (b - a).dot (b - a) * (c - a).dot (c - a) - (b - a).dot (c - a) * (b - a).dot (c - a) = ((b - a).cross (c - a)).lengthSq := by
    simp only [V3.lengthSq, V3.dot, V3.cross]; ring
  have hne : (b - a).dot (b - a) * (c - a).dot (c - a) - (b - a).dot (c - a) * (b - a).dot (c - a) ≠ 0 := by rw [hden]; exact hnd
  have hu : u = 1 - v - w := by linear_combination h
  have hp : V3.smul u a + V3.smul v b + V3.smul w c - a = V3.smul v (b - a) + V3.smul w (c - a) := by
    subst hu; ext <;> simp <;> ring
  unfold barycentric
  dsimp only
  rw [if_neg hne, hp]
  generalize b - a = x at *
  generalize c - a = y at *
  have hv : (y.dot y * (V3.smul v x + V3.smul w y).dot x - x.dot y * (V3.smul v x + V3.smul w y).dot y) = v * (x.dot x * y.dot y - x.dot y * x.dot y) := by
    simp only [V3.dot, V3.add_x, V3.add_y, V3.add_z, V3.smul_x, V3.smul_y, V3.smul_z]; ring
  have hw : (x.dot x * (V3.smul v x + V3.smul w y).dot y - x.dot y * (V3.smul v x + V3.smul w y).dot x) = w * (x.dot x * y.dot y - x.dot y * x.dot y) := by
    simp only [V3.dot, V3.add_x, V3.add_y, V3.add_z, V3.smul_x, V3.smul_y, V3.smul_z]; ring
  rw [hv, hw, mul_div_assoc, mul_div_assoc, div_self hne, mul_one, mul_one, hu]

example : barycentric (⟨0, 0, 0⟩ : V3 Rat) ⟨1, 0, 0⟩ ⟨0, 1, 0⟩ ⟨1/4, 1/2, 7⟩ = some (1/4, 1/4, 1/2) := by decide +kernel
example : (((⟨1, 0, 0⟩ : V3 Rat) - ⟨0, 0, 0⟩).cross (⟨0, 1, 0⟩ - ⟨0, 0, 0⟩)).lengthSq ≠ 0 := by decide +kernel

end GeomProps
end RP3D
