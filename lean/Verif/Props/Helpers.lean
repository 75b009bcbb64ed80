import Verif.Math.Helpers
import Verif.Props.Vector

/-! C159: the measuring functions of the mathematics library measure what their names say. -/

namespace RP3D
namespace Helpers
open RP3D.Vector Geom

/-! ### Specification -/

/-- The distance of two points. -/
noncomputable def dist (p q : V3 ℝ) : ℝ := Real.sqrt ((p.x - q.x) * (p.x - q.x) + (p.y - q.y) * (p.y - q.y) + (p.z - q.z) * (p.z - q.z))

/-- `q` is a point of `S`, none is closer to `p`. -/
def Nearest (S : V3 ℝ → Prop) (p q : V3 ℝ) : Prop := S q ∧ ∀ r, S r → dist p q ≤ dist p r

/-- The line through `a` and `b`; the ball around the origin; the plane through `o` with normal `n`. -/
def Line (a b x : V3 ℝ) : Prop := ∃ t : ℝ, x = ⟨a.x + t * (b.x - a.x), a.y + t * (b.y - a.y), a.z + t * (b.z - a.z)⟩
def Ball (m : ℝ) (x : V3 ℝ) : Prop := dist x 0 ≤ m
def Plane (n o x : V3 ℝ) : Prop := n.dot (x - o) = 0

/-! ### Numbers -/

/-- The clamped value is the value of the interval next to the given one. -/
theorem clamp_nearest {lo hi : ℝ} (h : lo ≤ hi) (v : ℝ) : ∃ r, clamp v lo hi = some r ∧ lo ≤ r ∧ r ≤ hi ∧ ∀ x, lo ≤ x → x ≤ hi → |v - r| ≤ |v - x| := by
  refine ⟨_, if_pos h, ?_, min_le_right _ _, ?_⟩
  · exact le_min (le_max_right _ _) h
  · intro x h1 h2
    unfold Geom.clamp
    rcases le_total v lo with a | a
    · rw [max_eq_right a, min_eq_left h, abs_of_nonpos (by linarith), abs_of_nonpos (by linarith)]; linarith
    · rw [max_eq_left a]
      rcases le_total v hi with b | b
      · rw [min_eq_left b, sub_self, abs_zero]; exact abs_nonneg _
      · rw [min_eq_right b, abs_of_nonneg (by linarith), abs_of_nonneg (by linarith)]; linarith

theorem clamp_wrong_order {lo hi : ℝ} (h : hi < lo) (v : ℝ) : clamp v lo hi = none := if_neg (not_le.2 h)

/-- Two numbers have the same sign unless one is negative and one positive. -/
theorem same_sign (a b : ℝ) : sameSign a b ↔ ¬ ((a < 0 ∧ 0 < b) ∨ (b < 0 ∧ 0 < a)) := by
  unfold sameSign
  rw [ge_iff_le, ← not_lt, not_iff_not, mul_neg_iff]
  tauto

/-! ### Distances -/

theorem dist_eq (p q : V3 ℝ) : dist p q = length (p - q) := rfl

theorem length_sq (v : V3 ℝ) : length v * length v = v.lengthSq := Real.mul_self_sqrt (by simp only [← pow_two]; positivity)

theorem length_nonneg (v : V3 ℝ) : 0 ≤ length v := Real.sqrt_nonneg _

theorem length_le {v w : V3 ℝ} (h : v.lengthSq ≤ w.lengthSq) : length v ≤ length w := Real.sqrt_le_sqrt h

theorem lagrange (a b p : V3 ℝ) (t : ℝ) : ((p - a).cross (p - b)).lengthSq =
    (p - ⟨a.x + t * (b.x - a.x), a.y + t * (b.y - a.y), a.z + t * (b.z - a.z)⟩).lengthSq *
      ((b.x - a.x) * (b.x - a.x) + (b.y - a.y) * (b.y - a.y) + (b.z - a.z) * (b.z - a.z)) -
    ((p.x - (a.x + t * (b.x - a.x))) * (b.x - a.x) + (p.y - (a.y + t * (b.y - a.y))) * (b.y - a.y) + (p.z - (a.z + t * (b.z - a.z))) * (b.z - a.z)) *
    ((p.x - (a.x + t * (b.x - a.x))) * (b.x - a.x) + (p.y - (a.y + t * (b.y - a.y))) * (b.y - a.y) + (p.z - (a.z + t * (b.z - a.z))) * (b.z - a.z)) := by
  simp only [V3.lengthSq, V3.cross, V3.sub_x, V3.sub_y, V3.sub_z]
  ring

/-- **C159.** The distance from a line is the distance from its nearest point. -/
theorem line_distance_partial {eps : ℝ} (he : 0 < eps) {a b : V3 ℝ} (h : eps ≤ length (b - a)) (p : V3 ℝ) :
    ∃ q, Nearest (Line a b) p q ∧ lineDistance eps a b p = dist p q := by
  have hl : 0 < length (b - a) := he.trans_le h
  have e : lineDistance eps a b p = length ((p - a).cross (p - b)) / length (b - a) := if_neg (not_lt.2 h)
  have hd := length_sq (b - a)
  obtain ⟨L, hL⟩ : ∃ L, L = length (b - a) := ⟨_, rfl⟩
  rw [← hL] at e hd hl
  have hd : L * L = (b.x - a.x) * (b.x - a.x) + (b.y - a.y) * (b.y - a.y) + (b.z - a.z) * (b.z - a.z) := hd
  have sq : ∀ x, Line a b x → lineDistance eps a b p ≤ dist p x := by
    rintro x ⟨t, rfl⟩
    rw [e, div_le_iff₀ hl, dist_eq]
    have k : (length ((p - a).cross (p - b))) * (length ((p - a).cross (p - b))) ≤
        (length (p - ⟨a.x + t * (b.x - a.x), a.y + t * (b.y - a.y), a.z + t * (b.z - a.z)⟩) * L) *
        (length (p - ⟨a.x + t * (b.x - a.x), a.y + t * (b.y - a.y), a.z + t * (b.z - a.z)⟩) * L) := by
      rw [mul_mul_mul_comm, length_sq, length_sq, hd, lagrange a b p t]
      exact sub_le_self _ (mul_self_nonneg _)
    exact abs_le_of_sq_le_sq' (by simpa only [pow_two] using k) (mul_nonneg (length_nonneg _) hl.le) |>.2
  have foot : ∃ q, Line a b q ∧ dist p q ≤ lineDistance eps a b p := by
    obtain ⟨t, ht⟩ : ∃ t, t * (L * L) = (p.x - a.x) * (b.x - a.x) + (p.y - a.y) * (b.y - a.y) + (p.z - a.z) * (b.z - a.z) :=
      ⟨_, div_mul_cancel₀ _ (mul_pos hl hl).ne'⟩
    refine ⟨_, ⟨t, rfl⟩, ?_⟩
    rw [e, le_div_iff₀ hl, dist_eq]
    have k : (length (p - ⟨a.x + t * (b.x - a.x), a.y + t * (b.y - a.y), a.z + t * (b.z - a.z)⟩) * L) *
        (length (p - ⟨a.x + t * (b.x - a.x), a.y + t * (b.y - a.y), a.z + t * (b.z - a.z)⟩) * L) ≤
        (length ((p - a).cross (p - b))) * (length ((p - a).cross (p - b))) := by
      rw [mul_mul_mul_comm, length_sq, length_sq]
      have z : (p.x - (a.x + t * (b.x - a.x))) * (b.x - a.x) + (p.y - (a.y + t * (b.y - a.y))) * (b.y - a.y) + (p.z - (a.z + t * (b.z - a.z))) * (b.z - a.z) = 0 := by
        linear_combination -ht + t * hd
      rw [hd, lagrange a b p t, z, mul_zero, sub_zero]
    exact abs_le_of_sq_le_sq' (by simpa only [pow_two] using k) (length_nonneg _) |>.2
  obtain ⟨q, h1, h2⟩ := foot
  have h3 := le_antisymm (sq q h1) h2
  exact ⟨q, ⟨h1, fun r hr => h3 ▸ sq r hr⟩, h3⟩

/-- If the two points are closer than the tolerance the distance from the first of them is given: it is not zero for other points of the line. -/
theorem short_line_wrong {eps : ℝ} (he : 0 < eps) :
    Line 0 ⟨eps / 2, 0, 0⟩ ⟨1, 0, 0⟩ ∧ (0 : V3 ℝ) ≠ ⟨eps / 2, 0, 0⟩ ∧ lineDistance eps 0 ⟨eps / 2, 0, 0⟩ ⟨1, 0, 0⟩ = 1 := by
  refine ⟨⟨2 / eps, ?_⟩, ?_, ?_⟩
  · ext <;> simp
    field_simp
  · intro h
    have := congrArg V3.x h
    simp only [V3.zero_x] at this
    linarith
  · have l : length ((⟨eps / 2, 0, 0⟩ : V3 ℝ) - 0) = eps / 2 := by
      simp only [length, V3.sub_x, V3.sub_y, V3.sub_z, V3.zero_x, V3.zero_y, V3.zero_z, sub_zero, mul_zero, add_zero]
      exact Real.sqrt_mul_self (by positivity)
    unfold lineDistance
    rw [if_pos (by rw [l]; linarith)]
    simp [length]

/-! ### Vectors of bounded length -/

theorem dot_le (v w : V3 ℝ) : v.dot w ≤ length v * length w := by
  refine (abs_le_of_sq_le_sq' ?_ (mul_nonneg (length_nonneg v) (length_nonneg w))).2
  rw [mul_pow, pow_two (length v), pow_two (length w), length_sq, length_sq]
  simp only [V3.dot, V3.lengthSq]
  nlinarith [mul_self_nonneg (v.x * w.y - v.y * w.x), mul_self_nonneg (v.y * w.z - v.z * w.y), mul_self_nonneg (v.z * w.x - v.x * w.z)]

theorem dist_zero (v : V3 ℝ) : dist v 0 = length v := by
  rw [dist_eq]; congr 1; ext <;> simp

/-- **C159.** The clamped vector is the vector of the ball next to the given one. -/
theorem clamp_length_partial {eps m : ℝ} (he : 0 < eps) (hm : eps ≤ m) (v : V3 ℝ) : Nearest (Ball m) v (clampLength eps v m) := by
  have m0 : 0 < m := he.trans_le hm
  unfold clampLength
  split
  · rename_i h
    have hv : m < length v := by
      by_contra hc
      have := mul_self_le_mul_self (length_nonneg v) (not_lt.1 hc)
      rw [length_sq] at this
      linarith
    obtain ⟨one, -, e⟩ := get_unit he v (hm.trans hv.le)
    obtain ⟨u, hu⟩ : ∃ u, u = getUnit eps v := ⟨_, rfl⟩
    rw [← hu] at one e ⊢
    have lu : length u = 1 := by
      have := length_sq u
      rw [one] at this
      nlinarith [length_nonneg u]
    have lm : ∀ c : ℝ, 0 ≤ c → length (V3.smul c u) = c := by
      intro c hc
      have s := length_sq (V3.smul c u)
      have : (V3.smul c u).lengthSq = c * c := by
        have one' : u.x * u.x + u.y * u.y + u.z * u.z = 1 := one
        simp only [V3.lengthSq, V3.smul_x, V3.smul_y, V3.smul_z]
        linear_combination c * c * one'
      rw [this] at s
      exact (mul_self_inj (length_nonneg _) hc).1 s
    refine ⟨?_, ?_⟩
    · unfold Ball
      rw [dist_zero, lm m m0.le]
    · intro r hr
      unfold Ball at hr
      rw [dist_zero] at hr
      have d1 : dist v (V3.smul m u) = length v - m := by
        rw [dist_eq, ← lm (length v - m) (by linarith)]
        congr 1
        have ex := congrArg V3.x e
        have ey := congrArg V3.y e
        have ez := congrArg V3.z e
        simp only [V3.smul_x, V3.smul_y, V3.smul_z] at ex ey ez
        ext
        · simp only [V3.sub_x, V3.smul_x]; linear_combination -ex
        · simp only [V3.sub_y, V3.smul_y]; linear_combination -ey
        · simp only [V3.sub_z, V3.smul_z]; linear_combination -ez
      rw [d1, dist_eq]
      have k := dot_le u (v - r)
      rw [lu, one_mul] at k
      have k2 := dot_le u r
      rw [lu, one_mul] at k2
      have k3 : u.dot v = length v := by
        rw [← e]
        have one' : u.x * u.x + u.y * u.y + u.z * u.z = 1 := one
        rw [lm _ (length_nonneg v)]
        simp only [V3.dot, V3.smul_x, V3.smul_y, V3.smul_z]
        linear_combination length v * one'
      have k4 : u.dot (v - r) = u.dot v - u.dot r := by simp only [V3.dot, V3.sub_x, V3.sub_y, V3.sub_z]; ring
      linarith
  · rename_i h
    refine ⟨?_, fun r _ => ?_⟩
    · unfold Ball
      rw [dist_zero]
      by_contra hc
      have := mul_self_lt_mul_self m0.le (not_le.1 hc)
      rw [length_sq] at this
      linarith [not_lt.1 h]
    · rw [show dist v v = 0 by simp [dist]]
      exact Real.sqrt_nonneg _

/-- A negative bound is not noticed: the vector is turned round. -/
theorem negative_length : clampLength (1 / 8388608) ⟨2, 0, 0⟩ (-1) = ⟨-1, 0, 0⟩ := by
  have l : length (⟨2, 0, 0⟩ : V3 ℝ) = 2 := by
    simp only [length, mul_zero, add_zero]
    exact Real.sqrt_mul_self (by norm_num)
  unfold clampLength getUnit
  rw [if_pos (by norm_num [V3.lengthSq]), l, if_neg (by norm_num)]
  ext <;> norm_num

/-! ### Planes -/

/-- **C159.** The projection is the point of the plane next to the given one, and the distance is its distance, with the side as sign. -/
theorem projected {n : V3 ℝ} (hn : n.lengthSq = 1) (p o : V3 ℝ) :
    Nearest (Plane n o) p (projectOnPlane p n o) ∧ |planeDistance p n o| = dist p (projectOnPlane p n o) ∧ (0 < planeDistance p n o ↔ n.dot o < n.dot p) := by
  have hn' : n.x * n.x + n.y * n.y + n.z * n.z = 1 := hn
  have ln : length n = 1 := by
    have := length_sq n
    rw [hn] at this
    nlinarith [length_nonneg n]
  obtain ⟨c, hc⟩ : ∃ c, c = n.dot (p - o) := ⟨_, rfl⟩
  have hd : |planeDistance p n o| = dist p (projectOnPlane p n o) := by
    unfold planeDistance projectOnPlane
    rw [← hc, dist_eq, ← Real.sqrt_mul_self_eq_abs]
    unfold length
    congr 1
    simp only [V3.sub_x, V3.sub_y, V3.sub_z, V3.smul_x, V3.smul_y, V3.smul_z]
    linear_combination -(c * c) * hn'
  refine ⟨⟨?_, ?_⟩, hd, ?_⟩
  · have hc' : c = n.x * (p.x - o.x) + n.y * (p.y - o.y) + n.z * (p.z - o.z) := hc
    unfold Plane projectOnPlane
    rw [← hc]
    simp only [V3.dot, V3.sub_x, V3.sub_y, V3.sub_z, V3.smul_x, V3.smul_y, V3.smul_z]
    linear_combination -hc' - c * hn'
  · intro r hr
    rw [← hd, dist_eq]
    have e : planeDistance p n o = n.dot (p - r) := by
      have hr' : n.x * (r.x - o.x) + n.y * (r.y - o.y) + n.z * (r.z - o.z) = 0 := hr
      simp only [planeDistance, V3.dot, V3.sub_x, V3.sub_y, V3.sub_z]
      linear_combination hr'
    rw [e, abs_le]
    have a := dot_le n (p - r)
    have b := dot_le n (r - p)
    have s : length (r - p) = length (p - r) := by
      unfold length
      congr 1
      simp only [V3.sub_x, V3.sub_y, V3.sub_z]; ring
    have f : n.dot (r - p) = -n.dot (p - r) := by simp only [V3.dot, V3.sub_x, V3.sub_y, V3.sub_z]; ring
    rw [ln, one_mul] at a b
    rw [s, f] at b
    exact ⟨by linarith, a⟩
  · simp only [planeDistance, V3.dot, V3.sub_x, V3.sub_y, V3.sub_z]
    constructor <;> intro h <;> linarith

/-- **C159.** A fraction from zero to one is that of the point in which the segment crosses the plane. -/
theorem crossing {eps d : ℝ} {a b n : V3 ℝ} (he : 0 ≤ eps) (h : 0 ≤ planeSegment eps a b d n) :
    ∀ t, n.dot (a + V3.smul t (b - a)) = d ↔ t = planeSegment eps a b d n := by
  intro t
  unfold planeSegment at h ⊢
  dsimp only at h ⊢
  split at h
  · rename_i g
    have nz : n.dot (b - a) ≠ 0 := by
      intro z
      rw [z, abs_zero] at g
      linarith
    rw [if_pos g, eq_div_iff nz]
    simp only [V3.dot, V3.add_x, V3.add_y, V3.add_z, V3.smul_x, V3.smul_y, V3.smul_z, V3.sub_x, V3.sub_y, V3.sub_z]
    constructor <;> intro h <;> linarith
  · norm_num at h

/-- It is found for every segment whose ends differ in height by more than the tolerance. -/
theorem crossing_found_partial {eps d : ℝ} {a b n : V3 ℝ} (he : 0 ≤ eps) (g : eps < |n.dot (b - a)|) (h1 : n.dot a ≤ d ∧ d ≤ n.dot b ∨ n.dot b ≤ d ∧ d ≤ n.dot a) :
    0 ≤ planeSegment eps a b d n ∧ planeSegment eps a b d n ≤ 1 := by
  unfold planeSegment
  dsimp only
  rw [if_pos g]
  have e : n.dot (b - a) = n.dot b - n.dot a := by simp only [V3.dot, V3.sub_x, V3.sub_y, V3.sub_z]; ring
  rw [e] at g ⊢
  rcases h1 with ⟨h, h'⟩ | ⟨h, h'⟩
  · rw [abs_of_nonneg (by linarith)] at g
    exact ⟨div_nonneg (by linarith) (by linarith), (div_le_one (by linarith)).2 (by linarith)⟩
  · rw [abs_of_nonpos (by linarith)] at g
    refine ⟨div_nonneg_of_nonpos (by linarith) (by linarith), (div_le_one_of_neg (by linarith)).2 (by linarith)⟩

/-- A short or flat segment through the plane is not found. -/
theorem crossing_missed {eps : ℝ} (he : 0 < eps) : planeSegment eps (⟨0, 0, -eps / 2⟩ : V3 ℝ) ⟨0, 0, eps / 2⟩ 0 ⟨0, 0, 1⟩ = -1 := by
  unfold planeSegment
  dsimp only
  rw [if_neg]
  simp only [V3.dot, V3.sub_x, V3.sub_y, V3.sub_z]
  rw [not_lt, abs_of_nonneg] <;> linarith

/-! ### Parallel and orthogonal vectors -/

/-- For unit vectors the squared sine and the cosine of the angle are compared. -/
theorem parallel_partial {v w : V3 ℝ} (hv : v.lengthSq = 1) (hw : w.lengthSq = 1) :
    (parallel v w ↔ 1 - 1 / 100000 < v.dot w * v.dot w) ∧ (v.dot w = 1 ∨ v.dot w = -1 → parallel v w ∧ (w = v ∨ w = -v)) := by
  have hv' : v.x * v.x + v.y * v.y + v.z * v.z = 1 := hv
  have hw' : w.x * w.x + w.y * w.y + w.z * w.z = 1 := hw
  have e : (v.cross w).lengthSq = 1 - v.dot w * v.dot w := by
    simp only [V3.lengthSq, V3.cross, V3.dot]
    linear_combination hv' * (w.x * w.x + w.y * w.y + w.z * w.z) + hw'
  have i : parallel v w ↔ 1 - 1 / 100000 < v.dot w * v.dot w := by
    unfold parallel
    rw [e]
    constructor <;> intro h <;> linarith
  refine ⟨i, fun h => ⟨i.2 (by rcases h with h | h <;> rw [h] <;> norm_num), ?_⟩⟩
  rcases h with h | h
  · left
    have h' : v.x * w.x + v.y * w.y + v.z * w.z = 1 := h
    have s : (w.x - v.x) * (w.x - v.x) + (w.y - v.y) * (w.y - v.y) + (w.z - v.z) * (w.z - v.z) = 0 := by linear_combination hv' + hw' - 2 * h'
    have x := mul_self_nonneg (w.x - v.x)
    have y := mul_self_nonneg (w.y - v.y)
    have z := mul_self_nonneg (w.z - v.z)
    ext
    · exact sub_eq_zero.1 (mul_self_eq_zero.1 (by linarith))
    · exact sub_eq_zero.1 (mul_self_eq_zero.1 (by linarith))
    · exact sub_eq_zero.1 (mul_self_eq_zero.1 (by linarith))
  · right
    have h' : v.x * w.x + v.y * w.y + v.z * w.z = -1 := h
    have s : (w.x + v.x) * (w.x + v.x) + (w.y + v.y) * (w.y + v.y) + (w.z + v.z) * (w.z + v.z) = 0 := by linear_combination hv' + hw' + 2 * h'
    have x := mul_self_nonneg (w.x + v.x)
    have y := mul_self_nonneg (w.y + v.y)
    have z := mul_self_nonneg (w.z + v.z)
    ext
    · exact eq_neg_of_add_eq_zero_left (mul_self_eq_zero.1 (by linarith))
    · exact eq_neg_of_add_eq_zero_left (mul_self_eq_zero.1 (by linarith))
    · exact eq_neg_of_add_eq_zero_left (mul_self_eq_zero.1 (by linarith))

/-- Vectors of five centimeters at a right angle count as parallel, and of three centimeters in the same direction as orthogonal. -/
theorem short_vectors_wrong : parallel ⟨1 / 20, 0, 0⟩ ⟨0, 1 / 20, 0⟩ ∧ orthogonal ⟨3 / 100, 0, 0⟩ ⟨3 / 100, 0, 0⟩ := by
  constructor
  · norm_num [parallel, V3.lengthSq, V3.cross]
  · norm_num [orthogonal, V3.dot, abs_lt]

/-! ### Examples -/

example : ∃ q, Nearest (Line 0 ⟨2, 0, 0⟩) ⟨1, 3, 0⟩ q ∧ lineDistance (1 / 8388608) 0 ⟨2, 0, 0⟩ ⟨1, 3, 0⟩ = dist ⟨1, 3, 0⟩ q :=
  line_distance_partial (by norm_num) (by
    rw [show length ((⟨2, 0, 0⟩ : V3 ℝ) - 0) = 2 by
      simp only [length, V3.sub_x, V3.sub_y, V3.sub_z, V3.zero_x, V3.zero_y, V3.zero_z, sub_zero, mul_zero, add_zero]
      exact Real.sqrt_mul_self (by norm_num)]
    norm_num) _

example : Nearest (Ball 1) ⟨3, 4, 0⟩ (clampLength (1 / 8388608) ⟨3, 4, 0⟩ 1) := clamp_length_partial (by norm_num) (by norm_num) _

example : 0 ≤ planeSegment (1 / 10000) (⟨0, 0, -1⟩ : V3 ℝ) ⟨0, 0, 1⟩ 0 ⟨0, 0, 1⟩ ∧ planeSegment (1 / 10000) (⟨0, 0, -1⟩ : V3 ℝ) ⟨0, 0, 1⟩ 0 ⟨0, 0, 1⟩ ≤ 1 :=
  crossing_found_partial (by norm_num) (by norm_num [V3.dot]) (.inl (by norm_num [V3.dot]))

example : (⟨3 / 5, 4 / 5, 0⟩ : V3 ℝ).lengthSq = 1 := by norm_num [V3.lengthSq]

end Helpers
end RP3D
