import Verif.Shapes.Mass
import Verif.Shapes.Revolve
import Mathlib.Analysis.Real.Pi.Bounds

/-! C123: volumes and inertia tensors of the collision shapes are those of the solids, for the measure of Lebesgue. -/

namespace RP3D
namespace MassProps
open MeasureTheory Real PointProps Facets Solids Mass

/-- `V` is the volume of the solid, the solid balances at the origin, and for each mass that is spread evenly over it `inertia` gives its moments
of inertia about the axes, which are principal axes. -/
structure IsMass (S : V3 ℝ → Prop) (V : ℝ) (inertia : ℝ → V3 ℝ) : Prop where
  compact : IsCompact (region S)
  pos : 0 < V
  volume : volume (region S) = ENNReal.ofReal V
  centre : total S (fun v => v.x) = 0 ∧ total S (fun v => v.y) = 0 ∧ total S (fun v => v.z) = 0
  axes : total S (fun v => v.x * v.y) = 0 ∧ total S (fun v => v.y * v.z) = 0 ∧ total S (fun v => v.x * v.z) = 0
  moments : ∀ mass, inertia mass = ⟨mass / V * total S (fun v => v.y ^ 2 + v.z ^ 2), mass / V * total S (fun v => v.x ^ 2 + v.z ^ 2),
    mass / V * total S (fun v => v.x ^ 2 + v.y ^ 2)⟩

/-- The points whose distance from the origin is at most `r`. -/
def Ball (r : ℝ) (v : V3 ℝ) : Prop := v.x ^ 2 + v.y ^ 2 + v.z ^ 2 ≤ r ^ 2

/-- The points whose distance from a segment of the second axis is at most `r`. -/
def Capsuled (r half : ℝ) (v : V3 ℝ) : Prop := ∃ s, |s| ≤ half ∧ v.x ^ 2 + (v.y - s) ^ 2 + v.z ^ 2 ≤ r ^ 2

theorem total_add {S : V3 ℝ → Prop} (hK : IsCompact (region S)) {f g : V3 ℝ → ℝ} (hf : Continuous fun p => f (pt p))
    (hg : Continuous fun p => g (pt p)) : total S (fun v => f v + g v) = total S f + total S g :=
  integral_add (hf.continuousOn.integrableOn_compact hK) (hg.continuousOn.integrableOn_compact hK)

theorem volume_of_total {S : V3 ℝ → Prop} (hK : IsCompact (region S)) {V : ℝ} (h : total S (fun _ => 1) = V) :
    volume (region S) = ENNReal.ofReal V := by
  have h1 : total S (fun _ => 1) = (volume (region S)).toReal := by
    rw [total, setIntegral_const]; simp [Measure.real]
  rw [← h, h1, ENNReal.ofReal_toReal hK.measure_lt_top.ne]

/-! ### Boxes -/

/-- The volume and the inertia tensor of a box are those of the solid. -/
theorem box_mass (h : V3 ℝ) (hx : 0 < h.x) (hy : 0 < h.y) (hz : 0 < h.z) : IsMass (Boxed h) (boxVolume h) (boxInertia h) := by
  have hK : IsCompact (region (Boxed h)) := by
    rw [boxed_region]; exact isCompact_Icc.prod (isCompact_Icc.prod isCompact_Icc)
  have mom := fun i j k => boxed_moment (h := h) hx.le hy.le hz.le i j k
  have p0 : ∀ a : ℝ, ∫ x in (-a)..a, x ^ 0 = 2 * a := by intro a; simp; ring
  have p1 : ∀ a : ℝ, ∫ x in (-a)..a, x ^ 1 = 0 := by intro a; rw [integral_pow]; ring
  have p2 : ∀ a : ℝ, ∫ x in (-a)..a, x ^ 2 = 2 / 3 * a ^ 3 := by intro a; rw [integral_pow]; push_cast; ring
  have hV : 0 < boxVolume h := by simp only [boxVolume]; positivity
  have t000 : total (Boxed h) (fun _ => 1) = boxVolume h := by
    have := mom 0 0 0
    simp only [p0] at this
    simp only [pow_zero, mul_one] at this
    rw [this, boxVolume]; ring
  have t100 : total (Boxed h) (fun v => v.x) = 0 := by have := mom 1 0 0; rw [p1] at this; simpa using this
  have t010 : total (Boxed h) (fun v => v.y) = 0 := by have := mom 0 1 0; rw [p1] at this; simpa using this
  have t001 : total (Boxed h) (fun v => v.z) = 0 := by have := mom 0 0 1; rw [p1] at this; simpa using this
  have t110 : total (Boxed h) (fun v => v.x * v.y) = 0 := by have := mom 1 1 0; rw [p1] at this; simpa using this
  have t011 : total (Boxed h) (fun v => v.y * v.z) = 0 := by have := mom 0 1 1; rw [p1] at this; simpa using this
  have t101 : total (Boxed h) (fun v => v.x * v.z) = 0 := by have := mom 1 0 1; rw [p1] at this; simpa using this
  have t200 : total (Boxed h) (fun v => v.x ^ 2) = 8 / 3 * h.x ^ 3 * h.y * h.z := by
    have := mom 2 0 0; simp only [p0, p2] at this; simp only [pow_zero, mul_one] at this; rw [this]; ring
  have t020 : total (Boxed h) (fun v => v.y ^ 2) = 8 / 3 * h.x * h.y ^ 3 * h.z := by
    have := mom 0 2 0; simp only [p0, p2] at this; simp only [pow_zero, mul_one, one_mul] at this; rw [this]; ring
  have t002 : total (Boxed h) (fun v => v.z ^ 2) = 8 / 3 * h.x * h.y * h.z ^ 3 := by
    have := mom 0 0 2; simp only [p0, p2] at this; simp only [pow_zero, one_mul] at this; rw [this]; ring
  refine ⟨hK, hV, volume_of_total hK t000, ⟨t100, t010, t001⟩, ⟨t110, t011, t101⟩, fun mass => ?_⟩
  rw [total_add hK (f := fun v => v.y ^ 2) (g := fun v => v.z ^ 2) (by simp only [pt]; fun_prop) (by simp only [pt]; fun_prop),
    total_add hK (f := fun v => v.x ^ 2) (g := fun v => v.z ^ 2) (by simp only [pt]; fun_prop) (by simp only [pt]; fun_prop),
    total_add hK (f := fun v => v.x ^ 2) (g := fun v => v.y ^ 2) (by simp only [pt]; fun_prop) (by simp only [pt]; fun_prop),
    t200, t020, t002]
  simp only [boxInertia, boxVolume]
  have h1 := hx.ne'
  have h2 := hy.ne'
  have h3 := hz.ne'
  ext <;> field_simp

example : IsMass (Boxed ⟨1, 2, 3⟩) 48 (boxInertia ⟨1, 2, 3⟩) := by
  have := box_mass ⟨1, 2, 3⟩ (by norm_num) (by norm_num) (by norm_num)
  norm_num [boxVolume] at this
  exact this

/-! ### Spheres and capsules -/

theorem poly4 (c0 c1 c2 c3 c4 a b : ℝ) : ∫ y in a..b, (c0 + c1 * y + c2 * y ^ 2 + c3 * y ^ 3 + c4 * y ^ 4) =
    (c0 * b + c1 * b ^ 2 / 2 + c2 * b ^ 3 / 3 + c3 * b ^ 4 / 4 + c4 * b ^ 5 / 5) -
      (c0 * a + c1 * a ^ 2 / 2 + c2 * a ^ 3 / 3 + c3 * a ^ 4 / 4 + c4 * a ^ 5 / 5) := by
  have : ∀ y : ℝ, HasDerivAt (fun y => c0 * y + c1 * y ^ 2 / 2 + c2 * y ^ 3 / 3 + c3 * y ^ 4 / 4 + c4 * y ^ 5 / 5)
      (c0 + c1 * y + c2 * y ^ 2 + c3 * y ^ 3 + c4 * y ^ 4) y := by
    intro y
    have h := (((((hasDerivAt_id y).const_mul c0).add (((hasDerivAt_pow 2 y).const_mul c1).div_const 2)).add
      (((hasDerivAt_pow 3 y).const_mul c2).div_const 3)).add (((hasDerivAt_pow 4 y).const_mul c3).div_const 4)).add
      (((hasDerivAt_pow 5 y).const_mul c4).div_const 5)
    exact h.congr_deriv (by simp; ring)
  rw [intervalIntegral.integral_eq_sub_of_hasDerivAt (fun x _ => this x) (by apply Continuous.intervalIntegrable; fun_prop)]

/-- The square of the radius of the section of a capsule at the height `y`. -/
noncomputable def section2 (r half y : ℝ) : ℝ := r ^ 2 - (max 0 (|y| - half)) ^ 2

theorem capsuled_iff {r half : ℝ} (hh : 0 ≤ half) (v : V3 ℝ) : Capsuled r half v ↔ Revolved (section2 r half) v := by
  simp only [Capsuled, Revolved, section2]
  constructor
  · rintro ⟨s, hs, h⟩
    have hs' := abs_le.1 hs
    have : (max 0 (|v.y| - half)) ^ 2 ≤ (v.y - s) ^ 2 := by
      rw [← sq_abs (v.y - s)]
      apply pow_le_pow_left₀ (le_max_left _ _)
      apply max_le (abs_nonneg _)
      have := abs_sub_abs_le_abs_sub v.y s
      linarith
    linarith
  · intro h
    rcases le_total |v.y| half with h1 | h1
    · refine ⟨v.y, h1, ?_⟩
      rw [max_eq_left (by linarith)] at h
      nlinarith
    · rw [max_eq_right (by linarith)] at h
      rcases abs_cases v.y with ⟨h2, h3⟩ | ⟨h2, h3⟩
      · refine ⟨half, (abs_of_nonneg hh).le, ?_⟩
        rw [h2] at h; linarith
      · refine ⟨-half, by rw [abs_neg, abs_of_nonneg hh], ?_⟩
        rw [h2] at h
        nlinarith

theorem section2_continuous (r half : ℝ) : Continuous (section2 r half) := by
  unfold section2; fun_prop

theorem section2_nonneg {r half : ℝ} (hr : 0 < r) (y : ℝ) : 0 ≤ section2 r half y ↔ |y| ≤ half + r := by
  simp only [section2]
  constructor
  · intro h
    have h1 : (max 0 (|y| - half)) ^ 2 ≤ r ^ 2 := by linarith
    have h2 := abs_le_of_sq_le_sq h1 hr.le
    have h3 := (le_max_right 0 (|y| - half)).trans ((le_abs_self _).trans h2)
    linarith
  · intro h
    have h1 : max 0 (|y| - half) ≤ r := max_le hr.le (by linarith)
    have := pow_le_pow_left₀ (le_max_left 0 (|y| - half)) h1 2
    linarith

theorem section2_le (r half y : ℝ) : section2 r half y ≤ r ^ 2 := by
  simp only [section2]; linarith [sq_nonneg (max 0 (|y| - half))]

/-- An integral over the heights of a capsule, cut at the ends of its segment. -/
theorem section_integral {r half : ℝ} (hr : 0 < r) (hh : 0 ≤ half) (g : ℝ → ℝ → ℝ) (hg : Continuous fun p : ℝ × ℝ => g p.1 p.2) :
    ∫ y in (-(half + r))..(half + r), g y (section2 r half y) =
      (∫ y in (-(half + r))..(-half), g y (r ^ 2 - (y + half) ^ 2)) + (∫ y in (-half)..half, g y (r ^ 2)) +
        ∫ y in half..(half + r), g y (r ^ 2 - (y - half) ^ 2) := by
  have hc : Continuous fun y => g y (section2 r half y) := hg.comp (continuous_id.prodMk (section2_continuous r half))
  have hi : ∀ a b : ℝ, IntervalIntegrable (fun y => g y (section2 r half y)) volume a b := fun a b => hc.intervalIntegrable a b
  rw [← intervalIntegral.integral_add_adjacent_intervals (hi (-(half + r)) half) (hi half (half + r)),
    ← intervalIntegral.integral_add_adjacent_intervals (hi (-(half + r)) (-half)) (hi (-half) half)]
  congr 1
  · congr 1
    · apply intervalIntegral.integral_congr
      intro y hy
      rw [Set.uIcc_of_le (by linarith)] at hy
      have h1 : |y| = -y := abs_of_nonpos (by linarith [hy.2])
      simp only [section2, h1]
      rw [max_eq_right (by linarith [hy.2])]
      congr 1
      ring
    · apply intervalIntegral.integral_congr
      intro y hy
      rw [Set.uIcc_of_le (by linarith)] at hy
      simp only [section2]
      rw [max_eq_left (by linarith [abs_le.2 ⟨hy.1, hy.2⟩])]
      congr 1
      ring
  · apply intervalIntegral.integral_congr
    intro y hy
    rw [Set.uIcc_of_le (by linarith)] at hy
    have h1 : |y| = y := abs_of_nonneg (by linarith [hy.1])
    simp only [section2, h1]
    rw [max_eq_right (by linarith [hy.1])]

theorem poly_congr {f : ℝ → ℝ} (c0 c1 c2 c3 c4 a b : ℝ) (h : ∀ y, f y = c0 + c1 * y + c2 * y ^ 2 + c3 * y ^ 3 + c4 * y ^ 4) :
    ∫ y in a..b, f y = (c0 * b + c1 * b ^ 2 / 2 + c2 * b ^ 3 / 3 + c3 * b ^ 4 / 4 + c4 * b ^ 5 / 5) -
      (c0 * a + c1 * a ^ 2 / 2 + c2 * a ^ 3 / 3 + c3 * a ^ 4 / 4 + c4 * a ^ 5 / 5) := by
  rw [← poly4]
  congr 1
  funext y
  exact h y

/-- The volume and the inertia tensor of a capsule are those of the solid, with the number π. -/
theorem capsule_mass {r half : ℝ} (hr : 0 < r) (hh : 0 ≤ half) :
    IsMass (Capsuled r half) (capsuleVolume π r half) (capsuleInertia r half) := by
  have hS : Capsuled r half = Revolved (section2 r half) := by
    funext v; exact propext (capsuled_iff hh v)
  rw [hS]
  have hcont := section2_continuous r half
  have hY := fun y => section2_nonneg (half := half) hr y
  have hM := section2_le r half
  have hK := revolved_compact hcont hY hM hr.le
  have mom := fun i j k => revolved_moment hcont hY hM hr.le (show 0 ≤ half + r by linarith) i j k
  have sq : ∀ (k : ℕ), ∫ y in (-(half + r))..(half + r), y ^ k * √(section2 r half y) ^ 2 =
      ∫ y in (-(half + r))..(half + r), y ^ k * section2 r half y := by
    intro k
    apply intervalIntegral.integral_congr
    intro y hy
    rw [Set.uIcc_of_le (by linarith)] at hy
    simp only
    rw [sq_sqrt ((hY y).2 (abs_le.2 hy))]
  have sq4 : ∫ y in (-(half + r))..(half + r), y ^ 0 * √(section2 r half y) ^ 4 =
      ∫ y in (-(half + r))..(half + r), section2 r half y ^ 2 := by
    apply intervalIntegral.integral_congr
    intro y hy
    rw [Set.uIcc_of_le (by linarith)] at hy
    simp only
    rw [show √(section2 r half y) ^ 4 = (√(section2 r half y) ^ 2) ^ 2 by ring, sq_sqrt ((hY y).2 (abs_le.2 hy))]
    ring
  -- the three integrals over the heights
  have i0 : ∫ y in (-(half + r))..(half + r), y ^ 0 * section2 r half y = 2 * r ^ 2 * half + 4 / 3 * r ^ 3 := by
    rw [section_integral hr hh (fun y q => y ^ 0 * q) (by fun_prop),
      poly_congr (r ^ 2 - half ^ 2) (-2 * half) (-1) 0 0 _ _ (fun y => by ring),
      poly_congr (r ^ 2) 0 0 0 0 _ _ (fun y => by ring),
      poly_congr (r ^ 2 - half ^ 2) (2 * half) (-1) 0 0 _ _ (fun y => by ring)]
    ring
  have i1 : ∫ y in (-(half + r))..(half + r), y ^ 1 * section2 r half y = 0 := by
    rw [section_integral hr hh (fun y q => y ^ 1 * q) (by fun_prop),
      poly_congr 0 (r ^ 2 - half ^ 2) (-2 * half) (-1) 0 _ _ (fun y => by ring),
      poly_congr 0 (r ^ 2) 0 0 0 _ _ (fun y => by ring),
      poly_congr 0 (r ^ 2 - half ^ 2) (2 * half) (-1) 0 _ _ (fun y => by ring)]
    ring
  have i2 : ∫ y in (-(half + r))..(half + r), y ^ 2 * section2 r half y =
      2 / 3 * r ^ 2 * half ^ 3 + 4 / 3 * r ^ 3 * half ^ 2 + r ^ 4 * half + 4 / 15 * r ^ 5 := by
    rw [section_integral hr hh (fun y q => y ^ 2 * q) (by fun_prop),
      poly_congr 0 0 (r ^ 2 - half ^ 2) (-2 * half) (-1) _ _ (fun y => by ring),
      poly_congr 0 0 (r ^ 2) 0 0 _ _ (fun y => by ring),
      poly_congr 0 0 (r ^ 2 - half ^ 2) (2 * half) (-1) _ _ (fun y => by ring)]
    ring
  have i4 : ∫ y in (-(half + r))..(half + r), section2 r half y ^ 2 = 2 * r ^ 4 * half + 16 / 15 * r ^ 5 := by
    rw [section_integral hr hh (fun _ q => q ^ 2) (by fun_prop),
      poly_congr ((r ^ 2 - half ^ 2) ^ 2) (-4 * half * (r ^ 2 - half ^ 2)) (4 * half ^ 2 - 2 * (r ^ 2 - half ^ 2)) (4 * half) 1 _ _ (fun y => by ring),
      poly_congr (r ^ 4) 0 0 0 0 _ _ (fun y => by ring),
      poly_congr ((r ^ 2 - half ^ 2) ^ 2) (4 * half * (r ^ 2 - half ^ 2)) (4 * half ^ 2 - 2 * (r ^ 2 - half ^ 2)) (-4 * half) 1 _ _ (fun y => by ring)]
    ring
  have hV : 0 < capsuleVolume π r half := by
    have := pi_pos
    simp only [capsuleVolume]; positivity
  have t0 : total (Revolved (section2 r half)) (fun _ => 1) = capsuleVolume π r half := by
    have := mom 0 0 0
    rw [turn_zero] at this
    simp only [Nat.cast_zero, zero_add, sq, i0] at this
    simp only [pow_zero, mul_one] at this
    rw [this, capsuleVolume]; ring
  have tx : total (Revolved (section2 r half)) (fun v => v.x) = 0 := by
    have := mom 1 0 0; rw [turn_x] at this; simpa using this
  have tz : total (Revolved (section2 r half)) (fun v => v.z) = 0 := by
    have := mom 0 1 0; rw [turn_z] at this; simpa using this
  have ty : total (Revolved (section2 r half)) (fun v => v.y) = 0 := by
    have := mom 0 0 1
    simp only [Nat.cast_zero, zero_add, sq, i1] at this
    simpa using this
  have txy : total (Revolved (section2 r half)) (fun v => v.x * v.y) = 0 := by
    have := mom 1 0 1; rw [turn_x] at this
    simp only [pow_one, pow_zero, mul_one, zero_div, zero_mul] at this
    rw [← this]; congr 1; funext v; ring
  have tyz : total (Revolved (section2 r half)) (fun v => v.y * v.z) = 0 := by
    have := mom 0 1 1; rw [turn_z] at this
    simpa using this
  have txz : total (Revolved (section2 r half)) (fun v => v.x * v.z) = 0 := by
    have := mom 1 1 0; rw [turn_xz] at this
    simpa using this
  have txx : total (Revolved (section2 r half)) (fun v => v.x ^ 2) = π / 4 * (2 * r ^ 4 * half + 16 / 15 * r ^ 5) := by
    have := mom 2 0 0; rw [turn_xx] at this
    rw [show 2 + 0 + 2 = 4 by norm_num, sq4, i4] at this
    simp only [pow_zero, mul_one, one_mul] at this
    rw [this]; norm_num
  have tzz : total (Revolved (section2 r half)) (fun v => v.z ^ 2) = π / 4 * (2 * r ^ 4 * half + 16 / 15 * r ^ 5) := by
    have := mom 0 2 0; rw [turn_zz] at this
    rw [show 0 + 2 + 2 = 4 by norm_num, sq4, i4] at this
    simp only [pow_zero, one_mul] at this
    rw [this]; norm_num
  have tyy : total (Revolved (section2 r half)) (fun v => v.y ^ 2) =
      π * (2 / 3 * r ^ 2 * half ^ 3 + 4 / 3 * r ^ 3 * half ^ 2 + r ^ 4 * half + 4 / 15 * r ^ 5) := by
    have := mom 0 0 2; rw [turn_zero] at this
    simp only [Nat.cast_zero, zero_add, sq, i2] at this
    simp only [pow_zero, mul_one] at this
    rw [this]; ring
  refine ⟨hK, hV, volume_of_total hK t0, ⟨tx, ty, tz⟩, ⟨txy, tyz, txz⟩, fun mass => ?_⟩
  rw [total_add hK (f := fun v => v.y ^ 2) (g := fun v => v.z ^ 2) (by simp only [pt]; fun_prop) (by simp only [pt]; fun_prop),
    total_add hK (f := fun v => v.x ^ 2) (g := fun v => v.z ^ 2) (by simp only [pt]; fun_prop) (by simp only [pt]; fun_prop),
    total_add hK (f := fun v => v.x ^ 2) (g := fun v => v.y ^ 2) (by simp only [pt]; fun_prop) (by simp only [pt]; fun_prop), txx, tyy, tzz]
  have h1 := pi_pos.ne'
  have h2 := hr.ne'
  have h3 : 4 * r + 3 * (half + half) ≠ 0 := by positivity
  have h4 : 4 * r / 3 + 2 * half ≠ 0 := by positivity
  have h5 : 4 * r + 3 * (2 * half) ≠ 0 := by positivity
  have h6 : 4 * r + 2 * half * 3 ≠ 0 := by positivity
  have h7 : 2 * r + 3 * half ≠ 0 := by positivity
  simp only [capsuleInertia, capsuleVolume]
  ext <;> field_simp <;> ring

example : IsMass (Capsuled 1 2) (capsuleVolume π 1 2) (capsuleInertia 1 2) := capsule_mass (by norm_num) (by norm_num)

/-- The volume and the inertia tensor of a sphere are those of the solid, with the number π. -/
theorem sphere_mass {r : ℝ} (hr : 0 < r) : IsMass (Ball r) (sphereVolume π r) (sphereInertia r) := by
  have hS : Ball r = Capsuled r 0 := by
    funext v
    apply propext
    simp only [Ball, Capsuled]
    constructor
    · intro h
      exact ⟨0, by simp, by simpa using h⟩
    · rintro ⟨s, hs, h⟩
      have : s = 0 := abs_eq_zero.1 (le_antisymm hs (abs_nonneg _))
      subst this
      simpa using h
  have h1 : sphereVolume π r = capsuleVolume π r 0 := by simp only [sphereVolume, capsuleVolume]; ring
  have h2 : sphereInertia r = capsuleInertia r 0 := by
    funext mass
    simp only [sphereInertia, capsuleInertia]
    have := hr.ne'
    ext <;> simp <;> field_simp <;> ring
  rw [hS, h1, h2]
  exact capsule_mass hr le_rfl

example : IsMass (Ball 2) (sphereVolume π 2) (sphereInertia 2) := sphere_mass (by norm_num)

/-- `PI_RP3D` (configuration.h:123). -/
def piConst : ℝ := 3.141592653589

/-- With the constant of the program, the volumes of spheres and capsules are too small, by less than three parts in ten million millions. -/
theorem round_volume_error {r half : ℝ} (hr : 0 < r) (hh : 0 ≤ half) :
    capsuleVolume piConst r half < capsuleVolume π r half ∧
      capsuleVolume π r half - capsuleVolume piConst r half < 3 / 10 ^ 13 * capsuleVolume π r half := by
  have h1 := pi_gt_d20
  have h2 := pi_lt_d20
  have h3 : 0 < r * r * (4 * r / 3 + 2 * half) := by positivity
  have e : ∀ p, capsuleVolume p r half = p * (r * r * (4 * r / 3 + 2 * half)) := by intro p; simp only [capsuleVolume]; ring
  rw [e, e]
  refine ⟨mul_lt_mul_of_pos_right (by unfold piConst; linarith) h3, ?_⟩
  rw [← sub_mul, ← mul_assoc (3 / 10 ^ 13 : ℝ)]
  apply mul_lt_mul_of_pos_right _ h3
  unfold piConst
  norm_num at h1 h2 ⊢
  linarith

end MassProps
end RP3D
