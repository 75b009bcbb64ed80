import Verif.Solver.Joints
import Verif.Props.Transform
import Mathlib.Analysis.SpecialFunctions.Complex.Arg
import Mathlib.Analysis.Real.Pi.Bounds

/-!
What `HingeJoint::getAngle` and `SliderJoint::getTranslation` report, and which limits the solver takes for violated.

The angle is stated over the real numbers with the functions of the C++ library as mathematics defines them.
-/

set_option linter.unusedSectionVars false

namespace RP3D
namespace HingeProps
open Joints

/-- `std::trunc`. -/
noncomputable def trunc (x : ℝ) : ℤ := if 0 ≤ x then ⌊x⌋ else ⌈x⌉

/-- The functions of the library are the mathematical ones. -/
structure RealLib (cfg : JCfg ℝ) : Prop where
  pi : cfg.pi = Real.pi
  sqrt : cfg.sqrt = Real.sqrt
  atan2 : ∀ y x, cfg.atan2 y x = Complex.arg ⟨x, y⟩
  fmod : ∀ a b, cfg.fmod a b = a - b * trunc (a / b)

theorem trunc_near (x : ℝ) : |x - trunc x| < 1 := by
  unfold trunc
  split
  · rw [abs_lt]
    have := Int.floor_le x
    have := Int.lt_floor_add_one x
    constructor <;> linarith
  · rw [abs_lt]
    have := Int.le_ceil x
    have := Int.ceil_lt_add_one x
    constructor <;> linarith

section
variable {cfg : JCfg ℝ} (L : RealLib cfg)
include L

/-- The normalised angle is the angle up to full turns, within half a turn. -/
theorem normal_spec (a : ℝ) : |normalAngle cfg a| ≤ Real.pi ∧ ∃ k : ℤ, normalAngle cfg a = a - 2 * Real.pi * k := by
  have hp := Real.pi_pos
  have hm : |a - 2 * Real.pi * trunc (a / (2 * Real.pi))| < 2 * Real.pi := by
    have h := trunc_near (a / (2 * Real.pi))
    have e : a - 2 * Real.pi * trunc (a / (2 * Real.pi)) = 2 * Real.pi * (a / (2 * Real.pi) - trunc (a / (2 * Real.pi))) := by
      field_simp
    rw [e, abs_mul, abs_of_pos (by linarith : 0 < 2 * Real.pi)]
    nlinarith
  rw [abs_lt] at hm
  simp only [normalAngle, L.fmod, L.pi]
  split
  · refine ⟨?_, trunc (a / (2 * Real.pi)) - 1, ?_⟩
    · rw [abs_le]; constructor <;> linarith
    · push_cast; ring
  · split
    · refine ⟨?_, trunc (a / (2 * Real.pi)) + 1, ?_⟩
      · rw [abs_le]; constructor <;> linarith
      · push_cast; ring
    · exact ⟨by rw [abs_le]; constructor <;> linarith, trunc (a / (2 * Real.pi)), rfl⟩

omit L in
/-- Full turns away from an angle within half a turn are no closer to zero. -/
theorem shift_far {x : ℝ} (hx : |x| ≤ Real.pi) (k : ℤ) : |x| ≤ |x + 2 * Real.pi * k| := by
  have hp := Real.pi_pos
  rcases eq_or_ne k 0 with rfl | hk
  · simp
  · have h1 : (1 : ℝ) ≤ |(k : ℝ)| := by exact_mod_cast Int.one_le_abs hk
    have h2 : 2 * Real.pi ≤ |2 * Real.pi * (k : ℝ)| := by
      rw [abs_mul, abs_of_pos (by linarith : 0 < 2 * Real.pi)]; nlinarith
    have h3 := abs_sub_abs_le_abs_sub (2 * Real.pi * (k : ℝ)) (-x)
    rw [abs_neg, sub_neg_eq_add, add_comm (2 * Real.pi * (k : ℝ))] at h3
    linarith

theorem normal_least (a : ℝ) (k : ℤ) : |normalAngle cfg a| ≤ |a + 2 * Real.pi * k| := by
  obtain ⟨h, j, e⟩ := normal_spec L a
  have := shift_far h (k + j)
  rw [show a + 2 * Real.pi * k = normalAngle cfg a + 2 * Real.pi * ((k + j : ℤ) : ℝ) by rw [e]; push_cast; ring]
  exact this

/-- Angles within half a turn (without the end) are their own normal form. -/
theorem normal_same {a : ℝ} (h1 : -Real.pi ≤ a) (h2 : a ≤ Real.pi) : normalAngle cfg a = a := by
  have hp := Real.pi_pos
  have ht : trunc (a / (2 * Real.pi)) = 0 := by
    have h3 : a / (2 * Real.pi) < 1 := by rw [div_lt_one (by linarith)]; linarith
    have h4 : -1 < a / (2 * Real.pi) := by rw [lt_div_iff₀ (by linarith)]; linarith
    unfold trunc
    split
    · rename_i h; exact Int.floor_eq_zero_iff.2 ⟨h, h3⟩
    · rename_i h; rw [Int.ceil_eq_zero_iff]; exact ⟨h4, by linarith⟩
  simp only [normalAngle, L.fmod, L.pi, ht]
  rw [if_neg (by push_cast; linarith), if_neg (by push_cast; linarith)]
  push_cast; ring

theorem normal_abs {a : ℝ} (h1 : 0 ≤ a) (h2 : a ≤ Real.pi) : |normalAngle cfg a| = a := by
  rw [normal_same L (by linarith [Real.pi_pos]) h2, abs_of_nonneg h1]
end

/-! ### Specification: distance from the limits -/

/-- How far an angle is outside of the limits. -/
def outside (lower upper x : ℝ) : ℝ := max 0 (max (lower - x) (x - upper))

theorem outside_zero_iff {lower upper x : ℝ} : outside lower upper x = 0 ↔ lower ≤ x ∧ x ≤ upper := by
  unfold outside
  constructor
  · intro h
    have h1 := le_max_right 0 (max (lower - x) (x - upper))
    have h2 := le_max_left (lower - x) (x - upper)
    have h3 := le_max_right (lower - x) (x - upper)
    constructor <;> linarith
  · rintro ⟨h1, h2⟩
    exact max_eq_left (max_le (by linarith) (by linarith))

theorem outside_ge {lower upper x : ℝ} : 0 ≤ outside lower upper x ∧ lower - x ≤ outside lower upper x ∧ x - upper ≤ outside lower upper x :=
  ⟨le_max_left _ _, le_trans (le_max_left _ _) (le_max_right _ _), le_trans (le_max_right _ _) (le_max_right _ _)⟩

theorem outside_le {lower upper x m : ℝ} (h0 : 0 ≤ m) (h1 : lower - x ≤ m) (h2 : x - upper ≤ m) : outside lower upper x ≤ m :=
  max_le h0 (max_le h1 h2)

/-- **The angle compared with the limits is the one closest to them** among the angles that describe the same position, if the limits are less
than a turn apart. -/
theorem near_limits_nearest {cfg : JCfg ℝ} (L : RealLib cfg) {θ lower upper : ℝ} (h1 : -Real.pi ≤ θ) (h2 : θ ≤ Real.pi) (hl : lower ≤ 0)
    (hu : 0 ≤ upper) (hw : upper - lower < 2 * Real.pi) :
    (∃ j : ℤ, nearLimits cfg θ lower upper = θ + 2 * Real.pi * j) ∧
      ∀ k : ℤ, outside lower upper (nearLimits cfg θ lower upper) ≤ outside lower upper (θ + 2 * Real.pi * k) := by
  have hp := Real.pi_pos
  have kpos : ∀ k : ℤ, 1 ≤ k → 2 * Real.pi ≤ 2 * Real.pi * (k : ℝ) := fun k hk => by
    have : (1 : ℝ) ≤ k := by exact_mod_cast hk
    nlinarith
  have kneg : ∀ k : ℤ, k ≤ -1 → 2 * Real.pi * (k : ℝ) ≤ -(2 * Real.pi) := fun k hk => by
    have : (k : ℝ) ≤ -1 := by exact_mod_cast hk
    nlinarith
  have kcase : ∀ k : ℤ, k ≤ -1 ∨ k = 0 ∨ 1 ≤ k := fun k => by omega
  unfold nearLimits
  rw [L.pi]
  split
  · -- the limits are equal
    rename_i h
    have e1 : lower = 0 := by linarith
    have e2 : upper = 0 := by linarith
    subst e1; subst e2
    refine ⟨⟨0, by push_cast; ring⟩, fun k => ?_⟩
    have := shift_far (abs_le.2 ⟨h1, h2⟩) k
    have o := @outside_ge 0 0 (θ + 2 * Real.pi * k)
    have : |θ + 2 * Real.pi * k| ≤ outside 0 0 (θ + 2 * Real.pi * k) := abs_le.2 ⟨by linarith [o.2.1], by linarith [o.2.2]⟩
    have := le_abs_self θ
    have := neg_abs_le θ
    exact outside_le o.1 (by linarith) (by linarith)
  · rename_i hlu
    split
    · -- above the upper limit
      rename_i hθ
      have nU : |normalAngle cfg (θ - upper)| = θ - upper := normal_abs L (by linarith) (by linarith)
      split
      · rename_i hlt
        rw [nU] at hlt
        refine ⟨⟨-1, by push_cast; ring⟩, fun k => ?_⟩
        have o := @outside_ge lower upper (θ + 2 * Real.pi * k)
        rcases kcase k with hk | rfl | hk
        · have := kneg k hk
          exact outside_le o.1 (by linarith [o.2.1]) (by linarith)
        all_goals
          obtain ⟨-, j, e⟩ := normal_spec L (θ - lower)
          have hcl : lower - (θ - 2 * Real.pi) ≤ |normalAngle cfg (θ - lower)| := by
            rcases kcase j with hj | rfl | hj
            · have := kneg j hj
              have := le_abs_self (normalAngle cfg (θ - lower))
              linarith
            · have := le_abs_self (normalAngle cfg (θ - lower))
              push_cast at e
              linarith
            · have := kpos j hj
              have := neg_le_abs (normalAngle cfg (θ - lower))
              linarith
        · have := o.2.2
          have e0 : 2 * Real.pi * ((0 : ℤ) : ℝ) = 0 := by push_cast; ring
          exact outside_le o.1 (by linarith) (by linarith)
        · have := kpos k hk
          exact outside_le o.1 (by linarith [o.2.2]) (by linarith [o.1])
      · rename_i hge
        rw [nU, not_lt] at hge
        refine ⟨⟨0, by push_cast; ring⟩, fun k => ?_⟩
        have o := @outside_ge lower upper (θ + 2 * Real.pi * k)
        rcases kcase k with hk | rfl | hk
        · have h3 := kneg k hk
          have h4 := normal_least L (θ - lower) (-1)
          push_cast at h4
          have h5 : |θ - lower + 2 * Real.pi * -1| = lower - θ + 2 * Real.pi := by
            rw [abs_of_nonpos]
            · ring
            · by_contra hc
              rw [abs_of_nonneg (not_le.1 hc).le] at h4
              linarith
          exact outside_le o.1 (by linarith [o.1]) (by linarith [o.2.1])
        · push_cast; rw [mul_zero, add_zero]
        · have := kpos k hk
          exact outside_le o.1 (by linarith [o.1]) (by linarith [o.2.2])
    · split
      · -- below the lower limit
        rename_i hθ
        have nL : |normalAngle cfg (lower - θ)| = lower - θ := normal_abs L (by linarith) (by linarith)
        split
        · rename_i hlt
          rw [nL] at hlt
          refine ⟨⟨0, by push_cast; ring⟩, fun k => ?_⟩
          have o := @outside_ge lower upper (θ + 2 * Real.pi * k)
          rcases kcase k with hk | rfl | hk
          · have := kneg k hk
            exact outside_le o.1 (by linarith [o.2.1]) (by linarith [o.1])
          · push_cast; rw [mul_zero, add_zero]
          · have h3 := kpos k hk
            have h4 := normal_least L (upper - θ) (-1)
            push_cast at h4
            have h5 : |upper - θ + 2 * Real.pi * -1| = θ - upper + 2 * Real.pi := by
              rw [abs_of_nonpos]
              · ring
              · by_contra hc
                rw [abs_of_nonneg (not_le.1 hc).le] at h4
                linarith
            exact outside_le o.1 (by linarith [o.2.2]) (by linarith [o.1])
        · rename_i hge
          rw [nL, not_lt] at hge
          refine ⟨⟨1, by push_cast; ring⟩, fun k => ?_⟩
          have o := @outside_ge lower upper (θ + 2 * Real.pi * k)
          obtain ⟨-, j, e⟩ := normal_spec L (upper - θ)
          have hcl : θ + 2 * Real.pi - upper ≤ |normalAngle cfg (upper - θ)| ∨ upper - θ ≤ |normalAngle cfg (upper - θ)| := by
            rcases kcase j with hj | rfl | hj
            · have := kneg j hj
              have := le_abs_self (normalAngle cfg (upper - θ))
              right; linarith
            · have := le_abs_self (normalAngle cfg (upper - θ))
              push_cast at e
              right; linarith
            · have := kpos j hj
              have := neg_le_abs (normalAngle cfg (upper - θ))
              left; linarith
          have hcl' : θ + 2 * Real.pi - upper ≤ lower - θ := by
            rcases hcl with h | h
            · linarith
            · linarith
          rcases kcase k with hk | rfl | hk
          · have := kneg k hk
            exact outside_le o.1 (by linarith [o.1]) (by linarith [o.2.1])
          · have := o.2.1
            have e0 : 2 * Real.pi * ((0 : ℤ) : ℝ) = 0 := by push_cast; ring
            exact outside_le o.1 (by linarith [o.1]) (by linarith)
          · have := kpos k hk
            exact outside_le o.1 (by linarith [o.1]) (by linarith [o.2.2])
      · -- between the limits
        refine ⟨⟨0, by push_cast; ring⟩, fun k => ?_⟩
        rw [outside_zero_iff.2 ⟨by linarith, by linarith⟩]
        exact outside_ge.1

/-! ### The angle -/

/-- The rotation by an angle about a unit axis. -/
noncomputable def axisRot (a : V3 ℝ) (θ : ℝ) : Quat ℝ :=
  ⟨Real.sin (θ / 2) * a.x, Real.sin (θ / 2) * a.y, Real.sin (θ / 2) * a.z, Real.cos (θ / 2)⟩

/-- Two quaternions of the same rotation. -/
def SameRot (p q : Quat ℝ) : Prop := p = q ∨ p = q.scale (-1)

/-- Body 2 has turned by `θ` about the axis `a` relative to body 1: `p1`, `p2` are the orientations when the joint was made, `q1`, `q2` the
present ones. Without a turn, body 2 would have followed body 1, with the orientation `q1 p1⁻¹ p2`. -/
def Turned (p1 p2 q1 q2 : Quat ℝ) (a : V3 ℝ) (θ : ℝ) : Prop := SameRot q2 ((axisRot a θ).mul ((q1.mul p1.conj).mul p2))

/-- What the code does with the relative rotation. -/
noncomputable def angleOf (cfg : JCfg ℝ) (ax : V3 ℝ) (rel : Quat ℝ) : ℝ :=
  normalAngle cfg (if 0 ≤ V3.dot ⟨rel.x, rel.y, rel.z⟩ ax then 2 * cfg.atan2 (cfg.sqrt (V3.lengthSq ⟨rel.x, rel.y, rel.z⟩)) rel.w
    else 2 * cfg.atan2 (cfg.sqrt (V3.lengthSq ⟨rel.x, rel.y, rel.z⟩)) (-rel.w))

theorem hingeAngle_eq (cfg : JCfg ℝ) (d : Quat ℝ) (ax : V3 ℝ) (lower upper : ℝ) (q1 q2 : Quat ℝ) :
    hingeAngle cfg d ax lower upper q1 q2 =
      nearLimits cfg (angleOf cfg ax (unitQ cfg ((unitQ cfg (q2.mul q1.conj)).mul d))) lower upper := rfl

section
variable {cfg : JCfg ℝ} (L : RealLib cfg)
include L

/-- A full turn more. -/
theorem normal_turn {θ : ℝ} (h : |θ| < Real.pi) (j : ℤ) : normalAngle cfg (θ + 2 * Real.pi * j) = θ := by
  have hp := Real.pi_pos
  obtain ⟨h1, k, e⟩ := normal_spec L (θ + 2 * Real.pi * j)
  have e2 : normalAngle cfg (θ + 2 * Real.pi * j) = θ + 2 * Real.pi * ((j - k : ℤ) : ℝ) := by rw [e]; push_cast; ring
  rw [e2] at h1 ⊢
  rw [abs_le] at h1
  rw [abs_lt] at h
  have h3 : j - k = 0 := by
    by_contra hne
    rcases lt_or_gt_of_ne hne with hlt | hgt
    · have : ((j - k : ℤ) : ℝ) ≤ -1 := by exact_mod_cast (by omega : j - k ≤ -1)
      nlinarith
    · have : (1 : ℝ) ≤ ((j - k : ℤ) : ℝ) := by exact_mod_cast (by omega : 1 ≤ j - k)
      nlinarith
  rw [h3]; push_cast; ring

theorem atan2_sin_cos {x : ℝ} (h1 : -Real.pi < x) (h2 : x ≤ Real.pi) : cfg.atan2 (Real.sin x) (Real.cos x) = x := by
  rw [L.atan2]
  have := Complex.arg_cos_add_sin_mul_I ⟨h1, h2⟩
  refine Eq.trans (congrArg Complex.arg ?_) this
  apply Complex.ext <;> simp [Complex.cos_ofReal_re, Complex.sin_ofReal_re, Complex.cos_ofReal_im, Complex.sin_ofReal_im]

theorem angle_of_rotation {a ax : V3 ℝ} (ha : a.lengthSq = 1) (hx : 0 < V3.dot a ax) {θ : ℝ} (h1 : -Real.pi < θ) (h2 : θ ≤ Real.pi)
    {rel : Quat ℝ} (hr : SameRot rel (axisRot a θ)) : angleOf cfg ax rel = θ := by
  have hp := Real.pi_pos
  have hlen : ∀ s : ℝ, cfg.sqrt (V3.lengthSq ⟨s * a.x, s * a.y, s * a.z⟩) = |s| := by
    intro s
    rw [L.sqrt, ← Real.sqrt_sq_eq_abs]
    congr 1
    simp only [V3.lengthSq] at ha ⊢
    linear_combination s ^ 2 * ha
  have hdot : ∀ s : ℝ, V3.dot ⟨s * a.x, s * a.y, s * a.z⟩ ax = s * V3.dot a ax := by
    intro s; simp only [V3.dot]; ring
  have hneg : (axisRot a θ).scale (-1) = ⟨-Real.sin (θ / 2) * a.x, -Real.sin (θ / 2) * a.y, -Real.sin (θ / 2) * a.z, -Real.cos (θ / 2)⟩ := by
    simp only [axisRot, Quat.scale]; congr 1 <;> ring
  have up : 0 ≤ θ → cfg.atan2 |Real.sin (θ / 2)| (Real.cos (θ / 2)) = θ / 2 := fun h => by
    rw [abs_of_nonneg (Real.sin_nonneg_of_nonneg_of_le_pi (by linarith) (by linarith))]
    exact atan2_sin_cos L (by linarith) (by linarith)
  have hpi : ∀ j : ℤ, |θ| < Real.pi → normalAngle cfg (2 * (θ / 2 + Real.pi)) = θ := fun _ h => by
    rw [show 2 * (θ / 2 + Real.pi) = θ + 2 * Real.pi * ((1 : ℤ) : ℝ) by push_cast; ring]
    exact normal_turn L h 1
  have down : θ ≤ 0 → cfg.atan2 |Real.sin (θ / 2)| (-Real.cos (θ / 2)) = θ / 2 + Real.pi := fun h => by
    have : Real.sin (θ / 2) ≤ 0 := Real.sin_nonpos_of_nonpos_of_neg_pi_le (by linarith) (by linarith)
    rw [abs_of_nonpos this, ← Real.sin_add_pi, ← Real.cos_add_pi]
    exact atan2_sin_cos L (by linarith) (by linarith)
  have n2 : normalAngle cfg (2 * (θ / 2)) = θ := by
    rw [show 2 * (θ / 2) = θ by ring]; exact normal_same L h1.le h2
  have spos : 0 < θ → 0 < Real.sin (θ / 2) := fun h => Real.sin_pos_of_pos_of_lt_pi (by linarith) (by linarith)
  have sneg : θ < 0 → Real.sin (θ / 2) < 0 := fun h => Real.sin_neg_of_neg_of_neg_pi_lt (by linarith) (by linarith)
  rcases hr with rfl | rfl
  · simp only [angleOf, axisRot, hlen, hdot]
    rcases le_or_gt 0 θ with h | h
    · rw [if_pos (mul_nonneg (Real.sin_nonneg_of_nonneg_of_le_pi (by linarith) (by linarith)) hx.le), up h, n2]
    · rw [if_neg (not_le.2 (mul_neg_of_neg_of_pos (sneg h) hx)), down h.le]
      exact hpi 0 (abs_lt.2 ⟨h1, by linarith⟩)
  · rw [hneg]
    simp only [angleOf, hlen, hdot, abs_neg, neg_neg]
    rcases lt_or_ge 0 θ with h | h
    · rw [if_neg (not_le.2 (mul_neg_of_neg_of_pos (by linarith [spos h]) hx)), up h.le, n2]
    · rw [if_pos (mul_nonneg (by linarith [Real.sin_nonpos_of_nonpos_of_neg_pi_le (x := θ / 2) (by linarith) (by linarith)]) hx.le), down h]
      exact hpi 0 (abs_lt.2 ⟨h1, by linarith⟩)

theorem unitQ_of_unit {q : Quat ℝ} (h : q.lengthSq = 1) : unitQ cfg q = q := by
  simp only [unitQ, Quat.divBy, L.sqrt, h, Real.sqrt_one, div_one]

end

theorem quat_assoc (p q r : Quat ℝ) : (p.mul q).mul r = p.mul (q.mul r) := by
  simp only [Quat.mul, Quat.mk.injEq]
  refine ⟨?_, ?_, ?_, ?_⟩ <;> ring

theorem mul_conj_self {q : Quat ℝ} (h : q.lengthSq = 1) : q.mul q.conj = Quat.one := by
  simp only [Quat.lengthSq] at h
  simp only [Quat.mul, Quat.conj, Quat.one, Quat.mk.injEq]
  refine ⟨by ring, by ring, by ring, by linarith⟩

theorem conj_mul_self {q : Quat ℝ} (h : q.lengthSq = 1) : q.conj.mul q = Quat.one := by
  simp only [Quat.lengthSq] at h
  simp only [Quat.mul, Quat.conj, Quat.one, Quat.mk.injEq]
  refine ⟨by ring, by ring, by ring, by linarith⟩

theorem mul_one' (q : Quat ℝ) : q.mul Quat.one = q := by
  obtain ⟨x, y, z, w⟩ := q
  simp [Quat.mul, Quat.one]

theorem one_mul' (q : Quat ℝ) : (Quat.one : Quat ℝ).mul q = q := by
  obtain ⟨x, y, z, w⟩ := q
  simp [Quat.mul, Quat.one]

theorem scale_mul (p q : Quat ℝ) (k : ℝ) : (p.scale k).mul q = (p.mul q).scale k := by
  simp only [Quat.mul, Quat.scale, Quat.mk.injEq]
  refine ⟨?_, ?_, ?_, ?_⟩ <;> ring

theorem conj_mul (p q : Quat ℝ) : (p.mul q).conj = q.conj.mul p.conj := by
  simp only [Quat.mul, Quat.conj, Quat.mk.injEq]
  refine ⟨?_, ?_, ?_, ?_⟩ <;> ring

theorem conj_conj (p : Quat ℝ) : p.conj.conj = p := by
  obtain ⟨x, y, z, w⟩ := p
  simp [Quat.conj]

theorem axisRot_unit {a : V3 ℝ} (ha : a.lengthSq = 1) (θ : ℝ) : (axisRot a θ).lengthSq = 1 := by
  simp only [axisRot, Quat.lengthSq, V3.lengthSq] at ha ⊢
  have := Real.sin_sq_add_cos_sq (θ / 2)
  linear_combination Real.sin (θ / 2) ^ 2 * ha + this

/-- The relative rotation of the code, for all positions: the turn, times the commutator of the motion `S` of body 1 and the difference `D` of
the first orientations. -/
theorem relative_rotation {cfg : JCfg ℝ} (L : RealLib cfg) {p1 p2 q1 q2 : Quat ℝ} (u1 : p1.lengthSq = 1) (u2 : p2.lengthSq = 1)
    (v1 : q1.lengthSq = 1) (v2 : q2.lengthSq = 1) {a : V3 ℝ} {θ : ℝ} (ht : Turned p1 p2 q1 q2 a θ) :
    SameRot (unitQ cfg ((unitQ cfg (q2.mul q1.conj)).mul (hingeDiff cfg p1 p2)))
      ((axisRot a θ).mul (((q1.mul p1.conj).mul (p2.mul p1.conj)).mul ((q1.mul p1.conj).conj.mul (p2.mul p1.conj).conj))) := by
  have w1 := unit_mul v2 (unit_inverse v1)
  have w2 := unit_mul u2 (unit_inverse u1)
  rw [hingeDiff, unitQ_of_unit L w1, unitQ_of_unit L w2, unitQ_of_unit L (unit_mul w1 (unit_inverse w2))]
  have key : (((axisRot a θ).mul ((q1.mul p1.conj).mul p2)).mul q1.conj).mul (p2.mul p1.conj).conj =
      (axisRot a θ).mul (((q1.mul p1.conj).mul (p2.mul p1.conj)).mul ((q1.mul p1.conj).conj.mul (p2.mul p1.conj).conj)) := by
    simp only [conj_mul, conj_conj, quat_assoc]
    rw [← quat_assoc p1.conj p1, conj_mul_self u1, one_mul']
  rcases ht with rfl | rfl
  · exact Or.inl key
  · right
    rw [scale_mul, scale_mul, key]

/-- **The angle is right** if the turning of body 1 since the creation and the first difference of orientations commute, and the axis of the
last step still points to the same side. -/
theorem hinge_angle_partial {cfg : JCfg ℝ} (L : RealLib cfg) {p1 p2 q1 q2 : Quat ℝ} (u1 : p1.lengthSq = 1) (u2 : p2.lengthSq = 1)
    (v1 : q1.lengthSq = 1) (v2 : q2.lengthSq = 1) {a ax : V3 ℝ} (ha : a.lengthSq = 1) (hx : 0 < V3.dot a ax) {θ : ℝ} (h1 : -Real.pi < θ)
    (h2 : θ ≤ Real.pi) (ht : Turned p1 p2 q1 q2 a θ)
    (hc : (q1.mul p1.conj).mul (p2.mul p1.conj) = (p2.mul p1.conj).mul (q1.mul p1.conj)) (lower upper : ℝ) :
    hingeAngle cfg (hingeDiff cfg p1 p2) ax lower upper q1 q2 = nearLimits cfg θ lower upper := by
  rw [hingeAngle_eq]
  congr 1
  refine angle_of_rotation L ha hx h1 h2 ?_
  have := relative_rotation L u1 u2 v1 v2 ht
  rw [hc, quat_assoc (p2.mul p1.conj), ← quat_assoc (q1.mul p1.conj), mul_conj_self (unit_mul v1 (unit_inverse u1)), one_mul',
    mul_conj_self (unit_mul u2 (unit_inverse u1)), mul_one'] at this
  exact this

/-- Bodies that had the same orientation when the joint was made. -/
theorem hinge_angle_aligned {cfg : JCfg ℝ} (L : RealLib cfg) {p q1 q2 : Quat ℝ} (u : p.lengthSq = 1)
    (v1 : q1.lengthSq = 1) (v2 : q2.lengthSq = 1) {a ax : V3 ℝ} (ha : a.lengthSq = 1) (hx : 0 < V3.dot a ax) {θ : ℝ} (h1 : -Real.pi < θ)
    (h2 : θ ≤ Real.pi) (ht : Turned p p q1 q2 a θ) (lower upper : ℝ) :
    hingeAngle cfg (hingeDiff cfg p p) ax lower upper q1 q2 = nearLimits cfg θ lower upper :=
  hinge_angle_partial L u u v1 v2 ha hx h1 h2 ht (by rw [mul_conj_self u, mul_one', one_mul']) lower upper

/-- Body 1 (a wall) has kept its orientation. -/
theorem hinge_angle_wall {cfg : JCfg ℝ} (L : RealLib cfg) {p1 p2 q2 : Quat ℝ} (u1 : p1.lengthSq = 1) (u2 : p2.lengthSq = 1)
    (v2 : q2.lengthSq = 1) {a ax : V3 ℝ} (ha : a.lengthSq = 1) (hx : 0 < V3.dot a ax) {θ : ℝ} (h1 : -Real.pi < θ)
    (h2 : θ ≤ Real.pi) (ht : Turned p1 p2 p1 q2 a θ) (lower upper : ℝ) :
    hingeAngle cfg (hingeDiff cfg p1 p2) ax lower upper p1 q2 = nearLimits cfg θ lower upper :=
  hinge_angle_partial L u1 u2 u1 v2 ha hx h1 h2 ht (by rw [mul_conj_self u1, mul_one', one_mul']) lower upper

/-- **The limits act exactly outside of the limits**: with the hypotheses above and limits less than a turn apart, `initBeforeSolve` finds a
violated limit only if every angle of the position is at or beyond the limits. -/
theorem hinge_limits_partial {cfg : JCfg ℝ} (L : RealLib cfg) (body : Nat → JBody ℝ) (J : Hinge ℝ) {p1 p2 : Quat ℝ} (u1 : p1.lengthSq = 1)
    (u2 : p2.lengthSq = 1) (v1 : (body J.b1).q.lengthSq = 1) (v2 : (body J.b2).q.lengthSq = 1) (hd : J.d = hingeDiff cfg p1 p2)
    {a : V3 ℝ} (ha : a.lengthSq = 1) (hx : 0 < V3.dot a (J.init cfg body).ax) {θ : ℝ} (h1 : -Real.pi < θ) (h2 : θ ≤ Real.pi)
    (ht : Turned p1 p2 (body J.b1).q (body J.b2).q a θ)
    (hc : ((body J.b1).q.mul p1.conj).mul (p2.mul p1.conj) = (p2.mul p1.conj).mul ((body J.b1).q.mul p1.conj))
    (hl : J.lower ≤ 0) (hu : 0 ≤ J.upper) (hw : J.upper - J.lower < 2 * Real.pi) :
    (∃ j : ℤ, ((J.init cfg body).low = true ↔ θ + 2 * Real.pi * j ≤ J.lower) ∧ ((J.init cfg body).up = true ↔ J.upper ≤ θ + 2 * Real.pi * j) ∧
      ∀ k : ℤ, outside J.lower J.upper (θ + 2 * Real.pi * j) ≤ outside J.lower J.upper (θ + 2 * Real.pi * k)) := by
  have e := hinge_angle_partial L u1 u2 v1 v2 ha hx h1 h2 ht hc J.lower J.upper
  obtain ⟨⟨j, ej⟩, hk⟩ := near_limits_nearest L h1.le h2 hl hu hw
  rw [ej] at e hk
  have el : (J.init cfg body).low = decide (hingeAngle cfg J.d (J.init cfg body).ax J.lower J.upper (body J.b1).q (body J.b2).q - J.lower ≤ 0) := rfl
  have eu : (J.init cfg body).up = decide (J.upper - hingeAngle cfg J.d (J.init cfg body).ax J.lower J.upper (body J.b1).q (body J.b2).q ≤ 0) := rfl
  rw [hd, e] at el eu
  refine ⟨j, ?_, ?_, hk⟩
  · rw [el, decide_eq_true_iff, sub_nonpos]
  · rw [eu, decide_eq_true_iff, sub_nonpos]

/-! ### Disagreements -/

/-- The x axis. -/
def ex : V3 ℝ := ⟨1, 0, 0⟩

/-- Half a turn about y. -/
def halfY : Quat ℝ := ⟨0, 1, 0, 0⟩

theorem halfY_unit : halfY.lengthSq = 1 := by norm_num [halfY, Quat.lengthSq]
theorem one_unit : (Quat.one : Quat ℝ).lengthSq = 1 := by norm_num [Quat.one, Quat.lengthSq]
theorem ex_unit : ex.lengthSq = 1 := by norm_num [ex, V3.lengthSq]

/-- Body 2 was made with half a turn about y. Both bodies then turn together by `φ` about the axis of the hinge: body 2 has not turned relative to
body 1, but the code finds the angle `2 φ`. -/
theorem common_turn_counted {cfg : JCfg ℝ} (L : RealLib cfg) {φ : ℝ} (h1 : -Real.pi < 2 * φ) (h2 : 2 * φ ≤ Real.pi) (lower upper : ℝ) :
    Turned Quat.one halfY (axisRot ex φ) ((axisRot ex φ).mul halfY) ex 0 ∧
      hingeAngle cfg (hingeDiff cfg Quat.one halfY) ex lower upper (axisRot ex φ) ((axisRot ex φ).mul halfY) = nearLimits cfg (2 * φ) lower upper := by
  have ht : Turned Quat.one halfY (axisRot ex φ) ((axisRot ex φ).mul halfY) ex 0 := by
    left
    have e1 : axisRot ex 0 = Quat.one := by simp [axisRot, Quat.one]
    have e2 : (Quat.one : Quat ℝ).conj = Quat.one := by simp [Quat.conj, Quat.one]
    rw [e1, e2, mul_one', one_mul']
  refine ⟨ht, ?_⟩
  rw [hingeAngle_eq]
  congr 1
  refine angle_of_rotation L ex_unit (by norm_num [ex, V3.dot]) h1 h2 ?_
  have hr := relative_rotation L one_unit halfY_unit (axisRot_unit ex_unit φ) (unit_mul (axisRot_unit ex_unit φ) halfY_unit) ht
  have e : (axisRot ex 0).mul ((((axisRot ex φ).mul (Quat.one).conj).mul (halfY.mul (Quat.one).conj)).mul
      (((axisRot ex φ).mul (Quat.one).conj).conj.mul (halfY.mul (Quat.one).conj).conj)) = axisRot ex (2 * φ) := by
    have d : (2 * φ) / 2 = 2 * (φ / 2) := by ring
    have hsc := Real.sin_sq_add_cos_sq (φ / 2)
    simp only [axisRot, d, Real.sin_two_mul, Real.cos_two_mul, Quat.mul, Quat.conj, Quat.one, halfY, ex, zero_div, Real.sin_zero, Real.cos_zero,
      Quat.mk.injEq]
    refine ⟨by ring, by ring, by ring, ?_⟩
    linear_combination -hsc
  rw [e] at hr
  exact hr

/-- The functions of the library. -/
noncomputable def realCfg : JCfg ℝ where
  dt := 1 / 60
  beta := 1 / 5
  eps := 1 / 8388608
  warm := true
  pi := Real.pi
  sqrt := Real.sqrt
  acos := Real.arccos
  atan2 := fun y x => Complex.arg ⟨x, y⟩
  fmod := fun a b => a - b * trunc (a / b)

theorem realLib : RealLib realCfg := ⟨rfl, rfl, fun _ _ => rfl, fun _ _ => rfl⟩

/-- Negation of the property: two bodies joined by a hinge turn together by one radian; the reported angle is two radians. -/
theorem hinge_angle_negates : ∃ (p1 p2 q1 q2 : Quat ℝ) (a : V3 ℝ), p1.lengthSq = 1 ∧ p2.lengthSq = 1 ∧ q1.lengthSq = 1 ∧ q2.lengthSq = 1 ∧
    a.lengthSq = 1 ∧ Turned p1 p2 q1 q2 a 0 ∧ hingeAngle realCfg (hingeDiff realCfg p1 p2) a (-1) 1 q1 q2 = 2 := by
  have hp := Real.pi_gt_three
  obtain ⟨ht, e⟩ := common_turn_counted realLib (φ := 1) (by linarith) (by linarith) (-1) 1
  refine ⟨Quat.one, halfY, _, _, ex, one_unit, halfY_unit, axisRot_unit ex_unit 1, unit_mul (axisRot_unit ex_unit 1) halfY_unit, ex_unit, ht, ?_⟩
  rw [e]
  have n1 : |normalAngle realCfg (2 * 1 - 1)| = 1 := by rw [normal_abs realLib (by norm_num) (by linarith)]; norm_num
  have n3 : |normalAngle realCfg (2 * 1 - -1)| = 3 := by rw [normal_abs realLib (by norm_num) (by linarith)]; norm_num
  simp only [nearLimits]
  rw [if_neg (by norm_num), if_pos (by norm_num), n1, n3, if_neg (by norm_num)]
  norm_num

/-- `getAngle` is documented to be between `-pi` and `pi`; a hinge with limits `0` and `pi / 2` at `1/10 - pi` reports `pi + 1/10`. -/
theorem angle_out_of_range : nearLimits realCfg (1 / 10 - Real.pi) 0 (Real.pi / 2) = Real.pi + 1 / 10 := by
  have hp := Real.pi_gt_three
  have hp4 := Real.pi_le_four
  have nl : |normalAngle realCfg (0 - (1 / 10 - Real.pi))| = Real.pi - 1 / 10 := by
    rw [normal_abs realLib (by linarith) (by linarith)]; ring
  have nu : |normalAngle realCfg (Real.pi / 2 - (1 / 10 - Real.pi))| ≤ Real.pi / 2 + 1 / 10 := by
    refine le_trans (normal_least realLib _ (-1)) ?_
    push_cast
    rw [abs_le]; constructor <;> linarith
  simp only [nearLimits, realLib.pi]
  rw [if_neg (by linarith), if_neg (by linarith), if_pos (by linarith), nl, if_neg (by linarith)]
  ring

/-- Limits more than a turn apart: at `3 pi / 5` body 2 may have turned by `-7 pi / 5`, between the limits `-2 pi` and `pi / 2`; the solver
always finds the upper limit violated. -/
theorem wide_limits_stop : nearLimits realCfg (3 * Real.pi / 5) (-(2 * Real.pi)) (Real.pi / 2) = 3 * Real.pi / 5 ∧
    Real.pi / 2 < 3 * Real.pi / 5 ∧ outside (-(2 * Real.pi)) (Real.pi / 2) (3 * Real.pi / 5 + 2 * Real.pi * ((-1 : ℤ) : ℝ)) = 0 := by
  have hp := Real.pi_gt_three
  refine ⟨?_, by linarith, outside_zero_iff.2 ⟨by push_cast; linarith, by push_cast; linarith⟩⟩
  have nu : |normalAngle realCfg (3 * Real.pi / 5 - Real.pi / 2)| = Real.pi / 10 := by
    rw [normal_abs realLib (by linarith) (by linarith)]; ring
  have nl : |normalAngle realCfg (3 * Real.pi / 5 - -(2 * Real.pi))| = 3 * Real.pi / 5 := by
    rw [show 3 * Real.pi / 5 - -(2 * Real.pi) = 3 * Real.pi / 5 + 2 * Real.pi * ((1 : ℤ) : ℝ) by push_cast; ring,
      normal_turn realLib (by rw [abs_of_pos (by linarith)]; linarith) 1, abs_of_pos (by linarith)]
  simp only [nearLimits]
  rw [if_neg (by linarith), if_pos (by linarith), nu, nl, if_neg (by linarith)]

/-- Before the first step the axis is the zero vector (HingeJointComponents.cpp:245) and the sign of the angle is lost. -/
theorem sign_lost_before_first_step {cfg : JCfg ℝ} (L : RealLib cfg) {p1 p2 q2 : Quat ℝ} (u1 : p1.lengthSq = 1) (u2 : p2.lengthSq = 1)
    (v2 : q2.lengthSq = 1) {a : V3 ℝ} (ha : a.lengthSq = 1) {θ : ℝ} (h1 : -Real.pi ≤ θ) (h2 : θ ≤ 0)
    (ht : q2 = (axisRot a θ).mul p2) : hingeAngle cfg (hingeDiff cfg p1 p2) 0 0 0 p1 q2 = -θ := by
  have ht' : Turned p1 p2 p1 q2 a θ := Or.inl (by rw [mul_conj_self u1, one_mul', ht])
  have hp := Real.pi_pos
  have w1 := unit_mul v2 (unit_inverse u1)
  have w2 := unit_mul u2 (unit_inverse u1)
  rw [hingeAngle_eq, hingeDiff, unitQ_of_unit L w1, unitQ_of_unit L w2, unitQ_of_unit L (unit_mul w1 (unit_inverse w2))]
  have e : (q2.mul p1.conj).mul (p2.mul p1.conj).conj = axisRot a θ := by
    rw [ht, conj_mul, conj_conj, quat_assoc, quat_assoc, ← quat_assoc p1.conj p1, conj_mul_self u1, one_mul', mul_conj_self u2, mul_one']
  rw [e]
  unfold nearLimits angleOf
  rw [if_pos (le_refl _), if_pos (show 0 ≤ V3.dot _ (0 : V3 ℝ) by simp [V3.dot])]
  simp only [axisRot]
  have hs : Real.sin (θ / 2) ≤ 0 := Real.sin_nonpos_of_nonpos_of_neg_pi_le (by linarith) (by linarith)
  have hl : cfg.sqrt (V3.lengthSq ⟨Real.sin (θ / 2) * a.x, Real.sin (θ / 2) * a.y, Real.sin (θ / 2) * a.z⟩) = Real.sin (-(θ / 2)) := by
    rw [L.sqrt, Real.sin_neg, ← abs_of_nonpos hs, ← Real.sqrt_sq_eq_abs]
    congr 1
    simp only [V3.lengthSq] at ha ⊢
    linear_combination Real.sin (θ / 2) ^ 2 * ha
  rw [hl, ← Real.cos_neg, atan2_sin_cos L (by linarith) (by linarith), show 2 * -(θ / 2) = -θ by ring]
  exact normal_same L (by linarith) (by linarith)

/-- The hypotheses of the theorems about the angle: half a turn about y at the creation, then one radian about x. -/
example : hingeAngle realCfg (hingeDiff realCfg Quat.one halfY) ex 0 0 Quat.one ((axisRot ex (-1)).mul halfY) = -1 := by
  have hp := Real.pi_gt_three
  rw [hinge_angle_wall realLib one_unit halfY_unit (unit_mul (axisRot_unit ex_unit _) halfY_unit) ex_unit (by norm_num [ex, V3.dot]) (θ := -1)
    (by linarith) (by linarith) (Or.inl (by rw [mul_conj_self one_unit, one_mul'])) 0 0]
  simp [nearLimits]

example : hingeAngle realCfg (hingeDiff realCfg halfY halfY) ex 0 0 halfY ((axisRot ex (-1)).mul halfY) = -1 := by
  have hp := Real.pi_gt_three
  rw [hinge_angle_aligned realLib halfY_unit halfY_unit (unit_mul (axisRot_unit ex_unit _) halfY_unit) ex_unit (by norm_num [ex, V3.dot]) (θ := -1)
    (by linarith) (by linarith) (Or.inl (by rw [mul_conj_self halfY_unit, one_mul'])) 0 0]
  simp [nearLimits]

/-- Before the first step the same position is reported with the wrong sign. -/
example : hingeAngle realCfg (hingeDiff realCfg Quat.one halfY) 0 0 0 Quat.one ((axisRot ex (-1)).mul halfY) = 1 := by
  have hp := Real.pi_gt_three
  rw [sign_lost_before_first_step realLib one_unit halfY_unit (unit_mul (axisRot_unit ex_unit _) halfY_unit) ex_unit (θ := -1)
    (by linarith) (by linarith) rfl]
  norm_num

/-- The hypotheses of `near_limits_nearest`: limits at one radian, two radians beyond the upper one. -/
example : outside (-1) 1 (nearLimits realCfg 2 (-1) 1) ≤ outside (-1) 1 (2 + 2 * Real.pi * ((-1 : ℤ) : ℝ)) :=
  (near_limits_nearest realLib (by linarith [Real.pi_gt_three]) (by linarith [Real.pi_gt_three]) (by norm_num) (by norm_num)
    (by linarith [Real.pi_gt_three])).2 (-1)

/-! ### The slider -/

section
variable {K : Type} [Field K] [LinearOrder K] [IsStrictOrderedRing K]

theorem unitOf_rot {cfg : JCfg K} {q : Quat K} (hq : q.lengthSq = 1) (v : V3 K) : unitOf cfg (q.rot v) = q.rot (unitOf cfg v) := by
  have hl : (q.rot v).lengthSq = v.lengthSq := rot_dot hq v v
  have hs : ∀ k, V3.smul k (q.rot v) = q.rot (V3.smul k v) := fun k => by
    simp only [Quat.rot, V3.smul, V3.mk.injEq]
    refine ⟨?_, ?_, ?_⟩ <;> ring
  unfold unitOf
  rw [hl]
  split
  · rfl
  · rw [hs]

theorem unitOf_length {cfg : JCfg K} (hs : IsSqrt cfg.sqrt) (he : 0 < cfg.eps) {v : V3 K} (hv : cfg.eps ≤ cfg.sqrt v.lengthSq) :
    (unitOf cfg v).lengthSq = 1 := by
  have h0 : (0 : K) ≤ v.lengthSq := by
    simp only [V3.lengthSq]; nlinarith [mul_self_nonneg v.x, mul_self_nonneg v.y, mul_self_nonneg v.z]
  have h1 := (hs _ h0).2
  have hp : cfg.sqrt v.lengthSq ≠ 0 := ne_of_gt (lt_of_lt_of_le he hv)
  unfold unitOf
  rw [if_neg (not_lt.2 hv)]
  generalize cfg.sqrt v.lengthSq = s at *
  simp only [V3.lengthSq, V3.smul] at h1 ⊢
  field_simp
  linear_combination -h1

theorem unitOf_unit {cfg : JCfg K} (hs : IsSqrt cfg.sqrt) (h1 : cfg.eps ≤ 1) {v : V3 K} (hv : v.lengthSq = 1) : unitOf cfg v = v := by
  have h := hs 1 zero_le_one
  have e : cfg.sqrt 1 = 1 := by
    have : (cfg.sqrt 1 - 1) * (cfg.sqrt 1 + 1) = 0 := by linear_combination h.2
    rcases mul_eq_zero.1 this with h' | h'
    · linarith
    · linarith [h.1]
  unfold unitOf
  rw [hv, e, if_neg (not_lt.2 h1)]
  simp [V3.smul]

/-- **The translation of a slider is the displacement along its axis**: the joint is made with the anchor `p` and the axis `a` (SliderJoint.cpp:61-75),
then both bodies move together by `T` and body 2 moves on by `e`. -/
theorem slider_translation {cfg : JCfg K} (hs : IsSqrt cfg.sqrt) (he : 0 < cfg.eps) (he1 : cfg.eps ≤ 1) (J : Slider K) {t1 t2 T : Trans K}
    (u1 : t1.ori.lengthSq = 1) (u2 : t2.ori.lengthSq = 1) (uT : T.ori.lengthSq = 1) {p a : V3 K} (hv : cfg.eps ≤ cfg.sqrt a.lengthSq)
    (h1 : J.a1 = t1.inverse.act p) (h2 : J.a2 = t2.inverse.act p) (hl : J.l1 = unitOf cfg (t1.inverse.ori.rot a)) (e : V3 K) :
    sliderTranslation cfg J (T.mul t1) ⟨(T.mul t2).pos + e, (T.mul t2).ori⟩ = V3.dot e (T.ori.rot (unitOf cfg a)) := by
  have hi : t1.inverse.ori = t1.ori.conj := rfl
  have ax : unitOf cfg ((T.mul t1).ori.rot J.l1) = T.ori.rot (unitOf cfg a) := by
    rw [hl, hi, unitOf_rot (unit_inverse u1), trans_mul_eq, rot_mul, rot_conj' u1, unitOf_rot uT,
      unitOf_unit hs he1 (unitOf_length hs he hv)]
  have p1 : (T.mul t1).pos + (T.mul t1).ori.rot J.a1 = T.act p := by
    have h := trans_mul_act T t1 J.a1
    rw [h1, trans_act_inverse u1] at h
    rw [← h, h1]
    simp only [Trans.act]
    ext <;> simp <;> ring
  have p2 : (T.mul t2).pos + (T.mul t2).ori.rot J.a2 = T.act p := by
    have h := trans_mul_act T t2 J.a2
    rw [h2, trans_act_inverse u2] at h
    rw [← h, h2]
    simp only [Trans.act]
    ext <;> simp <;> ring
  have hu : (((T.mul t2).pos + e) + (T.mul t2).ori.rot J.a2) - ((T.mul t1).pos + (T.mul t1).ori.rot J.a1) = e := by
    have h2x := congrArg V3.x p2
    have h2y := congrArg V3.y p2
    have h2z := congrArg V3.z p2
    rw [p1]
    simp only [V3.add_x, V3.add_y, V3.add_z] at h2x h2y h2z
    ext
    · simp only [V3.sub_x, V3.add_x]; linear_combination h2x
    · simp only [V3.sub_y, V3.add_y]; linear_combination h2y
    · simp only [V3.sub_z, V3.add_z]; linear_combination h2z
  simp only [sliderTranslation]
  rw [ax, hu]

/-- The solver compares the same number with the limits, if the centers of mass are where the transforms put them. -/
theorem slider_limits {cfg : JCfg K} (body : Nat → JBody K) (J : Slider K) (t1 t2 : Trans K)
    (q1 : (body J.b1).q = t1.ori) (q2 : (body J.b2).q = t2.ori) (x1 : (body J.b1).x = t1.act (body J.b1).com)
    (x2 : (body J.b2).x = t2.act (body J.b2).com) :
    ((J.init cfg body).low = true ↔ sliderTranslation cfg J t1 t2 ≤ J.lower) ∧
      ((J.init cfg body).up = true ↔ J.upper ≤ sliderTranslation cfg J t1 t2) := by
  have key : V3.dot ((body J.b2).x + arm (body J.b2) J.a2 - (body J.b1).x - arm (body J.b1) J.a1) (unitOf cfg ((body J.b1).q.rot J.l1)) =
      sliderTranslation cfg J t1 t2 := by
    simp only [sliderTranslation, arm]
    rw [q1, q2, x1, x2]
    congr 1
    simp only [Trans.act, Quat.rot]
    ext <;> simp <;> ring
  have el : (J.init cfg body).low = decide (V3.dot ((body J.b2).x + arm (body J.b2) J.a2 - (body J.b1).x - arm (body J.b1) J.a1)
      (unitOf cfg ((body J.b1).q.rot J.l1)) - J.lower ≤ 0) := rfl
  have eu : (J.init cfg body).up = decide (J.upper - V3.dot ((body J.b2).x + arm (body J.b2) J.a2 - (body J.b1).x - arm (body J.b1) J.a1)
      (unitOf cfg ((body J.b1).q.rot J.l1)) ≤ 0) := rfl
  rw [key] at el eu
  rw [el, eu, decide_eq_true_iff, decide_eq_true_iff, sub_nonpos, sub_nonpos]
  exact ⟨Iff.rfl, Iff.rfl⟩
end

/-- The hypotheses of `slider_translation`: both bodies with different orientations, a common turn, then two units along the axis. -/
example (J : Slider ℝ) (p : V3 ℝ) :
    sliderTranslation realCfg { J with a1 := (⟨⟨1, 2, 3⟩, halfY⟩ : Trans ℝ).inverse.act p, a2 := (⟨⟨5, 0, 3⟩, Quat.one⟩ : Trans ℝ).inverse.act p, l1 := unitOf realCfg ((⟨⟨1, 2, 3⟩, halfY⟩ : Trans ℝ).inverse.ori.rot ex) }
      ((⟨⟨7, 7, 7⟩, axisRot ex 1⟩ : Trans ℝ).mul ⟨⟨1, 2, 3⟩, halfY⟩)
      ⟨((⟨⟨7, 7, 7⟩, axisRot ex 1⟩ : Trans ℝ).mul ⟨⟨5, 0, 3⟩, Quat.one⟩).pos + V3.smul 2 ((axisRot ex 1).rot ex),
        ((⟨⟨7, 7, 7⟩, axisRot ex 1⟩ : Trans ℝ).mul ⟨⟨5, 0, 3⟩, Quat.one⟩).ori⟩ = 2 := by
  have hs : IsSqrt realCfg.sqrt := fun x hx => ⟨Real.sqrt_nonneg x, Real.mul_self_sqrt hx⟩
  have he : realCfg.eps ≤ realCfg.sqrt ex.lengthSq := by
    rw [ex_unit, realLib.sqrt, Real.sqrt_one]; norm_num [realCfg]
  rw [slider_translation hs (by norm_num [realCfg]) (by norm_num [realCfg]) _ (t1 := ⟨⟨1, 2, 3⟩, halfY⟩) (t2 := ⟨⟨5, 0, 3⟩, Quat.one⟩)
    (T := ⟨⟨7, 7, 7⟩, axisRot ex 1⟩) halfY_unit one_unit (axisRot_unit ex_unit 1) (p := p) (a := ex) he rfl rfl rfl,
    unitOf_unit hs (by norm_num [realCfg]) ex_unit]
  have h := rot_dot (axisRot_unit ex_unit 1) ex ex
  have h2 : V3.dot ex ex = 1 := ex_unit
  rw [h2] at h
  simp only [V3.dot, V3.smul] at h ⊢
  linear_combination 2 * h

end HingeProps
end RP3D
