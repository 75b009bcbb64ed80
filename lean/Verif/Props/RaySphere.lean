import Verif.Shapes.Ray
import Verif.Props.Transform
import Mathlib.Tactic.Positivity

/-! C74: ray casts against spheres report the first point of the sphere on the ray. -/

namespace RP3D
namespace RayProps
open Ray

variable {K : Type} [Field K] [LinearOrder K] [IsStrictOrderedRing K]

/-- Specification: `t` is the first fraction at which the ray is in the solid `S`. -/
def IsFirst (S : V3 K → Prop) (r : Ray K) (t : K) : Prop := 0 ≤ t ∧ S (r.at t) ∧ ∀ s, 0 ≤ s → s < t → ¬ S (r.at s)

omit [IsStrictOrderedRing K] in
theorem IsFirst.unique {S : V3 K → Prop} {r : Ray K} {t t' : K} (h : IsFirst S r t) (h' : IsFirst S r t') : t = t' := by
  rcases lt_trichotomy t t' with hh | hh | hh
  · exact absurd h.2.1 (h'.2.2 t h.1 hh)
  · exact hh
  · exact absurd h'.2.1 (h.2.2 t' h'.1 hh)

/-- Specification: the solid sphere, the points at distance at most `radius` from the centre. -/
def Ball (center : V3 K) (radius : K) (x : V3 K) : Prop := V3.lengthSq (x - center) ≤ radius * radius

/-- Specification: `n` is an outward normal at the hit point, not facing away from the origin of the ray: the solid is
behind the plane through the hit point with this normal. -/
def Outward (S : V3 K → Prop) (r : Ray K) (t : K) (n : V3 K) : Prop :=
  n ≠ 0 ∧ n.dot r.dir ≤ 0 ∧ ∀ x, S x → n.dot x ≤ n.dot (r.at t)

omit [LinearOrder K] [IsStrictOrderedRing K] in
/-- The square of the distance of the ray from the centre is a quadratic function of the fraction. -/
theorem ray_quadratic (r : Ray K) (center : V3 K) (t : K) : V3.lengthSq (r.at t - center) =
    r.dir.lengthSq * (t * t) + 2 * ((r.p1 - center).dot r.dir) * t + (r.p1 - center).dot (r.p1 - center) := by
  simp only [Ray.at, V3.lengthSq, V3.dot, V3.add_x, V3.add_y, V3.add_z, V3.sub_x, V3.sub_y, V3.sub_z, V3.smul_x, V3.smul_y,
    V3.smul_z]
  ring

theorem lengthSq_nonneg (v : V3 K) : 0 ≤ v.lengthSq := by
  unfold V3.lengthSq; nlinarith [mul_self_nonneg v.x, mul_self_nonneg v.y, mul_self_nonneg v.z]

/-- The first root of `L t² + 2 b t + c`. -/
theorem first_root {L b c s : K} (hL : 0 < L) (hc : 0 ≤ c) (hb : b ≤ 0) (h0 : 0 ≤ s) (hs : s * s = b * b - L * c) :
    0 ≤ (-b - s) / L ∧ L * ((-b - s) / L * ((-b - s) / L)) + 2 * b * ((-b - s) / L) + c = 0 ∧
      ∀ t, t < (-b - s) / L → 0 < L * (t * t) + 2 * b * t + c := by
  have hn : 0 ≤ -b - s := by
    by_contra hh
    have h1 : 0 < s + b := by linarith
    nlinarith [mul_nonneg hL.le hc]
  refine ⟨div_nonneg hn hL.le, ?_, ?_⟩
  · field_simp
    linear_combination hs
  · intro t ht
    have h1 : t * L < -b - s := by rwa [lt_div_iff₀ hL] at ht
    have h2 : s * s < (L * t + b) * (L * t + b) := by nlinarith
    have h3 : 0 < L * (L * (t * t) + 2 * b * t + c) := by nlinarith
    exact pos_of_mul_pos_right h3 hL.le

/-- A reported fraction: the first point of the sphere on the ray, within the range of the ray. -/
theorem sphereFraction_hit {sqrt : K → K} (hq : IsSqrt sqrt) {eps radius t : K} (he : 0 < eps) {center : V3 K} {r : Ray K}
    (h : sphereFraction eps sqrt radius center r = some t) :
    IsFirst (Ball center radius) r t ∧ t < r.maxF ∧ V3.lengthSq (r.at t - center) = radius * radius := by
  unfold sphereFraction at h
  dsimp only at h
  split_ifs at h with h1 h2 h3 h4
  simp only [not_or, not_lt] at h3
  cases h
  have hL : 0 < r.dir.lengthSq := lt_of_lt_of_le he h3.2
  obtain ⟨q0, q1⟩ := hq _ h3.1
  obtain ⟨f0, f1, f2⟩ := first_root hL (not_lt.1 h1) (not_lt.1 h2) q0 q1
  have e : ∀ s, V3.lengthSq (r.at s - center) - radius * radius = r.dir.lengthSq * (s * s) + 2 * ((r.p1 - center).dot r.dir) * s +
      ((r.p1 - center).dot (r.p1 - center) - radius * radius) := by
    intro s; rw [ray_quadratic]; ring
  refine ⟨⟨f0, ?_, ?_⟩, ?_, ?_⟩
  · show _ ≤ _
    have := e ((-(r.p1 - center).dot r.dir -
      sqrt ((r.p1 - center).dot r.dir * (r.p1 - center).dot r.dir -
        r.dir.lengthSq * ((r.p1 - center).dot (r.p1 - center) - radius * radius))) / r.dir.lengthSq)
    rw [f1] at this
    linarith
  · intro s _ hs hB
    have := f2 s hs
    rw [← e] at this
    have hB : _ ≤ _ := hB
    linarith
  · rwa [div_lt_iff₀ hL]
  · have := e ((-(r.p1 - center).dot r.dir -
      sqrt ((r.p1 - center).dot r.dir * (r.p1 - center).dot r.dir -
        r.dir.lengthSq * ((r.p1 - center).dot (r.p1 - center) - radius * radius))) / r.dir.lengthSq)
    rw [f1] at this
    linarith

/-- At a reported point the ray does not leave the sphere. -/
theorem sphereFraction_enters {sqrt : K → K} (hq : IsSqrt sqrt) {eps radius t : K} (he : 0 < eps) {center : V3 K} {r : Ray K}
    (h : sphereFraction eps sqrt radius center r = some t) :
    (r.at t - center).dot r.dir ≤ 0 ∧ (r.p1 - center).dot r.dir ≤ 0 ∧ 0 < r.dir.lengthSq := by
  unfold sphereFraction at h
  dsimp only at h
  split_ifs at h with h1 h2 h3 h4
  simp only [not_or, not_lt] at h3
  cases h
  have hL : 0 < r.dir.lengthSq := lt_of_lt_of_le he h3.2
  obtain ⟨q0, q1⟩ := hq _ h3.1
  refine ⟨?_, not_lt.1 h2, hL⟩
  have e : ∀ s, (r.at s - center).dot r.dir = (r.p1 - center).dot r.dir + s * r.dir.lengthSq := by
    intro s
    simp only [Ray.at, V3.lengthSq, V3.dot, V3.add_x, V3.add_y, V3.add_z, V3.sub_x, V3.sub_y, V3.sub_z, V3.smul_x, V3.smul_y,
      V3.smul_z]
    ring
  rw [e, div_mul_cancel₀ _ hL.ne']
  linarith

/-- The plane at a point of a sphere. -/
theorem ball_support {center p x : V3 K} {radius : K} (hp : V3.lengthSq (p - center) = radius * radius)
    (hx : Ball center radius x) : (p - center).dot x ≤ (p - center).dot p := by
  have hx : _ ≤ _ := hx
  simp only [V3.lengthSq, V3.dot, V3.sub_x, V3.sub_y, V3.sub_z] at *
  nlinarith [mul_self_nonneg (p.x - x.x), mul_self_nonneg (p.y - x.y), mul_self_nonneg (p.z - x.z)]

theorem ne_zero_of_lengthSq {v : V3 K} {a : K} (ha : 0 < a) (h : v.lengthSq = a) : v ≠ 0 := by
  rintro rfl
  simp [V3.lengthSq] at h
  exact absurd ha (by rw [← h]; exact lt_irrefl _)

/-- No hit: the origin is inside of the sphere, or no point of the ray within its range is in the sphere. -/
theorem sphereFraction_miss {sqrt : K → K} (hq : IsSqrt sqrt) {eps radius : K} {center : V3 K} {r : Ray K}
    (he : 0 < eps) (hd : eps ≤ r.dir.lengthSq) (hin : radius * radius ≤ V3.lengthSq (r.p1 - center))
    (h : sphereFraction eps sqrt radius center r = none) :
    ∀ s, 0 < s → s < r.maxF → ¬ Ball center radius (r.at s) := by
  intro s s0 s1 hB
  have hL : 0 < r.dir.lengthSq := lt_of_lt_of_le he hd
  have hB : _ ≤ _ := hB
  rw [ray_quadratic] at hB
  have hc : 0 ≤ (r.p1 - center).dot (r.p1 - center) - radius * radius := by
    have : (r.p1 - center).dot (r.p1 - center) = V3.lengthSq (r.p1 - center) := rfl
    rw [this]; linarith
  unfold sphereFraction at h
  dsimp only at h
  generalize (r.p1 - center).dot (r.p1 - center) = cc at *
  generalize (r.p1 - center).dot r.dir = b at *
  generalize r.dir.lengthSq = L at *
  rw [if_neg (not_lt.2 hc)] at h
  split_ifs at h with h2 h3 h4
  · nlinarith [mul_pos hL (mul_pos s0 s0), mul_pos h2 s0]
  · rcases h3 with h3 | h3
    · nlinarith [mul_self_nonneg (L * s + b)]
    · exact absurd hd (not_le.2 h3)
  · simp only [not_or, not_lt] at h3 h4 h2
    obtain ⟨q0, q1⟩ := hq _ h3.1
    obtain ⟨_, _, f2⟩ := first_root hL hc h2 q0 q1
    have := f2 s (by rw [lt_div_iff₀ hL]; nlinarith)
    linarith

/-- Ray casts against a sphere: if the origin is outside, there is a hit exactly if the ray meets the sphere within its
range, and the fraction is the first one; the point is the point of the ray and lies on the surface, and the normal
is an outward normal. If the origin is strictly inside there is no hit. -/
theorem sphere_raycast {sqrt : K → K} (hq : IsSqrt sqrt) {eps radius : K} {r : Ray K} (he : 0 < eps)
    (hr : 0 < radius) (hd : eps ≤ r.dir.lengthSq) :
    (∀ h, sphere eps sqrt radius r = some h → IsFirst (Ball 0 radius) r h.fraction ∧ h.fraction < r.maxF ∧
        h.point = r.at h.fraction ∧ h.point.lengthSq = radius * radius ∧
        Outward (Ball 0 radius) r h.fraction h.normal) ∧
      (¬ Ball 0 radius r.p1 →
        ((sphere eps sqrt radius r).isSome ↔ ∃ s, 0 ≤ s ∧ s < r.maxF ∧ Ball 0 radius (r.at s))) ∧
      (r.p1.lengthSq < radius * radius → sphere eps sqrt radius r = none) := by
  have hz : ∀ v : V3 K, v - 0 = v := by intro v; ext <;> simp
  have h1 : ∀ h, sphere eps sqrt radius r = some h → IsFirst (Ball 0 radius) r h.fraction ∧ h.fraction < r.maxF ∧
        h.point = r.at h.fraction ∧ h.point.lengthSq = radius * radius ∧
        Outward (Ball 0 radius) r h.fraction h.normal := by
    intro h hh
    unfold sphere at hh
    cases hf : sphereFraction eps sqrt radius 0 r with
    | none => rw [hf] at hh; simp at hh
    | some t =>
      rw [hf] at hh
      simp only [Option.some.injEq] at hh
      subst hh
      obtain ⟨a1, a2, a3⟩ := sphereFraction_hit hq he hf
      rw [hz] at a3
      have b1 := (sphereFraction_enters hq he hf).1
      rw [hz] at b1
      refine ⟨a1, a2, rfl, a3, ne_zero_of_lengthSq (mul_pos hr hr) a3, b1, fun x hx => ?_⟩
      have := ball_support (center := 0) (p := r.at t) (by rw [hz]; exact a3) hx
      rwa [hz] at this
  refine ⟨h1, ?_, ?_⟩
  · intro ho
    constructor
    · intro hs
      obtain ⟨h, hh⟩ := Option.isSome_iff_exists.1 hs
      obtain ⟨⟨a1, a2, _⟩, a3, _⟩ := h1 h hh
      exact ⟨h.fraction, a1, a3, a2⟩
    · rintro ⟨s, s0, s1, hB⟩
      by_contra hn
      have hn : sphere eps sqrt radius r = none := by simpa using hn
      have hf : sphereFraction eps sqrt radius 0 r = none := by
        unfold sphere at hn
        split at hn
        · cases hn
        · assumption
      have hp : r.at 0 = r.p1 := by
        unfold Ray.at; ext <;> simp
      rcases eq_or_lt_of_le s0 with e | e
      · rw [← e, hp] at hB; exact ho hB
      · refine sphereFraction_miss hq he hd ?_ hf s e s1 hB
        unfold Ball at ho
        exact (not_le.1 ho).le
  · intro hi
    unfold sphere sphereFraction
    have : (r.p1 - 0).dot (r.p1 - 0) - radius * radius < 0 := by
      rw [hz]
      have : r.p1.dot r.p1 = r.p1.lengthSq := rfl
      rw [this]; linarith
    rw [if_pos this]

end RayProps
end RP3D
