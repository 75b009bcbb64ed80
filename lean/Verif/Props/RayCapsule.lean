import Verif.Props.RayBox

/-! C76: ray casts against capsules report the first point of the capsule on the ray. -/

namespace RP3D
namespace RayProps
open Ray

variable {K : Type} [Field K] [LinearOrder K] [IsStrictOrderedRing K]

/-- Specification: the solid capsule, the points at distance at most `radius` from the segment between `(0, -hh, 0)` and
`(0, hh, 0)`. -/
def Capsule (radius hh : K) (x : V3 K) : Prop := ∃ y, -hh ≤ y ∧ y ≤ hh ∧ Ball ⟨0, y, 0⟩ radius x

/-- The infinite cylinder around the capsule. -/
def InCyl (radius : K) (x : V3 K) : Prop := x.x * x.x + x.z * x.z ≤ radius * radius

theorem capsule_cyl {radius hh : K} {x : V3 K} (h : Capsule radius hh x) : InCyl radius x := by
  obtain ⟨y, _, _, hB⟩ := h
  simp only [Ball, V3.lengthSq, V3.sub_x, V3.sub_y, V3.sub_z] at hB
  unfold InCyl
  nlinarith [mul_self_nonneg (x.y - y)]

theorem capsule_low {radius hh : K} {x : V3 K} (h : Capsule radius hh x) (hy : x.y ≤ -hh) : Ball ⟨0, -hh, 0⟩ radius x := by
  obtain ⟨y, h1, _, hB⟩ := h
  simp only [Ball, V3.lengthSq, V3.sub_x, V3.sub_y, V3.sub_z] at *
  nlinarith

theorem cyl_capsule {radius hh : K} {x : V3 K} (h : InCyl radius x) (h1 : -hh ≤ x.y) (h2 : x.y ≤ hh) : Capsule radius hh x := by
  refine ⟨x.y, h1, h2, ?_⟩
  simp only [Ball, V3.lengthSq, V3.sub_x, V3.sub_y, V3.sub_z]
  unfold InCyl at h
  nlinarith

theorem convex_sq {w a b : K} (h0 : 0 ≤ w) (h1 : w ≤ 1) :
    ((1 - w) * a + w * b) * ((1 - w) * a + w * b) ≤ (1 - w) * (a * a) + w * (b * b) := by
  nlinarith [mul_nonneg (mul_nonneg h0 (sub_nonneg.2 h1)) (mul_self_nonneg (a - b))]

theorem at_mix (r : Ray K) (s1 s2 w : K) : r.at ((1 - w) * s1 + w * s2) =
    ⟨(1 - w) * (r.at s1).x + w * (r.at s2).x, (1 - w) * (r.at s1).y + w * (r.at s2).y,
      (1 - w) * (r.at s1).z + w * (r.at s2).z⟩ := by
  ext <;> simp only [Ray.at, V3.add_x, V3.add_y, V3.add_z, V3.smul_x, V3.smul_y, V3.smul_z] <;> ring

theorem between {s1 s2 s : K} (h1 : s1 ≤ s) (h2 : s ≤ s2) : ∃ w, 0 ≤ w ∧ w ≤ 1 ∧ s = (1 - w) * s1 + w * s2 := by
  rcases eq_or_lt_of_le (le_trans h1 h2) with e | e
  · exact ⟨0, le_refl _, zero_le_one, by rw [← e] at h2; linarith⟩
  · have hp : 0 < s2 - s1 := by linarith
    refine ⟨(s - s1) / (s2 - s1), div_nonneg (by linarith) hp.le, (div_le_one hp).2 (by linarith), ?_⟩
    field_simp; ring

theorem ball_convex {radius : K} {c : V3 K} {r : Ray K} {s1 s2 s : K} (h1 : Ball c radius (r.at s1))
    (h2 : Ball c radius (r.at s2)) (hs1 : s1 ≤ s) (hs2 : s ≤ s2) : Ball c radius (r.at s) := by
  obtain ⟨w, w0, w1, rfl⟩ := between hs1 hs2
  rw [at_mix]
  simp only [Ball, V3.lengthSq, V3.sub_x, V3.sub_y, V3.sub_z] at *
  generalize r.at s1 = u at *
  generalize r.at s2 = v at *
  have e : ∀ a b k : K, (1 - w) * a + w * b - k = (1 - w) * (a - k) + w * (b - k) := by intro a b k; ring
  rw [e, e, e]
  have := convex_sq (a := u.x - c.x) (b := v.x - c.x) w0 w1
  have := convex_sq (a := u.y - c.y) (b := v.y - c.y) w0 w1
  have := convex_sq (a := u.z - c.z) (b := v.z - c.z) w0 w1
  nlinarith

theorem capsule_convex {radius hh : K} {r : Ray K} {s1 s2 s : K} (h1 : Capsule radius hh (r.at s1))
    (h2 : Capsule radius hh (r.at s2)) (hs1 : s1 ≤ s) (hs2 : s ≤ s2) : Capsule radius hh (r.at s) := by
  obtain ⟨y1, l1, u1, b1⟩ := h1
  obtain ⟨y2, l2, u2, b2⟩ := h2
  obtain ⟨w, w0, w1, rfl⟩ := between hs1 hs2
  refine ⟨(1 - w) * y1 + w * y2, by nlinarith, by nlinarith, ?_⟩
  rw [at_mix]
  simp only [Ball, V3.lengthSq, V3.sub_x, V3.sub_y, V3.sub_z] at *
  generalize r.at s1 = u at *
  generalize r.at s2 = v at *
  have e : (1 - w) * u.y + w * v.y - ((1 - w) * y1 + w * y2) = (1 - w) * (u.y - y1) + w * (v.y - y2) := by ring
  have e' : ∀ a b : K, (1 - w) * a + w * b - 0 = (1 - w) * (a - 0) + w * (b - 0) := by intro a b; ring
  rw [e, e', e']
  have := convex_sq (a := u.x - 0) (b := v.x - 0) w0 w1
  have := convex_sq (a := u.y - y1) (b := v.y - y2) w0 w1
  have := convex_sq (a := u.z - 0) (b := v.z - 0) w0 w1
  nlinarith

theorem cyl_convex {radius : K} {r : Ray K} {s1 s2 s : K} (h1 : InCyl radius (r.at s1)) (h2 : InCyl radius (r.at s2))
    (hs1 : s1 ≤ s) (hs2 : s ≤ s2) : InCyl radius (r.at s) := by
  obtain ⟨w, w0, w1, rfl⟩ := between hs1 hs2
  rw [at_mix]
  unfold InCyl at *
  simp only
  have := convex_sq (a := (r.at s1).x) (b := (r.at s2).x) w0 w1
  have := convex_sq (a := (r.at s1).z) (b := (r.at s2).z) w0 w1
  nlinarith

/-- A ray in the cylinder below the lower end of the axis reaches the capsule through the lower sphere. -/
theorem through_low {radius hh : K} {r : Ray K} {t0 s : K} (h0 : InCyl radius (r.at t0)) (hy : (r.at t0).y ≤ -hh)
    (hs : t0 ≤ s) (hc : Capsule radius hh (r.at s)) :
    ∃ s', t0 ≤ s' ∧ s' ≤ s ∧ Ball ⟨0, -hh, 0⟩ radius (r.at s') ∧ (-hh ≤ (r.at s).y → (r.at s').y = -hh) := by
  rcases le_total (r.at s).y (-hh) with hl | hl
  · exact ⟨s, hs, le_refl _, capsule_low hc hl, fun hh => le_antisymm hl hh⟩
  · have : ∃ s', t0 ≤ s' ∧ s' ≤ s ∧ (r.at s').y = -hh := by
      rcases eq_or_lt_of_le (le_trans hy hl) with e | e
      · exact ⟨t0, le_refl _, hs, le_antisymm hy (by rw [e]; exact hl)⟩
      · have hp : 0 < (r.at s).y - (r.at t0).y := by linarith
        obtain ⟨w, hw⟩ : ∃ w, w = (-hh - (r.at t0).y) / ((r.at s).y - (r.at t0).y) := ⟨_, rfl⟩
        have w0 : 0 ≤ w := by rw [hw]; exact div_nonneg (by linarith) hp.le
        have w1 : w ≤ 1 := by rw [hw]; exact (div_le_one hp).2 (by linarith)
        refine ⟨(1 - w) * t0 + w * s, by nlinarith, by nlinarith, ?_⟩
        rw [at_mix]
        simp only
        have : w * ((r.at s).y - (r.at t0).y) = -hh - (r.at t0).y := by rw [hw]; exact div_mul_cancel₀ _ hp.ne'
        linarith
    obtain ⟨s', l, u, e⟩ := this
    refine ⟨s', l, u, ?_, fun _ => e⟩
    have hI := cyl_convex h0 (capsule_cyl hc) l u
    unfold InCyl at hI
    simp only [Ball, V3.lengthSq, V3.sub_x, V3.sub_y, V3.sub_z]
    rw [e]
    nlinarith

theorem at_zero (r : Ray K) : r.at 0 = r.p1 := by unfold Ray.at; ext <;> simp

/-- The end cap test, if the ray enters the cylinder below the lower end of the axis: hits. -/
theorem low_hit {sqrt : K → K} (hq : IsSqrt sqrt) {eps radius hh t t0 : K} {r : Ray K} (he : 0 < eps) (hr : 0 < radius)
    (hp : 0 ≤ hh) (h0 : InCyl radius (r.at t0)) (hy : (r.at t0).y ≤ -hh)
    (hb : ∀ s, 0 ≤ s → s < t0 → ¬ InCyl radius (r.at s)) (h : sphereFraction eps sqrt radius ⟨0, -hh, 0⟩ r = some t) :
    IsFirst (Capsule radius hh) r t ∧ t < r.maxF ∧ Outward (Capsule radius hh) r t (r.at t - ⟨0, -hh, 0⟩) := by
  obtain ⟨⟨f0, f1, f2⟩, f3, f4⟩ := sphereFraction_hit hq he h
  obtain ⟨e1, e2, e3⟩ := sphereFraction_enters hq he h
  have hcap : Capsule radius hh (r.at t) := ⟨-hh, le_refl _, by linarith, f1⟩
  -- a point of the lower sphere before the origin is impossible if the ray hits it after the origin
  have hneg : ∀ s', s' < 0 → Ball ⟨0, -hh, 0⟩ radius (r.at s') → False := by
    intro s' hs' hB
    have hB : _ ≤ _ := hB
    have h1 := ray_quadratic r ⟨0, -hh, 0⟩ s'
    have h2 := ray_quadratic r ⟨0, -hh, 0⟩ t
    have h3 := ray_quadratic r ⟨0, -hh, 0⟩ 0
    have hge : radius * radius ≤ V3.lengthSq (r.at 0 - ⟨0, -hh, 0⟩) := by
      rcases eq_or_lt_of_le f0 with e | e
      · rw [congrArg r.at e, f4]
      · exact (not_le.1 (f2 0 (le_refl _) e)).le
    rw [h3] at hge
    rw [h1] at hB
    nlinarith [mul_nonneg_of_nonpos_of_nonpos e2 hs'.le, mul_pos e3 (mul_pos_of_neg_of_neg hs' hs')]
  have hfirst : ∀ s, 0 ≤ s → s < t → ¬ Capsule radius hh (r.at s) := by
    intro s s0 s1 hc
    rcases lt_or_ge s t0 with hlt | hge
    · exact hb s s0 hlt (capsule_cyl hc)
    · obtain ⟨s', l, u, hB, _⟩ := through_low h0 hy hge hc
      rcases lt_or_ge s' 0 with hn | hn
      · exact hneg s' hn hB
      · exact f2 s' hn (by linarith) hB
  refine ⟨⟨f0, hcap, hfirst⟩, f3, ?_, e1, ?_⟩
  · exact ne_zero_of_lengthSq (mul_pos hr hr) f4
  · -- the point is on the lower half of the sphere
    have hlow : (r.at t).y ≤ -hh := by
      by_contra hn
      have hge : t0 ≤ t := by
        by_contra hlt
        exact hb t f0 (not_le.1 hlt) (capsule_cyl hcap)
      obtain ⟨s', l, u, hB, hys⟩ := through_low h0 hy hge hcap
      have hys := hys (not_le.1 hn).le
      rcases lt_or_ge s' 0 with hneg' | hge'
      · exact hneg s' hneg' hB
      · rcases eq_or_lt_of_le u with e | e
        · rw [← e] at hn; exact hn hys.le
        · exact f2 s' hge' e hB
    intro x hx
    obtain ⟨y, l, u, hB⟩ := hx
    have hB : _ ≤ _ := hB
    generalize r.at t = P at *
    simp only [V3.lengthSq, V3.dot, V3.sub_x, V3.sub_y, V3.sub_z] at *
    nlinarith [mul_self_nonneg (P.x - x.x), mul_self_nonneg (P.y + hh - (x.y - y)), mul_self_nonneg (P.z - x.z)]

/-- The end cap test, if the ray enters the cylinder below the lower end of the axis: misses. -/
theorem low_miss {sqrt : K → K} (hq : IsSqrt sqrt) {eps radius hh t0 : K} {r : Ray K} (he : 0 < eps)
    (hd : eps ≤ r.dir.lengthSq) (hp : 0 ≤ hh) (h0 : InCyl radius (r.at t0)) (hy : (r.at t0).y ≤ -hh)
    (hb : ∀ s, 0 ≤ s → s < t0 → ¬ InCyl radius (r.at s)) (ho : ¬ Capsule radius hh r.p1)
    (h : sphereFraction eps sqrt radius ⟨0, -hh, 0⟩ r = none) :
    ∀ s, 0 ≤ s → s < r.maxF → ¬ Capsule radius hh (r.at s) := by
  intro s s0 s1 hc
  have hB0 : ∀ x, Ball ⟨0, -hh, 0⟩ radius x → Capsule radius hh x := fun x hx => ⟨-hh, le_refl _, by linarith, hx⟩
  have ho' : radius * radius ≤ V3.lengthSq (r.p1 - ⟨0, -hh, 0⟩) := by
    by_contra hn
    exact ho (hB0 _ (not_le.1 hn).le)
  rcases lt_or_ge s t0 with hlt | hge
  · exact hb s s0 hlt (capsule_cyl hc)
  · obtain ⟨s', l, u, hB, _⟩ := through_low h0 hy hge hc
    rcases lt_or_ge s' 0 with hn | hn
    · apply ho
      rw [← at_zero]
      exact capsule_convex (hB0 _ hB) hc hn.le s0
    · rcases eq_or_lt_of_le hn with e | e
      · rw [← e, at_zero] at hB
        exact ho (hB0 _ hB)
      · exact sphereFraction_miss hq he hd ho' h s' e (by linarith) hB

/-! The other end by reflection. -/

/-- Reflection at the plane `y = 0`. -/
def flip (v : V3 K) : V3 K := ⟨v.x, -v.y, v.z⟩

def flipRay (r : Ray K) : Ray K := ⟨flip r.p1, flip r.p2, r.maxF⟩

theorem flip_at (r : Ray K) (t : K) : (flipRay r).at t = flip (r.at t) := by
  simp only [Ray.at, flipRay, flip, Ray.dir]
  ext <;> simp <;> ring

theorem flip_flip (v : V3 K) : flip (flip v) = v := by simp [flip]

theorem flip_ball {y radius : K} {x : V3 K} : Ball ⟨0, y, 0⟩ radius (flip x) ↔ Ball ⟨0, -y, 0⟩ radius x := by
  simp only [Ball, V3.lengthSq, V3.sub_x, V3.sub_y, V3.sub_z, flip]
  have : (-x.y - y) * (-x.y - y) = (x.y - -y) * (x.y - -y) := by ring
  rw [this]

theorem flip_capsule {radius hh : K} {x : V3 K} : Capsule radius hh (flip x) ↔ Capsule radius hh x := by
  constructor
  · rintro ⟨y, l, u, hB⟩
    exact ⟨-y, by linarith, by linarith, flip_ball.1 hB⟩
  · rintro ⟨y, l, u, hB⟩
    refine ⟨-y, by linarith, by linarith, flip_ball.2 ?_⟩
    rwa [neg_neg]

theorem flip_cyl {radius : K} {x : V3 K} : InCyl radius (flip x) ↔ InCyl radius x := Iff.rfl

theorem flip_dir (r : Ray K) : (flipRay r).dir = flip r.dir := by
  simp only [Ray.dir, flipRay, flip]
  ext <;> simp <;> ring

theorem flip_lengthSq (v : V3 K) : (flip v).lengthSq = v.lengthSq := by
  simp [flip, V3.lengthSq]

theorem flip_dot (u v : V3 K) : (flip u).dot (flip v) = u.dot v := by
  simp [flip, V3.dot]

theorem flip_fraction {sqrt : K → K} {eps radius y : K} {r : Ray K} :
    sphereFraction eps sqrt radius ⟨0, -y, 0⟩ (flipRay r) = sphereFraction eps sqrt radius ⟨0, y, 0⟩ r := by
  have e : (flipRay r).p1 - (⟨0, -y, 0⟩ : V3 K) = flip (r.p1 - ⟨0, y, 0⟩) := by
    simp only [flipRay, flip]
    ext <;> simp <;> ring
  unfold sphereFraction
  dsimp only
  rw [e, flip_dir, flip_dot, flip_dot, flip_lengthSq]
  rfl

theorem high_hit {sqrt : K → K} (hq : IsSqrt sqrt) {eps radius hh t t0 : K} {r : Ray K} (he : 0 < eps) (hr : 0 < radius)
    (hp : 0 ≤ hh) (h0 : InCyl radius (r.at t0)) (hy : hh ≤ (r.at t0).y)
    (hb : ∀ s, 0 ≤ s → s < t0 → ¬ InCyl radius (r.at s)) (h : sphereFraction eps sqrt radius ⟨0, hh, 0⟩ r = some t) :
    IsFirst (Capsule radius hh) r t ∧ t < r.maxF ∧ Outward (Capsule radius hh) r t (r.at t - ⟨0, hh, 0⟩) := by
  rw [← flip_fraction] at h
  obtain ⟨⟨f0, f1, f2⟩, f3, g1, g2, g3⟩ := low_hit hq he hr hp (t0 := t0) (r := flipRay r)
    (by rw [flip_at, flip_cyl]; exact h0) (by rw [flip_at]; show -(r.at t0).y ≤ -hh; linarith)
    (fun s s0 s1 => by rw [flip_at, flip_cyl]; exact hb s s0 s1) h
  have e : (flipRay r).at t - (⟨0, -hh, 0⟩ : V3 K) = flip (r.at t - ⟨0, hh, 0⟩) := by
    rw [flip_at]; simp only [flip]; ext <;> simp <;> ring
  rw [e] at g1 g2 g3
  rw [flip_at, flip_capsule] at f1
  refine ⟨⟨f0, f1, fun s s0 s1 hc => f2 s s0 s1 (by rw [flip_at, flip_capsule]; exact hc)⟩, f3, ?_, ?_, ?_⟩
  · intro hz
    apply g1
    rw [hz]; simp only [flip]; ext <;> simp
  · rwa [flip_dir, flip_dot] at g2
  · intro x hx
    have := g3 (flip x) (flip_capsule.2 hx)
    rwa [flip_at, flip_dot, flip_dot] at this

theorem high_miss {sqrt : K → K} (hq : IsSqrt sqrt) {eps radius hh t0 : K} {r : Ray K} (he : 0 < eps)
    (hd : eps ≤ r.dir.lengthSq) (hp : 0 ≤ hh) (h0 : InCyl radius (r.at t0)) (hy : hh ≤ (r.at t0).y)
    (hb : ∀ s, 0 ≤ s → s < t0 → ¬ InCyl radius (r.at s)) (ho : ¬ Capsule radius hh r.p1)
    (h : sphereFraction eps sqrt radius ⟨0, hh, 0⟩ r = none) :
    ∀ s, 0 ≤ s → s < r.maxF → ¬ Capsule radius hh (r.at s) := by
  rw [← flip_fraction] at h
  have := low_miss hq he (r := flipRay r) (by rw [flip_dir, flip_lengthSq]; exact hd) hp (t0 := t0)
    (by rw [flip_at, flip_cyl]; exact h0) (by rw [flip_at]; show -(r.at t0).y ≤ -hh; linarith)
    (fun s s0 s1 => by rw [flip_at, flip_cyl]; exact hb s s0 s1)
    (fun hc => ho (flip_capsule.1 hc)) h
  intro s s0 s1 hc
  exact this s s0 s1 (by rw [flip_at, flip_capsule]; exact hc)

/-- The first root of `L t² + 2 b t + c`, of any sign. -/
theorem first_root' {L b c s : K} (hL : 0 < L) (h0 : 0 ≤ s) (hs : s * s = b * b - L * c) :
    L * ((-b - s) / L * ((-b - s) / L)) + 2 * b * ((-b - s) / L) + c = 0 ∧
      ∀ t, t < (-b - s) / L → 0 < L * (t * t) + 2 * b * t + c := by
  refine ⟨?_, ?_⟩
  · field_simp
    linear_combination hs
  · intro t ht
    have h1 : t * L < -b - s := by rwa [lt_div_iff₀ hL] at ht
    have h2 : s * s < (L * t + b) * (L * t + b) := by nlinarith
    have h3 : 0 < L * (L * (t * t) + 2 * b * t + c) := by nlinarith
    exact pos_of_mul_pos_right h3 hL.le

/-- The square of the distance from the axis, times `4 hh²`, is the quadratic function of the code. -/
theorem cyl_quadratic (radius hh t : K) (r : Ray K) :
    4 * hh * hh * ((r.at t).x * (r.at t).x + (r.at t).z * (r.at t).z - radius * radius) =
      (4 * hh * hh * (r.dir.x * r.dir.x + r.dir.z * r.dir.z)) * (t * t) +
        2 * (4 * hh * hh * (r.p1.x * r.dir.x + r.p1.z * r.dir.z)) * t +
        4 * hh * hh * (r.p1.x * r.p1.x + r.p1.z * r.p1.z - radius * radius) := by
  simp only [Ray.at, V3.add_x, V3.add_z, V3.smul_x, V3.smul_z]
  ring

/-- The code with its dot products computed. -/
theorem capsule_eq (eps epsA : K) (sqrt : K → K) (radius hh : K) (r : Ray K) : capsule eps epsA sqrt radius hh r =
    if (r.p1.y + hh + radius) * (2 * hh) < 0 ∧ (r.p1.y + hh + radius) * (2 * hh) + r.dir.y * (2 * hh) < 0 then none
    else if (r.p1.y + hh + radius) * (2 * hh) > (2 * hh + 2 * radius) * (2 * hh) ∧
        (r.p1.y + hh + radius) * (2 * hh) + r.dir.y * (2 * hh) > (2 * hh + 2 * radius) * (2 * hh) then none
    else
      let a := 4 * hh * hh * (r.dir.x * r.dir.x + r.dir.z * r.dir.z)
      let b := 4 * hh * hh * (r.p1.x * r.dir.x + r.p1.z * r.dir.z)
      let c := 4 * hh * hh * (r.p1.x * r.p1.x + r.p1.z * r.p1.z - radius * radius)
      if |a| < epsA then
        if c > 0 then none
        else if (r.p1.y + hh) * (2 * hh) < 0 then endCap eps sqrt radius r ⟨0, -hh, 0⟩
        else if (r.p1.y + hh) * (2 * hh) > (2 * hh) * (2 * hh) then endCap eps sqrt radius r ⟨0, hh, 0⟩
        else none
      else
        if b * b - a * c < 0 then none
        else
          let t := (-b - sqrt (b * b - a * c)) / a
          if ((r.at t).y + hh) * (2 * hh) < 0 then endCap eps sqrt radius r ⟨0, -hh, 0⟩
          else if ((r.at t).y + hh) * (2 * hh) > (2 * hh) * (2 * hh) then endCap eps sqrt radius r ⟨0, hh, 0⟩
          else if t < 0 ∨ t > r.maxF then none
          else some ⟨t, r.at t, r.at t - (⟨0, -hh, 0⟩ +
            V3.smul ((r.at t - ⟨0, -hh, 0⟩).dot (⟨0, hh, 0⟩ - ⟨0, -hh, 0⟩) /
              (⟨0, hh, 0⟩ - ⟨0, -hh, 0⟩ : V3 K).lengthSq) (⟨0, hh, 0⟩ - ⟨0, -hh, 0⟩))⟩ := by
  have e1 : (r.p1 - (⟨0, -hh - radius, 0⟩ : V3 K)).dot ((⟨0, hh, 0⟩ : V3 K) - ⟨0, -hh, 0⟩) = (r.p1.y + hh + radius) * (2 * hh) := by
    simp only [V3.dot, V3.sub_x, V3.sub_y, V3.sub_z]; ring
  have e2 : r.dir.dot ((⟨0, hh, 0⟩ : V3 K) - ⟨0, -hh, 0⟩) = r.dir.y * (2 * hh) := by
    simp only [V3.dot, V3.sub_x, V3.sub_y, V3.sub_z]; ring
  have e3 : ((⟨0, hh, 0⟩ : V3 K) - ⟨0, -hh, 0⟩).dot ((⟨0, hh, 0⟩ : V3 K) - ⟨0, -hh, 0⟩) = (2 * hh) * (2 * hh) := by
    simp only [V3.dot, V3.sub_x, V3.sub_y, V3.sub_z]; ring
  have e4 : (2 * hh) * (2 * hh) + 2 * radius * ((⟨0, hh, 0⟩ : V3 K) - ⟨0, -hh, 0⟩).y = (2 * hh + 2 * radius) * (2 * hh) := by
    simp only [V3.sub_y]; ring
  have e5 : (r.p1 - (⟨0, -hh, 0⟩ : V3 K)).dot ((⟨0, hh, 0⟩ : V3 K) - ⟨0, -hh, 0⟩) = (r.p1.y + hh) * (2 * hh) := by
    simp only [V3.dot, V3.sub_x, V3.sub_y, V3.sub_z]; ring
  have e6 : 2 * hh * (2 * hh) * (r.dir.dot r.dir) - r.dir.y * (2 * hh) * (r.dir.y * (2 * hh)) =
      4 * hh * hh * (r.dir.x * r.dir.x + r.dir.z * r.dir.z) := by
    simp only [V3.dot]; ring
  have e7 : 2 * hh * (2 * hh) * ((r.p1 - (⟨0, -hh, 0⟩ : V3 K)).dot (r.p1 - (⟨0, -hh, 0⟩ : V3 K)) - radius * radius) -
      (r.p1.y + hh) * (2 * hh) * ((r.p1.y + hh) * (2 * hh)) =
      4 * hh * hh * (r.p1.x * r.p1.x + r.p1.z * r.p1.z - radius * radius) := by
    simp only [V3.dot, V3.sub_x, V3.sub_y, V3.sub_z]; ring
  have e8 : 2 * hh * (2 * hh) * ((r.p1 - (⟨0, -hh, 0⟩ : V3 K)).dot r.dir) - r.dir.y * (2 * hh) * ((r.p1.y + hh) * (2 * hh)) =
      4 * hh * hh * (r.p1.x * r.dir.x + r.p1.z * r.dir.z) := by
    simp only [V3.dot, V3.sub_x, V3.sub_y, V3.sub_z]; ring
  have e9 : ∀ t, (r.p1.y + hh) * (2 * hh) + t * (r.dir.y * (2 * hh)) = ((r.at t).y + hh) * (2 * hh) := by
    intro t; simp only [Ray.at, V3.add_y, V3.smul_y]; ring
  unfold capsule
  dsimp only
  simp only [e1, e2, e3, e4, e5, e6, e7, e8, e9]

theorem capsule_not_low {radius hh : K} {x : V3 K} (hr : 0 < radius) (h : x.y < -hh - radius) : ¬ Capsule radius hh x := by
  rintro ⟨y, l, u, hB⟩
  simp only [Ball, V3.lengthSq, V3.sub_x, V3.sub_y, V3.sub_z] at hB
  nlinarith [mul_self_nonneg (x.x - 0), mul_self_nonneg (x.z - 0)]

theorem capsule_not_high {radius hh : K} {x : V3 K} (hr : 0 < radius) (h : hh + radius < x.y) : ¬ Capsule radius hh x := by
  rintro ⟨y, l, u, hB⟩
  simp only [Ball, V3.lengthSq, V3.sub_x, V3.sub_y, V3.sub_z] at hB
  nlinarith [mul_self_nonneg (x.x - 0), mul_self_nonneg (x.z - 0)]

/-- The normal on the side of the cylinder. -/
theorem side_normal {radius hh : K} {P dir : V3 K} (hP : P.x * P.x + P.z * P.z = radius * radius) (hr : 0 < radius)
    (hp : 0 < hh) (n : V3 K) (hn : n = P - (⟨0, -hh, 0⟩ + V3.smul ((P - ⟨0, -hh, 0⟩).dot (⟨0, hh, 0⟩ - ⟨0, -hh, 0⟩) /
              (⟨0, hh, 0⟩ - ⟨0, -hh, 0⟩ : V3 K).lengthSq) (⟨0, hh, 0⟩ - ⟨0, -hh, 0⟩))) :
    n ≠ 0 ∧ n.dot dir = P.x * dir.x + P.z * dir.z ∧ ∀ x, Capsule radius hh x → n.dot x ≤ n.dot P := by
  have e : n = ⟨P.x, 0, P.z⟩ := by
    rw [hn]
    ext
    · simp [V3.smul]
    · simp only [V3.sub_x, V3.sub_y, V3.sub_z, V3.add_y, V3.smul_y, V3.dot, V3.lengthSq]
      have : (hh - -hh) ≠ 0 := by linarith
      field_simp
      ring
    · simp [V3.smul]
  rw [e]
  refine ⟨?_, by simp [V3.dot], ?_⟩
  · refine ne_zero_of_lengthSq (mul_pos hr hr) ?_
    simp only [V3.lengthSq]
    linarith
  · intro x hx
    have hc : _ ≤ _ := capsule_cyl hx
    simp only [V3.dot]
    nlinarith [mul_self_nonneg (P.x - x.x), mul_self_nonneg (P.z - x.z)]

/-- Ray casts against a capsule: a hit is the first point of the capsule on the ray, within the range, with an outward
normal; if there is no hit and the origin is not in the capsule, the ray does not meet the capsule within its range. The ray
is exactly parallel to the axis or clearly not (the constant 0.01 of the code), and its range is at most the segment between
the two points. -/
theorem capsule_raycast {sqrt : K → K} (hq : IsSqrt sqrt) {eps epsA radius hh : K} {r : Ray K} (he : 0 < eps)
    (heA : 0 < epsA) (hr : 0 < radius) (hp : 0 < hh) (hd : eps ≤ r.dir.lengthSq) (hm : r.maxF ≤ 1)
    (hcl : ClearOf epsA (4 * hh * hh * (r.dir.x * r.dir.x + r.dir.z * r.dir.z))) :
    (∀ h, capsule eps epsA sqrt radius hh r = some h → IsFirst (Capsule radius hh) r h.fraction ∧ h.fraction ≤ r.maxF ∧
        h.point = r.at h.fraction ∧ Outward (Capsule radius hh) r h.fraction h.normal) ∧
      (capsule eps epsA sqrt radius hh r = none → ¬ Capsule radius hh r.p1 →
        ∀ s, 0 ≤ s → s < r.maxF → ¬ Capsule radius hh (r.at s)) := by
  rw [capsule_eq]
  have h2 : 0 < 2 * hh := by linarith
  have h4 : 0 < 4 * hh * hh := by positivity
  have ey : ∀ s, (r.at s).y = r.p1.y + s * r.dir.y := fun s => rfl
  have mneg : ∀ x, x * (2 * hh) < 0 → x < 0 := fun x hx => by
    by_contra hn
    linarith [mul_nonneg (not_lt.1 hn) h2.le]
  have mle : ∀ x y, x * (2 * hh) ≤ y * (2 * hh) → x ≤ y := fun x y hx => le_of_mul_le_mul_right hx h2
  have mlt : ∀ x y, x * (2 * hh) < y * (2 * hh) → x < y := fun x y hx => lt_of_mul_lt_mul_right hx h2.le
  -- the two results of an end cap
  have low : ∀ t0, InCyl radius (r.at t0) → (r.at t0).y ≤ -hh → (∀ s, 0 ≤ s → s < t0 → ¬ InCyl radius (r.at s)) →
      (∀ h, endCap eps sqrt radius r ⟨0, -hh, 0⟩ = some h → IsFirst (Capsule radius hh) r h.fraction ∧ h.fraction ≤ r.maxF ∧
        h.point = r.at h.fraction ∧ Outward (Capsule radius hh) r h.fraction h.normal) ∧
      (endCap eps sqrt radius r ⟨0, -hh, 0⟩ = none → ¬ Capsule radius hh r.p1 →
        ∀ s, 0 ≤ s → s < r.maxF → ¬ Capsule radius hh (r.at s)) := by
    intro t0 c1 c2 c3
    unfold endCap
    cases hf : sphereFraction eps sqrt radius ⟨0, -hh, 0⟩ r with
    | none => exact ⟨by simp, fun _ ho => low_miss hq he hd hp.le c1 c2 c3 ho hf⟩
    | some t =>
      refine ⟨?_, by simp⟩
      rintro _ ⟨⟩
      obtain ⟨a1, a2, a3⟩ := low_hit hq he hr hp.le c1 c2 c3 hf
      exact ⟨a1, a2.le, rfl, a3⟩
  have high : ∀ t0, InCyl radius (r.at t0) → hh ≤ (r.at t0).y → (∀ s, 0 ≤ s → s < t0 → ¬ InCyl radius (r.at s)) →
      (∀ h, endCap eps sqrt radius r ⟨0, hh, 0⟩ = some h → IsFirst (Capsule radius hh) r h.fraction ∧ h.fraction ≤ r.maxF ∧
        h.point = r.at h.fraction ∧ Outward (Capsule radius hh) r h.fraction h.normal) ∧
      (endCap eps sqrt radius r ⟨0, hh, 0⟩ = none → ¬ Capsule radius hh r.p1 →
        ∀ s, 0 ≤ s → s < r.maxF → ¬ Capsule radius hh (r.at s)) := by
    intro t0 c1 c2 c3
    unfold endCap
    cases hf : sphereFraction eps sqrt radius ⟨0, hh, 0⟩ r with
    | none => exact ⟨by simp, fun _ ho => high_miss hq he hd hp.le c1 c2 c3 ho hf⟩
    | some t =>
      refine ⟨?_, by simp⟩
      rintro _ ⟨⟩
      obtain ⟨a1, a2, a3⟩ := high_hit hq he hr hp.le c1 c2 c3 hf
      exact ⟨a1, a2.le, rfl, a3⟩
  by_cases r1 : (r.p1.y + hh + radius) * (2 * hh) < 0 ∧ (r.p1.y + hh + radius) * (2 * hh) + r.dir.y * (2 * hh) < 0
  · rw [if_pos r1]
    refine ⟨by simp, fun _ _ s s0 s1 => capsule_not_low hr ?_⟩
    have a1 : r.p1.y + hh + radius < 0 := mneg _ r1.1
    have a2 : r.p1.y + hh + radius + r.dir.y < 0 := mneg _ (by linarith [r1.2])
    rw [ey]
    nlinarith
  rw [if_neg r1]
  by_cases r2 : (r.p1.y + hh + radius) * (2 * hh) > (2 * hh + 2 * radius) * (2 * hh) ∧
        (r.p1.y + hh + radius) * (2 * hh) + r.dir.y * (2 * hh) > (2 * hh + 2 * radius) * (2 * hh)
  · rw [if_pos r2]
    refine ⟨by simp, fun _ _ s s0 s1 => capsule_not_high hr ?_⟩
    have a1 : 0 < r.p1.y - hh - radius := by linarith [mlt _ _ r2.1]
    have a2 : 0 < r.p1.y - hh - radius + r.dir.y := by linarith [mlt (2 * hh + 2 * radius) (r.p1.y + hh + radius + r.dir.y) (by linarith [r2.2])]
    rw [ey]
    nlinarith
  rw [if_neg r2]
  have hI : ∀ t, InCyl radius (r.at t) ↔ (4 * hh * hh * (r.dir.x * r.dir.x + r.dir.z * r.dir.z)) * (t * t) +
        2 * (4 * hh * hh * (r.p1.x * r.dir.x + r.p1.z * r.dir.z)) * t +
        4 * hh * hh * (r.p1.x * r.p1.x + r.p1.z * r.p1.z - radius * radius) ≤ 0 := by
    intro t
    rw [← cyl_quadratic]
    unfold InCyl
    constructor
    · intro h; nlinarith
    · intro h
      by_contra hn
      have : 0 < (r.at t).x * (r.at t).x + (r.at t).z * (r.at t).z - radius * radius := by linarith [not_le.1 hn]
      linarith [mul_pos h4 this]
  dsimp only
  rcases hcl with ha | ha
  · -- parallel to the axis
    have r3 : |4 * hh * hh * (r.dir.x * r.dir.x + r.dir.z * r.dir.z)| < epsA := by rw [ha, abs_zero]; exact heA
    rw [if_pos r3]
    have hA : r.dir.x * r.dir.x + r.dir.z * r.dir.z = 0 := by
      rcases mul_eq_zero.1 ha with h | h
      · exact absurd h h4.ne'
      · exact h
    have dx : r.dir.x = 0 := by
      have : r.dir.x * r.dir.x = 0 := by nlinarith [mul_self_nonneg r.dir.x, mul_self_nonneg r.dir.z]
      exact mul_self_eq_zero.1 this
    have dz : r.dir.z = 0 := by
      have : r.dir.z * r.dir.z = 0 := by nlinarith [mul_self_nonneg r.dir.x, mul_self_nonneg r.dir.z]
      exact mul_self_eq_zero.1 this
    simp only [dx, dz, mul_zero, add_zero, zero_mul, zero_add] at hI
    split_ifs with r4 r5 r6
    · refine ⟨by simp, fun _ _ s _ _ hc => ?_⟩
      have := (hI s).1 (capsule_cyl hc)
      linarith
    · refine low 0 ((hI 0).2 (not_lt.1 r4)) ?_ (fun s s0 s1 => absurd s0 (not_le.2 s1))
      rw [at_zero]
      linarith [mneg _ r5]
    · refine high 0 ((hI 0).2 (not_lt.1 r4)) ?_ (fun s s0 s1 => absurd s0 (not_le.2 s1))
      rw [at_zero]
      linarith [mlt _ _ r6]
    · refine ⟨by simp, fun _ ho => absurd ?_ ho⟩
      have hc : InCyl radius r.p1 := by rw [← at_zero]; exact (hI 0).2 (not_lt.1 r4)
      refine cyl_capsule hc ?_ ?_
      · linarith [mle 0 (r.p1.y + hh) (by linarith [not_lt.1 r5])]
      · linarith [mle (r.p1.y + hh) (2 * hh) (not_lt.1 r6)]
  · have hAn : 0 ≤ 4 * hh * hh * (r.dir.x * r.dir.x + r.dir.z * r.dir.z) := by
      have := mul_self_nonneg r.dir.x
      have := mul_self_nonneg r.dir.z
      positivity
    have r3 : ¬ |4 * hh * hh * (r.dir.x * r.dir.x + r.dir.z * r.dir.z)| < epsA := not_lt.2 ha
    have hA : 0 < 4 * hh * hh * (r.dir.x * r.dir.x + r.dir.z * r.dir.z) := by
      rw [abs_of_nonneg hAn] at ha
      exact lt_of_lt_of_le heA ha
    rw [if_neg r3]
    have hn : ∀ t, 4 * hh * hh * ((r.at t).x * r.dir.x + (r.at t).z * r.dir.z) =
        4 * hh * hh * (r.dir.x * r.dir.x + r.dir.z * r.dir.z) * t + 4 * hh * hh * (r.p1.x * r.dir.x + r.p1.z * r.dir.z) := by
      intro t
      simp only [Ray.at, V3.add_x, V3.add_z, V3.smul_x, V3.smul_z]
      ring
    have hz : ∀ t, 4 * hh * hh * (r.dir.x * r.dir.x + r.dir.z * r.dir.z) * (t * t) +
        2 * (4 * hh * hh * (r.p1.x * r.dir.x + r.p1.z * r.dir.z)) * t +
        4 * hh * hh * (r.p1.x * r.p1.x + r.p1.z * r.p1.z - radius * radius) = 0 →
        (r.at t).x * (r.at t).x + (r.at t).z * (r.at t).z = radius * radius := by
      intro t ht
      rw [← cyl_quadratic] at ht
      rcases mul_eq_zero.1 ht with h | h
      · exact absurd h h4.ne'
      · linarith
    generalize 4 * hh * hh * (r.dir.x * r.dir.x + r.dir.z * r.dir.z) = A at *
    generalize 4 * hh * hh * (r.p1.x * r.dir.x + r.p1.z * r.dir.z) = B at *
    generalize 4 * hh * hh * (r.p1.x * r.p1.x + r.p1.z * r.p1.z - radius * radius) = C at *
    by_cases r4 : B * B - A * C < 0
    · rw [if_pos r4]
      refine ⟨by simp, fun _ _ s _ _ hc => ?_⟩
      have := (hI s).1 (capsule_cyl hc)
      nlinarith [mul_self_nonneg (A * s + B)]
    rw [if_neg r4]
    obtain ⟨q0, q1⟩ := hq _ (not_lt.1 r4)
    obtain ⟨f1, f2⟩ := first_root' hA q0 q1
    have f3 : A * ((-B - sqrt (B * B - A * C)) / A) + B ≤ 0 := by
      rw [mul_div_cancel₀ _ hA.ne']
      linarith
    generalize (-B - sqrt (B * B - A * C)) / A = t0 at *
    have c1 : InCyl radius (r.at t0) := (hI t0).2 f1.le
    have c2 : ∀ s, 0 ≤ s → s < t0 → ¬ InCyl radius (r.at s) := fun s _ hs hc => by
      have := (hI s).1 hc
      linarith [f2 s hs]
    split_ifs with r5 r6 r7
    · refine low t0 c1 ?_ c2
      linarith [mneg _ r5]
    · refine high t0 c1 ?_ c2
      linarith [mlt _ _ r6]
    · have l1 : -hh ≤ (r.at t0).y := by linarith [mle 0 ((r.at t0).y + hh) (by linarith [not_lt.1 r5])]
      have l2 : (r.at t0).y ≤ hh := by linarith [mle ((r.at t0).y + hh) (2 * hh) (not_lt.1 r6)]
      refine ⟨by simp, fun _ ho s s0 s1 hc => ?_⟩
      rcases r7 with r7 | r7
      · apply ho
        rw [← at_zero]
        exact capsule_convex (cyl_capsule c1 l1 l2) hc r7.le s0
      · exact c2 s s0 (by linarith) (capsule_cyl hc)
    · have l1 : -hh ≤ (r.at t0).y := by linarith [mle 0 ((r.at t0).y + hh) (by linarith [not_lt.1 r5])]
      have l2 : (r.at t0).y ≤ hh := by linarith [mle ((r.at t0).y + hh) (2 * hh) (not_lt.1 r6)]
      simp only [not_or, not_lt] at r7
      refine ⟨?_, by simp⟩
      rintro _ ⟨⟩
      refine ⟨⟨r7.1, cyl_capsule c1 l1 l2, fun s s0 s1 hc => c2 s s0 s1 (capsule_cyl hc)⟩, r7.2, rfl, ?_⟩
      have hside := side_normal (dir := r.dir) (hz t0 f1) hr hp _ rfl
      refine ⟨hside.1, ?_, hside.2.2⟩
      rw [hside.2.1]
      have := hn t0
      by_contra hneg
      linarith [mul_pos h4 (not_le.1 hneg)]

/-- The constant 0.01 is compared with a product of squared lengths: for a capsule of height and radius 5 cm, a ray across
the axis that is 80 cm long counts as parallel to the axis and misses, though it starts outside of the capsule and passes
through its centre. -/
theorem capsule_short_ray_misses (eps : ℚ) (sqrt : ℚ → ℚ) :
    let r : Ray ℚ := ⟨⟨-2/5, 0, 0⟩, ⟨2/5, 0, 0⟩, 1⟩
    capsule eps (1/100) sqrt (1/20) (1/20) r = none ∧ ¬ Capsule (1/20) (1/20) r.p1 ∧ Capsule (1/20) (1/20) (r.at (1/2)) := by
  intro r
  refine ⟨?_, ?_, ?_⟩
  · rw [capsule_eq, if_neg (by decide +kernel), if_neg (by decide +kernel)]
    dsimp only
    rw [if_pos (by decide +kernel), if_pos (by decide +kernel)]
  · intro h
    exact absurd (capsule_cyl h) (by unfold InCyl; decide +kernel)
  · exact ⟨0, by decide +kernel, by decide +kernel, by unfold Ball; decide +kernel⟩

/-- The early rejection looks at the segment between the two points: with a range longer than the segment, a ray towards the
capsule misses. -/
theorem capsule_long_range_misses (eps : ℚ) (sqrt : ℚ → ℚ) :
    let r : Ray ℚ := ⟨⟨0, -10, 0⟩, ⟨0, -9, 0⟩, 20⟩
    capsule eps (1/100) sqrt 1 1 r = none ∧ ¬ Capsule 1 1 r.p1 ∧ Capsule 1 1 (r.at 10) := by
  intro r
  refine ⟨?_, ?_, ?_⟩
  · rw [capsule_eq, if_pos (by decide +kernel)]
  · exact capsule_not_low (by decide +kernel) (by decide +kernel)
  · exact ⟨0, by decide +kernel, by decide +kernel, by unfold Ball; decide +kernel⟩

end RayProps
end RP3D
