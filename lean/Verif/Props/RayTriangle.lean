import Verif.Props.RayCapsule

/-! C77: ray casts against triangles report the point of the triangle on the ray. -/

namespace RP3D
namespace RayProps
open Ray

variable {K : Type} [Field K] [LinearOrder K] [IsStrictOrderedRing K]

/-- Specification: the triangle, the convex combinations of its vertices. -/
def Tri (a b c : V3 K) (x : V3 K) : Prop :=
  ∃ i j k : K, 0 ≤ i ∧ 0 ≤ j ∧ 0 ≤ k ∧ i + j + k = 1 ∧ x = V3.smul i a + V3.smul j b + V3.smul k c

/-- The normal of the side from which the vertices appear counter-clockwise. -/
def triNormal (a b c : V3 K) : V3 K := (b - a).cross (c - a)

/-- The three triple products of the code. -/
def tripU (b c : V3 K) (r : Ray K) : K := (b - r.p1).dot (r.dir.cross (c - r.p1))
def tripV (a c : V3 K) (r : Ray K) : K := -((a - r.p1).dot (r.dir.cross (c - r.p1)))
def tripW (a b : V3 K) (r : Ray K) : K := (a - r.p1).dot (r.dir.cross (b - r.p1))

omit [LinearOrder K] [IsStrictOrderedRing K] in
theorem trip_sum (a b c : V3 K) (r : Ray K) : tripU b c r + tripV a c r + tripW a b r = -((triNormal a b c).dot r.dir) := by
  simp only [tripU, tripV, tripW, triNormal, V3.dot, V3.cross, V3.sub_x, V3.sub_y, V3.sub_z]
  ring

/-- The point computed from the triple products is on the ray. -/
theorem trip_point {a b c : V3 K} {r : Ray K} (hN : tripU b c r + tripV a c r + tripW a b r ≠ 0) {f : K}
    (hf : f = -((a - r.p1).dot ((b - r.p1).cross (c - r.p1))) / (tripU b c r + tripV a c r + tripW a b r)) :
    V3.smul (tripU b c r * (1 / (tripU b c r + tripV a c r + tripW a b r))) a +
      V3.smul (tripV a c r * (1 / (tripU b c r + tripV a c r + tripW a b r))) b +
      V3.smul (tripW a b r * (1 / (tripU b c r + tripV a c r + tripW a b r))) c = r.at f := by
  have key : ∀ p : V3 K → K, (∀ u v, p (u - v) = p u - p v) →
      (p = V3.x ∨ p = V3.y ∨ p = V3.z) →
      tripU b c r * p a + tripV a c r * p b + tripW a b r * p c =
        (tripU b c r + tripV a c r + tripW a b r) * p r.p1 + -((a - r.p1).dot ((b - r.p1).cross (c - r.p1))) * p r.dir := by
    intro p _ hp
    rcases hp with rfl | rfl | rfl <;>
    · simp only [tripU, tripV, tripW, V3.dot, V3.cross, V3.sub_x, V3.sub_y, V3.sub_z]
      ring
  rw [hf]
  ext
  · simp only [Ray.at, V3.add_x, V3.smul_x]
    have := key V3.x (fun _ _ => rfl) (Or.inl rfl)
    generalize tripU b c r + tripV a c r + tripW a b r = N at *
    field_simp
    linear_combination this
  · simp only [Ray.at, V3.add_y, V3.smul_y]
    have := key V3.y (fun _ _ => rfl) (Or.inr (Or.inl rfl))
    generalize tripU b c r + tripV a c r + tripW a b r = N at *
    field_simp
    linear_combination this
  · simp only [Ray.at, V3.add_z, V3.smul_z]
    have := key V3.z (fun _ _ => rfl) (Or.inr (Or.inr rfl))
    generalize tripU b c r + tripV a c r + tripW a b r = N at *
    field_simp
    linear_combination this

/-- If a point of the ray is in the triangle, the triple products are its barycentric coordinates, up to a factor. -/
theorem trip_bary {a b c : V3 K} {r : Ray K} {s i j k : K} (h1 : i + j + k = 1)
    (h : r.at s = V3.smul i a + V3.smul j b + V3.smul k c) :
    tripU b c r = i * -((triNormal a b c).dot r.dir) ∧ tripV a c r = j * -((triNormal a b c).dot r.dir) ∧
      tripW a b r = k * -((triNormal a b c).dot r.dir) := by
  have hi : i = 1 - j - k := by linear_combination h1
  have hx : r.p1.x = i * a.x + j * b.x + k * c.x - s * r.dir.x := by
    have := congrArg V3.x h
    simp only [Ray.at, V3.add_x, V3.smul_x] at this
    linear_combination this
  have hy : r.p1.y = i * a.y + j * b.y + k * c.y - s * r.dir.y := by
    have := congrArg V3.y h
    simp only [Ray.at, V3.add_y, V3.smul_y] at this
    linear_combination this
  have hz : r.p1.z = i * a.z + j * b.z + k * c.z - s * r.dir.z := by
    have := congrArg V3.z h
    simp only [Ray.at, V3.add_z, V3.smul_z] at this
    linear_combination this
  generalize hd : r.dir = d at *
  simp only [tripU, tripV, tripW, triNormal, V3.dot, V3.cross, V3.sub_x, V3.sub_y, V3.sub_z, hd]
  rw [hx, hy, hz, hi]
  refine ⟨?_, ?_, ?_⟩ <;> ring

/-- All points of the triangle are in its plane. -/
theorem tri_plane {a b c x : V3 K} (h : Tri a b c x) : (triNormal a b c).dot x = (triNormal a b c).dot a := by
  obtain ⟨i, j, k, _, _, _, e, rfl⟩ := h
  have : i = 1 - j - k := by linear_combination e
  subst this
  simp only [triNormal, V3.dot, V3.cross, V3.sub_x, V3.sub_y, V3.sub_z, V3.add_x, V3.add_y, V3.add_z, V3.smul_x, V3.smul_y, V3.smul_z]
  ring

theorem dot_at (n : V3 K) (r : Ray K) (t : K) : n.dot (r.at t) = n.dot r.p1 + t * n.dot r.dir := by
  simp only [V3.dot, Ray.at, V3.add_x, V3.add_y, V3.add_z, V3.smul_x, V3.smul_y, V3.smul_z]
  ring

/-- A ray that is not parallel to the triangle has at most one point in it. -/
theorem tri_first {a b c : V3 K} {r : Ray K} {t : K} (hn : (triNormal a b c).dot r.dir ≠ 0) (h0 : 0 ≤ t)
    (h : Tri a b c (r.at t)) : IsFirst (Tri a b c) r t := by
  refine ⟨h0, h, fun s s0 s1 hs => ?_⟩
  have h1 := tri_plane h
  have h2 := tri_plane hs
  rw [dot_at] at h1 h2
  have : (t - s) * (triNormal a b c).dot r.dir = 0 := by linear_combination h1 - h2
  rcases mul_eq_zero.1 this with h | h
  · linarith
  · exact hn h

/-- The code in terms of the triple products. -/
theorem triangle_eq (eps : K) (side : Side) (a b c : V3 K) (r : Ray K) : triangle eps side a b c r =
    if ((side = .front ∧ tripU b c r < 0) ∨ (side = .back ∧ tripU b c r > 0)) ∨
        ((side = .front ∧ tripV a c r < 0) ∨ (side = .back ∧ tripV a c r > 0) ∨
          (side = .frontAndBack ∧ ¬ tripU b c r * tripV a c r ≥ 0)) ∨
        ((side = .front ∧ tripW a b r < 0) ∨ (side = .back ∧ tripW a b r > 0) ∨
          (side = .frontAndBack ∧ ¬ tripU b c r * tripW a b r ≥ 0)) then .miss
    else if |tripU b c r| < eps ∧ |tripV a c r| < eps ∧ |tripW a b r| < eps then .miss
    else if tripU b c r + tripV a c r + tripW a b r = 0 then .nan
    else
      let hp := V3.smul (tripU b c r * (1 / (tripU b c r + tripV a c r + tripW a b r))) a +
        V3.smul (tripV a c r * (1 / (tripU b c r + tripV a c r + tripW a b r))) b +
        V3.smul (tripW a b r * (1 / (tripU b c r + tripV a c r + tripW a b r))) c
      let f := (hp - r.p1).dot r.dir / r.dir.lengthSq
      if f < 0 ∨ f > r.maxF then .miss
      else .hit ⟨f, hp, if (triNormal a b c).dot r.dir > 0 then -(triNormal a b c) else triNormal a b c⟩ := rfl

theorem triangle_tests {eps : K} {side : Side} {a b c : V3 K} {r : Ray K} (h : triangle eps side a b c r ≠ .miss) :
    ¬ (((side = .front ∧ tripU b c r < 0) ∨ (side = .back ∧ tripU b c r > 0)) ∨
        ((side = .front ∧ tripV a c r < 0) ∨ (side = .back ∧ tripV a c r > 0) ∨
          (side = .frontAndBack ∧ ¬ tripU b c r * tripV a c r ≥ 0)) ∨
        ((side = .front ∧ tripW a b r < 0) ∨ (side = .back ∧ tripW a b r > 0) ∨
          (side = .frontAndBack ∧ ¬ tripU b c r * tripW a b r ≥ 0))) ∧
      ¬ (|tripU b c r| < eps ∧ |tripV a c r| < eps ∧ |tripW a b r| < eps) := by
  rw [triangle_eq] at h
  refine ⟨fun h1 => h (if_pos h1), fun h2 => ?_⟩
  by_cases h1 : ((side = .front ∧ tripU b c r < 0) ∨ (side = .back ∧ tripU b c r > 0)) ∨
        ((side = .front ∧ tripV a c r < 0) ∨ (side = .back ∧ tripV a c r > 0) ∨
          (side = .frontAndBack ∧ ¬ tripU b c r * tripV a c r ≥ 0)) ∨
        ((side = .front ∧ tripW a b r < 0) ∨ (side = .back ∧ tripW a b r > 0) ∨
          (side = .frontAndBack ∧ ¬ tripU b c r * tripW a b r ≥ 0))
  · exact h (if_pos h1)
  · exact h (by rw [if_neg h1, if_pos h2])

/-- What a hit is, whatever the sides. -/
theorem triangle_hit {eps : K} {side : Side} {a b c : V3 K} {r : Ray K} {h : Hit K} (he : 0 < eps)
    (hh : triangle eps side a b c r = .hit h) :
    (triNormal a b c).dot r.dir ≠ 0 ∧ 0 ≤ h.fraction ∧ h.fraction ≤ r.maxF ∧ h.point = r.at h.fraction ∧
      h.point = V3.smul (tripU b c r * (1 / (tripU b c r + tripV a c r + tripW a b r))) a +
        V3.smul (tripV a c r * (1 / (tripU b c r + tripV a c r + tripW a b r))) b +
        V3.smul (tripW a b r * (1 / (tripU b c r + tripV a c r + tripW a b r))) c ∧
      (h.normal = triNormal a b c ∨ h.normal = -(triNormal a b c)) ∧ h.normal.dot r.dir < 0 := by
  obtain ⟨h1, h2⟩ := triangle_tests (by rw [hh]; simp)
  rw [triangle_eq] at hh
  rw [if_neg h1, if_neg h2] at hh
  by_cases h3 : tripU b c r + tripV a c r + tripW a b r = 0
  · rw [if_pos h3] at hh; cases hh
  rw [if_neg h3] at hh
  dsimp only at hh
  have hdir : r.dir.lengthSq ≠ 0 := by
    intro hz
    have hx : r.dir.x = 0 ∧ r.dir.y = 0 ∧ r.dir.z = 0 := by
      unfold V3.lengthSq at hz
      refine ⟨?_, ?_, ?_⟩ <;> apply mul_self_eq_zero.1 <;>
        nlinarith [mul_self_nonneg r.dir.x, mul_self_nonneg r.dir.y, mul_self_nonneg r.dir.z]
    apply h3
    rw [trip_sum]
    simp only [V3.dot, hx.1, hx.2.1, hx.2.2, mul_zero, add_zero, neg_zero]
  have hp := trip_point h3 rfl
  rw [hp] at hh ⊢
  generalize hN : tripU b c r + tripV a c r + tripW a b r = N at *
  generalize -((a - r.p1).dot ((b - r.p1).cross (c - r.p1))) / N = f0 at *
  have hf : (r.at f0 - r.p1).dot r.dir / r.dir.lengthSq = f0 := by
    have : (r.at f0 - r.p1).dot r.dir = f0 * r.dir.lengthSq := by
      simp only [V3.dot, Ray.at, V3.sub_x, V3.sub_y, V3.sub_z, V3.add_x, V3.add_y, V3.add_z, V3.smul_x, V3.smul_y, V3.smul_z, V3.lengthSq]
      ring
    rw [this, mul_div_cancel_right₀ _ hdir]
  rw [hf] at hh
  have hne : (triNormal a b c).dot r.dir ≠ 0 := by
    intro hz
    apply h3
    rw [← hN, trip_sum, hz, neg_zero]
  by_cases h4 : f0 < 0 ∨ f0 > r.maxF
  · rw [if_pos h4] at hh; cases hh
  · rw [if_neg h4] at hh
    simp only [not_or, not_lt] at h4
    simp only [TriHit.hit.injEq] at hh
    subst hh
    refine ⟨hne, h4.1, h4.2, rfl, rfl, ?_, ?_⟩
    · simp only
      split_ifs
      · exact Or.inr rfl
      · exact Or.inl rfl
    · simp only
      split_ifs with h5
      · have : (-(triNormal a b c)).dot r.dir = -((triNormal a b c).dot r.dir) := by
          simp only [V3.dot, V3.neg_x, V3.neg_y, V3.neg_z]; ring
        rw [this]; linarith
      · exact lt_of_le_of_ne (not_lt.1 h5) hne

/-- A hit whose three products have the sign of their sum is right. -/
theorem triangle_hit_first {eps : K} {side : Side} {a b c : V3 K} {r : Ray K} {h : Hit K} (he : 0 < eps)
    (hh : triangle eps side a b c r = .hit h) (hs : (0 ≤ tripU b c r ∧ 0 ≤ tripV a c r ∧ 0 ≤ tripW a b r) ∨
      (tripU b c r ≤ 0 ∧ tripV a c r ≤ 0 ∧ tripW a b r ≤ 0)) :
    IsFirst (Tri a b c) r h.fraction ∧ h.fraction ≤ r.maxF ∧ h.point = r.at h.fraction ∧
      Outward (Tri a b c) r h.fraction h.normal := by
  obtain ⟨h1, h2, h3, h4, h5, h6, h7⟩ := triangle_hit he hh
  have hN : tripU b c r + tripV a c r + tripW a b r ≠ 0 := by rw [trip_sum]; exact neg_ne_zero.2 h1
  have hT : Tri a b c (r.at h.fraction) := by
    rw [← h4, h5]
    refine ⟨_, _, _, ?_, ?_, ?_, ?_, rfl⟩
    · rw [mul_one_div]
      rcases hs with ⟨s1, s2, s3⟩ | ⟨s1, s2, s3⟩
      · exact div_nonneg s1 (by linarith)
      · exact div_nonneg_of_nonpos s1 (by linarith)
    · rw [mul_one_div]
      rcases hs with ⟨s1, s2, s3⟩ | ⟨s1, s2, s3⟩
      · exact div_nonneg s2 (by linarith)
      · exact div_nonneg_of_nonpos s2 (by linarith)
    · rw [mul_one_div]
      rcases hs with ⟨s1, s2, s3⟩ | ⟨s1, s2, s3⟩
      · exact div_nonneg s3 (by linarith)
      · exact div_nonneg_of_nonpos s3 (by linarith)
    · rw [← add_mul, ← add_mul, mul_one_div, div_self hN]
  refine ⟨tri_first h1 h2 hT, h3, h4, ?_, h7.le, ?_⟩
  · intro hz
    rw [hz] at h7
    simp [V3.dot] at h7
  · intro x hx
    have e : (triNormal a b c).dot x = (triNormal a b c).dot (r.at h.fraction) := by rw [tri_plane hx, tri_plane hT]
    rcases h6 with e6 | e6
    · rw [e6, e]
    · have : ∀ v : V3 K, (-(triNormal a b c)).dot v = -((triNormal a b c).dot v) := by
        intro v; simp only [V3.dot, V3.neg_x, V3.neg_y, V3.neg_z]; ring
      rw [e6, this, this, e]

/-- Every point of the triangle on a ray that is clearly not parallel to it is reported, if the ray comes from a tested
side. -/
theorem triangle_complete {eps : K} {side : Side} {a b c : V3 K} {r : Ray K} {s : K}
    (hs : (side ≠ .back ∧ 3 * eps ≤ -((triNormal a b c).dot r.dir)) ∨ (side ≠ .front ∧ 3 * eps ≤ (triNormal a b c).dot r.dir))
    (he : 0 < eps) (s0 : 0 ≤ s) (s1 : s ≤ r.maxF) (ht : Tri a b c (r.at s)) :
    ∃ h, triangle eps side a b c r = .hit h ∧ h.fraction = s := by
  obtain ⟨i, j, k, i0, j0, k0, e, hp⟩ := ht
  obtain ⟨eu, ev, ew⟩ := trip_bary e hp
  have hN := trip_sum a b c r
  generalize hm : (triNormal a b c).dot r.dir = m at *
  have hm0 : m ≠ 0 := by
    rcases hs with hs | hs <;> intro hz <;> rw [hz] at hs <;> linarith [hs.2]
  have c1 : ¬ (((side = .front ∧ tripU b c r < 0) ∨ (side = .back ∧ tripU b c r > 0)) ∨
        ((side = .front ∧ tripV a c r < 0) ∨ (side = .back ∧ tripV a c r > 0) ∨
          (side = .frontAndBack ∧ ¬ tripU b c r * tripV a c r ≥ 0)) ∨
        ((side = .front ∧ tripW a b r < 0) ∨ (side = .back ∧ tripW a b r > 0) ∨
          (side = .frontAndBack ∧ ¬ tripU b c r * tripW a b r ≥ 0))) := by
    have x1 : 0 ≤ tripU b c r * tripV a c r := by
      rw [eu, ev]; nlinarith [mul_nonneg (mul_nonneg i0 j0) (mul_self_nonneg m)]
    have x2 : 0 ≤ tripU b c r * tripW a b r := by
      rw [eu, ew]; nlinarith [mul_nonneg (mul_nonneg i0 k0) (mul_self_nonneg m)]
    rcases hs with ⟨hs, hm⟩ | ⟨hs, hm⟩
    · have y1 : 0 ≤ tripU b c r := by rw [eu]; exact mul_nonneg i0 (by linarith)
      have y2 : 0 ≤ tripV a c r := by rw [ev]; exact mul_nonneg j0 (by linarith)
      have y3 : 0 ≤ tripW a b r := by rw [ew]; exact mul_nonneg k0 (by linarith)
      cases side
      · simp [y1, y2, y3]
      · exact absurd rfl hs
      · simp [x1, x2]
    · have y1 : tripU b c r ≤ 0 := by rw [eu]; nlinarith
      have y2 : tripV a c r ≤ 0 := by rw [ev]; nlinarith
      have y3 : tripW a b r ≤ 0 := by rw [ew]; nlinarith
      cases side
      · exact absurd rfl hs
      · simp [y1, y2, y3]
      · simp [x1, x2]
  have c2 : ¬ (|tripU b c r| < eps ∧ |tripV a c r| < eps ∧ |tripW a b r| < eps) := by
    rintro ⟨z1, z2, z3⟩
    rw [abs_lt] at z1 z2 z3
    rcases hs with hs | hs <;> linarith [hs.2]
  have c3 : tripU b c r + tripV a c r + tripW a b r ≠ 0 := by rw [hN]; exact neg_ne_zero.2 hm0
  have hpt := trip_point c3 rfl
  have hfs : r.at (-((a - r.p1).dot ((b - r.p1).cross (c - r.p1))) / (tripU b c r + tripV a c r + tripW a b r)) = r.at s := by
    rw [← hpt, hp, hN, eu, ev, ew]
    have : ∀ x : K, x * -m * (1 / -m) = x := by intro x; field_simp
    rw [this, this, this]
  have hdir : r.dir.lengthSq ≠ 0 := by
    intro hz
    have hx : r.dir.x = 0 ∧ r.dir.y = 0 ∧ r.dir.z = 0 := by
      unfold V3.lengthSq at hz
      refine ⟨?_, ?_, ?_⟩ <;> apply mul_self_eq_zero.1 <;>
        nlinarith [mul_self_nonneg r.dir.x, mul_self_nonneg r.dir.y, mul_self_nonneg r.dir.z]
    apply hm0
    rw [← hm]
    simp only [V3.dot, hx.1, hx.2.1, hx.2.2, mul_zero, add_zero]
  have hf : (r.at s - r.p1).dot r.dir / r.dir.lengthSq = s := by
    have : (r.at s - r.p1).dot r.dir = s * r.dir.lengthSq := by
      simp only [V3.dot, Ray.at, V3.sub_x, V3.sub_y, V3.sub_z, V3.add_x, V3.add_y, V3.add_z, V3.smul_x, V3.smul_y, V3.smul_z, V3.lengthSq]
      ring
    rw [this, mul_div_cancel_right₀ _ hdir]
  rw [triangle_eq, if_neg c1, if_neg c2, if_neg c3]
  dsimp only
  rw [hpt, hfs, hf, if_neg (by rw [not_or, not_lt, not_lt]; exact ⟨s0, s1⟩)]
  exact ⟨_, rfl, rfl⟩

/-- Ray casts against one side of a triangle: a hit is the point of the triangle on the ray, within its range, coming from
that side, with the normal of that side; and every point of the triangle on a ray that comes clearly from that side is
reported. The result is never NaN. (The tests for both sides: `triangle_both_partial`.) -/
theorem triangle_raycast_partial {eps : K} {a b c : V3 K} {r : Ray K} (he : 0 < eps) :
    (∀ h, triangle eps .front a b c r = .hit h → (triNormal a b c).dot r.dir < 0 ∧ h.normal = triNormal a b c ∧
      IsFirst (Tri a b c) r h.fraction ∧ h.fraction ≤ r.maxF ∧ h.point = r.at h.fraction ∧
      Outward (Tri a b c) r h.fraction h.normal) ∧
    (∀ h, triangle eps .back a b c r = .hit h → 0 < (triNormal a b c).dot r.dir ∧ h.normal = -(triNormal a b c) ∧
      IsFirst (Tri a b c) r h.fraction ∧ h.fraction ≤ r.maxF ∧ h.point = r.at h.fraction ∧
      Outward (Tri a b c) r h.fraction h.normal) ∧
    triangle eps .front a b c r ≠ .nan ∧ triangle eps .back a b c r ≠ .nan ∧
    (∀ s, 0 ≤ s → s ≤ r.maxF → Tri a b c (r.at s) →
      (3 * eps ≤ -((triNormal a b c).dot r.dir) → ∃ h, triangle eps .front a b c r = .hit h ∧ h.fraction = s) ∧
      (3 * eps ≤ (triNormal a b c).dot r.dir → ∃ h, triangle eps .back a b c r = .hit h ∧ h.fraction = s)) := by
  have sgn : ∀ side h, triangle eps side a b c r = .hit h →
      (side = .front → 0 ≤ tripU b c r ∧ 0 ≤ tripV a c r ∧ 0 ≤ tripW a b r) ∧
      (side = .back → tripU b c r ≤ 0 ∧ tripV a c r ≤ 0 ∧ tripW a b r ≤ 0) := by
    intro side h hh
    obtain ⟨h1, _⟩ := triangle_tests (by rw [hh]; simp)
    refine ⟨?_, ?_⟩ <;> rintro rfl <;> simpa using h1
  refine ⟨?_, ?_, ?_, ?_, ?_⟩
  · intro h hh
    have s := (sgn _ h hh).1 rfl
    obtain ⟨h1, _, _, _, _, h6, h7⟩ := triangle_hit he hh
    have hN := trip_sum a b c r
    have hlt : (triNormal a b c).dot r.dir < 0 := lt_of_le_of_ne (by linarith [s.1, s.2.1, s.2.2]) h1
    refine ⟨hlt, ?_, triangle_hit_first he hh (Or.inl s)⟩
    rcases h6 with e | e
    · exact e
    · rw [e] at h7
      have : (-(triNormal a b c)).dot r.dir = -((triNormal a b c).dot r.dir) := by
        simp only [V3.dot, V3.neg_x, V3.neg_y, V3.neg_z]; ring
      rw [this] at h7; linarith
  · intro h hh
    have s := (sgn _ h hh).2 rfl
    obtain ⟨h1, _, _, _, _, h6, h7⟩ := triangle_hit he hh
    have hN := trip_sum a b c r
    have hlt : 0 < (triNormal a b c).dot r.dir := lt_of_le_of_ne (by linarith [s.1, s.2.1, s.2.2]) (Ne.symm h1)
    refine ⟨hlt, ?_, triangle_hit_first he hh (Or.inr s)⟩
    rcases h6 with e | e
    · rw [e] at h7; linarith
    · exact e
  · intro hh
    obtain ⟨h1, h2⟩ := triangle_tests (by rw [hh]; simp)
    by_cases h3 : tripU b c r + tripV a c r + tripW a b r = 0
    · simp only [true_and, reduceCtorEq, false_and, or_false, false_or, not_or, not_lt] at h1
      apply h2
      have x1 : tripU b c r = 0 := by linarith [h1.1, h1.2.1, h1.2.2]
      have x2 : tripV a c r = 0 := by linarith [h1.1, h1.2.1, h1.2.2]
      have x3 : tripW a b r = 0 := by linarith [h1.1, h1.2.1, h1.2.2]
      rw [x1, x2, x3, abs_zero]
      exact ⟨he, he, he⟩
    · rw [triangle_eq, if_neg h1, if_neg h2, if_neg h3] at hh
      dsimp only at hh
      split at hh <;> cases hh
  · intro hh
    obtain ⟨h1, h2⟩ := triangle_tests (by rw [hh]; simp)
    by_cases h3 : tripU b c r + tripV a c r + tripW a b r = 0
    · simp only [true_and, reduceCtorEq, false_and, or_false, false_or, not_or, not_lt] at h1
      apply h2
      have x1 : tripU b c r = 0 := by linarith [h1.1, h1.2.1, h1.2.2]
      have x2 : tripV a c r = 0 := by linarith [h1.1, h1.2.1, h1.2.2]
      have x3 : tripW a b r = 0 := by linarith [h1.1, h1.2.1, h1.2.2]
      rw [x1, x2, x3, abs_zero]
      exact ⟨he, he, he⟩
    · rw [triangle_eq, if_neg h1, if_neg h2, if_neg h3] at hh
      dsimp only at hh
      split at hh <;> cases hh
  · intro s s0 s1 ht
    exact ⟨fun hm => triangle_complete (Or.inl ⟨by decide, hm⟩) he s0 s1 ht,
      fun hm => triangle_complete (Or.inr ⟨by decide, hm⟩) he s0 s1 ht⟩

/-- Tests for both sides: every point of the triangle on a ray that is clearly not parallel to it is reported, and a hit is
right if the line of the ray does not meet the line through the second and the third vertex. Missing: rays through that line
(`triangle_both_wrong`). -/
theorem triangle_both_partial {eps : K} {a b c : V3 K} {r : Ray K} (he : 0 < eps) :
    (∀ h, triangle eps .frontAndBack a b c r = .hit h → r.dir.dot ((b - r.p1).cross (c - r.p1)) ≠ 0 →
      IsFirst (Tri a b c) r h.fraction ∧ h.fraction ≤ r.maxF ∧ h.point = r.at h.fraction ∧
      Outward (Tri a b c) r h.fraction h.normal) ∧
    (∀ s, 0 ≤ s → s ≤ r.maxF → Tri a b c (r.at s) → 3 * eps ≤ |(triNormal a b c).dot r.dir| →
      ∃ h, triangle eps .frontAndBack a b c r = .hit h ∧ h.fraction = s) := by
  refine ⟨?_, ?_⟩
  · intro h hh hne
    refine triangle_hit_first he hh ?_
    have hu : tripU b c r = -(r.dir.dot ((b - r.p1).cross (c - r.p1))) := by
      simp only [tripU, V3.dot, V3.cross]; ring
    have hu0 : tripU b c r ≠ 0 := by rw [hu]; exact neg_ne_zero.2 hne
    obtain ⟨h1, _⟩ := triangle_tests (by rw [hh]; simp)
    simp only [true_and, reduceCtorEq, false_and, false_or, not_or, not_not, ge_iff_le] at h1
    rcases lt_or_gt_of_ne hu0 with hl | hl
    · refine Or.inr ⟨hl.le, ?_, ?_⟩
      · by_contra hn; nlinarith [h1.1, not_le.1 hn]
      · by_contra hn; nlinarith [h1.2, not_le.1 hn]
    · refine Or.inl ⟨hl.le, ?_, ?_⟩
      · by_contra hn; nlinarith [h1.1, not_le.1 hn]
      · by_contra hn; nlinarith [h1.2, not_le.1 hn]
  · intro s s0 s1 ht hm
    rcases abs_cases ((triNormal a b c).dot r.dir) with ⟨e, _⟩ | ⟨e, _⟩
    · exact triangle_complete (Or.inr ⟨by decide, by rw [← e]; exact hm⟩) he s0 s1 ht
    · exact triangle_complete (Or.inl ⟨by decide, by rw [← e]; exact hm⟩) he s0 s1 ht

/-- Tests for both sides accept a ray that passes outside of the triangle, on the extension of the edge between the second and
the third vertex: the first product is zero, and zero has "the same sign" as both other products. The point reported is not in
the triangle (but in the interior of its bounding rectangle, so that the tree of a mesh does not reject it). -/
theorem triangle_both_wrong :
    let r : Ray ℚ := ⟨⟨2, 2, -1⟩, ⟨2, 2, 1⟩, 1⟩
    let a : V3 ℚ := ⟨4, 3, 0⟩
    let b : V3 ℚ := ⟨0, 0, 0⟩
    let c : V3 ℚ := ⟨1, 1, 0⟩
    (∃ h, triangle (1/1000000) .frontAndBack a b c r = .hit h ∧ h.fraction = 1/2 ∧ h.point = ⟨2, 2, 0⟩) ∧
      (∀ s, ¬ Tri a b c (r.at s)) ∧ triangle (1/1000000) .front a b c r = .miss ∧
      triangle (1/1000000) .back a b c r = .miss := by
  intro r a b c
  refine ⟨⟨⟨1/2, ⟨2, 2, 0⟩, ⟨0, 0, -1⟩⟩, ?_, rfl, rfl⟩, ?_, ?_, ?_⟩
  · rw [triangle_eq, if_neg (by decide +kernel), if_neg (by decide +kernel), if_neg (by decide +kernel)]
    dsimp only
    rw [if_neg (by decide +kernel)]
    congr 1
    have : ∀ h h' : Hit ℚ, h.fraction = h'.fraction → h.point = h'.point → h.normal = h'.normal → h = h' := by
      rintro ⟨⟩ ⟨⟩ h1 h2 h3; simp only at h1 h2 h3; rw [h1, h2, h3]
    refine this _ _ ?_ ?_ ?_
    · decide +kernel
    · ext <;> decide +kernel
    · ext <;> decide +kernel
  · rintro s ⟨i, j, k, i0, j0, k0, e, hp⟩
    have hx := congrArg V3.x hp
    have hy := congrArg V3.y hp
    simp only [Ray.at, Ray.dir, r, a, b, c, V3.add_x, V3.add_y, V3.smul_x, V3.smul_y, V3.sub_x, V3.sub_y] at hx hy
    linarith
  · rw [triangle_eq, if_pos (by decide +kernel)]
  · rw [triangle_eq, if_pos (by decide +kernel)]

/-- A ray above the triangle, parallel to the edge between the second and the third vertex, is reported as a hit whose
fraction is not a number. -/
theorem triangle_both_nan : triangle (1/1000000 : ℚ) .frontAndBack ⟨0, 1, 0⟩ ⟨0, 0, 0⟩ ⟨1, 0, 0⟩
    (⟨⟨0, 0, 1⟩, ⟨1, 0, 1⟩, 1⟩ : Ray ℚ) = .nan := by
  rw [triangle_eq, if_neg (by decide +kernel), if_neg (by decide +kernel), if_pos (by decide +kernel)]

/-- C77: a ray that hits the front of a triangle. -/
example : ∃ h, triangle (1/1000000 : ℚ) .front ⟨0, 1, 0⟩ ⟨0, 0, 0⟩ ⟨1, 0, 0⟩ ⟨⟨1/4, 1/4, 1⟩, ⟨1/4, 1/4, -1⟩, 1⟩ = .hit h ∧
    h.fraction = 1/2 := by
  refine (triangle_raycast_partial (by decide +kernel)).2.2.2.2 (1/2) (by decide +kernel) (by decide +kernel)
    ⟨1/4, 1/2, 1/4, by decide +kernel, by decide +kernel, by decide +kernel, by decide +kernel, by ext <;> decide +kernel⟩ |>.1
    (by decide +kernel)

example : ∃ h, triangle (1/1000000 : ℚ) .frontAndBack ⟨0, 1, 0⟩ ⟨0, 0, 0⟩ ⟨1, 0, 0⟩ ⟨⟨1/4, 1/4, -1⟩, ⟨1/4, 1/4, 1⟩, 1⟩ = .hit h ∧
    h.fraction = 1/2 := by
  refine (triangle_both_partial (by decide +kernel)).2 (1/2) (by decide +kernel) (by decide +kernel)
    ⟨1/4, 1/2, 1/4, by decide +kernel, by decide +kernel, by decide +kernel, by decide +kernel, by ext <;> decide +kernel⟩
    (by decide +kernel)

end RayProps
end RP3D
