import Verif.Narrow.Gjk
import Mathlib.Tactic.LinearCombination
import Mathlib.Algebra.Order.Field.Power

/-! The closest point of a segment, a triangle and a tetrahedron. -/

namespace RP3D
namespace Gjk
variable {K : Type} [Field K] [LinearOrder K] [IsStrictOrderedRing K]

/-- The quantities of a triangle and of the projection of the origin, seen from vertex A: `S = |AB|²`, `T = |AC|²`, `k = AB·AC`,
`d1 = AB·AP`, `d2 = AC·AP`. If the origin is behind the edge AB and before A on it, one of the tests of the edge AC and of the vertex C holds. -/
theorem region {S T k d1 d2 : K} (hS : 0 < S) (hT : 0 < T) (hD : 0 < S * T - k * k) (hvc : S * d2 - k * d1 ≤ 0) (h1 : d1 < 0) (h2 : 0 < d2)
    (hAC : ¬ (T * d1 - k * d2 ≤ 0 ∧ 0 ≤ d2 ∧ d2 - T ≤ 0)) (hC : ¬ (0 ≤ d2 - T ∧ d1 - k ≤ d2 - T)) : False := by
  have hk : k < 0 := by
    have h : 0 < k * d1 := by nlinarith [mul_pos hS h2]
    exact neg_of_mul_pos_left h h1.le
  have hvb : T * d1 - k * d2 ≤ 0 := by
    have h : S * (T * d1 - k * d2) ≤ 0 := by
      nlinarith [mul_nonneg (neg_nonneg.2 hk.le) (sub_nonneg.2 (sub_nonpos.1 hvc)), mul_pos hD (neg_pos.2 h1)]
    exact nonpos_of_mul_nonpos_right h hS
  have h6 : 0 < d2 - T := by
    by_contra h
    exact hAC ⟨hvb, h2.le, not_lt.1 h⟩
  have h5 : d2 - T < d1 - k := by
    by_contra h
    exact hC ⟨h6.le, not_lt.1 h⟩
  nlinarith [mul_pos hS h6, mul_pos (neg_pos.2 hk) (h6.trans h5)]

/-- The last region of the triangle: none of the other tests holds. -/
theorem region_face {S T k d1 d2 : K} (hS : 0 < S) (hT : 0 < T) (hD : 0 < S * T - k * k)
    (hA : ¬ (d1 ≤ 0 ∧ d2 ≤ 0)) (hB : ¬ (0 ≤ d1 - S ∧ d2 - k ≤ d1 - S)) (hAB : ¬ (S * d2 - k * d1 ≤ 0 ∧ 0 ≤ d1 ∧ d1 - S ≤ 0))
    (hC : ¬ (0 ≤ d2 - T ∧ d1 - k ≤ d2 - T)) (hAC : ¬ (T * d1 - k * d2 ≤ 0 ∧ 0 ≤ d2 ∧ d2 - T ≤ 0))
    (hBC : ¬ ((S * T - k * k) - (T * d1 - k * d2) - (S * d2 - k * d1) ≤ 0 ∧ 0 ≤ (d2 - k) - (d1 - S) ∧ 0 ≤ (d1 - k) - (d2 - T))) :
    0 < S * d2 - k * d1 ∧ 0 < T * d1 - k * d2 ∧ 0 < (S * T - k * k) - (T * d1 - k * d2) - (S * d2 - k * d1) := by
  have hR : 0 < S + T - 2 * k := by
    by_contra h
    nlinarith [sq_nonneg (S - T), sq_nonneg (S - k), sq_nonneg (T - k), mul_pos hS hT]
  refine ⟨?_, ?_, ?_⟩ <;> by_contra h <;> rw [not_lt] at h
  · rcases lt_or_ge d1 0 with h1 | h1
    · exact region hS hT hD h h1 (by by_contra h2; exact hA ⟨h1.le, not_lt.1 h2⟩) hAC hC
    · have h3 : 0 < d1 - S := by
        by_contra h3
        exact hAB ⟨h, h1, not_lt.1 h3⟩
      refine region (S := S) (T := S + T - 2 * k) (k := S - k) (d1 := -(d1 - S)) (d2 := (d2 - k) - (d1 - S)) hS hR ?_ ?_ (by linarith) ?_ ?_ ?_
      · linarith [hD]
      · linarith [h]
      · by_contra h2
        exact hB ⟨h3.le, by linarith⟩
      · rintro ⟨a, b, c⟩
        exact hBC ⟨by linarith, b, by linarith⟩
      · rintro ⟨a, b⟩
        exact hC ⟨by linarith, by linarith⟩
  · rcases lt_or_ge d2 0 with h1 | h1
    · refine region (S := T) (T := S) (k := k) (d1 := d2) (d2 := d1) hT hS ?_ h h1 ?_ ?_ ?_
      · linarith [hD]
      · by_contra h2
        exact hA ⟨not_lt.1 h2, h1.le⟩
      · rintro ⟨a, b, c⟩
        exact hAB ⟨a, b, c⟩
      · rintro ⟨a, b⟩
        exact hB ⟨a, b⟩
    · have h3 : 0 < d2 - T := by
        by_contra h3
        exact hAC ⟨h, h1, not_lt.1 h3⟩
      refine region (S := T) (T := S + T - 2 * k) (k := T - k) (d1 := -(d2 - T)) (d2 := (d1 - k) - (d2 - T)) hT hR ?_ ?_ (by linarith) ?_ ?_ ?_
      · linarith [hD]
      · linarith [h]
      · by_contra h2
        exact hC ⟨h3.le, by linarith⟩
      · rintro ⟨a, b, c⟩
        exact hBC ⟨by linarith, by linarith, b⟩
      · rintro ⟨a, b⟩
        exact hB ⟨by linarith, by linarith⟩
  · rcases lt_or_ge ((d2 - k) - (d1 - S)) 0 with h1 | h1
    · refine region (S := S + T - 2 * k) (T := S) (k := S - k) (d1 := (d2 - k) - (d1 - S)) (d2 := -(d1 - S)) hR hS ?_ ?_ h1 ?_ ?_ ?_
      · linarith [hD]
      · linarith [h]
      · by_contra h2
        exact hB ⟨by linarith, by linarith⟩
      · rintro ⟨a, b, c⟩
        exact hAB ⟨by linarith, by linarith, by linarith⟩
      · rintro ⟨a, b⟩
        exact hA ⟨by linarith, by linarith⟩
    · have h3 : (d1 - k) - (d2 - T) < 0 := by
        by_contra h3
        exact hBC ⟨h, h1, not_lt.1 h3⟩
      refine region (S := S + T - 2 * k) (T := T) (k := T - k) (d1 := (d1 - k) - (d2 - T)) (d2 := -(d2 - T)) hR hT ?_ ?_ h3 ?_ ?_ ?_
      · linarith [hD]
      · linarith [h]
      · by_contra h2
        exact hC ⟨by linarith, by linarith⟩
      · rintro ⟨a, b, c⟩
        exact hAC ⟨by linarith, by linarith, by linarith⟩
      · rintro ⟨a, b⟩
        exact hA ⟨by linarith, by linarith⟩

/-- The coordinates `t` describe the point of the triangle closest to the origin, and the used points are those with which it is computed: the
other ones have coordinate zero. -/
structure TriOk (a b c : V3 K) (t : Tri K) : Prop where
  u : 0 ≤ t.u
  v : 0 ≤ t.v
  w : 0 ≤ t.w
  sum : t.u + t.v + t.w = 1
  oa : (t.point a b c).lengthSq ≤ (t.point a b c).dot a
  ob : (t.point a b c).lengthSq ≤ (t.point a b c).dot b
  oc : (t.point a b c).lengthSq ≤ (t.point a b c).dot c
  za : 1 &&& t.bits = 0 → t.u = 0
  zb : 2 &&& t.bits = 0 → t.v = 0
  zc : 4 &&& t.bits = 0 → t.w = 0
  ua : 1 &&& t.bits ≠ 0 → (t.point a b c).dot a = (t.point a b c).lengthSq
  ub : 2 &&& t.bits ≠ 0 → (t.point a b c).dot b = (t.point a b c).lengthSq
  uc : 4 &&& t.bits ≠ 0 → (t.point a b c).dot c = (t.point a b c).lengthSq
  lo : t.bits ≠ 0
  hi : t.bits ≤ 7

theorem tri_products (a b c : V3 K) {t : Tri K} (h : t.u = 1 - t.v - t.w) :
    (t.point a b c).dot a - (t.point a b c).lengthSq =
      -(t.v * (-((b - a).dot (-a)) + t.v * (b - a).lengthSq + t.w * (b - a).dot (c - a)) +
        t.w * (-((c - a).dot (-a)) + t.v * (b - a).dot (c - a) + t.w * (c - a).lengthSq)) ∧
    (t.point a b c).dot b - (t.point a b c).lengthSq =
      (-((b - a).dot (-a)) + t.v * (b - a).lengthSq + t.w * (b - a).dot (c - a))
      -(t.v * (-((b - a).dot (-a)) + t.v * (b - a).lengthSq + t.w * (b - a).dot (c - a)) +
        t.w * (-((c - a).dot (-a)) + t.v * (b - a).dot (c - a) + t.w * (c - a).lengthSq)) ∧
    (t.point a b c).dot c - (t.point a b c).lengthSq =
      (-((c - a).dot (-a)) + t.v * (b - a).dot (c - a) + t.w * (c - a).lengthSq)
      -(t.v * (-((b - a).dot (-a)) + t.v * (b - a).lengthSq + t.w * (b - a).dot (c - a)) +
        t.w * (-((c - a).dot (-a)) + t.v * (b - a).dot (c - a) + t.w * (c - a).lengthSq)) := by
  obtain ⟨u, v, w, bits⟩ := t
  simp only at h
  subst h
  refine ⟨?_, ?_, ?_⟩ <;> simp only [Tri.point, V3.dot, V3.lengthSq, V3.add_x, V3.add_y, V3.add_z, V3.smul_x, V3.smul_y, V3.smul_z,
    V3.sub_x, V3.sub_y, V3.sub_z, V3.neg_x, V3.neg_y, V3.neg_z] <;> ring

theorem dot_neg_sub (a b c : V3 K) : (b - a).dot (-b) = (b - a).dot (-a) - (b - a).lengthSq ∧
    (c - a).dot (-b) = (c - a).dot (-a) - (b - a).dot (c - a) ∧ (b - a).dot (-c) = (b - a).dot (-a) - (b - a).dot (c - a) ∧
    (c - a).dot (-c) = (c - a).dot (-a) - (c - a).lengthSq := by
  refine ⟨?_, ?_, ?_, ?_⟩ <;> simp only [V3.dot, V3.lengthSq, V3.sub_x, V3.sub_y, V3.sub_z, V3.neg_x, V3.neg_y, V3.neg_z] <;> ring

theorem lagrange (a b : V3 K) : (a.cross b).lengthSq = a.lengthSq * b.lengthSq - a.dot b * a.dot b := by
  simp only [V3.dot, V3.lengthSq, V3.cross]; ring

theorem lengthSq_nonneg (a : V3 K) : 0 ≤ a.lengthSq := by
  simp only [V3.lengthSq]; nlinarith [mul_self_nonneg a.x, mul_self_nonneg a.y, mul_self_nonneg a.z]

theorem lengthSq_sub_comm (a b : V3 K) : (a - b).lengthSq = (b - a).lengthSq := by
  simp only [V3.lengthSq, V3.sub_x, V3.sub_y, V3.sub_z]; ring

theorem mkTri {a b c : V3 K} {t : Tri K} {X Y e : K} (hu : 0 ≤ t.u) (hv : 0 ≤ t.v) (hw : 0 ≤ t.w) (hs : t.u + t.v + t.w = 1)
    (pa : (t.point a b c).dot a - (t.point a b c).lengthSq = e) (pb : (t.point a b c).dot b - (t.point a b c).lengthSq = X + e)
    (pc : (t.point a b c).dot c - (t.point a b c).lengthSq = Y + e) (h0 : 0 ≤ e) (h1 : 0 ≤ X + e) (h2 : 0 ≤ Y + e)
    (za : 1 &&& t.bits = 0 → t.u = 0) (zb : 2 &&& t.bits = 0 → t.v = 0) (zc : 4 &&& t.bits = 0 → t.w = 0)
    (ua : 1 &&& t.bits ≠ 0 → e = 0) (ub : 2 &&& t.bits ≠ 0 → X + e = 0) (uc : 4 &&& t.bits ≠ 0 → Y + e = 0)
    (lo : t.bits ≠ 0) (hi : t.bits ≤ 7) : TriOk a b c t :=
  ⟨hu, hv, hw, hs, by linarith, by linarith, by linarith, za, zb, zc, fun h => by linarith [ua h], fun h => by linarith [ub h],
    fun h => by linarith [uc h], lo, hi⟩

/-- The triangle of `computeClosestPointOnTriangle`. -/
theorem triangle_ok {cf : Cfg K} {a b c : V3 K} (hn : 0 < ((b - a).cross (c - a)).lengthSq) {t : Tri K} (h : triangle cf a b c = some t) :
    TriOk a b c t := by
  rw [lagrange] at hn
  obtain ⟨e3, e4, e5, e6⟩ := dot_neg_sub a b c
  have hpr := @tri_products K _ _ _ a b c t
  have hS0 := lengthSq_nonneg (b - a)
  have hT0 := lengthSq_nonneg (c - a)
  simp only [triangle, e3, e4, e5, e6] at h
  generalize (b - a).lengthSq = S at *
  generalize (c - a).lengthSq = T at *
  generalize (b - a).dot (c - a) = k at *
  generalize (b - a).dot (-a) = d1 at *
  generalize (c - a).dot (-a) = d2 at *
  have hS : 0 < S := by
    rcases hS0.eq_or_lt with h | h
    · rw [← h] at hn; nlinarith [mul_self_nonneg k]
    · exact h
  have hT : 0 < T := by
    rcases hT0.eq_or_lt with h | h
    · rw [← h] at hn; nlinarith [mul_self_nonneg k]
    · exact h
  split_ifs at h with hA hB hAB q1 hC hAC q2 hBC q3
  · obtain rfl := Option.some.inj h
    obtain ⟨pa, pb, pc⟩ := hpr (by simp)
    refine mkTri (X := -d1) (Y := -d2) (e := 0) (by simp) (by simp) (by simp) (by simp) (by rw [pa]; simp) (by rw [pb]; simp) (by rw [pc]; simp)
      le_rfl (by linarith [hA.1]) (by linarith [hA.2]) ?_ ?_ ?_ ?_ ?_ ?_ ?_ ?_ <;> simp
  · obtain rfl := Option.some.inj h
    obtain ⟨pa, pb, pc⟩ := hpr (by simp)
    simp only at pa pb pc
    refine mkTri (X := -(d1 - S)) (Y := k - d2) (e := d1 - S) (by simp) (by simp) (by simp) (by simp) (by rw [pa]; ring) (by rw [pb]; ring)
      (by rw [pc]; ring) hB.1 (by linarith) (by linarith [hB.2]) ?_ ?_ ?_ ?_ ?_ ?_ ?_ ?_ <;> simp
  · have e : d1 - (d1 - S) = S := by ring
    rw [e] at h
    obtain rfl := Option.some.inj h
    obtain ⟨pa, pb, pc⟩ := hpr (by simp)
    have hv : 0 ≤ d1 / S := div_nonneg hAB.2.1 hS0
    have hv1 : 0 ≤ 1 - d1 / S := by rw [sub_nonneg, div_le_one hS]; linarith [hAB.2.2]
    have hx : d1 / S * S = d1 := div_mul_cancel₀ _ hS.ne'
    simp only at pa pb pc
    refine mkTri (X := 0) (Y := -d2 + d1 / S * k) (e := 0) hv1 hv (by simp) (by simp) (by rw [pa, hx]; ring) (by rw [pb, hx]; ring)
      (by rw [pc, hx]; ring) le_rfl (by simp) ?_ ?_ ?_ ?_ ?_ ?_ ?_ ?_ ?_
    · have : -d2 + d1 / S * k = -(d1 * (d2 - k) - (d1 - S) * d2) / S := by field_simp; ring
      rw [add_zero, this]
      exact div_nonneg (by linarith [hAB.1]) hS0
    all_goals simp
  · obtain rfl := Option.some.inj h
    obtain ⟨pa, pb, pc⟩ := hpr (by simp)
    simp only at pa pb pc
    refine mkTri (X := k - d1) (Y := -(d2 - T)) (e := d2 - T) (by simp) (by simp) (by simp) (by simp) (by rw [pa]; ring) (by rw [pb]; ring)
      (by rw [pc]; ring) hC.1 (by linarith [hC.2]) (by linarith) ?_ ?_ ?_ ?_ ?_ ?_ ?_ ?_ <;> simp
  · have e : d2 - (d2 - T) = T := by ring
    rw [e] at h
    obtain rfl := Option.some.inj h
    obtain ⟨pa, pb, pc⟩ := hpr (by simp)
    have hv : 0 ≤ d2 / T := div_nonneg hAC.2.1 hT0
    have hv1 : 0 ≤ 1 - d2 / T := by rw [sub_nonneg, div_le_one hT]; linarith [hAC.2.2]
    have hx : d2 / T * T = d2 := div_mul_cancel₀ _ hT.ne'
    simp only at pa pb pc
    refine mkTri (X := -d1 + d2 / T * k) (Y := 0) (e := 0) hv1 (by simp) hv (by simp) (by rw [pa, hx]; ring) (by rw [pb, hx]; ring)
      (by rw [pc, hx]; ring) le_rfl ?_ (by simp) ?_ ?_ ?_ ?_ ?_ ?_ ?_ ?_
    · have : -d1 + d2 / T * k = -((d1 - k) * d2 - d1 * (d2 - T)) / T := by field_simp; ring
      rw [add_zero, this]
      exact div_nonneg (by linarith [hAC.1]) hT0
    all_goals simp
  · obtain rfl := Option.some.inj h
    obtain ⟨pa, pb, pc⟩ := hpr (by simp)
    have hR : 0 < (d2 - k - (d1 - S)) + (d1 - k - (d2 - T)) := by
      by_contra h
      nlinarith [sq_nonneg (S - T), sq_nonneg (S - k), sq_nonneg (T - k), mul_pos hS hT]
    have hv : 0 ≤ (d2 - k - (d1 - S)) / ((d2 - k - (d1 - S)) + (d1 - k - (d2 - T))) := div_nonneg hBC.2.1 hR.le
    have hv1 : 0 ≤ 1 - (d2 - k - (d1 - S)) / ((d2 - k - (d1 - S)) + (d1 - k - (d2 - T))) := by
      rw [sub_nonneg, div_le_one hR]; linarith [hBC.2.2]
    have hx : (d2 - k - (d1 - S)) / ((d2 - k - (d1 - S)) + (d1 - k - (d2 - T))) * (S + T - 2 * k) = d2 - k - (d1 - S) := by
      have : (d2 - k - (d1 - S)) + (d1 - k - (d2 - T)) = S + T - 2 * k := by ring
      rw [this] at hR ⊢
      exact div_mul_cancel₀ _ hR.ne'
    have hva := hBC.1
    simp only at pa pb pc
    generalize (d2 - k - (d1 - S)) / ((d2 - k - (d1 - S)) + (d1 - k - (d2 - T))) = w at *
    refine mkTri (X := -d1 + (1 - w) * S + w * k) (Y := -d1 + (1 - w) * S + w * k) (e := -(-d1 + (1 - w) * S + w * k)) (by simp) hv1 hv (by simp) ?_ ?_ ?_ ?_ (by simp)
      (by simp) ?_ ?_ ?_ ?_ ?_ ?_ ?_ ?_
    · rw [pa]; linear_combination (-w) * hx
    · rw [pb]; linear_combination (-w) * hx
    · rw [pc]; linear_combination (1 - w) * hx
    · have : (S + T - 2 * k) * -(-d1 + (1 - w) * S + w * k) = -((d1 - S) * (d2 - T) - (d1 - k) * (d2 - k)) := by
        linear_combination (S - k) * hx
      have h2 : 0 < S + T - 2 * k := by linarith
      by_contra hh
      nlinarith
    all_goals simp
  · have e1 : d1 * (d2 - k) - (d1 - S) * d2 = S * d2 - k * d1 := by ring
    have e2 : (d1 - k) * d2 - d1 * (d2 - T) = T * d1 - k * d2 := by ring
    have e3 : (d1 - S) * (d2 - T) - (d1 - k) * (d2 - k) = (S * T - k * k) - (T * d1 - k * d2) - (S * d2 - k * d1) := by ring
    rw [e1] at hAB; rw [e2] at hAC; rw [e3] at hBC
    obtain ⟨h1, h2, h3⟩ := region_face hS hT hn hA hB hAB hC hAC hBC
    have hz : (S * T - k * k) - (T * d1 - k * d2) - (S * d2 - k * d1) + (T * d1 - k * d2) + (S * d2 - k * d1) = S * T - k * k := by ring
    rw [e1, e2, e3, hz] at h
    obtain rfl := Option.some.inj h
    obtain ⟨pa, pb, pc⟩ := hpr (by simp)
    have hi : 0 < 1 / (S * T - k * k) := by positivity
    have hi1 : 1 / (S * T - k * k) * (S * T - k * k) = 1 := div_mul_cancel₀ _ hn.ne'
    generalize 1 / (S * T - k * k) = i at *
    have hX : -d1 + (T * d1 - k * d2) * i * S + (S * d2 - k * d1) * i * k = 0 := by linear_combination d1 * hi1
    have hY : -d2 + (T * d1 - k * d2) * i * k + (S * d2 - k * d1) * i * T = 0 := by linear_combination d2 * hi1
    simp only at pa pb pc
    rw [hX, hY] at pa pb pc
    refine mkTri (X := 0) (Y := 0) (e := 0) ?_ (by positivity) (by positivity) (by ring) (by rw [pa]; ring) (by rw [pb]; ring) (by rw [pc]; ring)
      le_rfl (by simp) (by simp) ?_ ?_ ?_ ?_ ?_ ?_ ?_ ?_
    · have : 1 - (T * d1 - k * d2) * i - (S * d2 - k * d1) * i = ((S * T - k * k) - (T * d1 - k * d2) - (S * d2 - k * d1)) * i := by
        linear_combination -hi1
      simp only
      rw [this]; positivity
    all_goals simp

end Gjk
end RP3D
