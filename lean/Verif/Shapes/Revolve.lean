import Verif.Shapes.Solids

/-! Moments of boxes and of solids of revolution about the second axis. These are facts about space; no part of the program is modelled here. -/

namespace RP3D
namespace Solids
open MeasureTheory Real

/-! ### Discs -/

/-- The disc about the origin with the square `q` of the radius. -/
def disc (q : ℝ) : Set (ℝ × ℝ) := {p | p.1 ^ 2 + p.2 ^ 2 ≤ q}

theorem disc_measurable (q : ℝ) : MeasurableSet (disc q) := by
  apply IsClosed.measurableSet
  exact isClosed_le (by fun_prop) continuous_const

/-- The integral over all directions. -/
noncomputable def turn (i j : ℕ) : ℝ := ∫ t in (-π)..π, cos t ^ i * sin t ^ j

theorem disc_moment {q : ℝ} (hq : 0 ≤ q) (i j : ℕ) :
    ∫ p in disc q, p.1 ^ i * p.2 ^ j = √q ^ (i + j + 2) / (i + j + 2) * turn i j := by
  rw [← integral_indicator (disc_measurable q), ← integral_comp_polarCoord_symm, polarCoord_target]
  have h1 : ∀ p ∈ Set.Ioi (0 : ℝ) ×ˢ Set.Ioo (-π) π,
      p.1 • (disc q).indicator (fun p : ℝ × ℝ => p.1 ^ i * p.2 ^ j) (polarCoord.symm p) =
        (Set.Iic (√q)).indicator (fun r => r ^ (i + j + 1)) p.1 * (cos p.2 ^ i * sin p.2 ^ j) := by
    rintro ⟨r, t⟩ ⟨hr, -⟩
    have hr' : 0 < r := hr
    simp only [polarCoord_symm_apply, smul_eq_mul]
    have hiff : (r * cos t, r * sin t) ∈ disc q ↔ r ∈ Set.Iic (√q) := by
      have e : (r * cos t) ^ 2 + (r * sin t) ^ 2 = r ^ 2 := by
        have := sin_sq_add_cos_sq t
        calc (r * cos t) ^ 2 + (r * sin t) ^ 2 = r ^ 2 * (sin t ^ 2 + cos t ^ 2) := by ring
          _ = r ^ 2 := by rw [this, mul_one]
      simp only [disc, Set.mem_ofPred_eq, Set.mem_Iic, e]
      exact (Real.le_sqrt' hr').symm
    by_cases h : (r * cos t, r * sin t) ∈ disc q
    · rw [Set.indicator_of_mem h, Set.indicator_of_mem (hiff.1 h)]
      ring
    · rw [Set.indicator_of_notMem h, Set.indicator_of_notMem (fun h' => h (hiff.2 h'))]
      ring
  rw [setIntegral_congr_fun (measurableSet_Ioi.prod measurableSet_Ioo) h1, Measure.volume_eq_prod,
    setIntegral_prod_mul (fun r => (Set.Iic (√q)).indicator (fun r => r ^ (i + j + 1)) r) (fun t => cos t ^ i * sin t ^ j)]
  congr 1
  · rw [setIntegral_indicator measurableSet_Iic]
    have : Set.Ioi (0 : ℝ) ∩ Set.Iic (√q) = Set.Ioc 0 (√q) := rfl
    rw [this, ← intervalIntegral.integral_of_le (sqrt_nonneg q), integral_pow]
    push_cast
    rw [zero_pow (by omega), sub_zero]
    congr 1
    ring
  · rw [turn, intervalIntegral.integral_of_le (by linarith [pi_pos]), integral_Ioc_eq_integral_Ioo]

theorem disc_empty {q : ℝ} (hq : q < 0) : disc q = ∅ := by
  ext p
  simp only [disc, Set.mem_ofPred_eq, Set.mem_empty_iff_false, iff_false, not_le]
  nlinarith [sq_nonneg p.1, sq_nonneg p.2]

theorem turn_zero : turn 0 0 = 2 * π := by simp [turn]; ring
theorem turn_x : turn 1 0 = 0 := by simp [turn]
theorem turn_z : turn 0 1 = 0 := by simp [turn]
theorem turn_xz : turn 1 1 = 0 := by
  simp only [turn, pow_one]
  have : ∀ t : ℝ, HasDerivAt (fun t => sin t ^ 2 / 2) (cos t * sin t) t := by
    intro t
    exact (((hasDerivAt_sin t).pow 2).div_const 2).congr_deriv (by simp; ring)
  rw [intervalIntegral.integral_eq_sub_of_hasDerivAt (fun x _ => this x) (by apply Continuous.intervalIntegrable; fun_prop)]
  simp
theorem turn_xx : turn 2 0 = π := by simp [turn, integral_cos_sq]
theorem turn_zz : turn 0 2 = π := by simp [turn, integral_sin_sq]

/-! ### Solids of revolution -/

/-- The coordinates with the first two exchanged. -/
def exchange : (ℝ × ℝ × ℝ) ≃ᵐ (ℝ × ℝ × ℝ) :=
  (MeasurableEquiv.prodAssoc.symm.trans (MeasurableEquiv.prodCongr MeasurableEquiv.prodComm (MeasurableEquiv.refl ℝ))).trans MeasurableEquiv.prodAssoc

theorem exchange_apply (p : ℝ × ℝ × ℝ) : exchange p = (p.2.1, p.1, p.2.2) := rfl

theorem exchange_preserving : MeasurePreserving exchange (volume : Measure (ℝ × ℝ × ℝ)) volume := by
  have h1 : MeasurePreserving (MeasurableEquiv.prodAssoc.symm : ℝ × ℝ × ℝ ≃ᵐ (ℝ × ℝ) × ℝ) volume volume :=
    (volume_preserving_prodAssoc (α₁ := ℝ) (β₁ := ℝ) (γ₁ := ℝ)).symm _
  have h2 : MeasurePreserving (Prod.map Prod.swap id : (ℝ × ℝ) × ℝ → (ℝ × ℝ) × ℝ) volume volume :=
    (Measure.measurePreserving_swap (μ := (volume : Measure ℝ)) (ν := (volume : Measure ℝ))).prod (MeasurePreserving.id _)
  exact (volume_preserving_prodAssoc (α₁ := ℝ) (β₁ := ℝ) (γ₁ := ℝ)).comp (h2.comp h1)

/-- The solid of revolution about the second axis with the squares `q` of the radii. -/
def Revolved (q : ℝ → ℝ) (v : V3 ℝ) : Prop := v.x ^ 2 + v.z ^ 2 ≤ q v.y

theorem revolved_compact {q : ℝ → ℝ} {Y M : ℝ} (hc : Continuous q) (hY : ∀ y, 0 ≤ q y ↔ |y| ≤ Y) (hM : ∀ y, q y ≤ M ^ 2) (hM0 : 0 ≤ M) :
    IsCompact (region (Revolved q)) := by
  apply Metric.isCompact_of_isClosed_isBounded
  · have c1 : Continuous fun p : ℝ × ℝ × ℝ => p.1 := continuous_fst
    have c2 : Continuous fun p : ℝ × ℝ × ℝ => p.2.1 := continuous_fst.comp continuous_snd
    have c3 : Continuous fun p : ℝ × ℝ × ℝ => p.2.2 := continuous_snd.comp continuous_snd
    exact isClosed_le ((c1.pow 2).add (c3.pow 2)) (hc.comp c2)
  · apply (Metric.isBounded_Icc ((-M, -Y, -M) : ℝ × ℝ × ℝ) (M, Y, M)).subset
    rintro ⟨x, y, z⟩ hp
    have h1 : x ^ 2 + z ^ 2 ≤ q y := hp
    have h2 := abs_le.1 ((hY y).1 (le_trans (by positivity) h1))
    have h3 := hM y
    have hx := abs_le.1 (abs_le_of_sq_le_sq (show x ^ 2 ≤ M ^ 2 by nlinarith [sq_nonneg z]) hM0)
    have hz := abs_le.1 (abs_le_of_sq_le_sq (show z ^ 2 ≤ M ^ 2 by nlinarith [sq_nonneg x]) hM0)
    exact ⟨⟨hx.1, h2.1, hz.1⟩, ⟨hx.2, h2.2, hz.2⟩⟩

theorem revolved_moment {q : ℝ → ℝ} {Y M : ℝ} (hc : Continuous q) (hY : ∀ y, 0 ≤ q y ↔ |y| ≤ Y) (hM : ∀ y, q y ≤ M ^ 2) (hM0 : 0 ≤ M)
    (hY0 : 0 ≤ Y) (i j k : ℕ) :
    total (Revolved q) (fun v => v.y ^ k * (v.x ^ i * v.z ^ j)) =
      turn i j / (i + j + 2) * ∫ y in (-Y)..Y, y ^ k * √(q y) ^ (i + j + 2) := by
  have hK := revolved_compact hc hY hM hM0
  have hcont : Continuous fun p : ℝ × ℝ × ℝ => (pt p).y ^ k * ((pt p).x ^ i * (pt p).z ^ j) := by
    simp only [pt]; fun_prop
  have hint : IntegrableOn (fun p : ℝ × ℝ × ℝ => (pt p).y ^ k * ((pt p).x ^ i * (pt p).z ^ j)) (region (Revolved q)) :=
    hcont.continuousOn.integrableOn_compact hK
  rw [total, ← exchange_preserving.setIntegral_preimage_emb exchange.measurableEmbedding]
  have hm : MeasurableSet (exchange ⁻¹' region (Revolved q)) := exchange.measurable hK.measurableSet
  have hint2 : IntegrableOn (fun p => (fun p : ℝ × ℝ × ℝ => (pt p).y ^ k * ((pt p).x ^ i * (pt p).z ^ j)) (exchange p))
      (exchange ⁻¹' region (Revolved q)) :=
    (exchange_preserving.integrableOn_comp_preimage exchange.measurableEmbedding).2 hint
  rw [← integral_indicator hm, Measure.volume_eq_prod, integral_prod _ (by
    have := hint2.integrable_indicator hm
    rwa [Measure.volume_eq_prod] at this)]
  have hin : ∀ y : ℝ, ∫ xz : ℝ × ℝ, (exchange ⁻¹' region (Revolved q)).indicator
      (fun p => (pt (exchange p)).y ^ k * ((pt (exchange p)).x ^ i * (pt (exchange p)).z ^ j)) (y, xz) =
        (Set.Icc (-Y) Y).indicator (fun y => turn i j / (i + j + 2) * (y ^ k * √(q y) ^ (i + j + 2))) y := by
    intro y
    have h1 : ∀ xz : ℝ × ℝ, (exchange ⁻¹' region (Revolved q)).indicator
        (fun p => (pt (exchange p)).y ^ k * ((pt (exchange p)).x ^ i * (pt (exchange p)).z ^ j)) (y, xz) =
          y ^ k * (disc (q y)).indicator (fun p => p.1 ^ i * p.2 ^ j) xz := by
      rintro ⟨x, z⟩
      by_cases h : (x, z) ∈ disc (q y)
      · rw [Set.indicator_of_mem h, Set.indicator_of_mem (show (y, x, z) ∈ exchange ⁻¹' region (Revolved q) from h)]
        rfl
      · rw [Set.indicator_of_notMem h, Set.indicator_of_notMem (show (y, x, z) ∉ exchange ⁻¹' region (Revolved q) from h), mul_zero]
    simp only [h1]
    rw [integral_const_mul, integral_indicator (disc_measurable _)]
    by_cases hy : y ∈ Set.Icc (-Y) Y
    · rw [Set.indicator_of_mem hy, disc_moment ((hY y).2 (abs_le.2 hy))]
      ring
    · rw [Set.indicator_of_notMem hy, disc_empty (by
        by_contra h0
        exact hy (abs_le.1 ((hY y).1 (not_lt.1 h0))))]
      simp
  rw [integral_congr_ae (Filter.Eventually.of_forall hin), integral_indicator measurableSet_Icc, integral_const_mul, integral_Icc_eq_integral_Ioc,
    intervalIntegral.integral_of_le (by linarith)]

/-! ### Boxes -/

/-- The box with the given half extents about the origin. -/
def Boxed (h : V3 ℝ) (v : V3 ℝ) : Prop := |v.x| ≤ h.x ∧ |v.y| ≤ h.y ∧ |v.z| ≤ h.z

theorem boxed_region (h : V3 ℝ) : region (Boxed h) = Set.Icc (-h.x) h.x ×ˢ (Set.Icc (-h.y) h.y ×ˢ Set.Icc (-h.z) h.z) := by
  ext p
  simp only [region, Boxed, pt, Set.mem_ofPred_eq, Set.mem_prod, Set.mem_Icc, abs_le]

theorem boxed_moment {h : V3 ℝ} (hx : 0 ≤ h.x) (hy : 0 ≤ h.y) (hz : 0 ≤ h.z) (i j k : ℕ) :
    total (Boxed h) (fun v => v.x ^ i * (v.y ^ j * v.z ^ k)) =
      (∫ x in (-h.x)..h.x, x ^ i) * ((∫ y in (-h.y)..h.y, y ^ j) * ∫ z in (-h.z)..h.z, z ^ k) := by
  rw [total, boxed_region]
  simp only [pt]
  rw [Measure.volume_eq_prod, setIntegral_prod_mul (fun x : ℝ => x ^ i) (fun q : ℝ × ℝ => q.1 ^ j * q.2 ^ k), Measure.volume_eq_prod,
    setIntegral_prod_mul (fun y : ℝ => y ^ j) (fun z : ℝ => z ^ k)]
  rw [intervalIntegral.integral_of_le (by linarith), intervalIntegral.integral_of_le (by linarith), intervalIntegral.integral_of_le (by linarith),
    integral_Icc_eq_integral_Ioc, integral_Icc_eq_integral_Ioc, integral_Icc_eq_integral_Ioc]

end Solids
end RP3D
