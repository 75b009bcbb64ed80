import Verif.Shapes.CellsFill
import Mathlib.Analysis.SpecialFunctions.PolarCoord
import Mathlib.Analysis.SpecialFunctions.Integrals.Basic
import Mathlib.MeasureTheory.Measure.Lebesgue.EqHaar
import Mathlib.MeasureTheory.Measure.Prod
import Mathlib.MeasureTheory.Integral.Prod
import Mathlib.MeasureTheory.Constructions.Pi
import Mathlib.LinearAlgebra.Matrix.ToLin
import Mathlib.LinearAlgebra.Determinant

/-! Volumes and moments of solids in the space of three coordinates, with the measure of Lebesgue: tetrahedra, convex hulls, boxes and solids of
revolution. These are facts about space; no part of the program is modelled here. -/

namespace RP3D
namespace Solids
open MeasureTheory PointProps Facets

instance : Measure.IsAddHaarMeasure (volume : Measure (ℝ × ℝ × ℝ)) := Measure.prod.instIsAddHaarMeasure _ _

/-- The point with the given coordinates. -/
def pt (p : ℝ × ℝ × ℝ) : V3 ℝ := ⟨p.1, p.2.1, p.2.2⟩
/-- The coordinates of a point. -/
def co (v : V3 ℝ) : ℝ × ℝ × ℝ := (v.x, v.y, v.z)
/-- The set of coordinates of the points of a solid. -/
def region (S : V3 ℝ → Prop) : Set (ℝ × ℝ × ℝ) := {p | S (pt p)}
/-- The integral of a function over a solid. -/
noncomputable def total (S : V3 ℝ → Prop) (g : V3 ℝ → ℝ) : ℝ := ∫ p in region S, g (pt p)

@[simp] theorem pt_co (v : V3 ℝ) : pt (co v) = v := rfl
@[simp] theorem co_pt (p : ℝ × ℝ × ℝ) : co (pt p) = p := rfl

/-! ### Planes and tetrahedra -/

/-- A plane has no volume. -/
theorem plane_null {g : V3 ℝ} (hg : g ≠ 0) (c : V3 ℝ) : volume (region fun x => g.dot (x - c) = 0) = 0 := by
  let f : (ℝ × ℝ × ℝ) →ₗ[ℝ] ℝ :=
    { toFun := fun p => g.x * p.1 + g.y * p.2.1 + g.z * p.2.2
      map_add' := by intro p q; simp; ring
      map_smul' := by intro k p; simp; ring }
  have hker : LinearMap.ker f ≠ ⊤ := by
    rw [Ne, LinearMap.ker_eq_top]
    intro h0
    apply hg
    have h1 := congrArg (fun f : (ℝ × ℝ × ℝ) →ₗ[ℝ] ℝ => f (1, 0, 0)) h0
    have h2 := congrArg (fun f : (ℝ × ℝ × ℝ) →ₗ[ℝ] ℝ => f (0, 1, 0)) h0
    have h3 := congrArg (fun f : (ℝ × ℝ × ℝ) →ₗ[ℝ] ℝ => f (0, 0, 1)) h0
    simp [f] at h1 h2 h3
    ext <;> assumption
  have h1 := Measure.addHaar_submodule volume (LinearMap.ker f) hker
  have h2 : (region fun x => g.dot (x - c) = 0) = (fun p => p + (-(co c))) ⁻¹' (LinearMap.ker f : Set (ℝ × ℝ × ℝ)) := by
    ext p
    simp only [region, Set.mem_ofPred_eq, Set.mem_preimage, SetLike.mem_coe, LinearMap.mem_ker, f, LinearMap.coe_mk, AddHom.coe_mk]
    simp [pt, co, V3.dot, sub_eq_add_neg]
  rw [h2, measure_preimage_add_right]
  exact h1

/-- The tetrahedron between the origin and the unit points of the axes. -/
def unitTetra : Set (ℝ × ℝ × ℝ) := {p | 0 ≤ p.1 ∧ 0 ≤ p.2.1 ∧ 0 ≤ p.2.2 ∧ p.1 + p.2.1 + p.2.2 ≤ 1}

theorem interval_lintegral {s : ℝ} (hs : 0 ≤ s) (f : ℝ → ℝ) (hf : Continuous f) (hf0 : ∀ x ∈ Set.Icc 0 s, 0 ≤ f x) :
    ∫⁻ x in Set.Icc 0 s, ENNReal.ofReal (f x) = ENNReal.ofReal (∫ x in (0 : ℝ)..s, f x) := by
  rw [intervalIntegral.integral_of_le hs, ← integral_Icc_eq_integral_Ioc, ofReal_integral_eq_lintegral_ofReal]
  · exact hf.continuousOn.integrableOn_compact isCompact_Icc
  · exact (ae_restrict_iff' measurableSet_Icc).2 (Filter.Eventually.of_forall hf0)

theorem triangle_volume {s : ℝ} (hs : 0 ≤ s) : volume {q : ℝ × ℝ | 0 ≤ q.1 ∧ 0 ≤ q.2 ∧ q.1 + q.2 ≤ s} = ENNReal.ofReal (s ^ 2 / 2) := by
  have hm : MeasurableSet {q : ℝ × ℝ | 0 ≤ q.1 ∧ 0 ≤ q.2 ∧ q.1 + q.2 ≤ s} := by
    apply IsClosed.measurableSet
    exact (isClosed_le continuous_const continuous_fst).inter ((isClosed_le continuous_const continuous_snd).inter
      (isClosed_le (continuous_fst.add continuous_snd) continuous_const))
  rw [Measure.volume_eq_prod, Measure.prod_apply hm]
  have h1 : ∀ y : ℝ, volume (Prod.mk y ⁻¹' {q : ℝ × ℝ | 0 ≤ q.1 ∧ 0 ≤ q.2 ∧ q.1 + q.2 ≤ s}) =
      (Set.Icc 0 s).indicator (fun y => ENNReal.ofReal (s - y)) y := by
    intro y
    by_cases hy : y ∈ Set.Icc 0 s
    · rw [Set.indicator_of_mem hy]
      have : Prod.mk y ⁻¹' {q : ℝ × ℝ | 0 ≤ q.1 ∧ 0 ≤ q.2 ∧ q.1 + q.2 ≤ s} = Set.Icc 0 (s - y) := by
        ext z
        simp only [Set.mem_preimage, Set.mem_ofPred_eq, Set.mem_Icc]
        exact ⟨fun h => ⟨h.2.1, by linarith [h.2.2]⟩, fun h => ⟨hy.1, h.1, by linarith [h.2]⟩⟩
      rw [this, Real.volume_Icc, sub_zero]
    · rw [Set.indicator_of_notMem hy]
      have : Prod.mk y ⁻¹' {q : ℝ × ℝ | 0 ≤ q.1 ∧ 0 ≤ q.2 ∧ q.1 + q.2 ≤ s} = ∅ := by
        ext z
        simp only [Set.mem_preimage, Set.mem_ofPred_eq, Set.mem_empty_iff_false, iff_false]
        rintro ⟨h1, h2, h3⟩
        exact hy ⟨h1, by linarith⟩
      rw [this, measure_empty]
  rw [lintegral_congr h1, lintegral_indicator measurableSet_Icc,
    interval_lintegral hs (fun y => s - y) (by fun_prop) (fun x hx => by linarith [hx.2])]
  congr 1
  have : ∀ x : ℝ, HasDerivAt (fun x => s * x - x ^ 2 / 2) (s - x) x := by
    intro x
    have := ((hasDerivAt_id x).const_mul s).sub ((hasDerivAt_pow 2 x).div_const 2)
    exact this.congr_deriv (by simp; try ring)
  rw [intervalIntegral.integral_eq_sub_of_hasDerivAt (fun x _ => this x) (by apply Continuous.intervalIntegrable; fun_prop)]
  ring

theorem unitTetra_volume : volume unitTetra = ENNReal.ofReal (1 / 6) := by
  have hm : MeasurableSet unitTetra := by
    apply IsClosed.measurableSet
    have c1 : Continuous fun p : ℝ × ℝ × ℝ => p.1 := continuous_fst
    have c2 : Continuous fun p : ℝ × ℝ × ℝ => p.2.1 := continuous_fst.comp continuous_snd
    have c3 : Continuous fun p : ℝ × ℝ × ℝ => p.2.2 := continuous_snd.comp continuous_snd
    exact (isClosed_le continuous_const c1).inter ((isClosed_le continuous_const c2).inter ((isClosed_le continuous_const c3).inter
      (isClosed_le ((c1.add c2).add c3) continuous_const)))
  rw [Measure.volume_eq_prod, Measure.prod_apply hm]
  have h1 : ∀ x : ℝ, volume (Prod.mk x ⁻¹' unitTetra) = (Set.Icc 0 1).indicator (fun x => ENNReal.ofReal ((1 - x) ^ 2 / 2)) x := by
    intro x
    by_cases hx : x ∈ Set.Icc (0 : ℝ) 1
    · rw [Set.indicator_of_mem hx, ← triangle_volume (by linarith [hx.2])]
      congr 1
      ext q
      simp only [unitTetra, Set.mem_preimage, Set.mem_ofPred_eq]
      exact ⟨fun h => ⟨h.2.1, h.2.2.1, by linarith [h.2.2.2]⟩, fun h => ⟨hx.1, h.1, h.2.1, by linarith [h.2.2]⟩⟩
    · rw [Set.indicator_of_notMem hx]
      have : Prod.mk x ⁻¹' unitTetra = ∅ := by
        ext q
        simp only [unitTetra, Set.mem_preimage, Set.mem_ofPred_eq, Set.mem_empty_iff_false, iff_false]
        rintro ⟨h1, h2, h3, h4⟩
        exact hx ⟨h1, by linarith⟩
      rw [this, measure_empty]
  rw [lintegral_congr h1, lintegral_indicator measurableSet_Icc,
    interval_lintegral (by norm_num) (fun x => (1 - x) ^ 2 / 2) (by fun_prop) (fun x _ => by positivity)]
  congr 1
  have : ∀ x : ℝ, HasDerivAt (fun x => -((1 - x) ^ 3 / 6)) ((1 - x) ^ 2 / 2) x := by
    intro x
    have := (((hasDerivAt_const x (1 : ℝ)).sub (hasDerivAt_id x)).pow 3).div_const 6 |>.neg
    exact this.congr_deriv (by simp; try ring)
  rw [intervalIntegral.integral_eq_sub_of_hasDerivAt (fun x _ => this x) (by apply Continuous.intervalIntegrable; fun_prop)]
  norm_num

/-- The linear map that sends the axes to three vectors. -/
noncomputable def columns (u v w : V3 ℝ) : (ℝ × ℝ × ℝ) →ₗ[ℝ] (ℝ × ℝ × ℝ) where
  toFun p := (p.1 * u.x + p.2.1 * v.x + p.2.2 * w.x, p.1 * u.y + p.2.1 * v.y + p.2.2 * w.y, p.1 * u.z + p.2.1 * v.z + p.2.2 * w.z)
  map_add' := by intro p q; simp; refine ⟨by ring, by ring, by ring⟩
  map_smul' := by intro k p; simp; refine ⟨by ring, by ring, by ring⟩

/-- Coordinates as a function of their index. -/
def triple : (Fin 3 → ℝ) ≃ₗ[ℝ] (ℝ × ℝ × ℝ) where
  toFun f := (f 0, f 1, f 2)
  invFun p := ![p.1, p.2.1, p.2.2]
  map_add' := by intro p q; simp
  map_smul' := by intro k p; simp
  left_inv := by intro f; ext i; fin_cases i <;> rfl
  right_inv := by intro p; simp

theorem columns_det (u v w : V3 ℝ) : LinearMap.det (columns u v w) = u.dot (v.cross w) := by
  have h : columns u v w = (triple : (Fin 3 → ℝ) →ₗ[ℝ] (ℝ × ℝ × ℝ)) ∘ₗ
      (Matrix.toLin' !![u.x, v.x, w.x; u.y, v.y, w.y; u.z, v.z, w.z]) ∘ₗ (triple.symm : (ℝ × ℝ × ℝ) →ₗ[ℝ] (Fin 3 → ℝ)) := by
    apply LinearMap.ext
    intro p
    simp [columns, triple, Matrix.toLin'_apply, Matrix.mulVec, dotProduct, Fin.sum_univ_three]
    refine ⟨by ring, by ring, by ring⟩
  rw [h, LinearMap.det_conj, LinearMap.det_toLin', Matrix.det_fin_three]
  simp [V3.dot, V3.cross]
  ring

/-- The volume of a tetrahedron. -/
theorem cell_volume (c m : V3 ℝ) (e : V3 ℝ × V3 ℝ) : volume (region (Cell c m e)) = ENNReal.ofReal (|cellDet c m e| / 6) := by
  have h1 : region (Cell c m e) = (fun p => p + (-(co c))) ⁻¹' (columns (m - c) (e.1 - c) (e.2 - c) '' unitTetra) := by
    ext p
    simp only [region, Cell, Set.mem_ofPred_eq, Set.mem_preimage, Set.mem_image, unitTetra]
    constructor
    · rintro ⟨α, β, γ, ha, hb, hg, hs, hx⟩
      refine ⟨(α, β, γ), ⟨ha, hb, hg, hs⟩, ?_⟩
      have hp : p = co (c + V3.smul α (m - c) + V3.smul β (e.1 - c) + V3.smul γ (e.2 - c)) := by rw [← hx, co_pt]
      rw [hp]
      simp [columns, co]
      refine ⟨by ring, by ring, by ring⟩
    · rintro ⟨⟨α, β, γ⟩, ⟨ha, hb, hg, hs⟩, hx⟩
      refine ⟨α, β, γ, ha, hb, hg, hs, ?_⟩
      have hp : p = columns (m - c) (e.1 - c) (e.2 - c) (α, β, γ) + co c := by rw [hx]; simp
      rw [hp]
      simp [columns, co, pt]
      ext <;> simp <;> ring
  rw [h1, measure_preimage_add_right, Measure.addHaar_image_linearMap, columns_det, unitTetra_volume, ← ENNReal.ofReal_mul (abs_nonneg _)]
  congr 1
  rw [cellDet]
  ring

theorem cell_closed (c m : V3 ℝ) (e : V3 ℝ × V3 ℝ) : IsCompact (region (Cell c m e)) := by
  have hK : IsCompact unitTetra := by
    apply Metric.isCompact_of_isClosed_isBounded
    · have c1 : Continuous fun p : ℝ × ℝ × ℝ => p.1 := continuous_fst
      have c2 : Continuous fun p : ℝ × ℝ × ℝ => p.2.1 := continuous_fst.comp continuous_snd
      have c3 : Continuous fun p : ℝ × ℝ × ℝ => p.2.2 := continuous_snd.comp continuous_snd
      exact (isClosed_le continuous_const c1).inter ((isClosed_le continuous_const c2).inter ((isClosed_le continuous_const c3).inter
        (isClosed_le ((c1.add c2).add c3) continuous_const)))
    · apply (Metric.isBounded_Icc (0 : ℝ × ℝ × ℝ) (1, 1, 1)).subset
      rintro ⟨x, y, z⟩ ⟨h1, h2, h3, h4⟩
      simp only at h1 h2 h3 h4
      refine ⟨⟨h1, h2, h3⟩, ⟨?_, ?_, ?_⟩⟩ <;> simp <;> linarith
  have h1 : region (Cell c m e) = (fun q => columns (m - c) (e.1 - c) (e.2 - c) q + co c) '' unitTetra := by
    ext p
    simp only [region, Cell, Set.mem_ofPred_eq, Set.mem_image, unitTetra]
    constructor
    · rintro ⟨α, β, γ, ha, hb, hg, hs, hx⟩
      refine ⟨(α, β, γ), ⟨ha, hb, hg, hs⟩, ?_⟩
      have hp : p = co (c + V3.smul α (m - c) + V3.smul β (e.1 - c) + V3.smul γ (e.2 - c)) := by rw [← hx, co_pt]
      rw [hp]
      simp [columns, co]
      refine ⟨by ring, by ring, by ring⟩
    · rintro ⟨⟨α, β, γ⟩, ⟨ha, hb, hg, hs⟩, rfl⟩
      refine ⟨α, β, γ, ha, hb, hg, hs, ?_⟩
      simp [columns, co, pt]
      ext <;> simp <;> ring
  rw [h1]
  apply hK.image
  exact ((columns (m - c) (e.1 - c) (e.2 - c)).continuous_of_finiteDimensional).add continuous_const

/-! ### Convex hulls -/

/-- The volume of a convex hull with a given surface: a sixth of the sum over the faces of the component of the vector of the face along a corner. -/
theorem hull_volume {vs : List (V3 ℝ)} {fs : List (List (V3 ℝ))} (S : Surface vs fs) (first : List (V3 ℝ) → V3 ℝ)
    (hfirst : ∀ F ∈ fs, first F ∈ F) :
    0 < (fs.map fun F => faceSum F (first F)).sum ∧
      volume (region (Hull vs)) = ENNReal.ofReal ((fs.map fun F => faceSum F (first F)).sum / 6) := by
  classical
  obtain ⟨n, h, m, c, R⟩ := frame S
  let L : List (List (V3 ℝ) × (V3 ℝ × V3 ℝ)) := fs.flatMap fun F => (edges F).map fun e => (F, e)
  have hmem : ∀ i, i ∈ L ↔ i.1 ∈ fs ∧ i.2 ∈ edges i.1 := by
    rintro ⟨F, e⟩
    simp only [L, List.mem_flatMap, List.mem_map, Prod.mk.injEq]
    constructor
    · rintro ⟨G, hG, e', he', rfl, rfl⟩
      exact ⟨hG, he'⟩
    · rintro ⟨hF, he⟩
      exact ⟨F, hF, e, he, rfl, rfl⟩
  have hnd : L.Nodup := by
    have h1 : L.map Prod.snd = fs.flatMap edges := by
      simp only [L, List.map_flatMap, List.map_map]
      congr 1
      funext F
      simp [Function.comp_def]
    exact List.Nodup.of_map Prod.snd (by rw [h1]; exact S.once)
  have hsum : ∀ g : List (V3 ℝ) × (V3 ℝ × V3 ℝ) → ℝ, (L.map g).sum = (fs.map fun F => ((edges F).map fun e => g (F, e)).sum).sum := by
    intro g
    have : ∀ l : List (List (V3 ℝ)), ((l.flatMap fun F => (edges F).map fun e => (F, e)).map g).sum =
        (l.map fun F => ((edges F).map fun e => g (F, e)).sum).sum := by
      intro l
      induction l with
      | nil => simp
      | cons F l ih =>
        rw [List.flatMap_cons, List.map_append, List.sum_append, ih, List.map_cons, List.sum_cons, List.map_map]
        rfl
    exact this fs
  have hun : region (Hull vs) = ⋃ i ∈ L.toFinset, region (Cell c (m i.1) i.2) := by
    ext p
    simp only [region, Set.mem_ofPred_eq, Set.mem_iUnion, List.mem_toFinset, exists_prop]
    rw [R.hull_iff_cell S]
    constructor
    · rintro ⟨F, hF, e, he, hx⟩
      exact ⟨(F, e), (hmem _).2 ⟨hF, he⟩, hx⟩
    · rintro ⟨⟨F, e⟩, hi, hx⟩
      exact ⟨F, ((hmem _).1 hi).1, e, ((hmem _).1 hi).2, hx⟩
  have hvol : volume (region (Hull vs)) = ∑ i ∈ L.toFinset, volume (region (Cell c (m i.1) i.2)) := by
    rw [hun]
    refine measure_biUnion_finset₀ ?_ fun i _ => (cell_closed _ _ _).measurableSet.nullMeasurableSet
    rintro ⟨F, e⟩ hi ⟨G, e'⟩ hj hne
    have hi' := (hmem _).1 (List.mem_toFinset.1 hi)
    have hj' := (hmem _).1 (List.mem_toFinset.1 hj)
    have : ∃ g : V3 ℝ, g ≠ 0 ∧ ∀ x, Cell c (m F) e x → Cell c (m G) e' x → g.dot (x - c) = 0 := by
      by_cases hFG : F = G
      · subst hFG
        exact R.apart_edges S hi'.1 (fun h0 => hne (by rw [h0])) hi'.2 hj'.2
      · exact R.apart_faces S hi'.1 hj'.1 hFG hi'.2 hj'.2
    obtain ⟨g, hg, hx⟩ := this
    refine measure_mono_null ?_ (plane_null hg c)
    rintro p ⟨h1, h2⟩
    exact hx (pt p) h1 h2
  have hpos : ∀ i ∈ L, 0 < cellDet c (m i.1) i.2 := fun i hi => R.cellDet_pos ((hmem i).1 hi).1 ((hmem i).1 hi).2
  have hdet := R.sum_det S first hfirst
  have htot : (L.map fun i => cellDet c (m i.1) i.2).sum = (fs.map fun F => faceSum F (first F)).sum := by
    rw [hsum, ← hdet]
  have hfin : ∑ i ∈ L.toFinset, cellDet c (m i.1) i.2 / 6 = (fs.map fun F => faceSum F (first F)).sum / 6 := by
    rw [← htot, ← Finset.sum_div, List.sum_toFinset _ hnd]
  have hv2 : volume (region (Hull vs)) = ENNReal.ofReal ((fs.map fun F => faceSum F (first F)).sum / 6) := by
    rw [hvol, ← hfin, ENNReal.ofReal_sum_of_nonneg (fun i hi => by have := hpos i (List.mem_toFinset.1 hi); positivity)]
    apply Finset.sum_congr rfl
    intro i hi
    rw [cell_volume, abs_of_pos (hpos i (List.mem_toFinset.1 hi))]
  refine ⟨?_, hv2⟩
  have hL : L ≠ [] := by
    obtain ⟨F, hF⟩ := List.exists_mem_of_ne_nil _ S.some
    have hne : F ≠ [] := by rintro rfl; have := S.three _ hF; simp at this
    obtain ⟨a, ha⟩ := List.exists_mem_of_ne_nil _ hne
    obtain ⟨b, hab⟩ := next_edge ha
    exact List.ne_nil_of_mem ((hmem (F, (a, b))).2 ⟨hF, hab⟩)
  rw [← htot, ← List.sum_toFinset _ hnd]
  exact Finset.sum_pos (fun i hi => hpos i (List.mem_toFinset.1 hi)) (by simpa [Finset.nonempty_iff_ne_empty] using hL)

end Solids
end RP3D
