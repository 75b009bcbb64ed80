import Verif.Props.SatContact
import Mathlib.Analysis.Convex.Topology
import Mathlib.Analysis.LocallyConvex.Separation
import Mathlib.Analysis.Real.Sqrt

/-! C102, C103 over the real numbers: the depth is how far a body has to be moved, and the contact points of two edges. -/

namespace RP3D
namespace SatProps
open scoped Pointwise
open Shape RayProps PointProps RoundProps Geom GeomProps Sat SatGeom

/-! ### Hulls as sets of triples -/

def trip (v : V3 ℝ) : ℝ × ℝ × ℝ := (v.x, v.y, v.z)
def untrip (p : ℝ × ℝ × ℝ) : V3 ℝ := ⟨p.1, p.2.1, p.2.2⟩

theorem untrip_trip (v : V3 ℝ) : untrip (trip v) = v := rfl
theorem trip_untrip (p : ℝ × ℝ × ℝ) : trip (untrip p) = p := rfl

/-- The hull of a list of points as a set. -/
def hullSet (vs : List (V3 ℝ)) : Set (ℝ × ℝ × ℝ) := {p | Hull vs (untrip p)}

theorem hullSet_convex (vs : List (V3 ℝ)) : Convex ℝ (hullSet vs) := by
  intro p hp q hq a b ha hb hab
  have := Hull.mix hp hq hb (by linarith)
  have e : V3.smul (1 - b) (untrip p) + V3.smul b (untrip q) = untrip (a • p + b • q) := by
    have : a = 1 - b := by linarith
    subst this
    ext <;> simp [untrip]
  rw [e] at this
  exact this

theorem hullSet_eq (vs : List (V3 ℝ)) : hullSet vs = convexHull ℝ (trip '' {v | v ∈ vs}) := by
  apply Set.Subset.antisymm
  · intro p hp
    have key : ∀ x, Hull vs x → trip x ∈ convexHull ℝ (trip '' {v | v ∈ vs}) := by
      intro x hx
      induction hx with
      | vertex hv => exact subset_convexHull ℝ _ ⟨_, hv, rfl⟩
      | @mix x y w _ _ w0 w1 ih1 ih2 =>
        have := convex_convexHull ℝ (trip '' {v | v ∈ vs}) ih1 ih2 (show (0 : ℝ) ≤ 1 - w by linarith) w0 (by ring)
        convert this using 1
        simp [trip]
    exact key _ hp
  · apply convexHull_min _ (hullSet_convex vs)
    rintro _ ⟨v, hv, rfl⟩
    exact Hull.vertex hv

theorem hullSet_compact (vs : List (V3 ℝ)) : IsCompact (hullSet vs) := by
  rw [hullSet_eq]
  exact ((List.finite_toSet vs).image trip).isCompact_convexHull ℝ

theorem cauchy3 (m w : V3 ℝ) : m.dot w * m.dot w ≤ m.lengthSq * w.lengthSq := by
  simp only [V3.dot, V3.lengthSq]
  nlinarith [sq_nonneg (m.x * w.y - m.y * w.x), sq_nonneg (m.x * w.z - m.z * w.x), sq_nonneg (m.y * w.z - m.z * w.y)]

/-- Hulls that overlap by `δ` in every direction still meet after the second one is moved by any vector not longer than `δ`. -/
theorem overlap_meet {vs ws : List (V3 ℝ)} {δ : ℝ} (hδ : 0 ≤ δ) (h : Overlap δ (Hull vs) (Hull ws)) {w : V3 ℝ} (hw : w.lengthSq ≤ δ * δ) :
    Meet (Hull vs) (Moved (Hull ws) w) := by
  by_contra hno
  let C : Set (ℝ × ℝ × ℝ) := hullSet vs - hullSet ws
  have hC : Convex ℝ C := (hullSet_convex vs).sub (hullSet_convex ws)
  have hK : IsClosed C := by
    have := ((hullSet_compact vs).prod (hullSet_compact ws)).image (continuous_fst.sub continuous_snd)
    have e : C = (fun p : (ℝ × ℝ × ℝ) × (ℝ × ℝ × ℝ) => p.1 - p.2) '' (hullSet vs ×ˢ hullSet ws) := by
      ext z
      constructor
      · rintro ⟨p, hp, q, hq, rfl⟩; exact ⟨(p, q), ⟨hp, hq⟩, rfl⟩
      · rintro ⟨⟨p, q⟩, ⟨hp, hq⟩, rfl⟩; exact ⟨p, hp, q, hq, rfl⟩
    rw [e]
    exact this.isClosed
  have hout : trip w ∉ C := by
    rintro ⟨p, hp, q, hq, e⟩
    apply hno
    refine ⟨untrip p, hp, untrip q, hq, ?_⟩
    have : p = q + trip w := by rw [← e]; simp
    rw [this]
    rfl
  obtain ⟨f, u, h1, h2⟩ := geometric_hahn_banach_closed_point hC hK hout
  let m : V3 ℝ := ⟨f (1, 0, 0), f (0, 1, 0), f (0, 0, 1)⟩
  have hf : ∀ v : V3 ℝ, f (trip v) = m.dot v := by
    intro v
    have : trip v = v.x • ((1, 0, 0) : ℝ × ℝ × ℝ) + v.y • ((0, 1, 0) : ℝ × ℝ × ℝ) + v.z • ((0, 0, 1) : ℝ × ℝ × ℝ) := by simp [trip]
    rw [this, map_add, map_add, map_smul, map_smul, map_smul]
    simp only [V3.dot, m, smul_eq_mul]
    ring
  -- the direction of the plane
  have hm : m ≠ 0 := by
    intro e
    have z : ∀ v : V3 ℝ, f (trip v) = 0 := fun v => by rw [hf, e]; simp [V3.dot]
    obtain ⟨x, y, hx, hy, -⟩ := h ⟨1, 0, 0⟩ (by simp [V3.lengthSq])
    have := h1 (trip x - trip y) ⟨trip x, hx, trip y, hy, rfl⟩
    rw [map_sub, z, z] at this
    rw [z] at h2
    linarith
  have hl := len_pos hm
  have hs : 0 < Real.sqrt m.lengthSq := Real.sqrt_pos.2 hl
  have hss := Real.mul_self_sqrt hl.le
  obtain ⟨x, y, hx, hy, hd⟩ := h (V3.smul (1 / Real.sqrt m.lengthSq) m) (by
    have : (V3.smul (1 / Real.sqrt m.lengthSq) m).lengthSq = (1 / Real.sqrt m.lengthSq) * (1 / Real.sqrt m.lengthSq) * m.lengthSq := by
      simp only [V3.lengthSq, V3.smul_x, V3.smul_y, V3.smul_z]; ring
    rw [this]
    generalize Real.sqrt m.lengthSq = s at *
    rw [← hss]; field_simp)
  rw [dot_smul_left] at hd
  have hd' : δ * Real.sqrt m.lengthSq ≤ m.dot (x - y) := by
    rw [one_div, inv_mul_eq_div, le_div_iff₀ hs] at hd
    exact hd
  have b1 := h1 (trip x - trip y) ⟨trip x, hx, trip y, hy, rfl⟩
  rw [map_sub, hf, hf] at b1
  rw [hf] at h2
  rw [dot_sub_right] at hd'
  have hlt : δ * Real.sqrt m.lengthSq < m.dot w := by linarith
  have hc := cauchy3 m w
  have h0 : 0 ≤ δ * Real.sqrt m.lengthSq := mul_nonneg hδ hs.le
  have hsq : δ * Real.sqrt m.lengthSq * (δ * Real.sqrt m.lengthSq) < m.dot w * m.dot w := by nlinarith
  have : m.lengthSq * w.lengthSq ≤ m.lengthSq * (δ * δ) := mul_le_mul_of_nonneg_left hw hl.le
  have e : δ * Real.sqrt m.lengthSq * (δ * Real.sqrt m.lengthSq) = m.lengthSq * (δ * δ) := by
    rw [show δ * Real.sqrt m.lengthSq * (δ * Real.sqrt m.lengthSq) = (Real.sqrt m.lengthSq * Real.sqrt m.lengthSq) * (δ * δ) by ring, hss]
  linarith

theorem placed_hull {K : Type} [Field K] [LinearOrder K] [IsStrictOrderedRing K] (P : Poly K) (t : Trans K) (x : V3 K) :
    Placed t (Hulled P) x ↔ Hull ((verts P).map t.act) x := by
  constructor
  · rintro ⟨y, hy, rfl⟩
    exact hull_act t (fun v hv => .vertex (List.mem_map.2 ⟨v, hv, rfl⟩)) hy
  · intro h
    induction h with
    | vertex hv => obtain ⟨v, hv', rfl⟩ := List.mem_map.1 hv; exact ⟨v, .vertex hv', rfl⟩
    | mix _ _ w0 w1 ih1 ih2 =>
      obtain ⟨a, ha, rfl⟩ := ih1
      obtain ⟨b, hb, rfl⟩ := ih2
      exact ⟨_, .mix ha hb w0 w1, (act_mix t _ a b).symm⟩

/-- **C102 over the reals.** What `search_overlap` calls the overlap is the distance that one body has to be moved to part them: moved by any vector that is
not longer they still meet, moved by any longer multiple of a certain direction they do not. -/
theorem overlap_depth {P1 P2 : Poly ℝ} {w1 w2 : Trans ℝ} {δ : ℝ} (hδ : 0 ≤ δ) (h : Overlap δ (Placed w1 (Hulled P1)) (Placed w2 (Hulled P2)))
    {n : V3 ℝ} (hn : n.lengthSq = 1) (hb : ∀ x y, Placed w1 (Hulled P1) x → Placed w2 (Hulled P2) y → n.dot (x - y) ≤ δ) :
    (∀ w : V3 ℝ, w.lengthSq ≤ δ * δ → Meet (Placed w1 (Hulled P1)) (Moved (Placed w2 (Hulled P2)) w)) ∧
    ∀ s, δ < s → ¬ Meet (Placed w1 (Hulled P1)) (Moved (Placed w2 (Hulled P2)) (V3.smul s n)) := by
  have e1 : Placed w1 (Hulled P1) = Hull ((verts P1).map w1.act) := funext fun x => propext (placed_hull P1 w1 x)
  have e2 : Placed w2 (Hulled P2) = Hull ((verts P2).map w2.act) := funext fun x => propext (placed_hull P2 w2 x)
  constructor
  · intro w hw
    rw [e1, e2] at h ⊢
    exact overlap_meet hδ h hw
  · rintro s hs ⟨x, hx, y, hy, rfl⟩
    have := hb _ _ hx hy
    simp only [V3.lengthSq] at hn
    simp only [V3.dot, V3.sub_x, V3.sub_y, V3.sub_z, V3.add_x, V3.add_y, V3.add_z, V3.smul_x, V3.smul_y, V3.smul_z] at this
    nlinarith

end SatProps
end RP3D
