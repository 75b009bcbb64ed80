import Verif.Narrow.SatGeom

/-! Geometry of the separating axis test of a polyhedron and a segment: the normals of the faces and the products of the segment and the edges suffice. -/

namespace RP3D
namespace SatGeom
variable {K : Type} [Field K] [LinearOrder K] [IsStrictOrderedRing K]

/-- A segment as a body without faces. -/
def segBody (p q : V3 K) : Body K := ⟨[p, q], fun _ => False, fun _ _ _ _ => False, p⟩

variable {A : Body K} {p q : V3 K} {δ : K}

theorem seg_exists (m : V3 K) : ∃ y, Top (segBody p q) m y := by
  obtain ⟨y, hy, h⟩ := exists_max m [p, q] (by simp)
  exact ⟨y, hy, h⟩

theorem seg_tops {m y y' : V3 K} (hy : Top (segBody p q) m y) (hy' : Top (segBody p q) m y') (hne : y ≠ y') : m.dot (q - p) = 0 := by
  have e : m.dot y = m.dot y' := le_antisymm (hy'.2 _ hy.1) (hy.2 _ hy'.1)
  have h1 : y = p ∨ y = q := by simpa [segBody] using hy.1
  have h2 : y' = p ∨ y' = q := by simpa [segBody] using hy'.1
  rw [dot_sub_right]
  rcases h1 with rfl | rfl <;> rcases h2 with rfl | rfl
  · exact absurd rfl hne
  · rw [e]; ring
  · rw [e]; ring
  · exact absurd rfl hne

theorem seg_top {m : V3 K} (h : m.dot (q - p) = 0) : Top (segBody p q) m p := by
  refine ⟨by simp [segBody], fun z hz => ?_⟩
  rw [dot_sub_right] at h
  have : z = p ∨ z = q := by simpa [segBody] using hz
  rcases this with rfl | rfl <;> linarith

theorem neg_perp {m s : V3 K} (h : m.dot s = 0) : (-m).dot s = 0 := by rw [neg_dot, h]; simp

/-- The product of the segment and an edge. -/
theorem seg_cross {a b s : V3 K} (κ : K) : s.cross (-(V3.smul κ (b.cross a))) = V3.smul (κ * b.dot s) a + V3.smul (κ * -(a.dot s)) b := by
  ext <;> simp only [V3.cross, V3.dot, V3.add_x, V3.add_y, V3.add_z, V3.smul_x, V3.smul_y, V3.smul_z, V3.neg_x, V3.neg_y, V3.neg_z] <;> ring

/-- If the segment goes from the inner side of one of the faces beside an edge to the outer side of the other, its product with the edge or the opposite lies
between the normals of the two faces. -/
theorem seg_cone {a b s x y : V3 K} (ha : a.dot (x - y) = 0) (hb : b.dot (x - y) = 0) (hX : 0 < (x - y).dot (b.cross a)) (h : s.dot a * s.dot b < 0) :
    ∃ Z, (Z = s.cross (y - x) ∨ Z = -(s.cross (y - x))) ∧ ∃ α β, 0 < α ∧ 0 < β ∧ Z = V3.smul α a + V3.smul β b := by
  obtain ⟨κ, hκ, eX⟩ := turn_eq ha hb hX
  have e : y - x = -(V3.smul κ (b.cross a)) := by rw [← eX]; ext <;> simp
  have c1 : s.dot a = a.dot s := by simp only [V3.dot]; ring
  have c2 : s.dot b = b.dot s := by simp only [V3.dot]; ring
  rw [c1, c2] at h
  rw [e, seg_cross]
  rcases mul_neg_iff.1 h with ⟨h1, h2⟩ | ⟨h1, h2⟩
  · refine ⟨_, .inr rfl, κ * -(b.dot s), κ * a.dot s, mul_pos hκ (by linarith), mul_pos hκ h1, ?_⟩
    ext <;> simp <;> ring
  · exact ⟨_, .inl rfl, κ * b.dot s, κ * -(a.dot s), mul_pos hκ h2, mul_pos hκ (by linarith), rfl⟩

/-- A direction between the normals that is orthogonal to the segment is such a product. -/
theorem cone_cross {a b s x y : V3 K} {α β : K} (ha : a.dot (x - y) = 0) (hb : b.dot (x - y) = 0) (hX : 0 < (x - y).dot (b.cross a)) (hα : 0 < α) (hβ : 0 < β)
    (h : (V3.smul α a + V3.smul β b).dot s = 0) (hne : a.dot s ≠ 0) :
    s.dot a * s.dot b < 0 ∧ ∃ ρ, ρ ≠ 0 ∧ V3.smul α a + V3.smul β b = V3.smul ρ (s.cross (y - x)) := by
  obtain ⟨κ, hκ, eX⟩ := turn_eq ha hb hX
  have e : y - x = -(V3.smul κ (b.cross a)) := by rw [← eX]; ext <;> simp
  rw [dot_comb] at h
  have hb0 : b.dot s ≠ 0 := by
    intro h0
    rw [h0, mul_zero, add_zero] at h
    rcases mul_eq_zero.1 h with h | h
    · exact hα.ne' h
    · exact hne h
  have eb : b.dot s = -(α * a.dot s) / β := by field_simp; linarith
  constructor
  · have c1 : s.dot a = a.dot s := by simp only [V3.dot]; ring
    have c2 : s.dot b = b.dot s := by simp only [V3.dot]; ring
    rw [c1, c2, eb]
    have : a.dot s * (-(α * a.dot s) / β) = -(α / β * (a.dot s * a.dot s)) := by ring
    rw [this]
    have := mul_pos (div_pos hα hβ) (mul_self_pos.2 hne)
    linarith
  · refine ⟨α / (κ * b.dot s), div_ne_zero hα.ne' (mul_ne_zero hκ.ne' hb0), ?_⟩
    rw [e, seg_cross]
    have hk := hκ.ne'
    have eβ : β = α / (κ * b.dot s) * (κ * -(a.dot s)) := by
      field_simp
      linarith
    have eα : α = α / (κ * b.dot s) * (κ * b.dot s) := by field_simp
    have key : ∀ u v : K, α * u + β * v = α / (κ * b.dot s) * (κ * b.dot s * u + κ * -(a.dot s) * v) := by
      intro u v
      rw [mul_add, ← mul_assoc (α / (κ * b.dot s)) (κ * b.dot s), ← mul_assoc (α / (κ * b.dot s)) (κ * -(a.dot s)), ← eα, ← eβ]
    ext
    · exact key _ _
    · exact key _ _
    · exact key _ _

/-- Overlap along the axes that the test tries. -/
structure SegAxes (A : Body K) (p q : V3 K) (δ : K) : Prop where
  face : ∀ n, A.face n → Deep A (segBody p q) δ n
  cross : ∀ x y a b, A.edge x y a b → (q - p).dot a * (q - p).dot b < 0 →
    ∀ Z, (Z = (q - p).cross (y - x) ∨ Z = -((q - p).cross (y - x))) → 0 < Z.dot (x - A.center) → Deep A (segBody p q) δ Z

/-- **Completeness of the axes.** -/
theorem deep_seg (hA : A.Ok) (h : SegAxes A p q δ) {n : V3 K} (hn : n ≠ 0) : Deep A (segBody p q) δ n := by
  have h1 : ∀ m : V3 K, m ≠ 0 → ∀ x x', Top A m x → Top A m x' → x ≠ x' → Deep A (segBody p q) δ m := by
    intro m hm x x' hx hx' hne
    obtain ⟨u, v, a, b, he, α, β, hα, hβ, rfl⟩ := hA.arc m hm x x' hx hx' hne
    obtain ⟨ta, tb⟩ := hA.top _ _ _ _ he
    have Da := h.face a (hA.faces _ _ _ _ he).1
    have Db := h.face b (hA.faces _ _ _ _ he).2
    refine reduce_cross ta tb seg_exists Da Db ?_ hα hβ
    intro α β hα hβ y y' hy hy' hne
    by_cases h0 : V3.smul α a + V3.smul β b = 0
    · rw [h0]
      refine ⟨0, le_rfl, by simp [V3.lengthSq], fun x y _ _ => by simp [V3.dot]⟩
    have hs : (V3.smul α a + V3.smul β b).dot (q - p) = 0 := by
      have := neg_perp (seg_tops hy hy' hne)
      rwa [neg_neg'] at this
    by_cases ha : a.dot (q - p) = 0
    · have hb : b.dot (q - p) = 0 := by
        rw [dot_comb, ha, mul_zero, zero_add] at hs
        exact (mul_eq_zero.1 hs).resolve_left hβ.ne'
      exact deep_comb hα.le hβ.le ta tb (seg_top (neg_perp ha)) (seg_top (neg_perp hb)) Da Db
    · obtain ⟨fa, fb⟩ := hA.flat _ _ _ _ he
      obtain ⟨hg, ρ, hρ, eρ⟩ := cone_cross fa fb (hA.turn _ _ _ _ he) hα hβ hs ha
      have hpos := hA.top_center h0 (top_comb hα.le hβ.le ta tb)
      rw [eρ] at hpos ⊢
      rw [dot_smul_left] at hpos
      rcases lt_or_gt_of_ne hρ with hρ | hρ
      · have e2 : V3.smul ρ ((q - p).cross (v - u)) = V3.smul (-ρ) (-((q - p).cross (v - u))) := by ext <;> simp
        rw [e2]
        refine deep_smul (by linarith) (h.cross _ _ _ _ he hg _ (.inr rfl) ?_)
        rw [neg_dot]
        by_contra hh
        nlinarith [not_lt.1 hh]
      · refine deep_smul hρ.le (h.cross _ _ _ _ he hg _ (.inl rfl) ?_)
        by_contra hh
        nlinarith [not_lt.1 hh]
  refine reduce_arcs hA seg_exists h1 ?_ hn
  intro m hm y y' hy hy' hne
  have hs : m.dot (q - p) = 0 := by
    have := neg_perp (seg_tops hy hy' hne)
    rwa [neg_neg'] at this
  obtain ⟨x, hx⟩ := hA.exists_top m
  have hc := hA.top_center hm hx
  have hqp : q - p ≠ 0 := by
    intro e
    have hz : ∀ z, z ∈ (segBody p q).pts → z = p := by
      intro z hz
      have : z = p ∨ z = q := by simpa [segBody] using hz
      rcases this with rfl | rfl
      · rfl
      · have ex := congrArg V3.x e; have ey := congrArg V3.y e; have ez := congrArg V3.z e
        simp only [V3.sub_x, V3.sub_y, V3.sub_z, V3.zero_x, V3.zero_y, V3.zero_z] at ex ey ez
        ext <;> linarith
    exact hne ((hz _ hy.1).trans (hz _ hy'.1).symm)
  have hd : (q - p).cross (x - A.center) ≠ 0 := by
    intro e
    -- then the segment is parallel to the ray from the center, along which `m` grows
    have l := len_pos hqp
    have key : (q - p).lengthSq * m.dot (x - A.center) = (q - p).dot (x - A.center) * m.dot (q - p) - m.dot ((q - p).cross ((q - p).cross (x - A.center))) := by
      simp only [V3.lengthSq, V3.dot, V3.cross]; ring
    rw [e, hs] at key
    have z0 : m.dot ((q - p).cross 0) = 0 := by simp [V3.dot, V3.cross]
    rw [z0, mul_zero, sub_zero] at key
    rcases mul_eq_zero.1 key with k | k
    · exact l.ne' k
    · exact hc.ne' k
  have hp0 : ((q - p).cross (x - A.center)).dot (x - A.center) = 0 := by simp only [V3.dot, V3.cross]; ring
  have hps : ((q - p).cross (x - A.center)).dot (q - p) = 0 := by simp only [V3.dot, V3.cross]; ring
  generalize (q - p).cross (x - A.center) = d at *
  have hd' : -d ≠ 0 := by intro e; apply hd; rw [← neg_neg' d, e]; ext <;> simp
  let B1 : Body K := ⟨[p], fun _ => False, fun _ _ _ _ => False, p⟩
  have tB : ∀ m, Top B1 m p := fun m => ⟨List.mem_singleton.2 rfl, fun z hz => by rw [List.mem_singleton.1 hz]⟩
  have uB : ∀ m y, Top B1 m y → y = p := fun m y hy => List.mem_singleton.1 hy.1
  have perp : ∀ t : K, ∀ e : V3 K, e.dot (q - p) = 0 → (m + V3.smul t e).dot (q - p) = 0 := fun t e he => by rw [dot_step, hs, he]; ring
  obtain ⟨s, hs0, ax, -, an, ae⟩ := slide (B := B1) hA hm hd hp0 hx (tB _)
  obtain ⟨t, ht0, bx, -, bn, be⟩ := slide (B := B1) hA hm hd' (neg_perp hp0) hx (tB _)
  have da : Deep A (segBody p q) δ (m + V3.smul s d) := by
    rcases ae with ⟨x', hx', hne⟩ | ⟨y', hy', hne⟩
    · exact h1 _ an x' x hx' ax hne
    · exact absurd (uB _ _ hy') hne
  have db : Deep A (segBody p q) δ (m + V3.smul t (-d)) := by
    rcases be with ⟨x', hx', hne⟩ | ⟨y', hy', hne⟩
    · exact h1 _ bn x' x hx' bx hne
    · exact absurd (uB _ _ hy') hne
  rcases lt_or_eq_of_le (add_nonneg hs0 ht0) with hst | hst
  · have := deep_comb (div_nonneg ht0 hst.le) (div_nonneg hs0 hst.le) ax bx (seg_top (neg_perp (perp s d hps))) (seg_top (neg_perp (perp t (-d) (neg_perp hps)))) da db
    have e : V3.smul (t / (s + t)) (m + V3.smul s d) + V3.smul (s / (s + t)) (m + V3.smul t (-d)) = m := by
      ext <;> simp <;> field_simp <;> ring
    rwa [e] at this
  · have : s = 0 := by linarith
    subst this
    have e : m + V3.smul 0 d = m := by ext <;> simp
    rwa [e] at da

end SatGeom
end RP3D
