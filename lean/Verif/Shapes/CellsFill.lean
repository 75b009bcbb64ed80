import Verif.Shapes.Cells

/-! The tetrahedra of a convex hull (Verif/Shapes/Cells.lean) fill it, overlap in planes only, and the sum of their volumes is the sum over the
faces that the program computes. -/

namespace RP3D
namespace Facets
open PointProps

set_option linter.unusedSectionVars false

variable {K : Type} [Field K] [LinearOrder K] [IsStrictOrderedRing K]
variable {vs : List (V3 K)} {fs : List (List (V3 K))} {n : List (V3 K) → V3 K} {h : List (V3 K) → K} {m : List (V3 K) → V3 K} {c : V3 K}

/-- The tetrahedron with the corners `c`, `m` and the ends of an edge. -/
def Cell (c m : V3 K) (e : V3 K × V3 K) (x : V3 K) : Prop :=
  ∃ α β γ : K, 0 ≤ α ∧ 0 ≤ β ∧ 0 ≤ γ ∧ α + β + γ ≤ 1 ∧
    x = c + V3.smul α (m - c) + V3.smul β (e.1 - c) + V3.smul γ (e.2 - c)

/-- Six times the volume of the tetrahedron. -/
def cellDet (c m : V3 K) (e : V3 K × V3 K) : K := (m - c).dot ((e.1 - c).cross (e.2 - c))

theorem hull_cell {c m : V3 K} {e : V3 K × V3 K} (hc : Hull vs c) (hm : Hull vs m) (h1 : Hull vs e.1) (h2 : Hull vs e.2) {x : V3 K}
    (hx : Cell c m e x) : Hull vs x := by
  obtain ⟨α, β, γ, ha, hb, hg, hs, rfl⟩ := hx
  have step : ∀ {p q : V3 K} {s t : K}, Hull vs p → Hull vs q → 0 ≤ s → 0 ≤ t → 0 < s + t →
      Hull vs (V3.smul (s / (s + t)) p + V3.smul (t / (s + t)) q) := by
    intro p q s t hp hq hs ht hpos
    have := Hull.mix (w := t / (s + t)) hp hq (by positivity) (by rw [div_le_one hpos]; linarith)
    have e : 1 - t / (s + t) = s / (s + t) := by field_simp; ring
    rwa [e] at this
  by_cases hbg : 0 < β + γ
  · have hz := step h1 h2 hb hg hbg
    have hy := step hm hz ha hbg.le (by linarith)
    have hx := Hull.mix (w := α + (β + γ)) hc hy (by linarith) (by linarith)
    convert hx using 1
    have h1 : β + γ ≠ 0 := hbg.ne'
    have h2 : α + (β + γ) ≠ 0 := by positivity
    ext <;> simp <;> field_simp <;> ring
  · have hb0 : β = 0 := by linarith
    have hg0 : γ = 0 := by linarith
    subst hb0 hg0
    have hx := Hull.mix (w := α) hc hm ha (by linarith)
    convert hx using 1
    ext <;> simp <;> ring

namespace Frame

/-- The tetrahedra cover everything that is behind all faces. -/
theorem cover (R : Frame vs fs n h m c) (S : Surface vs fs) {x : V3 K} (hx : ∀ F ∈ fs, (n F).dot x ≤ h F) :
    ∃ F ∈ fs, ∃ e ∈ edges F, Cell c (m F) e x := by
  have hd : ∀ F ∈ fs, 0 < h F - (n F).dot c := fun F hF => by linarith [R.inner F hF]
  obtain ⟨F, hF, hmax⟩ := exists_max (fun F => (n F).dot (x - c) / (h F - (n F).dot c)) fs S.some
  have hne : F ≠ [] := by rintro rfl; have := S.three _ hF; simp at this
  obtain ⟨a0, ha0⟩ := List.exists_mem_of_ne_nil _ hne
  obtain ⟨b0, hab0⟩ := next_edge ha0
  set t := (n F).dot (x - c) / (h F - (n F).dot c) with ht
  have hFt : (n F).dot (x - c) = t * (h F - (n F).dot c) := by rw [ht, div_mul_cancel₀ _ (hd F hF).ne']
  have hGt : ∀ G ∈ fs, (n G).dot (x - c) ≤ t * (h G - (n G).dot c) := by
    intro G hG
    have := hmax G hG
    rwa [div_le_iff₀ (hd G hG)] at this
  have ht1 : t ≤ 1 := by
    rw [ht, div_le_one (hd F hF), dot_sub]
    linarith [hx F hF]
  by_cases ht0 : t ≤ 0
  · -- the point is the common corner
    have hzero : x - c = 0 := R.bounded S fun G hG => (hGt G hG).trans (mul_nonpos_of_nonpos_of_nonneg ht0 (hd G hG).le)
    refine ⟨F, hF, _, hab0, 0, 0, 0, le_refl _, le_refl _, le_refl _, by norm_num, ?_⟩
    have h1 := congrArg V3.x hzero
    have h2 := congrArg V3.y hzero
    have h3 := congrArg V3.z hzero
    simp only [V3.sub_x, V3.sub_y, V3.sub_z, V3.zero_x, V3.zero_y, V3.zero_z] at h1 h2 h3
    ext <;> simp <;> linarith
  · push Not at ht0
    -- the point of the face on the way from the common corner through the point
    set y : V3 K := c + V3.smul (1 / t) (x - c) with hy
    have hyd : ∀ G, (n G).dot y = (n G).dot c + (n G).dot (x - c) / t := by
      intro G; rw [hy]; simp [V3.dot]; ring
    have hyF : (n F).dot y = h F := by
      rw [hyd, hFt]; field_simp; ring
    have hyG : ∀ G ∈ fs, (n G).dot y ≤ h G := by
      intro G hG
      rw [hyd]
      have := hGt G hG
      have h2 : (n G).dot (x - c) / t ≤ h G - (n G).dot c := by rw [div_le_iff₀ ht0]; linarith
      linarith
    have hyl : ∀ e ∈ edges F, 0 ≤ left (n F) e y := fun e he => R.twin_left S hF he hyF hyG
    have hD : ∀ e ∈ edges F, 0 < left (n F) e (m F) := R.midLeft F hF
    have hxy : ∀ k : K, ∀ z : V3 K, y = V3.smul k (m F) + V3.smul (1 - k) z → x = c + V3.smul (t * k) (m F - c) + V3.smul (t * (1 - k)) (z - c) := by
      intro k z hz
      have hx' : x = c + V3.smul t (y - c) := by
        rw [hy]; ext <;> simp <;> field_simp <;> ring
      rw [hx', hz]
      ext <;> simp <;> ring
    have hle : edges F ≠ [] := List.ne_nil_of_mem hab0
    obtain ⟨e, he, hmin⟩ := exists_max (fun e => -(left (n F) e y / left (n F) e (m F))) (edges F) hle
    set s := left (n F) e y / left (n F) e (m F) with hs
    have hs0 : 0 ≤ s := div_nonneg (hyl e he) (hD e he).le
    have hse : left (n F) e y = s * left (n F) e (m F) := by rw [hs, div_mul_cancel₀ _ (hD e he).ne']
    have hsl : ∀ e' ∈ edges F, s * left (n F) e' (m F) ≤ left (n F) e' y := by
      intro e' he'
      have := hmin e' he'
      have h2 : s ≤ left (n F) e' y / left (n F) e' (m F) := by linarith
      rwa [le_div_iff₀ (hD e' he')] at h2
    have hdiff : ∀ e' : V3 K × V3 K, left (n F) e' y - left (n F) e' (m F) = (y - m F).dot ((n F).cross (e'.2 - e'.1)) := by
      intro e'; simp [left, V3.dot, V3.cross]; ring
    have hpl : (n F).dot (y - m F) = 0 := by rw [dot_sub, hyF, R.mid F hF, sub_self]
    by_cases hs1 : 1 ≤ s
    · -- the point of the face is its inner point
      have hz : y - m F = 0 := by
        refine R.face_bounded S hF hpl fun e' he' => ?_
        rw [← hdiff]
        have := hsl e' he'
        nlinarith [hD e' he']
      have h1 := congrArg V3.x hz
      have h2 := congrArg V3.y hz
      have h3 := congrArg V3.z hz
      simp only [V3.sub_x, V3.sub_y, V3.sub_z, V3.zero_x, V3.zero_y, V3.zero_z] at h1 h2 h3
      have hx' := hxy 1 (m F) (by ext <;> simp <;> linarith)
      refine ⟨F, hF, e, he, t, 0, 0, ht0.le, le_refl _, le_refl _, by linarith, ?_⟩
      rw [hx']
      ext <;> simp
    · push Not at hs1
      have hs1' : 0 < 1 - s := by linarith
      -- the point of the edge on the way from the inner point
      set z : V3 K := m F + V3.smul (1 / (1 - s)) (y - m F) with hz
      have hzl : ∀ e' : V3 K × V3 K, (1 - s) * left (n F) e' z = left (n F) e' y - s * left (n F) e' (m F) := by
        intro e'
        have : left (n F) e' z = left (n F) e' (m F) + (1 / (1 - s)) * (left (n F) e' y - left (n F) e' (m F)) := by
          rw [hz]; simp [left, V3.dot, V3.cross]; ring
        rw [this]; field_simp; ring
      have hz0 : left (n F) e z = 0 := by
        have := hzl e
        rw [hse, sub_self] at this
        rcases mul_eq_zero.1 this with h0 | h0
        · exact absurd h0 hs1'.ne'
        · exact h0
      have hznn : ∀ e' ∈ edges F, 0 ≤ left (n F) e' z := by
        intro e' he'
        have h1 := hzl e'
        have h2 := hsl e' he'
        by_contra hneg
        push Not at hneg
        nlinarith
      obtain ⟨a, b⟩ := e
      obtain ⟨ha, hb⟩ := mem_edges he
      have hzp : (n F).dot (z - a) = 0 := by
        have : (n F).dot (z - a) = (n F).dot (m F) + (1 / (1 - s)) * (n F).dot (y - m F) - (n F).dot a := by
          rw [hz]; simp [V3.dot]; ring
        rw [this, hpl, R.mid F hF, R.on F hF a ha]; ring
      have hq := lengthSq_pos (R.cross_ne hF he)
      simp only at hq
      have e1 := in_plane (n F) (b - a) (z - a) (R.flat hF he) hzp
      have hz0' : (z - a).dot ((n F).cross (b - a)) = 0 := by rw [← hz0, left_eq]
      rw [hz0'] at e1
      set u := (z - a).dot (b - a) * (n F).lengthSq / ((n F).cross (b - a)).lengthSq with hu
      have hzu : z - a = V3.smul u (b - a) := by
        have hx1 := congrArg V3.x e1
        have hy1 := congrArg V3.y e1
        have hz1 := congrArg V3.z e1
        simp only [V3.add_x, V3.add_y, V3.add_z, V3.smul_x, V3.smul_y, V3.smul_z, zero_mul, zero_add] at hx1 hy1 hz1
        have hne' := hq.ne'
        ext
        · simp only [V3.smul_x, hu]; field_simp; linarith
        · simp only [V3.smul_y, hu]; field_simp; linarith
        · simp only [V3.smul_z, hu]; field_simp; linarith
      obtain ⟨v, hv, hv1, hv2⟩ := third (S.three F hF) (S.nodup F hF) a b
      have tv := R.turn F hF _ he v hv hv1 hv2
      have hne2 : a ≠ b := by
        intro h0
        rw [left, h0] at tv
        simp [V3.dot, V3.cross] at tv
      have nosw : (b, a) ∉ edges F := by
        intro hsw
        have t2 := R.turn F hF _ hsw v hv hv2 hv1
        have : left (n F) (b, a) v = -(left (n F) (a, b) v) := by simp [left, V3.dot, V3.cross]; ring
        rw [this] at t2
        linarith
      have hzab : ∀ e' : V3 K × V3 K, left (n F) e' z = (1 - u) * left (n F) e' a + u * left (n F) e' b := by
        intro e'
        have hzz : z = a + V3.smul u (b - a) := by
          rw [← hzu]; ext <;> simp
        rw [hzz]; simp [left, V3.dot, V3.cross]; ring
      have hu1 : u ≤ 1 := by
        obtain ⟨w, hbw⟩ := next_edge hb
        have hwa : a ≠ w := by rintro rfl; exact nosw hbw
        have t1 := R.turn F hF _ hbw a ha hne2 hwa
        have t2 := hznn _ hbw
        rw [hzab, show left (n F) (b, w) b = 0 from left_start _ (b, w)] at t2
        nlinarith
      have hu0 : 0 ≤ u := by
        obtain ⟨w, hwa⟩ := prev_edge ha
        have hwb : b ≠ w := by rintro rfl; exact nosw hwa
        have t1 := R.turn F hF _ hwa b hb hwb hne2.symm
        have t2 := hznn _ hwa
        rw [hzab, show left (n F) (w, a) a = 0 from left_end _ (w, a)] at t2
        nlinarith
      have hx' := hxy s z (by
        rw [hz]
        have := hs1'.ne'
        ext <;> simp <;> field_simp <;> ring)
      refine ⟨F, hF, (a, b), he, t * s, t * (1 - s) * (1 - u), t * (1 - s) * u, by positivity, ?_, ?_, ?_, ?_⟩
      · exact mul_nonneg (mul_nonneg ht0.le hs1'.le) (by linarith)
      · exact mul_nonneg (mul_nonneg ht0.le hs1'.le) hu0
      · have : t * s + t * (1 - s) * (1 - u) + t * (1 - s) * u = t := by ring
        rw [this]; exact ht1
      · have hzz : z = a + V3.smul u (b - a) := by
          rw [← hzu]; ext <;> simp
        rw [hx', hzz]
        ext <;> simp <;> ring

/-- The hull is what is behind all faces, and the union of the tetrahedra. -/
theorem hull_iff_cell (R : Frame vs fs n h m c) (S : Surface vs fs) (x : V3 K) : Hull vs x ↔ ∃ F ∈ fs, ∃ e ∈ edges F, Cell c (m F) e x := by
  constructor
  · exact fun hx => R.cover S fun F hF => R.hull_le' hF hx
  · rintro ⟨F, hF, e, he, hx⟩
    obtain ⟨ha, hb⟩ := mem_edges (a := e.1) (b := e.2) he
    exact hull_cell R.cHull (R.midHull F hF) (.vertex (S.vertex F hF _ ha)) (.vertex (S.vertex F hF _ hb)) hx

theorem hull_iff_behind (R : Frame vs fs n h m c) (S : Surface vs fs) (x : V3 K) : Hull vs x ↔ ∀ F ∈ fs, (n F).dot x ≤ h F :=
  ⟨fun hx F hF => R.hull_le' hF hx, fun hx => (R.hull_iff_cell S x).2 (R.cover S hx)⟩

/-- Tetrahedra of different faces have only points of a plane in common. -/
theorem apart_faces (R : Frame vs fs n h m c) (S : Surface vs fs) {F G : List (V3 K)} (hF : F ∈ fs) (hG : G ∈ fs) (hne : F ≠ G)
    {e e' : V3 K × V3 K} (he : e ∈ edges F) (he' : e' ∈ edges G) :
    ∃ g : V3 K, g ≠ 0 ∧ ∀ x, Cell c (m F) e x → Cell c (m G) e' x → g.dot (x - c) = 0 := by
  have hdF : 0 < h F - (n F).dot c := by linarith [R.inner F hF]
  have hdG : 0 < h G - (n G).dot c := by linarith [R.inner G hG]
  refine ⟨V3.smul (h G - (n G).dot c) (n F) - V3.smul (h F - (n F).dot c) (n G), ?_, ?_⟩
  · intro h0
    set k := (h G - (n G).dot c) / (h F - (n F).dot c) with hk
    have hkpos : 0 < k := div_pos hdG hdF
    have hGk : n G = V3.smul k (n F) := by
      have hx1 := congrArg V3.x h0
      have hy1 := congrArg V3.y h0
      have hz1 := congrArg V3.z h0
      simp only [V3.sub_x, V3.sub_y, V3.sub_z, V3.smul_x, V3.smul_y, V3.smul_z, V3.zero_x, V3.zero_y, V3.zero_z] at hx1 hy1 hz1
      have hne' := hdF.ne'
      ext
      · simp only [V3.smul_x, hk]; field_simp; linarith
      · simp only [V3.smul_y, hk]; field_simp; linarith
      · simp only [V3.smul_z, hk]; field_simp; linarith
    have hd : ∀ x, (n G).dot x = k * (n F).dot x := by intro x; rw [hGk]; simp [V3.dot]; ring
    have hh : h G = k * h F := by
      have h1 : h G - (n G).dot c = k * (h F - (n F).dot c) := by rw [hk, div_mul_cancel₀ _ hdF.ne']
      rw [hd] at h1
      linarith
    have hFG : ∀ v ∈ F, v ∈ G := by
      intro v hv
      by_contra hvG
      have := R.behind G hG v (S.vertex F hF v hv) hvG
      rw [hd, hh, R.on F hF v hv] at this
      exact lt_irrefl _ this
    have hGF : ∀ v ∈ G, v ∈ F := by
      intro v hv
      by_contra hvF
      have := R.behind F hF v (S.vertex G hG v hv) hvF
      have h2 := R.on G hG v hv
      rw [hd, hh] at h2
      have h3 : (n F).dot v = h F := mul_left_cancel₀ hkpos.ne' h2
      linarith
    obtain ⟨a, b⟩ := e
    obtain ⟨ha, hb⟩ := mem_edges he
    obtain ⟨b', hb'⟩ := next_edge (hFG a ha)
    have hb'G := (mem_edges hb').2
    obtain ⟨v, hv, hv1, hv2⟩ := third (S.three F hF) (S.nodup F hF) a b
    obtain ⟨v', hv', hv1', hv2'⟩ := third (S.three G hG) (S.nodup G hG) a b'
    have hab : a ≠ b := by
      rintro rfl
      have := R.turn F hF _ he v hv hv1 hv2
      simp [left, V3.dot, V3.cross] at this
    have hab' : a ≠ b' := by
      rintro rfl
      have := R.turn G hG _ hb' v' hv' hv1' hv2'
      simp [left, V3.dot, V3.cross] at this
    have hbb : b' = b := by
      by_contra hbb
      have t1 := R.turn F hF _ he b' (hGF b' hb'G) (Ne.symm hab') hbb
      have t2 := R.turn G hG _ hb' b (hFG b hb) hab.symm (Ne.symm hbb)
      have : left (n G) (a, b') b = -(k * left (n F) (a, b) b') := by
        rw [hGk]; simp [left, V3.dot, V3.cross]; ring
      rw [this] at t2
      nlinarith [mul_pos hkpos t1]
    subst hbb
    have hdis := (List.nodup_flatMap.1 S.once).2
    have hsym : Std.Symm (Function.onFun List.Disjoint (edges (K := K))) := ⟨fun A B hAB => hAB.symm⟩
    exact (List.Pairwise.forall hdis hF hG hne) he hb'
  · rintro x ⟨α, β, γ, ha, hb, hg, hs, hx⟩ ⟨α', β', γ', ha', hb', hg', hs', hx'⟩
    obtain ⟨eF1, eF2⟩ := mem_edges (a := e.1) (b := e.2) he
    obtain ⟨eG1, eG2⟩ := mem_edges (a := e'.1) (b := e'.2) he'
    have exp : ∀ (w c p q r : V3 K) (α β γ : K), w.dot (c + V3.smul α (p - c) + V3.smul β (q - c) + V3.smul γ (r - c) - c) =
        α * (w.dot p - w.dot c) + β * (w.dot q - w.dot c) + γ * (w.dot r - w.dot c) := by
      intro w c p q r α β γ; simp [V3.dot]; ring
    have e1 : (n F).dot (x - c) = (α + β + γ) * (h F - (n F).dot c) := by
      rw [hx, exp, R.mid F hF, R.on F hF _ eF1, R.on F hF _ eF2]; ring
    have e2 : (n G).dot (x - c) = (α' + β' + γ') * (h G - (n G).dot c) := by
      rw [hx', exp, R.mid G hG, R.on G hG _ eG1, R.on G hG _ eG2]; ring
    have e3 : (n G).dot (x - c) ≤ (α + β + γ) * (h G - (n G).dot c) := by
      rw [hx, exp]
      have i1 := R.hull_le' hG (R.midHull F hF)
      have i2 := R.le hG (S.vertex F hF _ eF1)
      have i3 := R.le hG (S.vertex F hF _ eF2)
      nlinarith [mul_le_mul_of_nonneg_left i1 ha, mul_le_mul_of_nonneg_left i2 hb, mul_le_mul_of_nonneg_left i3 hg]
    have e4 : (n F).dot (x - c) ≤ (α' + β' + γ') * (h F - (n F).dot c) := by
      rw [hx', exp]
      have i1 := R.hull_le' hF (R.midHull G hG)
      have i2 := R.le hF (S.vertex G hG _ eG1)
      have i3 := R.le hF (S.vertex G hG _ eG2)
      nlinarith [mul_le_mul_of_nonneg_left i1 ha', mul_le_mul_of_nonneg_left i2 hb', mul_le_mul_of_nonneg_left i3 hg']
    have t1 : α' + β' + γ' ≤ α + β + γ := by rw [e2] at e3; exact le_of_mul_le_mul_right e3 hdG
    have t2 : α + β + γ ≤ α' + β' + γ' := by rw [e1] at e4; exact le_of_mul_le_mul_right e4 hdF
    have t3 : α + β + γ = α' + β' + γ' := le_antisymm t2 t1
    have : (V3.smul (h G - (n G).dot c) (n F) - V3.smul (h F - (n F).dot c) (n G)).dot (x - c) =
        (h G - (n G).dot c) * (n F).dot (x - c) - (h F - (n F).dot c) * (n G).dot (x - c) := by
      generalize h G - (n G).dot c = A
      generalize h F - (n F).dot c = B
      simp [V3.dot]; ring
    rw [this, e1, e2, t3]
    ring

/-- Tetrahedra of different edges of a face have only points of a plane in common. -/
theorem apart_edges (R : Frame vs fs n h m c) (S : Surface vs fs) {F : List (V3 K)} (hF : F ∈ fs) {e e' : V3 K × V3 K} (hne : e ≠ e')
    (he : e ∈ edges F) (he' : e' ∈ edges F) :
    ∃ g : V3 K, g ≠ 0 ∧ ∀ x, Cell c (m F) e x → Cell c (m F) e' x → g.dot (x - c) = 0 := by
  have hdF : 0 < h F - (n F).dot c := by linarith [R.inner F hF]
  set d := h F - (n F).dot c with hd
  let gv : V3 K × V3 K → V3 K := fun e => (n F).cross (e.2 - e.1) + V3.smul ((c - e.1).dot ((n F).cross (e.2 - e.1)) / d) (n F)
  have hgv : ∀ (e : V3 K × V3 K) (z : V3 K), (n F).dot z = h F → (gv e).dot (z - c) = left (n F) e z := by
    intro e z hz
    have h1 : (n F).dot (z - c) = d := by rw [dot_sub, hz]
    have h2 : (gv e).dot (z - c) = (z - c).dot ((n F).cross (e.2 - e.1)) + (c - e.1).dot ((n F).cross (e.2 - e.1)) / d * (n F).dot (z - c) := by
      simp only [gv]
      generalize (c - e.1).dot ((n F).cross (e.2 - e.1)) / d = A
      simp [V3.dot]; ring
    rw [h2, h1, div_mul_cancel₀ _ hdF.ne', left_eq]
    simp [V3.dot]; ring
  obtain ⟨eF1, eF2⟩ := mem_edges (a := e.1) (b := e.2) he
  obtain ⟨eG1, eG2⟩ := mem_edges (a := e'.1) (b := e'.2) he'
  have hD := R.midLeft F hF e he
  have hD' := R.midLeft F hF e' he'
  refine ⟨V3.smul (left (n F) e' (m F)) (gv e) - V3.smul (left (n F) e (m F)) (gv e'), ?_, ?_⟩
  · intro h0
    have key : ∀ z ∈ F, left (n F) e' (m F) * left (n F) e z = left (n F) e (m F) * left (n F) e' z := by
      intro z hz
      have h1 : (V3.smul (left (n F) e' (m F)) (gv e) - V3.smul (left (n F) e (m F)) (gv e')).dot (z - c) = 0 := by
        rw [h0]; simp [V3.dot]
      have h2 : (V3.smul (left (n F) e' (m F)) (gv e) - V3.smul (left (n F) e (m F)) (gv e')).dot (z - c) =
          left (n F) e' (m F) * (gv e).dot (z - c) - left (n F) e (m F) * (gv e').dot (z - c) := by
        generalize gv e = A
        generalize gv e' = B
        simp [V3.dot]; ring
      rw [h2, hgv e z (R.on F hF z hz), hgv e' z (R.on F hF z hz)] at h1
      linarith
    obtain ⟨v, hv, hv1, hv2⟩ := third (S.three F hF) (S.nodup F hF) e.1 e.2
    have tv := R.turn F hF _ he v hv hv1 hv2
    have hz : ∀ z ∈ F, left (n F) e z = 0 → z = e'.1 ∨ z = e'.2 := by
      intro z hz h1
      by_contra hc
      push Not at hc
      have t := R.turn F hF _ he' z hz hc.1 hc.2
      have := key z hz
      rw [h1, mul_zero] at this
      nlinarith [mul_pos hD t]
    have hab : e.1 ≠ e.2 := by
      intro h1
      rw [left, h1] at tv
      simp [V3.dot, V3.cross] at tv
    obtain ⟨a, b⟩ := e
    obtain ⟨a', b'⟩ := e'
    simp only at *
    rcases hz a eF1 (left_start _ (a, b)) with h1 | h1 <;> rcases hz b eF2 (left_end _ (a, b)) with h2 | h2
    · exact hab (h1.trans h2.symm)
    · exact hne (by rw [h1, h2])
    · subst h1 h2
      have t2 := R.turn F hF _ he' v hv hv2 hv1
      have : left (n F) (b, a) v = -(left (n F) (a, b) v) := by simp [left, V3.dot, V3.cross]; ring
      rw [this] at t2
      linarith
    · exact hab (h1.trans h2.symm)
  · rintro x ⟨α, β, γ, ha, hb, hg, hs, hx⟩ ⟨α', β', γ', ha', hb', hg', hs', hx'⟩
    have exp : ∀ (w c p q r : V3 K) (α β γ : K), w.dot (c + V3.smul α (p - c) + V3.smul β (q - c) + V3.smul γ (r - c) - c) =
        α * w.dot (p - c) + β * w.dot (q - c) + γ * w.dot (r - c) := by
      intro w c p q r α β γ; simp [V3.dot]; ring
    have e1 : (gv e).dot (x - c) = α * left (n F) e (m F) := by
      rw [hx, exp, hgv e _ (R.mid F hF), hgv e _ (R.on F hF _ eF1), hgv e _ (R.on F hF _ eF2), left_start, left_end]; ring
    have e2 : (gv e').dot (x - c) = α' * left (n F) e' (m F) := by
      rw [hx', exp, hgv e' _ (R.mid F hF), hgv e' _ (R.on F hF _ eG1), hgv e' _ (R.on F hF _ eG2), left_start, left_end]; ring
    have e3 : α * left (n F) e' (m F) ≤ (gv e').dot (x - c) := by
      rw [hx, exp, hgv e' _ (R.mid F hF), hgv e' _ (R.on F hF _ eF1), hgv e' _ (R.on F hF _ eF2)]
      have i1 := mul_nonneg hb (R.left_nonneg hF he' eF1)
      have i2 := mul_nonneg hg (R.left_nonneg hF he' eF2)
      linarith
    have e4 : α' * left (n F) e (m F) ≤ (gv e).dot (x - c) := by
      rw [hx', exp, hgv e _ (R.mid F hF), hgv e _ (R.on F hF _ eG1), hgv e _ (R.on F hF _ eG2)]
      have i1 := mul_nonneg hb' (R.left_nonneg hF he eG1)
      have i2 := mul_nonneg hg' (R.left_nonneg hF he eG2)
      linarith
    have t1 : α ≤ α' := by rw [e2] at e3; exact le_of_mul_le_mul_right e3 hD'
    have t2 : α' ≤ α := by rw [e1] at e4; exact le_of_mul_le_mul_right e4 hD
    have t3 : α = α' := le_antisymm t1 t2
    have : (V3.smul (left (n F) e' (m F)) (gv e) - V3.smul (left (n F) e (m F)) (gv e')).dot (x - c) =
        left (n F) e' (m F) * (gv e).dot (x - c) - left (n F) e (m F) * (gv e').dot (x - c) := by
      generalize gv e = A
      generalize gv e' = B
      simp [V3.dot]; ring
    rw [this, e1, e2, t3]
    ring

/-- The determinants of the tetrahedra are positive. -/
theorem cellDet_pos (R : Frame vs fs n h m c) {F : List (V3 K)} (hF : F ∈ fs) {e : V3 K × V3 K} (he : e ∈ edges F) : 0 < cellDet c (m F) e := by
  have h1 := R.edge_term hF he (m F - c)
  have h2 : cellDet c (m F) e = (m F - c).dot ((e.1 - m F).cross (e.2 - m F)) := by
    simp [cellDet, V3.dot, V3.cross]; ring
  have h3 : (n F).dot (m F - c) = h F - (n F).dot c := by rw [dot_sub, R.mid F hF]
  have h4 := lengthSq_pos (R.normal_ne hF he)
  rw [h3] at h1
  have h5 := mul_pos (R.midLeft F hF e he) (show 0 < h F - (n F).dot c by linarith [R.inner F hF])
  rw [← h1] at h5
  rw [h2]
  exact (pos_iff_pos_of_mul_pos h5).1 h4

/-- The sum of the determinants is the sum over the faces of the component of their vectors along one of their corners. -/
theorem sum_det (R : Frame vs fs n h m c) (S : Surface vs fs) (first : List (V3 K) → V3 K) (hfirst : ∀ F ∈ fs, first F ∈ F) :
    (fs.map fun F => ((edges F).map fun e => cellDet c (m F) e).sum).sum = (fs.map fun F => faceSum F (first F)).sum := by
  have h1 : ∀ F ∈ fs, ((edges F).map fun e => cellDet c (m F) e).sum = faceSum F (first F) + (-1) * faceSum F c := by
    intro F hF
    have e1 : ((edges F).map fun e => cellDet c (m F) e).sum = faceSum F (m F - c) := (faceSum_about F (m F - c) c).symm
    obtain ⟨k, -, hk⟩ := R.faceSum_normal S hF
    rw [e1, hk, hk, hk, dot_sub, R.mid F hF, R.on F hF _ (hfirst F hF)]
    ring
  rw [List.map_congr_left h1, sum_add, sum_mul, closed_sum S.once S.twin]
  ring

end Frame
end Facets
end RP3D
