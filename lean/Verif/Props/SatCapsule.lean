import Verif.Narrow.SatCapsule
import Verif.Narrow.SatSegGeom
import Verif.Props.SatSphere

/-! C106: the separating axis test of a capsule against a convex polyhedron. -/

namespace RP3D
namespace SatProps
open Shape PointProps RoundProps Geom GeomProps Sat SatGeom
open RayProps (Capsule)

set_option linter.unusedSectionVars false

section Field
variable {K : Type} [Field K] [LinearOrder K] [IsStrictOrderedRing K] {P : Poly K} {wc wp t : Trans K} {N : Num K} {hh r : K}

/-! ### Specification -/

/-- The inner segment of a capsule. -/
def Inner (hh : K) (x : V3 K) : Prop := ∃ s, -hh ≤ s ∧ s ≤ hh ∧ x = ⟨0, s, 0⟩

/-- The axes that are tested: normals of faces, and products of the inner segment with the edges that cross its circle on the Gauss map and are not
nearly parallel to it. -/
def CapTested (N : Num K) (P : Poly K) (hh : K) (t : Trans K) : CapAxis → Prop
  | .start => False
  | .face f => f < P.nf
  | .edge e => (e < P.ne ∧ e % 2 = 0) ∧ capMinkowski P hh t e = true ∧ N.par ≤ ((segB hh - segA hh).cross (t.ori.rot (P.endOf e - P.startOf e))).lengthSq

/-- No edge that crosses the circle of the inner segment is taken for parallel to it. -/
def CapNoParallel (N : Num K) (P : Poly K) (hh : K) (t : Trans K) : Prop :=
  ∀ e, e < P.ne → e % 2 = 0 → capMinkowski P hh t e = true → N.par ≤ ((segB hh - segA hh).cross (t.ori.rot (P.endOf e - P.startOf e))).lengthSq

/-- The depth and the direction of an axis as the program computes them. -/
def capAxis (N : Num K) (P : Poly K) (hh r : K) (t : Trans K) : CapAxis → K × V3 K
  | .start => (N.large, 0)
  | .face f => (capFaceDepth N P hh r t f, t.ori.rot (P.normal f))
  | .edge e => capEdge N P hh r t e

/-! ### Depths -/

/-- The support point of the capsule. -/
theorem cap_value (hN : NumOk N) (he : N.eps < 1) (hr : 0 < r) (hp : 0 < hh) {n y : V3 K} (hn : n.lengthSq = 1) (hy : Top (segBody (segA hh) (segB hh)) (-n) y) :
    n.dot (capSupport N hh r (-n)) = n.dot y - r := by
  have e1 : N.eps * N.eps < (-n).lengthSq := by rw [neg_len, hn]; nlinarith [hN.eps]
  obtain ⟨s0, s1⟩ := hN.root 1 zero_le_one
  have sq : N.sqrt 1 = 1 := by nlinarith
  have h2 := (margin_ball (radius := r) hN.root hN.eps e1 (capsuleSupport hh (-n))).2
  have v : capSupport N hh r (-n) = capsuleSupport hh (-n) + V3.smul r (unit N.eps N.sqrt (-n)) := by
    unfold capSupport withMargin
    dsimp only
    rw [if_pos hr.ne', if_pos e1]
  rw [← v, neg_len, hn, sq, mul_one, neg_dot, neg_dot] at h2
  have top : (-n).dot (capsuleSupport hh (-n)) = (-n).dot y := by
    refine le_antisymm (hy.2 _ ?_) ?_
    · unfold capsuleSupport segBody segA segB
      split_ifs <;> simp
    · have hy1 : y = segA hh ∨ y = segB hh := by simpa [segBody] using hy.1
      unfold capsuleSupport
      rcases hy1 with rfl | rfl <;> split_ifs with h <;>
        simp only [V3.dot, segA, segB, V3.neg_x, V3.neg_y, V3.neg_z] at h ⊢ <;> nlinarith
  rw [neg_dot, neg_dot] at top
  linarith

theorem capFace_depth (hN : NumOk N) (he : N.eps < 1) (hr : 0 < r) (hp : 0 < hh) (hP : Solid P) (ht : t.ori.lengthSq = 1) {f : Nat} (hf : f < P.nf) {x y : V3 K}
    (hx : Top (body P t) (t.ori.rot (P.normal f)) x) (hy : Top (segBody (segA hh) (segB hh)) (-(t.ori.rot (P.normal f))) y) :
    capFaceDepth N P hh r t f = (t.ori.rot (P.normal f)).dot (x - y) + r := by
  have e1 := top_eq hx (first_top hP ht hf)
  have e2 := cap_value hN he hr hp (by rw [rot_len ht]; exact hP.unit f hf) hy
  have e3 : capFaceDepth N P hh r t f = (t.ori.rot (P.normal f)).dot (t.act (P.first f)) - (t.ori.rot (P.normal f)).dot (capSupport N hh r (-(t.ori.rot (P.normal f)))) := by
    unfold capFaceDepth
    simp only [V3.dot, V3.sub_x, V3.sub_y, V3.sub_z]; ring
  rw [e3, dot_sub_right]
  linarith

/-- The axis of an edge: a unit vector, orthogonal to the inner segment and to the edge, along which the edge is farthest. -/
theorem capEdge_axis (hN : NumOk N) (he : N.eps < 1) (hr : 0 < r) (hp : 0 < hh) (hP : Solid P) (ht : t.ori.lengthSq = 1) {e : Nat}
    (hT : CapTested N P hh t (.edge e)) :
    (capEdge N P hh r t e).2.lengthSq = 1 ∧ Top (body P t) (capEdge N P hh r t e).2 (t.act (P.startOf e)) ∧
      (capEdge N P hh r t e).2.dot (segB hh - segA hh) = 0 ∧ (capEdge N P hh r t e).2.dot (t.act (P.endOf e) - t.act (P.startOf e)) = 0 ∧
      (capEdge N P hh r t e).1 = (capEdge N P hh r t e).2.dot (t.act (P.startOf e) - segA hh) + r ∧
      (∃ α β, 0 < α ∧ 0 < β ∧ (capEdge N P hh r t e).2 = V3.smul α (t.ori.rot (P.faceN e)) + V3.smul β (t.ori.rot (P.twinN e))) ∧
      ∀ Z, (Z = (segB hh - segA hh).cross (t.act (P.endOf e) - t.act (P.startOf e)) ∨ Z = -((segB hh - segA hh).cross (t.act (P.endOf e) - t.act (P.startOf e)))) →
        0 < Z.dot (t.act (P.startOf e) - t.act P.centroid) → ∃ l, 0 < l ∧ Z = V3.smul l (capEdge N P hh r t e).2 := by
  obtain ⟨⟨h1, h2⟩, hm, hl⟩ := hT
  have hA := body_ok hP ht
  have be : (body P t).edge (t.act (P.startOf e)) (t.act (P.endOf e)) (t.ori.rot (P.faceN e)) (t.ori.rot (P.twinN e)) := ⟨e, h1, h2, rfl, rfl, rfl, rfl⟩
  obtain ⟨fa, fb⟩ := hA.flat _ _ _ _ be
  obtain ⟨ta, tb⟩ := hA.top _ _ _ _ be
  have hm' := of_decide_eq_true hm
  obtain ⟨Z, hZ, α, β, hα, hβ, eZ⟩ := seg_cone fa fb (hA.turn _ _ _ _ be) hm'
  have hval : capEdge N P hh r t e = ((t.act (P.startOf e) - capSupport N hh r (-(unit N.eps N.sqrt
      (if ((segB hh - segA hh).cross (t.act (P.endOf e) - t.act (P.startOf e))).dot (t.act (P.startOf e) - t.act P.centroid) < 0 then
        -((segB hh - segA hh).cross (t.act (P.endOf e) - t.act (P.startOf e))) else (segB hh - segA hh).cross (t.act (P.endOf e) - t.act (P.startOf e)))))).dot (unit N.eps N.sqrt
      (if ((segB hh - segA hh).cross (t.act (P.endOf e) - t.act (P.startOf e))).dot (t.act (P.startOf e) - t.act P.centroid) < 0 then
        -((segB hh - segA hh).cross (t.act (P.endOf e) - t.act (P.startOf e))) else (segB hh - segA hh).cross (t.act (P.endOf e) - t.act (P.startOf e)))), unit N.eps N.sqrt
      (if ((segB hh - segA hh).cross (t.act (P.endOf e) - t.act (P.startOf e))).dot (t.act (P.startOf e) - t.act P.centroid) < 0 then
        -((segB hh - segA hh).cross (t.act (P.endOf e) - t.act (P.startOf e))) else (segB hh - segA hh).cross (t.act (P.endOf e) - t.act (P.startOf e)))) := by
    unfold capEdge
    dsimp only
    rw [if_pos hl, act_sub t (P.endOf e) (P.startOf e)]
  rw [← act_sub] at hl
  have ps : ((segB hh - segA hh).cross (t.act (P.endOf e) - t.act (P.startOf e))).dot (segB hh - segA hh) = 0 := by simp only [V3.dot, V3.cross]; ring
  have pe : ((segB hh - segA hh).cross (t.act (P.endOf e) - t.act (P.startOf e))).dot (t.act (P.endOf e) - t.act (P.startOf e)) = 0 := by simp only [V3.dot, V3.cross]; ring
  generalize hW : (segB hh - segA hh).cross (t.act (P.endOf e) - t.act (P.startOf e)) = W at *
  have hWp : 0 < W.lengthSq := lt_of_lt_of_le (lt_of_le_of_lt (mul_self_nonneg _) hN.par) hl
  have hZl : Z.lengthSq = W.lengthSq := by
    rcases hZ with rfl | rfl
    · rfl
    · exact neg_len W
  have hZ0 : Z ≠ 0 := by
    rintro rfl
    have : (0 : V3 K).lengthSq = 0 := by simp [V3.lengthSq]
    rw [this] at hZl
    exact hWp.ne hZl
  have hpos : 0 < Z.dot (t.act (P.startOf e) - t.act P.centroid) := hA.top_center hZ0 (by rw [eZ]; exact top_comb hα.le hβ.le ta tb)
  have hout : (if W.dot (t.act (P.startOf e) - t.act P.centroid) < 0 then -W else W) = Z := by
    rcases hZ with rfl | rfl
    · rw [if_neg (not_lt.2 hpos.le)]
    · rw [if_pos (by rw [neg_dot] at hpos; linarith)]
  rw [hout] at hval
  obtain ⟨l, hl0, hll, hu, hu1⟩ := unit_cases N hN (u := Z) (by rw [hZl]; exact hl)
  have zs : Z.dot (segB hh - segA hh) = 0 := by
    rcases hZ with rfl | rfl
    · exact ps
    · exact neg_perp ps
  have ze : Z.dot (t.act (P.endOf e) - t.act (P.startOf e)) = 0 := by
    rcases hZ with rfl | rfl
    · exact pe
    · exact neg_perp pe
  rw [hval]
  dsimp only
  have us : (unit N.eps N.sqrt Z).dot (segB hh - segA hh) = 0 := by rw [hu, dot_smul_left, zs, mul_zero]
  refine ⟨hu1, ?_, us, by rw [hu, dot_smul_left, ze, mul_zero], ?_, ⟨1 / l * α, 1 / l * β, by positivity, by positivity, ?_⟩, ?_⟩
  · rw [hu, eZ]; exact top_smul (by positivity) (top_comb hα.le hβ.le ta tb)
  · have := cap_value hN he hr hp hu1 (seg_top (p := segA hh) (q := segB hh) (neg_perp us))
    rw [dot_sub_right]
    have c : ∀ a b : V3 K, (a - b).dot (unit N.eps N.sqrt Z) = (unit N.eps N.sqrt Z).dot a - (unit N.eps N.sqrt Z).dot b := fun a b => by
      simp only [V3.dot, V3.sub_x, V3.sub_y, V3.sub_z]; ring
    rw [c]
    linarith
  · rw [hu, eZ]; ext <;> simp <;> ring
  · intro Y hY hYp
    refine ⟨l, hl0, ?_⟩
    have hYZ : Y = Z := by
      rcases hY with rfl | rfl <;> rcases hZ with h | h
      · exact h.symm
      · rw [h, neg_dot] at hpos; linarith
      · rw [h] at hpos; rw [neg_dot] at hYp; linarith
      · exact h.symm
    rw [hYZ, hu]
    ext <;> simp <;> field_simp

/-- Along a tested axis the depth is the overlap of the polyhedron and the inner segment, and the radius. -/
theorem cap_exact (hN : NumOk N) (he : N.eps < 1) (hr : 0 < r) (hp : 0 < hh) (hP : Solid P) (ht : t.ori.lengthSq = 1) {a : CapAxis} (ha : CapTested N P hh t a) :
    (capAxis N P hh r t a).2.lengthSq = 1 ∧ ∃ x y, Top (body P t) (capAxis N P hh r t a).2 x ∧ Top (segBody (segA hh) (segB hh)) (-(capAxis N P hh r t a).2) y ∧
      (capAxis N P hh r t a).1 = (capAxis N P hh r t a).2.dot (x - y) + r := by
  cases a with
  | start => exact ha.elim
  | face f =>
    refine ⟨by show (t.ori.rot (P.normal f)).lengthSq = 1; rw [rot_len ht]; exact hP.unit f ha, ?_⟩
    obtain ⟨y, hy⟩ := seg_exists (p := segA hh) (q := segB hh) (-(t.ori.rot (P.normal f)))
    exact ⟨_, y, first_top hP ht ha, hy, capFace_depth hN he hr hp hP ht ha (first_top hP ht ha) hy⟩
  | edge e =>
    obtain ⟨b1, b2, b3, b4, b5, b6⟩ := capEdge_axis hN he hr hp hP ht ha
    exact ⟨b1, _, _, b2, seg_top (neg_perp b3), b5⟩

theorem cap_complete (hN : NumOk N) (he : N.eps < 1) (hr : 0 < r) (hp : 0 < hh) (hP : Solid P) (ht : t.ori.lengthSq = 1) (hpar : CapNoParallel N P hh t) {δ : K}
    (h : ∀ a, CapTested N P hh t a → δ + r ≤ (capAxis N P hh r t a).1) {n : V3 K} (hn : n ≠ 0) : Deep (body P t) (segBody (segA hh) (segB hh)) δ n := by
  refine deep_seg (body_ok hP ht) ⟨?_, ?_⟩ hn
  · rintro n ⟨f, hf, rfl⟩
    refine ⟨1, zero_le_one, by rw [rot_len ht, hP.unit f hf, mul_one], fun x y hx hy => ?_⟩
    have := h (.face f) hf
    rw [show (capAxis N P hh r t (.face f)).1 = capFaceDepth N P hh r t f from rfl, capFace_depth hN he hr hp hP ht hf hx hy] at this
    linarith
  · rintro p q a b ⟨e, h1, h2, rfl, rfl, rfl, rfl⟩ hg Z hZ hpos
    have hm : capMinkowski P hh t e = true := decide_eq_true hg
    have hT : CapTested N P hh t (.edge e) := ⟨⟨h1, h2⟩, hm, hpar e h1 h2 hm⟩
    obtain ⟨b1, b2, b3, b4, b5, -, b6⟩ := capEdge_axis hN he hr hp hP ht hT
    obtain ⟨l, hl, rfl⟩ := b6 Z hZ hpos
    refine deep_smul hl.le ⟨1, zero_le_one, by rw [b1, mul_one], fun x y hx hy => ?_⟩
    have e1 := top_eq hx b2
    have e2 := top_eq hy (seg_top (neg_perp b3))
    rw [neg_dot, neg_dot] at e2
    have := h (.edge e) hT
    rw [show (capAxis N P hh r t (.edge e)).1 = (capEdge N P hh r t e).1 from rfl, b5, dot_sub_right] at this
    rw [mul_one, dot_sub_right]
    linarith

/-! ### The search -/

theorem capFaces_spec (N : Num K) (P : Poly K) (hh r : K) (t : Trans K) : ∀ (L : List Nat) (b : CapBest K), 0 < b.depth →
    (capFaces N P hh r t L b = none → ∃ f ∈ L, capFaceDepth N P hh r t f ≤ 0) ∧
    ∀ b', capFaces N P hh r t L b = some b' → 0 < b'.depth ∧ b'.depth ≤ b.depth ∧ (∀ f ∈ L, b'.depth ≤ capFaceDepth N P hh r t f) ∧
      (b' = b ∨ ∃ f ∈ L, b' = ⟨capFaceDepth N P hh r t f, .face f, t.ori.rot (P.normal f)⟩)
  | [], b, hb => by
    refine ⟨fun h => by simp [capFaces] at h, fun b' h => ?_⟩
    simp only [capFaces, Option.some.injEq] at h
    subst h
    exact ⟨hb, le_rfl, by simp, .inl rfl⟩
  | f :: L, b, hb => by
    unfold capFaces
    dsimp only
    by_cases h0 : capFaceDepth N P hh r t f ≤ 0
    · rw [if_pos h0]
      exact ⟨fun _ => ⟨f, by simp, h0⟩, fun b' h => by simp at h⟩
    rw [if_neg h0]
    have hd : 0 < (if capFaceDepth N P hh r t f < b.depth then (⟨capFaceDepth N P hh r t f, .face f, t.ori.rot (P.normal f)⟩ : CapBest K) else b).depth := by
      split_ifs
      · exact not_le.1 h0
      · exact hb
    obtain ⟨i1, i2⟩ := capFaces_spec N P hh r t L _ hd
    refine ⟨fun h => ?_, fun b' h => ?_⟩
    · obtain ⟨g, hg, hh⟩ := i1 h; exact ⟨g, List.mem_cons_of_mem _ hg, hh⟩
    · obtain ⟨j1, j2, j3, j4⟩ := i2 b' h
      have le : b'.depth ≤ b.depth ∧ b'.depth ≤ capFaceDepth N P hh r t f := by
        split_ifs at j2 with hlt
        · exact ⟨le_trans j2 hlt.le, j2⟩
        · exact ⟨j2, le_trans j2 (not_lt.1 hlt)⟩
      refine ⟨j1, le.1, ?_, ?_⟩
      · intro g hg
        rcases List.mem_cons.1 hg with rfl | hg
        · exact le.2
        · exact j3 g hg
      · rcases j4 with j4 | ⟨g, hg, j4⟩
        · split_ifs at j4 with hlt
          · exact .inr ⟨f, by simp, j4⟩
          · exact .inl j4
        · exact .inr ⟨g, List.mem_cons_of_mem _ hg, j4⟩

theorem capEdges_spec (N : Num K) (P : Poly K) (hh r : K) (t : Trans K) : ∀ (L : List Nat) (b : CapBest K), 0 < b.depth →
    (capEdges N P hh r t L b = none → ∃ e ∈ L, capMinkowski P hh t e = true ∧ (capEdge N P hh r t e).1 ≤ 0) ∧
    ∀ b', capEdges N P hh r t L b = some b' → 0 < b'.depth ∧ b'.depth ≤ b.depth ∧
      (∀ e ∈ L, capMinkowski P hh t e = true → b'.depth ≤ (capEdge N P hh r t e).1) ∧
      (b' = b ∨ ∃ e ∈ L, capMinkowski P hh t e = true ∧ (capEdge N P hh r t e).1 < b.depth ∧ b' = ⟨(capEdge N P hh r t e).1, .edge e, (capEdge N P hh r t e).2⟩)
  | [], b, hb => by
    refine ⟨fun h => by simp [capEdges] at h, fun b' h => ?_⟩
    simp only [capEdges, Option.some.injEq] at h
    subst h
    exact ⟨hb, le_rfl, by simp, .inl rfl⟩
  | e :: L, b, hb => by
    unfold capEdges
    by_cases hm : capMinkowski P hh t e = true
    · rw [if_pos hm]
      dsimp only
      by_cases h0 : (capEdge N P hh r t e).1 ≤ 0
      · rw [if_pos h0]
        exact ⟨fun _ => ⟨e, by simp, hm, h0⟩, fun b' h => by simp at h⟩
      rw [if_neg h0]
      have hd : 0 < (if (capEdge N P hh r t e).1 < b.depth then (⟨(capEdge N P hh r t e).1, .edge e, (capEdge N P hh r t e).2⟩ : CapBest K) else b).depth := by
        split_ifs
        · exact not_le.1 h0
        · exact hb
      obtain ⟨i1, i2⟩ := capEdges_spec N P hh r t L _ hd
      refine ⟨fun h => ?_, fun b' h => ?_⟩
      · obtain ⟨g, hg, hh⟩ := i1 h; exact ⟨g, List.mem_cons_of_mem _ hg, hh⟩
      · obtain ⟨j1, j2, j3, j4⟩ := i2 b' h
        have le : b'.depth ≤ b.depth ∧ b'.depth ≤ (capEdge N P hh r t e).1 := by
          split_ifs at j2 with hlt
          · exact ⟨le_trans j2 hlt.le, j2⟩
          · exact ⟨j2, le_trans j2 (not_lt.1 hlt)⟩
        refine ⟨j1, le.1, ?_, ?_⟩
        · intro g hg
          rcases List.mem_cons.1 hg with rfl | hg
          · exact fun _ => le.2
          · exact j3 g hg
        · rcases j4 with j4 | ⟨g, hg, j4, j5, j6⟩
          · split_ifs at j4 with hlt
            · exact .inr ⟨e, by simp, hm, hlt, j4⟩
            · exact .inl j4
          · refine .inr ⟨g, List.mem_cons_of_mem _ hg, j4, ?_, j6⟩
            split_ifs at j5 with hlt
            · exact lt_trans j5 hlt
            · exact j5
    · rw [if_neg hm]
      obtain ⟨i1, i2⟩ := capEdges_spec N P hh r t L b hb
      refine ⟨fun h => ?_, fun b' h => ?_⟩
      · obtain ⟨g, hg, hh⟩ := i1 h; exact ⟨g, List.mem_cons_of_mem _ hg, hh⟩
      · obtain ⟨j1, j2, j3, j4⟩ := i2 b' h
        refine ⟨j1, j2, ?_, ?_⟩
        · intro g hg h'
          rcases List.mem_cons.1 hg with rfl | hg
          · exact absurd h' hm
          · exact j3 g hg h'
        · rcases j4 with j4 | ⟨g, hg, j4⟩
          · exact .inl j4
          · exact .inr ⟨g, List.mem_cons_of_mem _ hg, j4⟩

/-- An edge that is taken for parallel has the depth `DECIMAL_LARGEST`. -/
theorem capEdge_tested {e : Nat} {d : K} (hd : d ≤ N.large) (he : e ∈ evens P.ne) (hm : capMinkowski P hh t e = true) (h : (capEdge N P hh r t e).1 < d) :
    CapTested N P hh t (.edge e) := by
  refine ⟨mem_evens.1 he, hm, ?_⟩
  by_contra hl
  unfold capEdge at h
  dsimp only at h
  rw [if_neg hl] at h
  exact absurd h (not_lt.2 hd)

/-- What the search finds: an axis of depth zero or less, or the least of all depths. -/
theorem capSearch_spec (hN : NumOk N) (P : Poly K) (hh r : K) (t : Trans K) :
    (capSearch N P hh r t = none → ∃ a, CapTested N P hh t a ∧ (capAxis N P hh r t a).1 ≤ 0) ∧
    ∀ b, capSearch N P hh r t = some b → 0 < b.depth ∧ (∀ a, CapTested N P hh t a → b.depth ≤ (capAxis N P hh r t a).1) ∧
      ((b.axis = .start ∧ b.depth = N.large) ∨ (CapTested N P hh t b.axis ∧ capAxis N P hh r t b.axis = (b.depth, b.dir))) := by
  unfold capSearch
  obtain ⟨i1, i2⟩ := capFaces_spec N P hh r t (List.range P.nf) ⟨N.large, .start, 0⟩ hN.large
  cases hf : capFaces N P hh r t (List.range P.nf) ⟨N.large, .start, 0⟩ with
  | none =>
    refine ⟨fun _ => ?_, fun b h => by simp at h⟩
    obtain ⟨f, hf', h⟩ := i1 hf
    exact ⟨.face f, List.mem_range.1 hf', h⟩
  | some b0 =>
    obtain ⟨j1, j2, j3, j4⟩ := i2 b0 hf
    obtain ⟨k1, k2⟩ := capEdges_spec N P hh r t (evens P.ne) b0 j1
    have j2 : b0.depth ≤ N.large := j2
    refine ⟨fun h => ?_, fun b h => ?_⟩
    · obtain ⟨e, he, hm, hd⟩ := k1 h
      exact ⟨.edge e, capEdge_tested j2 he hm (lt_of_le_of_lt hd j1), hd⟩
    · obtain ⟨l1, l2, l3, l4⟩ := k2 b h
      refine ⟨l1, ?_, ?_⟩
      · intro a ha
        cases a with
        | start => exact ha.elim
        | face f => exact le_trans l2 (j3 f (List.mem_range.2 ha))
        | edge e => exact l3 e (mem_evens.2 ha.1) ha.2.1
      · rcases l4 with rfl | ⟨e, he, hm, hlt, rfl⟩
        · rcases j4 with rfl | ⟨f, hf', rfl⟩
          · exact .inl ⟨rfl, rfl⟩
          · exact .inr ⟨List.mem_range.1 hf', rfl⟩
        · exact .inr ⟨capEdge_tested j2 he hm hlt, rfl⟩

/-! ### In the world -/

theorem inner_le {m : V3 K} {c : K} (h : ∀ z ∈ (segBody (segA hh) (segB hh)).pts, m.dot z ≤ c) {s : K} (h1 : -hh ≤ s) (h2 : s ≤ hh) : m.dot ⟨0, s, 0⟩ ≤ c := by
  have a := h (segA hh) (by simp [segBody])
  have b := h (segB hh) (by simp [segBody])
  simp only [V3.dot, segA, segB] at a b ⊢
  rcases le_total 0 m.y with hm | hm <;> nlinarith

theorem cap_bound (hr : 0 < r) (uc : wc.ori.lengthSq = 1) (up : wp.ori.lengthSq = 1) {n x0 y0 : V3 K} (hn : n.lengthSq = 1) (hx : Top (body P (wc.inverse.mul wp)) n x0)
    (hy : Top (segBody (segA hh) (segB hh)) (-n) y0) {x y : V3 K} (h1 : Placed wp (Hulled P) x) (h2 : Placed wc (Capsule r hh) y) :
    (wc.ori.rot n).dot (x - y) ≤ n.dot (x0 - y0) + r := by
  obtain ⟨u, hu, rfl⟩ := h1
  obtain ⟨v, ⟨s, s1, s2, hv⟩, rfl⟩ := h2
  rw [← frame_act uc u, dot_act uc, rot_conj uc, dot_sub_right, dot_sub_right]
  have a := hull_body (frame_unit up uc) hx.2 hu
  have b := inner_le hy.2 s1 s2
  have hv : SatProps.Ball r (v - (⟨0, s, 0⟩ : V3 K)) := hv
  have c := (dot_ball hr.le hn hv).1
  rw [neg_dot, neg_dot] at b
  rw [dot_sub_right] at c
  linarith

theorem cap_inner {s : K} (h1 : -hh ≤ s) (h2 : s ≤ hh) {w : V3 K} (hw : w.lengthSq ≤ r * r) : Capsule r hh (⟨0, s, 0⟩ + w) := by
  refine ⟨s, h1, h2, ?_⟩
  show ((⟨0, s, 0⟩ : V3 K) + w - ⟨0, s, 0⟩).lengthSq ≤ r * r
  have : (⟨0, s, 0⟩ : V3 K) + w - ⟨0, s, 0⟩ = w := by ext <;> simp
  rwa [this]

/-- **C106.** If the test says that the capsule and the polyhedron do not collide because of an axis, a plane lies between them. -/
theorem capsule_apart (hN : NumOk N) (he : N.eps < 1) (hr : 0 < r) (hp : 0 < hh) (hP : Solid P) (uc : wc.ori.lengthSq = 1) (up : wp.ori.lengthSq = 1)
    (h : capSearch N P hh r (wc.inverse.mul wp) = none) : Apart (Placed wp (Hulled P)) (Placed wc (Capsule r hh)) := by
  have ht := frame_unit up uc
  obtain ⟨a, ha, hd⟩ := (capSearch_spec hN P hh r (wc.inverse.mul wp)).1 h
  obtain ⟨hn, x, y, hx, hy, e⟩ := cap_exact hN he hr hp hP ht ha
  refine ⟨wc.ori.rot (capAxis N P hh r (wc.inverse.mul wp) a).2, by rw [rot_len uc, hn], fun x' y' hx' hy' => ?_⟩
  have := cap_bound hr uc up hn hx hy hx' hy'
  rw [dot_sub_right] at this
  linarith

/-- **C106.** The inner segment meets the polyhedron, which is when the program runs this test. Then the search ends with an axis; its direction is a unit vector
along which the bodies overlap by the depth, and they overlap by at least the depth along every direction; the depth is more than the radius by the overlap of
the polyhedron and the inner segment. -/
theorem capsule_overlap (hN : NumOk N) (he : N.eps < 1) (hr : 0 < r) (hp : 0 < hh) (hP : Solid P) (uc : wc.ori.lengthSq = 1) (up : wp.ori.lengthSq = 1)
    (hin : Meet (Placed wp (Hulled P)) (Placed wc (Inner hh))) (hpar : CapNoParallel N P hh (wc.inverse.mul wp))
    (hb : ∃ f < P.nf, capFaceDepth N P hh r (wc.inverse.mul wp) f < N.large) :
    ∃ b, capSearch N P hh r (wc.inverse.mul wp) = some b ∧ r ≤ b.depth ∧ b.dir.lengthSq = 1 ∧
      (∀ x y, Placed wp (Hulled P) x → Placed wc (Capsule r hh) y → (wc.ori.rot b.dir).dot (x - y) ≤ b.depth) ∧
      Overlap (b.depth - r) (Placed wp (Hulled P)) (Placed wc (Inner hh)) ∧ Overlap b.depth (Placed wp (Hulled P)) (Placed wc (Capsule r hh)) ∧
      CapTested N P hh (wc.inverse.mul wp) b.axis ∧ capAxis N P hh r (wc.inverse.mul wp) b.axis = (b.depth, b.dir) := by
  have ht := frame_unit up uc
  obtain ⟨s1, s2⟩ := capSearch_spec hN P hh r (wc.inverse.mul wp)
  obtain ⟨z, hzp, hzc⟩ := hin
  -- along a tested axis the depth is at least the radius
  have least : ∀ a, CapTested N P hh (wc.inverse.mul wp) a → r ≤ (capAxis N P hh r (wc.inverse.mul wp) a).1 := by
    intro a ha
    obtain ⟨hn, x, y, hx, hy, e⟩ := cap_exact hN he hr hp hP ht ha
    rw [e]
    obtain ⟨u, hu, rfl⟩ := hzp
    obtain ⟨v, ⟨s, h1, h2, rfl⟩, ev⟩ := hzc
    have a := hull_body ht hx.2 hu
    have b := inner_le hy.2 h1 h2
    have : (wc.inverse.mul wp).act u = ⟨0, s, 0⟩ := by
      have q : wc.act ((wc.inverse.mul wp).act u) = wc.act ⟨0, s, 0⟩ := by rw [frame_act uc u]; exact ev
      rw [← trans_inverse_act uc ((wc.inverse.mul wp).act u), q, trans_inverse_act uc]
    rw [this] at a
    rw [neg_dot, neg_dot] at b
    rw [dot_sub_right]
    linarith
  cases hs : capSearch N P hh r (wc.inverse.mul wp) with
  | none =>
    obtain ⟨a, ha, hd⟩ := s1 hs
    linarith [least a ha]
  | some b =>
    obtain ⟨b1, b2, b3⟩ := s2 b hs
    obtain ⟨f0, hf0, hlt⟩ := hb
    have b3 := b3.resolve_left (fun h => by
      have := b2 (.face f0) hf0
      rw [h.2] at this
      exact absurd hlt (not_lt.2 this))
    obtain ⟨b3, b4⟩ := b3
    have hrb : r ≤ b.depth := by have := least _ b3; rwa [b4] at this
    obtain ⟨hn, x, y, hx, hy, e⟩ := cap_exact hN he hr hp hP ht b3
    rw [b4] at hn hx hy e
    have deep : ∀ n : V3 K, n ≠ 0 → Deep (body P (wc.inverse.mul wp)) (segBody (segA hh) (segB hh)) (b.depth - r) n := fun n hn =>
      cap_complete hN he hr hp hP ht hpar (fun a ha => by have := b2 a ha; linarith) hn
    have inner : Overlap (b.depth - r) (Placed wp (Hulled P)) (Placed wc (Inner hh)) := by
      intro n hn
      have hn' : (wc.ori.conj.rot n).lengthSq = 1 := by rw [rot_len (conj_unit uc), hn]
      obtain ⟨k, hk, hl, hd⟩ := deep (wc.ori.conj.rot n) (by intro e; rw [e] at hn'; simp [V3.lengthSq] at hn')
      obtain ⟨x, hx⟩ := (body_ok hP ht).exists_top (wc.ori.conj.rot n)
      obtain ⟨y, hy⟩ := seg_exists (p := segA hh) (q := segB hh) (-(wc.ori.conj.rot n))
      have hv := hd x y hx hy
      obtain ⟨v, hv1, rfl⟩ := mem_pts.1 hx.1
      refine ⟨wp.act (P.vert v), wc.act y, ⟨_, .vertex (List.mem_map.2 ⟨v, List.mem_range.2 hv1, rfl⟩), rfl⟩, ⟨y, ?_, rfl⟩, ?_⟩
      · have : y = segA hh ∨ y = segB hh := by simpa [segBody] using hy.1
        rcases this with rfl | rfl
        · exact ⟨-hh, le_rfl, by linarith, rfl⟩
        · exact ⟨hh, by linarith, le_rfl, rfl⟩
      · rw [← frame_act uc (P.vert v), dot_act uc]
        have hk1 : 1 ≤ k := by
          by_contra hh
          rw [hn'] at hl
          nlinarith [not_le.1 hh]
        have := mul_le_mul_of_nonneg_left hk1 (show 0 ≤ b.depth - r by linarith)
        linarith
    refine ⟨b, rfl, hrb, hn, fun x' y' hx' hy' => ?_, inner, ?_, b3, b4⟩
    · have := cap_bound hr uc up hn hx hy hx' hy'
      exact le_trans this e.ge
    · intro n hn
      obtain ⟨x, y, hx, ⟨_, ⟨s, h1, h2, rfl⟩, rfl⟩, hd⟩ := inner n hn
      have hw : (V3.smul (-r) (wc.ori.conj.rot n)).lengthSq ≤ r * r := by
        have : (V3.smul (-r) (wc.ori.conj.rot n)).lengthSq = r * r * (wc.ori.conj.rot n).lengthSq := by
          simp only [V3.lengthSq, V3.smul_x, V3.smul_y, V3.smul_z]; ring
        rw [this, rot_len (conj_unit uc), hn, mul_one]
      refine ⟨x, wc.act (⟨0, s, 0⟩ + V3.smul (-r) (wc.ori.conj.rot n)), hx, ⟨_, cap_inner (s := s) (w := V3.smul (-r) (wc.ori.conj.rot n)) h1 h2 hw, rfl⟩, ?_⟩
      · have e2 : wc.act (⟨0, s, 0⟩ + V3.smul (-r) (wc.ori.conj.rot n)) = wc.act ⟨0, s, 0⟩ - V3.smul r n := by
          have q := act_sub wc (⟨0, s, 0⟩ + V3.smul (-r) (wc.ori.conj.rot n)) ⟨0, s, 0⟩
          have q2 : (⟨0, s, 0⟩ : V3 K) + V3.smul (-r) (wc.ori.conj.rot n) - ⟨0, s, 0⟩ = V3.smul (-r) (wc.ori.conj.rot n) := by ext <;> simp
          rw [q2, rot_smul, rot_conj' uc] at q
          have key : ∀ q p w : V3 K, q - p = w → q = p + w := by rintro q p w rfl; ext <;> simp
          rw [key _ _ _ q]
          ext <;> simp <;> ring
        rw [e2]
        simp only [V3.lengthSq] at hn
        simp only [V3.dot, V3.sub_x, V3.sub_y, V3.sub_z, V3.smul_x, V3.smul_y, V3.smul_z] at hd ⊢
        nlinarith

end Field

end SatProps
end RP3D
