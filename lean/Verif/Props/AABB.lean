import Verif.Broadphase.AABB
import Mathlib.Algebra.Order.Ring.Rat

/-! Property theorems C22: boxes. The specification is the set of points of a box (`AABB.Mem`). -/

namespace RP3D
open AABB

variable {α : Type} [LinearOrder α]

/-- **C22.** The merged box is the least box containing both. -/
theorem aabb_merge_least (a b c : AABB α) :
    c.contains (merge a b) = true ↔ c.contains a = true ∧ c.contains b = true := by
  simp only [contains_iff, merge_eq, le_min_iff, max_le_iff]
  tauto

/-- **C22.** The points of the two boxes are in the merged box, which has no slack: each of its six sides is a side of one of them. -/
theorem aabb_merge_points (a b : AABB α) (p : V3 α) (h : Mem p a ∨ Mem p b) : Mem p (merge a b) := by
  rw [merge_eq]
  unfold Mem at *
  rcases h with ⟨h1, h2, h3, h4, h5, h6⟩ | ⟨h1, h2, h3, h4, h5, h6⟩ <;> simp [h1, h2, h3, h4, h5, h6]

/-- **C22.** `testCollision` says whether the boxes share a point (touching counts). -/
theorem aabb_overlap_iff_common_point (a b : AABB α) (ha : a.Valid) (hb : b.Valid) :
    a.testCollision b = true ↔ ∃ p, Mem p a ∧ Mem p b := by
  rw [testCollision_iff]
  constructor
  · rintro ⟨⟨h1, h2⟩, ⟨h3, h4⟩, ⟨h5, h6⟩⟩
    obtain ⟨a1, a2, a3⟩ := ha
    obtain ⟨b1, b2, b3⟩ := hb
    refine ⟨⟨max a.mn.x b.mn.x, max a.mn.y b.mn.y, max a.mn.z b.mn.z⟩, ?_, ?_⟩ <;> unfold Mem <;> simp [*]
  · rintro ⟨p, ⟨h1, h2, h3, h4, h5, h6⟩, ⟨k1, k2, k3, k4, k5, k6⟩⟩
    exact ⟨⟨k1.trans h2, h1.trans k2⟩, ⟨k3.trans h4, h3.trans k4⟩, ⟨k5.trans h6, h5.trans k6⟩⟩

/-- **C22.** Overlap is symmetric. -/
theorem aabb_overlap_symm (a b : AABB α) : a.testCollision b = b.testCollision a := by
  rw [Bool.eq_iff_iff, testCollision_iff, testCollision_iff]
  tauto

/-- **C22.** `contains` is containment of point sets. -/
theorem aabb_contains_iff_subset (a b : AABB α) (hb : b.Valid) :
    a.contains b = true ↔ ∀ p, Mem p b → Mem p a := by
  rw [contains_iff]
  constructor
  · rintro ⟨h1, h2, h3, h4, h5, h6⟩ p ⟨k1, k2, k3, k4, k5, k6⟩
    exact ⟨h1.trans k1, k2.trans h4, h2.trans k3, k4.trans h5, h3.trans k5, k6.trans h6⟩
  · intro h
    obtain ⟨b1, b2, b3⟩ := hb
    obtain ⟨h1, _, h3, _, h5, _⟩ := h b.mn ⟨le_refl _, b1, le_refl _, b2, le_refl _, b3⟩
    obtain ⟨_, k2, _, k4, _, k6⟩ := h b.mx ⟨b1, le_refl _, b2, le_refl _, b3, le_refl _⟩
    exact ⟨h1, h3, h5, k2, k4, k6⟩

/-- **C22.** A box overlaps every valid box that it contains. -/
theorem aabb_contains_overlaps (a b : AABB α) (hb : b.Valid) (h : a.contains b = true) : a.testCollision b = true := by
  rw [contains_iff] at h
  rw [testCollision_iff]
  obtain ⟨b1, b2, b3⟩ := hb
  obtain ⟨h1, h2, h3, h4, h5, h6⟩ := h
  exact ⟨⟨b1.trans h4, h1.trans b1⟩, ⟨b2.trans h5, h2.trans b2⟩, ⟨b3.trans h6, h3.trans b3⟩⟩

/-- **C22.** `inflateWithPoint` gives the least box containing the box and the point. -/
theorem aabb_inflateWithPoint_least (b c : AABB α) (p : V3 α) (hb : b.Valid) :
    c.contains (b.inflateWithPoint p) = true ↔ c.contains b = true ∧ Mem p c := by
  have e : b.inflateWithPoint p = merge b ⟨p, p⟩ := by
    unfold inflateWithPoint merge stdMin stdMax
    simp only [gt_iff_lt]
  rw [e, aabb_merge_least]
  unfold Mem
  simp only [contains_iff]
  tauto

/-- **C22.** `createAABBForTriangle` gives the least box containing the three points. -/
theorem aabb_forTriangle_least (p q r : V3 α) (c : AABB α) :
    c.contains (forTriangle p q r) = true ↔ Mem p c ∧ Mem q c ∧ Mem r c := by
  have e : forTriangle p q r = merge (merge ⟨p, p⟩ ⟨q, q⟩) ⟨r, r⟩ := by
    unfold forTriangle merge stdMin stdMax
    simp only [gt_iff_lt]
  rw [e, aabb_merge_least, aabb_merge_least]
  unfold Mem
  simp only [contains_iff]
  tauto

/-- **C22.** The triangle test is the overlap test with the box of the triangle. -/
theorem aabb_testTriangle_eq (a : AABB α) (p q r : V3 α) :
    a.testCollisionTriangle p q r = a.testCollision (forTriangle p q r) := by
  have e : forTriangle p q r = merge (merge ⟨p, p⟩ ⟨q, q⟩) ⟨r, r⟩ := by
    unfold forTriangle merge stdMin stdMax
    simp only [gt_iff_lt]
  rw [Bool.eq_iff_iff, testCollision_iff, e]
  unfold testCollisionTriangle min3 max3
  simp only [merge_eq, stdMin_eq, stdMax_eq]
  split_ifs with h1 h2 h3 h4 h5 h6 <;> simp only [gt_iff_lt, not_lt] at * <;> simp only [Bool.false_eq_true, false_iff, true_iff]
  · intro h; exact absurd h1 (not_lt.2 h.1.1)
  · intro h; exact absurd h2 (not_lt.2 h.2.1.1)
  · intro h; exact absurd h3 (not_lt.2 h.2.2.1)
  · intro h; exact absurd h4 (not_lt.2 h.1.2)
  · intro h; exact absurd h5 (not_lt.2 h.2.1.2)
  · intro h; exact absurd h6 (not_lt.2 h.2.2.2)
  · exact ⟨⟨h1, h4⟩, ⟨h2, h5⟩, ⟨h3, h6⟩⟩

/-- Two boxes that only touch, with their merged box; and a box that is not contained. -/
example : let a : AABB ℚ := ⟨⟨0, 0, 0⟩, ⟨1, 1, 1⟩⟩
    let b : AABB ℚ := ⟨⟨1, -1, 0⟩, ⟨2, 3, 1⟩⟩
    a.Valid ∧ b.Valid ∧ a.testCollision b = true ∧ merge a b = ⟨⟨0, -1, 0⟩, ⟨2, 3, 1⟩⟩ ∧ a.contains b = false ∧
      a.inflateWithPoint ⟨5, 0, 0⟩ = ⟨⟨0, 0, 0⟩, ⟨5, 1, 1⟩⟩ ∧ b.testCollision ⟨⟨0, 0, 2⟩, ⟨9, 9, 9⟩⟩ = false := by
  decide +kernel

end RP3D
