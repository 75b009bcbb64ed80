import Verif.Math.Vec3

/-! Model of `AABB` (include/reactphysics3d/collision/shapes/AABB.h). The comparisons are exact for floating-point coordinates
other than NaN (any linear order). -/

namespace RP3D

/-- `std::min`, `std::max`: they return the first argument unless the second one is smaller (larger). -/
def stdMin {α : Type} [LT α] [DecidableLT α] (a b : α) : α := if b < a then b else a
def stdMax {α : Type} [LT α] [DecidableLT α] (a b : α) : α := if a < b then b else a

/-- `min3`, `max3` (mathematics_functions.h:61-68). -/
def min3 {α : Type} [LT α] [DecidableLT α] (a b c : α) : α := stdMin (stdMin a b) c
def max3 {α : Type} [LT α] [DecidableLT α] (a b c : α) : α := stdMax (stdMax a b) c

/-- `mMinCoordinates`, `mMaxCoordinates` (AABB.h:49-52). -/
@[ext] structure AABB (α : Type) where
  mn : V3 α
  mx : V3 α
deriving DecidableEq, Repr

namespace AABB
variable {α : Type}

section Order
variable [LinearOrder α]

/-- `inflateWithPoint` (AABB.h:164-175). -/
def inflateWithPoint (b : AABB α) (p : V3 α) : AABB α :=
  ⟨⟨if p.x < b.mn.x then p.x else b.mn.x, if p.y < b.mn.y then p.y else b.mn.y, if p.z < b.mn.z then p.z else b.mn.z⟩,
   ⟨if p.x > b.mx.x then p.x else b.mx.x, if p.y > b.mx.y then p.y else b.mx.y, if p.z > b.mx.z then p.z else b.mx.z⟩⟩

/-- `testCollision` (AABB.h:179-187). -/
def testCollision (a b : AABB α) : Bool :=
  if a.mx.x < b.mn.x ∨ b.mx.x < a.mn.x then false
  else if a.mx.y < b.mn.y ∨ b.mx.y < a.mn.y then false
  else if a.mx.z < b.mn.z ∨ b.mx.z < a.mn.z then false
  else true

/-- `testCollisionTriangleAABB` (AABB.h:196-207). -/
def testCollisionTriangle (a : AABB α) (p q r : V3 α) : Bool :=
  if min3 p.x q.x r.x > a.mx.x then false
  else if min3 p.y q.y r.y > a.mx.y then false
  else if min3 p.z q.z r.z > a.mx.z then false
  else if max3 p.x q.x r.x < a.mn.x then false
  else if max3 p.y q.y r.y < a.mn.y then false
  else if max3 p.z q.z r.z < a.mn.z then false
  else true

/-- `mergeTwoAABBs` (AABB.h:235-243); `mergeWithAABB` (AABB.h:224-232) computes the same with the first box being `this`. -/
def merge (a b : AABB α) : AABB α :=
  ⟨⟨stdMin a.mn.x b.mn.x, stdMin a.mn.y b.mn.y, stdMin a.mn.z b.mn.z⟩,
   ⟨stdMax a.mx.x b.mx.x, stdMax a.mx.y b.mx.y, stdMax a.mx.z b.mx.z⟩⟩

/-- `contains(const AABB&)` (AABB.h:246-257). -/
def contains (a b : AABB α) : Bool :=
  decide (a.mn.x ≤ b.mn.x) && decide (a.mn.y ≤ b.mn.y) && decide (a.mn.z ≤ b.mn.z) &&
  decide (a.mx.x ≥ b.mx.x) && decide (a.mx.y ≥ b.mx.y) && decide (a.mx.z ≥ b.mx.z)

/-- `createAABBForTriangle` (AABB.h:260-282): the minimum is updated with the second and then the third point. -/
def forTriangle (p q r : V3 α) : AABB α :=
  let lo := fun (a b c : α) => let m := if b < a then b else a; if c < m then c else m
  let hi := fun (a b c : α) => let m := if b > a then b else a; if c > m then c else m
  ⟨⟨lo p.x q.x r.x, lo p.y q.y r.y, lo p.z q.z r.z⟩, ⟨hi p.x q.x r.x, hi p.y q.y r.y, hi p.z q.z r.z⟩⟩

/-- Specification: the points of a box, and boxes that are not inverted. -/
def Mem (p : V3 α) (b : AABB α) : Prop :=
  b.mn.x ≤ p.x ∧ p.x ≤ b.mx.x ∧ b.mn.y ≤ p.y ∧ p.y ≤ b.mx.y ∧ b.mn.z ≤ p.z ∧ p.z ≤ b.mx.z
def Valid (b : AABB α) : Prop := b.mn.x ≤ b.mx.x ∧ b.mn.y ≤ b.mx.y ∧ b.mn.z ≤ b.mx.z

instance (p : V3 α) (b : AABB α) : Decidable (Mem p b) := by unfold Mem; infer_instance
instance (b : AABB α) : Decidable (Valid b) := by unfold Valid; infer_instance

theorem stdMin_eq (a b : α) : stdMin a b = min a b := by
  unfold stdMin; split
  · rw [min_eq_right (le_of_lt ‹_›)]
  · rw [min_eq_left (not_lt.1 ‹_›)]

theorem stdMax_eq (a b : α) : stdMax a b = max a b := by
  unfold stdMax; split
  · rw [max_eq_right (le_of_lt ‹_›)]
  · rw [max_eq_left (not_lt.1 ‹_›)]

theorem contains_iff (a b : AABB α) : a.contains b = true ↔
    a.mn.x ≤ b.mn.x ∧ a.mn.y ≤ b.mn.y ∧ a.mn.z ≤ b.mn.z ∧ b.mx.x ≤ a.mx.x ∧ b.mx.y ≤ a.mx.y ∧ b.mx.z ≤ a.mx.z := by
  unfold contains
  simp only [Bool.and_eq_true, decide_eq_true_eq, ge_iff_le]
  tauto

theorem testCollision_iff (a b : AABB α) : a.testCollision b = true ↔
    (b.mn.x ≤ a.mx.x ∧ a.mn.x ≤ b.mx.x) ∧ (b.mn.y ≤ a.mx.y ∧ a.mn.y ≤ b.mx.y) ∧ (b.mn.z ≤ a.mx.z ∧ a.mn.z ≤ b.mx.z) := by
  unfold testCollision
  split_ifs with h1 h2 h3
  · simp only [Bool.false_eq_true, false_iff]; intro h; rcases h1 with h1 | h1 <;> exact absurd h1 (not_lt.2 (by tauto))
  · simp only [Bool.false_eq_true, false_iff]; intro h; rcases h2 with h2 | h2 <;> exact absurd h2 (not_lt.2 (by tauto))
  · simp only [Bool.false_eq_true, false_iff]; intro h; rcases h3 with h3 | h3 <;> exact absurd h3 (not_lt.2 (by tauto))
  · simp only [not_or, not_lt] at h1 h2 h3
    simp only [true_iff]
    exact ⟨h1, h2, h3⟩

theorem merge_eq (a b : AABB α) : merge a b =
    ⟨⟨min a.mn.x b.mn.x, min a.mn.y b.mn.y, min a.mn.z b.mn.z⟩, ⟨max a.mx.x b.mx.x, max a.mx.y b.mx.y, max a.mx.z b.mx.z⟩⟩ := by
  unfold merge; simp only [stdMin_eq, stdMax_eq]

theorem contains_merge_left (a b : AABB α) : (merge a b).contains a = true := by
  rw [contains_iff, merge_eq]; simp

theorem contains_merge_right (a b : AABB α) : (merge a b).contains b = true := by
  rw [contains_iff, merge_eq]; simp

theorem contains_refl (a : AABB α) : a.contains a = true := by rw [contains_iff]; simp

theorem contains_trans {a b c : AABB α} (h1 : a.contains b = true) (h2 : b.contains c = true) : a.contains c = true := by
  rw [contains_iff] at *
  obtain ⟨h1, h3, h4, h5, h6, h7⟩ := h1
  obtain ⟨k1, k3, k4, k5, k6, k7⟩ := h2
  exact ⟨h1.trans k1, h3.trans k3, h4.trans k4, k5.trans h5, k6.trans h6, k7.trans h7⟩

/-- A box that overlaps a contained box overlaps the containing one. -/
theorem testCollision_of_contains {q a b : AABB α} (h : a.contains b = true) (hq : q.testCollision b = true) :
    q.testCollision a = true := by
  rw [contains_iff] at h
  rw [testCollision_iff] at *
  obtain ⟨h1, h3, h4, h5, h6, h7⟩ := h
  obtain ⟨⟨k1, k2⟩, ⟨k3, k4⟩, ⟨k5, k6⟩⟩ := hq
  exact ⟨⟨h1.trans k1, k2.trans h5⟩, ⟨h3.trans k3, k4.trans h6⟩, ⟨h4.trans k5, k6.trans h7⟩⟩

end Order

section Arith
variable [Field α] [LinearOrder α]

/-- `getExtent`, `getVolume`, `inflate` (AABB.h:153-161, 190-193). -/
def extent (b : AABB α) : V3 α := b.mx - b.mn
def volume (b : AABB α) : α := let d := b.mx - b.mn; d.x * d.y * d.z
def inflate (b : AABB α) (dx dy dz : α) : AABB α := ⟨b.mn - ⟨dx, dy, dz⟩, b.mx + ⟨dx, dy, dz⟩⟩

/-- `contains(const Vector3&, decimal epsilon)` (AABB.h:210-215). -/
def containsPoint (b : AABB α) (p : V3 α) (eps : α) : Bool :=
  decide (p.x ≥ b.mn.x - eps) && decide (p.x ≤ b.mx.x + eps) &&
  decide (p.y ≥ b.mn.y - eps) && decide (p.y ≤ b.mx.y + eps) &&
  decide (p.z ≥ b.mn.z - eps) && decide (p.z ≤ b.mx.z + eps)

end Arith
end AABB
end RP3D
