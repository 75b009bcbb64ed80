import Verif.Narrow.Dispatch

/-! C56: the narrow-phase dispatch is total, symmetric and agrees with the types of the shapes. -/

namespace RP3D
namespace DispatchProps
open Dispatch

/-- Specification: the two types which an algorithm can test. Taken from the names and the contracts of the algorithm
classes, not from the dispatch. -/
def handles : Algo → Option (SType × SType)
  | .none => Option.none
  | .sphereSphere => some (.sphere, .sphere)
  | .sphereCapsule => some (.sphere, .capsule)
  | .capsuleCapsule => some (.capsule, .capsule)
  | .spherePoly => some (.sphere, .polyhedron)
  | .capsulePoly => some (.capsule, .polyhedron)
  | .polyPoly => some (.polyhedron, .polyhedron)

/-- Specification: algorithm `a` can test shapes of types `x` and `y` given in this or in the other order. -/
def CanTest (a : Algo) (x y : SType) : Prop := handles a = some (x, y) ∨ handles a = some (y, x)

instance (a : Algo) (x y : SType) : Decidable (CanTest a x y) := inferInstanceAs (Decidable (_ ∨ _))

/-- The lookup is always defined, does not depend on the order, selects the algorithm made for the two types if both
are convex, and selects none if one of them is concave. -/
theorem dispatch_total_symmetric (x y : SType) :
    ∃ a, selectNarrowPhaseAlgorithm x y = some a ∧ selectNarrowPhaseAlgorithm y x = some a ∧
      (x ≠ .concave → y ≠ .concave → CanTest a x y) ∧ (x = .concave ∨ y = .concave → a = .none) := by
  cases x <;> cases y <;> exact ⟨_, rfl, rfl, by decide, by decide⟩

/-- Different pairs of convex types never share an algorithm. -/
theorem dispatch_separates {x y x' y' : SType} {a : Algo} (h : selectNarrowPhaseAlgorithm x y = some a)
    (h' : selectNarrowPhaseAlgorithm x' y' = some a) (ha : a ≠ .none) :
    (x = x' ∧ y = y') ∨ (x = y' ∧ y = x') := by
  cases x <;> cases y <;> cases x' <;> cases y' <;> cases a <;> revert h h' ha <;> decide

theorem mapM_addTest {a : Algo} (ha : a ≠ .none) (f : Nat → Side) (g : Nat → Side) (l : List Nat) :
    (l.mapM fun t => addTest a (f t) (g t)) = some (l.map fun t => ⟨a, f t, g t⟩) := by
  have h1 : ∀ t, addTest a (f t) (g t) = some ⟨a, f t, g t⟩ := by
    intro t; cases a <;> first | rfl | exact absurd rfl ha
  induction l with
  | nil => rfl
  | cons t l ih => rw [List.mapM_cons, ih, h1]; rfl

/-- Specification: the tests that two shapes need. Two convex shapes are tested with each other once; a convex shape is
tested once with every triangle of the concave one which is near, in the order of the colliders. -/
def wanted (s1 s2 : Shape) : List (Side × Side) :=
  if s1.isConvex ∧ s2.isConvex then [(.shape s1.type s1.id, .shape s2.type s2.id)]
  else if s1.isConvex then s2.near.map fun t => (.shape s1.type s1.id, .triangle t)
  else if s2.isConvex then s1.near.map fun t => (.triangle t, .shape s2.type s2.id)
  else []

/-- For all two shapes the creation of the pair is defined; there is no pair exactly for two concave shapes; otherwise
the middle phase breaks no assertion, makes exactly the wanted tests, and puts every one of them into a batch whose
algorithm is made for the types of its two shapes. -/
theorem dispatch_of_pair (s1 s2 : Shape) :
    ∃ r, newPair s1 s2 = some r ∧ (r = none ↔ ¬ s1.isConvex ∧ ¬ s2.isConvex) ∧
      ∀ p, r = some p → ∃ ts, middlePhase p s1 s2 = some ts ∧
        ts.map (fun t => (t.one, t.two)) = wanted s1 s2 ∧
        ∀ t ∈ ts, CanTest t.batch t.one.type t.two.type := by
  obtain ⟨ty1, i1, n1⟩ := s1
  obtain ⟨ty2, i2, n2⟩ := s2
  cases h1 : decide (ty1 = .concave) <;> cases h2 : decide (ty2 = .concave) <;>
    simp only [decide_eq_true_eq, decide_eq_false_iff_not] at h1 h2
  · -- both convex
    obtain ⟨a, ha, -, hc, -⟩ := dispatch_total_symmetric ty1 ty2
    have hc := hc h1 h2
    refine ⟨some ⟨true, true, a⟩, by simp [newPair, addPair, Shape.isConvex, h1, h2, ha], by
      simp [Shape.isConvex, h1], ?_⟩
    rintro p ⟨⟩
    refine ⟨[⟨a, .shape ty1 i1, .shape ty2 i2⟩], ?_, ?_, ?_⟩
    · cases a <;> first | rfl | (exfalso; revert hc; cases ty1 <;> cases ty2 <;> decide)
    · simp [wanted, Shape.isConvex, h1, h2]
    · simpa [Side.type] using hc
  · subst h2
    obtain ⟨a, ha, -, hc, -⟩ := dispatch_total_symmetric ty1 .polyhedron
    have hc := hc h1 (by decide)
    have hn : a ≠ .none := by
      rintro rfl; revert hc; cases ty1 <;> decide
    refine ⟨some ⟨false, true, a⟩, by simp [newPair, addPair, Shape.isConvex, h1, ha], by
      simp [Shape.isConvex, h1], ?_⟩
    rintro p ⟨⟩
    refine ⟨n2.map fun t => ⟨a, .shape ty1 i1, .triangle t⟩, ?_, ?_, ?_⟩
    · simp only [middlePhase, Shape.isConvex, h1, ne_eq, not_false_eq_true, decide_true, hn, if_true, and_self,
        not_true_eq_false, decide_false, Bool.false_eq_true, if_false]
      exact mapM_addTest hn (fun _ => .shape ty1 i1) .triangle n2
    · simp [wanted, Shape.isConvex, h1]
    · simp only [List.mem_map]
      rintro t ⟨x, -, rfl⟩
      exact hc
  · subst h1
    obtain ⟨a, ha, -, hc, -⟩ := dispatch_total_symmetric ty2 .polyhedron
    have hc := hc h2 (by decide)
    have hn : a ≠ .none := by
      rintro rfl; revert hc; cases ty2 <;> decide
    refine ⟨some ⟨false, false, a⟩, by simp [newPair, addPair, Shape.isConvex, h2, ha], by
      simp [Shape.isConvex, h2], ?_⟩
    rintro p ⟨⟩
    refine ⟨n1.map fun t => ⟨a, .triangle t, .shape ty2 i2⟩, ?_, ?_, ?_⟩
    · simp only [middlePhase, Shape.isConvex, h2, ne_eq, not_false_eq_true, decide_true, hn, if_true, and_self,
        not_true_eq_false, decide_false, Bool.false_eq_true, if_false]
      exact mapM_addTest hn .triangle (fun _ => .shape ty2 i2) n1
    · simp [wanted, Shape.isConvex, h2]
    · simp only [List.mem_map]
      rintro t ⟨x, -, rfl⟩
      exact hc.symm
  · subst h1 h2
    exact ⟨none, by simp [newPair, Shape.isConvex], by simp [Shape.isConvex], by simp⟩

/-- A capsule and a mesh of which triangles 4 and 7 are near. -/
example : (do let r ← newPair ⟨.concave, 1, [4, 7]⟩ ⟨.capsule, 2, []⟩
              let p ← r
              middlePhase p ⟨.concave, 1, [4, 7]⟩ ⟨.capsule, 2, []⟩) =
    some [⟨.capsulePoly, .triangle 4, .shape .capsule 2⟩, ⟨.capsulePoly, .triangle 7, .shape .capsule 2⟩] := by
  decide

example : selectNarrowPhaseAlgorithm .polyhedron .sphere = some .spherePoly := by decide

end DispatchProps
end RP3D
