import Verif.Narrow.Sat

/-! One pair of convex polyhedra over a sequence of steps and queries of the world (src/systems/CollisionDetectionSystem.cpp:653-900 and 1197-1217,
src/collision/narrowphase/ConvexPolyhedronVsConvexPolyhedronAlgorithm.cpp:36-63): what the test of the pair leaves for the next test. -/

namespace RP3D
namespace Sat
open Shape

section Field
variable {K : Type} [Field K] [LinearOrder K] [IsStrictOrderedRing K]

/-- The `LastFrameCollisionInfo` of the pair (OverlappingPairs.h:55-93) as far as this algorithm reads it; `wasUsingSAT` is `sat`. -/
structure Memo where
  valid : Bool
  sat : Bool
  was : Bool
  axis : Axis
deriving DecidableEq, Repr

/-- Its constructor (OverlappingPairs.h:87-92). No flag of a face is set, so that the pair of the edges 0 and 0 stands there. -/
def Memo.fresh : Memo := ⟨false, false, false, .edges 0 0⟩

/-- SATAlgorithm.cpp:517: is there an axis to begin with? -/
def Memo.last (m : Memo) : Option (Axis × Bool) := if m.valid = true ∧ m.sat = true then some (m.axis, m.was) else none

/-- What the user does with the world between two changes of the poses: `PhysicsWorld::update`, `testOverlap`, `testCollision`. -/
inductive Call
  | step
  | overlap
  | collision
deriving DecidableEq, Repr

/-- The flag `clipWithPreviousAxisIfStillColliding` that `testNarrowPhaseCollision` gets (CollisionDetectionSystem.cpp:704, 753 and 852). -/
def Call.clip : Call → Bool
  | .step => true
  | .overlap => false
  | .collision => false

/-- `reportContacts` of the pair: `computeMiddlePhase(mNarrowPhaseInput, true)` of a step (CollisionDetectionSystem.cpp:96),
`computeMiddlePhaseCollisionSnapshot(..., false)` of `testOverlap`, `(..., true)` of `testCollision`. The colliders are not triggers. -/
def Call.report : Call → Bool
  | .step => true
  | .overlap => false
  | .collision => true

/-- Is `processAllPotentialContacts` called (CollisionDetectionSystem.cpp:707, 753-767 and 855-865)? `found` is what the narrow phase of the call returns. -/
def Call.process (found : Bool) : Call → Bool
  | .step => true
  | .overlap => false
  | .collision => found

/-- One call. `others` says whether another pair of the call collides. The axis and `wasUsingSAT` are always written; `wasColliding` and `isValid` in
`processPotentialContacts` (CollisionDetectionSystem.cpp:1208-1218). -/
def call (N : Num K) (P1 P2 : Poly K) (c : Call) (others : Bool) (w1 w2 : Trans K) (m : Memo) : Option (Res K × Memo) :=
  match polyhedra N P1 P2 w1 w2 c.report c.clip m.last with
  | none => none
  | some r =>
    some (r, if c.process (r.colliding || others) then ⟨true, true, r.colliding, r.axis⟩ else ⟨m.valid, true, m.was, r.axis⟩)

/-- A call with the poses that it meets. -/
structure Moment (K : Type) where
  kind : Call
  others : Bool
  w1 : Trans K
  w2 : Trans K

/-- A sequence of calls: what each finds. -/
def session (N : Num K) (P1 P2 : Poly K) : List (Moment K) → Memo → Option (List (Res K))
  | [], _ => some []
  | c :: cs, m =>
    match call N P1 P2 c.kind c.others c.w1 c.w2 m with
    | none => none
    | some (r, m') =>
      match session N P1 P2 cs m' with
      | none => none
      | some rs => some (r :: rs)

end Field
end Sat
end RP3D
