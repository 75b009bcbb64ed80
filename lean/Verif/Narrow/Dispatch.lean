import Mathlib.Data.List.Basic

/-! Model of the choice of the narrow-phase algorithm for a pair of colliders and of the tests which the middle phase
adds to the batches (CollisionDispatch.cpp, NarrowPhaseInput.h:133-157, OverlappingPairs.cpp:396-437,
CollisionDetectionSystem.cpp:321-329, 346-450, 520-615).

Simplifications: shapes are known by their type and an identity; the transforms, the last frame data and the flag of
reported contacts are copied into the test unchanged and are left out; the triangles found by
`computeOverlappingTriangles` are an arbitrary list of identities. -/

namespace RP3D
namespace Dispatch

/-- `CollisionShapeType` (CollisionShape.h:47). The C++ code uses the numbers 0, 1, 2, 3. -/
inductive SType
  | sphere | capsule | polyhedron | concave
  deriving DecidableEq, Repr

/-- `static_cast<int>` of a type. -/
def SType.idx : SType → Nat
  | .sphere => 0
  | .capsule => 1
  | .polyhedron => 2
  | .concave => 3

/-- `NarrowPhaseAlgorithmType` (CollisionDispatch.h:42-50). -/
inductive Algo
  | none | sphereSphere | sphereCapsule | capsuleCapsule | spherePoly | capsulePoly | polyPoly
  deriving DecidableEq, Repr

/-- `static_cast<CollisionShapeType>` of a number. -/
def ofIdx : Nat → SType
  | 0 => .sphere
  | 1 => .capsule
  | 2 => .polyhedron
  | _ => .concave

/-- `selectAlgorithm` (CollisionDispatch.cpp:78-116). -/
def selectAlgorithm (type1 type2 : Nat) : Algo :=
  let t1 := ofIdx type1
  let t2 := ofIdx type2
  if type1 > type2 then .none
  else if t1 = .sphere ∧ t2 = .sphere then .sphereSphere
  else if t1 = .sphere ∧ t2 = .capsule then .sphereCapsule
  else if t1 = .capsule ∧ t2 = .capsule then .capsuleCapsule
  else if t1 = .sphere ∧ t2 = .polyhedron then .spherePoly
  else if t1 = .capsule ∧ t2 = .polyhedron then .capsulePoly
  else if t1 = .polyhedron ∧ t2 = .polyhedron then .polyPoly
  else .none

/-- `NB_COLLISION_SHAPE_TYPES` (CollisionShape.h:48). -/
def nbTypes : Nat := 4

/-- `fillInCollisionMatrix` (CollisionDispatch.cpp:196-204): the rows of the matrix. -/
def matrix : List (List Algo) :=
  (List.range nbTypes).map fun i => (List.range nbTypes).map fun j => selectAlgorithm i j

/-- `mCollisionMatrix[i][j]`; an index out of the matrix is undefined. -/
def cell (i j : Nat) : Option Algo := do
  let row ← matrix[i]?
  row[j]?

/-- `selectNarrowPhaseAlgorithm` (CollisionDispatch.cpp:207-222). -/
def selectNarrowPhaseAlgorithm (a b : SType) : Option Algo :=
  let i := a.idx
  let j := b.idx
  if i > j then cell j i else cell i j

/-- A collision shape: its type, its identity, and for a concave shape the triangles of it which are near the other
shape. -/
structure Shape where
  type : SType
  id : Nat
  near : List Nat := []

/-- `isConvex` (ConvexShape.h:86, ConcaveShape.h:123; the constructors of the shapes pass the matching type:
CapsuleShape.cpp:41, SphereShape.cpp:40, ConcaveShape.cpp:34, ConvexPolyhedronShape.cpp:35). -/
def Shape.isConvex (s : Shape) : Bool := decide (s.type ≠ .concave)

/-- A pair of the store: which array it is in and its algorithm (OverlappingPairs.h: `ConvexOverlappingPair`,
`ConcaveOverlappingPair`). -/
structure Pair where
  convex : Bool
  isShape1Convex : Bool
  algo : Algo

/-- The choices of `addPair` (OverlappingPairs.cpp:415-437). -/
def addPair (s1 s2 : Shape) (isConvexVsConvex : Bool) : Option Pair :=
  if isConvexVsConvex then do
    let a ← selectNarrowPhaseAlgorithm s1.type s2.type
    return ⟨true, true, a⟩
  else do
    let a ← selectNarrowPhaseAlgorithm (if s1.isConvex then s1.type else s2.type) .polyhedron
    return ⟨false, s1.isConvex, a⟩

/-- The check of `updateOverlappingPairs` (CollisionDetectionSystem.cpp:321-329): `none` = the call is undefined, `some
none` = no pair is created. -/
def newPair (s1 s2 : Shape) : Option (Option Pair) :=
  if s1.isConvex || s2.isConvex then do
    let p ← addPair s1 s2 (s1.isConvex && s2.isConvex)
    return some p
  else some none

/-- What a test refers to: a shape of a collider or a triangle of a concave shape. -/
inductive Side
  | shape (s : SType) (id : Nat)
  | triangle (id : Nat)
  deriving DecidableEq, Repr

/-- The type of a side; a `TriangleShape` is a `ConvexPolyhedronShape` (TriangleShape.cpp:47). -/
def Side.type : Side → SType
  | .shape s _ => s
  | .triangle _ => .polyhedron

/-- A narrow-phase test: the batch it is in and its two shapes. -/
structure Test where
  batch : Algo
  one : Side
  two : Side
  deriving DecidableEq, Repr

/-- `addNarrowPhaseTest` (NarrowPhaseInput.h:131-160): the assertion of the last case fails for no algorithm. -/
def addTest (a : Algo) (s1 s2 : Side) : Option Test :=
  match a with
  | .sphereSphere => some ⟨.sphereSphere, s1, s2⟩
  | .sphereCapsule => some ⟨.sphereCapsule, s1, s2⟩
  | .capsuleCapsule => some ⟨.capsuleCapsule, s1, s2⟩
  | .spherePoly => some ⟨.spherePoly, s1, s2⟩
  | .capsulePoly => some ⟨.capsulePoly, s1, s2⟩
  | .polyPoly => some ⟨.polyPoly, s1, s2⟩
  | .none => none

/-- The middle phase for one pair: convex pairs (CollisionDetectionSystem.cpp:346-400) give one test, concave pairs
(`computeConvexVsConcaveMiddlePhase`, 520-615) one test for every triangle near the convex shape. The assertions of
551-553 are part of the model. -/
def middlePhase (p : Pair) (s1 s2 : Shape) : Option (List Test) :=
  if p.convex then do
    let t ← addTest p.algo (.shape s1.type s1.id) (.shape s2.type s2.id)
    return [t]
  else
    let convexShape := if p.isShape1Convex then s1 else s2
    let concaveShape := if p.isShape1Convex then s2 else s1
    if convexShape.isConvex ∧ ¬ concaveShape.isConvex ∧ p.algo ≠ .none then
      concaveShape.near.mapM fun t =>
        if p.isShape1Convex then addTest p.algo (.shape convexShape.type convexShape.id) (.triangle t)
        else addTest p.algo (.triangle t) (.shape convexShape.type convexShape.id)
    else none

end Dispatch
end RP3D
