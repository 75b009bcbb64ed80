import Verif.Math.Vec3
import Verif.Containers.Array

/-!
From the reduced contacts of a frame to the arrays of the solver, and the impulses carried over from the previous frame
(src/systems/CollisionDetectionSystem.cpp: createContacts, initContactsWithPreviousOnes, computeMapPreviousContactPairs,
swapPreviousAndCurrentContacts; src/constraint/ContactPoint.cpp, src/collision/ContactManifold.cpp, CollisionCallback.cpp).

Simplifications: a contact pair holds the points of its potential manifolds themselves in place of their indices in `mPotentialContactManifolds` and
`mPotentialContactPoints` (C40-C42, C70 are about those); exact arithmetic; numbers of points and manifolds do not overflow; the map of the previous
pairs is a function (C03).  A failed assertion, an access out of bounds and the exception of `Map::add` are `none`.
-/

namespace RP3D
namespace Warm

/-- `ContactPointInfo` (ContactPointInfo.h:46-64). -/
@[ext] structure Info (K : Type) where
  normal : V3 K
  depth : K
  p1 : V3 K
  p2 : V3 K
deriving DecidableEq, Repr

/-- `ContactPoint` (ContactPoint.h:46-85), with `mPenetrationImpulse` and `mIsRestingContact`. -/
@[ext] structure Point (K : Type) where
  info : Info K
  imp : K
  rest : Bool
deriving DecidableEq, Repr

/-- The friction data of a manifold (ContactManifold.h:83-96). -/
@[ext] structure Fric (K : Type) where
  f1 : V3 K
  f2 : V3 K
  i1 : K
  i2 : K
  tw : K
deriving DecidableEq, Repr

/-- `ContactManifold` (ContactManifold.h:65-96). -/
@[ext] structure Man (K : Type) where
  start : Nat
  nb : Nat
  body1 : Nat
  body2 : Nat
  col1 : Nat
  col2 : Nat
  fr : Fric K
deriving DecidableEq, Repr

/-- `ContactPair` (ContactPair.h:48-100). -/
@[ext] structure CPair (K : Type) where
  id : Nat
  b1 : Nat
  b2 : Nat
  c1 : Nat
  c2 : Nat
  pots : List (List (Info K))
  manIdx : Nat
  nbMan : Nat
  ptIdx : Nat
  nbPts : Nat
deriving DecidableEq, Repr

/-- The arrays of a frame: contact pairs, manifolds, points, and `mPreviousMapPairIdToContactPairIndex` for the next frame. -/
structure Frame (K : Type) where
  pairs : List (CPair K)
  mans : List (Man K)
  pts : List (Point K)
  map : Nat → Option Nat

/-- `persistentContactDistanceThreshold`, `cosAngleSimilarContactManifold` (PhysicsWorld.h:86-115). -/
structure WCfg (K : Type) where
  thr : K
  cos : K

variable {K : Type} [Field K] [LinearOrder K]

def Fric.zero : Fric K := ⟨0, 0, 0, 0, 0⟩

/-- The constructor of `ContactPoint` (ContactPoint.cpp:50-63) with its assertions. -/
def newPoint (i : Info K) : Option (Point K) :=
  if i.depth > 0 ∧ i.normal.lengthSq > 8 / 10 then some ⟨i, 0, false⟩ else none

/-- The points of a manifold (CollisionDetectionSystem.cpp:943-950). -/
def addPoints (Q : List (Point K)) (pot : List (Info K)) : Option (List (Point K)) :=
  pot.foldlM (fun Q i => (newPoint i).map fun p => Q ++ [p]) Q

/-- One manifold of a pair (CollisionDetectionSystem.cpp:927-951). -/
def addManifold (s : CPair K × List (Man K) × List (Point K)) (pot : List (Info K)) : Option (CPair K × List (Man K) × List (Point K)) :=
  if pot.length > 0 then
    (addPoints s.2.2 pot).map fun Q =>
      ({ s.1 with nbPts := s.1.nbPts + pot.length },
        s.2.1 ++ [⟨s.2.2.length, pot.length, s.1.b1, s.1.b2, s.1.c1, s.1.c2, Fric.zero⟩], Q)
  else none

/-- One pair of the order given by the islands (CollisionDetectionSystem.cpp:918-951). -/
def addPair (s : List (CPair K) × List (Man K) × List (Point K)) (k : Nat) : Option (List (CPair K) × List (Man K) × List (Point K)) := do
  let x ← s.1[k]?
  let r ← x.pots.foldlM addManifold ({ x with manIdx := s.2.1.length, nbMan := x.pots.length, ptIdx := s.2.2.length }, s.2.1, s.2.2)
  some (s.1.set k r.1, r.2.1, r.2.2)

/-- A loop over a range of indices that ends at the first hit. -/
def search {β : Type} (f : Nat → Option (Option β)) : Nat → Nat → Option (Option β)
  | _, 0 => some none
  | p, n + 1 =>
    match f p with
    | none => none
    | some (some b) => some (some b)
    | some none => search f (p + 1) n

/-- A loop over a range of indices that changes an array. -/
def overRange {β : Type} (f : List β → Nat → Option (List β)) : List β → Nat → Nat → Option (List β)
  | l, _, 0 => some l
  | l, c, n + 1 =>
    match f l c with
    | none => none
    | some l' => overRange f l' (c + 1) n

/-- The test of a previous manifold (CollisionDetectionSystem.cpp:1107-1112). -/
def likeMan (cfg : WCfg K) (old : Frame K) (normal : V3 K) (p : Nat) : Option (Option (Man K)) := do
  let m ← old.mans[p]?
  if m.nb > 0 then
    let q ← old.pts[m.start]?
    some (if V3.dot q.info.normal normal ≥ cfg.cos then some m else none)
  else none

/-- A current manifold (CollisionDetectionSystem.cpp:1096-1123). -/
def warmMan (cfg : WCfg K) (old : Frame K) (y : CPair K) (Q : List (Point K)) (M : List (Man K)) (m : Nat) : Option (List (Man K)) := do
  let c ← M[m]?
  if c.nb > 0 then
    let q ← Q[c.start]?
    let r ← search (likeMan cfg old q.info.normal) y.manIdx y.nbMan
    some (match r with
      | none => M
      | some p => M.set m { c with fr := p.fr })
  else none

/-- The test of a previous contact point (CollisionDetectionSystem.cpp:1144-1148). -/
def likePoint (cfg : WCfg K) (old : Frame K) (p1 : V3 K) (p : Nat) : Option (Option (Point K)) := do
  let q ← old.pts[p]?
  some (if (p1 - q.info.p1).lengthSq ≤ cfg.thr * cfg.thr then some q else none)

/-- A current contact point (CollisionDetectionSystem.cpp:1134-1156). -/
def warmPoint (cfg : WCfg K) (old : Frame K) (y : CPair K) (Q : List (Point K)) (c : Nat) : Option (List (Point K)) := do
  let q ← Q[c]?
  let r ← search (likePoint cfg old q.info.p1) y.ptIdx y.nbPts
  some (match r with
    | none => Q
    | some p => Q.set c { q with imp := p.imp, rest := p.rest })

/-- A pair of the current frame (CollisionDetectionSystem.cpp:1077-1158). -/
def warmPair (cfg : WCfg K) (old : Frame K) (s : List (Man K) × List (Point K)) (x : CPair K) : Option (List (Man K) × List (Point K)) :=
  match old.map x.id with
  | none => some s
  | some j => do
    let y ← old.pairs[j]?
    let M ← overRange (warmMan cfg old y s.2) s.1 x.manIdx x.nbMan
    let Q ← overRange (warmPoint cfg old y) s.2 x.ptIdx x.nbPts
    some (M, Q)

/-- `computeMapPreviousContactPairs` (CollisionDetectionSystem.cpp:735-742). -/
def mkMap : List (CPair K) → Nat → (Nat → Option Nat) → Option (Nat → Option Nat)
  | [], _, f => some f
  | x :: l, i, f =>
    match f x.id with
    | some _ => none
    | none => mkMap l (i + 1) (upd f x.id (some i))

/-- `createContacts` (CollisionDetectionSystem.cpp:906-975): the pairs of the frame, in the order of the islands; `old` are the arrays of the previous
frame. -/
def frame (cfg : WCfg K) (old : Frame K) (pairs : List (CPair K)) (order : List Nat) : Option (Frame K) := do
  let r ← order.foldlM addPair (pairs, [], [])
  let w ← r.1.foldlM (warmPair cfg old) (r.2.1, r.2.2)
  let f ← mkMap r.1 0 fun _ => none
  some ⟨r.1, w.1, w.2, f⟩

/-- `getNbContactPoints` and `getContactPoint` of a reported pair (CollisionCallback.cpp:109-114, CollisionCallback.h:307-309). -/
def userPoint (F : Frame K) (x : CPair K) (i : Nat) : Option (Point K) := if i < x.nbPts then F.pts[x.ptIdx + i]? else none

end Warm
end RP3D
