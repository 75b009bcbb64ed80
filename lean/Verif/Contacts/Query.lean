import Verif.Contacts.WarmLemmas

/-!
From the results of the narrow phase to contact pairs, and the collision queries `testCollision` (src/systems/CollisionDetectionSystem.cpp:
processAllPotentialContacts, processPotentialContacts, createSnapshotContacts, computeNarrowPhaseCollisionSnapshot; src/collision/CollisionCallback.cpp).

Simplifications: the six batches are one list (they are processed one after the other with one map, CollisionDetectionSystem.cpp:672-690); a contact pair
holds the points of its potential manifolds themselves; the reduction of manifolds and points (C40-C42) is a parameter; the map of pairs is a function
(C03).  A failed assertion and an access out of bounds are `none`.
-/

namespace RP3D
namespace Query
open Warm

/-- `NarrowPhaseInfo` after the narrow phase (NarrowPhaseInfoBatch.h:55-102), with what is read of its colliders: whether one is a trigger and whether
both shapes are convex. -/
structure Test (K : Type) where
  id : Nat
  b1 : Nat
  b2 : Nat
  c1 : Nat
  c2 : Nat
  trig : Bool
  convex : Bool
  hit : Bool
  pts : List (Info K)
deriving DecidableEq

/-- `ContactPair` (ContactPair.h:48-100) with its potential manifolds. -/
structure Cand (K : Type) where
  id : Nat
  b1 : Nat
  b2 : Nat
  c1 : Nat
  c2 : Nat
  trig : Bool
  pots : List (List (Info K))
deriving DecidableEq

/-- `cosAngleSimilarContactManifold`, `NB_MAX_CONTACT_POINTS_IN_POTENTIAL_MANIFOLD`, `NB_MAX_POTENTIAL_CONTACT_MANIFOLDS` (configuration.h:140-143) and the
reduction `reducePotentialContactManifolds`. -/
structure QCfg (K : Type) where
  cos : K
  cap : Nat
  maxM : Nat
  red : List (List (Info K)) → List (List (Info K))

variable {K : Type} [Field K] [LinearOrder K]

/-- The search of a similar manifold (CollisionDetectionSystem.cpp:1329-1357). -/
def addSimilar (cfg : QCfg K) (p : Info K) : List (List (Info K)) → Option (List (List (Info K)))
  | [] => none
  | m :: ms =>
    match m with
    | [] => (addSimilar cfg p ms).map (m :: ·)
    | q :: _ =>
      if m.length < cfg.cap ∧ V3.dot q.normal p.normal ≥ cfg.cos then some ((m ++ [p]) :: ms)
      else (addSimilar cfg p ms).map (m :: ·)

/-- A contact point of a pair with a concave shape (CollisionDetectionSystem.cpp:1316-1383). -/
def addPoint (cfg : QCfg K) (ms : List (List (Info K))) (p : Info K) : List (List (Info K)) :=
  match addSimilar cfg p ms with
  | some ms' => ms'
  | none => if ms.length < cfg.maxM then ms ++ [[p]] else ms

/-- `ContactPair::ContactPair` (ContactPair.h:94-102). -/
def Test.cand (t : Test K) : Cand K := ⟨t.id, t.b1, t.b2, t.c1, t.c2, t.trig, []⟩

/-- One result (CollisionDetectionSystem.cpp:1224-1388): the map and the contact pairs so far. -/
def process (cfg : QCfg K) (s : (Nat → Option Nat) × List (Cand K)) (t : Test K) : Option ((Nat → Option Nat) × List (Cand K)) :=
  if t.hit then
    if (t.trig = true ∧ t.pts = []) ∨ (t.trig = false ∧ t.pts ≠ []) then
      if t.convex then
        some (s.1, s.2 ++ [{ t.cand with pots := if t.pts = [] then [] else [t.pts.take cfg.cap] }])
      else
        match s.1 t.id with
        | none => some (upd s.1 t.id (some s.2.length), s.2 ++ [{ t.cand with pots := t.pts.foldl (addPoint cfg) [] }])
        | some j => (s.2[j]?).map fun c => (s.1, s.2.set j { c with pots := t.pts.foldl (addPoint cfg) c.pots })
    else none
  else some s

/-- `processAllPotentialContacts` (CollisionDetectionSystem.cpp:662-690). -/
def processAll (cfg : QCfg K) (ts : List (Test K)) : Option (List (Cand K)) := (ts.foldlM (process cfg) ((fun _ => none), [])).map (·.2)

/-- `reducePotentialContactManifolds`, and the contact pair before its contacts are created. -/
def Cand.pair (cfg : QCfg K) (c : Cand K) : CPair K := ⟨c.id, c.b1, c.b2, c.c1, c.c2, cfg.red c.pots, 0, 0, 0, 0⟩

/-- `createSnapshotContacts`, one pair (CollisionDetectionSystem.cpp:1029-1064). -/
def snapPair (s : List (CPair K) × List (Man K) × List (Point K)) (k : Nat) : Option (List (CPair K) × List (Man K) × List (Point K)) := do
  let x ← s.1[k]?
  if x.pots.length > 0 then addPair s k else none

/-- What the callback reads: a pair and its contact points. -/
structure Seen (K : Type) where
  b1 : Nat
  b2 : Nat
  c1 : Nat
  c2 : Nat
  pts : List (Info K)
deriving DecidableEq

/-- `getContactPoint` of all indices (CollisionCallback.cpp:109-114, CollisionCallback.h:307-309). -/
def seen (Q : List (Point K)) (x : CPair K) : Seen K := ⟨x.b1, x.b2, x.c1, x.c2, (block Q x.ptIdx x.nbPts).map (·.info)⟩

/-- `computeNarrowPhaseCollisionSnapshot` after the narrow phase (CollisionDetectionSystem.cpp:854-875) and the filter of `CallbackData`
(CollisionCallback.cpp:81-103): what is reported to the callback. -/
def collisions (cfg : QCfg K) (ts : List (Test K)) : Option (List (Seen K)) :=
  if ts.any (·.hit) then do
    let cs ← processAll cfg ts
    let r ← (List.range cs.length).foldlM snapPair (cs.map (Cand.pair cfg), [], [])
    some (((r.1.zip cs).filter fun p => !p.2.trig).map fun p => seen r.2.2 p.1)
  else some []

end Query
end RP3D
