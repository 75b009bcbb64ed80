import Verif.Containers.Array

/-!
Model of the construction of islands: `PhysicsWorld::createIslands` (PhysicsWorld.cpp:695-860), `Islands` (Islands.h:43-166),
`addContactPairsToBodies` (CollisionDetectionSystem.cpp:721-733) and the packing of the manifolds by `createContacts`
(CollisionDetectionSystem.cpp:906-955).

Bodies, joints and contact pairs are numbers.  The order of the enabled rigid body components is a list: enabling a component appends it
(`Components::setIsEntityDisabled`, Components.cpp:159-194 moves it to the first place behind the enabled ones, C14).  The loops are bounded by a number of
rounds and undefined (`none`) when that is not enough; `createIslands_defined` shows that the number of bodies is enough.

Not modelled: what `setIsSleeping(false)` does besides enabling the body (that is in `World`), and memory reservation.
-/

namespace RP3D
namespace Isl

/-- A contact pair (ContactPair.h) as far as islands are concerned. -/
structure CP where
  b1 : Nat
  b2 : Nat
  /-- `getIsSimulationCollider` of the two colliders -/
  sim1 : Bool
  sim2 : Bool
  /-- `nbPotentialContactManifolds` -/
  n : Nat
deriving DecidableEq

/-- The part of the world that `createIslands` reads and does not change. -/
structure Graph where
  /-- `mCurrentContactPairs` -/
  pairs : List CP
  /-- the bodies of a joint (`mBody1Entities`, `mBody2Entities`) -/
  joint : Nat → Option (Nat × Nat)
  /-- `mJoints` of a body -/
  jointsOf : Nat → List Nat
  /-- all bodies -/
  bodies : List Nat
  /-- `mBodyTypes[b] == STATIC` -/
  static : Nat → Bool
  /-- `getHasSimulationCollider` -/
  hasSim : Nat → Bool
  /-- `setIsSleeping(false)` enables the body if it is disabled: it is asleep, active and not static (RigidBody.cpp:1008-1026) -/
  wakes : Nat → Bool

/-- The state of `createIslands`. -/
structure St where
  /-- `mIsAlreadyInIsland` of bodies -/
  inIsl : Nat → Bool
  /-- `isAlreadyInIsland` of contact pairs -/
  pDone : Nat → Bool
  /-- `mIsAlreadyInIsland` of joints -/
  jDone : Nat → Bool
  /-- `bodyEntitiesToVisit`, top first -/
  stack : List Nat
  /-- `staticBodiesAddedToIsland` -/
  statics : List Nat
  /-- `nbTotalManifolds` -/
  total : Nat
  /-- `mProcessContactPairsOrderIslands` -/
  order : List Nat
  /-- `Islands::bodyEntities` -/
  bodies : List Nat
  /-- `Islands::startBodyEntitiesIndex` -/
  start : List Nat
  /-- `Islands::nbBodiesInIsland` -/
  nb : List Nat
  /-- `Islands::contactManifoldsIndices` -/
  mStart : List Nat
  /-- `Islands::nbContactManifolds` -/
  mNb : List Nat
  /-- the enabled rigid body components in their order -/
  enabled : List Nat

/-- Add to the last element of an array (`nbBodiesInIsland[islandIndex - 1]++`, Islands.h:116; `nbContactManifolds[islandIndex] += n`,
PhysicsWorld.cpp:808, where `islandIndex` is the last index). -/
def addLast (k : Nat) : List Nat → Option (List Nat)
  | [] => none
  | [x] => some [x + k]
  | x :: y :: l => (addLast k (y :: l)).map (x :: ·)

/-- `addContactPairsToBodies` (CollisionDetectionSystem.cpp:721-733), from pair `i` on. -/
def addPairs (m : Nat → List Nat) (i : Nat) : List CP → (Nat → List Nat)
  | [] => m
  | P :: l =>
    let m1 := upd m P.b1 (m P.b1 ++ [i])
    addPairs (upd m1 P.b2 (m1 P.b2 ++ [i])) (i + 1) l

/-- The last loop of `createIslands` (PhysicsWorld.cpp:853-859). -/
def clearPairs (m : Nat → List Nat) : List CP → (Nat → List Nat)
  | [] => m
  | P :: l => clearPairs (upd (upd m P.b1 []) P.b2 []) l

variable (G : Graph) (m : Nat → List Nat)

/-- `bodyEntitiesToVisit.push(other)` unless the body is in an island (PhysicsWorld.cpp:811-815, 839-843); the index of the body must exist. -/
def pushBody (s : St) (o : Nat) : Option St :=
  if o ∈ G.bodies then
    if s.inIsl o then some s else some { s with stack := o :: s.stack, inIsl := upd s.inIsl o true }
  else none

/-- The other body of a pair (PhysicsWorld.cpp:787, 834). -/
def other (b : Nat) (b1 b2 : Nat) : Nat := if b1 = b then b2 else b1

/-- One contact pair of the visited body (PhysicsWorld.cpp:768-817). -/
def visitPair (b : Nat) (s : St) (p : Nat) : Option St :=
  match G.pairs[p]? with
  | none => none
  | some P =>
    if s.pDone p then some s
    else
      let s1 := { s with pDone := upd s.pDone p true }
      if !P.sim1 || !P.sim2 then some s1
      else if G.hasSim (other b P.b1 P.b2) then
        match addLast P.n s1.mNb with
        | none => none
        | some l => pushBody G { s1 with order := s1.order ++ [p], total := s1.total + P.n, mNb := l } (other b P.b1 P.b2)
      else some s1

/-- One joint of the visited body (PhysicsWorld.cpp:824-844). -/
def visitJoint (b : Nat) (s : St) (j : Nat) : Option St :=
  match G.joint j with
  | none => none
  | some J => if s.jDone j then some s else pushBody G { s with jDone := upd s.jDone j true } (other b J.1 J.2)

/-- `setIsSleeping(false)` (PhysicsWorld.cpp:753). -/
def wakeBody (s : St) (b : Nat) : St := if G.wakes b ∧ b ∉ s.enabled then { s with enabled := s.enabled ++ [b] } else s

/-- One round of the loop over the stack (PhysicsWorld.cpp:744-845) after `b` has been popped. -/
def visit (s : St) (b : Nat) : Option St :=
  match addLast 1 s.nb with
  | none => none
  | some l =>
    let s1 := wakeBody G { s with bodies := s.bodies ++ [b], nb := l } b
    if G.static b then some { s1 with statics := s1.statics ++ [b] }
    else
      match (m b).foldlM (visitPair G b) s1 with
      | none => none
      | some s2 => (G.jointsOf b).foldlM (visitJoint G b) s2

/-- `while (bodyEntitiesToVisit.size() > 0)` (PhysicsWorld.cpp:742-845). -/
def drain : Nat → St → Option St
  | 0, s => if s.stack = [] then some s else none
  | k + 1, s =>
    match s.stack with
    | [] => some s
    | b :: l =>
      match visit G m { s with stack := l } b with
      | none => none
      | some s => drain k s

/-- The loop that resets the flag of the static bodies (PhysicsWorld.cpp:847-857). -/
def resetStatics (f : Nat → Bool) (l : List Nat) : Nat → Bool := l.foldl (fun f b => upd f b false) f

/-- The start of an island from body `b` (PhysicsWorld.cpp:731-739), `addIsland` (Islands.h:92-107). -/
def openIsland (s : St) (b : Nat) : St :=
  { s with
    inIsl := upd s.inIsl b true
    stack := [b]
    mStart := s.mStart ++ [s.total]
    mNb := s.mNb ++ [0]
    start := s.start ++ [s.bodies.length]
    nb := s.nb ++ [0] }

/-- One island (PhysicsWorld.cpp:731-857). -/
def island (s : St) (b : Nat) : Option St :=
  match drain G m (G.bodies.length + 1) (openIsland s b) with
  | none => none
  | some s => some { s with inIsl := resetStatics s.inIsl s.statics, statics := [] }

/-- The loop over the enabled bodies (PhysicsWorld.cpp:723-861) from index `i`; the number of enabled bodies is read in every round. -/
def islands : Nat → Nat → St → Option St
  | 0, i, s => if s.enabled.length ≤ i then some s else none
  | k + 1, i, s =>
    match s.enabled[i]? with
    | none => some s
    | some b =>
      if s.inIsl b ∨ G.static b then islands k (i + 1) s
      else
        match island G m s b with
        | none => none
        | some s => islands k (i + 1) s

/-- The state at the start (PhysicsWorld.cpp:702-721): all flags are reset and there are no islands (they are cleared after every step, PhysicsWorld.cpp:296-298;
the flags of contact pairs are false when they are created, ContactPair.h:99). -/
def init (enabled : List Nat) : St := ⟨fun _ => false, fun _ => false, fun _ => false, [], [], 0, [], [], [], [], [], [], enabled⟩

/-- `createIslands` (PhysicsWorld.cpp:695-867) after `addContactPairsToBodies`. -/
def createIslands (enabled : List Nat) : Option St := islands G (addPairs (fun _ => []) 0 G.pairs) (G.bodies.length) 0 (init enabled)

/-- One contact pair of `createContacts` (CollisionDetectionSystem.cpp:916-955): its manifolds as (contact pair, index in the pair). -/
def createPair (M : List (Nat × Nat)) (p : Nat) : Option (List (Nat × Nat)) :=
  match G.pairs[p]? with
  | none => none
  | some P => some (M ++ (List.range P.n).map fun i => (p, i))

/-- The manifolds created by `createContacts` (CollisionDetectionSystem.cpp:906-955) for `mProcessContactPairsOrderIslands`. -/
def createContacts (order : List Nat) : Option (List (Nat × Nat)) := order.foldlM (createPair G) []

end Isl
end RP3D
