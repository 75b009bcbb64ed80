import Verif.Pairs.Store
import Verif.Broadphase.AABB

/-!
Model of the part of a physics world that decides which pairs of colliders are simulated: bodies, colliders, joints, the broad phase,
the store of overlapping pairs, and the events reported to the user (src/body, src/collision/Collider.cpp,
src/systems/BroadPhaseSystem.cpp, src/systems/CollisionDetectionSystem.cpp, src/engine/PhysicsWorld.cpp).

Simplifications.
* Component arrays are partial maps from entities (C14, C15); whether a component is in the disabled part of its array is the flag
  `disabled`.
* The dynamic tree is the map from ids to objects that it implements (C18-C21).  The id of a new node is an argument, any
  unused id.
* Geometry is an oracle: the world-space box of a collider after a change (`box`), and the result of the narrow phase per pair (`hit`).
* Which bodies are woken or put to sleep by a whole-world pass (neighbours of a removed collider, islands) is an argument, any list
  of bodies.
* Undefined behaviour (dereferenced null pointer, lookup of a missing key, entity without component) is `none`.
-/

namespace RP3D

/-- `BodyType` (RigidBodyComponents.h). -/
inductive BType
  | static | kinematic | dynamic
deriving DecidableEq

/-- The columns of `BodyComponents` and `RigidBodyComponents` that matter here. -/
structure Body where
  type : BType
  /-- `mIsActive` -/
  active : Bool
  /-- `mIsSleeping` -/
  sleeping : Bool
  /-- the components of the body are in the disabled part -/
  disabled : Bool
  /-- `mColliders` -/
  cols : List Nat
  /-- `mHasSimulationCollider` -/
  hasSim : Bool
  /-- `mJoints` -/
  joints : List Nat
deriving DecidableEq

/-- The columns of `ColliderComponents` that matter here; the column `mOverlappingPairs` is in the pair store. -/
structure Col where
  body : Nat
  /-- `mBroadPhaseIds`, `none` for -1 -/
  bp : Option Nat
  /-- `isConvex()` of the shape -/
  convex : Bool
  /-- `mCollisionCategoryBits`, `mCollideWithMaskBits` -/
  cat : Nat
  mask : Nat
  trigger : Bool
  sim : Bool
  query : Bool
  /-- the component is in the disabled part -/
  disabled : Bool
  /-- `mHasCollisionShapeChangedSize` -/
  changed : Bool
deriving DecidableEq

/-- The columns of `JointComponents` that matter here. -/
structure Jnt where
  b1 : Nat
  b2 : Nat
  /-- `mIsCollisionEnabled` -/
  coll : Bool
deriving DecidableEq

/-- What a tree node of a collider holds: the collider (data pointer) and the fat box. -/
structure TObj (α : Type) where
  col : Nat
  fat : AABB α
deriving DecidableEq

/-- An entry of `mLostContactPairs` or `mCurrentContactPairs` as far as events are concerned (ContactPair.h). -/
structure CPair where
  id : Nat
  b1 : Nat
  b2 : Nat
  c1 : Nat
  c2 : Nat
  /-- `collidingInPreviousFrame` -/
  prev : Bool
  trigger : Bool
deriving DecidableEq

structure World (α : Type) where
  body : Nat → Option Body
  col : Nat → Option Col
  jnt : Nat → Option Jnt
  /-- `mDynamicAABBTree` -/
  tree : Nat → Option (TObj α)
  /-- `mMapBroadPhaseIdToColliderEntity` -/
  bpMap : Nat → Option Nat
  /-- `mMovedShapes` -/
  moved : Nat → Bool
  /-- `mNoCollisionPairs` -/
  noColl : Nat × Nat → Bool
  /-- `mOverlappingPairs` -/
  store : PStore
  /-- `mLostContactPairs` -/
  lost : List CPair

/-- `computeBodiesIndexPair` (OverlappingPairs.h:448-456). -/
def bodyPair (a b : Nat) : Nat × Nat := if a < b then (a, b) else (b, a)

/-- The elements that satisfy a test that may be undefined. -/
def collect {β : Type} (f : β → Option Bool) : List β → Option (List β)
  | [] => some []
  | a :: l =>
    match f a, collect f l with
    | some b, some r => some (if b then a :: r else r)
    | _, _ => none

/-- The results of a function that may be undefined. -/
def mapO {β γ : Type} (f : β → Option γ) : List β → Option (List γ)
  | [] => some []
  | a :: l =>
    match f a, mapO f l with
    | some b, some r => some (b :: r)
    | _, _ => none

namespace World
variable {α : Type} [LinearOrder α]

def init : World α := ⟨fun _ => none, fun _ => none, fun _ => none, fun _ => none, fun _ => none, fun _ => false, fun _ => false, PStore.init, []⟩

def setBody (w : World α) (b : Nat) (B : Body) : World α := { w with body := upd w.body b (some B) }
def setCol (w : World α) (c : Nat) (x : Col) : World α := { w with col := upd w.col c (some x) }
def setNoColl (w : World α) (q : Nat × Nat) (v : Bool) : World α := { w with noColl := fun q' => if q' = q then v else w.noColl q' }

/-- `notifyOverlappingPairsToTestOverlap` (CollisionDetectionSystem.cpp:792-803) on the pairs of a collider. -/
def notifyPairs (s : PStore) (ids : List Nat) : Option PStore := ids.foldlM (fun s id => s.setNeed id true) s

/-- `addMovedCollider` (BroadPhaseSystem.cpp:190-199). -/
def addMoved (w : World α) (n c : Nat) : Option (World α) :=
  match notifyPairs w.store (w.store.own c) with
  | none => none
  | some s => some { w with moved := upd w.moved n true, store := s }

/-- `CollisionDetectionSystem::askForBroadPhaseCollisionCheck` (CollisionDetectionSystem.h:433-438). -/
def askCheck (w : World α) (c : Nat) : Option (World α) :=
  match w.col c with
  | none => none
  | some x =>
    match x.bp with
    | none => some w
    | some n => w.addMoved n c

/-- `updateCollidersComponents` for one collider (BroadPhaseSystem.cpp:155-186), with `updateColliderInternal`
(BroadPhaseSystem.cpp:136-151) and `DynamicAABBTree::updateObject` (C21). -/
def updateCollider (fat : AABB α → AABB α) (box : Nat → AABB α) (w : World α) (c : Nat) : Option (World α) :=
  match w.col c with
  | none => none
  | some x =>
    match x.bp with
    | none => some w
    | some n =>
      match w.tree n with
      | none => none
      | some t =>
        let w1 := w.setCol c { x with changed := false }
        if !x.changed && t.fat.contains (box c) then some w1
        else { w1 with tree := upd w1.tree n (some ⟨t.col, fat (box c)⟩) }.addMoved n c

/-- The loop over the colliders of a body in `setBodyDisabled` (PhysicsWorld.cpp:180-185). -/
def setColsDisabled (w : World α) (cs : List Nat) (d : Bool) : Option (World α) :=
  cs.foldlM (fun w c => (w.col c).map fun x => w.setCol c { x with disabled := d }) w

/-- `setBodyDisabled` (PhysicsWorld.cpp:168-186). -/
def setBodyDisabled (w : World α) (b : Nat) (d : Bool) : Option (World α) :=
  match w.body b with
  | none => none
  | some B => if d = B.disabled then some w else (w.setBody b { B with disabled := d }).setColsDisabled B.cols d

/-- `enableOverlappingPairs` (RigidBody.cpp:1060-1081): one pair. -/
def enableOne (s : PStore) (id : Nat) : Option PStore :=
  match s.deref id with
  | none => none
  | some p => if p.enabled then some s else s.enablePair id

/-- `enableOverlappingPairs` (RigidBody.cpp:1060-1081); the pair ids of a collider are copied before the inner loop. -/
def enablePairs (s : PStore) (cs : List Nat) : Option PStore :=
  cs.foldlM (fun s c => (s.own c).foldlM enableOne s) s

/-- Both bodies of a pair are disabled. -/
def bothDisabled (w : World α) (p : Pair) : Option Bool := do
  let x1 ← w.col p.c1
  let x2 ← w.col p.c2
  let B1 ← w.body x1.body
  let B2 ← w.body x2.body
  some (B1.disabled && B2.disabled)

/-- `checkForDisabledOverlappingPairs` (RigidBody.cpp:1121-1148): one pair. -/
def disableOne (w : World α) (s : PStore) (id : Nat) : Option PStore :=
  match s.deref id with
  | none => none
  | some p =>
    match w.bothDisabled p with
    | none => none
    | some true => s.disablePair id
    | some false => some s

/-- `checkForDisabledOverlappingPairs` (RigidBody.cpp:1121-1148). -/
def checkDisabled (w : World α) (cs : List Nat) : Option PStore :=
  cs.foldlM (fun s c => (s.own c).foldlM w.disableOne s) w.store

/-- `RigidBody::setIsSleeping` (RigidBody.cpp:1006-1057); velocities and forces are in `World/Dynamics`. -/
def setSleeping (w : World α) (b : Nat) (v : Bool) : Option (World α) :=
  match w.body b with
  | none => none
  | some B =>
    if B.sleeping = v then some w
    else if B.type = .static then some w
    else if B.active = false then some w
    else
      match (w.setBody b { B with sleeping := v }).setBodyDisabled b v with
      | none => none
      | some w1 =>
        if v then
          match w1.checkDisabled B.cols with
          | none => none
          | some s => some { w1 with store := s }
        else
          match enablePairs w1.store B.cols with
          | none => none
          | some s => B.cols.foldlM askCheck { w1 with store := s }

/-- Waking or putting to sleep several bodies one after the other. -/
def setSleepingAll (w : World α) (bs : List Nat) (v : Bool) : Option (World α) := bs.foldlM (fun w b => w.setSleeping b v) w

/-- `createRigidBody` (PhysicsWorld.cpp:401-439): a dynamic, active, awake body. -/
def createBody (w : World α) (b : Nat) : World α := w.setBody b ⟨.dynamic, true, false, false, [], false, []⟩

/-- `CollisionDetectionSystem::addCollider` (CollisionDetectionSystem.h:412-424) with `BroadPhaseSystem::addCollider`
(BroadPhaseSystem.cpp:80-93); `n` is the id of the new tree node. -/
def cdAdd (fat : AABB α → AABB α) (w : World α) (c n : Nat) (box : AABB α) : Option (World α) :=
  match w.col c with
  | none => none
  | some x =>
    match ({ w with tree := upd w.tree n (some ⟨c, fat box⟩) }.setCol c { x with bp := some n }).addMoved n c with
    | none => none
    | some w1 =>
      match w1.bpMap n with
      | some _ => none
      | none => some { w1 with bpMap := upd w1.bpMap n (some c) }

/-- `RigidBody::addCollider` (RigidBody.cpp:661-722). -/
def addCollider (fat : AABB α → AABB α) (w : World α) (b c : Nat) (convex : Bool) (n : Nat) (box : AABB α) : Option (World α) :=
  match w.body b with
  | none => none
  | some B =>
    let x : Col := ⟨b, none, convex, 1, 0xFFFF, false, true, true, B.disabled, false⟩
    let w1 := ({ w with store := { w.store with own := upd w.store.own c [] } }.setCol c x).setBody b
      { B with cols := B.cols ++ [c], hasSim := true }
    if B.active then w1.cdAdd fat c n box else some w1

/-- `addLostContactPair` (CollisionDetectionSystem.cpp:220-236). -/
def mkLost (w : World α) (p : Pair) : Option CPair := do
  let x1 ← w.col p.c1
  let x2 ← w.col p.c2
  some ⟨p.id, x1.body, x2.body, p.c1, p.c2, true, x1.trigger || x2.trigger⟩

/-- The lost contact pair recorded when a pair is removed, if any. -/
def lostOf (w : World α) (p : Pair) (notify : Bool) : Option (List CPair) :=
  if p.prev && notify then (w.mkLost p).map fun l => [l] else some []

/-- `removeOverlappingPair` (CollisionDetectionSystem.cpp:175-187). -/
def removeOverlap (w : World α) (id : Nat) (notify : Bool) : Option (World α) :=
  match w.store.deref id with
  | none => none
  | some p =>
    match w.lostOf p notify with
    | none => none
    | some l =>
      match w.store.removePair id with
      | none => none
      | some s => some { w with store := s, lost := w.lost ++ l }

/-- The loop `while (overlappingPairs.size() > 0)` of `removeCollider` (CollisionDetectionSystem.cpp:1171-1176); the bound on the
number of rounds is the length of the list at the start, and the model is undefined if that is not enough. -/
def dropPairs (w : World α) (c : Nat) : Nat → Option (World α)
  | 0 => match w.store.own c with
    | [] => some w
    | _ :: _ => none
  | k + 1 => match w.store.own c with
    | [] => some w
    | id :: _ => match w.removeOverlap id false with
      | none => none
      | some w => w.dropPairs c k

/-- `CollisionDetectionSystem::removeCollider` (CollisionDetectionSystem.cpp:1163-1183), `BroadPhaseSystem::removeCollider`
(BroadPhaseSystem.cpp:96-110). -/
def cdRemove (w : World α) (c n : Nat) : Option (World α) :=
  match w.dropPairs c (w.store.own c).length with
  | none => none
  | some w1 =>
    match w1.col c with
    | none => none
    | some x =>
      match w1.tree n with
      | none => none
      | some _ => some ({ w1 with bpMap := upd w1.bpMap n none, tree := upd w1.tree n none, moved := upd w1.moved n false }.setCol c
          { x with bp := none })

/-- `updateHasSimulationCollider` (Body.cpp:470-485): the flag is never cleared. -/
def updateHasSim (w : World α) (b : Nat) : Option (World α) :=
  match w.body b with
  | none => none
  | some B =>
    if B.cols.any (fun c => match w.col c with | some x => x.sim | none => false) then some (w.setBody b { B with hasSim := true })
    else some w

/-- The end of `Body::removeCollider` (Body.cpp:195-197). -/
def updateHasSimIf (w : World α) (b : Nat) : Option (World α) :=
  match w.body b with
  | none => none
  | some B => if B.hasSim then w.updateHasSim b else some w

/-- `if (collider->getBroadPhaseId() != -1) mCollisionDetection.removeCollider(collider)` (Body.cpp:176-178, 276-280). -/
def cdRemoveIf (w : World α) (c : Nat) : Option (World α) :=
  match w.col c with
  | none => none
  | some x =>
    match x.bp with
    | none => some w
    | some n => w.cdRemove c n

/-- `Body::removeCollider` (Body.cpp:170-201). -/
def bodyRemoveCollider (w : World α) (b c : Nat) : Option (World α) :=
  match w.cdRemoveIf c with
  | none => none
  | some w1 =>
    match w1.body b with
    | none => none
    | some B => { w1.setBody b { B with cols := B.cols.erase c } with col := upd w1.col c none }.updateHasSimIf b

/-- `RigidBody::removeCollider` (RigidBody.cpp:728-735); `ws` are the bodies woken by `awakeNeighborDisabledBodies`. -/
def removeCollider (w : World α) (b c : Nat) (ws : List Nat) : Option (World α) :=
  match w.setSleepingAll ws false with
  | none => none
  | some w => w.bodyRemoveCollider b c

/-- `RigidBody::setType` (RigidBody.cpp:66-130). -/
def setType (w : World α) (b : Nat) (t : BType) : Option (World α) :=
  match w.body b with
  | none => none
  | some B =>
    if B.type = t then some w
    else
      match (w.setBody b { B with type := t }).setBodyDisabled b (decide (t = .static)) with
      | none => none
      | some w1 =>
        match w1.setSleeping b false with
        | none => none
        | some w2 =>
          if t = .static then
            match w2.checkDisabled B.cols with
            | none => none
            | some s => some { w2 with store := s }
          else some w2

/-- The loop of `Body::setIsActive(true)` (Body.cpp:261-271); `ns` are the ids of the new tree nodes. -/
def cdAddAll (fat : AABB α → AABB α) (w : World α) (box : Nat → AABB α) (cns : List (Nat × Nat)) : Option (World α) :=
  cns.foldlM (fun w cn => w.cdAdd fat cn.1 cn.2 (box cn.1)) w

/-- `RigidBody::setIsActive` (RigidBody.cpp:1185-1193), `Body::setIsActive` (Body.cpp:247-292). -/
def setActive (fat : AABB α → AABB α) (w : World α) (b : Nat) (v : Bool) (ns : List Nat) (box : Nat → AABB α) : Option (World α) :=
  match w.body b with
  | none => none
  | some B =>
    if B.active = v then some w
    else
      match w.setSleeping b (!v) with
      | none => none
      | some w1 =>
        match w1.body b with
        | none => none
        | some B1 =>
          let w2 := w1.setBody b { B1 with active := v }
          if v then w2.cdAddAll fat box (B1.cols.zip ns) else B1.cols.foldlM cdRemoveIf w2

/-- `RigidBody::setTransform` (RigidBody.cpp:837-862), `Body::setTransform` (Body.cpp:397-407), `updateBroadPhaseState`
(Body.cpp:226-241). -/
def setTransform (fat : AABB α → AABB α) (w : World α) (b : Nat) (box : Nat → AABB α) : Option (World α) :=
  match w.setSleeping b false with
  | none => none
  | some w1 =>
    match w1.body b with
    | none => none
    | some B => B.cols.foldlM (updateCollider fat box) w1

/-- `Collider::setLocalToBodyTransform` (Collider.cpp:106-124). -/
def setLocalTransform (fat : AABB α → AABB α) (w : World α) (c : Nat) (box : AABB α) : Option (World α) :=
  match w.col c with
  | none => none
  | some x =>
    match w.setSleeping x.body false with
    | none => none
    | some w1 => w1.updateCollider fat (fun _ => box) c

/-- `setCollisionCategoryBits` (Collider.cpp:70-84). -/
def setCategory (w : World α) (c : Nat) (bits : Nat) : Option (World α) :=
  match w.col c with
  | none => none
  | some x => (w.setCol c { x with cat := bits }).askCheck c

/-- `setCollideWithMaskBits` (Collider.cpp:88-102). -/
def setMask (w : World α) (c : Nat) (bits : Nat) : Option (World α) :=
  match w.col c with
  | none => none
  | some x => (w.setCol c { x with mask := bits }).askCheck c

/-- `setIsSimulationCollider(false)` (Collider.cpp:271-287). -/
def setSimFalse (w : World α) (c : Nat) : Option (World α) :=
  match w.col c with
  | none => none
  | some x => (w.setCol c { x with sim := false }).updateHasSim x.body

/-- `setIsTrigger` (Collider.cpp:250-257). -/
def setTrigger (w : World α) (c : Nat) (v : Bool) : Option (World α) :=
  match w.col c with
  | none => none
  | some x =>
    let w1 := w.setCol c { x with trigger := v }
    if v && x.sim then w1.setSimFalse c else some w1

/-- `setIsSimulationCollider` (Collider.cpp:271-287); `setIsTrigger(false)` only writes the flag. -/
def setSim (w : World α) (c : Nat) (v : Bool) : Option (World α) :=
  if v then
    match w.col c with
    | none => none
    | some x =>
      match w.body x.body with
      | none => none
      | some B => some ((w.setBody x.body { B with hasSim := true }).setCol c { x with sim := true, trigger := false })
  else w.setSimFalse c

/-- `setIsWorldQueryCollider` (Collider.cpp:298-300). -/
def setQuery (w : World α) (c : Nat) (v : Bool) : Option (World α) := (w.col c).map fun x => w.setCol c { x with query := v }

/-- `setHasCollisionShapeChangedSize(true)` (Collider.cpp:211-213), called when the shape of the collider is resized
(CollisionShape.cpp:96-102). -/
def resize (w : World α) (c : Nat) : Option (World α) := (w.col c).map fun x => w.setCol c { x with changed := true }

/-- One of the two colliders of a pair belongs to a body (CollisionDetectionSystem.cpp:253-257). -/
def concerns (w : World α) (b : Nat) (id : Nat) : Option Bool :=
  match w.store.deref id with
  | none => none
  | some p =>
    match w.col p.c1, w.col p.c2 with
    | some x1, some x2 => some (decide (x1.body = b) || decide (x2.body = b))
    | _, _ => none

/-- The pairs collected by `addNoCollisionPair` (CollisionDetectionSystem.cpp:243-261) from one collider of the first body. -/
def noCollIds (w : World α) (b2 : Nat) (c : Nat) : Option (List Nat) :=
  collect (w.concerns b2) (w.store.own c)

/-- `addNoCollisionPair` (CollisionDetectionSystem.cpp:239-267). -/
def addNoColl (w : World α) (b1 b2 : Nat) : Option (World α) :=
  match w.body b1 with
  | none => none
  | some B =>
    let w1 := w.setNoColl (bodyPair b1 b2) true
    match mapO (w1.noCollIds b2) B.cols with
    | none => none
    | some ids => ids.flatten.foldlM (fun w id => w.removeOverlap id true) w1

/-- `addJointToBody` (RigidBodyComponents.h:845-849). -/
def addJointTo (w : World α) (b j : Nat) : Option (World α) :=
  (w.body b).map fun B => w.setBody b { B with joints := B.joints ++ [j] }

/-- `createJoint` (PhysicsWorld.cpp:483-599). -/
def createJoint (w : World α) (j b1 b2 : Nat) (coll : Bool) : Option (World α) :=
  let w0 := { w with jnt := upd w.jnt j (some ⟨b1, b2, coll⟩) }
  match (if coll then some w0 else w0.addNoColl b1 b2) with
  | none => none
  | some w1 =>
    match w1.addJointTo b1 j with
    | none => none
    | some w2 => w2.addJointTo b2 j

/-- `removeJointFromBody` (RigidBodyComponents.h:852-856). -/
def removeJointFrom (w : World α) (b j : Nat) : Option (World α) :=
  (w.body b).map fun B => w.setBody b { B with joints := B.joints.erase j }

/-- `destroyJoint` (PhysicsWorld.cpp:606-655); `removeNoCollisionPair` (CollisionDetectionSystem.h:427-429). -/
def destroyJoint (w : World α) (j : Nat) : Option (World α) :=
  match w.jnt j with
  | none => none
  | some J =>
    let w0 := if J.coll then w else w.setNoColl (bodyPair J.b1 J.b2) false
    match w0.setSleeping J.b1 false with
    | none => none
    | some w1 =>
      match w1.setSleeping J.b2 false with
      | none => none
      | some w2 =>
        match w2.removeJointFrom J.b1 j with
        | none => none
        | some w3 =>
          match w3.removeJointFrom J.b2 j with
          | none => none
          | some w4 => some { w4 with jnt := upd w4.jnt j none }

/-- `removeAllColliders` (Body.cpp:204-213): the list is copied; `ws` are the bodies woken for each collider. -/
def removeAllColliders (w : World α) (b : Nat) (cws : List (Nat × List Nat)) : Option (World α) :=
  cws.foldlM (fun w cw => w.removeCollider b cw.1 cw.2) w

/-- The loop over the joints of `destroyRigidBody` (PhysicsWorld.cpp:457-460), for a body whose component is not moved when `destroyJoint`
wakes bodies: one in the enabled part of the array (Components.cpp:159-194), or one without joints.  For the others see
`World/Positions`. -/
def destroyJoints (w : World α) (b : Nat) : Nat → Option (World α)
  | 0 => match w.body b with
    | some B => if B.joints = [] then some w else none
    | none => none
  | k + 1 => match w.body b with
    | none => none
    | some B => match B.joints with
      | [] => some w
      | j :: _ => match w.destroyJoint j with
        | none => none
        | some w => w.destroyJoints b k

/-- `destroyRigidBody` (PhysicsWorld.cpp:448-477). -/
def destroyBody (w : World α) (b : Nat) (wss : List (List Nat)) : Option (World α) :=
  match w.body b with
  | none => none
  | some B =>
    match w.removeAllColliders b (B.cols.zip wss) with
    | none => none
    | some w1 =>
      match w1.destroyJoints b B.joints.length with
      | none => none
      | some w2 => some { w2 with body := upd w2.body b none }

/-- `updateOverlappingPairs` (CollisionDetectionSystem.cpp:270-343): one pair of nodes. -/
def updateOverlap (w : World α) (nm : Nat × Nat) : Option (World α) :=
  if nm.1 = nm.2 then some w
  else
    match w.bpMap nm.1, w.bpMap nm.2 with
    | some c1, some c2 =>
      match w.col c1, w.col c2 with
      | some x1, some x2 =>
        if x1.body = x2.body then some w
        else if w.noColl (bodyPair x1.body x2.body) then some w
        else
          match w.store.get (pairId nm.1 nm.2) with
          | none => none
          | some none =>
            if x1.mask &&& x2.cat ≠ 0 ∧ x1.cat &&& x2.mask ≠ 0 then
              if x1.convex || x2.convex then
                match x1.bp, x2.bp with
                | some n1, some n2 =>
                  match w.store.addPair c1 c2 n1 n2 (x1.convex && x2.convex) with
                  | none => none
                  | some s => some { w with store := s }
                | _, _ => none
              else some w
            else some w
          | some (some _) =>
            match w.store.modify (pairId nm.1 nm.2) (fun p => { p with need := false }) with
            | none => none
            | some s => some { w with store := s }
      | _, _ => none
    | _, _ => none

/-- `testOverlappingShapes` (BroadPhaseSystem.cpp:55-68). -/
def overlapping (w : World α) (p : Pair) : Option Bool :=
  match w.tree p.bp1, w.tree p.bp2 with
  | some t1, some t2 => some (t1.fat.testCollision t2.fat)
  | _, _ => none

/-- One of the two loops of `removeNonOverlappingPairs` (CollisionDetectionSystem.cpp:129-146, 149-166) at index `i`: each round
either advances or removes a pair, so there are as many rounds as pairs at the start. -/
def sweepLoop (k : Kind) : Nat → Nat → World α → Option (World α)
  | 0, _, w => some w
  | n + 1, i, w =>
    match (w.store.tab k).arr[i]? with
    | none => none
    | some p =>
      if p.need then
        match w.overlapping p with
        | none => none
        | some true =>
          match (w.store.tab k).modify i (fun p => { p with need := false }) with
          | none => none
          | some t => sweepLoop k n (i + 1) { w with store := w.store.setTab k t }
        | some false =>
          match w.lostOf p true with
          | none => none
          | some l =>
            match w.store.removeIdx k i true with
            | none => none
            | some s => sweepLoop k n i { w with store := s, lost := w.lost ++ l }
      else sweepLoop k n (i + 1) w

def sweep (k : Kind) (w : World α) : Option (World α) := w.sweepLoop k (w.store.tab k).arr.length 0

/-- `computeBroadPhase` (CollisionDetectionSystem.cpp:103-121) with `computeOverlappingPairs` (BroadPhaseSystem.cpp:202-215); `nodes`
is the list of pairs of nodes that the tree reports (C19). -/
def broadPhase (w : World α) (nodes : List (Nat × Nat)) : Option (World α) :=
  match nodes.foldlM updateOverlap { w with moved := fun _ => false } with
  | none => none
  | some w1 =>
    match w1.sweep .cv with
    | none => none
    | some w2 => w2.sweep .cc

/-- The condition of `computeMiddlePhase` (CollisionDetectionSystem.cpp:392-399, 440-449) under which an enabled pair is tested. -/
def isTested (w : World α) (isQuery : Bool) (p : Pair) : Option Bool :=
  match w.col p.c1, w.col p.c2 with
  | some x1, some x2 =>
    some (((isQuery && x1.query && x2.query) || (!isQuery && (x1.sim || x1.trigger) && (x2.sim || x2.trigger))) &&
      (isQuery || (!x1.disabled || !x2.disabled)))
  | _, _ => none

/-- `computeMiddlePhase` (CollisionDetectionSystem.cpp:346-458): the flag of the current frame is reset, and the pairs to be tested are
collected, convex pairs first. -/
def middlePhase (w : World α) (isQuery : Bool) : Option (World α × List Nat) :=
  match collect (w.isTested isQuery) ((w.store.tab .cv).arr ++ (w.store.tab .cc).arr) with
  | none => none
  | some l => some ({ w with store := (w.store.mapTab .cv fun p => { p with cur := false }).mapTab .cc fun p => { p with cur := false } },
      l.map Pair.id)

/-- `processPotentialContacts` (CollisionDetectionSystem.cpp:1199-1390) for one colliding pair, as far as flags and events are
concerned. -/
def process (ws : World α × List CPair) (id : Nat) : Option (World α × List CPair) :=
  match ws.1.store.deref id with
  | none => none
  | some p =>
    match ws.1.col p.c1, ws.1.col p.c2 with
    | some x1, some x2 =>
      match ws.1.store.modify id (fun p => { p with cur := true }) with
      | none => none
      | some s => some ({ ws.1 with store := s }, ws.2 ++ [⟨id, x1.body, x2.body, p.c1, p.c2, p.prev, x1.trigger || x2.trigger⟩])
    | _, _ => none

/-- The narrow phase (CollisionDetectionSystem.cpp:691-718): `hit` tells which tested pairs collide; the contact pairs. -/
def narrowPhase (w : World α) (ids : List Nat) (hit : Nat → Bool) : Option (World α × List CPair) :=
  (ids.filter hit).foldlM process (w, [])

/-- `computeLostContactPairs` (CollisionDetectionSystem.cpp:978-1014). -/
def lostPairs (w : World α) : Option (List CPair) :=
  mapO w.mkLost (((w.store.tab .cv).arr ++ (w.store.tab .cc).arr).filter fun p => p.prev && !p.cur)

/-- What the listener is told (CollisionCallback.cpp:68-76, OverlapCallback.cpp:57-64). -/
inductive EvKind
  | start | stay | exit
deriving DecidableEq

structure Event where
  kind : EvKind
  c1 : Nat
  c2 : Nat
  trigger : Bool
deriving DecidableEq

/-- The event of a contact pair of this frame. -/
def contactEvent (q : CPair) : Event := ⟨if q.prev then .stay else .start, q.c1, q.c2, q.trigger⟩
/-- The event of a lost contact pair. -/
def lostEvent (q : CPair) : Event := ⟨.exit, q.c1, q.c2, q.trigger⟩

/-- The listener asks for the colliders and bodies of an event (CollisionCallback.cpp:48-65): they must exist. -/
def reportable (w : World α) (q : CPair) : Bool :=
  (w.col q.c1).isSome && (w.col q.c2).isSome && (w.body q.b1).isSome && (w.body q.b2).isSome

/-- `reportContactsAndTriggers` (CollisionDetectionSystem.cpp:1708-1726): the contact events, then the exit events. -/
def report (w : World α) (cs : List CPair) : Option (World α × List Event) :=
  if (cs ++ w.lost).all w.reportable then
    some ({ w with store := w.store.updatePrev, lost := [] }, cs.map contactEvent ++ w.lost.map lostEvent)
  else none

/-- `updateColliders` (BroadPhaseSystem.cpp:125-133): the components in the enabled part of the array. -/
def updateColliders (fat : AABB α → AABB α) (w : World α) (box : Nat → AABB α) (cols : List Nat) : Option (World α) :=
  (cols.filter fun c => match w.col c with | some x => !x.disabled | none => false).foldlM (updateCollider fat box) w

/-- What the oracles decide during a step. -/
structure StepArgs (α : Type) where
  nodes : List (Nat × Nat)
  hit : Nat → Bool
  /-- bodies visited by `createIslands` -/
  wake : List Nat
  /-- the collider components in the order of their array -/
  cols : List Nat
  /-- new boxes -/
  box : Nat → AABB α
  /-- bodies put to sleep -/
  sleep : List Nat

/-- `PhysicsWorld::update` (PhysicsWorld.cpp:239-298): collision detection, islands (which wake bodies, PhysicsWorld.cpp:748),
lost contacts, report, new positions, sleep. -/
def update (fat : AABB α → AABB α) (w : World α) (a : StepArgs α) : Option (World α × List Event) := do
  let w ← w.broadPhase a.nodes
  let (w, ids) ← w.middlePhase false
  let (w, cs) ← w.narrowPhase ids a.hit
  let w ← w.setSleepingAll a.wake false
  let l ← w.lostPairs
  let (w, ev) ← { w with lost := w.lost ++ l }.report cs
  let w ← w.updateColliders fat a.box a.cols
  let w ← w.setSleepingAll a.sleep true
  some (w, ev)

/-- `testOverlap(callback)` (CollisionDetectionSystem.cpp:1800-1812): the ids of the colliding pairs.  The flags are reset, but not set. -/
def queryOverlapAll (w : World α) (nodes : List (Nat × Nat)) (hit : Nat → Bool) : Option (World α × List Nat) := do
  let w ← w.broadPhase nodes
  let (w, ids) ← w.middlePhase true
  some (w, ids.filter hit)

/-- `testCollision(callback)` (CollisionDetectionSystem.cpp:1884-1896): the flags are reset and set. -/
def queryCollisionAll (w : World α) (nodes : List (Nat × Nat)) (hit : Nat → Bool) : Option (World α × List Nat) := do
  let w ← w.broadPhase nodes
  let (w, ids) ← w.middlePhase true
  let (w, _) ← w.narrowPhase ids hit
  some (w, ids.filter hit)

/-- The colliders of a pair belong to the two bodies (CollisionDetectionSystem.cpp:1931-1936). -/
def isBetween (w : World α) (b1 b2 : Nat) (p : Pair) : Option Bool :=
  match w.col p.c1, w.col p.c2 with
  | some x1, some x2 => some (decide ((x1.body = b1 ∧ x2.body = b2) ∨ (x1.body = b2 ∧ x2.body = b1)))
  | _, _ => none

/-- `filterOverlappingPairs` with two bodies (CollisionDetectionSystem.cpp:1925-1954): the enabled pairs between them. -/
def pairsBetween (w : World α) (b1 b2 : Nat) : Option (List Nat) :=
  (collect (w.isBetween b1 b2) ((w.store.tab .cv).arr ++ (w.store.tab .cc).arr)).map (List.map Pair.id)

/-- `testOverlap(body1, body2)` (CollisionDetectionSystem.cpp:1775-1797). -/
def testOverlap (w : World α) (b1 b2 : Nat) (nodes : List (Nat × Nat)) (hit : Nat → Bool) : Option (World α × Bool) := do
  let w ← w.broadPhase nodes
  let ids ← w.pairsBetween b1 b2
  some (w, ids.any hit)

end World
end RP3D
