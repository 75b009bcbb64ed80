import Verif.Shapes.Bounds
import Verif.Broadphase.Raycast

/-! Model of what a ray cast through a physics world sees: the poses of bodies and colliders, the shapes, and the tree of the broad phase
(src/body/Body.cpp, src/body/RigidBody.cpp, src/collision/Collider.cpp, src/collision/RaycastInfo.cpp, src/systems/BroadPhaseSystem.cpp,
src/systems/DynamicsSystem.cpp).

Simplifications.
* Component arrays are partial maps from entities (C14, C15). Whether the components of a body and of its colliders are in the enabled part of
  their arrays (neither static nor asleep) is one flag of the body; the functions that wake a body, put it to sleep or change its type are the
  operation `setEnabled`, which may be called at any time.
* Overlapping pairs, contacts, joints and masses are left out (`World/*`, `Dynamics/*`); the poses computed by a step are an argument.
* The choice of the place in the tree is an oracle `ch`, the inflation of boxes a function `fat` (C18, C21).
* Undefined behaviour (an entity without component, a broken assertion) is `none`. -/

namespace RP3D
namespace Scene

variable {K : Type} [Field K] [LinearOrder K]

/-- The virtual functions of a collision shape that are needed here: `computeTransformedAABB` and `raycast`. -/
structure Form (K : Type) where
  box : Trans K → Option (AABB K)
  cast : Ray.Ray K → Option (Ray.Hit K)

/-- The columns of a body: `mTransforms`, `mIsActive`, the place in the arrays, `mColliders`. -/
structure SBody (K : Type) where
  trans : Trans K
  active : Bool
  enabled : Bool
  cols : List Nat

/-- The columns of a collider: body, `mLocalToBodyTransforms`, `mLocalToWorldTransforms`, `mCollisionShapes`, `mBroadPhaseIds` (`none` for -1),
`mHasCollisionShapeChangedSize`, `mCollisionCategoryBits`, `mIsWorldQueryCollider`. -/
structure SCol (K : Type) where
  body : Nat
  loc : Trans K
  world : Trans K
  form : Nat
  bp : Option Nat
  changed : Bool
  cat : Nat
  query : Bool

structure State (K : Type) where
  body : Nat → Option (SBody K)
  col : Nat → Option (SCol K)
  /-- the collision shapes, which several colliders may share -/
  form : Nat → Option (Form K)
  tree : Tree K

def init (f : Nat → TNode K) : State K := ⟨fun _ => none, fun _ => none, fun _ => none, Tree.init f⟩

namespace State

def setBody (w : State K) (b : Nat) (B : SBody K) : State K := { w with body := upd w.body b (some B) }
def setCol (w : State K) (c : Nat) (x : SCol K) : State K := { w with col := upd w.col c (some x) }

/-- The world-space box of a collider (BroadPhaseSystem.cpp:170-173). -/
def boxOf (w : State K) (x : SCol K) : Option (AABB K) := do
  let B ← w.body x.body
  let f ← w.form x.form
  f.box (B.trans.mul x.loc)

/-- `updateCollidersComponents` for one collider (BroadPhaseSystem.cpp:155-186). -/
def updateCollider (ch : Choice K) (fat : AABB K → AABB K) (w : State K) (c : Nat) : Option (State K) :=
  match w.col c with
  | none => none
  | some x =>
    match x.bp with
    | none => some w
    | some n =>
      match w.boxOf x with
      | none => none
      | some b =>
        match w.tree.updateObject ch fat n b x.changed with
        | none => none
        | some (t, _) => some ({ w with tree := t }.setCol c { x with changed := false })

/-- `setLocalToWorldTransform` of a collider (Body.cpp:234-236, DynamicsSystem.cpp:107-108). -/
def place (w : State K) (c : Nat) : Option (State K) :=
  match w.col c with
  | none => none
  | some x =>
    match w.body x.body with
    | none => none
    | some B => some (w.setCol c { x with world := B.trans.mul x.loc })

/-- One round of `updateBroadPhaseState` (Body.cpp:226-241). -/
def moveCollider (ch : Choice K) (fat : AABB K → AABB K) (w : State K) (c : Nat) : Option (State K) :=
  match w.place c with
  | none => none
  | some w1 => w1.updateCollider ch fat c

/-- `createRigidBody` (PhysicsWorld.cpp:401-439). -/
def createBody (w : State K) (b : Nat) (T : Trans K) : State K := w.setBody b ⟨T, true, true, []⟩

/-- Creation of a collision shape. -/
def createForm (w : State K) (s : Nat) (f : Form K) : State K := { w with form := upd w.form s (some f) }

/-- `addCollider` of the broad phase (BroadPhaseSystem.cpp:80-93) with the box computed by its callers (RigidBody.cpp:699-706,
Body.cpp:261-271). -/
def cdAdd (ch : Choice K) (fat : AABB K → AABB K) (w : State K) (c : Nat) : Option (State K) :=
  match w.col c with
  | none => none
  | some x =>
    match x.bp with
    | some _ => none
    | none =>
      match w.boxOf x with
      | none => none
      | some b =>
        match w.tree.addObject ch fat b c with
        | none => none
        | some (t, n) => some ({ w with tree := t }.setCol c { x with bp := some n })

/-- `RigidBody::addCollider` (RigidBody.cpp:661-722). -/
def addCollider (ch : Choice K) (fat : AABB K → AABB K) (w : State K) (b c s : Nat) (L : Trans K) : Option (State K) :=
  match w.body b with
  | none => none
  | some B =>
    let w1 := (w.setCol c ⟨b, L, B.trans.mul L, s, none, false, 1, true⟩).setBody b { B with cols := B.cols ++ [c] }
    if B.active then w1.cdAdd ch fat c else some w1

/-- `if (collider->getBroadPhaseId() != -1) removeCollider(collider)` (Body.cpp:176-178, 276-280, BroadPhaseSystem.cpp:96-110). -/
def cdRemove (w : State K) (c : Nat) : Option (State K) :=
  match w.col c with
  | none => none
  | some x =>
    match x.bp with
    | none => some w
    | some n =>
      match w.tree.removeObject n with
      | none => none
      | some t => some ({ w with tree := t }.setCol c { x with bp := none })

/-- `Body::removeCollider` (Body.cpp:170-201). -/
def removeCollider (w : State K) (c : Nat) : Option (State K) :=
  match w.cdRemove c with
  | none => none
  | some w1 =>
    match w1.col c with
    | none => none
    | some x =>
      match w1.body x.body with
      | none => none
      | some B => some { w1.setBody x.body { B with cols := B.cols.erase c } with col := upd w1.col c none }

/-- `destroyRigidBody` (PhysicsWorld.cpp:448-477) with `removeAllColliders` (Body.cpp:204-213). -/
def destroyBody (w : State K) (b : Nat) : Option (State K) :=
  match w.body b with
  | none => none
  | some B =>
    match B.cols.foldlM removeCollider w with
    | none => none
    | some w1 => some { w1 with body := upd w1.body b none }

/-- `Body::setTransform` (Body.cpp:397-407). -/
def setTransform (ch : Choice K) (fat : AABB K → AABB K) (w : State K) (b : Nat) (T : Trans K) : Option (State K) :=
  match w.body b with
  | none => none
  | some B => B.cols.foldlM (moveCollider ch fat) (w.setBody b { B with trans := T })

/-- `Collider::setLocalToBodyTransform` (Collider.cpp:106-124). -/
def setLocal (ch : Choice K) (fat : AABB K → AABB K) (w : State K) (c : Nat) (L : Trans K) : Option (State K) :=
  match w.col c with
  | none => none
  | some x => (w.setCol c { x with loc := L }).moveCollider ch fat c

/-- `Body::setIsActive` (Body.cpp:247-292). -/
def setActive (ch : Choice K) (fat : AABB K → AABB K) (w : State K) (b : Nat) (v : Bool) : Option (State K) :=
  match w.body b with
  | none => none
  | some B =>
    if B.active = v then some w
    else if v then B.cols.foldlM (cdAdd ch fat) (w.setBody b { B with active := v })
    else B.cols.foldlM cdRemove (w.setBody b { B with active := v })

/-- `setBodyDisabled` (PhysicsWorld.cpp:168-186). -/
def setEnabled (w : State K) (b : Nat) (v : Bool) : Option (State K) := (w.body b).map fun B => w.setBody b { B with enabled := v }

/-- `setCollisionCategoryBits` (Collider.cpp:70-84). -/
def setCategory (w : State K) (c bits : Nat) : Option (State K) := (w.col c).map fun x => w.setCol c { x with cat := bits }

/-- `setIsWorldQueryCollider` (Collider.cpp:298-300). -/
def setQuery (w : State K) (c : Nat) (v : Bool) : Option (State K) := (w.col c).map fun x => w.setCol c { x with query := v }

/-- A collision shape gets another size, like `SphereShape::setRadius` (SphereShape.h:125-130): `notifyColliderAboutChangedSize`
(CollisionShape.cpp:96-102) marks its colliders. -/
def resize (w : State K) (s : Nat) (f : Form K) : State K :=
  { w with
    form := upd w.form s (some f)
    col := fun c => (w.col c).map fun x => if x.form = s then { x with changed := true } else x }

/-- The end of a step: `updateBodiesState` (DynamicsSystem.cpp:74-110) writes the poses `T` of the enabled bodies, and `updateColliders`
(BroadPhaseSystem.cpp:125-133) goes through their colliders, in the order `cs` of the array. -/
def update (ch : Choice K) (fat : AABB K → AABB K) (w : State K) (T : Nat → Trans K) (cs : List Nat) : Option (State K) :=
  match cs.foldlM place { w with body := fun b => (w.body b).map fun B => if B.enabled then { B with trans := T b } else B } with
  | none => none
  | some w1 => cs.foldlM (updateCollider ch fat) w1

end State

/-! ### Ray casts -/

variable {σ : Type}

/-- `RaycastInfo` as constructed (RaycastInfo.h:73-75); its vectors are zero. -/
def blank : Ray.Info K := ⟨0, -1, 0, 0⟩

/-- The collider of a node with its body and its shape. -/
def State.atNode (w : State K) (i : Nat) : Option (Nat × SCol K × SBody K × Form K) := do
  let c ← w.tree.dataOf i
  let x ← w.col c
  let B ← w.body x.body
  let f ← w.form x.form
  some (c, x, B, f)

/-- `BroadPhaseRaycastCallback::raycastBroadPhaseShape` (BroadPhaseSystem.cpp:224-241), `raycastAgainstShape` (RaycastInfo.cpp:34-49),
`Collider::raycast` (Collider.cpp:173-192). `cb` is `notifyRaycastHit` of the user, with a state of its own. The state `none` stands for undefined
behaviour; it stops the ray cast. -/
def callback (eps : K) (len : V3 K → K) (w : State K) (mask : Nat) (r : Ray.Ray K) (cb : σ → Ray.Info K → σ × Ext K) :
    Option σ → Nat → K → Option σ × Ext K
  | none, _, _ => (none, .fin 0)
  | some s, i, m =>
    match w.atNode i with
    | none => (none, .fin 0)
    | some (c, x, B, f) =>
      if mask &&& x.cat ≠ 0 ∧ x.query = true then
        if B.active then
          match Ray.Collider.raycast eps len ⟨c, x.world, f.cast⟩ { r with maxF := m } blank with
          | (true, info) => (some (cb s info).1, (cb s info).2)
          | (false, _) => (some s, .fin m)
        else (some s, .fin m)
      else (some s, .fin (-1))

/-- `PhysicsWorld::raycast` (PhysicsWorld.h:486-490, CollisionDetectionSystem.cpp:1186-1195, BroadPhaseSystem.cpp:70-77): the last state of the user,
the last maximum fraction, and whether the user stopped the ray cast. -/
def raycast (F : FloatOps K) (eps : K) (len : V3 K → K) (w : State K) (mask : Nat) (r : Ray.Ray K) (neg : V3 Bool)
    (cb : σ → Ray.Info K → σ × Ext K) (s : σ) : Option (σ × K × Bool) :=
  match w.tree.raycast F r.p1 r.dir neg (callback eps len w mask r cb) r.maxF (some s) with
  | some (some s', m, stop) => some (s', m, stop)
  | _ => none

end Scene
end RP3D
