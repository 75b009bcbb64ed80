/-! Model of `PhysicsCommon` (src/engine/PhysicsCommon.cpp) as the owner of worlds, shapes, meshes and loggers, together with the colliders
that tie shapes to worlds.

Several `PhysicsCommon` may exist at a time; the pointer to the logger is shared by all of them (PhysicsCommon.cpp:35). Objects are numbered in
the order of their creation; a number is not used again. Of a world only its colliders are kept (what else its destructor does is modelled
in `World/BodyJoints`, C53), of a collider its world and its shape. Profiling is disabled. `none`: something that was destroyed is used. -/

namespace RP3D
namespace Common

/-- What a `PhysicsCommon` creates. -/
inductive Kind where
  | world | sphere | box | capsule | convexShape | heightShape | concaveShape | convexMesh | triangleMesh | heightField | logger
deriving DecidableEq

/-- The collision shapes. -/
def Kind.isShape : Kind → Bool
  | .sphere | .box | .capsule | .convexShape | .heightShape | .concaveShape => true
  | _ => false

/-- The kind of object a shape refers to (PhysicsCommon.cpp:430, 512, 558). -/
def Kind.mesh : Kind → Option Kind
  | .convexShape => some .convexMesh
  | .heightShape => some .heightField
  | .concaveShape => some .triangleMesh
  | _ => none

/-- An object that is alive: who created it, for a shape its `mColliders` and its mesh. -/
structure Obj where
  kind : Kind
  owner : Nat
  colliders : List Nat
  mesh : Option Nat
deriving DecidableEq

/-- A collider: its number, its world and its shape. -/
structure Col where
  id : Nat
  world : Nat
  shape : Nat
deriving DecidableEq

/-- The state of the program: the objects that are alive, the sets of each `PhysicsCommon` (PhysicsCommon.cpp:43-48), the colliders, the
default logger that `mLogger` points to (`none`: a null pointer or a logger of the user's own). `dead`: the destroyed objects in the order
of their destruction (a ghost). -/
structure S where
  next : Nat
  commons : List Nat
  obj : Nat → Option Obj
  sets : Nat → Kind → List Nat
  cols : List Col
  logger : Option Nat
  dead : List Nat

/-- At the start of the program. -/
def S.init : S := ⟨0, [], fun _ => none, fun _ _ => [], [], none, []⟩

/-- `RP3D_LOG` (PhysicsCommon.h:284). -/
def S.log (s : S) : Option S := match s.logger with
  | none => some s
  | some l => if (s.obj l).isSome then some s else none

/-- A message that is sent only on a condition. -/
def S.logIf (s : S) (b : Bool) : Option S := if b then s.log else some s

/-- The destructor has run and the memory is released. -/
def S.kill (s : S) (h : Nat) : S := { s with obj := fun i => if i = h then none else s.obj i, dead := s.dead ++ [h] }

/-- `Body::removeCollider` as far as the shape is concerned (Body.cpp:170-201, CollisionShape.h:198-200). -/
def S.removeCol (s : S) (c : Col) : Option S := do
  let s ← s.log
  let o ← s.obj c.shape
  some { s with cols := s.cols.erase c
                obj := fun i => if i = c.shape then some { o with colliders := o.colliders.erase c.id } else s.obj i }

/-- The colliders of a world, removed one after the other (PhysicsWorld.cpp:149-154). -/
def S.removeCols (s : S) : List Col → Option S
  | [] => some s
  | c :: l => do
    let s ← s.removeCol c
    s.removeCols l

/-- `deletePhysicsWorld` (PhysicsCommon.cpp:257-264, PhysicsWorld.cpp:131-165), `deleteSphereShape` and the like (PhysicsCommon.cpp:300-314,
350-364, 408-422, 454-468, 536-550, 583-597), `deleteConvexMesh` and the like (PhysicsCommon.cpp:689-696, 750-770, 800-807). -/
def S.del (s : S) (h : Nat) : Option S := do
  let o ← s.obj h
  if o.kind = .world then do
    let s ← s.log
    let s ← s.removeCols (s.cols.filter fun c => c.world = h)
    let s ← s.log
    some (s.kill h)
  else if o.kind.isShape ∧ o.colliders ≠ [] then do
    let s ← s.log
    some (s.kill h)
  else some (s.kill h)

/-- One of the sets is replaced. -/
def S.setSet (s : S) (c : Nat) (k : Kind) (l : List Nat) : S :=
  { s with sets := fun c' k' => if c' = c ∧ k' = k then l else s.sets c' k' }

/-- `create...`: `logs` if a message is sent for the arguments; meshes that are not valid are destroyed at once (PhysicsCommon.cpp:221-240,
271-283, 321-333, 372-391, 430-437, 480-519, 558-566, 607-673, 705-722, 776-783). -/
def S.create (s : S) (c : Nat) (k : Kind) (mesh : Option Nat) (valid logs : Bool) : Option S := do
  let s ← s.logIf (logs || decide (k = .world))
  let h := s.next
  let s := { s with next := h + 1, obj := fun i => if i = h then some ⟨k, c, [], mesh⟩ else s.obj i }
  if valid then some (s.setSet c k (h :: s.sets c k)) else some (s.kill h)

/-- `destroy...` (PhysicsCommon.cpp:246-251, 289-294, 339-344, 397-402, 443-448, 525-530, 572-577, 679-683, 728-744, 789-794). -/
def S.destroy (s : S) (c : Nat) (k : Kind) (h : Nat) : Option S := do
  let s ← s.del h
  some (s.setSet c k ((s.sets c k).erase h))

/-- One loop of `release`. -/
def S.delAll (s : S) : List Nat → Option S
  | [] => some s
  | h :: l => do
    let s ← s.del h
    s.delAll l

/-- The order of the loops of `release` (PhysicsCommon.cpp:134-200). -/
def releaseOrder : List Kind := [.world, .sphere, .box, .capsule, .convexShape, .heightShape, .concaveShape, .convexMesh, .triangleMesh,
  .heightField, .logger]

/-- `release` (PhysicsCommon.cpp:134-214) for the kinds of a list. -/
def S.releaseKinds (s : S) (c : Nat) : List Kind → Option S
  | [] => some s
  | k :: ks => do
    let s ← s.delAll (s.sets c k)
    (s.setSet c k []).releaseKinds c ks

/-- What the user does. -/
inductive Op where
  | newCommon (c : Nat)
  | deleteCommon (c : Nat)
  | create (c : Nat) (k : Kind) (mesh : Option Nat) (valid logs : Bool)
  | destroy (c : Nat) (k : Kind) (h : Nat)
  | addCollider (id w sh : Nat)
  | removeCollider (c : Col)
  | setLogger (l : Option Nat)

/-- One call. `addCollider`: Body.cpp:69-127; `setLogger`: PhysicsCommon.h:279-281; the destructor: PhysicsCommon.cpp:56-60. -/
def S.step (s : S) : Op → Option S
  | .newCommon c => some { s with commons := c :: s.commons }
  | .deleteCommon c => do
    let s ← s.releaseKinds c releaseOrder
    some { s with commons := s.commons.filter (· ≠ c) }
  | .create c k mesh valid logs => s.create c k mesh valid logs
  | .destroy c k h => s.destroy c k h
  | .addCollider id w sh => do
    let _ ← s.obj w
    let o ← s.obj sh
    let s := { s with cols := ⟨id, w, sh⟩ :: s.cols
                      obj := fun i => if i = sh then some { o with colliders := id :: o.colliders } else s.obj i }
    s.log
  | .removeCollider c => s.removeCol c
  | .setLogger l => some { s with logger := l }

end Common
end RP3D
