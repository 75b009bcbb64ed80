import Verif.Engine.Components

/-! The virtual functions of the nine component tables, column by column (src/components/*Components.cpp): which
columns `addComponent`, `moveComponentToIndex`, `swapComponents`, `destroyComponent` and `allocate` touch, and with what.
Each class is a program of lists (`Prog`), transcribed statement by statement and in order, and `Tab` runs these programs on the cells of a
table.  `Verif/Engine/Components.lean` is the same table with all the columns as one value; `Verif/Props/ColumnData.lean` relates them.

A cell is `none` when its content is unspecified: raw memory, or an object that was destroyed.  The tables have columns of two kinds.
An *owning* column holds arrays (`Array<...>`): constructing over a live array leaks it, copying, destroying or assigning one that is
not alive is undefined; both are the result `none` of the operation.  The values of the other columns (numbers, flags, pointers, vectors) may be
overwritten and copied freely, and a copy of an unspecified value is unspecified.
Simplifications: an array is a value (its copies are deep, C01), the counters do not overflow, the hash map is a finite map (C03). -/

namespace RP3D
namespace ColumnData

/-- What a column is initialised with by `addComponent`: the entity, or a C++ expression (an argument or a constant). -/
inductive Src
  | entity
  | expr (text : String)
deriving DecidableEq

/-- The statements of a component class, for columns `C`.
`moves`: the pairs (destination column, source column) of `moveComponentToIndex`.
`loads`: the columns from which the local variables of `swapComponents` are initialised, in the order of their declaration.
`stores`: the pairs (column, number of the local variable) of its last part.
`destroys`: the columns whose elements are destroyed or set to null by `destroyComponent`.
`owning`: the columns of arrays.  `short`: the columns of which `allocate` copies too few bytes. -/
structure Prog (C : Type) where
  ent : C
  add : List (C × Src)
  moves : List (C × C)
  loads : List C
  stores : List (C × Nat)
  destroys : List C
  owning : List C
  short : List C

/-- The content of a cell: entities, or other data. -/
inductive Val (X : Type)
  | ent (e : Nat)
  | dat (x : X)
deriving DecidableEq

/-- A table: the cells of each column, and the members of `Components` (Components.h:57-80). -/
structure Tab (C X : Type) where
  cells : C → Nat → Option (Val X)
  map : Nat → Option Nat
  nb : Nat
  cap : Nat
  ds : Nat

namespace Tab
variable {C X : Type} [DecidableEq C]

/-- Reading the element of a column to copy it. -/
def copy (p : Prog C) (t : Tab C X) (k : C) (i : Nat) : Option (Option (Val X)) :=
  if k ∈ p.owning ∧ t.cells k i = none then none else some (t.cells k i)

/-- Constructing the element of a column (`new (mX + index) T(v)` or `mX[index] = v`). -/
def put (p : Prog C) (t : Tab C X) (k : C) (i : Nat) (v : Option (Val X)) : Option (Tab C X) :=
  if i < t.cap ∧ (k ∈ p.owning → t.cells k i = none) then
    some { t with cells := fun k' i' => if k' = k ∧ i' = i then v else t.cells k' i' }
  else none

/-- A sequence of constructions at index `i`; `f` gives the value. -/
def puts {K : Type} (p : Prog C) (i : Nat) (f : Tab C X → K → Option (Option (Val X))) :
    List (C × K) → Tab C X → Option (Tab C X)
  | [], t => some t
  | (k, x) :: rest, t => do
    let v ← f t x
    let t ← t.put p k i v
    puts p i f rest t

/-- The entity stored at an index; reading anything else as an entity is undefined. -/
def entityAt (p : Prog C) (t : Tab C X) (i : Nat) : Option Nat :=
  match t.cells p.ent i with
  | some (.ent e) => some e
  | _ => none

/-- The statements of `destroyComponent` on the columns. -/
def clear (p : Prog C) (i : Nat) : List C → Tab C X → Option (Tab C X)
  | [], t => some t
  | k :: rest, t => do
    let _ ← t.copy p k i
    clear p i rest { t with cells := fun k' i' => if k' = k ∧ i' = i then none else t.cells k' i' }

/-- `destroyComponent` (e.g. ColliderComponents.cpp:253-269), with its assertion. -/
def destroyAt (p : Prog C) (t : Tab C X) (i : Nat) : Option (Tab C X) := do
  let e ← t.entityAt p i
  if t.map e = some i then
    clear p i p.destroys { t with map := upd t.map e none }
  else none

/-- `mMapEntityToComponentIndex.add`. -/
def enter (t : Tab C X) (e i : Nat) : Option (Tab C X) :=
  if t.map e = none then some { t with map := upd t.map e (some i) } else none

/-- `moveComponentToIndex` (e.g. ColliderComponents.cpp:170-200). -/
def move (p : Prog C) (t : Tab C X) (src dst : Nat) : Option (Tab C X) := do
  let e ← t.entityAt p src
  let t ← puts p dst (fun t k => t.copy p k src) p.moves t
  let t ← t.destroyAt p src
  t.enter e dst

/-- The local variables of `swapComponents`. -/
def locals (p : Prog C) (t : Tab C X) (i : Nat) : List C → Option (List (Option (Val X)))
  | [] => some []
  | k :: rest => do
    let v ← t.copy p k i
    let l ← locals p t i rest
    return v :: l

/-- `swapComponents` (e.g. ColliderComponents.cpp:203-250); the first local variable is the entity. -/
def swap (p : Prog C) (t : Tab C X) (i1 i2 : Nat) : Option (Tab C X) := do
  let l ← t.locals p i1 p.loads
  let t ← t.destroyAt p i1
  let t ← t.move p i2 i1
  let t ← puts p i2 (fun _ n => l[n]?) p.stores t
  match l with
  | some (.ent e) :: _ => t.enter e i2
  | _ => none

/-- `allocate` (e.g. ColliderComponents.cpp:46-135): the columns are copied, but of the ones in `short` only a part, after which
their content is unspecified; the rest of the new buffer is raw memory. -/
def allocate (p : Prog C) (t : Tab C X) (n : Nat) : Option (Tab C X) :=
  let k := ceil16F n
  if t.nb ≤ k then
    some { t with cells := fun c i => if i < t.nb ∧ c ∉ p.short then t.cells c i else none, cap := k }
  else none

/-- Constructor and `init` (Components.cpp:34-39, 61-65; Components.h:53). -/
def empty : Tab C X := ⟨fun _ _ => none, fun _ => none, 0, ceil16F 10, 0⟩

/-- The growth test of `prepareAddComponent` (Components.cpp:70-73). -/
def growAdd (p : Prog C) (t : Tab C X) : Option (Tab C X) := if t.nb = t.cap then t.allocate p (t.cap * 2) else some t

/-- `prepareAddComponent` (Components.cpp:68-101). -/
def prepareAdd (p : Prog C) (t : Tab C X) (dis : Bool) : Option (Tab C X × Nat) := do
  let t ← t.growAdd p
  if dis then some (t, t.nb)
  else
    if t.ds ≠ t.nb then
      match t.move p t.ds t.nb with
      | none => none
      | some t => some ({ t with ds := t.ds + 1 }, t.ds)
    else some ({ t with ds := t.ds + 1 }, t.ds)

/-- The value of an initialiser, for the entity `e` and the values `ev` of the expressions. -/
def value (e : Nat) (ev : String → X) : Src → Val X
  | .entity => .ent e
  | .expr s => .dat (ev s)

/-- `addComponent` (e.g. ColliderComponents.cpp:138-166). -/
def add (p : Prog C) (t : Tab C X) (e : Nat) (dis : Bool) (ev : String → X) : Option (Tab C X) := do
  let (t, i) ← t.prepareAdd p dis
  let t ← puts p i (fun _ s => some (some (value e ev s))) p.add t
  let t ← t.enter e i
  return { t with nb := t.nb + 1 }

/-- The replacement part of `removeComponent` for a disabled component (Components.cpp:126-134). -/
def fillDisabled (p : Prog C) (t : Tab C X) (i : Nat) : Option (Tab C X) :=
  if i ≠ t.nb - 1 then t.move p (t.nb - 1) i else some t

/-- First replacement for an enabled component (Components.cpp:137-142). -/
def fillEnabled (p : Prog C) (t : Tab C X) (i : Nat) : Option (Tab C X) :=
  if i ≠ t.ds - 1 then t.move p (t.ds - 1) i else some t

/-- Second replacement for an enabled component (Components.cpp:144-149). -/
def fillGap (p : Prog C) (t : Tab C X) : Option (Tab C X) :=
  if t.ds ≠ t.nb then t.move p (t.nb - 1) (t.ds - 1) else some t

/-- `removeComponent` (Components.cpp:110-158). -/
def remove (p : Prog C) (t : Tab C X) (e : Nat) : Option (Tab C X) := do
  let i ← t.map e
  let t ← t.destroyAt p i
  if i ≥ t.ds then
    let t ← t.fillDisabled p i
    return { t with nb := t.nb - 1 }
  else
    let t ← t.fillEnabled p i
    let t ← t.fillGap p
    return { t with ds := t.ds - 1, nb := t.nb - 1 }

/-- `setIsEntityDisabled` (Components.cpp:158-194). -/
def setDisabled (p : Prog C) (t : Tab C X) (e : Nat) (dis : Bool) : Option (Tab C X) := do
  let i ← t.map e
  if dis = false ∧ i ≥ t.ds then
    match (if t.ds ≠ i then t.swap p i t.ds else some t) with
    | none => none
    | some t => some { t with ds := t.ds + 1 }
  else if dis = true ∧ i < t.ds then
    match (if i ≠ t.ds - 1 then t.swap p i (t.ds - 1) else some t) with
    | none => none
    | some t => some { t with ds := t.ds - 1 }
  else some t

/-- A setter of one column, e.g. `ColliderComponents::setLocalToBodyTransform` (ColliderComponents.h:263-267). -/
def set (p : Prog C) (t : Tab C X) (e : Nat) (k : C) (x : X) : Option (Tab C X) := do
  let i ← t.map e
  let _ ← t.copy p k i
  return { t with cells := fun k' i' => if k' = k ∧ i' = i then some (.dat x) else t.cells k' i' }

/-- A getter of one column, e.g. `ColliderComponents::getLocalToBodyTransform` (ColliderComponents.h:255-259); `none` if the entity is
absent or the value unspecified. -/
def get (t : Tab C X) (e : Nat) (k : C) : Option (Val X) := do
  let i ← t.map e
  t.cells k i

/-- `getIsEntityDisabled` (Components.h:136-139). -/
def isDisabled (t : Tab C X) (e : Nat) : Option Bool := do
  let i ← t.map e
  return decide (t.ds ≤ i)

/-- `hasComponent` (Components.h:142-144). -/
def has (t : Tab C X) (e : Nat) : Bool := (t.map e).isSome

/-- The loop of the destructor `~Components` (Components.cpp:41-58). -/
def closeFrom (p : Prog C) : (n i : Nat) → Tab C X → Option (Tab C X)
  | 0, _, t => some t
  | n + 1, i, t => do
    let t ← t.destroyAt p i
    closeFrom p n (i + 1) t

/-- `~Components` (Components.cpp:41-58). -/
def close (p : Prog C) (t : Tab C X) : Option (Tab C X) := closeFrom p t.nb 0 t

/-- The operations on a table. -/
inductive Op (C X : Type)
  | add (e : Nat) (dis : Bool) (ev : String → X)
  | remove (e : Nat)
  | setDisabled (e : Nat) (dis : Bool)
  | set (e : Nat) (k : C) (x : X)

def step (p : Prog C) (t : Tab C X) : Op C X → Option (Tab C X)
  | .add e dis ev => t.add p e dis ev
  | .remove e => t.remove p e
  | .setDisabled e dis => t.setDisabled p e dis
  | .set e k x => t.set p e k x

def run (p : Prog C) (t : Tab C X) : List (Op C X) → Option (Tab C X)
  | [] => some t
  | op :: ops => do
    let t ← step p t op
    run p t ops

end Tab

/-! ### The nine classes -/

/-- The columns of `TransformComponents` (TransformComponents.cpp:43-80), named as the members without their `m`. -/
inductive TransformCol
  | bodies | transforms
deriving DecidableEq

/-- TransformComponents.cpp:43-80 (`allocate`), 83-99 (`addComponent`), 103-120 (`moveComponentToIndex`),
123-144 (`swapComponents`), 147-157 (`destroyComponent`). -/
def transformProg : Prog TransformCol where
  ent := .bodies
  add := [
    (.bodies, .entity), (.transforms, .expr "component.transform")]
  moves := [
    (.bodies, .bodies), (.transforms, .transforms)]
  loads := [
    .bodies, .transforms]
  stores := [
    (.bodies, 0), (.transforms, 1)]
  destroys := [
    .bodies, .transforms]
  owning := []
  short := []

/-- The columns of `JointComponents` (JointComponents.cpp:43-103), named as the members without their `m`. -/
inductive JointCol
  | jointEntities | body1Entities | body2Entities | joints | types | positionCorrectionTechniques
  | isCollisionEnabled | isAlreadyInIsland
deriving DecidableEq

/-- JointComponents.cpp:43-103 (`allocate`), 106-128 (`addComponent`), 132-155 (`moveComponentToIndex`),
158-191 (`swapComponents`), 194-206 (`destroyComponent`). -/
def jointProg : Prog JointCol where
  ent := .jointEntities
  add := [
    (.jointEntities, .entity), (.body1Entities, .expr "component.body1Entity"),
    (.body2Entities, .expr "component.body2Entity"), (.joints, .expr "component.joint"),
    (.types, .expr "component.jointType"),
    (.positionCorrectionTechniques, .expr "component.positionCorrectionTechnique"),
    (.isCollisionEnabled, .expr "component.isCollisionEnabled"), (.isAlreadyInIsland, .expr "false")]
  moves := [
    (.jointEntities, .jointEntities), (.body1Entities, .body1Entities), (.body2Entities, .body2Entities),
    (.joints, .joints), (.types, .types), (.positionCorrectionTechniques, .positionCorrectionTechniques),
    (.isCollisionEnabled, .isCollisionEnabled), (.isAlreadyInIsland, .isAlreadyInIsland)]
  loads := [
    .jointEntities, .body1Entities, .body2Entities, .joints, .types, .positionCorrectionTechniques,
    .isCollisionEnabled, .isAlreadyInIsland]
  stores := [
    (.jointEntities, 0), (.body1Entities, 1), (.body2Entities, 2), (.joints, 3), (.types, 4),
    (.positionCorrectionTechniques, 5), (.isCollisionEnabled, 6), (.isAlreadyInIsland, 7)]
  destroys := [
    .jointEntities, .body1Entities, .body2Entities, .joints]
  owning := []
  short := []

/-- The columns of `BodyComponents` (BodyComponents.cpp:43-96), named as the members without their `m`. -/
inductive BodyCol
  | bodiesEntities | bodies | colliders | isActive | userData | hasSimulationCollider
deriving DecidableEq

/-- BodyComponents.cpp:43-96 (`allocate`), 99-119 (`addComponent`), 123-144 (`moveComponentToIndex`),
147-176 (`swapComponents`), 179-191 (`destroyComponent`). -/
def bodyProg : Prog BodyCol where
  ent := .bodiesEntities
  add := [
    (.bodiesEntities, .entity), (.bodies, .expr "component.body"), (.colliders, .expr "mMemoryAllocator"),
    (.isActive, .expr "true"), (.userData, .expr "nullptr"), (.hasSimulationCollider, .expr "false")]
  moves := [
    (.bodiesEntities, .bodiesEntities), (.bodies, .bodies), (.colliders, .colliders), (.isActive, .isActive),
    (.userData, .userData), (.hasSimulationCollider, .hasSimulationCollider)]
  loads := [
    .bodiesEntities, .bodies, .colliders, .isActive, .userData, .hasSimulationCollider]
  stores := [
    (.bodiesEntities, 0), (.colliders, 2), (.bodies, 1), (.isActive, 3), (.userData, 4), (.hasSimulationCollider, 5)]
  destroys := [
    .bodiesEntities, .bodies, .colliders, .userData]
  owning := [.colliders]
  short := []

/-- The columns of `ColliderComponents` (ColliderComponents.cpp:46-135), named as the members without their `m`. -/
inductive ColliderCol
  | collidersEntities | bodiesEntities | colliders | broadPhaseIds | localToBodyTransforms | collisionShapes
  | collisionCategoryBits | collideWithMaskBits | localToWorldTransforms | overlappingPairs
  | hasCollisionShapeChangedSize | isTrigger | isSimulationCollider | isWorldQueryCollider | materials
deriving DecidableEq

/-- ColliderComponents.cpp:46-135 (`allocate`), 138-166 (`addComponent`), 170-200 (`moveComponentToIndex`),
203-250 (`swapComponents`), 253-269 (`destroyComponent`). -/
def colliderProg : Prog ColliderCol where
  ent := .collidersEntities
  add := [
    (.collidersEntities, .entity), (.bodiesEntities, .expr "component.bodyEntity"),
    (.colliders, .expr "component.collider"), (.broadPhaseIds, .expr "-1"),
    (.localToBodyTransforms, .expr "component.localToBodyTransform"),
    (.collisionShapes, .expr "component.collisionShape"),
    (.collisionCategoryBits, .expr "component.collisionCategoryBits"),
    (.collideWithMaskBits, .expr "component.collideWithMaskBits"),
    (.localToWorldTransforms, .expr "component.localToWorldTransform"),
    (.overlappingPairs, .expr "mMemoryAllocator"), (.hasCollisionShapeChangedSize, .expr "false"),
    (.isTrigger, .expr "false"), (.isSimulationCollider, .expr "true"), (.isWorldQueryCollider, .expr "true"),
    (.materials, .expr "component.material")]
  moves := [
    (.collidersEntities, .collidersEntities), (.bodiesEntities, .bodiesEntities), (.colliders, .colliders),
    (.broadPhaseIds, .broadPhaseIds), (.localToBodyTransforms, .localToBodyTransforms),
    (.collisionShapes, .collisionShapes), (.collisionCategoryBits, .collisionCategoryBits),
    (.collideWithMaskBits, .collideWithMaskBits), (.localToWorldTransforms, .localToWorldTransforms),
    (.overlappingPairs, .overlappingPairs), (.hasCollisionShapeChangedSize, .hasCollisionShapeChangedSize),
    (.isTrigger, .isTrigger), (.isSimulationCollider, .isSimulationCollider),
    (.isWorldQueryCollider, .isWorldQueryCollider), (.materials, .materials)]
  loads := [
    .collidersEntities, .bodiesEntities, .colliders, .broadPhaseIds, .localToBodyTransforms, .collisionShapes,
    .collisionCategoryBits, .collideWithMaskBits, .localToWorldTransforms, .overlappingPairs,
    .hasCollisionShapeChangedSize, .isTrigger, .isSimulationCollider, .isWorldQueryCollider, .materials]
  stores := [
    (.collidersEntities, 0), (.bodiesEntities, 1), (.colliders, 2), (.broadPhaseIds, 3),
    (.localToBodyTransforms, 4), (.collisionShapes, 5), (.collisionCategoryBits, 6), (.collideWithMaskBits, 7),
    (.localToWorldTransforms, 8), (.overlappingPairs, 9), (.hasCollisionShapeChangedSize, 10), (.isTrigger, 11),
    (.isSimulationCollider, 12), (.isWorldQueryCollider, 13), (.materials, 14)]
  destroys := [
    .collidersEntities, .bodiesEntities, .colliders, .localToBodyTransforms, .collisionShapes,
    .localToWorldTransforms, .overlappingPairs, .materials]
  owning := [.overlappingPairs]
  short := []

/-- The columns of `RigidBodyComponents` (RigidBodyComponents.cpp:52-204), named as the members without their `m`. -/
inductive RigidBodyCol
  | bodiesEntities | rigidBodies | isAllowedToSleep | isSleeping | sleepTimes | bodyTypes | linearVelocities
  | angularVelocities | externalForces | externalTorques | linearDampings | angularDampings | masses
  | inverseMasses | localInertiaTensors | inverseInertiaTensorsLocal | inverseInertiaTensorsWorld
  | constrainedLinearVelocities | constrainedAngularVelocities | splitLinearVelocities | splitAngularVelocities
  | constrainedPositions | constrainedOrientations | centersOfMassLocal | centersOfMassWorld | isGravityEnabled
  | isAlreadyInIsland | joints | contactPairs | linearLockAxisFactors | angularLockAxisFactors
deriving DecidableEq

/-- RigidBodyComponents.cpp:52-204 (`allocate`), 207-252 (`addComponent`), 256-302 (`moveComponentToIndex`),
305-384 (`swapComponents`), 387-416 (`destroyComponent`). -/
def rigidBodyProg : Prog RigidBodyCol where
  ent := .bodiesEntities
  add := [
    (.bodiesEntities, .entity), (.rigidBodies, .expr "component.body"), (.isAllowedToSleep, .expr "true"),
    (.isSleeping, .expr "false"), (.sleepTimes, .expr "decimal(0)"), (.bodyTypes, .expr "component.bodyType"),
    (.linearVelocities, .expr "0, 0, 0"), (.angularVelocities, .expr "0, 0, 0"),
    (.externalForces, .expr "0, 0, 0"), (.externalTorques, .expr "0, 0, 0"),
    (.linearDampings, .expr "decimal(0.0)"), (.angularDampings, .expr "decimal(0.0)"),
    (.masses, .expr "decimal(1.0)"), (.inverseMasses, .expr "decimal(1.0)"),
    (.localInertiaTensors, .expr "1.0, 1.0, 1.0"), (.inverseInertiaTensorsLocal, .expr "1.0, 1.0, 1.0"),
    (.inverseInertiaTensorsWorld, .expr "1.0, 0.0, 0.0, 0.0, 1.0, 0.0, 0.0, 0.0, 1.0"),
    (.constrainedLinearVelocities, .expr "0, 0, 0"), (.constrainedAngularVelocities, .expr "0, 0, 0"),
    (.splitLinearVelocities, .expr "0, 0, 0"), (.splitAngularVelocities, .expr "0, 0, 0"),
    (.constrainedPositions, .expr "0, 0, 0"), (.constrainedOrientations, .expr "0, 0, 0, 1"),
    (.centersOfMassLocal, .expr "0, 0, 0"), (.centersOfMassWorld, .expr "component.worldPosition"),
    (.isGravityEnabled, .expr "true"), (.isAlreadyInIsland, .expr "false"), (.joints, .expr "mMemoryAllocator"),
    (.contactPairs, .expr "mMemoryAllocator"), (.linearLockAxisFactors, .expr "1, 1, 1"),
    (.angularLockAxisFactors, .expr "1, 1, 1")]
  moves := [
    (.bodiesEntities, .bodiesEntities), (.rigidBodies, .rigidBodies), (.isAllowedToSleep, .isAllowedToSleep),
    (.isSleeping, .isSleeping), (.sleepTimes, .sleepTimes), (.bodyTypes, .bodyTypes),
    (.linearVelocities, .linearVelocities), (.angularVelocities, .angularVelocities),
    (.externalForces, .externalForces), (.externalTorques, .externalTorques), (.linearDampings, .linearDampings),
    (.angularDampings, .angularDampings), (.masses, .masses), (.inverseMasses, .inverseMasses),
    (.localInertiaTensors, .localInertiaTensors), (.inverseInertiaTensorsLocal, .inverseInertiaTensorsLocal),
    (.inverseInertiaTensorsWorld, .inverseInertiaTensorsWorld),
    (.constrainedLinearVelocities, .constrainedLinearVelocities),
    (.constrainedAngularVelocities, .constrainedAngularVelocities),
    (.splitLinearVelocities, .splitLinearVelocities), (.splitAngularVelocities, .splitAngularVelocities),
    (.constrainedPositions, .constrainedPositions), (.constrainedOrientations, .constrainedOrientations),
    (.centersOfMassLocal, .centersOfMassLocal), (.centersOfMassWorld, .centersOfMassWorld),
    (.isGravityEnabled, .isGravityEnabled), (.isAlreadyInIsland, .isAlreadyInIsland), (.joints, .joints),
    (.contactPairs, .contactPairs), (.linearLockAxisFactors, .linearLockAxisFactors),
    (.angularLockAxisFactors, .angularLockAxisFactors)]
  loads := [
    .bodiesEntities, .rigidBodies, .isAllowedToSleep, .isSleeping, .sleepTimes, .bodyTypes, .linearVelocities,
    .angularVelocities, .externalForces, .externalTorques, .linearDampings, .angularDampings, .masses,
    .inverseMasses, .localInertiaTensors, .inverseInertiaTensorsLocal, .inverseInertiaTensorsWorld,
    .constrainedLinearVelocities, .constrainedAngularVelocities, .splitLinearVelocities, .splitAngularVelocities,
    .constrainedPositions, .constrainedOrientations, .centersOfMassLocal, .centersOfMassWorld, .isGravityEnabled,
    .isAlreadyInIsland, .joints, .contactPairs, .linearLockAxisFactors, .angularLockAxisFactors]
  stores := [
    (.bodiesEntities, 0), (.rigidBodies, 1), (.isAllowedToSleep, 2), (.isSleeping, 3), (.sleepTimes, 4),
    (.bodyTypes, 5), (.linearVelocities, 6), (.angularVelocities, 7), (.externalForces, 8), (.externalTorques, 9),
    (.linearDampings, 10), (.angularDampings, 11), (.masses, 12), (.inverseMasses, 13), (.localInertiaTensors, 14),
    (.inverseInertiaTensorsLocal, 15), (.inverseInertiaTensorsWorld, 16), (.constrainedLinearVelocities, 17),
    (.constrainedAngularVelocities, 18), (.splitLinearVelocities, 19), (.splitAngularVelocities, 20),
    (.constrainedPositions, 21), (.constrainedOrientations, 22), (.centersOfMassLocal, 23),
    (.centersOfMassWorld, 24), (.isGravityEnabled, 25), (.isAlreadyInIsland, 26), (.joints, 27),
    (.contactPairs, 28), (.linearLockAxisFactors, 29), (.angularLockAxisFactors, 30)]
  destroys := [
    .bodiesEntities, .rigidBodies, .linearVelocities, .angularVelocities, .externalForces, .externalTorques,
    .localInertiaTensors, .inverseInertiaTensorsLocal, .inverseInertiaTensorsWorld, .constrainedLinearVelocities,
    .constrainedAngularVelocities, .splitLinearVelocities, .splitAngularVelocities, .constrainedPositions,
    .constrainedOrientations, .centersOfMassLocal, .centersOfMassWorld, .joints, .contactPairs,
    .linearLockAxisFactors, .angularLockAxisFactors]
  owning := [.joints, .contactPairs]
  short := []

/-- The columns of `BallAndSocketJointComponents` (BallAndSocketJointComponents.cpp:47-148), named as the members without their `m`. -/
inductive BallAndSocketJointCol
  | jointEntities | joints | localAnchorPointBody1 | localAnchorPointBody2 | r1World | r2World | i1 | i2
  | biasVector | inverseMassMatrix | impulse | isConeLimitEnabled | coneLimitImpulse | coneLimitHalfAngle
  | inverseMassMatrixConeLimit | bConeLimit | isConeLimitViolated | coneLimitACrossB
deriving DecidableEq

/-- BallAndSocketJointComponents.cpp:47-148 (`allocate`), 151-183 (`addComponent`), 187-220 (`moveComponentToIndex`),
223-276 (`swapComponents`), 279-299 (`destroyComponent`). -/
def ballAndSocketJointProg : Prog BallAndSocketJointCol where
  ent := .jointEntities
  add := [
    (.jointEntities, .entity), (.joints, .expr "nullptr"), (.localAnchorPointBody1, .expr "0, 0, 0"),
    (.localAnchorPointBody2, .expr "0, 0, 0"), (.r1World, .expr "0, 0, 0"), (.r2World, .expr "0, 0, 0"),
    (.i1, .expr ""), (.i2, .expr ""), (.biasVector, .expr "0, 0, 0"), (.inverseMassMatrix, .expr ""),
    (.impulse, .expr "0, 0, 0"), (.isConeLimitEnabled, .expr "component.isConeLimitEnabled"),
    (.coneLimitImpulse, .expr "decimal(0.0)"), (.coneLimitHalfAngle, .expr "component.coneLimitHalfAngle"),
    (.inverseMassMatrixConeLimit, .expr "decimal(0.0)"), (.bConeLimit, .expr "decimal(0.0)"),
    (.isConeLimitViolated, .expr "false"), (.coneLimitACrossB, .expr "0, 0, 0")]
  moves := [
    (.jointEntities, .jointEntities), (.joints, .joints), (.localAnchorPointBody1, .localAnchorPointBody1),
    (.localAnchorPointBody2, .localAnchorPointBody2), (.r1World, .r1World), (.r2World, .r2World), (.i1, .i1),
    (.i2, .i2), (.biasVector, .biasVector), (.inverseMassMatrix, .inverseMassMatrix), (.impulse, .impulse),
    (.isConeLimitEnabled, .isConeLimitEnabled), (.coneLimitImpulse, .coneLimitImpulse),
    (.coneLimitHalfAngle, .coneLimitHalfAngle), (.inverseMassMatrixConeLimit, .inverseMassMatrixConeLimit),
    (.bConeLimit, .bConeLimit), (.isConeLimitViolated, .isConeLimitViolated), (.coneLimitACrossB, .coneLimitACrossB)]
  loads := [
    .jointEntities, .joints, .localAnchorPointBody1, .localAnchorPointBody2, .r1World, .r2World, .i1, .i2,
    .biasVector, .inverseMassMatrix, .impulse, .isConeLimitEnabled, .coneLimitImpulse, .coneLimitHalfAngle,
    .inverseMassMatrixConeLimit, .bConeLimit, .isConeLimitViolated, .coneLimitACrossB]
  stores := [
    (.jointEntities, 0), (.joints, 1), (.localAnchorPointBody1, 2), (.localAnchorPointBody2, 3), (.r1World, 4),
    (.r2World, 5), (.i1, 6), (.i2, 7), (.biasVector, 8), (.inverseMassMatrix, 9), (.impulse, 10),
    (.isConeLimitEnabled, 11), (.coneLimitImpulse, 12), (.coneLimitHalfAngle, 13),
    (.inverseMassMatrixConeLimit, 14), (.bConeLimit, 15), (.isConeLimitViolated, 16), (.coneLimitACrossB, 17)]
  destroys := [
    .jointEntities, .joints, .localAnchorPointBody1, .localAnchorPointBody2, .r1World, .r2World, .i1, .i2,
    .biasVector, .inverseMassMatrix, .impulse, .coneLimitACrossB]
  owning := []
  short := []

/-- The columns of `FixedJointComponents` (FixedJointComponents.cpp:46-134), named as the members without their `m`. -/
inductive FixedJointCol
  | jointEntities | joints | localAnchorPointBody1 | localAnchorPointBody2 | r1World | r2World | i1 | i2
  | impulseTranslation | impulseRotation | inverseMassMatrixTranslation | inverseMassMatrixRotation
  | biasTranslation | biasRotation | initOrientationDifferenceInv
deriving DecidableEq

/-- FixedJointComponents.cpp:46-134 (`allocate`), 137-166 (`addComponent`), 170-200 (`moveComponentToIndex`),
203-250 (`swapComponents`), 253-276 (`destroyComponent`). -/
def fixedJointProg : Prog FixedJointCol where
  ent := .jointEntities
  add := [
    (.jointEntities, .entity), (.joints, .expr "nullptr"), (.localAnchorPointBody1, .expr "0, 0, 0"),
    (.localAnchorPointBody2, .expr "0, 0, 0"), (.r1World, .expr "0, 0, 0"), (.r2World, .expr "0, 0, 0"),
    (.i1, .expr ""), (.i2, .expr ""), (.impulseTranslation, .expr "0, 0, 0"), (.impulseRotation, .expr "0, 0, 0"),
    (.inverseMassMatrixTranslation, .expr ""), (.inverseMassMatrixRotation, .expr ""),
    (.biasTranslation, .expr "0, 0, 0"), (.biasRotation, .expr "0, 0, 0"),
    (.initOrientationDifferenceInv, .expr "0, 0, 0, 0")]
  moves := [
    (.jointEntities, .jointEntities), (.joints, .joints), (.localAnchorPointBody1, .localAnchorPointBody1),
    (.localAnchorPointBody2, .localAnchorPointBody2), (.r1World, .r1World), (.r2World, .r2World), (.i1, .i1),
    (.i2, .i2), (.impulseTranslation, .impulseTranslation), (.impulseRotation, .impulseRotation),
    (.inverseMassMatrixTranslation, .inverseMassMatrixTranslation),
    (.inverseMassMatrixRotation, .inverseMassMatrixRotation), (.biasTranslation, .biasTranslation),
    (.biasRotation, .biasRotation), (.initOrientationDifferenceInv, .initOrientationDifferenceInv)]
  loads := [
    .jointEntities, .joints, .localAnchorPointBody1, .localAnchorPointBody2, .r1World, .r2World, .i1, .i2,
    .impulseTranslation, .impulseRotation, .inverseMassMatrixTranslation, .inverseMassMatrixRotation,
    .biasTranslation, .biasRotation, .initOrientationDifferenceInv]
  stores := [
    (.jointEntities, 0), (.joints, 1), (.localAnchorPointBody1, 2), (.localAnchorPointBody2, 3), (.r1World, 4),
    (.r2World, 5), (.i1, 6), (.i2, 7), (.impulseTranslation, 8), (.impulseRotation, 9),
    (.inverseMassMatrixTranslation, 10), (.inverseMassMatrixRotation, 11), (.biasTranslation, 12),
    (.biasRotation, 13), (.initOrientationDifferenceInv, 14)]
  destroys := [
    .jointEntities, .joints, .localAnchorPointBody1, .localAnchorPointBody2, .r1World, .r2World, .i1, .i2,
    .impulseTranslation, .impulseRotation, .inverseMassMatrixTranslation, .inverseMassMatrixRotation,
    .biasTranslation, .biasRotation, .initOrientationDifferenceInv]
  owning := []
  short := []

/-- The columns of `HingeJointComponents` (HingeJointComponents.cpp:51-219), named as the members without their `m`. -/
inductive HingeJointCol
  | jointEntities | joints | localAnchorPointBody1 | localAnchorPointBody2 | r1World | r2World | i1 | i2
  | impulseTranslation | impulseRotation | inverseMassMatrixTranslation | inverseMassMatrixRotation
  | biasTranslation | biasRotation | initOrientationDifferenceInv | hingeLocalAxisBody1 | hingeLocalAxisBody2 | a1
  | b2CrossA1 | c2CrossA1 | impulseLowerLimit | impulseUpperLimit | impulseMotor | inverseMassMatrixLimitMotor
  | inverseMassMatrixMotor | bLowerLimit | bUpperLimit | isLimitEnabled | isMotorEnabled | lowerLimit | upperLimit
  | isLowerLimitViolated | isUpperLimitViolated | motorSpeed | maxMotorTorque
deriving DecidableEq

/-- HingeJointComponents.cpp:51-219 (`allocate`), 222-271 (`addComponent`), 275-325 (`moveComponentToIndex`),
328-415 (`swapComponents`), 418-446 (`destroyComponent`). -/
def hingeJointProg : Prog HingeJointCol where
  ent := .jointEntities
  add := [
    (.jointEntities, .entity), (.joints, .expr "nullptr"), (.localAnchorPointBody1, .expr "0, 0, 0"),
    (.localAnchorPointBody2, .expr "0, 0, 0"), (.r1World, .expr "0, 0, 0"), (.r2World, .expr "0, 0, 0"),
    (.i1, .expr ""), (.i2, .expr ""), (.impulseTranslation, .expr "0, 0, 0"), (.impulseRotation, .expr "0, 0"),
    (.inverseMassMatrixTranslation, .expr ""), (.inverseMassMatrixRotation, .expr ""),
    (.biasTranslation, .expr "0, 0, 0"), (.biasRotation, .expr "0, 0"),
    (.initOrientationDifferenceInv, .expr "0, 0, 0, 0"), (.hingeLocalAxisBody1, .expr "0, 0, 0"),
    (.hingeLocalAxisBody2, .expr "0, 0, 0"), (.a1, .expr "0, 0, 0"), (.b2CrossA1, .expr "0, 0, 0"),
    (.c2CrossA1, .expr "0, 0, 0"), (.impulseLowerLimit, .expr "decimal(0.0)"),
    (.impulseUpperLimit, .expr "decimal(0.0)"), (.impulseMotor, .expr "decimal(0.0)"),
    (.inverseMassMatrixLimitMotor, .expr "decimal(0.0)"), (.inverseMassMatrixMotor, .expr "decimal(0.0)"),
    (.bLowerLimit, .expr "decimal(0.0)"), (.bUpperLimit, .expr "decimal(0.0)"),
    (.isLimitEnabled, .expr "component.isLimitEnabled"), (.isMotorEnabled, .expr "component.isMotorEnabled"),
    (.lowerLimit, .expr "component.lowerLimit"), (.upperLimit, .expr "component.upperLimit"),
    (.isLowerLimitViolated, .expr "false"), (.isUpperLimitViolated, .expr "false"),
    (.motorSpeed, .expr "component.motorSpeed"), (.maxMotorTorque, .expr "component.maxMotorTorque")]
  moves := [
    (.jointEntities, .jointEntities), (.joints, .joints), (.localAnchorPointBody1, .localAnchorPointBody1),
    (.localAnchorPointBody2, .localAnchorPointBody2), (.r1World, .r1World), (.r2World, .r2World), (.i1, .i1),
    (.i2, .i2), (.impulseTranslation, .impulseTranslation), (.impulseRotation, .impulseRotation),
    (.inverseMassMatrixTranslation, .inverseMassMatrixTranslation),
    (.inverseMassMatrixRotation, .inverseMassMatrixRotation), (.biasTranslation, .biasTranslation),
    (.biasRotation, .biasRotation), (.initOrientationDifferenceInv, .initOrientationDifferenceInv),
    (.hingeLocalAxisBody1, .hingeLocalAxisBody1), (.hingeLocalAxisBody2, .hingeLocalAxisBody2), (.a1, .a1),
    (.b2CrossA1, .b2CrossA1), (.c2CrossA1, .c2CrossA1), (.impulseLowerLimit, .impulseLowerLimit),
    (.impulseUpperLimit, .impulseUpperLimit), (.impulseMotor, .impulseMotor),
    (.inverseMassMatrixLimitMotor, .inverseMassMatrixLimitMotor),
    (.inverseMassMatrixMotor, .inverseMassMatrixMotor), (.bLowerLimit, .bLowerLimit), (.bUpperLimit, .bUpperLimit),
    (.isLimitEnabled, .isLimitEnabled), (.isMotorEnabled, .isMotorEnabled), (.lowerLimit, .lowerLimit),
    (.upperLimit, .upperLimit), (.isLowerLimitViolated, .isLowerLimitViolated),
    (.isUpperLimitViolated, .isUpperLimitViolated), (.motorSpeed, .motorSpeed), (.maxMotorTorque, .maxMotorTorque)]
  loads := [
    .jointEntities, .joints, .localAnchorPointBody1, .localAnchorPointBody2, .r1World, .r2World, .i1, .i2,
    .impulseTranslation, .impulseRotation, .inverseMassMatrixTranslation, .inverseMassMatrixRotation,
    .biasTranslation, .biasRotation, .initOrientationDifferenceInv, .hingeLocalAxisBody1, .hingeLocalAxisBody2,
    .a1, .b2CrossA1, .c2CrossA1, .impulseLowerLimit, .impulseUpperLimit, .impulseMotor,
    .inverseMassMatrixLimitMotor, .inverseMassMatrixMotor, .bLowerLimit, .upperLimit, .isLimitEnabled,
    .isMotorEnabled, .lowerLimit, .upperLimit, .isLowerLimitViolated, .isUpperLimitViolated, .motorSpeed,
    .maxMotorTorque]
  stores := [
    (.jointEntities, 0), (.joints, 1), (.localAnchorPointBody1, 2), (.localAnchorPointBody2, 3), (.r1World, 4),
    (.r2World, 5), (.i1, 6), (.i2, 7), (.impulseTranslation, 8), (.impulseRotation, 9),
    (.inverseMassMatrixTranslation, 10), (.inverseMassMatrixRotation, 11), (.biasTranslation, 12),
    (.biasRotation, 13), (.initOrientationDifferenceInv, 14), (.hingeLocalAxisBody1, 15),
    (.hingeLocalAxisBody2, 16), (.a1, 17), (.b2CrossA1, 18), (.c2CrossA1, 19), (.impulseLowerLimit, 20),
    (.impulseUpperLimit, 21), (.impulseMotor, 22), (.inverseMassMatrixLimitMotor, 23),
    (.inverseMassMatrixMotor, 24), (.bLowerLimit, 25), (.bUpperLimit, 26), (.isLimitEnabled, 27),
    (.isMotorEnabled, 28), (.lowerLimit, 29), (.upperLimit, 30), (.isLowerLimitViolated, 31),
    (.isUpperLimitViolated, 32), (.motorSpeed, 33), (.maxMotorTorque, 34)]
  destroys := [
    .jointEntities, .joints, .localAnchorPointBody1, .localAnchorPointBody2, .r1World, .r2World, .i1, .i2,
    .impulseTranslation, .impulseRotation, .inverseMassMatrixTranslation, .inverseMassMatrixRotation,
    .biasTranslation, .biasRotation, .initOrientationDifferenceInv, .hingeLocalAxisBody1, .hingeLocalAxisBody2,
    .a1, .b2CrossA1, .c2CrossA1]
  owning := []
  short := []

/-- The columns of `SliderJointComponents` (SliderJointComponents.cpp:53-241), named as the members without their `m`. -/
inductive SliderJointCol
  | jointEntities | joints | localAnchorPointBody1 | localAnchorPointBody2 | i1 | i2 | impulseTranslation
  | impulseRotation | inverseMassMatrixTranslation | inverseMassMatrixRotation | biasTranslation | biasRotation
  | initOrientationDifferenceInv | sliderAxisBody1 | sliderAxisWorld | r1 | r2 | n1 | n2 | impulseLowerLimit
  | impulseUpperLimit | impulseMotor | inverseMassMatrixLimit | inverseMassMatrixMotor | bLowerLimit | bUpperLimit
  | isLimitEnabled | isMotorEnabled | lowerLimit | upperLimit | isLowerLimitViolated | isUpperLimitViolated
  | motorSpeed | maxMotorForce | r2CrossN1 | r2CrossN2 | r2CrossSliderAxis | r1PlusUCrossN1 | r1PlusUCrossN2
  | r1PlusUCrossSliderAxis
deriving DecidableEq

/-- SliderJointComponents.cpp:53-241 (`allocate`), 244-298 (`addComponent`), 302-357 (`moveComponentToIndex`),
360-457 (`swapComponents`), 460-493 (`destroyComponent`).  The last six columns hold vectors of which `allocate` copies the size of a number (lines 188-193). -/
def sliderJointProg : Prog SliderJointCol where
  ent := .jointEntities
  add := [
    (.jointEntities, .entity), (.joints, .expr "nullptr"), (.localAnchorPointBody1, .expr "0, 0, 0"),
    (.localAnchorPointBody2, .expr "0, 0, 0"), (.i1, .expr ""), (.i2, .expr ""),
    (.impulseTranslation, .expr "0, 0"), (.impulseRotation, .expr "0, 0, 0"),
    (.inverseMassMatrixTranslation, .expr ""), (.inverseMassMatrixRotation, .expr ""),
    (.biasTranslation, .expr "0, 0"), (.biasRotation, .expr "0, 0, 0"),
    (.initOrientationDifferenceInv, .expr "0, 0, 0, 0"), (.sliderAxisBody1, .expr "0, 0, 0"),
    (.sliderAxisWorld, .expr "0, 0, 0"), (.r1, .expr "0, 0, 0"), (.r2, .expr "0, 0, 0"), (.n1, .expr "0, 0, 0"),
    (.n2, .expr "0, 0, 0"), (.impulseLowerLimit, .expr "decimal(0.0)"), (.impulseUpperLimit, .expr "decimal(0.0)"),
    (.impulseMotor, .expr "decimal(0.0)"), (.inverseMassMatrixLimit, .expr "decimal(0.0)"),
    (.inverseMassMatrixMotor, .expr "decimal(0.0)"), (.bLowerLimit, .expr "decimal(0.0)"),
    (.bUpperLimit, .expr "decimal(0.0)"), (.isLimitEnabled, .expr "component.isLimitEnabled"),
    (.isMotorEnabled, .expr "component.isMotorEnabled"), (.lowerLimit, .expr "component.lowerLimit"),
    (.upperLimit, .expr "component.upperLimit"), (.isLowerLimitViolated, .expr "false"),
    (.isUpperLimitViolated, .expr "false"), (.motorSpeed, .expr "component.motorSpeed"),
    (.maxMotorForce, .expr "component.maxMotorForce"), (.r2CrossN1, .expr "0, 0, 0"),
    (.r2CrossN2, .expr "0, 0, 0"), (.r2CrossSliderAxis, .expr "0, 0, 0"), (.r1PlusUCrossN1, .expr "0, 0, 0"),
    (.r1PlusUCrossN2, .expr "0, 0, 0"), (.r1PlusUCrossSliderAxis, .expr "0, 0, 0")]
  moves := [
    (.jointEntities, .jointEntities), (.joints, .joints), (.localAnchorPointBody1, .localAnchorPointBody1),
    (.localAnchorPointBody2, .localAnchorPointBody2), (.i1, .i1), (.i2, .i2),
    (.impulseTranslation, .impulseTranslation), (.impulseRotation, .impulseRotation),
    (.inverseMassMatrixTranslation, .inverseMassMatrixTranslation),
    (.inverseMassMatrixRotation, .inverseMassMatrixRotation), (.biasTranslation, .biasTranslation),
    (.biasRotation, .biasRotation), (.initOrientationDifferenceInv, .initOrientationDifferenceInv),
    (.sliderAxisBody1, .sliderAxisBody1), (.sliderAxisWorld, .sliderAxisWorld), (.r1, .r1), (.r2, .r2), (.n1, .n1),
    (.n2, .n2), (.impulseLowerLimit, .impulseLowerLimit), (.impulseUpperLimit, .impulseUpperLimit),
    (.impulseMotor, .impulseMotor), (.inverseMassMatrixLimit, .inverseMassMatrixLimit),
    (.inverseMassMatrixMotor, .inverseMassMatrixMotor), (.bLowerLimit, .bLowerLimit), (.bUpperLimit, .bUpperLimit),
    (.isLimitEnabled, .isLimitEnabled), (.isMotorEnabled, .isMotorEnabled), (.lowerLimit, .lowerLimit),
    (.upperLimit, .upperLimit), (.isLowerLimitViolated, .isLowerLimitViolated),
    (.isUpperLimitViolated, .isUpperLimitViolated), (.motorSpeed, .motorSpeed), (.maxMotorForce, .maxMotorForce),
    (.r2CrossN1, .r2CrossN1), (.r2CrossN2, .r2CrossN2), (.r2CrossSliderAxis, .r2CrossSliderAxis),
    (.r1PlusUCrossN1, .r1PlusUCrossN1), (.r1PlusUCrossN2, .r1PlusUCrossN2),
    (.r1PlusUCrossSliderAxis, .r1PlusUCrossSliderAxis)]
  loads := [
    .jointEntities, .joints, .localAnchorPointBody1, .localAnchorPointBody2, .i1, .i2, .impulseTranslation,
    .impulseRotation, .inverseMassMatrixTranslation, .inverseMassMatrixRotation, .biasTranslation, .biasRotation,
    .initOrientationDifferenceInv, .sliderAxisBody1, .sliderAxisWorld, .r1, .r2, .n1, .n2, .impulseLowerLimit,
    .impulseUpperLimit, .impulseMotor, .inverseMassMatrixLimit, .inverseMassMatrixMotor, .bLowerLimit, .upperLimit,
    .isLimitEnabled, .isMotorEnabled, .lowerLimit, .upperLimit, .isLowerLimitViolated, .isUpperLimitViolated,
    .motorSpeed, .maxMotorForce, .r2CrossN1, .r2CrossN2, .r2CrossSliderAxis, .r1PlusUCrossN1, .r1PlusUCrossN2,
    .r1PlusUCrossSliderAxis]
  stores := [
    (.jointEntities, 0), (.joints, 1), (.localAnchorPointBody1, 2), (.localAnchorPointBody2, 3), (.i1, 4),
    (.i2, 5), (.impulseTranslation, 6), (.impulseRotation, 7), (.inverseMassMatrixTranslation, 8),
    (.inverseMassMatrixRotation, 9), (.biasTranslation, 10), (.biasRotation, 11),
    (.initOrientationDifferenceInv, 12), (.sliderAxisBody1, 13), (.sliderAxisWorld, 14), (.r1, 15), (.r2, 16),
    (.n1, 17), (.n2, 18), (.impulseLowerLimit, 19), (.impulseUpperLimit, 20), (.impulseMotor, 21),
    (.inverseMassMatrixLimit, 22), (.inverseMassMatrixMotor, 23), (.bLowerLimit, 24), (.bUpperLimit, 25),
    (.isLimitEnabled, 26), (.isMotorEnabled, 27), (.lowerLimit, 28), (.upperLimit, 29),
    (.isLowerLimitViolated, 30), (.isUpperLimitViolated, 31), (.motorSpeed, 32), (.maxMotorForce, 33),
    (.r2CrossN1, 34), (.r2CrossN2, 35), (.r2CrossSliderAxis, 36), (.r1PlusUCrossN1, 37), (.r1PlusUCrossN2, 38),
    (.r1PlusUCrossSliderAxis, 39)]
  destroys := [
    .jointEntities, .joints, .localAnchorPointBody1, .localAnchorPointBody2, .i1, .i2, .impulseTranslation,
    .impulseRotation, .inverseMassMatrixTranslation, .inverseMassMatrixRotation, .biasTranslation, .biasRotation,
    .initOrientationDifferenceInv, .sliderAxisBody1, .sliderAxisWorld, .r1, .r2, .n1, .n2, .r2CrossN1, .r2CrossN2,
    .r2CrossSliderAxis, .r1PlusUCrossN1, .r1PlusUCrossN2, .r1PlusUCrossSliderAxis]
  owning := []
  short := [.r2CrossN1, .r2CrossN2, .r2CrossSliderAxis, .r1PlusUCrossN1, .r1PlusUCrossN2, .r1PlusUCrossSliderAxis]

end ColumnData
end RP3D
