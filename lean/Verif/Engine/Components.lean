import Verif.Containers.Array
import Mathlib.Tactic.Linarith

/-! Model of the component tables (src/components/Components.cpp and the nine derived tables
src/components/*Components.cpp, which share their structure: the lines cited for the virtual functions are
those of ColliderComponents.cpp, and JointComponents.cpp, BodyComponents.cpp etc. have the same code with other
columns).

A slot of the table holds the entity and the data of all columns (`D`); `none` is raw or destroyed memory.
`mMapEntityToComponentIndex` is a finite map (Verif/Props/Hash.lean); adding a key that is already present
corrupts the real map (it would be stored twice), which is the result `none`, like reads of
destroyed slots, writes outside of the buffer, and construction over a live component (a leak).
Simplification: the counters do not overflow `uint32`.

`cp` is the value under which `swapComponents` reconstructs the first component: the identity for seven of the nine
tables, see `HingeData.swapCopy` for the two others. -/

namespace RP3D

/-- `mNbComponents, mNbAllocatedComponents, mDisabledStartIndex, mMapEntityToComponentIndex` and the buffer
(Components.h:57-80). -/
structure Comps (D : Type) where
  slots : Nat → Option (Nat × D)
  map : Nat → Option Nat
  nb : Nat
  cap : Nat
  ds : Nat

namespace Comps
variable {D : Type}

/-- Reallocation (ColliderComponents.cpp:46-135): the live components are copied, the capacity is rounded to a
multiple of 16 in floating point. The layout of the columns is modelled in `Verif/Engine/Columns.lean`. -/
def allocate (c : Comps D) (n : Nat) : Option (Comps D) :=
  let k := ceil16F n
  if c.nb ≤ k then some { c with slots := fun i => if i < c.nb then c.slots i else none, cap := k } else none

/-- Constructor and `init` (Components.cpp:34-39, 61-65; Components.h:53). -/
def empty : Comps D := ⟨fun _ => none, fun _ => none, 0, ceil16F 10, 0⟩

/-- `destroyComponent` (ColliderComponents.cpp:253-269). -/
def destroyAt (c : Comps D) (i : Nat) : Option (Comps D) :=
  match c.slots i with
  | some (e, _) => some { c with slots := upd c.slots i none, map := upd c.map e none }
  | none => none

/-- Construction of a component and its map entry (ColliderComponents.cpp:144-161, 228-245). -/
def place (c : Comps D) (i e : Nat) (d : D) : Option (Comps D) :=
  if i < c.cap ∧ c.slots i = none ∧ c.map e = none then
    some { c with slots := upd c.slots i (some (e, d)), map := upd c.map e (some i) }
  else none

/-- `moveComponentToIndex` (ColliderComponents.cpp:170-200). -/
def move (c : Comps D) (src dst : Nat) : Option (Comps D) :=
  match c.slots src with
  | none => none
  | some (e, d) =>
    if dst < c.cap ∧ c.slots dst = none then do
      let c ← ({ c with slots := upd c.slots dst (some (e, d)) } : Comps D).destroyAt src
      if c.map e = none then some { c with map := upd c.map e (some dst) } else none
    else none

/-- `swapComponents` (ColliderComponents.cpp:203-250). -/
def swap (cp : D → D) (c : Comps D) (i1 i2 : Nat) : Option (Comps D) :=
  match c.slots i1 with
  | none => none
  | some (e1, d1) => do
    let c ← c.destroyAt i1
    let c ← c.move i2 i1
    c.place i2 e1 (cp d1)

/-- The growth test of `prepareAddComponent` (Components.cpp:70-73). -/
def growAdd (c : Comps D) : Option (Comps D) := if c.nb = c.cap then c.allocate (c.cap * 2) else some c

/-- `prepareAddComponent` (Components.cpp:68-101). -/
def prepareAdd (c : Comps D) (dis : Bool) : Option (Comps D × Nat) := do
  let c ← c.growAdd
  if dis then some (c, c.nb)
  else
    if c.ds ≠ c.nb then
      match c.move c.ds c.nb with
      | none => none
      | some c => some ({ c with ds := c.ds + 1 }, c.ds)
    else some ({ c with ds := c.ds + 1 }, c.ds)

/-- `addComponent` (ColliderComponents.cpp:138-166). -/
def add (c : Comps D) (e : Nat) (dis : Bool) (d : D) : Option (Comps D) := do
  let (c, i) ← c.prepareAdd dis
  let c ← c.place i e d
  return { c with nb := c.nb + 1 }

/-- The replacement part of `removeComponent` for a disabled component (Components.cpp:126-134). -/
def fillDisabled (c : Comps D) (i : Nat) : Option (Comps D) :=
  if i ≠ c.nb - 1 then c.move (c.nb - 1) i else some c

/-- First replacement for an enabled component (Components.cpp:137-142). -/
def fillEnabled (c : Comps D) (i : Nat) : Option (Comps D) :=
  if i ≠ c.ds - 1 then c.move (c.ds - 1) i else some c

/-- Second replacement for an enabled component (Components.cpp:144-149). -/
def fillGap (c : Comps D) : Option (Comps D) :=
  if c.ds ≠ c.nb then c.move (c.nb - 1) (c.ds - 1) else some c

/-- `removeComponent` (Components.cpp:110-158). -/
def remove (c : Comps D) (e : Nat) : Option (Comps D) := do
  let i ← c.map e
  let c ← c.destroyAt i
  if i ≥ c.ds then
    let c ← c.fillDisabled i
    return { c with nb := c.nb - 1 }
  else
    let c ← c.fillEnabled i
    let c ← c.fillGap
    return { c with ds := c.ds - 1, nb := c.nb - 1 }

/-- `setIsEntityDisabled` (Components.cpp:158-194). -/
def setDisabled (cp : D → D) (c : Comps D) (e : Nat) (dis : Bool) : Option (Comps D) := do
  let i ← c.map e
  if dis = false ∧ i ≥ c.ds then
    match (if c.ds ≠ i then c.swap cp i c.ds else some c) with
    | none => none
    | some c => some { c with ds := c.ds + 1 }
  else if dis = true ∧ i < c.ds then
    match (if i ≠ c.ds - 1 then c.swap cp i (c.ds - 1) else some c) with
    | none => none
    | some c => some { c with ds := c.ds - 1 }
  else some c

/-- A setter of the data of an entity, e.g. `ColliderComponents::setLocalToBodyTransform`
(ColliderComponents.h:263-267); all columns at once. -/
def setData (c : Comps D) (e : Nat) (d : D) : Option (Comps D) := do
  let i ← c.map e
  let _ ← c.slots i
  return { c with slots := upd c.slots i (some (e, d)) }

/-- A getter of the data of an entity. -/
def getData (c : Comps D) (e : Nat) : Option D := do
  let i ← c.map e
  let x ← c.slots i
  return x.2

/-- `getIsEntityDisabled` (Components.h:136-139). -/
def isDisabled (c : Comps D) (e : Nat) : Option Bool := do
  let i ← c.map e
  return decide (c.ds ≤ i)

/-- `hasComponent` (Components.h:142-144). -/
def has (c : Comps D) (e : Nat) : Bool := (c.map e).isSome

/-- Operations on a table. -/
inductive Op (D : Type)
  | add (e : Nat) (dis : Bool) (d : D)
  | remove (e : Nat)
  | setDisabled (e : Nat) (dis : Bool)
  | setData (e : Nat) (d : D)

def step (cp : D → D) (c : Comps D) : Op D → Option (Comps D)
  | .add e dis d => c.add e dis d
  | .remove e => c.remove e
  | .setDisabled e dis => c.setDisabled cp e dis
  | .setData e d => c.setData e d

def run (cp : D → D) (c : Comps D) : List (Op D) → Option (Comps D)
  | [] => some c
  | op :: ops => do
    let c ← step cp c op
    run cp c ops

end Comps

/-! The specification: a finite map from entities to the observed data and the disabled flag. -/
namespace CompsSpec
variable {D X : Type}

/-- One operation; `none` is a violated precondition: adding a component twice, or using an absent one. -/
def step (obs : D → X) (f : Nat → Option (X × Bool)) : Comps.Op D → Option (Nat → Option (X × Bool))
  | .add e dis d => match f e with
    | none => some (fun e' => if e' = e then some (obs d, dis) else f e')
    | some _ => none
  | .remove e => match f e with
    | none => none
    | some _ => some (fun e' => if e' = e then none else f e')
  | .setDisabled e dis => match f e with
    | none => none
    | some (x, _) => some (fun e' => if e' = e then some (x, dis) else f e')
  | .setData e d => match f e with
    | none => none
    | some (_, b) => some (fun e' => if e' = e then some (obs d, b) else f e')

def run (obs : D → X) (f : Nat → Option (X × Bool)) : List (Comps.Op D) → Option (Nat → Option (X × Bool))
  | [] => some f
  | op :: ops => do
    let f ← step obs f op
    run obs f ops

end CompsSpec

/-- The columns of `HingeJointComponents` / `SliderJointComponents` that matter for `swapComponents`:
`mBUpperLimit`, `mUpperLimit`, and all others. -/
structure HingeData where
  bUpperLimit : Int
  upperLimit : Int
  others : Int
deriving DecidableEq

/-- What `swapComponents` restores for these two tables: the local variable for `mBUpperLimit` is read from
`mUpperLimit` (HingeJointComponents.cpp:357, 399; SliderJointComponents.cpp:388, 435). -/
def HingeData.swapCopy (d : HingeData) : HingeData := { d with bUpperLimit := d.upperLimit }

end RP3D
