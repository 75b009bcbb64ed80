import Verif.Containers.Array
import Mathlib.Tactic.Ring
import Mathlib.Tactic.Linarith

/-! Model of `Deque<T>` (include/reactphysics3d/containers/Deque.h): one buffer with free room at both
ends.  Slots are `none` when raw or destroyed; accesses outside of the buffer, reads of raw slots and
underflow of `mFirstItemIndex` give the result `none`.  Simplification: `2 * mCapacity` does not overflow. -/

namespace RP3D

/-- `mBuffer, mSize, mCapacity, mFirstItemIndex` (Deque.h:58-67). -/
structure Deq (α : Type) where
  buf : Nat → Option α
  size : Nat
  cap : Nat
  first : Nat

namespace Deq
variable {α : Type}

/-- Constructor (Deque.h:264-267). -/
def empty : Deq α := ⟨fun _ => none, 0, 0, 0⟩

/-- `reserve` (Deque.h:84-122): the items are copied to the new buffer starting at `capacity / 2 - 1`. -/
def reserve (d : Deq α) (n : Nat) : Option (Deq α) :=
  if n ≤ d.cap then some d
  else
    let c := ceil16F n
    let start := c / 2 - 1
    if start + d.size ≤ c then
      some ⟨fun i => if start ≤ i ∧ i < start + d.size then d.buf (d.first + (i - start)) else none, d.size, c, start⟩
    else none

/-- The capacity asked for when the deque is full at one end (Deque.h:316, 335). -/
def moreCap (d : Deq α) : Nat := if d.cap = 0 then 16 else d.cap * 2

/-- Making room at the back (Deque.h:314-317). -/
def growBack (d : Deq α) : Option (Deq α) := if d.first + d.size ≥ d.cap then d.reserve d.moreCap else some d

/-- Making room at the front (Deque.h:333-336). -/
def growFront (d : Deq α) : Option (Deq α) := if d.first = 0 then d.reserve d.moreCap else some d

/-- `addBack` (Deque.h:311-328). -/
def addBack (d : Deq α) (x : α) : Option (Deq α) := do
  let d ← d.growBack
  if d.first + d.size < d.cap then
    some { d with buf := upd d.buf (d.first + d.size) (some x), size := d.size + 1 }
  else none

/-- `addFront` (Deque.h:331-350). -/
def addFront (d : Deq α) (x : α) : Option (Deq α) := do
  let d ← d.growFront
  if 0 < d.first ∧ d.first ≤ d.cap then
    some { d with buf := upd d.buf (d.first - 1) (some x), size := d.size + 1, first := d.first - 1 }
  else none

/-- `popFront` (Deque.h:353-371). -/
def popFront (d : Deq α) : Deq α :=
  if d.size > 0 then
    { d with buf := upd d.buf d.first none, size := d.size - 1,
             first := if d.size - 1 = 0 then d.cap / 2 - 1 else d.first + 1 }
  else d

/-- `popBack` (Deque.h:374-391). -/
def popBack (d : Deq α) : Deq α :=
  if d.size > 0 then
    { d with buf := upd d.buf (d.first + d.size - 1) none, size := d.size - 1,
             first := if d.size - 1 = 0 then d.cap / 2 - 1 else d.first }
  else d

/-- `clear` (Deque.h:406-418). -/
def clear (d : Deq α) : Deq α :=
  if d.size > 0 then ⟨fun _ => none, 0, d.cap, d.cap / 2 - 1⟩ else d

/-- `getItem`, `operator[]` and iterator access (Deque.h:75-81, 425-435). -/
def get (d : Deq α) (i : Nat) : Option α := if i < d.size then d.buf (d.first + i) else none

/-- Assignment through `operator[]`. -/
def set (d : Deq α) (i : Nat) (x : α) : Option (Deq α) :=
  if i < d.size then some { d with buf := upd d.buf (d.first + i) (some x) } else none

/-- `getFront` (Deque.h:394-397). -/
def front (d : Deq α) : Option α := if 0 < d.size then d.buf d.first else none

/-- `getBack` (Deque.h:400-403). -/
def back (d : Deq α) : Option α := if 0 < d.size then d.buf (d.first + d.size - 1) else none

/-- The loop `for (it = begin(); it != end(); ++it)` (Deque.h:486-494); `none` if one of the slots is raw. -/
def toList (d : Deq α) : Option (List α) := (List.range d.size).mapM (fun i => d.get i)

/-- The copy constructor (Deque.h:270-288): the items are constructed at the index of the *source* deque,
while `mFirstItemIndex` has been set by `reserve`. -/
def copy (src : Deq α) : Option (Deq α) := do
  let d ← (⟨fun _ => none, 0, 0, src.first⟩ : Deq α).reserve src.cap
  if src.size = 0 then some d
  else if src.first + src.size ≤ d.cap then
    some ⟨fun i => if src.first ≤ i ∧ i < src.first + src.size then src.buf i else d.buf i, src.size, d.cap, d.first⟩
  else none

/-- `operator=` between two different deques (Deque.h:459-484). -/
def assign (d src : Deq α) : Option (Deq α) := do
  let d ← d.clear.reserve src.cap
  if src.size = 0 ∨ d.first + src.size ≤ d.cap then
    some ⟨fun i => if d.first ≤ i ∧ i < d.first + src.size then src.buf (src.first + (i - d.first)) else d.buf i,
      src.size, d.cap, d.first⟩
  else none

/-- Operations of the deque. -/
inductive Op (α : Type)
  | addBack (x : α)
  | addFront (x : α)
  | popFront
  | popBack
  | clear
  | set (i : Nat) (x : α)
  | get (i : Nat)
  | front
  | back
  | size
  | toList

/-- Results of the operations. -/
inductive Out (α : Type)
  | unit
  | val (x : α)
  | nat (n : Nat)
  | items (l : List α)

/-- One operation. -/
def step (d : Deq α) : Op α → Option (Deq α × Out α)
  | .addBack x => do return (← d.addBack x, .unit)
  | .addFront x => do return (← d.addFront x, .unit)
  | .popFront => some (d.popFront, .unit)
  | .popBack => some (d.popBack, .unit)
  | .clear => some (d.clear, .unit)
  | .set i x => do return (← d.set i x, .unit)
  | .get i => do return (d, .val (← d.get i))
  | .front => do return (d, .val (← d.front))
  | .back => do return (d, .val (← d.back))
  | .size => some (d, .nat d.size)
  | .toList => do return (d, .items (← d.toList))

/-- A history of operations. -/
def run (d : Deq α) : List (Op α) → Option (Deq α × List (Out α))
  | [] => some (d, [])
  | op :: ops => do
    let (d, o) ← step d op
    let (d, os) ← run d ops
    return (d, o :: os)

end Deq

/-! The specification: a finite sequence; `none` marks a violated precondition. -/
namespace DeqSpec
variable {α : Type}

def step (l : List α) : Deq.Op α → Option (List α × Deq.Out α)
  | .addBack x => some (l ++ [x], .unit)
  | .addFront x => some (x :: l, .unit)
  | .popFront => some (l.tail, .unit)
  | .popBack => some (l.dropLast, .unit)
  | .clear => some ([], .unit)
  | .set i x => if i < l.length then some (l.set i x, .unit) else none
  | .get i => (l[i]?).map (fun x => (l, .val x))
  | .front => l.head?.map (fun x => (l, .val x))
  | .back => l.getLast?.map (fun x => (l, .val x))
  | .size => some (l, .nat l.length)
  | .toList => some (l, .items l)

def run (l : List α) : List (Deq.Op α) → Option (List α × List (Deq.Out α))
  | [] => some (l, [])
  | op :: ops => do
    let (l, o) ← step l op
    let (l, os) ← run l ops
    return (l, o :: os)

end DeqSpec
end RP3D
