import Verif.Containers.Float32

/-! Model of `Array<T>` (include/reactphysics3d/containers/Array.h).

A buffer is a map from slot index to slot content, `none` meaning raw (unconstructed or destroyed)
memory.  Every operation returns `none` when the C++ code would touch memory outside the
allocated buffer or read a raw slot (undefined behaviour). -/

namespace RP3D

/-- Pointwise update of a memory. -/
def upd {β : Type} (f : Nat → β) (i : Nat) (v : β) : Nat → β := fun j => if j = i then v else f j

@[simp] theorem upd_same {β : Type} (f : Nat → β) (i : Nat) (v : β) : upd f i v i = v := by simp [upd]

theorem upd_ne {β : Type} (f : Nat → β) {i j : Nat} (v : β) (h : j ≠ i) : upd f i v j = f j := by
  simp [upd, h]

/-- `mBuffer`, `mCapacity`, `mSize` (Array.h:44-60). -/
structure Arr (α : Type) where
  buf : Nat → Option α
  cap : Nat
  size : Nat

namespace Arr
variable {α : Type}

/-- Constructor without capacity (Array.h:216-224). -/
def empty : Arr α := ⟨fun _ => none, 0, 0⟩

/-- `reserve` (Array.h:250-282).  The `size` live slots are copied to the new buffer of
`ceil16F n` slots; copying past its end is undefined behaviour. -/
def reserve (a : Arr α) (n : Nat) : Option (Arr α) :=
  if n ≤ a.cap then some a
  else
    let c := ceil16F n
    if a.size ≤ c then some ⟨fun i => if i < a.size then a.buf i else none, c, a.size⟩
    else none

/-- Construct an element in slot `size` and increment `size` (Array.h:293-295, 401-402);
undefined when the slot is outside the buffer. -/
def construct (a : Arr α) (x : Option α) : Option (Arr α) :=
  if a.size < a.cap then some ⟨upd a.buf a.size x, a.cap, a.size + 1⟩ else none

/-- `add` / `emplace` of a value that does not live in the array (Array.h:285-311). -/
def add (a : Arr α) (x : α) : Option (Arr α) := do
  let a ← if a.size = a.cap then a.reserve (if a.cap = 0 then 16 else a.cap * 2) else some a
  a.construct (some x)

/-- `add(arr[i])`: the argument is a reference into the array itself (Array.h:285-296).  If the
buffer is reallocated, line 293 reads the reference after `reserve` released it. -/
def addOwn (a : Arr α) (i : Nat) : Option (Arr α) :=
  if a.size = a.cap then none
  else if i < a.size then
    match a.buf i with
    | some x => a.construct (some x)
    | none => none
  else none

/-- `addWithoutInit` (Array.h:314-322).  The slots are not checked against the capacity by the
code; claiming slots outside of the buffer is undefined behaviour at the first access, modelled
here as an immediate failure. -/
def addWithoutInit (a : Arr α) (n : Nat) : Option (Arr α) := do
  let a ← if a.size + n > a.cap then a.reserve (if a.cap = 0 then n else (a.cap + n) * 2) else some a
  if a.size + n ≤ a.cap then
    some ⟨fun i => if i < a.size then a.buf i else none, a.cap, a.size + n⟩
  else none

/-- `operator[]` used as an rvalue (Array.h:438-447). -/
def get (a : Arr α) (i : Nat) : Option α := if i < a.size then a.buf i else none

/-- `operator[]` used on the left of an assignment. -/
def set (a : Arr α) (i : Nat) (x : α) : Option (Arr α) :=
  if i < a.size then some { a with buf := upd a.buf i (some x) } else none

/-- The loop of `find` (Array.h:327-336): the first index `≥ i` holding the element, `size` (the
end iterator) if there is none; `fuel` is the number of slots left. Reading a raw slot fails. -/
def findFrom [DecidableEq α] (a : Arr α) (x : α) : (fuel : Nat) → (i : Nat) → Option Nat
  | 0, i => some i
  | fuel + 1, i =>
    match a.buf i with
    | none => none
    | some y => if x = y then some i else findFrom a x fuel (i + 1)

/-- `find` (Array.h:327-336). -/
def find [DecidableEq α] (a : Arr α) (x : α) : Option Nat := a.findFrom x a.size 0

/-- `removeAt` (Array.h:351-370): slots above `index` are moved down by `memmove`.
`index ≥ size` destroys a raw slot: undefined behaviour. -/
def removeAt (a : Arr α) (index : Nat) : Option (Arr α) :=
  if index < a.size then
    some ⟨fun i => if i < index then a.buf i
                   else if i < a.size - 1 then a.buf (i + 1)
                   else if i = a.size - 1 then none else a.buf i, a.cap, a.size - 1⟩
  else none

/-- `remove(element)` (Array.h:339-348): `removeAt` of the found position; when the element is
absent the position is `size` and `removeAt` is undefined. -/
def remove [DecidableEq α] (a : Arr α) (x : α) : Option (Arr α) := do
  let i ← a.find x
  a.removeAt i

/-- `removeAtAndReplaceByLast` (Array.h:373-383). -/
def removeAtAndReplaceByLast (a : Arr α) (index : Nat) : Option (Arr α) :=
  if index < a.size then
    some ⟨upd (upd a.buf index (a.buf (a.size - 1))) (a.size - 1) none, a.cap, a.size - 1⟩
  else none

/-- The loop of `addRange` (Array.h:399-403) over the remaining elements of the other array. -/
def addAll (a : Arr α) : List (Option α) → Option (Arr α)
  | [] => some a
  | x :: xs => do
    let a ← a.construct x
    a.addAll xs

/-- `addRange` of another array (different from this one) whose elements from `startIndex` on are
`xs` (Array.h:387-404). -/
def addRange (a : Arr α) (xs : List (Option α)) : Option (Arr α) := do
  let a ← if a.size + xs.length > a.cap then a.reserve (a.size + xs.length) else some a
  a.addAll xs

/-- `clear` (Array.h:407-425). -/
def clear (a : Arr α) (release : Bool) : Arr α :=
  if release then ⟨fun _ => none, 0, 0⟩
  else ⟨fun i => if i < a.size then none else a.buf i, a.cap, 0⟩

/-- `operator=` from a different array with elements `xs` (Array.h:470-482). -/
def assign (a : Arr α) (xs : List (Option α)) : Option (Arr α) := (a.clear false).addRange xs

/-- Elements of the array as a list, for copying from it. -/
def toList (a : Arr α) : List (Option α) := (List.range a.size).map a.buf

/-- Copy constructor (Array.h:227-236). -/
def copyOf (b : Arr α) : Option (Arr α) := do
  let a ← if b.cap > 0 then (empty : Arr α).reserve b.cap else some empty
  a.addRange b.toList

/-- Operations of a history. -/
inductive Op (α : Type) where
  | add (x : α)
  | addOwn (i : Nat)
  | addWithoutInit (n : Nat)
  | addRange (xs : List α)
  | assign (xs : List α)
  | set (i : Nat) (x : α)
  | removeAt (i : Nat)
  | removeLast (i : Nat)
  | remove (x : α)
  | reserve (n : Nat)
  | clear (release : Bool)

/-- One operation on the implementation. -/
def step [DecidableEq α] (a : Arr α) : Op α → Option (Arr α)
  | .add x => a.add x
  | .addOwn i => a.addOwn i
  | .addWithoutInit n => a.addWithoutInit n
  | .addRange xs => a.addRange (xs.map some)
  | .assign xs => a.assign (xs.map some)
  | .set i x => a.set i x
  | .removeAt i => a.removeAt i
  | .removeLast i => a.removeAtAndReplaceByLast i
  | .remove x => a.remove x
  | .reserve n => a.reserve n
  | .clear r => some (a.clear r)

/-- A history, from a state. -/
def run [DecidableEq α] (a : Arr α) : List (Op α) → Option (Arr α)
  | [] => some a
  | op :: ops => do
    let a ← a.step op
    a.run ops

end Arr

/-! ### Independent specification: a sequence of possibly uninitialised elements. -/

namespace ArrSpec
variable {α : Type}

/-- What a sequence does on each operation; `none` means that the caller broke a precondition:
index out of range, removing an absent value, comparing with an uninitialised element. -/
def step [DecidableEq α] (l : List (Option α)) : Arr.Op α → Option (List (Option α))
  | .add x => some (l ++ [some x])
  | .addOwn i => match l[i]? with
    | some (some x) => some (l ++ [some x])
    | _ => none
  | .addWithoutInit n => some (l ++ List.replicate n none)
  | .addRange xs => some (l ++ xs.map some)
  | .assign xs => some (xs.map some)
  | .set i x => if i < l.length then some (l.set i (some x)) else none
  | .removeAt i => if i < l.length then some (l.eraseIdx i) else none
  | .removeLast i =>
      if i < l.length then some ((l.set i (l.getLast?.getD none)).dropLast) else none
  | .remove x => if some x ∈ l ∧ none ∉ l then some (l.erase (some x)) else none
  | .reserve _ => some l
  | .clear _ => some []

def run [DecidableEq α] (l : List (Option α)) : List (Arr.Op α) → Option (List (Option α))
  | [] => some l
  | op :: ops => do
    let l ← step l op
    run l ops

/-- Bound on explicit capacity requests, under which the float rounding of `reserve` is harmless;
`add` and `reserve` themselves need no bound (a `reserve` that grants too little is noticed by
the later operations). `add(arr[i])` of an own element is excluded here. -/
def smallReq (l : List (Option α)) : Arr.Op α → Prop
  | .addRange xs => l.length + xs.length ≤ 2 ^ 24
  | .assign xs => xs.length ≤ 2 ^ 24
  | .addWithoutInit n => n ≤ 2 ^ 24
  | .addOwn _ => False
  | _ => True

/-- `smallReq` along a whole history. -/
def smallRun [DecidableEq α] (l : List (Option α)) : List (Arr.Op α) → Prop
  | [] => True
  | op :: ops => smallReq l op ∧ ∀ l', step l op = some l' → smallRun l' ops

end ArrSpec
end RP3D
