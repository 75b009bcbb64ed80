import Verif.Memory.Base
import Verif.Containers.Array

/-! Model of `PoolAllocator` (src/memory/PoolAllocator.cpp, include/reactphysics3d/memory/PoolAllocator.h).

The intrusive free lists live in the memory `mem` (address of a unit ↦ the `nextUnit` pointer stored there, `none` =
`nullptr`), which the clients may overwrite inside of their live allocations.  Base addresses are chosen by the
environment.  Simplifications: one memory cell per address (the pointer occupies 8 bytes, all inside of
the 16 bytes or more of the unit); the contents of the array of block pointers is the list `blocks`;
address arithmetic does not overflow.  The mutex makes each call atomic, so histories are sequences of calls. -/

namespace RP3D

/-- `mFreeMemoryUnits, mMemoryBlocks, mNbAllocatedMemoryBlocks` (PoolAllocator.h:96-124), the memory, and the live
blocks of the base allocator. `blocks` has `mNbCurrentMemoryBlocks` elements, the newest first. -/
structure Pool where
  free : Nat → Option Nat
  mem : Nat → Option Nat
  blocks : List Nat
  arr : Nat
  nbAlloc : Nat
  base : List Range

namespace Pool

/-- `NB_HEAPS`, `MIN_UNIT_SIZE`, `MAX_UNIT_SIZE`, `BLOCK_SIZE` (PoolAllocator.h:81-94). -/
def nbHeaps : Nat := 128
def maxUnit : Nat := 2048
def blockSize : Nat := 32768

/-- `mUnitSizes[i]` (PoolAllocator.cpp:59-61). -/
def unitSize (i : Nat) : Nat := (i + 1) * 16

/-- `mMapSizeToHeapIndex[i]` as filled by the loop of the constructor (PoolAllocator.cpp:63-75). -/
def heapIndex : Nat → Nat
  | 0 => 0
  | i + 1 => if i + 1 ≤ unitSize (heapIndex i) then heapIndex i else heapIndex i + 1

/-- The constructor (PoolAllocator.cpp:40-79); `sizeof(MemoryBlock)` is 8. -/
def init (a : Nat) : Pool := ⟨fun _ => none, fun _ => none, [], a, 64, [(a, 64 * 8)]⟩

/-- Dividing a new block at `b` in units (PoolAllocator.cpp:164-178). -/
def chainUnits (mem : Nat → Option Nat) (b u : Nat) : Nat → Option Nat := fun x =>
  if b ≤ x ∧ (x - b) % u = 0 ∧ (x - b) / u < blockSize / u then
    (if (x - b) / u + 1 < blockSize / u then some (x + u) else none)
  else mem x

/-- Growth of the array of blocks (PoolAllocator.cpp:147-157); `a` is the address of the new array. -/
def growArray (p : Pool) (a : Nat) : Option Pool :=
  if p.blocks.length = p.nbAlloc then do
    let base ← baseRelease ((a, (p.nbAlloc + 64) * 8) :: p.base) (p.arr, p.blocks.length * 8)
    return { p with arr := a, nbAlloc := p.nbAlloc + 64, base := base }
  else some p

/-- A new block (PoolAllocator.cpp:161-190). -/
def newBlock (p : Pool) (i b : Nat) : Pool :=
  let mem := chainUnits p.mem b (unitSize i)
  { p with mem := mem, free := upd p.free i (mem b), blocks := b :: p.blocks, base := (b, blockSize) :: p.base }

/-- `allocate` (PoolAllocator.cpp:101-192); `a1`, `a2` are the answers of the base allocator. The
result `none` inside of the pair is `nullptr`. -/
def allocate (p : Pool) (size a1 a2 : Nat) : Option (Pool × Option Nat) :=
  if size = 0 then some (p, none)
  else if size > maxUnit then some ({ p with base := (a2, size) :: p.base }, some a2)
  else
    let i := heapIndex size
    match p.free i with
    | some u => some ({ p with free := upd p.free i (p.mem u) }, some u)
    | none => do
      let p ← p.growArray a1
      if p.blocks.length < p.nbAlloc then some (p.newBlock i a2, some a2) else none

/-- `release` (PoolAllocator.cpp:195-226). -/
def release (p : Pool) (ptr size : Nat) : Option Pool :=
  if size = 0 then some p
  else if size > maxUnit then do
    let base ← baseRelease p.base (ptr, size)
    return { p with base := base }
  else
    let i := heapIndex size
    some { p with mem := upd p.mem ptr (p.free i), free := upd p.free i (some ptr) }

/-- The loop of the destructor (PoolAllocator.cpp:84-87). -/
def releaseBlocks : List Nat → List Range → Option (List Range)
  | [], base => some base
  | b :: bs, base => do
    let base ← releaseBlocks bs base
    baseRelease base (b, blockSize)

/-- The destructor (PoolAllocator.cpp:82-97): what is left of the base blocks. -/
def destroy (p : Pool) : Option (List Range) := do
  let base ← releaseBlocks p.blocks p.base
  baseRelease base (p.arr, p.nbAlloc * 8)

/-- Operations: allocation (with the answers of the base allocator), release, a client writing to memory. -/
inductive Op
  | alloc (size a1 a2 : Nat)
  | release (ptr size : Nat)
  | write (x : Nat) (v : Option Nat)

/-- One operation; the second component lists the live allocations (pointer and size). -/
def step (s : Pool × List Range) : Op → Option (Pool × List Range)
  | .alloc size a1 a2 => do
    let (p, r) ← s.1.allocate size a1 a2
    match r with
    | some ptr => return (p, (ptr, size) :: s.2)
    | none => return (p, s.2)
  | .release ptr size => do
    let p ← s.1.release ptr size
    return (p, s.2.erase (ptr, size))
  | .write x v => some ({ s.1 with mem := upd s.1.mem x v }, s.2)

/-- What the environment guarantees: the base allocator answers with fresh blocks, clients release live
allocations with their size, and only write inside of them. -/
def valid (s : Pool × List Range) : Op → Prop
  | .alloc size a1 a2 =>
    if size > maxUnit then Fresh s.1.base (a2, size)
    else Fresh s.1.base (a1, (s.1.nbAlloc + 64) * 8) ∧
      ∀ p, s.1.growArray a1 = some p → Fresh p.base (a2, blockSize)
  | .release ptr size => (ptr, size) ∈ s.2
  | .write x _ => ∃ r ∈ s.2, r.1 ≤ x ∧ x < r.1 + r.2

/-- A history of valid operations ending in a state. -/
inductive Reach (a : Nat) : Pool × List Range → Prop
  | init : a % 16 = 0 → Reach a (init a, [])
  | step {s s' : Pool × List Range} {op : Op} : Reach a s → valid s op → step s op = some s' → Reach a s'

end Pool
end RP3D
