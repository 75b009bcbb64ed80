import Verif.Memory.Base
import Verif.Containers.Array

/-! Model of `HeapAllocator` (src/memory/HeapAllocator.cpp, include/reactphysics3d/memory/HeapAllocator.h).

The memory holds unit headers of 48 bytes and single bytes.  `ok a` says that an intact header is stored at `a`; its fields
are the total functions `prev, next, pfree, nfree, size, contig, alloc` at `a`.  Reading or writing a field of a header that is
not intact is undefined (`none`).  Constructing a header at `a` or writing a byte destroys every header that it overlaps, so
two intact headers never overlap.  `off` is the byte memory used for the alignment offsets (`none` = unknown content).  Clients may
overwrite any byte of their live allocations.  The addresses of the base allocator are chosen by the environment.
Simplifications: sizes and addresses do not overflow; the alignment of the headers themselves is not part of
definedness (see the theorems about C60); reading `unit->nextUnit` after the destructor of `unit` was called (HeapAllocator.cpp:258)
reads the value that is still there.  Each call holds the mutex, so histories are sequences of calls. -/

namespace RP3D

/-- The allocator (HeapAllocator.h:88-110) with the memory it manages and the live blocks of the base allocator. -/
structure Heap where
  ok : Nat → Bool
  prev : Nat → Option Nat
  next : Nat → Option Nat
  pfree : Nat → Option Nat
  nfree : Nat → Option Nat
  size : Nat → Nat
  contig : Nat → Bool
  alloc : Nat → Bool
  off : Nat → Option Nat
  units : Option Nat
  free : Option Nat
  allocated : Nat
  base : List Range

namespace Heap

/-- `sizeof(MemoryUnitHeader)`: four pointers, a `size_t` and two `bool` (HeapAllocator.h:56-74), already a multiple of 16,
so that `sizeHeader` (HeapAllocator.cpp:70, 324) is the same number. -/
def hsz : Nat := 48

/-- Writing the single fields. -/
def setPrev (h : Heap) (a : Nat) (v : Option Nat) : Option Heap :=
  if h.ok a then some { h with prev := upd h.prev a v } else none
def setNext (h : Heap) (a : Nat) (v : Option Nat) : Option Heap :=
  if h.ok a then some { h with next := upd h.next a v } else none
def setPfree (h : Heap) (a : Nat) (v : Option Nat) : Option Heap :=
  if h.ok a then some { h with pfree := upd h.pfree a v } else none
def setNfree (h : Heap) (a : Nat) (v : Option Nat) : Option Heap :=
  if h.ok a then some { h with nfree := upd h.nfree a v } else none
def setSize (h : Heap) (a : Nat) (v : Nat) : Option Heap :=
  if h.ok a then some { h with size := upd h.size a v } else none
def setContig (h : Heap) (a : Nat) (v : Bool) : Option Heap :=
  if h.ok a then some { h with contig := upd h.contig a v } else none
def setAlloc (h : Heap) (a : Nat) (v : Bool) : Option Heap :=
  if h.ok a then some { h with alloc := upd h.alloc a v } else none

/-- `if (p != nullptr) p->field = v` with one of the functions above. -/
def ifSet (h : Heap) (p : Option Nat) (f : Heap → Nat → Option Heap) : Option Heap :=
  match p with
  | none => some h
  | some a => f h a

/-- Constructing a header at `a` (HeapAllocator.h:78-84). -/
def newHeader (h : Heap) (a size : Nat) (prev next pfree nfree : Option Nat) (contig : Bool) : Heap :=
  { h with
    ok := fun x => if x = a then true else if x < a + hsz ∧ a < x + hsz then false else h.ok x
    off := fun x => if a ≤ x ∧ x < a + hsz then none else h.off x
    prev := upd h.prev a prev, next := upd h.next a next, pfree := upd h.pfree a pfree, nfree := upd h.nfree a nfree
    size := upd h.size a size, contig := upd h.contig a contig, alloc := upd h.alloc a false }

/-- Writing the byte at `x`. -/
def poke (h : Heap) (x : Nat) (v : Option Nat) : Heap :=
  { h with ok := fun y => if y ≤ x ∧ x < y + hsz then false else h.ok y, off := upd h.off x v }

/-- `reserve` (HeapAllocator.cpp:321-351); `b` is the answer of the base allocator. -/
def reserve (h : Heap) (n b : Nat) : Option Heap := do
  let h := { h with base := (b, n + hsz) :: h.base }
  let h := h.newHeader b n none h.units none h.free false
  let h ← h.ifSet h.free (fun h f => h.setPfree f (some b))
  let h ← h.ifSet h.units (fun h f => h.setPrev f (some b))
  return { h with units := some b, free := some b, allocated := h.allocated + n }

/-- A heap before the constructor calls `reserve`. -/
def blank : Heap :=
  ⟨fun _ => false, fun _ => none, fun _ => none, fun _ => none, fun _ => none, fun _ => 0, fun _ => false, fun _ => false,
   fun _ => none, none, none, 0, []⟩

/-- The constructor (HeapAllocator.cpp:38-46); `n` is the initial size (5 MB by default). -/
def init (n b : Nat) : Option Heap := blank.reserve n b

/-- `splitMemoryUnit` (HeapAllocator.cpp:78-118). -/
def split (h : Heap) (u n : Nat) : Option Heap :=
  if h.ok u then
    if n + hsz < h.size u then do
      let w := u + hsz + n
      let h := h.newHeader w (h.size u - hsz - n) (some u) (h.next u) (some u) (h.nfree u) (h.contig u)
      let h ← h.setNext u (some w)
      let h ← h.setNfree u (some w)
      let h ← h.ifSet (h.next w) (fun h x => h.setPrev x (some w))
      let h ← h.ifSet (h.nfree w) (fun h x => h.setPfree x (some w))
      let h ← h.setContig u true
      h.setSize u n
    else some h
  else none

/-- `removeFromFreeUnits` (HeapAllocator.cpp:281-294). -/
def removeFree (h : Heap) (u : Nat) : Option Heap :=
  if h.ok u then do
    let h ← h.ifSet (h.pfree u) (fun h x => h.setNfree x (h.nfree u))
    let h ← h.ifSet (h.nfree u) (fun h x => h.setPfree x (h.pfree u))
    let h := if h.free = some u then { h with free := h.nfree u } else h
    let h ← h.setNfree u none
    h.setPfree u none
  else none

/-- `addToFreeUnits` (HeapAllocator.cpp:270-278). -/
def addFree (h : Heap) (u : Nat) : Option Heap := do
  let h ← h.ifSet h.free (fun h x => h.setPfree x (some u))
  let h ← h.setNfree u h.free
  return { h with free := some u }

/-- `mergeUnits` (HeapAllocator.cpp:298-319). -/
def merge (h : Heap) (u v : Nat) : Option Heap :=
  if h.ok u ∧ h.ok v then do
    let h ← h.setSize u (h.size u + (h.size v + hsz))
    let h ← h.setNext u (h.next v)
    let h ← h.ifSet (h.next v) (fun h x => h.setPrev x (some u))
    h.setContig u (h.contig v)
  else none

/-- The search of the first free unit that is large enough (HeapAllocator.cpp:142-158). Walking through a cyclic list would not
terminate; that is undefined (`none`) as well. -/
def findFit (h : Heap) (total : Nat) (cur : Option Nat) : Option (Option Nat) :=
  match cur with
  | none => some none
  | some u =>
    if h.ok u then
      if total ≤ h.size u then some (some u) else findFit h total (h.nfree u)
    else none
partial_fixpoint

/-- The next aligned address, at least one byte further (MemoryAllocator.cpp:44-71 with alignment 16). -/
def align (a : Nat) : Nat := a + (16 - a % 16)

/-- The unit to use (HeapAllocator.cpp:142-170). -/
def chooseUnit (h : Heap) (total b : Nat) : Option (Heap × Nat) := do
  match ← h.findFit total h.free with
  | some u => some (h, u)
  | none =>
    let h ← h.reserve ((h.allocated + total) * 2) b
    match h.free with
    | some u => some (h, u)
    | none => none

/-- `allocate` for a positive size (HeapAllocator.cpp:122-190); `b` is the answer of the base allocator, should it be asked. The
offset is stored in a `uint8`. -/
def allocate (h : Heap) (n b : Nat) : Option (Heap × Nat) := do
  let total := n + 16
  let (h, u) ← h.chooseUnit total b
  let h ← h.split u total
  let h ← h.setAlloc u true
  let h ← h.removeFree u
  let ptr := align (u + hsz)
  return (h.poke (ptr - 1) (some ((ptr - (u + hsz)) % 256)), ptr)

/-- Merging with the previous unit (HeapAllocator.cpp:242-250). -/
def mergePrev (h : Heap) (u : Nat) : Option (Heap × Nat) :=
  match h.prev u with
  | none => some (h, u)
  | some p =>
    if h.ok p then
      if h.alloc p = false ∧ h.contig p = true then do
        let h ← h.removeFree p
        let h ← h.merge p u
        return (h, p)
      else some (h, u)
    else none

/-- Merging with the next unit (HeapAllocator.cpp:253-260); the removed unit is `unit->nextUnit`. -/
def mergeNext (h : Heap) (unit cur : Nat) : Option Heap :=
  if h.ok cur then
    match h.next cur with
    | none => some h
    | some v =>
      if h.ok v then
        if h.alloc v = false ∧ h.contig cur = true then
          if h.ok unit then
            match h.next unit with
            | none => none
            | some v' => do
              let h ← h.removeFree v'
              match h.next cur with
              | none => none
              | some v'' => h.merge cur v''
          else none
        else some h
      else none
  else none

/-- `release` (HeapAllocator.cpp:215-267); the size is only compared with zero. -/
def release (h : Heap) (ptr : Nat) : Option Heap := do
  let o ← h.off (ptr - 1)
  let u := ptr - o - hsz
  let h ← h.setAlloc u false
  let (h, cur) ← h.mergePrev u
  let h ← h.mergeNext u cur
  h.addFree cur

/-- Giving a range back to the base allocator: its headers are gone. -/
def giveBack (h : Heap) (r : Range) : Option Heap :=
  if r ∈ h.base then
    some { h with base := h.base.erase r, ok := fun x => if disj (x, hsz) r then h.ok x else false }
  else none

/-- The destructor (HeapAllocator.cpp:48-74): the loop over the free units. -/
def destroyFrom (h : Heap) (cur : Option Nat) : Option Heap :=
  match cur with
  | none => some h
  | some u =>
    if h.ok u then
      match h.giveBack (u, h.size u + hsz) with
      | none => none
      | some h' => destroyFrom h' (h.nfree u)
    else none
partial_fixpoint

def destroy (h : Heap) : Option Heap := h.destroyFrom h.free

/-- Operations of the clients. -/
inductive Op
  | alloc (n b : Nat)
  | release (ptr n : Nat)
  | write (x : Nat) (v : Option Nat)

/-- One operation; the second component lists the live allocations (pointer and size). -/
def step (s : Heap × List Range) : Op → Option (Heap × List Range)
  | .alloc n b => do
    let (h, ptr) ← s.1.allocate n b
    return (h, (ptr, n) :: s.2)
  | .release ptr n => do
    let h ← s.1.release ptr
    return (h, s.2.erase (ptr, n))
  | .write x v => some (s.1.poke x v, s.2)

/-- What the environment guarantees: positive sizes, fresh base blocks, releases of live allocations, writes inside of them. -/
def valid (s : Heap × List Range) : Op → Prop
  | .alloc n b => 0 < n ∧ Fresh s.1.base (b, (s.1.allocated + (n + 16)) * 2 + hsz)
  | .release ptr n => (ptr, n) ∈ s.2
  | .write x _ => ∃ r ∈ s.2, r.1 ≤ x ∧ x < r.1 + r.2

/-- The requested sizes satisfy `p`. -/
def Op.sizeOk (p : Nat → Prop) : Op → Prop
  | .alloc n _ => p n
  | _ => True

/-- A history of valid operations, starting with an initial size `n0 > 0`, with request sizes satisfying `p`. -/
inductive Reach (p : Nat → Prop) : Heap × List Range → Prop
  | init {n0 b : Nat} {h : Heap} : 0 < n0 → p n0 → b % 16 = 0 → init n0 b = some h → Reach p (h, [])
  | step {s s' : Heap × List Range} {op : Op} : Reach p s → valid s op → op.sizeOk p → step s op = some s' → Reach p s'

/-- The headers found by walking through the list of units. -/
inductive IsUnit (h : Heap) : Nat → Prop
  | head {a : Nat} : h.units = some a → IsUnit h a
  | next {a b : Nat} : IsUnit h a → h.next a = some b → IsUnit h b

/-- `l` is the list of all units, from the head to the null pointer. -/
def ListFrom (h : Heap) : Option Nat → List Nat → Prop
  | cur, [] => cur = none
  | cur, a :: l => cur = some a ∧ h.ok a = true ∧ ListFrom h (h.next a) l

end Heap
end RP3D
