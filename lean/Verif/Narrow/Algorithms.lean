import Verif.Narrow.Dispatch
import Verif.Memory.Pool

/-! Model of the algorithms that the narrow phase calls: the setters and the destructor of `CollisionDispatch`
(CollisionDispatch.cpp:30-76, 118-193) and the calls of `testNarrowPhaseCollision` (CollisionDetectionSystem.cpp:618-664).

An object is an address. Simplification: an input of a test and its result are arbitrary values; a kind is a value of
`Algo` (the value `none` is not used). `std::ceil(size / float(16)) * 16` is exact for sizes below 2^24. -/

namespace RP3D
namespace Algorithms
open Dispatch

/-- The members of one kind: `m...Algorithm` and `mIs...Default` (CollisionDispatch.h:72-105). -/
structure Slot where
  ptr : Nat
  isDefault : Bool
deriving DecidableEq, Repr

/-- The size asked of the allocator for an object of `n` bytes (CollisionDispatch.cpp:35-40). -/
def allocSize (n : Nat) : Nat := (n + 15) / 16 * 16

/-- The members, and the calls of `mAllocator.release` made so far (pointer and size), in their order. -/
structure State where
  slot : Algo → Slot
  released : List (Nat × Nat)

/-- The constructor (CollisionDispatch.cpp:42-48): `dflt` are the addresses of the default algorithms. -/
def init (dflt : Algo → Nat) : State := ⟨fun k => ⟨dflt k, true⟩, []⟩

/-- The setters (CollisionDispatch.cpp:118-193); `size k` is `sizeof` of the class of the kind. -/
def State.setAlgo (size : Algo → Nat) (s : State) (k : Algo) (p : Nat) : State :=
  { slot := fun j => if j = k then ⟨p, false⟩ else s.slot j
    released := if (s.slot k).isDefault then s.released ++ [((s.slot k).ptr, size k)] else s.released }

/-- The getters (CollisionDispatch.h:183-211). -/
def State.get (s : State) (k : Algo) : Nat := (s.slot k).ptr

/-- The kinds in the order of the destructor. -/
def kinds : List Algo := [.sphereSphere, .sphereCapsule, .capsuleCapsule, .spherePoly, .capsulePoly, .polyPoly]

/-- The destructor (CollisionDispatch.cpp:55-76). -/
def State.destroy (size : Algo → Nat) (s : State) : State :=
  { s with released := s.released ++
      (kinds.filter fun k => (s.slot k).isDefault).map fun k => ((s.slot k).ptr, allocSize (size k)) }

/-- A history of calls of the setters. -/
def State.run (size : Algo → Nat) (s : State) (h : List (Algo × Nat)) : State :=
  h.foldl (fun s c => s.setAlgo size c.1 c.2) s

/-- Is `testCollision` declared `virtual`? (SphereVsSphereAlgorithm.h:68, SphereVsCapsuleAlgorithm.h:68,
CapsuleVsCapsuleAlgorithm.h:69, SphereVsConvexPolyhedronAlgorithm.h:74, CapsuleVsConvexPolyhedronAlgorithm.h:73,
ConvexPolyhedronVsConvexPolyhedronAlgorithm.h:68; the base class does not declare it, NarrowPhaseAlgorithm.h:67-103) -/
def isVirtual : Algo → Bool
  | .sphereSphere => false
  | .sphereCapsule => false
  | .capsuleCapsule => false
  | .spherePoly => false
  | .capsulePoly => false
  | .polyPoly => false
  | .none => false

/-- The semantics of a call of a member function through a pointer: of the class of the object if the function is
virtual, of the class of the pointer otherwise. -/
def call {α β : Type} (virt : Bool) (ofPointer ofObject : α → β) : α → β := if virt then ofObject else ofPointer

/-- The test of a batch (CollisionDetectionSystem.cpp:624-629, 640-661): `std k` is the test of the class of the library, `own p` the
test of the class of the object at `p`. -/
def State.test {α β : Type} (std : Algo → α → β) (own : Nat → α → β) (s : State) (k : Algo) : α → β :=
  call (isVirtual k) (std k) (own (s.get k))

end Algorithms
end RP3D
