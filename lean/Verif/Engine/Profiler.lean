/-!
Model of the profiler (src/utils/Profiler.cpp, include/reactphysics3d/utils/Profiler.h).

A node is given by its path: the names of the blocks from the node up to the root, which is the empty path.  `findSubNode`
looks for a child with the name and makes one if there is none (Profiler.cpp:53-71), so siblings have different names and
the path determines the node; a node that has not been made yet has no calls, as after the constructor.
Simplification: times are integers (ticks of the clock), counters do not overflow; the same name always comes with the same
pointer (the names are compared as pointers, Profiler.cpp:58, 194).
-/

namespace RP3D
namespace Profile

/-- The path of a node, from the node up to the root. -/
abbrev Path := List Nat

/-- Assignment to a field of a node. -/
def set {β : Type} (f : Path → β) (p : Path) (v : β) : Path → β := fun q => if q = p then v else f q

/-- The fields of the nodes (Profiler.h:46-75) and `mCurrentNode`. -/
structure Prof where
  /-- `mNbTotalCalls` -/
  calls : Path → Nat
  /-- `mTotalTime` -/
  total : Path → Int
  /-- `mStartingTime` -/
  start : Path → Int
  /-- `mRecursionCounter` -/
  rc : Path → Int
  cur : Path

/-- A new profiler (Profiler.cpp:159-168). -/
def Prof.empty : Prof := ⟨fun _ => 0, fun _ => 0, fun _ => 0, fun _ => 0, []⟩

/-- The node of a block that is entered at the node `c` (Profiler.cpp:194-196): no new node for a block that calls itself.  The
root has a name that no block has. -/
def enter (n : Nat) (c : Path) : Path :=
  match c with
  | [] => [n]
  | m :: _ => if n = m then c else n :: c

/-- `startProfilingBlock` and `enterBlockOfCode` (Profiler.cpp:190-200, 74-86) at the time `t`. -/
def Prof.startBlock (s : Prof) (n : Nat) (t : Int) : Prof :=
  let c := enter n s.cur
  { s with
    cur := c
    calls := set s.calls c (s.calls c + 1)
    start := if s.rc c = 0 then set s.start c t else s.start
    rc := set s.rc c (s.rc c + 1) }

/-- `stopProfilingBlock` and `exitBlockOfCode` (Profiler.cpp:204-211, 89-103): the root has no parent. -/
def Prof.stopBlock (s : Prof) (t : Int) : Option Prof :=
  let r := s.rc s.cur - 1
  let s := { s with
    rc := set s.rc s.cur r
    total := if r = 0 ∧ s.calls s.cur ≠ 0 then set s.total s.cur (s.total s.cur + (t - s.start s.cur)) else s.total }
  if r = 0 then
    match s.cur with
    | [] => none
    | _ :: c => some { s with cur := c }
  else some s

/-- `reset` (Profiler.cpp:214-219, 106-119): all nodes, and the root is entered. -/
def Prof.reset (s : Prof) (t : Int) : Prof :=
  { s with
    calls := set (fun _ => 0) [] 1
    total := fun _ => 0
    start := if s.rc [] = 0 then set s.start [] t else s.start
    rc := set s.rc [] (s.rc [] + 1) }

/-- What happens to the profiler: `ProfileSample` is made at the beginning of a block and destroyed at its end
(Profiler.h:373-397). -/
inductive Ev
  | start (n : Nat) (t : Int)
  | stop (t : Int)
deriving DecidableEq, Repr

def Prof.step (s : Prof) : Ev → Option Prof
  | .start n t => some (s.startBlock n t)
  | .stop t => s.stopBlock t

def Prof.run (s : Prof) : List Ev → Option Prof
  | [] => some s
  | e :: es => (s.step e).bind fun s => s.run es

end Profile
end RP3D
