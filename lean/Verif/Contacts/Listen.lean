import Verif.World.Model

/-!
Model of what a listener reads of a step: `CollisionCallback::CallbackData` (src/collision/CollisionCallback.cpp), `OverlapCallback::CallbackData`
(src/collision/OverlapCallback.cpp) and the functions that make them (`reportContacts`, `reportTriggers`, `reportDebugRenderingContacts`,
src/systems/CollisionDetectionSystem.cpp).

Simplifications: the arrays of indices are lists; the number of pairs fits into 32 bits; a pair is handed over by value, where the code stores references that are
valid during the call only.
-/

namespace RP3D
namespace Listen

/-- The members of `CallbackData` that are read: the pairs of the step, the lost pairs, and the indices of those that are reported (CollisionCallback.h:230-245, OverlapCallback.h:135-144). -/
structure Data where
  pairs : List CPair
  lost : List CPair
  idx : List Nat
  lostIdx : List Nat
deriving DecidableEq

/-- The loops of the constructors (CollisionCallback.cpp:86-94, 95-103; OverlapCallback.cpp:75-82, 84-91): indices from `i` on of the pairs that are kept, added to `acc`. -/
def keep (f : CPair → Bool) : List CPair → Nat → List Nat → List Nat
  | [], _, acc => acc
  | q :: qs, i, acc => keep f qs (i + 1) (if f q then acc ++ [i] else acc)

/-- Constructor of `CollisionCallback::CallbackData` (CollisionCallback.cpp:79-104). -/
def contactData (pairs lost : List CPair) : Data := ⟨pairs, lost, keep (fun q => !q.trigger) pairs 0 [], keep (fun q => !q.trigger) lost 0 []⟩

/-- Constructor of `OverlapCallback::CallbackData` (OverlapCallback.cpp:69-92). -/
def overlapData (pairs lost : List CPair) (onlyTriggers : Bool) : Data :=
  ⟨pairs, lost, keep (fun q => !onlyTriggers || q.trigger) pairs 0 [], keep (fun q => !onlyTriggers || q.trigger) lost 0 []⟩

/-- `getNbContactPairs` (CollisionCallback.h:299-301), `getNbOverlappingPairs` (OverlapCallback.h:188-190). -/
def Data.nb (d : Data) : Nat := d.idx.length + d.lostIdx.length

/-- `getContactPair` (CollisionCallback.cpp:120-133), `getOverlappingPair` (OverlapCallback.h:196-209): the pair, and whether it is lost; `none` if an assertion fails. -/
def Data.get (d : Data) (i : Nat) : Option (CPair × Bool) :=
  if i < d.nb then
    if i < d.idx.length then do
      let j ← d.idx[i]?
      let q ← d.pairs[j]?
      some (q, false)
    else do
      let j ← d.lostIdx[i - d.idx.length]?
      let q ← d.lost[j]?
      some (q, true)
  else none

/-- `getEventType`, `getCollider1`, `getCollider2` of a pair that has been handed over (CollisionCallback.cpp:48-76, OverlapCallback.cpp:36-66). -/
def eventOf (x : CPair × Bool) : World.Event := ⟨if x.2 then .exit else if x.1.prev then .stay else .start, x.1.c1, x.1.c2, x.1.trigger⟩

/-- A listener that asks for all pairs. -/
def Data.readAll (d : Data) : Option (List World.Event) := (List.range d.nb).mapM fun i => (d.get i).map eventOf

/-- What the listener hears in a step: `none` if its method is not called (CollisionDetectionSystem.cpp:1729-1742, 1745-1757). `onContact` gets `reportContacts`, `onTrigger` gets
`reportTriggers`; the debug renderer gets the same as `onContact` (CollisionDetectionSystem.cpp:1760-1772). -/
def onContact (pairs lost : List CPair) : Option Data := if pairs.length + lost.length > 0 then some (contactData pairs lost) else none
def onTrigger (pairs lost : List CPair) : Option Data := if pairs.length + lost.length > 0 then some (overlapData pairs lost true) else none

/-- All that is read of a call of a method of the listener. -/
def heard : Option Data → Option (List World.Event)
  | none => some []
  | some d => d.readAll

end Listen
end RP3D
