import Verif.Containers.Array
import Verif.Math.Integers

/-!
Model of the store of overlapping pairs (include/reactphysics3d/engine/OverlappingPairs.h,
src/engine/OverlappingPairs.cpp).

The code keeps four arrays of pairs and four maps from a pair id to an index: enabled and disabled pairs, each split into
convex-convex and convex-concave pairs.  The functions that work on them exist in four textually identical copies; here they are
one function with a `Kind` argument.  A `Map` is a partial function (that the hash table behaves like one is C03), an `Array` is a
list (C01).  Not modelled: the narrow-phase algorithm type and the temporal coherence data (`lastFrameCollisionInfo`).

An operation that reads an array out of its bounds, uses `operator[]` of a map with a missing key or adds a key that is present
already returns `none`.
-/

namespace RP3D

/-- `OverlappingPair` (OverlappingPairs.h:117-160). -/
structure Pair where
  /-- `pairID` -/
  id : Nat
  /-- `broadPhaseId1`, `broadPhaseId2` -/
  bp1 : Nat
  bp2 : Nat
  /-- `collider1`, `collider2` -/
  c1 : Nat
  c2 : Nat
  /-- `needToTestOverlap` -/
  need : Bool
  /-- `collidingInPreviousFrame` -/
  prev : Bool
  /-- `collidingInCurrentFrame` -/
  cur : Bool
  /-- `isEnabled` -/
  enabled : Bool
deriving DecidableEq

/-- The constructor of a pair (OverlappingPairs.h:150-157). -/
def Pair.new (id bp1 bp2 c1 c2 : Nat) (enabled : Bool) : Pair := ⟨id, bp1, bp2, c1, c2, false, false, false, enabled⟩

/-- An array of pairs together with its map from ids to indices (OverlappingPairs.h:303-325). -/
structure PTable where
  arr : List Pair
  idx : Nat → Option Nat

namespace PTable

def empty : PTable := ⟨[], fun _ => none⟩

/-- `map.add(Pair(id, array.size())); array.emplace(...)` (OverlappingPairs.cpp:309-317, 333-341, 357-365, 381-389, 420-424,
434-440). -/
def add (t : PTable) (p : Pair) : Option PTable :=
  match t.idx p.id with
  | some _ => none
  | none => some ⟨t.arr ++ [p], upd t.idx p.id (some t.arr.length)⟩

/-- The map entry of the last pair is redirected to the index that it moves to (OverlappingPairs.cpp:128-132, 158-162, 192-196,
228-232). -/
def relink (idx : Nat → Option Nat) (n i lastId : Nat) : Option (Nat → Option Nat) :=
  if 1 < n ∧ i < n - 1 then
    match idx lastId with
    | none => none
    | some _ => some (upd idx lastId (some i))
  else some idx

/-- `map.remove(id)`, redirection of the last pair, `removeAtAndReplaceByLast(i)` (OverlappingPairs.cpp:123-136, 153-166, 188-200,
221-236). -/
def removeAt (t : PTable) (i : Nat) : Option PTable := do
  let p ← t.arr[i]?
  let last ← t.arr.getLast?
  let idx ← relink (upd t.idx p.id none) t.arr.length i last.id
  some ⟨(t.arr.set i last).dropLast, idx⟩

/-- Write access to the pair at an index. -/
def modify (t : PTable) (i : Nat) (f : Pair → Pair) : Option PTable := do
  let p ← t.arr[i]?
  some ⟨t.arr.set i (f p), t.idx⟩

end PTable

/-- The four arrays. -/
inductive Kind
  /-- `mConvexPairs` -/
  | cv
  /-- `mConcavePairs` -/
  | cc
  /-- `mDisabledConvexPairs` -/
  | dcv
  /-- `mDisabledConcavePairs` -/
  | dcc
deriving DecidableEq

namespace Kind

def enabled : Kind → Bool
  | cv | cc => true
  | dcv | dcc => false

def convex : Kind → Bool
  | cv | dcv => true
  | cc | dcc => false

/-- The array of the pairs of the given sort. -/
def of : (enabled convex : Bool) → Kind
  | true, true => cv
  | true, false => cc
  | false, true => dcv
  | false, false => dcc

end Kind

/-- `OverlappingPairs`, and the column `mOverlappingPairs` of the collider components: the pair ids of each collider. -/
structure PStore where
  tab : Kind → PTable
  own : Nat → List Nat

namespace PStore

def init : PStore := ⟨fun _ => PTable.empty, fun _ => []⟩

def setTab (s : PStore) (k : Kind) (t : PTable) : PStore := { s with tab := fun k' => if k' = k then t else s.tab k' }

/-- `Array::remove(value)` on the list of a collider (Array.h:337-345, 353-382): the first occurrence, if any. -/
def disown (s : PStore) (c id : Nat) : PStore := { s with own := upd s.own c ((s.own c).erase id) }

/-- `mOverlappingPairs[collider].add(pairId)`. -/
def give (s : PStore) (c id : Nat) : PStore := { s with own := upd s.own c (s.own c ++ [id]) }

/-- The map lookups in their fixed order (OverlappingPairs.cpp:84-106, OverlappingPairs.h:475-490): the array and index of an id. -/
def locate (s : PStore) (id : Nat) : Option (Kind × Nat) :=
  match (s.tab .cv).idx id with
  | some i => some (.cv, i)
  | none =>
    match (s.tab .cc).idx id with
    | some i => some (.cc, i)
    | none =>
      match (s.tab .dcv).idx id with
      | some i => some (.dcv, i)
      | none =>
        match (s.tab .dcc).idx id with
        | some i => some (.dcc, i)
        | none => none

/-- `getOverlappingPair` (OverlappingPairs.h:473-493).  `none`: undefined behaviour; `some none`: the null pointer. -/
def get (s : PStore) (id : Nat) : Option (Option Pair) :=
  match s.locate id with
  | none => some none
  | some (k, i) =>
    match (s.tab k).arr[i]? with
    | none => none
    | some p => some (some p)

/-- `getOverlappingPair(id)->...`: the caller dereferences the pointer. -/
def deref (s : PStore) (id : Nat) : Option Pair :=
  match s.get id with
  | some (some p) => some p
  | _ => none

/-- Write access through the pointer of `getOverlappingPair`. -/
def modify (s : PStore) (id : Nat) (f : Pair → Pair) : Option PStore :=
  match s.locate id with
  | none => none
  | some (k, i) =>
    match (s.tab k).modify i f with
    | none => none
    | some t => some (s.setTab k t)

/-- `removeConvexPairWithIndex`, `removeConcavePairWithIndex`, `removeDisabledConvexPairWithIndex`,
`removeDisabledConcavePairWithIndex` (OverlappingPairs.cpp:110-236). -/
def removeIdx (s : PStore) (k : Kind) (i : Nat) (removeFromColliders : Bool) : Option PStore := do
  let p ← (s.tab k).arr[i]?
  let t ← (s.tab k).removeAt i
  let s := if removeFromColliders then (s.disown p.c1 p.id).disown p.c2 p.id else s
  some (s.setTab k t)

/-- `removePair` (OverlappingPairs.cpp:77-107); nothing happens for an unknown id. -/
def removePair (s : PStore) (id : Nat) : Option PStore :=
  match s.locate id with
  | none => some s
  | some (k, i) => s.removeIdx k i true

/-- `enableConvexPairWithIndex`, `disableConvexPairWithIndex`, `enableConcavePairWithIndex`, `disableConcavePairWithIndex`
(OverlappingPairs.cpp:301-394): a new pair with the same data except `needToTestOverlap` is appended to the other array. -/
def transfer (s : PStore) (k k' : Kind) (i : Nat) (enabled : Bool) : Option PStore := do
  let p ← (s.tab k).arr[i]?
  let q := { Pair.new p.id p.bp1 p.bp2 p.c1 p.c2 enabled with cur := p.cur, prev := p.prev }
  let t ← (s.tab k').add q
  (s.setTab k' t).removeIdx k i false

/-- `enablePair` (OverlappingPairs.cpp:239-267), release build: nothing happens for an id that is not disabled. -/
def enablePair (s : PStore) (id : Nat) : Option PStore :=
  match (s.tab .dcv).idx id with
  | some i => s.transfer .dcv .cv i true
  | none =>
    match (s.tab .dcc).idx id with
    | some i => s.transfer .dcc .cc i true
    | none => some s

/-- `disablePair` (OverlappingPairs.cpp:270-298), release build: nothing happens for an id that is not enabled. -/
def disablePair (s : PStore) (id : Nat) : Option PStore :=
  match (s.tab .cv).idx id with
  | some i => s.transfer .cv .dcv i false
  | none =>
    match (s.tab .cc).idx id with
    | some i => s.transfer .cc .dcc i false
    | none => some s

/-- `addPair` (OverlappingPairs.cpp:397-449): `a`, `b` are the colliders, `ba`, `bb` their broad-phase ids. -/
def addPair (s : PStore) (a b ba bb : Nat) (isConvexVsConvex : Bool) : Option PStore := do
  let id := pairId ba bb
  let k := Kind.of true isConvexVsConvex
  let t ← (s.tab k).add (Pair.new id ba bb a b true)
  some (((s.setTab k t).give a id).give b id)

/-- `setNeedToTestOverlap` (OverlappingPairs.h:459-470): only the enabled pairs are looked up; `operator[]` of the second map is
used without a check. -/
def setNeed (s : PStore) (id : Nat) (b : Bool) : Option PStore :=
  match (s.tab .cv).idx id with
  | some i => do
    let t ← (s.tab .cv).modify i fun p => { p with need := b }
    some (s.setTab .cv t)
  | none =>
    match (s.tab .cc).idx id with
    | some i => do
      let t ← (s.tab .cc).modify i fun p => { p with need := b }
      some (s.setTab .cc t)
    | none => none

/-- A loop over an array that changes every pair in place. -/
def mapTab (s : PStore) (k : Kind) (f : Pair → Pair) : PStore :=
  s.setTab k ⟨(s.tab k).arr.map f, (s.tab k).idx⟩

/-- `updateCollidingInPreviousFrame` (OverlappingPairs.cpp:465-482): the enabled pairs only. -/
def updatePrev (s : PStore) : PStore :=
  (s.mapTab .cv fun p => { p with prev := p.cur }).mapTab .cc fun p => { p with prev := p.cur }

end PStore
end RP3D
