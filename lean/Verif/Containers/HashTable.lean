import Verif.Containers.Array
import Verif.Math.Integers

/-! Model of the hash table behind `Map<K, V>` and `Set<V>`
(include/reactphysics3d/containers/Map.h and Set.h; the two files have the same code up to
the entry type, line numbers are given for both as Map.h / Set.h).

`E` is the entry type (`Pair<K, V>` for the map, `V` for the set), `key` extracts what is hashed
and compared.  `INVALID_INDEX` (= 2^64 - 1) is `none`.  Reading or writing outside of a buffer, reading
a destroyed or raw entry, and running out of loop fuel (a cyclic chain, i.e. an infinite loop) are the
result `none`.  `KeyEqual` is equality and `Hash` is a function of the key.  Simplification: allocation
never fails and sizes do not overflow `uint64` when doubled. -/

namespace RP3D

/-- `mNbAllocatedEntries, mNbEntries, mHashSize, mBuckets, mEntries, mNextEntries, mFreeIndex`
(Map.h:60-81 / Set.h:59-80). -/
structure HTab (E : Type) where
  nAlloc : Nat
  nEntries : Nat
  hashSize : Nat
  buckets : Nat → Option Nat
  entries : Nat → Option E
  next : Nat → Option Nat
  free : Option Nat

namespace HTab
variable {E K : Type} [DecidableEq K] (key : E → K) (hash : K → Nat)

/-- Constructor with capacity 0 (Map.h:208-216 / Set.h:207-215). -/
def empty : HTab E := ⟨0, 0, 0, fun _ => none, fun _ => none, fun _ => none, none⟩

/-- `hashCode & (mHashSize - 1)` for a table of `size` buckets. -/
def bucketOf (size : Nat) (k : K) : Nat := hash k &&& (size - 1)

/-- The chain walk of `findEntry`, `find`, `add` and `remove` (Map.h:96-100, 372-393, 446-449 /
Set.h:95-99, 371-379, 433-436): `last`/`cur` are the loop variables; the result is the pair
`(last, i)` at the first entry with that key. -/
def scan (t : HTab E) (k : K) : (fuel : Nat) → (last cur : Option Nat) → Option (Option (Option Nat × Nat))
  | _, _, none => some none
  | 0, _, some _ => none
  | fuel + 1, last, some i =>
    if i < t.nAlloc then
      match t.entries i with
      | none => none
      | some e => if hash (key e) = hash k ∧ key e = k then some (some (last, i))
                  else scan t k fuel (some i) (t.next i)
    else none

/-- The walk over the bucket of key `k`, with the guard `mHashSize > 0`. -/
def lookup (t : HTab E) (k : K) : Option (Option (Option Nat × Nat)) :=
  if t.hashSize = 0 then some none
  else scan key hash t k (t.nAlloc + 1) none (t.buckets (bucketOf hash t.hashSize k))

/-- `findEntry` (Map.h:87-104 / Set.h:86-103). -/
def findEntry (t : HTab E) (k : K) : Option (Option Nat) := do
  let r ← lookup key hash t k
  return r.map Prod.snd

/-- `containsKey` / `contains` (Map.h:351-353 / Set.h:350-352). -/
def contains (t : HTab E) (k : K) : Option Bool := do
  let r ← findEntry key hash t k
  return r.isSome

/-- `operator[]` of the map, and dereferencing the iterator returned by `find`
(Map.h:541-586 / Set.h:540-565).  Access to `mEntries[INVALID_INDEX]` is undefined. -/
def get (t : HTab E) (k : K) : Option E := do
  let r ← findEntry key hash t k
  let i ← r
  t.entries i

/-- The three new arrays filled by the relink loop of `reserve`. -/
structure Fresh (E : Type) where
  buckets : Nat → Option Nat
  entries : Nat → Option E
  next : Nat → Option Nat

/-- Inner relink loop of `reserve` for one old chain (Map.h:307-323 / Set.h:306-322). -/
def relinkChain (t : HTab E) (cap : Nat) : (fuel : Nat) → (cur : Option Nat) → Fresh E → Option (Fresh E)
  | _, none, f => some f
  | 0, some _, _ => none
  | fuel + 1, some e, f =>
    if e < t.nAlloc then
      match t.entries e with
      | none => none
      | some x =>
        let b := bucketOf hash cap (key x)
        relinkChain t cap fuel (t.next e)
          ⟨upd f.buckets b (some e), upd f.entries e (some x), upd f.next e (f.buckets b)⟩
    else none

/-- Outer relink loop (Map.h:305-324 / Set.h:304-323). -/
def relinkAll (t : HTab E) (cap : Nat) (f : Fresh E) : Option (Fresh E) :=
  (List.range t.hashSize).foldlM (fun f i => relinkChain key hash t cap (t.nAlloc + 1) (t.buckets i) f) f

/-- Rounding of the requested capacity in `reserve` (Map.h:264-269 / Set.h:263-268). -/
def roundCap (n : Nat) : Nat :=
  let n := if n < 16 then 16 else n
  if isPowerOfTwo n then n else nextPowerOfTwo64 n

/-- Number of entries allocated for `cap` buckets (Map.h:279-283 / Set.h:278-282);
`capacity * double(0.75)` is exact since `cap` is a power of two ≥ 16. -/
def allocFor (cap : Nat) : Nat := ceil16F (cap * 3 / 4)

/-- `reserve` (Map.h:260-348 / Set.h:259-347).  The new next array starts as a copy of the old one,
the new entries are chained in front of the free list. -/
def reserve (t : HTab E) (n : Nat) : Option (HTab E) :=
  if n ≤ t.hashSize then some t
  else do
    let cap := roundCap n
    let nb := allocFor cap
    let f ← relinkAll key hash t cap ⟨fun _ => none, fun _ => none, t.next⟩
    if t.nAlloc < nb then
      some { nAlloc := nb, nEntries := t.nEntries, hashSize := cap, buckets := f.buckets, entries := f.entries,
             next := fun i => if i < t.nAlloc then f.next i
                              else if i + 1 < nb then some (i + 1) else t.free,
             free := some t.nAlloc }
    else none

/-- Taking entry `e` from the free list and linking it in front of bucket `b`
(Map.h:412-420 / Set.h:398-408). -/
def push (t : HTab E) (e b : Nat) (x : E) : HTab E :=
  { t with free := t.next e, nEntries := t.nEntries + 1, next := upd t.next e (t.buckets b),
           entries := upd t.entries e (some x), buckets := upd t.buckets b (some e) }

/-- Making room when the free list is empty (Map.h:398-406 / Set.h:384-392). -/
def grow (t : HTab E) : Option (HTab E) :=
  if t.free = none then reserve key hash t (if t.hashSize = 0 then 16 else t.hashSize * 2) else some t

/-- Insertion of a new entry (Map.h:396-422 / Set.h:382-410). -/
def insertNew (t : HTab E) (x : E) : Option (HTab E) := do
  let t ← grow key hash t
  let e ← t.free
  let b := bucketOf hash t.hashSize (key x)
  if e < t.nAlloc ∧ b < t.hashSize then
    some (t.push e b x)
  else none

/-- `Map::add` (Map.h:357-423), release build.  The result pairs the new map with the returned flag. -/
def mapAdd (t : HTab E) (x : E) (insertIfAlreadyPresent : Bool) : Option (HTab E × Bool) := do
  let r ← lookup key hash t (key x)
  match r with
  | some (_, i) =>
    if insertIfAlreadyPresent then return ({ t with entries := upd t.entries i (some x) }, true)
    else return (← insertNew key hash t x, true)
  | none => return (← insertNew key hash t x, true)

/-- `Set::add` (Set.h:356-411). -/
def setAdd (t : HTab E) (x : E) : Option (HTab E × Bool) := do
  let r ← lookup key hash t (key x)
  match r with
  | some _ => return (t, false)
  | none => return (← insertNew key hash t x, true)

/-- An iterator: `mCurrentBucketIndex`, `mCurrentEntryIndex` (Map.h:112-122 / Set.h:111-121). -/
structure Iter where
  bucket : Nat
  entry : Nat
deriving DecidableEq

/-- `end` (Map.h:687-689 / Set.h:658-661). -/
def endIter (t : HTab E) : Iter := ⟨t.hashSize, 0⟩

/-- The search for the next non-empty bucket starting at bucket `b`, with the result
`Iterator(b', mBuckets[b'])` or the end (Map.h:137-144, 470-477 / Set.h:136-143, 457-464);
`fuel` is at least the number of remaining buckets. -/
def nextBucket (t : HTab E) : (fuel : Nat) → (b : Nat) → Iter
  | 0, b => ⟨b, 0⟩
  | fuel + 1, b =>
    if b < t.hashSize then
      match t.buckets b with
      | none => nextBucket t fuel (b + 1)
      | some e => ⟨b, e⟩
    else ⟨b, 0⟩

/-- `begin` (Map.h:664-684 / Set.h:635-655).  Running over the last bucket is undefined. -/
def beginIter (t : HTab E) : Option Iter :=
  if t.nEntries = 0 then some t.endIter
  else
    let it := t.nextBucket t.hashSize 0
    if it.bucket < t.hashSize then some it else none

/-- `Iterator::advance` (Map.h:126-146 / Set.h:125-145). -/
def advance (t : HTab E) (it : Iter) : Option Iter :=
  if it.bucket < t.hashSize ∧ it.entry < t.nAlloc then
    match t.next it.entry with
    | some e => some ⟨it.bucket, e⟩
    | none => some (t.nextBucket t.hashSize (it.bucket + 1))
  else none

/-- Dereferencing an iterator (Map.h:167-178 / Set.h:166-177). -/
def deref (t : HTab E) (it : Iter) : Option E :=
  if it.bucket < t.hashSize ∧ it.entry < t.nAlloc then t.entries it.entry else none

/-- `for (; it != end(); ++it)` collecting `*it`; `none` when the loop does not end within `fuel`
steps or hits undefined behaviour.  `Set::toArray` (Set.h:475-484) is this loop. -/
def collect (t : HTab E) : (fuel : Nat) → Iter → Option (List E)
  | 0, it => if it = t.endIter then some [] else none
  | fuel + 1, it =>
    if it = t.endIter then some []
    else do
      let x ← t.deref it
      let it' ← t.advance it
      let l ← collect t fuel it'
      return x :: l

/-- The loop over the whole container. -/
def toList (t : HTab E) : Option (List E) := do
  let it ← t.beginIter
  t.collect t.nAlloc it

/-- `remove(key)` (Map.h:437-485 / Set.h:424-472). -/
def remove (t : HTab E) (k : K) : Option (HTab E × Iter) := do
  let r ← lookup key hash t k
  match r with
  | none => return (t, t.endIter)
  | some (last, i) =>
    let b := bucketOf hash t.hashSize k
    let t1 : HTab E := match last with
      | none => { t with buckets := upd t.buckets b (t.next i) }
      | some l => { t with next := upd t.next l (t.next i) }
    let t2 : HTab E := { t1 with entries := upd t1.entries i none, next := upd t1.next i t1.free,
                                 free := some i, nEntries := t1.nEntries - 1 }
    match t1.next i with
    | some e => return (t2, ⟨b, e⟩)
    | none => return (t2, t2.nextBucket t2.hashSize (b + 1))

/-- Inner loop of `clear` (Map.h:492-505 / Set.h:491-504). -/
def clearChain : (fuel : Nat) → (cur : Option Nat) → HTab E → Option (HTab E)
  | _, none, t => some t
  | 0, some _, _ => none
  | fuel + 1, some e, t =>
    if e < t.nAlloc then
      clearChain fuel (t.next e)
        { t with entries := upd t.entries e none, next := upd t.next e t.free, free := some e }
    else none

/-- `clear` (Map.h:488-526 / Set.h:487-525).  Note that `mFreeIndex` is not reset when the memory is
released. -/
def clear (t : HTab E) (releaseMemory : Bool) : Option (HTab E) := do
  let t ← (List.range t.hashSize).foldlM (fun (t : HTab E) i => do
    let t ← clearChain (t.nAlloc + 1) (t.buckets i) t
    return { t with buckets := upd t.buckets i none }) t
  if releaseMemory ∧ t.nAlloc > 0 then
    return { nAlloc := 0, nEntries := 0, hashSize := 0, buckets := fun _ => none, entries := fun _ => none,
             next := fun _ => none, free := t.free }
  else return { t with nEntries := 0 }

/-- The copy loop over one chain (Map.h:241-248, 648-655 / Set.h:240-247, 619-626). -/
def copyChain (src : HTab E) : (fuel : Nat) → (cur : Option Nat) → (Nat → Option E) → Option (Nat → Option E)
  | _, none, ents => some ents
  | 0, some _, _ => none
  | fuel + 1, some e, ents =>
    if e < src.nAlloc then
      match src.entries e with
      | none => none
      | some x => copyChain src fuel (src.next e) (upd ents e (some x))
    else none

/-- The copy constructor and `operator=` (after its `clear(true)`, every field is overwritten)
(Map.h:219-251, 617-661 / Set.h:218-250, 588-632). -/
def copy (src : HTab E) : Option (HTab E) := do
  let ents ← (List.range src.hashSize).foldlM (fun ents i => copyChain src (src.nAlloc + 1) (src.buckets i) ents)
    (fun _ => none)
  return { src with entries := ents }

/-- One of the two loops of `Map::operator==` (Map.h:593-605): every pair of the list is found in `t` with
the same value. -/
def mapCheck {V : Type} [DecidableEq V] (t : HTab (K × V)) : List (K × V) → Option Bool
  | [] => some true
  | x :: l => do
    match ← findEntry Prod.fst hash t x.1 with
    | none => some false
    | some i =>
      let e ← t.entries i
      if e.2 ≠ x.2 then some false else mapCheck t l

/-- `Map::operator==` (Map.h:589-608). -/
def mapEq {V : Type} [DecidableEq V] (t1 t2 : HTab (K × V)) : Option Bool :=
  if t1.nEntries ≠ t2.nEntries then some false
  else do
    let l1 ← t1.toList
    let b ← mapCheck hash t2 l1
    if b then
      let l2 ← t2.toList
      mapCheck hash t1 l2
    else some false

/-- The loop of `Set::operator==` (Set.h:572-576). -/
def setCheck (t : HTab K) : List K → Option Bool
  | [] => some true
  | x :: l => do
    if ← contains id hash t x then setCheck t l else some false

/-- `Set::operator==` (Set.h:568-579). -/
def setEq (t1 t2 : HTab K) : Option Bool :=
  if t1.nEntries ≠ t2.nEntries then some false
  else do
    let l1 ← t1.toList
    setCheck hash t2 l1

end HTab
end RP3D
