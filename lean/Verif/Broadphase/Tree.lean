import Verif.Broadphase.AABB
import Verif.Containers.Array

/-! Model of `DynamicAABBTree` (src/collision/broadphase/DynamicAABBTree.cpp, include/reactphysics3d/collision/broadphase/DynamicAABBTree.h).

Nodes live in an array of `cap` elements and refer to each other by index; the null node is `none`.  Accessing a node outside of the
array, or the children of a node that has none, is undefined (`none`).  The unions of `TreeNode` are modelled: `link` is
`parentID`/`nextNodeID`, `cont` is either the two children or the data.  The heuristic that chooses the sibling of a new leaf
compares floating-point volumes; the model takes an arbitrary decision function `ch`, so that the theorems hold for
every heuristic and every rounding (`costChoice` is the function of the code in exact arithmetic).  The inflation of boxes is
a parameter `fat` as well.  Simplifications: indices and heights do not overflow (`int32`, `int16`). -/

namespace RP3D

/-- The union of children and data (DynamicAABBTree.h:70-80). -/
inductive Cont
  | raw
  | data (d : Nat)
  | kids (l r : Nat)
deriving DecidableEq

/-- `TreeNode` (DynamicAABBTree.h:53-95). -/
structure TNode (α : Type) where
  link : Option Nat
  cont : Cont
  height : Int
  box : AABB α

/-- The decision in the descent: stop at this node, or continue with a child. -/
inductive Dir | stop | left | right
deriving DecidableEq

/-- Arguments: box of the current node, box of the new leaf, box of the left child and whether it is a leaf, the same for the right. -/
abbrev Choice (α : Type) := AABB α → AABB α → AABB α → Bool → AABB α → Bool → Dir

/-- The tree (DynamicAABBTree.h:149-167). -/
structure Tree (α : Type) where
  node : Nat → TNode α
  cap : Nat
  root : Option Nat
  free : Option Nat
  count : Nat

namespace Tree
variable {α : Type} [LinearOrder α]

/-- Access to `mNodes[i]`. -/
def rd (t : Tree α) (i : Nat) : Option (TNode α) := if i < t.cap then some (t.node i) else none
def setLink (t : Tree α) (i : Nat) (v : Option Nat) : Option (Tree α) :=
  if i < t.cap then some { t with node := upd t.node i { t.node i with link := v } } else none
def setHeight (t : Tree α) (i : Nat) (v : Int) : Option (Tree α) :=
  if i < t.cap then some { t with node := upd t.node i { t.node i with height := v } } else none
def setBox (t : Tree α) (i : Nat) (v : AABB α) : Option (Tree α) :=
  if i < t.cap then some { t with node := upd t.node i { t.node i with box := v } } else none
def setCont (t : Tree α) (i : Nat) (v : Cont) : Option (Tree α) :=
  if i < t.cap then some { t with node := upd t.node i { t.node i with cont := v } } else none
/-- `children[0]`, `children[1]`. -/
def kids (t : Tree α) (i : Nat) : Option (Nat × Nat) :=
  if i < t.cap then (match (t.node i).cont with | .kids l r => some (l, r) | _ => none) else none

/-- `children[0] = v`, `children[1] = v` for a node that has children. -/
def setKid (t : Tree α) (i : Nat) (snd : Bool) (v : Nat) : Option (Tree α) := do
  let (l, r) ← t.kids i
  t.setCont i (if snd then .kids l v else .kids v r)

/-- Links `lo → lo + 1 → … → hi - 1 → null` with heights -1. -/
def chain (f : Nat → TNode α) (lo hi : Nat) : Nat → TNode α := fun i =>
  if lo ≤ i ∧ i < hi then { f i with link := if i + 1 < hi then some (i + 1) else none, height := -1, cont := .raw } else f i

/-- `init` (DynamicAABBTree.cpp:52-75); the array has 16 nodes. `f` is the uninitialised memory. -/
def init (f : Nat → TNode α) : Tree α := ⟨chain f 0 16, 16, none, some 0, 0⟩

/-- Growing in `allocateNode` (DynamicAABBTree.cpp:96-121): the first `mNbNodes` nodes are copied to an array of twice the size, the
rest of it is put into the free list. -/
def grow (t : Tree α) : Tree α :=
  { t with node := chain t.node t.count (t.cap * 2), cap := t.cap * 2, free := some t.count }

/-- `allocateNode` (DynamicAABBTree.cpp:93-131). -/
def allocNode (t : Tree α) : Option (Tree α × Nat) := do
  let t := if t.free.isNone then grow t else t
  let i ← t.free
  let n ← t.rd i
  let t := { t with free := n.link }
  let t ← t.setLink i none
  let t ← t.setHeight i 0
  return ({ t with count := t.count + 1 }, i)

/-- `releaseNode` (DynamicAABBTree.cpp:134-143). -/
def releaseNode (t : Tree α) (i : Nat) : Option (Tree α) := do
  let t ← t.setLink i t.free
  let t ← t.setHeight i (-1)
  return { t with free := some i, count := t.count - 1 }

/-- Replacing the child `old` of `p` by `new` (the recurring `if (mNodes[p].children[0] == old) … else …`). -/
def replaceChild (t : Tree α) (p old new : Nat) : Option (Tree α) := do
  let (l, _) ← t.kids p
  if l = old then t.setKid p false new else t.setKid p true new

/-- The same with the root in case of no parent. -/
def replaceAt (t : Tree α) (p : Option Nat) (old new : Nat) : Option (Tree α) :=
  match p with
  | some p => t.replaceChild p old new
  | none => some { t with root := some new }

/-- The end of a rotation: `keep` becomes the second child of `c`, and `move` replaces `c` as a child of `a` (the second one if
`snd`), boxes and heights are recomputed; `b` is the other child of `a` (DynamicAABBTree.cpp:477-508, 547-578). -/
def rotateEnd (t : Tree α) (a c b keep move : Nat) (snd : Bool) : Option (Tree α) := do
  let t ← t.setKid c true keep
  let t ← t.setKid a snd move
  let t ← t.setLink move (some a)
  let nb ← t.rd b
  let nm ← t.rd move
  let nk ← t.rd keep
  let t ← t.setBox a (AABB.merge nb.box nm.box)
  let na ← t.rd a
  let t ← t.setBox c (AABB.merge na.box nk.box)
  let t ← t.setHeight a (max nb.height nm.height + 1)
  let na ← t.rd a
  t.setHeight c (max na.height nk.height + 1)

/-- A rotation: the child `c` of `a` (the second one if `snd`) takes its place; `b` is the other child of `a`
(DynamicAABBTree.cpp:445-511 for the second child, 515-581 for the first one). -/
def rotate (t : Tree α) (a c b : Nat) (snd : Bool) : Option (Tree α) := do
  let (f, g) ← t.kids c
  let t ← t.setKid c false a
  let na ← t.rd a
  let t ← t.setLink c na.link
  let t ← t.setLink a (some c)
  let t ← t.replaceAt na.link a c
  let nf ← t.rd f
  let ng ← t.rd g
  if nf.height > ng.height then t.rotateEnd a c b f g snd
  else t.rotateEnd a c b g f snd

/-- `balanceSubTreeAtNode` (DynamicAABBTree.cpp:420-586). -/
def balance (t : Tree α) (a : Nat) : Option (Tree α × Nat) := do
  let na ← t.rd a
  if na.height = 0 ∨ na.height < 2 then return (t, a)
  else
    let (b, c) ← t.kids a
    let nb ← t.rd b
    let nc ← t.rd c
    if nc.height - nb.height > 1 then
      let t ← t.rotate a c b true
      return (t, c)
    else if nc.height - nb.height < -1 then
      let t ← t.rotate a b c false
      return (t, b)
    else return (t, a)

/-- One round of the way up: balance the node and recompute its height and its box. -/
def fixNode (t : Tree α) (cur : Nat) : Option (Tree α × Nat) := do
  let (t, cur) ← t.balance cur
  let (l, r) ← t.kids cur
  let nl ← t.rd l
  let nr ← t.rd r
  let t ← t.setHeight cur (max nl.height nr.height + 1)
  let t ← t.setBox cur (AABB.merge nl.box nr.box)
  return (t, cur)

/-- The loops towards the root (DynamicAABBTree.cpp:321-343 and 386-407). -/
def fixUp (t : Tree α) (cur : Option Nat) : Option (Tree α) :=
  match cur with
  | none => some t
  | some a =>
    match t.fixNode a with
    | none => none
    | some (t', a') =>
      match t'.rd a' with
      | none => none
      | some n => fixUp t' n.link
partial_fixpoint

/-- The search of the sibling (DynamicAABBTree.cpp:230-285). -/
def descend (ch : Choice α) (t : Tree α) (nb : AABB α) (cur : Nat) : Option Nat :=
  match t.rd cur with
  | none => none
  | some n =>
    if n.height = 0 then some cur
    else
      match t.kids cur with
      | none => none
      | some (l, r) =>
        match t.rd l, t.rd r with
        | some nl, some nr =>
          match ch n.box nb nl.box (nl.height == 0) nr.box (nr.height == 0) with
          | .stop => some cur
          | .left => descend ch t nb l
          | .right => descend ch t nb r
        | _, _ => none
partial_fixpoint

/-- `insertLeafNode` (DynamicAABBTree.cpp:219-346). -/
def insertLeaf (ch : Choice α) (t : Tree α) (i : Nat) : Option (Tree α) :=
  match t.root with
  | none => do
    let t := { t with root := some i }
    t.setLink i none
  | some root => do
    let ni ← t.rd i
    let s ← descend ch t ni.box root
    let ns ← t.rd s
    let (t, p) ← t.allocNode
    let t ← t.setLink p ns.link
    let t ← t.setBox p (AABB.merge ns.box ni.box)
    let t ← t.setHeight p (ns.height + 1)
    let t ← match ns.link with
      | some op => t.replaceChild op s p
      | none => some { t with root := some p }
    let t ← t.setCont p (.kids s i)
    let t ← t.setLink s (some p)
    let t ← t.setLink i (some p)
    t.fixUp (some p)

/-- `removeLeafNode` (DynamicAABBTree.cpp:349-417). -/
def removeLeaf (t : Tree α) (i : Nat) : Option (Tree α) :=
  if t.root = some i then some { t with root := none }
  else do
    let ni ← t.rd i
    let p ← ni.link
    let np ← t.rd p
    let (l, r) ← t.kids p
    let s := if l = i then r else l
    match np.link with
    | some g => do
      let t ← t.replaceChild g p s
      let t ← t.setLink s (some g)
      let t ← t.releaseNode p
      t.fixUp (some g)
    | none => do
      let t := { t with root := some s }
      let t ← t.setLink s none
      t.releaseNode p

/-- `addObject` (DynamicAABBTree.cpp:146-166, DynamicAABBTree.h:303-322). -/
def addObject (ch : Choice α) (fat : AABB α → AABB α) (t : Tree α) (b : AABB α) (d : Nat) : Option (Tree α × Nat) := do
  let (t, i) ← t.allocNode
  let t ← t.setBox i (fat b)
  let t ← t.setHeight i 0
  let t ← t.insertLeaf ch i
  let t ← t.setCont i (.data d)
  return (t, i)

/-- `removeObject` (DynamicAABBTree.cpp:169-177). -/
def removeObject (t : Tree α) (i : Nat) : Option (Tree α) := do
  let t ← t.removeLeaf i
  t.releaseNode i

/-- `updateObject` (DynamicAABBTree.cpp:186-214). -/
def updateObject (ch : Choice α) (fat : AABB α → AABB α) (t : Tree α) (i : Nat) (b : AABB α) (force : Bool) :
    Option (Tree α × Bool) := do
  let n ← t.rd i
  if !force && n.box.contains b then return (t, false)
  else
    let t ← t.removeLeaf i
    let t ← t.setBox i (fat b)
    let t ← t.insertLeaf ch i
    return (t, true)

/-- `getNodeDataInt`/`getNodeDataPointer`, `getFatAABB` (DynamicAABBTree.h:277-294). -/
def dataOf (t : Tree α) (i : Nat) : Option Nat :=
  if i < t.cap then (match (t.node i).cont with | .data d => some d | _ => none) else none
def fatOf (t : Tree α) (i : Nat) : Option (AABB α) := (t.rd i).map TNode.box

/-- `reportAllShapesOverlappingWithAABB` (DynamicAABBTree.cpp:641-681): the loop with the stack of nodes to visit (the head of the
list is the top) and the nodes found so far. -/
def report (t : Tree α) (q : AABB α) (stack : List (Option Nat)) (out : List Nat) : Option (List Nat) :=
  match stack with
  | [] => some out
  | none :: st => report t q st out
  | some i :: st =>
    match t.rd i with
    | none => none
    | some n =>
      if q.testCollision n.box then
        if n.height = 0 then report t q st (out ++ [i])
        else
          match t.kids i with
          | none => none
          | some (l, r) => report t q (some r :: some l :: st) out
      else report t q st out
partial_fixpoint

/-- `reportAllShapesOverlappingWithAABB`. -/
def overlapping (t : Tree α) (q : AABB α) : Option (List Nat) := t.report q [t.root] []

/-- `reportAllShapesOverlappingWithShapes` (DynamicAABBTree.cpp:589-638): the same for the fat box of each of the nodes to test. -/
def overlappingPairs (t : Tree α) : List Nat → Option (List (Nat × Nat))
  | [] => some []
  | i :: rest => do
    let b ← t.fatOf i
    let l ← t.overlapping b
    let ps ← t.overlappingPairs rest
    return l.map (fun j => (i, j)) ++ ps

/-- `reset` (DynamicAABBTree.cpp:78-90). -/
def reset (t : Tree α) : Tree α := init t.node

end Tree

section Cost
variable {K : Type} [Field K] [LinearOrder K]

/-- The decision of the code in exact arithmetic (DynamicAABBTree.cpp:238-284). -/
def costChoice : Choice K := fun cur nb l ll r rl =>
  let mergedVolume := (AABB.merge cur nb).volume
  let costS := 2 * mergedVolume
  let costI := 2 * (mergedVolume - cur.volume)
  let costLeft := if ll then (AABB.merge nb l).volume + costI else costI + (AABB.merge nb l).volume - l.volume
  let costRight := if rl then (AABB.merge nb r).volume + costI else costI + (AABB.merge nb r).volume - r.volume
  if costS < costLeft ∧ costS < costRight then .stop
  else if costLeft < costRight then .left
  else .right

/-- The fat box (DynamicAABBTree.cpp:153-155, 203-206) in exact arithmetic. -/
def fatBox (pct : K) (b : AABB K) : AABB K :=
  let e := b.extent
  let gap : V3 K := ⟨e.x * pct * (1 / 2), e.y * pct * (1 / 2), e.z * pct * (1 / 2)⟩
  ⟨b.mn - gap, b.mx + gap⟩

end Cost
end RP3D
