import Verif.Math.Vec3
import Mathlib.Data.List.Nodup
import Mathlib.Data.List.Perm.Basic

/-!
Model of the reduction of contacts (src/systems/CollisionDetectionSystem.cpp): the grouping of contact points into potential manifolds, the choice of
four manifolds, the choice of four points and the removal of duplicates.

A manifold is the list of the indices of its points, a contact pair the list of the indices of its manifolds, in the order of the arrays.
Depths, dot products, distances and areas enter as functions of the indices with values in a linear order, so nothing is assumed about how
the floating-point values are rounded; they are only compared.
-/

namespace RP3D
namespace Contacts

/-- `removeItemAtInArray` (CollisionDetectionSystem.cpp:1665-1670), `removePotentialManifoldAtIndex` (ContactPair.h:105-110): the last element
takes the place of the removed one. An index outside of the array is undefined. -/
def swapRemove {α : Type} (l : List α) (i : Nat) : Option (List α) :=
  match l.getLast? with
  | none => none
  | some x => if i < l.length then some (l.set i x).dropLast else none

variable {K : Type} [LinearOrder K]

/-- A loop that remembers the best value and its position: `better v b` replaces the best value `b` by `v`. -/
def scan (better : K → K → Bool) (f : Nat → K) : List Nat → Nat → K × Nat → K × Nat
  | [], _, s => s
  | c :: cs, i, s => scan better f cs (i + 1) (if better (f c) s.1 then (f c, i) else s)

/-! ### Manifolds -/

/-- `computePotentialManifoldLargestContactDepth` (CollisionDetectionSystem.cpp:1461-1478). -/
def largestDepth (zero : K) (depth : Nat → K) (m : List Nat) : K := m.foldl (fun d p => if depth p > d then depth p else d) zero

/-- The loop of `reducePotentialContactManifolds` over the manifolds of one pair (CollisionDetectionSystem.cpp:1407-1429); `big` is
`DECIMAL_LARGEST`, `depth` the depth of a manifold. The index -1 is undefined. -/
def reduceManifolds (big : K) (depth : Nat → K) (max : Nat) : Nat → List Nat → Option (List Nat)
  | 0, ms => if ms.length > max then none else some ms
  | n + 1, ms =>
    if ms.length > max then
      let s := scan (fun v b => decide (v < b)) depth ms 0 (big, ms.length)
      match swapRemove ms s.2 with
      | none => none
      | some ms' => reduceManifolds big depth max n ms'
    else some ms

/-! ### Points -/

/-- The three choices of `reduceContactPoints` before the last one. -/
structure Keys (K : Type) where
  /-- the dot product of the search direction and the point -/
  dir : Nat → K
  /-- the squared distance of two points -/
  dist : Nat → Nat → K
  /-- the signed area of the triangle of a new point and two kept points -/
  area : Nat → Nat → Nat → K
  /-- `DECIMAL_SMALLEST`, 0, and the opposite of a number -/
  smallest : K
  zero : K
  neg : K → K

/-- The search of the fourth point (CollisionDetectionSystem.cpp:1614-1650): the three edges of one candidate. -/
def fourthEdges (k : Keys K) (pos : Bool) (a b c : Nat) (i p : Nat) (s : K × Nat) : K × Nat :=
  [(a, b), (b, c), (c, a)].foldl (fun s e =>
    let v := k.area p e.1 e.2
    if pos && decide (v ≤ s.1) then (v, i) else if !pos && decide (v ≥ s.1) then (v, i) else s) s

def fourth (k : Keys K) (pos : Bool) (a b c : Nat) : List Nat → Nat → K × Nat → K × Nat
  | [], _, s => s
  | p :: ps, i, s => fourth k pos a b c ps (i + 1) (fourthEdges k pos a b c i p s)

/-- Keep the candidate at position `i`. -/
def take (cand : List Nat) (i : Nat) : Option (Nat × List Nat) :=
  match cand[i]? with
  | none => none
  | some p => (swapRemove cand i).map fun c => (p, c)

/-- `reduceContactPoints` (CollisionDetectionSystem.cpp:1483-1661). -/
def reducePoints (k : Keys K) (ps : List Nat) : Option (List Nat) :=
  match take ps (scan (fun v b => decide (v > b)) k.dir ps 0 (k.smallest, 0)).2 with
  | none => none
  | some (p0, c1) =>
    match take c1 (scan (fun v b => decide (v ≥ b)) (k.dist p0) c1 0 (k.zero, 0)).2 with
    | none => none
    | some (p1, c2) =>
      let mx := scan (fun v b => decide (v ≥ b)) (fun p => k.area p p0 p1) c2 0 (k.zero, 0)
      let mn := scan (fun v b => decide (v ≤ b)) (fun p => k.area p p0 p1) c2 0 (k.zero, 0)
      let pos := decide (mx.1 > k.neg mn.1)
      match take c2 (if pos then mx.2 else mn.2) with
      | none => none
      | some (p2, c3) =>
        match take c3 (fourth k pos p0 p1 p2 c3 0 (k.zero, 0)).2 with
        | none => none
        | some (p3, _) => some [p0, p1, p2, p3]

/-! ### Duplicates -/

/-- The inner loop of `removeDuplicatedContactPointsInManifold` (CollisionDetectionSystem.cpp:1686-1701); `near p q` is the test of the
squared distance of two points against the squared threshold. -/
def dedupInner (near : Nat → Nat → Bool) (i : Nat) : Nat → Nat → List Nat → Option (List Nat)
  | 0, j, l => if j < l.length then none else some l
  | n + 1, j, l =>
    if j < l.length then
      match l[i]?, l[j]? with
      | some p, some q =>
        if near p q then
          match swapRemove l j with
          | none => none
          | some l' => dedupInner near i n j l'
        else dedupInner near i n (j + 1) l
      | _, _ => none
    else some l

/-- The outer loop of `removeDuplicatedContactPointsInManifold` (CollisionDetectionSystem.cpp:1684-1703). -/
def dedup (near : Nat → Nat → Bool) : Nat → Nat → List Nat → Option (List Nat)
  | 0, i, l => if i < l.length then none else some l
  | n + 1, i, l =>
    if i < l.length then
      match dedupInner near i l.length (i + 1) l with
      | none => none
      | some l' => dedup near n (i + 1) l'
    else some l

/-! ### Grouping -/

/-- A new contact point of a pair of colliders, one of which is concave: the search of a similar manifold in `processPotentialContacts`
(CollisionDetectionSystem.cpp:1329-1357); `cap` is `NB_MAX_CONTACT_POINTS_IN_POTENTIAL_MANIFOLD`. `none` if there is no similar manifold. -/
def addSimilar (sim : Nat → Nat → Bool) (cap : Nat) (p : Nat) : List (List Nat) → Option (List (List Nat))
  | [] => none
  | m :: ms =>
    match m with
    | [] => (addSimilar sim cap p ms).map (m :: ·)
    | q :: _ => if m.length < cap && sim q p then some ((m ++ [p]) :: ms) else (addSimilar sim cap p ms).map (m :: ·)

/-- A new contact point (CollisionDetectionSystem.cpp:1316-1380); `maxM` is `NB_MAX_POTENTIAL_CONTACT_MANIFOLDS`. -/
def addPoint (sim : Nat → Nat → Bool) (cap maxM : Nat) (ms : List (List Nat)) (p : Nat) : List (List Nat) :=
  match addSimilar sim cap p ms with
  | some ms' => ms'
  | none => if ms.length < maxM then ms ++ [[p]] else ms

/-- All contact points of a pair. -/
def group (sim : Nat → Nat → Bool) (cap maxM : Nat) (ps : List Nat) : List (List Nat) := ps.foldl (addPoint sim cap maxM) []

/-! ### The whole reduction -/

/-- What `reducePotentialContactManifolds` reads of the contact points. -/
structure Data (K : Type) where
  big : K
  zero : K
  depth : Nat → K
  /-- the keys of `reduceContactPoints` depend on the normal of the first point of the manifold (CollisionDetectionSystem.cpp:1518) -/
  keys : Nat → Keys K
  near : Nat → Nat → Bool

/-- The points of one manifold (CollisionDetectionSystem.cpp:1441-1456); `max` is `MAX_CONTACT_POINTS_IN_MANIFOLD`. -/
def reduceOne (d : Data K) (m : List Nat) : Option (List Nat) :=
  match m with
  | [] => some []
  | p :: _ =>
    match (if m.length > 4 then reducePoints (d.keys p) m else some m) with
    | none => none
    | some m' => dedup d.near m'.length 0 m'

/-- The manifolds of one pair, one after the other (CollisionDetectionSystem.cpp:1438-1457). -/
def reduceAll (d : Data K) : List (List Nat) → Option (List (List Nat))
  | [] => some []
  | m :: ms =>
    match reduceOne d m with
    | none => none
    | some m' => (reduceAll d ms).map (m' :: ·)

/-- `reducePotentialContactManifolds` for one contact pair (CollisionDetectionSystem.cpp:1394-1458). The manifolds of the pair are
`mans[i]`; the array of the pair holds indices of manifolds. -/
def reducePair (d : Data K) (mans : List (List Nat)) (idx : List Nat) : Option (List (List Nat)) :=
  match reduceManifolds d.big (fun i => largestDepth d.zero d.depth (mans.getD i [])) 4 idx.length idx with
  | none => none
  | some idx' => reduceAll d (idx'.map fun i => mans.getD i [])

/-! ### The values compared -/

/-- `ContactPointInfo` (include/reactphysics3d/collision/ContactPointInfo.h:46-64), the fields used here. -/
structure Pt (K : Type) where
  normal : V3 K
  depth : K
  local1 : V3 K

/-- The values compared by `reduceContactPoints` (CollisionDetectionSystem.cpp:1521-1530, 1549, 1586-1590, 1633-1637) over an ordered field;
`toShape1` is the rotation of world space to the space of the first shape, applied to the normal of the first point (1518). -/
def keysOf {K : Type} [Field K] (smallest : K) (pts : Nat → Pt K) (toShape1 : V3 K → V3 K) (first : Nat) : Keys K where
  dir p := (⟨1, 1, 1⟩ : V3 K).dot (pts p).local1
  dist p q := ((pts p).local1 - (pts q).local1).lengthSq
  area e a b := (((pts a).local1 - (pts e).local1).cross ((pts b).local1 - (pts e).local1)).dot (toShape1 (pts first).normal)
  smallest := smallest
  zero := 0
  neg x := -x

/-- The values compared by `reducePotentialContactManifolds`; `thr` is `SAME_CONTACT_POINT_DISTANCE_THRESHOLD` (configuration.h:146), the
test of line 1691-1694. -/
def dataOf {K : Type} [Field K] [LinearOrder K] (big smallest thr : K) (pts : Nat → Pt K) (toShape1 : V3 K → V3 K) : Data K where
  big := big
  zero := 0
  depth p := (pts p).depth
  keys := keysOf smallest pts toShape1
  near p q := decide (((pts q).local1 - (pts p).local1).lengthSq < thr * thr)

end Contacts
end RP3D
