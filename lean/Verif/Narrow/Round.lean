import Verif.Math.Rigid
import Verif.Math.Geometry
import Verif.Shapes.Points

/-!
Model of the tests of spheres and capsules (src/collision/narrowphase/SphereVsSphereAlgorithm.cpp, SphereVsCapsuleAlgorithm.cpp,
CapsuleVsCapsuleAlgorithm.cpp), one item of a batch at a time. Simplifications: exact arithmetic; the square root is an argument. The result is
`isColliding` and the contact points added (`addContactPoint`, NarrowPhaseInfoBatch.h:170-185; at most two, so the array is never full).
-/

namespace RP3D
namespace Round
open Geom Shape
variable {K : Type} [Field K] [LinearOrder K]

/-- `ContactPointInfo`: normal in world space, penetration depth, points in the local spaces of the two shapes. -/
@[ext] structure Contact (K : Type) where
  normal : V3 K
  depth : K
  p1 : V3 K
  p2 : V3 K
deriving DecidableEq, Repr

/-- `MACHINE_EPSILON`, the bound 0.00001 of `areParallelVectors`, `parallelEpsilon` and the square root. -/
structure Num (K : Type) where
  eps : K
  par : K
  plane : K
  sqrt : K → K

/-- `SphereVsSphereAlgorithm::testCollision` (SphereVsSphereAlgorithm.cpp:34-113). -/
def sphereSphere (N : Num K) (t1 t2 : Trans K) (r1 r2 : K) (report : Bool) : Bool × List (Contact K) :=
  let v := t2.pos - t1.pos
  let d := v.lengthSq
  let sum := r1 + r2
  if d < sum * sum then
    let depth := sum - N.sqrt d
    if 0 < depth then
      (true, if report then
        if N.eps < d then
          [⟨unit N.eps N.sqrt v, depth, V3.smul r1 (unit N.eps N.sqrt (t1.inverse.act t2.pos)), V3.smul r2 (unit N.eps N.sqrt (t2.inverse.act t1.pos))⟩]
        else
          let n : V3 K := ⟨0, 1, 0⟩
          [⟨n, depth, V3.smul r1 (t1.inverse.ori.rot n), V3.smul r2 (t2.inverse.ori.rot n)⟩]
       else [])
    else (false, [])
  else (false, [])

/-- `SphereVsCapsuleAlgorithm::testCollision` (SphereVsCapsuleAlgorithm.cpp:38-152); `ts`, `tc` are the transforms of the sphere and of the capsule,
`first` is `isSphereShape1`. -/
def sphereCapsule (N : Num K) (ts tc : Trans K) (rs rc height : K) (first report : Bool) : Bool × List (Contact K) :=
  let s2c := tc.inverse.mul ts
  let center := s2c.pos
  let half := height * (1 / 2)
  let segA : V3 K := ⟨0, -half, 0⟩
  let segB : V3 K := ⟨0, half, 0⟩
  let closest := closestOnSegment N.eps segA segB center
  let v := closest - center
  let d := v.lengthSq
  let sum := rs + rc
  if d < sum * sum then
    if report then
      let r : V3 K × K × V3 K × V3 K :=
        if N.eps < d then
          let l := N.sqrt d
          let u := V3.smul (1 / l) v
          let n := tc.ori.rot u
          (if first then n else -n, sum - l, s2c.inverse.act (center + V3.smul rs u), closest - V3.smul rc u)
        else
          let seg := unit N.eps N.sqrt (segB - segA)
          let n := if |seg.x| < |seg.y| then seg.cross ⟨1, 0, 0⟩ else seg.cross ⟨0, 1, 0⟩
          (tc.ori.rot n, sum, s2c.inverse.act (center + V3.smul rs n), center - V3.smul rc n)
      if r.2.1 ≤ 0 then (false, [])
      else (true, [⟨r.1, r.2.1, if first then r.2.2.1 else r.2.2.2, if first then r.2.2.2 else r.2.2.1⟩])
    else (true, [])
  else (false, [])

/-- `areParallelVectors` (mathematics_functions.h:76-78). -/
def parallel (N : Num K) (a b : V3 K) : Prop := (a.cross b).lengthSq < N.par
instance (N : Num K) (a b : V3 K) : Decidable (parallel N a b) := by unfold parallel; infer_instance

/-- `computePointToLineDistance` (mathematics_functions.h:242-251). -/
def lineDistance (N : Num K) (a b p : V3 K) : K :=
  let l := N.sqrt (b - a).lengthSq
  if l < N.eps then N.sqrt (p - a).lengthSq else N.sqrt ((p - a).cross (p - b)).lengthSq / l

/-- A vector at right angles to the inner segment of capsule 2 (CapsuleVsCapsuleAlgorithm.cpp:133-151). -/
def anyNormal (N : Num K) (seg2 : V3 K) : V3 K :=
  let u := unit N.eps N.sqrt seg2
  if |u.x| < |u.y| then u.cross ⟨1, 0, 0⟩ else u.cross ⟨0, 1, 0⟩

/-- The contacts of two parallel capsules (CapsuleVsCapsuleAlgorithm.cpp:106-174), in the space of capsule 2: the ends `a1`, `b1` and `a2`, `b2` of the inner segments, the
distance of the two lines, the parameters `u1`, `u2` of the clipping. -/
def parallelContacts (N : Num K) (t2 c12 : Trans K) (r1 r2 : K) (a1 b1 a2 b2 : V3 K) (dist u1 u2 : K) : List (Contact K) :=
  let seg1 := b1 - a1
  let seg2 := b2 - a2
  let clipA := b2 - V3.smul (if 1 < u1 then 1 else u1) seg2
  let clipB := a2 + V3.smul (if 1 < u2 then 1 else u2) seg2
  let e := unit N.eps N.sqrt seg1
  let foot := a1 + V3.smul (e.dot (a2 - a1)) e
  let v := if N.eps < dist then a2 - foot else 0
  let n := if N.eps < dist then unit N.eps N.sqrt (a2 - foot) else anyNormal N seg2
  let depth := r1 + r2 - dist
  let world := t2.ori.rot n
  [⟨world, depth, c12.inverse.act (clipA - v + V3.smul r1 n), clipA - V3.smul r2 n⟩,
   ⟨world, depth, c12.inverse.act (clipB - v + V3.smul r1 n), clipB - V3.smul r2 n⟩]

/-- The contact at the closest points of the inner segments (CapsuleVsCapsuleAlgorithm.cpp:177-236). -/
def closestContact (N : Num K) (t2 c12 : Trans K) (r1 r2 : K) (a1 b1 a2 b2 : V3 K) (report : Bool) : Bool × List (Contact K) :=
  let c := closestSegments N.eps a1 b1 a2 b2
  let v := c.2 - c.1
  let d := v.lengthSq
  let sum := r1 + r2
  let mk := fun (n : V3 K) (depth : K) => (⟨t2.ori.rot n, depth, c12.inverse.act (c.1 + V3.smul r1 n), c.2 - V3.smul r2 n⟩ : Contact K)
  if d < sum * sum then
    (true, if report then
      if N.eps < d then
        let l := N.sqrt d
        [mk (V3.smul (1 / l) v) (max (sum - l) N.eps)]
      else if parallel N (b1 - a1) (b2 - a2) then
        let extreme := if N.eps < (a1 - c.2).lengthSq then a1 else b1
        [mk (unit N.eps N.sqrt (c.2 - extreme)) sum]
      else [mk (unit N.eps N.sqrt ((b1 - a1).cross (b2 - a2))) sum]
     else [])
  else (false, [])

/-- `CapsuleVsCapsuleAlgorithm::testCollision` (CapsuleVsCapsuleAlgorithm.cpp:37-243). -/
def capsuleCapsule (N : Num K) (t1 t2 : Trans K) (r1 height1 r2 height2 : K) (report : Bool) : Bool × List (Contact K) :=
  let c12 := t2.inverse.mul t1
  let a1 := c12.act ⟨0, -(height1 * (1 / 2)), 0⟩
  let b1 := c12.act ⟨0, height1 * (1 / 2), 0⟩
  let a2 : V3 K := ⟨0, -(height2 * (1 / 2)), 0⟩
  let b2 : V3 K := ⟨0, height2 * (1 / 2), 0⟩
  let seg1 := b1 - a1
  let seg2 := b2 - a2
  if parallel N seg1 seg2 then
    let dist := lineDistance N a1 b1 a2
    if r1 + r2 ≤ dist then (false, [])
    else
      let u1 := planeSegment N.plane b2 a2 (seg1.dot a1) seg1
      let u2 := planeSegment N.plane a2 b2 (-(seg1.dot b1)) (-seg1)
      if 0 < u1 ∧ 0 < u2 then (true, if report then parallelContacts N t2 c12 r1 r2 a1 b1 a2 b2 dist u1 u2 else [])
      else closestContact N t2 c12 r1 r2 a1 b1 a2 b2 report
  else closestContact N t2 c12 r1 r2 a1 b1 a2 b2 report

end Round
end RP3D
