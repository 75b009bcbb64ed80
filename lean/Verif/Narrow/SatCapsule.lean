import Verif.Narrow.Sat

/-!
Model of the separating axis test of a capsule against a convex polyhedron (src/collision/narrowphase/SAT/SATAlgorithm.cpp:165-481) and of what
`CapsuleVsConvexPolyhedronAlgorithm` does with a shallow contact (src/collision/narrowphase/CapsuleVsConvexPolyhedronAlgorithm.cpp:85-158), one
item of a batch at a time.

The simplifications are those of `Narrow/Sat`. The capsule has the half height `hh` and the radius `r`.
-/

namespace RP3D
namespace Sat
open Geom Shape
variable {K : Type} [Field K] [LinearOrder K]

/-- `capsuleSegA` and `capsuleSegB` (SATAlgorithm.cpp:187-188). -/
def segA (hh : K) : V3 K := ⟨0, -hh, 0⟩
def segB (hh : K) : V3 K := ⟨0, hh, 0⟩

/-- `CapsuleShape::getLocalSupportPointWithMargin` (ConvexShape.cpp:40-56, CapsuleShape.h:191-206). -/
def capSupport (N : Num K) (hh r : K) (d : V3 K) : V3 K := withMargin N.eps N.sqrt r (capsuleSupport hh) d

/-- `computePolyhedronFaceVsCapsulePenetrationDepth` (SATAlgorithm.cpp:357-377): the depth; the normal in the space of the capsule is
`t.ori.rot (P.normal f)`. `t` maps the space of the polyhedron to that of the capsule. -/
def capFaceDepth (N : Num K) (P : Poly K) (hh r : K) (t : Trans K) (f : Nat) : K :=
  let n := t.ori.rot (P.normal f)
  (t.act (P.first f) - capSupport N hh r (-n)).dot n

/-- `isMinkowskiFaceCapsuleVsEdge` (SATAlgorithm.cpp:476-482) of a half-edge. -/
def capMinkowski (P : Poly K) (hh : K) (t : Trans K) (e : Nat) : Bool :=
  decide ((segB hh - segA hh).dot (t.ori.rot (P.faceN e)) * (segB hh - segA hh).dot (t.ori.rot (P.twinN e)) < 0)

/-- `computeEdgeVsCapsuleInnerSegmentPenetrationDepth` (SATAlgorithm.cpp:322-354): the depth and the axis. -/
def capEdge (N : Num K) (P : Poly K) (hh r : K) (t : Trans K) (e : Nat) : K × V3 K :=
  let axis := (segB hh - segA hh).cross (t.ori.rot (P.endOf e - P.startOf e))
  if N.par ≤ axis.lengthSq then
    let p := t.act (P.startOf e)
    let out := if axis.dot (p - t.act P.centroid) < 0 then -axis else axis
    let u := unit N.eps N.sqrt out
    ((p - capSupport N hh r (-u)).dot u, u)
  else (N.large, axis)

/-- Which axis has the least depth so far: none, the normal of a face or the product of the segment and an edge. -/
inductive CapAxis
  | start
  | face (f : Nat)
  | edge (e : Nat)
deriving DecidableEq, Repr

/-- `minPenetrationDepth`, `isMinPenetrationFaceNormal` with the index, and `separatingAxisCapsuleSpace`. -/
structure CapBest (K : Type) where
  depth : K
  axis : CapAxis
  dir : V3 K

/-- The loop over the faces (SATAlgorithm.cpp:200-221): `none` if a separating axis is found. -/
def capFaces (N : Num K) (P : Poly K) (hh r : K) (t : Trans K) : List Nat → CapBest K → Option (CapBest K)
  | [], b => some b
  | f :: fs, b =>
    let d := capFaceDepth N P hh r t f
    if d ≤ 0 then none else capFaces N P hh r t fs (if d < b.depth then ⟨d, .face f, t.ori.rot (P.normal f)⟩ else b)

/-- The loop over the edges (SATAlgorithm.cpp:224-262). -/
def capEdges (N : Num K) (P : Poly K) (hh r : K) (t : Trans K) : List Nat → CapBest K → Option (CapBest K)
  | [], b => some b
  | e :: es, b =>
    if capMinkowski P hh t e then
      let d := capEdge N P hh r t e
      if d.1 ≤ 0 then none else capEdges N P hh r t es (if d.1 < b.depth then ⟨d.1, .edge e, d.2⟩ else b)
    else capEdges N P hh r t es b

def capSearch (N : Num K) (P : Poly K) (hh r : K) (t : Trans K) : Option (CapBest K) :=
  (capFaces N P hh r t (List.range P.nf) ⟨N.large, .start, 0⟩).bind (capEdges N P hh r t (evens P.ne))

/-- The do-while loop that makes the clipping planes of a face (SATAlgorithm.cpp:399-421): points and normals; `none` if `fuel` half-edges are
passed without coming back to the first one. -/
def capPlanes (P : Poly K) (n : V3 K) (firstEdge : Nat) : Nat → Nat → Option (List (V3 K × V3 K))
  | 0, _ => none
  | fuel + 1, cur =>
    let pl := (P.startOf cur, n.cross (P.twinStart cur - P.startOf cur))
    if (P.edge cur).next = firstEdge then some [pl] else (capPlanes P n firstEdge fuel (P.edge cur).next).map (pl :: ·)

/-- `computeCapsulePolyhedronFaceContactPoints` (SATAlgorithm.cpp:381-471): are contact points found, and the contact points. `depth` is
`penetrationDepth`, `nw` is `normalWorld`, `axis` is `separatingAxisCapsuleSpace`, `a` and `b` are the ends of the inner segment in the space of the
polyhedron, `first` is `isCapsuleShape1`. -/
def capContacts (N : Num K) (P : Poly K) (f : Nat) (r depth : K) (t : Trans K) (nw axis a b : V3 K) (first : Bool) :
    Option (Bool × List (Round.Contact K)) :=
  match capPlanes P (P.normal f) (P.faceEdge f) P.ne (P.faceEdge f) with
  | none => none
  | some planes =>
    match clipSegment N.plane a b planes with
    | none => none
    | some pts =>
      let n := P.normal f
      let low := pts.filter fun x => decide (depth - r - 1 / 1000 < (P.startOf (P.faceEdge f) - x).dot n)
      some (decide (low ≠ []), low.map fun x =>
        let pp := x + V3.smul (depth - r) n
        let pc := t.act x - V3.smul r axis
        (⟨nw, depth, if first then pc else pp, if first then pp else pc⟩ : Round.Contact K))

/-- The contact of the inner segment and an edge (SATAlgorithm.cpp:290-313). -/
def capEdgeContact (N : Num K) (P : Poly K) (e : Nat) (r depth : K) (t : Trans K) (nw axis a b : V3 K) (first : Bool) : Round.Contact K :=
  let c := closestSegments N.eps a b (P.startOf e) (P.endOf e)
  let pc := t.act c.1 - V3.smul r axis
  ⟨nw, depth, if first then pc else c.2, if first then c.2 else pc⟩

/-- `testCollisionCapsuleVsConvexPolyhedron` (SATAlgorithm.cpp:165-319); `wc`, `wp` are the transforms of the capsule and of the polyhedron, `first` is
`isCapsuleShape1`. If no depth is below `DECIMAL_LARGEST` the axis is not set (`none`). -/
def capsule (N : Num K) (P : Poly K) (wc wp : Trans K) (hh r : K) (first report : Bool) : Option (Bool × List (Round.Contact K)) :=
  let t := wc.inverse.mul wp
  match capSearch N P hh r t with
  | none => some (false, [])
  | some b =>
    let sa := t.inverse.act (segA hh)
    let sb := t.inverse.act (segB hh)
    let nw := if first then -(wc.ori.rot b.dir) else wc.ori.rot b.dir
    match b.axis with
    | .start => none
    | .face f => if report then capContacts N P f r b.depth t nw b.dir sa sb first else some (true, [])
    | .edge e => some (true, if report then [capEdgeContact N P e r b.depth t nw b.dir sa sb first] else [])

/-- Is the face taken for two contacts instead of the contact `c` of GJK (CapsuleVsConvexPolyhedronAlgorithm.cpp:108-125)? The bound 0.001 is that of
`areOrthogonalVectors` (mathematics_functions.h:82-84). -/
def shallowFace (N : Num K) (P : Poly K) (wc wp : Trans K) (hh : K) (first : Bool) (c : Round.Contact K) (f : Nat) : Bool :=
  let n := wp.ori.rot (P.normal f)
  let d := unit N.eps N.sqrt (wc.ori.rot (segB hh - segA hh))
  decide (((first = true ∧ ¬ 0 < n.dot c.normal) ∨ (first = false ∧ 0 < n.dot c.normal)) ∧ |n.dot d| < 1 / 1000) && parallel N n c.normal

/-- The loop over the faces for a shallow contact (CapsuleVsConvexPolyhedronAlgorithm.cpp:85-158): the contacts reported. -/
def shallowLoop (N : Num K) (P : Poly K) (wc wp : Trans K) (hh r : K) (first : Bool) (c : Round.Contact K) : List Nat → Option (List (Round.Contact K))
  | [] => some [c]
  | f :: fs =>
    if shallowFace N P wc wp hh first c f then
      let t := wc.inverse.mul wp
      let n := wp.ori.rot (P.normal f)
      match capContacts N P f r c.depth t (if first then -n else n) (t.ori.rot (P.normal f)) (t.inverse.act (segA hh)) (t.inverse.act (segB hh)) first with
      | none => none
      | some (found, cs) => if found then some cs else shallowLoop N P wc wp hh r first c fs
    else shallowLoop N P wc wp hh r first c fs

def shallow (N : Num K) (P : Poly K) (wc wp : Trans K) (hh r : K) (first : Bool) (c : Round.Contact K) : Option (List (Round.Contact K)) :=
  shallowLoop N P wc wp hh r first c (List.range P.nf)

end Sat
end RP3D
