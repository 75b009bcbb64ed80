import Verif.Math.Vec3

/-!
Model of the geometric functions of include/reactphysics3d/mathematics/mathematics_functions.h over an ordered field (no rounding).
`MACHINE_EPSILON` and the other constants are parameters.
-/

namespace RP3D
namespace Geom

variable {K : Type} [Field K] [LinearOrder K]

/-- `clamp` (mathematics_functions.h:55-58). -/
def clamp (v lo hi : K) : K := min (max v lo) hi

/-- `computeClosestPointOnSegment` (mathematics_functions.h:96-118). -/
def closestOnSegment (eps : K) (a b c : V3 K) : V3 K :=
  let ab := b - a
  let len := ab.lengthSq
  if len < eps then a
  else
    let t := (c - a).dot ab / len
    let t := if t < 0 then 0 else t
    let t := if t > 1 then 1 else t
    a + V3.smul t ab

/-- The parameters `s` and `t` of `computeClosestPointBetweenTwoSegments` for two segments that are not points
(mathematics_functions.h:161-191). -/
def closestParams (a b c e f : K) : K × K :=
  let denom := a * e - b * b
  let s := if denom ≠ 0 then clamp ((b * f - c * e) / denom) 0 1 else 0
  let t := (b * s + f) / e
  if t < 0 then (clamp (-c / a) 0 1, 0)
  else if t > 1 then (clamp ((b - c) / a) 0 1, 1)
  else (s, t)

/-- `computeClosestPointBetweenTwoSegments` (mathematics_functions.h:123-198). -/
def closestSegments (eps : K) (p1 q1 p2 q2 : V3 K) : V3 K × V3 K :=
  let d1 := q1 - p1
  let d2 := q2 - p2
  let r := p1 - p2
  let a := d1.lengthSq
  let e := d2.lengthSq
  let f := d2.dot r
  if a ≤ eps ∧ e ≤ eps then (p1, p2)
  else
    let st : K × K :=
      if a ≤ eps then (0, clamp (f / e) 0 1)
      else
        let c := d1.dot r
        if e ≤ eps then (clamp (-c / a) 0 1, 0) else closestParams a (d1.dot d2) c e f
    (p1 + V3.smul st.1 d1, p2 + V3.smul st.2 d2)

/-- `computeBarycentricCoordinatesInTriangle` (mathematics_functions.h:203-219): `u`, `v`, `w`. A zero denominator is undefined. -/
def barycentric (a b c p : V3 K) : Option (K × K × K) :=
  let v0 := b - a
  let v1 := c - a
  let v2 := p - a
  let d00 := v0.dot v0
  let d01 := v0.dot v1
  let d11 := v1.dot v1
  let d20 := v2.dot v0
  let d21 := v2.dot v1
  let denom := d00 * d11 - d01 * d01
  if denom = 0 then none
  else
    let v := (d11 * d20 - d01 * d21) / denom
    let w := (d00 * d21 - d01 * d20) / denom
    some (1 - v - w, v, w)

/-- `computePlaneSegmentIntersection` (mathematics_functions.h:226-239); `eps` is `parallelEpsilon`. -/
def planeSegment (eps : K) (segA segB : V3 K) (planeD : K) (n : V3 K) : K :=
  let nDotAB := n.dot (segB - segA)
  if |nDotAB| > eps then (planeD - n.dot segA) / nDotAB else -1

/-- One plane of `clipSegmentWithPlanes` (mathematics_functions.h:279-322). -/
def clipSegmentPlane (eps : K) (v1 v2 point n : V3 K) : List (V3 K) :=
  let d1 := (v1 - point).dot n
  let d2 := (v2 - point).dot n
  if d2 ≥ 0 then
    if d1 < 0 then
      let t := planeSegment eps v1 v2 (n.dot point) n
      if t ≥ 0 ∧ t ≤ 1 then [v1 + V3.smul t (v2 - v1), v2] else [v2, v2]
    else [v1, v2]
  else if d1 ≥ 0 then
    let t := planeSegment eps v1 v2 (-n.dot point) (-n)
    if t ≥ 0 ∧ t ≤ 1 then [v1, v1 + V3.smul t (v2 - v1)] else [v1]
  else []

/-- The loop of `clipSegmentWithPlanes` (mathematics_functions.h:268-327) from the state `input`; reading the second vertex of a
list of one is undefined. -/
def clipSegmentLoop (eps : K) : List (V3 K) → List (V3 K × V3 K) → Option (List (V3 K))
  | input, [] => some input
  | [], _ :: _ => some []
  | [_], _ :: _ => none
  | v1 :: v2 :: _, (p, n) :: ps => clipSegmentLoop eps (clipSegmentPlane eps v1 v2 p n) ps

/-- `clipSegmentWithPlanes` (mathematics_functions.h:256-328): without planes the empty output array is returned. -/
def clipSegment (eps : K) (segA segB : V3 K) (planes : List (V3 K × V3 K)) : Option (List (V3 K)) :=
  match planes with
  | [] => some []
  | _ :: _ => clipSegmentLoop eps [segA, segB] planes

/-- One edge of `clipPolygonWithPlane` (mathematics_functions.h:348-388): the vertices added to the output. -/
def clipEdge (eps : K) (point n vStart vEnd : V3 K) : List (V3 K) :=
  let dS := (vStart - point).dot n
  let dE := (vEnd - point).dot n
  if dE ≥ 0 then
    (if dS < 0 then
      let t := planeSegment eps vStart vEnd (n.dot point) n
      if t ≥ 0 ∧ t ≤ 1 then [vStart + V3.smul t (vEnd - vStart)] else [vEnd]
    else []) ++ [vEnd]
  else if dS ≥ 0 then
    let t := planeSegment eps vStart vEnd (-n.dot point) (-n)
    if t ≥ 0 ∧ t ≤ 1 then [vStart + V3.smul t (vEnd - vStart)] else [vStart]
  else []

def clipPolygonLoop (eps : K) (point n : V3 K) : V3 K → List (V3 K) → List (V3 K)
  | _, [] => []
  | vStart, vEnd :: vs => clipEdge eps point n vStart vEnd ++ clipPolygonLoop eps point n vEnd vs

/-- `clipPolygonWithPlane` (mathematics_functions.h:332-393). The array index of an empty polygon is undefined. -/
def clipPolygon (eps : K) (poly : List (V3 K)) (point n : V3 K) : Option (List (V3 K)) :=
  match poly.getLast? with
  | none => none
  | some vStart => some (clipPolygonLoop eps point n vStart poly)

/-- `projectPointOntoPlane` and `computePointToPlaneDistance` (mathematics_functions.h:396-403). -/
def projectOnPlane (point n planePoint : V3 K) : V3 K := point - V3.smul (n.dot (point - planePoint)) n
def planeDistance (point n planePoint : V3 K) : K := n.dot (point - planePoint)

end Geom
end RP3D
