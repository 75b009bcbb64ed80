import Verif.Narrow.Round
import Verif.Mesh.HalfEdge

/-!
Model of the separating axis test (src/collision/narrowphase/SAT/SATAlgorithm.cpp) of a sphere against a convex polyhedron and of two convex
polyhedra, one item of a batch at a time.

Simplifications: exact arithmetic; the square root is an argument. `TriangleShape::computeSmoothTriangleMeshContact` is left out: it changes nothing
unless one of the shapes is a triangle. A convex polyhedron is the record of what the algorithm reads through the interface
`ConvexPolyhedronShape`; indices are not checked. An endless loop or a broken assertion is `none`.
-/

namespace RP3D
namespace Sat
open Geom Shape
variable {K : Type} [Field K] [LinearOrder K]

/-- What is read of a `ConvexPolyhedronShape` (ConvexPolyhedronShape.h:55-100): the numbers of vertices, of faces and of half-edges, `getVertexPosition`,
`getFaceNormal`, `getFace` (`faceVertices` and `edgeIndex`), `getHalfEdge`, `getCentroid`, whether it is a `TriangleShape`
(`getName() == TRIANGLE`) and `getLocalSupportPointWithoutMargin`. -/
structure Poly (K : Type) where
  nv : Nat
  nf : Nat
  ne : Nat
  vert : Nat → V3 K
  normal : Nat → V3 K
  faceVerts : Nat → List Nat
  faceEdge : Nat → Nat
  edge : Nat → Mesh.HEdge
  centroid : V3 K
  tri : Bool
  support : V3 K → V3 K

/-- `MACHINE_EPSILON`, the bound 0.00001 of `areParallelVectors` (mathematics_functions.h:76-78), `parallelEpsilon`
(mathematics_functions.h:228), `DECIMAL_LARGEST`, `SEPARATING_AXIS_RELATIVE_TOLERANCE` and `SEPARATING_AXIS_ABSOLUTE_TOLERANCE`
(SATAlgorithm.cpp:45-46), and the square root. -/
structure Num (K : Type) where
  eps : K
  par : K
  plane : K
  large : K
  rel : K
  abs : K
  sqrt : K → K

namespace Poly
variable (P : Poly K)

/-- The vertex `faceVertices[0]` of a face. -/
def first (f : Nat) : V3 K := P.vert ((P.faceVerts f).headD 0)
/-- The vertex at which a half-edge starts, and that of the next half-edge, at which it ends. -/
def startOf (e : Nat) : V3 K := P.vert (P.edge e).vertex
def endOf (e : Nat) : V3 K := P.vert (P.edge (P.edge e).next).vertex
/-- The vertex at which the twin of a half-edge starts. -/
def twinStart (e : Nat) : V3 K := P.vert (P.edge (P.edge e).twin).vertex
/-- The normals of the face of a half-edge and of the face of its twin. -/
def faceN (e : Nat) : V3 K := P.normal (P.edge e).face
def twinN (e : Nat) : V3 K := P.normal (P.edge (P.edge e).twin).face

/-- `findMostAntiParallelFace` (ConvexPolyhedronShape.h:105-123). -/
def antiParallelLoop (d : V3 K) : List Nat → K × Nat → K × Nat
  | [], s => s
  | f :: fs, s => antiParallelLoop d fs (if (P.normal f).dot d < s.1 then ((P.normal f).dot d, f) else s)

def antiParallel (N : Num K) (d : V3 K) : Nat := (P.antiParallelLoop d (List.range P.nf) (N.large, 0)).2

end Poly

/-- The loops over the faces (SATAlgorithm.cpp:97-115 and 1120-1141): the first face whose depth is not positive ends the loop, otherwise the
smallest depth is kept. -/
def scan (depth : Nat → K) : List Nat → K × Nat → K × Nat
  | [], s => s
  | f :: fs, s => if depth f ≤ 0 then (depth f, f) else scan depth fs (if depth f < s.1 then (depth f, f) else s)

/-- `computePolyhedronFaceVsSpherePenetrationDepth` (SATAlgorithm.cpp:146-162). -/
def sphereDepth (P : Poly K) (center : V3 K) (r : K) (f : Nat) : K := (P.first f - center).dot (P.normal f) + r

/-- `testCollisionSphereVsConvexPolyhedron` (SATAlgorithm.cpp:57-151); `ts`, `tp` are the transforms of the sphere and of the polyhedron, `first`
is `isSphereShape1`. -/
def sphere (N : Num K) (P : Poly K) (ts tp : Trans K) (r : K) (first report : Bool) : Bool × List (Round.Contact K) :=
  let center := (tp.inverse.mul ts).pos
  let m := scan (sphereDepth P center r) (List.range P.nf) (N.large, 0)
  if m.1 ≤ 0 then (false, [])
  else
    (true, if report then
      let n := P.normal m.2
      let nw := tp.ori.rot n
      let cs := ts.inverse.ori.rot (V3.smul r (-nw))
      let cp := center + V3.smul (m.1 - r) n
      [⟨if first then -nw else nw, m.1, if first then cs else cp, if first then cp else cs⟩]
     else [])

/-- `testSingleFaceDirectionPolyhedronVsPolyhedron` (SATAlgorithm.cpp:1087-1110). -/
def faceDepth (P1 P2 : Poly K) (t : Trans K) (f : Nat) : K :=
  let n := t.ori.rot (P1.normal f)
  (t.act (P1.first f) - P2.support (-n)).dot n

/-- `testFacesDirectionPolyhedronVsPolyhedron` (SATAlgorithm.cpp:1113-1142). -/
def facesDepth (N : Num K) (P1 P2 : Poly K) (t : Trans K) : K × Nat := scan (faceDepth P1 P2 t) (List.range P1.nf) (N.large, 0)

/-- `testGaussMapArcsIntersect` (SATAlgorithm.cpp:1180-1191). -/
def arcs (a b c d bCrossA dCrossC : V3 K) : Bool :=
  decide (c.dot bCrossA * d.dot bCrossA < 0 ∧ a.dot dCrossC * b.dot dCrossC < 0 ∧ 0 < c.dot bCrossA * b.dot dCrossC)

/-- `testEdgesBuildMinkowskiFace` (SATAlgorithm.cpp:1146-1172). -/
def minkowski (P1 P2 : Poly K) (t : Trans K) (i j : Nat) : Bool :=
  arcs (t.ori.rot (P1.faceN i)) (t.ori.rot (P1.twinN i)) (-P2.faceN j) (-P2.twinN j)
    (t.ori.rot (P1.startOf i - P1.twinStart i)) (P2.startOf j - P2.twinStart j)

/-- `areParallelVectors` (mathematics_functions.h:76-78). -/
def parallel (N : Num K) (u v : V3 K) : Bool := decide ((u.cross v).lengthSq < N.par)

/-- `computeDistanceBetweenEdges` (SATAlgorithm.cpp:1040-1083): the depth and the axis; the axis is not written if the edges are parallel. -/
def edgeDistance (N : Num K) (e1A e2A c1 c2 d1 d2 : V3 K) (tri : Bool) : K × V3 K :=
  if parallel N d1 d2 then (N.large, 0)
  else
    let u := unit N.eps N.sqrt (d1.cross d2)
    let dot := if tri then u.dot (e2A - c2) else u.dot (c1 - e1A)
    let axis := if 0 < dot then -u else u
    (-(axis.dot (e2A - e1A)), axis)

/-- Its arguments for the edges `i` and `j` (SATAlgorithm.cpp:606-625 and 752-775). -/
def edgeDepth (N : Num K) (P1 P2 : Poly K) (t : Trans K) (i j : Nat) : K × V3 K :=
  edgeDistance N (t.act (P1.startOf i)) (P2.startOf j) (t.act P1.centroid) P2.centroid
    (t.act (P1.endOf i) - t.act (P1.startOf i)) (P2.endOf j - P2.startOf j) P1.tri

/-- Which axis: `satIsAxisFacePolyhedron1`, `satIsAxisFacePolyhedron2`, `satMinAxisFaceIndex`, `satMinEdge1Index`, `satMinEdge2Index` of the
`LastFrameCollisionInfo` (OverlappingPairs.h:79-84). -/
inductive Axis
  | face1 (f : Nat)
  | face2 (f : Nat)
  | edges (i j : Nat)
deriving DecidableEq, Repr

/-- The indices are stored in fields of type `uint8` (OverlappingPairs.h:82-84). -/
def Axis.stored : Axis → Axis
  | .face1 f => .face1 (f % 256)
  | .face2 f => .face2 (f % 256)
  | .edges i j => .edges (i % 256) (j % 256)

def Axis.isFace : Axis → Bool
  | .edges _ _ => false
  | _ => true

/-- `minPenetrationDepth`, the axis and `minEdgeVsEdgeSeparatingAxisPolyhedron2Space`. -/
structure Best (K : Type) where
  depth : K
  axis : Axis
  dir : V3 K

inductive Found (K : Type)
  | separated (a : Axis)
  | best (b : Best K)

/-- SATAlgorithm.cpp:789-809: is the axis of two edges taken? -/
def better (N : Num K) (d : K) (b : Best K) : Bool :=
  decide ((b.axis.isFace = true ∧ d * N.rel + N.abs < b.depth) ∨ (b.axis.isFace = false ∧ d < b.depth))

/-- The loops over the edges (SATAlgorithm.cpp:746-820). -/
def edgeScan (N : Num K) (P1 P2 : Poly K) (t : Trans K) : List (Nat × Nat) → Best K → Found K
  | [], b => .best b
  | (i, j) :: ps, b =>
    if minkowski P1 P2 t i j then
      let r := edgeDepth N P1 P2 t i j
      if r.1 ≤ 0 then .separated (.edges i j)
      else edgeScan N P1 P2 t ps (if better N r.1 b then ⟨r.1, .edges i j, r.2⟩ else b)
    else edgeScan N P1 P2 t ps b

/-- The indices of the edges: `i = 0, 2, …` (SATAlgorithm.cpp:749 and 758). -/
def evens (n : Nat) : List Nat := (List.range ((n + 1) / 2)).map (2 * ·)

def pairs (n1 n2 : Nat) : List (Nat × Nat) := (evens n1).flatMap fun i => (evens n2).map fun j => (i, j)

/-- The search of the axis of minimum depth (SATAlgorithm.cpp:691-820); `t12` maps the space of the first polyhedron to that of the second,
`t21` back. -/
def search (N : Num K) (P1 P2 : Poly K) (t12 t21 : Trans K) : Found K :=
  let r1 := facesDepth N P1 P2 t12
  if r1.1 ≤ 0 then .separated (.face1 r1.2)
  else
    let r2 := facesDepth N P2 P1 t21
    if r2.1 ≤ 0 then .separated (.face2 r2.2)
    else
      let b : Best K := if r1.1 < r2.1 * N.rel + N.abs then ⟨min r1.1 r2.1, .face1 r1.2, 0⟩ else ⟨min r1.1 r2.1, .face2 r2.2, 0⟩
      edgeScan N P1 P2 t12 (pairs P1.ne P2.ne) b

/-- The do-while loop that clips the incident face with the planes of the edges of the reference face (SATAlgorithm.cpp:951-989); `none` if
`fuel` half-edges are passed without coming back to the first one. -/
def clipLoop (N : Num K) (R : Poly K) (n : V3 K) (firstEdge : Nat) : Nat → Nat → List (V3 K) → Option (List (V3 K))
  | 0, _, _ => none
  | fuel + 1, cur, poly =>
    match clipPolygon N.plane poly (R.startOf cur) (n.cross (R.endOf cur - R.startOf cur)) with
    | none => none
    | some out => if (R.edge cur).next ≠ firstEdge ∧ out ≠ [] then clipLoop N R n firstEdge fuel (R.edge cur).next out else some out

/-- The incident face in the space of the reference polyhedron, clipped (SATAlgorithm.cpp:914-992). -/
def clipped (N : Num K) (R I : Poly K) (tRI tIR : Trans K) (f : Nat) : Option (List (V3 K)) :=
  let n := R.normal f
  let inc := I.antiParallel N (tRI.ori.rot n)
  clipLoop N R n (R.faceEdge f) R.ne (R.faceEdge f) ((I.faceVerts inc).map fun v => tIR.act (I.vert v))

/-- `NB_MAX_CONTACT_POINTS_IN_NARROWPHASE_INFO` (configuration.h:134). -/
def maxContacts : Nat := 16

/-- `computePolyhedronVsPolyhedronFaceContactPoints` (SATAlgorithm.cpp:893-1036): are contact points found, and the contact points added.
`R` is the reference polyhedron, `world` its transform, `one` says that it is the first polyhedron. -/
def faceContacts (N : Num K) (R I : Poly K) (tRI tIR world : Trans K) (f : Nat) (one report : Bool) :
    Option (Bool × List (Round.Contact K)) :=
  match clipped N R I tRI tIR f with
  | none => none
  | some pts =>
    let n := R.normal f
    let nw := if one then world.ori.rot n else -(world.ori.rot n)
    let rv := R.startOf (R.faceEdge f)
    let low := pts.filter fun x => decide (0 < (rv - x).dot n)
    some (decide (low ≠ []), if report then
      (low.map fun x =>
        let pi := tRI.act x
        let pr := projectOnPlane x n rv
        (⟨nw, (rv - x).dot n, if one then pr else pi, if one then pi else pr⟩ : Round.Contact K)).take maxContacts
      else [])

/-- The closest points of the edges (SATAlgorithm.cpp:640-642 and 856-859). -/
def edgePoints (N : Num K) (P1 P2 : Poly K) (t : Trans K) (i j : Nat) : V3 K × V3 K :=
  closestSegments N.eps (t.act (P1.startOf i)) (t.act (P1.endOf i)) (P2.startOf j) (P2.endOf j)

/-- The contact of two edges (SATAlgorithm.cpp:657-676 and 853-876). -/
def edgeContact (N : Num K) (P1 P2 : Poly K) (t12 t21 w2 : Trans K) (i j : Nat) (depth : K) (dir : V3 K) (report : Bool) :
    List (Round.Contact K) :=
  if report then
    let c := edgePoints N P1 P2 t12 i j
    [⟨w2.ori.rot dir, depth, t21.act c.1, c.2⟩]
  else []

/-- What the test of a pair returns: `isColliding`, the contact points and the axis left in the `LastFrameCollisionInfo`. -/
structure Res (K : Type) where
  colliding : Bool
  contacts : List (Round.Contact K)
  axis : Axis

/-- The contacts for the axis found, and the result (SATAlgorithm.cpp:822-886). -/
def finish (N : Num K) (P1 P2 : Poly K) (w1 w2 : Trans K) (t12 t21 : Trans K) (report : Bool) : Found K → Option (Res K)
  | .separated a => some ⟨false, [], a.stored⟩
  | .best b =>
    match b.axis with
    | .face1 f => (faceContacts N P1 P2 t12 t21 w1 f true report).map fun r => ⟨r.1, r.2, (Axis.face1 f).stored⟩
    | .face2 f => (faceContacts N P2 P1 t21 t12 w2 f false report).map fun r => ⟨r.1, r.2, (Axis.face2 f).stored⟩
    | .edges i j => some ⟨true, edgeContact N P1 P2 t12 t21 w2 i j b.depth b.dir report, (Axis.edges i j).stored⟩

/-- The whole search and its contacts (SATAlgorithm.cpp:691-886). -/
def full (N : Num K) (P1 P2 : Poly K) (w1 w2 t12 t21 : Trans K) (report : Bool) : Option (Res K) :=
  finish N P1 P2 w1 w2 t12 t21 report (search N P1 P2 t12 t21)

/-- Do the closest points of the edges project into the other edge (SATAlgorithm.cpp:649-655)? -/
def edgesFace (N : Num K) (P1 P2 : Poly K) (t : Trans K) (i j : Nat) : Bool :=
  let c := edgePoints N P1 P2 t i j
  let e1A := t.act (P1.startOf i)
  let d1 := t.act (P1.endOf i) - e1A
  let e2A := P2.startOf j
  let d2 := P2.endOf j - e2A
  let t1 := (c.1 - e2A).dot d2 / d2.lengthSq
  let t2 := (c.2 - e1A).dot d1 / d1.lengthSq
  decide (0 ≤ t1 ∧ t1 ≤ 1 ∧ 0 ≤ t2 ∧ t2 ≤ 1)

/-- The axis of the last frame (SATAlgorithm.cpp:516-689): `some r` ends the test with `r`, `some none` runs the whole algorithm. `clip` is
`mClipWithPreviousAxisIfStillColliding`, `was` is `wasColliding`. -/
def previous (N : Num K) (P1 P2 : Poly K) (w1 w2 t12 t21 : Trans K) (report clip was : Bool) (a : Axis) : Option (Option (Res K)) :=
  match a with
  | .face1 f =>
    let d := faceDepth P1 P2 t12 f
    if was = false ∧ d ≤ 0 then some (some ⟨false, [], a⟩)
    else if was = true ∧ clip = true ∧ 0 < d then
      (faceContacts N P1 P2 t12 t21 w1 f true report).map fun r => if r.1 then some ⟨true, r.2, a⟩ else none
    else some none
  | .face2 f =>
    let d := faceDepth P2 P1 t21 f
    if was = false ∧ d ≤ 0 then some (some ⟨false, [], a⟩)
    else if was = true ∧ clip = true ∧ 0 < d then
      (faceContacts N P2 P1 t21 t12 w2 f false report).map fun r => if r.1 then some ⟨true, r.2, a⟩ else none
    else some none
  | .edges i j =>
    if minkowski P1 P2 t12 i j then
      let d := edgeDepth N P1 P2 t12 i j
      if was = false ∧ d.1 ≤ 0 then some (some ⟨false, [], a⟩)
      else if was = true ∧ clip = true ∧ 0 < d.1 ∧ d.1 < N.large then
        if edgesFace N P1 P2 t12 i j then some (some ⟨true, edgeContact N P1 P2 t12 t21 w2 i j d.1 d.2 report, a⟩) else some none
      else some none
    else some none

/-- `testCollisionConvexPolyhedronVsConvexPolyhedron` (SATAlgorithm.cpp:485-889) of one pair. `last` is the axis and `wasColliding` of the last
frame if its info is valid and was written by this algorithm; `w1`, `w2` are the transforms of the two shapes. -/
def polyhedra (N : Num K) (P1 P2 : Poly K) (w1 w2 : Trans K) (report clip : Bool) (last : Option (Axis × Bool)) : Option (Res K) :=
  let t12 := w2.inverse.mul w1
  let t21 := t12.inverse
  match last with
  | none => full N P1 P2 w1 w2 t12 t21 report
  | some (a, was) =>
    match previous N P1 P2 w1 w2 t12 t21 report clip was a with
    | none => none
    | some (some r) => some r
    | some none => full N P1 P2 w1 w2 t12 t21 report

/-! ### The box -/

/-- The half-edge structure shared by all boxes (`PhysicsCommon::initBoxShapeHalfEdgeStructure`, PhysicsCommon.cpp:73-109). -/
def boxFaces : List (List Nat) := [[0, 1, 2, 3], [1, 5, 6, 2], [4, 7, 6, 5], [4, 0, 3, 7], [4, 5, 1, 0], [2, 6, 7, 3]]

/-- The half-edges and the half-edge of each face that `computeHalfEdges` makes of them (`boxMesh` below). -/
def boxEdges : List Mesh.HEdge := [⟨1, 1, 0, 22⟩, ⟨2, 0, 1, 10⟩, ⟨5, 3, 1, 16⟩, ⟨6, 2, 2, 8⟩, ⟨3, 5, 0, 12⟩, ⟨0, 4, 3, 20⟩, ⟨4, 7, 2, 18⟩,
  ⟨7, 6, 3, 14⟩, ⟨5, 9, 2, 6⟩, ⟨4, 8, 4, 11⟩, ⟨1, 11, 1, 2⟩, ⟨5, 10, 4, 13⟩, ⟨0, 13, 0, 0⟩, ⟨1, 12, 4, 15⟩, ⟨4, 15, 3, 5⟩, ⟨0, 14, 4, 9⟩,
  ⟨6, 17, 1, 1⟩, ⟨2, 16, 5, 19⟩, ⟨7, 19, 2, 3⟩, ⟨6, 18, 5, 21⟩, ⟨3, 21, 3, 7⟩, ⟨7, 20, 5, 23⟩, ⟨2, 23, 0, 4⟩, ⟨3, 22, 5, 17⟩]
def boxFaceEdge : List Nat := [4, 1, 8, 7, 15, 23]

theorem boxMesh : (Mesh.computeHalfEdges 8 boxFaces).map (fun m => (m.arr, m.faceEdge)) = some (boxEdges, boxFaceEdge) := by decide +kernel

/-- `BoxShape::getVertexPosition` (BoxShape.h:192-208). -/
def boxVert (h : V3 K) : Nat → V3 K
  | 0 => ⟨-h.x, -h.y, h.z⟩
  | 1 => ⟨h.x, -h.y, h.z⟩
  | 2 => ⟨h.x, h.y, h.z⟩
  | 3 => ⟨-h.x, h.y, h.z⟩
  | 4 => ⟨-h.x, -h.y, -h.z⟩
  | 5 => ⟨h.x, -h.y, -h.z⟩
  | 6 => ⟨h.x, h.y, -h.z⟩
  | 7 => ⟨-h.x, h.y, -h.z⟩
  | _ => 0

/-- `BoxShape::getFaceNormal` (BoxShape.h:211-225). -/
def boxNormal : Nat → V3 K
  | 0 => ⟨0, 0, 1⟩
  | 1 => ⟨1, 0, 0⟩
  | 2 => ⟨0, 0, -1⟩
  | 3 => ⟨-1, 0, 0⟩
  | 4 => ⟨0, -1, 0⟩
  | 5 => ⟨0, 1, 0⟩
  | _ => 0

/-- The box of half extents `h` (BoxShape.h:182-246, BoxShape.cpp:127-142). -/
def box (h : V3 K) : Poly K where
  nv := 8
  nf := 6
  ne := 24
  vert := boxVert h
  normal := boxNormal
  faceVerts := fun f => boxFaces.getD f []
  faceEdge := fun f => boxFaceEdge.getD f 0
  edge := fun e => boxEdges.getD e ⟨0, 0, 0, 0⟩
  centroid := 0
  tri := false
  support := boxSupport h

/-- A convex mesh that is not scaled (ConvexMeshShape.h:180-227, ConvexMeshShape.cpp:80-102): `edges` and `faceEdge` are
the half-edge structure of its faces. -/
def mesh (large : K) (vs : List (V3 K)) (faces : List (List Nat)) (normals : List (V3 K)) (centroid : V3 K) (edges : List Mesh.HEdge) (faceEdge : List Nat) :
    Poly K where
  nv := vs.length
  nf := faces.length
  ne := edges.length
  vert := fun v => vs.getD v 0
  normal := fun f => normals.getD f 0
  faceVerts := fun f => faces.getD f []
  faceEdge := fun f => faceEdge.getD f 0
  edge := fun e => edges.getD e ⟨0, 0, 0, 0⟩
  centroid := centroid
  tri := false
  support := fun d => (meshSupport large ⟨1, 1, 1⟩ vs d).getD 0

end Sat
end RP3D
