import Verif.Hull.Points
import Verif.Hull.Topo

/-! The QuickHull algorithm (QuickHull.cpp, QuickHull.h), which makes a convex mesh out of points (`PhysicsCommon::createConvexMesh` with a `VertexArray`).

`none` stands for a use of freed memory or of a null pointer, a read outside an array, a loop that does not end or, in a build with assertions
(`dbg`), a broken assertion. Simplified: numbers are exact; the
square root is a parameter; the loops over a face run to their end before the body is looked at (`Topo.ring`); messages are not kept. -/

namespace RP3D.Hull
variable {K : Type} [Field K] [LinearOrder K] [IsStrictOrderedRing K]

/-- The constants: `eps` is `MACHINE_EPSILON`, `tol` is `distanceEpsilon` (QuickHull.cpp:760), `minArea` is 0.00001 (QuickHull.cpp:151,
QHHalfEdgeStructure.cpp:343), `unitTol` is 0.01 (QHHalfEdgeStructure.h:214); `dbg` says whether assertions are checked. -/
structure Cst (K : Type) where
  eps : K
  tol : K
  minArea : K
  unitTol : K
  sqrt : K → K
  dbg : Bool

/-- Normal, centroid and area of a face (QHHalfEdgeStructure.h:124-131). -/
structure Plane (K : Type) where
  normal : V3 K
  centroid : V3 K
  area : K
deriving DecidableEq, Repr

/-- `computePointToPlaneDistance` (mathematics_functions.h:401-403) with the plane of a face. -/
def Plane.dist (F : Plane K) (p : V3 K) : K := F.normal.dot (p - F.centroid)

/-- The hull under construction: the half-edges, and for every face its plane and its `conflictPoints`. -/
structure St (K : Type) where
  t : Topo
  planes : List (Plane K)
  conf : List (List Nat)
deriving DecidableEq, Repr

/-- The sum of Newell's method over the edges of a face (QHHalfEdgeStructure.h:161-164). -/
def newell : List (V3 K × V3 K) → V3 K
  | [] => 0
  | (a, b) :: es => ⟨(a.y - b.y) * (a.z + b.z), (a.z - b.z) * (a.x + b.x), (a.x - b.x) * (a.y + b.y)⟩ + newell es

/-- `recalculateFace` (QHHalfEdgeStructure.h:148-179) for given edges, with the assertion of the division by the length (Vector3.h:334). -/
def planeOf (C : Cst K) (es : List (V3 K × V3 K)) : Option (Plane K) :=
  let n := newell es
  let len := C.sqrt n.lengthSq
  if !C.dbg || (decide (0 < len) && decide (C.eps < len) && !es.isEmpty) then
    some ⟨V3.smul len⁻¹ n, V3.smul ((es.length : K))⁻¹ (es.foldr (fun e s => e.1 + s) 0), len * (1 / 2)⟩
  else none

namespace St

def plane (s : St K) (f : Nat) : Option (Plane K) := if s.t.live f then s.planes[f]? else none
def conflict (s : St K) (f : Nat) : Option (List Nat) := if s.t.live f then s.conf[f]? else none

end St

/-- The end points of the edges of a face. -/
def facePoints (ps : List (V3 K)) (t : Topo) (f : Nat) : Option (List (V3 K × V3 K)) :=
  (t.faceRing f).bind fun es => es.mapM fun e =>
    (t.edge e).bind fun x => (t.vert x.start).bind fun a => (t.vert x.stop).bind fun b =>
    (ps[a]?).bind fun p => (ps[b]?).bind fun q => some (p, q)

/-- `Face::recalculateFace` (QHHalfEdgeStructure.h:148-179). -/
def recalc (C : Cst K) (ps : List (V3 K)) (s : St K) (f : Nat) : Option (St K) :=
  (facePoints ps s.t f).bind fun es => (planeOf C es).map fun F => { s with planes := s.planes.set f F }

/-- `addFace` (QHHalfEdgeStructure.cpp:109-178). -/
def addFace (C : Cst K) (ps : List (V3 K)) (s : St K) (vs : List Nat) : Option (Nat × St K) :=
  (Topo.addFace C.dbg s.t vs).bind fun ft =>
  (recalc C ps { t := ft.2, planes := s.planes ++ [⟨0, 0, 0⟩], conf := s.conf ++ [[]] } ft.1).map fun s => (ft.1, s)

/-- `Face::isValid` (QHHalfEdgeStructure.h:211-231). -/
def faceValid (C : Cst K) (s : St K) (f : Nat) : Bool :=
  match s.plane f with
  | none => false
  | some F => decide (|F.normal.lengthSq - 1| < C.unitTol) && s.t.faceLinked f

/-- `QHHalfEdgeStructure::isValid` (QHHalfEdgeStructure.cpp:328-380); what it says of the linked lists holds of lists. -/
def valid (C : Cst K) (s : St K) : Bool :=
  s.t.flist.all (fun f => faceValid C s f && match s.plane f with | none => false | some F => decide (C.minArea < F.area)) &&
  s.t.elist.all (fun e => s.t.edgeValid e) && decide (s.t.elist.length % 2 = 0)

/-! ## The first tetrahedron -/

/-- The smallest and the largest point on an axis (QuickHull.cpp:903-925). -/
def extreme (g : V3 K → K) (ps : List (V3 K)) : Nat × Nat :=
  (List.range ps.length).foldl (fun b i =>
    if g (ps.getD i 0) < g (ps.getD b.1 0) then (i, b.2) else if g (ps.getD b.2 0) < g (ps.getD i 0) then (b.1, i) else b) (0, 0)

/-- The loops that look for the largest value of `g`, starting at 0 (QuickHull.cpp:949-962, 971-983). -/
def farthest (g : V3 K → K) (ps : List (V3 K)) : Nat × K :=
  (List.range ps.length).foldl (fun b i => if b.2 < g (ps.getD i 0) then (i, g (ps.getD i 0)) else b) (0, 0)

/-- The pair of extreme points with the largest distance (QuickHull.cpp:929-937, 945-946). -/
def widest (ps : List (V3 K)) : (Nat × Nat) × K :=
  let d (e : Nat × Nat) : K := (ps.getD e.1 0 - ps.getD e.2 0).lengthSq
  [extreme (·.x) ps, extreme (·.y) ps, extreme (·.z) ps].foldl (fun b e => if b.2 < d e then (e, d e) else b) (extreme (·.x) ps, 0)

/-- `Vector3::normalize` (Vector3.h:219-227). -/
def normalize (C : Cst K) (v : V3 K) : V3 K :=
  let l := C.sqrt v.lengthSq
  if l < C.eps then v else V3.smul l⁻¹ v

/-- The four points of the first tetrahedron and the direction of the plane of the first three; `none` if the points are refused (QuickHull.cpp:898-988). -/
def choose (C : Cst K) (ps : List (V3 K)) : Option ((Nat × Nat × Nat × Nat) × V3 K) :=
  let w := widest ps
  if w.2 < C.eps then none else
  let i1 := w.1.1
  let i2 := w.1.2
  let p1 := ps.getD i1 0
  let p2 := ps.getD i2 0
  let dir := normalize C (p2 - p1)
  let b3 := farthest (fun p => ((p - p1).cross dir).lengthSq) ps
  if b3.2 < C.eps then none else
  let n := (ps.getD b3.1 0 - p1).cross (p2 - p1)
  let b4 := farthest (fun p => |(p - p1).dot n|) ps
  if b4.2 < C.eps then none else
  some ((i1, i2, b3.1, b4.1), n)

/-- The vertices of the four faces (QuickHull.cpp:1016-1041). -/
def tetraFaces (inverted : Bool) : List (List Nat) :=
  if inverted then [[0, 2, 1], [1, 2, 3], [0, 1, 3], [0, 3, 2]] else [[0, 1, 2], [1, 3, 2], [0, 3, 1], [0, 2, 3]]

/-- Adding one face after the other (QuickHull.cpp:1024-1027, 1037-1040 and the loop at 257-273). -/
def addFaces (C : Cst K) (ps : List (V3 K)) : List (List Nat) → St K → Option (List Nat × St K)
  | [], s => some ([], s)
  | vs :: r, s => (addFace C ps s vs).bind fun fs => (addFaces C ps r fs.2).map fun rs => (fs.1 :: rs.1, rs.2)

/-- `computeInitialHull` (QuickHull.cpp:893-1054): `some none` if the points are refused, otherwise the hull, the faces and the other points. -/
def initial (C : Cst K) (ps : List (V3 K)) : Option (Option (St K × List Nat × List Nat)) :=
  match choose C ps with
  | none => some none
  | some ((i1, i2, i3, i4), n) =>
    if !C.dbg || decide (i1 ≠ i2 ∧ i1 ≠ i3 ∧ i1 ≠ i4 ∧ i2 ≠ i3 ∧ i2 ≠ i4 ∧ i3 ≠ i4) then
      let t : Topo := { Topo.empty with verts := [some i1, some i2, some i3, some i4], vlist := [3, 2, 1, 0] }
      let inverted := decide (n.dot (ps.getD i4 0 - ps.getD i1 0) < 0)
      (addFaces C ps (tetraFaces inverted) ⟨t, [], []⟩).map fun fs =>
        some (fs.2, fs.1, ((((List.range ps.length).erase i1).erase i2).erase i3).erase i4)
    else none

/-! ## Points in front of faces -/

/-- `findFarthestFaceForVertex` (QuickHull.cpp:861-882): the face with the largest distance above `e`, among those not deleted. -/
def farthestFace (e : K) (s : St K) (p : V3 K) (deleted : List Nat) : List Nat → Option (Option Nat × K) → Option (Option Nat × K)
  | [], b => b
  | f :: fs, b =>
    if f ∈ deleted then farthestFace e s p deleted fs b else
    match s.plane f, b with
    | some F, some b => farthestFace e s p deleted fs (some (if b.2 < F.normal.dot (p - F.centroid) then (some f, F.normal.dot (p - F.centroid)) else b))
    | _, _ => none

/-- Adding a point to the `conflictPoints` of a face (QuickHull.cpp:885-889). -/
def addConflict (s : St K) (f : Nat) (is : List Nat) : Option (St K) :=
  (s.conflict f).map fun c => { s with conf := s.conf.set f (c ++ is) }

/-- `associateOrphanPointsToNewFaces` (QuickHull.cpp:850-858). -/
def associate (e : K) (ps : List (V3 K)) (faces deleted : List Nat) : List Nat → St K → Option (St K)
  | [], s => some s
  | i :: is, s =>
    (ps[i]?).bind fun p =>
    (farthestFace e s p deleted faces (some (none, e))).bind fun b =>
    match b.1 with
    | none => associate e ps faces deleted is s
    | some f => (addConflict s f [i]).bind (associate e ps faces deleted is)

/-- The candidates of one face (QuickHull.cpp:826-839), `j` counts them; the best one is its face, place, point and distance. -/
def bestOf (dbg : Bool) (e : K) (ps : List (V3 K)) (f : Nat) (F : Plane K) : List Nat → Nat → Option (Nat × Nat × Nat) × K → Option (Option (Nat × Nat × Nat) × K)
  | [], _, b => some b
  | i :: is, j, b =>
    (ps[i]?).bind fun p =>
    let d := (p - F.centroid).dot F.normal
    if !dbg || decide (e < d) then bestOf dbg e ps f F is (j + 1) (if b.2 < d then (some (f, j, i), d) else b) else none

/-- The loop over the faces (QuickHull.cpp:818-841). -/
def best (dbg : Bool) (e : K) (ps : List (V3 K)) (s : St K) : List Nat → Option (Nat × Nat × Nat) × K → Option (Option (Nat × Nat × Nat) × K)
  | [], b => some b
  | f :: fs, b =>
    (s.plane f).bind fun F => (s.conflict f).bind fun c => (bestOf dbg e ps f F c 0 b).bind (best dbg e ps s fs)

/-- `findNextVertexCandidate` (QuickHull.cpp:808-847): the face and the point, which leaves its list. -/
def nextCandidate (dbg : Bool) (e : K) (ps : List (V3 K)) (s : St K) : Option (Option (Nat × Nat) × St K) :=
  (best dbg e ps s s.t.flist (none, e)).bind fun b =>
  match b.1 with
  | none => some (none, s)
  | some (f, j, i) => (s.conflict f).map fun c => (some (f, i), { s with conf := s.conf.set f (c.eraseIdx j) })

/-! ## Adding a point -/

/-- `findHorizon` (QuickHull.cpp:353-424), one edge at a time. The stack holds faces with their first and their current edge; `hor` collects the
end points of the edges of the horizon, `vis` the visible faces. -/
def horizon (dbg : Bool) (e : K) (p : V3 K) (s : St K) : Nat → List (Nat × Nat × Nat) → List Nat → List (Nat × Nat) → List Nat → Option (List (Nat × Nat) × List Nat)
  | _, [], _, hor, vis => some (hor, vis)
  | 0, _ :: _, _, _, _ => none
  | fuel + 1, (f, a, c) :: st, seen, hor, vis =>
    let seen := if f ∈ seen then seen else f :: seen
    (s.t.edge c).bind fun x =>
    if dbg && decide (x.face ≠ f) then none else
    x.twin.bind fun w => (s.t.edge w).bind fun xw => x.next.bind fun n =>
    let rest := if n = a then st else (f, a, n) :: st
    if xw.face ∈ seen then horizon dbg e p s fuel rest seen hor vis else
    (s.plane xw.face).bind fun F =>
    if e < F.normal.dot (p - F.centroid) then
      xw.next.bind fun wn => horizon dbg e p s fuel ((xw.face, wn, wn) :: (f, a, c) :: st) seen hor (vis ++ [xw.face])
    else horizon dbg e p s fuel rest seen (hor ++ [(x.start, x.stop)]) vis

/-- `deleteVisibleFaces`, its loop over the faces (QuickHull.cpp:288-313): the points without a face and the vertices to remove. -/
def deleteVisible (dbg : Bool) (hor : List (Nat × Nat)) : List Nat → St K → List Nat → List Nat → Option (St K × List Nat × List Nat)
  | [], s, orphans, gone => some (s, orphans, gone)
  | f :: fs, s, orphans, gone =>
    (s.conflict f).bind fun c =>
    (s.t.faceRing f).bind fun es =>
    (es.mapM fun e => (s.t.edge e).map (·.start)).bind fun vs =>
    (Topo.removeFace dbg s.t f).bind fun t =>
    deleteVisible dbg hor fs { s with t := t } (orphans ++ c) (gone ++ (vs.filter fun v => !(hor.map (·.1)).contains v && !gone.contains v))

/-- Removing vertices (QuickHull.cpp:316-318). -/
def removeVertices : List Nat → Topo → Option Topo
  | [], t => some t
  | v :: vs, t => (t.removeVertex v).bind (removeVertices vs)

/-- `fixTopologicalIssueAtEdge` (QuickHull.cpp:671-755). -/
def fixAt (C : Cst K) (ps : List (V3 K)) (s : St K) (f inE : Nat) (deleted : List Nat) : Option (St K × List Nat) := do
  let x ← s.t.edge inE
  if C.dbg && decide (x.face ≠ f) then none
  let w ← x.twin
  let xw ← s.t.edge w
  let other := xw.face
  -- `isTriangle` (QHHalfEdgeStructure.h:205-208)
  let oe ← s.t.faceEdge other
  let o1 ← s.t.next oe
  let o2 ← s.t.next o1
  let o3 ← s.t.next o2
  if o3 = oe then
    let before ← x.prev
    let out ← x.next
    let after ← s.t.next out
    let rest ← xw.next
    let t ← s.t.setFaceEdge f before
    let t ← t.modEdge rest (fun y => { y with face := f })
    let t ← t.modEdge before (fun y => { y with next := some rest })
    let t ← t.modEdge rest (fun y => { y with prev := some before })
    let t ← t.modEdge after (fun y => { y with prev := some rest })
    let t ← t.modEdge rest (fun y => { y with next := some after })
    let c ← s.conflict other
    let s ← addConflict { s with t := t } f c
    let t ← s.t.deleteFace other
    let gone ← (t.edge inE).map (·.stop)
    -- the edges to remove are read through `inEdge`
    let out ← t.next inE
    let outTwin ← t.twin out
    let t ← Topo.removeHalfEdge C.dbg t outTwin
    let t ← Topo.removeHalfEdge C.dbg t out
    let w ← t.twin inE
    let t ← Topo.removeHalfEdge C.dbg t w
    let t ← Topo.removeHalfEdge C.dbg t inE
    let t ← t.removeVertex gone
    if C.dbg && decide (t.prev rest ≠ some before ∨ t.next rest ≠ some after ∨ t.faceOf rest ≠ some f) then none
    let s ← recalc C ps { s with t := t } f
    if !C.dbg || faceValid C s f then some (s, other :: deleted) else none
  else
    let gone := x.stop
    let out ← x.next
    let xo ← s.t.edge out
    let ow ← xo.twin
    let xow ← s.t.edge ow
    let owPrev ← xow.prev
    let t ← s.t.modEdge w (fun y => { y with start := xo.stop })
    let t ← t.modEdge owPrev (fun y => { y with next := some w })
    let t ← t.modEdge w (fun y => { y with prev := some owPrev })
    let after ← xo.next
    let t ← t.modEdge inE (fun y => { y with stop := xo.stop, next := some after })
    let t ← t.modEdge after (fun y => { y with prev := some inE })
    let t ← t.setFaceEdge f inE
    let t ← t.setFaceEdge other w
    let ow ← t.twin out
    let t ← Topo.removeHalfEdge C.dbg t ow
    let t ← Topo.removeHalfEdge C.dbg t out
    let t ← t.removeVertex gone
    let s ← recalc C ps { s with t := t } f
    let w ← s.t.twin inE
    let other ← s.t.faceOf w
    let s ← recalc C ps s other
    some (s, deleted)

/-- The search for an edge whose face on the other side is that of the next edge (QuickHull.cpp:644-660). -/
def issue (t : Topo) : List Nat → Option (Option Nat)
  | [] => some none
  | e :: es => do
    let out ← t.next e
    let a ← (← t.twin e) |> t.faceOf
    let b ← (← t.twin out) |> t.faceOf
    if a = b then some (some e) else issue t es

/-- `fixTopologicalIssues` (QuickHull.cpp:629-668). -/
def fixAll (C : Cst K) (ps : List (V3 K)) (f : Nat) : Nat → St K → List Nat → Option (St K × List Nat)
  | 0, _, _ => none
  | fuel + 1, s, deleted => do
    let es ← s.t.faceRing f
    match ← issue s.t es with
    | none => some (s, deleted)
    | some e => do
      let r ← fixAt C ps s f e deleted
      fixAll C ps f fuel r.1 r.2

/-- `mergeConcaveFacesAtEdge` (QuickHull.cpp:559-626). -/
def mergeAt (C : Cst K) (ps : List (V3 K)) (s : St K) (e : Nat) (deleted : List Nat) : Option (St K × List Nat) := do
  let x ← s.t.edge e
  let w ← x.twin
  let xw ← s.t.edge w
  let gone := xw.face
  let kept := x.face
  if C.dbg && !(faceValid C s gone && faceValid C s kept) then none
  let before ← x.prev
  let after ← x.next
  let t ← s.t.setFaceEdge kept before
  let es ← s.t.ring w
  let t ← (es.drop 1).foldlM (fun t e => t.modEdge e (fun y => { y with face := kept })) t
  if C.dbg && !faceValid C { s with t := t } kept then none
  let wNext ← t.next w
  let t ← t.modEdge before (fun y => { y with next := some wNext })
  let wPrev ← t.prev w
  let t ← t.modEdge after (fun y => { y with prev := some wPrev })
  let t ← t.modEdge wPrev (fun y => { y with next := some after })
  let t ← t.modEdge wNext (fun y => { y with prev := some before })
  if C.dbg && !faceValid C { s with t := t } kept then none
  let c ← s.conflict gone
  let s ← addConflict { s with t := t } kept c
  let t ← s.t.deleteFace gone
  let t ← Topo.removeHalfEdge C.dbg t w
  let t ← Topo.removeHalfEdge C.dbg t e
  if C.dbg && !faceValid C { s with t := t } kept then none
  let s ← recalc C ps { s with t := t } kept
  if C.dbg && !(((s.t.next before).bind s.t.prev == some before) && ((s.t.prev after).bind s.t.next == some after) &&
    ((s.t.next before).bind s.t.faceOf == some kept) && ((s.t.prev after).bind s.t.faceOf == some kept)) then none
  let r ← fixAll C ps kept (s.t.edges.length + 1) s (gone :: deleted)
  if !C.dbg || faceValid C r.1 kept then some r else none

/-- The test of an edge when large faces have priority (QuickHull.cpp:451-483). -/
def concaveLarge (dbg : Bool) (e : K) (s : St K) (deleted : List Nat) (f edge : Nat) : Option Bool := do
  let g ← (← s.t.twin edge) |> s.t.faceOf
  if dbg && decide (g ∈ deleted) then none
  let F ← s.plane f
  let G ← s.plane g
  if G.area < F.area then some (!decide (F.dist G.centroid < -e)) else some (!decide (G.dist F.centroid < -e))

/-- `testIsConvexEdge` (QuickHull.cpp:335-350), negated. -/
def concave (e : K) (s : St K) (_deleted : List Nat) (_f edge : Nat) : Option Bool := do
  let f ← s.t.faceOf edge
  let g ← (← s.t.twin edge) |> s.t.faceOf
  let F ← s.plane f
  let G ← s.plane g
  some (decide (-e ≤ G.dist F.centroid) || decide (-e ≤ F.dist G.centroid))

def findEdge (test : Nat → Option Bool) : List Nat → Option (Option Nat)
  | [] => some none
  | e :: es => (test e).bind fun b => if b then some (some e) else findEdge test es

/-- `mergeLargeConcaveFaces` and `mergeConcaveFaces` (QuickHull.cpp:428-501, 504-556), which differ in the test. -/
def merge (C : Cst K) (ps : List (V3 K)) (test : St K → List Nat → Nat → Nat → Option Bool) : Nat → List Nat → St K → List Nat → Option (St K × List Nat)
  | _, [], s, deleted => some (s, deleted)
  | 0, _ :: _, _, _ => none
  | fuel + 1, f :: fs, s, deleted =>
    if f ∈ deleted then merge C ps test fuel fs s deleted else
    (s.t.faceRing f).bind fun es =>
    (findEdge (test s deleted f) es).bind fun b =>
    match b with
    | none => merge C ps test fuel fs s deleted
    | some e => (mergeAt C ps s e deleted).bind fun r => merge C ps test fuel (f :: fs) r.1 r.2

/-- `addVertexToHull` (QuickHull.cpp:205-241). -/
def addPoint (C : Cst K) (e : K) (ps : List (V3 K)) (s : St K) (f i : Nat) : Option (St K) := do
  let p ← ps[i]?
  let fe ← s.t.faceEdge f
  let hv ← horizon C.dbg e p s (4 * s.t.edges.length + 4) [(f, fe, fe)] [] [] [f]
  let hor := hv.1
  if C.dbg && decide (hor.length < 3 ∨ hor.head?.bind (fun h => s.t.vert h.1) ≠ hor.getLast?.bind (fun h => s.t.vert h.2)) then none
  let d ← deleteVisible C.dbg hor hv.2 s [] []
  let t ← removeVertices d.2.2 d.1.t
  let v := t.addVertex i
  let nf ← addFaces C ps (hor.map fun h => [h.1, h.2, v.1]) { d.1 with t := v.2 }
  let r ← merge C ps (concaveLarge C.dbg e) (nf.1.length + nf.2.t.faces.length + 1) nf.1 nf.2 []
  let r ← merge C ps (concave e) (nf.1.length + nf.2.t.faces.length + 1) nf.1 r.1 r.2
  associate e ps nf.1 r.2 d.2.1 r.1

/-- The main loop (QuickHull.cpp:112-124). -/
def loop (C : Cst K) (e : K) (ps : List (V3 K)) : Nat → St K → Option (St K)
  | fuel, s =>
    (nextCandidate C.dbg e ps s).bind fun n =>
    match n.1 with
    | none => some n.2
    | some (f, i) =>
      match fuel with
      | 0 => none
      | fuel + 1 => (addPoint C e ps n.2 f i).bind fun s => if !C.dbg || valid C s then loop C e ps fuel s else none

/-- `epsilon` (QuickHull.cpp:66-88). -/
def epsilon (C : Cst K) (ps : List (V3 K)) : K :=
  let m (g : V3 K → K) : K := ps.foldl (fun b p => if b < |g p| then |g p| else b) 0
  3 * (m (·.x) + m (·.y) + m (·.z)) * C.eps

/-- The mesh that is handed on: points and faces as lists of places of points (QuickHull.cpp:146-195). -/
structure Mesh (K : Type) where
  points : List (V3 K)
  faces : List (List Nat)
deriving DecidableEq, Repr

/-- One face of the final mesh: the numbers of the vertices in the new array (QuickHull.cpp:157-191), `old` are the vertices already in it. -/
def outFace (t : Topo) : List Nat → List Nat → Option (List Nat × List Nat)
  | [], old => some ([], old)
  | e :: es, old => do
    let x ← t.edge e
    let a ← t.vert x.start
    let old' := if a ∈ old then old else old ++ [a]
    let r ← outFace t es old'
    some (old'.idxOf a :: r.1, r.2)

def outFaces (C : Cst K) (s : St K) : List Nat → List Nat → Option (List (List Nat) × List Nat)
  | [], old => some ([], old)
  | f :: fs, old => do
    let F ← s.plane f
    if C.dbg && !decide (C.minArea < F.area) then none
    let es ← s.t.faceRing f
    let r ← outFace s.t es old
    let q ← outFaces C s fs r.2
    some (r.1 :: q.1, q.2)

/-- `computeFinalPolygonVertexArray` (QuickHull.cpp:135-202). -/
def final (C : Cst K) (ps : List (V3 K)) (s : St K) : Option (Mesh K) := do
  let r ← outFaces C s s.t.flist []
  let pts ← r.2.mapM (fun i => ps[i]?)
  if !C.dbg || decide (s.t.vlist.length = r.2.length) then some ⟨pts, r.1⟩ else none

/-- From the points without near duplicates to the mesh (QuickHull.cpp:58-131). `some none` is a refusal. -/
def hullOf (C : Cst K) (ps : List (V3 K)) (fuel : Nat) : Option (Option (Mesh K)) :=
  if ps.length < 4 then some none else
  (initial C ps).bind fun r =>
  match r with
  | none => some none
  | some (s, faces, orphans) =>
    (associate (epsilon C ps) ps faces [] orphans s).bind fun s =>
    (loop C (epsilon C ps) ps fuel s).bind fun s =>
    if !C.dbg || valid C s then (final C ps s).map some else none

/-- `QuickHull::computeConvexHull` (QuickHull.cpp:44-132); dividing by the number of points is asserted to be possible (QuickHull.cpp:768, Vector3.h:295).
The main loop gets as many rounds as there are points (`Props/Hull.lean` shows that they suffice). -/
def computeConvexHull (C : Cst K) (input : List (V3 K)) : Option (Option (Mesh K)) :=
  if C.dbg && decide ((input.length : K) ≤ C.eps) then none else
  let ps := removeDuplicates C.tol input
  hullOf C ps ps.length

end RP3D.Hull
