import Verif.Narrow.Sat
import Verif.Shapes.ConcaveMesh

/-!
Model of `DebugRenderer` (src/utils/DebugRenderer.cpp, include/reactphysics3d/utils/DebugRenderer.h): the lines and triangles drawn for the
bodies and the contacts of a world.

The arithmetic is exact, and `sin`, `cos`, `pi` are parameters (a simplification: `PI_RP3D` has thirteen digits). The
arrays `mLines` and `mTriangles` are lists; a function that draws returns what it adds. The three colours of a triangle and the two of a line are
equal in every constructor (DebugRenderer.h:95-137), so there is one. The map from items to colours is a function.
-/

namespace RP3D
namespace Debug
open Ray

variable {K : Type} [Field K] [LinearOrder K]

/-- `DebugItem` (DebugRenderer.h:73-92). -/
inductive Item
  | box | fatBox | shape | point | normal | shapeNormal
deriving DecidableEq, Repr

/-- The value of an item (DebugRenderer.h:73-92). -/
def Item.flag : Item → BitVec 32
  | .box => 1
  | .fatBox => 2
  | .shape => 4
  | .point => 8
  | .normal => 16
  | .shapeNormal => 32

/-- `getIsDebugItemDisplayed` (DebugRenderer.h:326-328): the conversion of an integer to `bool`. -/
def displayed (flags : BitVec 32) (i : Item) : Bool := (flags &&& i.flag) != 0

/-- `setIsDebugItemDisplayed` (DebugRenderer.h:335-342). -/
def setDisplayed (flags : BitVec 32) (i : Item) (on : Bool) : BitVec 32 :=
  let f := flags &&& ~~~ i.flag
  if on then f ||| i.flag else f

/-- `DebugColor` of the items (DebugRenderer.cpp:48-53, DebugRenderer.h:60-70). -/
def Item.colour : Item → Nat
  | .box => 0xff00ff
  | .fatBox => 0xffff00
  | .shape => 0x00ff00
  | .point => 0xff0000
  | .normal => 0xffffff
  | .shapeNormal => 0x0000ff

/-- `DebugLine` (DebugRenderer.h:95-113). -/
structure Line (K : Type) where
  a : V3 K
  b : V3 K
  colour : Nat
deriving DecidableEq, Repr

/-- `DebugTriangle` (DebugRenderer.h:116-142). -/
structure Tri (K : Type) where
  a : V3 K
  b : V3 K
  c : V3 K
  colour : Nat
deriving DecidableEq, Repr

/-- `mLines` and `mTriangles` (DebugRenderer.h:168-172). -/
structure Canvas (K : Type) where
  lines : List (Line K)
  tris : List (Tri K)
deriving DecidableEq, Repr

/-- What is drawn later is added at the end of the arrays. -/
instance : Append (Canvas K) := ⟨fun a b => ⟨a.lines ++ b.lines, a.tris ++ b.tris⟩⟩

/-- The arrays after `reset` (DebugRenderer.cpp:62-66). -/
def Canvas.empty : Canvas K := ⟨[], []⟩

/-- A loop that draws. -/
def Canvas.each {α : Type} (f : α → Canvas K) (l : List α) : Canvas K := ⟨l.flatMap fun x => (f x).lines, l.flatMap fun x => (f x).tris⟩

/-- `getLinesArray` and `getTrianglesArray` (DebugRenderer.h:293-295, 317-319): the address of the element 0, whose index must be
in the array (Array.h:444-447). -/
def Canvas.linesArray (c : Canvas K) : Option (Line K) := c.lines[0]?
def Canvas.trisArray (c : Canvas K) : Option (Tri K) := c.tris[0]?

/-- `drawAABB` (DebugRenderer.cpp:69-91). -/
def drawAABB (b : AABB K) (colour : Nat) : List (Line K) :=
  let l (ax ay az bx yb bz : K) : Line K := ⟨⟨ax, ay, az⟩, ⟨bx, yb, bz⟩, colour⟩
  [l b.mn.x b.mn.y b.mx.z b.mx.x b.mn.y b.mx.z, l b.mx.x b.mn.y b.mx.z b.mx.x b.mn.y b.mn.z,
   l b.mx.x b.mn.y b.mn.z b.mn.x b.mn.y b.mn.z, l b.mn.x b.mn.y b.mn.z b.mn.x b.mn.y b.mx.z,
   l b.mn.x b.mx.y b.mx.z b.mx.x b.mx.y b.mx.z, l b.mx.x b.mx.y b.mx.z b.mx.x b.mx.y b.mn.z,
   l b.mx.x b.mx.y b.mn.z b.mn.x b.mx.y b.mn.z, l b.mn.x b.mx.y b.mn.z b.mn.x b.mx.y b.mx.z,
   l b.mn.x b.mn.y b.mx.z b.mn.x b.mx.y b.mx.z, l b.mx.x b.mn.y b.mx.z b.mx.x b.mx.y b.mx.z,
   l b.mx.x b.mn.y b.mn.z b.mx.x b.mx.y b.mn.z, l b.mn.x b.mn.y b.mn.z b.mn.x b.mx.y b.mn.z]

/-- `vertices` of `drawBox` before the transform (DebugRenderer.cpp:103-110). -/
def boxVertex (h : V3 K) : Nat → V3 K
  | 0 => ⟨-h.x, -h.y, h.z⟩
  | 1 => ⟨h.x, -h.y, h.z⟩
  | 2 => ⟨h.x, -h.y, -h.z⟩
  | 3 => ⟨-h.x, -h.y, -h.z⟩
  | 4 => ⟨-h.x, h.y, h.z⟩
  | 5 => ⟨h.x, h.y, h.z⟩
  | 6 => ⟨h.x, h.y, -h.z⟩
  | _ => ⟨-h.x, h.y, -h.z⟩

/-- The triangles of `drawBox` (DebugRenderer.cpp:115-126), as indices of vertices. -/
def boxFaces : List (Nat × Nat × Nat) :=
  [(0, 1, 5), (0, 5, 4), (1, 2, 6), (1, 6, 5), (2, 3, 6), (3, 7, 6), (0, 7, 3), (0, 4, 7), (0, 2, 1), (0, 3, 2), (5, 6, 4), (4, 6, 7)]

/-- Triangles given by indices of vertices. -/
def indexed (v : Nat → V3 K) (colour : Nat) (l : List (Nat × Nat × Nat)) : List (Tri K) := l.map fun t => ⟨v t.1, v t.2.1, v t.2.2, colour⟩

/-- The face normals of `drawBox` (DebugRenderer.cpp:129-141). -/
def boxNormals (t : Trans K) (h : V3 K) (len : K) (colour : Nat) : List (Line K) :=
  (List.range 6).map fun f =>
    let v (k : Nat) := Sat.boxVert h ((Sat.boxFaces.getD f []).getD k 0)
    let facePoint := V3.smul (1 / 4) (v 0 + v 1 + v 2 + v 3)
    ⟨t.act facePoint, t.act (facePoint + V3.smul len (Sat.boxNormal f)), colour⟩

/-- `drawBox` (DebugRenderer.cpp:94-143). -/
def drawBox (flags : BitVec 32) (len : K) (t : Trans K) (h : V3 K) : Canvas K :=
  ⟨if displayed flags .shapeNormal then boxNormals t h len Item.shapeNormal.colour else [],
   if displayed flags .shape then indexed (fun k => t.act (boxVertex h k)) Item.shape.colour boxFaces else []⟩

/-- The triangles of the sector `j` of the stack `i` of a grid with `S` sectors: `first` above the diagonal, `second` below it. -/
def cell (S : Nat) (first second : Bool) (i j : Nat) : List (Nat × Nat × Nat) :=
  let a1 := i * (S + 1) + j
  let a2 := a1 + S + 1
  (if first then [(a1, a2, a1 + 1)] else []) ++ (if second then [(a1 + 1, a2, a2 + 1)] else [])

/-- The trigonometric functions and `PI_RP3D` (configuration.h:123). -/
structure Trig (K : Type) where
  sin : K → K
  cos : K → K
  pi : K

/-- The vertex of the stack `i` and the sector `j` of `drawSphere` (DebugRenderer.cpp:150-168), with `S` sectors and `N` stacks. -/
def sphereVertex (T : Trig K) (S N : Nat) (pos : V3 K) (r : K) (i j : Nat) : V3 K :=
  let stack := T.pi / 2 - (i : K) * (T.pi / (N : K))
  let sector := (j : K) * (2 * T.pi / (S : K))
  pos + ⟨r * T.cos stack * T.cos sector, r * T.cos stack * T.sin sector, r * T.sin stack⟩

/-- The faces of `drawSphere` (DebugRenderer.cpp:170-190). -/
def sphereFaces (S N : Nat) : List (Nat × Nat × Nat) :=
  (List.range N).flatMap fun i => (List.range S).flatMap fun j => cell S (i != 0) (i != N - 1) i j

/-- The array of vertices: the vertex of the stack `i` and the sector `j` is at the index `i * (S + 1) + j`. -/
def gridAt (S : Nat) (v : Nat → Nat → V3 K) (k : Nat) : V3 K := v (k / (S + 1)) (k % (S + 1))

/-- `NB_SECTORS_SPHERE`, `NB_STACKS_SPHERE` (DebugRenderer.h:149-152). -/
def nbSectors : Nat := 18
def nbStacks : Nat := 10

/-- `drawSphere` (DebugRenderer.cpp:146-191). -/
def drawSphere (T : Trig K) (pos : V3 K) (r : K) (colour : Nat) : List (Tri K) :=
  indexed (gridAt nbSectors (sphereVertex T nbSectors nbStacks pos r)) colour (sphereFaces nbSectors nbStacks)

/-- The vertex of the row `i` and the sector `j` of `drawCapsule` before the transform (DebugRenderer.cpp:207-248), with `H` stacks in
each cap: the rows up to `H` are those of the top cap, the rows from `H + 1` those of the bottom cap. -/
def capsuleVertex (T : Trig K) (S H : Nat) (r height : K) (i j : Nat) : V3 K :=
  let half := 1 / 2 * height
  let stack (k : Nat) : K := T.pi / 2 - (k : K) * (T.pi / ((2 * H : Nat) : K))
  let sector := (j : K) * (2 * T.pi / (S : K))
  if i ≤ H then ⟨r * T.cos (stack i) * T.sin sector, r * T.sin (stack i) + half, r * T.cos (stack i) * T.cos sector⟩
  else ⟨r * T.cos (stack (H + (i - (H + 1)))) * T.sin sector, r * T.sin (stack (H + (i - (H + 1)))) - half,
    r * T.cos (stack (H + (i - (H + 1)))) * T.cos sector⟩

/-- The faces of the top cap, of the bottom cap and of the cylinder of `drawCapsule` (DebugRenderer.cpp:250-295). -/
def capsuleFaces (S H : Nat) : List (Nat × Nat × Nat) :=
  ((List.range H).flatMap fun i => (List.range S).flatMap fun j => cell S (i != 0) true i j) ++
  ((List.range H).flatMap fun i => (List.range S).flatMap fun j => cell S true (i != H - 1) (H + 1 + i) j) ++
  ((List.range S).flatMap fun j => (cell S false true H j) ++ (cell S true false H j))

/-- `drawCapsule` (DebugRenderer.cpp:194-296); the number of stacks is even. -/
def drawCapsule (T : Trig K) (t : Trans K) (r height : K) (colour : Nat) : List (Tri K) :=
  indexed (fun k => t.act (gridAt nbSectors (capsuleVertex T nbSectors (nbStacks / 2) r height) k)) colour (capsuleFaces nbSectors (nbStacks / 2))

/-- The triangles `(v - 2, v - 1, v)` of the loop of `drawConvexMesh` over the vertices of a face (DebugRenderer.cpp:314-338). -/
def triples {α : Type} : List α → List (α × α × α)
  | a :: b :: c :: l => (a, b, c) :: triples (b :: c :: l)
  | _ => []

/-- The sum of the vertices of a face divided by their number (DebugRenderer.cpp:329-333, 342). -/
def centroid (vs : List (V3 K)) : V3 K := V3.smul (1 / (vs.length : K)) (vs.foldl (· + ·) 0)

/-- `drawConvexMesh` (DebugRenderer.cpp:299-347): a face is the list of its (scaled) vertices and its (scaled) normal. -/
def drawConvex (flags : BitVec 32) (len : K) (t : Trans K) (faces : List (List (V3 K) × V3 K)) : Canvas K :=
  Canvas.each (fun f =>
    let vs := f.1.map t.act
    ⟨if displayed flags .shapeNormal then
        [⟨centroid vs, centroid vs + V3.smul len (t.ori.rot f.2), Item.shapeNormal.colour⟩] else [],
     if displayed flags .shape then (triples vs).map fun p => ⟨p.1, p.2.1, p.2.2, Item.shape.colour⟩ else []⟩) faces

/-- `drawConcaveMeshShape` (DebugRenderer.cpp:350-382): the (scaled) triangles, and the (scaled) vertices with their normals. -/
def drawConcave (flags : BitVec 32) (len : K) (t : Trans K) (tris : List (V3 K × V3 K × V3 K)) (vs : List (V3 K × V3 K)) : Canvas K :=
  ⟨if displayed flags .shapeNormal then
      vs.map fun v => ⟨t.act v.1, t.act v.1 + V3.smul len (t.ori.rot v.2), Item.shapeNormal.colour⟩ else [],
   if displayed flags .shape then tris.map fun p => ⟨t.act p.1, t.act p.2.1, t.act p.2.2, Item.shape.colour⟩ else []⟩

/-- The triangles of a concave shape that the loop draws (DebugRenderer.cpp:359-368, ConcaveMeshShape.cpp:79-88): `none` if an index is out of range. -/
def meshTris (m : TriMesh.TMesh K) (scale : V3 K) : Option (List (V3 K × V3 K × V3 K)) :=
  (List.range (m.tris.length / 3)).mapM (Concave.triangleAt m scale)

/-- One quad of `drawHeightFieldShape` (DebugRenderer.cpp:395-425); `unit` is `getUnit`. -/
def drawQuad (unit : V3 K → V3 K) (flags : BitVec 32) (len : K) (t : Trans K) (q : V3 K × V3 K × V3 K × V3 K) : Canvas K :=
  let p1 := t.act q.1
  let p2 := t.act q.2.1
  let p3 := t.act q.2.2.1
  let p4 := t.act q.2.2.2
  let n := unit ((p2 - p1).cross (p3 - p1))
  ⟨if displayed flags .shapeNormal then [p1, p2, p3, p4].map fun p => ⟨p, p + V3.smul len n, Item.shapeNormal.colour⟩ else [],
   if displayed flags .shape then [⟨p1, p2, p3, Item.shape.colour⟩, ⟨p3, p2, p4, Item.shape.colour⟩] else []⟩

/-- The four points of a quad (DebugRenderer.cpp:396-399, HeightFieldShape.h:119-121). -/
def quadAt (f : Height.HField K) (scale : V3 K) (i j : Nat) : Option (V3 K × V3 K × V3 K × V3 K) := do
  let p1 ← f.vertexAt i j
  let p2 ← f.vertexAt i (j + 1)
  let p3 ← f.vertexAt (i + 1) j
  let p4 ← f.vertexAt (i + 1) (j + 1)
  return (scaleBy scale p1, scaleBy scale p2, scaleBy scale p3, scaleBy scale p4)

/-- The cells of a height field (DebugRenderer.cpp:392-393). -/
def cells (f : Height.HField K) : List (Nat × Nat) :=
  (List.range (f.cols - 1)).flatMap fun i => (List.range (f.rows - 1)).map fun j => (i, j)

/-- `drawHeightFieldShape` (DebugRenderer.cpp:385-428): `none` if an assertion of `getVertexAt` fails. -/
def drawHeight (unit : V3 K → V3 K) (flags : BitVec 32) (len : K) (t : Trans K) (f : Height.HField K) (scale : V3 K) : Option (Canvas K) :=
  ((cells f).mapM fun c => quadAt f scale c.1 c.2).map (Canvas.each (drawQuad unit flags len t))

/-- The collision shapes, as the renderer sees them. -/
inductive Shape (K : Type)
  | box (half : V3 K)
  | sphere (radius : K)
  | capsule (radius height : K)
  | convex (faces : List (List (V3 K) × V3 K))
  | concave (tris : List (V3 K × V3 K × V3 K)) (vertices : List (V3 K × V3 K))
  | height (f : Height.HField K) (scale : V3 K)

/-- What a renderer is made of: the trigonometry, `getUnit`, the flags and the lengths (DebugRenderer.h:174-187). -/
structure Cfg (K : Type) where
  trig : Trig K
  unit : V3 K → V3 K
  flags : BitVec 32
  pointRadius : K
  normalLength : K
  shapeNormalLength : K

/-- `drawCollisionShapeOfCollider` (DebugRenderer.cpp:431-479). -/
def drawShape (g : Cfg K) (t : Trans K) : Shape K → Option (Canvas K)
  | .box h => some (drawBox g.flags g.shapeNormalLength t h)
  | .sphere r => some ⟨[], drawSphere g.trig t.pos r Item.shape.colour⟩
  | .capsule r h => some ⟨[], drawCapsule g.trig t r h Item.shape.colour⟩
  | .convex faces => some (drawConvex g.flags g.shapeNormalLength t faces)
  | .concave tris vs => some (drawConcave g.flags g.shapeNormalLength t tris vs)
  | .height f s => drawHeight g.unit g.flags g.shapeNormalLength t f s

/-- A collider: its shape, its pose in the world, its box `getWorldAABB`, and its fat box if it is in the broad phase. -/
structure Collider (K : Type) where
  shape : Shape K
  pose : Trans K
  box : AABB K
  fat : Option (AABB K)

/-- A body: `isActive`, `isDebugEnabled`, the colliders. -/
structure Body (K : Type) where
  active : Bool
  debug : Bool
  colliders : List (Collider K)

/-- The body of the loop over the colliders (DebugRenderer.cpp:500-524). -/
def drawCollider (g : Cfg K) (c : Collider K) : Option (Canvas K) :=
  let box : Canvas K := ⟨if displayed g.flags .box then drawAABB c.box Item.box.colour else [], []⟩
  let fat : Canvas K := ⟨if displayed g.flags .fatBox then (match c.fat with
    | some b => drawAABB b Item.fatBox.colour
    | none => []) else [], []⟩
  let shape := if displayed g.flags .shape || displayed g.flags .shapeNormal then drawShape g c.pose c.shape else some Canvas.empty
  shape.map fun s => box ++ fat ++ s

/-- `computeDebugRenderingPrimitives` (DebugRenderer.cpp:482-527): what is added to the arrays. -/
def drawWorld (g : Cfg K) : List (Body K) → Option (Canvas K)
  | [] => some Canvas.empty
  | b :: bs =>
    let here := if b.active && b.debug then (b.colliders.mapM (drawCollider g)).map (Canvas.each id) else some Canvas.empty
    here.bind fun h => (drawWorld g bs).map fun rest => h ++ rest

/-- A contact pair as the callback sees it: whether it is a lost one, the pose of the first collider, and for each contact point the
local point on the first collider and the normal. -/
structure Pair (K : Type) where
  lost : Bool
  pose : Trans K
  points : List (V3 K × V3 K)

/-- One contact point (DebugRenderer.cpp:545-559). -/
def drawPoint (g : Cfg K) (t : Trans K) (p : V3 K × V3 K) : Canvas K :=
  let point := t.act p.1
  ⟨if displayed g.flags .normal then [⟨point, point + V3.smul g.normalLength p.2, Item.normal.colour⟩] else [],
   if displayed g.flags .point then drawSphere g.trig point g.pointRadius Item.point.colour else []⟩

/-- `onContact` (DebugRenderer.cpp:530-564). -/
def drawContacts (g : Cfg K) (ps : List (Pair K)) : Canvas K :=
  if displayed g.flags .point || displayed g.flags .normal then
    Canvas.each (fun p => if p.lost then Canvas.empty else Canvas.each (drawPoint g p.pose) p.points) ps
  else Canvas.empty

/-- The renderer in `PhysicsWorld::update` (PhysicsWorld.cpp:250-252, 301-303 and CollisionDetectionSystem.cpp:1718-1721): `old` is what the
renderer held before, `ps` the contact pairs of the step, `bodies` the bodies at its end. -/
def update (g : Cfg K) (enabled : Bool) (old : Canvas K) (ps : List (Pair K)) (bodies : List (Body K)) : Option (Canvas K) :=
  if enabled then (drawWorld g bodies).map fun w => Canvas.empty ++ drawContacts g ps ++ w else some old

end Debug
end RP3D
