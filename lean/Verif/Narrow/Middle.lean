import Verif.Shapes.ConcaveMesh
import Verif.Shapes.Bounds
import Verif.Math.Integers

/-! Model of the middle phase for a convex and a concave collider (src/systems/CollisionDetectionSystem.cpp:520-615) and of what is
remembered about pairs of shapes from frame to frame (OverlappingPairs.h:194-292).

Simplifications: exact arithmetic; the map of the remembered data is an association list (C03); the pool allocator hands out a new
number for every object (C09: never the address of a living one); of the remembered data only the mark `isObsolete` is interpreted. The
normals of the vertices are left out. -/

namespace RP3D
namespace Middle
open Ray TriMesh Height

/-- A `LastFrameCollisionInfo` (OverlappingPairs.h:55-93): its address, the mark, and the rest. -/
structure Info (D : Type) where
  ptr : Nat
  obsolete : Bool
  data : D
deriving DecidableEq

/-- `lastFrameCollisionInfos` (OverlappingPairs.h:203) and the number of the next object of the pool. -/
structure Infos (D : Type) where
  entries : List (Nat × Info D)
  next : Nat
deriving DecidableEq

/-- The map of a new pair (OverlappingPairs.h:211). -/
def Infos.empty (D : Type) : Infos D := ⟨[], 0⟩

/-- `clearObsoleteLastFrameInfos` (OverlappingPairs.h:267-291). -/
def Infos.clear {D : Type} (s : Infos D) : Infos D :=
  { s with entries := (s.entries.filter fun e => !e.2.obsolete).map fun e => (e.1, { e.2 with obsolete := true }) }

/-- `find` of the map. -/
def Infos.find {D : Type} (s : Infos D) (key : Nat) : Option (Info D) := (s.entries.find? fun e => e.1 == key).map (·.2)

/-- The key of two shapes (OverlappingPairs.h:233-241). -/
def shapesKey (id1 id2 : Nat) : Nat :=
  if id1 < id2 then pairNumbers id2 id1 else pairNumbers id1 id2

/-- `addLastFrameInfoIfNecessary` (OverlappingPairs.h:231-264); `d` is the content of a new object (OverlappingPairs.h:87-92). -/
def Infos.add {D : Type} (d : D) (s : Infos D) (id1 id2 : Nat) : Infos D × Nat :=
  let key := shapesKey id1 id2
  match s.find key with
  | none => (⟨s.entries ++ [(key, ⟨s.next, false, d⟩)], s.next + 1⟩, s.next)
  | some i => ({ s with entries := s.entries.map fun e => if e.1 = key then (e.1, { e.2 with obsolete := false }) else e }, i.ptr)

/-- The narrow phase writes through the pointers of the tests. -/
def Infos.write {D : Type} (s : Infos D) (f : Nat → D → D) : Infos D :=
  { s with entries := s.entries.map fun e => (e.1, { e.2 with data := f e.2.ptr e.2.data }) }

/-- The calls of `addLastFrameInfoIfNecessary` of a middle phase, for triangles with the given ids; the other shape has the id 0
(CollisionShape.cpp:37). -/
def Infos.touch {D : Type} (d : D) (firstConvex : Bool) : Infos D → List Nat → Infos D × List Nat
  | s, [] => (s, [])
  | s, i :: is =>
    let r := s.add d (if firstConvex then 0 else i) (if firstConvex then i else 0)
    let q := Infos.touch d firstConvex r.1 is
    (q.1, r.2 :: q.2)

/-- What happens to the remembered data of a pair in a frame or in a query (CollisionDetectionSystem.cpp:354, 471, 608): the old data are
marked, those of the tested triangles `ids` are taken or made, and the narrow phase leaves `out` for each of these triangles. The list
is empty if the pair is not tested. -/
structure Frame (D : Type) where
  ids : List Nat
  out : Nat → D → D

def Infos.frame {D : Type} (d : D) (firstConvex : Bool) (s : Infos D) (f : Frame D) : Infos D :=
  let r := s.clear.touch d firstConvex f.ids
  r.1.write fun p x =>
    match (f.ids.zip r.2).find? fun e => e.2 == p with
    | some e => f.out e.1 x
    | none => x

variable {K : Type} [Field K] [LinearOrder K]

/-- The shape of a collider of the pair. -/
inductive CShape (K : Type)
  | convex (s : Bounds.Shape K)
  | mesh (scale : V3 K) (m : TMesh K) (t : Tree K)
  | field (scale : V3 K) (f : HField K)

/-- A collider: its shape and its transform `mLocalToWorldTransforms`, and whether it is a trigger. -/
structure Col (K : Type) where
  shape : CShape K
  trans : Trans K
  trigger : Bool

/-- A shape of a test: that of the convex collider or a triangle. -/
inductive TShape (K : Type)
  | convex (s : Bounds.Shape K)
  | triangle (i : Item K)

/-- `getId` of the shapes of a test: 0 except for triangles (CollisionShape.cpp:37, TriangleShape.cpp:60). -/
def TShape.id : TShape K → Nat
  | .convex _ => 0
  | .triangle i => i.id

/-- What `addNarrowPhaseTest` is called with (CollisionDetectionSystem.cpp:611-613); the algorithm is that of the pair. -/
structure Test (K : Type) where
  shape1 : TShape K
  shape2 : TShape K
  trans1 : Trans K
  trans2 : Trans K
  report : Bool
  info : Nat

/-- The assertion of the constructor of `TriangleShape` (TriangleShape.cpp:48-50): the length of the normal. -/
def triangleOk (sqrt : K → K) (me : K) (i : Item K) : Prop := me < sqrt ((i.b - i.a).cross (i.c - i.a)).lengthSq

instance (sqrt : K → K) (me : K) (i : Item K) : Decidable (triangleOk sqrt me i) := by unfold triangleOk; infer_instance

/-- One round of the loop over the triangles (CollisionDetectionSystem.cpp:586-614). -/
def addTriangle {D : Type} (sqrt : K → K) (me : K) (d : D) (firstConvex : Bool) (cs : Bounds.Shape K) (t1 t2 : Trans K) (report : Bool)
    (acc : List (Test K) × Infos D) (i : Item K) : Option (List (Test K) × Infos D) :=
  if triangleOk sqrt me i then
    let s1 : TShape K := if firstConvex then .convex cs else .triangle i
    let s2 : TShape K := if firstConvex then .triangle i else .convex cs
    let r := acc.2.add d s1.id s2.id
    some (acc.1 ++ [⟨s1, s2, t1, t2, report, r.2⟩], r.1)
  else none

section Floor
variable [FloorRing K]

/-- The virtual call of `computeOverlappingTriangles`; a convex shape breaks the assertion of line 552. -/
def CShape.triangles (box : AABB K) : CShape K → Option (List (Item K))
  | .convex _ => none
  | .mesh scale m t => Concave.overlapping m t scale box
  | .field scale f => shapeOverlapping f scale box

/-- `computeConvexVsConcaveMiddlePhase` (CollisionDetectionSystem.cpp:520-615) for the colliders `x1` and `x2`; `want` is the argument
`reportContacts`. -/
def concavePair {D : Type} (sqrt : K → K) (me : K) (d : D) (firstConvex : Bool) (x1 x2 : Col K) (want : Bool) (s : Infos D) :
    Option (List (Test K) × Infos D) :=
  let convex := if firstConvex then x1 else x2
  let concave := if firstConvex then x2 else x1
  let toConcave := if firstConvex then x2.trans.inverse.mul x1.trans else x1.trans.inverse.mul x2.trans
  match convex.shape with
  | .convex cs => do
    let box ← cs.worldBox toConcave
    let items ← concave.shape.triangles box
    let report := want && !x1.trigger && !x2.trigger
    items.foldlM (addTriangle sqrt me d firstConvex cs x1.trans x2.trans report) ([], s)
  | _ => none

end Floor

end Middle
end RP3D
