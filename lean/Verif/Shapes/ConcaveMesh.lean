import Verif.Mesh.Triangles
import Verif.Height.Field
import Verif.Broadphase.Raycast

/-! Model of `ConcaveMeshShape` (src/collision/shapes/ConcaveMeshShape.cpp): triangles in a box, and ray casts. -/

namespace RP3D
namespace Concave
open Ray TriMesh Height

variable {K : Type} [Field K] [LinearOrder K]

/-- `getTriangleVertices` (ConcaveMeshShape.cpp:79-88): the vertices, scaled. -/
def triangleAt (m : TMesh K) (scale : V3 K) (k : Nat) : Option (V3 K × V3 K × V3 K) :=
  (m.triangle k).map fun t => (scaleBy scale t.1, scaleBy scale t.2.1, scaleBy scale t.2.2)

/-- The triangle of a node of the tree, with its id `computeTriangleShapeId` (ConcaveMeshShape.h:252-257). -/
def itemAt (m : TMesh K) (t : Tree K) (scale : V3 K) (node : Nat) : Option (Item K) := do
  let k ← t.dataOf node
  let (a, b, c) ← triangleAt m scale k
  return ⟨a, b, c, m.tris.length / 3 + k⟩

/-- `computeOverlappingTriangles` (ConcaveMeshShape.cpp:135-174); the normals of the vertices are left out. -/
def overlapping (m : TMesh K) (t : Tree K) (scale : V3 K) (box : AABB K) : Option (List (Item K)) := do
  let inv : V3 K := ⟨1 / scale.x, 1 / scale.y, 1 / scale.z⟩
  let nodes ← t.overlapping ⟨scaleBy inv box.mn, scaleBy inv box.mx⟩
  nodes.mapM (itemAt m t scale)

/-- `raycastBroadPhaseShape` (ConcaveMeshShape.cpp:210-216): collects the nodes and returns the maximum fraction. -/
def collect (s : List Nat) (node : Nat) (m : K) : List Nat × Ext K := (s ++ [node], .fin m)

/-- `ConcaveMeshShape::raycast` (ConcaveMeshShape.cpp:179-207) with `raycastTriangles` (219-268): the tree is asked with the ray in the space
of the mesh, the scaled triangles are tested with the ray itself. -/
def raycast (F : FloatOps K) (m : TMesh K) (t : Tree K) (scale : V3 K) (eps : K) (side : Side) (neg : V3 Bool) (r : Ray K) :
    Option (Option (Hit K)) := do
  let inv : V3 K := ⟨1 / scale.x, 1 / scale.y, 1 / scale.z⟩
  let (nodes, _, _) ← t.raycast F (scaleBy inv r.p1) (scaleBy inv r.p2 - scaleBy inv r.p1) neg collect r.maxF []
  let items ← nodes.mapM (itemAt m t scale)
  return ((items.map fun i => (i.a, i.b, i.c)).foldl (rayTriangle eps side r) ⟨none, r.maxF⟩).hit

end Concave
end RP3D
