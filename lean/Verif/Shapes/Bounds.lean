import Verif.Math.Rigid
import Verif.Broadphase.Tree
import Verif.Height.Field
import Verif.Mesh.Triangles

/-! Model of the boxes of collision shapes in world space (src/collision/shapes/CollisionShape.cpp and the shapes), and of the box of a body
(src/body/Body.cpp). Simplification: exact arithmetic. -/

namespace RP3D
namespace Bounds
open Ray Height TriMesh

variable {K : Type} [Field K] [LinearOrder K]

/-- One round of the inner loop of `computeTransformedAABB` (CollisionShape.cpp:74-85) with the entry `a` of the matrix. -/
def term (a mn mx : K) (s : K × K) : K × K :=
  let e := a * mn
  let f := a * mx
  if e < f then (s.1 + e, s.2 + f) else (s.1 + f, s.2 + e)

/-- One round of the outer loop (CollisionShape.cpp:68-86) with a row of the matrix: the smallest and the largest coordinate. -/
def axis (p : K) (row : V3 K) (b : AABB K) : K × K :=
  term row.z b.mn.z b.mx.z (term row.y b.mn.y b.mx.y (term row.x b.mn.x b.mx.x (p, p)))

/-- `CollisionShape::computeTransformedAABB` (CollisionShape.cpp:54-93) with the local bounds `b`. -/
def transformed (t : Trans K) (b : AABB K) : AABB K :=
  let m := t.ori.matrix
  let x := axis t.pos.x m.r0 b
  let y := axis t.pos.y m.r1 b
  let z := axis t.pos.z m.r2 b
  ⟨⟨x.1, y.1, z.1⟩, ⟨x.2, y.2, z.2⟩⟩

/-- `SphereShape::computeTransformedAABB` (SphereShape.cpp:49-58). -/
def sphere (radius : K) (t : Trans K) : AABB K := ⟨t.pos - ⟨radius, radius, radius⟩, t.pos + ⟨radius, radius, radius⟩⟩

/-- `TriangleShape::computeTransformedAABB` (TriangleShape.cpp:124-138). -/
def triangle (a b c : V3 K) (t : Trans K) : AABB K :=
  let p := t.act a
  let q := t.act b
  let r := t.act c
  ⟨⟨min3 p.x q.x r.x, min3 p.y q.y r.y, min3 p.z q.z r.z⟩, ⟨max3 p.x q.x r.x, max3 p.y q.y r.y, max3 p.z q.z r.z⟩⟩

/-- `BoxShape::getLocalBounds` (BoxShape.cpp:149-151). -/
def boxLocal (h : V3 K) : AABB K := ⟨-h, h⟩

/-- `CapsuleShape::getLocalBounds` (CapsuleShape.cpp:90-94). -/
def capsuleLocal (radius half : K) : AABB K := ⟨⟨-radius, -half - radius, -radius⟩, ⟨radius, half + radius, radius⟩⟩

/-- `AABB::applyScale` (AABB.h:218-221). -/
def applyScale (scale : V3 K) (b : AABB K) : AABB K := ⟨scaleBy scale b.mn, scaleBy scale b.mx⟩

/-- The bounds of a convex mesh (ConvexMesh.cpp:83-99). -/
def meshBounds : List (V3 K) → Option (AABB K)
  | [] => none
  | v :: vs => some ((v :: vs).foldl AABB.inflateWithPoint ⟨v, v⟩)

/-- `ConvexMeshShape::getLocalBounds` (ConvexMeshShape.cpp:208-212). -/
def meshLocal (scale : V3 K) (vs : List (V3 K)) : Option (AABB K) := (meshBounds vs).map (applyScale scale)

/-- `TriangleMesh::getBounds` (TriangleMesh.cpp:269-271) with `getRootAABB` (DynamicAABBTree.h:297-299): undefined for the empty tree. -/
def treeBounds (t : Tree K) : Option (AABB K) := t.root.bind t.fatOf

/-- `ConcaveMeshShape::getLocalBounds` (ConcaveMeshShape.cpp:276-285). -/
def concaveLocal (scale : V3 K) (t : Tree K) : Option (AABB K) := (treeBounds t).map (applyScale scale)

/-- `HeightFieldShape::getLocalBounds` (HeightFieldShape.cpp:50-54). -/
def heightLocal (scale : V3 K) (f : HField K) : AABB K := applyScale scale f.bounds

/-- The shapes, as far as their boxes are concerned. -/
inductive Shape (K : Type)
  | sphere (radius : K)
  | capsule (radius half : K)
  | box (half : V3 K)
  | triangle (a b c : V3 K)
  | convex (scale : V3 K) (vs : List (V3 K))
  | concave (scale : V3 K) (t : Tree K)
  | height (scale : V3 K) (f : HField K)

/-- The virtual call of `computeTransformedAABB`. -/
def Shape.worldBox : Shape K → Trans K → Option (AABB K)
  | .sphere r, t => some (Bounds.sphere r t)
  | .capsule r h, t => some (transformed t (capsuleLocal r h))
  | .box h, t => some (transformed t (boxLocal h))
  | .triangle a b c, t => some (Bounds.triangle a b c t)
  | .convex s vs, t => (meshLocal s vs).map (transformed t)
  | .concave s tr, t => (concaveLocal s tr).map (transformed t)
  | .height s f, t => some (transformed t (heightLocal s f))

/-- One round of the loop of `Body::getAABB` (Body.cpp:378-387). -/
def mergeCollider (body : Trans K) (b : AABB K) (c : Shape K × Trans K) : Option (AABB K) :=
  (c.1.worldBox (body.mul c.2)).map b.merge

/-- `Body::getAABB` (Body.cpp:366-390); the default box (AABB.h:60) is that of the origin. -/
def bodyBox (body : Trans K) : List (Shape K × Trans K) → Option (AABB K)
  | [] => some ⟨0, 0⟩
  | c :: cs => do
    let b ← c.1.worldBox (body.mul c.2)
    cs.foldlM (mergeCollider body) b

end Bounds
end RP3D
