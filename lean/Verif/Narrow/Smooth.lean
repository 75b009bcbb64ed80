import Verif.Math.Geometry
import Verif.Shapes.Points
import Verif.Narrow.Gjk

/-! Model of the smoothing of contacts with triangles of meshes (include/reactphysics3d/collision/shapes/TriangleShape.h,
src/collision/shapes/TriangleShape.cpp), of the normals at the vertices of scaled meshes (src/collision/shapes/ConcaveMeshShape.cpp), and of its use in
the GJK test (src/collision/narrowphase/GJK/GJKAlgorithm.cpp).

Simplifications: exact arithmetic, the square root is an argument. A broken assertion or a division by zero is `none`. -/

namespace RP3D
namespace Smooth
open Round Shape

variable {K : Type} [Field K] [LinearOrder K]

/-- A `TriangleShape` (TriangleShape.h:68-75): `mPoints`, `mVerticesNormals`, `mNormal`. -/
structure TriShape (K : Type) where
  pts : Fin 3 → V3 K
  nor : Fin 3 → V3 K
  normal : V3 K

/-- The constructor (TriangleShape.cpp:39-60). -/
def TriShape.make (eps : K) (sqrt : K → K) (pts nor : Fin 3 → V3 K) : Option (TriShape K) :=
  let m := (pts 1 - pts 0).cross (pts 2 - pts 0)
  if eps < sqrt m.lengthSq then some ⟨pts, nor, unit eps sqrt m⟩ else none

/-- `computeSmoothLocalContactNormalForTriangle` (TriangleShape.h:309-334). -/
def TriShape.localNormal (eps : K) (sqrt : K → K) (T : TriShape K) (p : V3 K) : Option (V3 K) :=
  if 0 < sqrt T.normal.lengthSq then
    match Geom.barycentric (T.pts 0) (T.pts 1) (T.pts 2) p with
    | none => none
    | some (u, v, w) =>
      if eps < u ∧ eps < v ∧ eps < w then some T.normal
      else
        let m := V3.smul u (T.nor 0) + V3.smul v (T.nor 1) + V3.smul w (T.nor 2)
        if m.lengthSq < eps then some T.normal else some (unit eps sqrt m)
  else none

/-- `computeSmoothMeshContact` (TriangleShape.cpp:89-116): the contact point on the other shape and the normal from the first shape to the second. -/
def TriShape.smooth (eps : K) (sqrt : K → K) (T : TriShape K) (p : V3 K) (triToWorld worldToOther : Trans K) (depth : K) (first : Bool) (normal : V3 K) :
    Option (V3 K × V3 K) :=
  match T.localNormal eps sqrt p with
  | none => none
  | some n =>
    let axis := if first then normal else -normal
    let loc := if (triToWorld.ori.rot n).dot axis < 0 then -n else n
    let world := if (triToWorld.ori.rot n).dot axis < 0 then -(triToWorld.ori.rot n) else triToWorld.ori.rot n
    some ((worldToOther.mul triToWorld).act (p - V3.smul depth loc), if first then world else -world)

/-- `computeSmoothTriangleMeshContact` (TriangleShape.h:341-364); `none` for a shape that is no triangle. -/
def smooth (eps : K) (sqrt : K → K) (s1 s2 : Option (TriShape K)) (t1 t2 : Trans K) (c : Contact K) : Option (Contact K) :=
  match s1, s2 with
  | some _, some _ => none
  | some T, none => (T.smooth eps sqrt c.p1 t1 t2.inverse c.depth true c.normal).map fun r => ⟨r.2, c.depth, c.p1, r.1⟩
  | none, some T => (T.smooth eps sqrt c.p2 t2 t1.inverse c.depth false c.normal).map fun r => ⟨r.2, c.depth, r.1, c.p2⟩
  | none, none => some c

/-- The GJK test with the smoothing of its contact (GJKAlgorithm.cpp:215-232). -/
def gjk (c : Gjk.Cfg K) (tri1 tri2 : Option (TriShape K)) (t1 t2 : Trans K) (s1 s2 : V3 K → V3 K) (m1 m2 : K) (cached : Option (V3 K)) (n : Nat) :
    Option (Option (Gjk.Verdict K)) :=
  match Gjk.gjk c t1 t2 s1 s2 m1 m2 cached n with
  | some (some (.collide ct)) => (smooth c.eps c.sqrt tri1 tri2 t1 t2 ct).map fun r => some (.collide r)
  | r => r

/-- `computeScaledVerticesNormals` for one vertex (ConcaveMeshShape.cpp:64-74). -/
def vertexNormal (eps : K) (sqrt : K → K) (scale n : V3 K) : Option (V3 K) :=
  let m : V3 K := ⟨1 / scale.x * n.x, 1 / scale.y * n.y, 1 / scale.z * n.z⟩
  if eps < sqrt m.lengthSq then some ⟨m.x / sqrt m.lengthSq, m.y / sqrt m.lengthSq, m.z / sqrt m.lengthSq⟩ else none

end Smooth
end RP3D
