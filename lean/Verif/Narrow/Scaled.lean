import Verif.Narrow.Sat
import Verif.Shapes.Ray
import Verif.Shapes.Points

/-! Model of what the separating axis test reads of a `ConvexMeshShape` (include/reactphysics3d/collision/shapes/ConvexMeshShape.h:150-227,
src/collision/shapes/ConvexMeshShape.cpp:50-102): vertices, normals and centroid of a convex mesh with the scale of the shape. -/

namespace RP3D
namespace Scaled
open Ray Shape Sat
variable {K : Type} [Field K] [LinearOrder K]

/-- The shape of a mesh `P` (its unscaled vertices, normals and centroid) with scale `s`: `getVertexPosition` (ConvexMeshShape.h:213-216), `getFaceNormal`
(219-222) with `computeScaledFacesNormals` (ConvexMeshShape.cpp:50-70), `getCentroid` (ConvexMeshShape.h:225-227); faces and edges are those of the mesh.
The support function is given. -/
def shape (sqrt : K → K) (s : V3 K) (support : V3 K → V3 K) (P : Poly K) : Poly K :=
  { P with
    vert := fun v => scaleBy (P.vert v) s
    normal := fun f => scaledNormal (fun v => sqrt v.lengthSq) s (P.normal f)
    centroid := scaleBy P.centroid s
    tri := false
    support := support }

/-- The support function of the shape (ConvexMeshShape.cpp:80-102); zero if the assertion of line 98 fails. -/
def support (large : K) (s : V3 K) (P : Poly K) (d : V3 K) : V3 K := (meshSupport large s ((List.range P.nv).map P.vert) d).getD 0

/-- `computeScaledFacesNormals` for one face with its assertion (ConvexMeshShape.cpp:58-68, operator/= Vector3.h:294-300). -/
def checkedNormal (eps : K) (sqrt : K → K) (s n : V3 K) : Option (V3 K) :=
  if sqrt (scaleBy ⟨1 / s.x, 1 / s.y, 1 / s.z⟩ n).lengthSq > eps then some (scaledNormal (fun v => sqrt v.lengthSq) s n) else none

end Scaled
end RP3D
