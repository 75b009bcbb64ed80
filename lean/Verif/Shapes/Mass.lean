import Verif.Shapes.Bounds

/-! Model of the volumes and of the inertia tensors of the collision shapes (`getVolume`, `getLocalInertiaTensor`). An inertia tensor is given by
its three principal moments. Simplification: exact arithmetic; `pi` is the constant `PI_RP3D` (configuration.h:123), `sqrt` a square root. -/

namespace RP3D
namespace Mass

variable {K : Type} [Field K] [LinearOrder K]

/-- `SphereShape::getVolume` (SphereShape.h:176-178). -/
def sphereVolume (pi r : K) : K := 4 / 3 * pi * r * r * r

/-- `SphereShape::getLocalInertiaTensor` (SphereShape.h:170-173). -/
def sphereInertia (r mass : K) : V3 K :=
  let diag := (2 / 5) * mass * r * r
  ⟨diag, diag, diag⟩

/-- `CapsuleShape::getVolume` (CapsuleShape.h:175-177). -/
def capsuleVolume (pi r half : K) : K := pi * r * r * (4 * r / 3 + 2 * half)

/-- `CapsuleShape::getLocalInertiaTensor` (CapsuleShape.cpp:51-67). -/
def capsuleInertia (r half mass : K) : V3 K :=
  let height := half + half
  let rr := r * r
  let hh := height * height
  let rr2 := rr + rr
  let factor1 := 2 * r / (4 * r + 3 * height)
  let factor2 := 3 * height / (4 * r + 3 * height)
  let sum1 := (2 / 5) * rr2
  let sum2 := (3 / 4) * height * r + (1 / 2) * hh
  let sum3 := (1 / 4) * rr + (1 / 12) * hh
  let xz := factor1 * mass * (sum1 + sum2) + factor2 * mass * sum3
  let y := factor1 * mass * sum1 + factor2 * mass * (1 / 4) * rr2
  ⟨xz, y, xz⟩

/-- `BoxShape::getVolume` (BoxShape.h:233-235). -/
def boxVolume (h : V3 K) : K := 8 * h.x * h.y * h.z

/-- `BoxShape::getLocalInertiaTensor` (BoxShape.cpp:53-59). -/
def boxInertia (h : V3 K) (mass : K) : V3 K :=
  let factor := (1 / 3) * mass
  let xx := h.x * h.x
  let yy := h.y * h.y
  let zz := h.z * h.z
  ⟨factor * (yy + zz), factor * (xx + zz), factor * (xx + yy)⟩

/-- One summand of Newell's method (ConvexMesh.cpp:225-232). -/
def newell (a b : V3 K) : V3 K := ⟨(a.y - b.y) * (a.z + b.z), (a.z - b.z) * (a.x + b.x), (a.x - b.x) * (a.y + b.y)⟩

/-- The loop of `computeFaceNormal` (ConvexMesh.cpp:225-233) from a vertex `v` on. -/
def newellLoop (n v : V3 K) : List (V3 K) → V3 K
  | [] => n
  | w :: ws => newellLoop (n + newell v w) w ws

/-- `ConvexMesh::computeFaceNormal` (ConvexMesh.cpp:217-236) for a face that is given by its points: it starts with the last vertex, and asserts
that there are three. -/
def faceNormal (face : List (V3 K)) : Option (V3 K) :=
  if 3 ≤ face.length then face.getLast?.map (newellLoop 0 · face) else none

/-- `Vector3::length` (Vector3.h:197-199). -/
def len (sqrt : K → K) (v : V3 K) : K := sqrt v.lengthSq

/-- `computeFacesNormals` (ConvexMesh.cpp:186-214) for one face with three vertices at least: a normal that is too short is not divided. -/
def unitNormal (eps : K) (sqrt : K → K) (n : V3 K) : V3 K :=
  if eps < len sqrt n then V3.smul (1 / len sqrt n) n else n

/-- One round of the loop of `computeVolume` (ConvexMesh.cpp:253-260). -/
def faceTerm (eps : K) (sqrt : K → K) (face : List (V3 K)) : Option K := do
  let n ← faceNormal face
  let v ← face.head?
  some (v.dot (unitNormal eps sqrt n) * (len sqrt n * (1 / 2)))

/-- The loop of `computeVolume` (ConvexMesh.cpp:252-261). -/
def volumeSum (eps : K) (sqrt : K → K) : List (List (V3 K)) → K → Option K
  | [], s => some s
  | f :: fs, s => do
    let t ← faceTerm eps sqrt f
    volumeSum eps sqrt fs (s + t)

/-- `ConvexMesh::computeVolume` (ConvexMesh.cpp:246-264) for faces that are given by their points. -/
def meshVolume (eps : K) (sqrt : K → K) (faces : List (List (V3 K))) : Option K :=
  (volumeSum eps sqrt faces 0).map fun s => |s| / 3

/-- `ConvexMeshShape::getVolume` (ConvexMeshShape.h:230-232). -/
def meshShapeVolume (eps : K) (sqrt : K → K) (scale : V3 K) (faces : List (List (V3 K))) : Option K :=
  (meshVolume eps sqrt faces).map fun v => v * scale.x * scale.y * scale.z

/-- `ConvexMesh::getLocalInertiaTensor` (ConvexMesh.h:200-211) with the bounds of the mesh. -/
def boundsInertia (scale : V3 K) (mass : K) (b : AABB K) : Option (V3 K) :=
  let factor := (1 / 3) * mass
  let e : V3 K := Ray.scaleBy (V3.smul (1 / 2) scale) (b.mx - b.mn)
  if 0 < e.x ∧ 0 < e.y ∧ 0 < e.z then
    some ⟨factor * (e.y * e.y + e.z * e.z), factor * (e.x * e.x + e.z * e.z), factor * (e.x * e.x + e.y * e.y)⟩
  else none

/-- `ConvexMeshShape::getLocalInertiaTensor` (ConvexMeshShape.h:175-177) for a mesh with the vertices `vs`. -/
def meshInertia (scale : V3 K) (vs : List (V3 K)) (mass : K) : Option (V3 K) := (Bounds.meshBounds vs).bind (boundsInertia scale mass)

/-- `ConcaveShape::getVolume` (ConcaveShape.cpp:41-53) with the local bounds of the shape. -/
def concaveVolume (b : AABB K) : K := (b.mx.x - b.mn.x) * (b.mx.y - b.mn.y) * (b.mx.z - b.mn.z)

/-- `ConcaveShape::getLocalInertiaTensor` (ConcaveShape.h:168-175). -/
def concaveInertia (mass : K) : V3 K := ⟨mass, mass, mass⟩

end Mass
end RP3D
