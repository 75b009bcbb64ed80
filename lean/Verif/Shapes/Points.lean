import Verif.Shapes.Ray

/-! Point tests and support points of the convex shapes. Arithmetic is exact (a simplification). -/

namespace RP3D
namespace Shape
open Ray

variable {K : Type} [Field K] [LinearOrder K]

/-- `SphereShape::testPointInside` (include/reactphysics3d/collision/shapes/SphereShape.h:181-183). -/
def sphereInside (radius : K) (x : V3 K) : Prop := x.lengthSq < radius * radius

/-- `BoxShape::testPointInside` (BoxShape.h:175-179). -/
def boxInside (h x : V3 K) : Prop :=
  x.x < h.x ∧ x.x > -h.x ∧ x.y < h.y ∧ x.y > -h.y ∧ x.z < h.z ∧ x.z > -h.z

/-- `CapsuleShape::testPointInside` (src/collision/shapes/CapsuleShape.cpp:70-83). -/
def capsuleInside (radius hh : K) (x : V3 K) : Prop :=
  let d1 := x.y - hh
  let d2 := x.y + hh
  let xx := x.x * x.x
  let zz := x.z * x.z
  (xx + zz < radius * radius ∧ x.y < hh ∧ x.y > -hh) ∨ xx + zz + d1 * d1 < radius * radius ∨
    xx + zz + d2 * d2 < radius * radius

/-- `ConvexMeshShape::testPointInside` (ConvexMeshShape.cpp:185-202): scaled normals, unscaled vertices. -/
def meshInside (len : V3 K → K) (scale : V3 K) (faces : List (V3 K × V3 K)) (x : V3 K) : Prop :=
  ∀ f ∈ faces, ¬ (scaledNormal len scale f.1).dot (x - f.2) > 0

/-- `Collider::testPointInside` (src/collision/Collider.cpp:58-64). -/
def colliderInside (toWorld : Trans K) (shape : V3 K → Prop) (x : V3 K) : Prop := shape (toWorld.inverse.act x)

/-- `Body::testPointInside` (src/body/Body.cpp:314-327): the loop over the colliders of the body. -/
def bodyInside : List (Trans K × (V3 K → Prop)) → V3 K → Prop
  | [], _ => False
  | c :: cs, x => colliderInside c.1 c.2 x ∨ bodyInside cs x

/-- `BoxShape::getLocalSupportPointWithoutMargin` (BoxShape.h:167-172). -/
def boxSupport (h d : V3 K) : V3 K :=
  ⟨if d.x < 0 then -h.x else h.x, if d.y < 0 then -h.y else h.y, if d.z < 0 then -h.z else h.z⟩

/-- `CapsuleShape::getLocalSupportPointWithoutMargin` (CapsuleShape.h:191-206). -/
def capsuleSupport (hh : K) (d : V3 K) : V3 K :=
  if hh * d.y > -hh * d.y then ⟨0, hh, 0⟩ else ⟨0, -hh, 0⟩

/-- `Vector3::getMaxAxis` (Vector3.h:240-242). -/
def maxAxis (v : V3 K) : Fin 3 := if v.x < v.y then (if v.y < v.z then 2 else 1) else (if v.x < v.z then 2 else 0)

/-- `TriangleShape::getLocalSupportPointWithoutMargin` (TriangleShape.h:199-202). -/
def triangleSupport (a b c d : V3 K) : V3 K :=
  match maxAxis (⟨d.dot a, d.dot b, d.dot c⟩ : V3 K) with
  | 0 => a
  | 1 => b
  | 2 => c

/-- The loop of `ConvexMeshShape::getLocalSupportPointWithoutMargin` (ConvexMeshShape.cpp:86-96): the best vertex so far and
its dot product. -/
def meshLoop (d : V3 K) : List (V3 K) → V3 K → K → V3 K × K
  | [], best, m => (best, m)
  | v :: vs, best, m => if d.dot v > m then meshLoop d vs v (d.dot v) else meshLoop d vs best m

/-- `ConvexMeshShape::getLocalSupportPointWithoutMargin` (ConvexMeshShape.cpp:80-102); `none` if the assertion of line 98
fails or there is no vertex. `-large` is `DECIMAL_SMALLEST`. -/
def meshSupport (large : K) (scale : V3 K) (vs : List (V3 K)) (d : V3 K) : Option (V3 K) :=
  match vs with
  | [] => none
  | v :: _ =>
    let r := meshLoop d vs v (-large)
    if r.2 ≥ 0 then some (scaleBy r.1 scale) else none

/-- `Vector3::getUnit` (src/mathematics/Vector3.cpp:33-43). -/
def unit (eps : K) (sqrt : K → K) (v : V3 K) : V3 K :=
  let l := sqrt v.lengthSq
  if l < eps then v else let i := 1 / l; ⟨v.x * i, v.y * i, v.z * i⟩

/-- `ConvexShape::getLocalSupportPointWithMargin` (src/collision/shapes/ConvexShape.cpp:40-56). -/
def withMargin (eps : K) (sqrt : K → K) (margin : K) (support : V3 K → V3 K) (d : V3 K) : V3 K :=
  let p := support d
  if margin ≠ 0 then
    let u : V3 K := if d.lengthSq > eps * eps then unit eps sqrt d else ⟨0, -1, 0⟩
    p + V3.smul margin u
  else p

end Shape
end RP3D
