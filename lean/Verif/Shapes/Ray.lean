import Verif.Math.Rigid

/-! Model of ray casting against the collision shapes (src/collision/shapes/*.cpp `raycast`), against a collider
(Collider.cpp:173-192), and against a body (Body.cpp:337-360).

Numbers are taken from an ordered field `K` with a square root given as a function: the arithmetic is exact. The thresholds
`MACHINE_EPSILON` and `DECIMAL_LARGEST` are parameters. A shape answers `some` with the data it writes into `raycastInfo`, or
`none`, in which case it leaves `raycastInfo` alone. A hit fraction which is NaN (division of zero by zero) is
`Frac.nan`. -/

namespace RP3D
namespace Ray

variable {K : Type} [Field K] [LinearOrder K]

/-- `Ray` (include/reactphysics3d/mathematics/Ray.h:45-58). -/
structure Ray (K : Type) where
  p1 : V3 K
  p2 : V3 K
  maxF : K

/-- The direction of the ray, `point2 - point1`. -/
def Ray.dir (r : Ray K) : V3 K := r.p2 - r.p1

/-- The point of the ray at a fraction. -/
def Ray.at (r : Ray K) (t : K) : V3 K := r.p1 + V3.smul t r.dir

/-- What a shape writes: `hitFraction`, `worldPoint` and `worldNormal` (still in local space). -/
structure Hit (K : Type) where
  fraction : K
  point : V3 K
  normal : V3 K

/-- `SphereShape::raycast` (SphereShape.cpp:61-103) for a sphere with centre `center`; the same computation is
`CapsuleShape::raycastWithSphereEndCap` (CapsuleShape.cpp:243-283). The result is the hit fraction. The assertion `t >= 0` is
proved in `Props`. -/
def sphereFraction (eps : K) (sqrt : K → K) (radius : K) (center : V3 K) (r : Ray K) : Option K :=
  let m := r.p1 - center
  let c := m.dot m - radius * radius
  if c < 0 then none
  else
    let b := m.dot r.dir
    if b > 0 then none
    else
      let len := r.dir.lengthSq
      let disc := b * b - len * c
      if disc < 0 ∨ len < eps then none
      else
        let t := -b - sqrt disc
        if t < r.maxF * len then some (t / len) else none

/-- `SphereShape::raycast` (SphereShape.cpp:61-103). -/
def sphere (eps : K) (sqrt : K → K) (radius : K) (r : Ray K) : Option (Hit K) :=
  match sphereFraction eps sqrt radius 0 r with
  | some t => some ⟨t, r.at t, r.at t⟩
  | none => none

/-- The state of the loop of `BoxShape::raycast`: `tMin`, `tMax`, `normalDirection`. -/
structure Slabs (K : Type) where
  tMin : K
  tMax : K
  normal : V3 K

/-- One slab (BoxShape.cpp:73-111); `p`, `d`, `h` are the coordinates of the origin, the direction and the half extents,
`axis h` is the vector with `h` at this coordinate. `none` = `return false`. -/
def slab (eps : K) (maxF p d h : K) (axis : K → V3 K) (s : Slabs K) : Option (Slabs K) :=
  if |d| < eps then
    (if p > h ∨ p < -h then none else some s)
  else
    let oneOverD := 1 / d
    let t1 := (-h - p) * oneOverD
    let t2 := (h - p) * oneOverD
    let n := axis (-h)
    let near := if t1 > t2 then t2 else t1
    let far := if t1 > t2 then t1 else t2
    let n := if t1 > t2 then -n else n
    let tMin := if near > s.tMin then near else s.tMin
    let normal := if near > s.tMin then n else s.normal
    let tMax := min s.tMax far
    if tMin > maxF then none
    else if tMin > tMax then none
    else some ⟨tMin, tMax, normal⟩

/-- `BoxShape::raycast` (BoxShape.cpp:62-128); `large` is `DECIMAL_LARGEST`. -/
def box (eps large : K) (h : V3 K) (r : Ray K) : Option (Hit K) := do
  let s ← slab eps r.maxF r.p1.x r.dir.x h.x (fun a => ⟨a, 0, 0⟩) ⟨-large, large, 0⟩
  let s ← slab eps r.maxF r.p1.y r.dir.y h.y (fun a => ⟨0, a, 0⟩) s
  let s ← slab eps r.maxF r.p1.z r.dir.z h.z (fun a => ⟨0, 0, a⟩) s
  if s.tMin < 0 ∨ s.tMin > r.maxF then none
  else some ⟨s.tMin, r.at s.tMin, s.normal⟩

/-- The test against the sphere at one end of a capsule, with the information stored on a hit
(src/collision/shapes/CapsuleShape.cpp:134-150, 152-169, 185-202, 203-220: the same code four times). -/
def endCap (eps : K) (sqrt : K → K) (radius : K) (r : Ray K) (c : V3 K) : Option (Hit K) :=
  match sphereFraction eps sqrt radius c r with
  | some t => some ⟨t, r.at t, r.at t - c⟩
  | none => none

/-- `CapsuleShape::raycast` (CapsuleShape.cpp:97-240). `epsA` is the constant `0.01` of line 101, `hh` is `mHalfHeight`. The unit
vector of the last lines is taken up to its positive length (`Collider::raycast` normalises anyway). -/
def capsule (eps epsA : K) (sqrt : K → K) (radius hh : K) (r : Ray K) : Option (Hit K) :=
  let n := r.dir
  let p : V3 K := ⟨0, -hh, 0⟩
  let q : V3 K := ⟨0, hh, 0⟩
  let d := q - p
  let m := r.p1 - p
  let mDotD := m.dot d
  let nDotD := n.dot d
  let dDotD := d.dot d
  let vec1DotD := (r.p1 - (⟨0, -hh - radius, 0⟩ : V3 K)).dot d
  let extra := 2 * radius * d.y
  if vec1DotD < 0 ∧ vec1DotD + nDotD < 0 then none
  else if vec1DotD > dDotD + extra ∧ vec1DotD + nDotD > dDotD + extra then none
  else
    let nDotN := n.dot n
    let mDotN := m.dot n
    let a := dDotD * nDotN - nDotD * nDotD
    let k := m.dot m - radius * radius
    let c := dDotD * k - mDotD * mDotD
    if |a| < epsA then
      if c > 0 then none
      else if mDotD < 0 then endCap eps sqrt radius r p
      else if mDotD > dDotD then endCap eps sqrt radius r q
      else none
    else
      let b := dDotD * mDotN - nDotD * mDotD
      let disc := b * b - a * c
      if disc < 0 then none
      else
        let t := (-b - sqrt disc) / a
        let value := mDotD + t * nDotD
        if value < 0 then endCap eps sqrt radius r p
        else if value > dDotD then endCap eps sqrt radius r q
        else if t < 0 ∨ t > r.maxF then none
        else
          let hp := r.at t
          let v := hp - p
          let w := V3.smul (v.dot d / d.lengthSq) d
          some ⟨t, hp, hp - (p + w)⟩

/-- `TriangleRaycastSide` (include/reactphysics3d/collision/shapes/TriangleShape.h:43). -/
inductive Side
  | front | back | frontAndBack
  deriving DecidableEq, Repr

/-- What `TriangleShape::raycast` returns: no hit, a hit, or a "hit" all of whose numbers are NaN. -/
inductive TriHit (K : Type)
  | miss
  | hit (h : Hit K)
  | nan

/-- `TriangleShape::raycast` (TriangleShape.cpp:143-214). The normal is not normalised (line 204). The division by
`u + v + w = 0` gives infinities and NaNs; every comparison with the hit fraction NaN is false, and the function returns `true`.
`pq.lengthSquare() = 0` implies `u = v = w = 0`, so that there is no other division by zero. -/
def triangle (eps : K) (side : Side) (a b c : V3 K) (r : Ray K) : TriHit K :=
  let pq := r.p2 - r.p1
  let pa := a - r.p1
  let pb := b - r.p1
  let pc := c - r.p1
  let m := pq.cross pc
  let u := pb.dot m
  let v := -(pa.dot m)
  let w := pa.dot (pq.cross pb)
  let rejectU : Prop := (side = .front ∧ u < 0) ∨ (side = .back ∧ u > 0)
  let rejectV : Prop := (side = .front ∧ v < 0) ∨ (side = .back ∧ v > 0) ∨ (side = .frontAndBack ∧ ¬ u * v ≥ 0)
  let rejectW : Prop := (side = .front ∧ w < 0) ∨ (side = .back ∧ w > 0) ∨ (side = .frontAndBack ∧ ¬ u * w ≥ 0)
  if rejectU ∨ rejectV ∨ rejectW then .miss
  else if |u| < eps ∧ |v| < eps ∧ |w| < eps then .miss
  else if u + v + w = 0 then .nan
  else
    let denom := 1 / (u + v + w)
    let hp := V3.smul (u * denom) a + V3.smul (v * denom) b + V3.smul (w * denom) c
    let f := (hp - r.p1).dot pq / pq.lengthSq
    if f < 0 ∨ f > r.maxF then .miss
    else
      let n := (b - a).cross (c - a)
      .hit ⟨f, hp, if n.dot pq > 0 then -n else n⟩

/-- The state of the loop of `ConvexMeshShape::raycast`: `tMin`, `tMax`, and `currentFaceNormal` if an intersection was
found. -/
structure Clip (K : Type) where
  tMin : K
  tMax : K
  normal : Option (V3 K)

/-- One face of the convex mesh (ConvexMeshShape.cpp:122-158): its normal and its first vertex. -/
def face (p d : V3 K) (f : V3 K × V3 K) (s : Clip K) : Option (Clip K) :=
  let denom := f.1.dot d
  let dist := f.1.dot f.2 - f.1.dot p
  if denom = 0 then
    (if dist < 0 then none else some s)
  else
    let t := dist / denom
    let s :=
      if denom < 0 then
        (if t > s.tMin then { s with tMin := t, normal := some f.1 } else s)
      else
        (if t < s.tMax then { s with tMax := t } else s)
    if s.tMin > s.tMax then none else some s

/-- The componentwise product of two vectors (Vector3.h `operator*`). -/
def scaleBy (s v : V3 K) : V3 K := ⟨s.x * v.x, s.y * v.y, s.z * v.z⟩

/-- `computeScaledFacesNormals` for one face (ConvexMeshShape.cpp:58-68), with the length given as a function. -/
def scaledNormal (len : V3 K → K) (scale n : V3 K) : V3 K :=
  let n := scaleBy ⟨1 / scale.x, 1 / scale.y, 1 / scale.z⟩ n
  V3.smul (1 / len n) n

/-- `ConvexMeshShape::raycast` (ConvexMeshShape.cpp:107-182) for a mesh given by the normal and the first vertex of
each face. The normals are those of the scaled mesh, the vertices are those of the unscaled one (line 125). -/
def convexMesh (len : V3 K → K) (scale : V3 K) (faces : List (V3 K × V3 K)) (r : Ray K) : Option (Hit K) := do
  let s ← faces.foldlM (fun s f => face r.p1 r.dir (scaledNormal len scale f.1, f.2) s) (⟨0, r.maxF, none⟩ : Clip K)
  let n ← s.normal
  return ⟨s.tMin, r.at s.tMin, n⟩

/-- `raycastInfo`: the collider hit, `hitFraction`, `worldPoint`, `worldNormal`. -/
structure Info (K : Type) where
  collider : Nat
  fraction : K
  point : V3 K
  normal : V3 K

/-- `Vector3::normalize` (Vector3.h:219-227). -/
def normalize (eps : K) (len : V3 K → K) (v : V3 K) : V3 K :=
  let l := len v
  if l < eps then v else ⟨v.x / l, v.y / l, v.z / l⟩

/-- A collider of the body: its number, its local-to-world transform and its shape. -/
structure Collider (K : Type) where
  id : Nat
  toWorld : Trans K
  shape : Ray K → Option (Hit K)

/-- `Collider::raycast` (Collider.cpp:173-192) of an active body: `raycastInfo` is converted to world space even if the
shape has not been hit (lines 187-189). -/
def Collider.raycast (eps : K) (len : V3 K → K) (c : Collider K) (r : Ray K) (info : Info K) : Bool × Info K :=
  let inv := c.toWorld.inverse
  let local' : Ray K := ⟨inv.act r.p1, inv.act r.p2, r.maxF⟩
  let res := c.shape local'
  let info : Info K := match res with
    | some h => ⟨c.id, h.fraction, h.point, h.normal⟩
    | none => info
  (res.isSome, { info with
    point := c.toWorld.act info.point
    normal := normalize eps len (c.toWorld.ori.rot info.normal) })

/-- The loop of `Body::raycast` (Body.cpp:345-357). -/
def bodyLoop (eps : K) (len : V3 K → K) : List (Collider K) → Ray K → Bool → Info K → Bool × Info K
  | [], _, isHit, info => (isHit, info)
  | c :: cs, r, isHit, info =>
    let (h, info) := c.raycast eps len r info
    if h then bodyLoop eps len cs { r with maxF := info.fraction } true info
    else bodyLoop eps len cs r isHit info

/-- `Body::raycast` (Body.cpp:337-360); `active` is `getIsActive`. -/
def bodyRaycast (eps : K) (len : V3 K → K) (active : Bool) (cs : List (Collider K)) (r : Ray K) (info : Info K) :
    Bool × Info K :=
  if active then bodyLoop eps len cs r false info else (false, info)

end Ray
end RP3D
