import Verif.Shapes.Ray
import Verif.Math.Ext
import Verif.Broadphase.AABB
import Mathlib.Algebra.Order.Floor.Ring
import Mathlib.Data.Rat.Floor

/-! Model of `HeightField` (src/collision/HeightField.cpp) and `HeightFieldShape` (src/collision/shapes/HeightFieldShape.cpp).

Numbers are taken from an ordered field with a floor function: the arithmetic is exact, except that a division by zero gives an
infinity or NaN where the code divides by a component of the ray. Conversion to `int` of numbers that are not negative is
the floor. Integers are unbounded: the number of grid points is assumed to fit into 32 bits. Body, collider and shape id of
the hit information are left out. -/

namespace RP3D
namespace Height
open Ray

variable {K : Type} [Field K] [LinearOrder K]

/-- The user's data (HeightField.cpp:98-110): floating-point numbers of either type, or integers with `integerHeightScale`. -/
inductive Source (K : Type)
  | real (data : Nat → K)
  | int (data : Nat → Int) (scale : K)

def Source.get : Source K → Nat → K
  | .real d, k => d k
  | .int d s, k => (d k : K) * s

/-- `mHeightFieldData`, `mMinHeight`, `mMaxHeight`. -/
structure Data (K : Type) where
  data : Nat → K
  minH : K
  maxH : K

/-- One step of the loop of `copyData` (HeightField.cpp:96-128). -/
def copyStep (cols : Nat) (src : Source K) (d : Data K) (p : Nat × Nat) : Data K :=
  let (x, y) := p
  let height := src.get (y * cols + x)
  let data := Function.update d.data (y * cols + x) height
  let minH := if x = 0 ∧ y = 0 then height else d.minH
  let maxH := if x = 0 ∧ y = 0 then height else d.maxH
  let minH := if height < minH then height else minH
  let maxH := if height > maxH then height else maxH
  ⟨data, minH, maxH⟩

/-- The two nested loops of `copyData` (HeightField.cpp:92-95). -/
def copyData (cols rows : Nat) (src : Source K) (d : Data K) : Data K :=
  ((List.range cols).flatMap fun x => (List.range rows).map fun y => (x, y)).foldl (copyStep cols src) d

/-- The height field after `init`. -/
structure HField (K : Type) where
  cols : Nat
  rows : Nat
  dat : Data K
  origin : K
  bounds : AABB K

def HField.width (f : HField K) : K := ((f.cols - 1 : Nat) : K)
def HField.length (f : HField K) : K := ((f.rows - 1 : Nat) : K)

/-- `HeightField::init` (HeightField.cpp:45-86) with `mHeightOrigin` (line 132); `d` is the content of the memory before.
`none`: the error message of lines 51-56. -/
def init (cols rows : Nat) (src : Source K) (d : Data K) : Option (HField K) :=
  if cols < 2 ∨ rows < 2 then none
  else
    let dat := copyData cols rows src d
    let half := (dat.maxH - dat.minH) * (1/2)
    let w : K := ((cols - 1 : Nat) : K)
    let l : K := ((rows - 1 : Nat) : K)
    some ⟨cols, rows, dat, -(dat.maxH - dat.minH) * (1/2) - dat.minH,
      ⟨⟨-w * (1/2), -half, -l * (1/2)⟩, ⟨w * (1/2), half, l * (1/2)⟩⟩⟩

/-- `getHeightAt` (HeightField.h:250-254); the assertions are `x < cols` and `y < rows`. -/
def HField.heightAt (f : HField K) (x y : Nat) : Option K :=
  if x < f.cols ∧ y < f.rows then some (f.dat.data (y * f.cols + x)) else none

/-- `getVertexAt` (HeightField.cpp:399-409) with the assertion that the bounds contain the vertex up to `1/10000`. -/
def HField.vertexAt (f : HField K) (x y : Nat) : Option (V3 K) := do
  let h ← f.heightAt x y
  let v : V3 K := ⟨-f.width * (1/2) + (x : K), f.origin + h, -f.length * (1/2) + (y : K)⟩
  if f.bounds.containsPoint v (1/10000) then some v else none

/-- `computeTriangleShapeId` (HeightField.h:257-259). -/
def HField.shapeId (f : HField K) (i j inc : Nat) : Nat := (j * (f.cols - 1) + i) * 2 + inc

/-- A triangle handed to the collision test: its vertices and its id. -/
structure Item (K : Type) where
  a : V3 K
  b : V3 K
  c : V3 K
  id : Nat
deriving DecidableEq

/-- `clamp` (mathematics_functions.h:48-51). -/
def clampInt (v lo hi : Int) : Int := min (max v lo) hi

section Floor
variable [FloorRing K]

/-- One coordinate of `computeMinMaxGridCoordinates` (HeightField.cpp:220-253): the bounds `bmin`, `bmax` of the height field, the
box to collide `amin`, `amax`. The values go through `uint32` and back to `int` in `clamp`, which gives the same
number. -/
def minGrid (bmin bmax amin : K) : Int := ⌊stdMin (stdMax amin bmin) bmax + (bmax - bmin) * (1/2) + 1/2⌋ - 1
def maxGrid (bmin bmax amax : K) : Int := ⌊stdMax (stdMin amax bmax) bmin + (bmax - bmin) * (1/2) + 1/2⌋ + 1

/-- The two triangles of a quad (HeightField.cpp:165-213), scaled. -/
def HField.quad (f : HField K) (scale : V3 K) (i j : Nat) : Option (List (Item K)) := do
  let p1 ← f.vertexAt i j
  let p2 ← f.vertexAt i (j + 1)
  let p3 ← f.vertexAt (i + 1) j
  let p4 ← f.vertexAt (i + 1) (j + 1)
  let s := scaleBy scale
  return [⟨s p1, s p2, s p3, f.shapeId i j 0⟩, ⟨s p3, s p2, s p4, f.shapeId i j 1⟩]

/-- `HeightField::computeOverlappingTriangles` (HeightField.cpp:139-216); the normals of the vertices are left out. -/
def HField.overlapping (f : HField K) (box : AABB K) (scale : V3 K) : Option (List (Item K)) :=
  let iMin := (clampInt (minGrid f.bounds.mn.x f.bounds.mx.x box.mn.x) 0 ((f.cols : Int) - 1)).toNat
  let iMax := (clampInt (maxGrid f.bounds.mn.x f.bounds.mx.x box.mx.x) 0 ((f.cols : Int) - 1)).toNat
  let jMin := (clampInt (minGrid f.bounds.mn.z f.bounds.mx.z box.mn.z) 0 ((f.rows : Int) - 1)).toNat
  let jMax := (clampInt (maxGrid f.bounds.mn.z f.bounds.mx.z box.mx.z) 0 ((f.rows : Int) - 1)).toNat
  let cells := (List.range' iMin (iMax - iMin)).flatMap fun i => (List.range' jMin (jMax - jMin)).map fun j => (i, j)
  (cells.mapM fun c => f.quad scale c.1 c.2).map List.flatten

/-- `HeightFieldShape::computeOverlappingTriangles` (HeightFieldShape.cpp:60-71). -/
def shapeOverlapping (f : HField K) (scale : V3 K) (box : AABB K) : Option (List (Item K)) :=
  let inv : V3 K := ⟨1 / scale.x, 1 / scale.y, 1 / scale.z⟩
  f.overlapping ⟨scaleBy inv box.mn, scaleBy inv box.mx⟩ scale

end Floor

/-! ### Ray casts -/

/-- One slab of `AABB::raycast` (AABB.h:330-355), for one coordinate. -/
def aabbSlab (eps : K) (mn mx p d : K) (s : K × K) : Option (K × K) :=
  if |d| < eps then
    (if p < mn ∨ p > mx then none else some s)
  else
    let inv := 1 / d
    let t1 := (mn - p) * inv
    let t2 := (mx - p) * inv
    let near := if t1 > t2 then t2 else t1
    let far := if t1 > t2 then t1 else t2
    let tMin := stdMax s.1 near
    let tMax := stdMin s.2 far
    if tMin > tMax then none else some (tMin, tMax)

/-- `AABB::raycast` (AABB.h:318-362); `eps` is the constant `0.00001`, `large` is `DECIMAL_LARGEST`. -/
def aabbRaycast (eps large : K) (b : AABB K) (r : Ray K) : Option (V3 K) := do
  let s ← aabbSlab eps b.mn.x b.mx.x r.p1.x r.dir.x (0, large)
  let s ← aabbSlab eps b.mn.y b.mx.y r.p1.y r.dir.y s
  let s ← aabbSlab eps b.mn.z b.mx.z r.p1.z r.dir.z s
  return r.at s.1

/-- Division of finite numbers; `neg` is the sign of the divisor in case it is zero. -/
def extDiv (neg : Bool) (a b : K) : Ext K :=
  if b = 0 then (if a = 0 then .nan else if a < 0 ↔ neg = true then .pinf else .ninf) else .fin (a / b)

/-- Addition. -/
def extAdd : Ext K → Ext K → Ext K
  | .nan, _ => .nan
  | _, .nan => .nan
  | .fin x, .fin y => .fin (x + y)
  | .fin _, .pinf => .pinf
  | .fin _, .ninf => .ninf
  | .pinf, .ninf => .nan
  | .pinf, _ => .pinf
  | .ninf, .pinf => .nan
  | .ninf, _ => .ninf

/-- The constants of the loop over the cells: `nbCellsI`, `nbCellsJ`, `stepI`, `stepJ`, `tDeltaI`, `tDeltaJ`. -/
structure Walk (K : Type) where
  nI : Int
  nJ : Int
  stepI : Int
  stepJ : Int
  dI : Ext K
  dJ : Ext K

/-- The variables of the loop: `i`, `j`, `tMaxI`, `tMaxJ`. -/
structure Pos (K : Type) where
  i : Int
  j : Int
  tI : Ext K
  tJ : Ext K

/-- The loop over the cells (HeightField.cpp:290-316) with an arbitrary addition; `visit` is the body of the loop. `none`: the loop
has not ended after the given number of iterations. -/
def walkLoop {σ : Type} (add : Ext K → Ext K → Ext K) (w : Walk K) (visit : σ → Int → Int → σ) : Nat → Pos K → σ → Option σ
  | 0, _, _ => none
  | n + 1, p, s =>
    if p.i ≥ 0 ∧ p.i < w.nI ∧ p.j ≥ 0 ∧ p.j < w.nJ then
      let s := visit s p.i p.j
      if w.stepI = 0 ∧ w.stepJ = 0 then some s
      else if p.tI.lt p.tJ then walkLoop add w visit n { p with tI := add p.tI w.dI, i := p.i + w.stepI } s
      else walkLoop add w visit n { p with tJ := add p.tJ w.dJ, j := p.j + w.stepJ } s
    else some s

/-- `stepI`, `stepJ` (HeightField.cpp:277-278). -/
def stepOf (d : K) : Int := if d > 0 then 1 else if d < 0 then -1 else 0

section Floor
variable [FloorRing K]

/-- The grid coordinate of the entering point (HeightField.cpp:386-387). -/
def enterCell (p size : K) (n : Int) : Int := clampInt ⌊p / size⌋ 0 (n - 1)

/-- `nextI` and `tMaxI` (HeightField.cpp:279, 283). -/
def firstT (neg : Bool) (i : Int) (size p d : K) : Ext K :=
  extDiv neg ((((if stepOf d ≥ 0 then i + 1 else i : Int) : K) * size) - p) d

/-- `tDeltaI` (HeightField.cpp:285). The absolute value of a zero is positive. -/
def deltaT (size d : K) : Ext K := extDiv false size |d|

/-- The start of the loop (HeightField.cpp:264-286, 368-396): the entering point is mapped into the grid. `negX`, `negZ` are the
signs of the components of the direction in case they are zero. -/
def HField.start (f : HField K) (eps large : K) (negX negZ : Bool) (r : Ray K) : Option (Walk K × Pos K) := do
  let p ← aabbRaycast eps large f.bounds r
  let g := p - f.bounds.mn
  let nI : Int := (f.cols : Int) - 1
  let nJ : Int := (f.rows : Int) - 1
  let sizeI := (f.bounds.mx.x - f.bounds.mn.x) / (nI : K)
  let sizeJ := (f.bounds.mx.z - f.bounds.mn.z) / (nJ : K)
  let i := enterCell g.x sizeI nI
  let j := enterCell g.z sizeJ nJ
  return (⟨nI, nJ, stepOf r.dir.x, stepOf r.dir.z, deltaT sizeI r.dir.x, deltaT sizeJ r.dir.z⟩,
    ⟨i, j, firstT negX i sizeI g.x r.dir.x, firstT negZ j sizeJ g.z r.dir.z⟩)

end Floor

/-- The vertex at a grid point, without the assertions of `getVertexAt` (they are proved: `vertex_defined`). -/
def HField.vertex (f : HField K) (x y : Nat) : V3 K :=
  ⟨-f.width * (1/2) + (x : K), f.origin + f.dat.data (y * f.cols + x), -f.length * (1/2) + (y : K)⟩

/-- `isHit`, the hit information, and `smallestHitFraction`. -/
structure Best (K : Type) where
  hit : Option (Hit K)
  smallest : K

/-- `raycastTriangle` (HeightField.cpp:323-364): the comparison with a fraction that is NaN is false. -/
def rayTriangle (eps : K) (side : Side) (r : Ray K) (s : Best K) (t : V3 K × V3 K × V3 K) : Best K :=
  match triangle eps side t.1 t.2.1 t.2.2 r with
  | .hit h => if h.fraction ≤ s.smallest then ⟨some h, h.fraction⟩ else s
  | _ => s

/-- The two triangles of a cell. -/
def HField.tris (f : HField K) (i j : Nat) : List (V3 K × V3 K × V3 K) :=
  let p1 := f.vertex i j
  let p2 := f.vertex i (j + 1)
  let p3 := f.vertex (i + 1) j
  let p4 := f.vertex (i + 1) (j + 1)
  [(p1, p2, p3), (p3, p2, p4)]

/-- The body of the loop (HeightField.cpp:292-304). -/
def HField.visit (f : HField K) (eps : K) (side : Side) (r : Ray K) (s : Best K) (i j : Int) : Best K :=
  (f.tris i.toNat j.toNat).foldl (rayTriangle eps side r) s

variable [FloorRing K]

/-- `HeightField::raycast` (HeightField.cpp:258-320) with at most `n` iterations of the loop: `none` if the loop has not ended. -/
def HField.raycast (f : HField K) (eps epsA large : K) (negX negZ : Bool) (side : Side) (r : Ray K) (n : Nat) : Option (Option (Hit K)) :=
  match f.start epsA large negX negZ r with
  | none => some none
  | some (w, p) => (walkLoop extAdd w (f.visit eps side r) n p ⟨none, r.maxF⟩).map (·.hit)

/-- `HeightFieldShape::raycast` (HeightFieldShape.cpp:76-94): the point is scaled back, the normal is not. -/
def shapeRaycast (f : HField K) (scale : V3 K) (eps epsA large : K) (negX negZ : Bool) (side : Side) (r : Ray K) (n : Nat) :
    Option (Option (Hit K)) :=
  let inv : V3 K := ⟨1 / scale.x, 1 / scale.y, 1 / scale.z⟩
  (f.raycast eps epsA large negX negZ side ⟨scaleBy inv r.p1, scaleBy inv r.p2, r.maxF⟩ n).map
    fun res => res.map fun h => { h with point := scaleBy scale h.point }

end Height
end RP3D
