import Verif.Narrow.Round

/-!
Model of the simplex of the GJK algorithm and of the algorithm itself (src/collision/narrowphase/GJK/VoronoiSimplex.cpp, VoronoiSimplex.h,
GJKAlgorithm.cpp), one item of a batch at a time.

Simplifications: exact arithmetic; the square root is an argument; the four entries of the arrays of a simplex are a list of at most four points;
`mRecomputeClosestPoint` is left out because it is set by the `addPoint` before every `computeClosestPoint`;
`computeSmoothTriangleMeshContact`, which changes contacts of triangles of meshes only, is left out here (see `Narrow/Smooth`).
A broken assertion is `none`.
-/

namespace RP3D
namespace Gjk
open Shape
variable {K : Type} [Field K] [LinearOrder K]

/-- `MACHINE_EPSILON`, `VoronoiSimplex::epsilon` (VoronoiSimplex.cpp:33), `REL_ERROR_SQUARE` (GJKAlgorithm.h:45-46), `DECIMAL_LARGEST`,
the bound of the assertion of GJKAlgorithm.cpp:101 and the square root. -/
structure Cfg (K : Type) where
  eps : K
  veps : K
  rel : K
  large : K
  axis : K
  sqrt : K → K

/-- A point of the simplex: `mPoints[i]`, `mSuppPointsA[i]`, `mSuppPointsB[i]`. -/
@[ext] structure Pt (K : Type) where
  w : V3 K
  a : V3 K
  b : V3 K
deriving DecidableEq, Repr

/-- `VoronoiSimplex` (VoronoiSimplex.h:49-95): the points, `mClosestPoint`, `mClosestSuppPointA`, `mClosestSuppPointB`, `mIsClosestPointValid`. -/
@[ext] structure Simplex (K : Type) where
  pts : List (Pt K)
  cp : V3 K
  ca : V3 K
  cb : V3 K
  valid : Bool
deriving DecidableEq, Repr

/-- The constructor (VoronoiSimplex.cpp:36-38); the closest points are those of the default constructor of `Vector3`. -/
def Simplex.empty : Simplex K := ⟨[], 0, 0, 0, false⟩

/-- `computeClosestPointOnSegment` (VoronoiSimplex.cpp:303-334): the position on the segment and the used points. -/
def segment (a b : V3 K) : K × Nat :=
  let ap := -a
  let ab := b - a
  let d := ap.dot ab
  if 0 < d then
    let l := ab.lengthSq
    if d < l then (d / l, 3) else (1, 2)
  else (0, 1)

/-- The barycentric coordinates of a point of a triangle and the used points. -/
structure Tri (K : Type) where
  u : K
  v : K
  w : K
  bits : Nat
deriving DecidableEq, Repr

/-- `computeClosestPointOnTriangle` (VoronoiSimplex.cpp:339-447). -/
def triangle (c : Cfg K) (pa pb pc : V3 K) : Option (Tri K) :=
  let ab := pb - pa
  let ac := pc - pa
  let ap := -pa
  let d1 := ab.dot ap
  let d2 := ac.dot ap
  if d1 ≤ 0 ∧ d2 ≤ 0 then some ⟨1, 0, 0, 1⟩
  else
    let bp := -pb
    let d3 := ab.dot bp
    let d4 := ac.dot bp
    if 0 ≤ d3 ∧ d4 ≤ d3 then some ⟨0, 1, 0, 2⟩
    else
      let vc := d1 * d4 - d3 * d2
      if vc ≤ 0 ∧ 0 ≤ d1 ∧ d3 ≤ 0 then
        if c.eps < |d1 - d3| then
          let v := d1 / (d1 - d3)
          some ⟨1 - v, v, 0, 3⟩
        else none
      else
        let cp := -pc
        let d5 := ab.dot cp
        let d6 := ac.dot cp
        if 0 ≤ d6 ∧ d5 ≤ d6 then some ⟨0, 0, 1, 4⟩
        else
          let vb := d5 * d2 - d1 * d6
          if vb ≤ 0 ∧ 0 ≤ d2 ∧ d6 ≤ 0 then
            if c.eps < |d2 - d6| then
              let w := d2 / (d2 - d6)
              some ⟨1 - w, 0, w, 5⟩
            else none
          else
            let va := d3 * d6 - d5 * d4
            if va ≤ 0 ∧ 0 ≤ d4 - d3 ∧ 0 ≤ d5 - d6 then
              if c.eps < |(d4 - d3) + (d5 - d6)| then
                let w := (d4 - d3) / ((d4 - d3) + (d5 - d6))
                some ⟨0, 1 - w, w, 6⟩
              else none
            else
              let denom := 1 / (va + vb + vc)
              let v := vb * denom
              let w := vc * denom
              some ⟨1 - v - w, v, w, 7⟩

/-- `testOriginOutsideOfPlane` (VoronoiSimplex.cpp:593-610). -/
def outsidePlane (c : Cfg K) (a b p d : V3 K) : Int :=
  let n := (b - a).cross (p - a)
  let signp := (-a).dot n
  let signd := (d - a).dot n
  if signd * signd < c.veps * c.veps then -1
  else if signp * signd < 0 then 1 else 0

/-- `mapTriangleUsedVerticesToTetrahedron` (VoronoiSimplex.cpp:577-586). -/
def mapUsed (used first second third : Nat) : Nat :=
  ((if 1 &&& used ≠ 0 then 1 else 0) <<< first) ||| ((if 2 &&& used ≠ 0 then 1 else 0) <<< second) |||
    ((if 4 &&& used ≠ 0 then 1 else 0) <<< third)

/-- The closest point on a tetrahedron found so far: its barycentric coordinates, the used points, `closestSquareDistance`. -/
@[ext] structure Tet (K : Type) where
  l0 : K
  l1 : K
  l2 : K
  l3 : K
  bits : Nat
  best : K
deriving DecidableEq, Repr

/-- `triangleBaryCoords[0] * a + triangleBaryCoords[1] * b + triangleBaryCoords[2] * c`. -/
def Tri.point (t : Tri K) (a b c : V3 K) : V3 K := V3.smul t.u a + V3.smul t.v b + V3.smul t.w c

/-- One face of `computeClosestPointOnTetrahedron` (VoronoiSimplex.cpp:494-570). -/
def tryFace (c : Cfg K) (out : Int) (p q r : V3 K) (place : Tri K → K → Tet K) (cur : Tet K) : Option (Tet K) :=
  if out ≠ 0 then do
    let t ← triangle c p q r
    let d := (t.point p q r).lengthSq
    if d < cur.best then some (place t d) else some cur
  else some cur

/-- What `computeClosestPointOnTetrahedron` tells. -/
inductive TetRes (K : Type)
  | degenerate
  | outside (t : Tet K)

/-- `computeClosestPointOnTetrahedron` (VoronoiSimplex.cpp:453-573). It never returns `false` without `isDegenerate`: if the origin is inside it
returns `true` with coordinates all zero. (The last face does not store `closestSquareDistance`, which is not read any more.) -/
def tetrahedron (cf : Cfg K) (a b c d : V3 K) : Option (TetRes K) :=
  let o1 := outsidePlane cf a b c d
  let o2 := outsidePlane cf a c d b
  let o3 := outsidePlane cf a d b c
  let o4 := outsidePlane cf b d c a
  if o1 < 0 ∨ o2 < 0 ∨ o3 < 0 ∨ o4 < 0 then some .degenerate
  else
    let start : Tet K := ⟨0, 0, 0, 0, 15, cf.large⟩
    if o1 = 0 ∧ o2 = 0 ∧ o3 = 0 ∧ o4 = 0 then some (.outside start)
    else do
      let s1 ← tryFace cf o1 a b c (fun t d => ⟨t.u, t.v, t.w, 0, t.bits, d⟩) start
      let s2 ← tryFace cf o2 a c d (fun t d => ⟨t.u, 0, t.v, t.w, mapUsed t.bits 0 2 3, d⟩) s1
      let s3 ← tryFace cf o3 a d b (fun t d => ⟨t.u, t.w, 0, t.v, mapUsed t.bits 0 3 1, d⟩) s2
      let s4 ← tryFace cf o4 b d c (fun t d => ⟨0, t.u, t.w, t.v, mapUsed t.bits 1 3 2, d⟩) s3
      some (.outside s4)

/-- `removePoint` (VoronoiSimplex.cpp:61-67). -/
def removePoint (pts : List (Pt K)) (i : Nat) : List (Pt K) :=
  match pts.getLast? with
  | none => pts
  | some p => (pts.set i p).dropLast

/-- `reduceSimplex` (VoronoiSimplex.cpp:76-89). -/
def reduce (bits : Nat) (pts : List (Pt K)) : List (Pt K) :=
  let p3 := if 4 ≤ pts.length ∧ bits &&& 8 = 0 then removePoint pts 3 else pts
  let p2 := if 3 ≤ p3.length ∧ bits &&& 4 = 0 then removePoint p3 2 else p3
  let p1 := if 2 ≤ p2.length ∧ bits &&& 2 = 0 then removePoint p2 1 else p2
  if 1 ≤ p1.length ∧ bits &&& 1 = 0 then removePoint p1 0 else p1

/-- `checkClosestPointValid` (VoronoiSimplex.h:200-204). -/
def validCoords (l0 l1 l2 l3 : K) : Bool := decide (0 ≤ l0 ∧ 0 ≤ l1 ∧ 0 ≤ l2 ∧ 0 ≤ l3)

/-- `recomputeClosestPoint` (VoronoiSimplex.cpp:162-300). -/
def recompute (c : Cfg K) (s : Simplex K) : Option (Simplex K) :=
  match s.pts with
  | [] => some { s with valid := false }
  | [p] => some ⟨s.pts, p.w, p.a, p.b, validCoords 1 0 0 (0 : K)⟩
  | [p, q] =>
    let r := segment p.w q.w
    let ca := p.a + V3.smul r.1 (q.a - p.a)
    let cb := p.b + V3.smul r.1 (q.b - p.b)
    some ⟨reduce r.2 s.pts, ca - cb, ca, cb, validCoords (1 - r.1) r.1 0 0⟩
  | [p, q, r] => do
    let t ← triangle c p.w q.w r.w
    let ca := t.point p.a q.a r.a
    let cb := t.point p.b q.b r.b
    some ⟨reduce t.bits s.pts, ca - cb, ca, cb, validCoords t.u t.v t.w 0⟩
  | [p, q, r, o] => do
    match ← tetrahedron c p.w q.w r.w o.w with
    | .degenerate => some { s with valid := false }
    | .outside t =>
      let ca := V3.smul t.l0 p.a + V3.smul t.l1 q.a + V3.smul t.l2 r.a + V3.smul t.l3 o.a
      let cb := V3.smul t.l0 p.b + V3.smul t.l1 q.b + V3.smul t.l2 r.b + V3.smul t.l3 o.b
      some ⟨reduce t.bits s.pts, ca - cb, ca, cb, validCoords t.l0 t.l1 t.l2 t.l3⟩
  | _ => none

/-- `isPointInSimplex` (VoronoiSimplex.cpp:92-107). -/
def inSimplex (c : Cfg K) (s : Simplex K) (p : V3 K) : Bool := s.pts.any fun q => decide ((q.w - p).lengthSq ≤ c.veps)

/-- `isAffinelyDependent` (VoronoiSimplex.cpp:126-148). -/
def dependent (c : Cfg K) (s : Simplex K) : Option Bool :=
  match s.pts with
  | [] => some false
  | [_] => some false
  | [p, q] => some (decide ((q.w - p.w).lengthSq ≤ c.veps))
  | [p, q, r] => some (decide (((q.w - p.w).cross (r.w - p.w)).lengthSq ≤ c.veps))
  | [p, q, r, o] => some (decide (|(q.w - p.w).dot ((r.w - p.w).cross (o.w - p.w))| ≤ c.veps))
  | _ => none

/-- `addPoint` (VoronoiSimplex.cpp:49-58). -/
def addPoint (s : Simplex K) (p : Pt K) : Option (Simplex K) :=
  if s.pts.length = 4 then none else some { s with pts := s.pts ++ [p] }

/-- `getMaxLengthSquareOfAPoint` (VoronoiSimplex.cpp:618-631). -/
def maxLength (s : Simplex K) : K := s.pts.foldl (fun m p => if m < p.w.lengthSq then p.w.lengthSq else m) 0

/-- The variables of the loop of GJKAlgorithm.cpp:112-181. -/
@[ext] structure St (K : Type) where
  s : Simplex K
  v : V3 K
  dist : K
deriving DecidableEq, Repr

/-- The ways out of the loop, in the order of the code: the enlarged objects are separated (line 124), the new point is already in the simplex
(line 137), the distance is good enough (line 137), the simplex is affinely dependent (line 148), the closest point is not valid (line 157),
the distance does not improve (line 169), the simplex is full or the closest point is near the origin (line 181). -/
inductive Exit
  | separated | inSimplex | converged | dependent | failed | noProgress | full | near
  deriving DecidableEq, Repr

/-- `contactFound`. -/
def Exit.contactFound : Exit → Bool
  | .separated => false
  | .inSimplex => true
  | .converged => true
  | .dependent => true
  | .failed => true
  | .noProgress => true
  | .full => false
  | .near => false

/-- One turn of the loop (GJKAlgorithm.cpp:112-181); `suppA v` is the support point of object A in direction `-v`, `suppB v` that of object B in
direction `v`, both in the space of body 1. -/
def step (c : Cfg K) (suppA suppB : V3 K → V3 K) (margin : K) (x : St K) : Option (St K × Option Exit) :=
  let a := suppA x.v
  let b := suppB x.v
  let w := a - b
  let vw := x.v.dot w
  if 0 < vw ∧ x.dist * (margin * margin) < vw * vw then some (x, some .separated)
  else if inSimplex c x.s w then some (x, some .inSimplex)
  else if x.dist - vw ≤ x.dist * c.rel then some (x, some .converged)
  else do
    let s ← addPoint x.s ⟨w, a, b⟩
    let dep ← dependent c s
    if dep then some (⟨s, x.v, x.dist⟩, some .dependent)
    else do
      let s ← recompute c s
      let v := s.cp
      if s.valid = false then some (⟨s, v, x.dist⟩, some .failed)
      else
        let dist := v.lengthSq
        let y : St K := ⟨s, v, dist⟩
        if x.dist - dist ≤ c.eps * x.dist then some (y, some .noProgress)
        else if s.pts.length = 4 then some (y, some .full)
        else if c.eps * maxLength s < dist then some (y, none)
        else some (y, some .near)

/-- What the loop has come to after some turns. -/
inductive Loop (K : Type)
  | broken
  | running (x : St K)
  | done (x : St K) (e : Exit)
deriving DecidableEq, Repr

/-- At most `n` turns of the loop. -/
def loop (c : Cfg K) (suppA suppB : V3 K → V3 K) (margin : K) : Nat → St K → Loop K
  | 0, x => .running x
  | n + 1, x =>
    match step c suppA suppB margin x with
    | none => .broken
    | some (y, none) => loop c suppA suppB margin n y
    | some (y, some e) => .done y e

/-- `GJKResult` with the contact point that is added. -/
inductive Verdict (K : Type)
  | separated
  | collide (c : Round.Contact K)
  | interpenetrate
deriving DecidableEq, Repr

/-- What follows the loop (GJKAlgorithm.cpp:183-236): transforms of the two shapes and their margins. -/
def finish (c : Cfg K) (t1 t2 : Trans K) (m1 m2 : K) (x : St K) (e : Exit) : Option (Verdict K) :=
  let b2to1 := t1.inverse.mul t2
  if e = .separated then some .separated
  else if e.contactFound ∧ c.eps < x.dist then
    let dist := c.sqrt x.dist
    if 0 < dist then
      let pA := x.s.ca - V3.smul (m1 / dist) x.v
      let pB := b2to1.inverse.act (x.s.cb + V3.smul (m2 / dist) x.v)
      let normal := t1.ori.rot (-(unit c.eps c.sqrt x.v))
      let depth := (m1 + m2) - dist
      if depth ≤ 0 then some .separated
      else if normal.lengthSq < c.eps then some .separated
      else some (.collide ⟨normal, depth, pA, pB⟩)
    else none
  else some .interpenetrate

/-- The support points (GJKAlgorithm.cpp:115-116) from those of the two shapes in their own spaces. -/
def supportA (s1 : V3 K → V3 K) (v : V3 K) : V3 K := s1 (-v)
def supportB (t1 t2 : Trans K) (s2 : V3 K → V3 K) (v : V3 K) : V3 K :=
  (t1.inverse.mul t2).act (s2 ((t2.ori.conj.mul t1.ori).rot v))

/-- The state before the loop (GJKAlgorithm.cpp:86-108): `cached` is the last separating axis if the last frame is valid and used GJK. -/
def start (c : Cfg K) (margin : K) (cached : Option (V3 K)) : Option (St K) :=
  if 0 < margin then
    match cached with
    | some v => if c.axis < v.lengthSq then some ⟨.empty, v, c.large⟩ else none
    | none => some ⟨.empty, ⟨0, 1, 0⟩, c.large⟩
  else none

/-- The verdict after at most `n` turns: `none` is a broken assertion, `some none` is "not finished". -/
def gjk (c : Cfg K) (t1 t2 : Trans K) (s1 s2 : V3 K → V3 K) (m1 m2 : K) (cached : Option (V3 K)) (n : Nat) : Option (Option (Verdict K)) := do
  let x ← start c (m1 + m2) cached
  match loop c (supportA s1) (supportB t1 t2 s2) (m1 + m2) n x with
  | .broken => none
  | .running _ => some none
  | .done y e => (finish c t1 t2 m1 m2 y e).map some

/-- `lastFrameCollisionInfo->gjkSeparatingAxis` after the test (GJKAlgorithm.cpp:127). -/
def nextAxis (old : V3 K) (x : St K) (e : Exit) : V3 K := if e = .separated then x.v else old

end Gjk
end RP3D
