import Verif.Shapes.Ray
import Verif.Broadphase.Tree

/-! Model of `TriangleMesh` (src/collision/TriangleMesh.cpp): the triangles of a concave mesh, made from the user's arrays.

Numbers are taken from an ordered field (exact arithmetic). Error and warning messages are left out. `uint32` does not overflow except
where it is said. `none`: a failed assertion or an access outside of an array. -/

namespace RP3D
namespace TriMesh
open Ray

variable {K : Type} [Field K] [LinearOrder K]

/-- The user's `TriangleVertexArray`: the number of vertices, their positions, their normals if there are any, and the triangles. -/
structure User (K : Type) where
  nv : Nat
  vert : Nat → V3 K
  normal : Option (Nat → V3 K)
  tris : List (Nat × Nat × Nat)

/-- `mVertices`, `mVerticesNormals`, `mTriangles` (three indices for each triangle). -/
structure TMesh (K : Type) where
  verts : List (V3 K)
  normals : List (V3 K)
  tris : List Nat
deriving DecidableEq

/-- `computeEpsilon` (TriangleMesh.cpp:70-88); `me` is `MACHINE_EPSILON`. -/
def computeEpsilon (me : K) (u : User K) : K :=
  let m := (List.range u.nv).foldl (fun (m : V3 K) i =>
    let v := u.vert i
    (⟨if |v.x| > m.x then |v.x| else m.x, if |v.y| > m.y then |v.y| else m.y, if |v.z| > m.z then |v.z| else m.z⟩ : V3 K)) ⟨0, 0, 0⟩
  3 * (m.x + m.y + m.z) * me

/-- `isFaceZeroArea` and `hasFaceZeroLengthEdge` (TriangleMesh.cpp:133-152). -/
def degenerate (e2 : K) (v1 v2 v3 : V3 K) : Prop :=
  ((v3 - v1).cross (v2 - v1)).lengthSq < e2 ∨
    ((v2 - v1).lengthSq < e2 ∨ (v3 - v2).lengthSq < e2 ∨ (v1 - v3).lengthSq < e2)

instance (e2 : K) (v1 v2 v3 : V3 K) : Decidable (degenerate e2 v1 v2 v3) := by unfold degenerate; infer_instance

/-- The variables of `copyData`: the mesh, `areUserVerticesUsed`, `isValid`. -/
structure Copy (K : Type) where
  mesh : TMesh K
  used : List Bool
  valid : Bool

/-- The normals of the vertices of a face (TriangleMesh.cpp:164-177): the user's, or zero. -/
def normalOf (u : User K) (i : Nat) : V3 K := match u.normal with
  | some f => f i
  | none => ⟨0, 0, 0⟩

/-- One face (TriangleMesh.cpp:107-199). -/
def copyFace (u : User K) (e2 : K) (c : Copy K) (t : Nat × Nat × Nat) : Copy K :=
  let (a, b, d) := t
  if a ≥ u.nv ∨ b ≥ u.nv ∨ d ≥ u.nv then { c with valid := false }
  else if degenerate e2 (u.vert a) (u.vert b) (u.vert d) then c
  else
    let small (i : Nat) : Bool := u.normal.isSome && decide ((normalOf u i).lengthSq < e2)
    let m := c.mesh
    ⟨⟨((m.verts.set a (u.vert a)).set b (u.vert b)).set d (u.vert d),
      ((m.normals.set a (normalOf u a)).set b (normalOf u b)).set d (normalOf u d), m.tris ++ [a, b, d]⟩,
      ((c.used.set a true).set b true).set d true, c.valid && !small a && !small b && !small d⟩

/-- The loop of `removeUnusedVertices` (TriangleMesh.cpp:217-239) from the index `i` down to 1. -/
def removeLoop (used : List Bool) : Nat → TMesh K → Option (TMesh K)
  | 0, m => some m
  | i + 1, m =>
    match used[i + 1]? with
    | none => none
    | some true => removeLoop used i m
    | some false =>
      if i + 1 < m.verts.length ∧ i + 1 < m.normals.length ∧ i + 1 ∉ m.tris then
        removeLoop used i ⟨m.verts.eraseIdx (i + 1), m.normals.eraseIdx (i + 1), m.tris.map fun t => if t > i + 1 then t - 1 else t⟩
      else none

/-- `removeUnusedVertices`: without vertices, the unsigned start index underflows and the first access is outside of the array. -/
def removeUnused (used : List Bool) (m : TMesh K) : Option (TMesh K) :=
  if m.verts.length = 0 then none else removeLoop used (m.verts.length - 1) m

/-- `copyData` (TriangleMesh.cpp:91-213): the mesh and whether it is valid. -/
def copyData (e : K) (u : User K) : Option (TMesh K × Bool) :=
  if e > 0 then do
    let c := u.tris.foldl (copyFace u (e * e))
      ⟨⟨List.replicate u.nv ⟨0, 0, 0⟩, List.replicate u.nv ⟨0, 0, 0⟩, []⟩, List.replicate u.nv false, true⟩
    let m ← removeUnused c.used c.mesh
    return (m, c.valid && !m.tris.isEmpty)
  else none

/-- `getTriangleVertices` (TriangleMesh.h:165-172). -/
def TMesh.triangle (m : TMesh K) (f : Nat) : Option (V3 K × V3 K × V3 K) := do
  let a ← m.tris[3 * f]?
  let b ← m.tris[3 * f + 1]?
  let c ← m.tris[3 * f + 2]?
  return (← m.verts[a]?, ← m.verts[b]?, ← m.verts[c]?)

/-- One vertex of a face in `computeVerticesNormals` (TriangleMesh.cpp:296-319): the vertex `p` with index `i`, the next vertex `q` and the
previous vertex `r`; `e` is `mEpsilon`. -/
def addNormal (sqrt acos : K → K) (me e : K) (i : Nat) (p q r : V3 K) (normals : List (V3 K)) : Option (List (V3 K)) :=
  let a := q - p
  let b := r - p
  let lengths := sqrt (p - r).lengthSq * sqrt (q - p).lengthSq
  if lengths * lengths ≥ e * e then
    let cosA := stdMin (stdMax (a.dot b / lengths) 0) 1
    let angle := acos cosA
    if angle ≥ 0 then
      let n := a.cross b
      if n.lengthSq > e * e then
        (normals[i]?).map fun old => normals.set i (old + V3.smul angle (normalize me (fun v => sqrt v.lengthSq) n))
      else none
    else none
  else none

/-- One face (TriangleMesh.cpp:280-320). -/
def faceNormals (sqrt acos : K → K) (me e : K) (m : TMesh K) (normals : List (V3 K)) (f : Nat) : Option (List (V3 K)) := do
  let (p, q, r) ← m.triangle f
  let a ← m.tris[3 * f]?
  let b ← m.tris[3 * f + 1]?
  let c ← m.tris[3 * f + 2]?
  let l ← addNormal sqrt acos me e a p q r normals
  let l ← addNormal sqrt acos me e b q r p l
  addNormal sqrt acos me e c r p q l

/-- `computeVerticesNormals` (TriangleMesh.cpp:277-332). -/
def verticesNormals (sqrt acos : K → K) (me e : K) (m : TMesh K) : Option (TMesh K) := do
  let l ← (List.range (m.tris.length / 3)).foldlM (faceNormals sqrt acos me e m) m.normals
  if l.all (fun n => decide (n.lengthSq ≥ e * e)) then
    return { m with normals := l.map (normalize me fun v => sqrt v.lengthSq) }
  else none

/-- `initBVHTree` (TriangleMesh.cpp:242-263); the decisions of the insertion are an oracle. -/
def initTree (ch : Nat → Choice K) (fat : AABB K → AABB K) (f : Nat → TNode K) (m : TMesh K) : Option (Tree K) :=
  (List.range (m.tris.length / 3)).foldlM (fun t k => do
    let (a, b, c) ← m.triangle k
    let (t', _) ← t.addObject (ch k) fat (AABB.forTriangle a b c) k
    return t') (Tree.init f)

/-- `init` (TriangleMesh.cpp:42-67): the mesh, whether it is valid, the tree. -/
def init (sqrt acos : K → K) (me : K) (ch : Nat → Choice K) (fat : AABB K → AABB K) (f : Nat → TNode K) (u : User K) :
    Option (TMesh K × Bool × Tree K) := do
  let e := computeEpsilon me u
  let (m, valid) ← copyData e u
  let m ← (if u.normal.isNone ∧ valid = true then verticesNormals sqrt acos me e m else some m)
  let t ← initTree ch fat f m
  return (m, valid, t)

end TriMesh
end RP3D
