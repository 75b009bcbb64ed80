import Mathlib.Logic.Function.Basic
import Mathlib.Data.List.Nodup

/-!
Model of `HalfEdgeStructure::computeHalfEdges` (src/collision/HalfEdgeStructure.cpp:35-121) and of the part of `ConvexMesh::init`
(src/collision/ConvexMesh.cpp:52-264) that decides whether a mesh is accepted.

The hash maps are functions into `Option` (the refinement of `Map` by such functions is C03). A broken assertion (`Map::add` of a key that is
present, Map.h:380-382; `Map::operator[]` of a missing key, Map.h:569-576; a vertex outside of the array) is `none`.
The indices are natural numbers, so the overflow of `uint32` is not modelled.
-/

namespace RP3D
namespace Mesh

/-- `VerticesPair` (HalfEdgeStructure.h:43). -/
abbrev Key := Nat × Nat

/-- `HalfEdgeStructure::Edge` (HalfEdgeStructure.h:46-51). -/
structure HEdge where
  vertex : Nat
  twin : Nat
  face : Nat
  next : Nat
deriving DecidableEq, Repr

/-- `Map::add` without the flag (Map.h:358-408). -/
def addNew {κ α : Type} [DecidableEq κ] (m : κ → Option α) (k : κ) (v : α) : Option (κ → Option α) :=
  match m k with
  | some _ => none
  | none => some (Function.update m k (some v))

/-- The maps `edges`, `mapEdgeToIndex`, `mapEdgeIndexToKey` and the arrays `mEdges`, `mVertices` (the field `edgeIndex`). -/
structure Edges where
  edges : Key → Option HEdge
  idx : Key → Option Nat
  keyOf : Nat → Option Key
  arr : List HEdge
  vert : Nat → Nat

/-- The whole state of the first loop: also `nextEdges` and `mapFaceIndexToEdgeKey`. -/
structure St where
  ed : Edges
  nextE : Key → Option Key
  faceKey : Nat → Option Key

/-- The other direction of an edge. -/
def rev (k : Key) : Key := (k.2, k.1)

/-- `pairV1V2` of the vertex `v` of a face (HalfEdgeStructure.cpp:57-60). -/
def key (vs : List Nat) (v : Nat) : Key := (vs.getD v 0, vs.getD (if v + 1 = vs.length then 0 else v + 1) 0)

/-- HalfEdgeStructure.cpp:75 and 84-103: the edge is added and, if its reverse is present, both get their indices. `nv` is the number of vertices. -/
def addEdge (nv : Nat) (f : Nat) (k : Key) (s : Edges) : Option Edges := do
  let edge : HEdge := ⟨k.1, 0, f, 0⟩
  let edges ← addNew s.edges k edge
  match edges (rev k) with
  | none => some { s with edges := edges }
  | some other =>
    let i := s.arr.length
    let keyOf ← addNew s.keyOf i (rev k)
    let keyOf ← addNew keyOf (i + 1) k
    if k.1 < nv ∧ k.2 < nv then
      let vert := Function.update (Function.update s.vert k.1 (i + 1)) k.2 i
      let idx ← addNew s.idx k (i + 1)
      let idx ← addNew idx (rev k) i
      some {
        edges := Function.update edges (rev k) (some { other with twin := i + 1 })
        idx := idx
        keyOf := keyOf
        arr := s.arr ++ [{ other with twin := i + 1 }, { edge with twin := i }]
        vert := vert }
    else none

/-- The entries that the vertex `v` of a face adds to `nextEdges` (HalfEdgeStructure.cpp:66-74); `currentFaceEdges[size - 1]` is the key of the
vertex before. -/
def nextOf (vs : List Nat) (v : Nat) : List (Key × Key) :=
  (if v ≥ 1 then [(key vs (v - 1), key vs v)] else []) ++ (if v + 1 = vs.length then [(key vs v, key vs 0)] else [])

/-- Several `Map::add` in a row. -/
def addAll {κ α : Type} [DecidableEq κ] : List (κ × α) → (κ → Option α) → Option (κ → Option α)
  | [], m => some m
  | p :: ps, m => (addNew m p.1 p.2).bind (addAll ps)

/-- The body of the loop over the vertices of a face (HalfEdgeStructure.cpp:56-106). `mapEdgeToStartVertex` is never read and left out. -/
def visit (nv : Nat) (faces : List (List Nat)) (s : St) (c : Nat × Nat) : Option St := do
  let vs := faces.getD c.1 []
  let k := key vs c.2
  let nextE ← addAll (nextOf vs c.2) s.nextE
  let ed ← addEdge nv c.1 k s.ed
  some { ed := ed, nextE := nextE, faceKey := Function.update s.faceKey c.1 (some k) }

/-- The order of the two loops: the faces, and the vertices of each face (HalfEdgeStructure.cpp:48, 56). -/
def corners (faces : List (List Nat)) : List (Nat × Nat) :=
  (List.range faces.length).flatMap fun f => (List.range (faces.getD f []).length).map fun v => (f, v)

/-- The empty maps; the edges of the vertices and of the faces are 0 at first (HalfEdgeStructure.h:59-62, 71). -/
def St.init : St := ⟨⟨fun _ => none, fun _ => none, fun _ => none, [], fun _ => 0⟩, fun _ => none, fun _ => none⟩

/-- The structure that `computeHalfEdges` leaves: the half-edges, the half-edge of each face, the half-edge of each vertex. -/
structure Result where
  arr : List HEdge
  faceEdge : List Nat
  vert : Nat → Nat

/-- HalfEdgeStructure.cpp:114: the index of the edge after the edge with index `i`. -/
def nextIndex (s : St) (i : Nat) : Option Nat := do
  let k ← s.ed.keyOf i
  let k' ← s.nextE k
  s.ed.idx k'

/-- HalfEdgeStructure.cpp:119: the index of the edge of a face. -/
def faceIndex (s : St) (f : Nat) : Option Nat := do
  let k ← s.faceKey f
  s.ed.idx k

/-- `computeHalfEdges` (HalfEdgeStructure.cpp:35-121). Without faces the access to `mFaces[0]` (line 44) is undefined. -/
def computeHalfEdges (nv : Nat) (faces : List (List Nat)) : Option Result := do
  if faces = [] then none else
  let s ← (corners faces).foldlM (visit nv faces) St.init
  let nexts ← (List.range s.ed.arr.length).mapM (nextIndex s)
  let fs ← (List.range faces.length).mapM (faceIndex s)
  some { arr := List.zipWith (fun (e : HEdge) n => { e with next := n }) s.ed.arr nexts, faceEdge := fs, vert := s.ed.vert }

/-! ### Acceptance of a convex mesh -/

/-- The checks of `createHalfEdgeStructure` (ConvexMesh.cpp:131-171): every face has three vertices and the formula of Euler holds. -/
def checks (nv : Nat) (faces : List (List Nat)) : Bool :=
  decide (∀ vs ∈ faces, 3 ≤ vs.length) &&
    decide ((2 : Int) + ((faces.map List.length).sum / 2 : Nat) - (faces.length : Int) = nv)

/-- `computeFacesNormals` (ConvexMesh.cpp:186-214): only the places in `mFacesNormals` are modelled. A face with less than three vertices adds
no normal, so a later face reads `mFacesNormals[f]` behind the end of the array. `area f` says that the normal is long enough. The result is
the number of normals and whether all were long enough. -/
def facesNormals (area : Nat → Bool) (faces : List (List Nat)) : List Nat → Nat × Bool → Option (Nat × Bool)
  | [], r => some r
  | f :: fs, (n, ok) =>
    if (faces.getD f []).length ≥ 3 then
      if f < n + 1 then facesNormals area faces fs (n + 1, ok && area f) else none
    else facesNormals area faces fs (n, ok)

/-- `computeVolume` (ConvexMesh.cpp:246-264): each face reads its normal and its first vertex, `computeFaceNormal` asserts three vertices. -/
def volumeDefined (faces : List (List Nat)) (nbNormals : Nat) : Bool :=
  decide (∀ f < faces.length, 3 ≤ (faces.getD f []).length ∧ f < nbNormals)

/-- `ConvexMesh::init` (ConvexMesh.cpp:52-76): `none` is undefined behaviour, `some true` an accepted mesh, `some false` a mesh that is reported
as invalid. -/
def initMesh (area : Nat → Bool) (nv : Nat) (faces : List (List Nat)) : Option Bool := do
  let _ ← computeHalfEdges nv faces
  let r ← facesNormals area faces (List.range faces.length) (0, true)
  if volumeDefined faces r.1 then some (decide (0 < nv) && checks nv faces && r.2) else none

end Mesh
end RP3D
