import Verif.Math.Vec3
import Mathlib.Algebra.Order.AbsoluteValue.Basic

/-! The half-edge structure of the QuickHull algorithm (QHHalfEdgeStructure.h, QHHalfEdgeStructure.cpp).

Vertices, half-edges and faces are numbered in the order of their creation; a pointer is such a number. Freed memory is `none`, so every use
of a freed object and of a null pointer makes the result `none`; so does a broken assertion when they are checked (`dbg`). Simplified: the three doubly linked lists (`mVertices`,
`mHalfEdges`, `mFaces`) are lists of numbers, head first, so the counters `mNbVertices`, `mNbHalfEdges`, `mNbFaces` are their lengths; memory that is
freed is never handed out again; the map from vertex pairs to edges is an association list. The geometry of faces is kept apart (`Quick.lean`). -/

namespace RP3D.Hull

/-- `QHHalfEdgeStructure::Edge` (QHHalfEdgeStructure.h:59-87) without the links of the list of edges. -/
structure Edge where
  start : Nat
  stop : Nat
  face : Nat
  prev : Option Nat
  next : Option Nat
  twin : Option Nat
deriving DecidableEq, Repr

/-- The structure (QHHalfEdgeStructure.h:263-282). `verts` holds `externalIndex`, `faces` holds `Face::edge`. -/
structure Topo where
  verts : List (Option Nat)
  edges : List (Option Edge)
  faces : List (Option (Option Nat))
  vlist : List Nat
  elist : List Nat
  flist : List Nat
  map : List ((Nat × Nat) × Nat)
deriving DecidableEq, Repr

namespace Topo

/-- The structure after its constructor (QHHalfEdgeStructure.h:307). -/
def empty : Topo := ⟨[], [], [], [], [], [], []⟩

/-- Reading an object through a pointer. -/
def edge (t : Topo) (e : Nat) : Option Edge := (t.edges[e]?).join
def vert (t : Topo) (v : Nat) : Option Nat := (t.verts[v]?).join
def live (t : Topo) (f : Nat) : Bool := ((t.faces[f]?).join).isSome
def faceEdge (t : Topo) (f : Nat) : Option Nat := ((t.faces[f]?).join).join
def next (t : Topo) (e : Nat) : Option Nat := (t.edge e).bind (·.next)
def prev (t : Topo) (e : Nat) : Option Nat := (t.edge e).bind (·.prev)
def twin (t : Topo) (e : Nat) : Option Nat := (t.edge e).bind (·.twin)
def faceOf (t : Topo) (e : Nat) : Option Nat := (t.edge e).map (·.face)

/-- Writing to an edge through a pointer. -/
def modEdge (t : Topo) (e : Nat) (g : Edge → Edge) : Option Topo :=
  match t.edge e with
  | none => none
  | some x => some { t with edges := t.edges.set e (some (g x)) }

/-- Writing `face->edge`. -/
def setFaceEdge (t : Topo) (f e : Nat) : Option Topo :=
  if t.live f then some { t with faces := t.faces.set f (some (some e)) } else none

/-- The edges met by a loop `do ... while (edge != first)` over `nextFaceEdge`. Simplified: a loop that the code leaves early is also required to close. -/
def ringFrom (t : Topo) (first : Nat) : Nat → Nat → Option (List Nat)
  | 0, _ => none
  | fuel + 1, e =>
    match t.next e with
    | none => none
    | some n => if n = first then some [e] else (ringFrom t first fuel n).map (e :: ·)

def ring (t : Topo) (e : Nat) : Option (List Nat) := t.ringFrom e (t.edges.length + 1) e
def faceRing (t : Topo) (f : Nat) : Option (List Nat) := (t.faceEdge f).bind t.ring

/-- `mMapVerticesToEdge.find`. -/
def find (t : Topo) (a b : Nat) : Option Nat := (t.map.find? (fun m => m.1 == (a, b))).map (·.2)

/-- `addVertex` (QHHalfEdgeStructure.cpp:85-99). -/
def addVertex (t : Topo) (ext : Nat) : Nat × Topo :=
  (t.verts.length, { t with verts := t.verts ++ [some ext], vlist := t.verts.length :: t.vlist })

/-- `addEdgeToLinkedListBefore` (QHHalfEdgeStructure.cpp:181-214). -/
def listBefore (e : Nat) : Option Nat → List Nat → List Nat
  | none, l => e :: l
  | some w, l => l.takeWhile (· != w) ++ e :: l.dropWhile (· != w)

/-- One round of the loop of `addFace` (QHHalfEdgeStructure.cpp:121-163). -/
def addEdge (dbg : Bool) (t : Topo) (v1 v2 f : Nat) (before : Option Nat) : Option (Nat × Topo) :=
  if dbg && (t.find v1 v2).isSome then none else
  let id := t.edges.length
  let tw := t.find v2 v1
  let t1 : Topo := { t with edges := t.edges ++ [some ⟨v1, v2, f, before, none, tw⟩] }
  let t2 : Option Topo := match tw with
    | none => some t1
    | some w => if !dbg || (t1.edge w).map (·.twin) == some none then t1.modEdge w (fun x => { x with twin := some id }) else none
  let t3 : Option Topo := match before with
    | none => t2
    | some p => t2.bind (fun t => t.modEdge p (fun x => { x with next := some id }))
  t3.map (fun t => (id, { t with elist := listBefore id tw t.elist, map := ((v1, v2), id) :: t.map }))

/-- The rounds of the loop of `addFace`; the result is the last edge. -/
def addEdges (dbg : Bool) (f : Nat) : List (Nat × Nat) → Option Nat → Topo → Option (Option Nat × Topo)
  | [], before, t => some (before, t)
  | (v1, v2) :: vs, before, t =>
    match addEdge dbg t v1 v2 f before with
    | none => none
    | some (e, t') => addEdges dbg f vs (some e) t'

/-- `addFace` (QHHalfEdgeStructure.cpp:109-178) without the geometry. -/
def addFace (dbg : Bool) (t : Topo) (vs : List Nat) : Option (Nat × Topo) :=
  if dbg && decide (vs.length < 3) then none else
  let f := t.faces.length
  let first := t.edges.length
  match addEdges dbg f (vs.zip (vs.tail ++ vs.take 1)) none { t with faces := t.faces ++ [some none] } with
  | some (some last, t1) =>
    (t1.modEdge last (fun x => { x with next := some first })).bind fun t2 =>
    (t2.modEdge first (fun x => { x with prev := some last })).bind fun t3 =>
    (t3.setFaceEdge f first).map fun t4 => (f, { t4 with flist := f :: t4.flist })
  | _ => none

/-- `removeHalfEdge` (QHHalfEdgeStructure.cpp:259-274). -/
def removeHalfEdge (dbg : Bool) (t : Topo) (e : Nat) : Option Topo :=
  match t.edge e with
  | none => none
  | some x =>
    if dbg && (t.find x.start x.stop).isNone then none else
    let t1 : Option Topo := match x.twin with
      | none => some t
      | some w => t.modEdge w (fun y => { y with twin := none })
    t1.map (fun t => { t with edges := t.edges.set e none, elist := t.elist.erase e, map := t.map.filter (fun m => m.1 != (x.start, x.stop)) })

def removeHalfEdges (dbg : Bool) : List Nat → Topo → Option Topo
  | [], t => some t
  | e :: es, t => (removeHalfEdge dbg t e).bind (removeHalfEdges dbg es)

/-- `deleteFace` (QHHalfEdgeStructure.cpp:296-305). -/
def deleteFace (t : Topo) (f : Nat) : Option Topo :=
  if t.live f then some { t with faces := t.faces.set f none, flist := t.flist.erase f } else none

/-- `removeFace` (QHHalfEdgeStructure.cpp:277-293). -/
def removeFace (dbg : Bool) (t : Topo) (f : Nat) : Option Topo :=
  (t.faceRing f).bind fun es => (removeHalfEdges dbg es t).bind fun t => t.deleteFace f

/-- `removeVertex` (QHHalfEdgeStructure.cpp:308-325). -/
def removeVertex (t : Topo) (v : Nat) : Option Topo :=
  match t.vert v with
  | none => none
  | some _ => some { t with verts := t.verts.set v none, vlist := t.vlist.erase v }

/-- The part of `Face::isValid` about links (QHHalfEdgeStructure.h:215-228). -/
def faceLinked (t : Topo) (f : Nat) : Bool :=
  match t.faceRing f with
  | none => false
  | some es => es.all (fun e => t.faceOf e == some f)

/-- `Edge::isValid` (QHHalfEdgeStructure.h:89-106). -/
def edgeValid (t : Topo) (e : Nat) : Bool :=
  match t.edge e with
  | none => false
  | some x =>
    match x.prev, x.next, x.twin with
    | some p, some n, some w =>
      match t.edge p, t.edge n, t.edge w with
      | some xp, some xn, some xw =>
        xp.next == some e && xn.prev == some e && xw.twin == some e && x.start == xw.stop && x.stop == xw.start && x.stop == xn.start && x.start == xp.stop
      | _, _, _ => false
    | _, _, _ => false

end Topo
end RP3D.Hull
