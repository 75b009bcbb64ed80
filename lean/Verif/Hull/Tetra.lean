import Verif.Hull.Start

/-! The half-edges of the first tetrahedron, face by face (for the lemmas only). `O` and `I` are the two orientations. -/

namespace RP3D.Hull
variable {K : Type} [Field K] [LinearOrder K] [IsStrictOrderedRing K]

def tetraO0 (i1 i2 i3 i4 : Nat) : Topo :=
  ⟨[some i1, some i2, some i3, some i4],
    [some ⟨0, 1, 0, some 2, some 1, none⟩,
      some ⟨1, 2, 0, some 0, some 2, none⟩,
      some ⟨2, 0, 0, some 1, some 0, none⟩],
    [some (some 0)], [3, 2, 1, 0], [2, 1, 0], [0],
    [((2, 0), 2), ((1, 2), 1), ((0, 1), 0)]⟩

def tetraO1 (i1 i2 i3 i4 : Nat) : Topo :=
  ⟨[some i1, some i2, some i3, some i4],
    [some ⟨0, 1, 0, some 2, some 1, none⟩,
      some ⟨1, 2, 0, some 0, some 2, some 5⟩,
      some ⟨2, 0, 0, some 1, some 0, none⟩,
      some ⟨1, 3, 1, some 5, some 4, none⟩,
      some ⟨3, 2, 1, some 3, some 5, none⟩,
      some ⟨2, 1, 1, some 4, some 3, some 1⟩],
    [some (some 0), some (some 3)], [3, 2, 1, 0], [4, 3, 2, 5, 1, 0], [1, 0],
    [((2, 1), 5), ((3, 2), 4), ((1, 3), 3), ((2, 0), 2), ((1, 2), 1), ((0, 1), 0)]⟩

def tetraO2 (i1 i2 i3 i4 : Nat) : Topo :=
  ⟨[some i1, some i2, some i3, some i4],
    [some ⟨0, 1, 0, some 2, some 1, some 8⟩,
      some ⟨1, 2, 0, some 0, some 2, some 5⟩,
      some ⟨2, 0, 0, some 1, some 0, none⟩,
      some ⟨1, 3, 1, some 5, some 4, some 7⟩,
      some ⟨3, 2, 1, some 3, some 5, none⟩,
      some ⟨2, 1, 1, some 4, some 3, some 1⟩,
      some ⟨0, 3, 2, some 8, some 7, none⟩,
      some ⟨3, 1, 2, some 6, some 8, some 3⟩,
      some ⟨1, 0, 2, some 7, some 6, some 0⟩],
    [some (some 0), some (some 3), some (some 6)], [3, 2, 1, 0], [6, 4, 7, 3, 2, 5, 1, 8, 0], [2, 1, 0],
    [((1, 0), 8), ((3, 1), 7), ((0, 3), 6), ((2, 1), 5), ((3, 2), 4), ((1, 3), 3), ((2, 0), 2), ((1, 2), 1), ((0, 1), 0)]⟩

def tetraO3 (i1 i2 i3 i4 : Nat) : Topo :=
  ⟨[some i1, some i2, some i3, some i4],
    [some ⟨0, 1, 0, some 2, some 1, some 8⟩,
      some ⟨1, 2, 0, some 0, some 2, some 5⟩,
      some ⟨2, 0, 0, some 1, some 0, some 9⟩,
      some ⟨1, 3, 1, some 5, some 4, some 7⟩,
      some ⟨3, 2, 1, some 3, some 5, some 10⟩,
      some ⟨2, 1, 1, some 4, some 3, some 1⟩,
      some ⟨0, 3, 2, some 8, some 7, some 11⟩,
      some ⟨3, 1, 2, some 6, some 8, some 3⟩,
      some ⟨1, 0, 2, some 7, some 6, some 0⟩,
      some ⟨0, 2, 3, some 11, some 10, some 2⟩,
      some ⟨2, 3, 3, some 9, some 11, some 4⟩,
      some ⟨3, 0, 3, some 10, some 9, some 6⟩],
    [some (some 0), some (some 3), some (some 6), some (some 9)], [3, 2, 1, 0], [11, 6, 10, 4, 7, 3, 9, 2, 5, 1, 8, 0], [3, 2, 1, 0],
    [((3, 0), 11), ((2, 3), 10), ((0, 2), 9), ((1, 0), 8), ((3, 1), 7), ((0, 3), 6), ((2, 1), 5), ((3, 2), 4), ((1, 3), 3), ((2, 0), 2), ((1, 2), 1), ((0, 1), 0)]⟩

def tetraI0 (i1 i2 i3 i4 : Nat) : Topo :=
  ⟨[some i1, some i2, some i3, some i4],
    [some ⟨0, 2, 0, some 2, some 1, none⟩,
      some ⟨2, 1, 0, some 0, some 2, none⟩,
      some ⟨1, 0, 0, some 1, some 0, none⟩],
    [some (some 0)], [3, 2, 1, 0], [2, 1, 0], [0],
    [((1, 0), 2), ((2, 1), 1), ((0, 2), 0)]⟩

def tetraI1 (i1 i2 i3 i4 : Nat) : Topo :=
  ⟨[some i1, some i2, some i3, some i4],
    [some ⟨0, 2, 0, some 2, some 1, none⟩,
      some ⟨2, 1, 0, some 0, some 2, some 3⟩,
      some ⟨1, 0, 0, some 1, some 0, none⟩,
      some ⟨1, 2, 1, some 5, some 4, some 1⟩,
      some ⟨2, 3, 1, some 3, some 5, none⟩,
      some ⟨3, 1, 1, some 4, some 3, none⟩],
    [some (some 0), some (some 3)], [3, 2, 1, 0], [5, 4, 2, 3, 1, 0], [1, 0],
    [((3, 1), 5), ((2, 3), 4), ((1, 2), 3), ((1, 0), 2), ((2, 1), 1), ((0, 2), 0)]⟩

def tetraI2 (i1 i2 i3 i4 : Nat) : Topo :=
  ⟨[some i1, some i2, some i3, some i4],
    [some ⟨0, 2, 0, some 2, some 1, none⟩,
      some ⟨2, 1, 0, some 0, some 2, some 3⟩,
      some ⟨1, 0, 0, some 1, some 0, some 6⟩,
      some ⟨1, 2, 1, some 5, some 4, some 1⟩,
      some ⟨2, 3, 1, some 3, some 5, none⟩,
      some ⟨3, 1, 1, some 4, some 3, some 7⟩,
      some ⟨0, 1, 2, some 8, some 7, some 2⟩,
      some ⟨1, 3, 2, some 6, some 8, some 5⟩,
      some ⟨3, 0, 2, some 7, some 6, none⟩],
    [some (some 0), some (some 3), some (some 6)], [3, 2, 1, 0], [8, 7, 5, 4, 6, 2, 3, 1, 0], [2, 1, 0],
    [((3, 0), 8), ((1, 3), 7), ((0, 1), 6), ((3, 1), 5), ((2, 3), 4), ((1, 2), 3), ((1, 0), 2), ((2, 1), 1), ((0, 2), 0)]⟩

def tetraI3 (i1 i2 i3 i4 : Nat) : Topo :=
  ⟨[some i1, some i2, some i3, some i4],
    [some ⟨0, 2, 0, some 2, some 1, some 11⟩,
      some ⟨2, 1, 0, some 0, some 2, some 3⟩,
      some ⟨1, 0, 0, some 1, some 0, some 6⟩,
      some ⟨1, 2, 1, some 5, some 4, some 1⟩,
      some ⟨2, 3, 1, some 3, some 5, some 10⟩,
      some ⟨3, 1, 1, some 4, some 3, some 7⟩,
      some ⟨0, 1, 2, some 8, some 7, some 2⟩,
      some ⟨1, 3, 2, some 6, some 8, some 5⟩,
      some ⟨3, 0, 2, some 7, some 6, some 9⟩,
      some ⟨0, 3, 3, some 11, some 10, some 8⟩,
      some ⟨3, 2, 3, some 9, some 11, some 4⟩,
      some ⟨2, 0, 3, some 10, some 9, some 0⟩],
    [some (some 0), some (some 3), some (some 6), some (some 9)], [3, 2, 1, 0], [9, 8, 7, 5, 10, 4, 6, 2, 3, 1, 11, 0], [3, 2, 1, 0],
    [((2, 0), 11), ((3, 2), 10), ((0, 3), 9), ((3, 0), 8), ((1, 3), 7), ((0, 1), 6), ((3, 1), 5), ((2, 3), 4), ((1, 2), 3), ((1, 0), 2), ((2, 1), 1), ((0, 2), 0)]⟩

theorem facePoints3 {ps : List (V3 K)} {T : Topo} {f e1 e2 e3 : Nat} {x1 x2 x3 : Edge} {a b c : Nat} {p q r : V3 K}
    (hr : T.faceRing f = some [e1, e2, e3]) (h1 : T.edge e1 = some x1) (h2 : T.edge e2 = some x2) (h3 : T.edge e3 = some x3)
    (a1 : T.vert x1.start = some a) (b1 : T.vert x1.stop = some b) (a2 : T.vert x2.start = some b) (b2 : T.vert x2.stop = some c)
    (a3 : T.vert x3.start = some c) (b3 : T.vert x3.stop = some a) (ha : ps[a]? = some p) (hb : ps[b]? = some q) (hc : ps[c]? = some r) :
    facePoints ps T f = some [(p, q), (q, r), (r, p)] := by
  unfold facePoints
  rw [hr]
  simp only [Option.bind_some, List.mapM_cons, List.mapM_nil, h1, h2, h3, a1, b1, a2, b2, a3, b3, ha, hb, hc]
  rfl

theorem addFace_eq {C : Cst K} {ps : List (V3 K)} {s : St K} {vs : List Nat} {f : Nat} {T : Topo} {es : List (V3 K × V3 K)}
    (h : Topo.addFace C.dbg s.t vs = some (f, T)) (hf : facePoints ps T f = some es) :
    addFace C ps s vs = (planeOf C es).map fun F => (f, St.mk T ((s.planes ++ ([⟨0, 0, 0⟩] : List (Plane K))).set f F) (s.conf ++ [[]])) := by
  unfold addFace recalc
  rw [h]
  simp only [Option.bind_some, hf, Option.map_map]
  cases planeOf C es <;> rfl

/-- The half-edges before the first face. -/
def tetra0 (i1 i2 i3 i4 : Nat) : Topo := { Topo.empty with verts := [some i1, some i2, some i3, some i4], vlist := [3, 2, 1, 0] }

def tri (p q r : V3 K) : List (V3 K × V3 K) := [(p, q), (q, r), (r, p)]

theorem buildO {C : Cst K} {ps : List (V3 K)} {i1 i2 i3 i4 : Nat} {p1 p2 p3 p4 : V3 K}
    (h1 : ps[i1]? = some p1) (h2 : ps[i2]? = some p2) (h3 : ps[i3]? = some p3) (h4 : ps[i4]? = some p4) :
    addFaces C ps (tetraFaces false) ⟨tetra0 i1 i2 i3 i4, [], []⟩ =
      (planeOf C (tri p1 p2 p3)).bind fun F0 => (planeOf C (tri p2 p4 p3)).bind fun F1 => (planeOf C (tri p1 p4 p2)).bind fun F2 => (planeOf C (tri p1 p3 p4)).bind fun F3 => some ([0, 1, 2, 3], ⟨tetraO3 i1 i2 i3 i4, [F0, F1, F2, F3], [[], [], [], []]⟩) := by
  have a0 : Topo.addFace C.dbg (tetra0 i1 i2 i3 i4) [0, 1, 2] = some (0, tetraO0 i1 i2 i3 i4) := by cases C.dbg <;> rfl
  have f0 : facePoints ps (tetraO0 i1 i2 i3 i4) 0 = some (tri p1 p2 p3) :=
    facePoints3 (e1 := 0) (e2 := 1) (e3 := 2) rfl rfl rfl rfl rfl rfl rfl rfl rfl rfl h1 h2 h3
  have a1 : Topo.addFace C.dbg (tetraO0 i1 i2 i3 i4) [1, 3, 2] = some (1, tetraO1 i1 i2 i3 i4) := by cases C.dbg <;> rfl
  have f1 : facePoints ps (tetraO1 i1 i2 i3 i4) 1 = some (tri p2 p4 p3) :=
    facePoints3 (e1 := 3) (e2 := 4) (e3 := 5) rfl rfl rfl rfl rfl rfl rfl rfl rfl rfl h2 h4 h3
  have a2 : Topo.addFace C.dbg (tetraO1 i1 i2 i3 i4) [0, 3, 1] = some (2, tetraO2 i1 i2 i3 i4) := by cases C.dbg <;> rfl
  have f2 : facePoints ps (tetraO2 i1 i2 i3 i4) 2 = some (tri p1 p4 p2) :=
    facePoints3 (e1 := 6) (e2 := 7) (e3 := 8) rfl rfl rfl rfl rfl rfl rfl rfl rfl rfl h1 h4 h2
  have a3 : Topo.addFace C.dbg (tetraO2 i1 i2 i3 i4) [0, 2, 3] = some (3, tetraO3 i1 i2 i3 i4) := by cases C.dbg <;> rfl
  have f3 : facePoints ps (tetraO3 i1 i2 i3 i4) 3 = some (tri p1 p3 p4) :=
    facePoints3 (e1 := 9) (e2 := 10) (e3 := 11) rfl rfl rfl rfl rfl rfl rfl rfl rfl rfl h1 h3 h4
  simp only [tetraFaces, addFaces, Bool.false_eq_true, if_false]
  rw [addFace_eq (T := tetraO0 i1 i2 i3 i4) a0 f0]
  cases hF0 : planeOf C (tri p1 p2 p3) with
  | none => rfl
  | some F0 =>
  simp only [Option.map_some, Option.bind_some]
  rw [addFace_eq (T := tetraO1 i1 i2 i3 i4) a1 f1]
  cases hF1 : planeOf C (tri p2 p4 p3) with
  | none => rfl
  | some F1 =>
  simp only [Option.map_some, Option.bind_some]
  rw [addFace_eq (T := tetraO2 i1 i2 i3 i4) a2 f2]
  cases hF2 : planeOf C (tri p1 p4 p2) with
  | none => rfl
  | some F2 =>
  simp only [Option.map_some, Option.bind_some]
  rw [addFace_eq (T := tetraO3 i1 i2 i3 i4) a3 f3]
  cases hF3 : planeOf C (tri p1 p3 p4) with
  | none => rfl
  | some F3 =>
  simp only [Option.map_some, Option.bind_some]
  rfl

theorem buildI {C : Cst K} {ps : List (V3 K)} {i1 i2 i3 i4 : Nat} {p1 p2 p3 p4 : V3 K}
    (h1 : ps[i1]? = some p1) (h2 : ps[i2]? = some p2) (h3 : ps[i3]? = some p3) (h4 : ps[i4]? = some p4) :
    addFaces C ps (tetraFaces true) ⟨tetra0 i1 i2 i3 i4, [], []⟩ =
      (planeOf C (tri p1 p3 p2)).bind fun F0 => (planeOf C (tri p2 p3 p4)).bind fun F1 => (planeOf C (tri p1 p2 p4)).bind fun F2 => (planeOf C (tri p1 p4 p3)).bind fun F3 => some ([0, 1, 2, 3], ⟨tetraI3 i1 i2 i3 i4, [F0, F1, F2, F3], [[], [], [], []]⟩) := by
  have a0 : Topo.addFace C.dbg (tetra0 i1 i2 i3 i4) [0, 2, 1] = some (0, tetraI0 i1 i2 i3 i4) := by cases C.dbg <;> rfl
  have f0 : facePoints ps (tetraI0 i1 i2 i3 i4) 0 = some (tri p1 p3 p2) :=
    facePoints3 (e1 := 0) (e2 := 1) (e3 := 2) rfl rfl rfl rfl rfl rfl rfl rfl rfl rfl h1 h3 h2
  have a1 : Topo.addFace C.dbg (tetraI0 i1 i2 i3 i4) [1, 2, 3] = some (1, tetraI1 i1 i2 i3 i4) := by cases C.dbg <;> rfl
  have f1 : facePoints ps (tetraI1 i1 i2 i3 i4) 1 = some (tri p2 p3 p4) :=
    facePoints3 (e1 := 3) (e2 := 4) (e3 := 5) rfl rfl rfl rfl rfl rfl rfl rfl rfl rfl h2 h3 h4
  have a2 : Topo.addFace C.dbg (tetraI1 i1 i2 i3 i4) [0, 1, 3] = some (2, tetraI2 i1 i2 i3 i4) := by cases C.dbg <;> rfl
  have f2 : facePoints ps (tetraI2 i1 i2 i3 i4) 2 = some (tri p1 p2 p4) :=
    facePoints3 (e1 := 6) (e2 := 7) (e3 := 8) rfl rfl rfl rfl rfl rfl rfl rfl rfl rfl h1 h2 h4
  have a3 : Topo.addFace C.dbg (tetraI2 i1 i2 i3 i4) [0, 3, 2] = some (3, tetraI3 i1 i2 i3 i4) := by cases C.dbg <;> rfl
  have f3 : facePoints ps (tetraI3 i1 i2 i3 i4) 3 = some (tri p1 p4 p3) :=
    facePoints3 (e1 := 9) (e2 := 10) (e3 := 11) rfl rfl rfl rfl rfl rfl rfl rfl rfl rfl h1 h4 h3
  simp only [tetraFaces, addFaces, if_true]
  rw [addFace_eq (T := tetraI0 i1 i2 i3 i4) a0 f0]
  cases hF0 : planeOf C (tri p1 p3 p2) with
  | none => rfl
  | some F0 =>
  simp only [Option.map_some, Option.bind_some]
  rw [addFace_eq (T := tetraI1 i1 i2 i3 i4) a1 f1]
  cases hF1 : planeOf C (tri p2 p3 p4) with
  | none => rfl
  | some F1 =>
  simp only [Option.map_some, Option.bind_some]
  rw [addFace_eq (T := tetraI2 i1 i2 i3 i4) a2 f2]
  cases hF2 : planeOf C (tri p1 p2 p4) with
  | none => rfl
  | some F2 =>
  simp only [Option.map_some, Option.bind_some]
  rw [addFace_eq (T := tetraI3 i1 i2 i3 i4) a3 f3]
  cases hF3 : planeOf C (tri p1 p4 p3) with
  | none => rfl
  | some F3 =>
  simp only [Option.map_some, Option.bind_some]
  rfl

end RP3D.Hull
