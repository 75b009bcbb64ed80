import Verif.Narrow.Sat
import Verif.Narrow.SatGeom

/-! C102: the separating axis test of two convex polyhedra finds the depth of their overlap, or a plane between them. -/

namespace RP3D
namespace SatProps
open Ray Shape RayProps PointProps RoundProps Geom Sat SatGeom

set_option linter.unusedSectionVars false
variable {K : Type} [Field K] [LinearOrder K] [IsStrictOrderedRing K]

/-! ### Specification -/

/-- The vertices of a polyhedron and the solid that they span. -/
def verts (P : Poly K) : List (V3 K) := (List.range P.nv).map P.vert
def Hulled (P : Poly K) : V3 K → Prop := Hull (verts P)

/-- The faces and edges of the polyhedron are those of the convex hull of its vertices: unit normals with the whole polyhedron behind each face; the
start and the end of each half-edge lie in the planes of the two faces beside it, which turn outwards around it; the centroid is inside; and each
direction along which two vertices are farthest is between the normals of the two faces beside an edge. -/
structure Solid (P : Poly K) : Prop where
  support : ∀ d, IsSupport (Hulled P) d (P.support d)
  unit : ∀ f < P.nf, (P.normal f).lengthSq = 1
  corner : ∀ f < P.nf, P.faceVerts f ≠ [] ∧ ∀ v ∈ P.faceVerts f, v < P.nv ∧ (P.normal f).dot (P.vert v) = (P.normal f).dot (P.first f)
  behind : ∀ f < P.nf, ∀ v < P.nv, (P.normal f).dot (P.vert v) ≤ (P.normal f).dot (P.first f)
  ends : ∀ e < P.ne, (P.edge e).vertex < P.nv ∧ (P.edge e).next < P.ne ∧ (P.edge e).twin < P.ne ∧ (P.edge e).face < P.nf
  twin : ∀ e < P.ne, (P.edge (P.edge e).twin).vertex = (P.edge (P.edge e).next).vertex
  start : ∀ e < P.ne, (P.faceN e).dot (P.startOf e) = (P.faceN e).dot (P.first (P.edge e).face) ∧
    (P.twinN e).dot (P.startOf e) = (P.twinN e).dot (P.first (P.edge (P.edge e).twin).face)
  flat : ∀ e < P.ne, (P.faceN e).dot (P.startOf e - P.endOf e) = 0 ∧ (P.twinN e).dot (P.startOf e - P.endOf e) = 0
  turn : ∀ e < P.ne, 0 < (P.startOf e - P.endOf e).dot ((P.twinN e).cross (P.faceN e))
  inner : ∀ m : V3 K, m ≠ 0 → ∃ v < P.nv, 0 < m.dot (P.vert v - P.centroid)
  arc : ∀ m : V3 K, m ≠ 0 → ∀ v < P.nv, ∀ w < P.nv, P.vert v ≠ P.vert w → (∀ u < P.nv, m.dot (P.vert u) ≤ m.dot (P.vert v)) →
    (∀ u < P.nv, m.dot (P.vert u) ≤ m.dot (P.vert w)) →
    ∃ e < P.ne, e % 2 = 0 ∧ ∃ α β, 0 ≤ α ∧ 0 ≤ β ∧ m = V3.smul α (P.faceN e) + V3.smul β (P.twinN e)

/-- A plane lies between two sets: the one is on one side of it, the other on the other side. -/
def Apart (A B : V3 K → Prop) : Prop := ∃ n : V3 K, n.lengthSq = 1 ∧ ∀ x y, A x → B y → n.dot x ≤ n.dot y

/-- Two sets overlap by `δ`: along each direction, a motion of the second set by less than `δ` does not bring it to the far side of the first. -/
def Overlap (δ : K) (A B : V3 K → Prop) : Prop := ∀ n : V3 K, n.lengthSq = 1 → ∃ x y, A x ∧ B y ∧ δ ≤ n.dot (x - y)

/-- The numbers of the program: tolerances of the right signs, a square root. -/
structure NumOk (N : Num K) : Prop where
  eps : 0 < N.eps
  par : N.eps * N.eps < N.par
  large : 0 < N.large
  rel : 1 ≤ N.rel
  abs : 0 ≤ N.abs
  root : IsSqrt N.sqrt

/-! ### Placed polyhedra -/

/-- The polyhedron in the space of another. -/
def body (P : Poly K) (t : Trans K) : Body K where
  pts := (verts P).map t.act
  face := fun n => ∃ f < P.nf, n = t.ori.rot (P.normal f)
  edge := fun p q a b => ∃ e < P.ne, e % 2 = 0 ∧ p = t.act (P.startOf e) ∧ q = t.act (P.endOf e) ∧ a = t.ori.rot (P.faceN e) ∧
    b = t.ori.rot (P.twinN e)
  center := t.act P.centroid

theorem mem_pts {P : Poly K} {t : Trans K} {x : V3 K} : x ∈ (body P t).pts ↔ ∃ v < P.nv, x = t.act (P.vert v) := by
  simp only [body, verts, List.map_map, List.mem_map, List.mem_range, Function.comp]
  constructor
  · rintro ⟨v, hv, rfl⟩; exact ⟨v, hv, rfl⟩
  · rintro ⟨v, hv, rfl⟩; exact ⟨v, hv, rfl⟩

theorem dot_rot {q : Quat K} (h : q.lengthSq = 1) (m v : V3 K) : m.dot (q.rot v) = (q.conj.rot m).dot v := by
  rw [← rot_dot h (q.conj.rot m) v, rot_conj' h]

theorem dot_act {t : Trans K} (h : t.ori.lengthSq = 1) (m v w : V3 K) : m.dot (t.act v - t.act w) = (t.ori.conj.rot m).dot (v - w) := by
  rw [act_sub, dot_rot h]

theorem dot_act_iff {t : Trans K} (h : t.ori.lengthSq = 1) (m v w : V3 K) :
    m.dot (t.act v) ≤ m.dot (t.act w) ↔ (t.ori.conj.rot m).dot v ≤ (t.ori.conj.rot m).dot w := by
  have e := dot_act h m v w
  rw [dot_sub_right, dot_sub_right] at e
  constructor <;> intro hh <;> linarith

theorem rot_ne {q : Quat K} (h : q.lengthSq = 1) {m : V3 K} (hm : m ≠ 0) : q.rot m ≠ 0 := by
  intro e
  apply hm
  rw [← rot_conj h m, e]
  ext <;> simp [Quat.rot]

theorem conj_unit {q : Quat K} (h : q.lengthSq = 1) : q.conj.lengthSq = 1 := by
  rw [← h]; simp only [Quat.conj, Quat.lengthSq]; ring

theorem rot_add2 (q : Quat K) (s t : K) (a b : V3 K) : q.rot (V3.smul s a + V3.smul t b) = V3.smul s (q.rot a) + V3.smul t (q.rot b) := by
  rw [rot_linear, rot_smul]

theorem body_ok {P : Poly K} (hP : Solid P) {t : Trans K} (ht : t.ori.lengthSq = 1) : (body P t).Ok := by
  have top : ∀ f < P.nf, ∀ v < P.nv, (P.normal f).dot (P.vert v) = (P.normal f).dot (P.first f) → Top (body P t) (t.ori.rot (P.normal f)) (t.act (P.vert v)) := by
    intro f hf v hv hfirst
    refine ⟨mem_pts.2 ⟨v, hv, rfl⟩, fun z hz => ?_⟩
    obtain ⟨w, hw, rfl⟩ := mem_pts.1 hz
    rw [dot_act_iff ht, rot_conj ht, hfirst]
    exact hP.behind f hf w hw
  constructor
  · rintro n ⟨f, hf, rfl⟩
    rw [rot_len ht]; exact hP.unit f hf
  · rintro p q a b ⟨e, he, _, rfl, rfl, rfl, rfl⟩
    exact ⟨⟨_, (hP.ends e he).2.2.2, rfl⟩, ⟨_, (hP.ends _ (hP.ends e he).2.2.1).2.2.2, rfl⟩⟩
  · rintro p q a b ⟨e, he, _, rfl, rfl, rfl, rfl⟩
    exact mem_pts.2 ⟨_, (hP.ends _ (hP.ends e he).2.1).1, rfl⟩
  · rintro p q a b ⟨e, he, _, rfl, rfl, rfl, rfl⟩
    obtain ⟨h1, h2⟩ := hP.start e he
    exact ⟨top _ (hP.ends e he).2.2.2 _ (hP.ends e he).1 h1, top _ (hP.ends _ (hP.ends e he).2.2.1).2.2.2 _ (hP.ends e he).1 h2⟩
  · rintro p q a b ⟨e, he, _, rfl, rfl, rfl, rfl⟩
    rw [dot_act ht, dot_act ht, rot_conj ht, rot_conj ht]
    exact hP.flat e he
  · rintro p q a b ⟨e, he, _, rfl, rfl, rfl, rfl⟩
    rw [act_sub, rot_cross ht, rot_dot ht]
    exact hP.turn e he
  · intro m hm
    obtain ⟨v, hv, h⟩ := hP.inner (t.ori.conj.rot m) (rot_ne (conj_unit ht) hm)
    refine ⟨t.act (P.vert v), mem_pts.2 ⟨v, hv, rfl⟩, ?_⟩
    rw [show (body P t).center = t.act P.centroid from rfl, dot_act ht]
    exact h
  · intro m hm x y hx hy hne
    obtain ⟨v, hv, rfl⟩ := mem_pts.1 hx.1
    obtain ⟨w, hw, rfl⟩ := mem_pts.1 hy.1
    obtain ⟨e, he, h2, α, β, hα, hβ, hm'⟩ := hP.arc (t.ori.conj.rot m) (rot_ne (conj_unit ht) hm) v hv w hw (fun h => hne (by rw [h]))
      (fun u hu => (dot_act_iff ht ..).1 (hx.2 _ (mem_pts.2 ⟨u, hu, rfl⟩))) (fun u hu => (dot_act_iff ht ..).1 (hy.2 _ (mem_pts.2 ⟨u, hu, rfl⟩)))
    refine ⟨_, _, _, _, ⟨e, he, h2, rfl, rfl, rfl, rfl⟩, α, β, hα, hβ, ?_⟩
    rw [← rot_add2, ← hm', rot_conj' ht]

/-! ### Depths -/

/-- The support point has the largest value. -/
theorem support_top {P : Poly K} (hP : Solid P) {t : Trans K} (ht : t.ori.lengthSq = 1) {m x : V3 K} (hx : Top (body P t) m x) :
    m.dot (t.act (P.support (t.ori.conj.rot m))) = m.dot x := by
  obtain ⟨hin, hmax⟩ := hP.support (t.ori.conj.rot m)
  obtain ⟨v, hv, rfl⟩ := mem_pts.1 hx.1
  apply le_antisymm
  · rw [dot_act_iff ht]
    refine hull_le (vs := verts P) (fun w hw => ?_) hin
    obtain ⟨u, hu, rfl⟩ := List.mem_map.1 hw
    exact (dot_act_iff ht ..).1 (hx.2 _ (mem_pts.2 ⟨u, List.mem_range.1 hu, rfl⟩))
  · rw [dot_act_iff ht]
    exact hmax _ (.vertex (List.mem_map.2 ⟨v, List.mem_range.2 hv, rfl⟩))

/-- The pose of the second polyhedron in its own space. -/
def here : Trans K := Trans.one

theorem here_unit : (here : Trans K).ori.lengthSq = 1 := by simp [here, Trans.one, Quat.one, Quat.lengthSq]
theorem here_rot (v : V3 K) : (here : Trans K).ori.rot v = v := by ext <;> simp [here, Trans.one, Quat.one, Quat.rot]
theorem here_conj (v : V3 K) : (here : Trans K).ori.conj.rot v = v := by ext <;> simp [here, Trans.one, Quat.one, Quat.conj, Quat.rot]
theorem here_act (v : V3 K) : (here : Trans K).act v = v := by unfold Trans.act; rw [here_rot]; ext <;> simp [here, Trans.one]

variable {P1 P2 : Poly K} {t : Trans K}

theorem first_top {P : Poly K} (hP : Solid P) {t : Trans K} (ht : t.ori.lengthSq = 1) {f : Nat} (hf : f < P.nf) :
    Top (body P t) (t.ori.rot (P.normal f)) (t.act (P.first f)) := by
  obtain ⟨hne, hv⟩ := hP.corner f hf
  have hmem : (P.faceVerts f).headD 0 ∈ P.faceVerts f := by
    cases h : P.faceVerts f with
    | nil => exact absurd h hne
    | cons a l => simp
  refine ⟨mem_pts.2 ⟨_, (hv _ hmem).1, rfl⟩, fun z hz => ?_⟩
  obtain ⟨w, hw, rfl⟩ := mem_pts.1 hz
  rw [dot_act_iff ht, rot_conj ht]
  exact hP.behind f hf w hw

theorem top_eq {B : Body K} {m x y : V3 K} (hx : Top B m x) (hy : Top B m y) : m.dot x = m.dot y := le_antisymm (hy.2 x hx.1) (hx.2 y hy.1)

/-- The depth along a face normal of the first polyhedron. -/
theorem faceDepth1 (h1 : Solid P1) (h2 : Solid P2) (ht : t.ori.lengthSq = 1) {f : Nat} (hf : f < P1.nf) {x y : V3 K}
    (hx : Top (body P1 t) (t.ori.rot (P1.normal f)) x) (hy : Top (body P2 here) (-(t.ori.rot (P1.normal f))) y) :
    (t.ori.rot (P1.normal f)).dot (x - y) = faceDepth P1 P2 t f := by
  have e1 := top_eq hx (first_top h1 ht hf)
  have e2 := support_top h2 here_unit hy
  rw [here_conj, here_act, neg_dot, neg_dot] at e2
  have e3 : faceDepth P1 P2 t f = (t.ori.rot (P1.normal f)).dot (t.act (P1.first f)) - (t.ori.rot (P1.normal f)).dot (P2.support (-(t.ori.rot (P1.normal f)))) := by
    unfold faceDepth
    simp only [V3.dot, V3.sub_x, V3.sub_y, V3.sub_z]; ring
  rw [e3, dot_sub_right]
  linarith

/-- The depth along a face normal of the second polyhedron. -/
theorem faceDepth2 (h1 : Solid P1) (h2 : Solid P2) (ht : t.ori.lengthSq = 1) {f : Nat} (hf : f < P2.nf) {x y : V3 K}
    (hx : Top (body P1 t) (-(P2.normal f)) x) (hy : Top (body P2 here) (P2.normal f) y) :
    (-(P2.normal f)).dot (x - y) = faceDepth P2 P1 t.inverse f := by
  have e1 := first_top h2 here_unit hf
  rw [here_rot, here_act] at e1
  have e1 := top_eq hy e1
  have e2 := support_top h1 ht hx
  have eori : t.inverse.ori = t.ori.conj := rfl
  have e3 : faceDepth P2 P1 t.inverse f = (P2.normal f).dot (P2.first f) - (P2.normal f).dot (t.act (P1.support (t.ori.conj.rot (-(P2.normal f))))) := by
    unfold faceDepth
    dsimp only
    rw [eori, ← rot_neg]
    have c1 : (t.ori.conj.rot (P2.normal f)).dot (t.inverse.act (P2.first f)) - (t.ori.conj.rot (P2.normal f)).dot (P1.support (t.ori.conj.rot (-P2.normal f))) =
        (P2.normal f).dot (P2.first f) - (P2.normal f).dot (t.act (P1.support (t.ori.conj.rot (-P2.normal f)))) := by
      rw [← dot_sub_right, ← dot_act ht, trans_act_inverse ht, dot_sub_right]
    rw [← c1]
    simp only [V3.dot, V3.sub_x, V3.sub_y, V3.sub_z]; ring
  rw [neg_dot, dot_sub_right]
  rw [neg_dot, neg_dot] at e2
  linarith

theorem unit_cases (N : Num K) (hN : NumOk N) {u : V3 K} (hu : N.par ≤ u.lengthSq) :
    ∃ l, 0 < l ∧ l * l = u.lengthSq ∧ Shape.unit N.eps N.sqrt u = V3.smul (1 / l) u ∧ (Shape.unit N.eps N.sqrt u).lengthSq = 1 := by
  have hpos : 0 < u.lengthSq := lt_of_lt_of_le (lt_of_le_of_lt (mul_self_nonneg _) hN.par) hu
  obtain ⟨h0, hsq⟩ := hN.root u.lengthSq hpos.le
  have hl : N.eps < N.sqrt u.lengthSq := by
    by_contra hh
    have := mul_self_le_mul_self h0 (not_lt.1 hh)
    linarith [hN.par]
  have hlp : 0 < N.sqrt u.lengthSq := lt_trans hN.eps hl
  refine ⟨N.sqrt u.lengthSq, hlp, hsq, ?_, ?_⟩
  · unfold Shape.unit
    dsimp only
    rw [if_neg (not_lt.2 hl.le)]
    ext <;> simp <;> ring
  · unfold Shape.unit
    dsimp only
    rw [if_neg (not_lt.2 hl.le)]
    have : ∀ i : K, (⟨u.x * i, u.y * i, u.z * i⟩ : V3 K).lengthSq = i * i * u.lengthSq := fun i => by simp only [V3.lengthSq]; ring
    rw [this]
    generalize N.sqrt u.lengthSq = q at *
    rw [← hsq]; field_simp

/-- The pair of edges in the space of the second polyhedron. -/
theorem edge_bodies {i j : Nat} (hi : i < P1.ne) (hi2 : i % 2 = 0) (hj : j < P2.ne) (hj2 : j % 2 = 0) :
    (body P1 t).edge (t.act (P1.startOf i)) (t.act (P1.endOf i)) (t.ori.rot (P1.faceN i)) (t.ori.rot (P1.twinN i)) ∧
    (body P2 here).edge (P2.startOf j) (P2.endOf j) (P2.faceN j) (P2.twinN j) := by
  refine ⟨⟨i, hi, hi2, rfl, rfl, rfl, rfl⟩, ⟨j, hj, hj2, ?_, ?_, ?_, ?_⟩⟩
  · rw [here_act]
  · rw [here_act]
  · rw [here_rot]
  · rw [here_rot]

theorem minkowski_gauss (h1 : Solid P1) (h2 : Solid P2) {i j : Nat} (hi : i < P1.ne) (hj : j < P2.ne) :
    minkowski P1 P2 t i j = true ↔ Gauss (t.ori.rot (P1.faceN i)) (t.ori.rot (P1.twinN i)) (-(P2.faceN j)) (-(P2.twinN j))
      (t.act (P1.startOf i) - t.act (P1.endOf i)) (P2.startOf j - P2.endOf j) := by
  have e1 : P1.twinStart i = P1.endOf i := by unfold Poly.twinStart Poly.endOf; rw [h1.twin i hi]
  have e2 : P2.twinStart j = P2.endOf j := by unfold Poly.twinStart Poly.endOf; rw [h2.twin j hj]
  unfold minkowski arcs Gauss
  rw [e1, e2, act_sub]
  exact decide_eq_true_iff

theorem cross_flip (a b c d : V3 K) : (b - a).cross (d - c) = (a - b).cross (c - d) := by
  ext <;> simp only [V3.cross, V3.sub_x, V3.sub_y, V3.sub_z] <;> ring

/-- The depth along the axis of two edges that passes the test of the Gauss map: the axis is a unit vector, a positive multiple of the product of the
edges or of its opposite, and the starts of the edges are the farthest points. -/
theorem edge_axis {N : Num K} (hN : NumOk N) (h1 : Solid P1) (h2 : Solid P2) (ht : t.ori.lengthSq = 1) {i j : Nat} (hi : i < P1.ne) (hi2 : i % 2 = 0)
    (hj : j < P2.ne) (hj2 : j % 2 = 0) (hm : minkowski P1 P2 t i j = true)
    (hp : parallel N (t.act (P1.endOf i) - t.act (P1.startOf i)) (P2.endOf j - P2.startOf j) = false) :
    (edgeDepth N P1 P2 t i j).2.lengthSq = 1 ∧ Top (body P1 t) (edgeDepth N P1 P2 t i j).2 (t.act (P1.startOf i)) ∧
      Top (body P2 here) (-(edgeDepth N P1 P2 t i j).2) (P2.startOf j) ∧
      (edgeDepth N P1 P2 t i j).1 = (edgeDepth N P1 P2 t i j).2.dot (t.act (P1.startOf i) - P2.startOf j) ∧
      ∀ Z, (Z = (t.act (P1.startOf i) - t.act (P1.endOf i)).cross (P2.startOf j - P2.endOf j) ∨
        Z = -((t.act (P1.startOf i) - t.act (P1.endOf i)).cross (P2.startOf j - P2.endOf j))) → 0 < Z.dot (t.act (P1.startOf i) - t.act P1.centroid) →
        ∃ l, 0 < l ∧ Z = V3.smul l (edgeDepth N P1 P2 t i j).2 := by
  obtain ⟨b1, b2⟩ := edge_bodies (P1 := P1) (P2 := P2) (t := t) hi hi2 hj hj2
  have hg := (minkowski_gauss h1 h2 hi hj).1 hm
  have hA := body_ok h1 ht
  have hB := body_ok h2 here_unit
  have hX := cross_flip (t.act (P1.startOf i)) (t.act (P1.endOf i)) (P2.startOf j) (P2.endOf j)
  have hlen : N.par ≤ ((t.act (P1.startOf i) - t.act (P1.endOf i)).cross (P2.startOf j - P2.endOf j)).lengthSq := by
    have := of_decide_eq_false hp
    rw [hX] at this
    exact not_lt.1 this
  obtain ⟨l, hl, hll, hu, hu1⟩ := unit_cases N hN hlen
  have hval : edgeDepth N P1 P2 t i j =
      (-((if 0 < (if P1.tri then (Shape.unit N.eps N.sqrt ((t.act (P1.startOf i) - t.act (P1.endOf i)).cross (P2.startOf j - P2.endOf j))).dot (P2.startOf j - P2.centroid) else
        (Shape.unit N.eps N.sqrt ((t.act (P1.startOf i) - t.act (P1.endOf i)).cross (P2.startOf j - P2.endOf j))).dot (t.act P1.centroid - t.act (P1.startOf i))) then
        -(Shape.unit N.eps N.sqrt ((t.act (P1.startOf i) - t.act (P1.endOf i)).cross (P2.startOf j - P2.endOf j))) else
        Shape.unit N.eps N.sqrt ((t.act (P1.startOf i) - t.act (P1.endOf i)).cross (P2.startOf j - P2.endOf j))).dot (P2.startOf j - t.act (P1.startOf i))),
      if 0 < (if P1.tri then (Shape.unit N.eps N.sqrt ((t.act (P1.startOf i) - t.act (P1.endOf i)).cross (P2.startOf j - P2.endOf j))).dot (P2.startOf j - P2.centroid) else
        (Shape.unit N.eps N.sqrt ((t.act (P1.startOf i) - t.act (P1.endOf i)).cross (P2.startOf j - P2.endOf j))).dot (t.act P1.centroid - t.act (P1.startOf i))) then
        -(Shape.unit N.eps N.sqrt ((t.act (P1.startOf i) - t.act (P1.endOf i)).cross (P2.startOf j - P2.endOf j))) else
        Shape.unit N.eps N.sqrt ((t.act (P1.startOf i) - t.act (P1.endOf i)).cross (P2.startOf j - P2.endOf j))) := by
    unfold edgeDepth edgeDistance
    rw [if_neg (by rw [hp]; simp), hX]
  generalize hU : Shape.unit N.eps N.sqrt ((t.act (P1.startOf i) - t.act (P1.endOf i)).cross (P2.startOf j - P2.endOf j)) = U at hval hu hu1
  generalize hW : (t.act (P1.startOf i) - t.act (P1.endOf i)).cross (P2.startOf j - P2.endOf j) = W at *
  have hWU : W = V3.smul l U := by rw [hu]; ext <;> simp <;> field_simp
  -- the axis
  have hax : ∃ S : V3 K, (edgeDepth N P1 P2 t i j).2 = S ∧ (S = U ∨ S = -U) ∧
      (0 ≤ S.dot (t.act (P1.startOf i) - t.act P1.centroid) ∨ 0 ≤ (-S).dot (P2.startOf j - P2.centroid)) ∧
      (edgeDepth N P1 P2 t i j).1 = S.dot (t.act (P1.startOf i) - P2.startOf j) := by
    refine ⟨_, rfl, ?_, ?_, ?_⟩
    · rw [hval]; dsimp only; split_ifs <;> simp
    · rw [hval]; dsimp only
      by_cases htri : P1.tri = true
      · rw [if_pos htri]
        right
        split_ifs with h0
        · rw [neg_neg']; exact h0.le
        · rw [neg_dot]; linarith
      · rw [if_neg htri]
        left
        split_ifs with h0
        · rw [neg_dot]; rw [dot_sub_right] at h0 ⊢; linarith
        · rw [dot_sub_right] at h0 ⊢; linarith
    · rw [hval]; dsimp only
      generalize (if 0 < _ then _ else _ : V3 K) = Q
      simp only [V3.dot, V3.sub_x, V3.sub_y, V3.sub_z]; ring
  obtain ⟨S, eS, hS, hsgn, hd⟩ := hax
  rw [eS]
  have hSl : V3.smul l S = W ∨ V3.smul l S = -W := by
    rcases hS with rfl | rfl
    · exact .inl hWU.symm
    · right; rw [hWU, SatGeom.smul_neg]
  have hsg : 0 ≤ (V3.smul l S).dot (t.act (P1.startOf i) - t.act P1.centroid) ∨ 0 ≤ (-(V3.smul l S)).dot (P2.startOf j - P2.centroid) := by
    rcases hsgn with h | h
    · left; rw [dot_smul_left]; exact mul_nonneg hl.le h
    · right; rw [← SatGeom.smul_neg, dot_smul_left]; exact mul_nonneg hl.le h
  have hc2 : (body P2 here).center = P2.centroid := here_act _
  obtain ⟨T1, T2, hne, hpos⟩ := cross_tops hA b1 hB b2 hg (Z := V3.smul l S) (by rw [hW]; exact hSl) (by rw [hc2]; exact hsg)
  have down1 : Top (body P1 t) S (t.act (P1.startOf i)) := by
    have := top_smul (s := 1 / l) (by positivity) T1
    have e : V3.smul (1 / l) (V3.smul l S) = S := by ext <;> simp <;> field_simp
    rwa [e] at this
  have down2 : Top (body P2 here) (-S) (P2.startOf j) := by
    have := top_smul (s := 1 / l) (by positivity) T2
    have e : V3.smul (1 / l) (-(V3.smul l S)) = -S := by ext <;> simp <;> field_simp
    rwa [e] at this
  refine ⟨?_, down1, down2, hd, ?_⟩
  · rcases hS with rfl | rfl
    · exact hu1
    · rw [neg_len]; exact hu1
  · intro Z hZ hz
    refine ⟨l, hl, ?_⟩
    have hz' : 0 < (V3.smul l S).dot (t.act (P1.startOf i) - t.act P1.centroid) := hpos
    rcases hZ with rfl | rfl <;> rcases hSl with h | h
    · exact h.symm
    · rw [h, neg_dot] at hz'; linarith
    · rw [h] at hz'; rw [neg_dot] at hz; linarith
    · exact h.symm

/-! ### The search -/

theorem scan_spec (depth : Nat → K) : ∀ (L : List Nat) (s : K × Nat), 0 < s.1 →
    ((scan depth L s).1 ≤ 0 → (scan depth L s).2 ∈ L ∧ depth (scan depth L s).2 = (scan depth L s).1) ∧
    (0 < (scan depth L s).1 → (∀ f ∈ L, (scan depth L s).1 ≤ depth f) ∧ (scan depth L s).1 ≤ s.1 ∧
      (scan depth L s = s ∨ ((scan depth L s).2 ∈ L ∧ depth (scan depth L s).2 = (scan depth L s).1)))
  | [], s, hs => by simp [scan, hs]
  | f :: L, s, hs => by
    unfold scan
    by_cases hf : depth f ≤ 0
    · rw [if_pos hf]; simp [hf]
    · rw [if_neg hf]
      have hf' := not_le.1 hf
      have hs' : 0 < (if depth f < s.1 then (depth f, f) else s).1 := by split_ifs <;> simp [hf', hs]
      obtain ⟨i1, i2⟩ := scan_spec depth L _ hs'
      refine ⟨fun h => ?_, fun h => ?_⟩
      · obtain ⟨a, b⟩ := i1 h; exact ⟨List.mem_cons_of_mem _ a, b⟩
      · obtain ⟨a, b, c⟩ := i2 h
        have hle : (if depth f < s.1 then (depth f, f) else s).1 ≤ depth f ∧ (if depth f < s.1 then (depth f, f) else s).1 ≤ s.1 := by
          split_ifs with h1
          · exact ⟨le_rfl, h1.le⟩
          · exact ⟨not_lt.1 h1, le_rfl⟩
        refine ⟨?_, le_trans b hle.2, ?_⟩
        · intro g hg
          rcases List.mem_cons.1 hg with rfl | hg
          · exact le_trans b hle.1
          · exact a g hg
        · rcases c with c | ⟨c1, c2⟩
          · rw [c]
            split_ifs
            · right; simp
            · left; rfl
          · right; exact ⟨List.mem_cons_of_mem _ c1, c2⟩

theorem mem_evens {n i : Nat} : i ∈ evens n ↔ i < n ∧ i % 2 = 0 := by
  unfold evens
  simp only [List.mem_map, List.mem_range]
  constructor
  · rintro ⟨k, hk, rfl⟩; omega
  · rintro ⟨h1, h2⟩; exact ⟨i / 2, by omega, by omega⟩

theorem mem_pairs {n1 n2 : Nat} {p : Nat × Nat} : p ∈ pairs n1 n2 ↔ (p.1 < n1 ∧ p.1 % 2 = 0) ∧ (p.2 < n2 ∧ p.2 % 2 = 0) := by
  unfold pairs
  simp only [List.mem_flatMap, List.mem_map]
  constructor
  · rintro ⟨i, hi, j, hj, rfl⟩; exact ⟨mem_evens.1 hi, mem_evens.1 hj⟩
  · rintro ⟨h1, h2⟩; exact ⟨p.1, mem_evens.2 h1, p.2, mem_evens.2 h2, rfl⟩

/-- The loop over the edges: what it finds, started with a face axis. -/
theorem edgeScan_spec {N : Num K} (hN : NumOk N) (P1 P2 : Poly K) (t : Trans K) (b0 : K) : ∀ (L : List (Nat × Nat)) (b : Best K) (seen : Nat × Nat → Prop),
    (b.axis.isFace = true → b.depth = b0 ∧ ∀ p, seen p → minkowski P1 P2 t p.1 p.2 = true → b0 ≤ (edgeDepth N P1 P2 t p.1 p.2).1 * N.rel + N.abs) →
    (b.axis.isFace = false → (∃ i j, b.axis = .edges i j ∧ seen (i, j) ∧ minkowski P1 P2 t i j = true ∧ edgeDepth N P1 P2 t i j = (b.depth, b.dir)) ∧
      b.depth * N.rel + N.abs < b0 ∧ ∀ p, seen p → minkowski P1 P2 t p.1 p.2 = true → b.depth ≤ (edgeDepth N P1 P2 t p.1 p.2).1) →
    (∀ p, seen p → minkowski P1 P2 t p.1 p.2 = true → 0 < (edgeDepth N P1 P2 t p.1 p.2).1) →
    (∀ a, edgeScan N P1 P2 t L b = .separated a → ∃ p ∈ L, a = .edges p.1 p.2 ∧ minkowski P1 P2 t p.1 p.2 = true ∧ (edgeDepth N P1 P2 t p.1 p.2).1 ≤ 0) ∧
    (∀ b', edgeScan N P1 P2 t L b = .best b' →
      (∀ p, (seen p ∨ p ∈ L) → minkowski P1 P2 t p.1 p.2 = true → 0 < (edgeDepth N P1 P2 t p.1 p.2).1) ∧
      (b'.axis.isFace = true → b' = b ∧ ∀ p, (seen p ∨ p ∈ L) → minkowski P1 P2 t p.1 p.2 = true →
        b0 ≤ (edgeDepth N P1 P2 t p.1 p.2).1 * N.rel + N.abs) ∧
      (b'.axis.isFace = false → (∃ i j, b'.axis = .edges i j ∧ (seen (i, j) ∨ (i, j) ∈ L) ∧ minkowski P1 P2 t i j = true ∧
        edgeDepth N P1 P2 t i j = (b'.depth, b'.dir)) ∧ b'.depth * N.rel + N.abs < b0 ∧
        ∀ p, (seen p ∨ p ∈ L) → minkowski P1 P2 t p.1 p.2 = true → b'.depth ≤ (edgeDepth N P1 P2 t p.1 p.2).1))
  | [], b, seen, hf, he, hp => by
    refine ⟨fun a h => by simp [edgeScan] at h, fun b' h => ?_⟩
    simp only [edgeScan, Found.best.injEq] at h
    subst h
    have out : ∀ p, (seen p ∨ p ∈ ([] : List (Nat × Nat))) → seen p := fun p h => by simpa using h
    refine ⟨fun p h => hp p (out p h), fun h => ⟨rfl, fun p h' => (hf h).2 p (out p h')⟩, fun h => ?_⟩
    obtain ⟨⟨i, j, e1, e2, e3⟩, e4, e5⟩ := he h
    exact ⟨⟨i, j, e1, .inl e2, e3⟩, e4, fun p h' => e5 p (out p h')⟩
  | (i, j) :: L, b, seen, hf, he, hp => by
    have hrel : (0 : K) < N.rel := lt_of_lt_of_le one_pos hN.rel
    unfold edgeScan
    have comm : ∀ p, (seen p ∨ p ∈ (i, j) :: L) ↔ ((seen p ∨ p = (i, j)) ∨ p ∈ L) := fun p => by simp only [List.mem_cons]; tauto
    by_cases hm : minkowski P1 P2 t i j = true
    · rw [if_pos hm]
      dsimp only
      by_cases h0 : (edgeDepth N P1 P2 t i j).1 ≤ 0
      · rw [if_pos h0]
        refine ⟨fun a h => ?_, fun b' h => by simp at h⟩
        simp only [Found.separated.injEq] at h
        exact ⟨(i, j), by simp, h.symm, hm, h0⟩
      · rw [if_neg h0]
        have hp' : ∀ p, (seen p ∨ p = (i, j)) → minkowski P1 P2 t p.1 p.2 = true → 0 < (edgeDepth N P1 P2 t p.1 p.2).1 := by
          rintro p (h | rfl) h'
          · exact hp p h h'
          · exact not_le.1 h0
        by_cases hb : better N (edgeDepth N P1 P2 t i j).1 b = true
        · rw [if_pos hb]
          have hb' := of_decide_eq_true hb
          obtain ⟨r1, r2⟩ := edgeScan_spec hN P1 P2 t b0 L ⟨(edgeDepth N P1 P2 t i j).1, .edges i j, (edgeDepth N P1 P2 t i j).2⟩
            (fun p => seen p ∨ p = (i, j)) (by intro h; simp [Axis.isFace] at h) (by
              intro _
              refine ⟨⟨i, j, rfl, .inr rfl, hm, rfl⟩, ?_, ?_⟩
              · rcases hb' with ⟨hF, hlt⟩ | ⟨hF, hlt⟩
                · rw [(hf hF).1] at hlt; exact hlt
                · have := (he hF).2.1
                  have := mul_lt_mul_of_pos_right hlt hrel
                  dsimp only
                  linarith
              · rintro p (h | rfl) h'
                · rcases hb' with ⟨hF, hlt⟩ | ⟨hF, hlt⟩
                  · have h1 := (hf hF).2 p h h'
                    rw [(hf hF).1] at hlt
                    have h2 : (edgeDepth N P1 P2 t i j).1 * N.rel < (edgeDepth N P1 P2 t p.1 p.2).1 * N.rel := by linarith
                    exact (lt_of_mul_lt_mul_right h2 hrel.le).le
                  · exact le_trans hlt.le ((he hF).2.2 p h h')
                · exact le_rfl) hp'
          refine ⟨fun a h => ?_, fun b' h => ?_⟩
          · obtain ⟨p, hp1, hp2⟩ := r1 a h; exact ⟨p, List.mem_cons_of_mem _ hp1, hp2⟩
          · obtain ⟨q1, q2, q3⟩ := r2 b' h
            refine ⟨fun p hh => q1 p ((comm p).1 hh), fun hF => ?_, fun hF => ?_⟩
            · obtain ⟨e, _⟩ := q2 hF
              rw [e] at hF; simp [Axis.isFace] at hF
            · obtain ⟨⟨i', j', e1, e2, e3⟩, e4, e5⟩ := q3 hF
              exact ⟨⟨i', j', e1, (comm _).2 e2, e3⟩, e4, fun p hh => e5 p ((comm p).1 hh)⟩
        · rw [if_neg hb]
          have hb' : ¬ ((b.axis.isFace = true ∧ (edgeDepth N P1 P2 t i j).1 * N.rel + N.abs < b.depth) ∨
            (b.axis.isFace = false ∧ (edgeDepth N P1 P2 t i j).1 < b.depth)) := fun h => hb (decide_eq_true h)
          push Not at hb'
          obtain ⟨r1, r2⟩ := edgeScan_spec hN P1 P2 t b0 L b (fun p => seen p ∨ p = (i, j)) (by
              intro hF
              refine ⟨(hf hF).1, ?_⟩
              rintro p (h | rfl) h'
              · exact (hf hF).2 p h h'
              · have := hb'.1 hF; rwa [(hf hF).1] at this) (by
              intro hF
              obtain ⟨⟨i', j', e1, e2, e3⟩, e4, e5⟩ := he hF
              refine ⟨⟨i', j', e1, .inl e2, e3⟩, e4, ?_⟩
              rintro p (h | rfl) h'
              · exact e5 p h h'
              · exact hb'.2 hF) hp'
          refine ⟨fun a h => ?_, fun b' h => ?_⟩
          · obtain ⟨p, hp1, hp2⟩ := r1 a h; exact ⟨p, List.mem_cons_of_mem _ hp1, hp2⟩
          · obtain ⟨q1, q2, q3⟩ := r2 b' h
            refine ⟨fun p hh => q1 p ((comm p).1 hh), fun hF => ⟨(q2 hF).1, fun p hh => (q2 hF).2 p ((comm p).1 hh)⟩, fun hF => ?_⟩
            obtain ⟨⟨i', j', e1, e2, e3⟩, e4, e5⟩ := q3 hF
            exact ⟨⟨i', j', e1, (comm _).2 e2, e3⟩, e4, fun p hh => e5 p ((comm p).1 hh)⟩
    · rw [if_neg hm]
      have skip : ∀ p, (seen p ∨ p ∈ (i, j) :: L) → minkowski P1 P2 t p.1 p.2 = true → seen p ∨ p ∈ L := by
        rintro p (h | h) h'
        · exact .inl h
        · rcases List.mem_cons.1 h with rfl | h
          · exact absurd h' hm
          · exact .inr h
      obtain ⟨r1, r2⟩ := edgeScan_spec hN P1 P2 t b0 L b seen hf he hp
      refine ⟨fun a h => ?_, fun b' h => ?_⟩
      · obtain ⟨p, hp1, hp2⟩ := r1 a h; exact ⟨p, List.mem_cons_of_mem _ hp1, hp2⟩
      · obtain ⟨q1, q2, q3⟩ := r2 b' h
        refine ⟨fun p hh h' => q1 p (skip p hh h') h', fun hF => ⟨(q2 hF).1, fun p hh h' => (q2 hF).2 p (skip p hh h') h'⟩, fun hF => ?_⟩
        obtain ⟨⟨i', j', e1, e2, e3⟩, e4, e5⟩ := q3 hF
        refine ⟨⟨i', j', e1, ?_, e3⟩, e4, fun p hh h' => e5 p (skip p hh h') h'⟩
        rcases e2 with h | h
        · exact .inl h
        · exact .inr (List.mem_cons_of_mem _ h)

/-! ### From one space to the world -/

theorem act_dot (t : Trans K) (h : t.ori.lengthSq = 1) (m v : V3 K) : m.dot (t.act v) = (t.ori.conj.rot m).dot v + m.dot t.pos := by
  rw [← dot_rot h]; simp only [Trans.act, V3.dot, V3.add_x, V3.add_y, V3.add_z]; ring

theorem hull_body {P : Poly K} {t : Trans K} (ht : t.ori.lengthSq = 1) {m : V3 K} {c : K} (h : ∀ x ∈ (body P t).pts, m.dot x ≤ c) {u : V3 K} (hu : Hulled P u) :
    m.dot (t.act u) ≤ c := by
  rw [act_dot t ht]
  have := hull_le (vs := verts P) (d := t.ori.conj.rot m) (m := c - m.dot t.pos) (fun v hv => by
    have := h (t.act v) (List.mem_map.2 ⟨v, hv, rfl⟩)
    rw [act_dot t ht] at this; linarith) hu
  linarith

variable {w1 w2 : Trans K}

/-- A bound along a direction in the space of the second polyhedron holds in the world. -/
theorem bound_world (u1 : w1.ori.lengthSq = 1) (u2 : w2.ori.lengthSq = 1) {n x0 y0 : V3 K} (hx : Top (body P1 (w2.inverse.mul w1)) n x0)
    (hy : Top (body P2 here) (-n) y0) {x y : V3 K} (h1 : Placed w1 (Hulled P1) x) (h2 : Placed w2 (Hulled P2) y) :
    (w2.ori.rot n).dot (x - y) ≤ n.dot (x0 - y0) := by
  obtain ⟨u, hu, rfl⟩ := h1
  obtain ⟨v, hv, rfl⟩ := h2
  rw [← frame_act u2 u, dot_act u2, rot_conj u2, dot_sub_right, dot_sub_right]
  have a := hull_body (frame_unit u1 u2) hx.2 hu
  have b := hull_body here_unit (m := -n) hy.2 hv
  rw [here_act, neg_dot, neg_dot] at b
  linarith

theorem overlap_world (u1 : w1.ori.lengthSq = 1) (u2 : w2.ori.lengthSq = 1) (h1 : Solid P1) (h2 : Solid P2) {δ : K} (hδ : 0 ≤ δ)
    (h : ∀ n : V3 K, n ≠ 0 → Deep (body P1 (w2.inverse.mul w1)) (body P2 here) δ n) : Overlap δ (Placed w1 (Hulled P1)) (Placed w2 (Hulled P2)) := by
  intro n hn
  have hn' : (w2.ori.conj.rot n).lengthSq = 1 := by rw [rot_len (conj_unit u2), hn]
  obtain ⟨k, hk, hl, hd⟩ := h (w2.ori.conj.rot n) (by intro e; rw [e] at hn'; simp [V3.lengthSq] at hn')
  obtain ⟨x, hx⟩ := (body_ok h1 (frame_unit u1 u2)).exists_top (w2.ori.conj.rot n)
  obtain ⟨y, hy⟩ := (body_ok h2 here_unit).exists_top (-(w2.ori.conj.rot n))
  have hv := hd x y hx hy
  obtain ⟨v, hv1, rfl⟩ := mem_pts.1 hx.1
  obtain ⟨w, hw1, rfl⟩ := mem_pts.1 hy.1
  rw [here_act] at hv
  refine ⟨w1.act (P1.vert v), w2.act (P2.vert w), ⟨_, .vertex (List.mem_map.2 ⟨v, List.mem_range.2 hv1, rfl⟩), rfl⟩,
    ⟨_, .vertex (List.mem_map.2 ⟨w, List.mem_range.2 hw1, rfl⟩), rfl⟩, ?_⟩
  rw [← frame_act u2 (P1.vert v), dot_act u2]
  have hk1 : 1 ≤ k := by
    by_contra hh
    rw [hn'] at hl
    nlinarith [not_le.1 hh]
  have := mul_le_mul_of_nonneg_left hk1 hδ
  linarith

/-- The overlap along an axis, as the program measures it. -/
def axisDepth (N : Num K) (P1 P2 : Poly K) (t : Trans K) : Axis → K
  | .face1 f => faceDepth P1 P2 t f
  | .face2 f => faceDepth P2 P1 t.inverse f
  | .edges i j => (edgeDepth N P1 P2 t i j).1

/-- An axis that the program tests. -/
def Tested (N : Num K) (P1 P2 : Poly K) (t : Trans K) : Axis → Prop
  | .face1 f => f < P1.nf
  | .face2 f => f < P2.nf
  | .edges i j => (i < P1.ne ∧ i % 2 = 0) ∧ (j < P2.ne ∧ j % 2 = 0) ∧ minkowski P1 P2 t i j = true ∧
    parallel N (t.act (P1.endOf i) - t.act (P1.startOf i)) (P2.endOf j - P2.startOf j) = false

/-- The pairs of edges whose arcs cross are not taken for parallel. -/
def NoParallel (N : Num K) (P1 P2 : Poly K) (t : Trans K) : Prop :=
  ∀ i j, i < P1.ne → i % 2 = 0 → j < P2.ne → j % 2 = 0 → minkowski P1 P2 t i j = true →
    parallel N (t.act (P1.endOf i) - t.act (P1.startOf i)) (P2.endOf j - P2.startOf j) = false

/-- Along a tested axis the overlap is what the program says. -/
theorem tested_exact {N : Num K} (hN : NumOk N) (h1 : Solid P1) (h2 : Solid P2) (ht : t.ori.lengthSq = 1) {a : Axis} (ha : Tested N P1 P2 t a) :
    ∃ n x y, n.lengthSq = 1 ∧ Top (body P1 t) n x ∧ Top (body P2 here) (-n) y ∧ n.dot (x - y) = axisDepth N P1 P2 t a := by
  have hA := body_ok h1 ht
  have hB := body_ok h2 (t := here) here_unit
  cases a with
  | face1 f =>
    obtain ⟨y, hy⟩ := hB.exists_top (-(t.ori.rot (P1.normal f)))
    have hx := first_top h1 ht ha
    exact ⟨_, _, y, by rw [rot_len ht]; exact h1.unit f ha, hx, hy, faceDepth1 h1 h2 ht ha hx hy⟩
  | face2 f =>
    obtain ⟨x, hx⟩ := hA.exists_top (-(P2.normal f))
    have hy := first_top h2 (t := here) here_unit ha
    rw [here_rot, here_act] at hy
    exact ⟨_, x, _, by rw [neg_len]; exact h2.unit f ha, hx, by rwa [neg_neg'], faceDepth2 h1 h2 ht ha hx hy⟩
  | edges i j =>
    obtain ⟨⟨a1, a2⟩, ⟨a3, a4⟩, a5, a6⟩ := ha
    obtain ⟨b1, b2, b3, b4, _⟩ := edge_axis hN h1 h2 ht a1 a2 a3 a4 a5 a6
    exact ⟨_, _, _, b1, b2, b3, b4.symm⟩

/-- If the overlap along all tested axes is at least `δ`, it is along every direction. -/
theorem tested_complete {N : Num K} (hN : NumOk N) (h1 : Solid P1) (h2 : Solid P2) (ht : t.ori.lengthSq = 1) (hpar : NoParallel N P1 P2 t) {δ : K}
    (h : ∀ a, Tested N P1 P2 t a → δ ≤ axisDepth N P1 P2 t a) {n : V3 K} (hn : n ≠ 0) : Deep (body P1 t) (body P2 here) δ n := by
  have hA := body_ok h1 ht
  have hB := body_ok h2 (t := here) here_unit
  refine deep_all hA hB ⟨?_, ?_, ?_⟩ hn
  · rintro n ⟨f, hf, rfl⟩
    refine ⟨1, zero_le_one, by rw [rot_len ht, h1.unit f hf, mul_one], fun x y hx hy => ?_⟩
    rw [faceDepth1 h1 h2 ht hf hx hy, mul_one]
    exact h (.face1 f) hf
  · rintro n ⟨f, hf, rfl⟩
    rw [here_rot]
    refine ⟨1, zero_le_one, by rw [neg_len, h2.unit f hf, mul_one], fun x y hx hy => ?_⟩
    rw [neg_neg'] at hy
    rw [faceDepth2 h1 h2 ht hf hx hy, mul_one]
    exact h (.face2 f) hf
  · rintro p q a b r s c d ⟨i, hi, hi2, rfl, rfl, rfl, rfl⟩ ⟨j, hj, hj2, rfl, rfl, rfl, rfl⟩ hg Z hZ hpos
    rw [here_act, here_act, here_rot, here_rot] at hg
    rw [here_act, here_act] at hZ
    have hm := (minkowski_gauss h1 h2 hi hj).2 hg
    have hp := hpar i j hi hi2 hj hj2 hm
    obtain ⟨b1, b2, b3, b4, b5⟩ := edge_axis hN h1 h2 ht hi hi2 hj hj2 hm hp
    obtain ⟨l, hl, rfl⟩ := b5 Z hZ hpos
    refine deep_smul hl.le ⟨1, zero_le_one, by rw [b1, mul_one], fun x y hx hy => ?_⟩
    have e1 := top_eq hx b2
    have e2 := top_eq hy b3
    rw [neg_dot, neg_dot] at e2
    have := h (.edges i j) ⟨⟨hi, hi2⟩, ⟨hj, hj2⟩, hm, hp⟩
    rw [show axisDepth N P1 P2 t (.edges i j) = (edgeDepth N P1 P2 t i j).1 from rfl, b4, dot_sub_right] at this
    rw [mul_one, dot_sub_right]
    linarith

theorem exists_least : ∀ L : List K, L ≠ [] → ∃ x ∈ L, ∀ z ∈ L, x ≤ z
  | [], h => absurd rfl h
  | [a], _ => ⟨a, by simp, by simp⟩
  | a :: b :: L, _ => by
    obtain ⟨x, hx, h⟩ := exists_least (b :: L) (by simp)
    rcases le_total x a with hle | hle
    · refine ⟨x, List.mem_cons_of_mem _ hx, ?_⟩
      intro z hz
      rcases List.mem_cons.1 hz with rfl | hz
      · exact hle
      · exact h z hz
    · refine ⟨a, by simp, ?_⟩
      intro z hz
      rcases List.mem_cons.1 hz with rfl | hz
      · exact le_rfl
      · exact le_trans hle (h z hz)

/-- One of the tested axes has the least overlap. -/
theorem least_axis (N : Num K) (P1 P2 : Poly K) (t : Trans K) (h : 0 < P1.nf) :
    ∃ a, Tested N P1 P2 t a ∧ ∀ a', Tested N P1 P2 t a' → axisDepth N P1 P2 t a ≤ axisDepth N P1 P2 t a' := by
  classical
  let L : List Axis := (List.range P1.nf).map .face1 ++ (List.range P2.nf).map .face2 ++ (pairs P1.ne P2.ne).map fun p => .edges p.1 p.2
  have hL : ∀ a, Tested N P1 P2 t a → a ∈ L := by
    intro a ha
    cases a with
    | face1 f => simp only [L, List.mem_append, List.mem_map, List.mem_range]; exact .inl (.inl ⟨f, ha, rfl⟩)
    | face2 f => simp only [L, List.mem_append, List.mem_map, List.mem_range]; exact .inl (.inr ⟨f, ha, rfl⟩)
    | edges i j =>
      simp only [L, List.mem_append, List.mem_map]
      exact .inr ⟨(i, j), mem_pairs.2 ⟨ha.1, ha.2.1⟩, rfl⟩
  let M := (L.filter fun a => decide (Tested N P1 P2 t a)).map (axisDepth N P1 P2 t)
  have hM : ∀ a, Tested N P1 P2 t a → axisDepth N P1 P2 t a ∈ M := fun a ha =>
    List.mem_map.2 ⟨a, List.mem_filter.2 ⟨hL a ha, decide_eq_true ha⟩, rfl⟩
  obtain ⟨x, hx, hmin⟩ := exists_least M (List.ne_nil_of_mem (hM (.face1 0) h))
  obtain ⟨a, ha, rfl⟩ := List.mem_map.1 hx
  exact ⟨a, of_decide_eq_true (List.mem_filter.1 ha).2, fun a' ha' => hmin _ (hM a' ha')⟩

/-- **C102, first part.** A separating axis that the search reports separates the polyhedra: a plane orthogonal to it lies between them. -/
theorem search_apart {N : Num K} (hN : NumOk N) (h1 : Solid P1) (h2 : Solid P2) (u1 : w1.ori.lengthSq = 1) (u2 : w2.ori.lengthSq = 1) {a : Axis}
    (h : search N P1 P2 (w2.inverse.mul w1) (w2.inverse.mul w1).inverse = .separated a) :
    Tested N P1 P2 (w2.inverse.mul w1) a ∧ axisDepth N P1 P2 (w2.inverse.mul w1) a ≤ 0 ∧ Apart (Placed w1 (Hulled P1)) (Placed w2 (Hulled P2)) := by
  have ht := frame_unit u1 u2
  generalize eT : w2.inverse.mul w1 = t at *
  have key : Tested N P1 P2 t a ∧ axisDepth N P1 P2 t a ≤ 0 := by
    unfold search at h
    dsimp only at h
    obtain ⟨s1, s2⟩ := scan_spec (faceDepth P1 P2 t) (List.range P1.nf) (N.large, 0) hN.large
    obtain ⟨s3, s4⟩ := scan_spec (faceDepth P2 P1 t.inverse) (List.range P2.nf) (N.large, 0) hN.large
    rw [show facesDepth N P1 P2 t = scan (faceDepth P1 P2 t) (List.range P1.nf) (N.large, 0) from rfl,
      show facesDepth N P2 P1 t.inverse = scan (faceDepth P2 P1 t.inverse) (List.range P2.nf) (N.large, 0) from rfl] at h
    generalize scan (faceDepth P1 P2 t) (List.range P1.nf) (N.large, 0) = r1 at *
    generalize scan (faceDepth P2 P1 t.inverse) (List.range P2.nf) (N.large, 0) = r2 at *
    by_cases c1 : r1.1 ≤ 0
    · rw [if_pos c1] at h
      simp only [Found.separated.injEq] at h
      subst h
      obtain ⟨m, e⟩ := s1 c1
      exact ⟨List.mem_range.1 m, by show faceDepth P1 P2 t _ ≤ 0; rw [e]; exact c1⟩
    rw [if_neg c1] at h
    by_cases c2 : r2.1 ≤ 0
    · rw [if_pos c2] at h
      simp only [Found.separated.injEq] at h
      subst h
      obtain ⟨m, e⟩ := s3 c2
      exact ⟨List.mem_range.1 m, by show faceDepth P2 P1 t.inverse _ ≤ 0; rw [e]; exact c2⟩
    rw [if_neg c2] at h
    let bb : Best K := if r1.1 < r2.1 * N.rel + N.abs then ⟨min r1.1 r2.1, .face1 r1.2, 0⟩ else ⟨min r1.1 r2.1, .face2 r2.2, 0⟩
    have hbb : bb.axis.isFace = true ∧ bb.depth = min r1.1 r2.1 := by
      by_cases hc : r1.1 < r2.1 * N.rel + N.abs
      · rw [show bb = ⟨min r1.1 r2.1, .face1 r1.2, 0⟩ from if_pos hc]; exact ⟨rfl, rfl⟩
      · rw [show bb = ⟨min r1.1 r2.1, .face2 r2.2, 0⟩ from if_neg hc]; exact ⟨rfl, rfl⟩
    change edgeScan N P1 P2 t (pairs P1.ne P2.ne) bb = .separated a at h
    obtain ⟨r, _⟩ := edgeScan_spec hN P1 P2 t (min r1.1 r2.1) (pairs P1.ne P2.ne) bb (fun _ => False)
      (fun _ => ⟨hbb.2, fun _ hh => hh.elim⟩) (fun hF => by rw [hbb.1] at hF; simp at hF) (fun _ hh => hh.elim)
    obtain ⟨p, hp, rfl, hm, hd⟩ := r a h
    obtain ⟨q1, q2⟩ := mem_pairs.1 hp
    refine ⟨⟨q1, q2, hm, ?_⟩, hd⟩
    by_contra hpar
    have hpar : parallel N (t.act (P1.endOf p.1) - t.act (P1.startOf p.1)) (P2.endOf p.2 - P2.startOf p.2) = true := by simpa using hpar
    unfold edgeDepth edgeDistance at hd
    rw [if_pos hpar] at hd
    exact absurd hd (not_le.2 hN.large)
  refine ⟨key.1, key.2, ?_⟩
  obtain ⟨n, x, y, hn, hx, hy, e⟩ := tested_exact hN h1 h2 ht key.1
  subst eT
  refine ⟨w2.ori.rot n, by rw [rot_len u2, hn], fun x' y' hx' hy' => ?_⟩
  have := bound_world u1 u2 hx hy hx' hy'
  rw [e, dot_sub_right] at this
  linarith [key.2]

/-- **C102, second part.** If the search ends with an axis of least depth, the polyhedra overlap along every direction by at least `δ`, the least
of the depths that it measured (and along one direction by no more than that): `δ` is how far they have to be moved to end the overlap. The axis
chosen is that of `δ` if it is the product of two edges, and close to it otherwise: the tolerances prefer face normals. Needs: edges whose arcs
cross are not taken for parallel. -/
theorem search_overlap {N : Num K} (hN : NumOk N) (h1 : Solid P1) (h2 : Solid P2) (u1 : w1.ori.lengthSq = 1) (u2 : w2.ori.lengthSq = 1) {b : Best K}
    (h : search N P1 P2 (w2.inverse.mul w1) (w2.inverse.mul w1).inverse = .best b) (hpar : NoParallel N P1 P2 (w2.inverse.mul w1))
    (hb1 : ∃ f < P1.nf, faceDepth P1 P2 (w2.inverse.mul w1) f < N.large) (hb2 : ∃ f < P2.nf, faceDepth P2 P1 (w2.inverse.mul w1).inverse f < N.large) :
    ∃ δ, 0 < δ ∧ Overlap δ (Placed w1 (Hulled P1)) (Placed w2 (Hulled P2)) ∧
      (∃ n : V3 K, n.lengthSq = 1 ∧ ∀ x y, Placed w1 (Hulled P1) x → Placed w2 (Hulled P2) y → n.dot (x - y) ≤ δ) ∧
      Tested N P1 P2 (w2.inverse.mul w1) b.axis ∧
      (b.axis.isFace = false → b.depth = δ ∧ axisDepth N P1 P2 (w2.inverse.mul w1) b.axis = δ) ∧
      (b.axis.isFace = true → b.depth ≤ δ * N.rel + N.abs ∧ axisDepth N P1 P2 (w2.inverse.mul w1) b.axis ≤ b.depth * N.rel + N.abs) ∧
      (∀ i j, b.axis = .edges i j → b.dir = (edgeDepth N P1 P2 (w2.inverse.mul w1) i j).2) := by
  have ht := frame_unit u1 u2
  generalize eT : w2.inverse.mul w1 = t at *
  obtain ⟨f1, hf1, hl1⟩ := hb1
  obtain ⟨f2, hf2, hl2⟩ := hb2
  have hrel := hN.rel
  have habs := hN.abs
  have rpos : (0 : K) < N.rel := lt_of_lt_of_le one_pos hrel
  obtain ⟨s1, s2⟩ := scan_spec (faceDepth P1 P2 t) (List.range P1.nf) (N.large, 0) hN.large
  obtain ⟨s3, s4⟩ := scan_spec (faceDepth P2 P1 t.inverse) (List.range P2.nf) (N.large, 0) hN.large
  obtain ⟨a0, ha0, hmin⟩ := least_axis N P1 P2 t (lt_of_le_of_lt (Nat.zero_le _) hf1)
  obtain ⟨n, x, y, hn, hx, hy, e0⟩ := tested_exact hN h1 h2 ht ha0
  have all : ∀ n : V3 K, n ≠ 0 → Deep (body P1 t) (body P2 here) (axisDepth N P1 P2 t a0) n := fun n hn => tested_complete hN h1 h2 ht hpar hmin hn
  unfold search at h
  dsimp only at h
  rw [show facesDepth N P1 P2 t = scan (faceDepth P1 P2 t) (List.range P1.nf) (N.large, 0) from rfl,
    show facesDepth N P2 P1 t.inverse = scan (faceDepth P2 P1 t.inverse) (List.range P2.nf) (N.large, 0) from rfl] at h
  generalize scan (faceDepth P1 P2 t) (List.range P1.nf) (N.large, 0) = r1 at *
  generalize scan (faceDepth P2 P1 t.inverse) (List.range P2.nf) (N.large, 0) = r2 at *
  by_cases c1 : r1.1 ≤ 0
  · rw [if_pos c1] at h; simp at h
  rw [if_neg c1] at h
  by_cases c2 : r2.1 ≤ 0
  · rw [if_pos c2] at h; simp at h
  rw [if_neg c2] at h
  obtain ⟨a1, _, a3⟩ := s2 (not_le.1 c1)
  obtain ⟨b1, _, b3⟩ := s4 (not_le.1 c2)
  have a3 : r1.2 < P1.nf ∧ faceDepth P1 P2 t r1.2 = r1.1 := by
    rcases a3 with rfl | ⟨m, e⟩
    · exact absurd (a1 f1 (List.mem_range.2 hf1)) (not_le.2 hl1)
    · exact ⟨List.mem_range.1 m, e⟩
  have b3 : r2.2 < P2.nf ∧ faceDepth P2 P1 t.inverse r2.2 = r2.1 := by
    rcases b3 with rfl | ⟨m, e⟩
    · exact absurd (b1 f2 (List.mem_range.2 hf2)) (not_le.2 hl2)
    · exact ⟨List.mem_range.1 m, e⟩
  have d1 := not_le.1 c1
  have d2 := not_le.1 c2
  -- the first axis
  let bb : Best K := if r1.1 < r2.1 * N.rel + N.abs then ⟨min r1.1 r2.1, .face1 r1.2, 0⟩ else ⟨min r1.1 r2.1, .face2 r2.2, 0⟩
  have hbb : bb.axis.isFace = true ∧ bb.depth = min r1.1 r2.1 ∧ Tested N P1 P2 t bb.axis ∧
      axisDepth N P1 P2 t bb.axis ≤ min r1.1 r2.1 * N.rel + N.abs := by
    have grow : ∀ z : K, 0 < z → z ≤ z * N.rel + N.abs := fun z hz => by nlinarith
    by_cases hc : r1.1 < r2.1 * N.rel + N.abs
    · have : bb = ⟨min r1.1 r2.1, .face1 r1.2, 0⟩ := if_pos hc
      rw [this]
      refine ⟨rfl, rfl, a3.1, ?_⟩
      show faceDepth P1 P2 t r1.2 ≤ _
      rw [a3.2]
      rcases min_cases r1.1 r2.1 with ⟨e, _⟩ | ⟨e, _⟩ <;> rw [e]
      · exact grow _ d1
      · exact hc.le
    · have : bb = ⟨min r1.1 r2.1, .face2 r2.2, 0⟩ := if_neg hc
      rw [this]
      refine ⟨rfl, rfl, b3.1, ?_⟩
      show faceDepth P2 P1 t.inverse r2.2 ≤ _
      rw [b3.2]
      have hle : r2.1 ≤ r1.1 := le_trans (grow _ d2) (not_lt.1 hc)
      rw [min_eq_right hle]
      exact grow _ d2
  change edgeScan N P1 P2 t (pairs P1.ne P2.ne) bb = .best b at h
  obtain ⟨_, r⟩ := edgeScan_spec hN P1 P2 t (min r1.1 r2.1) (pairs P1.ne P2.ne) bb (fun _ => False)
    (fun _ => ⟨hbb.2.1, fun _ hh => hh.elim⟩) (fun hF => by rw [hbb.1] at hF; simp at hF) (fun _ hh => hh.elim)
  obtain ⟨g1, g2, g3⟩ := r b h
  -- all depths are positive
  have pos : ∀ a, Tested N P1 P2 t a → 0 < axisDepth N P1 P2 t a := by
    intro a ha
    cases a with
    | face1 f => exact lt_of_lt_of_le d1 (a1 f (List.mem_range.2 ha))
    | face2 f => exact lt_of_lt_of_le d2 (b1 f (List.mem_range.2 ha))
    | edges i j => exact g1 (i, j) (.inr (mem_pairs.2 ⟨ha.1, ha.2.1⟩)) ha.2.2.1
  refine ⟨axisDepth N P1 P2 t a0, pos a0 ha0, ?_, ?_, ?_⟩
  · subst eT; exact overlap_world u1 u2 h1 h2 (pos a0 ha0).le all
  · subst eT
    refine ⟨w2.ori.rot n, by rw [rot_len u2, hn], fun x' y' hx' hy' => ?_⟩
    rw [← e0]; exact bound_world u1 u2 hx hy hx' hy'
  · by_cases hF : b.axis.isFace = true
    · obtain ⟨rfl, hle⟩ := g2 hF
      refine ⟨hbb.2.2.1, fun hh => by rw [hF] at hh; simp at hh, fun _ => ⟨?_, by rw [hbb.2.1]; exact hbb.2.2.2⟩, ?_⟩
      · rw [hbb.2.1]
        have p0 := pos a0 ha0
        cases ha : a0 with
        | face1 f =>
          rw [ha] at ha0 p0
          have := a1 f (List.mem_range.2 ha0)
          have hm := min_le_left r1.1 r2.1
          show _ ≤ faceDepth P1 P2 t f * N.rel + N.abs
          have p0 : 0 < faceDepth P1 P2 t f := p0
          nlinarith
        | face2 f =>
          rw [ha] at ha0 p0
          have := b1 f (List.mem_range.2 ha0)
          have hm := min_le_right r1.1 r2.1
          show _ ≤ faceDepth P2 P1 t.inverse f * N.rel + N.abs
          have p0 : 0 < faceDepth P2 P1 t.inverse f := p0
          nlinarith
        | edges i j =>
          rw [ha] at ha0
          exact hle (i, j) (.inr (mem_pairs.2 ⟨ha0.1, ha0.2.1⟩)) ha0.2.2.1
      · intro i j e
        rw [e] at hF; simp [Axis.isFace] at hF
    · have hF : b.axis.isFace = false := by simpa using hF
      obtain ⟨⟨i, j, e1, e2, e3, e4⟩, e5, e6⟩ := g3 hF
      have e2 : (i, j) ∈ pairs P1.ne P2.ne := by rcases e2 with h | h; exact h.elim; exact h
      obtain ⟨q1, q2⟩ := mem_pairs.1 e2
      have hT : Tested N P1 P2 t b.axis := by
        rw [e1]; exact ⟨q1, q2, e3, hpar i j q1.1 q1.2 q2.1 q2.2 e3⟩
      have hD : axisDepth N P1 P2 t b.axis = b.depth := by rw [e1]; show (edgeDepth N P1 P2 t i j).1 = _; rw [e4]
      have hb0 : b.depth < min r1.1 r2.1 := by
        have : 0 < b.depth := by rw [← hD]; exact pos _ hT
        nlinarith
      have heq : b.depth = axisDepth N P1 P2 t a0 := by
        apply le_antisymm
        · cases ha : a0 with
          | face1 f =>
            rw [ha] at ha0
            exact le_trans hb0.le (le_trans (min_le_left _ _) (a1 f (List.mem_range.2 ha0)))
          | face2 f =>
            rw [ha] at ha0
            exact le_trans hb0.le (le_trans (min_le_right _ _) (b1 f (List.mem_range.2 ha0)))
          | edges i' j' =>
            rw [ha] at ha0
            exact e6 (i', j') (.inr (mem_pairs.2 ⟨ha0.1, ha0.2.1⟩)) ha0.2.2.1
        · rw [← hD]; exact hmin _ hT
      refine ⟨hT, fun _ => ⟨heq, by rw [hD, heq]⟩, fun hh => by rw [hF] at hh; simp at hh, ?_⟩
      intro i' j' e
      rw [e1] at e
      simp only [Axis.edges.injEq] at e
      rw [← e.1, ← e.2, e4]

end SatProps
end RP3D
