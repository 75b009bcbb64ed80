import Verif.Props.SatReal

/-! C103: the contact points of two edges. -/

namespace RP3D
namespace SatProps
open Shape RayProps PointProps RoundProps Geom GeomProps Sat SatGeom

set_option linter.unusedSectionVars false

section Field
variable {K : Type} [Field K] [LinearOrder K] [IsStrictOrderedRing K]

/-- No other vertex lies on the line of an edge. -/
def Strict (P : Poly K) : Prop :=
  ∀ e < P.ne, e % 2 = 0 → ∀ v < P.nv, (P.faceN e).dot (P.vert v - P.startOf e) = 0 → (P.twinN e).dot (P.vert v - P.startOf e) = 0 →
    P.vert v = P.startOf e ∨ P.vert v = P.endOf e

theorem mix_at (x y : V3 K) (w : K) : V3.smul (1 - w) x + V3.smul w y = at' x y w := by
  ext <;> simp [at'] <;> ring

/-- The points of a polyhedron in the planes of both faces beside an edge are the points of the edge. -/
theorem edge_points {P : Poly K} (hP : Solid P) (hS : Strict P) {e : Nat} (he : e < P.ne) (h2 : e % 2 = 0) {u : V3 K} (hu : Hulled P u) :
    (P.faceN e).dot (u - P.startOf e) ≤ 0 ∧ (P.twinN e).dot (u - P.startOf e) ≤ 0 ∧
    ((P.faceN e).dot (u - P.startOf e) = 0 → (P.twinN e).dot (u - P.startOf e) = 0 → OnSeg (P.startOf e) (P.endOf e) u) := by
  obtain ⟨s1, s2⟩ := hP.start e he
  obtain ⟨_, _, e3, e4⟩ := hP.ends e he
  have e5 := (hP.ends _ e3).2.2.2
  induction hu with
  | @vertex x hv =>
    obtain ⟨v, hv', rfl⟩ := List.mem_map.1 hv
    have hv := List.mem_range.1 hv'
    refine ⟨?_, ?_, fun a b => ?_⟩
    · rw [dot_sub_right, s1]; have := hP.behind _ e4 v hv; unfold Poly.faceN; linarith
    · rw [dot_sub_right, s2]; have := hP.behind _ e5 v hv; unfold Poly.twinN; linarith
    · rcases hS e he h2 v hv a b with h | h
      · rw [h]; exact onSeg_left _ _
      · rw [h]; exact onSeg_right _ _
  | @mix x y w _ _ w0 w1 ih1 ih2 =>
    obtain ⟨x1, x2, x3⟩ := ih1
    obtain ⟨y1, y2, y3⟩ := ih2
    have lin : ∀ n s : V3 K, n.dot (V3.smul (1 - w) x + V3.smul w y - s) = (1 - w) * n.dot (x - s) + w * n.dot (y - s) := fun n s => by
      simp only [V3.dot, V3.sub_x, V3.sub_y, V3.sub_z, V3.add_x, V3.add_y, V3.add_z, V3.smul_x, V3.smul_y, V3.smul_z]; ring
    rw [lin, lin]
    have w1' : 0 ≤ 1 - w := by linarith
    refine ⟨by nlinarith, by nlinarith, fun a b => ?_⟩
    rcases eq_or_lt_of_le w0 with rfl | w0'
    · have : V3.smul (1 - 0) x + V3.smul 0 y = x := by ext <;> simp
      rw [this]
      exact x3 (by linarith) (by linarith)
    · rcases eq_or_lt_of_le w1 with rfl | w1''
      · have : V3.smul (1 - 1) x + V3.smul 1 y = y := by ext <;> simp
        rw [this]
        exact y3 (by linarith) (by linarith)
      · have p : 0 < 1 - w := by linarith
        have zero : ∀ a b : K, a ≤ 0 → b ≤ 0 → (1 - w) * a + w * b = 0 → a = 0 ∧ b = 0 := by
          intro a b ha hb hab
          constructor
          · rcases eq_or_lt_of_le ha with h | h
            · exact h
            · exfalso; nlinarith [mul_neg_of_pos_of_neg p h, mul_nonpos_of_nonneg_of_nonpos w0 hb]
          · rcases eq_or_lt_of_le hb with h | h
            · exact h
            · exfalso; nlinarith [mul_neg_of_pos_of_neg w0' h, mul_nonpos_of_nonneg_of_nonpos w1' ha]
        obtain ⟨a1, a2⟩ := zero _ _ x1 y1 a
        obtain ⟨b1, b2⟩ := zero _ _ x2 y2 b
        exact onSeg_onSeg (x3 a1 b1) (y3 a2 b2) ⟨w, w0, w1, mix_at x y w⟩

theorem onSeg_act (t : Trans K) {a b x : V3 K} (h : OnSeg a b x) : OnSeg (t.act a) (t.act b) (t.act x) := by
  obtain ⟨w, w0, w1, rfl⟩ := h
  exact ⟨w, w0, w1, by rw [← mix_at, act_mix, mix_at]⟩

theorem onSeg_hull {P : Poly K} (hP : Solid P) {e : Nat} (he : e < P.ne) {x : V3 K} (h : OnSeg (P.startOf e) (P.endOf e) x) : Hulled P x := by
  obtain ⟨e1, e2, e3, e4⟩ := hP.ends e he
  exact hull_seg (List.mem_map.2 ⟨_, List.mem_range.2 e1, rfl⟩) (List.mem_map.2 ⟨_, List.mem_range.2 (hP.ends _ e2).1, rfl⟩) h

/-- The points farthest along a direction strictly between the normals beside an edge. -/
theorem cone_seg {P : Poly K} (hP : Solid P) (hS : Strict P) {t : Trans K} (ht : t.ori.lengthSq = 1) {e : Nat} (he : e < P.ne) (h2 : e % 2 = 0)
    {α β : K} (hα : 0 < α) (hβ : 0 < β) {u : V3 K} (hu : Hulled P u)
    (htop : (V3.smul α (t.ori.rot (P.faceN e)) + V3.smul β (t.ori.rot (P.twinN e))).dot (t.act (P.startOf e) - t.act u) ≤ 0) :
    OnSeg (P.startOf e) (P.endOf e) u := by
  obtain ⟨a, b, c⟩ := edge_points hP hS he h2 hu
  have flip : ∀ n : V3 K, (t.ori.rot n).dot (t.act (P.startOf e) - t.act u) = -(n.dot (u - P.startOf e)) := fun n => by
    rw [act_sub, rot_dot ht]
    simp only [V3.dot, V3.sub_x, V3.sub_y, V3.sub_z]; ring
  rw [dot_comb, flip, flip] at htop
  have p1 := mul_nonpos_of_nonneg_of_nonpos hα.le a
  have p2 := mul_nonpos_of_nonneg_of_nonpos hβ.le b
  have q1 : α * (P.faceN e).dot (u - P.startOf e) = 0 := by linarith
  have q2 : β * (P.twinN e).dot (u - P.startOf e) = 0 := by linarith
  exact c ((mul_eq_zero.1 q1).resolve_left hα.ne') ((mul_eq_zero.1 q2).resolve_left hβ.ne')

variable {P1 P2 : Poly K} {t : Trans K}

/-- Points of the two polyhedra that are apart by the depth along the axis of two edges lie on the edges. -/
theorem edge_only {N : Num K} (hN : NumOk N) (h1 : Solid P1) (h2 : Solid P2) (s1 : Strict P1) (s2 : Strict P2) (ht : t.ori.lengthSq = 1) {i j : Nat}
    (hi : i < P1.ne) (hi2 : i % 2 = 0) (hj : j < P2.ne) (hj2 : j % 2 = 0) (hm : minkowski P1 P2 t i j = true)
    (hp : parallel N (t.act (P1.endOf i) - t.act (P1.startOf i)) (P2.endOf j - P2.startOf j) = false) {u v : V3 K} (hu : Hulled P1 u) (hv : Hulled P2 v)
    (hd : (edgeDepth N P1 P2 t i j).2.dot (t.act u - v) = (edgeDepth N P1 P2 t i j).1) :
    OnSeg (P1.startOf i) (P1.endOf i) u ∧ OnSeg (P2.startOf j) (P2.endOf j) v := by
  obtain ⟨c1, c2, c3, c4, c5⟩ := edge_axis hN h1 h2 ht hi hi2 hj hj2 hm hp
  obtain ⟨b1, b2⟩ := edge_bodies (P1 := P1) (P2 := P2) (t := t) hi hi2 hj hj2
  have hg := (minkowski_gauss h1 h2 hi hj).1 hm
  have hA := body_ok h1 ht
  have hB := body_ok h2 (t := here) here_unit
  obtain ⟨fa, fb⟩ := hA.flat _ _ _ _ b1
  obtain ⟨fc, fd⟩ := hB.flat _ _ _ _ b2
  have fc' : (-(P2.faceN j)).dot (P2.startOf j - P2.endOf j) = 0 := by rw [neg_dot, fc]; simp
  have fd' : (-(P2.twinN j)).dot (P2.startOf j - P2.endOf j) = 0 := by rw [neg_dot, fd]; simp
  obtain ⟨Z, hZ, ⟨α, β, hα, hβ, e1⟩, ⟨γ, η, hγ, hη, e2⟩⟩ := gauss_cone fa fb (hA.turn _ _ _ _ b1) fc' fd'
    (by rw [cross_neg_neg]; exact hB.turn _ _ _ _ b2) hg
  obtain ⟨ta, tb⟩ := hA.top _ _ _ _ b1
  have tz : Top (body P1 t) Z (t.act (P1.startOf i)) := by rw [e1]; exact top_comb hα.le hβ.le ta tb
  have sgn : 0 ≤ Z.dot (t.act (P1.startOf i) - (body P1 t).center) := by
    by_cases hz : Z = 0
    · rw [hz]; simp [V3.dot]
    · exact (hA.top_center hz tz).le
  obtain ⟨_, _, _, hpos⟩ := cross_tops hA b1 hB b2 hg hZ (.inl sgn)
  obtain ⟨l, hl, eZ⟩ := c5 Z hZ hpos
  -- both points are farthest
  generalize (edgeDepth N P1 P2 t i j).2 = S at *
  generalize (edgeDepth N P1 P2 t i j).1 = D at *
  have up : S.dot (t.act u) ≤ S.dot (t.act (P1.startOf i)) := hull_body ht c2.2 hu
  have dn : (-S).dot v ≤ (-S).dot (P2.startOf j) := by
    have := hull_body (t := here) here_unit c3.2 hv
    rwa [here_act] at this
  rw [neg_dot, neg_dot] at dn
  rw [dot_sub_right] at hd c4
  have q1 : S.dot (t.act (P1.startOf i)) = S.dot (t.act u) := by linarith
  have q2 : S.dot (P2.startOf j) = S.dot v := by linarith
  constructor
  · refine cone_seg h1 s1 ht hi hi2 hα hβ hu ?_
    rw [← e1, eZ, dot_smul_left, dot_sub_right, q1]; simp
  · refine cone_seg h2 s2 (t := here) here_unit hj hj2 hγ hη hv ?_
    rw [here_rot, here_rot, here_act, here_act]
    have : V3.smul γ (P2.faceN j) + V3.smul η (P2.twinN j) = -Z := by rw [e2, comb_neg, neg_neg']
    rw [this, neg_dot, eZ, dot_smul_left, dot_sub_right, q2]; simp

/-- Along the edges the distance along the axis is the depth. -/
theorem edge_level {N : Num K} (hN : NumOk N) (h1 : Solid P1) (h2 : Solid P2) (ht : t.ori.lengthSq = 1) {i j : Nat} (hi : i < P1.ne) (hi2 : i % 2 = 0)
    (hj : j < P2.ne) (hj2 : j % 2 = 0) (hm : minkowski P1 P2 t i j = true)
    (hp : parallel N (t.act (P1.endOf i) - t.act (P1.startOf i)) (P2.endOf j - P2.startOf j) = false) {x y : V3 K}
    (hx : OnSeg (t.act (P1.startOf i)) (t.act (P1.endOf i)) x) (hy : OnSeg (P2.startOf j) (P2.endOf j) y) :
    (edgeDepth N P1 P2 t i j).2.dot (x - y) = (edgeDepth N P1 P2 t i j).1 := by
  obtain ⟨c1, c2, c3, c4, c5⟩ := edge_axis hN h1 h2 ht hi hi2 hj hj2 hm hp
  have perp : (edgeDepth N P1 P2 t i j).2.dot (t.act (P1.endOf i) - t.act (P1.startOf i)) = 0 ∧ (edgeDepth N P1 P2 t i j).2.dot (P2.endOf j - P2.startOf j) = 0 := by
    have hlen : N.par ≤ ((t.act (P1.endOf i) - t.act (P1.startOf i)).cross (P2.endOf j - P2.startOf j)).lengthSq := not_lt.1 (of_decide_eq_false hp)
    obtain ⟨l, hl, hll, hu, hu1⟩ := unit_cases N hN hlen
    have form : ∃ s : K, (edgeDepth N P1 P2 t i j).2 = V3.smul s ((t.act (P1.endOf i) - t.act (P1.startOf i)).cross (P2.endOf j - P2.startOf j)) := by
      unfold edgeDepth edgeDistance
      rw [if_neg (by rw [hp]; simp)]
      dsimp only
      rw [hu]
      generalize (if P1.tri = true then _ else _ : K) = dd
      by_cases hdd : 0 < dd
      · rw [if_pos hdd]; exact ⟨-(1 / l), by ext <;> simp⟩
      · rw [if_neg hdd]; exact ⟨1 / l, rfl⟩
    obtain ⟨s, es⟩ := form
    rw [es]
    generalize t.act (P1.endOf i) - t.act (P1.startOf i) = a
    generalize P2.endOf j - P2.startOf j = b
    constructor <;> (simp only [V3.dot, V3.cross, V3.smul_x, V3.smul_y, V3.smul_z]; ring)
  obtain ⟨p1, p2⟩ := perp
  obtain ⟨a, _, _, rfl⟩ := hx
  obtain ⟨b, _, _, rfl⟩ := hy
  generalize (edgeDepth N P1 P2 t i j).2 = S at *
  rw [c4, ← at'_eq, ← at'_eq]
  simp only [V3.dot, V3.sub_x, V3.sub_y, V3.sub_z, V3.add_x, V3.add_y, V3.add_z, V3.smul_x, V3.smul_y, V3.smul_z] at p1 p2 ⊢
  linear_combination a * p1 - b * p2

set_option maxHeartbeats 1000000 in
theorem box_strict {h : V3 K} (hx : 0 < h.x) (hy : 0 < h.y) (hz : 0 < h.z) : Strict (box h) := by
  intro e he h2 v hv
  have he : e < 24 := he
  have hv : v < 8 := hv
  have nx : h.x + h.x ≠ 0 := by linarith
  have ny : h.y + h.y ≠ 0 := by linarith
  have nz : h.z + h.z ≠ 0 := by linarith
  interval_cases e <;> simp at h2 <;> interval_cases v <;>
    simp [Sat.box, boxEdges, Poly.faceN, Poly.twinN, Poly.startOf, Poly.endOf, boxNormal, boxVert, V3.dot] <;> intros <;> exfalso <;> linarith

end Field

/-- **C103, edges.** When the search ends with the axis of two edges, the contact is their closest points: points of the two bodies, apart by exactly the depth
along the normal, which is how far the bodies have to be moved to part them. -/
theorem edge_contact {P1 P2 : Poly ℝ} {w1 w2 : Trans ℝ} {N : Num ℝ} (hN : NumOk N) (h1 : Solid P1) (h2 : Solid P2) (s1 : Strict P1) (s2 : Strict P2)
    (u1 : w1.ori.lengthSq = 1) (u2 : w2.ori.lengthSq = 1) {b : Best ℝ}
    (h : search N P1 P2 (w2.inverse.mul w1) (w2.inverse.mul w1).inverse = .best b) (hpar : NoParallel N P1 P2 (w2.inverse.mul w1))
    (hb1 : ∃ f < P1.nf, faceDepth P1 P2 (w2.inverse.mul w1) f < N.large) (hb2 : ∃ f < P2.nf, faceDepth P2 P1 (w2.inverse.mul w1).inverse f < N.large)
    {i j : Nat} (ha : b.axis = .edges i j) (l1 : N.eps < dist2 (P1.startOf i) (P1.endOf i)) (l2 : N.eps < dist2 (P2.startOf j) (P2.endOf j)) :
    ∃ c, edgeContact N P1 P2 (w2.inverse.mul w1) (w2.inverse.mul w1).inverse w2 i j b.depth b.dir true = [c] ∧ c.normal.lengthSq = 1 ∧ 0 < c.depth ∧
      Hulled P1 c.p1 ∧ Hulled P2 c.p2 ∧ w1.act c.p1 - w2.act c.p2 = V3.smul c.depth c.normal ∧
      (∀ x y, Placed w1 (Hulled P1) x → Placed w2 (Hulled P2) y → c.normal.dot (x - y) ≤ c.depth) ∧
      Overlap c.depth (Placed w1 (Hulled P1)) (Placed w2 (Hulled P2)) := by
  have ht := frame_unit u1 u2
  obtain ⟨δ, hδ, ho, ⟨n, hn, hbnd⟩, hT, hedge, -, hdir⟩ := search_overlap hN h1 h2 u1 u2 h hpar hb1 hb2
  obtain ⟨eδ, eD⟩ := hedge (by rw [ha]; rfl)
  have eDir := hdir i j ha
  rw [ha] at hT eD
  have eD : (edgeDepth N P1 P2 (w2.inverse.mul w1) i j).1 = δ := eD
  obtain ⟨⟨hi, hi2⟩, ⟨hj, hj2⟩, hm, hp⟩ := hT
  obtain ⟨c1, c2, c3, c4, c5⟩ := edge_axis hN h1 h2 ht hi hi2 hj hj2 hm hp
  have back : ∀ x, (w2.inverse.mul w1).inverse.act ((w2.inverse.mul w1).act x) = x := fun x => trans_inverse_act ht x
  have fwd : ∀ x, (w2.inverse.mul w1).act ((w2.inverse.mul w1).inverse.act x) = x := fun x => trans_act_inverse ht x
  have fr : ∀ x, w2.act ((w2.inverse.mul w1).act x) = w1.act x := fun x => frame_act u2 x
  -- a pair of points of the bodies at the distance `δ` along the axis
  have hnw : (w2.ori.rot (edgeDepth N P1 P2 (w2.inverse.mul w1) i j).2).lengthSq = 1 := by rw [rot_len u2, c1]
  have bound : ∀ x y, Placed w1 (Hulled P1) x → Placed w2 (Hulled P2) y → (w2.ori.rot (edgeDepth N P1 P2 (w2.inverse.mul w1) i j).2).dot (x - y) ≤ δ := by
    intro x y hx hy
    have := bound_world u1 u2 c2 c3 hx hy
    rw [← c4, eD] at this
    exact this
  obtain ⟨m1, -⟩ := overlap_depth hδ.le ho hnw bound
  obtain ⟨x, ⟨u, hu, rfl⟩, y, ⟨v, hv, rfl⟩, exy⟩ := m1 (V3.smul δ (w2.ori.rot (edgeDepth N P1 P2 (w2.inverse.mul w1) i j).2)) (by
    simp only [V3.lengthSq] at hnw
    simp only [V3.lengthSq, V3.smul_x, V3.smul_y, V3.smul_z]; nlinarith)
  -- in the space of the second body
  have eloc : (w2.inverse.mul w1).act u - v = V3.smul δ (edgeDepth N P1 P2 (w2.inverse.mul w1) i j).2 := by
    have : w2.ori.rot ((w2.inverse.mul w1).act u - v) = w2.ori.rot (V3.smul δ (edgeDepth N P1 P2 (w2.inverse.mul w1) i j).2) := by
      rw [← act_sub, fr, exy, rot_smul]
      ext <;> simp
    have e := congrArg w2.ori.conj.rot this
    rwa [rot_conj u2, rot_conj u2] at e
  have hdu : (edgeDepth N P1 P2 (w2.inverse.mul w1) i j).2.dot ((w2.inverse.mul w1).act u - v) = (edgeDepth N P1 P2 (w2.inverse.mul w1) i j).1 := by
    rw [eloc, eD]
    simp only [V3.lengthSq] at c1
    simp only [V3.dot, V3.smul_x, V3.smul_y, V3.smul_z]
    linear_combination δ * c1
  obtain ⟨g1, g2⟩ := edge_only hN h1 h2 s1 s2 ht hi hi2 hj hj2 hm hp hu hv hdu
  -- the closest points
  have len : dist2 ((w2.inverse.mul w1).act (P1.startOf i)) ((w2.inverse.mul w1).act (P1.endOf i)) = dist2 (P1.startOf i) (P1.endOf i) := act_dist ht _ _
  obtain ⟨k1, k2, k3⟩ := closest_of_segments N.eps hN.eps.le ((w2.inverse.mul w1).act (P1.startOf i)) ((w2.inverse.mul w1).act (P1.endOf i)) (P2.startOf j) (P2.endOf j)
    (by rw [len]; exact l1) l2
  have near := k3 _ _ (onSeg_act (w2.inverse.mul w1) g1) g2
  have lev := edge_level hN h1 h2 ht hi hi2 hj hj2 hm hp k1 k2
  have ec : (closestSegments N.eps ((w2.inverse.mul w1).act (P1.startOf i)) ((w2.inverse.mul w1).act (P1.endOf i)) (P2.startOf j) (P2.endOf j)).1 -
      (closestSegments N.eps ((w2.inverse.mul w1).act (P1.startOf i)) ((w2.inverse.mul w1).act (P1.endOf i)) (P2.startOf j) (P2.endOf j)).2 =
      V3.smul δ (edgeDepth N P1 P2 (w2.inverse.mul w1) i j).2 := by
    have hd2 : dist2 ((w2.inverse.mul w1).act u) v = δ * δ := by
      have ex := congrArg V3.x eloc
      have ey := congrArg V3.y eloc
      have ez := congrArg V3.z eloc
      simp only [V3.sub_x, V3.sub_y, V3.sub_z, V3.smul_x, V3.smul_y, V3.smul_z] at ex ey ez
      simp only [V3.lengthSq] at c1
      unfold dist2
      rw [ex, ey, ez]
      linear_combination δ * δ * c1
    rw [hd2] at near
    rw [eD] at lev
    generalize (closestSegments N.eps ((w2.inverse.mul w1).act (P1.startOf i)) ((w2.inverse.mul w1).act (P1.endOf i)) (P2.startOf j) (P2.endOf j)).1 = p at *
    generalize (closestSegments N.eps ((w2.inverse.mul w1).act (P1.startOf i)) ((w2.inverse.mul w1).act (P1.endOf i)) (P2.startOf j) (P2.endOf j)).2 = q at *
    generalize (edgeDepth N P1 P2 (w2.inverse.mul w1) i j).2 = S at *
    have hz : (p - q - V3.smul δ S).lengthSq ≤ 0 := by
      simp only [V3.lengthSq] at c1
      unfold dist2 at near
      simp only [V3.dot, V3.sub_x, V3.sub_y, V3.sub_z] at lev
      simp only [V3.lengthSq, V3.sub_x, V3.sub_y, V3.sub_z, V3.smul_x, V3.smul_y, V3.smul_z]
      nlinarith
    by_contra hne
    have : p - q - V3.smul δ S ≠ 0 := by
      intro e0
      apply hne
      have ex := congrArg V3.x e0
      have ey := congrArg V3.y e0
      have ez := congrArg V3.z e0
      simp only [V3.sub_x, V3.sub_y, V3.sub_z, V3.smul_x, V3.smul_y, V3.smul_z, V3.zero_x, V3.zero_y, V3.zero_z] at ex ey ez
      ext <;> simp only [V3.sub_x, V3.sub_y, V3.sub_z, V3.smul_x, V3.smul_y, V3.smul_z] <;> linarith
    exact absurd hz (not_le.2 (len_pos this))
  refine ⟨_, rfl, ?_, ?_, ?_, ?_, ?_, ?_, ?_⟩
  · rw [eDir]; exact hnw
  · show 0 < b.depth; rw [eδ]; exact hδ
  · show Hulled P1 ((w2.inverse.mul w1).inverse.act (edgePoints N P1 P2 (w2.inverse.mul w1) i j).1)
    refine onSeg_hull h1 hi ?_
    have := onSeg_act (w2.inverse.mul w1).inverse k1
    rw [back, back] at this
    exact this
  · exact onSeg_hull h2 hj k2
  · show w1.act ((w2.inverse.mul w1).inverse.act (edgePoints N P1 P2 (w2.inverse.mul w1) i j).1) - w2.act (edgePoints N P1 P2 (w2.inverse.mul w1) i j).2 =
      V3.smul b.depth (w2.ori.rot b.dir)
    rw [← fr, fwd, act_sub, eDir, eδ, ← rot_smul]
    congr 1
  · rw [eDir]; show ∀ x y, _ → _ → _ ≤ b.depth; rw [eδ]; exact bound
  · show Overlap b.depth _ _; rw [eδ]; exact ho

end SatProps
end RP3D
