import Verif.Props.RoundCapsules

/-! C89, C90, C91: the test of two capsules as a whole. -/

namespace RP3D
namespace RoundProps
open Ray Shape RayProps PointProps Geom GeomProps Round

set_option linter.unusedSectionVars false
variable {K : Type} [Field K] [LinearOrder K] [IsStrictOrderedRing K]

/-- Specification: the vector from the lower to the upper end of the inner segment of a capsule. -/
def Dir (t : Trans K) (h : K) : V3 K := t.act ⟨0, h / 2, 0⟩ - t.act ⟨0, -(h / 2), 0⟩

/-- Specification: the inner segments are clearly not parallel for the test (`par` is 0.00001), or they are exactly parallel. -/
def Clear (N : Num K) (t1 : Trans K) (h1 : K) (t2 : Trans K) (h2 : K) : Prop :=
  N.par ≤ ((Dir t1 h1).cross (Dir t2 h2)).lengthSq ∨ (Dir t1 h1).cross (Dir t2 h2) = 0

section
variable {N : Num K} {t1 t2 : Trans K} {r1 r2 h1 h2 : K}

theorem seg_rot (u2 : t2.ori.lengthSq = 1) :
    t2.ori.rot ((t2.inverse.mul t1).act ⟨0, h1 * (1 / 2), 0⟩ - (t2.inverse.mul t1).act ⟨0, -(h1 * (1 / 2)), 0⟩) = Dir t1 h1 := by
  rw [← act_sub, frame_act u2, frame_act u2]
  unfold Dir
  rw [mul_one_div]

theorem own_rot : t2.ori.rot ((⟨0, h2 * (1 / 2), 0⟩ : V3 K) - ⟨0, -(h2 * (1 / 2)), 0⟩) = Dir t2 h2 := by
  rw [← act_sub]
  unfold Dir
  rw [mul_one_div]

theorem seg_len (u1 : t1.ori.lengthSq = 1) (u2 : t2.ori.lengthSq = 1) :
    dist2 ((t2.inverse.mul t1).act ⟨0, -(h1 * (1 / 2)), 0⟩) ((t2.inverse.mul t1).act ⟨0, h1 * (1 / 2), 0⟩) = h1 * h1 := by
  rw [act_dist (frame_unit u1 u2)]
  simp only [dist2]; ring

theorem own_len : dist2 (⟨0, -(h2 * (1 / 2)), 0⟩ : V3 K) ⟨0, h2 * (1 / 2), 0⟩ = h2 * h2 := by
  simp only [dist2]; ring

theorem rot_zero_iff {q : Quat K} (hq : q.lengthSq = 1) (v : V3 K) : q.rot v = 0 ↔ v = 0 := by
  constructor
  · intro h
    have := rot_conj hq v
    rw [h] at this
    rw [← this]; ext <;> simp [Quat.rot]
  · rintro rfl; ext <;> simp [Quat.rot]

theorem cross_local (u2 : t2.ori.lengthSq = 1) :
    t2.ori.rot (((t2.inverse.mul t1).act ⟨0, h1 * (1 / 2), 0⟩ - (t2.inverse.mul t1).act ⟨0, -(h1 * (1 / 2)), 0⟩).cross
      ((⟨0, h2 * (1 / 2), 0⟩ : V3 K) - ⟨0, -(h2 * (1 / 2)), 0⟩)) = (Dir t1 h1).cross (Dir t2 h2) := by
  rw [← rot_cross u2, seg_rot u2, own_rot]

theorem parallel_iff (u2 : t2.ori.lengthSq = 1) :
    parallel N ((t2.inverse.mul t1).act ⟨0, h1 * (1 / 2), 0⟩ - (t2.inverse.mul t1).act ⟨0, -(h1 * (1 / 2)), 0⟩)
      ((⟨0, h2 * (1 / 2), 0⟩ : V3 K) - ⟨0, -(h2 * (1 / 2)), 0⟩) ↔ ((Dir t1 h1).cross (Dir t2 h2)).lengthSq < N.par := by
  unfold parallel
  rw [← cross_local u2, rot_len u2]

theorem par_iff (u2 : t2.ori.lengthSq = 1) :
    Par ((t2.inverse.mul t1).act ⟨0, -(h1 * (1 / 2)), 0⟩) ((t2.inverse.mul t1).act ⟨0, h1 * (1 / 2), 0⟩)
      (⟨0, -(h2 * (1 / 2)), 0⟩ : V3 K) ⟨0, h2 * (1 / 2), 0⟩ ↔ (Dir t1 h1).cross (Dir t2 h2) = 0 := by
  unfold Par
  rw [← cross_local u2, rot_zero_iff u2]

theorem line_lt (hN : Sane N) {a1 b1 a2 : V3 K} (h : N.eps < (b1 - a1).lengthSq) {s : K} (hs : 0 ≤ s) :
    lineDistance N a1 b1 a2 < s ↔ (across a1 b1 a2).lengthSq < s * s := by
  obtain ⟨d0, d1⟩ := line_distance (a2 := a2) hN h
  rw [← d1]
  constructor
  · intro h; nlinarith
  · intro h; by_contra hc; rw [not_lt] at hc; nlinarith

/-- C89: two capsules are reported to collide if and only if their interiors overlap, when the inner segments are exactly parallel or clearly not.
Missing: inner segments that are nearly parallel, for which the answer can be wrong (`small_capsules_missed`). -/
theorem capsule_overlap_partial (hN : Sane N) (u1 : t1.ori.lengthSq = 1) (u2 : t2.ori.lengthSq = 1) (p1 : 0 < r1) (p2 : 0 < r2) (q1 : 0 < h1)
    (q2 : 0 < h2) (l1 : N.eps < h1 * h1) (l2 : N.eps < h2 * h2) (hc : Clear N t1 h1 t2 h2) (report : Bool) :
    (capsuleCapsule N t1 t2 r1 h1 r2 h2 report).1 = true ↔ Meet (Around (Axis t1 h1) r1) (Around (Axis t2 h2) r2) := by
  rw [meet_frame u2 p1 p2 (axis_other u2 q1) (axis_self q2)]
  rw [← seg_len u1 u2 (h1 := h1)] at l1
  rw [← own_len (h2 := h2)] at l2
  have hpa := parallel_iff (N := N) (t1 := t1) (h1 := h1) (h2 := h2) u2
  have hpr := par_iff (t1 := t1) (h1 := h1) (h2 := h2) u2
  unfold capsuleCapsule
  dsimp only
  generalize (t2.inverse.mul t1).act ⟨0, -(h1 * (1 / 2)), 0⟩ = a1 at *
  generalize (t2.inverse.mul t1).act ⟨0, h1 * (1 / 2), 0⟩ = b1 at *
  generalize (⟨0, -(h2 * (1 / 2)), 0⟩ : V3 K) = a2 at *
  generalize (⟨0, h2 * (1 / 2), 0⟩ : V3 K) = b2 at *
  have hcl := closest_contact_iff hN l1 l2 t2 (t2.inverse.mul t1) r1 r2 report
  by_cases h : parallel N (b1 - a1) (b2 - a2)
  · rw [if_pos h]
    have hp : Par a1 b1 a2 b2 := by
      rcases hc with hc | hc
      · exact absurd (hpa.mp h) (not_lt.mpr hc)
      · exact hpr.mpr hc
    have l1' := l1
    rw [← lengthSq_eq] at l1'
    have h0 : 0 < (b1 - a1).lengthSq := lt_trans hN.pos l1'
    have hs : 0 ≤ r1 + r2 := by linarith
    by_cases hd : r1 + r2 ≤ lineDistance N a1 b1 a2
    · rw [if_pos hd]
      have hd' : (r1 + r2) * (r1 + r2) ≤ (across a1 b1 a2).lengthSq := by
        have := (line_lt (a2 := a2) hN l1' hs).not
        rw [not_lt, not_lt] at this
        exact this.mp hd
      constructor
      · intro hf; exact absurd hf (by simp)
      · rintro ⟨a, b, ha, hb, hlt⟩
        have := par_dist h0 hp ha hb
        linarith
    · rw [if_neg hd]
      rw [not_le, line_lt hN l1' hs] at hd
      by_cases hu : 0 < planeSegment N.plane b2 a2 ((b1 - a1).dot a1) (b1 - a1) ∧ 0 < planeSegment N.plane a2 b2 (-(b1 - a1).dot b1) (-(b1 - a1))
      · rw [if_pos hu]
        obtain ⟨k, e1, e2⟩ := clip_params h0 N.plane hu.1 hu.2
        obtain ⟨⟨cA, fA⟩, _⟩ := clip_points h0 hp k e1 e2 hu.1 hu.2
        constructor
        · intro _
          refine ⟨_, _, fA, cA, ?_⟩
          rw [← lengthSq_eq]
          have : ∀ x y : V3 K, x - (x - y) = y := fun x y => by ext <;> simp
          rw [this]; exact hd
        · intro _; rfl
      · rw [if_neg hu]; exact hcl
  · rw [if_neg h]; exact hcl

theorem Good.mono {tol tol' : K} (ht : tol ≤ tol') {A1 A2 : V3 K → Prop} {c : Contact K} (h : Good tol t1 t2 A1 r1 A2 r2 c) :
    Good tol' t1 t2 A1 r1 A2 r2 c := by
  obtain ⟨g1, g2, g3, g4, d, g5, g6, g7, g8, g9⟩ := h
  exact ⟨g1, g2, g3, g4, d, g5, g6, g7, le_trans g8 (max_le_max le_rfl ht), g9⟩

theorem own_vertical : (⟨0, h2 * (1 / 2), 0⟩ : V3 K) - ⟨0, -(h2 * (1 / 2)), 0⟩ = ⟨0, ((⟨0, h2 * (1 / 2), 0⟩ : V3 K) - ⟨0, -(h2 * (1 / 2)), 0⟩).y, 0⟩ := by
  ext <;> simp

/-- C90: the contacts of two overlapping capsules whose inner segments stay apart. Missing: inner segments that are nearly parallel, and those that touch
(but see `capsule_contact_crossing`). -/
theorem capsule_contacts_partial (hN : Sane N) (u1 : t1.ori.lengthSq = 1) (u2 : t2.ori.lengthSq = 1) (p1 : 0 < r1) (p2 : 0 < r2) (q1 : 0 < h1)
    (q2 : 0 < h2) (l1 : N.eps < h1 * h1) (l2 : N.eps < h2 * h2) (hc : Clear N t1 h1 t2 h2)
    (hov : Meet (Around (Axis t1 h1) r1) (Around (Axis t2 h2) r2)) (hne : ∀ a b, Axis t1 h1 a → Axis t2 h2 b → N.eps < dist2 a b) :
    (capsuleCapsule N t1 t2 r1 h1 r2 h2 true).2 ≠ [] ∧
    ∀ c ∈ (capsuleCapsule N t1 t2 r1 h1 r2 h2 true).2, Good N.eps t1 t2 (Axis t1 h1) r1 (Axis t2 h2) r2 c := by
  have g1 := axis_other (t1 := t1) u2 q1
  have g2 := axis_self (t := t2) q2
  have hov' := (meet_frame u2 p1 p2 g1 g2).mp hov
  rw [← seg_len u1 u2 (h1 := h1)] at l1
  rw [← own_len (h2 := h2)] at l2
  have hpa := parallel_iff (N := N) (t1 := t1) (h1 := h1) (h2 := h2) u2
  have hpr := par_iff (t1 := t1) (h1 := h1) (h2 := h2) u2
  have hvert := own_vertical (h2 := h2)
  unfold capsuleCapsule
  dsimp only
  generalize (t2.inverse.mul t1).act ⟨0, -(h1 * (1 / 2)), 0⟩ = a1 at *
  generalize (t2.inverse.mul t1).act ⟨0, h1 * (1 / 2), 0⟩ = b1 at *
  generalize (⟨0, -(h2 * (1 / 2)), 0⟩ : V3 K) = a2 at *
  generalize (⟨0, h2 * (1 / 2), 0⟩ : V3 K) = b2 at *
  have hne' : ∀ a b, OnSeg a1 b1 a → OnSeg a2 b2 b → N.eps < dist2 a b := fun a b ha hb => by
    have := hne _ _ ((g1 _).mpr ⟨a, ha, rfl⟩) ((g2 _).mpr ⟨b, hb, rfl⟩)
    rwa [act_dist u2] at this
  have hcl : (closestContact N t2 (t2.inverse.mul t1) r1 r2 a1 b1 a2 b2 true).2 ≠ [] ∧
      ∀ c ∈ (closestContact N t2 (t2.inverse.mul t1) r1 r2 a1 b1 a2 b2 true).2, Good N.eps t1 t2 (Axis t1 h1) r1 (Axis t2 h2) r2 c := by
    obtain ⟨c, e, hg⟩ := closest_contact_good hN l1 l2 u1 u2 g1 g2 p1 p2 hov' hne'
    rw [e]
    exact ⟨by simp, fun c' hc' => by rw [List.mem_singleton] at hc'; rw [hc']; exact hg⟩
  by_cases h : parallel N (b1 - a1) (b2 - a2)
  · rw [if_pos h]
    have hp : Par a1 b1 a2 b2 := by
      rcases hc with hc | hc
      · exact absurd (hpa.mp h) (not_lt.mpr hc)
      · exact hpr.mpr hc
    have l1' := l1
    rw [← lengthSq_eq] at l1'
    have h0 : 0 < (b1 - a1).lengthSq := lt_trans hN.pos l1'
    have hs : 0 ≤ r1 + r2 := by linarith
    have hd : lineDistance N a1 b1 a2 < r1 + r2 := by
      obtain ⟨a, b, ha, hb, hlt⟩ := hov'
      rw [line_lt hN l1' hs]
      have := par_dist h0 hp ha hb
      linarith
    rw [if_neg (not_le.mpr hd)]
    by_cases hu : 0 < planeSegment N.plane b2 a2 ((b1 - a1).dot a1) (b1 - a1) ∧ 0 < planeSegment N.plane a2 b2 (-(b1 - a1).dot b1) (-(b1 - a1))
    · rw [if_pos hu, if_pos rfl]
      refine ⟨by simp [parallelContacts], fun c hcm => Good.mono hN.pos.le ?_⟩
      refine parallel_contacts_good hN l1 l2 hvert u1 u2 g1 g2 p1 p2 hp hd (Or.inl ?_) hu.1 hu.2 c hcm
      obtain ⟨k, e1, e2⟩ := clip_params h0 N.plane hu.1 hu.2
      obtain ⟨⟨cA, fA⟩, _⟩ := clip_points h0 hp k e1 e2 hu.1 hu.2
      have q := hne' _ _ fA cA
      rw [← lengthSq_eq] at q
      have e : ∀ x y : V3 K, x - (x - y) = y := fun x y => by ext <;> simp
      rw [e] at q
      by_contra hcon
      rw [not_lt] at hcon
      obtain ⟨d0, d1⟩ := line_distance (a2 := a2) hN l1'
      rw [← d1] at q
      nlinarith [hN.pos, hN.le]
    · rw [if_neg hu]; exact hcl
  · rw [if_neg h]; exact hcl

/-- C90: the contact of two capsules whose inner segments cross at a clear angle. -/
theorem capsule_contact_crossing (hN : Sane N) (hpar : N.eps * N.eps < N.par) (u1 : t1.ori.lengthSq = 1) (u2 : t2.ori.lengthSq = 1) (p1 : 0 < r1)
    (p2 : 0 < r2) (q1 : 0 < h1) (q2 : 0 < h2) (l1 : N.eps < h1 * h1) (l2 : N.eps < h2 * h2)
    (hc : N.par ≤ ((Dir t1 h1).cross (Dir t2 h2)).lengthSq) (hx : Meet (Axis t1 h1) (Axis t2 h2)) :
    ∃ c, (capsuleCapsule N t1 t2 r1 h1 r2 h2 true).2 = [c] ∧ Good 0 t1 t2 (Axis t1 h1) r1 (Axis t2 h2) r2 c := by
  have g1 := axis_other (t1 := t1) u2 q1
  have g2 := axis_self (t := t2) q2
  rw [← seg_len u1 u2 (h1 := h1)] at l1
  rw [← own_len (h2 := h2)] at l2
  have hpa := parallel_iff (N := N) (t1 := t1) (h1 := h1) (h2 := h2) u2
  unfold capsuleCapsule
  dsimp only
  generalize (t2.inverse.mul t1).act ⟨0, -(h1 * (1 / 2)), 0⟩ = a1 at *
  generalize (t2.inverse.mul t1).act ⟨0, h1 * (1 / 2), 0⟩ = b1 at *
  generalize (⟨0, -(h2 * (1 / 2)), 0⟩ : V3 K) = a2 at *
  generalize (⟨0, h2 * (1 / 2), 0⟩ : V3 K) = b2 at *
  have hnp : ¬ parallel N (b1 - a1) (b2 - a2) := fun h => absurd (hpa.mp h) (not_lt.mpr hc)
  rw [if_neg hnp]
  refine crossing_contact_good hN hpar l1 l2 u1 u2 g1 g2 p1 p2 hnp ?_
  obtain ⟨x, x1, x2⟩ := hx
  obtain ⟨y, y1, rfl⟩ := (g1 x).mp x1
  obtain ⟨z, z1, e⟩ := (g2 _).mp x2
  have : y = z := by
    have := congrArg t2.inverse.act e
    rwa [trans_inverse_act u2, trans_inverse_act u2] at this
  exact ⟨y, y1, this ▸ z1⟩

/-- Specification: two distinct points of the inner segment of capsule 1 face points of the inner segment of capsule 2. -/
def Beside (t1 : Trans K) (h1 : K) (t2 : Trans K) (h2 : K) : Prop :=
  ∃ x y x' y', Axis t1 h1 x ∧ Axis t2 h2 y ∧ Axis t1 h1 x' ∧ Axis t2 h2 y' ∧ x ≠ x' ∧
    (Dir t1 h1).dot (y - x) = 0 ∧ (Dir t1 h1).dot (y' - x') = 0

theorem face_param {a1 b1 a2 b2 : V3 K} (h : 0 < (b1 - a1).lengthSq) (hp : Par a1 b1 a2 b2) {s t : K}
    (e : (b1 - a1).dot (at' a2 b2 t - at' a1 b1 s) = 0) : start a1 b1 a2 + t * slope a1 b1 a2 b2 = s := by
  have q := par_point h hp t
  have q2 : at' a2 b2 t = at' a1 b1 (start a1 b1 a2 + t * slope a1 b1 a2 b2) + across a1 b1 a2 := by rw [← q]; ext <;> simp
  have hd := across_dot (a2 := a2) h
  rw [q2] at e
  have e3 : (b1 - a1).dot (at' a1 b1 (start a1 b1 a2 + t * slope a1 b1 a2 b2) + across a1 b1 a2 - at' a1 b1 s) =
      (start a1 b1 a2 + t * slope a1 b1 a2 b2 - s) * (b1 - a1).lengthSq + (across a1 b1 a2).dot (b1 - a1) := by
    generalize across a1 b1 a2 = v
    simp only [V3.dot, V3.lengthSq, at', V3.sub_x, V3.sub_y, V3.sub_z, V3.add_x, V3.add_y, V3.add_z]; ring
  rw [e3, hd, add_zero] at e
  have := (mul_eq_zero.mp e).resolve_right (ne_of_gt h)
  linarith

/-- C91: overlapping parallel capsules that lie side by side get two contacts, at different places, when their upper ends point the same way.
Missing: capsules that point opposite ways (`flipped_capsules_one_contact`). -/
theorem two_contacts_partial (hN : Sane N) (hpar : 0 < N.par) (hpl : 0 ≤ N.plane) (u1 : t1.ori.lengthSq = 1) (u2 : t2.ori.lengthSq = 1) (p1 : 0 < r1) (p2 : 0 < r2)
    (q1 : 0 < h1) (q2 : 0 < h2) (l1 : N.eps < h1 * h1) (l2 : N.eps < h2 * h2) (hx : (Dir t1 h1).cross (Dir t2 h2) = 0)
    (hdir : N.plane < (Dir t1 h1).dot (Dir t2 h2)) (hov : Meet (Around (Axis t1 h1) r1) (Around (Axis t2 h2) r2)) (hb : Beside t1 h1 t2 h2) :
    ∃ c c', (capsuleCapsule N t1 t2 r1 h1 r2 h2 true).2 = [c, c'] ∧ c.p2 ≠ c'.p2 := by
  have g1 := axis_other (t1 := t1) u2 q1
  have g2 := axis_self (t := t2) q2
  have hov' := (meet_frame u2 p1 p2 g1 g2).mp hov
  rw [← seg_len u1 u2 (h1 := h1)] at l1
  rw [← own_len (h2 := h2)] at l2
  have hpa := parallel_iff (N := N) (t1 := t1) (h1 := h1) (h2 := h2) u2
  have hp := (par_iff (t1 := t1) (h1 := h1) (h2 := h2) u2).mpr hx
  have hs1 := seg_rot (t1 := t1) (h1 := h1) u2
  have hs2 := own_rot (t2 := t2) (h2 := h2)
  obtain ⟨x, y, x', y', hx1, hy1, hx2, hy2, hxx, f1, f2⟩ := hb
  unfold capsuleCapsule
  dsimp only
  generalize (t2.inverse.mul t1).act ⟨0, -(h1 * (1 / 2)), 0⟩ = a1 at *
  generalize (t2.inverse.mul t1).act ⟨0, h1 * (1 / 2), 0⟩ = b1 at *
  generalize (⟨0, -(h2 * (1 / 2)), 0⟩ : V3 K) = a2 at *
  generalize (⟨0, h2 * (1 / 2), 0⟩ : V3 K) = b2 at *
  have l1' := l1
  rw [← lengthSq_eq] at l1'
  have h0 : 0 < (b1 - a1).lengthSq := lt_trans hN.pos l1'
  have hs : 0 ≤ r1 + r2 := by linarith
  have hd : lineDistance N a1 b1 a2 < r1 + r2 := by
    obtain ⟨a, b, ha, hb, hlt⟩ := hov'
    rw [line_lt hN l1' hs]
    have := par_dist h0 hp ha hb
    linarith
  have hpp : parallel N (b1 - a1) (b2 - a2) := by rw [hpa, hx]; simpa [V3.lengthSq] using hpar
  rw [← hs1, ← hs2, rot_dot u2] at hdir
  have hk : 0 < slope a1 b1 a2 b2 := div_pos (lt_of_le_of_lt hpl hdir) h0
  obtain ⟨x0, ⟨s, s0, s1, rfl⟩, rfl⟩ := (g1 x).mp hx1
  obtain ⟨y0, ⟨t, t0, t1', rfl⟩, rfl⟩ := (g2 y).mp hy1
  obtain ⟨x0', ⟨s', s0', s1', rfl⟩, rfl⟩ := (g1 x').mp hx2
  obtain ⟨y0', ⟨t', t0', t1'', rfl⟩, rfl⟩ := (g2 y').mp hy2
  rw [act_sub, ← hs1, rot_dot u2] at f1 f2
  have w1 := face_param h0 hp f1
  have w2 := face_param h0 hp f2
  have hss : s ≠ s' := fun e => hxx (by rw [e])
  have m1 : 0 < start a1 b1 a2 + slope a1 b1 a2 b2 := by
    rcases lt_or_gt_of_ne hss with hlt | hlt <;> nlinarith
  have m2 : start a1 b1 a2 < 1 := by
    rcases lt_or_gt_of_ne hss with hlt | hlt <;> nlinarith
  -- the two clip parameters
  have hL := ne_of_gt h0
  have hsl : (b1 - a1).dot (b2 - a2) = slope a1 b1 a2 b2 * (b1 - a1).lengthSq := by unfold slope; rw [div_mul_cancel₀ _ hL]
  have hst : (b1 - a1).dot (a2 - a1) = start a1 b1 a2 * (b1 - a1).lengthSq := by unfold start; rw [div_mul_cancel₀ _ hL]
  have v1 : planeSegment N.plane b2 a2 ((b1 - a1).dot a1) (b1 - a1) = (start a1 b1 a2 + slope a1 b1 a2 b2) / slope a1 b1 a2 b2 := by
    unfold planeSegment
    have d : (b1 - a1).dot (a2 - b2) = -((b1 - a1).dot (b2 - a2)) := by simp only [V3.dot, V3.sub_x, V3.sub_y, V3.sub_z]; ring
    have n1 : (b1 - a1).dot a1 - (b1 - a1).dot b2 = -((start a1 b1 a2 + slope a1 b1 a2 b2) * (b1 - a1).lengthSq) := by
      rw [add_mul, ← hsl, ← hst]; simp only [V3.dot, V3.sub_x, V3.sub_y, V3.sub_z]; ring
    dsimp only
    rw [d, abs_neg, if_pos (lt_of_lt_of_le hdir (le_abs_self _)), n1, hsl, neg_div_neg_eq, mul_div_mul_right _ _ hL]
  have v2 : planeSegment N.plane a2 b2 (-((b1 - a1).dot b1)) (-(b1 - a1)) = (1 - start a1 b1 a2) / slope a1 b1 a2 b2 := by
    unfold planeSegment
    have n2 : -((b1 - a1).dot b1) - (-(b1 - a1)).dot a2 = -((1 - start a1 b1 a2) * (b1 - a1).lengthSq) := by
      rw [sub_mul, ← hst, dot_neg]; simp only [V3.dot, V3.lengthSq, V3.sub_x, V3.sub_y, V3.sub_z]; ring
    dsimp only
    rw [dot_neg, abs_neg, if_pos (lt_of_lt_of_le hdir (le_abs_self _)), n2, hsl, neg_div_neg_eq, mul_div_mul_right _ _ hL]
  have z1 : 0 < (start a1 b1 a2 + slope a1 b1 a2 b2) / slope a1 b1 a2 b2 := div_pos m1 hk
  have z2 : 0 < (1 - start a1 b1 a2) / slope a1 b1 a2 b2 := div_pos (by linarith) hk
  have hsum : 1 < (start a1 b1 a2 + slope a1 b1 a2 b2) / slope a1 b1 a2 b2 + (1 - start a1 b1 a2) / slope a1 b1 a2 b2 := by
    rw [← add_div, lt_div_iff₀ hk]; linarith
  rw [if_pos hpp, if_neg (not_le.mpr hd), v1, v2, if_pos ⟨z1, z2⟩, if_pos rfl]
  refine ⟨_, _, rfl, ?_⟩
  dsimp only
  generalize (start a1 b1 a2 + slope a1 b1 a2 b2) / slope a1 b1 a2 b2 = f at *
  generalize (1 - start a1 b1 a2) / slope a1 b1 a2 b2 = g at *
  intro heq
  have hm : 0 < (if 1 < f then 1 else f) + (if 1 < g then 1 else g) - 1 := by
    by_cases c1 : 1 < f <;> by_cases c2 : 1 < g <;> simp only [c1, c2, if_true, if_false] <;> linarith
  have hz : V3.smul ((if 1 < f then 1 else f) + (if 1 < g then 1 else g) - 1) (b2 - a2) = 0 := by
    have ex := congrArg V3.x heq
    have ey := congrArg V3.y heq
    have ez := congrArg V3.z heq
    simp only [V3.sub_x, V3.sub_y, V3.sub_z, V3.add_x, V3.add_y, V3.add_z, V3.smul_x, V3.smul_y, V3.smul_z] at ex ey ez
    ext <;> simp only [V3.sub_x, V3.sub_y, V3.sub_z, V3.smul_x, V3.smul_y, V3.smul_z, V3.zero_x, V3.zero_y, V3.zero_z] <;> linarith
  have hlen : (V3.smul ((if 1 < f then 1 else f) + (if 1 < g then 1 else g) - 1) (b2 - a2)).lengthSq = 0 := by rw [hz]; simp [V3.lengthSq]
  have hexp : ∀ (k : K) (v : V3 K), (V3.smul k v).lengthSq = k * k * v.lengthSq := fun k v => by
    simp only [V3.lengthSq, V3.smul_x, V3.smul_y, V3.smul_z]; ring
  rw [hexp] at hlen
  have : 0 < (b2 - a2).lengthSq := by rw [lengthSq_eq]; exact lt_trans hN.pos l2
  have := mul_pos (mul_pos hm hm) this
  linarith

end

end RoundProps
end RP3D
