import Verif.Shapes.Facets

/-! The convex hull whose surface is a list of faces, cut into tetrahedra with a common corner inside: one for each edge of each face. They fill
the hull and two of them have only points of a plane in common. -/

namespace RP3D
namespace Facets
open PointProps

set_option linter.unusedSectionVars false

variable {K : Type} [Field K] [LinearOrder K] [IsStrictOrderedRing K]

/-- Normals, planes and points inside the faces, and a point inside the hull. -/
structure Frame (vs : List (V3 K)) (fs : List (List (V3 K))) (n : List (V3 K) → V3 K) (h : List (V3 K) → K) (m : List (V3 K) → V3 K)
    (c : V3 K) : Prop where
  on : ∀ F ∈ fs, ∀ v ∈ F, (n F).dot v = h F
  behind : ∀ F ∈ fs, ∀ v ∈ vs, v ∉ F → (n F).dot v < h F
  turn : ∀ F ∈ fs, ∀ e ∈ edges F, ∀ v ∈ F, v ≠ e.1 → v ≠ e.2 → 0 < left (n F) e v
  inner : ∀ F ∈ fs, (n F).dot c < h F
  mid : ∀ F ∈ fs, (n F).dot (m F) = h F
  midLeft : ∀ F ∈ fs, ∀ e ∈ edges F, 0 < left (n F) e (m F)
  midHull : ∀ F ∈ fs, Hull vs (m F)
  cHull : Hull vs c

theorem hull_mono {us vs : List (V3 K)} (h : ∀ v ∈ us, v ∈ vs) {p : V3 K} (hp : Hull us p) : Hull vs p := by
  induction hp with
  | vertex hm => exact .vertex (h _ hm)
  | mix _ _ h0 h1 ih1 ih2 => exact .mix ih1 ih2 h0 h1

theorem left_start (n : V3 K) (e : V3 K × V3 K) : left n e e.1 = 0 := by simp [left, V3.dot, V3.cross]
theorem left_end (n : V3 K) (e : V3 K × V3 K) : left n e e.2 = 0 := by simp [left, V3.dot, V3.cross]; ring

theorem frame {vs : List (V3 K)} {fs : List (List (V3 K))} (S : Surface vs fs) : ∃ n h m c, Frame vs fs n h m c := by
  have key : ∀ F : List (V3 K), ∃ (n : V3 K) (h : K) (m : V3 K), F ∈ fs → (∀ v ∈ F, n.dot v = h) ∧ (∀ v ∈ vs, v ∉ F → n.dot v < h) ∧
      (∃ v ∈ vs, v ∉ F) ∧ (∀ e ∈ edges F, ∀ v ∈ F, v ≠ e.1 → v ≠ e.2 → 0 < left n e v) ∧ n.dot m = h ∧
      (∀ e ∈ edges F, 0 < left n e m) ∧ Hull vs m := by
    intro F
    by_cases hF : F ∈ fs
    · obtain ⟨n, h, p1, p2, p3, p4⟩ := S.plane F hF
      have hne : F ≠ [] := by rintro rfl; have := S.three _ hF; simp at this
      obtain ⟨m, hm, hi⟩ := inner_point F hne
      have hturn : ∀ e ∈ edges F, ∀ v ∈ F, v ≠ e.1 → v ≠ e.2 → 0 < left n e v := fun e he v hv h1 h2 => p4 e.1 e.2 he v hv h1 h2
      refine ⟨n, h, m, fun _ => ⟨p1, p2, p3, hturn, ?_, ?_, hull_mono (S.vertex F hF) hm⟩⟩
      · have h1 := (hi n h (fun v hv => (p1 v hv).le)).1
        have h2 := (hi (-n) (-h) (fun v hv => by
          have := p1 v hv
          have e : (-n).dot v = -(n.dot v) := by simp [V3.dot]; ring
          rw [e, this])).1
        have e : (-n).dot m = -(n.dot m) := by simp [V3.dot]; ring
        rw [e] at h2
        linarith
      · intro e he
        have hl : ∀ y, left n e y = -((-(n.cross (e.2 - e.1))).dot y - (-(n.cross (e.2 - e.1))).dot e.1) := by
          intro y; simp [left, V3.dot, V3.cross]; ring
        have hnn : ∀ v ∈ F, 0 ≤ left n e v := by
          intro v hv
          by_cases h1 : v = e.1
          · rw [h1, left_start]
          · by_cases h2 : v = e.2
            · rw [h2, left_end]
            · exact (hturn e he v hv h1 h2).le
        obtain ⟨v, hv, hv1, hv2⟩ := third (S.three F hF) (S.nodup F hF) e.1 e.2
        have := (hi (-(n.cross (e.2 - e.1))) ((-(n.cross (e.2 - e.1))).dot e.1) (fun w hw => by
          have := hnn w hw; rw [hl] at this; linarith)).2 ⟨v, hv, by
            have := hturn e he v hv hv1 hv2; rw [hl] at this; linarith⟩
        rw [hl]; linarith
    · exact ⟨0, 0, 0, fun h => absurd h hF⟩
  choose n h m hk using key
  obtain ⟨F0, hF0⟩ := List.exists_mem_of_ne_nil _ S.some
  obtain ⟨v0, hv0, _⟩ := (hk F0 hF0).2.2.1
  have hvs : vs ≠ [] := List.ne_nil_of_mem hv0
  obtain ⟨c, hc, hi⟩ := inner_point vs hvs
  refine ⟨n, h, m, c, ⟨fun F hF => (hk F hF).1, fun F hF => (hk F hF).2.1, fun F hF => (hk F hF).2.2.2.1, ?_, fun F hF => (hk F hF).2.2.2.2.1,
    fun F hF => (hk F hF).2.2.2.2.2.1, fun F hF => (hk F hF).2.2.2.2.2.2, hc⟩⟩
  intro F hF
  obtain ⟨p1, p2, ⟨v, hv, hvF⟩, -⟩ := hk F hF
  exact (hi (n F) (h F) (fun w hw => by
    by_cases hw' : w ∈ F
    · exact (p1 w hw').le
    · exact (p2 w hw hw').le)).2 ⟨v, hv, p2 v hv hvF⟩

variable {vs : List (V3 K)} {fs : List (List (V3 K))} {n : List (V3 K) → V3 K} {h : List (V3 K) → K} {m : List (V3 K) → V3 K} {c : V3 K}

namespace Frame

theorem le (R : Frame vs fs n h m c) {F : List (V3 K)} (hF : F ∈ fs) {v : V3 K} (hv : v ∈ vs) : (n F).dot v ≤ h F := by
  by_cases hw' : v ∈ F
  · exact (R.on F hF v hw').le
  · exact (R.behind F hF v hv hw').le

theorem hull_le' (R : Frame vs fs n h m c) {F : List (V3 K)} (hF : F ∈ fs) {x : V3 K} (hx : Hull vs x) : (n F).dot x ≤ h F :=
  hull_le (fun _ hv => R.le hF hv) hx

theorem left_nonneg (R : Frame vs fs n h m c) {F : List (V3 K)} (hF : F ∈ fs) {e : V3 K × V3 K} (he : e ∈ edges F) {v : V3 K} (hv : v ∈ F) :
    0 ≤ left (n F) e v := by
  by_cases h1 : v = e.1
  · rw [h1, left_start]
  · by_cases h2 : v = e.2
    · rw [h2, left_end]
    · exact (R.turn F hF e he v hv h1 h2).le

theorem flat (R : Frame vs fs n h m c) {F : List (V3 K)} (hF : F ∈ fs) {e : V3 K × V3 K} (he : e ∈ edges F) : (n F).dot (e.2 - e.1) = 0 := by
  obtain ⟨h1, h2⟩ := mem_edges (a := e.1) (b := e.2) he
  rw [dot_sub, R.on F hF _ h1, R.on F hF _ h2, sub_self]

theorem cross_ne (R : Frame vs fs n h m c) {F : List (V3 K)} (hF : F ∈ fs) {e : V3 K × V3 K} (he : e ∈ edges F) :
    (n F).cross (e.2 - e.1) ≠ 0 := by
  intro h0
  have := R.midLeft F hF e he
  rw [left_eq, h0] at this
  simp [V3.dot] at this

theorem normal_ne (R : Frame vs fs n h m c) {F : List (V3 K)} (hF : F ∈ fs) {e : V3 K × V3 K} (he : e ∈ edges F) : n F ≠ 0 := by
  intro h0
  have := R.midLeft F hF e he
  rw [left, h0] at this
  simp [V3.dot] at this

/-- The face behind an edge turns away from the face. -/
theorem bends (R : Frame vs fs n h m c) (S : Surface vs fs) {F G : List (V3 K)} (hF : F ∈ fs) (hG : G ∈ fs) {e : V3 K × V3 K}
    (he : e ∈ edges F) (hs : (e.2, e.1) ∈ edges G) : (n G).dot ((n F).cross (e.2 - e.1)) < 0 := by
  obtain ⟨a, b⟩ := e
  simp only at hs ⊢
  obtain ⟨ha, hb⟩ := mem_edges he
  obtain ⟨hbG, haG⟩ := mem_edges hs
  set q := (n F).cross (b - a) with hq
  have hqne : q ≠ 0 := R.cross_ne hF he
  have hqpos := lengthSq_pos hqne
  have hGd : (n G).dot (b - a) = 0 := by rw [dot_sub, R.on G hG _ hbG, R.on G hG _ haG, sub_self]
  have hFd : (n F).dot (b - a) = 0 := R.flat hF he
  obtain ⟨v, hv, hv1, hv2⟩ := third (S.three F hF) (S.nodup F hF) a b
  have hlv : 0 < (v - a).dot q := by have := R.turn F hF _ he v hv hv1 hv2; rwa [left_eq] at this
  have hFv : (n F).dot (v - a) = 0 := by rw [dot_sub, R.on F hF v hv, R.on F hF a ha, sub_self]
  have e1 := in_plane (n F) (b - a) (v - a) hFd hFv
  have e2 : q.lengthSq * (n G).dot (v - a) = (v - a).dot q * (n G).dot q := by
    have := congrArg (n G).dot e1
    have l1 : (n G).dot (V3.smul q.lengthSq (v - a)) = q.lengthSq * (n G).dot (v - a) := by simp [V3.dot]; ring
    have l2 : (n G).dot (V3.smul ((v - a).dot q) q + V3.smul ((v - a).dot (b - a) * (n F).lengthSq) (b - a)) =
        (v - a).dot q * (n G).dot q + (v - a).dot (b - a) * (n F).lengthSq * (n G).dot (b - a) := by simp [V3.dot]; ring
    rw [← hq] at this
    rw [l1, l2, hGd] at this
    linarith
  have hGv : (n G).dot (v - a) ≤ 0 := by
    rw [dot_sub, R.on G hG a haG]
    linarith [R.le hG (S.vertex F hF v hv)]
  rcases lt_trichotomy ((n G).dot q) 0 with hlt | heq | hgt
  · exact hlt
  · exfalso
    -- the two planes are the same
    have hnF := R.normal_ne hF he
    have hnFpos := lengthSq_pos hnF
    -- the normal of the face behind is a multiple of the normal of the face
    have hdd : 0 < (b - a).lengthSq := lengthSq_pos (by
      intro h0
      apply hqne
      rw [hq, h0]
      ext <;> simp [V3.cross])
    have id : V3.smul q.lengthSq (n G) = V3.smul ((n G).dot q) q + V3.smul ((n G).dot ((b - a).cross q)) (n F) +
        V3.smul ((n G).dot (q.cross (n F))) (b - a) := by
      rw [hq]; ext <;> simp [V3.dot, V3.cross, V3.lengthSq] <;> ring
    have i1 : (n G).dot ((b - a).cross q) = (n G).dot (n F) * (b - a).lengthSq := by
      have : (n G).dot ((b - a).cross q) = (n G).dot (n F) * (b - a).lengthSq - (n G).dot (b - a) * (n F).dot (b - a) := by
        rw [hq]; simp [V3.dot, V3.cross, V3.lengthSq]; ring
      rw [this, hGd]; ring
    have i2 : (n G).dot (q.cross (n F)) = 0 := by
      have : (n G).dot (q.cross (n F)) = (n G).dot (b - a) * (n F).lengthSq - (n G).dot (n F) * (n F).dot (b - a) := by
        rw [hq]; simp [V3.dot, V3.cross, V3.lengthSq]; ring
      rw [this, hGd, hFd]; ring
    rw [heq, i1, i2] at id
    set k := (n G).dot (n F) * (b - a).lengthSq / q.lengthSq with hk
    have hG : n G = V3.smul k (n F) := by
      have hx := congrArg V3.x id
      have hy := congrArg V3.y id
      have hz := congrArg V3.z id
      simp only [V3.add_x, V3.add_y, V3.add_z, V3.smul_x, V3.smul_y, V3.smul_z, zero_mul, zero_add, add_zero] at hx hy hz
      have hne := hqpos.ne'
      ext
      · simp only [V3.smul_x, hk]; field_simp; linarith
      · simp only [V3.smul_y, hk]; field_simp; linarith
      · simp only [V3.smul_z, hk]; field_simp; linarith
    rename_i hGm
    have hd : ∀ x, (n G).dot x = k * (n F).dot x := by intro x; rw [hG]; simp [V3.dot]; ring
    have hh : h G = k * h F := by rw [← R.on G hGm a haG, hd, R.on F hF a ha]
    have hkne : k ≠ 0 := by
      intro h0
      apply R.normal_ne hGm hs
      rw [hG, h0]; ext <;> simp
    have hin := R.inner F hF
    have hin2 := R.inner G hGm
    rw [hd, hh] at hin2
    have hkpos : 0 < k := by
      by_contra hneg
      have : k < 0 := lt_of_le_of_ne (not_lt.1 hneg) hkne
      nlinarith
    -- the third corner of the face is a corner of the other one
    have hvG : v ∈ G := by
      by_contra hvG
      have := R.behind G hGm v (S.vertex F hF v hv) hvG
      rw [hd, hh, R.on F hF v hv] at this
      exact lt_irrefl _ this
    have t1 := R.turn F hF _ he v hv hv1 hv2
    have t2 := R.turn G hGm _ hs v hvG hv2 hv1
    have : left (n G) (b, a) v = -(k * left (n F) (a, b) v) := by
      rw [hG]; simp [left, V3.dot, V3.cross]; ring
    rw [this] at t2
    nlinarith [mul_pos hkpos t1]
  · exfalso
    have h1 : 0 < (v - a).dot q * (n G).dot q := mul_pos hlv hgt
    rw [← e2] at h1
    nlinarith

/-- A point in the plane of a face, behind all faces, is to the left of the edges of the face. -/
theorem twin_left (R : Frame vs fs n h m c) (S : Surface vs fs) {F : List (V3 K)} (hF : F ∈ fs) {e : V3 K × V3 K} (he : e ∈ edges F) {y : V3 K}
    (hy : (n F).dot y = h F) (hb : ∀ G ∈ fs, (n G).dot y ≤ h G) : 0 ≤ left (n F) e y := by
  obtain ⟨G, hG, hs⟩ := S.twin F hF e.1 e.2 he
  have hbend := R.bends S hF hG he hs
  obtain ⟨ha, hb'⟩ := mem_edges (a := e.1) (b := e.2) he
  obtain ⟨hbG, haG⟩ := mem_edges hs
  set q := (n F).cross (e.2 - e.1) with hq
  have hqpos := lengthSq_pos (R.cross_ne hF he)
  have hGd : (n G).dot (e.2 - e.1) = 0 := by rw [dot_sub, R.on G hG _ hbG, R.on G hG _ haG, sub_self]
  have hFy : (n F).dot (y - e.1) = 0 := by rw [dot_sub, hy, R.on F hF _ ha, sub_self]
  have e1 := in_plane (n F) (e.2 - e.1) (y - e.1) (R.flat hF he) hFy
  have e2 : q.lengthSq * (n G).dot (y - e.1) = (y - e.1).dot q * (n G).dot q := by
    have := congrArg (n G).dot e1
    have l1 : (n G).dot (V3.smul q.lengthSq (y - e.1)) = q.lengthSq * (n G).dot (y - e.1) := by simp [V3.dot]; ring
    have l2 : (n G).dot (V3.smul ((y - e.1).dot q) q + V3.smul ((y - e.1).dot (e.2 - e.1) * (n F).lengthSq) (e.2 - e.1)) =
        (y - e.1).dot q * (n G).dot q + (y - e.1).dot (e.2 - e.1) * (n F).lengthSq * (n G).dot (e.2 - e.1) := by simp [V3.dot]; ring
    rw [← hq] at this
    rw [l1, l2, hGd] at this
    linarith
  have hGy : (n G).dot (y - e.1) ≤ 0 := by
    rw [dot_sub, R.on G hG _ haG]
    linarith [hb G hG]
  rw [left_eq]
  by_contra hneg
  push Not at hneg
  have h1 : 0 < (y - e.1).dot q * (n G).dot q := mul_pos_of_neg_of_neg hneg hbend
  rw [← e2] at h1
  have h2 : 0 < q.lengthSq := hqpos
  nlinarith

/-- A direction in the plane of a face that does not lead out over any edge is zero. -/
theorem face_bounded (R : Frame vs fs n h m c) (S : Surface vs fs) {F : List (V3 K)} (hF : F ∈ fs) {d : V3 K} (hd : (n F).dot d = 0)
    (hl : ∀ e ∈ edges F, 0 ≤ d.dot ((n F).cross (e.2 - e.1))) : d = 0 := by
  have hs := sum_ends F (fun v => -(d.dot ((n F).cross v)))
  have hz := sum_zero (fun e : V3 K × V3 K => -(d.dot ((n F).cross e.2)) - -(d.dot ((n F).cross e.1))) (edges F) (by
    intro e he
    have := hl e he
    have e1 : d.dot ((n F).cross (e.2 - e.1)) = d.dot ((n F).cross e.2) - d.dot ((n F).cross e.1) := by simp [V3.dot, V3.cross]; ring
    rw [e1] at this
    linarith) hs
  have hz' : ∀ e ∈ edges F, d.dot ((n F).cross (e.2 - e.1)) = 0 := by
    intro e he
    have := hz e he
    have e1 : d.dot ((n F).cross (e.2 - e.1)) = d.dot ((n F).cross e.2) - d.dot ((n F).cross e.1) := by simp [V3.dot, V3.cross]; ring
    rw [e1]
    linarith
  have hne : F ≠ [] := by rintro rfl; have := S.three _ hF; simp at this
  obtain ⟨a, ha⟩ := List.exists_mem_of_ne_nil _ hne
  obtain ⟨b, hab⟩ := next_edge ha
  obtain ⟨x, hbx⟩ := next_edge (mem_edges hab).2
  obtain ⟨v, hv, hv1, hv2⟩ := third (S.three F hF) (S.nodup F hF) a b
  have q1 := hz' _ hab
  have q2 := hz' _ hbx
  simp only at q1 q2
  -- `d` is a multiple of the first edge
  have e1 := in_plane (n F) (b - a) d (R.flat hF hab) hd
  rw [q1] at e1
  have hqpos := lengthSq_pos (R.cross_ne hF hab)
  simp only at hqpos
  -- the start of the first edge is strictly to the left of the second edge
  have hta : 0 < left (n F) (b, x) a := by
    have hab' : a ≠ b := by
      intro h0
      have := R.turn F hF _ hab v hv hv1 hv2
      rw [left, h0] at this
      simp [V3.dot, V3.cross] at this
    apply R.turn F hF _ hbx a ha hab'
    intro hax
    have t1 := R.turn F hF _ hab v hv hv1 hv2
    have hbx' : (b, a) ∈ edges F := by
      have hax' : a = x := hax
      rw [hax']; exact hbx
    have t2 := R.turn F hF _ hbx' v hv hv2 hv1
    have : left (n F) (b, a) v = -(left (n F) (a, b) v) := by simp [left, V3.dot, V3.cross]; ring
    rw [this] at t2
    linarith
  set k := d.dot (b - a) * (n F).lengthSq with hk
  have e2 : ((n F).cross (b - a)).lengthSq * d.dot ((n F).cross (x - b)) = -(k * left (n F) (b, x) a) := by
    have := congrArg (fun p => p.dot ((n F).cross (x - b))) e1
    have l1 : (V3.smul ((n F).cross (b - a)).lengthSq d).dot ((n F).cross (x - b)) =
        ((n F).cross (b - a)).lengthSq * d.dot ((n F).cross (x - b)) := by simp [V3.dot]; ring
    have l2 : (V3.smul 0 ((n F).cross (b - a)) + V3.smul k (b - a)).dot ((n F).cross (x - b)) = -(k * left (n F) (b, x) a) := by
      simp [left, V3.dot, V3.cross]; ring
    rw [l1, l2] at this
    exact this
  rw [q2, mul_zero] at e2
  have hk0 : k = 0 := by
    have : k * left (n F) (b, x) a = 0 := by linarith
    rcases mul_eq_zero.1 this with h0 | h0
    · exact h0
    · exact absurd h0 hta.ne'
  rw [hk0] at e1
  refine smul_cancel hqpos.ne' (e1.trans ?_)
  ext <;> simp

/-- The product of two vectors at right angles to `n` is along `n`. -/
theorem cross_along (n p q w : V3 K) (h1 : n.dot p = 0) (h2 : n.dot q = 0) :
    n.lengthSq * w.dot (p.cross q) = n.dot (p.cross q) * n.dot w := by
  have : n.lengthSq * w.dot (p.cross q) = n.dot (p.cross q) * n.dot w + n.dot p * (w.dot (n.cross q)) * (-1) * (-1) - n.dot q * w.dot (n.cross p) := by
    simp [V3.dot, V3.cross, V3.lengthSq]; ring
  rw [this, h1, h2]; ring

/-- The products of a face are positive multiples of its normal. -/
theorem edge_term (R : Frame vs fs n h m c) {F : List (V3 K)} (hF : F ∈ fs) {e : V3 K × V3 K} (he : e ∈ edges F) (w : V3 K) :
    (n F).lengthSq * w.dot ((e.1 - m F).cross (e.2 - m F)) = left (n F) e (m F) * (n F).dot w := by
  obtain ⟨ha, hb⟩ := mem_edges (a := e.1) (b := e.2) he
  have h1 : (n F).dot (e.1 - m F) = 0 := by rw [dot_sub, R.on F hF _ ha, R.mid F hF, sub_self]
  have h2 : (n F).dot (e.2 - m F) = 0 := by rw [dot_sub, R.on F hF _ hb, R.mid F hF, sub_self]
  rw [cross_along _ _ _ w h1 h2]
  congr 1
  simp [left, V3.dot, V3.cross]; ring

theorem faceSum_normal (R : Frame vs fs n h m c) (S : Surface vs fs) {F : List (V3 K)} (hF : F ∈ fs) :
    ∃ k, 0 < k ∧ ∀ w, faceSum F w = k * (n F).dot w := by
  have hne : F ≠ [] := by rintro rfl; have := S.three _ hF; simp at this
  obtain ⟨a, ha⟩ := List.exists_mem_of_ne_nil _ hne
  obtain ⟨b, hab⟩ := next_edge ha
  have hpos := lengthSq_pos (R.normal_ne hF hab)
  refine ⟨((edges F).map fun e => left (n F) e (m F)).sum / (n F).lengthSq, div_pos ?_ hpos, fun w => ?_⟩
  · have hs : ((edges F).map fun e => -(left (n F) e (m F))).sum ≤ 0 := sum_nonpos _ _ fun e he => by linarith [R.midLeft F hF e he]
    have hm1 : ((edges F).map fun e => -(left (n F) e (m F))).sum = -((edges F).map fun e => left (n F) e (m F)).sum := by
      have := sum_mul (-1) (fun e => left (n F) e (m F)) (edges F)
      simpa using this
    rcases (by linarith : 0 ≤ ((edges F).map fun e => left (n F) e (m F)).sum).lt_or_eq with h1 | h1
    · exact h1
    · exfalso
      have := sum_zero (fun e => -(left (n F) e (m F))) (edges F) (fun e he => by linarith [R.midLeft F hF e he]) (by rw [hm1, ← h1, neg_zero]) _ hab
      have h2 := R.midLeft F hF _ hab
      linarith
  · rw [faceSum_about F w (m F)]
    have : ((edges F).map fun e => w.dot ((e.1 - m F).cross (e.2 - m F))).sum =
        ((edges F).map fun e => (n F).dot w / (n F).lengthSq * left (n F) e (m F)).sum := by
      congr 1
      apply List.map_congr_left
      intro e he
      have := R.edge_term hF he w
      field_simp
      linarith
    rw [this, sum_mul]
    ring

/-- A direction that does not lead out through any face is zero. -/
theorem bounded (R : Frame vs fs n h m c) (S : Surface vs fs) {d : V3 K} (hd : ∀ F ∈ fs, (n F).dot d ≤ 0) : d = 0 := by
  have hs := closed_sum S.once S.twin d
  have hz := sum_zero (fun F => faceSum F d) fs (by
    intro F hF
    obtain ⟨k, hk, hw⟩ := R.faceSum_normal S hF
    rw [hw]
    exact mul_nonpos_of_nonneg_of_nonpos hk.le (hd F hF)) hs
  have hz' : ∀ F ∈ fs, (n F).dot d = 0 := by
    intro F hF
    obtain ⟨k, hk, hw⟩ := R.faceSum_normal S hF
    have := hz F hF
    simp only [hw] at this
    rcases mul_eq_zero.1 this with h0 | h0
    · exact absurd h0 hk.ne'
    · exact h0
  obtain ⟨F, hF⟩ := List.exists_mem_of_ne_nil _ S.some
  refine R.face_bounded S hF (hz' F hF) fun e he => ?_
  obtain ⟨G, hG, hs'⟩ := S.twin F hF e.1 e.2 he
  have hbend := R.bends S hF hG he hs'
  obtain ⟨hbG, haG⟩ := mem_edges hs'
  have hGd : (n G).dot (e.2 - e.1) = 0 := by rw [dot_sub, R.on G hG _ hbG, R.on G hG _ haG, sub_self]
  have e1 := in_plane (n F) (e.2 - e.1) d (R.flat hF he) (hz' F hF)
  have := congrArg (n G).dot e1
  have l1 : (n G).dot (V3.smul ((n F).cross (e.2 - e.1)).lengthSq d) = ((n F).cross (e.2 - e.1)).lengthSq * (n G).dot d := by
    simp [V3.dot]; ring
  have l2 : (n G).dot (V3.smul (d.dot ((n F).cross (e.2 - e.1))) ((n F).cross (e.2 - e.1)) + V3.smul (d.dot (e.2 - e.1) * (n F).lengthSq) (e.2 - e.1)) =
      d.dot ((n F).cross (e.2 - e.1)) * (n G).dot ((n F).cross (e.2 - e.1)) + d.dot (e.2 - e.1) * (n F).lengthSq * (n G).dot (e.2 - e.1) := by
    simp [V3.dot]; ring
  rw [l1, l2, hGd, hz' G hG, mul_zero, mul_zero, add_zero] at this
  rcases mul_eq_zero.1 this.symm with h0 | h0
  · exact h0.ge
  · exact absurd h0 hbend.ne

end Frame
end Facets
end RP3D
