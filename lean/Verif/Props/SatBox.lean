import Verif.Props.Sat
import Mathlib.Tactic.IntervalCases

/-! C102: boxes meet the hypotheses of the theorems about the separating axis test. -/

namespace RP3D
namespace SatProps
open Shape RayProps PointProps RoundProps Geom Sat SatGeom

set_option linter.unusedSectionVars false
variable {K : Type} [Field K] [LinearOrder K] [IsStrictOrderedRing K]

theorem box_verts (h : V3 K) : verts (box h) = [⟨-h.x, -h.y, h.z⟩, ⟨h.x, -h.y, h.z⟩, ⟨h.x, h.y, h.z⟩, ⟨-h.x, h.y, h.z⟩, ⟨-h.x, -h.y, -h.z⟩,
    ⟨h.x, -h.y, -h.z⟩, ⟨h.x, h.y, -h.z⟩, ⟨-h.x, h.y, -h.z⟩] := rfl

theorem between {k a : K} (hk : 0 < k) (h1 : -k ≤ a) (h2 : a ≤ k) : ∃ w, 0 ≤ w ∧ w ≤ 1 ∧ a = (1 - w) * -k + w * k := by
  refine ⟨(a + k) / (2 * k), div_nonneg (by linarith) (by linarith), (div_le_one (by linarith)).2 (by linarith), ?_⟩
  field_simp
  ring

/-- The solid that the vertices of a box span is the box. -/
theorem box_hull {h : V3 K} (hx : 0 < h.x) (hy : 0 < h.y) (hz : 0 < h.z) (x : V3 K) : Hulled (box h) x ↔ Box h x := by
  constructor
  · intro hh
    have key : ∀ d : V3 K, ∀ m, (∀ v ∈ verts (box h), d.dot v ≤ m) → d.dot x ≤ m := fun d m hd => hull_le hd hh
    have e := box_verts h
    have all : ∀ d : V3 K, ∀ m, d.dot ⟨-h.x, -h.y, h.z⟩ ≤ m → d.dot ⟨h.x, -h.y, h.z⟩ ≤ m → d.dot ⟨h.x, h.y, h.z⟩ ≤ m → d.dot ⟨-h.x, h.y, h.z⟩ ≤ m →
        d.dot ⟨-h.x, -h.y, -h.z⟩ ≤ m → d.dot ⟨h.x, -h.y, -h.z⟩ ≤ m → d.dot ⟨h.x, h.y, -h.z⟩ ≤ m → d.dot ⟨-h.x, h.y, -h.z⟩ ≤ m → d.dot x ≤ m := by
      intro d m a1 a2 a3 a4 a5 a6 a7 a8
      apply key
      rw [e]
      simp only [List.mem_cons, List.not_mem_nil, or_false]
      rintro v (rfl | rfl | rfl | rfl | rfl | rfl | rfl | rfl) <;> assumption
    have x1 := all ⟨1, 0, 0⟩ h.x
    have x2 := all ⟨-1, 0, 0⟩ h.x
    have y1 := all ⟨0, 1, 0⟩ h.y
    have y2 := all ⟨0, -1, 0⟩ h.y
    have z1 := all ⟨0, 0, 1⟩ h.z
    have z2 := all ⟨0, 0, -1⟩ h.z
    simp only [V3.dot] at x1 x2 y1 y2 z1 z2
    have x1 := x1 (by linarith) (by linarith) (by linarith) (by linarith) (by linarith) (by linarith) (by linarith) (by linarith)
    have x2 := x2 (by linarith) (by linarith) (by linarith) (by linarith) (by linarith) (by linarith) (by linarith) (by linarith)
    have y1 := y1 (by linarith) (by linarith) (by linarith) (by linarith) (by linarith) (by linarith) (by linarith) (by linarith)
    have y2 := y2 (by linarith) (by linarith) (by linarith) (by linarith) (by linarith) (by linarith) (by linarith) (by linarith)
    have z1 := z1 (by linarith) (by linarith) (by linarith) (by linarith) (by linarith) (by linarith) (by linarith) (by linarith)
    have z2 := z2 (by linarith) (by linarith) (by linarith) (by linarith) (by linarith) (by linarith) (by linarith) (by linarith)
    exact ⟨⟨by linarith, by linarith⟩, ⟨by linarith, by linarith⟩, ⟨by linarith, by linarith⟩⟩
  · rintro ⟨⟨a1, a2⟩, ⟨a3, a4⟩, ⟨a5, a6⟩⟩
    obtain ⟨p, p0, p1, ep⟩ := between hx a1 a2
    obtain ⟨q, q0, q1, eq⟩ := between hy a3 a4
    obtain ⟨r, r0, r1, er⟩ := between hz a5 a6
    have e := box_verts h
    have V : ∀ v ∈ verts (box h), Hulled (box h) v := fun v hv => .vertex hv
    rw [e] at V
    have X : ∀ y z, (⟨-h.x, y, z⟩ : V3 K) ∈ verts (box h) → (⟨h.x, y, z⟩ : V3 K) ∈ verts (box h) → Hulled (box h) ⟨x.x, y, z⟩ := by
      intro y z m1 m2
      have := Hull.mix (.vertex m1) (.vertex m2) p0 p1
      unfold Hulled
      convert this using 1
      ext <;> simp [V3.smul, ep] <;> ring
    have Y : ∀ z, (∀ y, y = h.y ∨ y = -h.y → Hulled (box h) ⟨x.x, y, z⟩) → Hulled (box h) ⟨x.x, x.y, z⟩ := by
      intro z m
      have := Hull.mix (m _ (.inr rfl)) (m _ (.inl rfl)) q0 q1
      unfold Hulled
      convert this using 1
      ext <;> simp [V3.smul, eq] <;> ring
    have Z : ∀ z, z = h.z ∨ z = -h.z → Hulled (box h) ⟨x.x, x.y, z⟩ := by
      intro z hz'
      apply Y
      intro y hy'
      apply X <;> rw [e] <;> rcases hz' with rfl | rfl <;> rcases hy' with rfl | rfl <;> simp
    have := Hull.mix (Z _ (.inr rfl)) (Z _ (.inl rfl)) r0 r1
    unfold Hulled
    convert this using 1
    ext <;> simp [V3.smul, er] <;> ring

/-- Where a vertex of a box is farthest. -/
theorem box_top {h m : V3 K} (hx : 0 < h.x) (hy : 0 < h.y) (hz : 0 < h.z) {v : Nat} (hv : v < 8)
    (ht : ∀ u < 8, m.dot (boxVert h u) ≤ m.dot (boxVert h v)) :
    (0 < m.x → (boxVert h v).x = h.x) ∧ (m.x < 0 → (boxVert h v).x = -h.x) ∧ (0 < m.y → (boxVert h v).y = h.y) ∧ (m.y < 0 → (boxVert h v).y = -h.y) ∧
    (0 < m.z → (boxVert h v).z = h.z) ∧ (m.z < 0 → (boxVert h v).z = -h.z) := by
  have t0 := ht 0 (by norm_num)
  have t1 := ht 1 (by norm_num)
  have t2 := ht 2 (by norm_num)
  have t3 := ht 3 (by norm_num)
  have t4 := ht 4 (by norm_num)
  have t5 := ht 5 (by norm_num)
  have t6 := ht 6 (by norm_num)
  have t7 := ht 7 (by norm_num)
  clear ht
  simp only [V3.dot, boxVert, mul_neg] at t0 t1 t2 t3 t4 t5 t6 t7
  have px : 0 < m.x → 0 < m.x * h.x := fun hh => mul_pos hh hx
  have nx : m.x < 0 → m.x * h.x < 0 := fun hh => mul_neg_of_neg_of_pos hh hx
  have py : 0 < m.y → 0 < m.y * h.y := fun hh => mul_pos hh hy
  have ny : m.y < 0 → m.y * h.y < 0 := fun hh => mul_neg_of_neg_of_pos hh hy
  have pz : 0 < m.z → 0 < m.z * h.z := fun hh => mul_pos hh hz
  have nz : m.z < 0 → m.z * h.z < 0 := fun hh => mul_neg_of_neg_of_pos hh hz
  interval_cases v <;> simp only [boxVert, mul_neg] at t0 t1 t2 t3 t4 t5 t6 t7 <;>
    (refine ⟨fun hh => ?_, fun hh => ?_, fun hh => ?_, fun hh => ?_, fun hh => ?_, fun hh => ?_⟩) <;>
    first
    | rfl
    | (exfalso; first | (have := px hh; linarith) | (have := nx hh; linarith) | (have := py hh; linarith) | (have := ny hh; linarith) |
        (have := pz hh; linarith) | (have := nz hh; linarith))

theorem forall_lt {n : Nat} {p : Nat → Prop} (h : ∀ i ∈ List.range n, p i) : ∀ i < n, p i := fun i hi => h i (List.mem_range.2 hi)

set_option maxHeartbeats 2000000 in
/-- **C102.** A box is such a polyhedron. -/
theorem box_solid {h : V3 K} (hx : 0 < h.x) (hy : 0 < h.y) (hz : 0 < h.z) : Solid (box h) where
  support := fun d => by
    obtain ⟨a, b⟩ := box_support hx.le hy.le hz.le d
    exact ⟨(box_hull hx hy hz _).2 a, fun x hx' => b x ((box_hull hx hy hz _).1 hx')⟩
  unit := by
    intro f hf
    have hf : f < 6 := hf
    interval_cases f <;> simp [Sat.box, boxNormal, V3.lengthSq]
  corner := by
    intro f hf
    have hf : f < 6 := hf
    interval_cases f <;> refine ⟨by simp [Sat.box, boxFaces], ?_⟩ <;> intro v hv <;> simp [Sat.box, boxFaces] at hv <;>
      rcases hv with rfl | rfl | rfl | rfl <;> simp [Sat.box, boxFaces, boxNormal, boxVert, Poly.first, V3.dot]
  behind := by
    intro f hf v hv
    have hf : f < 6 := hf
    have hv : v < 8 := hv
    interval_cases f <;> interval_cases v <;> simp [Sat.box, boxFaces, boxNormal, boxVert, Poly.first, V3.dot] <;> linarith
  ends := by
    intro e he
    have he : e < 24 := he
    interval_cases e <;> simp [Sat.box, boxEdges]
  twin := by
    intro e he
    have he : e < 24 := he
    interval_cases e <;> simp [Sat.box, boxEdges]
  start := by
    intro e he
    have he : e < 24 := he
    interval_cases e <;> simp [Sat.box, boxEdges, Poly.faceN, Poly.twinN, Poly.startOf, Poly.first, boxNormal, boxVert, boxFaces, V3.dot]
  flat := by
    intro e he
    have he : e < 24 := he
    interval_cases e <;> simp [Sat.box, boxEdges, Poly.faceN, Poly.twinN, Poly.startOf, Poly.endOf, boxNormal, boxVert, V3.dot]
  turn := by
    intro e he
    have he : e < 24 := he
    interval_cases e <;> simp [Sat.box, boxEdges, Poly.faceN, Poly.twinN, Poly.startOf, Poly.endOf, boxNormal, boxVert, V3.dot, V3.cross] <;> linarith
  inner := by
    intro m hm
    have e : ∀ v, m.dot (boxVert h v - 0) = m.dot (boxVert h v) := fun v => by simp [V3.dot]
    by_contra hc
    push Not at hc
    have c0 := hc 0 (by simp [Sat.box])
    have c1 := hc 1 (by simp [Sat.box])
    have c2 := hc 2 (by simp [Sat.box])
    have c3 := hc 3 (by simp [Sat.box])
    have c4 := hc 4 (by simp [Sat.box])
    have c5 := hc 5 (by simp [Sat.box])
    have c6 := hc 6 (by simp [Sat.box])
    have c7 := hc 7 (by simp [Sat.box])
    simp only [Sat.box, e] at c0 c1 c2 c3 c4 c5 c6 c7
    simp only [V3.dot, boxVert, mul_neg] at c0 c1 c2 c3 c4 c5 c6 c7
    have z1 : m.x * h.x = 0 := by linarith
    have z2 : m.y * h.y = 0 := by linarith
    have z3 : m.z * h.z = 0 := by linarith
    exact hm (V3.ext (by simpa [hx.ne'] using z1) (by simpa [hy.ne'] using z2) (by simpa [hz.ne'] using z3))
  arc := by
    intro m hm v hv w hw hne tv tw
    obtain ⟨a1, a2, a3, a4, a5, a6⟩ := box_top hx hy hz hv tv
    obtain ⟨b1, b2, b3, b4, b5, b6⟩ := box_top hx hy hz hw tw
    have edge : ∀ e < 24, e % 2 = 0 → ∀ α β : K, 0 ≤ α → 0 ≤ β → m = V3.smul α ((box h).faceN e) + V3.smul β ((box h).twinN e) →
        ∃ e < (box h).ne, e % 2 = 0 ∧ ∃ α β : K, 0 ≤ α ∧ 0 ≤ β ∧ m = V3.smul α ((box h).faceN e) + V3.smul β ((box h).twinN e) :=
      fun e he h2 α β hα hβ hmm => ⟨e, he, h2, α, β, hα, hβ, hmm⟩
    have some0 : m.x = 0 ∨ m.y = 0 ∨ m.z = 0 := by
      by_contra hc
      push Not at hc
      obtain ⟨nx, ny, nz⟩ := hc
      apply hne
      refine V3.ext ?_ ?_ ?_
      · rcases lt_or_gt_of_ne nx with h | h
        · exact (a2 h).trans (b2 h).symm
        · exact (a1 h).trans (b1 h).symm
      · rcases lt_or_gt_of_ne ny with h | h
        · exact (a4 h).trans (b4 h).symm
        · exact (a3 h).trans (b3 h).symm
      · rcases lt_or_gt_of_ne nz with h | h
        · exact (a6 h).trans (b6 h).symm
        · exact (a5 h).trans (b5 h).symm
    clear a1 a2 a3 a4 a5 a6 b1 b2 b3 b4 b5 b6
    rcases some0 with z | z | z
    · rcases le_total 0 m.y with s | s <;> rcases le_total 0 m.z with r | r
      · refine edge 22 (by norm_num) rfl m.z m.y r s ?_
        ext <;> simp [Sat.box, boxEdges, Poly.faceN, Poly.twinN, boxNormal, V3.smul, z]
      · refine edge 18 (by norm_num) rfl (-m.z) m.y (by linarith) s ?_
        ext <;> simp [Sat.box, boxEdges, Poly.faceN, Poly.twinN, boxNormal, V3.smul, z]
      · refine edge 12 (by norm_num) rfl m.z (-m.y) r (by linarith) ?_
        ext <;> simp [Sat.box, boxEdges, Poly.faceN, Poly.twinN, boxNormal, V3.smul, z]
      · refine edge 8 (by norm_num) rfl (-m.z) (-m.y) (by linarith) (by linarith) ?_
        ext <;> simp [Sat.box, boxEdges, Poly.faceN, Poly.twinN, boxNormal, V3.smul, z]
    · rcases le_total 0 m.x with s | s <;> rcases le_total 0 m.z with r | r
      · refine edge 0 (by norm_num) rfl m.z m.x r s ?_
        ext <;> simp [Sat.box, boxEdges, Poly.faceN, Poly.twinN, boxNormal, V3.smul, z]
      · refine edge 2 (by norm_num) rfl m.x (-m.z) s (by linarith) ?_
        ext <;> simp [Sat.box, boxEdges, Poly.faceN, Poly.twinN, boxNormal, V3.smul, z]
      · refine edge 4 (by norm_num) rfl m.z (-m.x) r (by linarith) ?_
        ext <;> simp [Sat.box, boxEdges, Poly.faceN, Poly.twinN, boxNormal, V3.smul, z]
      · refine edge 6 (by norm_num) rfl (-m.z) (-m.x) (by linarith) (by linarith) ?_
        ext <;> simp [Sat.box, boxEdges, Poly.faceN, Poly.twinN, boxNormal, V3.smul, z]
    · rcases le_total 0 m.x with s | s <;> rcases le_total 0 m.y with r | r
      · refine edge 16 (by norm_num) rfl m.x m.y s r ?_
        ext <;> simp [Sat.box, boxEdges, Poly.faceN, Poly.twinN, boxNormal, V3.smul, z]
      · refine edge 10 (by norm_num) rfl m.x (-m.y) s (by linarith) ?_
        ext <;> simp [Sat.box, boxEdges, Poly.faceN, Poly.twinN, boxNormal, V3.smul, z]
      · refine edge 20 (by norm_num) rfl (-m.x) m.y (by linarith) r ?_
        ext <;> simp [Sat.box, boxEdges, Poly.faceN, Poly.twinN, boxNormal, V3.smul, z]
      · refine edge 14 (by norm_num) rfl (-m.x) (-m.y) (by linarith) (by linarith) ?_
        ext <;> simp [Sat.box, boxEdges, Poly.faceN, Poly.twinN, boxNormal, V3.smul, z]

end SatProps
end RP3D
