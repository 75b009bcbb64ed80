import Verif.Props.SatMissed

/-! C102, C103: cases that meet the hypotheses, and a pair that is apart but said to collide. -/

namespace RP3D
namespace SatProps
open Shape RayProps PointProps RoundProps Geom GeomProps Sat SatGeom

set_option linter.unusedSectionVars false

/-! ### The search can end with the axis of two edges -/

section Field
variable {K : Type} [Field K] [LinearOrder K] [IsStrictOrderedRing K] {P1 P2 : Poly K} {w1 w2 : Trans K} {N : Num K}

/-- The search ends with an axis of two edges if the overlap along it is smallest, by more than the tolerance. -/
theorem search_edges (hN : NumOk N) (h1 : Solid P1) (h2 : Solid P2) (u1 : w1.ori.lengthSq = 1) (u2 : w2.ori.lengthSq = 1) {δ : K} (h0 : 0 < δ)
    (hl : δ * N.rel + N.abs < N.large) (ho : Overlap δ (Placed w1 (Hulled P1)) (Placed w2 (Hulled P2)))
    (hf1 : ∀ f < P1.nf, δ * N.rel + N.abs < faceDepth P1 P2 (w2.inverse.mul w1) f)
    (hf2 : ∀ f < P2.nf, δ * N.rel + N.abs < faceDepth P2 P1 (w2.inverse.mul w1).inverse f) {i j : Nat}
    (hi : i < P1.ne ∧ i % 2 = 0) (hj : j < P2.ne ∧ j % 2 = 0) (hm : minkowski P1 P2 (w2.inverse.mul w1) i j = true)
    (he : (edgeDepth N P1 P2 (w2.inverse.mul w1) i j).1 = δ) :
    ∃ b i' j', search N P1 P2 (w2.inverse.mul w1) (w2.inverse.mul w1).inverse = .best b ∧ b.axis = .edges i' j' := by
  have ht := frame_unit u1 u2
  have hr := hN.rel
  have hab := hN.abs
  have hbig : 0 < δ * N.rel + N.abs := by nlinarith
  have hδ : δ ≤ δ * N.rel := by nlinarith
  have deep : ∀ a, Tested N P1 P2 (w2.inverse.mul w1) a → δ ≤ axisDepth N P1 P2 (w2.inverse.mul w1) a := by
    intro a ha
    obtain ⟨n, x, y, hn, hx, hy, e⟩ := tested_exact hN h1 h2 ht ha
    obtain ⟨x', y', hx', hy', hd⟩ := ho (w2.ori.rot n) (by rw [rot_len u2, hn])
    rw [← e]
    exact le_trans hd (bound_world u1 u2 hx hy hx' hy')
  have edges : ∀ p ∈ pairs P1.ne P2.ne, minkowski P1 P2 (w2.inverse.mul w1) p.1 p.2 = true → δ ≤ (edgeDepth N P1 P2 (w2.inverse.mul w1) p.1 p.2).1 := by
    intro p hp hm
    obtain ⟨p1, p2⟩ := mem_pairs.1 hp
    by_cases hpar : parallel N ((w2.inverse.mul w1).act (P1.endOf p.1) - (w2.inverse.mul w1).act (P1.startOf p.1)) (P2.endOf p.2 - P2.startOf p.2) = true
    · unfold edgeDepth edgeDistance
      rw [if_pos hpar]
      dsimp only
      linarith
    · exact deep (.edges p.1 p.2) ⟨p1, p2, hm, by simpa using hpar⟩
  have big : ∀ (d : Nat → K) (n : Nat), (∀ f < n, δ * N.rel + N.abs < d f) → δ * N.rel + N.abs < (scan d (List.range n) (N.large, 0)).1 := by
    intro d n hd
    obtain ⟨s1, s2⟩ := scan_spec d (List.range n) (N.large, 0) hN.large
    rcases le_or_gt (scan d (List.range n) (N.large, 0)).1 0 with c | c
    · obtain ⟨a, b⟩ := s1 c
      have := hd _ (List.mem_range.1 a)
      linarith
    · obtain ⟨-, -, c'⟩ := s2 c
      rcases c' with e | ⟨e1, e2⟩
      · rw [e]; exact hl
      · have := hd _ (List.mem_range.1 e1)
        linarith
  have b1 := big (faceDepth P1 P2 (w2.inverse.mul w1)) P1.nf hf1
  have b2 := big (faceDepth P2 P1 (w2.inverse.mul w1).inverse) P2.nf hf2
  unfold search facesDepth
  dsimp only
  generalize scan (faceDepth P1 P2 (w2.inverse.mul w1)) (List.range P1.nf) (N.large, 0) = r1 at *
  generalize scan (faceDepth P2 P1 (w2.inverse.mul w1).inverse) (List.range P2.nf) (N.large, 0) = r2 at *
  rw [if_neg (by linarith), if_neg (by linarith)]
  generalize hbb : (if r1.1 < r2.1 * N.rel + N.abs then (⟨min r1.1 r2.1, .face1 r1.2, 0⟩ : Best K) else ⟨min r1.1 r2.1, .face2 r2.2, 0⟩) = bb
  have hb : bb.axis.isFace = true ∧ bb.depth = min r1.1 r2.1 := by
    rw [← hbb]
    split_ifs
    · exact ⟨rfl, rfl⟩
    · exact ⟨rfl, rfl⟩
  obtain ⟨i1, i2⟩ := edgeScan_spec hN P1 P2 (w2.inverse.mul w1) (min r1.1 r2.1) (pairs P1.ne P2.ne) bb (fun _ => False)
    (fun _ => ⟨hb.2, fun _ hh => hh.elim⟩) (fun hF => by rw [hb.1] at hF; simp at hF) (fun _ hh => hh.elim)
  cases hs : edgeScan N P1 P2 (w2.inverse.mul w1) (pairs P1.ne P2.ne) bb with
  | separated a =>
    obtain ⟨p, hp, -, hm, hd⟩ := i1 a hs
    have := edges p hp hm
    linarith
  | best b =>
    obtain ⟨-, j2, j3⟩ := i2 b hs
    by_cases hF : b.axis.isFace = true
    · have := (j2 hF).2 (i, j) (.inr (mem_pairs.2 ⟨hi, hj⟩)) hm
      dsimp only at this
      rw [he] at this
      exact absurd this (not_le.2 (lt_min b1 b2))
    · obtain ⟨⟨i', j', e1, -⟩, -⟩ := j3 (by simpa using hF)
      exact ⟨b, i', j', rfl, e1⟩

end Field

/-! ### Two cubes that cross at an edge of each -/

/-- The one is turned about the x axis, with an edge upwards at the origin; the other is turned about the y axis, with an edge downwards, 0.05 m below it. -/
noncomputable def lower : Trans ℝ := ⟨⟨0, 17/25, -31/25⟩, ⟨3/5, 0, 0, 4/5⟩⟩
noncomputable def upper : Trans ℝ := ⟨⟨17/25, 0, 31/25 - 1/20⟩, ⟨0, 3/5, 0, 4/5⟩⟩

theorem lower_unit : lower.ori.lengthSq = 1 := by norm_num [lower, Quat.lengthSq]
theorem upper_unit : upper.ori.lengthSq = 1 := by norm_num [upper, Quat.lengthSq]
theorem lower_act (v : V3 ℝ) : lower.act v = ⟨v.x, 7/25 * v.y - 24/25 * v.z + 17/25, 24/25 * v.y + 7/25 * v.z - 31/25⟩ := by
  ext <;> simp [lower, Trans.act, Quat.rot] <;> ring
theorem upper_act (v : V3 ℝ) : upper.act v = ⟨7/25 * v.x + 24/25 * v.z + 17/25, v.y, -24/25 * v.x + 7/25 * v.z + 119/100⟩ := by
  ext <;> simp [upper, Trans.act, Quat.rot] <;> ring

/-- The one in the space of the other. -/
noncomputable def rel : Trans ℝ := ⟨⟨1339/625, 17/25, -3333/2500⟩, ⟨12/25, -12/25, 9/25, 16/25⟩⟩

theorem rel_eq : upper.inverse.mul lower = rel := by
  simp only [lower, upper, rel, Trans.inverse, Trans.mul]
  congr 1
  · ext <;> simp [Quat.rot, Quat.conj] <;> norm_num
  · simp [Quat.mul, Quat.conj]; norm_num

theorem rel_rot (v : V3 ℝ) : rel.ori.rot v = ⟨7/25 * v.x - 576/625 * v.y - 168/625 * v.z, 7/25 * v.y - 24/25 * v.z, 24/25 * v.x + 168/625 * v.y + 49/625 * v.z⟩ := by
  ext <;> simp [rel, Quat.rot] <;> ring
theorem rel_act (v : V3 ℝ) : rel.act v = ⟨7/25 * v.x - 576/625 * v.y - 168/625 * v.z + 1339/625, 7/25 * v.y - 24/25 * v.z + 17/25,
    24/25 * v.x + 168/625 * v.y + 49/625 * v.z - 3333/2500⟩ := by
  unfold Trans.act; rw [rel_rot]; ext <;> simp [rel] <;> ring
theorem back_rot (v : V3 ℝ) : rel.inverse.ori.rot v = ⟨7/25 * v.x + 24/25 * v.z, -576/625 * v.x + 7/25 * v.y + 168/625 * v.z, -168/625 * v.x - 24/25 * v.y + 49/625 * v.z⟩ := by
  ext <;> simp [rel, Trans.inverse, Quat.rot, Quat.conj] <;> ring
theorem back_act (v : V3 ℝ) : rel.inverse.act v = rel.inverse.ori.rot ⟨v.x - 1339/625, v.y - 17/25, v.z + 3333/2500⟩ := by
  unfold Trans.act
  rw [back_rot, back_rot]
  ext <;> simp [rel, Trans.inverse, Quat.rot, Quat.conj] <;> ring

theorem cross_overlap : Overlap (1/20) (Placed lower (Hulled cube)) (Placed upper (Hulled cube)) := by
  intro n hn
  have inA : ∀ x y z : ℝ, -1 ≤ x → x ≤ 1 → -1 ≤ y → y ≤ 1 → -1 ≤ z → z ≤ 1 →
      Placed lower (Hulled cube) ⟨x, 7/25 * y - 24/25 * z + 17/25, 24/25 * y + 7/25 * z - 31/25⟩ := by
    intro x y z a1 a2 a3 a4 a5 a6
    exact ⟨⟨x, y, z⟩, (box_hull one_pos one_pos one_pos _).2 ⟨⟨a1, a2⟩, ⟨a3, a4⟩, a5, a6⟩, by rw [lower_act]⟩
  have inB : ∀ y : ℝ, -1 ≤ y → y ≤ 1 → Placed upper (Hulled cube) ⟨0, y, -1/20⟩ := by
    intro y a3 a4
    exact ⟨⟨1, y, -1⟩, (box_hull one_pos one_pos one_pos _).2 ⟨⟨by norm_num, by norm_num⟩, ⟨a3, a4⟩, by norm_num, by norm_num⟩,
      by rw [upper_act]; ext <;> simp <;> norm_num⟩
  have sum : 1 ≤ |n.x| + |n.y| + |n.z| := by
    simp only [V3.lengthSq] at hn
    have := abs_nonneg n.x
    have := abs_nonneg n.y
    have := abs_nonneg n.z
    by_contra hh
    have e1 := abs_mul_abs_self n.x
    have e2 := abs_mul_abs_self n.y
    have e3 := abs_mul_abs_self n.z
    nlinarith
  have nx := abs_nonneg n.x
  have ny := abs_nonneg n.y
  have nz := abs_nonneg n.z
  obtain ⟨x, x1, x2, hx⟩ : ∃ x : ℝ, -1 ≤ x ∧ x ≤ 1 ∧ n.x * x = |n.x| := by
    rcases abs_cases n.x with ⟨e, h⟩ | ⟨e, h⟩
    · exact ⟨1, by norm_num, by norm_num, by rw [e]; ring⟩
    · exact ⟨-1, by norm_num, by norm_num, by rw [e]; ring⟩
  obtain ⟨y, y1, y2, hy⟩ : ∃ y : ℝ, -1 ≤ y ∧ y ≤ 1 ∧ n.y * y = -|n.y| := by
    rcases abs_cases n.y with ⟨e, h⟩ | ⟨e, h⟩
    · exact ⟨-1, by norm_num, by norm_num, by rw [e]; ring⟩
    · exact ⟨1, by norm_num, by norm_num, by rw [e]; ring⟩
  rcases abs_cases n.z with ⟨e, h⟩ | ⟨e, h⟩
  · refine ⟨_, _, inA x 1 1 x1 x2 (by norm_num) (by norm_num) (by norm_num) (by norm_num), inB y y1 y2, ?_⟩
    simp only [V3.dot, V3.sub_x, V3.sub_y, V3.sub_z]
    linarith
  · rcases abs_cases n.y with ⟨e', h'⟩ | ⟨e', h'⟩
    · refine ⟨_, _, inA x (-1) (-1) x1 x2 (by norm_num) (by norm_num) (by norm_num) (by norm_num), inB y y1 y2, ?_⟩
      simp only [V3.dot, V3.sub_x, V3.sub_y, V3.sub_z]
      linarith
    · refine ⟨_, _, inA x (-1) 1 x1 x2 (by norm_num) (by norm_num) (by norm_num) (by norm_num), inB y y1 y2, ?_⟩
      simp only [V3.dot, V3.sub_x, V3.sub_y, V3.sub_z]
      linarith

macro "cubes" : tactic => `(tactic| (simp only [rel_act, back_act, rel_rot, back_rot]; norm_num [cube, Sat.box, boxFaces, boxNormal, boxVert, boxEdges, Poly.first, Poly.startOf,
  Poly.endOf, Poly.twinStart, Poly.faceN, Poly.twinN, V3.dot, V3.cross, V3.lengthSq]))

theorem cross_faces1 : ∀ f < cube.nf, (1/20 : ℝ) * std.rel + std.abs < faceDepth cube cube rel f := by
  intro f hf
  have hf : f < 6 := hf
  have key : ∀ v < 8, (1/20 : ℝ) * std.rel + std.abs < (rel.ori.rot (cube.normal f)).dot (rel.act (cube.first f) - cube.vert v) →
      (1/20 : ℝ) * std.rel + std.abs < faceDepth cube cube rel f := fun v hv hh => lt_of_lt_of_le hh (faceDepth_ge cube_solid _ _ hv)
  have c : (1/20 : ℝ) * std.rel + std.abs = 506/10000 := by norm_num [std]
  rw [c] at key ⊢
  interval_cases f
  · exact key 6 (by norm_num) (by cubes)
  · exact key 4 (by norm_num) (by cubes)
  · exact key 0 (by norm_num) (by cubes)
  · exact key 1 (by norm_num) (by cubes)
  · exact key 3 (by norm_num) (by cubes)
  · exact key 5 (by norm_num) (by cubes)

theorem cross_faces2 : ∀ f < cube.nf, (1/20 : ℝ) * std.rel + std.abs < faceDepth cube cube rel.inverse f := by
  intro f hf
  have hf : f < 6 := hf
  have key : ∀ v < 8, (1/20 : ℝ) * std.rel + std.abs < (rel.inverse.ori.rot (cube.normal f)).dot (rel.inverse.act (cube.first f) - cube.vert v) →
      (1/20 : ℝ) * std.rel + std.abs < faceDepth cube cube rel.inverse f := fun v hv hh => lt_of_lt_of_le hh (faceDepth_ge cube_solid _ _ hv)
  have c : (1/20 : ℝ) * std.rel + std.abs = 506/10000 := by norm_num [std]
  rw [c] at key ⊢
  interval_cases f
  · exact key 4 (by norm_num) (by cubes)
  · exact key 3 (by norm_num) (by cubes)
  · exact key 2 (by norm_num) (by cubes)
  · exact key 5 (by norm_num) (by cubes)
  · exact key 6 (by norm_num) (by cubes)
  · exact key 0 (by norm_num) (by cubes)

/-- Half of an edge of a cube: one of the three axes. -/
theorem cube_dir {e : Nat} (he : e < 24) : ∃ d : V3 ℝ, (d = ⟨1, 0, 0⟩ ∨ d = ⟨0, 1, 0⟩ ∨ d = ⟨0, 0, 1⟩) ∧ ∃ s : ℝ, s * s = 4 ∧ cube.endOf e - cube.startOf e = V3.smul s d := by
  have two : ∀ d : V3 ℝ, cube.endOf e - cube.startOf e = V3.smul 2 d ∨ cube.endOf e - cube.startOf e = V3.smul (-2) d → ∃ s : ℝ, s * s = 4 ∧
      cube.endOf e - cube.startOf e = V3.smul s d := fun d h => h.elim (fun h => ⟨2, by norm_num, h⟩) (fun h => ⟨-2, by norm_num, h⟩)
  have ax : (cube.endOf e - cube.startOf e = V3.smul 2 ⟨1, 0, 0⟩ ∨ cube.endOf e - cube.startOf e = V3.smul (-2) ⟨1, 0, 0⟩) ∨
      (cube.endOf e - cube.startOf e = V3.smul 2 ⟨0, 1, 0⟩ ∨ cube.endOf e - cube.startOf e = V3.smul (-2) ⟨0, 1, 0⟩) ∨
      (cube.endOf e - cube.startOf e = V3.smul 2 ⟨0, 0, 1⟩ ∨ cube.endOf e - cube.startOf e = V3.smul (-2) ⟨0, 0, 1⟩) := by
    interval_cases e <;> norm_num [V3.ext_iff, cube, Sat.box, boxVert, boxEdges, Poly.startOf, Poly.endOf]
  rcases ax with h | h | h
  · exact ⟨_, .inl rfl, two _ h⟩
  · exact ⟨_, .inr (.inl rfl), two _ h⟩
  · exact ⟨_, .inr (.inr rfl), two _ h⟩

/-- No edge of the one is parallel to an edge of the other. -/
theorem cross_noparallel : NoParallel std cube cube rel := by
  intro i j hi _ hj _ _
  obtain ⟨d, hd, s, hs, es⟩ := cube_dir hi
  obtain ⟨d', hd', s', hs', es'⟩ := cube_dir hj
  unfold parallel
  rw [act_sub, es, es', rot_smul]
  apply decide_eq_false
  rw [not_lt]
  have e : ((V3.smul s (rel.ori.rot d)).cross (V3.smul s' d')).lengthSq = s * s * (s' * s') * ((rel.ori.rot d).cross d').lengthSq := by
    simp only [V3.cross, V3.lengthSq, V3.smul_x, V3.smul_y, V3.smul_z]; ring
  rw [e, hs, hs', rel_rot]
  rcases hd with rfl | rfl | rfl <;> rcases hd' with rfl | rfl | rfl <;> norm_num [V3.cross, V3.lengthSq, std]

theorem cross_minkowski : minkowski cube cube rel 22 2 = true := by
  unfold minkowski arcs
  rw [decide_eq_true_iff]
  cubes

theorem cross_depth : (edgeDepth std cube cube rel 22 2).1 = 1/20 := by
  have hp := cross_noparallel 22 2 (show 22 < 24 by norm_num) rfl (show 2 < 24 by norm_num) rfl cross_minkowski
  have hu := edge_axis std_ok cube_solid cube_solid (t := rel) (by norm_num [rel, Quat.lengthSq]) (show 22 < 24 by norm_num) rfl (show 2 < 24 by norm_num) rfl cross_minkowski hp
  obtain ⟨h1, -, -, h4, h5⟩ := hu
  obtain ⟨l, hl, el⟩ := h5 ⟨-96/25, 0, 28/25⟩ (by
    right
    ext <;> cubes) (by
    rw [show cube.centroid = 0 from rfl]
    cubes)
  rw [h4]
  generalize (edgeDepth std cube cube rel 22 2).2 = S at *
  have ex := congrArg V3.x el
  have ey := congrArg V3.y el
  have ez := congrArg V3.z el
  simp only [V3.smul_x, V3.smul_y, V3.smul_z] at ex ey ez
  have l4 : l = 4 := by
    have : l * l * S.lengthSq = 16 := by
      simp only [V3.lengthSq]
      have : l * l * (S.x * S.x + S.y * S.y + S.z * S.z) = (l * S.x) * (l * S.x) + (l * S.y) * (l * S.y) + (l * S.z) * (l * S.z) := by ring
      rw [this, ← ex, ← ey, ← ez]; norm_num
    rw [h1] at this
    nlinarith
  subst l4
  have hS : S = ⟨-24/25, 0, 7/25⟩ := by ext <;> dsimp only <;> linarith
  rw [hS]
  cubes

theorem cross_search : ∃ b i j, search std cube cube rel rel.inverse = .best b ∧ b.axis = .edges i j := by
  have := search_edges (w1 := lower) (w2 := upper) (N := std) (δ := 1/20) std_ok cube_solid cube_solid lower_unit upper_unit (by norm_num) (by norm_num [std]) cross_overlap
    (i := 22) (j := 2)
  rw [rel_eq] at this
  exact this cross_faces1 cross_faces2 ⟨show 22 < 24 by norm_num, rfl⟩ ⟨show 2 < 24 by norm_num, rfl⟩ cross_minkowski cross_depth

/-- The depths are not huge. -/
theorem cross_small : (∃ f < cube.nf, faceDepth cube cube rel f < std.large) ∧ ∃ f < cube.nf, faceDepth cube cube rel.inverse f < std.large := by
  constructor
  · refine ⟨0, show 0 < 6 by norm_num, lt_of_le_of_lt (faceDepth_le cube_solid _ _ (c := 100) ?_) (by norm_num [std])⟩
    intro v hv
    have hv : v < 8 := hv
    interval_cases v <;> cubes
  · refine ⟨0, show 0 < 6 by norm_num, lt_of_le_of_lt (faceDepth_le cube_solid _ _ (c := 100) ?_) (by norm_num [std])⟩
    intro v hv
    have hv : v < 8 := hv
    interval_cases v <;> cubes

theorem cube_long : ∀ e < cube.ne, std.eps < dist2 (cube.startOf e) (cube.endOf e) := by
  intro e he
  have he : e < 24 := he
  obtain ⟨d, hd, s, hs, es⟩ := cube_dir he
  have : dist2 (cube.startOf e) (cube.endOf e) = s * s * d.lengthSq := by
    have := congrArg V3.lengthSq es
    rw [lengthSq_eq] at this
    rw [this]; simp only [V3.lengthSq, V3.smul_x, V3.smul_y, V3.smul_z]; ring
  rw [this, hs]
  rcases hd with rfl | rfl | rfl <;> norm_num [V3.lengthSq, std]

/-- The hypotheses of `search_overlap`, of `edge_contact` and of `test_contacts` are met. -/
example : ∃ b δ, search std cube cube (upper.inverse.mul lower) (upper.inverse.mul lower).inverse = .best b ∧ b.axis.isFace = false ∧ b.depth = δ ∧
    Overlap δ (Placed lower (Hulled cube)) (Placed upper (Hulled cube)) := by
  obtain ⟨b, i, j, h, ha⟩ := cross_search
  rw [← rel_eq] at h
  obtain ⟨δ, -, h1, -, -, h2, -⟩ := search_overlap std_ok cube_solid cube_solid lower_unit upper_unit h (by rw [rel_eq]; exact cross_noparallel)
    (by rw [rel_eq]; exact cross_small.1) (by rw [rel_eq]; exact cross_small.2)
  exact ⟨b, δ, h, by rw [ha]; rfl, (h2 (by rw [ha]; rfl)).1, h1⟩

example : ∃ b i j c, search std cube cube rel rel.inverse = .best b ∧ edgeContact std cube cube rel rel.inverse upper i j b.depth b.dir true = [c] ∧ c.depth = b.depth := by
  obtain ⟨b, i, j, h, ha⟩ := cross_search
  have h' := h
  rw [← rel_eq] at h'
  have ht := tested_range (search_overlap std_ok cube_solid cube_solid lower_unit upper_unit h' (by rw [rel_eq]; exact cross_noparallel)
    (by rw [rel_eq]; exact cross_small.1) (by rw [rel_eq]; exact cross_small.2)).choose_spec.2.2.2.1
  rw [ha] at ht
  obtain ⟨c, hc, -⟩ := edge_contact std_ok cube_solid cube_solid (box_strict one_pos one_pos one_pos) (box_strict one_pos one_pos one_pos) lower_unit upper_unit h'
    (by rw [rel_eq]; exact cross_noparallel) (by rw [rel_eq]; exact cross_small.1) (by rw [rel_eq]; exact cross_small.2) ha (cube_long _ ht.1.1) (cube_long _ ht.2.1)
  rw [rel_eq] at hc
  refine ⟨b, i, j, c, h, hc, ?_⟩
  simp only [edgeContact, if_true, List.cons.injEq, and_true] at hc
  rw [← hc]

example : ∃ r, polyhedra std cube cube lower upper true true none = some r ∧ r.colliding = true ∧ r.contacts ≠ [] ∧ (∀ c ∈ r.contacts, Sound cube cube lower upper c) ∧
    ∃ δ, 0 < δ ∧ Overlap δ (Placed lower (Hulled cube)) (Placed upper (Hulled cube)) := by
  obtain ⟨r, hr, -, ht, -⟩ := test_verdict_partial (N := std) (last := none) std_ok cube_solid cube_solid (box_rings _) (box_rings _) (show 0 < 6 by norm_num) (show 0 < 6 by norm_num)
    lower_unit upper_unit true true (by simp)
  have hc : r.colliding = true := by
    obtain ⟨b, i, j, h, ha⟩ := cross_search
    unfold polyhedra full finish at hr
    simp only [rel_eq, h, ha, Option.some.injEq] at hr
    rw [← hr]
  exact ⟨r, hr, hc, (ht.1 rfl).1 hc, test_contacts std_ok cube_solid cube_solid (box_rings _) (box_rings _) (box_strict one_pos one_pos one_pos)
    (box_strict one_pos one_pos one_pos) (show 0 < 6 by norm_num) (show 0 < 6 by norm_num) lower_unit upper_unit (by rw [rel_eq]; exact cross_noparallel)
    (by rw [rel_eq]; exact cross_small.1) (by rw [rel_eq]; exact cross_small.2) cube_long cube_long true true (by simp) hr,
    collides_partial std_ok cube_solid cube_solid lower_unit upper_unit (by rw [rel_eq]; exact cross_noparallel) (by rw [rel_eq]; exact cross_small.1)
      (by rw [rel_eq]; exact cross_small.2) true true (by simp) hr hc⟩

/-- The hypotheses of `search_apart` are met. -/
example : search std cube cube ((put 0 0 3).inverse.mul (put 0 0 0)) ((put 0 0 3).inverse.mul (put 0 0 0)).inverse = .separated (.face1 0) := by
  have e : (put 0 0 3).inverse.mul (put 0 0 0) = put 0 0 (-3) := by
    simp only [put, Trans.inverse, Trans.mul]
    congr 1
    · ext <;> simp [Quat.rot, Quat.conj]
    · simp [Quat.mul, Quat.conj]
  rw [e]
  have hd : faceDepth cube cube (put 0 0 (-3)) 0 ≤ 0 := by
    apply faceDepth_le cube_solid
    intro v hv
    have hv : v < 8 := hv
    rw [put_act, put_rot]
    interval_cases v <;> norm_num [cube, Sat.box, boxFaces, boxNormal, boxVert, Poly.first, V3.dot]
  have hs : scan (faceDepth cube cube (put 0 0 (-3))) (List.range cube.nf) (std.large, 0) = (faceDepth cube cube (put 0 0 (-3)) 0, 0) := by
    show scan (faceDepth cube cube (put 0 0 (-3))) [0, 1, 2, 3, 4, 5] (std.large, 0) = _
    unfold scan
    rw [if_pos hd]
  unfold search facesDepth
  rw [hs]
  dsimp only
  rw [if_pos hd]

/-! ### A pair that is apart but said to collide -/

/-- The constants over the rationals; no square root is taken below. -/
def ratNum : Num ℚ := ⟨1 / 8388608, 1 / 100000, 1 / 10000, 340282346638528859811704183484516925440, 1002 / 1000, 5 / 10000, fun x => x⟩

/-- A plate, 2 cm thick, and a die of 2 cm. -/
def plate : Poly ℚ := Sat.box ⟨1, 1, 1/100⟩
def die : Poly ℚ := Sat.box ⟨1/100, 1/100, 1/100⟩
def level (z : ℚ) : Trans ℚ := ⟨⟨0, 0, z⟩, ⟨0, 0, 0, 1⟩⟩

/-- The hypotheses of `face_contacts` are met: the die lies on the plate. -/
example : faceContacts ratNum plate die ((level (19/1000)).inverse.mul (level 0)) ((level (19/1000)).inverse.mul (level 0)).inverse (level 0) 0 true true =
    some (true, [⟨⟨0, 0, 1⟩, 1/1000, ⟨-1/100, -1/100, 1/100⟩, ⟨-1/100, -1/100, -1/100⟩⟩, ⟨⟨0, 0, 1⟩, 1/1000, ⟨-1/100, 1/100, 1/100⟩, ⟨-1/100, 1/100, -1/100⟩⟩,
      ⟨⟨0, 0, 1⟩, 1/1000, ⟨1/100, 1/100, 1/100⟩, ⟨1/100, 1/100, -1/100⟩⟩, ⟨⟨0, 0, 1⟩, 1/1000, ⟨1/100, -1/100, 1/100⟩, ⟨1/100, -1/100, -1/100⟩⟩]) := by
  decide +kernel

/-- **C105, negation.** The die lies on the plate. In the next step it is below it: a plane lies between them, and a test from scratch finds it. The test with the axis
of the last step says that they collide, with contacts 4.1 cm deep. -/
theorem apart_collides : ∃ r1 r2 r3, polyhedra ratNum plate die (level 0) (level (199/10000)) true true none = some r1 ∧ r1.colliding = true ∧
    polyhedra ratNum plate die (level 0) (level (-21/1000)) true true (some (r1.axis, r1.colliding)) = some r2 ∧ r2.colliding = true ∧
    r2.contacts.map (·.depth) = [41/1000, 41/1000, 41/1000, 41/1000] ∧
    polyhedra ratNum plate die (level 0) (level (-21/1000)) true true none = some r3 ∧ r3.colliding = false ∧
    Apart (Placed (level 0) (Hulled plate)) (Placed (level (-21/1000)) (Hulled die)) ∧
    ¬ Meet (Placed (level 0) (Hulled plate)) (Placed (level (-21/1000)) (Hulled die)) := by
  have act : ∀ z (v : V3 ℚ), (level z).act v = ⟨v.x, v.y, v.z + z⟩ := fun z v => by ext <;> simp [level, Trans.act, Quat.rot]
  have hz : ∀ x y, Placed (level 0) (Hulled plate) x → Placed (level (-21/1000)) (Hulled die) y → y.z < x.z := by
    rintro x y ⟨u, hu, rfl⟩ ⟨v, hv, rfl⟩
    obtain ⟨-, -, a5, -⟩ := (box_hull (by norm_num) (by norm_num) (by norm_num) _).1 hu
    obtain ⟨-, -, -, b6⟩ := (box_hull (by norm_num) (by norm_num) (by norm_num) _).1 hv
    rw [act, act]
    dsimp only at *
    linarith
  have k1 : (polyhedra ratNum plate die (level 0) (level (199/10000)) true true none).map (fun r => (r.colliding, r.axis)) = some (true, .face1 0) := by decide +kernel
  have k2 : (polyhedra ratNum plate die (level 0) (level (-21/1000)) true true (some (.face1 0, true))).map (fun r => (r.colliding, r.contacts.map (·.depth))) =
    some (true, [41/1000, 41/1000, 41/1000, 41/1000]) := by decide +kernel
  have k3 : (polyhedra ratNum plate die (level 0) (level (-21/1000)) true true none).map (fun r => r.colliding) = some false := by decide +kernel
  obtain ⟨r1, e1, e1'⟩ := Option.map_eq_some_iff.1 k1
  obtain ⟨r2, e2, e2'⟩ := Option.map_eq_some_iff.1 k2
  obtain ⟨r3, e3, e3'⟩ := Option.map_eq_some_iff.1 k3
  simp only [Prod.mk.injEq] at e1' e2'
  refine ⟨r1, r2, r3, e1, e1'.1, by rw [e1'.1, e1'.2]; exact e2, e2'.1, e2'.2, e3, e3', ⟨⟨0, 0, -1⟩, by norm_num [V3.lengthSq], fun x y hx hy => ?_⟩, ?_⟩
  · have := hz x y hx hy
    simp only [V3.dot]
    linarith
  · rintro ⟨x, hx, hy⟩
    exact lt_irrefl _ (hz x x hx hy)

end SatProps
end RP3D
