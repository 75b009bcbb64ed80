import Verif.Props.SatCapsuleContact

/-! C106, C107: the whole test of a capsule and a convex polyhedron. -/

namespace RP3D
namespace SatProps
open Shape PointProps RoundProps Geom GeomProps Sat SatGeom
open RayProps (Capsule)

set_option linter.unusedSectionVars false

section Real
variable {P : Poly ℝ} {wc wp : Trans ℝ} {N : Num ℝ} {hh r : ℝ}

theorem top_inner {hh : ℝ} (hp : 0 < hh) {n y z : V3 ℝ} (hy : Top (segBody (segA hh) (segB hh)) (-n) y) (hz : Inner hh z) : n.dot y ≤ n.dot z := by
  obtain ⟨s, s1, s2, rfl⟩ := hz
  have := inner_le hy.2 s1 s2
  rw [neg_dot, neg_dot] at this
  linarith

/-- **C106.** The inner segment of the capsule meets the polyhedron, which is when the program runs this test. Then there is a unit direction `n` and a depth `d` such that
the capsule, moved by any vector not longer than `d`, still meets the polyhedron, and moved farther along `n` does not. A query without contacts says that they collide.
If the test is asked for contacts and says that they collide, it reports one or two, all with the depth `d` and the direction `n`; their points are apart by the depth
along the normal, the one at the distance of the radius from the inner segment, the other in the polyhedron or over a face and above it by less than 1 mm. If it says that they do
not collide, it reports none. -/
theorem capsule_contacts (hN : NumOk N) (he : N.eps < 1) (hr : 0 < r) (hp : 0 < hh) (hP : Solid P) (hR : Rings P) (hS : Strict P) (uc : wc.ori.lengthSq = 1)
    (up : wp.ori.lengthSq = 1) (hin : Meet (Placed wp (Hulled P)) (Placed wc (Inner hh))) (hpar : CapNoParallel N P hh (wc.inverse.mul wp))
    (hb : ∃ f < P.nf, capFaceDepth N P hh r (wc.inverse.mul wp) f < N.large) (l1 : N.eps < 4 * (hh * hh)) (l2 : ∀ e < P.ne, N.eps < dist2 (P.startOf e) (P.endOf e))
    (first : Bool) :
    ∃ n d, n.lengthSq = 1 ∧ r ≤ d ∧ (∀ w : V3 ℝ, w.lengthSq ≤ d * d → Meet (Placed wp (Hulled P)) (Moved (Placed wc (Capsule r hh)) w)) ∧
      (∀ s, d < s → ¬ Meet (Placed wp (Hulled P)) (Moved (Placed wc (Capsule r hh)) (V3.smul s n))) ∧
      capsule N P wc wp hh r first false = some (true, []) ∧
      ∀ found cs, capsule N P wc wp hh r first true = some (found, cs) → (found = true ↔ cs ≠ []) ∧ ∀ c ∈ cs, c.depth = d ∧ CapSound wc wp hh r n first c ∧
        (Hulled P (onPoly first c) ∨ ∃ f < P.nf, n = wp.ori.rot (P.normal f) ∧ Over P f (onPoly first c) ∧ (P.normal f).dot (P.first f) ≤ (P.normal f).dot (onPoly first c) ∧
          (P.normal f).dot (onPoly first c) < (P.normal f).dot (P.first f) + 1 / 1000) := by
  have ht := frame_unit up uc
  obtain ⟨b, hs, hrb, hn, hbnd, ho, -, hT, hax⟩ := capsule_overlap hN he hr hp hP uc up hin hpar hb
  obtain ⟨m1, m2⟩ := capsule_depth hr hp uc (by rw [rot_len uc, hn]) hrb ho hbnd
  refine ⟨wc.ori.rot b.dir, b.depth, by rw [rot_len uc, hn], hrb, m1, m2, ?_, ?_⟩
  · unfold capsule
    dsimp only
    rw [hs]
    dsimp only
    cases ha : b.axis with
    | start => rw [ha] at hT; exact hT.elim
    | face f => rfl
    | edge e => rfl
  · intro found cs h
    unfold capsule at h
    dsimp only at h
    rw [hs] at h
    dsimp only at h
    cases ha : b.axis with
    | start => rw [ha] at hT; exact hT.elim
    | face f =>
      rw [ha] at hT hax h
      simp only [if_true] at h
      have e1 : capFaceDepth N P hh r (wc.inverse.mul wp) f = b.depth := congrArg Prod.fst hax
      have e2 : (wc.inverse.mul wp).ori.rot (P.normal f) = b.dir := congrArg Prod.snd hax
      have e3 : wc.ori.rot b.dir = wp.ori.rot (P.normal f) := by rw [← e2, frame_rot uc]
      rw [e3] at h ⊢
      rw [← e2] at h
      obtain ⟨i1, i2⟩ := capsule_face_contacts hp hP hR uc up hT rfl h
      refine ⟨i1, fun c hc => ?_⟩
      obtain ⟨j1, j2, j3, j4, j5⟩ := i2 c hc
      refine ⟨j1, j2, .inr ⟨f, hT, rfl, j3, j5 (fun y hy => ?_), by linarith⟩⟩
      obtain ⟨y0, hy0⟩ := seg_exists (p := segA hh) (q := segB hh) (-((wc.inverse.mul wp).ori.rot (P.normal f)))
      have q := capFace_depth hN he hr hp hP ht hT (first_top hP ht hT) hy0
      have q2 := top_inner hp hy0 hy
      rw [dot_sub_right] at q ⊢
      linarith
    | edge e =>
      rw [ha] at hT hax h
      simp only [if_true, Option.some.injEq, Prod.mk.injEq] at h
      obtain ⟨rfl, rfl⟩ := h
      refine ⟨by simp, fun c hc => ?_⟩
      rw [List.mem_singleton.1 hc]
      obtain ⟨k1, k2, k3⟩ := capsule_edge_contact hN he hr hp hP hS uc up hrb ho hT hax l1 (l2 e hT.1.1) (first := first)
      exact ⟨k1, k2, .inl (onSeg_hull hP hT.1.1 k3)⟩

/-- **C106.** The whole capsule is beyond a face of the polyhedron: the test says that they do not collide, and reports no contacts. -/
theorem capsule_beyond (hN : NumOk N) (he : N.eps < 1) (hr : 0 < r) (hp : 0 < hh) (hP : Solid P) (uc : wc.ori.lengthSq = 1) (up : wp.ori.lengthSq = 1)
    {f : Nat} (hf : f < P.nf) (h : ∀ y, Placed wc (Capsule r hh) y → (wp.ori.rot (P.normal f)).dot (wp.act (P.first f)) ≤ (wp.ori.rot (P.normal f)).dot y)
    (first report : Bool) : capsule N P wc wp hh r first report = some (false, []) := by
  have ht := frame_unit up uc
  have hn : ((wc.inverse.mul wp).ori.rot (P.normal f)).lengthSq = 1 := by rw [rot_len ht]; exact hP.unit f hf
  obtain ⟨y, hy⟩ := seg_exists (p := segA hh) (q := segB hh) (-((wc.inverse.mul wp).ori.rot (P.normal f)))
  have hd := capFace_depth hN he hr hp hP ht hf (first_top hP ht hf) hy
  have hin : ∃ s, -hh ≤ s ∧ s ≤ hh ∧ y = ⟨0, s, 0⟩ := by
    have : y = segA hh ∨ y = segB hh := by simpa [segBody] using hy.1
    rcases this with rfl | rfl
    · exact ⟨-hh, le_refl _, by linarith, rfl⟩
    · exact ⟨hh, by linarith, le_refl _, rfl⟩
  obtain ⟨s, s1, s2, rfl⟩ := hin
  generalize hnn : (wc.inverse.mul wp).ori.rot (P.normal f) = n at *
  have hq := h (wc.act ((⟨0, s, 0⟩ : V3 ℝ) - V3.smul r n)) ⟨_, ⟨s, s1, s2, by
    show ((⟨0, s, 0⟩ : V3 ℝ) - V3.smul r n - ⟨0, s, 0⟩).lengthSq ≤ r * r
    have e : ((⟨0, s, 0⟩ : V3 ℝ) - V3.smul r n - ⟨0, s, 0⟩).lengthSq = r * r * n.lengthSq := by
      simp only [V3.lengthSq, V3.sub_x, V3.sub_y, V3.sub_z, V3.smul_x, V3.smul_y, V3.smul_z]; ring
    rw [e, hn, mul_one]⟩, rfl⟩
  rw [← frame_rot uc, hnn, ← frame_act uc (P.first f), dot_act_iff uc, rot_conj uc] at hq
  have hle : capFaceDepth N P hh r (wc.inverse.mul wp) f ≤ 0 := by
    rw [hd]
    have e1 : n.dot ((⟨0, s, 0⟩ : V3 ℝ) - V3.smul r n) = n.dot ⟨0, s, 0⟩ - r * n.lengthSq := by
      simp only [V3.dot, V3.lengthSq, V3.sub_x, V3.sub_y, V3.sub_z, V3.smul_x, V3.smul_y, V3.smul_z]; ring
    rw [e1, hn] at hq
    have e2 := dot_sub_right n ((wc.inverse.mul wp).act (P.first f)) (⟨0, s, 0⟩ : V3 ℝ)
    linarith
  have hs : capSearch N P hh r (wc.inverse.mul wp) = none := by
    cases hc : capSearch N P hh r (wc.inverse.mul wp) with
    | none => rfl
    | some b =>
      obtain ⟨b1, b2, -⟩ := (capSearch_spec hN P hh r (wc.inverse.mul wp)).2 b hc
      have : b.depth ≤ capFaceDepth N P hh r (wc.inverse.mul wp) f := b2 (.face f) hf
      linarith
  unfold capsule
  dsimp only
  rw [hs]

/-- **C107, partial.** Missing: an inner segment that reaches beyond the sides of the face of least depth, and edges that cross it but are taken for parallel. Without these
the test says that the bodies collide, and reports a contact. -/
theorem capsule_verdict_partial (hN : NumOk N) (he : N.eps < 1) (hr : 0 < r) (hp : 0 < hh) (hP : Solid P) (hR : Rings P) (uc : wc.ori.lengthSq = 1)
    (up : wp.ori.lengthSq = 1) (hin : Meet (Placed wp (Hulled P)) (Placed wc (Inner hh))) (hpar : CapNoParallel N P hh (wc.inverse.mul wp))
    (hb : ∃ f < P.nf, capFaceDepth N P hh r (wc.inverse.mul wp) f < N.large)
    (hover : ∀ f < P.nf, (∀ g < P.nf, capFaceDepth N P hh r (wc.inverse.mul wp) f ≤ capFaceDepth N P hh r (wc.inverse.mul wp) g) →
      Over P f ((wc.inverse.mul wp).inverse.act (segA hh)) ∧ Over P f ((wc.inverse.mul wp).inverse.act (segB hh))) (first : Bool) :
    ∃ cs, capsule N P wc wp hh r first true = some (true, cs) ∧ cs ≠ [] := by
  have ht := frame_unit up uc
  obtain ⟨b, hs, hrb, hn, hbnd, ho, -, hT, hax⟩ := capsule_overlap hN he hr hp hP uc up hin hpar hb
  obtain ⟨-, q2⟩ := capSearch_spec hN P hh r (wc.inverse.mul wp)
  obtain ⟨-, q2, -⟩ := q2 b hs
  unfold capsule
  dsimp only
  rw [hs]
  dsimp only
  cases ha : b.axis with
  | start => rw [ha] at hT; exact hT.elim
  | face f =>
    rw [ha] at hT hax
    simp only [if_true]
    have e1 : capFaceDepth N P hh r (wc.inverse.mul wp) f = b.depth := congrArg Prod.fst hax
    obtain ⟨o1, o2⟩ := hover f hT (fun g hg => by rw [e1]; exact q2 (.face g) hg)
    refine capsule_found_partial hP hR ht hT o1 o2 ?_
    obtain ⟨y0, hy0⟩ := seg_exists (p := segA hh) (q := segB hh) (-((wc.inverse.mul wp).ori.rot (P.normal f)))
    have q := capFace_depth hN he hr hp hP ht hT (first_top hP ht hT) hy0
    rw [e1] at q
    have key : ∀ y, ((wc.inverse.mul wp).ori.rot (P.normal f)).dot ((wc.inverse.mul wp).act (P.first f) - y) =
        (P.normal f).dot (P.first f - (wc.inverse.mul wp).inverse.act y) := fun y => by
      rw [← rot_dot ht (P.normal f), ← act_sub, trans_act_inverse ht]
    rw [key] at q
    have : y0 = segA hh ∨ y0 = segB hh := by simpa [segBody] using hy0.1
    rcases this with rfl | rfl
    · left; linarith
    · right; linarith
  | edge e => exact ⟨_, rfl, by simp⟩

end Real

section Shallow
variable {K : Type} [Field K] [LinearOrder K] [IsStrictOrderedRing K] {P : Poly K} {wc wp : Trans K} {N : Num K} {hh r : K}

/-- A contact of a capsule and a polyhedron that overlap by less than the radius: the contact `c` of GJK, or one at a face whose normal is parallel to that of `c`, within the
tolerance, turned to the capsule, and orthogonal to the capsule, within the tolerance. -/
def ShallowOf (N : Num K) (P : Poly K) (wc wp : Trans K) (hh r : K) (first : Bool) (c x : Round.Contact K) : Prop :=
  x = c ∨ x.depth = c.depth ∧ ∃ f < P.nf, CapSound wc wp hh r (wp.ori.rot (P.normal f)) first x ∧ Over P f (onPoly first x) ∧
    (wp.ori.rot (P.normal f)).lengthSq = 1 ∧ ((wp.ori.rot (P.normal f)).cross c.normal).lengthSq < N.par ∧
    (if first then (wp.ori.rot (P.normal f)).dot c.normal ≤ 0 else 0 < (wp.ori.rot (P.normal f)).dot c.normal) ∧
    |(wp.ori.rot (P.normal f)).dot (unit N.eps N.sqrt (wc.ori.rot (segB hh - segA hh)))| < 1 / 1000

theorem shallow_loop (hp : 0 < hh) (hP : Solid P) (hR : Rings P) (uc : wc.ori.lengthSq = 1) (up : wp.ori.lengthSq = 1) {first : Bool} {c : Round.Contact K} :
    ∀ (fs : List Nat) {cs : List (Round.Contact K)}, (∀ f ∈ fs, f < P.nf) → shallowLoop N P wc wp hh r first c fs = some cs →
      cs ≠ [] ∧ ∀ x ∈ cs, ShallowOf N P wc wp hh r first c x
  | [], cs, _, h => by
    simp only [shallowLoop, Option.some.injEq] at h
    subst h
    exact ⟨by simp, fun x hx => Or.inl (by simpa using hx)⟩
  | f :: fs, cs, hf, h => by
    have rest := shallow_loop hp hP hR uc up (first := first) (c := c) fs (cs := cs) (fun g hg => hf g (List.mem_cons_of_mem _ hg))
    unfold shallowLoop at h
    by_cases hs : shallowFace N P wc wp hh first c f = true
    · rw [if_pos hs] at h
      dsimp only at h
      cases hc : capContacts N P f r c.depth (wc.inverse.mul wp) (if first then -(wp.ori.rot (P.normal f)) else wp.ori.rot (P.normal f))
          ((wc.inverse.mul wp).ori.rot (P.normal f)) ((wc.inverse.mul wp).inverse.act (segA hh)) ((wc.inverse.mul wp).inverse.act (segB hh)) first with
      | none => rw [hc] at h; simp at h
      | some q =>
        obtain ⟨found, ds⟩ := q
        rw [hc] at h
        dsimp only at h
        by_cases hd : found = true
        · rw [if_pos hd, Option.some.injEq] at h
          subst h
          obtain ⟨g1, g2⟩ := capsule_face_contacts hp hP hR uc up (hf f (by simp)) rfl hc
          refine ⟨g1.1 hd, fun x hx => Or.inr ?_⟩
          obtain ⟨k1, k2, k3, -⟩ := g2 x hx
          unfold shallowFace parallel at hs
          simp only [Bool.and_eq_true, decide_eq_true_eq] at hs
          obtain ⟨⟨s1, s2⟩, s3⟩ := hs
          refine ⟨k1, f, hf f (by simp), k2, k3, ?_, s3, ?_, s2⟩
          · rw [rot_len up, hP.unit f (hf f (by simp))]
          · cases first <;> simp_all
        · rw [if_neg hd] at h
          exact rest h
    · rw [if_neg hs] at h
      exact rest h

/-- **C106, shallow contacts.** If GJK finds the contact `c` of a capsule and a polyhedron, at least one contact is reported; each is `c` or lies at a face that agrees with `c`,
with the same depth, its points apart by the depth along the normal. -/
theorem shallow_contacts (hp : 0 < hh) (hP : Solid P) (hR : Rings P) (uc : wc.ori.lengthSq = 1) (up : wp.ori.lengthSq = 1) {first : Bool}
    {c : Round.Contact K} {cs : List (Round.Contact K)} (h : shallow N P wc wp hh r first c = some cs) :
    cs ≠ [] ∧ ∀ x ∈ cs, ShallowOf N P wc wp hh r first c x :=
  shallow_loop hp hP hR uc up _ (fun _ hf => List.mem_range.1 hf) h

end Shallow

/-! ### Where the test fails -/

/-- A box of 10 cm. -/
def crate : Poly ℚ := Sat.box ⟨1/20, 1/20, 1/20⟩

/-- A capsule with the radius 2 cm whose inner segment, 17 mm long, cuts across an edge of the box. -/
def across : Trans ℚ := ⟨⟨47/1000, 939/20000, 0⟩, ⟨0, 0, 5/13, 12/13⟩⟩

/-- A capsule with the radius 2 cm and an inner segment of 3 cm, nearly parallel to an edge of the box: one end over the top of the box, the other beyond its side by
0.3 mm. -/
def along_edge (z : ℚ) : Trans ℚ := ⟨⟨1/20, 0, z⟩, ⟨0, 0, -400/40001, 39999/40001⟩⟩

/-- **C107, negation.** The middle of the inner segment is in the box, 3 mm below two of its faces. A query says that the bodies collide; asked for contacts, the test says that
they do not. All edges are taken for parallel to the short inner segment; the deepest point below the chosen face is beyond its side, and the points of the part
that remains are not deep enough. -/
theorem capsule_missed : Meet (Placed (level 0) (Hulled crate)) (Placed across (Inner (169/20000))) ∧
    capsule ratNum crate across (level 0) (169/20000) (1/50) true false = some (true, []) ∧
    (capsule ratNum crate across (level 0) (169/20000) (1/50) true true).map (fun r => (r.1, r.2.length)) = some (false, 0) := by
  refine ⟨⟨⟨47/1000, 939/20000, 0⟩, ⟨⟨47/1000, 939/20000, 0⟩, (box_hull (by norm_num) (by norm_num) (by norm_num) _).2 ?_, ?_⟩, ⟨0, ⟨0, by norm_num, by norm_num, rfl⟩, ?_⟩⟩, ?_, ?_⟩
  · refine ⟨⟨by norm_num, by norm_num⟩, ⟨by norm_num, by norm_num⟩, by norm_num, by norm_num⟩
  · ext <;> simp [level, Trans.act, Quat.rot]
  · ext <;> simp [across, Trans.act, Quat.rot]
  · have : (capsule ratNum crate across (level 0) (169/20000) (1/50) true false).map (fun r => (r.1, r.2.length)) = some (true, 0) := by decide +kernel
    obtain ⟨⟨x, y⟩, e1, e2⟩ := Option.map_eq_some_iff.1 this
    simp only [Prod.mk.injEq] at e2
    rw [e1, e2.1, List.eq_nil_of_length_eq_zero e2.2]
  · decide +kernel

/-- **C107, negation.** The clipping of the inner segment reads a vertex that is not there: when the segment is in the box, and when only the margin of the capsule touches it
(a capsule that rolls off the edge of a table). -/
theorem capsule_undefined : Meet (Placed (level 0) (Hulled crate)) (Placed (along_edge (499/10000)) (Inner (3/200))) ∧
    (capsule ratNum crate (along_edge (499/10000)) (level 0) (3/200) (1/50) true true).isNone = true ∧
    Meet (Placed (level 0) (Hulled crate)) (Placed (along_edge (69/1000)) (Capsule (1/50) (3/200))) ∧
    (shallow ratNum crate (along_edge (69/1000)) (level 0) (3/200) (1/50) true ⟨⟨0, 0, -1⟩, 1/1000, ⟨0, 0, -1/50⟩, ⟨1/20, 0, 1/20⟩⟩).isNone = true := by
  refine ⟨⟨⟨1/20, 0, 499/10000⟩, ⟨⟨1/20, 0, 499/10000⟩, (box_hull (by norm_num) (by norm_num) (by norm_num) _).2 ?_, ?_⟩, ⟨0, ⟨0, by norm_num, by norm_num, rfl⟩, ?_⟩⟩, by decide +kernel,
    ⟨⟨1/20, 0, 1/20⟩, ⟨⟨1/20, 0, 1/20⟩, (box_hull (by norm_num) (by norm_num) (by norm_num) _).2 ?_, ?_⟩, ⟨⟨0, 0, -19/1000⟩, ⟨0, by norm_num, by norm_num, ?_⟩, ?_⟩⟩, by decide +kernel⟩
  · refine ⟨⟨by norm_num, by norm_num⟩, ⟨by norm_num, by norm_num⟩, by norm_num, by norm_num⟩
  · ext <;> simp [level, Trans.act, Quat.rot]
  · ext <;> simp [along_edge, Trans.act, Quat.rot]
  · refine ⟨⟨by norm_num, by norm_num⟩, ⟨by norm_num, by norm_num⟩, by norm_num, by norm_num⟩
  · ext <;> simp [level, Trans.act, Quat.rot]
  · show ((⟨0, 0, -19/1000⟩ : V3 ℚ) - ⟨0, 0, 0⟩).lengthSq ≤ 1/50 * (1/50)
    norm_num [V3.lengthSq]
  · ext <;> norm_num [along_edge, Trans.act, Quat.rot]

/-! ### Cases that meet the hypotheses -/

/-- No edge of the cube crosses the circle of an upright segment. -/
theorem cube_upright {x y z hh : ℝ} (e : Nat) (he : e < 24) : capMinkowski cube hh (put x y z) e = false := by
  unfold capMinkowski
  rw [decide_eq_false_iff_not]
  simp only [put_rot]
  interval_cases e <;> simp [cube, Sat.box, boxEdges, boxNormal, Poly.faceN, Poly.twinN, V3.dot, segA, segB]

theorem cube_over {f : Nat} (hf : f < 6) {y : V3 ℝ} (h1 : -1 ≤ y.x ∧ y.x ≤ 1) (h2 : -1 ≤ y.y ∧ y.y ≤ 1) (h3 : -1 ≤ y.z ∧ y.z ≤ 1) : Over cube f y := by
  intro k
  obtain ⟨a1, a2⟩ := h1
  obtain ⟨b1, b2⟩ := h2
  obtain ⟨c1, c2⟩ := h3
  have hring : along cube (cube.faceEdge f) 4 = cube.faceEdge f := by interval_cases f <;> rfl
  rw [along_mod (m := 3) hring k]
  have hk : k % 4 < 4 := Nat.mod_lt _ (by norm_num)
  generalize k % 4 = j at hk
  interval_cases f <;> interval_cases j <;>
    simp [cube, Sat.box, boxEdges, boxFaceEdge, boxNormal, boxVert, Poly.startOf, Poly.endOf, along, V3.cross, V3.dot] <;> nlinarith

theorem upright_edges {x y z hh : ℝ} : CapNoParallel std cube hh (put x y z) := fun e he _ hm => by
  rw [cube_upright e he] at hm
  exact absurd hm (by simp)

theorem lying_meets : Meet (Placed (put 0 0 0) (Hulled cube)) (Placed (put 0 0 (3/4)) (Inner (1/2))) := by
  refine ⟨⟨0, 0, 3/4⟩, ⟨⟨0, 0, 3/4⟩, (box_hull one_pos one_pos one_pos _).2 ⟨⟨by norm_num, by norm_num⟩, ⟨by norm_num, by norm_num⟩, by norm_num, by norm_num⟩, ?_⟩,
    ⟨0, ⟨0, by norm_num, by norm_num, rfl⟩, ?_⟩⟩
  · rw [put_act]; ext <;> simp [put]
  · rw [put_act]; ext <;> simp [put]

theorem lying_depth : capFaceDepth std cube (1/2) (1/4) (put 0 0 (-(3/4))) 0 = 1/2 := by
  obtain ⟨y, hy⟩ := seg_exists (p := segA (1/2 : ℝ)) (q := segB (1/2)) (-((put 0 0 (-(3/4))).ori.rot (cube.normal 0)))
  rw [capFace_depth std_ok (by norm_num [std]) (by norm_num) (by norm_num) cube_solid (put_unit ..) (show 0 < 6 by norm_num) (first_top cube_solid (put_unit ..) (show 0 < 6 by norm_num)) hy]
  have : y = segA (1/2) ∨ y = segB (1/2) := by simpa [segBody] using hy.1
  rw [put_act, put_rot]
  rcases this with rfl | rfl <;> norm_num [put, cube, Sat.box, boxFaces, boxNormal, boxVert, Poly.first, V3.dot, segA, segB]

/-- A capsule in a cube: the hypotheses of `capsule_contacts` and `capsule_verdict_partial` are met. -/
example : ∃ cs n d, capsule std cube (put 0 0 (3/4)) (put 0 0 0) (1/2) (1/4) true true = some (true, cs) ∧ cs ≠ [] ∧ n.lengthSq = 1 ∧
    ∀ c ∈ cs, c.depth = d ∧ CapSound (put 0 0 (3/4)) (put 0 0 0) (1/2) (1/4) n true c := by
  have e : (put 0 0 (3/4)).inverse.mul (put 0 0 0) = put 0 0 (-(3/4)) := by
    simp [put, Trans.mul, Trans.inverse, Quat.conj, Quat.mul, Quat.rot]
  have hbig : ∃ f < cube.nf, capFaceDepth std cube (1/2) (1/4) ((put 0 0 (3/4)).inverse.mul (put 0 0 0)) f < std.large :=
    ⟨0, show 0 < 6 by norm_num, by rw [e, lying_depth]; norm_num [std]⟩
  obtain ⟨cs, h1, h2⟩ := capsule_verdict_partial std_ok (by norm_num [std]) (r := 1/4) (hh := 1/2) (by norm_num) (by norm_num) cube_solid (box_rings _) (put_unit 0 0 (3/4))
    (put_unit 0 0 0) lying_meets (by rw [e]; exact upright_edges) hbig (fun f hf _ => by
      have i : (put 0 0 (-(3/4))).inverse = put 0 0 (3/4) := by
        simp [put, Trans.inverse, Quat.conj, Quat.rot]
      rw [e, i]
      constructor
      · refine cube_over hf ?_ ?_ ?_ <;> rw [put_act] <;> norm_num [put, segA]
      · refine cube_over hf ?_ ?_ ?_ <;> rw [put_act] <;> norm_num [put, segB]) true
  obtain ⟨n, d, g1, -, -, -, -, g2⟩ := capsule_contacts std_ok (by norm_num [std]) (r := 1/4) (hh := 1/2) (by norm_num) (by norm_num) cube_solid (box_rings _)
    (box_strict one_pos one_pos one_pos) (put_unit 0 0 (3/4)) (put_unit 0 0 0) lying_meets (by rw [e]; exact upright_edges) hbig (by norm_num [std]) cube_long true
  obtain ⟨-, g3⟩ := g2 true cs h1
  exact ⟨cs, n, d, h1, h2, g1, fun c hc => ⟨(g3 c hc).1, (g3 c hc).2.1⟩⟩

/-- A capsule above the cube: the search finds a separating plane. -/
theorem above_search : capSearch std cube (1/2) (1/4) ((put 0 0 3).inverse.mul (put 0 0 0)) = none := by
  have e : (put 0 0 3).inverse.mul (put 0 0 0) = put 0 0 (-3) := by
    simp [put, Trans.mul, Trans.inverse, Quat.conj, Quat.mul, Quat.rot]
  rw [e]
  cases h : capSearch std cube (1/2) (1/4) (put 0 0 (-3)) with
  | none => rfl
  | some b =>
    exfalso
    obtain ⟨h1, h2, -⟩ := (capSearch_spec std_ok cube (1/2) (1/4) (put 0 0 (-3))).2 b h
    have h3 : b.depth ≤ capFaceDepth std cube (1/2) (1/4) (put 0 0 (-3)) 0 := h2 (.face 0) (show 0 < 6 by norm_num)
    obtain ⟨y, hy⟩ := seg_exists (p := segA (1/2 : ℝ)) (q := segB (1/2)) (-((put 0 0 (-3)).ori.rot (cube.normal 0)))
    rw [capFace_depth std_ok (by norm_num [std]) (by norm_num) (by norm_num) cube_solid (put_unit ..) (show 0 < 6 by norm_num)
      (first_top cube_solid (put_unit ..) (show 0 < 6 by norm_num)) hy] at h3
    have : y = segA (1/2) ∨ y = segB (1/2) := by simpa [segBody] using hy.1
    rw [put_act, put_rot] at h3
    rcases this with rfl | rfl <;> norm_num [put, cube, Sat.box, boxFaces, boxNormal, boxVert, Poly.first, V3.dot, segA, segB] at h3 <;> linarith

example : Apart (Placed (put 0 0 0) (Hulled cube)) (Placed (put 0 0 3) (Capsule (1/4) (1/2))) :=
  capsule_apart std_ok (by norm_num [std]) (by norm_num) (by norm_num) cube_solid (put_unit ..) (put_unit ..) above_search

example : capsule std cube (put 0 0 3) (put 0 0 0) (1/2) (1/4) true true = some (false, []) := by
  refine capsule_beyond std_ok (by norm_num [std]) (by norm_num) (by norm_num) cube_solid (put_unit ..) (put_unit ..) (f := 0) (show 0 < 6 by norm_num) ?_ _ _
  rintro y ⟨x, ⟨s, -, -, hx⟩, rfl⟩
  have hx : (x - (⟨0, s, 0⟩ : V3 ℝ)).lengthSq ≤ 1/4 * (1/4) := hx
  have hz : -1/4 ≤ x.z := by
    simp only [V3.lengthSq, V3.sub_x, V3.sub_y, V3.sub_z] at hx
    nlinarith [mul_self_nonneg (x.x - 0), mul_self_nonneg (x.y - s), mul_self_nonneg (x.z - 1/4), mul_self_nonneg (x.z + 1/4)]
  rw [put_act, put_act, put_rot]
  norm_num [put, cube, Sat.box, boxFaces, boxNormal, boxVert, Poly.first, V3.dot]
  linarith

/-- A square root that is exact where it is needed below. -/
def exactNum : Num ℚ := { ratNum with sqrt := fun x => if x = 169/10000 * (169/10000) then 169/10000 else x }

/-- A longer inner segment across the edge: the search ends with the edge, and the contact is in the middle of it. -/
example : (capsule exactNum crate across (level 0) (169/2000) (1/50) true true).map (fun r => (r.1, r.2.map (·.depth), r.2.map (fun c => c.p2.z))) =
    some (true, [4103/169000], [0]) := by decide +kernel

/-- A capsule lying on the crate gets two contacts, with the depth of that of GJK. -/
example : ((shallow exactNum crate ⟨⟨0, 0, 69/1000⟩, ⟨0, 0, 0, 1⟩⟩ (level 0) (1/50) (1/50) true ⟨⟨0, 0, -1⟩, 1/1000, ⟨0, 0, -1/50⟩, ⟨0, 0, 1/20⟩⟩).map
    (fun cs => cs.map fun c => (c.depth, c.p1.y, c.p2.y))) = some [(1/1000, -1/50, -1/50), (1/1000, 1/50, 1/50)] := by decide +kernel

end SatProps
end RP3D
