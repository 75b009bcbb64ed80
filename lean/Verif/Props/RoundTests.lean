import Verif.Props.Round

/-! C89, C90 for the pairs sphere–sphere and sphere–capsule, and for capsules whose inner segments are not parallel. -/

namespace RP3D
namespace RoundProps
open Ray Shape RayProps PointProps Geom GeomProps Round

set_option linter.unusedSectionVars false
variable {K : Type} [Field K] [LinearOrder K] [IsStrictOrderedRing K]

/-- The constants: a positive `MACHINE_EPSILON` of at most 1, an exact square root. -/
structure Sane (N : Num K) : Prop where
  pos : 0 < N.eps
  le : N.eps ≤ 1
  root : IsSqrt N.sqrt

theorem len_nonneg (v : V3 K) : 0 ≤ v.lengthSq := by
  simp only [V3.lengthSq]; nlinarith [mul_self_nonneg v.x, mul_self_nonneg v.y, mul_self_nonneg v.z]

theorem dist2_symm (a b : V3 K) : dist2 a b = dist2 b a := by simp only [dist2]; ring

theorem len_neg (v : V3 K) : (-v).lengthSq = v.lengthSq := by simp only [V3.lengthSq, V3.neg_x, V3.neg_y, V3.neg_z]; ring

theorem smul_neg' (k : K) (v : V3 K) : V3.smul k (-v) = -V3.smul k v := by ext <;> simp

theorem sqrt_lt {N : Num K} (hN : Sane N) {d s : K} (hd : 0 ≤ d) (hs : 0 ≤ s) : N.sqrt d < s ↔ d < s * s := by
  obtain ⟨h0, h1⟩ := hN.root d hd
  constructor
  · intro h; nlinarith
  · intro h; by_contra hc; rw [not_lt] at hc; nlinarith

theorem sq_lt {N : Num K} (hN : Sane N) {d : K} (h : N.eps < d) : N.eps * N.eps < d := by nlinarith [hN.pos, hN.le]

theorem unit_eq {N : Num K} (hN : Sane N) {v : V3 K} (h : N.eps * N.eps < v.lengthSq) :
    unit N.eps N.sqrt v = V3.smul (1 / N.sqrt v.lengthSq) v := by
  have h0 : 0 < v.lengthSq := lt_trans (mul_pos hN.pos hN.pos) h
  obtain ⟨l0, l1⟩ := sqrt_pos hN.root h0
  have hl : ¬ N.sqrt v.lengthSq < N.eps := fun hl => by nlinarith [hN.pos]
  unfold unit
  dsimp only
  rw [if_neg hl]
  ext <;> simp only [V3.smul_x, V3.smul_y, V3.smul_z] <;> ring

theorem scaled {N : Num K} (hN : Sane N) {v : V3 K} (h : 0 < v.lengthSq) :
    (V3.smul (1 / N.sqrt v.lengthSq) v).lengthSq = 1 ∧ V3.smul (N.sqrt v.lengthSq) (V3.smul (1 / N.sqrt v.lengthSq) v) = v := by
  obtain ⟨l0, l1⟩ := sqrt_pos hN.root h
  have hne := ne_of_gt l0
  constructor
  · have e : (V3.smul (1 / N.sqrt v.lengthSq) v).lengthSq = v.lengthSq / (N.sqrt v.lengthSq * N.sqrt v.lengthSq) := by
      simp only [V3.lengthSq, V3.smul_x, V3.smul_y, V3.smul_z]; field_simp
    rw [e, l1, div_self (ne_of_gt h)]
  · ext <;> simp only [V3.smul_x, V3.smul_y, V3.smul_z] <;> field_simp

theorem rot_unit {N : Num K} {q : Quat K} (hq : q.lengthSq = 1) (v : V3 K) : unit N.eps N.sqrt (q.rot v) = q.rot (unit N.eps N.sqrt v) := by
  unfold unit
  dsimp only
  rw [rot_len hq]
  split
  · rfl
  · have e : ∀ u : V3 K, ∀ k, (⟨u.x * k, u.y * k, u.z * k⟩ : V3 K) = V3.smul k u := fun u k => by ext <;> simp <;> ring
    rw [e, e, rot_smul]

/-! ### Spheres -/

/-- C89: two spheres are reported to collide if and only if their interiors overlap. -/
theorem sphere_sphere_overlap {N : Num K} (hN : Sane N) (t1 t2 : Trans K) {r1 r2 : K} (h1 : 0 < r1) (h2 : 0 < r2) (report : Bool) :
    (sphereSphere N t1 t2 r1 r2 report).1 = true ↔ Meet (Around (Center t1) r1) (Around (Center t2) r2) := by
  rw [around_meet h1 h2]
  have e : (∃ a b, Center t1 a ∧ Center t2 b ∧ dist2 a b < (r1 + r2) * (r1 + r2)) ↔ (t2.pos - t1.pos).lengthSq < (r1 + r2) * (r1 + r2) := by
    rw [lengthSq_eq]
    constructor
    · rintro ⟨a, b, rfl, rfl, h⟩; exact h
    · intro h; exact ⟨_, _, rfl, rfl, h⟩
  rw [e]
  unfold sphereSphere
  dsimp only
  by_cases h : (t2.pos - t1.pos).lengthSq < (r1 + r2) * (r1 + r2)
  · rw [if_pos h, if_pos (by have := (sqrt_lt hN (len_nonneg (t2.pos - t1.pos)) (by linarith : 0 ≤ r1 + r2)).mpr h; linarith)]
    simp [h]
  · rw [if_neg h]; simp [h]

/-- C90: the contact of two overlapping spheres with distinct centers. -/
theorem sphere_sphere_contact {N : Num K} (hN : Sane N) {t1 t2 : Trans K} (u1 : t1.ori.lengthSq = 1) (u2 : t2.ori.lengthSq = 1) {r1 r2 : K}
    (h1 : 0 < r1) (h2 : 0 < r2) (hne : N.eps < dist2 t1.pos t2.pos) (hov : Meet (Around (Center t1) r1) (Around (Center t2) r2)) :
    ∃ c, (sphereSphere N t1 t2 r1 r2 true).2 = [c] ∧ Good 0 t1 t2 (Center t1) r1 (Center t2) r2 c := by
  have hlt : (t2.pos - t1.pos).lengthSq < (r1 + r2) * (r1 + r2) := by
    obtain ⟨a, b, ha, hb, h⟩ := (around_meet h1 h2).mp hov
    unfold Center at ha hb
    rw [lengthSq_eq, ← ha, ← hb]; exact h
  have hroot := (sqrt_lt hN (len_nonneg (t2.pos - t1.pos)) (by linarith : 0 ≤ r1 + r2)).mpr hlt
  rw [← lengthSq_eq] at hne
  have hsq := sq_lt hN hne
  have hv0 : 0 < (t2.pos - t1.pos).lengthSq := lt_trans hN.pos hne
  obtain ⟨s1, s2⟩ := scaled hN hv0
  have i1 : t1.inverse.act t2.pos = t1.ori.conj.rot (t2.pos - t1.pos) := by
    simp only [Trans.act, Trans.inverse, rot_sub, rot_neg]
    ext <;> simp only [V3.add_x, V3.add_y, V3.add_z, V3.sub_x, V3.sub_y, V3.sub_z, V3.neg_x, V3.neg_y, V3.neg_z] <;> ring
  have i2 : t2.inverse.act t1.pos = -t2.ori.conj.rot (t2.pos - t1.pos) := by
    simp only [Trans.act, Trans.inverse, rot_sub, rot_neg]
    ext <;> simp only [V3.add_x, V3.add_y, V3.add_z, V3.sub_x, V3.sub_y, V3.sub_z, V3.neg_x, V3.neg_y, V3.neg_z] <;> ring
  unfold sphereSphere
  dsimp only
  rw [if_pos hlt, if_pos (by linarith), if_pos rfl, if_pos hne]
  refine ⟨_, rfl, good_of_support (A1 := Center t1) (A2 := Center t2) (d0 := N.sqrt (t2.pos - t1.pos).lengthSq) (c1 := t1.pos) (c2 := t2.pos)
    (n := V3.smul (1 / N.sqrt (t2.pos - t1.pos).lengthSq) (t2.pos - t1.pos)) h1 h2 s1 (sqrt_pos hN.root hv0).1.le hroot rfl rfl ?_ ?_ ?_ ?_ ?_ ?_ ?_⟩
  · rw [s2]; ext <;> simp
  · rintro a rfl; simp [V3.dot]
  · rintro a rfl; simp [V3.dot]
  · rw [unit_eq hN hsq]
  · exact (max_eq_left (by linarith)).symm
  · rw [i1, rot_unit (unit_inverse u1), unit_eq hN hsq]
    simp only [Trans.act]
    rw [rot_smul, rot_conj' u1]
    ext <;> simp <;> ring
  · have e : -t2.ori.conj.rot (t2.pos - t1.pos) = t2.ori.conj.rot (-(t2.pos - t1.pos)) := (rot_neg _ _).symm
    have hl := len_neg (t2.pos - t1.pos)
    rw [i2, e, rot_unit (unit_inverse u2), unit_eq hN (v := -(t2.pos - t1.pos)) (by rw [hl]; exact hsq), hl]
    simp only [Trans.act]
    rw [rot_smul, rot_conj' u2]
    ext <;> simp <;> ring

/-! ### A sphere and a capsule -/

/-- The closest point of the inner segment used by the test. -/
theorem capsule_closest {N : Num K} (hN : Sane N) {h : K} (hh : N.eps ≤ h * h) (p : V3 K) :
    OnSeg ⟨0, -(h * (1 / 2)), 0⟩ ⟨0, h * (1 / 2), 0⟩ (closestOnSegment N.eps ⟨0, -(h * (1 / 2)), 0⟩ ⟨0, h * (1 / 2), 0⟩ p) ∧
    ∀ q, OnSeg ⟨0, -(h * (1 / 2)), 0⟩ ⟨0, h * (1 / 2), 0⟩ q →
      dist2 (closestOnSegment N.eps ⟨0, -(h * (1 / 2)), 0⟩ ⟨0, h * (1 / 2), 0⟩ p) p ≤ dist2 q p := by
  obtain ⟨c1, c2⟩ := closest_on_segment N.eps hN.pos ⟨0, -(h * (1 / 2)), 0⟩ ⟨0, h * (1 / 2), 0⟩ p
  refine ⟨c1, c2.resolve_right fun hs => ?_⟩
  have := hs.1
  have e : dist2 (⟨0, -(h * (1 / 2)), 0⟩ : V3 K) ⟨0, h * (1 / 2), 0⟩ = h * h := by simp only [dist2]; ring
  rw [e] at this
  linarith

theorem sphere_capsule_near {N : Num K} (hN : Sane N) {h : K} (hh : N.eps ≤ h * h) (p : V3 K) (s : K) :
    (∃ a b, a = p ∧ OnSeg ⟨0, -(h * (1 / 2)), 0⟩ ⟨0, h * (1 / 2), 0⟩ b ∧ dist2 a b < s) ↔
      (closestOnSegment N.eps ⟨0, -(h * (1 / 2)), 0⟩ ⟨0, h * (1 / 2), 0⟩ p - p).lengthSq < s := by
  obtain ⟨c1, c2⟩ := capsule_closest hN hh p
  have sy : ∀ a b : V3 K, dist2 a b = dist2 b a := fun a b => by simp only [dist2]; ring
  rw [lengthSq_eq]
  constructor
  · rintro ⟨a, b, rfl, hb, hlt⟩
    have := c2 b hb
    rw [sy a b] at hlt
    rw [sy]; linarith
  · intro hlt; exact ⟨p, _, rfl, c1, hlt⟩

/-- C89: a sphere and a capsule are reported to collide if and only if their interiors overlap, whichever comes first. -/
theorem sphere_capsule_overlap {N : Num K} (hN : Sane N) {ts tc : Trans K} (uc : tc.ori.lengthSq = 1) {rs rc h : K} (hs : 0 < rs) (hc : 0 < rc)
    (h0 : 0 < h) (hh : N.eps ≤ h * h) (first report : Bool) :
    (sphereCapsule N ts tc rs rc h first report).1 = true ↔ Meet (Around (Center ts) rs) (Around (Axis tc h) rc) := by
  rw [meet_frame uc hs hc (center_placed uc) (axis_self h0), sphere_capsule_near hN hh]
  unfold sphereCapsule
  dsimp only
  generalize hcl : closestOnSegment N.eps (⟨0, -(h * (1 / 2)), 0⟩ : V3 K) ⟨0, h * (1 / 2), 0⟩ (tc.inverse.mul ts).pos = cl
  by_cases hlt : (cl - (tc.inverse.mul ts).pos).lengthSq < (rs + rc) * (rs + rc)
  · rw [if_pos hlt]
    cases report
    · simp [hlt]
    · have hroot := (sqrt_lt hN (len_nonneg (cl - (tc.inverse.mul ts).pos)) (by linarith : 0 ≤ rs + rc)).mpr hlt
      rw [if_pos rfl]
      by_cases he : N.eps < (cl - (tc.inverse.mul ts).pos).lengthSq
      · rw [if_pos he, if_neg (by dsimp only; linarith)]; simp [hlt]
      · rw [if_neg he, if_neg (by dsimp only; linarith)]; simp [hlt]
  · rw [if_neg hlt]; simp [hlt]

/-- C90: the contact of a sphere and a capsule that overlap, with the center of the sphere off the inner segment. -/
theorem sphere_capsule_contact {N : Num K} (hN : Sane N) {ts tc : Trans K} (us : ts.ori.lengthSq = 1) (uc : tc.ori.lengthSq = 1) {rs rc h : K}
    (hs : 0 < rs) (hc : 0 < rc) (h0 : 0 < h) (hh : N.eps ≤ h * h) (hov : Meet (Around (Center ts) rs) (Around (Axis tc h) rc))
    (hne : ∀ a, Axis tc h a → N.eps < dist2 ts.pos a) :
    (∃ c, (sphereCapsule N ts tc rs rc h true true).2 = [c] ∧ Good 0 ts tc (Center ts) rs (Axis tc h) rc c) ∧
    (∃ c, (sphereCapsule N ts tc rs rc h false true).2 = [c] ∧ Good 0 tc ts (Axis tc h) rc (Center ts) rs c) := by
  have hlt := (sphere_capsule_near hN hh _ _).mp ((meet_frame uc hs hc (center_placed uc) (axis_self h0)).mp hov)
  obtain ⟨k1, k2⟩ := capsule_closest hN hh (tc.inverse.mul ts).pos
  unfold sphereCapsule
  dsimp only
  generalize hcl : closestOnSegment N.eps (⟨0, -(h * (1 / 2)), 0⟩ : V3 K) ⟨0, h * (1 / 2), 0⟩ (tc.inverse.mul ts).pos = cl at *
  have hp : tc.act (tc.inverse.mul ts).pos = ts.pos := by rw [← act_zero (tc.inverse.mul ts), frame_act uc, act_zero]
  have hne' : N.eps < (cl - (tc.inverse.mul ts).pos).lengthSq := by
    have := hne (tc.act cl) ((axis_self h0 _).mpr ⟨cl, k1, rfl⟩)
    rwa [← hp, act_dist uc, ← lengthSq_eq] at this
  have hroot := (sqrt_lt hN (len_nonneg (cl - (tc.inverse.mul ts).pos)) (by linarith : 0 ≤ rs + rc)).mpr hlt
  have hv0 : 0 < (cl - (tc.inverse.mul ts).pos).lengthSq := lt_trans hN.pos hne'
  obtain ⟨s1, s2⟩ := scaled hN hv0
  have l0 := (sqrt_pos hN.root hv0).1
  have sup : ∀ a, OnSeg ⟨0, -(h * (1 / 2)), 0⟩ ⟨0, h * (1 / 2), 0⟩ a →
      0 ≤ (V3.smul (1 / N.sqrt (cl - (tc.inverse.mul ts).pos).lengthSq) (cl - (tc.inverse.mul ts).pos)).dot (a - cl) := by
    intro a ha
    have q := closest_supports (L := OnSeg ⟨0, -(h * (1 / 2)), 0⟩ ⟨0, h * (1 / 2), 0⟩) (fun x y s hx hy s0 s1 => seg_mix hx hy s0 s1) k1 k2 ha
    have e : (V3.smul (1 / N.sqrt (cl - (tc.inverse.mul ts).pos).lengthSq) (cl - (tc.inverse.mul ts).pos)).dot (a - cl) =
        (1 / N.sqrt (cl - (tc.inverse.mul ts).pos).lengthSq) * -(((tc.inverse.mul ts).pos - cl).dot (a - cl)) := by
      simp only [V3.dot, V3.smul_x, V3.smul_y, V3.smul_z, V3.sub_x, V3.sub_y, V3.sub_z]; ring
    rw [e]
    exact mul_nonneg (one_div_pos.mpr l0).le (by linarith)
  simp only [if_pos hlt, if_pos hne', if_true, if_neg (show ¬ rs + rc - N.sqrt (cl - (tc.inverse.mul ts).pos).lengthSq ≤ 0 by linarith)]
  generalize hl : N.sqrt (cl - (tc.inverse.mul ts).pos).lengthSq = l at *
  constructor
  · refine ⟨_, rfl, good_frame uc (center_placed uc) (axis_self h0) (d0 := l) (c1 := (tc.inverse.mul ts).pos) (c2 := cl)
      (n := V3.smul (1 / l) (cl - (tc.inverse.mul ts).pos)) hs hc s1 l0.le hroot rfl k1 ?_ ?_ sup ?_ ?_ ?_ ?_⟩
    · rw [s2]; ext <;> simp
    · rintro a rfl; simp [V3.dot]
    · simp
    · exact (max_eq_left (by linarith)).symm
    · simp only [if_true]; rw [frame_back us uc]
    · simp only [if_true]
  · refine ⟨_, rfl, good_frame uc (axis_self h0) (center_placed uc) (d0 := l) (c1 := cl) (c2 := (tc.inverse.mul ts).pos)
      (n := -V3.smul (1 / l) (cl - (tc.inverse.mul ts).pos)) hc hs ?_ l0.le (by linarith) k1 rfl ?_ ?_ ?_ ?_ ?_ ?_ ?_⟩
    · rw [len_neg, s1]
    · have : V3.smul l (-V3.smul (1 / l) (cl - (tc.inverse.mul ts).pos)) = -(cl - (tc.inverse.mul ts).pos) := by
        rw [smul_neg', s2]
      rw [this]; ext <;> simp
    · intro a ha
      have := sup a ha
      have e : ∀ u v : V3 K, (-u).dot v = -(u.dot v) := fun u v => by simp only [V3.dot, V3.neg_x, V3.neg_y, V3.neg_z]; ring
      rw [e]; linarith
    · rintro a rfl; simp [V3.dot]
    · simp [rot_neg]
    · rw [add_comm rc rs]; exact (max_eq_left (by linarith)).symm
    · simp only [Bool.false_eq_true, if_false]
      congr 1; ext <;> simp <;> ring
    · simp only [Bool.false_eq_true, if_false]; rw [frame_back us uc]
      congr 1; ext <;> simp <;> ring

/-- C90: the contact of a sphere (shape 1) whose center is on the inner segment of a capsule. -/
theorem centered_sphere_contact {N : Num K} (hN : Sane N) {ts tc : Trans K} (us : ts.ori.lengthSq = 1) (uc : tc.ori.lengthSq = 1) {rs rc h : K}
    (hs : 0 < rs) (hc : 0 < rc) (h0 : 0 < h) (hh : N.eps < h * h) (hon : Axis tc h ts.pos) :
    ∃ c, (sphereCapsule N ts tc rs rc h true true).2 = [c] ∧ Good 0 ts tc (Center ts) rs (Axis tc h) rc c := by
  obtain ⟨k1, k2⟩ := capsule_closest hN hh.le (tc.inverse.mul ts).pos
  have hp : tc.act (tc.inverse.mul ts).pos = ts.pos := by rw [← act_zero (tc.inverse.mul ts), frame_act uc, act_zero]
  obtain ⟨y, hy, e⟩ := (axis_self h0 _).mp hon
  have hyp : y = (tc.inverse.mul ts).pos := by
    rw [← hp] at e
    have := congrArg tc.inverse.act e
    rwa [trans_inverse_act uc, trans_inverse_act uc, eq_comm] at this
  rw [hyp] at hy
  have hsum : 0 < rs + rc := by linarith
  have hlen : ((⟨0, h * (1 / 2), 0⟩ : V3 K) - ⟨0, -(h * (1 / 2)), 0⟩).lengthSq = h * h := by
    simp only [V3.lengthSq, V3.sub_x, V3.sub_y, V3.sub_z]; ring
  have hroot : N.sqrt (h * h) = h := by
    obtain ⟨m0, m1⟩ := hN.root (h * h) (mul_self_nonneg h)
    exact (mul_self_inj m0 h0.le).mp m1
  have hu : unit N.eps N.sqrt ((⟨0, h * (1 / 2), 0⟩ : V3 K) - ⟨0, -(h * (1 / 2)), 0⟩) = ⟨0, 1, 0⟩ := by
    rw [unit_eq hN (by rw [hlen]; exact sq_lt hN hh), hlen, hroot]
    have hne := ne_of_gt h0
    ext
    · simp
    · simp only [V3.smul_y, V3.sub_y]; field_simp; ring
    · simp
  unfold sphereCapsule
  dsimp only
  rw [hu]
  generalize closestOnSegment N.eps (⟨0, -(h * (1 / 2)), 0⟩ : V3 K) ⟨0, h * (1 / 2), 0⟩ (tc.inverse.mul ts).pos = cl at *
  have hd : (cl - (tc.inverse.mul ts).pos).lengthSq = 0 := by
    have := k2 _ hy
    have hxx : dist2 (tc.inverse.mul ts).pos (tc.inverse.mul ts).pos = 0 := by simp [dist2]
    rw [hxx, dist2_symm, ← lengthSq_eq] at this
    exact le_antisymm this (len_nonneg _)
  have hn : (if |(0 : K)| < |1| then (⟨0, 1, 0⟩ : V3 K).cross ⟨1, 0, 0⟩ else (⟨0, 1, 0⟩ : V3 K).cross ⟨0, 1, 0⟩) = ⟨0, 0, -1⟩ := by
    rw [if_pos (by simp)]; ext <;> simp [V3.cross]
  rw [hd, if_pos (mul_pos hsum hsum), if_pos rfl, if_neg (not_lt.mpr hN.pos.le), hn, if_neg (not_le.mpr hsum)]
  refine ⟨_, rfl, good_frame uc (center_placed uc) (axis_self h0) (d0 := 0) (c1 := (tc.inverse.mul ts).pos) (c2 := (tc.inverse.mul ts).pos) (n := ⟨0, 0, -1⟩)
    hs hc (by simp [V3.lengthSq]) le_rfl hsum rfl hy ?_ ?_ ?_ rfl ?_ ?_ ?_⟩
  · ext <;> simp
  · rintro a rfl; simp [V3.dot]
  · intro a ha
    obtain ⟨z, _, _, rfl⟩ := (axis_seg h0 _).mp ha
    obtain ⟨w, _, _, e⟩ := (axis_seg h0 _).mp hy
    rw [e]; simp [V3.dot]
  · rw [sub_zero]; exact (max_eq_left hsum.le).symm
  · simp only [if_true]; rw [frame_back us uc]
  · simp only [if_true]

end RoundProps
end RP3D
