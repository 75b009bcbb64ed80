import Verif.Props.RoundPairs
import Verif.Props.RayExamples

/-! C89–C91: examples of the hypotheses, and the cases in which the tests are wrong. -/

namespace RP3D
namespace RoundProps
open Ray Shape RayProps PointProps Geom GeomProps Round

/-- The constants of the library (single precision), with the exact square root. -/
noncomputable def N0 : Num ℝ := ⟨1 / 8388608, 1 / 100000, 1 / 10000, Real.sqrt⟩

theorem sane0 : Sane N0 := ⟨by norm_num [N0], by norm_num [N0], realSqrt⟩

/-- Poses: at a place; flipped upside down; turned so that the axis of a capsule is along z. -/
def place (x y z : ℝ) : Trans ℝ := ⟨⟨x, y, z⟩, ⟨0, 0, 0, 1⟩⟩
def flipped (x y z : ℝ) : Trans ℝ := ⟨⟨x, y, z⟩, ⟨0, 0, 1, 0⟩⟩
noncomputable def turned (x y z : ℝ) : Trans ℝ := ⟨⟨x, y, z⟩, ⟨1 / 2, 1 / 2, 1 / 2, 1 / 2⟩⟩

theorem place_act (x y z : ℝ) (v : V3 ℝ) : (place x y z).act v = ⟨v.x + x, v.y + y, v.z + z⟩ := by
  ext <;> simp [place, Trans.act, Quat.rot]

theorem flipped_act (x y z : ℝ) (v : V3 ℝ) : (flipped x y z).act v = ⟨-v.x + x, -v.y + y, v.z + z⟩ := by
  ext <;> simp [flipped, Trans.act, Quat.rot]

theorem turned_act (x y z : ℝ) (v : V3 ℝ) : (turned x y z).act v = ⟨v.z + x, v.x + y, v.y + z⟩ := by
  ext <;> simp [turned, Trans.act, Quat.rot] <;> ring

theorem sqrt_val {x y : ℝ} (hy : 0 ≤ y) (h : x = y * y) : N0.sqrt x = y := by
  rw [h]; exact Real.sqrt_mul_self hy

/-! ### Examples -/

theorem meet_of {A B : V3 ℝ → Prop} {r1 r2 : ℝ} {a b : V3 ℝ} (ha : A a) (hb : B b) (h1 : 0 < r1) (h2 : 0 < r2)
    (h : dist2 a b < (r1 + r2) * (r1 + r2)) : Meet (Around A r1) (Around B r2) := (around_meet h1 h2).mpr ⟨a, b, ha, hb, h⟩

/-- Two overlapping spheres. -/
example : (place 0 0 0).ori.lengthSq = 1 ∧ N0.eps < dist2 (place 0 0 0).pos (place 1 0 0).pos ∧
    Meet (Around (Center (place 0 0 0)) 1) (Around (Center (place 1 0 0)) 1) :=
  ⟨by norm_num [place, Quat.lengthSq], by norm_num [place, dist2, N0], meet_of rfl rfl one_pos one_pos (by norm_num [place, dist2])⟩

/-- A sphere beside a capsule. -/
example : (turned 0 0 0).ori.lengthSq = 1 ∧ N0.eps ≤ (2 : ℝ) * 2 ∧ Meet (Around (Center (place 1 0 0)) 1) (Around (Axis (turned 0 0 0) 2) 1) ∧
    ∀ a, Axis (turned 0 0 0) 2 a → N0.eps < dist2 (place 1 0 0).pos a := by
  refine ⟨by norm_num [turned, Quat.lengthSq], by norm_num [N0], meet_of (a := ⟨1, 0, 0⟩) (b := ⟨0, 0, 0⟩) rfl ⟨0, by norm_num, by norm_num, ?_⟩
    one_pos one_pos (by norm_num [dist2]), ?_⟩
  · rw [turned_act]; norm_num
  · rintro a ⟨y, _, _, rfl⟩
    rw [turned_act]
    simp only [dist2, place, N0]
    nlinarith [mul_self_nonneg y]

/-- A sphere centered in a capsule. -/
example : N0.eps < (2 : ℝ) * 2 ∧ Axis (place 0 0 0) 2 (place 0 (1 / 2) 0).pos :=
  ⟨by norm_num [N0], 1 / 2, by norm_num, by norm_num, by rw [place_act]; simp [place]⟩

theorem dir_place (x y z h : ℝ) : Dir (place x y z) h = ⟨0, h, 0⟩ := by
  unfold Dir; rw [place_act, place_act]; ext <;> simp

theorem dir_flipped (x y z h : ℝ) : Dir (flipped x y z) h = ⟨0, -h, 0⟩ := by
  unfold Dir; rw [flipped_act, flipped_act]; ext <;> simp; ring

theorem dir_turned (x y z h : ℝ) : Dir (turned x y z) h = ⟨0, 0, h⟩ := by
  unfold Dir; rw [turned_act, turned_act]; ext <;> simp

/-- Two capsules at right angles: clearly not parallel, overlapping, with inner segments that stay apart. -/
example : Clear N0 (turned 1 0 0) 2 (place 0 0 0) 2 ∧ Meet (Around (Axis (turned 1 0 0) 2) 1) (Around (Axis (place 0 0 0) 2) 1) ∧
    ∀ a b, Axis (turned 1 0 0) 2 a → Axis (place 0 0 0) 2 b → N0.eps < dist2 a b := by
  refine ⟨Or.inl ?_, meet_of (a := ⟨1, 0, 0⟩) (b := ⟨0, 0, 0⟩) ⟨0, by norm_num, by norm_num, ?_⟩ ⟨0, by norm_num, by norm_num, ?_⟩ one_pos one_pos
    (by norm_num [dist2]), ?_⟩
  · rw [dir_turned, dir_place]; norm_num [V3.cross, V3.lengthSq, N0]
  · rw [turned_act]; norm_num
  · rw [place_act]; norm_num
  · rintro a b ⟨y, _, _, rfl⟩ ⟨z, _, _, rfl⟩
    rw [turned_act, place_act]
    simp only [dist2, N0]
    nlinarith [mul_self_nonneg y, mul_self_nonneg z]

/-- Two capsules at right angles whose inner segments cross. -/
example : N0.eps * N0.eps < N0.par ∧ N0.par ≤ ((Dir (turned 0 0 0) 2).cross (Dir (place 0 0 0) 2)).lengthSq ∧
    Meet (Axis (turned 0 0 0) 2) (Axis (place 0 0 0) 2) := by
  refine ⟨by norm_num [N0], ?_, 0, ⟨0, by norm_num, by norm_num, ?_⟩, 0, by norm_num, by norm_num, ?_⟩
  · rw [dir_turned, dir_place]; norm_num [V3.cross, V3.lengthSq, N0]
  · rw [turned_act]; ext <;> simp
  · rw [place_act]; ext <;> simp

/-- Two capsules side by side that point the same way. -/
example : 0 < N0.par ∧ 0 ≤ N0.plane ∧ (Dir (place 0 0 0) 2).cross (Dir (place 1 (1 / 2) 0) 2) = 0 ∧
    N0.plane < (Dir (place 0 0 0) 2).dot (Dir (place 1 (1 / 2) 0) 2) ∧
    Meet (Around (Axis (place 0 0 0) 2) 1) (Around (Axis (place 1 (1 / 2) 0) 2) 1) ∧ Beside (place 0 0 0) 2 (place 1 (1 / 2) 0) 2 := by
  refine ⟨by norm_num [N0], by norm_num [N0], ?_, ?_, ?_, ?_⟩
  · rw [dir_place, dir_place]; ext <;> simp [V3.cross]
  · rw [dir_place, dir_place]; norm_num [V3.dot, N0]
  · refine meet_of (a := ⟨0, 0, 0⟩) (b := ⟨1, 0, 0⟩) ⟨0, by norm_num, by norm_num, ?_⟩ ⟨-1 / 2, by norm_num, by norm_num, ?_⟩ one_pos one_pos (by norm_num [dist2])
    · rw [place_act]; norm_num
    · rw [place_act]; norm_num
  · refine ⟨⟨0, 0, 0⟩, ⟨1, 0, 0⟩, ⟨0, 1, 0⟩, ⟨1, 1, 0⟩, ⟨0, by norm_num, by norm_num, ?_⟩, ⟨-1 / 2, by norm_num, by norm_num, ?_⟩,
      ⟨1, by norm_num, by norm_num, ?_⟩, ⟨1 / 2, by norm_num, by norm_num, ?_⟩, ?_, ?_, ?_⟩
    all_goals first | (rw [place_act]; norm_num; done) | (rw [dir_place]; simp [V3.dot]; done) | simp

/-! ### Disagreements -/

/-- Not C89: two thin capsules of height 5 cm at right angles whose inner segments cross are reported not to collide: the product of their lengths is so
small that they count as parallel. -/
theorem small_capsules_missed :
    (capsuleCapsule N0 (turned 0 0 0) (place 0 (-1 / 50) 0) (1 / 100) (1 / 20) (1 / 100) (1 / 20) true).1 = false ∧
    Meet (Axis (turned 0 0 0) (1 / 20)) (Axis (place 0 (-1 / 50) 0) (1 / 20)) ∧
    Meet (Around (Axis (turned 0 0 0) (1 / 20)) (1 / 100)) (Around (Axis (place 0 (-1 / 50) 0) (1 / 20)) (1 / 100)) := by
  have m1 : Axis (turned 0 0 0) (1 / 20) 0 := ⟨0, by norm_num, by norm_num, by rw [turned_act]; ext <;> simp⟩
  have m2 : Axis (place 0 (-1 / 50) 0) (1 / 20) 0 := ⟨1 / 50, by norm_num, by norm_num, by rw [place_act]; ext <;> norm_num⟩
  have f : ∀ v : V3 ℝ, ((place 0 (-1 / 50) 0).inverse.mul (turned 0 0 0)).act v = ⟨v.z, v.x + 1 / 50, v.y⟩ := fun v => by
    rw [trans_mul_act, turned_act]
    ext <;> norm_num [place, Trans.act, Trans.inverse, Quat.rot, Quat.conj]
  refine ⟨?_, ⟨0, m1, m2⟩, meet_of m1 m2 (by norm_num) (by norm_num) (by norm_num [dist2])⟩
  unfold capsuleCapsule
  dsimp only
  rw [f, f]
  rw [if_pos (by norm_num [parallel, V3.cross, V3.lengthSq, N0]), if_pos]
  unfold lineDistance
  dsimp only
  rw [sqrt_val (y := 1 / 20) (by norm_num) (by norm_num [V3.lengthSq]), if_neg (by norm_num [N0]),
    sqrt_val (y := 9 / 4000) (by norm_num) (by norm_num [V3.lengthSq, V3.cross])]
  norm_num

theorem small_capsules_missed_negates : ¬ ∀ (t1 t2 : Trans ℝ) (r1 h1 r2 h2 : ℝ), t1.ori.lengthSq = 1 → t2.ori.lengthSq = 1 → 0 < r1 → 0 < r2 → N0.eps < h1 * h1 →
    N0.eps < h2 * h2 → 0 < h1 → 0 < h2 → ((capsuleCapsule N0 t1 t2 r1 h1 r2 h2 true).1 = true ↔ Meet (Around (Axis t1 h1) r1) (Around (Axis t2 h2) r2)) := by
  intro h
  have := (h (turned 0 0 0) (place 0 (-1 / 50) 0) (1 / 100) (1 / 20) (1 / 100) (1 / 20) (by norm_num [turned, Quat.lengthSq]) (by norm_num [place, Quat.lengthSq])
    (by norm_num) (by norm_num) (by norm_num [N0]) (by norm_num [N0]) (by norm_num) (by norm_num)).mpr small_capsules_missed.2.2
  rw [small_capsules_missed.1] at this
  exact absurd this (by simp)

/-- Not C90: two spheres with the same center get a contact whose points are not separated along the normal; the point of sphere 2 is on the wrong side. -/
theorem same_center_wrong : ∃ c, (sphereSphere N0 (place 0 0 0) (place 0 0 0) 1 2 true).2 = [c] ∧ ∀ tol,
    ¬ Good tol (place 0 0 0) (place 0 0 0) (Center (place 0 0 0)) 1 (Center (place 0 0 0)) 2 c := by
  unfold sphereSphere
  dsimp only
  rw [if_pos (by norm_num [place, V3.lengthSq]), if_pos, if_pos rfl, if_neg]
  · refine ⟨_, rfl, fun tol hg => ?_⟩
    obtain ⟨d, d0, e, _⟩ := hg.deep
    have := congrArg V3.y e
    simp [place, Trans.act, Trans.inverse, Quat.rot, Quat.conj] at this
    linarith
  · norm_num [place, V3.lengthSq, N0]
  · rw [sqrt_val (y := 0) le_rfl (by norm_num [place, V3.lengthSq])]; norm_num

/-- Not C90: a capsule (shape 1) and a sphere centered on its inner segment get a contact with the opposite normal: the points are separated against it. -/
theorem centered_sphere_wrong : ∃ c, (sphereCapsule N0 (place 0 0 0) (place 0 0 0) 1 1 2 false true).2 = [c] ∧ ∀ tol,
    ¬ Good tol (place 0 0 0) (place 0 0 0) (Axis (place 0 0 0) 2) 1 (Center (place 0 0 0)) 1 c := by
  have f : (place 0 0 0).inverse.mul (place 0 0 0) = place 0 0 0 := by
    ext <;> norm_num [place, Trans.mul, Trans.inverse, Quat.rot, Quat.conj, Quat.mul]
  have g : (place 0 0 0).inverse = place 0 0 0 := by
    ext <;> norm_num [place, Trans.inverse, Quat.rot, Quat.conj]
  have hcl : closestOnSegment N0.eps (⟨0, -(2 * (1 / 2)), 0⟩ : V3 ℝ) ⟨0, 2 * (1 / 2), 0⟩ (place 0 0 0).pos = 0 := by
    unfold closestOnSegment
    dsimp only
    rw [if_neg (by norm_num [V3.lengthSq, N0])]
    ext <;> norm_num [place, V3.dot, V3.lengthSq]
  have hu : unit N0.eps N0.sqrt ((⟨0, 2 * (1 / 2), 0⟩ : V3 ℝ) - ⟨0, -(2 * (1 / 2)), 0⟩) = ⟨0, 1, 0⟩ := by
    rw [unit_eq sane0 (by norm_num [V3.lengthSq, N0]), sqrt_val (y := 2) (by norm_num) (by norm_num [V3.lengthSq])]
    ext <;> norm_num
  unfold sphereCapsule
  dsimp only
  rw [f, hcl, hu, g]
  rw [if_pos (by norm_num [place, V3.lengthSq]), if_pos rfl, if_neg (not_lt.mpr (by norm_num [place, V3.lengthSq, N0])), if_neg (by norm_num)]
  refine ⟨_, rfl, fun tol hg => ?_⟩
  obtain ⟨d, d0, e, _⟩ := hg.deep
  have := congrArg V3.z e
  simp [place, Trans.act, Quat.rot, V3.cross] at this
  linarith

theorem flip_frame (x y z : ℝ) (v : V3 ℝ) : ((flipped x y z).inverse.mul (place 0 0 0)).act v = ⟨x - v.x, y - v.y, v.z - z⟩ := by
  rw [trans_mul_act, place_act]
  ext <;> norm_num [flipped, Trans.act, Trans.inverse, Quat.rot, Quat.conj] <;> ring

/-- Not C91: the same two capsules side by side get one contact if one of them is upside down. -/
theorem flipped_capsules_one_contact :
    (∃ c, (capsuleCapsule N0 (place 0 0 0) (flipped 1 (1 / 2) 0) 1 2 1 2 true).2 = [c]) ∧
    Beside (place 0 0 0) 2 (flipped 1 (1 / 2) 0) 2 ∧ Meet (Around (Axis (place 0 0 0) 2) 1) (Around (Axis (flipped 1 (1 / 2) 0) 2) 1) ∧
    (∀ x, Axis (flipped 1 (1 / 2) 0) 2 x ↔ Axis (place 1 (1 / 2) 0) 2 x) := by
  have hax : ∀ x, Axis (flipped 1 (1 / 2) 0) 2 x ↔ Axis (place 1 (1 / 2) 0) 2 x := by
    intro x
    constructor
    · rintro ⟨y, y0, y1, rfl⟩
      refine ⟨-y, by linarith, by linarith, ?_⟩
      rw [flipped_act, place_act]; ext <;> simp
    · rintro ⟨y, y0, y1, rfl⟩
      refine ⟨-y, by linarith, by linarith, ?_⟩
      rw [flipped_act, place_act]; ext <;> simp
  refine ⟨?_, ?_, ?_, hax⟩
  · have hpar : parallel N0 ((⟨1, -(1 / 2), 0⟩ : V3 ℝ) - ⟨1, 3 / 2, 0⟩) ((⟨0, 1, 0⟩ : V3 ℝ) - ⟨0, -1, 0⟩) := by
      norm_num [parallel, V3.cross, V3.lengthSq, N0]
    have hdist : ¬ (2 : ℝ) ≤ lineDistance N0 ⟨1, 3 / 2, 0⟩ ⟨1, -(1 / 2), 0⟩ ⟨0, -1, 0⟩ := by
      unfold lineDistance
      dsimp only
      rw [sqrt_val (y := 2) (by norm_num) (by norm_num [V3.lengthSq]), if_neg (by norm_num [N0]),
        sqrt_val (y := 2) (by norm_num) (by norm_num [V3.lengthSq, V3.cross])]
      norm_num
    have hcs : closestSegments N0.eps (⟨1, 3 / 2, 0⟩ : V3 ℝ) ⟨1, -(1 / 2), 0⟩ ⟨0, -1, 0⟩ ⟨0, 1, 0⟩ = (⟨1, 1, 0⟩, ⟨0, 1, 0⟩) := by
      unfold closestSegments
      norm_num [V3.lengthSq, V3.dot, N0, closestParams, clamp]
      constructor <;> ext <;> norm_num
    unfold capsuleCapsule
    dsimp only
    rw [flip_frame, flip_frame]
    norm_num only
    rw [if_pos hpar, if_neg hdist, if_neg]
    · unfold closestContact
      rw [hcs]
      dsimp only
      rw [if_pos (by norm_num [V3.lengthSq]), if_pos rfl, if_pos (by norm_num [V3.lengthSq, N0])]
      exact ⟨_, rfl⟩
    · norm_num [planeSegment, V3.dot, N0]
  · refine ⟨⟨0, 0, 0⟩, ⟨1, 0, 0⟩, ⟨0, 1, 0⟩, ⟨1, 1, 0⟩, ⟨0, by norm_num, by norm_num, ?_⟩, (hax _).mpr ⟨-1 / 2, by norm_num, by norm_num, ?_⟩,
      ⟨1, by norm_num, by norm_num, ?_⟩, (hax _).mpr ⟨1 / 2, by norm_num, by norm_num, ?_⟩, ?_, ?_, ?_⟩
    all_goals first | (rw [place_act]; norm_num; done) | (rw [dir_place]; simp [V3.dot]; done) | simp
  · refine meet_of (a := ⟨0, 0, 0⟩) (b := ⟨1, 0, 0⟩) ⟨0, by norm_num, by norm_num, ?_⟩ ((hax _).mpr ⟨-1 / 2, by norm_num, by norm_num, ?_⟩) one_pos one_pos (by norm_num [dist2])
    · rw [place_act]; norm_num
    · rw [place_act]; norm_num

/-- Not C90: two equal capsules at the same place, one of them upside down, get a contact along the axis whose depth does not separate them. -/
theorem flipped_same_place_wrong : ∃ c, (capsuleCapsule N0 (place 0 0 0) (flipped 0 0 0) (1 / 2) 2 (1 / 2) 2 true).2 = [c] ∧
    Meet (Around (Axis (place 0 0 0) 2) (1 / 2)) (Around (Moved (Axis (flipped 0 0 0) 2) (V3.smul c.depth c.normal)) (1 / 2)) := by
  have hpar : parallel N0 ((⟨0, -1, 0⟩ : V3 ℝ) - ⟨0, 1, 0⟩) ((⟨0, 1, 0⟩ : V3 ℝ) - ⟨0, -1, 0⟩) := by
    norm_num [parallel, V3.cross, V3.lengthSq, N0]
  have hdist : ¬ (1 : ℝ) ≤ lineDistance N0 ⟨0, 1, 0⟩ ⟨0, -1, 0⟩ ⟨0, -1, 0⟩ := by
    unfold lineDistance
    dsimp only
    rw [sqrt_val (y := 2) (by norm_num) (by norm_num [V3.lengthSq]), if_neg (by norm_num [N0]),
      sqrt_val (y := 0) (by norm_num) (by norm_num [V3.lengthSq, V3.cross])]
    norm_num
  have hcs : closestSegments N0.eps (⟨0, 1, 0⟩ : V3 ℝ) ⟨0, -1, 0⟩ ⟨0, -1, 0⟩ ⟨0, 1, 0⟩ = (⟨0, 1, 0⟩, ⟨0, 1, 0⟩) := by
    unfold closestSegments
    norm_num [V3.lengthSq, V3.dot, N0, closestParams, clamp]
    constructor <;> ext <;> norm_num
  have hu : unit N0.eps N0.sqrt ((⟨0, 1, 0⟩ : V3 ℝ) - ⟨0, -1, 0⟩) = ⟨0, 1, 0⟩ := by
    rw [unit_eq sane0 (by norm_num [V3.lengthSq, N0]), sqrt_val (y := 2) (by norm_num) (by norm_num [V3.lengthSq])]
    ext <;> norm_num
  unfold capsuleCapsule
  dsimp only
  rw [flip_frame, flip_frame]
  norm_num only
  rw [if_pos hpar, if_neg hdist, if_neg]
  · unfold closestContact
    rw [hcs]
    dsimp only
    rw [if_pos (by norm_num [V3.lengthSq]), if_pos rfl, if_neg (by norm_num [V3.lengthSq, N0]), if_pos hpar, if_neg (by norm_num [V3.lengthSq, N0]), hu]
    refine ⟨_, rfl, meet_of (a := ⟨0, 0, 0⟩) (b := ⟨0, 0, 0⟩) ⟨0, by norm_num, by norm_num, by rw [place_act]; ext <;> simp⟩ ⟨⟨0, 1, 0⟩, ⟨-1, by norm_num, by norm_num, by rw [flipped_act]; ext <;> simp⟩, ?_⟩
      (by norm_num) (by norm_num) (by norm_num [dist2])⟩
    ext <;> norm_num [flipped, Quat.rot]
  · norm_num [planeSegment, V3.dot, N0]

end RoundProps
end RP3D
