import Verif.Props.Gjk
import Verif.Props.RayExamples

/-! C98-C100: cases that meet the hypotheses, and the two cases where the test goes wrong. -/

namespace RP3D
namespace GjkProps
open Ray Shape RayProps PointProps RoundProps Geom GeomProps Round Gjk

/-- The constants of the program. -/
noncomputable def std : Cfg ℝ := ⟨1 / 8388608, 1 / 10000, 1 / 1000000, 340282346638528859811704183484516925440, 1 / 1000000, Real.sqrt⟩

/-- The center of a ball, and the pose of something that is not turned. -/
def Dot (x : V3 ℝ) : Prop := x = 0
def dot0 (_ : V3 ℝ) : V3 ℝ := 0
def put (x y z : ℝ) : Trans ℝ := ⟨⟨x, y, z⟩, ⟨0, 0, 0, 1⟩⟩

theorem std_ok : std.Ok := by constructor <;> norm_num [std]

theorem put_act (x y z : ℝ) (v : V3 ℝ) : (put x y z).act v = ⟨x + v.x, y + v.y, z + v.z⟩ := by
  ext <;> simp [put, Trans.act, Quat.rot] <;> ring

theorem box_convex (h : V3 ℝ) : Convex (Box h) := by
  rintro x y s ⟨⟨a1, a2⟩, ⟨a3, a4⟩, a5, a6⟩ ⟨⟨b1, b2⟩, ⟨b3, b4⟩, b5, b6⟩ h0 h1
  refine ⟨⟨?_, ?_⟩, ⟨?_, ?_⟩, ?_, ?_⟩ <;>
    simp only [V3.add_x, V3.add_y, V3.add_z, V3.smul_x, V3.smul_y, V3.smul_z] <;> nlinarith

/-- A ball at the origin and a box beside it are a pair. -/
theorem ball_box {h : V3 ℝ} {x y z : ℝ} (hx : 0 ≤ h.x) (hy : 0 ≤ h.y) (hz : 0 ≤ h.z) (hx2 : h.x ≤ 2) (hy2 : h.y ≤ 2) (hz2 : h.z ≤ 2)
    (ax : |x| ≤ 2) (ay : |y| ≤ 2) (az : |z| ≤ 2) : Pair std Dot (Box h) dot0 (boxSupport h) (put 0 0 0) (put x y z) 48 := by
  refine ⟨std_ok, by norm_num [std], realSqrt, ?_, box_convex h, ?_, box_support hx hy hz, ?_, ?_, ?_, by norm_num, by norm_num [std], by norm_num [std]⟩
  · rintro a b s rfl rfl _ _
    simp [Dot]; ext <;> simp
  · rintro d
    refine ⟨rfl, ?_⟩
    rintro a rfl
    exact le_refl _
  · norm_num [put, Quat.lengthSq]
  · norm_num [put, Quat.lengthSq]
  · rintro a b ⟨a, rfl, rfl⟩ ⟨b, ⟨⟨b1, b2⟩, ⟨b3, b4⟩, b5, b6⟩, rfl⟩
    rw [put_act, put_act]
    rw [abs_le] at ax ay az
    have key : ∀ p q : ℝ, -2 ≤ p → p ≤ 2 → -2 ≤ q → q ≤ 2 → (p + q) * (p + q) ≤ 16 := fun p q h1 h2 h3 h4 => by nlinarith
    have k1 := key x b.x ax.1 ax.2 (by linarith) (by linarith)
    have k2 := key y b.y ay.1 ay.2 (by linarith) (by linarith)
    have k3 := key z b.z az.1 az.2 (by linarith) (by linarith)
    simp only [dist2, V3.zero_x, V3.zero_y, V3.zero_z]
    nlinarith

theorem seen_box (x y z : ℝ) (h v : V3 ℝ) : supportB (put 0 0 0) (put x y z) (boxSupport h) v =
    ⟨x + if v.x < 0 then -h.x else h.x, y + if v.y < 0 then -h.y else h.y, z + if v.z < 0 then -h.z else h.z⟩ := by
  have e : ∀ a : V3 ℝ, ((put 0 0 0).inverse.mul (put x y z)).act a = ⟨x + a.x, y + a.y, z + a.z⟩ := by
    intro a
    rw [trans_mul_act, put_act]
    simp only [put, Trans.inverse, Trans.act]
    ext <;> simp [Quat.rot, Quat.conj]
  have e2 : ((put x y z).ori.conj.mul (put 0 0 0).ori).rot v = v := by
    ext <;> simp [put, Quat.rot, Quat.conj, Quat.mul]
  unfold supportB
  rw [e, e2]
  rfl

/-- A turn that goes on or ends, for a ball and a box. -/
theorem start_none {m : ℝ} (hm : 0 < m) : Gjk.start std m none = some ⟨.empty, ⟨0, 1, 0⟩, std.large⟩ := by
  unfold Gjk.start; rw [if_pos hm]

theorem reduce_pair (p q : Pt ℝ) : reduce 3 [p, q] = [p, q] := rfl

/-! ### A ball of radius 1 beside a wall -/

theorem wall_run : run std (put 0 0 0) (put (-1) (-2) (-2)) dot0 (boxSupport ⟨1 / 2, 2, 2⟩) 1 0 none 2 =
    some (.done ⟨⟨[⟨⟨1 / 2, 0, 0⟩, 0, ⟨-1 / 2, 0, 0⟩⟩], ⟨1 / 2, 0, 0⟩, 0, ⟨-1 / 2, 0, 0⟩, true⟩, ⟨1 / 2, 0, 0⟩, 1 / 4⟩ .inSimplex) := by
  unfold run
  rw [start_none (by norm_num)]
  simp only [Option.map_some, loop]
  have s1 : step std (supportA dot0) (supportB (put 0 0 0) (put (-1) (-2) (-2)) (boxSupport ⟨1 / 2, 2, 2⟩)) (1 + 0) ⟨.empty, ⟨0, 1, 0⟩, std.large⟩ =
      some (⟨⟨[⟨⟨1 / 2, 0, 0⟩, 0, ⟨-1 / 2, 0, 0⟩⟩], ⟨1 / 2, 0, 0⟩, 0, ⟨-1 / 2, 0, 0⟩, true⟩, ⟨1 / 2, 0, 0⟩, 1 / 4⟩, none) := by
    norm_num [step, seen_box, supportA, dot0, V3.dot, V3.lengthSq, inSimplex, std, Simplex.empty, addPoint, dependent, recompute, validCoords, maxLength]
    norm_num [V3.ext_iff]
  have s2 : step std (supportA dot0) (supportB (put 0 0 0) (put (-1) (-2) (-2)) (boxSupport ⟨1 / 2, 2, 2⟩)) (1 + 0)
      ⟨⟨[⟨⟨1 / 2, 0, 0⟩, 0, ⟨-1 / 2, 0, 0⟩⟩], ⟨1 / 2, 0, 0⟩, 0, ⟨-1 / 2, 0, 0⟩, true⟩, ⟨1 / 2, 0, 0⟩, 1 / 4⟩ =
      some (⟨⟨[⟨⟨1 / 2, 0, 0⟩, 0, ⟨-1 / 2, 0, 0⟩⟩], ⟨1 / 2, 0, 0⟩, 0, ⟨-1 / 2, 0, 0⟩, true⟩, ⟨1 / 2, 0, 0⟩, 1 / 4⟩, some .inSimplex) := by
    norm_num [step, seen_box, supportA, dot0, V3.dot, V3.lengthSq, inSimplex, std]
  rw [s1]
  simp only
  rw [s2]

theorem gjk_of_run {c : Cfg ℝ} {t1 t2 : Trans ℝ} {s1 s2 : V3 ℝ → V3 ℝ} {m1 m2 : ℝ} {cached : Option (V3 ℝ)} {n : Nat} {y : St ℝ} {e : Exit}
    (h : run c t1 t2 s1 s2 m1 m2 cached n = some (.done y e)) : gjk c t1 t2 s1 s2 m1 m2 cached n = (finish c t1 t2 m1 m2 y e).map some := by
  unfold run at h
  unfold gjk
  rw [Option.map_eq_some_iff] at h
  obtain ⟨x, hx, hl⟩ := h
  rw [hx]
  simp only [Option.bind_eq_bind, Option.bind_some, hl]

theorem wall_verdict : ∃ ct, gjk std (put 0 0 0) (put (-1) (-2) (-2)) dot0 (boxSupport ⟨1 / 2, 2, 2⟩) 1 0 none 2 = some (some (.collide ct)) ∧
    ct.normal = ⟨-1, 0, 0⟩ ∧ ct.depth = 1 / 2 := by
  have hq : Real.sqrt (1 / 4) = 1 / 2 := by
    rw [show (1 / 4 : ℝ) = (1 / 2) ^ 2 by norm_num]; exact Real.sqrt_sq (by norm_num)
  have hn : (put 0 0 0).ori.rot (-(unit std.eps std.sqrt (⟨1 / 2, 0, 0⟩ : V3 ℝ))) = ⟨-1, 0, 0⟩ := by
    have hl : (⟨1 / 2, 0, 0⟩ : V3 ℝ).lengthSq = 1 / 4 := by norm_num [V3.lengthSq]
    have hu : unit std.eps std.sqrt (⟨1 / 2, 0, 0⟩ : V3 ℝ) = ⟨1, 0, 0⟩ := by
      unfold unit
      rw [hl]
      norm_num [std, hq]
    rw [hu]
    ext <;> norm_num [put, Quat.rot]
  rw [gjk_of_run wall_run]
  unfold finish
  simp only [hn]
  have hs : std.sqrt (1 / 4) = 1 / 2 := hq
  simp only [hs]
  refine ⟨⟨⟨-1, 0, 0⟩, 1 / 2, 0 - V3.smul (1 / (1 / 2)) ⟨1 / 2, 0, 0⟩, ((put 0 0 0).inverse.mul (put (-1) (-2) (-2))).inverse.act
    (⟨-1 / 2, 0, 0⟩ + V3.smul (0 / (1 / 2)) ⟨1 / 2, 0, 0⟩)⟩, ?_, rfl, rfl⟩
  have e0 : std.eps < 1 / 4 := by norm_num [std]
  have e1 : ¬ (1 + 0 - 1 / 2 : ℝ) ≤ 0 := by norm_num
  have e2 : ¬ (⟨-1, 0, 0⟩ : V3 ℝ).lengthSq < std.eps := by norm_num [std, V3.lengthSq]
  have e3 : (1 + 0 - 1 / 2 : ℝ) = 1 / 2 := by norm_num
  rw [if_neg (by decide), if_pos ⟨rfl, e0⟩, if_pos (by norm_num), if_neg e1, if_neg e2, e3]
  rfl

theorem wall_pair : Pair std Dot (Box ⟨1 / 2, 2, 2⟩) dot0 (boxSupport ⟨1 / 2, 2, 2⟩) (put 0 0 0) (put (-1) (-2) (-2)) 48 := by
  apply ball_box <;> norm_num [abs_le]

/-- `gjk_ends`: a pair of shapes that meets its hypotheses. -/
example : ∃ N, ∀ n, N ≤ n → ∃ r, gjk std (put 0 0 0) (put (-1) (-2) (-2)) dot0 (boxSupport ⟨1 / 2, 2, 2⟩) 1 0 none n = some (some r) := by
  obtain ⟨N, hN⟩ := gjk_ends std_ok
  obtain ⟨r, hr⟩ := hN _ _ _ _ _ _ _ 1 0 none wall_pair (by norm_num) (by intro v hv; simp at hv)
  exact ⟨N, fun n hn => ⟨r, hr n hn⟩⟩

/-- The tolerance of 1 cm. -/
theorem tol_cm : Tol std (48 : ℝ) (1 / 100) := by constructor <;> norm_num [std]

/-- `contact_partial`: a ball that overlaps a wall by 0.5. -/
example : ∃ ct, ct.depth = 1 / 2 ∧ Touch (1 / 100) (put 0 0 0) (put (-1) (-2) (-2)) Dot (Box ⟨1 / 2, 2, 2⟩) 1 0 ct := by
  obtain ⟨ct, h1, -, h3⟩ := wall_verdict
  refine ⟨ct, h3, contact_partial wall_pair tol_cm (by norm_num) (by norm_num) (by norm_num) (by intro v hv; simp at hv) h1 ?_⟩
  intro r hr
  rw [wall_run] at hr
  cases hr
  intro y hy
  simp at hy

/-! ### A ball whose center is in a box -/

theorem inside_run : run std (put 0 0 0) (put 0 0 0) dot0 (boxSupport ⟨1, 1, 1⟩) 1 0 none 2 =
    some (.done ⟨⟨[⟨⟨-1, -1, -1⟩, 0, ⟨1, 1, 1⟩⟩, ⟨⟨1, 1, 1⟩, 0, ⟨-1, -1, -1⟩⟩], 0, 0, 0, true⟩, 0, 0⟩ .near) := by
  unfold run
  rw [start_none (by norm_num)]
  simp only [Option.map_some, loop]
  have s1 : step std (supportA dot0) (supportB (put 0 0 0) (put 0 0 0) (boxSupport ⟨1, 1, 1⟩)) (1 + 0) ⟨.empty, ⟨0, 1, 0⟩, std.large⟩ =
      some (⟨⟨[⟨⟨-1, -1, -1⟩, 0, ⟨1, 1, 1⟩⟩], ⟨-1, -1, -1⟩, 0, ⟨1, 1, 1⟩, true⟩, ⟨-1, -1, -1⟩, 3⟩, none) := by
    norm_num [step, seen_box, supportA, dot0, V3.dot, V3.lengthSq, inSimplex, std, Simplex.empty, addPoint, dependent, recompute, validCoords, maxLength]
    norm_num [V3.ext_iff]
  have s2 : step std (supportA dot0) (supportB (put 0 0 0) (put 0 0 0) (boxSupport ⟨1, 1, 1⟩)) (1 + 0)
      ⟨⟨[⟨⟨-1, -1, -1⟩, 0, ⟨1, 1, 1⟩⟩], ⟨-1, -1, -1⟩, 0, ⟨1, 1, 1⟩, true⟩, ⟨-1, -1, -1⟩, 3⟩ =
      some (⟨⟨[⟨⟨-1, -1, -1⟩, 0, ⟨1, 1, 1⟩⟩, ⟨⟨1, 1, 1⟩, 0, ⟨-1, -1, -1⟩⟩], 0, 0, 0, true⟩, 0, 0⟩, some .near) := by
    norm_num [step, seen_box, supportA, dot0, V3.dot, V3.lengthSq, inSimplex, std, addPoint, dependent, recompute, segment, reduce_pair, validCoords, maxLength]
    norm_num [V3.ext_iff]
  rw [s1]
  simp only
  rw [s2]

/-- `interpenetrate_sound`. -/
example : ∃ a b, Placed (put 0 0 0) Dot a ∧ Placed (put 0 0 0) (Box ⟨1, 1, 1⟩) b ∧ dist2 a b ≤ std.eps * 48 := by
  refine interpenetrate_sound (ball_box (by norm_num) (by norm_num) (by norm_num) (by norm_num) (by norm_num) (by norm_num) (by norm_num) (by norm_num)
    (by norm_num)) (m1 := 1) (m2 := 0) (by norm_num) (cached := none) (by intro v hv; simp at hv) (n := 2) ?_
  rw [gjk_of_run inside_run]
  simp [finish, Exit.contactFound]

theorem run_more {c : Cfg ℝ} {t1 t2 : Trans ℝ} {s1 s2 : V3 ℝ → V3 ℝ} {m1 m2 : ℝ} {cached : Option (V3 ℝ)} {n : Nat} {y : St ℝ} {e : Exit}
    (h : run c t1 t2 s1 s2 m1 m2 cached n = some (.done y e)) (m : Nat) (hm : n ≤ m) : run c t1 t2 s1 s2 m1 m2 cached m = some (.done y e) := by
  unfold run at h ⊢
  rw [Option.map_eq_some_iff] at h ⊢
  obtain ⟨s, h1, h2⟩ := h
  exact ⟨s, h1, loop_more _ h2 m hm⟩

/-! ### A small box -/

theorem small_run : run std (put 0 0 0) (put (2 / 125) (-4 / 125) (4 / 125)) dot0 (boxSupport ⟨4 / 125, 5 / 125, 3 / 125⟩) (5 / 125) 0 none 3 =
    some (.done ⟨⟨[⟨⟨-6 / 125, -1 / 125, -7 / 125⟩, 0, ⟨6 / 125, 1 / 125, 7 / 125⟩⟩, ⟨⟨2 / 125, 9 / 125, -1 / 125⟩, 0, ⟨-2 / 125, -9 / 125, 1 / 125⟩⟩,
      ⟨⟨2 / 125, -1 / 125, -1 / 125⟩, 0, ⟨-2 / 125, 1 / 125, 1 / 125⟩⟩],
      ⟨-2 / 125, 4 / 125, -4 / 125⟩, 0, ⟨2 / 125, -4 / 125, 4 / 125⟩, true⟩, ⟨-2 / 125, 4 / 125, -4 / 125⟩, 36 / 15625⟩ .dependent) := by
  unfold run
  rw [start_none (by norm_num)]
  simp only [Option.map_some, loop]
  have s1 : step std (supportA dot0) (supportB (put 0 0 0) (put (2 / 125) (-4 / 125) (4 / 125)) (boxSupport ⟨4 / 125, 5 / 125, 3 / 125⟩)) (5 / 125 + 0)
      ⟨.empty, ⟨0, 1, 0⟩, std.large⟩ =
      some (⟨⟨[⟨⟨-6 / 125, -1 / 125, -7 / 125⟩, 0, ⟨6 / 125, 1 / 125, 7 / 125⟩⟩], ⟨-6 / 125, -1 / 125, -7 / 125⟩, 0, ⟨6 / 125, 1 / 125, 7 / 125⟩, true⟩,
        ⟨-6 / 125, -1 / 125, -7 / 125⟩, 86 / 15625⟩, none) := by
    norm_num [step, seen_box, supportA, dot0, V3.dot, V3.lengthSq, inSimplex, std, Simplex.empty, addPoint, dependent, recompute, validCoords, maxLength]
    norm_num [V3.ext_iff]
  have s2 : step std (supportA dot0) (supportB (put 0 0 0) (put (2 / 125) (-4 / 125) (4 / 125)) (boxSupport ⟨4 / 125, 5 / 125, 3 / 125⟩)) (5 / 125 + 0)
      ⟨⟨[⟨⟨-6 / 125, -1 / 125, -7 / 125⟩, 0, ⟨6 / 125, 1 / 125, 7 / 125⟩⟩], ⟨-6 / 125, -1 / 125, -7 / 125⟩, 0, ⟨6 / 125, 1 / 125, 7 / 125⟩, true⟩,
        ⟨-6 / 125, -1 / 125, -7 / 125⟩, 86 / 15625⟩ =
      some (⟨⟨[⟨⟨-6 / 125, -1 / 125, -7 / 125⟩, 0, ⟨6 / 125, 1 / 125, 7 / 125⟩⟩, ⟨⟨2 / 125, 9 / 125, -1 / 125⟩, 0, ⟨-2 / 125, -9 / 125, 1 / 125⟩⟩],
      ⟨-2 / 125, 4 / 125, -4 / 125⟩, 0, ⟨2 / 125, -4 / 125, 4 / 125⟩, true⟩, ⟨-2 / 125, 4 / 125, -4 / 125⟩, 36 / 15625⟩, none) := by
    norm_num [step, seen_box, supportA, dot0, V3.dot, V3.lengthSq, inSimplex, std, addPoint, dependent, recompute, segment, reduce_pair, validCoords, maxLength]
    norm_num [V3.ext_iff]
  have s3 : step std (supportA dot0) (supportB (put 0 0 0) (put (2 / 125) (-4 / 125) (4 / 125)) (boxSupport ⟨4 / 125, 5 / 125, 3 / 125⟩)) (5 / 125 + 0)
      ⟨⟨[⟨⟨-6 / 125, -1 / 125, -7 / 125⟩, 0, ⟨6 / 125, 1 / 125, 7 / 125⟩⟩, ⟨⟨2 / 125, 9 / 125, -1 / 125⟩, 0, ⟨-2 / 125, -9 / 125, 1 / 125⟩⟩],
      ⟨-2 / 125, 4 / 125, -4 / 125⟩, 0, ⟨2 / 125, -4 / 125, 4 / 125⟩, true⟩, ⟨-2 / 125, 4 / 125, -4 / 125⟩, 36 / 15625⟩ =
      some (⟨⟨[⟨⟨-6 / 125, -1 / 125, -7 / 125⟩, 0, ⟨6 / 125, 1 / 125, 7 / 125⟩⟩, ⟨⟨2 / 125, 9 / 125, -1 / 125⟩, 0, ⟨-2 / 125, -9 / 125, 1 / 125⟩⟩,
      ⟨⟨2 / 125, -1 / 125, -1 / 125⟩, 0, ⟨-2 / 125, 1 / 125, 1 / 125⟩⟩],
      ⟨-2 / 125, 4 / 125, -4 / 125⟩, 0, ⟨2 / 125, -4 / 125, 4 / 125⟩, true⟩, ⟨-2 / 125, 4 / 125, -4 / 125⟩, 36 / 15625⟩, some .dependent) := by
    norm_num [step, seen_box, supportA, dot0, V3.dot, V3.lengthSq, V3.cross, inSimplex, std, addPoint, dependent]
    norm_num [V3.ext_iff]
  rw [s1]
  simp only
  rw [s2]
  simp only
  rw [s3]

theorem small_pair : Pair std Dot (Box ⟨4 / 125, 5 / 125, 3 / 125⟩) dot0 (boxSupport ⟨4 / 125, 5 / 125, 3 / 125⟩) (put 0 0 0)
    (put (2 / 125) (-4 / 125) (4 / 125)) 48 := by
  apply ball_box <;> norm_num [abs_le]

/-- C99 does not hold without the last hypothesis of `separated_partial`: a ball of radius 4 cm and a box of 6.4 x 8 x 4.8 cm whose distance from the
center of the ball is 0.8 cm (they overlap by 3.2 cm) are found separated: the triangle of the three support points found so far has an area of less than
0.005 square meters and is taken for degenerate. -/
theorem overlap_missed : ∃ (h : V3 ℝ) (x y z radius : ℝ), Pair std Dot (Box h) dot0 (boxSupport h) (put 0 0 0) (put x y z) 48 ∧
    (∀ n, 3 ≤ n → gjk std (put 0 0 0) (put x y z) dot0 (boxSupport h) radius 0 none n = some (some .separated)) ∧
    radius = 1 / 25 ∧ ∃ a b, Placed (put 0 0 0) Dot a ∧ Placed (put x y z) (Box h) b ∧ dist2 a b = (1 / 125) * (1 / 125) := by
  refine ⟨⟨4 / 125, 5 / 125, 3 / 125⟩, 2 / 125, -4 / 125, 4 / 125, 5 / 125, small_pair, fun n hn => ?_, by norm_num,
    (put 0 0 0).act 0, (put (2 / 125) (-4 / 125) (4 / 125)).act ⟨-2 / 125, 4 / 125, -3 / 125⟩, ⟨0, rfl, rfl⟩, ⟨_, ?_, rfl⟩, ?_⟩
  · have hrun := run_more small_run n hn
    rw [gjk_of_run hrun]
    have hq : std.sqrt (36 / 15625) = 6 / 125 := by
      rw [show (36 / 15625 : ℝ) = (6 / 125) ^ 2 by norm_num]; exact Real.sqrt_sq (by norm_num)
    unfold finish
    simp only [hq]
    norm_num [Exit.contactFound, std]
  · norm_num [Box]
  · rw [put_act, put_act]
    norm_num [dist2]

/-! ### An axis that the next frame rejects -/

theorem corner_run : run std (put 0 0 0) (put (-10009 / 10000) (-1) (-1)) dot0 (boxSupport ⟨1, 1, 1⟩) (1 / 2000) 0 none 2 =
    some (.done ⟨⟨[⟨⟨9 / 10000, 0, 0⟩, 0, ⟨-9 / 10000, 0, 0⟩⟩], ⟨9 / 10000, 0, 0⟩, 0, ⟨-9 / 10000, 0, 0⟩, true⟩, ⟨9 / 10000, 0, 0⟩, 81 / 100000000⟩
      .separated) := by
  unfold run
  rw [start_none (by norm_num)]
  simp only [Option.map_some, loop]
  have s1 : step std (supportA dot0) (supportB (put 0 0 0) (put (-10009 / 10000) (-1) (-1)) (boxSupport ⟨1, 1, 1⟩)) (1 / 2000 + 0) ⟨.empty, ⟨0, 1, 0⟩, std.large⟩ =
      some (⟨⟨[⟨⟨9 / 10000, 0, 0⟩, 0, ⟨-9 / 10000, 0, 0⟩⟩], ⟨9 / 10000, 0, 0⟩, 0, ⟨-9 / 10000, 0, 0⟩, true⟩, ⟨9 / 10000, 0, 0⟩, 81 / 100000000⟩, none) := by
    norm_num [step, seen_box, supportA, dot0, V3.dot, V3.lengthSq, inSimplex, std, Simplex.empty, addPoint, dependent, recompute, validCoords, maxLength]
    norm_num [V3.ext_iff]
  have s2 : step std (supportA dot0) (supportB (put 0 0 0) (put (-10009 / 10000) (-1) (-1)) (boxSupport ⟨1, 1, 1⟩)) (1 / 2000 + 0)
      ⟨⟨[⟨⟨9 / 10000, 0, 0⟩, 0, ⟨-9 / 10000, 0, 0⟩⟩], ⟨9 / 10000, 0, 0⟩, 0, ⟨-9 / 10000, 0, 0⟩, true⟩, ⟨9 / 10000, 0, 0⟩, 81 / 100000000⟩ =
      some (⟨⟨[⟨⟨9 / 10000, 0, 0⟩, 0, ⟨-9 / 10000, 0, 0⟩⟩], ⟨9 / 10000, 0, 0⟩, 0, ⟨-9 / 10000, 0, 0⟩, true⟩, ⟨9 / 10000, 0, 0⟩, 81 / 100000000⟩, some .separated) := by
    norm_num [step, seen_box, supportA, dot0, V3.dot, V3.lengthSq, inSimplex, std]
  rw [s1]
  simp only
  rw [s2]

/-- C98 does not hold for every axis that the test itself has kept: a ball of radius 0.5 mm at 0.9 mm from a box is separated in one frame, and the axis
that is kept breaks an assertion in the next frame, in which nothing has moved. -/
theorem axis_breaks_assertion : ∃ (t2 : Trans ℝ) (h : V3 ℝ) (radius : ℝ) (y : St ℝ) (e : Exit),
    Pair std Dot (Box h) dot0 (boxSupport h) (put 0 0 0) t2 48 ∧ 0 < radius ∧
    run std (put 0 0 0) t2 dot0 (boxSupport h) radius 0 none 2 = some (.done y e) ∧
    gjk std (put 0 0 0) t2 dot0 (boxSupport h) radius 0 none 2 = some (some .separated) ∧
    ∀ n, gjk std (put 0 0 0) t2 dot0 (boxSupport h) radius 0 (some (nextAxis ⟨0, 1, 0⟩ y e)) n = none := by
  refine ⟨put (-10009 / 10000) (-1) (-1), ⟨1, 1, 1⟩, 1 / 2000, _, _, ?_, by norm_num, corner_run, ?_, fun n => ?_⟩
  · apply ball_box <;> norm_num [abs_le]
  · rw [gjk_of_run corner_run]; simp [finish]
  · norm_num [gjk, Gjk.start, nextAxis, std, V3.lengthSq]

/-- `separated_partial`: what holds of that pair. -/
example : ∀ b, Placed (put (-10009 / 10000) (-1) (-1)) (Box ⟨1, 1, 1⟩) b → ∀ d, 0 ≤ d → d * d = dist2 ((put 0 0 0).act 0) b →
    (1 / 2000 + 0 : ℝ) ≤ d + 1 / 100 := by
  intro b hb d hd hdd
  have hp : Pair std Dot (Box ⟨1, 1, 1⟩) dot0 (boxSupport ⟨1, 1, 1⟩) (put 0 0 0) (put (-10009 / 10000) (-1) (-1)) 48 := by
    apply ball_box <;> norm_num [abs_le]
  refine separated_partial hp tol_cm (by norm_num) (cached := none) (by intro v hv; simp at hv) (n := 2) ?_ ?_ ⟨0, rfl, rfl⟩ hb hd hdd
  · rw [gjk_of_run corner_run]; simp [finish]
  · intro r hr
    rw [corner_run] at hr
    cases hr
    intro y hy
    simp at hy

end GjkProps
end RP3D
