import Verif.Props.RoundPolyCapsule
import Verif.Props.RoundPolyData
import Verif.Props.GjkExamples
import Verif.Props.SatMissed
import Verif.Props.SatContact

/-! C132: cases that meet the hypotheses, and where the tests go wrong. -/

namespace RP3D
namespace RoundPolyProps
open Shape PointProps RoundProps Geom GeomProps Sat SatGeom Gjk GjkProps RoundPoly RayProps
open SatProps hiding put put_act std std_ok
open RayProps (Capsule)

/-- A ball and a box, neither turned: the test of a step of the world. -/
noncomputable def at0 (x y z : ℝ) : Frame ℝ := ⟨put 0 0 0, put x y z, true, true, false⟩

theorem box_near {h : V3 ℝ} {x y z : ℝ} (hx : 0 < h.x) (hy : 0 < h.y) (hz : 0 < h.z) (hx2 : h.x ≤ 2) (hy2 : h.y ≤ 2) (hz2 : h.z ≤ 2)
    (ax : |x| ≤ 2) (ay : |y| ≤ 2) (az : |z| ≤ 2) : Near (Sat.box h) Center 48 (at0 x y z) := by
  have hp := ball_box hx.le hy.le hz.le hx2 hy2 hz2 ax ay az
  refine ⟨hp.unit1, hp.unit2, fun a b ha hb => hp.extent a b ha ?_⟩
  obtain ⟨u, hu, rfl⟩ := hb
  exact ⟨u, (box_hull hx hy hz u).1 hu, rfl⟩

theorem box_ok {h : V3 ℝ} {r : ℝ} (hx : 0 < h.x) (hy : 0 < h.y) (hz : 0 < h.z) (hr : 3 / 1000 < r) (hr2 : r ≤ 10) :
    SphereOk GjkProps.std SatProps.std (Sat.box h) r 48 (3 / 1000) := by
  refine ⟨center_setting GjkProps.std_ok (by norm_num [GjkProps.std]) realSqrt (box_solid hx hy hz) (by norm_num) (by norm_num [GjkProps.std]) (by norm_num [GjkProps.std])
    (by norm_num [GjkProps.std]) ?_ (by linarith), by simp [Sat.box], ?_, by norm_num, by norm_num [GjkProps.std], hr⟩
  · have : (GjkProps.std).axis = 1 / 1000000 := rfl
    rw [this]; nlinarith
  · have : SatProps.std.large = 340282346638528859811704183484516925440 := rfl
    rw [this]; linarith

theorem fresh_kept : Kept GjkProps.std 48 (Info.fresh : Info ℝ) :=
  kept_fresh (box_ok (h := ⟨1, 1, 1⟩) (r := 1) one_pos one_pos one_pos (by norm_num) (by norm_num)).setting

theorem capsule_ok {h : V3 ℝ} {hh r : ℝ} (hx : 0 < h.x) (hy : 0 < h.y) (hz : 0 < h.z) (hr : 3 / 1000 < r) (hr2 : r ≤ 10) (hp : 0 < hh) :
    CapsuleOk GjkProps.std SatProps.std (Sat.box h) hh r 48 (3 / 1000) := by
  refine ⟨inner_setting GjkProps.std_ok (by norm_num [GjkProps.std]) realSqrt (box_solid hx hy hz) (by norm_num) (by norm_num [GjkProps.std]) (by norm_num [GjkProps.std])
    (by norm_num [GjkProps.std]) ?_ (by linarith) hp.le, SatProps.std_ok, by norm_num [SatProps.std], hp, box_rings h, by simp [Sat.box], ?_, by norm_num,
    by norm_num [GjkProps.std], hr⟩
  · have : (GjkProps.std).axis = 1 / 1000000 := rfl
    rw [this]; nlinarith
  · have : SatProps.std.large = 340282346638528859811704183484516925440 := rfl
    rw [this]; linarith

/-- `sphere_frames`: a ball that passes a box on its way, in and out again. -/
example : ∃ L, ∀ n, L ≤ n → ∃ os, frames (fun f i => sphereTest GjkProps.std SatProps.std (Sat.box ⟨1, 1, 1⟩) 1 true f i n) .fresh
    [at0 2 2 2, at0 2 0 0, at0 0 0 0, at0 (-2) 0 0] = some (some os) ∧ List.Forall₂ (Right (Sat.box ⟨1, 1, 1⟩) 1 (3 / 1000) true) [at0 2 2 2, at0 2 0 0, at0 0 0 0, at0 (-2) 0 0] os := by
  obtain ⟨L, hL⟩ := sphere_frames GjkProps.std_ok
  refine ⟨L, fun n hn => hL _ _ _ 48 _ _ (box_ok one_pos one_pos one_pos (by norm_num) (by norm_num)) n hn _ _ ?_ fresh_kept⟩
  intro f hf
  simp only [List.mem_cons, List.not_mem_nil, or_false] at hf
  rcases hf with rfl | rfl | rfl | rfl <;> apply box_near <;> norm_num

/-- `sphere_queries`: queries along the same way; each answers as the first would. -/
example : ∃ L, ∀ n, L ≤ n → ∃ os, List.Forall₂ (fun f o => (sphereTest GjkProps.std SatProps.std (Sat.box ⟨1, 1, 1⟩) 1 true f .fresh n).map (fun o => o.map answer) = some (some (answer o)) ∧
    o.info.valid = false) [{ at0 2 0 0 with update := false }, { at0 0 0 0 with update := false }] os := by
  obtain ⟨L, hL⟩ := sphere_frames GjkProps.std_ok
  refine ⟨L, fun n hn => ?_⟩
  obtain ⟨os, ho, -⟩ := hL _ _ _ 48 _ true (box_ok (h := ⟨1, 1, 1⟩) (r := 1) one_pos one_pos one_pos (by norm_num) (by norm_num)) n hn [{ at0 2 0 0 with update := false }, { at0 0 0 0 with update := false }] .fresh (by
    intro f hf
    simp only [List.mem_cons, List.not_mem_nil, or_false] at hf
    have k1 : Near (Sat.box ⟨1, 1, 1⟩) Center 48 (at0 2 0 0) := by apply box_near <;> norm_num
    have k2 : Near (Sat.box ⟨1, 1, 1⟩) Center 48 (at0 0 0 0) := by apply box_near <;> norm_num
    rcases hf with rfl | rfl
    · exact ⟨k1.1, k1.2, k1.3⟩
    · exact ⟨k2.1, k2.2, k2.3⟩) fresh_kept
  refine ⟨os, sphere_queries ?_ ho⟩
  intro f hf
  simp only [List.mem_cons, List.not_mem_nil, or_false] at hf
  rcases hf with rfl | rfl <;> rfl

/-- `capsule_frames`: a capsule of height 1 in a box. -/
example : ∃ L, ∀ n, L ≤ n → (frames (fun f i => capsuleTest GjkProps.std SatProps.std (Sat.box ⟨1, 1, 1⟩) (1 / 2) 1 false f i n) .fresh [at0 0 0 0, at0 1 1 1] = none ∧
      ∃ f ∈ [at0 0 0 0, at0 1 1 1], f.report = true) ∨
    ∃ os, frames (fun f i => capsuleTest GjkProps.std SatProps.std (Sat.box ⟨1, 1, 1⟩) (1 / 2) 1 false f i n) .fresh [at0 0 0 0, at0 1 1 1] = some (some os) ∧
      List.Forall₂ (CapRight (Sat.box ⟨1, 1, 1⟩) (1 / 2) 1) [at0 0 0 0, at0 1 1 1] os := by
  obtain ⟨L, hL⟩ := capsule_frames GjkProps.std_ok
  refine ⟨L, fun n hn => hL _ _ _ _ 48 _ _ (capsule_ok one_pos one_pos one_pos (by norm_num) (by norm_num) (by norm_num)) n hn _ _ ?_ fresh_kept⟩
  have key : ∀ k : ℝ, 0 ≤ k → k ≤ 1 → Near (Sat.box ⟨1, 1, 1⟩) (Inner (1 / 2)) 48 (at0 k k k) := by
    intro k k0 k1
    refine ⟨by norm_num [at0, put, Quat.lengthSq], by norm_num [at0, put, Quat.lengthSq], ?_⟩
    rintro _ _ ⟨_, ⟨s, s1, s2, rfl⟩, rfl⟩ ⟨b, hb, rfl⟩
    obtain ⟨⟨b1, b2⟩, ⟨b3, b4⟩, b5, b6⟩ := (box_hull one_pos one_pos one_pos b).1 hb
    show dist2 ((put 0 0 0).act _) ((put k k k).act b) ≤ 48
    rw [put_act, put_act]
    have sq : ∀ p : ℝ, -4 ≤ p → p ≤ 4 → p * p ≤ 16 := fun p h1 h2 => by nlinarith
    have k1 := sq (0 + 0 - (k + b.x)) (by linarith) (by linarith)
    have k2 := sq (0 + s - (k + b.y)) (by linarith) (by linarith)
    have k3 := sq (0 + 0 - (k + b.z)) (by linarith) (by linarith)
    simp only [dist2]
    linarith
  intro f hf
  simp only [List.mem_cons, List.not_mem_nil, or_false] at hf
  rcases hf with rfl | rfl
  · exact key 0 (le_refl _) zero_le_one
  · exact key 1 zero_le_one (le_refl _)

theorem search_of_run {c : Cfg ℝ} {t1 t2 : Trans ℝ} {s1 s2 : V3 ℝ → V3 ℝ} {m1 m2 : ℝ} {i : Info ℝ} {n : Nat} {y : St ℝ} {e : Exit}
    (h : GjkProps.run c t1 t2 s1 s2 m1 m2 i.cached n = some (.done y e)) :
    RoundPoly.search c t1 t2 s1 s2 m1 m2 i n = (Gjk.finish c t1 t2 m1 m2 y e).map fun r => some (r, nextAxis i.axis y e) := by
  unfold GjkProps.run at h
  unfold RoundPoly.search
  rw [Option.map_eq_some_iff] at h
  obtain ⟨x, hx, hl⟩ := h
  rw [hx]
  simp only [Option.bind_some, hl]

/-- The test of a ball with radius 1 beside a wall: one contact. -/
theorem wall_test : ∃ ct : Round.Contact ℝ, ct.depth = 1 / 2 ∧ sphereTest GjkProps.std SatProps.std (Sat.box ⟨1 / 2, 2, 2⟩) 1 true (at0 (-1) (-2) (-2)) .fresh 2 =
    some (some ⟨true, [ct], ⟨true, true, false, ⟨0, 1, 0⟩⟩⟩) := by
  obtain ⟨ct, h1, -, h2⟩ := wall_verdict
  refine ⟨ct, h2, ?_⟩
  rw [gjk_of_run wall_run, Option.map_eq_some_iff] at h1
  obtain ⟨v, hv, e⟩ := h1
  cases e
  have := search_of_run (i := .fresh) wall_run
  rw [hv] at this
  unfold sphereTest gjkTest
  have e1 : RoundPoly.search GjkProps.std ((at0 (-1) (-2) (-2)).t1 true) ((at0 (-1) (-2) (-2)).t2 true) (supp1 (fun _ => 0) (Sat.box ⟨1 / 2, 2, 2⟩) true)
      (supp2 (fun _ => 0) (Sat.box ⟨1 / 2, 2, 2⟩) true) (marg1 1 true) (marg2 1 true) ((at0 (-1) (-2) (-2)).start .fresh) 2 = _ := this
  rw [e1]
  rfl

/-- `sphere_far_partial`. -/
example : ∃ o, sphereTest GjkProps.std SatProps.std (Sat.box ⟨1 / 2, 2, 2⟩) 1 true (at0 (-1) (-2) (-2)) .fresh 2 = some (some o) ∧
    ∀ ct ∈ o.contacts, ∀ j, ct.depth + 1 / 100 < j → ∀ b, Placed (put (-1) (-2) (-2)) (Hulled (Sat.box ⟨1 / 2, 2, 2⟩)) b →
      (1 * 1 : ℝ) ≤ dist2 b ((put 0 0 0).pos + V3.smul j (-ct.normal)) := by
  obtain ⟨ct, -, h⟩ := wall_test
  have hn : Near (Sat.box ⟨1 / 2, 2, 2⟩) Center 48 (at0 (-1) (-2) (-2)) := by apply box_near <;> norm_num [abs_le]
  have hs := sphere_far_partial (slack := 3 / 1000) (box_ok (h := ⟨1 / 2, 2, 2⟩) (r := 1) (by norm_num) (by norm_num) (by norm_num) (by norm_num) (by norm_num)) hn fresh_kept tol_cm h ?_
  · exact ⟨_, h, hs.2⟩
  · intro l hl
    have : RoundPolyProps.run GjkProps.std (Sat.box ⟨1 / 2, 2, 2⟩) 1 true (at0 (-1) (-2) (-2)) .fresh 2 = _ := wall_run
    rw [this] at hl
    cases hl
    intro y hy
    simp at hy

/-- C132 does not hold without the last hypothesis of `sphere_far_partial`: a ball of radius 4 cm and a box of 6.4 x 8 x 4.8 cm that overlap by 3.2 cm; the first test of the pair
says that they do not collide. -/
theorem sphere_missed : ∃ (h : V3 ℝ) (r : ℝ) (f : Frame ℝ), SphereOk GjkProps.std SatProps.std (Sat.box h) r 48 (3 / 1000) ∧ Near (Sat.box h) Center 48 f ∧
    (∀ n, 3 ≤ n → sphereTest GjkProps.std SatProps.std (Sat.box h) r true f .fresh n = some (some ⟨false, [], ⟨true, true, false, ⟨0, 1, 0⟩⟩⟩)) ∧
    ∀ w : V3 ℝ, w.lengthSq ≤ (4 / 125) * (4 / 125) → Meet (Placed f.tp (Hulled (Sat.box h))) (Moved (Placed f.ts (SatProps.Ball r)) w) := by
  refine ⟨⟨4 / 125, 5 / 125, 3 / 125⟩, 5 / 125, at0 (2 / 125) (-4 / 125) (4 / 125), box_ok (by norm_num) (by norm_num) (by norm_num) (by norm_num) (by norm_num), ?_, ?_, ?_⟩
  · apply box_near <;> norm_num [abs_le]
  · intro n hn
    have hq : GjkProps.std.sqrt (36 / 15625) = 6 / 125 := by
      show Real.sqrt _ = _
      rw [show (36 / 15625 : ℝ) = (6 / 125) ^ 2 by norm_num]; exact Real.sqrt_sq (by norm_num)
    have hs := search_of_run (i := .fresh) (run_more small_run n hn)
    have hfin : ∀ s : Simplex ℝ, Gjk.finish GjkProps.std (put 0 0 0) (put (2 / 125) (-4 / 125) (4 / 125)) (5 / 125) 0 ⟨s, ⟨-2 / 125, 4 / 125, -4 / 125⟩, 36 / 15625⟩ .dependent =
        some .separated := by
      intro s
      unfold Gjk.finish
      simp only [hq]
      norm_num [Exit.contactFound, GjkProps.std]
    rw [hfin] at hs
    unfold sphereTest gjkTest
    have e1 : RoundPoly.search GjkProps.std ((at0 (2 / 125) (-4 / 125) (4 / 125)).t1 true) ((at0 (2 / 125) (-4 / 125) (4 / 125)).t2 true)
      (supp1 (fun _ => 0) (Sat.box ⟨4 / 125, 5 / 125, 3 / 125⟩) true) (supp2 (fun _ => 0) (Sat.box ⟨4 / 125, 5 / 125, 3 / 125⟩) true) (marg1 (5 / 125) true) (marg2 (5 / 125) true)
      ((at0 (2 / 125) (-4 / 125) (4 / 125)).start .fresh) n = _ := hs
    rw [e1]
    rfl
  · intro w hw
    refine ⟨(put (2 / 125) (-4 / 125) (4 / 125)).act ⟨-2 / 125, 4 / 125, -3 / 125⟩, ⟨_, (box_hull (by norm_num) (by norm_num) (by norm_num) _).2 (by norm_num [Box]), rfl⟩,
      (put 0 0 0).act ((⟨0, 0, 1 / 125⟩ : V3 ℝ) - w), ⟨_, ?_, rfl⟩, ?_⟩
    · show ((⟨0, 0, 1 / 125⟩ : V3 ℝ) - w).lengthSq ≤ 5 / 125 * (5 / 125)
      have := ball_sum (u := ⟨0, 0, 1 / 125⟩) (k := 1 / 125) (by norm_num) (by norm_num) (by norm_num [V3.lengthSq]) hw
      refine this.trans (by norm_num)
    · rw [put_act, put_act]
      ext <;> simp <;> norm_num

/-- C132 does not hold for small spheres: a ball of radius 0.5 mm rests at 0.9 mm from a box; the second test of the pair breaks an assertion. -/
theorem small_breaks : ∃ (h : V3 ℝ) (r : ℝ) (f : Frame ℝ), Near (Sat.box h) Center 48 f ∧ 0 < r ∧
    ∀ n, 2 ≤ n → frames (fun f i => sphereTest GjkProps.std SatProps.std (Sat.box h) r true f i n) .fresh [f, f] = none := by
  refine ⟨⟨1, 1, 1⟩, 1 / 2000, at0 (-10009 / 10000) (-1) (-1), ?_, by norm_num, fun n hn => ?_⟩
  · apply box_near <;> norm_num [abs_le]
  · have hs := search_of_run (i := .fresh) (run_more corner_run n hn)
    have hfin : ∀ s : St ℝ, Gjk.finish GjkProps.std (put 0 0 0) (put (-10009 / 10000) (-1) (-1)) (1 / 2000) 0 s .separated = some .separated := fun s => rfl
    rw [hfin] at hs
    have e1 : RoundPoly.search GjkProps.std ((at0 (-10009 / 10000) (-1) (-1)).t1 true) ((at0 (-10009 / 10000) (-1) (-1)).t2 true)
      (supp1 (fun _ => 0) (Sat.box ⟨1, 1, 1⟩) true) (supp2 (fun _ => 0) (Sat.box ⟨1, 1, 1⟩) true) (marg1 (1 / 2000) true) (marg2 (1 / 2000) true)
      ((at0 (-10009 / 10000) (-1) (-1)).start .fresh) n = _ := hs
    have h1 : sphereTest GjkProps.std SatProps.std (Sat.box ⟨1, 1, 1⟩) (1 / 2000) true (at0 (-10009 / 10000) (-1) (-1)) .fresh n =
        some (some ⟨false, [], ⟨true, true, false, ⟨9 / 10000, 0, 0⟩⟩⟩) := by
      unfold sphereTest gjkTest
      rw [e1]
      rfl
    have h2 : sphereTest GjkProps.std SatProps.std (Sat.box ⟨1, 1, 1⟩) (1 / 2000) true (at0 (-10009 / 10000) (-1) (-1)) ⟨true, true, false, ⟨9 / 10000, 0, 0⟩⟩ n = none := by
      unfold sphereTest gjkTest RoundPoly.search
      have : Gjk.start GjkProps.std (marg1 (1 / 2000) true + marg2 (1 / 2000) true)
          ((at0 (-10009 / 10000) (-1) (-1)).start ⟨true, true, false, ⟨9 / 10000, 0, 0⟩⟩).cached = none := by
        norm_num [Gjk.start, marg1, marg2, Frame.start, Info.cached, at0, GjkProps.std, V3.lengthSq]
      rw [this]
      rfl
    simp only [frames, h1, h2, Option.bind_some, Option.bind_none, Option.map_none]

end RoundPolyProps
end RP3D
