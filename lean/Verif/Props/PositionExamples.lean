import Verif.Props.JointConverge
import Verif.Props.JointExamples
import Verif.Props.RayExamples

/-! C108-C112: what fails, and examples. -/

set_option linter.unusedSectionVars false

namespace RP3D
namespace Joints
open Solver JointProps.Ex

deriving instance DecidableEq for Pose

theorem Ball.position_same' {K : Type} [Field K] [LinearOrder K] (cfg : JCfg K) (body : Nat → PBody K) (J : Ball K) (X : Nat → Pose K) :
    (J.position cfg body X).2.a1 = J.a1 ∧ (J.position cfg body X).2.a2 = J.a2 ∧ (J.position cfg body X).2.coneOn = J.coneOn := by
  unfold Ball.position Ball.cone'
  dsimp only
  split
  · split <;> exact ⟨rfl, rfl, rfl⟩
  · exact ⟨rfl, rfl, rfl⟩

/-! ### C111: the technique of a joint -/

section
variable {K : Type} [Field K] [LinearOrder K]

/-- The joints with the technique NON_LINEAR_GAUSS_SEIDEL. -/
def Pins.only (S : Pins K) : Pins K :=
  ⟨S.balls.filter (!·.baum), S.fixeds.filter (!·.baum), S.hinges.filter (!·.baum), S.sliders.filter (!·.baum)⟩

/-- The same, but of the sliders only those before the first one with the technique BAUMGARTE_JOINTS. -/
def Pins.seen (S : Pins K) : Pins K :=
  ⟨S.balls.filter (!·.baum), S.fixeds.filter (!·.baum), S.hinges.filter (!·.baum), S.sliders.takeWhile (!·.baum)⟩

theorem each_filter {J : Type} (baum : J → Bool) (f : J → (Nat → Pose K) → (Nat → Pose K) × J) (hf : ∀ j X, baum (f j X).2 = baum j) :
    ∀ (js : List J) (X : Nat → Pose K), (each baum f X js).1 = (each baum f X (js.filter (!baum ·))).1 ∧
      (each baum f X js).2.filter (!baum ·) = (each baum f X (js.filter (!baum ·))).2
  | [], X => ⟨rfl, rfl⟩
  | j :: js, X => by
    have c : ∀ ks : List J, each baum f X (j :: ks) = ((each baum f (if baum j then (X, j) else f j X).1 ks).1,
        (if baum j then (X, j) else f j X).2 :: (each baum f (if baum j then (X, j) else f j X).1 ks).2) := fun _ => rfl
    by_cases hb : baum j = true
    · obtain ⟨h1, h2⟩ := each_filter baum f hf js X
      have e : (j :: js).filter (!baum ·) = js.filter (!baum ·) := by rw [List.filter_cons]; simp [hb]
      rw [e, c, if_pos hb]
      refine ⟨h1, ?_⟩
      dsimp only
      rw [List.filter_cons]
      simpa [hb] using h2
    · obtain ⟨h1, h2⟩ := each_filter baum f hf js (f j X).1
      have hb' : baum j = false := by simpa using hb
      have e : (j :: js).filter (!baum ·) = j :: js.filter (!baum ·) := by rw [List.filter_cons]; simp [hb']
      rw [e, c, c, if_neg hb]
      refine ⟨h1, ?_⟩
      dsimp only
      rw [List.filter_cons]
      simp only [hf, hb', Bool.not_false, if_true]
      rw [h2]

theorem eachSlider_while {J : Type} (baum : J → Bool) (f : J → (Nat → Pose K) → (Nat → Pose K) × J) (hf : ∀ j X, baum (f j X).2 = baum j) :
    ∀ (js : List J) (X : Nat → Pose K), (eachSlider baum f X js).1 = (eachSlider baum f X (js.takeWhile (!baum ·))).1 ∧
      (eachSlider baum f X js).2.takeWhile (!baum ·) = (eachSlider baum f X (js.takeWhile (!baum ·))).2
  | [], X => ⟨rfl, rfl⟩
  | j :: js, X => by
    have c : ∀ ks : List J, eachSlider baum f X (j :: ks) = if baum j then (X, j :: ks) else ((eachSlider baum f (f j X).1 ks).1,
        (f j X).2 :: (eachSlider baum f (f j X).1 ks).2) := fun _ => rfl
    by_cases hb : baum j = true
    · have e : (j :: js).takeWhile (!baum ·) = [] := by rw [List.takeWhile_cons]; simp [hb]
      rw [e, c, if_pos hb]
      exact ⟨rfl, by rw [List.takeWhile_cons]; simp [hb, eachSlider]⟩
    · obtain ⟨h1, h2⟩ := eachSlider_while baum f hf js (f j X).1
      have hb' : baum j = false := by simpa using hb
      have e : (j :: js).takeWhile (!baum ·) = j :: js.takeWhile (!baum ·) := by rw [List.takeWhile_cons]; simp [hb']
      rw [e, c, c, if_neg hb, if_neg hb]
      refine ⟨h1, ?_⟩
      dsimp only
      rw [List.takeWhile_cons]
      simp only [hf, hb', Bool.not_false, if_true]
      rw [h2]

theorem positionAll_seen (cfg : JCfg K) (body : Nat → PBody K) (X : Nat → Pose K) (S : Pins K) :
    (positionAll cfg body X S).1 = (positionAll cfg body X S.seen).1 ∧ (positionAll cfg body X S).2.seen = (positionAll cfg body X S.seen).2 := by
  obtain ⟨a1, a2⟩ := each_filter Ball.baum (Ball.position cfg body) (fun j X => (Ball.position_ok (P := fun _ _ => True) j trivial X).2.2.2) S.balls X
  obtain ⟨b1, b2⟩ := each_filter Fixed.baum (Fixed.position cfg body) (fun j X => (Fixed.position_ok (P := fun _ _ => True) j trivial X).2.2.2) S.fixeds
    (each Ball.baum (Ball.position cfg body) X S.balls).1
  obtain ⟨c1, c2⟩ := each_filter Hinge.baum (Hinge.position cfg body) (fun j X => (Hinge.position_ok (P := fun _ _ => True) j trivial X).2.2.2) S.hinges
    (each Fixed.baum (Fixed.position cfg body) (each Ball.baum (Ball.position cfg body) X S.balls).1 S.fixeds).1
  obtain ⟨d1, d2⟩ := eachSlider_while Slider.baum (Slider.position cfg body)
    (fun j X => (Slider.position_ok (P := fun _ _ => True) j trivial X).2.2.2) S.sliders
    (each Hinge.baum (Hinge.position cfg body)
      (each Fixed.baum (Fixed.position cfg body) (each Ball.baum (Ball.position cfg body) X S.balls).1 S.fixeds).1 S.hinges).1
  unfold positionAll Pins.seen
  dsimp only
  rw [← a1, ← b1, ← c1, ← d1]
  exact ⟨rfl, by rw [a2, b2, c2, d2]⟩

/-- **C111, the part that holds.** Joints with the technique BAUMGARTE_JOINTS have no effect on what the position solvers do with the bodies, except
that of the sliders only those before the first such slider are corrected. What is missing: the other sliders. -/
theorem correct_technique_partial (cfg : JCfg K) (body : Nat → PBody K) : ∀ (n : Nat) (X : Nat → Pose K) (S : Pins K),
    (correct cfg body n (X, S)).1 = (correct cfg body n (X, S.seen)).1
  | 0, _, _ => rfl
  | n + 1, X, S => by
    obtain ⟨h1, h2⟩ := positionAll_seen cfg body X S
    show (correct cfg body n ((positionAll cfg body X S).1, (positionAll cfg body X S).2)).1 =
      (correct cfg body n ((positionAll cfg body X S.seen).1, (positionAll cfg body X S.seen).2)).1
    rw [correct_technique_partial cfg body n, h1, h2]

/-- If no slider, or every slider, has the technique BAUMGARTE_JOINTS, each joint follows its own technique. -/
theorem correct_technique_sliders_partial (cfg : JCfg K) (body : Nat → PBody K) (n : Nat) (X : Nat → Pose K) (S : Pins K)
    (h : (∀ J ∈ S.sliders, J.baum = false) ∨ ∀ J ∈ S.sliders, J.baum = true) : (correct cfg body n (X, S)).1 = (correct cfg body n (X, S.only)).1 := by
  rw [correct_technique_partial]
  have : S.sliders.takeWhile (!·.baum) = S.sliders.filter (!·.baum) := by
    rcases h with h | h
    · rw [List.filter_eq_self.2 fun J hJ => by simp [h J hJ]]
      have w : ∀ l : List (Slider K), (∀ J ∈ l, J.baum = false) → l.takeWhile (!·.baum) = l := by
        intro l
        induction l with
        | nil => intro _; rfl
        | cons J l ih =>
          intro hl
          rw [List.takeWhile_cons, ih fun I hI => hl I (List.mem_cons_of_mem _ hI)]
          simp [hl J List.mem_cons_self]
      exact w _ h
    · rw [List.filter_eq_nil_iff.2 fun J hJ => by simp [h J hJ]]
      cases hs : S.sliders with
      | nil => rfl
      | cons J js =>
        have : J.baum = true := h J (by rw [hs]; exact List.mem_cons_self)
        rw [List.takeWhile_cons]
        simp [this]
  unfold Pins.seen Pins.only
  rw [this]

/-- **C111 fails.** A slider with the technique BAUMGARTE_JOINTS ends the loop (SolveSliderJointSystem.cpp:527): the sliders after it are never
corrected. -/
theorem slider_loop_ends (cfg : JCfg K) (body : Nat → PBody K) (X : Nat → Pose K) (J : Slider K) (js : List (Slider K)) (hb : J.baum = true) :
    ∀ n : Nat, correct cfg body n (X, ⟨[], [], [], J :: js⟩) = (X, ⟨[], [], [], J :: js⟩)
  | 0 => rfl
  | n + 1 => by
    have : positionAll cfg body X ⟨[], [], [], J :: js⟩ = (X, ⟨[], [], [], J :: js⟩) := by
      unfold positionAll each eachSlider
      dsimp only
      rw [if_pos hb]
    show correct cfg body n (positionAll cfg body X ⟨[], [], [], J :: js⟩) = _
    rw [this]
    exact slider_loop_ends cfg body X J js hb n

end

namespace Ex

/-- A dynamic body with mass and moments of inertia 1. -/
def free : PBody ℚ := ⟨1, ⟨1, 1, 1⟩, 0, ⟨1, 1, 1⟩, ⟨1, 1, 1⟩, true⟩
/-- Body 2 is off the line of its slider. -/
def off (b : Nat) : Pose ℚ := if b = 2 then ⟨⟨3, 1, 0⟩, Quat.one⟩ else if b = 1 then ⟨⟨2, 0, 0⟩, Quat.one⟩ else ⟨0, Quat.one⟩
def baum : Slider ℚ := { slider 0 0 with baum := true }
def later : Slider ℚ := { slider 0 0 with b2 := 2 }

end Ex

/-- **C111 fails.** Two sliders of which the first has the technique BAUMGARTE_JOINTS: the second is corrected if it is alone, and never otherwise. -/
theorem slider_technique_lost : (∀ n, (correct jc (fun _ => Ex.free) n (Ex.off, ⟨[], [], [], [Ex.baum, Ex.later]⟩)).1 2 = Ex.off 2) ∧
    (correct jc (fun _ => Ex.free) 1 (Ex.off, (⟨[], [], [], [Ex.baum, Ex.later]⟩ : Pins ℚ).only)).1 2 ≠ Ex.off 2 := by
  refine ⟨fun n => by rw [slider_loop_ends _ _ _ _ _ rfl], ?_⟩
  decide +kernel

/-- The order matters: with the sliders exchanged both follow their techniques. -/
example : (correct jc (fun _ => Ex.free) 1 (Ex.off, ⟨[], [], [], [Ex.later, Ex.baum]⟩)).1 2 ≠ Ex.off 2 := by decide +kernel

/-! ### C110: heavy bodies -/

/-- **C110 fails.** If the determinant of the mass matrix is not above `MACHINE_EPSILON`, the gap of a ball-and-socket joint is never corrected
(SolveBallAndSocketJointSystem.cpp:400-401). -/
theorem heavy_gap_stays {K : Type} [Field K] [LinearOrder K] (cfg : JCfg K) (body : Nat → PBody K) (X : Nat → Pose K) : ∀ (n : Nat) (J : Ball K),
    J.coneOn = false → |(massMatrix (body J.b1).m (body J.b2).m (Dyn.worldInertia (X J.b1).q.matrix (body J.b1).i)
      (Dyn.worldInertia (X J.b2).q.matrix (body J.b2).i) (armAt body X J.b1 J.a1) (armAt body X J.b2 J.a2)).det| ≤ cfg.eps →
    (correct cfg body n (X, ⟨[J], [], [], []⟩)).1 = X
  | 0, _, _, _ => rfl
  | n + 1, J, hc, hd => by
    show (correct cfg body n (positionAll cfg body X ⟨[J], [], [], []⟩)).1 = X
    have hp : (J.position cfg body X).1 = X := by
      unfold Ball.position Ball.cone'
      dsimp only
      rw [hc]
      simp only [Bool.false_eq_true, if_false]
      unfold pull twoAt
      dsimp only
      rw [if_neg (not_lt.2 hd)]
    by_cases hb : J.baum = true
    · have e : positionAll cfg body X ⟨[J], [], [], []⟩ = (X, ⟨[J], [], [], []⟩) := by
        unfold positionAll each each eachSlider
        dsimp only
        rw [if_pos hb]
      rw [e]
      exact heavy_gap_stays cfg body X n J hc hd
    · have e : positionAll cfg body X ⟨[J], [], [], []⟩ = (X, ⟨[(J.position cfg body X).2], [], [], []⟩) := by
        unfold positionAll each each eachSlider
        dsimp only
        rw [if_neg hb, hp]
      rw [e]
      obtain ⟨a, b, c⟩ := Ball.position_same' cfg body J X
      obtain ⟨-, b1, b2, -⟩ := Ball.position_ok (cfg := cfg) (body := body) (P := fun _ _ => True) J trivial X
      refine heavy_gap_stays cfg body X n _ (c.trans hc) ?_
      rw [a, b, b1, b2]
      exact hd

/-- Two bodies of a ton each. -/
example : |(massMatrix (1 / 1000) (1 / 1000) (Dyn.worldInertia (Quat.one : Quat ℚ).matrix ⟨1 / 1000, 1 / 1000, 1 / 1000⟩)
    (Dyn.worldInertia (Quat.one : Quat ℚ).matrix ⟨1 / 1000, 1 / 1000, 1 / 1000⟩) ⟨1, 0, 0⟩ ⟨-1, 0, 0⟩).det| ≤ jc.eps := by decide +kernel

/-! ### C109: a spinning body -/

namespace Ex

/-- The square root of the examples is only asked for 1 and for the square of the length of the turned quaternion. -/
def js : JCfg ℚ := { jc with sqrt := fun x => if x = 160801 / 159201 then 401 / 399 else x }
/-- A static body at the origin, and a body that spins about the line through its center and the origin. -/
def anchor : Dyn ℚ := (Dyn.create ⟨0, Quat.one⟩).setType .static
def top : Dyn ℚ := (Dyn.create ⟨⟨-1, 0, 0⟩, Quat.one⟩).setAngularVelocity ⟨80 / 399, 0, 0⟩
def start (b : Nat) : Dyn ℚ := if b = 0 then anchor else top
/-- After the integration, without gravity. -/
def turned (b : Nat) : Dyn ℚ := ((start b).integrateVel 1 none).integratePos 1 0
def tied : Ball ℚ := ball 0 ⟨1, 0, 0⟩

end Ex

/-- **C109 fails.** A ball-and-socket joint between a static body and a body that spins about the line through its center and the joint. The joint
holds before the step, the integration moves no anchor, and the joint would hold with the normalised orientations. But the position solver computes the
lever with an orientation that is not normalised: one iteration tears the anchors apart. -/
theorem moving_hold_lost :
    anchorAt (fun b => PBody.ofDyn (Ex.start b)) (fun b => ⟨(Ex.start b).comWorld, (Ex.start b).tr.ori⟩) 0 Ex.tied.a1 =
      anchorAt (fun b => PBody.ofDyn (Ex.start b)) (fun b => ⟨(Ex.start b).comWorld, (Ex.start b).tr.ori⟩) 1 Ex.tied.a2 ∧
    Ball.Holds Ex.js (fun b => PBody.ofDyn (Ex.start b)) (fun b => ⟨(Ex.turned b).cPos, unitQ Ex.js (Ex.turned b).cOri⟩) Ex.tied ∧
    ¬ Ball.Holds Ex.js (fun b => PBody.ofDyn (Ex.start b))
      (correct Ex.js (fun b => PBody.ofDyn (Ex.start b)) 1 (fun b => Pose.ofDyn (Ex.turned b), ⟨[Ex.tied], [], [], []⟩)).1 Ex.tied := by
  refine ⟨by decide +kernel, ⟨by decide +kernel, fun h => absurd h (by decide)⟩, fun h => ?_⟩
  have h1 := h.1
  revert h1
  decide +kernel

/-- The second iteration finds unit orientations and mends the joint. -/
example : Ball.Holds Ex.js (fun b => PBody.ofDyn (Ex.start b))
      (correct Ex.js (fun b => PBody.ofDyn (Ex.start b)) 2 (fun b => Pose.ofDyn (Ex.turned b), ⟨[Ex.tied], [], [], []⟩)).1 Ex.tied :=
  ⟨by decide +kernel, fun h => absurd h (by decide)⟩

end Joints
end RP3D
