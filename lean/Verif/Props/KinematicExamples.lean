import Verif.Props.Kinematic
import Verif.Props.GalileoExamples
import Verif.Props.RayExamples

/-! C136: examples. -/

namespace RP3D
namespace Kinematic
open Solver Joints SolverProps JointProps Whole
open Apart (Ev)
open Galileo (dur total)

namespace Lift

/-- A step of a world with the real numbers: a box of the body 1 presses on the platform 2, from which the body 3 hangs. -/
noncomputable def jc : JCfg ℝ := ⟨0, 1 / 5, 1 / 8388608, true, 355 / 113, Real.sqrt, fun _ => 355 / 226, fun _ _ => 0, fun x _ => x⟩
noncomputable def cc : Cfg ℝ := ⟨0, 1 / 5, 1 / 100, true, 1 / 2, 1 / 1000⟩
noncomputable def hit : XMan ℝ := ⟨1, 2, 1 / 2, 1 / 4, 0, 0, 0, 0, 0, [⟨⟨0, 1, 0⟩, ⟨0, 1, 0⟩, ⟨0, -1, 0⟩, 1 / 10, false, 0⟩]⟩
noncomputable def ball : Ball ℝ := ⟨2, 3, false, ⟨1, 0, 0⟩, ⟨-1, 0, 0⟩, 0, 0, M3.zero, 0, 0, false, 0, 0, false, 0, 0, 0⟩
noncomputable def step : In ℝ :=
  ⟨1 / 60, some ⟨0, -10, 0⟩, [[1, 2, 3]], cc, jc, [hit], ⟨[ball], [], [], []⟩, 2, 1, fun q => Real.sqrt q.lengthSq, fun x y => x + y, 1000000⟩

/-- The other bodies and the platform, which rises and turns. -/
def others : List (Ev ℝ) := [.create 1 ⟨⟨0, 2, 0⟩, ⟨0, 0, 0, 1⟩⟩, .create 3 ⟨⟨2, 0, 0⟩, ⟨0, 0, 0, 1⟩⟩]
noncomputable def start : DW ℝ := others.foldl Ev.run (DW.empty false 1 1 1)
def make : List (Ev ℝ) := [.create 2 ⟨0, ⟨0, 0, 0, 1⟩⟩, .call 2 (.setType .kinematic), .call 2 (.linearVelocity ⟨0, 1, 0⟩), .call 2 (.angularVelocity ⟨0, 2, 0⟩)]
noncomputable def world : DW ℝ := make.foldl Ev.run start

/-- The first step, after which the body and the platform are pushed. -/
noncomputable def before : List (Ev ℝ) := [.step step, .call 1 (.forceCenter ⟨0, -100, 0⟩), .call 2 (.forceCenter ⟨0, -100, 0⟩), .call 2 (.setMass 5)]
/-- Two steps; between them the body and the platform are pushed. -/
noncomputable def tale : List (Ev ℝ) := before ++ [.step step]

end Lift
open Lift

theorem reach_evs {K : Type} [Field K] [LinearOrder K] [IsStrictOrderedRing K] : ∀ (es : List (Ev K)) (w : DW K), DW.Reach DW.Any w → DW.Reach DW.Any (es.foldl Ev.run w)
  | [], _, h => h
  | e :: es, _, h => reach_evs es _ (Apart.Ev.reach h e)

theorem lift_reach : DW.Reach DW.Any world := reach_evs _ _ (reach_evs _ _ (.empty _ _ _ _))

theorem lift_moves : Moves world 2 0 ⟨0, 1, 0⟩ ⟨0, 2, 0⟩ ⟨0, 0, 0, 1⟩ := launch _ _ _ _ _

theorem lift_unit : (⟨0, 0, 0, 1⟩ : Quat ℝ).lengthSq = 1 := by simp [Quat.lengthSq]

/-- The platform stays awake: sleeping is off. -/
theorem lift_awake {w : DW ℝ} {x v ω : V3 ℝ} {q : Quat ℝ} (hr : DW.Reach DW.Any w) (h : Moves w 2 x v ω q) (hq : q.lengthSq = 1) (hw : w.sleepOn = false) : (dyn (update step w) 2).sleeping = false :=
  kinematic_awake (i := step) hr RayProps.realSqrt (fun _ => rfl) h hq (Or.inl hw)

theorem lift_steady : Steady Real.sqrt 2 world tale := by
  have a := lift_awake lift_reach lift_moves lift_unit rfl
  have f1 : Steady Real.sqrt 2 world before :=
    ⟨⟨rfl, fun _ => rfl, a⟩, Or.inl (by decide), Or.inr trivial, Or.inr trivial, trivial⟩
  have k := kinematic RayProps.realSqrt _ lift_reach lift_moves lift_unit f1
  refine ⟨⟨rfl, fun _ => rfl, a⟩, Or.inl (by decide), Or.inr trivial, Or.inr trivial, ⟨rfl, fun _ => rfl, ?_⟩, trivial⟩
  exact lift_awake (reach_evs before _ lift_reach) k (turn_unit RayProps.realSqrt Lift.jc rfl _ _ lift_unit) rfl

/-- After two steps it is one thirtieth higher. -/
example : Moves (tale.foldl Ev.run world) 2 (0 + V3.smul (total tale) ⟨0, 1, 0⟩) ⟨0, 1, 0⟩ ⟨0, 2, 0⟩ (turns Real.sqrt ⟨0, 2, 0⟩ ⟨0, 0, 0, 1⟩ tale) ∧ total tale = 1 / 30 :=
  ⟨kinematic RayProps.realSqrt tale lift_reach lift_moves lift_unit lift_steady, by norm_num [Galileo.total, dur, tale, before, Lift.step]⟩

/-- A body that is not told to turn keeps its orientation. -/
example : turns Real.sqrt 0 ⟨0, 0, 0, 1⟩ tale = ⟨0, 0, 0, 1⟩ := turns_zero RayProps.realSqrt lift_unit tale

/-- A body faster than the limits stays awake in a world with sleeping. -/
example : let w := make.foldl Ev.run (others.foldl Ev.run (DW.empty true (1 / 50) (1 / 60) 1)); (dyn (update step w) 2).sleeping = false :=
  kinematic_awake (i := Lift.step) (reach_evs _ _ (reach_evs _ _ (.empty _ _ _ _))) RayProps.realSqrt (fun _ => rfl) (launch _ _ _ _ _) lift_unit
    (Or.inr ⟨Or.inr (Or.inl (by show (1 / 50 : ℝ) * (1 / 50) < V3.lengthSq (⟨0, 1, 0⟩ : V3 ℝ); norm_num [V3.lengthSq, V3.dot])), zero_lt_one, ⟨by intro i hi; simp only [Lift.step, List.mem_singleton] at hi; subst hi; decide,
      List.pairwise_singleton _ _⟩⟩)

/-! ### The contact and the joint do act -/

namespace Push

/-- As `Galileo.Ride`, but the body in the middle is kinematic. -/
def calls : List (Ev ℚ) :=
  [.create 1 ⟨⟨0, 0, 0⟩, ⟨0, 0, 0, 1⟩⟩, .create 2 ⟨⟨2, 0, 0⟩, ⟨0, 0, 0, 1⟩⟩, .create 3 ⟨⟨4, 1, 0⟩, ⟨0, 0, 0, 1⟩⟩,
    .call 2 (.setType .kinematic), .call 2 (.linearVelocity ⟨-1, 0, 0⟩), .call 1 (.linearVelocity ⟨1, 0, 0⟩), .step (Newton.Three.step [Newton.Three.hit])]

end Push

example : let w := Push.calls.foldl Ev.run (DW.empty true (1 / 50) (1 / 60) 1)
    (w.body 2).map (fun d => (d.vel, d.ang, d.comWorld)) = some (⟨-1, 0, 0⟩, 0, ⟨2 - 1 / 60, 0, 0⟩) ∧
      (w.body 1).map (fun d => decide (d.vel.x < 0)) = some true ∧ (w.body 3).map (fun d => decide (d.vel.x = 0)) = some false := by decide +kernel

/-! ### Slow platforms -/

/-- **C136 fails for slow bodies.** A kinematic body slower than the sleep limits is stopped like any other, though nobody told it to stop. -/
theorem slow_platform_stops : let es : List (Ev ℚ) := [.create 1 ⟨0, ⟨0, 0, 0, 1⟩⟩, .call 1 (.setType .kinematic), .call 1 (.linearVelocity ⟨1 / 100, 0, 0⟩)]
    let w := es.foldl Ev.run (DW.empty true (1 / 50) (1 / 60) 1)
    DW.Reach DW.Any w ∧ (w.body 1).map (fun d => (d.type, d.sleeping, d.vel)) = some (.kinematic, false, ⟨1 / 100, 0, 0⟩) ∧
      ((update Galileo.idle w).body 1).map (fun d => (d.type, d.sleeping, d.vel)) = some (.kinematic, true, 0) :=
  ⟨reach_evs _ _ (.empty _ _ _ _), by decide +kernel, by decide +kernel⟩

end Kinematic
end RP3D
