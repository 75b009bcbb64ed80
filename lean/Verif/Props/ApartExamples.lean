import Verif.Props.Apart
import Verif.Props.NewtonExamples

/-! C135: examples. The group stands on a floor; so do two other bodies, held together by a joint. -/

namespace RP3D
namespace Apart
open Solver Joints SolverProps JointProps Whole
open Newton.Three (cc jc)

namespace Floor

/-- The floor 0, the stack 1, 2, and the bodies 3, 4 on the same floor. -/
def calls : List (DW.Op ℚ) :=
  [.create 0 ⟨⟨0, -1, 0⟩, ⟨0, 0, 0, 1⟩⟩, .call 0 (.setType .static), .create 1 ⟨⟨0, 1, 0⟩, ⟨0, 0, 0, 1⟩⟩, .create 2 ⟨⟨0, 3, 0⟩, ⟨0, 0, 0, 1⟩⟩,
    .create 3 ⟨⟨9, 1, 0⟩, ⟨0, 0, 0, 1⟩⟩, .create 4 ⟨⟨9, 4, 0⟩, ⟨0, 0, 0, 1⟩⟩, .call 2 (.linearVelocity ⟨0, -1, 0⟩)]
def world : DW ℚ := calls.foldl DW.exec (DW.empty true (1 / 50) (1 / 60) 1)

def hit (a b : Nat) (p q : V3 ℚ) : XMan ℚ := ⟨a, b, 1 / 2, 1 / 4, 0, 0, 0, 0, 0, [⟨⟨0, 1, 0⟩, p, q, 1 / 10, false, 0⟩]⟩
def ball : Ball ℚ := ⟨3, 4, false, ⟨0, 1, 0⟩, ⟨0, -1, 0⟩, 0, 0, M3.zero, 0, 0, false, 0, 0, false, 0, 0, 0⟩

/-- A step; `Xs` and `Js` are the contacts and joints of the other bodies. -/
def step (Xs : List (XMan ℚ)) (Js : List (Ball ℚ)) (others : List (List Nat)) : In ℚ :=
  ⟨1 / 60, some ⟨0, -10, 0⟩, others ++ [[1, 0, 2]], cc, jc, Xs ++ [hit 0 1 ⟨0, 1, 0⟩ ⟨0, -1, 0⟩, hit 1 2 ⟨0, 1, 0⟩ ⟨0, -1, 0⟩], ⟨Js, [], [], []⟩, 2, 1, fun _ => 1,
    fun x y => x + y, 1000000⟩
def crowd : In ℚ := step [hit 0 3 ⟨9, 1, 0⟩ ⟨0, -1, 0⟩] [ball] [[3, 4, 0]]

def G : Finset Nat := {0, 1, 2}

end Floor
open Floor

theorem floor_reach : DW.Reach DW.Any world := Newton.reach_calls _ _ (.empty _ _ _ _)

theorem floor_rest : Rest world 0 := ⟨_, rfl, by decide +kernel, by decide +kernel⟩

theorem floor_alone : Alone G crowd world := by
  refine ⟨fun X hX => ?_, fun J hJ => ?_, fun l hl => ?_, rfl⟩
  · have : X = hit 0 3 ⟨9, 1, 0⟩ ⟨0, -1, 0⟩ ∨ X = hit 0 1 ⟨0, 1, 0⟩ ⟨0, -1, 0⟩ ∨ X = hit 1 2 ⟨0, 1, 0⟩ ⟨0, -1, 0⟩ := by simpa [crowd, step] using hX
    rcases this with rfl | rfl | rfl
    · exact Or.inr ⟨fun _ => floor_rest, fun h => absurd h (by decide)⟩
    · exact Or.inl (by decide)
    · exact Or.inl (by decide)
  · have : J = .ball ball := by simpa [joints, crowd, step] using hJ
    subst this
    exact Or.inr ⟨fun h => absurd h (by decide), fun h => absurd h (by decide)⟩
  · have : l = [3, 4, 0] ∨ l = [1, 0, 2] := by simpa [crowd, step] using hl
    rcases this with rfl | rfl
    · refine Or.inr fun b hb hg => ?_
      have : b = 3 ∨ b = 4 ∨ b = 0 := by simpa using hb
      rcases this with rfl | rfl | rfl
      · exact absurd hg (by decide)
      · exact absurd hg (by decide)
      · exact floor_rest
    · exact Or.inl (by decide)

/-- The hypotheses hold for two histories that differ in what happens to the others; in both the stack is pressed together. -/
example : let es : List (Ev ℚ) := [.call 4 (.force ⟨5, 0, 0⟩ 0), .call 3 (.setMass 7)]
    (∀ b ∈ G, (es.foldl Ev.run (update crowd world)).body b = (update (step [] [] []) (world.exec (.destroy 3))).body b) ∧
      ((update crowd world).body 2).map (fun d => d.vel.y) ≠ (world.body 2).map fun d => d.vel.y := by
  refine ⟨?_, by decide +kernel⟩
  refine apart_same_partial (es := [.step crowd, .call 4 (.force ⟨5, 0, 0⟩ 0), .call 3 (.setMass 7)]) (fs := [.destroy 3, .step (step [] [] [])]) floor_reach floor_reach
    ⟨fun i h => (by cases h; exact ⟨floor_alone, fun J hJ => (by cases hJ)⟩), fun i h => (by cases h), fun i h => (by cases h), trivial⟩
    ⟨fun i h => (by cases h), fun i h => ?_, trivial⟩ ?_ rfl
  · cases h
    refine ⟨⟨fun X hX => ?_, fun J hJ => (by cases hJ), fun l hl => ?_, rfl⟩, fun J hJ => by cases hJ⟩
    · have : X = hit 0 1 ⟨0, 1, 0⟩ ⟨0, -1, 0⟩ ∨ X = hit 1 2 ⟨0, 1, 0⟩ ⟨0, -1, 0⟩ := by simpa [step] using hX
      rcases this with rfl | rfl <;> exact Or.inl (by decide)
    · have : l = [1, 0, 2] := by simpa [step] using hl
      subst this
      exact Or.inl (by decide)
  · rfl

example : only G (update crowd world) = update (onlyIn G crowd) (only G world) := apart_step_partial floor_reach floor_alone fun J hJ => by cases hJ

/-! ### Sliders -/

namespace Rails

def rail (a b : Nat) (baum : Bool) : Slider ℚ :=
  ⟨a, b, baum, 0, 0, ⟨1, 0, 0⟩, Quat.one, 0, 0, 0, 0, 0, 0, 0, 0, 0, 0, 0, M2.zero, ⟨0, 0⟩, ⟨0, 0⟩, M3.zero, 0, 0, false, -1, 1, false, false, 0, 0, 0, 0,
    0, 0, false, 1, 100, 0⟩

/-- Body 1 is off the rail of body 0; the bodies 2 and 3 are far away. -/
def calls : List (DW.Op ℚ) :=
  [.create 0 ⟨⟨0, 0, 0⟩, ⟨0, 0, 0, 1⟩⟩, .create 1 ⟨⟨0, 1, 0⟩, ⟨0, 0, 0, 1⟩⟩, .create 2 ⟨⟨100, 0, 0⟩, ⟨0, 0, 0, 1⟩⟩, .create 3 ⟨⟨102, 0, 0⟩, ⟨0, 0, 0, 1⟩⟩]
def world : DW ℚ := calls.foldl DW.exec (DW.empty true (1 / 50) (1 / 60) 1)
def step : In ℚ :=
  ⟨1 / 60, none, [[0, 1], [2, 3]], cc, jc, [], ⟨[], [], [], [rail 2 3 true, rail 0 1 false]⟩, 1, 1, fun _ => 1, fun x y => x + y, 1000000⟩
def G : Finset Nat := {0, 1}

end Rails

/-- **C135 fails.** A slider of far away bodies with the technique BAUMGARTE_JOINTS ends the loop over the sliders (SolveSliderJointSystem.cpp:520-527): the slider of the group is
not corrected, though it is if the group is alone. -/
theorem apart_fails : DW.Reach DW.Any Rails.world ∧ Alone Rails.G Rails.step Rails.world ∧
    (∀ J ∈ joints Rails.step.pins, both Rails.G J.b1 J.b2 = false → J.b1 ∉ Rails.G ∧ J.b2 ∉ Rails.G) ∧
    ((update Rails.step Rails.world).body 1).map (fun d => d.comWorld) = some ⟨0, 1, 0⟩ ∧
    ((update (onlyIn Rails.G Rails.step) (only Rails.G Rails.world)).body 1).map (fun d => d.comWorld) ≠ some ⟨0, 1, 0⟩ := by
  refine ⟨Newton.reach_calls _ _ (.empty _ _ _ _), ⟨fun X hX => (by cases hX), fun J hJ => ?_, fun l hl => ?_, rfl⟩, fun J hJ => ?_, by decide +kernel, by decide +kernel⟩
  · have : J = .slider (Rails.rail 2 3 true) ∨ J = .slider (Rails.rail 0 1 false) := by simpa [joints, Rails.step] using hJ
    rcases this with rfl | rfl
    · exact Or.inr ⟨fun h => absurd h (by decide), fun h => absurd h (by decide)⟩
    · exact Or.inl (by decide)
  · have : l = [0, 1] ∨ l = [2, 3] := by simpa [Rails.step] using hl
    rcases this with rfl | rfl
    · exact Or.inl (by decide)
    · refine Or.inr fun b hb hg => ?_
      have : b = 2 ∨ b = 3 := by simpa using hb
      rcases this with rfl | rfl <;> exact absurd hg (by decide)
  · have : J = .slider (Rails.rail 2 3 true) ∨ J = .slider (Rails.rail 0 1 false) := by simpa [joints, Rails.step] using hJ
    rcases this with rfl | rfl
    · exact fun _ => by decide
    · exact fun h => absurd h (by decide)

end Apart
end RP3D
