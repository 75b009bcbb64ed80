import Verif.Props.Galileo
import Verif.Props.ApartExamples

/-! C137: examples. -/

namespace RP3D
namespace Galileo
open Solver Joints SolverProps JointProps Whole Frame
open Apart (Ev)
open Newton.Three (cc jc hit ball)

namespace Ride

/-- Three bodies, without sleep; one is pushed beside its center of mass. -/
def calls : List (Ev ℚ) :=
  [.create 1 ⟨⟨0, 0, 0⟩, ⟨0, 0, 0, 1⟩⟩, .create 2 ⟨⟨2, 0, 0⟩, ⟨0, 0, 0, 1⟩⟩, .create 3 ⟨⟨4, 1, 0⟩, ⟨0, 0, 0, 1⟩⟩,
    .call 2 (.setMass 3), .call 1 (.linearVelocity ⟨1, 0, 0⟩), .call 3 (.force ⟨0, 6, 0⟩ ⟨4, 2, 1⟩)]
/-- They collide and are pulled by a joint. -/
def step : In ℚ := Newton.Three.step [hit]
/-- All that happens. -/
def tale : List (Ev ℚ) := calls ++ [.step step]
def start : DW ℚ := DW.empty false (1 / 50) (1 / 60) 1
def world : DW ℚ := calls.foldl Ev.run start
/-- The velocity of the other observer. -/
def u : V3 ℚ := ⟨-7, 2, 5⟩
def t : V3 ℚ := ⟨100, 0, -3⟩

end Ride
open Ride

theorem ride_live : Live step world := by
  refine ⟨fun X hX => ?_, fun J hJ => ?_⟩
  · have : X = hit := by simpa [step, Newton.Three.step] using hX
    subst this
    exact ⟨⟨⟨_, rfl⟩, _, rfl⟩, by decide⟩
  · have : J = .ball ball := by simpa [joints, step, Newton.Three.step] using hJ
    subst this
    exact ⟨⟨_, rfl, Or.inr (Or.inl (by decide +kernel))⟩, _, rfl, Or.inr (Or.inl (by decide +kernel))⟩

theorem ride_fair : Fair u start tale :=
  ⟨trivial, trivial, trivial, Or.inr trivial, Or.inr trivial, Or.inr trivial, ride_live, trivial⟩

/-- A collision seen from a train. -/
example : SimW (t + V3.smul (total tale) u) u (tale.foldl Ev.run start) ((moveAll u t tale).foldl Ev.run start) :=
  galileo _ (empty_sim t u false _ _ _ (Or.inr rfl)) ride_fair

/-- The contact and the joint have done something, in both worlds. -/
example : ((tale.foldl Ev.run start).body 1).map (fun d => d.vel) ≠ some ⟨1, -1 / 6, 0⟩ ∧
    (((moveAll u t tale).foldl Ev.run start).body 1).map (fun d => d.vel) = ((tale.foldl Ev.run start).body 1).map (fun d => d.vel + u) ∧
    t + V3.smul (total tale) u = ⟨100 - 7 / 60, 1 / 30, -3 + 1 / 12⟩ := by decide +kernel

example : (solved (moveIn t step) ((moveAll u t calls).foldl Ev.run start)).2 = (solved step world).2 :=
  (galileo_report (by
    have := galileo calls (empty_sim t u false (1 / 50) (1 / 60) 1 (Or.inr rfl)) (u := u) ⟨trivial, trivial, trivial, Or.inr trivial, Or.inr trivial, Or.inr trivial, trivial⟩
    have e : t + V3.smul (total calls) u = t := by decide +kernel
    rwa [e] at this) ride_live).1

namespace Place

/-- A stack on a static floor, with sleep and damping, elsewhere. -/
def calls : List (Ev ℚ) :=
  [.create 0 ⟨⟨0, -1, 0⟩, ⟨0, 0, 0, 1⟩⟩, .call 0 (.setType .static), .create 1 ⟨⟨0, 1, 0⟩, ⟨0, 0, 0, 1⟩⟩, .create 2 ⟨⟨0, 3, 0⟩, ⟨0, 0, 0, 1⟩⟩,
    .call 2 (.linearDamping 3), .call 1 (.sleep true), .call 2 (.linearVelocity ⟨0, -1, 0⟩)]
def step : In ℚ := Apart.Floor.step [] [] []
def tale : List (Ev ℚ) := calls ++ [.step step]
def start : DW ℚ := DW.empty true (1 / 50) (1 / 60) 1

end Place

theorem place_live : Live Place.step (Place.calls.foldl Ev.run Place.start) := by
  refine ⟨fun X hX => ?_, fun J hJ => by cases hJ⟩
  have : X = Apart.Floor.hit 0 1 ⟨0, 1, 0⟩ ⟨0, -1, 0⟩ ∨ X = Apart.Floor.hit 1 2 ⟨0, 1, 0⟩ ⟨0, -1, 0⟩ := by simpa [Place.step, Apart.Floor.step] using hX
  rcases this with rfl | rfl
  · exact ⟨⟨⟨_, rfl⟩, _, rfl⟩, by decide⟩
  · exact ⟨⟨⟨_, rfl⟩, _, rfl⟩, by decide⟩

example (t : V3 ℚ) : SimW t 0 (Place.tale.foldl Ev.run Place.start) ((moveAll 0 t Place.tale).foldl Ev.run Place.start) :=
  same_everywhere t true _ _ _ _ ⟨trivial, Or.inl rfl, trivial, trivial, Or.inl rfl, Or.inl rfl, Or.inl rfl, place_live, trivial⟩

/-! ### What tells rest from motion -/

/-- A step of a second without anything. -/
def idle : In ℚ := ⟨1, none, [[1]], cc, jc, [], ⟨[], [], [], []⟩, 1, 1, fun _ => 1, fun x y => x + y, 1000000⟩

theorem idle_live (w : DW ℚ) : Live idle w := ⟨fun X hX => (by cases hX), fun J hJ => by cases hJ⟩

/-- **C137 needs `Calm`.** Linear damping slows a body down relative to the frame of the world: the moving observer sees a body at rest start to move. -/
theorem damping_tells : let es : List (Ev ℚ) := [.create 1 ⟨0, ⟨0, 0, 0, 1⟩⟩, .call 1 (.linearDamping 1), .step idle]
    ((es.foldl Ev.run Ride.start).body 1).map (fun d => d.vel) = some 0 ∧
      ((((moveAll ⟨4, 0, 0⟩ 0 es).foldl Ev.run Ride.start).body 1).map fun d => d.vel) = some ⟨2, 0, 0⟩ := by decide +kernel

/-- **C137 needs sleep to be off.** A body at rest falls asleep, the same body seen from a train does not; a body that moves slowly is stopped, in one frame only. -/
theorem sleep_tells : let es : List (Ev ℚ) := [.create 1 ⟨0, ⟨0, 0, 0, 1⟩⟩, .step idle]
    ((es.foldl Ev.run Place.start).body 1).map (fun d => d.sleeping) = some true ∧
      ((((moveAll ⟨4, 0, 0⟩ 0 es).foldl Ev.run Place.start).body 1).map fun d => d.sleeping) = some false := by decide +kernel

end Galileo
end RP3D
