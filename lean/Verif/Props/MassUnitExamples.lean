import Verif.Props.MassUnit
import Verif.Props.GalileoExamples

/-! C144: examples. -/

namespace RP3D
namespace MassUnit
open Solver Joints Whole Heavier
open Apart (Ev)

namespace Grams

/-- A floor and a body of two colliders that is pushed and turned on it; the masses are in kilograms. -/
def calls : List (Ev ℚ) :=
  [.create 0 ⟨⟨0, -2, 0⟩, ⟨0, 0, 0, 1⟩⟩, .call 0 (.setType .static), .create 1 ⟨⟨0, 0, 0⟩, ⟨0, 0, 0, 1⟩⟩,
    .call 1 (.massProperties [⟨3, ⟨⟨1, 0, 0⟩, ⟨0, 0, 0, 1⟩⟩, ⟨1, 1, 1⟩⟩, ⟨1, ⟨⟨-1, 0, 0⟩, ⟨0, 0, 0, 1⟩⟩, ⟨1, 1, 1⟩⟩]),
    .call 1 (.force ⟨10, 0, 0⟩ ⟨0, 0, 1⟩), .call 1 (.localTorque ⟨0, 0, 1⟩), .call 1 (.linearLock ⟨1, 1, 0⟩)]
/-- A contact that has already been there in the last step. -/
def hit : XMan ℚ := ⟨0, 1, 0, 1 / 4, 0, 0, 0, 0, 0, [⟨⟨0, 1, 0⟩, ⟨0, 1, 0⟩, ⟨0, -1, 0⟩, 1 / 10, true, 1 / 10⟩]⟩
def step (n : Nat) : In ℚ := ⟨1 / 60, some ⟨0, -10, 0⟩, [[1]], Newton.Three.cc, Newton.Three.jc, [hit], ⟨[], [], [], []⟩, n, 1, fun _ => 1, fun x y => x + y, 1000000⟩
def tale : List (Ev ℚ) := calls ++ [.step (step 3), .call 1 (.setMass 7), .step (step 2), .destroy 0]
def start : DW ℚ := DW.empty true (1 / 50) (1 / 60) 1

end Grams
open Grams

theorem grams_fair : Fair start tale := by
  refine ⟨trivial, trivial, trivial, ?_, trivial, trivial, trivial, ⟨rfl, fun X hX => ?_⟩, trivial, ⟨rfl, fun X hX => ?_⟩, trivial, trivial⟩
  · intro c hc
    rcases List.mem_cons.1 hc with rfl | hc
    · norm_num
    · rw [List.mem_singleton.1 hc]; norm_num
  · rw [List.mem_singleton.1 hX]
    exact ⟨⟨_, rfl, Or.inl rfl⟩, ⟨_, rfl, Or.inr (Or.inl rfl)⟩⟩
  · rw [List.mem_singleton.1 hX]
    have k : ((((calls ++ [Ev.step (step 3), .call 1 (.setMass 7)]).foldl Ev.run start).body 0).any fun d => decide (d.type = .static)) = true := by decide +kernel
    have l : ((((calls ++ [Ev.step (step 3), .call 1 (.setMass 7)]).foldl Ev.run start).body 1).any fun d => !d.disabled) = true := by decide +kernel
    obtain ⟨d, k1, k2⟩ := (Option.any_eq_true _ _).1 k
    obtain ⟨e, l1, l2⟩ := (Option.any_eq_true _ _).1 l
    exact ⟨⟨d, k1, Or.inl (by simpa using k2)⟩, ⟨e, l1, Or.inr (Or.inl (by simpa using l2))⟩⟩

/-- The same history in grams. -/
example : SimW 1000 (tale.foldl Ev.run start) ((tale.flatMap (scaleEv 1000)).foldl Ev.run start) :=
  mass_unit_partial (by norm_num) _ (empty_scale true _ _ _) grams_fair

/-- The contact and the forces have done something. -/
example : (((calls ++ [Ev.step (step 3)]).foldl Ev.run start).body 1).any (fun d => decide (d.vel.x ≠ 0 ∧ d.ang.y ≠ 0 ∧ 0 < d.vel.y + 1 / 6 ∧ d.mass = 4)) = true ∧
    ((((calls ++ [Ev.step (step 3)]).flatMap (scaleEv 1000)).foldl Ev.run start).body 1).any (fun d => decide (d.vel.x ≠ 0 ∧ d.ang.y ≠ 0 ∧ d.mass = 4000)) = true := by decide +kernel

namespace Pair

/-- Two bodies with a ball-and-socket joint; one of them moves away. -/
def calls : List (Ev ℚ) := [.create 2 ⟨⟨0, 0, 0⟩, ⟨0, 0, 0, 1⟩⟩, .create 3 ⟨⟨2, 0, 0⟩, ⟨0, 0, 0, 1⟩⟩, .call 3 (.linearVelocity ⟨1, 0, 0⟩)]
def step : In ℚ := ⟨1 / 60, none, [[2, 3]], Newton.Three.cc, Newton.Three.jc, [], ⟨[Newton.Three.ball], [], [], []⟩, 10, 5, fun _ => 1, fun x y => x + y, 1000000⟩
def tale : List (Ev ℚ) := calls ++ [.step step]

end Pair

/-- **C144 fails with joints.** In kilograms the joint holds the two bodies of one kilogram together. In grams it does nothing: the determinant of its mass matrix is compared with a
constant that has a unit. -/
theorem joint_tells : ((Pair.tale.foldl Ev.run start).body 2).map (fun d => d.vel) = some ⟨1 / 2, 0, 0⟩ ∧ ((Pair.tale.foldl Ev.run start).body 3).map (fun d => d.vel) = some ⟨1 / 2, 0, 0⟩ ∧
    (((Pair.tale.flatMap (scaleEv 1000)).foldl Ev.run start).body 2).map (fun d => d.vel) = some 0 ∧
    (((Pair.tale.flatMap (scaleEv 1000)).foldl Ev.run start).body 3).map (fun d => d.vel) = some ⟨1, 0, 0⟩ := by decide +kernel

end MassUnit
end RP3D
