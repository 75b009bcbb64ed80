import Verif.Props.Exchange
import Verif.Props.GalileoExamples

/-! C146: examples. -/

namespace RP3D
namespace Exchange
open Solver Joints Whole Flip
open Apart (Ev)

namespace Shove

/-- A floor and two bodies; one of them lies on the floor and is hit by the other one from the side. -/
def calls : List (Ev ℚ) :=
  [.create 0 ⟨⟨0, -2, 0⟩, ⟨0, 0, 0, 1⟩⟩, .call 0 (.setType .static), .create 1 ⟨⟨0, 0, 0⟩, ⟨0, 0, 0, 1⟩⟩, .create 2 ⟨⟨2, 0, 0⟩, ⟨0, 0, 0, 1⟩⟩,
    .call 2 (.linearVelocity ⟨-2, 1, 0⟩)]
/-- The contact with the floor was there in the last step. -/
def floor : XMan ℚ := ⟨0, 1, 0, 1 / 4, 1 / 8, 1 / 16, 0, ⟨1, 0, 0⟩, ⟨0, 0, -1⟩, [⟨⟨0, 1, 0⟩, ⟨0, 1, 0⟩, ⟨0, -1, 0⟩, 1 / 10, true, 1 / 10⟩]⟩
def hit : XMan ℚ := ⟨1, 2, 1 / 2, 1 / 3, 0, 0, 0, 0, 0, [⟨⟨1, 0, 0⟩, ⟨1, 0, 0⟩, ⟨-1, 0, 0⟩, 1 / 10, false, 0⟩]⟩
def step : In ℚ := ⟨1 / 60, some ⟨0, -10, 0⟩, [[1, 2]], Newton.Three.cc, Newton.Three.jc, [floor, hit], ⟨[], [], [], []⟩, 2, 1, fun _ => 1, fun x y => x + y, 1000000⟩
/-- The other body is the first one in both contacts. -/
def step' : In ℚ := { step with mans := [⟨1, 0, 0, 1 / 4, 1 / 8, -(1 / 16), 0, ⟨-1, 0, 0⟩, ⟨0, 0, -1⟩, [⟨⟨0, -1, 0⟩, ⟨0, -1, 0⟩, ⟨0, 1, 0⟩, 1 / 10, true, 1 / 10⟩]⟩,
  ⟨2, 1, 1 / 2, 1 / 3, 0, 0, 0, 0, 0, [⟨⟨-1, 0, 0⟩, ⟨-1, 0, 0⟩, ⟨1, 0, 0⟩, 1 / 10, false, 0⟩]⟩] }
def start : DW ℚ := DW.empty true (1 / 50) (1 / 60) 1

end Shove
open Shove

theorem shove_swapped : Swapped step step' := by
  refine ⟨rfl, ?_, .cons (.inr ?_) (.cons (.inr ?_) .nil)⟩
  · intro X hX
    rcases List.mem_cons.1 hX with rfl | hX
    · exact ⟨by decide, by norm_num [floor]⟩
    · rw [List.mem_singleton.1 hX]; exact ⟨by decide, by norm_num [hit]⟩
  · have h : (⟨-1, 0, 0⟩ : V3 ℚ) = -⟨1, 0, 0⟩ ∧ (⟨0, -1, 0⟩ : V3 ℚ) = -⟨0, 1, 0⟩ := by constructor <;> ext <;> simp
    simp [flipXM, flipX, floor, h.1, h.2]
  · have h : (⟨-1, 0, 0⟩ : V3 ℚ) = -⟨1, 0, 0⟩ := by ext <;> simp
    simp [flipXM, flipX, hit, h]

example : (calls ++ [Ev.step step', .call 1 (.force ⟨1, 0, 0⟩ 0), .step step']).foldl Ev.run start = (calls ++ [Ev.step step, .call 1 (.force ⟨1, 0, 0⟩ 0), .step step]).foldl Ev.run start :=
  exchange (List.rel_append (List.forall₂_same.2 fun _ _ => .same _) (.cons (.step shove_swapped) (.cons (.same _) (.cons (.step shove_swapped) .nil)))) start

/-- The contacts have done something. -/
example : (((calls ++ [Ev.step step']).foldl Ev.run start).body 1).any (fun d => decide (d.vel.x < 0 ∧ d.vel.y ≠ 0 ∧ d.ang.z ≠ 0)) = true ∧
    (solved step' (calls.foldl Ev.run start)).2.2.any (fun M => M.pts.any fun p => decide (1 < p.imp)) = true := by decide +kernel

/-- The old friction matters: without its sign the warm start would be another one. -/
example : ((update { step with mans := [{ flipXM floor with f2 := 1 / 16 }], nv := 0 } (calls.foldl Ev.run start)).body 1).any
    (fun d => ((update { step with mans := [floor], nv := 0 } (calls.foldl Ev.run start)).body 1).any fun e => decide (d.vel ≠ e.vel)) = true := by decide +kernel

end Exchange
end RP3D
