import Verif.Props.ContactTurn
import Verif.Props.JointExamples

/-! C142: what fails, and examples. The square root of the examples is only asked for 1. -/

namespace RP3D
namespace ContactTurn
open Solver Joints SolverProps JointProps JointProps.Ex

namespace Ex

/-- Two balls of radius 1, one above the other at height `h`; the upper one comes down and aside. -/
def balls (h : ℚ) (b : Nat) : JBody ℚ := { both ⟨0, h, 0⟩ b with v := if b = 1 then ⟨1, -1, 0⟩ else 0 }
def fall : Nat → Vel ℚ := moving ⟨1, -1, 0⟩ 0
/-- Their contact. -/
def hit (h mu : ℚ) : XMan ℚ := ⟨0, 1, 0, mu, 0, 0, 0, 0, 0, [⟨⟨0, 1, 0⟩, ⟨0, 1, 0⟩, ⟨0, h - 1, 0⟩, 2 - h, false, 0⟩]⟩

theorem balls_turn (h : ℚ) (S : Finset Nat) : FreeTurn (balls h) m1 L1 S := both_turn ⟨0, h, 0⟩ S

theorem hit_aligned (h mu : ℚ) : Aligned (hit h mu) := by
  intro x hx
  simp only [hit, List.mem_singleton] at hx
  subst hx
  ext <;> simp [V3.cross]

theorem hit_touching (mu : ℚ) : Touching (hit 2 mu) := by
  intro x hx
  simp only [hit, List.mem_singleton] at hx
  subst hx
  ext <;> norm_num

end Ex
open Ex

/-- Balls that overlap without friction: the contact does something and the angular momentum stays. -/
example : angular {0, 1} m1 L1 (fun b => (balls (19 / 10) b).x) (solveStep cc jc (balls (19 / 10)) fall [] [hit (19 / 10) 0] 10).1 = ⟨0, 0, -19 / 10⟩ ∧
    ((solveStep cc jc (balls (19 / 10)) fall [] [hit (19 / 10) 0] 10).1 1).v = ⟨1, -1 / 2, 0⟩ := by
  refine ⟨?_, by decide +kernel⟩
  rw [contacts_keep_partial cc jc (balls (19 / 10)) fall [] [hit (19 / 10) 0] 10 rfl m1 L1 {0, 1} (balls_turn _ _) (fun J hJ => by cases hJ) (fun X hX => by
    simp only [List.mem_singleton] at hX
    subst hX
    exact ⟨⟨by decide, by decide⟩, Or.inr ⟨hit_aligned _ _, rfl, rfl, rfl⟩⟩)]
  decide +kernel

/-- Balls that touch with friction. -/
example : angular {0, 1} m1 L1 (fun b => (balls 2 b).x) (solveStep cc jc (balls 2) fall [] [hit 2 (1 / 2)] 10).1 = ⟨0, 0, -2⟩ ∧
    ((solveStep cc jc (balls 2) fall [] [hit 2 (1 / 2)] 10).1 1).v.x ≠ 1 := by
  refine ⟨?_, by decide +kernel⟩
  rw [contacts_keep_partial cc jc (balls 2) fall [] [hit 2 (1 / 2)] 10 rfl m1 L1 {0, 1} (balls_turn _ _) (fun J hJ => by cases hJ) (fun X hX => by
    simp only [List.mem_singleton] at hX
    subst hX
    exact ⟨⟨by decide, by decide⟩, Or.inl (hit_touching _)⟩)]
  decide +kernel

/-- **C142 fails.** Friction between balls that overlap acts on each ball at the point of its own surface: the two forces are opposite but not on one line, and the angular momentum changes. -/
theorem friction_turns : Aligned (hit (19 / 10) (1 / 2)) ∧ FreeTurn (balls (19 / 10)) m1 L1 {0, 1} ∧
    angular {0, 1} m1 L1 (fun b => (balls (19 / 10) b).x) (solveStep cc jc (balls (19 / 10)) fall [] [hit (19 / 10) (1 / 2)] 10).1 ≠
      angular {0, 1} m1 L1 (fun b => (balls (19 / 10) b).x) fall :=
  ⟨hit_aligned _ _, balls_turn _ _, by decide +kernel⟩

end ContactTurn
end RP3D
