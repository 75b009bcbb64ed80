import Verif.Props.Newton

/-! C134: examples. Three bodies, one of them pushed: the first two penetrate each other, a ball joint holds the last two. The numbers of the square root do not matter for the law. -/

namespace RP3D
namespace Newton
open Solver Joints SolverProps JointProps Whole

namespace Three

def jc : JCfg ℚ := ⟨0, 1 / 5, 1 / 8388608, true, 355 / 113, id, fun _ => 355 / 226, fun _ _ => 0, fun x _ => x⟩
def cc : Cfg ℚ := ⟨0, 1 / 5, 1 / 100, true, 1 / 2, 1 / 1000⟩

/-- Body 0 does not belong to the group. -/
def calls : List (DW.Op ℚ) :=
  [.create 0 ⟨⟨0, -5, 0⟩, ⟨0, 0, 0, 1⟩⟩, .create 1 ⟨⟨0, 0, 0⟩, ⟨0, 0, 0, 1⟩⟩, .create 2 ⟨⟨2, 0, 0⟩, ⟨0, 0, 0, 1⟩⟩, .create 3 ⟨⟨4, 1, 0⟩, ⟨0, 0, 0, 1⟩⟩,
    .call 2 (.setMass 3), .call 1 (.linearVelocity ⟨1, 0, 0⟩), .call 0 (.setType .static), .call 3 (.force ⟨0, 6, 0⟩ ⟨4, 2, 1⟩)]
def world : DW ℚ := calls.foldl DW.exec (DW.empty true (1 / 50) (1 / 60) 1)

/-- A contact of the bodies 1 and 2 with a penetration of one tenth. -/
def hit : XMan ℚ := ⟨1, 2, 1 / 2, 1 / 4, 0, 0, 0, 0, 0, [⟨⟨1, 0, 0⟩, ⟨1, 0, 0⟩, ⟨-1, 0, 0⟩, 1 / 10, false, 0⟩]⟩
/-- A ball joint of the bodies 2 and 3 whose anchors are apart. -/
def ball : Ball ℚ := ⟨2, 3, false, ⟨1, 0, 0⟩, ⟨-1, 0, 0⟩, 0, 0, M3.zero, 0, 0, false, 0, 0, false, 0, 0, 0⟩

def step (Xs : List (XMan ℚ)) : In ℚ :=
  ⟨1 / 60, some ⟨0, -10, 0⟩, [[1, 2, 3]], cc, jc, Xs, ⟨[ball], [], [], []⟩, 2, 1, fun _ => 1, fun x y => x + y, 1000000⟩

def once : DW ℚ := Whole.update (step [hit]) world
def G : Finset Nat := {1, 2, 3}

end Three
open Three

theorem reach_calls : ∀ (cs : List (DW.Op ℚ)) (w : DW ℚ), DW.Reach DW.Any w → DW.Reach DW.Any (cs.foldl DW.exec w)
  | [], _, h => h
  | c :: cs, _, h => reach_calls cs _ (.step c trivial h)

theorem three_reach : DW.Reach DW.Any world := reach_calls _ _ (.empty _ _ _ _)

theorem three_moves : ∀ b ∈ G, Moves world b := by
  intro b hb
  simp only [G, Finset.mem_insert, Finset.mem_singleton] at hb
  rcases hb with rfl | rfl | rfl
  · exact ⟨⟨_, rfl⟩, by decide +kernel, by decide +kernel, by decide +kernel, by decide +kernel, by decide +kernel, by decide +kernel⟩
  · exact ⟨⟨_, rfl⟩, by decide +kernel, by decide +kernel, by decide +kernel, by decide +kernel, by decide +kernel, by decide +kernel⟩
  · exact ⟨⟨_, rfl⟩, by decide +kernel, by decide +kernel, by decide +kernel, by decide +kernel, by decide +kernel, by decide +kernel⟩

theorem three_closed (Xs : List (XMan ℚ)) (h : Xs = [hit] ∨ Xs = []) : Closed G (step Xs) := by
  refine ⟨fun X hX => ?_, fun J hJ => ?_, rfl⟩
  · rcases h with rfl | rfl
    · rw [List.mem_singleton.1 hX]; decide
    · cases hX
  · have : J = .ball ball := by simpa [step, Whole.joints] using hJ
    rw [this]; decide

theorem three_awake : ∀ b ∈ G, (dyn once b).sleeping = false := by decide +kernel

/-- A step: the bodies collide, are pulled by the joint, and fall. -/
example : momentum G once = momentum G world + V3.smul (1 / 60) (force G (some ⟨0, -10, 0⟩) world) ∧ center G once = center G world + V3.smul (1 / 60) (momentum G once) :=
  newton_step G (step [hit]) three_reach three_moves (three_closed _ (Or.inl rfl)) three_awake

/-- None of the sums vanish, and the contact, the joint and the split impulses have done something. -/
example : momentum G world = ⟨1, 0, 0⟩ ∧ force G (some ⟨0, -10, 0⟩) world = ⟨0, -44, 0⟩ := by decide +kernel
example : (dyn once 1).vel.x < 0 ∧ 0 < (dyn once 2).vel.x ∧ ((solved (step [hit]) world).1 1).vs ≠ 0 ∧ ((corrected (step [hit]) world).1 3).x ≠ (midway (step [hit]) world 3).cPos := by
  decide +kernel

/-- A history with a step and calls. -/
def Three.later : DW ℚ := (once.exec (.call 3 (.forceCenter ⟨0, 0, 1⟩))).exec (.destroy 0)
theorem three_run : Run G [(1 / 60, force G (some ⟨0, -10, 0⟩) world)] world later :=
  .destroy 0 (.call 3 _ (.step (step [hit]) (.nil world) (three_closed _ (Or.inl rfl)) three_awake) (Or.inr trivial)) (by decide)

example : (momentum G later, center G later) = particle (momentum G world, center G world) [(1 / 60, force G (some ⟨0, -10, 0⟩) world)] :=
  (newton_history three_run three_reach three_moves).1

example : momentum G later = momentum G world + V3.smul (((1 : ℕ) : ℚ) * (1 / 60)) (force G (some ⟨0, -10, 0⟩) world) :=
  (newton_fall (n := 1) three_run three_reach three_moves).1

/-- Without forces and gravity. -/
def Three.alone : DW ℚ := (calls.take 7).foldl DW.exec (DW.empty true (1 / 50) (1 / 60) 1)
def Three.drift : In ℚ := { step [hit] with g := none }

theorem alone_moves : ∀ b ∈ G, Moves alone b := by
  intro b hb
  simp only [G, Finset.mem_insert, Finset.mem_singleton] at hb
  rcases hb with rfl | rfl | rfl
  · exact ⟨⟨_, rfl⟩, by decide +kernel, by decide +kernel, by decide +kernel, by decide +kernel, by decide +kernel, by decide +kernel⟩
  · exact ⟨⟨_, rfl⟩, by decide +kernel, by decide +kernel, by decide +kernel, by decide +kernel, by decide +kernel, by decide +kernel⟩
  · exact ⟨⟨_, rfl⟩, by decide +kernel, by decide +kernel, by decide +kernel, by decide +kernel, by decide +kernel, by decide +kernel⟩

theorem alone_run : Run G [(1 / 60, force G none alone)] alone (Whole.update drift alone) :=
  .step drift (.nil alone) ⟨(three_closed _ (Or.inl rfl)).mans, (three_closed _ (Or.inl rfl)).joints, rfl⟩ (by decide +kernel)

example : momentum G (Whole.update drift alone) = momentum G alone ∧
    center G (Whole.update drift alone) = center G alone + V3.smul (time [(1 / 60, force G none alone)]) (momentum G alone) :=
  newton_isolated alone_run (reach_calls _ _ (.empty _ _ _ _)) alone_moves (by decide +kernel)

/-- **C134 ends with sleep.** A body alone in the world, without forces, slower than the sleep velocity: a step of the time before sleep stops it, in the middle of nowhere. The law
holds only for groups that stay awake. -/
theorem sleep_stops :
    let w : DW ℚ := [DW.Op.create 1 ⟨⟨0, 0, 0⟩, ⟨0, 0, 0, 1⟩⟩, .call 1 (.linearVelocity ⟨1 / 100, 0, 0⟩)].foldl DW.exec (DW.empty true (1 / 50) (1 / 60) 1)
    let i : In ℚ := ⟨1, none, [[1]], cc, jc, [], ⟨[], [], [], []⟩, 6, 3, fun _ => 1, fun x y => x + y, 1000000⟩
    DW.Reach DW.Any w ∧ momentum {1} w = ⟨1 / 100, 0, 0⟩ ∧ force {1} i.g w = 0 ∧ momentum {1} (Whole.update i w) = 0 :=
  ⟨reach_calls _ _ (.empty _ _ _ _), by decide +kernel, by decide +kernel, by decide +kernel⟩

end Newton
end RP3D
