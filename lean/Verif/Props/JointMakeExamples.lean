import Verif.Props.JointMake
import Verif.Props.JointStepExamples

/-! C130: hinges the wrong way round and at right angles; cases that meet the hypotheses. -/

namespace RP3D
namespace Joints
open Solver

namespace Ex

/-- The bodies where the joints are made. -/
noncomputable def here : Trans ℝ := ⟨0, Quat.one⟩
/-- Body 1 after half a turn about the axis x. -/
noncomputable def flipped (b : Nat) : Trans ℝ := if b = 1 then ⟨0, ⟨1, 0, 0, 0⟩⟩ else here
/-- Body 1 after a third of a turn about the axis (1, 1, 1): its axis z is where the axis x was. -/
noncomputable def third (b : Nat) : Trans ℝ := if b = 1 then ⟨0, ⟨1 / 2, 1 / 2, 1 / 2, 1 / 2⟩⟩ else here
/-- Both bodies after a quarter of a turn about the axis z and a move by (0, 5, 0); body 1 is `t` further along the axis x of body 0, which is y now. -/
noncomputable def rolled (t : ℝ) (b : Nat) : Trans ℝ :=
  ⟨if b = 1 then ⟨0, 5 + t, 0⟩ else ⟨0, 5, 0⟩, ⟨0, 0, Real.sqrt (1 / 2), Real.sqrt (1 / 2)⟩⟩
noncomputable def axisZ : V3 ℝ := ⟨0, 0, 1⟩
noncomputable def axisX : V3 ℝ := ⟨1, 0, 0⟩
noncomputable def idle : Drive ℝ := ⟨false, 0, 0, false, 0, 0⟩
noncomputable def flap : Hinge ℝ := Hinge.make jcone 0 1 false here here (.world 0) (.world axisZ) idle

theorem here_unit : here.ori.lengthSq = 1 := by norm_num [here, Quat.one, Quat.lengthSq]
theorem flipped_unit (b : Nat) : (flipped b).ori.lengthSq = 1 := by
  unfold flipped; split
  · norm_num [Quat.lengthSq]
  · exact here_unit
theorem third_unit (b : Nat) : (third b).ori.lengthSq = 1 := by
  unfold third; split
  · norm_num [Quat.lengthSq]
  · exact here_unit
theorem rolled_unit (t : ℝ) (b : Nat) : (rolled t b).ori.lengthSq = 1 := by
  have : Real.sqrt (1 / 2) * Real.sqrt (1 / 2) = 1 / 2 := Real.mul_self_sqrt (by norm_num)
  simp only [rolled, Quat.lengthSq]
  rw [this]; norm_num

theorem conj_one (v : V3 ℝ) : (Quat.one : Quat ℝ).conj.rot v = v := by unfold Quat.rot Quat.conj Quat.one; ext <;> simp

theorem here_inverse (v : V3 ℝ) : here.inverse.act v = v := by
  unfold Trans.inverse Trans.act here
  dsimp only
  rw [conj_one, conj_one]; ext <;> simp

theorem light : Light jcone bodyR 0 1 (1 : ℝ) := by
  refine ⟨by decide, free_axes 0, free_axes 1, .inr rfl, ?_, ?_, ?_, ?_, one_pos, .inr ?_, ?_⟩
  · norm_num [bodyR, freeR, stuckR]
  · norm_num [bodyR, freeR, stuckR, jcone, jr]
  · show Inert (0 : V3 ℝ); exact ⟨le_rfl, le_rfl, le_rfl⟩
  · show Inert (⟨1, 1, 1⟩ : V3 ℝ); exact ⟨zero_le_one, zero_le_one, zero_le_one⟩
  · show Least 1 (⟨1, 1, 1⟩ : V3 ℝ); exact ⟨le_rfl, le_rfl, le_rfl⟩
  · norm_num [jcone, jr]

theorem eps_pos : (0 : ℝ) < jcone.eps := by norm_num [jcone, jr]
theorem eps_one : jcone.eps ≤ 1 := by norm_num [jcone, jr]

end Ex

open Ex

theorem flipped_axis : (flipped 1).ori.rot (here.ori.conj.rot axisZ) = -axisZ := by
  have : here.ori.conj.rot axisZ = axisZ := conj_one _
  rw [this]
  unfold flipped axisZ
  rw [if_pos rfl]
  unfold Quat.rot
  ext <;> norm_num
theorem here_axis (v : V3 ℝ) : here.ori.rot (here.ori.conj.rot v) = v := by
  have h : here.ori.conj.rot v = v := conj_one _
  rw [h]; exact rot_one v
theorem third_axis : (third 1).ori.rot (here.ori.conj.rot axisZ) = axisX := by
  have : here.ori.conj.rot axisZ = axisZ := conj_one _
  rw [this]
  unfold third axisZ axisX
  rw [if_pos rfl]
  unfold Quat.rot
  ext <;> norm_num

theorem pinned_zero {B' : Trans ℝ} (h : B'.pos = 0) : Pinned here here here B' 0 := by
  unfold Pinned now
  rw [here_inverse]
  unfold Trans.act Quat.rot
  rw [h]
  ext <;> simp [here]

theorem flipped_hung : HungBack here here (flipped 0) (flipped 1) 0 axisZ ∧ ¬ Hung here here (flipped 0) (flipped 1) 0 axisZ := by
  have f0 : flipped 0 = here := rfl
  rw [hungBack_iff, hung_iff, f0, flipped_axis, here_axis]
  refine ⟨⟨pinned_zero rfl, rfl⟩, fun h => ?_⟩
  have := congrArg V3.z h.2
  norm_num [axisZ] at this

/-- **C130 fails for hinges turned the wrong way round**: no position iteration moves body 1 after half a turn about an axis across that of the hinge. -/
theorem hinge_back_rests : (flap.position jcone bodyR (posesOf bodyR flipped)).1 = posesOf bodyR flipped ∧
    ¬ Hung here here (flipped 0) (flipped 1) 0 axisZ := by
  refine ⟨?_, flipped_hung.2⟩
  refine (hinge_rests_iff_partial sqrt_real eps_pos eps_one light here_unit here_unit (flipped_unit 0) (flipped_unit 1) false 0
    (by norm_num [V3.dot, axisZ]) idle rfl ?_).2 (.inr flipped_hung.1)
  have f0 : flipped 0 = here := rfl
  rw [f0, flipped_axis, here_axis]
  norm_num [V3.dot, axisZ, jcone, jr]

/-- **C130 fails for hinges at right angles**: body 1 is not turned back. -/
theorem hinge_across_rests : (flap.position jcone bodyR (posesOf bodyR third)).1 = posesOf bodyR third ∧
    ¬ (Hung here here (third 0) (third 1) 0 axisZ ∨ HungBack here here (third 0) (third 1) 0 axisZ) := by
  have f0 : third 0 = here := rfl
  constructor
  · have u : unitOf jcone axisZ = axisZ := unit_stays (by norm_num [V3.lengthSq, axisZ])
    have e1 : flap.l1 = axisZ := by
      show unitOf jcone ((Quat.one : Quat ℝ).conj.rot axisZ) = axisZ
      rw [conj_one, u]
    have e2 : flap.l2 = axisZ := e1
    refine hinge_right_angle sqrt_real eps_pos.le eps_one rfl (by rw [e1]; norm_num [V3.dot, axisZ]) (by rw [e2]; norm_num [V3.dot, axisZ])
      (third_unit 0) (third_unit 1) ?_ ?_
    · rw [anchorAt_poses, anchorAt_poses]
      exact (pinned_zero (B' := third 1) rfl).symm
    · have k := third_axis
      have c : here.ori.conj.rot axisZ = axisZ := conj_one _
      rw [c] at k
      rw [e1, e2]
      show V3.dot ((Quat.one : Quat ℝ).rot axisZ) ((third 1).ori.rot axisZ) = 0
      rw [k, rot_one]
      norm_num [V3.dot, axisZ, axisX]
  · rw [hungBack_iff, hung_iff, f0, third_axis, here_axis]
    rintro (h | h)
    · have := congrArg V3.x h.2
      norm_num [axisZ, axisX] at this
    · have := congrArg V3.x h.2
      norm_num [axisZ, axisX] at this

/-! ### Hypotheses -/

theorem rolled_now (t : ℝ) (w : V3 ℝ) : now here (rolled t 1) w = now here (rolled t 0) (w + V3.smul t axisX) := by
  have h : Real.sqrt (1 / 2) * Real.sqrt (1 / 2) = 1 / 2 := Real.mul_self_sqrt (by norm_num)
  unfold now
  rw [here_inverse, here_inverse]
  unfold rolled Trans.act Quat.rot axisX
  rw [if_pos rfl, if_neg (by decide)]
  ext <;> simp only [V3.add_x, V3.add_y, V3.add_z, V3.smul_x, V3.smul_y, V3.smul_z] <;> generalize Real.sqrt (1 / 2) = q at h <;>
    first | ring1 | linear_combination (-2 * t) * h

theorem rolled_slid (t : ℝ) : Slid here here (rolled t 0) (rolled t 1) axisX := ⟨t, rolled_now t⟩
theorem rolled_welded : Welded here here (rolled 0 0) (rolled 0 1) := fun w => by
  have := rolled_now 0 w
  have e : w + V3.smul 0 axisX = w := by ext <;> simp
  rw [e] at this
  exact this

/-- A slider that has moved by `t`; a fixed joint, a hinge and a ball-and-socket joint that have moved along. -/
example (t : ℝ) :
    ((Slider.make jcone 0 1 false here here (.world ⟨1, 2, 3⟩) (.world axisX) idle).position jcone bodyR (posesOf bodyR (rolled t))).1 =
      posesOf bodyR (rolled t) :=
  (slider_rests_iff sqrt_real eps_pos eps_one light here_unit here_unit (rolled_unit t 0) (rolled_unit t 1) false _ (by norm_num [V3.dot, axisX]) idle rfl).2
    (rolled_slid t)

example : ((Fixed.make 0 1 false here here (.world ⟨1, 2, 3⟩)).position jcone bodyR (posesOf bodyR (rolled 0))).1 = posesOf bodyR (rolled 0) :=
  (fixed_rests_iff sqrt_real eps_pos.le light here_unit here_unit (rolled_unit 0 0) (rolled_unit 0 1) false _).2 rolled_welded

example : ((Ball.make jcone 0 1 false here here (.world ⟨1, 2, 3⟩)).position jcone bodyR (posesOf bodyR (rolled 0))).1 = posesOf bodyR (rolled 0) :=
  (ball_rests_iff sqrt_real eps_pos.le light here here (rolled_unit 0 0) (rolled_unit 0 1) false _).2 (rolled_welded _)

/-- A fixed joint whose second body has slipped by one is corrected. -/
example : ((Fixed.make 0 1 false here here (.world ⟨1, 2, 3⟩)).position jcone bodyR (posesOf bodyR (rolled 1))).1 ≠ posesOf bodyR (rolled 1) := fun h => by
  have := ((fixed_rests_iff sqrt_real eps_pos.le light here_unit here_unit (rolled_unit 1 0) (rolled_unit 1 1) false _).1 h) 0
  unfold Pinned at this
  rw [rolled_now, now_add] at this
  have k := add_self this
  have z := congrArg (fun v => V3.dot v v) k
  beta_reduce at z
  rw [rot_dot (rolled_unit 1 0), rot_dot (unit_inverse here_unit)] at z
  norm_num [V3.dot, axisX] at z

/-- A door that hangs on its hinge: both bodies turned, body 1 turned on about the axis z. -/
noncomputable def Ex.opened (b : Nat) : Trans ℝ := if b = 1 then ⟨0, ⟨0, 0, 3 / 5, 4 / 5⟩⟩ else here

theorem opened_unit (b : Nat) : (opened b).ori.lengthSq = 1 := by
  unfold opened; split
  · norm_num [Quat.lengthSq]
  · exact here_unit

theorem opened_axis : (opened 1).ori.rot (here.ori.conj.rot axisZ) = axisZ := by
  have : here.ori.conj.rot axisZ = axisZ := conj_one _
  rw [this]
  unfold opened axisZ
  rw [if_pos rfl]
  unfold Quat.rot
  ext <;> norm_num

example : (flap.position jcone bodyR (posesOf bodyR opened)).1 = posesOf bodyR opened := by
  have f0 : opened 0 = here := rfl
  refine (hinge_rests_iff_partial sqrt_real eps_pos eps_one light here_unit here_unit (opened_unit 0) (opened_unit 1) false 0
    (by norm_num [V3.dot, axisZ]) idle rfl ?_).2 (.inl ?_)
  · rw [f0, opened_axis, here_axis]
    norm_num [V3.dot, axisZ, jcone, jr]
  · rw [hung_iff, f0, opened_axis, here_axis]
    exact ⟨pinned_zero rfl, rfl⟩

/-- Four new joints, a hinge and a slider with limits among them. -/
noncomputable def Ex.newPins : Pins ℝ :=
  ⟨[Ball.make jcone 0 1 false (rolled 1 0) (rolled 1 1) (.world ⟨1, 2, 3⟩)], [Fixed.make 1 2 false (rolled 1 1) (rolled 1 2) (.world ⟨3, 2, 1⟩)],
   [Hinge.make jcone 0 2 false (rolled 1 0) (rolled 1 2) (.world ⟨0, 0, 1⟩) (.world axisZ) ⟨true, -1, 1, false, 0, 0⟩],
   [Slider.make jcone 0 3 false (rolled 1 0) (rolled 1 3) (.world ⟨0, 0, 1⟩) (.world axisX) ⟨true, 0, 2, false, 0, 0⟩]⟩

example (n : Nat) :
    (correct jcone bodyR n (posesOf bodyR (rolled 1), newPins)).1 = posesOf bodyR (rolled 1) := by
  have l1 : ∀ v : V3 ℝ, v.lengthSq = 1 → jcone.eps ≤ jcone.sqrt v.lengthSq := fun v hv => by
    rw [hv]
    have : jcone.sqrt 1 = 1 := Real.sqrt_one
    rw [this]; exact eps_one
  refine (new_joints_rest sqrt_real eps_pos (by norm_num [jcone, jr]) rfl rfl bodyR (rolled_unit 1) ⟨?_, ?_, ?_, ?_⟩ n).2
  · intro J hJ
    exact ⟨_, _, _, _, List.mem_singleton.1 hJ⟩
  · intro J hJ
    exact ⟨_, _, _, _, List.mem_singleton.1 hJ⟩
  · intro J hJ
    exact ⟨_, _, _, _, _, _, l1 _ (by norm_num [axisZ, V3.lengthSq]), fun _ => ⟨by norm_num, by norm_num⟩, List.mem_singleton.1 hJ⟩
  · intro J hJ
    exact ⟨_, _, _, _, _, _, l1 _ (by norm_num [axisX, V3.lengthSq]), fun _ => ⟨by norm_num, by norm_num⟩, List.mem_singleton.1 hJ⟩

end Joints
end RP3D
