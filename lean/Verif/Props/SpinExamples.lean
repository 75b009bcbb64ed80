import Verif.Props.Spin
import Verif.Props.KinematicExamples

/-! C141: a body that tumbles. -/

namespace RP3D
namespace Spin
open Solver Joints SolverProps JointProps Whole
open Apart (Ev)
open Kinematic (turn turns reach_evs told)

section general
variable {K : Type} [Field K] [LinearOrder K] [IsStrictOrderedRing K] {w : DW K} {c : Nat} {i : In K}

/-- In a world without sleeping a body stays awake. -/
theorem awake_off (hb : ∃ d, w.body c = some d) (ha : (dyn w c).sleeping = false) (hw : w.sleepOn = false) : (dyn (update i w) c).sleeping = false := by
  obtain ⟨d, hd⟩ := hb
  have ed : dyn w c = d := by unfold dyn; rw [hd]; rfl
  rw [ed] at ha
  have b : (DW.wakeIslands (told i w) w).body c = some d := by
    show (w.body c).map _ = _
    rw [hd, Option.map_some]
    dsimp only
    rw [Galileo.setIsSleeping_id ha, ite_self]
  have hm : (DW.moved (told i w) w).body c = some (d.move (told i w) c) := by
    rw [DW.moved_body, b]; rfl
  have off : ¬ (DW.moved (told i w) w).sleepOn = true := by show ¬ w.sleepOn = true; rw [hw]; decide
  have he : (if (DW.moved (told i w) w).sleepOn then DW.updateSleeping i.add i.big i.dt (DW.moved (told i w) w) i.islands else DW.moved (told i w) w).body c = some (d.move (told i w) c) := by
    rw [if_neg off]; exact hm
  have : (update i w).body c = some (d.move (told i w) c).resetForces := by
    show Option.map _ _ = _
    exact (congrArg (Option.map Dyn.resetForces) he).trans rfl
  unfold dyn
  rw [this]
  exact (Dyn.move_same (told i w) c d).sleeping.trans ha

/-- The calls that make a body with moments `I`, let it turn and twist it. -/
def spinUp (c : Nat) (t : Trans K) (I ω τ : V3 K) : List (Ev K) := [.create c t, .call c (.setInertia I), .call c (.angularVelocity ω), .call c (.torque τ)]

theorem spun (w : DW K) (c : Nat) (t : Trans K) (I ω τ : V3 K) : Turns ((spinUp c t I ω τ).foldl Ev.run w) c I (0 + τ) ⟨1, 1, 1⟩ ω t.ori := by
  have e : ∀ (w : DW K) (d : Dyn K) (o), w.body c = some d → (w.exec (.call c o)).body c = some (d.exec o) := fun w d o h => by
    show (w.modify c fun d => d.exec o).body c = _
    rw [DW.modify_same, h]; rfl
  have e1 : (([.create c t] : List (Ev K)).foldl Ev.run w).body c = some (Dyn.create t) := by show upd w.body c _ c = _; exact upd_same _ _ _
  let d1 : Dyn K := { Dyn.create t with inertia := I, invInertia := Dyn.invOfTensor I }
  have e2 : Dyn.exec (Dyn.create t) (.setInertia I) = d1 := rfl
  have e3 : Dyn.exec d1 (.angularVelocity ω) = { d1 with ang := ω } := by
    show Dyn.setAngularVelocity _ _ = _
    unfold Dyn.setAngularVelocity
    rw [if_neg (by show ¬ BType.dynamic = .static; decide)]
    dsimp only
    rw [Galileo.setIsSleeping_id (d := { d1 with ang := ω }) rfl, ite_self]
  have e4 : Dyn.exec { d1 with ang := ω } (.torque τ) = { d1 with ang := ω, torque := 0 + τ } := by
    show Dyn.applyTorque _ _ = _
    unfold Dyn.applyTorque
    rw [if_neg (by show ¬ BType.dynamic ≠ .dynamic; decide)]
    rfl
  have f := e _ _ (.torque τ) (e _ _ (.angularVelocity ω) (e _ _ (.setInertia I) e1))
  rw [e2, e3, e4] at f
  have k : dyn ((spinUp c t I ω τ).foldl Ev.run w) c = { d1 with ang := ω, torque := 0 + τ } := by
    conv_lhs => unfold dyn
    rw [show ((spinUp c t I ω τ).foldl Ev.run w).body c = _ from f]
    rfl
  exact ⟨⟨_, f⟩, by rw [k]; rfl, by rw [k]; rfl, by rw [k]; rfl, by rw [k]; rfl, by rw [k], by rw [k], by rw [k]; rfl, by rw [k], by rw [k]; rfl⟩

end general

/-! ### A body that tumbles -/

namespace Tumble
open Kinematic.Lift (others hit ball)

/-- The step of `Kinematic.Lift`: a contact of the bodies 1 and 2 and a joint of the bodies 2 and 3, while the body 4 is alone. -/
noncomputable abbrev step : In ℝ := Kinematic.Lift.step
noncomputable def start : DW ℝ := (others ++ [Ev.create 2 ⟨0, ⟨0, 0, 0, 1⟩⟩]).foldl Ev.run (DW.empty false 1 1 1)
noncomputable def world (I ω τ : V3 ℝ) : DW ℝ := (spinUp 4 ⟨0, ⟨0, 0, 0, 1⟩⟩ I ω τ).foldl Ev.run start

/-- Two steps; the body is pushed and made heavier between them. -/
noncomputable def tale : List (Ev ℝ) := [.step step, .call 4 (.forceCenter ⟨0, -100, 0⟩), .call 4 (.setMass 5), .create 5 ⟨0, ⟨0, 0, 0, 1⟩⟩, .step step]

end Tumble
open Tumble

theorem tumble_reach (I ω τ : V3 ℝ) : DW.Reach DW.Any (Tumble.world I ω τ) := reach_evs _ _ (reach_evs _ _ (.empty _ _ _ _))
theorem tumble_turns (I ω τ : V3 ℝ) : Turns (Tumble.world I ω τ) 4 I τ ⟨1, 1, 1⟩ ω ⟨0, 0, 0, 1⟩ := by
  have := spun Tumble.start 4 ⟨0, ⟨0, 0, 0, 1⟩⟩ I ω τ
  rw [zero_add] at this
  exact this
theorem tumble_unit : (⟨0, 0, 0, 1⟩ : Quat ℝ).lengthSq = 1 := by simp [Quat.lengthSq]
theorem tumble_free : Free 4 Tumble.step := by
  constructor
  · intro X hX
    simp only [Tumble.step, Kinematic.Lift.step, List.mem_singleton] at hX
    subst hX
    exact ⟨by decide, by decide⟩
  · intro J hJ
    simp only [Tumble.step, Kinematic.Lift.step, joints, List.map_cons, List.map_nil, List.append_nil, List.mem_singleton] at hJ
    subst hJ
    exact ⟨by decide, by decide⟩

theorem tumble_awake {w : DW ℝ} {I τ l ω : V3 ℝ} {q : Quat ℝ} (h : Turns w 4 I τ l ω q) (hw : w.sleepOn = false) : (dyn (update Tumble.step w) 4).sleeping = false := awake_off h.some h.awake hw

theorem tumble_alone (I ω : V3 ℝ) : Alone Real.sqrt 4 (Tumble.world I ω 0) tale := by
  have a := tumble_awake (tumble_turns I ω 0) rfl
  have f1 : Alone Real.sqrt 4 (Tumble.world I ω 0) [.step step, .call 4 (.forceCenter ⟨0, -100, 0⟩), .call 4 (.setMass 5), .create 5 ⟨0, ⟨0, 0, 0, 1⟩⟩] :=
    ⟨⟨tumble_free, rfl, fun _ => rfl, a⟩, Or.inr trivial, Or.inr trivial, (by decide : 5 ≠ 4), trivial⟩
  have k := keeps_turning RayProps.realSqrt _ (tumble_reach I ω 0) (tumble_turns I ω 0) tumble_unit f1
  exact ⟨⟨tumble_free, rfl, fun _ => rfl, a⟩, Or.inr trivial, Or.inr trivial, (by decide : 5 ≠ 4), ⟨tumble_free, rfl, fun _ => rfl, tumble_awake k.1 rfl⟩, trivial⟩

theorem momentum_id (I ω : V3 ℝ) : momentum I ⟨0, 0, 0, 1⟩ ω = V3.had I ω := by
  unfold momentum Quat.rot Quat.conj V3.had
  ext <;> simp

/-- Moments 1, 2, 3 and the angular velocity (1, 1, 0): twice the energy stays 3 and the squared length of the angular momentum 5. -/
example : energyOf (tale.foldl Ev.run (Tumble.world ⟨1, 2, 3⟩ ⟨1, 1, 0⟩ 0)) 4 = 3 ∧ V3.lengthSq (momentumOf (tale.foldl Ev.run (Tumble.world ⟨1, 2, 3⟩ ⟨1, 1, 0⟩ 0)) 4) = 5 := by
  obtain ⟨a, b, _⟩ := spin_kept RayProps.realSqrt tale (tumble_reach ⟨1, 2, 3⟩ ⟨1, 1, 0⟩ 0) (tumble_turns _ _ _) tumble_unit (tumble_alone _ _)
  rw [a, b, (tumble_turns _ _ _).energy, (tumble_turns _ _ _).momentum]
  unfold energy
  rw [momentum_id]
  constructor <;> norm_num [V3.dot, V3.had, V3.lengthSq]

/-- A body that turns about one of its axes keeps its angular momentum. -/
example : momentumOf (tale.foldl Ev.run (Tumble.world ⟨1, 2, 3⟩ ⟨0, 7, 0⟩ 0)) 4 = ⟨0, 14, 0⟩ := by
  have e : momentumOf (Tumble.world ⟨1, 2, 3⟩ ⟨0, 7, 0⟩ 0) 4 = ⟨0, 14, 0⟩ := by
    rw [(tumble_turns _ _ _).momentum, momentum_id]; ext <;> norm_num [V3.had]
  rw [momentum_kept_partial RayProps.realSqrt tale (tumble_reach _ _ _) (tumble_turns _ _ _) tumble_unit (tumble_alone _ _) (by rw [e]; ext <;> simp [V3.cross]), e]

/-- A torque of 6 about the second axis for one sixtieth of a second. -/
example : V3.lengthSq (momentumOf (update Tumble.step (Tumble.world ⟨1, 2, 3⟩ ⟨0, 1, 0⟩ ⟨0, 6, 0⟩)) 4) = (2 + 1 / 10) ^ 2 := by
  have h := tumble_turns ⟨1, 2, 3⟩ ⟨0, 1, 0⟩ ⟨0, 6, 0⟩
  rw [(torque_law (i := Tumble.step) RayProps.realSqrt (tumble_reach _ _ _) tumble_free (fun _ => rfl) h tumble_unit ⟨by norm_num, by norm_num, by norm_num⟩ (tumble_awake h rfl)).2, h.momentum, momentum_id]
  norm_num [V3.had, V3.lengthSq, V3.dot, Kinematic.Lift.step]

/-- **C141 fails.** A body that nobody touches and on which no torque acts does not keep its angular momentum. -/
theorem momentum_lost : DW.Reach DW.Any (Tumble.world ⟨1, 2, 3⟩ ⟨1, 1, 0⟩ 0) ∧ Alone Real.sqrt 4 (Tumble.world ⟨1, 2, 3⟩ ⟨1, 1, 0⟩ 0) [.step step] ∧
    momentumOf (update Tumble.step (Tumble.world ⟨1, 2, 3⟩ ⟨1, 1, 0⟩ 0)) 4 ≠ momentumOf (Tumble.world ⟨1, 2, 3⟩ ⟨1, 1, 0⟩ 0) 4 := by
  have h := tumble_turns ⟨1, 2, 3⟩ ⟨1, 1, 0⟩ 0
  refine ⟨tumble_reach _ _ _, ⟨⟨tumble_free, rfl, fun _ => rfl, tumble_awake h rfl⟩, trivial⟩, fun k => ?_⟩
  have := (momentum_kept_iff (i := Tumble.step) RayProps.realSqrt (tumble_reach _ _ _) tumble_free (fun _ => rfl) h tumble_unit (tumble_awake h rfl) (by norm_num [Kinematic.Lift.step])).1 k
  rw [h.momentum, momentum_id] at this
  have := congrArg V3.z this
  norm_num [V3.cross, V3.had] at this

end Spin
end RP3D
