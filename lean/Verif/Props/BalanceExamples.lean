import Verif.Props.BalanceRun
import Verif.Props.KinematicExamples

/-! C138: examples. -/

namespace RP3D
namespace Balance
open Solver Joints SolverProps JointProps Whole
open Apart (Ev)

namespace Room

/-- A floor, a box that stands on it, and a lamp that hangs from a ball-and-socket joint. -/
noncomputable def make : List (Ev ℝ) := [.create 1 ⟨0, ⟨0, 0, 0, 1⟩⟩, .call 1 (.setType .static), .create 2 ⟨⟨0, 2, 0⟩, ⟨0, 0, 0, 1⟩⟩, .create 3 ⟨⟨5, -1, 0⟩, ⟨0, 0, 0, 1⟩⟩]
noncomputable def world : DW ℝ := make.foldl Ev.run (DW.empty false 1 1 1)

/-- Somebody pushes the box with a force of 1 (its weight is 10). -/
noncomputable def hand (b : Nat) : Option (V3 ℝ × V3 ℝ) := if b = 2 then some (⟨1, 0, 0⟩, 0) else none

noncomputable def jc : JCfg ℝ := ⟨0, 1 / 5, 1 / 8388608, true, 355 / 113, Real.sqrt, fun _ => 355 / 226, fun _ _ => 0, fun x _ => x⟩
noncomputable def cc : Cfg ℝ := ⟨0, 1 / 5, 1 / 100, true, 1 / 2, 1 / 1000⟩

/-- The four corners of the box; those in front bear more. -/
noncomputable def corner (x z imp : ℝ) : XPoint ℝ := ⟨⟨0, 1, 0⟩, ⟨x, 1, z⟩, ⟨x, 1, z⟩, 1 / 200, true, imp⟩
noncomputable def stand : XMan ℝ := ⟨1, 2, 1 / 2, 1 / 4, -1 / 60, 0, 0, ⟨1, 0, 0⟩, ⟨0, 0, -1⟩, [corner 1 1 (11 / 240), corner 1 (-1) (11 / 240), corner (-1) 1 (9 / 240), corner (-1) (-1) (9 / 240)]⟩
noncomputable def rope : Ball ℝ := ⟨1, 3, false, ⟨5, 0, 0⟩, ⟨0, 1, 0⟩, 0, 0, M3.zero, 0, ⟨0, 1 / 6, 0⟩, false, 0, 0, false, 0, 0, 0⟩
noncomputable def step : In ℝ :=
  ⟨1 / 60, some ⟨0, -10, 0⟩, [[2], [3]], cc, jc, [stand], ⟨[rope], [], [], []⟩, 6, 3, fun q => Real.sqrt q.lengthSq, fun x y => x + y, 1000000⟩

noncomputable def floor : Dyn ℝ := (Dyn.create ⟨0, ⟨0, 0, 0, 1⟩⟩).setType .static
noncomputable def box : Dyn ℝ := withF (Dyn.create ⟨⟨0, 2, 0⟩, ⟨0, 0, 0, 1⟩⟩) (0 + ⟨1, 0, 0⟩) (0 + 0)
noncomputable def lamp : Dyn ℝ := Dyn.create ⟨⟨5, -1, 0⟩, ⟨0, 0, 0, 1⟩⟩

end Room
open Room

theorem room_free : ∀ b d, world.body b = some d → d.force = 0 ∧ d.torque = 0 := by
  intro b d hd
  by_cases k3 : b = 3
  · subst k3; cases hd; exact ⟨rfl, rfl⟩
  · by_cases k2 : b = 2
    · subst k2; cases hd; exact ⟨rfl, rfl⟩
    · by_cases k1 : b = 1
      · subst k1; cases hd; exact ⟨rfl, rfl⟩
      · have e : world.body b = none := by
          show (if b = 3 then _ else if b = 2 then _ else if b = 1 then _ else if b = 1 then _ else none) = none
          rw [if_neg k3, if_neg k2, if_neg k1, if_neg k1]
        rw [e] at hd; cases hd

theorem room_all {P : Nat → Dyn ℝ → Prop} (h1 : P 1 floor) (h2 : P 2 box) (h3 : P 3 lamp) : ∀ b d, (push hand world).body b = some d → P b d := by
  intro b d hd
  by_cases k3 : b = 3
  · subst k3; cases hd; exact h3
  · by_cases k2 : b = 2
    · subst k2
      have e : (push hand world).body 2 = some box := congrArg some (push_eq (d := Dyn.create ⟨⟨0, 2, 0⟩, ⟨0, 0, 0, 1⟩⟩) rfl _ _)
      rw [e] at hd; cases hd; exact h2
    · by_cases k1 : b = 1
      · subst k1; cases hd; exact h1
      · have e : world.body b = none := by
          show (if b = 3 then _ else if b = 2 then _ else if b = 1 then _ else if b = 1 then _ else none) = none
          rw [if_neg k3, if_neg k2, if_neg k1, if_neg k1]
        have e : (push hand world).body b = none := by
          show (world.body b).map _ = none
          rw [e]; rfl
        rw [e] at hd; cases hd

theorem room_1 : dyn (push hand world) 1 = floor := rfl
theorem room_3 : dyn (push hand world) 3 = lamp := rfl

theorem floor_eq : floor = { Dyn.create ⟨0, ⟨0, 0, 0, 1⟩⟩ with type := .static, invMass := 0, invInertia := 0, invInertiaW := M3.zero, disabled := true } := by
  unfold floor
  rfl

/-- The rope as the solver has it. -/
noncomputable def room_rope : Ball ℝ := rope.init { jc with dt := 1 / 60 } fun b => jbody (dyn (push hand world) b)

theorem room_loads : loaded step (push hand world) = [.ball room_rope] := rfl

theorem room_total : force stand = ⟨-1 / 60, 1 / 6, 0⟩ := by
  ext <;> norm_num [force, friction, stand, corner, vsum]

theorem rope_load : room_rope.load = ⟨⟨0, -1 / 6, 0⟩, ⟨0, 0, -5 / 6⟩, ⟨0, 1 / 6, 0⟩, 0⟩ := by
  have r1 : room_rope.r1 = ⟨5, 0, 0⟩ := by
    show floor.tr.ori.rot (rope.a1 - floor.comLocal) = _
    rw [floor_eq]
    ext <;> simp [Dyn.create, rope, Quat.rot]
  have r2 : room_rope.r2 = ⟨0, 1, 0⟩ := by
    show lamp.tr.ori.rot (rope.a2 - lamp.comLocal) = _
    ext <;> simp [lamp, Dyn.create, rope, Quat.rot]
  have im : room_rope.imp = ⟨0, 1 / 6, 0⟩ := rfl
  have ci : room_rope.coneImp = 0 := by
    show (if _ then (0 : ℝ) else 0) = 0
    split <;> rfl
  unfold Ball.load
  rw [r1, r2, im, ci]
  have z : ∀ a : V3 ℝ, V3.smul 0 a = 0 := fun a => by ext <;> simp
  rw [z, neg_zero, add_zero, add_zero]
  refine congr (congr (congr (congrArg Load.mk ?_) ?_) ?_) ?_ <;> ext <;> norm_num [V3.cross]

/-- The room is in balance. -/
theorem room_balanced : Balanced step (push hand world) := by
  have hj : joints step.pins = [.ball rope] := rfl
  constructor
  case warm => rfl
  case eps => norm_num [step, cc]
  case threshold => norm_num [step, cc]
  case rest => exact room_all ⟨rfl, rfl⟩ ⟨rfl, rfl⟩ ⟨rfl, rfl⟩
  case unit =>
    have u : (⟨0, 0, 0, 1⟩ : Quat ℝ).lengthSq = 1 := by simp [Quat.lengthSq]
    exact room_all u u u
  case com =>
    have u : ∀ p : V3 ℝ, p = (⟨p, ⟨0, 0, 0, 1⟩⟩ : Trans ℝ).act 0 := fun p => by
      ext <;> simp [Trans.act, Quat.rot]
    exact room_all (u _) (u _) (u _)
  case off => exact room_all (fun _ => ⟨rfl, rfl, rfl, rfl, rfl⟩) (fun k => by cases k) (fun k => by cases k)
  case offJ =>
    intro J hJ b hb k
    rw [hj, List.mem_singleton] at hJ
    subst hJ
    rcases hb with rfl | rfl
    · rfl
    · cases k
  case awake =>
    intro l hl b hb
    have e2 : (dyn (push hand world) 2).sleeping = false := by
      have := room_all (P := fun b d => d.sleeping = false) rfl rfl rfl
      exact this 2 _ rfl
    rcases List.mem_cons.1 hl with rfl | hl
    · rw [List.mem_singleton] at hb; subst hb; exact e2
    · rw [List.mem_singleton] at hl; subst hl; rw [List.mem_singleton] at hb; subst hb; rfl
  case contacts =>
    intro X hX
    rw [show step.mans = [stand] from rfl, List.mem_singleton] at hX
    subst hX
    refine ⟨?_, ⟨_, rfl⟩, ⟨_, rfl⟩⟩
    have n : sum3 (stand.pts.map XPoint.normal) = ⟨0, 4, 0⟩ := by
      simp only [stand, corner, sum3, List.map_cons, List.map_nil]
      ext <;> norm_num
    have all : ∀ {P : XPoint ℝ → Prop}, (∀ x z y, 0 ≤ y → P (corner x z y)) → ∀ x ∈ stand.pts, P x := by
      intro P h x hx
      simp only [stand, List.mem_cons, List.not_mem_nil, or_false] at hx
      rcases hx with rfl | rfl | rfl | rfl <;> exact h _ _ _ (by norm_num)
    have fr : friction stand = ⟨-1 / 60, 0, 0⟩ := by
      ext <;> simp [friction, stand]
    have im : (stand.pts.map XPoint.imp).sum = 1 / 6 := by
      simp only [stand, corner, List.map_cons, List.map_nil, List.sum_cons, List.sum_nil]
      norm_num
    constructor
    case some => simp [stand]
    case resting => exact all fun _ _ _ _ => rfl
    case pushes => exact all fun _ _ _ h => h
    case shallow => exact all fun _ _ _ _ => by norm_num [corner, step, cc]
    case flat => rw [n, fr]; simp [V3.dot]
    case coulomb => rw [fr, im]; norm_num [V3.lengthSq, V3.dot, stand]
    case rough => norm_num [stand]
    case untwisted => rfl
    case normals =>
      rw [n]
      show (1 / 1000 : ℝ) ≤ Real.sqrt _
      rw [show V3.lengthSq (⟨0, 4, 0⟩ : V3 ℝ) = 4 * 4 by norm_num [V3.lengthSq, V3.dot], Real.sqrt_mul_self (by norm_num)]
      norm_num
  case joints =>
    intro J hJ
    rw [hj, List.mem_singleton] at hJ
    subst hJ
    refine ⟨⟨?_, fun k => by cases k⟩, ⟨_, rfl⟩, ⟨_, rfl⟩⟩
    show (floor.comWorld + floor.tr.ori.rot (rope.a1 - floor.comLocal)) = lamp.comWorld + lamp.tr.ori.rot (rope.a2 - lamp.comLocal)
    rw [floor_eq]
    ext <;> simp [lamp, Dyn.create, rope, Quat.rot]
  case lin =>
    refine room_all ?_ ?_ ?_
    · rw [show floor.invMass = 0 from rfl]
      ext <;> simp [V3.had]
    · have g : given step box = ⟨1 / 60, -1 / 6, 0⟩ := by
        rw [given, if_neg (by decide)]
        ext <;> norm_num [box, withF, Dyn.create, step]
      have z : vsum (forceOn 2) step.mans = ⟨-1 / 60, 1 / 6, 0⟩ := by
        show forceOn 2 stand + 0 = _
        rw [forceOn, room_total, if_pos (show stand.b2 = 2 from rfl), if_neg (by decide), sub_zero, add_zero]
      have y : vsum (forceOfJoint 2) (loaded step (push hand world)) = 0 := by
        show forceOfJoint 2 (.ball room_rope) + 0 = 0
        rw [forceOfJoint, if_neg (by decide), if_neg (by decide), add_zero, add_zero]
      rw [g, z, y, show (⟨1 / 60, -1 / 6, 0⟩ + (⟨-1 / 60, 1 / 6, 0⟩ + 0) : V3 ℝ) = 0 by ext <;> norm_num, had_zero_left]
    · have g : given step lamp = ⟨0, -1 / 6, 0⟩ := by
        rw [given, if_neg (by decide)]
        ext <;> norm_num [lamp, Dyn.create, step]
      have z : vsum (forceOn 3) step.mans = 0 := by
        show forceOn 3 stand + 0 = _
        rw [forceOn, if_neg (by decide), if_neg (by decide), sub_zero, add_zero]
      have y : vsum (forceOfJoint 3) (loaded step (push hand world)) = ⟨0, 1 / 6, 0⟩ := by
        show forceOfJoint 3 (.ball room_rope) + 0 = _
        rw [forceOfJoint, if_neg (by decide), if_pos (show (Joint.ball room_rope).b2 = 3 from rfl), zero_add, add_zero]
        exact congrArg Load.P2 rope_load
      rw [g, z, y, show (⟨0, -1 / 6, 0⟩ + (0 + ⟨0, 1 / 6, 0⟩) : V3 ℝ) = 0 by ext <;> norm_num, had_zero_left]
  case ang =>
    refine room_all ?_ ?_ ?_
    · rw [show floor.updateInertia.invInertiaW = M3.zero from rfl]
      ext <;> simp [V3.had, M3.act, M3.zero, M3.of]
    · have g : givenT step box = 0 := by
        rw [givenT, if_neg (by decide)]
        ext <;> norm_num [box, withF, Dyn.create, step]
      have z : vsum (torqueOn 2 box.comWorld) step.mans = 0 := by
        show torqueOn 2 box.comWorld stand + 0 = _
        rw [torqueOn, if_pos (show stand.b2 = 2 from rfl), if_neg (by decide), sub_zero, add_zero]
        ext <;> norm_num [torque, friction, middle, stand, corner, vsum, sum3, V3.cross, box, withF, Dyn.create]
      have y : vsum (torqueOfJoint 2) (loaded step (push hand world)) = 0 := by
        show torqueOfJoint 2 (.ball room_rope) + 0 = 0
        rw [torqueOfJoint, if_neg (by decide), if_neg (by decide), add_zero, add_zero]
      rw [g, z, y, add_zero, add_zero, had_act_zero]
    · have g : givenT step lamp = 0 := by
        rw [givenT, if_neg (by decide)]
        ext <;> norm_num [lamp, Dyn.create, step]
      have z : vsum (torqueOn 3 lamp.comWorld) step.mans = 0 := by
        show torqueOn 3 lamp.comWorld stand + 0 = _
        rw [torqueOn, if_neg (by decide), if_neg (by decide), sub_zero, add_zero]
      have y : vsum (torqueOfJoint 3) (loaded step (push hand world)) = 0 := by
        show torqueOfJoint 3 (.ball room_rope) + 0 = _
        rw [torqueOfJoint, if_neg (by decide), if_pos (show (Joint.ball room_rope).b2 = 3 from rfl), zero_add, add_zero]
        exact congrArg Load.A2 rope_load
      rw [g, z, y, add_zero, add_zero, had_act_zero]

/-- It stays as it is for ever, with the hand pushing in every step. -/
example (n : Nat) : ∀ b d, world.body b = some d → ∃ e, (frames hand n (step, world)).2.body b = some e ∧ e.tr = d.tr ∧ e.comWorld = d.comWorld ∧ e.vel = 0 ∧ e.ang = 0 :=
  (rest_forever hand n room_balanced room_free rfl RayProps.realSqrt (fun q hq => by show Real.sqrt q.lengthSq = 1; rw [hq, Real.sqrt_one])).2

end Balance
end RP3D
