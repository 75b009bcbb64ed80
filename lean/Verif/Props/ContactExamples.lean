import Verif.Props.Bounce

/-! C52, C86, C87, C88: what fails, and examples. The square root of the examples is only asked for 0 and 1. -/

namespace RP3D
namespace SolverProps
open Solver

namespace Ex

/-- Body 0 has mass 1, body 1 is the floor. -/
def ball (v w : V3 ℚ) : SBody ℚ := ⟨0, v, w, 1, M3.one, ⟨1, 1, 1⟩, ⟨1, 1, 1⟩⟩
def floor : SBody ℚ := ⟨⟨0, 0, -2⟩, 0, 0, 0, M3.zero, ⟨1, 1, 1⟩, ⟨1, 1, 1⟩⟩
def bodies (v w : V3 ℚ) (b : Nat) : SBody ℚ := if b = 0 then ball v w else floor
def vels (body : Nat → SBody ℚ) (b : Nat) : Vel ℚ := ⟨(body b).v, (body b).w, 0, 0⟩

def cfg : Cfg ℚ := ⟨1 / 60, 1 / 5, 1 / 100, true, 1 / 2, 1 / 1000⟩

/-- A new contact below the ball. -/
def down : XPoint ℚ := ⟨⟨0, 0, -1⟩, ⟨0, 0, -1⟩, ⟨0, 0, -1⟩, 0, false, 0⟩
def man (e mu : ℚ) : XMan ℚ := ⟨0, 1, e, mu, 0, 0, 0, 0, 0, [down]⟩

def root : ℚ → ℚ := fun x => x

/-- The ball falls on the floor and turns about the vertical axis. -/
def spin (w : ℚ) : Nat → SBody ℚ := bodies ⟨0, 0, -1⟩ ⟨0, 0, w⟩

def first : (Nat → Vel ℚ) × List (Man ℚ) := runSolver cfg root (spin 4) (vels (spin 4)) [man 0 1] (List.replicate 10 id)
def kept : List (XMan ℚ) := ([man 0 1].zip first.2).map fun q => store q.2 q.1

theorem kept_stored : Stored kept :=
  Stored.step _ _ _ _ _ _ (Stored.carry [] _ Stored.none (by
    intro Y hY y hy
    simp only [List.mem_cons, List.not_mem_nil, or_false] at hY
    subst hY
    simp only [man, List.mem_cons, List.not_mem_nil, or_false] at hy
    subst hy
    exact Or.inl rfl))

/-- The next step: gravity pulls as before, the contact is the same one. -/
def second : (Nat → Vel ℚ) × List (Man ℚ) := runSolver cfg root (spin 3) (vels (spin 3)) kept (List.replicate 10 id)

end Ex
open Ex

/-- The first step slows the ball down from 4 to 3, the limit of the friction is 1. -/
theorem first_step : ((first.1 0).w.z = 3) ∧ (first.2.map fun M => (M.tw, M.mu * total M.pts)) = [(-1, 1)] := by decide +kernel

/-- **C87 fails.** In the second step the twist impulse stored by the first one is applied twice (ContactSolverSystem.cpp:445-466): the ball is slowed
down by 2, although the twist impulse left in the contact, and the limit of the friction, are 1. -/
theorem twist_twice : Stored kept ∧ (second.1 0).w ≠ (vels (spin 3) 0).w + angAll 0 second.2 ∧
    (second.1 0).w.z = (vels (spin 3) 0).w.z - 2 ∧ (second.2.map fun M => (M.tw, M.mu * total M.pts)) = [(-1, 1)] :=
  ⟨kept_stored, by decide +kernel⟩

/-- Two balls; the axes of the second one are locked. -/
def Ex.locked (b : Nat) : SBody ℚ :=
  if b = 0 then ball ⟨0, 0, -1⟩ 0 else { ball 0 0 with x := ⟨0, 0, -2⟩, ll := ⟨0, 0, 0⟩, la := ⟨0, 0, 0⟩ }

/-- **C86 fails** for locked axes: the mass of the contact (ContactSolverSystem.cpp:229-235) takes no notice of them. After ten iterations, more than
the default number of six, the ball still moves into the body that cannot move, though nothing else is in the way. -/
theorem locked_wrong : normalSpeed locked (vels locked) 0 1 down < -cfg.threshold ∧
    normalSpeed locked (runSolver cfg root locked (vels locked) [man 0 0] (List.replicate 10 id)).1 0 1 down < 0 := by decide +kernel

/-- The other hypotheses of `collision_partial` hold there. -/
example : (∀ b, Psd (locked b).I) ∧ (∀ b, (vels locked b).v = (locked b).v ∧ (vels locked b).w = (locked b).w) ∧ V3.dot down.normal down.normal = 1 := by
  refine ⟨fun b a => ?_, fun b => ⟨rfl, rfl⟩, by decide +kernel⟩
  have : (locked b).I = M3.one := by
    unfold locked
    split_ifs <;> rfl
  rw [this]
  simp only [V3.dot, M3.act, M3.one, M3.of]
  nlinarith [mul_self_nonneg a.x, mul_self_nonneg a.y, mul_self_nonneg a.z]

/-! ### The friction cone -/

section
variable {K : Type} [Field K] [LinearOrder K] [IsStrictOrderedRing K]

/-- **C88, partial.** The friction impulse as a vector: its length is at most the square root of two times the limit. Missing: the limit itself, which
can be exceeded (`cone_exceeded`). -/
theorem friction_cone_partial {Xs : List (XMan K)} (h : Stored Xs) (hm : ∀ X ∈ Xs, 0 ≤ X.mu) (cfg : Cfg K) (sqrt : K → K) (body : Nat → SBody K)
    (V : Nat → Vel K) (Js : List ((Nat → Vel K) → Nat → Vel K)) (hj : Js ≠ []) : ∀ M ∈ (runSolver cfg sqrt body V Xs Js).2,
      V3.dot M.t1 M.t1 = 1 → V3.dot M.t2 M.t2 = 1 → V3.dot M.t1 M.t2 = 0 →
      (V3.smul M.f1 M.t1 + V3.smul M.f2 M.t2).lengthSq ≤ 2 * (M.mu * total M.pts) ^ 2 := by
  intro M hM e1 e2 e3
  obtain ⟨l1, l2, _⟩ := friction_limits h hm cfg sqrt body V Js hj M hM
  have q1 : M.f1 ^ 2 ≤ (M.mu * total M.pts) ^ 2 := sq_le_sq' (abs_le.1 l1).1 (abs_le.1 l1).2
  have q2 : M.f2 ^ 2 ≤ (M.mu * total M.pts) ^ 2 := sq_le_sq' (abs_le.1 l2).1 (abs_le.1 l2).2
  have e : (V3.smul M.f1 M.t1 + V3.smul M.f2 M.t2).lengthSq = M.f1 ^ 2 * V3.dot M.t1 M.t1 + M.f2 ^ 2 * V3.dot M.t2 M.t2 + 2 * (M.f1 * M.f2) * V3.dot M.t1 M.t2 := by
    simp only [V3.dot, V3.lengthSq, V3.add_x, V3.add_y, V3.add_z, V3.smul_x, V3.smul_y, V3.smul_z]; ring
  rw [e, e1, e2, e3]
  linarith

end

/-- A body whose axes of inertia are not those of the world slides on the floor. -/
def Ex.tilted (b : Nat) : SBody ℚ :=
  if b = 0 then { ball ⟨1, 0, -1⟩ 0 with I := M3.of 2 1 0 1 2 0 0 0 2 } else floor

/-- **C88 fails.** The two friction directions are limited one by one (ContactSolverSystem.cpp:634-639, 687-690): together the friction can be larger
than the friction coefficient times the normal impulse. -/
theorem cone_exceeded : ∃ M ∈ (runSolver cfg root tilted (vels tilted) [man 0 (1 / 8)] (List.replicate 10 id)).2,
    (M.mu * total M.pts) ^ 2 < (V3.smul M.f1 M.t1 + V3.smul M.f2 M.t2).lengthSq ∧ V3.dot M.t1 M.t1 = 1 ∧ V3.dot M.t2 M.t2 = 1 ∧ V3.dot M.t1 M.t2 = 0 := by
  refine ⟨(runSolver cfg root tilted (vels tilted) [man 0 (1 / 8)] (List.replicate 10 id)).2[0]'(by decide +kernel), List.getElem_mem _, ?_⟩
  decide +kernel

/-! ### Examples -/

/-- Impulses, friction and both velocities do change: the ball of the first step is stopped and slowed down. -/
example : Stored kept ∧ (∀ X ∈ kept, 0 ≤ X.mu) ∧ (second.2.map fun M => M.pts.map CPoint.imp) = [[1]] ∧ (second.1 0).v = 0 := by
  refine ⟨kept_stored, ?_, by decide +kernel⟩
  intro X hX
  simp only [kept, List.mem_map, Prod.exists] at hX
  obtain ⟨Y, M, hY, rfl⟩ := hX
  have := (List.of_mem_zip hY).1
  simp only [List.mem_cons, List.not_mem_nil, or_false] at this
  subst this
  show (0 : ℚ) ≤ 1
  decide +kernel

/-- `collision_partial`: a ball falls on the floor with restitution 1/2 and goes up with half of its speed. -/
example : normalSpeed (spin 0) (vels (spin 0)) 0 1 down = -1 ∧
    normalSpeed (spin 0) (runSolver cfg root (spin 0) (vels (spin 0)) [man (1 / 2) 0] (List.replicate (9 + 1) id)).1 0 1 down = 1 / 2 := by
  have h : normalSpeed (spin 0) (vels (spin 0)) 0 1 down = -1 := by decide +kernel
  refine ⟨h, ?_⟩
  have hI0 : Psd (spin 0 0).I := fun a => by
    show 0 ≤ V3.dot a (M3.one.act a)
    simp only [V3.dot, M3.act, M3.one, M3.of]
    nlinarith [mul_self_nonneg a.x, mul_self_nonneg a.y, mul_self_nonneg a.z]
  have hI1 : Psd (spin 0 1).I := fun a => by
    show 0 ≤ V3.dot a (M3.zero.act a)
    rw [zero_act]
    simp [V3.dot]
  have := (collision_partial cfg root (spin 0) (vels (spin 0)) (man (1 / 2) 0) down 9 rfl rfl rfl rfl (by decide) (fun b => ⟨rfl, rfl⟩) (by decide +kernel)
    (by decide +kernel) (by decide +kernel) (by decide +kernel) hI0 hI1 (fun b => by
      unfold spin bodies
      split_ifs <;> exact ⟨rfl, rfl⟩) (by decide +kernel) (by decide +kernel) (by show normalSpeed (spin 0) (vels (spin 0)) 0 1 down < _; rw [h]; decide +kernel)).1
  have e : normalSpeed (spin 0) (vels (spin 0)) (man (1 / 2) 0).b1 (man (1 / 2) 0).b2 down = -1 := h
  rw [e] at this
  have e2 : (man (1 / 2) 0).restitution = 1 / 2 := rfl
  rw [e2] at this
  exact this.trans (by norm_num)

/-- Two balls that meet. -/
def Ex.pair (b : Nat) : SBody ℚ := if b = 0 then ball ⟨0, 0, -1⟩ 0 else { ball ⟨1, 0, 1⟩ 0 with x := ⟨0, 0, -2⟩, m := 1 / 3 }
def Ex.mass (b : Nat) : ℚ := if b = 0 then 1 else 3

/-- `momentum_kept`, `momentum_balance`: masses 1 and 3, contact with friction; the velocities change, the momentum does not. -/
example : Free pair mass {0, 1} ∧ (∀ X ∈ [man (1 / 2) 1], X.b1 ∈ ({0, 1} : Finset Nat) ∧ X.b2 ∈ ({0, 1} : Finset Nat)) ∧
    ((runSolver cfg root pair (vels pair) [man (1 / 2) 1] (List.replicate 10 id)).1 0).v ≠ (vels pair 0).v := by
  refine ⟨?_, ?_, by decide +kernel⟩
  · intro b hb
    simp only [Finset.mem_insert, Finset.mem_singleton] at hb
    rcases hb with rfl | rfl <;> decide +kernel
  · intro X hX
    simp only [List.mem_cons, List.not_mem_nil, or_false] at hX
    subst hX
    decide

/-- `static_kept`: the floor. -/
example : (spin 4 1).m = 0 ∧ (spin 4 1).I = M3.zero ∧ (first.1 0).v ≠ (vels (spin 4) 0).v := ⟨rfl, rfl, by decide +kernel⟩

/-- `friction_frame`: a contact with one normal, over the real numbers. -/
example : (1 / 1000 : ℝ) ≤ Real.sqrt (sum3 ([(⟨⟨0, 0, 1⟩, 0, 0, 0, false, 0⟩ : XPoint ℝ)].map XPoint.normal)).lengthSq := by
  have : (sum3 ([(⟨⟨0, 0, 1⟩, 0, 0, 0, false, 0⟩ : XPoint ℝ)].map XPoint.normal)).lengthSq = 1 := by
    simp [sum3, V3.lengthSq]
  rw [this, Real.sqrt_one]
  norm_num

/-- The hypotheses of `contact_solved` and `overlap_corrected`: an overlap of a tenth, corrected by a fifth of what exceeds the slop. -/
example : let M := initMan cfg root (spin 4) { man 0 1 with pts := [{ down with depth := 1 / 10 }] }
    let p := initPoint cfg (spin 4 0) (spin 4 1) 0 { down with depth := 1 / 10 }
    (M.ll1 = ⟨1, 1, 1⟩ ∧ M.ll2 = ⟨1, 1, 1⟩ ∧ M.la1 = ⟨1, 1, 1⟩ ∧ M.la2 = ⟨1, 1, 1⟩) ∧ M.b1 ≠ M.b2 ∧ V3.dot p.normal p.normal = 1 ∧ 0 < kinv M p ∧
      p.invMass = 1 / kinv M p ∧ 0 ≤ p.imp ∧ 0 ≤ p.split ∧ p.bias ≤ 0 ∧ 0 < (solvePoint cfg M (vels (spin 4)) p).2.split ∧
      cfg.dt * sepSplit M p (solvePoint cfg M (vels (spin 4)) p).1 = 9 / 500 := by
  decide +kernel

end SolverProps
end RP3D
