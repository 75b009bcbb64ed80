import Verif.Props.ContactEnergyBounce
import Verif.Props.JointExamples

/-! C133: where contacts make energy, and examples. The square root of the examples is only asked for the numbers of `root`. -/

namespace RP3D
namespace ContactEnergy
open Solver Joints SolverProps JointProps

namespace Gain

def root (x : ℚ) : ℚ :=
  if x = 81 / 25 then 9 / 5 else if x = 21025 / 289 then 145 / 17 else if x = 4 then 2 else if x = 9 then 3 else if x = 49 / 4 then 7 / 2 else if x = 1 / 4 then 1 / 2 else x
def jc : JCfg ℚ := ⟨1 / 60, 1 / 5, 1 / 8388608, true, 355 / 113, root, fun _ => 355 / 226, fun _ _ => 0, fun x _ => x⟩
def cc : Cfg ℚ := ⟨1 / 60, 1 / 5, 1 / 100, true, 1 / 2, 1 / 1000⟩

/-- Body 0 is static; body 1 has mass 1 and inverse inertia `i` about the third axis. -/
def wall : JBody ℚ := ⟨⟨0, 0, 0, 0, M3.zero, ⟨1, 1, 1⟩, ⟨1, 1, 1⟩⟩, Quat.one, 0, false⟩
def plate (i : ℚ) (v w : V3 ℚ) : JBody ℚ := ⟨⟨0, v, w, 1, M3.of 1 0 0 0 1 0 0 0 i, ⟨1, 1, 1⟩, ⟨1, 1, 1⟩⟩, Quat.one, 0, true⟩
def bodies (i : ℚ) (v w : V3 ℚ) (b : Nat) : JBody ℚ := if b = 1 then plate i v w else wall
def vels (v w : V3 ℚ) (b : Nat) : Vel ℚ := if b = 1 then ⟨v, w, 0, 0⟩ else ⟨0, 0, 0, 0⟩
def mass : Nat → ℚ := fun _ => 1
def tensor (i : ℚ) : Nat → M3 ℚ := fun _ => M3.of 1 0 0 0 1 0 0 0 (1 / i)

/-- A manifold with one contact of the plate with the wall. -/
def hit (e mu : ℚ) (n p : V3 ℚ) : XMan ℚ := ⟨0, 1, e, mu, 0, 0, 0, 0, 0, [⟨n, p, p, 0, false, 0⟩]⟩

def energy (i : ℚ) (V : Nat → Vel ℚ) : ℚ := energy2 {0, 1} mass (tensor i) V

/-- Two new contacts with friction, two that bounce, two that last. -/
def rub : List (XMan ℚ) := [hit 0 (3 / 4) ⟨-4 / 5, 3 / 5, 0⟩ ⟨0, -1, 0⟩, hit 0 1 ⟨8 / 17, 15 / 17, 0⟩ ⟨1, 1, 0⟩]
def jump : List (XMan ℚ) := [hit 1 0 ⟨-1, 0, 0⟩ ⟨1, 3 / 4, 0⟩, hit 1 0 ⟨1, 0, 0⟩ ⟨-1 / 2, 1 / 4, 0⟩]
def lean : List (XMan ℚ) := [hit 0 0 ⟨1, 0, 0⟩ ⟨1 / 2, -1, 0⟩, hit 0 0 ⟨0, -1, 0⟩ ⟨1, 0, 0⟩]

def first : (Nat → Vel ℚ) × List (Man ℚ) := runSolver cc root (seen (bodies 10 ⟨-3, 2, 0⟩ ⟨0, 0, 3⟩)) (vels ⟨-3, 2, 0⟩ ⟨0, 0, 3⟩) lean (List.replicate 6 id)
/-- The contacts `lean` after a step with other velocities. -/
def kept : List (XMan ℚ) := ((lean.zip first.2).map fun q => store q.2 q.1).map fun X => { X with pts := X.pts.map fun x => { x with resting := true } }

end Gain
open Gain

/-- The square root is right where it is asked for. -/
theorem root_ok : ∀ x ∈ [0, 1, 81 / 25, 21025 / 289, 4, 9, 49 / 4, 1 / 4], 0 ≤ Gain.root x ∧ Gain.root x * Gain.root x = x := by decide +kernel

theorem plate_bodies {i : ℚ} (hi : 0 < i) (v w : V3 ℚ) {W : Nat → Vel ℚ} (h0 : (W 0).v = 0 ∧ (W 0).w = 0) : Bodies (bodies i v w) mass (tensor i) {0, 1} W := by
  refine ⟨fun b hb => ?_, fun b hb => ?_⟩
  · rcases Finset.mem_insert.1 hb with rfl | hb
    · refine ⟨⟨rfl, rfl⟩, le_refl _, fun a => ?_⟩
      show 0 ≤ V3.dot a (M3.zero.act a)
      simp [V3.dot, M3.act, M3.zero, M3.of]
    · rw [Finset.mem_singleton.1 hb]
      refine ⟨⟨rfl, rfl⟩, zero_le_one, fun a => ?_⟩
      show 0 ≤ V3.dot a ((M3.of 1 0 0 0 1 0 0 0 i).act a)
      simp only [V3.dot, M3.act, M3.of]
      have := mul_nonneg hi.le (mul_self_nonneg a.z)
      nlinarith [mul_self_nonneg a.x, mul_self_nonneg a.y]
  · rcases Finset.mem_insert.1 hb with rfl | hb
    · refine Or.inr ⟨rfl, fun a => ?_, h0⟩
      show M3.zero.act a = 0
      ext <;> simp [M3.act, M3.zero, M3.of]
    · rw [Finset.mem_singleton.1 hb]
      refine Or.inl ⟨(mul_one _ : (1 : ℚ) * 1 = 1), fun a => ?_, fun a c => ?_⟩
      · show (M3.of 1 0 0 0 1 0 0 0 (1 / i)).act ((M3.of 1 0 0 0 1 0 0 0 i).act a) = a
        ext <;> simp [M3.act, M3.of, hi.ne']
      · show V3.dot a ((M3.of 1 0 0 0 1 0 0 0 (1 / i)).act c) = V3.dot c ((M3.of 1 0 0 0 1 0 0 0 (1 / i)).act a)
        simp only [V3.dot, M3.act, M3.of]
        ring

theorem hit_touch {body : Nat → JBody ℚ} {e mu : ℚ} {n p : V3 ℚ} (hn : V3.dot n n = 1) (he : e = 0) : Touch cc body {0, 1} (hit e mu n p) := by
  refine ⟨⟨(by decide : (0 : Nat) ≠ 1), (by decide : (0 : Nat) ∈ ({0, 1} : Finset Nat)), (by decide : (1 : Nat) ∈ ({0, 1} : Finset Nat))⟩, fun x hx => ?_, fun x _ => Or.inl he, fun x _ => Or.inl rfl, fun x hx => ?_⟩ <;>
    rw [List.mem_singleton.1 hx]
  exact hn

theorem hit_new (e mu : ℚ) (n p : V3 ℚ) : New (hit e mu n p) := fun x hx => by rw [List.mem_singleton.1 hx]

/-- **C133 fails with friction.** Two new contacts with friction and without bouncing add 15 percent to the kinetic energy in the default six iterations: in the first ones they give
friction that the smaller normal impulses of the later ones do not allow, and take it back when the body already moves along with it (ContactSolverSystem.cpp:617-640). -/
theorem friction_gains : Bodies (bodies 10 ⟨2, 0, 0⟩ ⟨0, 0, -5⟩) mass (tensor 10) {0, 1} (vels ⟨2, 0, 0⟩ ⟨0, 0, -5⟩) ∧
    (∀ X ∈ rub, Touch cc (bodies 10 ⟨2, 0, 0⟩ ⟨0, 0, -5⟩) {0, 1} X ∧ New X ∧ 0 ≤ X.mu) ∧
    115 / 100 * energy 10 (vels ⟨2, 0, 0⟩ ⟨0, 0, -5⟩) < energy 10 (solveStep Gain.cc Gain.jc (bodies 10 ⟨2, 0, 0⟩ ⟨0, 0, -5⟩) (vels ⟨2, 0, 0⟩ ⟨0, 0, -5⟩) [] rub 6).1 := by
  refine ⟨plate_bodies (by norm_num) _ _ ⟨rfl, rfl⟩, fun X hX => ?_, by decide +kernel⟩
  simp only [Gain.rub, List.mem_cons, List.not_mem_nil, or_false] at hX
  rcases hX with rfl | rfl
  · exact ⟨hit_touch (by decide +kernel) rfl, hit_new _ _ _ _, by decide +kernel⟩
  · exact ⟨hit_touch (by decide +kernel) rfl, hit_new _ _ _ _, by decide +kernel⟩

/-- **C133 fails for several bouncing contacts.** A plate between two walls, with restitution 1 and without friction, leaves with more than twice its energy. -/
theorem bounce_gains : Bodies (bodies 2 ⟨-3, 0, 0⟩ ⟨0, 0, 2⟩) mass (tensor 2) {0, 1} (vels ⟨-3, 0, 0⟩ ⟨0, 0, 2⟩) ∧
    (∀ X ∈ jump, New X ∧ Smooth X ∧ X.restitution = 1) ∧
    2 * energy 2 (vels ⟨-3, 0, 0⟩ ⟨0, 0, 2⟩) < energy 2 (solveStep Gain.cc Gain.jc (bodies 2 ⟨-3, 0, 0⟩ ⟨0, 0, 2⟩) (vels ⟨-3, 0, 0⟩ ⟨0, 0, 2⟩) [] jump 6).1 := by
  refine ⟨plate_bodies (by norm_num) _ _ ⟨rfl, rfl⟩, fun X hX => ?_, by decide +kernel⟩
  simp only [jump, List.mem_cons, List.not_mem_nil, or_false] at hX
  rcases hX with rfl | rfl
  · exact ⟨hit_new _ _ _ _, ⟨rfl, rfl, rfl, rfl⟩, rfl⟩
  · exact ⟨hit_new _ _ _ _, ⟨rfl, rfl, rfl, rfl⟩, rfl⟩

theorem kept_stored : Stored kept := by
  have h : Stored ((lean.zip first.2).map fun q => store q.2 q.1) := Stored.step _ _ _ _ _ _ (Stored.carry [] _ Stored.none (by
    intro Y hY y hy
    simp only [lean, List.mem_cons, List.not_mem_nil, or_false] at hY
    rcases hY with rfl | rfl <;>
    · simp only [hit, List.mem_cons, List.not_mem_nil, or_false] at hy
      subst hy
      exact Or.inl rfl))
  refine Stored.carry _ _ h fun Y hY y hy => ?_
  simp only [kept, List.mem_map] at hY
  obtain ⟨X, hX, rfl⟩ := hY
  simp only [List.mem_map] at hy
  obtain ⟨x, hx, rfl⟩ := hy
  exact Or.inr ⟨X, List.mem_map.2 hX, x, hx, rfl⟩

/-- **C133 fails with the warm start.** Two contacts without friction and bouncing that lasted since the last step: the velocities were set in between
(`setLinearVelocity`, `setAngularVelocity`), the impulses of the last step are applied anyway, and six iterations do not take them back: the energy grows more than sevenfold. -/
theorem warm_gains : Stored kept ∧ Bodies (bodies 10 0 ⟨0, 0, -1⟩) mass (tensor 10) {0, 1} (vels 0 ⟨0, 0, -1⟩) ∧
    (∀ X ∈ kept, Touch cc (bodies 10 0 ⟨0, 0, -1⟩) {0, 1} X ∧ Smooth X) ∧
    7 * energy 10 (vels 0 ⟨0, 0, -1⟩) < energy 10 (solveStep Gain.cc Gain.jc (bodies 10 0 ⟨0, 0, -1⟩) (vels 0 ⟨0, 0, -1⟩) [] kept 6).1 := by
  refine ⟨kept_stored, plate_bodies (by norm_num) _ _ ⟨rfl, rfl⟩, fun X hX => ?_, by decide +kernel⟩
  have h1 : ∀ X ∈ kept, (X.b1 = 0 ∧ X.b2 = 1) ∧ X.restitution = 0 ∧ (X.mu = 0 ∧ X.f1 = 0 ∧ X.f2 = 0 ∧ X.tw = 0) ∧ ∀ x ∈ X.pts, V3.dot x.normal x.normal = 1 := by decide +kernel
  obtain ⟨⟨a, b⟩, c, d, e⟩ := h1 X hX
  exact ⟨⟨⟨by rw [a, b]; decide, by rw [a]; decide, by rw [b]; decide⟩, e, fun x _ => Or.inl c, fun x _ => Or.inl rfl, stored_nonneg kept_stored X hX⟩, d⟩

/-! ### Examples -/

/-- The hypotheses of `frictionless_step_loses`: two contacts and a joint; energy is lost. -/
example : Bodies (bodies 10 ⟨-3, 2, 0⟩ ⟨0, 0, 3⟩) mass (tensor 10) {0, 1} (vels ⟨-3, 2, 0⟩ ⟨0, 0, 3⟩) ∧
    (∀ X ∈ lean, Touch cc (bodies 10 ⟨-3, 2, 0⟩ ⟨0, 0, 3⟩) {0, 1} X ∧ Smooth X ∧ New X) ∧
    0 < energy 10 (solveStep Gain.cc Gain.jc (bodies 10 ⟨-3, 2, 0⟩ ⟨0, 0, 3⟩) (vels ⟨-3, 2, 0⟩ ⟨0, 0, 3⟩) [] lean 6).1 ∧
    energy 10 (solveStep Gain.cc Gain.jc (bodies 10 ⟨-3, 2, 0⟩ ⟨0, 0, 3⟩) (vels ⟨-3, 2, 0⟩ ⟨0, 0, 3⟩) [] lean 6).1 < energy 10 (vels ⟨-3, 2, 0⟩ ⟨0, 0, 3⟩) := by
  refine ⟨plate_bodies (by norm_num) _ _ ⟨rfl, rfl⟩, fun X hX => ?_, by decide +kernel, by decide +kernel⟩
  simp only [lean, List.mem_cons, List.not_mem_nil, or_false] at hX
  rcases hX with rfl | rfl
  · exact ⟨hit_touch (by decide +kernel) rfl, ⟨rfl, rfl, rfl, rfl⟩, hit_new _ _ _ _⟩
  · exact ⟨hit_touch (by decide +kernel) rfl, ⟨rfl, rfl, rfl, rfl⟩, hit_new _ _ _ _⟩

/-- The hypotheses of `frictionless_iterations_lose_partial` hold for the contacts of `warm_gains`; the warm start makes the energy. -/
example : Bodies (bodies 10 0 ⟨0, 0, -1⟩) mass (tensor 10) {0, 1} (begun Gain.cc Gain.jc (bodies 10 0 ⟨0, 0, -1⟩) (vels 0 ⟨0, 0, -1⟩) [] kept).1 ∧
    7 * energy 10 (vels 0 ⟨0, 0, -1⟩) < energy 10 (begun Gain.cc Gain.jc (bodies 10 0 ⟨0, 0, -1⟩) (vels 0 ⟨0, 0, -1⟩) [] kept).1 :=
  ⟨plate_bodies (by norm_num) _ _ (by decide +kernel), by decide +kernel⟩

/-- The hypotheses of `contacts_lose_partial` with friction: in the first iteration of `friction_gains` nothing has to be taken back, and energy is lost. -/
example : Rooms Gain.cc Gain.jc (bodies 10 ⟨2, 0, 0⟩ ⟨0, 0, -5⟩) 1 (begun Gain.cc Gain.jc (bodies 10 ⟨2, 0, 0⟩ ⟨0, 0, -5⟩) (vels ⟨2, 0, 0⟩ ⟨0, 0, -5⟩) [] Gain.rub) ∧
    energy 10 (solveStep Gain.cc Gain.jc (bodies 10 ⟨2, 0, 0⟩ ⟨0, 0, -5⟩) (vels ⟨2, 0, 0⟩ ⟨0, 0, -5⟩) [] Gain.rub 1).1 < energy 10 (vels ⟨2, 0, 0⟩ ⟨0, 0, -5⟩) := by
  refine ⟨⟨⟨Or.inr ⟨?_, ?_⟩, Or.inr ⟨?_, ?_⟩, trivial⟩, trivial⟩, by decide +kernel⟩
  · constructor <;> decide +kernel
  · unfold Roomy; decide +kernel
  · constructor <;> decide +kernel
  · unfold Roomy; decide +kernel

/-- The hypotheses of `bounce_loses_partial`; the plate leaves slower than it came. -/
example : let X := hit (1 / 2) 0 ⟨1, 0, 0⟩ ⟨-1 / 2, 1 / 4, 0⟩
    normalSpeed (seen (bodies 2 ⟨-3, 0, 0⟩ ⟨0, 0, 2⟩)) (vels ⟨-3, 0, 0⟩ ⟨0, 0, 2⟩) X.b1 X.b2 ⟨⟨1, 0, 0⟩, ⟨-1 / 2, 1 / 4, 0⟩, ⟨-1 / 2, 1 / 4, 0⟩, 0, false, 0⟩ < -Gain.cc.threshold ∧
    0 < (bodies 2 ⟨-3, 0, 0⟩ ⟨0, 0, 2⟩ X.b1).m + (bodies 2 ⟨-3, 0, 0⟩ ⟨0, 0, 2⟩ X.b2).m ∧
    energy 2 (runSolver Gain.cc Gain.root (seen (bodies 2 ⟨-3, 0, 0⟩ ⟨0, 0, 2⟩)) (vels ⟨-3, 0, 0⟩ ⟨0, 0, 2⟩) [X] (List.replicate 6 id)).1 <
      energy 2 (vels ⟨-3, 0, 0⟩ ⟨0, 0, 2⟩) := by decide +kernel


/-- The hypotheses of `first_iteration_loses_partial` about a manifold, with the real square root. -/
example : let x : XPoint ℝ := ⟨⟨1, 0, 0⟩, 0, 0, 0, false, 0⟩
    let X : XMan ℝ := ⟨0, 1, 0, 1, 0, 0, 0, 0, 0, [x]⟩
    let cfg : Cfg ℝ := ⟨1 / 60, 1 / 5, 1 / 100, true, 1 / 2, 1 / 1000⟩
    IsSqrt Real.sqrt ∧ (∀ body : Nat → JBody ℝ, Touch cfg body {0, 1} X) ∧ New X ∧ 0 ≤ X.mu ∧ cfg.eps ≤ Real.sqrt (sum3 (X.pts.map XPoint.normal)).lengthSq := by
  intro x X cfg
  have hx : ∀ y ∈ X.pts, y = x := fun y hy => List.mem_singleton.1 hy
  refine ⟨RayProps.realSqrt, fun body => ⟨⟨(by decide : (0 : Nat) ≠ 1), (by decide : (0 : Nat) ∈ ({0, 1} : Finset Nat)), (by decide : (1 : Nat) ∈ ({0, 1} : Finset Nat))⟩,
    fun y hy => ?_, fun _ _ => Or.inl rfl, fun _ _ => Or.inl rfl, fun y hy => ?_⟩, fun y hy => ?_, zero_le_one, ?_⟩
  · rw [hx y hy]
    show V3.dot (⟨1, 0, 0⟩ : V3 ℝ) ⟨1, 0, 0⟩ = 1
    norm_num [V3.dot]
  · rw [hx y hy]
  · rw [hx y hy]
  · have : (sum3 (X.pts.map XPoint.normal)).lengthSq = 1 := by
      show (sum3 [(⟨1, 0, 0⟩ : V3 ℝ)]).lengthSq = 1
      norm_num [sum3, V3.lengthSq, V3.dot]
    rw [this, Real.sqrt_one]
    show (1 / 1000 : ℝ) ≤ 1
    norm_num

end ContactEnergy
end RP3D
