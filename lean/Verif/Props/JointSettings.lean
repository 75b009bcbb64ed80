import Verif.Solver.JointSettings
import Mathlib.Algebra.Order.Ring.Rat
import Mathlib.Tactic.Linarith

/-!
# C127: settings of joints

The specification below speaks only about what a user has asked for: the list of calls.
-/

set_option linter.unusedSectionVars false

namespace RP3D.JointSettings

variable {α : Type} [Field α] [LinearOrder α] [IsStrictOrderedRing α]

/-! ## Specification -/

namespace Spec

/-- The last value among the calls picked by `f`, or `d` if there is none. -/
def last {β γ : Type} (f : β → Option γ) (d : γ) : List β → γ
  | [] => d
  | o :: os => last f ((f o).getD d) os

def minArg : Op α → Option α | .setMin x => some x | _ => none
def maxArg : Op α → Option α | .setMax x => some x | _ => none
def speedArg : Op α → Option α | .setSpeed x => some x | _ => none
def maxMotorArg : Op α → Option α | .setMaxMotor x => some x | _ => none
def limitArg : Op α → Option Bool | .enableLimit x => some x | _ => none
def motorArg : Op α → Option Bool | .enableMotor x => some x | _ => none

/-- The ranges within which limits make sense: those demanded when the joint is created
(`-2π ≤ lower ≤ 0 ≤ upper ≤ 2π` for a hinge; `lower ≤ 0 ≤ upper` for a slider), and a
non-negative strength of the motor. -/
def Proper (pi : α) (k : Kind) (l u m : α) : Prop :=
  l ≤ 0 ∧ 0 ≤ u ∧ 0 ≤ m ∧ (k = .hinge → -2 * pi ≤ l ∧ u ≤ 2 * pi)

/-- A call whose argument is in the range for it. -/
def Sensible (pi : α) (k : Kind) : Op α → Prop
  | .setMin x => x ≤ 0 ∧ (k = .hinge → -2 * pi ≤ x)
  | .setMax x => 0 ≤ x ∧ (k = .hinge → x ≤ 2 * pi)
  | .setMaxMotor x => 0 ≤ x
  | _ => True

/-- A body that takes part in the simulation: not static, not deactivated and not asleep. -/
def Awake (b : Body α) : Prop := b.static = true ∨ b.active = false ∨ b.sleeping = false

end Spec

open Spec

/-! ## Settings are what was asked for -/

/-- Every event changes no setting but the one it is about, and that one to the given value. -/
theorem step_settings {pi : α} {j j' : Joint α} {o : Op α} (h : step pi j o = some j') :
    j'.kind = j.kind ∧
    j'.lower = (minArg o).getD j.lower ∧ j'.upper = (maxArg o).getD j.upper ∧
    j'.speed = (speedArg o).getD j.speed ∧ j'.maxMotor = (maxMotorArg o).getD j.maxMotor ∧
    j'.limitOn = (limitArg o).getD j.limitOn ∧ j'.motorOn = (motorArg o).getD j.motorOn := by
  cases o <;>
    simp only [step, Joint.enableLimit, Joint.enableMotor, Joint.setMin, Joint.setMax,
      Joint.setSpeed, Joint.setMaxMotor] at h <;>
    (try split_ifs at h) <;> cases h <;>
    simp_all [Joint.resetLimits, Joint.awake, minArg, maxArg, speedArg, maxMotorArg, limitArg,
      motorArg]

/-- **C127 (settings).**  After any history of calls and simulation steps, each getter returns
the value last given to its setter, or the value the joint had before. -/
theorem settings_are_last_set {pi : α} : ∀ {os : List (Op α)} {j j' : Joint α},
    run pi j os = some j' →
    j'.kind = j.kind ∧
    j'.lower = last minArg j.lower os ∧ j'.upper = last maxArg j.upper os ∧
    j'.speed = last speedArg j.speed os ∧ j'.maxMotor = last maxMotorArg j.maxMotor os ∧
    j'.limitOn = last limitArg j.limitOn os ∧ j'.motorOn = last motorArg j.motorOn os
  | [], j, j', h => by cases h; simp [last]
  | o :: os, j, j', h => by
    simp only [run] at h
    cases hs : step pi j o with
    | none => simp [hs] at h
    | some j1 =>
      simp only [hs, Option.bind_some] at h
      obtain ⟨k0, k1, k2, k3, k4, k5, k6⟩ := step_settings hs
      have := settings_are_last_set h
      simpa only [last, k0, k1, k2, k3, k4, k5, k6] using this

/-! ## Changes take effect at once -/

omit [LinearOrder α] [IsStrictOrderedRing α] in
/-- `setIsSleeping(false)` leaves the body awake. -/
theorem wake_awake (b : Body α) : Awake b.wake := by
  unfold Body.wake Awake
  split_ifs with h1 h2 h3 <;> simp_all

omit [LinearOrder α] [IsStrictOrderedRing α] in
/-- and makes no body sleep, static or inactive, nor revives one that is. -/
theorem wake_keeps (b : Body α) :
    b.wake.static = b.static ∧ b.wake.active = b.active ∧
      (b.static = true ∨ b.active = false ∨ b.sleeping = false → b.wake = b) := by
  unfold Body.wake
  split_ifs with h1 h2 h3 <;> simp_all

/-- The settings of a joint. -/
def Joint.settings (j : Joint α) : Bool × Bool × α × α × α × α :=
  (j.limitOn, j.motorOn, j.lower, j.upper, j.speed, j.maxMotor)

/-- A call of the user, as opposed to a step of the simulation. -/
def Op.IsCall : Op α → Prop
  | .other .. => False
  | _ => True

/-- **C127 (effect).**  A call that changes a setting wakes both bodies; if a limit is changed or
switched, the accumulated impulses of both limits are dropped; if the motor is switched, so is the
impulse of the motor. -/
theorem change_takes_effect {pi : α} {j j' : Joint α} {o : Op α}
    (hc : o.IsCall) (h : step pi j o = some j') (hd : j'.settings ≠ j.settings) :
    Awake j'.body1 ∧ Awake j'.body2 ∧
    ((j'.lower ≠ j.lower ∨ j'.upper ≠ j.upper ∨ j'.limitOn ≠ j.limitOn) →
      j'.impLower = 0 ∧ j'.impUpper = 0) ∧
    (j'.motorOn ≠ j.motorOn → j'.impMotor = 0) := by
  cases o <;>
    simp only [step, Joint.enableLimit, Joint.enableMotor, Joint.setMin, Joint.setMax,
      Joint.setSpeed, Joint.setMaxMotor, Op.IsCall] at h hc <;>
    (try split_ifs at h) <;> cases h <;>
    simp_all [Joint.resetLimits, Joint.awake, Joint.settings, wake_awake]

/-- **C127 (frame).**  A call keeps the impulses of the other parts of the joint: those of the
limits unless the limits are changed, that of the motor unless it is switched, and all others. -/
theorem call_keeps_rest {pi : α} {j j' : Joint α} {o : Op α}
    (hc : o.IsCall) (h : step pi j o = some j') :
    j'.rest = j.rest ∧
    ((∀ b, o ≠ .enableMotor b) → j'.impMotor = j.impMotor) ∧
    (j'.lower = j.lower → j'.upper = j.upper → j'.limitOn = j.limitOn →
      j'.impLower = j.impLower ∧ j'.impUpper = j.impUpper) := by
  cases o <;>
    simp only [step, Joint.enableLimit, Joint.enableMotor, Joint.setMin, Joint.setMax,
      Joint.setSpeed, Joint.setMaxMotor, Op.IsCall] at h hc <;>
    (try split_ifs at h) <;> cases h <;>
    simp_all [Joint.resetLimits, Joint.awake]

/-- A call that changes no setting does nothing at all, but for switching the motor, which drops
its impulse and wakes the bodies in any case. -/
theorem no_change_nothing {pi : α} {j j' : Joint α} {o : Op α}
    (hc : o.IsCall) (hm : ∀ b, o ≠ .enableMotor b) (h : step pi j o = some j')
    (hd : j'.settings = j.settings) : j' = j := by
  cases o <;>
    simp only [step, Joint.enableLimit, Joint.enableMotor, Joint.setMin, Joint.setMax,
      Joint.setSpeed, Joint.setMaxMotor, Op.IsCall] at h hc <;>
    (try split_ifs at h) <;> cases h <;>
    simp_all [Joint.resetLimits, Joint.awake, Joint.settings]

/-! ## Ranges -/

/-- The stored settings are in the ranges. -/
def Ok (pi : α) (j : Joint α) : Prop := Proper pi j.kind j.lower j.upper j.maxMotor

theorem step_ok {pi : α} {j : Joint α} {o : Op α} (hj : Ok pi j) (ho : Sensible pi j.kind o) :
    ∃ j', step pi j o = some j' ∧ j'.kind = j.kind ∧ Ok pi j' := by
  obtain ⟨h1, h2, h3, h4⟩ := hj
  have key : ∃ j', step pi j o = some j' := by
    cases o with
    | enableLimit b => simp only [step, Joint.enableLimit]; split_ifs <;> exact ⟨_, rfl⟩
    | enableMotor b => exact ⟨_, rfl⟩
    | setMin x =>
      have : Joint.minCheck pi j x = true := by
        unfold Joint.minCheck
        cases hk : j.kind with
        | hinge => simp [h1]; simpa using (h4 hk).1
        | slider => simpa using le_trans ho.1 h2
      simp only [step, Joint.setMin, this]
      split_ifs <;> simp_all
    | setMax x =>
      have : Joint.maxCheck pi j x = true := by
        unfold Joint.maxCheck
        cases hk : j.kind with
        | hinge => simp [h2, (h4 hk).2]
        | slider => simpa using le_trans h1 ho.1
      simp only [step, Joint.setMax, this]
      split_ifs <;> simp_all
    | setSpeed x => simp only [step, Joint.setSpeed]; split_ifs <;> exact ⟨_, rfl⟩
    | setMaxMotor x =>
      simp only [step, Joint.setMaxMotor]
      split_ifs <;> exact ⟨_, rfl⟩
    | other => exact ⟨_, rfl⟩
  obtain ⟨j', h⟩ := key
  obtain ⟨k0, k1, k2, -, k4, -, -⟩ := step_settings h
  refine ⟨j', h, k0, ?_⟩
  unfold Ok Proper
  rw [k0, k1, k2, k4]
  cases o <;> simp_all [Sensible, minArg, maxArg, maxMotorArg]

/-- **C127 (ranges), for sensible arguments.**  If every argument given is in its range, no call
ever breaks an assertion and the limits and the strength of the motor are in their ranges after
any history.  What is missing is the case of arguments out of range: see `bad_limit_accepted`. -/
theorem ranges_partial {pi : α} : ∀ {os : List (Op α)} {j : Joint α},
    Ok pi j → (∀ o ∈ os, Sensible pi j.kind o) →
    ∃ j', run pi j os = some j' ∧ j'.kind = j.kind ∧ Ok pi j'
  | [], j, hj, _ => ⟨j, rfl, rfl, hj⟩
  | o :: os, j, hj, ho => by
    obtain ⟨j1, h1, k1, ok1⟩ := step_ok hj (ho o (by simp))
    obtain ⟨j2, h2, k2, ok2⟩ := ranges_partial (os := os) ok1
      (fun o' ho' => by rw [k1]; exact ho o' (by simp [ho']))
    exact ⟨j2, by simp [run, h1, h2], k2.trans k1, ok2⟩

/-- A joint as created: a description is accepted if and only if it is in the ranges, where the
strength of the motor is checked for sliders only. -/
theorem create_iff {pi : α} {k : Kind} {i : Info α} {b1 b2 : Body α}
    (hm : k = .hinge → 0 ≤ i.values.2.2.2) :
    (∃ j, create pi k i b1 b2 = some j) ↔
      Proper pi k i.values.1 i.values.2.1 i.values.2.2.2 := by
  unfold create Proper
  cases k <;> simp [createCheck] <;> simp at hm <;> tauto

theorem create_ok {pi : α} {k : Kind} {i : Info α} {b1 b2 : Body α} {j : Joint α}
    (hm : k = .hinge → 0 ≤ i.values.2.2.2) (h : create pi k i b1 b2 = some j) :
    Ok pi j ∧ j.kind = k ∧ j.settings = (i.limitOn, i.motorOn k, i.values) ∧
      j.impLower = 0 ∧ j.impUpper = 0 ∧ j.impMotor = 0 ∧ j.rest = 0 := by
  have hp := (create_iff (b1 := b1) (b2 := b2) hm).1 ⟨j, h⟩
  unfold create at h
  simp only at h
  split_ifs at h
  cases h
  exact ⟨hp, rfl, rfl, rfl, rfl, rfl, rfl⟩

/-- The limits of a slider never cross, whatever the arguments. -/
theorem slider_limits_ordered {pi : α} : ∀ {os : List (Op α)} {j j' : Joint α},
    j.kind = .slider → j.lower ≤ j.upper → run pi j os = some j' → j'.lower ≤ j'.upper
  | [], j, j', _, hj, h => by cases h; exact hj
  | o :: os, j, j', hk, hj, h => by
    simp only [run] at h
    cases hs : step pi j o with
    | none => simp [hs] at h
    | some j1 =>
      simp only [hs, Option.bind_some] at h
      obtain ⟨k0, k1, k2, -⟩ := step_settings hs
      refine slider_limits_ordered (k0.trans hk) ?_ h
      rw [k1, k2]
      cases o <;> simp only [minArg, maxArg, Option.getD_some, Option.getD_none] <;>
        (try exact hj)
      · simp only [step, Joint.setMin, Joint.minCheck, hk] at hs
        split_ifs at hs with hc <;> simpa using hc
      · simp only [step, Joint.setMax, Joint.maxCheck, hk] at hs
        split_ifs at hs with hc <;> simpa using hc

/-- Any interval can be given to a slider by two calls, in one of the two orders. -/
theorem slider_interval_reachable {pi : α} {j : Joint α} (hk : j.kind = .slider)
    (hj : j.lower ≤ j.upper) {l u : α} (hlu : l ≤ u) :
    ∃ os, (os = [.setMin l, .setMax u] ∨ os = [.setMax u, .setMin l]) ∧
      ∃ j', run pi j os = some j' ∧ j'.lower = l ∧ j'.upper = u := by
  by_cases hl : l ≤ j.upper
  · refine ⟨_, Or.inl rfl, ?_⟩
    have e1 : ∃ j1, step pi j (.setMin l) = some j1 := by
      simp only [step, Joint.setMin, Joint.minCheck, hk]
      split_ifs <;> simp_all
    obtain ⟨j1, e1⟩ := e1
    obtain ⟨k0, k1, k2, -⟩ := step_settings e1
    simp [minArg] at k1
    have e2 : ∃ j2, step pi j1 (.setMax u) = some j2 := by
      simp only [step, Joint.setMax, Joint.maxCheck, k0.trans hk, k1]
      split_ifs <;> simp_all
    obtain ⟨j2, e2⟩ := e2
    obtain ⟨-, m1, m2, -⟩ := step_settings e2
    exact ⟨j2, by simp [run, e1, e2], by simpa [minArg, k1] using m1, by simpa [maxArg] using m2⟩
  · refine ⟨_, Or.inr rfl, ?_⟩
    have hu : j.lower ≤ u := hj.trans ((not_le.1 hl).le.trans hlu)
    have e1 : ∃ j1, step pi j (.setMax u) = some j1 := by
      simp only [step, Joint.setMax, Joint.maxCheck, hk]
      split_ifs <;> simp_all
    obtain ⟨j1, e1⟩ := e1
    obtain ⟨k0, k1, k2, -⟩ := step_settings e1
    simp [maxArg] at k2
    have e2 : ∃ j2, step pi j1 (.setMin l) = some j2 := by
      simp only [step, Joint.setMin, Joint.minCheck, k0.trans hk, k2]
      split_ifs <;> simp_all
    obtain ⟨j2, e2⟩ := e2
    obtain ⟨-, m1, m2, -⟩ := step_settings e2
    exact ⟨j2, by simp [run, e1, e2], by simpa [minArg] using m1, by simpa [maxArg, k2] using m2⟩

/-! ## Where the code falls short -/

/-- **C127, the code falls short (1).**  A hinge within its ranges accepts any value whatever as
its lower limit and as its upper limit, and a joint any strength of its motor: the assertions look
at the values that are being replaced. -/
theorem bad_limit_accepted {pi : α} {j : Joint α} (hj : Ok pi j) (x : α) :
    (j.kind = .hinge → ∃ j', step pi j (.setMin x) = some j' ∧ j'.lower = x) ∧
    (j.kind = .hinge → ∃ j', step pi j (.setMax x) = some j' ∧ j'.upper = x) ∧
    (∃ j', step pi j (.setMaxMotor x) = some j' ∧ j'.maxMotor = x) := by
  obtain ⟨h1, h2, h3, h4⟩ := hj
  refine ⟨fun hk => ?_, fun hk => ?_, ?_⟩
  · have : Joint.minCheck pi j x = true := by
      unfold Joint.minCheck; simp [hk, h1]; simpa using (h4 hk).1
    have e : ∃ j', step pi j (.setMin x) = some j' := by
      simp only [step, Joint.setMin, this]; split_ifs <;> simp_all
    obtain ⟨j', e⟩ := e
    exact ⟨j', e, by simpa [minArg] using (step_settings e).2.1⟩
  · have : Joint.maxCheck pi j x = true := by
      unfold Joint.maxCheck; simp [hk, h2, (h4 hk).2]
    have e : ∃ j', step pi j (.setMax x) = some j' := by
      simp only [step, Joint.setMax, this]; split_ifs <;> simp_all
    obtain ⟨j', e⟩ := e
    exact ⟨j', e, by simpa [maxArg] using (step_settings e).2.2.1⟩
  · have e : ∃ j', step pi j (.setMaxMotor x) = some j' := by
      simp only [step, Joint.setMaxMotor]; split_ifs <;> exact ⟨_, rfl⟩
    obtain ⟨j', e⟩ := e
    exact ⟨j', e, by simpa [maxMotorArg] using (step_settings e).2.2.2.2.1⟩

/-- **C127, the code falls short (2).**  and a limit of a hinge out of its range cannot be
corrected: every further call setting it, with whatever value, breaks the assertion. -/
theorem bad_limit_stays {pi : α} {j : Joint α} (hk : j.kind = .hinge) (x : α) :
    ((0 < j.lower ∨ j.lower < -2 * pi) → step pi j (.setMin x) = none) ∧
    ((j.upper < 0 ∨ 2 * pi < j.upper) → step pi j (.setMax x) = none) := by
  constructor
  · intro h
    have : Joint.minCheck pi j x = false := by
      unfold Joint.minCheck
      simp only [hk, Bool.and_eq_false_iff, decide_eq_false_iff_not, not_le]
      exact h
    simp [step, Joint.setMin, this]
  · intro h
    have : Joint.maxCheck pi j x = false := by
      unfold Joint.maxCheck
      simp only [hk, Bool.and_eq_false_iff, decide_eq_false_iff_not, not_le]
      exact h
    simp [step, Joint.setMax, this]

/-- The same for a negative strength of the motor, but for giving the same value again. -/
theorem bad_motor_stays {pi : α} {j : Joint α} (h : j.maxMotor < 0) {x : α} (hx : x ≠ j.maxMotor) :
    step pi j (.setMaxMotor x) = none := by
  simp [step, Joint.setMaxMotor, hx, not_le.2 h]

/-- So once a lower limit of a hinge is out of its range it is so for ever, in every history that
breaks no assertion. -/
theorem bad_limit_forever {pi : α} : ∀ {os : List (Op α)} {j j' : Joint α},
    j.kind = .hinge → (0 < j.lower ∨ j.lower < -2 * pi) → run pi j os = some j' →
    j'.lower = j.lower
  | [], j, j', _, _, h => by cases h; rfl
  | o :: os, j, j', hk, hj, h => by
    simp only [run] at h
    cases hs : step pi j o with
    | none => simp [hs] at h
    | some j1 =>
      simp only [hs, Option.bind_some] at h
      obtain ⟨k0, k1, -⟩ := step_settings hs
      have e : j1.lower = j.lower := by
        rw [k1]
        cases o <;> simp only [minArg, Option.getD_none]
        rw [(bad_limit_stays hk _).1 hj] at hs
        exact absurd hs (by simp)
      rw [← e]
      exact bad_limit_forever (k0.trans hk) (by rw [e]; exact hj) h

/-- **C127, the code falls short (3).**  A hinge described with limits and a motor has its motor
off; a slider described so has it on. -/
theorem motor_of_description {pi : α} {k : Kind} {l u s m : α} {b1 b2 : Body α} {j : Joint α}
    (h : create pi k (.limitsMotor l u s m) b1 b2 = some j) :
    j.motorOn = decide (k = .slider) ∧ j.limitOn = true ∧
      j.lower = l ∧ j.upper = u ∧ j.speed = s ∧ j.maxMotor = m := by
  unfold create at h
  simp only at h
  split_ifs at h
  cases h
  cases k <;> simp [Info.motorOn, Info.limitOn, Info.values]

/-! ## The cone -/

/-- The cone of a ball-and-socket joint: both calls store what they are given, keep the other
setting and the impulse of the point constraint, and, if something changes, drop the impulse of
the cone and wake the bodies. -/
theorem cone_calls (j : Cone α) (b : Bool) (x : α) :
    ((j.enable b).on = b ∧ (j.enable b).half = j.half ∧ (j.enable b).rest = j.rest ∧
      (j.enable b).impCone = 0 ∧ Awake (j.enable b).body1 ∧ Awake (j.enable b).body2) ∧
    ((j.setHalf x).half = x ∧ (j.setHalf x).on = j.on ∧ (j.setHalf x).rest = j.rest ∧
      (j.half = x → j.setHalf x = j) ∧
      (j.half ≠ x → (j.setHalf x).impCone = 0 ∧ Awake (j.setHalf x).body1 ∧
        Awake (j.setHalf x).body2)) := by
  constructor
  · simp [Cone.enable, Cone.resetLimits, wake_awake]
  · unfold Cone.setHalf
    split_ifs with h <;> simp_all [Cone.resetLimits, wake_awake]

/-! ## Instances -/

private def bodyA : Body ℚ := ⟨false, true, true, 5⟩
private def bodyS : Body ℚ := ⟨true, true, false, 0⟩
private def hinge0 : Joint ℚ := ⟨.hinge, true, false, -1, 1, 2, 3, 7, 8, 9, 10, bodyA, bodyS⟩

/-- A hinge whose first body sleeps: changing the upper limit wakes it and drops the impulses. -/
example : step 3 hinge0 (.setMax 2) =
    some ⟨.hinge, true, false, -1, 2, 2, 3, 0, 0, 9, 10, ⟨false, true, false, 0⟩, bodyS⟩ := by
  decide +kernel

example : Ok 3 hinge0 := by
  unfold Ok Proper; refine ⟨?_, ?_, ?_, fun _ => ⟨?_, ?_⟩⟩ <;> decide +kernel

example : ∃ j', run 3 hinge0 [.setMin (-2), .other 1 1 1 1 bodyA bodyA, .setMax 0, .setMin (-1)] =
    some j' ∧ j'.kind = hinge0.kind ∧ Ok 3 j' := by
  apply ranges_partial
  · unfold Ok Proper; refine ⟨?_, ?_, ?_, fun _ => ⟨?_, ?_⟩⟩ <;> decide +kernel
  · intro o ho
    simp only [List.mem_cons, List.not_mem_nil, or_false] at ho
    rcases ho with rfl | rfl | rfl | rfl
    · exact ⟨by norm_num, fun _ => by norm_num⟩
    · trivial
    · exact ⟨by norm_num, fun _ => by norm_num⟩
    · exact ⟨by norm_num, fun _ => by norm_num⟩

/-- A lower limit of 2 above the upper limit of 1 is accepted; setting it back to -1 is not. -/
theorem crossed_limits_stuck :
    ∃ j b1 b2, create (3 : ℚ) .hinge (.limits (-1) 1) b1 b2 = some j ∧
      ∃ j', run 3 j [.setMin 2] = some j' ∧ j'.upper < j'.lower ∧
        run 3 j [.setMin 2, .setMin (-1)] = none := by
  refine ⟨⟨.hinge, true, false, -1, 1, 0, 0, 0, 0, 0, 0, bodyA, bodyA⟩, bodyA, bodyA, ?_,
    ⟨.hinge, true, false, 2, 1, 0, 0, 0, 0, 0, 0, bodyA.wake, bodyA.wake⟩, ?_, ?_, ?_⟩ <;>
    decide +kernel

end RP3D.JointSettings
