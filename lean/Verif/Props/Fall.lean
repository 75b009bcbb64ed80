import Verif.Props.Spin
import Verif.Props.SpinExamples
import Verif.Props.Sleeping
import Mathlib.Analysis.SpecificLimits.Basic

/-! C149: how bodies that nothing touches fall. -/

set_option linter.unusedSectionVars false

namespace RP3D
namespace Fall
open Solver Joints SolverProps JointProps Whole
open Apart (Ev)
open Kinematic (told reach_evs)
open Spin (Free solved_free corrected_free awake_off)
variable {K : Type} [Field K] [LinearOrder K] [IsStrictOrderedRing K]

/-! ### Specification -/

/-- A point with mass: center, velocity, force that waits for the next step, mass, damping, factors for locked axes, and whether it is heavy. -/
@[ext] structure Point (K : Type) where
  x : V3 K
  v : V3 K
  f : V3 K
  m : K
  k : K
  l : V3 K
  on : Bool

/-- One component of the velocity after a time `dt` with acceleration `a` and damping `k` (implicit for the damping). -/
def slow (dt k a u : K) : K := (u + dt * a) / (1 + k * dt)

/-- A time step with the gravity `g` of the world (`none` if it is off). -/
def Point.step (dt : K) (g : Option (V3 K)) (s : Point K) : Point K :=
  let g := if s.on then g.getD 0 else 0
  let v : V3 K := ⟨slow dt s.k (s.l.x * (s.f.x / s.m + g.x)) s.v.x, slow dt s.k (s.l.y * (s.f.y / s.m + g.y)) s.v.y, slow dt s.k (s.l.z * (s.f.z / s.m + g.z)) s.v.z⟩
  { s with v := v, x := s.x + V3.smul dt v, f := 0 }

/-- What calls of the user do to it. -/
def Point.call (s : Point K) : Dyn.Op K → Point K
  | .force f _ | .forceLocalPos f _ | .forceCenter f => { s with f := s.f + f }
  | .resetForce => { s with f := 0 }
  | .setMass m => { s with m := m }
  | .linearVelocity v => { s with v := v }
  | .linearDamping k => if 0 ≤ k then { s with k := k } else s
  | .gravity b => { s with on := b }
  | .linearLock l => { s with l := l }
  | _ => s

def Point.event (c : Nat) (s : Point K) : Ev K → Point K
  | .step i => s.step i.dt i.g
  | .call b o => if b = c then s.call o else s
  | _ => s

/-- The calls on the body that are allowed: forces, torques, masses, velocities, damping, gravity, locks. -/
def Calm : Dyn.Op K → Prop
  | .force _ _ | .forceLocalPos _ _ | .forceCenter _ | .resetForce | .linearVelocity _ | .linearDamping _ | .gravity _ | .linearLock _ => True
  | .setMass m => 0 < m
  | .torque _ | .localTorque _ | .resetTorque | .setInertia _ | .inertiaFromColliders _ | .angularVelocity _ | .angularDamping _ | .angularLock _ | .allowed _ => True
  | _ => False

/-- The body is dynamic, awake, has a mass, and is at the point. -/
def IsPoint (w : DW K) (c : Nat) (s : Point K) : Prop :=
  ∃ d, w.body c = some d ∧ d.type = .dynamic ∧ d.disabled = false ∧ d.sleeping = false ∧ 0 < d.mass ∧
    (⟨d.comWorld, d.vel, d.force, d.mass, d.linDamp, d.linLock, d.gravity⟩ : Point K) = s

/-- A history in which nothing touches the body and it does not fall asleep. Everything may happen to other bodies. -/
def Flight (c : Nat) : DW K → List (Ev K) → Prop
  | _, [] => True
  | w, e :: es => (match e with
      | .step i => Free c i ∧ (dyn (update i w) c).sleeping = false
      | .create b _ => b ≠ c
      | .destroy b => b ≠ c
      | .call b o => b ≠ c ∨ Calm o
      | _ => True) ∧ Flight c (e.run w) es

/-! ### The step -/

section step
variable {w : DW K} {c : Nat} {s : Point K}

theorem point_step (i : In K) (hr : DW.Reach DW.Any w) (hf : Free c i) (h : IsPoint w c s) (ha : (dyn (update i w) c).sleeping = false) :
    IsPoint (update i w) c (s.step i.dt i.g) := by
  obtain ⟨d, hd, ht, he, hs, hm, rfl⟩ := h
  have hp : (ready i w).body c = some (d.updateInertia.integrateVel i.dt i.g) := by
    rw [Galileo.ready_some hd, Galileo.setIsSleeping_id hs, ite_self]
  have e : dyn (ready i w) c = d.updateInertia.integrateVel i.dt i.g := by
    conv_lhs => unfold dyn
    rw [hp]; rfl
  have hdis : (d.updateInertia.integrateVel i.dt i.g).disabled = false := by
    rw [(Dyn.integrateVel_same _ _ _).disabled, (Dyn.updateInertia_same d).disabled, he]
  have hv := step_velocity hr (i.args (fun _ => none) fun _ => none) hd hp hdis ht hm
  have hu : d.updateInertia = { d with invInertiaW := Dyn.worldInertia d.tr.ori.matrix d.invInertia } := by
    unfold Dyn.updateInertia; rw [if_neg (by rw [he]; decide)]
  have hk : (d.updateInertia.integrateVel i.dt i.g).sVel = 0 ∧ (d.updateInertia.integrateVel i.dt i.g).comWorld = d.comWorld := by
    rw [hu]
    unfold Dyn.integrateVel
    rw [if_neg (by show ¬ d.disabled = true; rw [he]; decide)]
    exact ⟨(Dyn.integrateGravity_keep _ _ _).2.2.2.2.2.2.1, (Dyn.integrateGravity_keep _ _ _).2.2.2.1⟩
  obtain ⟨p1, p2⟩ := hk
  have e1 : (vels i w c).cVel = (d.updateInertia.integrateVel i.dt i.g).cVel ∧ (vels i w c).sVel = 0 := by
    unfold vels
    rw [solved_free hf, e]
    exact ⟨rfl, p1⟩
  have hmid : (midway i w c).cPos = d.comWorld + V3.smul i.dt (d.updateInertia.integrateVel i.dt i.g).cVel ∧ (midway i w c).disabled = false ∧
      (midway i w c).cVel = (d.updateInertia.integrateVel i.dt i.g).cVel := by
    unfold midway
    rw [e]
    obtain ⟨a1, a2⟩ := e1
    generalize vels i w c = u at *
    generalize d.updateInertia.integrateVel i.dt i.g = p at *
    unfold Dyn.solveVel Dyn.integratePos
    dsimp only
    rw [if_neg (by rw [hdis]; decide)]
    have z : ∀ k : K, V3.smul k (0 : V3 K) = 0 := fun k => by ext <;> simp
    refine ⟨?_, hdis, a1⟩
    dsimp only
    rw [p2, a1, a2, z, add_zero]
  obtain ⟨k1, k2, k3⟩ := hmid
  have hmv : d.move (told i w) c = ((midway i w c).solvePos (some (poss i w c))).updateState i.len := by
    have a := Galileo.moved_dyn (i := i) ⟨_, hd⟩
    rw [DW.moved_body] at a
    have b : (DW.wakeIslands (told i w) w).body c = some d := by
      show (w.body c).map _ = _
      rw [hd, Option.map_some]
      dsimp only
      rw [Galileo.setIsSleeping_id hs, ite_self]
    change ((DW.wakeIslands (told i w) w).body c).map _ = _ at a
    rw [b] at a
    exact Option.some.inj a
  have st : (d.move (told i w) c).vel = (d.updateInertia.integrateVel i.dt i.g).cVel ∧
      (d.move (told i w) c).comWorld = d.comWorld + V3.smul i.dt (d.updateInertia.integrateVel i.dt i.g).cVel := by
    rw [hmv]
    unfold poss
    rw [corrected_free hf]
    generalize midway i w c = m at *
    unfold Dyn.solvePos Dyn.updateState
    dsimp only
    rw [if_neg (by rw [k2]; decide)]
    exact ⟨k3, k1⟩
  have sm := Dyn.move_same (told i w) c d
  have kp := Newton.move_keep (told i w) c d
  obtain ⟨t, hu⟩ := Newton.after (told i w) hd hs ha
  refine ⟨_, hu, sm.type.trans ht, sm.disabled.trans he, sm.sleeping.trans hs, by show 0 < (d.move (told i w) c).mass; rw [sm.mass]; exact hm, ?_⟩
  have hv' : (d.updateInertia.integrateVel i.dt i.g).cVel = ((⟨d.comWorld, d.vel, d.force, d.mass, d.linDamp, d.linLock, d.gravity⟩ : Point K).step i.dt i.g).v := by
    rw [hv]
    unfold StepVel Point.step slow
    ext <;> simp only [V3.add_x, V3.add_y, V3.add_z, V3.smul_x, V3.smul_y, V3.smul_z, one_div, div_eq_inv_mul, mul_one] <;> rfl
  show (⟨(d.move (told i w) c).comWorld, (d.move (told i w) c).vel, 0, (d.move (told i w) c).mass, (d.move (told i w) c).linDamp, (d.move (told i w) c).linLock,
    (d.move (told i w) c).gravity⟩ : Point K) = _
  rw [st.1, st.2, sm.mass, sm.linDamp, kp.1, kp.2, hv']
  rfl

theorem IsPoint.of_eq {z : DW K} (h : IsPoint w c s) (e : z.body c = w.body c) : IsPoint z c s := by
  obtain ⟨d, hd, k⟩ := h
  exact ⟨d, e.trans hd, k⟩

theorem point_call {o : Dyn.Op K} (h : IsPoint w c s) (ho : Calm o) : IsPoint (w.exec (.call c o)) c (s.call o) := by
  obtain ⟨d, hd, ht, he, hs, hm, rfl⟩ := h
  have e : (w.exec (.call c o)).body c = some (d.exec o) := by
    show (w.modify c fun d => d.exec o).body c = _
    rw [DW.modify_same, hd]; rfl
  refine ⟨_, e, ?_⟩
  have hn : ¬ d.type ≠ .dynamic := fun k => k ht
  have hns : ¬ d.type = .static := by rw [ht]; decide
  have hw : ¬ d.sleeping = true := by rw [hs]; decide
  have hz : ∀ d' : Dyn K, d'.sleeping = false → d'.setIsSleeping false = d' := fun _ => Galileo.setIsSleeping_id
  cases o <;> first | exact absurd ho id | skip
  case force f p =>
    unfold Dyn.exec Dyn.applyForce; dsimp only; rw [if_neg hn, if_neg hw]; exact ⟨ht, he, hs, hm, rfl⟩
  case forceLocalPos f p =>
    unfold Dyn.exec Dyn.applyForceLocalPos Dyn.applyForce; dsimp only; rw [if_neg hn, if_neg hw]; exact ⟨ht, he, hs, hm, rfl⟩
  case forceCenter f => unfold Dyn.exec Dyn.applyForceCenter; dsimp only; rw [if_neg hn, if_neg hw]; exact ⟨ht, he, hs, hm, rfl⟩
  case torque f => unfold Dyn.exec Dyn.applyTorque; dsimp only; rw [if_neg hn, if_neg hw]; exact ⟨ht, he, hs, hm, rfl⟩
  case localTorque f => unfold Dyn.exec Dyn.applyLocalTorque Dyn.applyTorque; dsimp only; rw [if_neg hn, if_neg hw]; exact ⟨ht, he, hs, hm, rfl⟩
  case resetForce => unfold Dyn.exec Dyn.resetForce; dsimp only; rw [if_neg hn]; exact ⟨ht, he, hs, hm, rfl⟩
  case resetTorque => unfold Dyn.exec Dyn.resetTorque; dsimp only; rw [if_neg hn]; exact ⟨ht, he, hs, hm, rfl⟩
  case setInertia I => unfold Dyn.exec Dyn.setInertia; dsimp only; rw [if_pos ht]; exact ⟨ht, he, hs, hm, rfl⟩
  case inertiaFromColliders cs => unfold Dyn.exec Dyn.setInertia; dsimp only; rw [if_pos ht]; exact ⟨ht, he, hs, hm, rfl⟩
  case setMass m =>
    have h0 : 0 < m := ho
    unfold Dyn.exec Dyn.setMass Dyn.storeMass; dsimp only; rw [if_neg (not_lt.2 h0.le), if_pos ht]; exact ⟨ht, he, hs, h0, rfl⟩
  case linearVelocity v =>
    unfold Dyn.exec Dyn.setLinearVelocity; dsimp only; rw [if_neg hns, hz { d with vel := v } hs, ite_self]; exact ⟨ht, he, hs, hm, rfl⟩
  case angularVelocity v =>
    unfold Dyn.exec Dyn.setAngularVelocity; dsimp only; rw [if_neg hns, hz { d with ang := v } hs, ite_self]; exact ⟨ht, he, hs, hm, rfl⟩
  case allowed b =>
    unfold Dyn.exec Dyn.setAllowed; dsimp only; rw [hz { d with allowed := b } hs, ite_self]; exact ⟨ht, he, hs, hm, rfl⟩
  case linearDamping k =>
    unfold Dyn.exec Dyn.setLinearDamping Point.call
    by_cases hk : 0 ≤ k
    · simp only [ge_iff_le, if_pos hk]; exact ⟨ht, he, hs, hm, trivial⟩
    · simp only [ge_iff_le, if_neg hk]; exact ⟨ht, he, hs, hm, trivial⟩
  case angularDamping k =>
    unfold Dyn.exec Dyn.setAngularDamping
    by_cases hk : 0 ≤ k
    · simp only [ge_iff_le, if_pos hk]; exact ⟨ht, he, hs, hm, rfl⟩
    · simp only [ge_iff_le, if_neg hk]; exact ⟨ht, he, hs, hm, rfl⟩
  case gravity b => exact ⟨ht, he, hs, hm, rfl⟩
  case linearLock l => exact ⟨ht, he, hs, hm, rfl⟩
  case angularLock l => exact ⟨ht, he, hs, hm, rfl⟩

theorem point_event (hr : DW.Reach DW.Any w) (h : IsPoint w c s) (e : Ev K) (hf : Flight c w [e]) : IsPoint (e.run w) c (s.event c e) := by
  cases e with
  | step i => exact point_step i hr hf.1.1 h hf.1.2
  | create b t => exact h.of_eq (by show upd w.body b _ c = _; exact upd_ne _ _ (Ne.symm hf.1))
  | destroy b => exact h.of_eq (by show upd w.body b _ c = _; exact upd_ne _ _ (Ne.symm hf.1))
  | call b o =>
    show IsPoint _ c (if b = c then s.call o else s)
    by_cases hb : b = c
    · subst hb
      rw [if_pos rfl]
      exact point_call h (hf.1.resolve_left fun k => k rfl)
    · rw [if_neg hb]
      exact h.of_eq (DW.modify_ne _ _ (Ne.symm hb))
  | enableSleeping b =>
    refine h.of_eq ?_
    obtain ⟨d, hd, _, _, hs, _⟩ := h
    show (DW.enableSleeping w b).body c = _
    unfold DW.enableSleeping
    cases b
    · show (w.body c).map _ = _
      rw [hd, Option.map_some]
      exact congrArg some (Galileo.setIsSleeping_id hs)
    · rfl
  | limits l a t => exact h.of_eq rfl

end step

/-- **C149, histories.** As long as nothing touches a body, its center moves as a point with mass: by the forces and the gravity of each step, along the axes that are not locked, with damping.
What its shape is, how it turns and what other bodies do does not matter; a change of gravity, damping or mass counts from the next step on. -/
theorem flies {c : Nat} : ∀ (es : List (Ev K)) {w : DW K} {s : Point K}, DW.Reach DW.Any w → IsPoint w c s → Flight c w es → IsPoint (es.foldl Ev.run w) c (es.foldl (Point.event c) s)
  | [], _, _, _, h, _ => h
  | e :: es, _, _, hr, h, hf => flies es (Apart.Ev.reach hr e) (point_event hr h e ⟨hf.1, trivial⟩) hf.2

/-! ### Constant gravity -/

section constant
variable {dt k a u : K}

/-- `n` steps for one component: velocity and way. -/
def fall (dt k a : K) : Nat → K × K → K × K
  | 0, s => s
  | n + 1, s => fall dt k a n (slow dt k a s.1, s.2 + dt * slow dt k a s.1)

/-- Without damping: a parabola, up to half a step times the velocity gained. -/
theorem fall_free (dt a : K) : ∀ (n : Nat) (u y : K), fall dt 0 a n (u, y) = (u + n * dt * a, y + n * dt * u + (n * dt) ^ 2 / 2 * a + dt / 2 * (n * dt * a))
  | 0, u, y => by simp [fall]
  | n + 1, u, y => by
    have e : slow dt 0 a u = u + dt * a := by simp [slow]
    rw [fall, e, fall_free dt a n]
    ext
    · push_cast; ring
    · push_cast; ring

/-- With damping: the difference to the velocity `a / k` shrinks by the same factor in every step. -/
theorem fall_damped (hk : 0 < k) (hdt : 0 ≤ dt) : ∀ (n : Nat) (u y : K), fall dt k a n (u, y) =
    (a / k + (1 / (1 + k * dt)) ^ n * (u - a / k), y + n * dt * (a / k) + (1 - (1 / (1 + k * dt)) ^ n) / k * (u - a / k))
  | 0, u, y => by simp [fall]
  | n + 1, u, y => by
    have hp : 0 < 1 + k * dt := by nlinarith [mul_nonneg hk.le hdt]
    have e : slow dt k a u = a / k + 1 / (1 + k * dt) * (u - a / k) := by
      unfold slow
      have := hp.ne'
      have := hk.ne'
      field_simp
      ring
    have q : dt * (1 / (1 + k * dt)) = (1 - 1 / (1 + k * dt)) / k := by
      have := hp.ne'
      have := hk.ne'
      field_simp
      ring
    rw [fall, fall_damped hk hdt n, e]
    generalize 1 / (1 + k * dt) = r at *
    ext
    · dsimp only; ring
    · dsimp only
      push_cast
      linear_combination (u - a / k) * q

theorem ratio (hk : 0 ≤ k) (hdt : 0 ≤ dt) : 0 < 1 / (1 + k * dt) ∧ 1 / (1 + k * dt) ≤ 1 := by
  have := mul_nonneg hk hdt
  have hp : 0 < 1 + k * dt := by linarith
  exact ⟨one_div_pos.2 hp, by rw [div_le_one hp]; linarith⟩

/-- The velocity approaches the final one without passing it, however long the steps are. -/
theorem no_overshoot (hk : 0 < k) (hdt : 0 ≤ dt) (n : Nat) (u y : K) :
    (u ≤ a / k → u ≤ (fall dt k a n (u, y)).1 ∧ (fall dt k a n (u, y)).1 ≤ a / k) ∧ (a / k ≤ u → a / k ≤ (fall dt k a n (u, y)).1 ∧ (fall dt k a n (u, y)).1 ≤ u) := by
  obtain ⟨h0, h1⟩ := ratio hk.le hdt
  rw [fall_damped hk hdt]
  have p0 := pow_pos h0 n
  have p1 : (1 / (1 + k * dt)) ^ n ≤ 1 := pow_le_one₀ h0.le h1
  dsimp only
  generalize (1 / (1 + k * dt)) ^ n = r at *
  constructor <;> intro h <;> constructor <;> nlinarith

end constant

/-- Over the reals the final velocity is the limit. -/
theorem terminal {dt k a : ℝ} (hk : 0 < k) (hdt : 0 < dt) (u y : ℝ) : Filter.Tendsto (fun n => (fall dt k a n (u, y)).1) Filter.atTop (nhds (a / k)) := by
  have hp : 1 < 1 + k * dt := by nlinarith [mul_pos hk hdt]
  have e : (fun n => (fall dt k a n (u, y)).1) = fun n => a / k + (1 / (1 + k * dt)) ^ n * (u - a / k) := by
    funext n; rw [fall_damped hk hdt.le]
  rw [e]
  have t := tendsto_pow_atTop_nhds_zero_of_lt_one (r := 1 / (1 + k * dt)) (ratio hk.le hdt.le).1.le (by rw [div_lt_one (by linarith)]; exact hp)
  simpa using (t.mul_const (u - a / k)).const_add (a / k)

/-- Steps of the same length under the same gravity, without forces. -/
theorem steps (c : Nat) (dt : K) (g : V3 K) : ∀ (is : List (In K)) (s : Point K), s.f = 0 → (∀ i ∈ is, i.dt = dt ∧ i.g = some g) → s.on = true →
    let p := (is.map Ev.step).foldl (Point.event c) s
    fall dt s.k (s.l.x * g.x) is.length (s.v.x, s.x.x) = (p.v.x, p.x.x) ∧ fall dt s.k (s.l.y * g.y) is.length (s.v.y, s.x.y) = (p.v.y, p.x.y) ∧
      fall dt s.k (s.l.z * g.z) is.length (s.v.z, s.x.z) = (p.v.z, p.x.z)
  | [], s, _, _, _ => ⟨rfl, rfl, rfl⟩
  | i :: is, s, h0, hi, ho => by
    intro p
    obtain ⟨e1, e2⟩ := hi i List.mem_cons_self
    have e : s.event c (.step i) = { s with
        v := ⟨slow dt s.k (s.l.x * g.x) s.v.x, slow dt s.k (s.l.y * g.y) s.v.y, slow dt s.k (s.l.z * g.z) s.v.z⟩,
        x := s.x + V3.smul dt ⟨slow dt s.k (s.l.x * g.x) s.v.x, slow dt s.k (s.l.y * g.y) s.v.y, slow dt s.k (s.l.z * g.z) s.v.z⟩, f := 0 } := by
      unfold Point.event Point.step
      simp only [e1, e2, ho, h0, if_true, Option.getD_some, V3.zero_x, V3.zero_y, V3.zero_z, zero_div, zero_add]
    have ih := steps c dt g is (s.event c (.step i)) (by rw [e]) (fun j hj => hi j (List.mem_cons_of_mem _ hj)) (by rw [e]; exact ho)
    have ep : p = (is.map Ev.step).foldl (Point.event c) (s.event c (.step i)) := rfl
    rw [ep]
    generalize (is.map Ev.step).foldl (Point.event c) (s.event c (.step i)) = z at *
    rw [e] at ih
    exact ih

/-- **C149, falling.** A body that nothing touches, under constant gravity and without damping and locked axes, is after `n` steps where the parabola of school is, up to half a step. -/
theorem falls {c : Nat} {is : List (In K)} {w : DW K} {s : Point K} {dt : K} {g : V3 K} (hr : DW.Reach DW.Any w) (h : IsPoint w c s) (hf : Flight c w (is.map Ev.step)) (h0 : s.f = 0)
    (ho : s.on = true) (hk : s.k = 0) (hl : s.l = ⟨1, 1, 1⟩) (hi : ∀ i ∈ is, i.dt = dt ∧ i.g = some g) :
    ∃ p, IsPoint ((is.map Ev.step).foldl Ev.run w) c p ∧ p.v = s.v + V3.smul (is.length * dt) g ∧
      p.x = s.x + V3.smul (is.length * dt) s.v + V3.smul ((is.length * dt) ^ 2 / 2) g + V3.smul (dt / 2) (V3.smul (is.length * dt) g) := by
  refine ⟨_, flies _ hr h hf, ?_⟩
  obtain ⟨a, b, d⟩ := steps c dt g is s h0 hi ho
  rw [hk, fall_free, hl] at a b d
  simp only [Prod.mk.injEq, one_mul] at a b d
  constructor
  · ext
    · rw [← a.1]; simp
    · rw [← b.1]; simp
    · rw [← d.1]; simp
  · ext
    · rw [← a.2]; simp
    · rw [← b.2]; simp
    · rw [← d.2]; simp

/-- **C149, falling with damping.** After `n` steps every component of the velocity lies between the one at the start and that of gravity over damping. -/
theorem falls_damped {c : Nat} {is : List (In K)} {w : DW K} {s : Point K} {dt : K} {g : V3 K} (hr : DW.Reach DW.Any w) (h : IsPoint w c s) (hf : Flight c w (is.map Ev.step)) (h0 : s.f = 0)
    (ho : s.on = true) (hk : 0 < s.k) (hdt : 0 ≤ dt) (hl : s.l = ⟨1, 1, 1⟩) (hi : ∀ i ∈ is, i.dt = dt ∧ i.g = some g) :
    ∃ p, IsPoint ((is.map Ev.step).foldl Ev.run w) c p ∧
      p.v = V3.smul (1 / s.k) g + V3.smul ((1 / (1 + s.k * dt)) ^ is.length) (s.v - V3.smul (1 / s.k) g) ∧
      p.x = s.x + V3.smul (is.length * dt) (V3.smul (1 / s.k) g) + V3.smul ((1 - (1 / (1 + s.k * dt)) ^ is.length) / s.k) (s.v - V3.smul (1 / s.k) g) := by
  refine ⟨_, flies _ hr h hf, ?_⟩
  obtain ⟨a, b, d⟩ := steps c dt g is s h0 hi ho
  rw [fall_damped hk hdt, hl] at a b d
  simp only [Prod.mk.injEq, one_mul] at a b d
  have q : ∀ x : K, 1 / s.k * x = x / s.k := fun x => by ring
  constructor
  · ext
    · rw [← a.1]; simp only [V3.add_x, V3.sub_x, V3.smul_x, q]
    · rw [← b.1]; simp only [V3.add_y, V3.sub_y, V3.smul_y, q]
    · rw [← d.1]; simp only [V3.add_z, V3.sub_z, V3.smul_z, q]
  · ext
    · rw [← a.2]; simp only [V3.add_x, V3.sub_x, V3.smul_x, q]
    · rw [← b.2]; simp only [V3.add_y, V3.sub_y, V3.smul_y, q]
    · rw [← d.2]; simp only [V3.add_z, V3.sub_z, V3.smul_z, q]

/-! ### Sleeping bodies hover -/

/-- A sleeping body that is in no island is not moved by a step, whatever the gravity is. -/
theorem sleeper_stays (a : DW.Args K) {w : DW K} {b : Nat} {d : Dyn K} (hd : w.body b = some d) (hs : d.sleeping = true) (he : d.disabled = true)
    (hi : a.islands.any (fun i => i.contains b) = false) :
    ∃ e, (w.update a).body b = some e ∧ e.sleeping = true ∧ e.disabled = true ∧ e.vel = d.vel ∧ e.tr = d.tr ∧ e.type = d.type ∧ e.mass = d.mass ∧ e.gravity = d.gravity := by
  have hm : (DW.moved a w).body b = some (d.move a b) := by
    rw [DW.moved_body]
    unfold DW.wakeIslands DW.mapAll
    simp only [hd, Option.map_some, hi]
    rfl
  obtain ⟨k1, -, k3, -⟩ := Dyn.move_disabled a b d he
  have sm := Dyn.move_same a b d
  have kp := Newton.move_keep a b d
  let P : Nat → Dyn K → Prop := fun c e => c = b → e.sleeping = true ∧ e.disabled = true ∧ e.vel = d.vel ∧ e.tr = d.tr ∧ e.type = d.type ∧ e.mass = d.mass ∧ e.gravity = d.gravity
  have base : ∀ c e, (DW.moved a w).body c = some e → P c e := by
    intro c e hc hcb
    subst hcb
    rw [hm] at hc
    cases hc
    exact ⟨sm.sleeping.trans hs, sm.disabled.trans he, k1, k3, sm.type, sm.mass, kp.2⟩
  have all := DW.sleep_induct P (fun c e t _ h hc => h hc) (fun c e h hc => by
    have : e.setIsSleeping true = e := by unfold Dyn.setIsSleeping; rw [if_pos (h hc).1]
    rw [this]; exact h hc) a.add a.big a.dt a.islands (DW.moved a w) base
  unfold DW.update
  dsimp only
  split
  · obtain ⟨e, h⟩ : ∃ e, (DW.updateSleeping a.add a.big a.dt (DW.moved a w) a.islands).body b = some e := by
      rw [← Option.ne_none_iff_exists']
      intro k
      rw [DW.sleep_none, hm] at k
      cases k
    exact ⟨e.resetForces, by simp only [DW.mapAll, h, Option.map_some], all b e h rfl⟩
  · exact ⟨(d.move a b).resetForces, by simp only [DW.mapAll, hm, Option.map_some], base b (d.move a b) hm rfl⟩

open SleepExample in
/-- A body that has fallen asleep in a world without gravity; then gravity is turned on. There is no island, for the only body sleeps. -/
def heavy : DW.Args ℚ := { args with g := some ⟨0, -10, 0⟩, islands := [] }

open SleepExample in
def asleep : DW ℚ := lazy1.exec (.update args)

open SleepExample in
/-- **C149 fails.** A sleeping body hovers: when gravity is turned on (or changed), `setGravity` and `setIsGravityEnabled` (PhysicsWorld.cpp:969-975, 1024-1029) wake nobody, nor does
`enableGravity` (RigidBody.cpp:741-747), and the body stays where it is for ever, at rest, with nothing below it. -/
theorem hovers : DW.Reach DW.Any asleep ∧ ∀ n : Nat, ∃ d, ((DW.update heavy)^[n] (asleep.exec (.call 0 (.gravity true)))).body 0 = some d ∧ d.type = .dynamic ∧ 0 < d.mass ∧ d.gravity = true ∧
    d.vel = 0 ∧ d.tr = idt := by
  refine ⟨.step _ trivial (.step _ trivial (.step _ trivial (.empty _ _ _ _))), ?_⟩
  have start : ∃ d, (asleep.exec (.call 0 (.gravity true))).body 0 = some d ∧ d.sleeping = true ∧ d.disabled = true ∧ d.type = .dynamic ∧ 0 < d.mass ∧ d.gravity = true ∧
      d.vel = 0 ∧ d.tr = idt := by
    have : ((asleep.exec (.call 0 (.gravity true))).body 0).any (fun d => d.sleeping && d.disabled && decide (d.type = .dynamic) && decide (0 < d.mass) && d.gravity &&
        decide (d.vel.x = 0 ∧ d.vel.y = 0 ∧ d.vel.z = 0) && decide (d.tr.pos.x = 0 ∧ d.tr.pos.y = 0 ∧ d.tr.pos.z = 0) &&
        decide (d.tr.ori.x = 0 ∧ d.tr.ori.y = 0 ∧ d.tr.ori.z = 0 ∧ d.tr.ori.w = 1)) = true := by decide +kernel
    obtain ⟨d, hd, h⟩ := (Option.any_eq_true _ _).1 this
    simp only [Bool.and_eq_true, decide_eq_true_eq] at h
    obtain ⟨⟨⟨⟨⟨⟨⟨h1, h2⟩, h3⟩, h4⟩, h5⟩, h6⟩, h7⟩, h8⟩ := h
    exact ⟨d, hd, h1, h2, h3, h4, h5, V3.ext h6.1 h6.2.1 h6.2.2, Trans.ext (V3.ext h7.1 h7.2.1 h7.2.2) (Quat.ext h8.1 h8.2.1 h8.2.2.1 h8.2.2.2)⟩
  intro n
  have all : ∃ d, ((DW.update heavy)^[n] (asleep.exec (.call 0 (.gravity true)))).body 0 = some d ∧ d.sleeping = true ∧ d.disabled = true ∧ d.type = .dynamic ∧ 0 < d.mass ∧
      d.gravity = true ∧ d.vel = 0 ∧ d.tr = idt := by
    induction n with
    | zero => exact start
    | succ n ih =>
      rw [Function.iterate_succ_apply']
      obtain ⟨d, hd, h1, h2, h3, h4, h5, h6, h7⟩ := ih
      obtain ⟨e, he, k1, k2, k3, k4, k5, k6, k7⟩ := sleeper_stays heavy hd h1 h2 rfl
      exact ⟨e, he, k1, k2, k5.trans h3, by rw [k6]; exact h4, k7.trans h5, k3.trans h6, k4.trans h7⟩
  obtain ⟨d, hd, -, -, h⟩ := all
  exact ⟨d, hd, h⟩

/-! ### Example: a stone is thrown -/

/-- The calls that make a body and throw it. -/
def throw (c : Nat) (t : Trans K) (v : V3 K) : List (Ev K) := [.create c t, .call c (.linearVelocity v)]

theorem thrown (w : DW K) (c : Nat) (x v : V3 K) : IsPoint ((throw c ⟨x, ⟨0, 0, 0, 1⟩⟩ v).foldl Ev.run w) c ⟨x, v, 0, 1, 0, ⟨1, 1, 1⟩, true⟩ := by
  have e1 : (([.create c ⟨x, ⟨0, 0, 0, 1⟩⟩] : List (Ev K)).foldl Ev.run w).body c = some (Dyn.create ⟨x, ⟨0, 0, 0, 1⟩⟩) := by show upd w.body c _ c = _; exact upd_same _ _ _
  have h : IsPoint (([.create c ⟨x, ⟨0, 0, 0, 1⟩⟩] : List (Ev K)).foldl Ev.run w) c ⟨x, 0, 0, 1, 0, ⟨1, 1, 1⟩, true⟩ :=
    ⟨_, e1, rfl, rfl, rfl, zero_lt_one, rfl⟩
  exact point_call (o := .linearVelocity v) h trivial

/-- Body 4 is thrown while the other bodies collide as in `Spin.Tumble`. -/
noncomputable def stone : DW ℝ := (throw 4 ⟨⟨0, 2, 0⟩, ⟨0, 0, 0, 1⟩⟩ ⟨1, 5, 0⟩).foldl Ev.run Spin.Tumble.start

theorem stone_reach : DW.Reach DW.Any stone := reach_evs _ _ (reach_evs _ _ (.empty _ _ _ _))

theorem point_awake {w : DW ℝ} {s : Point ℝ} (h : IsPoint w 4 s) (hw : w.sleepOn = false) : (dyn (update Spin.Tumble.step w) 4).sleeping = false := by
  obtain ⟨d, hd, _, _, hs, _⟩ := h
  exact awake_off ⟨d, hd⟩ (by unfold dyn; rw [hd]; exact hs) hw

theorem stone_flight : Flight 4 stone ([Spin.Tumble.step, Spin.Tumble.step].map Ev.step) := by
  have a := point_awake (thrown Spin.Tumble.start 4 ⟨0, 2, 0⟩ ⟨1, 5, 0⟩) rfl
  exact ⟨⟨Spin.tumble_free, a⟩, ⟨Spin.tumble_free, point_awake (point_step Spin.Tumble.step stone_reach Spin.tumble_free (thrown _ _ _ _) a) rfl⟩, trivial⟩

/-- After two sixtieths of a second the upward velocity 5 has become 14/3. -/
example : ∃ p, IsPoint (([Spin.Tumble.step, Spin.Tumble.step].map Ev.step).foldl Ev.run stone) 4 p ∧ p.v = ⟨1, 14 / 3, 0⟩ := by
  obtain ⟨p, h, e, _⟩ := falls (dt := 1 / 60) (g := ⟨0, -10, 0⟩) stone_reach (thrown _ _ _ _) stone_flight rfl rfl rfl rfl (by
    intro i hi
    simp only [List.mem_cons, List.not_mem_nil, or_false, or_self] at hi
    subst hi
    exact ⟨rfl, rfl⟩)
  refine ⟨p, h, e.trans ?_⟩
  ext <;> norm_num

/-- The same with damping 6, set by the user: the velocity tends to -5/3. -/
noncomputable def feather : DW ℝ := stone.exec (.call 4 (.linearDamping 6))
theorem feather_reach : DW.Reach DW.Any feather := .step _ trivial stone_reach
theorem feather_point : IsPoint feather 4 ⟨⟨0, 2, 0⟩, ⟨1, 5, 0⟩, 0, 1, 6, ⟨1, 1, 1⟩, true⟩ := by
  have := point_call (o := .linearDamping 6) (thrown Spin.Tumble.start 4 ⟨0, 2, 0⟩ ⟨1, 5, 0⟩) trivial
  unfold Point.call at this
  dsimp only at this
  rw [if_pos (by norm_num)] at this
  exact this

example : ∃ p, IsPoint (([Spin.Tumble.step].map Ev.step).foldl Ev.run feather) 4 p ∧ p.v.y = -(5 / 3) + 10 / 11 * (20 / 3) := by
  obtain ⟨p, h, e, _⟩ := falls_damped (is := [Spin.Tumble.step]) (dt := 1 / 60) (g := ⟨0, -10, 0⟩) feather_reach feather_point ⟨⟨Spin.tumble_free, point_awake feather_point rfl⟩, trivial⟩ rfl rfl
    (by norm_num) (by norm_num) rfl (by
    intro i hi
    simp only [List.mem_cons, List.not_mem_nil, or_false] at hi
    subst hi
    exact ⟨rfl, rfl⟩)
  refine ⟨p, h, ?_⟩
  rw [e]
  norm_num

end Fall
end RP3D
