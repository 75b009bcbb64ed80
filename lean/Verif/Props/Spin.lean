import Verif.Props.Kinematic
import Verif.Props.Dynamics
import Verif.Props.JointStepExact

/-! C141: how bodies that nothing touches turn. -/

set_option linter.unusedSectionVars false

namespace RP3D
namespace Spin
open Solver Joints SolverProps JointProps Whole
open Apart (Ev)
open Kinematic (turn turns turn_ne turn_unit told)
open Local (thread solveAll_thread solve_thread warmStart_thread Still StillJ solveMan_still warmMan_still)
variable {K : Type} [Field K] [LinearOrder K] [IsStrictOrderedRing K]

/-! ### Specification -/

/-- The angular momentum of a body about its center of mass: principal moments `I`, orientation `q`, angular velocity `ω`. -/
def momentum (I : V3 K) (q : Quat K) (ω : V3 K) : V3 K := q.rot (V3.had I (q.conj.rot ω))

/-- Twice the energy of the rotation. -/
def energy (I : V3 K) (q : Quat K) (ω : V3 K) : K := V3.dot ω (momentum I q ω)

/-- Body `c` is dynamic, awake, without angular damping; its principal moments, the torque that waits for the next step, its factors for locked axes, its angular velocity and its
orientation. -/
structure Turns (w : DW K) (c : Nat) (I τ l ω : V3 K) (q : Quat K) : Prop where
  some : ∃ d, w.body c = some d
  type : (dyn w c).type = .dynamic
  enabled : (dyn w c).disabled = false
  awake : (dyn w c).sleeping = false
  angd : (dyn w c).angDamp = 0
  inertia : (dyn w c).inertia = I
  torque : (dyn w c).torque = τ
  lock : (dyn w c).angLock = l
  ang : (dyn w c).ang = ω
  ori : (dyn w c).tr.ori = q

/-- No contact and no joint of the step is one of the body. -/
structure Free (c : Nat) (i : In K) : Prop where
  mans : ∀ X ∈ i.mans, X.b1 ≠ c ∧ X.b2 ≠ c
  joints : ∀ J ∈ joints i.pins, J.b1 ≠ c ∧ J.b2 ≠ c

/-- Calls on the body that do not change how it turns. -/
def Mild : Dyn.Op K → Prop
  | .forceCenter _ | .localForceCenter _ | .resetForce | .resetTorque | .massFromColliders _ | .setMass _ | .linearVelocity _ | .allowed _ | .linearDamping _ | .gravity _ | .linearLock _ => True
  | _ => False

/-- A history in which nothing touches the body, no torque is applied, and the body does not fall asleep. -/
def Alone (sqrt : K → K) (c : Nat) : DW K → List (Ev K) → Prop
  | _, [] => True
  | w, e :: es => (match e with
      | .step i => Free c i ∧ i.jc.sqrt = sqrt ∧ (∀ q, i.len q = sqrt q.lengthSq) ∧ (dyn (update i w) c).sleeping = false
      | .create b _ => b ≠ c
      | .destroy b => b ≠ c
      | .call b o => b ≠ c ∨ Mild o
      | _ => True) ∧ Alone sqrt c (e.run w) es

/-! ### Rotations about an axis -/

section algebra
variable {sqrt : K → K} {dt : K} {ω : V3 K} {q : Quat K}

/-- The quaternion by which a step turns a body. -/
def twist (sqrt : K → K) (dt : K) (ω : V3 K) : Quat K :=
  let s := sqrt (1 + dt / 2 * (dt / 2) * V3.dot ω ω)
  ⟨dt / 2 / s * ω.x, dt / 2 / s * ω.y, dt / 2 / s * ω.z, 1 / s⟩

theorem twist_pos (dt : K) (ω : V3 K) : 0 < 1 + dt / 2 * (dt / 2) * V3.dot ω ω := by
  have : 0 ≤ V3.dot ω ω := by unfold V3.dot; nlinarith [mul_self_nonneg ω.x, mul_self_nonneg ω.y, mul_self_nonneg ω.z]
  nlinarith [mul_nonneg (mul_self_nonneg (dt / 2)) this]

theorem turn_eq (hq : q.lengthSq = 1) : turn sqrt dt ω q = (twist sqrt dt ω).mul q := by
  have e : (q.add (((⟨ω.x, ω.y, ω.z, 0⟩ : Quat K).mul q).scale (dt / 2))).lengthSq = 1 + dt / 2 * (dt / 2) * V3.dot ω ω := by
    have : (q.add (((⟨ω.x, ω.y, ω.z, 0⟩ : Quat K).mul q).scale (dt / 2))).lengthSq = (1 + dt / 2 * (dt / 2) * V3.dot ω ω) * q.lengthSq := by
      simp only [Quat.add, Quat.scale, Quat.mul, Quat.lengthSq, V3.dot]
      ring
    rw [this, hq, mul_one]
  unfold Kinematic.turn twist
  dsimp only
  rw [e]
  generalize sqrt _ = s
  ext <;> simp only [Quat.add, Quat.scale, Quat.mul, Quat.divBy] <;> ring

theorem twist_unit (hs : IsSqrt sqrt) : (twist sqrt dt ω).lengthSq = 1 := by
  obtain ⟨h1, h2⟩ := sqrt_pos hs (twist_pos dt ω)
  unfold twist
  dsimp only
  generalize sqrt _ = s at *
  have : (⟨dt / 2 / s * ω.x, dt / 2 / s * ω.y, dt / 2 / s * ω.z, 1 / s⟩ : Quat K).lengthSq = (1 + dt / 2 * (dt / 2) * V3.dot ω ω) / (s * s) := by
    simp only [Quat.lengthSq, V3.dot]
    have := h1.ne'
    field_simp
    ring
  rw [this, ← h2, div_self (mul_ne_zero h1.ne' h1.ne')]

theorem axis_rot (a b : K) (ω : V3 K) : (⟨a * ω.x, a * ω.y, a * ω.z, b⟩ : Quat K).rot ω = V3.smul (⟨a * ω.x, a * ω.y, a * ω.z, b⟩ : Quat K).lengthSq ω := by
  unfold Quat.rot Quat.lengthSq
  ext <;> simp only [V3.smul_x, V3.smul_y, V3.smul_z] <;> ring

theorem smul_one' (v : V3 K) : V3.smul 1 v = v := by ext <;> simp

/-- The axis stays. -/
theorem twist_axis (hs : IsSqrt sqrt) : (twist sqrt dt ω).rot ω = ω := by
  have := twist_unit (dt := dt) (ω := ω) hs
  unfold twist at *
  dsimp only at *
  rw [axis_rot, this, smul_one']

theorem conj_mul_rot (p q : Quat K) (v : V3 K) : (p.mul q).conj.rot v = q.conj.rot (p.conj.rot v) := by
  rw [← rot_mul]
  congr 1
  ext <;> simp only [Quat.conj, Quat.mul] <;> ring

/-- The angular velocity, seen from the body, stays. -/
theorem turn_local (hs : IsSqrt sqrt) (hq : q.lengthSq = 1) : (turn sqrt dt ω q).conj.rot ω = q.conj.rot ω := by
  rw [turn_eq hq, conj_mul_rot]
  congr 1
  have := rot_conj (twist_unit (dt := dt) (ω := ω) hs) ω
  rwa [twist_axis hs] at this

/-- The angular momentum turns with the body. -/
theorem turn_momentum (hs : IsSqrt sqrt) (I : V3 K) (hq : q.lengthSq = 1) : momentum I (turn sqrt dt ω q) ω = (twist sqrt dt ω).rot (momentum I q ω) := by
  unfold momentum
  rw [turn_local hs hq, turn_eq hq, rot_mul]

theorem turn_energy (hs : IsSqrt sqrt) (I : V3 K) (hq : q.lengthSq = 1) : energy I (turn sqrt dt ω q) ω = energy I q ω := by
  unfold energy
  rw [turn_momentum hs I hq]
  conv_lhs => rw [← twist_axis (dt := dt) (ω := ω) hs]
  rw [twist_axis (dt := dt) (ω := ω) hs]
  have := rot_dot (twist_unit (dt := dt) (ω := ω) hs) ω (momentum I q ω)
  rwa [twist_axis hs] at this

theorem turn_size (hs : IsSqrt sqrt) (I : V3 K) (hq : q.lengthSq = 1) :
    V3.lengthSq (momentum I (turn sqrt dt ω q) ω) = V3.lengthSq (momentum I q ω) := by
  rw [turn_momentum hs I hq]
  exact rot_dot (twist_unit (dt := dt) (ω := ω) hs) _ _

/-- A vector that a rotation about `ω` leaves as it is points along `ω`. -/
theorem twist_fix (hs : IsSqrt sqrt) (hd : dt ≠ 0) (v : V3 K) : (twist sqrt dt ω).rot v = v ↔ V3.cross ω v = 0 := by
  have hu := twist_unit (dt := dt) (ω := ω) hs
  obtain ⟨h1, _⟩ := sqrt_pos hs (twist_pos dt ω)
  unfold twist at *
  dsimp only at *
  generalize sqrt _ = s at *
  have ha : dt / 2 / s ≠ 0 := div_ne_zero (div_ne_zero hd two_ne_zero) h1.ne'
  have hb : (1 : K) / s ≠ 0 := one_div_ne_zero h1.ne'
  generalize dt / 2 / s = a at *
  generalize (1 : K) / s = b at *
  have e : (⟨a * ω.x, a * ω.y, a * ω.z, b⟩ : Quat K).rot v = V3.smul (⟨a * ω.x, a * ω.y, a * ω.z, b⟩ : Quat K).lengthSq v +
      (V3.smul (2 * a * b) (V3.cross ω v) + V3.smul (2 * a * a) (V3.cross ω (V3.cross ω v))) := by
    unfold Quat.rot Quat.lengthSq
    ext <;> simp only [V3.smul_x, V3.smul_y, V3.smul_z, V3.add_x, V3.add_y, V3.add_z, V3.cross] <;> ring
  rw [e, hu, smul_one']
  constructor
  · intro h
    have h0 : V3.smul (2 * a * b) (V3.cross ω v) + V3.smul (2 * a * a) (V3.cross ω (V3.cross ω v)) = 0 := by
      have := congrArg (fun x => x - v) h
      simpa using this
    generalize V3.cross ω v = u at h0
    have hx := congrArg V3.x h0; have hy := congrArg V3.y h0; have hz := congrArg V3.z h0
    simp only [V3.add_x, V3.add_y, V3.add_z, V3.smul_x, V3.smul_y, V3.smul_z, V3.cross, V3.zero_x, V3.zero_y, V3.zero_z] at hx hy hz
    have hq : 2 * a * b * (u.x * u.x + u.y * u.y + u.z * u.z) = 0 := by linear_combination u.x * hx + u.y * hy + u.z * hz
    have h3 : u.x * u.x + u.y * u.y + u.z * u.z = 0 := (mul_eq_zero.1 hq).resolve_left (mul_ne_zero (mul_ne_zero two_ne_zero ha) hb)
    have p1 := mul_self_nonneg u.x; have p2 := mul_self_nonneg u.y; have p3 := mul_self_nonneg u.z
    ext
    · exact mul_self_eq_zero.1 (by linarith)
    · exact mul_self_eq_zero.1 (by linarith)
    · exact mul_self_eq_zero.1 (by linarith)
  · intro h
    rw [h]
    ext <;> simp [V3.cross]

/-- The engine's inverse inertia tensor gives the angular velocity back. -/
theorem inertia_momentum {I : V3 K} (hI : I.x ≠ 0 ∧ I.y ≠ 0 ∧ I.z ≠ 0) (hq : q.lengthSq = 1) (v : V3 K) :
    (Dyn.worldInertia q.matrix (Dyn.invOfTensor I)).act (momentum I q v) = v ∧ momentum I q ((Dyn.worldInertia q.matrix (Dyn.invOfTensor I)).act v) = v := by
  have i1 : ∀ u, V3.had (Dyn.invOfTensor I) (V3.had I u) = u := fun u => by
    unfold Dyn.invOfTensor Dyn.invOfI V3.had
    obtain ⟨a, b, c⟩ := hI
    ext <;> simp [a, b, c]
  have i2 : ∀ u, V3.had I (V3.had (Dyn.invOfTensor I) u) = u := fun u => by
    unfold Dyn.invOfTensor Dyn.invOfI V3.had
    obtain ⟨a, b, c⟩ := hI
    ext <;> simp [a, b, c]
  rw [worldInertia_act, worldInertia_act, matrix_act hq, matrix_act hq, transpose_rot hq, transpose_rot hq]
  unfold momentum
  rw [rot_conj hq, i1, rot_conj' hq, rot_conj hq, i2, rot_conj' hq]
  exact ⟨rfl, rfl⟩

theorem momentum_add (I : V3 K) (q : Quat K) (u v : V3 K) : momentum I q (u + v) = momentum I q u + momentum I q v := by
  unfold momentum Quat.rot V3.had
  ext <;> simp only [V3.add_x, V3.add_y, V3.add_z] <;> ring

theorem momentum_smul (I : V3 K) (q : Quat K) (k : K) (v : V3 K) : momentum I q (V3.smul k v) = V3.smul k (momentum I q v) := by
  unfold momentum Quat.rot V3.had
  ext <;> simp only [V3.smul_x, V3.smul_y, V3.smul_z] <;> ring

end algebra

/-! ### The step -/

section step
variable {w : DW K} {c : Nat} {I τ l ω : V3 K} {q : Quat K} {i : In K}

/-- A manifold of other bodies. -/
def PM (c : Nat) (M : Man K) : Prop := GoodM M ∧ M.b1 ≠ c ∧ M.b2 ≠ c

/-- A joint of other bodies. -/
def PJ (c : Nat) (J : Joint K) : Prop := J.b1 ≠ c ∧ J.b2 ≠ c

theorem PM.of_same {M N : Man K} (h : PM c M) (hs : MSame M N) : PM c N :=
  ⟨h.1.of_same hs, by rw [show N.b1 = M.b1 by rw [hs.eq]]; exact h.2.1, by rw [show N.b2 = M.b2 by rw [hs.eq]]; exact h.2.2⟩

theorem PJ.of_same {J N : Joint K} (h : PJ c J) (hs : J.Same N) : PJ c N :=
  ⟨by rw [hs.bodies.1]; exact h.1, by rw [hs.bodies.2]; exact h.2⟩

theorem PM.still {M : Man K} (h : PM c M) : Still M c := ⟨fun e => absurd e.symm h.2.1, fun e => absurd e.symm h.2.2⟩

theorem PJ.still {J : Joint K} (body : Nat → JBody K) (h : PJ c J) : StillJ body J.b1 J.b2 c := fun e => e.elim (fun e => absurd e.symm h.1) fun e => absurd e.symm h.2

theorem loop_free (cfg : Cfg K) (jc : JCfg K) (body : Nat → JBody K) : ∀ (n : Nat) (s : (Nat → Vel K) × List (Joint K) × List (Man K)), (∀ J ∈ s.2.1, PJ c J) → (∀ M ∈ s.2.2, PM c M) →
    (Joints.loop cfg jc body n s).1 c = s.1 c
  | 0, _, _, _ => rfl
  | n + 1, s, hj, hm => by
    obtain ⟨a, k1⟩ := Kinematic.thread_still (c := c) (f := fun V J => Joint.solve jc body V J) (P := PJ c) (fun V J h => Local.Joint.solve_still jc J (h.still body) V)
      (fun V J h => h.of_same (Joint.solve_ok jc body J V).1) s.2.1 s.1 hj
    obtain ⟨b, k2⟩ := Kinematic.thread_still (c := c) (f := solveMan cfg) (P := PM c) (fun V M h => solveMan_still cfg h.still h.1 V)
      (fun V M h => h.of_same (solveMan_ok cfg V M h.1).1) s.2.2 (thread (fun V J => Joint.solve jc body V J) s.1 s.2.1).1 hm
    rw [Joints.loop, solveAll_thread, solve_thread]
    exact (loop_free cfg jc body n _ k1 k2).trans (b.trans a)

/-- The velocity solvers leave the body alone. -/
theorem solved_free (h : Free c i) : (solved i w).1 c = velOf (dyn (ready i w) c) := by
  have hm : ∀ M ∈ i.mans.map (initMan { i.cc with dt := i.dt } i.jc.sqrt fun b => (jbody (dyn (ready i w) b)).toSBody), PM c M := by
    intro M hM
    obtain ⟨X, hX, rfl⟩ := List.mem_map.1 hM
    exact ⟨initMan_good _ _ _ _, (h.mans X hX).1, (h.mans X hX).2⟩
  obtain ⟨a, k⟩ := Kinematic.thread_still (c := c) (f := warmMan) (P := PM c) (fun V M h => warmMan_still h.still h.1 V)
    (fun V M h => h.of_same (warmMan_ok V M h.1).1) _ (fun b => velOf (dyn (ready i w) b)) hm
  have hj : ∀ J ∈ (joints i.pins).map (fun J => J.init { i.jc with dt := i.dt } fun b => jbody (dyn (ready i w) b)), PJ c J := by
    intro J hJ
    obtain ⟨N, hN, rfl⟩ := List.mem_map.1 hJ
    constructor
    · rw [(init_bodies _ _ N).1]; exact (h.joints N hN).1
    · rw [(init_bodies _ _ N).2]; exact (h.joints N hN).2
  have wj : ∀ (jc : JCfg K) (Js : List (Joint K)) (V : Nat → Vel K), (∀ J ∈ Js, PJ c J) → warmAll jc (fun b => jbody (dyn (ready i w) b)) Js V c = V c := by
    intro jc
    unfold warmAll
    split
    · intro Js
      induction Js with
      | nil => intro V _; rfl
      | cons J Js ih =>
        intro V hJ
        rw [List.foldl_cons, ih _ fun K hK => hJ K (List.mem_cons_of_mem _ hK)]
        exact Local.Joint.warm_still J ((hJ J List.mem_cons_self).still _) V
    · intro _ _ _; rfl
  unfold solved solveStep
  dsimp only
  rw [warmStart_thread]
  exact (loop_free _ _ _ _ _ hj k).trans ((wj _ _ _ hj).trans a)

theorem solved_pins (h : Free c i) : ∀ J ∈ (solved i w).2.1, PJ c J :=
  (step_same { i.cc with dt := i.dt } { i.jc with dt := i.dt } (fun b => jbody (dyn (ready i w) b)) (fun b => velOf (dyn (ready i w) b)) (joints i.pins) i.mans i.nv
    (P := PJ c) (Q := fun _ => True) (fun _ _ => PJ.of_same) (fun _ _ _ _ => trivial) (fun J hJ =>
      ⟨by rw [(init_bodies _ _ J).1]; exact (h.joints J hJ).1, by rw [(init_bodies _ _ J).2]; exact (h.joints J hJ).2⟩) (fun _ _ => trivial)).1

/-- The position solvers leave the body alone. -/
theorem corrected_free (h : Free c i) : (corrected i w).1 c = Pose.ofDyn (midway i w c) := by
  refine correct_others _ _ _ _ _ c fun b => ?_
  have key := solved_pins (w := w) h
  have no : ∀ a b, (pins (solved i w).2.1).Acts a b → a ≠ c ∧ b ≠ c := by
    rintro a b (⟨J, hJ, _, e1, e2⟩ | ⟨J, hJ, _, e1, e2⟩ | ⟨J, hJ, _, e1, e2⟩ | ⟨J, hJ, _, e1, e2⟩)
    all_goals
      obtain ⟨N, hN, e⟩ := List.mem_filterMap.1 hJ
      cases N <;> cases e
      rw [← e1, ← e2]
      exact key _ hN
  exact ⟨fun k => (no _ _ k).1 rfl, fun k => (no _ _ k).2 rfl⟩

theorem Turns.body (h : Turns w c I τ l ω q) : w.body c = Option.some (dyn w c) := by
  obtain ⟨d, hd⟩ := h.some
  unfold dyn
  rw [hd]; rfl

/-- The angular velocity that a step gives to the body. -/
def speed (I τ l ω : V3 K) (q : Quat K) (dt : K) : V3 K := ω + V3.had (V3.smul dt l) ((Dyn.worldInertia q.matrix (Dyn.invOfTensor I)).act τ)

/-- The integration of velocities: rotation. -/
theorem integrate_turn (d : Dyn K) (dt : K) (g : Option (V3 K)) (h1 : d.disabled = false) (h3 : d.angDamp = 0) :
    (d.integrateVel dt g).cAng = d.ang + V3.had (V3.smul dt d.angLock) (d.invInertiaW.act d.torque) ∧ (d.integrateVel dt g).sAng = 0 ∧
      (d.integrateVel dt g).tr = d.tr ∧ (d.integrateVel dt g).disabled = d.disabled ∧ (d.integrateVel dt g).angLock = d.angLock := by
  have o : ∀ a : V3 K, V3.smul (1 / (1 + 0 * dt)) a = a := fun a => by ext <;> simp
  have f : ¬ d.disabled = true := by rw [h1]; decide
  unfold Dyn.integrateVel
  rw [if_neg f]
  unfold Dyn.integrateDamping Dyn.integrateGravity Dyn.integrateForce
  cases g with
  | none =>
    dsimp only
    rw [h3, o]
    exact ⟨rfl, rfl, rfl, rfl, rfl⟩
  | some g =>
    dsimp only
    by_cases k : d.gravity = true
    · simp only [if_pos k]
      rw [h3, o]
      exact ⟨by trivial, by trivial, by trivial, by trivial, by trivial⟩
    · simp only [if_neg k]
      rw [h3, o]
      exact ⟨by trivial, by trivial, by trivial, by trivial, by trivial⟩

/-- **C141, a step.** A body that no contact and no joint touches turns with the angular velocity it had and what the torque adds to it. -/
theorem turn_step (hr : DW.Reach DW.Any w) (hf : Free c i) (hl : ∀ q, i.len q = i.jc.sqrt q.lengthSq) (h : Turns w c I τ l ω q)
    (ha : (dyn (update i w) c).sleeping = false) :
    Turns (update i w) c I 0 l (speed I τ l ω q i.dt) (turn i.jc.sqrt i.dt (speed I τ l ω q i.dt) q) := by
  have hd := h.body
  have hm := (DW.kept_mass _).reach hr c _ hd
  have e : dyn (ready i w) c = (dyn w c).updateInertia.integrateVel i.dt i.g := by
    conv_lhs => unfold dyn
    rw [Galileo.ready_some hd, Galileo.setIsSleeping_id h.awake, ite_self]
    rfl
  have r : (dyn (ready i w) c).cAng = speed I τ l ω q i.dt ∧ (dyn (ready i w) c).sAng = 0 ∧ (dyn (ready i w) c).tr.ori = q ∧ (dyn (ready i w) c).disabled = false ∧
      (dyn (ready i w) c).angLock = l := by
    have u : (dyn w c).updateInertia = { dyn w c with invInertiaW := Dyn.worldInertia q.matrix (Dyn.invOfTensor I) } := by
      unfold Dyn.updateInertia
      have eI : Dyn.worldInertia (dyn w c).tr.ori.matrix (dyn w c).invInertia = Dyn.worldInertia q.matrix (Dyn.invOfTensor I) := by
        rw [hm.i, if_pos h.type, h.inertia, h.ori]
      rw [if_neg (by rw [h.enabled]; decide), eI]
    rw [e, u]
    obtain ⟨a1, a2, a3, a4, a5⟩ := integrate_turn { dyn w c with invInertiaW := Dyn.worldInertia q.matrix (Dyn.invOfTensor I) } i.dt i.g h.enabled h.angd
    refine ⟨?_, a2, by rw [a3]; exact h.ori, a4.trans h.enabled, a5.trans h.lock⟩
    rw [a1]
    dsimp only
    rw [h.ang, h.lock, h.torque]
    rfl
  obtain ⟨r1, r2, r3, r4, r5⟩ := r
  clear e
  have hmid : (midway i w c).cOri = q.add (((⟨(speed I τ l ω q i.dt).x, (speed I τ l ω q i.dt).y, (speed I τ l ω q i.dt).z, 0⟩ : Quat K).mul q).scale (i.dt / 2)) ∧
      (midway i w c).disabled = false ∧ (midway i w c).cAng = speed I τ l ω q i.dt ∧ (midway i w c).angLock = l := by
    obtain ⟨e1, e2⟩ : (vels i w c).cAng = speed I τ l ω q i.dt ∧ (vels i w c).sAng = 0 := by
      unfold vels
      rw [solved_free hf]
      exact ⟨r1, r2⟩
    unfold midway
    generalize vels i w c = u at *
    generalize dyn (ready i w) c = p at *
    unfold Dyn.solveVel Dyn.integratePos
    dsimp only
    rw [if_neg (by rw [r4]; decide)]
    have z : ∀ k : K, V3.smul k (0 : V3 K) = 0 := fun k => by ext <;> simp
    refine ⟨?_, r4, e1, r5⟩
    dsimp only
    rw [r3, e1, e2, z, add_zero]
    have : ∀ p : Quat K, (p.scale (1 / 2)).scale i.dt = p.scale (i.dt / 2) := fun p => by
      ext <;> simp only [Quat.scale] <;> ring
    rw [this]
  obtain ⟨k2, k5, k7, lk⟩ := hmid
  have hmv : (dyn w c).move (told i w) c = ((midway i w c).solvePos (some (poss i w c))).updateState i.len := by
    have a := Galileo.moved_dyn (i := i) ⟨_, hd⟩
    rw [DW.moved_body] at a
    have b : (DW.wakeIslands (told i w) w).body c = some (dyn w c) := by
      show (w.body c).map _ = _
      rw [hd, Option.map_some]
      dsimp only
      rw [Galileo.setIsSleeping_id h.awake, ite_self]
    change ((DW.wakeIslands (told i w) w).body c).map _ = _ at a
    rw [b] at a
    exact Option.some.inj a
  have st : ((dyn w c).move (told i w) c).ang = speed I τ l ω q i.dt ∧ ((dyn w c).move (told i w) c).tr.ori = turn i.jc.sqrt i.dt (speed I τ l ω q i.dt) q ∧
      ((dyn w c).move (told i w) c).angLock = l := by
    rw [hmv]
    unfold poss
    rw [corrected_free hf]
    generalize midway i w c = m at *
    unfold Dyn.solvePos Dyn.updateState
    dsimp only
    rw [if_neg (by rw [k5]; decide)]
    refine ⟨k7, ?_, lk⟩
    show (Pose.ofDyn m).q.divBy (i.len (Pose.ofDyn m).q) = _
    rw [hl, show (Pose.ofDyn m).q = _ from k2]
    rfl
  obtain ⟨t, hu⟩ := Newton.after (told i w) hd h.awake ha
  have s := Dyn.move_same (told i w) c (dyn w c)
  have e : dyn (update i w) c = { (dyn w c).move (told i w) c with sleepTime := t, force := 0, torque := 0 } := by
    conv_lhs => unfold dyn
    show ((w.update (told i w)).body c).getD _ = _
    rw [hu]; rfl
  refine ⟨⟨_, hu⟩, ?_, ?_, ha, ?_, ?_, ?_, ?_, ?_, ?_⟩ <;> rw [e]
  · exact s.type.trans h.type
  · exact s.disabled.trans h.enabled
  · exact s.angDamp.trans h.angd
  · exact s.inertia.trans h.inertia
  · exact st.2.2
  · exact st.1
  · exact st.2.1

end step

/-! ### Histories -/

section run
variable {w : DW K} {c : Nat} {I τ l ω : V3 K} {q : Quat K}

theorem Turns.of_eq {z : DW K} (h : Turns w c I τ l ω q) (e : z.body c = w.body c) : Turns z c I τ l ω q := by
  have k : dyn z c = dyn w c := by unfold dyn; rw [e]
  obtain ⟨⟨d, hd⟩, h1, h2, h3, h4, h5, h6, h7, h8, h9⟩ := h
  refine ⟨⟨d, e.trans hd⟩, ?_, ?_, ?_, ?_, ?_, ?_, ?_, ?_, ?_⟩ <;> rw [k] <;> assumption

/-- Nothing that matters for the rotation differs. -/
structure Like (d e : Dyn K) : Prop where
  type : e.type = d.type
  disabled : e.disabled = d.disabled
  sleeping : e.sleeping = d.sleeping
  angDamp : e.angDamp = d.angDamp
  inertia : e.inertia = d.inertia
  torque : e.torque = d.torque
  angLock : e.angLock = d.angLock
  ang : e.ang = d.ang
  ori : e.tr.ori = d.tr.ori

theorem mild_like {d : Dyn K} {o : Dyn.Op K} (ho : Mild o) (h1 : d.type = .dynamic) (h2 : d.sleeping = false) (h3 : d.torque = 0) : Like d (d.exec o) := by
  have same : ∀ e : Dyn K, e = d → Like d e := fun e h => by subst h; exact ⟨rfl, rfl, rfl, rfl, rfl, rfl, rfl, rfl, rfl⟩
  have hn : ¬ d.type ≠ .dynamic := fun k => k h1
  have hns : d.type ≠ .static := by rw [h1]; decide
  have hf : ∀ f, d.applyForceCenter f = { d with force := d.force + f } := fun f => by
    unfold Dyn.applyForceCenter
    rw [if_neg hn, if_neg (by rw [h2]; decide)]
  have hm : ∀ m, Like d (d.storeMass m) := fun m => by
    unfold Dyn.storeMass
    dsimp only
    rw [if_pos h1]
    exact ⟨rfl, rfl, rfl, rfl, rfl, rfl, rfl, rfl, rfl⟩
  cases o <;> first | exact absurd ho id | skip
  case forceCenter f => show Like d (d.applyForceCenter f); rw [hf]; exact ⟨rfl, rfl, rfl, rfl, rfl, rfl, rfl, rfl, rfl⟩
  case localForceCenter f => show Like d (d.applyForceCenter _); rw [hf]; exact ⟨rfl, rfl, rfl, rfl, rfl, rfl, rfl, rfl, rfl⟩
  case resetForce => show Like d d.resetForce; unfold Dyn.resetForce; rw [if_neg hn]; exact ⟨rfl, rfl, rfl, rfl, rfl, rfl, rfl, rfl, rfl⟩
  case resetTorque => show Like d d.resetTorque; unfold Dyn.resetTorque; rw [if_neg hn]; exact ⟨rfl, rfl, rfl, rfl, rfl, h3.symm, rfl, rfl, rfl⟩
  case massFromColliders cs => exact hm _
  case setMass m =>
    show Like d (d.setMass m)
    unfold Dyn.setMass
    split
    · exact same _ rfl
    · exact hm m
  case linearVelocity v =>
    show Like d (d.setLinearVelocity v)
    unfold Dyn.setLinearVelocity
    rw [if_neg hns]
    dsimp only
    rw [Galileo.setIsSleeping_id (d := { d with vel := v }) h2, ite_self]
    exact ⟨rfl, rfl, rfl, rfl, rfl, rfl, rfl, rfl, rfl⟩
  case allowed b =>
    show Like d (d.setAllowed b)
    unfold Dyn.setAllowed
    dsimp only
    rw [Galileo.setIsSleeping_id (d := { d with allowed := b }) h2, ite_self]
    exact ⟨rfl, rfl, rfl, rfl, rfl, rfl, rfl, rfl, rfl⟩
  case linearDamping k =>
    show Like d (d.setLinearDamping k)
    unfold Dyn.setLinearDamping
    split
    · exact ⟨rfl, rfl, rfl, rfl, rfl, rfl, rfl, rfl, rfl⟩
    · exact same _ rfl
  case gravity => exact ⟨rfl, rfl, rfl, rfl, rfl, rfl, rfl, rfl, rfl⟩
  case linearLock => exact ⟨rfl, rfl, rfl, rfl, rfl, rfl, rfl, rfl, rfl⟩

theorem mild_turns {o : Dyn.Op K} (h : Turns w c I 0 l ω q) (ho : Mild o) : Turns (w.exec (.call c o)) c I 0 l ω q := by
  have hd := h.body
  have e : (w.exec (.call c o)).body c = some ((dyn w c).exec o) := by
    show (w.modify c fun d => d.exec o).body c = _
    rw [DW.modify_same, hd]; rfl
  have k : dyn (w.exec (.call c o)) c = (dyn w c).exec o := by
    conv_lhs => unfold dyn
    rw [e]; rfl
  have a := mild_like ho h.type h.awake h.torque
  refine ⟨⟨_, e⟩, ?_, ?_, ?_, ?_, ?_, ?_, ?_, ?_, ?_⟩ <;> rw [k]
  · exact a.type.trans h.type
  · exact a.disabled.trans h.enabled
  · exact a.sleeping.trans h.awake
  · exact a.angDamp.trans h.angd
  · exact a.inertia.trans h.inertia
  · exact a.torque.trans h.torque
  · exact a.angLock.trans h.lock
  · exact a.ang.trans h.ang
  · exact a.ori.trans h.ori

theorem speed_free (I l ω : V3 K) (q : Quat K) (dt : K) : speed I 0 l ω q dt = ω := by
  unfold speed M3.act V3.had
  ext <;> simp [V3.dot]

/-- An event of a history. -/
theorem run_turns {sqrt : K → K} (hs : IsSqrt sqrt) (hr : DW.Reach DW.Any w) (h : Turns w c I 0 l ω q) (hq : q.lengthSq = 1) (e : Ev K) (hf : Alone sqrt c w [e]) :
    Turns (e.run w) c I 0 l ω (turns sqrt ω q [e]) ∧ (turns sqrt ω q [e]).lengthSq = 1 := by
  cases e with
  | step i =>
    obtain ⟨⟨hc, rfl, hl, ha⟩, _⟩ := hf
    have := turn_step hr hc hl h ha
    rw [speed_free] at this
    exact ⟨this, turn_unit hs i.jc rfl i.dt ω hq⟩
  | create b t => exact ⟨h.of_eq (by show upd w.body b _ c = _; exact upd_ne _ _ (Ne.symm hf.1)), hq⟩
  | destroy b => exact ⟨h.of_eq (by show upd w.body b _ c = _; exact upd_ne _ _ (Ne.symm hf.1)), hq⟩
  | call b o =>
    refine ⟨?_, hq⟩
    by_cases hb : b = c
    · subst hb
      exact mild_turns h (hf.1.resolve_left fun k => k rfl)
    · exact h.of_eq (DW.modify_ne _ _ (Ne.symm hb))
  | enableSleeping b =>
    refine ⟨h.of_eq ?_, hq⟩
    show (DW.enableSleeping w b).body c = _
    unfold DW.enableSleeping
    cases b
    · show (w.body c).map _ = _
      rw [h.body, Option.map_some]
      exact congrArg some (Galileo.setIsSleeping_id h.awake)
    · rfl
  | limits l a t => exact ⟨h.of_eq rfl, hq⟩

theorem turns_cons (sqrt : K → K) (ω : V3 K) (q : Quat K) (e : Ev K) (es : List (Ev K)) : turns sqrt ω q (e :: es) = turns sqrt ω (turns sqrt ω q [e]) es := by
  cases e <;> rfl

/-- **C141 (angular velocity).** Over a whole history in which nothing touches the body and no torque is applied, the body turns about an axis that is fixed in space, always with the same
angular velocity. -/
theorem keeps_turning {sqrt : K → K} (hs : IsSqrt sqrt) : ∀ (es : List (Ev K)) {w : DW K} {q : Quat K}, DW.Reach DW.Any w → Turns w c I 0 l ω q → q.lengthSq = 1 → Alone sqrt c w es →
    Turns (es.foldl Ev.run w) c I 0 l ω (turns sqrt ω q es) ∧ (turns sqrt ω q es).lengthSq = 1
  | [], _, _, _, h, hq, _ => ⟨h, hq⟩
  | e :: es, w, q, hr, h, hq, hf => by
    obtain ⟨a, b⟩ := run_turns hs hr h hq e ⟨hf.1, trivial⟩
    rw [turns_cons]
    exact keeps_turning hs es (Apart.Ev.reach hr e) a b hf.2

/-- What is kept while a body turns for ever with the same angular velocity. -/
theorem turns_keep {sqrt : K → K} (hs : IsSqrt sqrt) (I ω : V3 K) : ∀ (es : List (Ev K)) (q : Quat K), q.lengthSq = 1 →
    energy I (turns sqrt ω q es) ω = energy I q ω ∧ V3.lengthSq (momentum I (turns sqrt ω q es) ω) = V3.lengthSq (momentum I q ω) ∧
      (turns sqrt ω q es).conj.rot ω = q.conj.rot ω ∧ (V3.cross ω (momentum I q ω) = 0 → momentum I (turns sqrt ω q es) ω = momentum I q ω)
  | [], q, _ => ⟨rfl, rfl, rfl, fun _ => rfl⟩
  | .step i :: es, q, hq => by
    have hu : (turn sqrt i.dt ω q).lengthSq = 1 := turn_unit hs { i.jc with sqrt := sqrt } rfl i.dt ω hq
    obtain ⟨a, b, d, e⟩ := turns_keep hs I ω es (turn sqrt i.dt ω q) hu
    have m : V3.cross ω (momentum I q ω) = 0 → momentum I (turn sqrt i.dt ω q) ω = momentum I q ω := fun h => by
      rw [turn_momentum hs I hq]
      by_cases hd : i.dt = 0
      · have : twist sqrt i.dt ω = ⟨0, 0, 0, 1⟩ := by
          obtain ⟨h1, h2⟩ := sqrt_pos hs (twist_pos i.dt ω)
          have u : sqrt (1 + i.dt / 2 * (i.dt / 2) * V3.dot ω ω) = 1 := by
            have : sqrt (1 + i.dt / 2 * (i.dt / 2) * V3.dot ω ω) * sqrt (1 + i.dt / 2 * (i.dt / 2) * V3.dot ω ω) = 1 := by rw [h2, hd]; ring
            nlinarith
          unfold twist
          dsimp only
          rw [u, hd]
          ext <;> simp
        rw [this]
        unfold Quat.rot
        ext <;> simp
      · exact (twist_fix hs hd _).2 h
    exact ⟨a.trans (turn_energy hs I hq), b.trans (turn_size hs I hq), d.trans (turn_local hs hq), fun h => (e (by rw [m h]; exact h)).trans (m h)⟩
  | .create .. :: es, q, hq => turns_keep hs I ω es q hq
  | .destroy .. :: es, q, hq => turns_keep hs I ω es q hq
  | .call .. :: es, q, hq => turns_keep hs I ω es q hq
  | .enableSleeping .. :: es, q, hq => turns_keep hs I ω es q hq
  | .limits .. :: es, q, hq => turns_keep hs I ω es q hq

/-- The angular momentum and twice the energy of the rotation of a body of the world. -/
def momentumOf (w : DW K) (c : Nat) : V3 K := momentum (dyn w c).inertia (dyn w c).tr.ori (dyn w c).ang
def energyOf (w : DW K) (c : Nat) : K := energy (dyn w c).inertia (dyn w c).tr.ori (dyn w c).ang

theorem Turns.momentum (h : Turns w c I τ l ω q) : momentumOf w c = momentum I q ω := by unfold momentumOf; rw [h.inertia, h.ori, h.ang]
theorem Turns.energy (h : Turns w c I τ l ω q) : energyOf w c = energy I q ω := by unfold energyOf; rw [h.inertia, h.ori, h.ang]

/-- **C141.** Over a whole history in which nothing touches the body and no torque is applied, the energy of the rotation, the size of the angular momentum, the angular velocity, and the axis
as seen from the body stay what they were.  -/
theorem spin_kept {sqrt : K → K} (hs : IsSqrt sqrt) (es : List (Ev K)) (hr : DW.Reach DW.Any w) (h : Turns w c I 0 l ω q) (hq : q.lengthSq = 1) (hf : Alone sqrt c w es) :
    energyOf (es.foldl Ev.run w) c = energyOf w c ∧ V3.lengthSq (momentumOf (es.foldl Ev.run w) c) = V3.lengthSq (momentumOf w c) ∧
      (dyn (es.foldl Ev.run w) c).ang = (dyn w c).ang ∧ (dyn (es.foldl Ev.run w) c).tr.ori.conj.rot (dyn w c).ang = (dyn w c).tr.ori.conj.rot (dyn w c).ang := by
  obtain ⟨a, _⟩ := keeps_turning hs es hr h hq hf
  obtain ⟨b1, b2, b3, _⟩ := turns_keep hs I ω es q hq
  rw [a.energy, a.momentum, h.energy, h.momentum, a.ang, h.ang, a.ori, h.ori]
  exact ⟨b1, b2, rfl, b3⟩

/-- **C141, partial.** The angular momentum itself stays, if the body turns about one of its principal axes or has three equal moments (the angular momentum points along the angular velocity).
Missing: other bodies, for which it fails (`momentum_kept_iff`, `momentum_lost`). -/
theorem momentum_kept_partial {sqrt : K → K} (hs : IsSqrt sqrt) (es : List (Ev K)) (hr : DW.Reach DW.Any w) (h : Turns w c I 0 l ω q) (hq : q.lengthSq = 1) (hf : Alone sqrt c w es)
    (hp : V3.cross ω (momentumOf w c) = 0) : momentumOf (es.foldl Ev.run w) c = momentumOf w c := by
  obtain ⟨a, _⟩ := keeps_turning hs es hr h hq hf
  rw [h.momentum] at hp
  rw [a.momentum, h.momentum]
  exact (turns_keep hs I ω es q hq).2.2.2 hp

/-- **C141, what does not hold.** A step keeps the angular momentum of a body that nothing touches exactly if it points along the angular velocity. -/
theorem momentum_kept_iff {i : In K} (hs : IsSqrt i.jc.sqrt) (hr : DW.Reach DW.Any w) (hf : Free c i) (hl : ∀ q, i.len q = i.jc.sqrt q.lengthSq) (h : Turns w c I 0 l ω q) (hq : q.lengthSq = 1)
    (ha : (dyn (update i w) c).sleeping = false) (hd : i.dt ≠ 0) : momentumOf (update i w) c = momentumOf w c ↔ V3.cross ω (momentumOf w c) = 0 := by
  have a := turn_step hr hf hl h ha
  rw [speed_free] at a
  rw [a.momentum, h.momentum, turn_momentum hs I hq]
  exact twist_fix hs hd _

/-- **C141 (torques).** The torque of a step is added to the angular momentum, which is then turned with the body: no axes locked, no moment zero. -/
theorem torque_law {i : In K} (hs : IsSqrt i.jc.sqrt) (hr : DW.Reach DW.Any w) (hf : Free c i) (hl : ∀ q, i.len q = i.jc.sqrt q.lengthSq) (h : Turns w c I τ ⟨1, 1, 1⟩ ω q) (hq : q.lengthSq = 1)
    (hI : I.x ≠ 0 ∧ I.y ≠ 0 ∧ I.z ≠ 0) (ha : (dyn (update i w) c).sleeping = false) :
    momentumOf (update i w) c = (twist i.jc.sqrt i.dt (dyn (update i w) c).ang).rot (momentumOf w c + V3.smul i.dt τ) ∧
      V3.lengthSq (momentumOf (update i w) c) = V3.lengthSq (momentumOf w c + V3.smul i.dt τ) := by
  have a := turn_step hr hf hl h ha
  have e : momentum I q (speed I τ ⟨1, 1, 1⟩ ω q i.dt) = momentumOf w c + V3.smul i.dt τ := by
    have o : V3.had (V3.smul i.dt (⟨1, 1, 1⟩ : V3 K)) ((Dyn.worldInertia q.matrix (Dyn.invOfTensor I)).act τ) = V3.smul i.dt ((Dyn.worldInertia q.matrix (Dyn.invOfTensor I)).act τ) := by
      ext <;> simp [V3.had]
    unfold speed
    rw [o, momentum_add, momentum_smul, (inertia_momentum hI hq τ).2, h.momentum]
  rw [a.ang, a.momentum, turn_momentum hs I hq, e]
  exact ⟨rfl, rot_dot (twist_unit hs) _ _⟩

end run
end Spin
end RP3D
