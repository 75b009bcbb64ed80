import Verif.Dynamics.World
import Verif.Props.Transform
import Mathlib.Tactic.NormNum
import Mathlib.Algebra.Order.Ring.Rat

/-!
Property theorems about the dynamics of bodies: C33 (static bodies), C35 (inverse masses), C55 (integration), C65 and C66 (static bodies in the
solver), C67 (mass properties).
-/

set_option linter.unusedSectionVars false

namespace RP3D
open DW

variable {K : Type} [Field K] [LinearOrder K] [IsStrictOrderedRing K]

/-! ### C33 -/

/-- **C33** A static body has zero velocity after every call. -/
theorem static_at_rest {w : DW K} (h : Reach Any w) {b : Nat} {d : Dyn K} (hb : w.body b = some d) (hs : d.type = .static) :
    d.vel = 0 ∧ d.ang = 0 := ((kept_flags Any).reach h b d hb).st hs |>.2

/-- **C33** A step leaves a static body where it is, whatever the solvers compute. -/
theorem static_not_moved {w : DW K} (h : Reach Any w) {b : Nat} {d : Dyn K} (hb : w.body b = some d) (hs : d.type = .static) (a : Args K) :
    ∃ d', (w.update a).body b = some d' ∧ d'.type = .static ∧ d'.tr = d.tr ∧ d'.comWorld = d.comWorld ∧ d'.vel = 0 ∧ d'.ang = 0 := by
  have f := ((kept_flags Any).reach h b d hb).st hs
  have m := Dyn.move_disabled a b d f.1
  exact ⟨_, update_static w a hb hs, (Dyn.move_same a b d).type.trans hs, m.2.2.1, m.2.2.2.1, m.1.trans f.2.1, m.2.1.trans f.2.2⟩

/-- **C33** Over any number of steps, with any calls on other bodies, and any force, torque, velocity or sleep call on the body itself, a
static body keeps its place. -/
inductive Keeps (b : Nat) : DW K → DW K → Prop
  | refl (w) : Keeps b w w
  | step {w w'} (o : Op K) : Keeps b w w' →
      (match o with
        | .create c _ => c ≠ b
        | .destroy c => c ≠ b
        | .call c (.setType _) => c ≠ b
        | .call c (.transform _) => c ≠ b
        | _ => True) → Keeps b w (w'.exec o)

theorem call_tr (d : Dyn K) (o : Dyn.Op K) (h : ∀ t, o ≠ .transform t) : (d.exec o).tr = d.tr := by
  have wk : (if d.sleeping then d.setIsSleeping false else d).tr = d.tr := by
    split
    · exact Dyn.setIsSleeping_tr d false
    · rfl
  cases o <;> simp only [Dyn.exec]
  case transform t => exact absurd rfl (h t)
  case setType t =>
    unfold Dyn.setType
    split
    · rfl
    · simp only [Dyn.setIsSleeping_tr]
      split_ifs <;> rfl
  case force => unfold Dyn.applyForce; split <;> [rfl; exact wk]
  case forceLocalPos => unfold Dyn.applyForceLocalPos Dyn.applyForce; split <;> [rfl; exact wk]
  case localForce => unfold Dyn.applyLocalForce Dyn.applyForce; split <;> [rfl; exact wk]
  case localForceLocalPos => unfold Dyn.applyLocalForceLocalPos Dyn.applyForceLocalPos Dyn.applyForce; split <;> [rfl; exact wk]
  case forceCenter => unfold Dyn.applyForceCenter; split <;> [rfl; exact wk]
  case localForceCenter => unfold Dyn.applyLocalForceCenter Dyn.applyForceCenter; split <;> [rfl; exact wk]
  case torque => unfold Dyn.applyTorque; split <;> [rfl; exact wk]
  case localTorque => unfold Dyn.applyLocalTorque Dyn.applyTorque; split <;> [rfl; exact wk]
  case resetForce => unfold Dyn.resetForce; split <;> rfl
  case resetTorque => unfold Dyn.resetTorque; split <;> rfl
  case setInertia => unfold Dyn.setInertia; simp only; split <;> rfl
  case inertiaFromColliders => unfold Dyn.setInertia; simp only; split <;> rfl
  case massFromColliders => unfold Dyn.storeMass; simp only; split <;> rfl
  case setMass => unfold Dyn.setMass Dyn.storeMass; simp only; split_ifs <;> rfl
  case setCenter => rfl
  case centerFromColliders => rfl
  case massProperties => unfold Dyn.updateMassProperties Dyn.storeMass Dyn.setInertia; simp only; split_ifs <;> rfl
  case linearVelocity => unfold Dyn.setLinearVelocity; simp only; split_ifs <;> first | rfl | exact Dyn.setIsSleeping_tr _ _
  case angularVelocity => unfold Dyn.setAngularVelocity; simp only; split_ifs <;> first | rfl | exact Dyn.setIsSleeping_tr _ _
  case allowed => unfold Dyn.setAllowed; simp only; split_ifs <;> first | rfl | exact Dyn.setIsSleeping_tr _ _
  case active => unfold Dyn.setIsActive; split_ifs <;> first | rfl | exact Dyn.setIsSleeping_tr _ _
  case linearDamping => unfold Dyn.setLinearDamping; split_ifs <;> rfl
  case angularDamping => unfold Dyn.setAngularDamping; split_ifs <;> rfl
  case sleep => exact Dyn.setIsSleeping_tr _ _

theorem call_type (d : Dyn K) (o : Dyn.Op K) (h : ∀ t, o ≠ .setType t) : (d.exec o).type = d.type := by
  have wk : (if d.sleeping then d.setIsSleeping false else d).type = d.type := by
    split
    · exact Dyn.setIsSleeping_type d false
    · rfl
  cases o <;> simp only [Dyn.exec]
  case setType t => exact absurd rfl (h t)
  case transform t =>
    unfold Dyn.setTransform
    simp only [Dyn.setIsSleeping_type]
    split_ifs <;> rfl
  case force => unfold Dyn.applyForce; split <;> [rfl; exact wk]
  case forceLocalPos => unfold Dyn.applyForceLocalPos Dyn.applyForce; split <;> [rfl; exact wk]
  case localForce => unfold Dyn.applyLocalForce Dyn.applyForce; split <;> [rfl; exact wk]
  case localForceLocalPos => unfold Dyn.applyLocalForceLocalPos Dyn.applyForceLocalPos Dyn.applyForce; split <;> [rfl; exact wk]
  case forceCenter => unfold Dyn.applyForceCenter; split <;> [rfl; exact wk]
  case localForceCenter => unfold Dyn.applyLocalForceCenter Dyn.applyForceCenter; split <;> [rfl; exact wk]
  case torque => unfold Dyn.applyTorque; split <;> [rfl; exact wk]
  case localTorque => unfold Dyn.applyLocalTorque Dyn.applyTorque; split <;> [rfl; exact wk]
  case resetForce => unfold Dyn.resetForce; split <;> rfl
  case resetTorque => unfold Dyn.resetTorque; split <;> rfl
  case setInertia => unfold Dyn.setInertia; simp only; split <;> rfl
  case inertiaFromColliders => unfold Dyn.setInertia; simp only; split <;> rfl
  case massFromColliders => unfold Dyn.storeMass; simp only; split <;> rfl
  case setMass => unfold Dyn.setMass Dyn.storeMass; simp only; split_ifs <;> rfl
  case setCenter => rfl
  case centerFromColliders => rfl
  case massProperties => unfold Dyn.updateMassProperties Dyn.storeMass Dyn.setInertia; simp only; split_ifs <;> rfl
  case linearVelocity => unfold Dyn.setLinearVelocity; simp only; split_ifs <;> first | rfl | exact Dyn.setIsSleeping_type _ _
  case angularVelocity => unfold Dyn.setAngularVelocity; simp only; split_ifs <;> first | rfl | exact Dyn.setIsSleeping_type _ _
  case allowed => unfold Dyn.setAllowed; simp only; split_ifs <;> first | rfl | exact Dyn.setIsSleeping_type _ _
  case active => unfold Dyn.setIsActive; split_ifs <;> first | rfl | exact Dyn.setIsSleeping_type _ _
  case linearDamping => unfold Dyn.setLinearDamping; split_ifs <;> rfl
  case angularDamping => unfold Dyn.setAngularDamping; split_ifs <;> rfl
  case sleep => exact Dyn.setIsSleeping_type _ _

/-- **C33** A static body stays in place until the user moves it, changes its type or destroys it. -/
theorem static_stays {w w' : DW K} (h : Reach Any w) {b : Nat} {d : Dyn K} (hb : w.body b = some d) (hs : d.type = .static)
    (k : Keeps b w w') : ∃ d', w'.body b = some d' ∧ d'.type = .static ∧ d'.tr = d.tr := by
  have : Reach Any w' ∧ ∃ d', w'.body b = some d' ∧ d'.type = .static ∧ d'.tr = d.tr := by
    induction k with
    | refl => exact ⟨h, d, hb, hs, rfl⟩
    | @step w1 o k ho ih =>
      obtain ⟨r, d', h1, h2, h3⟩ := ih
      refine ⟨r.step o trivial, ?_⟩
      cases o with
      | create c t =>
        refine ⟨d', ?_, h2, h3⟩
        simp only [DW.exec]
        rw [upd_ne _ _ (Ne.symm ho)]; exact h1
      | destroy c =>
        refine ⟨d', ?_, h2, h3⟩
        simp only [DW.exec]
        rw [upd_ne _ _ (Ne.symm ho)]; exact h1
      | call c o =>
        simp only [DW.exec]
        by_cases e : b = c
        · subst e
          rw [modify_same, h1]
          refine ⟨_, rfl, ?_, ?_⟩
          · rw [call_type _ _ (by rintro t rfl; exact ho rfl)]; exact h2
          · rw [call_tr _ _ (by rintro t rfl; exact ho rfl)]; exact h3
        · rw [modify_ne _ _ e]
          exact ⟨d', h1, h2, h3⟩
      | enableSleeping c =>
        simp only [DW.exec, DW.enableSleeping]
        split
        · simp only [mapAll, h1]
          exact ⟨_, rfl, by rw [Dyn.setIsSleeping_type]; exact h2, by rw [Dyn.setIsSleeping_tr]; exact h3⟩
        · exact ⟨d', h1, h2, h3⟩
      | limits l a t => exact ⟨d', h1, h2, h3⟩
      | update a =>
        obtain ⟨e, e1, e2, e3, _⟩ := static_not_moved r h1 h2 a
        exact ⟨e, e1, e2, e3.trans h3⟩
  exact this.2

/-! ### C35 -/

/-- **C35** The inverse mass and the inverse moments of inertia always follow the type, the mass and the inertia of the body. -/
theorem inverse_mass {w : DW K} (h : Reach Any w) {b : Nat} {d : Dyn K} (hb : w.body b = some d) :
    (d.type = .dynamic ∧ 0 < d.mass → d.invMass * d.mass = 1) ∧
    (¬ (d.type = .dynamic ∧ 0 < d.mass) → d.invMass = 0) ∧
    (d.type = .dynamic → ∀ f ∈ [V3.x, V3.y, V3.z], f d.inertia ≠ 0 → f d.invInertia * f d.inertia = 1) ∧
    (∀ f ∈ [V3.x, V3.y, V3.z], ¬ (d.type = .dynamic ∧ f d.inertia ≠ 0) → f d.invInertia = 0) ∧
    (d.type ≠ .dynamic → d.invInertiaW = M3.zero) := by
  have m := (kept_mass Any).reach h b d hb
  refine ⟨fun ⟨t, p⟩ => ?_, fun n => ?_, fun t f hf p => ?_, fun f hf n => ?_, m.w⟩
  · rw [m.m, if_pos t, Dyn.invOf, if_pos p]; field_simp
  · rw [m.m]
    split
    · rename_i t
      rw [Dyn.invOf, if_neg fun p => n ⟨t, p⟩]
    · rfl
  · rw [m.i, if_pos t]
    simp only [List.mem_cons, List.not_mem_nil, or_false] at hf
    rcases hf with rfl | rfl | rfl <;> simp only [Dyn.invOfTensor, Dyn.invOfI, if_pos p] <;> field_simp
  · rw [m.i]
    simp only [List.mem_cons, List.not_mem_nil, or_false] at hf
    split
    · rename_i t
      rcases hf with rfl | rfl | rfl <;> simp only [Dyn.invOfTensor, Dyn.invOfI] <;> rw [if_neg fun p => n ⟨t, p⟩]
    · rcases hf with rfl | rfl | rfl <;> rfl

/-- The action of a rotated diagonal tensor. -/
theorem worldInertia_act (o : M3 K) (i v : V3 K) : (Dyn.worldInertia o i).act v = o.act (V3.had i (o.transpose.act v)) := by
  ext <;> simp [Dyn.worldInertia, M3.mul, M3.of, M3.act, M3.transpose, V3.had] <;> ring

/-- **C35** The tensor the solvers use is the local one, turned by the orientation of the body. -/
theorem solver_tensor (w : DW K) (a : Args K) {b : Nat} {d : Dyn K} (hb : (prepared a w).body b = some d) (he : d.disabled = false)
    (v : V3 K) : d.invInertiaW.act v = d.tr.ori.matrix.act (V3.had d.invInertia (d.tr.ori.matrix.transpose.act v)) := by
  simp only [prepared, mapAll, Option.map_eq_some_iff] at hb
  obtain ⟨e, _, rfl⟩ := hb
  have k := Dyn.integrateVel_keep a.dt a.g e.updateInertia
  have s := Dyn.integrateVel_same a.dt a.g e.updateInertia
  have s' := Dyn.updateInertia_same e
  rw [k.2.2.2.2, k.2.2.1, s.invInertia, s'.invInertia]
  rw [s.disabled, s'.disabled] at he
  have : e.updateInertia = { e with invInertiaW := Dyn.worldInertia e.tr.ori.matrix e.invInertia } := by
    unfold Dyn.updateInertia
    rw [if_neg (by rw [he]; simp)]
  rw [this]
  exact worldInertia_act _ _ _

/-! ### C55 -/

/-- The velocity of the specification: the accelerations along the unlocked axes, then the damping. -/
def StepVel (dt damp : K) (v lock acc : V3 K) : V3 K :=
  ⟨(v.x + dt * (lock.x * acc.x)) / (1 + damp * dt), (v.y + dt * (lock.y * acc.y)) / (1 + damp * dt), (v.z + dt * (lock.z * acc.z)) / (1 + damp * dt)⟩

theorem integrateVel_cVel (dt : K) (g : Option (V3 K)) (d : Dyn K) (he : d.disabled = false) (G : V3 K)
    (hG : G = if d.gravity then g.getD 0 else 0) :
    (d.integrateVel dt g).cVel = StepVel dt d.linDamp d.vel d.linLock (V3.smul d.invMass d.force + V3.smul (d.mass * d.invMass) G) := by
  unfold Dyn.integrateVel
  rw [if_neg (by rw [he]; simp)]
  subst hG
  cases g with
  | none =>
    simp only [Dyn.integrateGravity, Dyn.integrateDamping, Dyn.integrateForce, StepVel]
    ext <;> simp [V3.had] <;> ring
  | some g =>
    simp only [Dyn.integrateGravity, Dyn.integrateDamping, Dyn.integrateForce, StepVel]
    by_cases e : d.gravity
    · simp only [e]
      ext <;> simp [V3.had] <;> ring
    · simp only [e]
      ext <;> simp [V3.had] <;> ring

theorem integrateVel_cAng (dt : K) (g : Option (V3 K)) (d : Dyn K) (he : d.disabled = false) :
    (d.integrateVel dt g).cAng = StepVel dt d.angDamp d.ang d.angLock (d.invInertiaW.act d.torque) := by
  unfold Dyn.integrateVel
  rw [if_neg (by rw [he]; simp)]
  have e1 : ∀ d : Dyn K, (Dyn.integrateDamping dt d).cAng = V3.smul (1 / (1 + d.angDamp * dt)) d.cAng := fun _ => rfl
  rw [e1, (Dyn.integrateGravity_keep dt g _).2.2.2.2.2.1, (Dyn.integrateGravity_same dt g _).angDamp]
  simp only [Dyn.integrateForce, StepVel]
  ext <;> simp [V3.had] <;> ring

/-- What is integrated for a body that a step finds in the world: the body itself, awake if it is in an island. -/
theorem prepared_from {w : DW K} (a : Args K) {b : Nat} {p : Dyn K} (hb : (prepared a w).body b = some p) :
    ∃ d e, w.body b = some d ∧ (e = d ∨ e = d.setIsSleeping false) ∧ p = e.updateInertia.integrateVel a.dt a.g := by
  simp only [prepared, wakeIslands, mapAll, Option.map_map, Option.map_eq_some_iff] at hb
  obtain ⟨d, hd, rfl⟩ := hb
  refine ⟨d, _, hd, ?_, rfl⟩
  split
  · exact Or.inr rfl
  · exact Or.inl rfl

/-- Waking a body changes neither its velocity nor its forces. -/
theorem wake_keeps (d : Dyn K) : (d.setIsSleeping false).vel = d.vel ∧ (d.setIsSleeping false).force = d.force ∧
    (d.setIsSleeping false).ang = d.ang ∧ (d.setIsSleeping false).torque = d.torque ∧ (d.setIsSleeping false).linLock = d.linLock ∧
    (d.setIsSleeping false).angLock = d.angLock ∧ (d.setIsSleeping false).linDamp = d.linDamp ∧
    (d.setIsSleeping false).angDamp = d.angDamp ∧ (d.setIsSleeping false).mass = d.mass ∧
    (d.setIsSleeping false).invMass = d.invMass ∧ (d.setIsSleeping false).gravity = d.gravity ∧ (d.setIsSleeping false).type = d.type ∧
    (d.setIsSleeping false).invInertia = d.invInertia := by
  rcases Dyn.setIsSleeping_cases d false with e | ⟨hf, _⟩ | ⟨_, _, _, _, e⟩
  · rw [e]; simp
  · cases hf
  · rw [e]; simp

/-- **C55** In one step the velocity of a dynamic body with a mass changes by force over mass and gravity, along the unlocked axes, then it is
damped. -/
theorem step_velocity {w : DW K} (h : Reach Any w) (a : Args K) {b : Nat} {d p : Dyn K} (hb : w.body b = some d)
    (hp : (prepared a w).body b = some p) (he : p.disabled = false) (ht : d.type = .dynamic) (hm : 0 < d.mass) :
    p.cVel = StepVel a.dt d.linDamp d.vel d.linLock (V3.smul (1 / d.mass) d.force + (if d.gravity then a.g.getD 0 else 0)) := by
  have m := (kept_mass Any).reach h b d hb
  obtain ⟨d', e, h1, h2, rfl⟩ := prepared_from a hp
  rw [hb] at h1; cases h1
  have s := Dyn.updateInertia_same e
  rw [(Dyn.integrateVel_same a.dt a.g _).disabled] at he
  rw [integrateVel_cVel a.dt a.g _ he _ rfl]
  have hu : e.updateInertia.vel = e.vel ∧ e.updateInertia.linLock = e.linLock ∧ e.updateInertia.force = e.force ∧
      e.updateInertia.gravity = e.gravity := by
    unfold Dyn.updateInertia; split <;> simp
  have hv : e.vel = d.vel ∧ e.force = d.force ∧ e.linLock = d.linLock ∧ e.linDamp = d.linDamp ∧ e.mass = d.mass ∧ e.invMass = d.invMass ∧
      e.gravity = d.gravity := by
    rcases h2 with rfl | rfl
    · simp
    · have := wake_keeps d
      tauto
  rw [s.linDamp, s.mass, s.invMass, hu.1, hu.2.1, hu.2.2.1, hu.2.2.2, hv.1, hv.2.1, hv.2.2.1, hv.2.2.2.1, hv.2.2.2.2.1, hv.2.2.2.2.2.1,
    hv.2.2.2.2.2.2]
  have hi : d.invMass = 1 / d.mass := by rw [m.m, if_pos ht, Dyn.invOf, if_pos hm]
  have h1 : d.mass * d.invMass = 1 := by rw [hi]; field_simp
  rw [h1, hi]
  congr 1
  ext <;> simp

/-- **C55** The acceleration of gravity does not depend on the mass: two dynamic bodies without force that only differ in their masses get
the same velocity. -/
theorem gravity_mass_independent {w w' : DW K} (h : Reach Any w) (h' : Reach Any w') (a : Args K) {b b' : Nat} {d d' p p' : Dyn K}
    (hb : w.body b = some d) (hb' : w'.body b' = some d') (hp : (prepared a w).body b = some p) (hp' : (prepared a w').body b' = some p')
    (he : p.disabled = false) (he' : p'.disabled = false) (ht : d.type = .dynamic) (ht' : d'.type = .dynamic)
    (hm : 0 < d.mass) (hm' : 0 < d'.mass) (hf : d.force = 0) (hf' : d'.force = 0) (hv : d'.vel = d.vel) (hd : d'.linDamp = d.linDamp)
    (hl : d'.linLock = d.linLock) (hg : d'.gravity = d.gravity) : p'.cVel = p.cVel := by
  rw [step_velocity h a hb hp he ht hm, step_velocity h' a hb' hp' he' ht' hm', hv, hd, hl, hg, hf, hf']
  congr 2
  ext <;> simp

theorem prepared_eqs {w : DW K} (a : Args K) {b : Nat} {d p : Dyn K} (hb : w.body b = some d) (hp : (prepared a w).body b = some p)
    (he : p.disabled = false) :
    p.cVel = StepVel a.dt d.linDamp d.vel d.linLock (V3.smul d.invMass d.force + V3.smul (d.mass * d.invMass) (if d.gravity then a.g.getD 0 else 0)) ∧
    p.cAng = StepVel a.dt d.angDamp d.ang d.angLock (p.invInertiaW.act d.torque) ∧ p.invInertia = d.invInertia ∧
    p.invInertiaW = Dyn.worldInertia p.tr.ori.matrix d.invInertia := by
  obtain ⟨d', e, h1, h2, rfl⟩ := prepared_from a hp
  rw [hb] at h1; cases h1
  have s := Dyn.updateInertia_same e
  rw [(Dyn.integrateVel_same a.dt a.g _).disabled] at he
  rw [integrateVel_cVel a.dt a.g _ he _ rfl, integrateVel_cAng a.dt a.g _ he]
  have hu : e.updateInertia.vel = e.vel ∧ e.updateInertia.linLock = e.linLock ∧ e.updateInertia.force = e.force ∧
      e.updateInertia.gravity = e.gravity ∧ e.updateInertia.ang = e.ang ∧ e.updateInertia.angLock = e.angLock ∧
      e.updateInertia.torque = e.torque := by
    unfold Dyn.updateInertia; split <;> simp
  have hv : e.vel = d.vel ∧ e.force = d.force ∧ e.linLock = d.linLock ∧ e.linDamp = d.linDamp ∧ e.mass = d.mass ∧ e.invMass = d.invMass ∧
      e.gravity = d.gravity ∧ e.ang = d.ang ∧ e.angLock = d.angLock ∧ e.torque = d.torque ∧ e.angDamp = d.angDamp ∧
      e.invInertia = d.invInertia := by
    rcases h2 with rfl | rfl
    · simp
    · have := wake_keeps d
      tauto
  obtain ⟨u1, u2, u3, u4, u5, u6, u7⟩ := hu
  obtain ⟨v1, v2, v3, v4, v5, v6, v7, v8, v9, v10, v11, v12⟩ := hv
  rw [s.linDamp, s.mass, s.invMass, s.angDamp, u1, u2, u3, u4, u5, u6, u7, v1, v2, v3, v4, v5, v6, v7, v8, v9, v10, v11]
  have k := Dyn.integrateVel_keep a.dt a.g e.updateInertia
  refine ⟨rfl, ?_, ?_, ?_⟩
  · rw [k.2.2.2.2]
  · rw [(Dyn.integrateVel_same a.dt a.g _).invInertia, s.invInertia, v12]
  · rw [k.2.2.2.2, k.2.2.1]
    have he' : e.disabled = false := s.disabled ▸ he
    unfold Dyn.updateInertia
    rw [if_neg (by rw [he']; simp)]
    show Dyn.worldInertia _ _ = _
    rw [v12]

theorem lengthSq_stepVel (dt damp : K) (v lock : V3 K) (h1 : 0 ≤ dt) (h2 : 0 ≤ damp) :
    V3.lengthSq (StepVel dt damp v lock 0) ≤ V3.lengthSq v := by
  have hp : 0 ≤ damp * dt := mul_nonneg h2 h1
  have h : ∀ x : K, (x / (1 + damp * dt)) * (x / (1 + damp * dt)) ≤ x * x := fun x => by
    rw [div_mul_div_comm, div_le_iff₀ (by positivity)]
    nlinarith [mul_self_nonneg x, mul_nonneg (mul_self_nonneg x) hp, mul_nonneg (mul_nonneg (mul_self_nonneg x) hp) hp]
  simp only [StepVel, V3.lengthSq, V3.zero_x, V3.zero_y, V3.zero_z, mul_zero, add_zero]
  linarith [h v.x, h v.y, h v.z]

/-- **C55** Without force, torque and gravity the integration never makes a body faster. -/
theorem no_speed_gain {w : DW K} (h : Reach Any w) (a : Args K) {b : Nat} {d p : Dyn K} (hb : w.body b = some d)
    (hp : (prepared a w).body b = some p) (he : p.disabled = false) (hdt : 0 ≤ a.dt) (hf : d.force = 0) (ht : d.torque = 0)
    (hg : a.g = none ∨ d.gravity = false) :
    V3.lengthSq p.cVel ≤ V3.lengthSq d.vel ∧ V3.lengthSq p.cAng ≤ V3.lengthSq d.ang := by
  have m := (kept_mass Any).reach h b d hb
  obtain ⟨e1, e2, -⟩ := prepared_eqs a hb hp he
  have z1 : V3.smul d.invMass d.force + V3.smul (d.mass * d.invMass) (if d.gravity then a.g.getD 0 else 0) = 0 := by
    have : (if d.gravity then a.g.getD 0 else 0) = (0 : V3 K) := by
      rcases hg with g | g
      · rw [g]; simp
      · rw [g]; simp
    rw [this, hf]
    ext <;> simp
  have z2 : p.invInertiaW.act d.torque = 0 := by
    rw [ht]; ext <;> simp [M3.act]
  rw [e1, e2, z1, z2]
  exact ⟨lengthSq_stepVel _ _ _ _ hdt m.lin, lengthSq_stepVel _ _ _ _ hdt m.ang⟩

/-- **C55** A locked axis receives no acceleration: a body at rest along it stays at rest along it. -/
theorem locked_axis {w : DW K} (a : Args K) {b : Nat} {d p : Dyn K} (hb : w.body b = some d)
    (hp : (prepared a w).body b = some p) (he : p.disabled = false) (f : V3 K → K) (hf : f ∈ [V3.x, V3.y, V3.z]) :
    (f d.linLock = 0 → f p.cVel = f d.vel / (1 + d.linDamp * a.dt)) ∧ (f d.angLock = 0 → f p.cAng = f d.ang / (1 + d.angDamp * a.dt)) := by
  obtain ⟨e1, e2, -⟩ := prepared_eqs a hb hp he
  rw [e1, e2]
  simp only [List.mem_cons, List.not_mem_nil, or_false] at hf
  rcases hf with rfl | rfl | rfl <;> constructor <;> intro h <;> simp [StepVel, h]

/-- **C35**, **C55** Static and kinematic bodies are not accelerated: whatever forces, torques and gravity act, the velocity is only damped. -/
theorem not_accelerated {w : DW K} (h : Reach Any w) (a : Args K) {b : Nat} {d p : Dyn K} (hb : w.body b = some d)
    (hp : (prepared a w).body b = some p) (he : p.disabled = false) (ht : d.type ≠ .dynamic) :
    p.cVel = V3.smul (1 / (1 + d.linDamp * a.dt)) d.vel ∧ p.cAng = V3.smul (1 / (1 + d.angDamp * a.dt)) d.ang := by
  have m := (kept_mass Any).reach h b d hb
  obtain ⟨e1, e2, _, e4⟩ := prepared_eqs a hb hp he
  have hi : d.invMass = 0 := by rw [m.m, if_neg ht]
  have hI : p.invInertiaW = M3.zero := by rw [e4, m.i, if_neg ht, Dyn.worldInertia_zero]
  rw [e1, e2, hi, hI]
  constructor
  · ext <;> simp [StepVel] <;> ring
  · ext <;> simp [StepVel, M3.act, M3.zero, M3.of] <;> ring

/-- **C55** The step of a body no contact and no joint touches, without sleeping: the new velocity moves the center of mass. -/
theorem free_flight {w : DW K} (a : Args K) {b : Nat} {d p : Dyn K} (hb : w.body b = some d)
    (hp : (prepared a w).body b = some p) (he : p.disabled = false) (hv : a.vels b = none) (hq : a.poss b = none) (ho : w.sleepOn = false) :
    ∃ d', (w.update a).body b = some d' ∧ d'.vel = p.cVel ∧ d'.ang = p.cAng ∧ d'.comWorld = d.comWorld + V3.smul a.dt p.cVel ∧
      d'.force = 0 ∧ d'.torque = 0 := by
  obtain ⟨d0, e, h1, h2, hpe⟩ := prepared_from a hp
  rw [hb] at h1; cases h1
  have hm : (moved a w).body b = some ((p.integratePos a.dt a.split).updateState a.len) := by
    simp only [moved, mapAll, hp, Option.map_some, hv, hq]
    rfl
  have hc : p.comWorld = d.comWorld := by
    rw [hpe, (Dyn.integrateVel_keep _ _ _).2.2.2.1]
    have : e.updateInertia.comWorld = e.comWorld := by unfold Dyn.updateInertia; split <;> rfl
    rw [this]
    rcases h2 with rfl | rfl
    · rfl
    · exact Dyn.setIsSleeping_comWorld _ _
  have hs : p.sVel = 0 := by
    have hq : e.updateInertia.disabled = false := by rw [hpe, (Dyn.integrateVel_same _ _ _).disabled] at he; exact he
    rw [hpe]
    unfold Dyn.integrateVel
    rw [if_neg (by rw [hq]; simp)]
    show (Dyn.integrateGravity a.dt a.g (Dyn.integrateForce a.dt e.updateInertia)).sVel = 0
    rw [(Dyn.integrateGravity_keep _ _ _).2.2.2.2.2.2.1]
    rfl
  refine ⟨((p.integratePos a.dt a.split).updateState a.len).resetForces, ?_, ?_⟩
  · unfold DW.update
    have : (moved a w).sleepOn = false := ho
    simp only [this]
    simp [mapAll, hm]
  · unfold Dyn.updateState
    rw [if_neg (by rw [(Dyn.integratePos_same _ _ _).disabled, he]; simp)]
    unfold Dyn.integratePos
    rw [if_neg (by rw [he]; simp)]
    refine ⟨rfl, rfl, ?_, rfl, rfl⟩
    show p.comWorld + V3.smul a.dt (p.cVel + V3.smul a.split p.sVel) = _
    rw [hc, hs]
    congr 2
    ext <;> simp

/-- **C55** Forces add up: the force on a body is the sum of what was applied since the last step. -/
theorem forces_add (d : Dyn K) (ht : d.type = .dynamic) (f p : V3 K) (hs : d.sleeping = false) :
    (d.exec (.force f p)).force = d.force + f ∧ (d.exec (.force f p)).torque = d.torque + V3.cross (p - d.comWorld) f ∧
    (d.exec (.forceCenter f)).force = d.force + f ∧ (d.exec (.forceCenter f)).torque = d.torque ∧
    (d.exec (.torque f)).torque = d.torque + f := by
  simp [Dyn.exec, Dyn.applyForce, Dyn.applyForceCenter, Dyn.applyTorque, ht, hs]

/-- **C55** A force on a body that sleeps wakes it and is not lost, if the body is active. -/
theorem force_wakes (d : Dyn K) (ht : d.type = .dynamic) (ha : d.active = true) (f p : V3 K) :
    (d.exec (.force f p)).sleeping = false ∧ (d.exec (.force f p)).force = d.force + f := by
  have hw : (if d.sleeping then d.setIsSleeping false else d).sleeping = false ∧
      (if d.sleeping then d.setIsSleeping false else d).force = d.force := by
    by_cases hs : d.sleeping = true
    · rw [if_pos hs]
      refine ⟨?_, (wake_keeps d).2.1⟩
      unfold Dyn.setIsSleeping
      rw [if_neg (by simp [hs]), if_neg (by simp [ht]), if_neg (by simp [ha])]
      rfl
    · rw [if_neg hs]
      exact ⟨by simpa using hs, rfl⟩
  simp only [Dyn.exec, Dyn.applyForce]
  rw [if_neg (by simp [ht])]
  exact ⟨hw.1, by show _ + f = _; rw [hw.2]⟩

end RP3D
