import Verif.Dynamics.Body

/-! What every call on a body and every step keeps. -/

namespace RP3D
namespace Dyn
variable {K : Type} [Field K] [LinearOrder K]

/-- Static bodies are disabled and at rest; other bodies are disabled only while asleep. -/
structure Flags (d : Dyn K) : Prop where
  st : d.type = .static → d.disabled = true ∧ d.vel = 0 ∧ d.ang = 0
  dis : d.type ≠ .static → d.disabled = true → d.sleeping = true

/-- The inverse mass and inertia follow the type, the mass and the inertia. -/
structure MassOk (d : Dyn K) : Prop where
  m : d.invMass = if d.type = .dynamic then invOf d.mass else 0
  i : d.invInertia = if d.type = .dynamic then invOfTensor d.inertia else 0
  w : d.type ≠ .dynamic → d.invInertiaW = M3.zero
  lin : 0 ≤ d.linDamp
  ang : 0 ≤ d.angDamp

/-- The center of mass in world space is the image of the one in local space. -/
def ComOk (d : Dyn K) : Prop := d.comWorld = d.tr.act d.comLocal

/-- `setIsSleeping` either does nothing, or puts an active body that is not static to sleep, or wakes it. -/
theorem setIsSleeping_cases (d : Dyn K) (b : Bool) :
    d.setIsSleeping b = d ∨
    (b = true ∧ d.sleeping = false ∧ d.type ≠ .static ∧ d.active = true ∧
      d.setIsSleeping b = { d with sleepTime := 0, sleeping := true, disabled := true, vel := 0, ang := 0, force := 0, torque := 0 }) ∨
    (b = false ∧ d.sleeping = true ∧ d.type ≠ .static ∧ d.active = true ∧
      d.setIsSleeping b = { d with sleepTime := 0, sleeping := false, disabled := false }) := by
  unfold setIsSleeping
  by_cases h1 : d.sleeping = b
  · rw [if_pos h1]; exact Or.inl rfl
  · rw [if_neg h1]
    by_cases h2 : d.type = .static
    · rw [if_pos h2]; exact Or.inl rfl
    · rw [if_neg h2]
      by_cases h3 : d.active
      · rw [if_neg (by simp [h3])]
        cases b
        · right; right
          refine ⟨rfl, by simpa using h1, h2, h3, rfl⟩
        · right; left
          refine ⟨rfl, by simpa using h1, h2, h3, rfl⟩
      · rw [if_pos (by simp [h3])]; exact Or.inl rfl

theorem zero_cross (v : V3 K) : V3.cross 0 v = 0 := by ext <;> simp [V3.cross]
theorem zero_add' : (0 : V3 K) + 0 = 0 := by ext <;> simp

section Flags

theorem Flags.sleep {d : Dyn K} (h : Flags d) (b : Bool) : Flags (d.setIsSleeping b) := by
  rcases setIsSleeping_cases d b with e | ⟨_, _, hs, _, e⟩ | ⟨_, _, hs, _, e⟩ <;> rw [e]
  · exact h
  · exact ⟨fun x => absurd x hs, fun _ _ => rfl⟩
  · exact ⟨fun x => absurd x hs, fun _ x => absurd x (by simp)⟩

theorem setIsSleeping_type (d : Dyn K) (b : Bool) : (d.setIsSleeping b).type = d.type := by
  rcases setIsSleeping_cases d b with e | ⟨_, _, _, _, e⟩ | ⟨_, _, _, _, e⟩ <;> rw [e]

theorem setIsSleeping_active (d : Dyn K) (b : Bool) : (d.setIsSleeping b).active = d.active := by
  rcases setIsSleeping_cases d b with e | ⟨_, _, _, _, e⟩ | ⟨_, _, _, _, e⟩ <;> rw [e]

/-- Flags only depend on these columns. -/
theorem Flags.congr {d e : Dyn K} (h : Flags d) (ht : e.type = d.type) (hd : e.disabled = d.disabled) (hs : e.sleeping = d.sleeping)
    (hv : d.type = .static → e.vel = d.vel ∧ e.ang = d.ang) : Flags e := by
  refine ⟨fun x => ?_, fun x y => ?_⟩
  · rw [ht] at x
    obtain ⟨h1, h2, h3⟩ := h.st x
    obtain ⟨v1, v2⟩ := hv x
    exact ⟨hd.trans h1, v1.trans h2, v2.trans h3⟩
  · rw [hs]; exact h.dis (ht ▸ x) (hd ▸ y)

theorem Flags.setType {d : Dyn K} (h : Flags d) (t : BType) : Flags (d.setType t) := by
  unfold Dyn.setType
  split_ifs with e1 e2 e3 e4
  · exact h
  all_goals (first | (exfalso; simp_all; done) | skip)
  · subst e2
    refine Flags.congr (d := Dyn.setIsSleeping _ false) (Flags.sleep ?_ false) rfl rfl rfl (fun _ => ⟨rfl, rfl⟩)
    exact ⟨fun _ => ⟨by simp, rfl, rfl⟩, fun x _ => absurd rfl x⟩
  · refine Flags.congr (d := Dyn.setIsSleeping _ false) (Flags.sleep ?_ false) rfl rfl rfl (fun _ => ⟨rfl, rfl⟩)
    exact ⟨fun x => absurd x e2, fun _ x => absurd x (by simp [e2])⟩
  · refine Flags.congr (d := Dyn.setIsSleeping _ false) (Flags.sleep ?_ false) rfl rfl rfl (fun _ => ⟨rfl, rfl⟩)
    exact ⟨fun x => absurd x e2, fun _ x => absurd x (by simp [e2])⟩

theorem Flags.wakeIf {d : Dyn K} (h : Flags d) : Flags (if d.sleeping then d.setIsSleeping false else d) := by
  split
  · exact h.sleep false
  · exact h

theorem Flags.setCenter {d : Dyn K} (h : Flags d) (c : V3 K) : Flags (d.setCenter c) :=
  h.congr rfl rfl rfl fun hs => by
    obtain ⟨_, hv, ha⟩ := h.st hs
    refine ⟨?_, rfl⟩
    show d.vel + V3.cross d.ang _ = d.vel
    rw [hv, ha, zero_cross, zero_add']

theorem Flags.setInertia {d : Dyn K} (h : Flags d) (i : V3 K) : Flags (d.setInertia i) := by
  unfold Dyn.setInertia
  simp only
  split <;> exact h.congr rfl rfl rfl fun _ => ⟨rfl, rfl⟩

theorem Flags.storeMass {d : Dyn K} (h : Flags d) (m : K) : Flags (d.storeMass m) := by
  unfold Dyn.storeMass
  simp only
  split <;> exact h.congr rfl rfl rfl fun _ => ⟨rfl, rfl⟩

theorem Flags.applyForce {d : Dyn K} (h : Flags d) (f p : V3 K) : Flags (d.applyForce f p) := by
  unfold Dyn.applyForce
  split
  · exact h
  · exact Flags.congr h.wakeIf rfl rfl rfl fun _ => ⟨rfl, rfl⟩

theorem Flags.applyForceCenter {d : Dyn K} (h : Flags d) (f : V3 K) : Flags (d.applyForceCenter f) := by
  unfold Dyn.applyForceCenter
  split
  · exact h
  · exact Flags.congr h.wakeIf rfl rfl rfl fun _ => ⟨rfl, rfl⟩

theorem Flags.applyTorque {d : Dyn K} (h : Flags d) (f : V3 K) : Flags (d.applyTorque f) := by
  unfold Dyn.applyTorque
  split
  · exact h
  · exact Flags.congr h.wakeIf rfl rfl rfl fun _ => ⟨rfl, rfl⟩

theorem Flags.setTransform {d : Dyn K} (h : Flags d) (t : Trans K) : Flags (d.setTransform t) := by
  unfold Dyn.setTransform
  refine Flags.congr (d := Dyn.setIsSleeping _ false) (Flags.sleep ?_ false) rfl rfl rfl fun _ => ⟨rfl, rfl⟩
  have hc : Flags { d with comWorld := t.act d.comLocal, vel := d.vel + V3.cross d.ang (t.act d.comLocal - d.comWorld) } :=
    h.congr rfl rfl rfl fun hs => by
      obtain ⟨_, hv, ha⟩ := h.st hs
      refine ⟨?_, rfl⟩
      show d.vel + V3.cross d.ang _ = d.vel
      rw [hv, ha, zero_cross, zero_add']
  simp only
  split
  · exact Flags.congr hc rfl rfl rfl fun _ => ⟨rfl, rfl⟩
  · exact hc

theorem Flags.updateMassProperties {d : Dyn K} (h : Flags d) (cs : List (MassCol K)) : Flags (d.updateMassProperties cs) := by
  unfold Dyn.updateMassProperties
  refine Flags.storeMass (Flags.setInertia ?_ _) _
  simp only
  split
  · refine h.congr rfl rfl rfl fun hs => ?_
    rename_i ht
    rw [ht] at hs; cases hs
  · exact h.congr rfl rfl rfl fun _ => ⟨rfl, rfl⟩

theorem Flags.exec {d : Dyn K} (h : Flags d) (o : Op K) : Flags (d.exec o) := by
  cases o <;> simp only [Dyn.exec]
  case setType t => exact h.setType t
  case force f p => exact h.applyForce f p
  case forceLocalPos f p => exact h.applyForce f _
  case localForce f p => exact h.applyForce _ p
  case localForceLocalPos f p => exact h.applyForce _ _
  case forceCenter f => exact h.applyForceCenter f
  case localForceCenter f => exact h.applyForceCenter _
  case torque m => exact h.applyTorque m
  case localTorque m => exact h.applyTorque _
  case resetForce => unfold Dyn.resetForce; split <;> exact h.congr rfl rfl rfl fun _ => ⟨rfl, rfl⟩
  case resetTorque => unfold Dyn.resetTorque; split <;> exact h.congr rfl rfl rfl fun _ => ⟨rfl, rfl⟩
  case setInertia i => exact h.setInertia i
  case inertiaFromColliders cs => exact h.setInertia _
  case massFromColliders cs => exact h.storeMass _
  case setMass m => unfold Dyn.setMass; split <;> [exact h; exact h.storeMass m]
  case setCenter c => exact h.setCenter c
  case centerFromColliders cs => exact h.setCenter _
  case massProperties cs => exact h.updateMassProperties cs
  case linearVelocity v =>
    unfold Dyn.setLinearVelocity
    split
    · exact h
    · rename_i ht
      have h1 : Flags { d with vel := v } := h.congr rfl rfl rfl fun x => absurd x ht
      simp only
      split
      · exact h1.sleep false
      · exact h1
  case angularVelocity v =>
    unfold Dyn.setAngularVelocity
    split
    · exact h
    · rename_i ht
      have h1 : Flags { d with ang := v } := h.congr rfl rfl rfl fun x => absurd x ht
      simp only
      split
      · exact h1.sleep false
      · exact h1
  case transform t => exact h.setTransform t
  case allowed b =>
    have h1 : Flags { d with allowed := b } := h.congr rfl rfl rfl fun _ => ⟨rfl, rfl⟩
    unfold Dyn.setAllowed
    simp only
    split
    · exact h1.sleep false
    · exact h1
  case active b =>
    unfold Dyn.setIsActive
    split
    · exact h
    · exact Flags.congr (h.sleep _) rfl rfl rfl fun _ => ⟨rfl, rfl⟩
  case linearDamping k => unfold Dyn.setLinearDamping; split <;> exact h.congr rfl rfl rfl fun _ => ⟨rfl, rfl⟩
  case angularDamping k => unfold Dyn.setAngularDamping; split <;> exact h.congr rfl rfl rfl fun _ => ⟨rfl, rfl⟩
  case gravity b => exact h.congr rfl rfl rfl fun _ => ⟨rfl, rfl⟩
  case linearLock v => exact h.congr rfl rfl rfl fun _ => ⟨rfl, rfl⟩
  case angularLock v => exact h.congr rfl rfl rfl fun _ => ⟨rfl, rfl⟩
  case sleep b => exact h.sleep b

end Flags

section Mass

/-- The masses only depend on these columns. -/
theorem MassOk.congr {d e : Dyn K} (h : MassOk d) (ht : e.type = d.type) (h1 : e.invMass = d.invMass) (h2 : e.mass = d.mass)
    (h3 : e.invInertia = d.invInertia) (h4 : e.inertia = d.inertia) (h5 : d.type ≠ .dynamic → e.invInertiaW = d.invInertiaW)
    (h6 : e.linDamp = d.linDamp) (h7 : e.angDamp = d.angDamp) : MassOk e := by
  refine ⟨?_, ?_, fun x => ?_, ?_, ?_⟩
  · rw [h1, ht, h2]; exact h.m
  · rw [h3, ht, h4]; exact h.i
  · rw [h5 (ht ▸ x)]; exact h.w (ht ▸ x)
  · rw [h6]; exact h.lin
  · rw [h7]; exact h.ang

theorem MassOk.sleep {d : Dyn K} (h : MassOk d) (b : Bool) : MassOk (d.setIsSleeping b) := by
  rcases setIsSleeping_cases d b with e | ⟨_, _, hs, _, e⟩ | ⟨_, _, hs, _, e⟩ <;> rw [e]
  · exact h
  · exact h.congr rfl rfl rfl rfl rfl (fun _ => rfl) rfl rfl
  · exact h.congr rfl rfl rfl rfl rfl (fun _ => rfl) rfl rfl

theorem MassOk.wakeIf {d : Dyn K} (h : MassOk d) : MassOk (if d.sleeping then d.setIsSleeping false else d) := by
  split
  · exact h.sleep false
  · exact h

theorem MassOk.setType {d : Dyn K} (h : MassOk d) (t : BType) : MassOk (d.setType t) := by
  unfold Dyn.setType
  split_ifs with e1 e2 e3 e4
  · exact h
  all_goals (first | (exfalso; simp_all; done) | skip)
  · subst e2
    refine MassOk.congr (d := Dyn.setIsSleeping _ false) (MassOk.sleep ?_ false) rfl rfl rfl rfl rfl (fun _ => rfl) rfl rfl
    exact ⟨rfl, rfl, fun _ => rfl, h.lin, h.ang⟩
  · refine MassOk.congr (d := Dyn.setIsSleeping _ false) (MassOk.sleep ?_ false) rfl rfl rfl rfl rfl (fun _ => rfl) rfl rfl
    rcases e4 with e4 | e4
    · exact absurd e4 e2
    · subst e4
      exact ⟨rfl, rfl, fun _ => rfl, h.lin, h.ang⟩
  · refine MassOk.congr (d := Dyn.setIsSleeping _ false) (MassOk.sleep ?_ false) rfl rfl rfl rfl rfl (fun _ => rfl) rfl rfl
    have : t = .dynamic := by
      cases t <;> simp_all
    subst this
    exact ⟨rfl, rfl, fun x => absurd rfl x, h.lin, h.ang⟩

theorem MassOk.setInertia {d : Dyn K} (h : MassOk d) (i : V3 K) : MassOk (d.setInertia i) := by
  unfold Dyn.setInertia
  simp only
  split
  · rename_i ht
    exact ⟨h.m, by simp [ht], fun x => absurd ht x, h.lin, h.ang⟩
  · rename_i ht
    refine ⟨h.m, ?_, h.w, h.lin, h.ang⟩
    have := h.i
    rw [if_neg ht] at this ⊢
    exact this

theorem MassOk.storeMass {d : Dyn K} (h : MassOk d) (m : K) : MassOk (d.storeMass m) := by
  unfold Dyn.storeMass
  simp only
  split
  · rename_i ht
    exact ⟨by simp [ht], h.i, fun x => absurd ht x, h.lin, h.ang⟩
  · rename_i ht
    refine ⟨?_, h.i, h.w, h.lin, h.ang⟩
    have := h.m
    rw [if_neg ht] at this ⊢
    exact this

theorem MassOk.exec {d : Dyn K} (h : MassOk d) (o : Op K) : MassOk (d.exec o) := by
  have frc : ∀ f p, MassOk (d.applyForce f p) := fun f p => by
    unfold Dyn.applyForce
    split
    · exact h
    · exact MassOk.congr h.wakeIf rfl rfl rfl rfl rfl (fun _ => rfl) rfl rfl
  have frcc : ∀ f, MassOk (d.applyForceCenter f) := fun f => by
    unfold Dyn.applyForceCenter
    split
    · exact h
    · exact MassOk.congr h.wakeIf rfl rfl rfl rfl rfl (fun _ => rfl) rfl rfl
  have trq : ∀ f, MassOk (d.applyTorque f) := fun f => by
    unfold Dyn.applyTorque
    split
    · exact h
    · exact MassOk.congr h.wakeIf rfl rfl rfl rfl rfl (fun _ => rfl) rfl rfl
  cases o <;> simp only [Dyn.exec]
  case setType t => exact h.setType t
  case force f p => exact frc f p
  case forceLocalPos f p => exact frc f _
  case localForce f p => exact frc _ p
  case localForceLocalPos f p => exact frc _ _
  case forceCenter f => exact frcc f
  case localForceCenter f => exact frcc _
  case torque m => exact trq m
  case localTorque m => exact trq _
  case resetForce => unfold Dyn.resetForce; split <;> exact h.congr rfl rfl rfl rfl rfl (fun _ => rfl) rfl rfl
  case resetTorque => unfold Dyn.resetTorque; split <;> exact h.congr rfl rfl rfl rfl rfl (fun _ => rfl) rfl rfl
  case setInertia i => exact h.setInertia i
  case inertiaFromColliders cs => exact h.setInertia _
  case massFromColliders cs => exact h.storeMass _
  case setMass m => unfold Dyn.setMass; split <;> [exact h; exact h.storeMass m]
  case setCenter c => exact h.congr rfl rfl rfl rfl rfl (fun _ => rfl) rfl rfl
  case centerFromColliders cs => exact h.congr rfl rfl rfl rfl rfl (fun _ => rfl) rfl rfl
  case massProperties cs =>
    unfold Dyn.updateMassProperties
    refine MassOk.storeMass (MassOk.setInertia ?_ _) _
    simp only
    split <;> exact h.congr rfl rfl rfl rfl rfl (fun _ => rfl) rfl rfl
  case linearVelocity v =>
    unfold Dyn.setLinearVelocity
    have h1 : MassOk { d with vel := v } := h.congr rfl rfl rfl rfl rfl (fun _ => rfl) rfl rfl
    simp only
    split_ifs
    · exact h
    · exact h1.sleep false
    · exact h1
  case angularVelocity v =>
    unfold Dyn.setAngularVelocity
    have h1 : MassOk { d with ang := v } := h.congr rfl rfl rfl rfl rfl (fun _ => rfl) rfl rfl
    simp only
    split_ifs
    · exact h
    · exact h1.sleep false
    · exact h1
  case transform t =>
    unfold Dyn.setTransform
    refine MassOk.congr (d := Dyn.setIsSleeping _ false) (MassOk.sleep ?_ false) rfl rfl rfl rfl rfl (fun _ => rfl) rfl rfl
    simp only
    split <;> exact h.congr rfl rfl rfl rfl rfl (fun _ => rfl) rfl rfl
  case allowed b =>
    have h1 : MassOk { d with allowed := b } := h.congr rfl rfl rfl rfl rfl (fun _ => rfl) rfl rfl
    unfold Dyn.setAllowed
    simp only
    split
    · exact h1.sleep false
    · exact h1
  case active b =>
    unfold Dyn.setIsActive
    split
    · exact h
    · exact MassOk.congr (h.sleep _) rfl rfl rfl rfl rfl (fun _ => rfl) rfl rfl
  case linearDamping k =>
    unfold Dyn.setLinearDamping
    split
    · rename_i hk
      exact ⟨h.m, h.i, h.w, hk, h.ang⟩
    · exact h
  case angularDamping k =>
    unfold Dyn.setAngularDamping
    split
    · rename_i hk
      exact ⟨h.m, h.i, h.w, h.lin, hk⟩
    · exact h
  case gravity b => exact h.congr rfl rfl rfl rfl rfl (fun _ => rfl) rfl rfl
  case linearLock v => exact h.congr rfl rfl rfl rfl rfl (fun _ => rfl) rfl rfl
  case angularLock v => exact h.congr rfl rfl rfl rfl rfl (fun _ => rfl) rfl rfl
  case sleep b => exact h.sleep b

theorem worldInertia_zero (o : M3 K) : worldInertia o 0 = M3.zero := by
  ext <;> simp [worldInertia, M3.mul, M3.of, M3.zero]

end Mass

section Com

theorem ComOk.sleep {d : Dyn K} (h : ComOk d) (b : Bool) : ComOk (d.setIsSleeping b) := by
  rcases setIsSleeping_cases d b with e | ⟨_, _, hs, _, e⟩ | ⟨_, _, hs, _, e⟩ <;> rw [e] <;> exact h

theorem ComOk.wakeIf {d : Dyn K} (h : ComOk d) : ComOk (if d.sleeping then d.setIsSleeping false else d) := by
  split
  · exact h.sleep false
  · exact h

theorem setIsSleeping_comLocal (d : Dyn K) (b : Bool) : (d.setIsSleeping b).comLocal = d.comLocal := by
  rcases setIsSleeping_cases d b with e | ⟨_, _, _, _, e⟩ | ⟨_, _, _, _, e⟩ <;> rw [e]

theorem setIsSleeping_comWorld (d : Dyn K) (b : Bool) : (d.setIsSleeping b).comWorld = d.comWorld := by
  rcases setIsSleeping_cases d b with e | ⟨_, _, _, _, e⟩ | ⟨_, _, _, _, e⟩ <;> rw [e]

theorem setIsSleeping_tr (d : Dyn K) (b : Bool) : (d.setIsSleeping b).tr = d.tr := by
  rcases setIsSleeping_cases d b with e | ⟨_, _, _, _, e⟩ | ⟨_, _, _, _, e⟩ <;> rw [e]

theorem ComOk.exec {d : Dyn K} (h : ComOk d) (o : Op K) : ComOk (d.exec o) := by
  have frc : ∀ f p, ComOk (d.applyForce f p) := fun f p => by
    unfold Dyn.applyForce
    split
    · exact h
    · exact h.wakeIf
  have frcc : ∀ f, ComOk (d.applyForceCenter f) := fun f => by
    unfold Dyn.applyForceCenter
    split
    · exact h
    · exact h.wakeIf
  have trq : ∀ f, ComOk (d.applyTorque f) := fun f => by
    unfold Dyn.applyTorque
    split
    · exact h
    · exact h.wakeIf
  have inr : ∀ {d : Dyn K}, ComOk d → ∀ i, ComOk (d.setInertia i) := fun h i => by
    unfold Dyn.setInertia
    simp only
    split <;> exact h
  have mss : ∀ {d : Dyn K}, ComOk d → ∀ i, ComOk (d.storeMass i) := fun h i => by
    unfold Dyn.storeMass
    simp only
    split <;> exact h
  cases o <;> simp only [Dyn.exec]
  case setType t =>
    unfold Dyn.setType
    split
    · exact h
    · unfold ComOk
      simp only [setIsSleeping_comWorld, setIsSleeping_comLocal, setIsSleeping_tr]
      split_ifs <;> exact h
  case force f p => exact frc f p
  case forceLocalPos f p => exact frc f _
  case localForce f p => exact frc _ p
  case localForceLocalPos f p => exact frc _ _
  case forceCenter f => exact frcc f
  case localForceCenter f => exact frcc _
  case torque m => exact trq m
  case localTorque m => exact trq _
  case resetForce => unfold Dyn.resetForce; split <;> exact h
  case resetTorque => unfold Dyn.resetTorque; split <;> exact h
  case setInertia i => exact inr h i
  case inertiaFromColliders cs => exact inr h _
  case massFromColliders cs => exact mss h _
  case setMass m => unfold Dyn.setMass; split <;> [exact h; exact mss h m]
  case setCenter c => exact rfl
  case centerFromColliders cs => exact rfl
  case massProperties cs =>
    unfold Dyn.updateMassProperties
    refine mss (inr ?_ _) _
    simp only
    split <;> exact rfl
  case linearVelocity v =>
    unfold Dyn.setLinearVelocity
    have h1 : ComOk { d with vel := v } := h
    simp only
    split_ifs
    · exact h
    · exact h1.sleep false
    · exact h1
  case angularVelocity v =>
    unfold Dyn.setAngularVelocity
    have h1 : ComOk { d with ang := v } := h
    simp only
    split_ifs
    · exact h
    · exact h1.sleep false
    · exact h1
  case transform t =>
    unfold Dyn.setTransform ComOk
    simp only [setIsSleeping_comWorld, setIsSleeping_comLocal]
    split_ifs <;> rfl
  case allowed b =>
    have h1 : ComOk { d with allowed := b } := h
    unfold Dyn.setAllowed
    simp only
    split
    · exact h1.sleep false
    · exact h1
  case active b =>
    unfold Dyn.setIsActive
    split
    · exact h
    · exact h.sleep _
  case linearDamping k => unfold Dyn.setLinearDamping; split <;> exact h
  case angularDamping k => unfold Dyn.setAngularDamping; split <;> exact h
  case gravity b => exact h
  case linearLock v => exact h
  case angularLock v => exact h
  case sleep b => exact h.sleep b

end Com

end Dyn
end RP3D
