import Verif.Solver.Turned
import Verif.Props.Galileo
import Verif.Props.JointStepExact

/-! C143: the world has no preferred direction, up to locked axes and the friction of contacts that do not slide. -/

set_option linter.unusedSectionVars false

namespace RP3D
namespace Isotropy
open Solver Joints Whole Turned
open Apart (Ev)
open Galileo (Both)
variable {K : Type} [Field K] [LinearOrder K] [IsStrictOrderedRing K]

/-! ### Specification -/

/-- A body of the turned world. The constrained poses, which a step overwrites before it reads them, may differ. -/
def Sim (g : Quat K) (d e : Dyn K) : Prop :=
  ∃ M p o, e = { d with
      vel := g.rot d.vel, ang := g.rot d.ang, force := g.rot d.force, torque := g.rot d.torque, comWorld := g.rot d.comWorld, tr := ⟨g.rot d.tr.pos, g.mul d.tr.ori⟩
      cVel := g.rot d.cVel, cAng := g.rot d.cAng, sVel := g.rot d.sVel, sAng := g.rot d.sAng, invInertiaW := M, cPos := p, cOri := o } ∧
    Conj g d.invInertiaW M ∧ (d.linLock = ⟨1, 1, 1⟩ ∧ d.angLock = ⟨1, 1, 1⟩) ∧ d.tr.ori.lengthSq = 1

/-- The turned world. -/
structure SimW (g : Quat K) (w z : DW K) : Prop where
  body : ∀ b, Both (Sim g) (w.body b) (z.body b)
  on : z.sleepOn = w.sleepOn
  limL : z.limL = w.limL
  limA : z.limA = w.limA
  before : z.before = w.before

/-- The input of a step of the turned world: gravity and the contacts are turned. -/
def turnIn (g : Quat K) (i : In K) : In K := { i with g := i.g.map g.rot, mans := i.mans.map (turnXM g) }

/-- The call in the turned world: vectors and points of the world are turned, those of the body are not. -/
def turnOp (g : Quat K) : Dyn.Op K → Dyn.Op K
  | .force f p => .force (g.rot f) (g.rot p)
  | .forceLocalPos f p => .forceLocalPos (g.rot f) p
  | .localForce f p => .localForce f (g.rot p)
  | .forceCenter f => .forceCenter (g.rot f)
  | .torque m => .torque (g.rot m)
  | .linearVelocity v => .linearVelocity (g.rot v)
  | .angularVelocity v => .angularVelocity (g.rot v)
  | .transform T => .transform ⟨g.rot T.pos, g.mul T.ori⟩
  | o => o

/-- The event in the turned world. -/
def turnEv (g : Quat K) : Ev K → Ev K
  | .create b T => .create b ⟨g.rot T.pos, g.mul T.ori⟩
  | .call b o => .call b (turnOp g o)
  | .step i => .step (turnIn g i)
  | e => e

/-- Locks refer to the axes of the world; orientations are unit quaternions. -/
def Fine : Dyn.Op K → Prop
  | .linearLock v => v = ⟨1, 1, 1⟩
  | .angularLock v => v = ⟨1, 1, 1⟩
  | .transform T => T.ori.lengthSq = 1
  | _ => True

/-- A step without joints in which every contact is without friction or between sliding bodies; the length of a quaternion is its length. -/
structure Clear (i : In K) (w : DW K) : Prop where
  pins : i.pins = ⟨[], [], [], []⟩
  mans : ∀ X ∈ i.mans, Plain i.cc i.jc.sqrt (fun b => (jbody (dyn w b)).toSBody) X
  len : ∀ q, 0 ≤ i.len q ∧ i.len q * i.len q = q.lengthSq

def Fair : DW K → List (Ev K) → Prop
  | _, [] => True
  | w, e :: es => (match e with
      | .step i => Clear i w
      | .create _ T => T.ori.lengthSq = 1
      | .call _ o => Fine o
      | _ => True) ∧ Fair (e.run w) es

/-! ### Calls -/

section calls
variable {g : Quat K} (hg : g.lengthSq = 1) {d e : Dyn K}

theorem act_turn (T : Trans K) (x : V3 K) : (⟨g.rot T.pos, g.mul T.ori⟩ : Trans K).act x = g.rot (T.act x) := by
  unfold Trans.act
  dsimp only
  rw [rot_mul, Turned.rot_add]

theorem conj_zero (g : Quat K) : Conj g M3.zero M3.zero := by
  intro x
  rw [show ∀ v : V3 K, M3.zero.act v = 0 from fun v => by ext <;> simp [M3.act, M3.zero, M3.of], show ∀ v : V3 K, M3.zero.act v = 0 from fun v => by ext <;> simp [M3.act, M3.zero, M3.of], rot_zero]

theorem conj_one (g : Quat K) : Conj g M3.one M3.one := by
  intro x
  rw [show ∀ v : V3 K, M3.one.act v = v from fun v => by ext <;> simp [M3.act, M3.one, M3.of], show ∀ v : V3 K, M3.one.act v = v from fun v => by ext <;> simp [M3.act, M3.one, M3.of]]

theorem Sim.type (h : Sim g d e) : e.type = d.type := by obtain ⟨M, p, o, rfl, _⟩ := h; rfl
theorem Sim.sleeping (h : Sim g d e) : e.sleeping = d.sleeping := by obtain ⟨M, p, o, rfl, _⟩ := h; rfl
theorem Sim.com (h : Sim g d e) : e.comWorld = g.rot d.comWorld := by obtain ⟨M, p, o, rfl, _⟩ := h; rfl
theorem Sim.ori (h : Sim g d e) (x : V3 K) : e.tr.ori.rot x = g.rot (d.tr.ori.rot x) := by obtain ⟨M, p, o, rfl, _⟩ := h; exact rot_mul _ _ _
theorem Sim.act (h : Sim g d e) (x : V3 K) : e.tr.act x = g.rot (d.tr.act x) := by obtain ⟨M, p, o, rfl, _⟩ := h; exact act_turn _ _
theorem Sim.local (h : Sim g d e) : e.comLocal = d.comLocal := by obtain ⟨M, p, o, rfl, _⟩ := h; rfl

theorem Sim.sleep (h : Sim g d e) (b : Bool) : Sim g (d.setIsSleeping b) (e.setIsSleeping b) := by
  obtain ⟨M, p, o, rfl, h1, h2, h3⟩ := h
  unfold Dyn.setIsSleeping
  dsimp only
  split_ifs with k1 k2 k3 k4
  · exact ⟨M, p, o, rfl, h1, h2, h3⟩
  · exact ⟨M, p, o, rfl, h1, h2, h3⟩
  · exact ⟨M, p, o, rfl, h1, h2, h3⟩
  · exact ⟨M, p, o, by simp only [rot_zero], h1, h2, h3⟩
  · exact ⟨M, p, o, rfl, h1, h2, h3⟩

theorem Sim.wakeIf (h : Sim g d e) : Sim g (if d.sleeping then d.setIsSleeping false else d) (if e.sleeping then e.setIsSleeping false else e) := by
  rw [h.sleeping]
  split
  · exact h.sleep false
  · exact h

theorem Sim.push (h : Sim g d e) (f m : V3 K) :
    Sim g { d with force := d.force + f, torque := d.torque + m } { e with force := e.force + g.rot f, torque := e.torque + g.rot m } := by
  obtain ⟨M, p, o, rfl, h1, h2, h3⟩ := h
  exact ⟨M, p, o, by simp only [Turned.rot_add], h1, h2, h3⟩

theorem Sim.applyForceCenter (h : Sim g d e) (f : V3 K) : Sim g (d.applyForceCenter f) (e.applyForceCenter (g.rot f)) := by
  unfold Dyn.applyForceCenter
  by_cases k : d.type ≠ .dynamic
  · rw [if_pos k, if_pos (by rw [h.type]; exact k)]; exact h
  · have k' := k
    rw [← h.type] at k'
    rw [if_neg k, if_neg k']
    obtain ⟨M, p, o, q, h1, h2, h3⟩ := h.wakeIf
    dsimp only
    rw [q]
    exact ⟨M, p, o, by simp only [Turned.rot_add], h1, h2, h3⟩

theorem Sim.applyTorque (h : Sim g d e) (m : V3 K) : Sim g (d.applyTorque m) (e.applyTorque (g.rot m)) := by
  unfold Dyn.applyTorque
  by_cases k : d.type ≠ .dynamic
  · rw [if_pos k, if_pos (by rw [h.type]; exact k)]; exact h
  · have k' := k
    rw [← h.type] at k'
    rw [if_neg k, if_neg k']
    obtain ⟨M, p, o, q, h1, h2, h3⟩ := h.wakeIf
    dsimp only
    rw [q]
    exact ⟨M, p, o, by simp only [Turned.rot_add], h1, h2, h3⟩

theorem Sim.setInertia (h : Sim g d e) (x : V3 K) : Sim g (d.setInertia x) (e.setInertia x) := by
  obtain ⟨M, p, o, rfl, h1, h2, h3⟩ := h
  unfold Dyn.setInertia
  dsimp only
  split_ifs <;> exact ⟨M, p, o, rfl, h1, h2, h3⟩

theorem Sim.storeMass (h : Sim g d e) (x : K) : Sim g (d.storeMass x) (e.storeMass x) := by
  obtain ⟨M, p, o, rfl, h1, h2, h3⟩ := h
  unfold Dyn.storeMass
  dsimp only
  split_ifs <;> exact ⟨M, p, o, rfl, h1, h2, h3⟩

theorem Sim.setAllowed (h : Sim g d e) (b : Bool) : Sim g (d.setAllowed b) (e.setAllowed b) := by
  have k : Sim g { d with allowed := b } { e with allowed := b } := by
    obtain ⟨M, p, o, rfl, h1, h2, h3⟩ := h
    exact ⟨M, p, o, rfl, h1, h2, h3⟩
  unfold Dyn.setAllowed
  dsimp only
  split_ifs
  · exact k.sleep false
  · exact k

theorem Sim.setIsActive (h : Sim g d e) (b : Bool) : Sim g (d.setIsActive b) (e.setIsActive b) := by
  have ea : e.active = d.active := by obtain ⟨M, p, o, rfl, _⟩ := h; rfl
  unfold Dyn.setIsActive
  rw [ea]
  split
  · exact h
  · obtain ⟨M, p, o, k, h1, h2, h3⟩ := h.sleep (!b)
    rw [k]
    exact ⟨M, p, o, rfl, h1, h2, h3⟩

theorem Sim.setType (h : Sim g d e) (s : BType) : Sim g (d.setType s) (e.setType s) := by
  unfold Dyn.setType
  by_cases k : d.type = s
  · rw [if_pos k, if_pos (h.type.trans k)]; exact h
  · have k' := k
    rw [← h.type] at k'
    rw [if_neg k, if_neg k']
    dsimp only
    have q : Sim g { (if s = .static ∨ s = .kinematic then (if s = .static then ({ d with type := s } : Dyn K).setTypeStatic else { d with type := s }).setTypeFixed
          else (if s = .static then ({ d with type := s } : Dyn K).setTypeStatic else { d with type := s }).setTypeDynamic) with disabled := decide (s = .static) }
        { (if s = .static ∨ s = .kinematic then (if s = .static then ({ e with type := s } : Dyn K).setTypeStatic else { e with type := s }).setTypeFixed
          else (if s = .static then ({ e with type := s } : Dyn K).setTypeStatic else { e with type := s }).setTypeDynamic) with disabled := decide (s = .static) } := by
      obtain ⟨M, p, o, rfl, h1, h2, h3⟩ := h
      cases s with
      | static => exact ⟨M3.zero, g.rot d.tr.pos, g.mul d.tr.ori, by simp [Dyn.setTypeStatic, Dyn.setTypeFixed, rot_zero], conj_zero g, h2, h3⟩
      | kinematic => exact ⟨_, _, _, rfl, conj_zero g, h2, h3⟩
      | dynamic => exact ⟨_, _, _, rfl, h1, h2, h3⟩
    obtain ⟨M, p, o, k, h1, h2, h3⟩ := q.sleep false
    rw [k]
    exact ⟨M, p, o, by simp only [rot_zero], h1, h2, h3⟩

include hg

theorem Sim.applyForce (h : Sim g d e) (f p : V3 K) : Sim g (d.applyForce f p) (e.applyForce (g.rot f) (g.rot p)) := by
  unfold Dyn.applyForce
  by_cases k : d.type ≠ .dynamic
  · rw [if_pos k, if_pos (by rw [h.type]; exact k)]; exact h
  · have k' := k
    rw [← h.type] at k'
    rw [if_neg k, if_neg k']
    dsimp only
    have q := h.wakeIf
    generalize (if d.sleeping then d.setIsSleeping false else d) = x at q ⊢
    generalize (if e.sleeping then e.setIsSleeping false else e) = y at q ⊢
    have k : V3.cross (g.rot p - y.comWorld) (g.rot f) = g.rot (V3.cross (p - x.comWorld) f) := by rw [q.com, ← RoundProps.rot_sub, rot_cross hg]
    rw [k]
    exact q.push _ _

theorem shift_turn (vel ang a c : V3 K) : g.rot vel + V3.cross (g.rot ang) (g.rot a - g.rot c) = g.rot (vel + V3.cross ang (a - c)) := by
  rw [← RoundProps.rot_sub, rot_cross hg, Turned.rot_add]

theorem Sim.setCenter (h : Sim g d e) (x : V3 K) : Sim g (d.setCenter x) (e.setCenter x) := by
  obtain ⟨M, p, o, rfl, h1, h2, h3⟩ := h
  unfold Dyn.setCenter
  dsimp only
  rw [act_turn, shift_turn hg]
  exact ⟨M, p, o, rfl, h1, h2, h3⟩

theorem Sim.massProperties (h : Sim g d e) (cs : List (Dyn.MassCol K)) : Sim g (d.updateMassProperties cs) (e.updateMassProperties cs) := by
  unfold Dyn.updateMassProperties
  dsimp only
  refine Sim.storeMass (Sim.setInertia ?_ _) _
  obtain ⟨M, p, o, rfl, h1, h2, h3⟩ := h
  dsimp only
  rw [act_turn, shift_turn hg]
  split_ifs <;> exact ⟨M, p, o, rfl, h1, h2, h3⟩

theorem Sim.setLinearVelocity (h : Sim g d e) (v : V3 K) : Sim g (d.setLinearVelocity v) (e.setLinearVelocity (g.rot v)) := by
  unfold Dyn.setLinearVelocity
  by_cases k : d.type = .static
  · rw [if_pos k, if_pos (h.type.trans k)]; exact h
  · have k' := k
    rw [← h.type] at k'
    rw [if_neg k, if_neg k', len_turn hg]
    have q : Sim g { d with vel := v } { e with vel := g.rot v } := by
      obtain ⟨M, p, o, rfl, h1, h2, h3⟩ := h
      exact ⟨M, p, o, rfl, h1, h2, h3⟩
    dsimp only
    split
    · exact q.sleep false
    · exact q

theorem Sim.setAngularVelocity (h : Sim g d e) (v : V3 K) : Sim g (d.setAngularVelocity v) (e.setAngularVelocity (g.rot v)) := by
  unfold Dyn.setAngularVelocity
  by_cases k : d.type = .static
  · rw [if_pos k, if_pos (h.type.trans k)]; exact h
  · have k' := k
    rw [← h.type] at k'
    rw [if_neg k, if_neg k', len_turn hg]
    have q : Sim g { d with ang := v } { e with ang := g.rot v } := by
      obtain ⟨M, p, o, rfl, h1, h2, h3⟩ := h
      exact ⟨M, p, o, rfl, h1, h2, h3⟩
    dsimp only
    split
    · exact q.sleep false
    · exact q

theorem Sim.setTransform (h : Sim g d e) (T : Trans K) (hT : T.ori.lengthSq = 1) : Sim g (d.setTransform T) (e.setTransform ⟨g.rot T.pos, g.mul T.ori⟩) := by
  have q : Sim g
      (let d2 := { d with comWorld := T.act d.comLocal, vel := d.vel + V3.cross d.ang (T.act d.comLocal - d.comWorld) }
       if d.type = .static then { d2 with cPos := T.pos, cOri := T.ori } else d2)
      (let d2 := { e with comWorld := (⟨g.rot T.pos, g.mul T.ori⟩ : Trans K).act e.comLocal,
                          vel := e.vel + V3.cross e.ang ((⟨g.rot T.pos, g.mul T.ori⟩ : Trans K).act e.comLocal - e.comWorld) }
       if e.type = .static then { d2 with cPos := g.rot T.pos, cOri := g.mul T.ori } else d2) := by
    obtain ⟨M, p, o, rfl, h1, h2, h3⟩ := h
    dsimp only
    rw [act_turn, shift_turn hg]
    split_ifs with k
    · exact ⟨M, _, _, rfl, h1, h2, h3⟩
    · exact ⟨M, p, o, rfl, h1, h2, h3⟩
  obtain ⟨M, p, o, k, h1, h2, h3⟩ := q.sleep false
  unfold Dyn.setTransform
  dsimp only at k ⊢
  rw [k]
  exact ⟨M, p, o, rfl, h1, h2, hT⟩

/-- **Calls.** A call on a body and the call in the turned world. -/
theorem Sim.exec (h : Sim g d e) (o : Dyn.Op K) (ho : Fine o) : Sim g (d.exec o) (e.exec (turnOp g o)) := by
  cases o with
  | setType s => exact h.setType s
  | force f p => exact h.applyForce hg f p
  | forceLocalPos f p =>
    show Sim g (d.applyForce f (d.tr.act p)) (e.applyForce (g.rot f) (e.tr.act p))
    rw [h.act]; exact h.applyForce hg _ _
  | localForce f p =>
    show Sim g (d.applyForce (d.tr.ori.rot f) p) (e.applyForce (e.tr.ori.rot f) (g.rot p))
    rw [h.ori]; exact h.applyForce hg _ _
  | localForceLocalPos f p =>
    show Sim g (d.applyForce (d.tr.ori.rot f) (d.tr.act p)) (e.applyForce (e.tr.ori.rot f) (e.tr.act p))
    rw [h.ori, h.act]; exact h.applyForce hg _ _
  | forceCenter f => exact h.applyForceCenter f
  | localForceCenter f =>
    show Sim g (d.applyForceCenter (d.tr.ori.rot f)) (e.applyForceCenter (e.tr.ori.rot f))
    rw [h.ori]; exact h.applyForceCenter _
  | torque m => exact h.applyTorque m
  | localTorque m =>
    show Sim g (d.applyTorque (d.tr.ori.rot m)) (e.applyTorque (e.tr.ori.rot m))
    rw [h.ori]; exact h.applyTorque _
  | resetForce =>
    obtain ⟨M, p, o, rfl, h1, h2, h3⟩ := h
    show Sim g (Dyn.resetForce _) (Dyn.resetForce _)
    unfold Dyn.resetForce
    dsimp only
    split_ifs
    · exact ⟨M, p, o, rfl, h1, h2, h3⟩
    · exact ⟨M, p, o, by simp only [rot_zero], h1, h2, h3⟩
  | resetTorque =>
    obtain ⟨M, p, o, rfl, h1, h2, h3⟩ := h
    show Sim g (Dyn.resetTorque _) (Dyn.resetTorque _)
    unfold Dyn.resetTorque
    dsimp only
    split_ifs
    · exact ⟨M, p, o, rfl, h1, h2, h3⟩
    · exact ⟨M, p, o, by simp only [rot_zero], h1, h2, h3⟩
  | setInertia i => exact h.setInertia i
  | inertiaFromColliders cs =>
    show Sim g (d.setInertia (Dyn.computeInertia d.comLocal cs)) (e.setInertia (Dyn.computeInertia e.comLocal cs))
    rw [h.local]; exact h.setInertia _
  | massFromColliders cs => exact h.storeMass _
  | setMass m =>
    show Sim g (d.setMass m) (e.setMass m)
    unfold Dyn.setMass
    split_ifs
    · exact h
    · exact h.storeMass m
  | setCenter c => exact h.setCenter hg c
  | centerFromColliders cs => exact h.setCenter hg _
  | massProperties cs => exact h.massProperties hg cs
  | linearVelocity v => exact h.setLinearVelocity hg v
  | angularVelocity v => exact h.setAngularVelocity hg v
  | transform T => exact h.setTransform hg T ho
  | allowed b => exact h.setAllowed b
  | active b => exact h.setIsActive b
  | linearDamping k =>
    obtain ⟨M, p, o, rfl, h1, h2, h3⟩ := h
    show Sim g (Dyn.setLinearDamping _ _) (Dyn.setLinearDamping _ _)
    unfold Dyn.setLinearDamping
    split_ifs <;> exact ⟨M, p, o, rfl, h1, h2, h3⟩
  | angularDamping k =>
    obtain ⟨M, p, o, rfl, h1, h2, h3⟩ := h
    show Sim g (Dyn.setAngularDamping _ _) (Dyn.setAngularDamping _ _)
    unfold Dyn.setAngularDamping
    split_ifs <;> exact ⟨M, p, o, rfl, h1, h2, h3⟩
  | gravity b => obtain ⟨M, p, o, rfl, h1, h2, h3⟩ := h; exact ⟨M, p, o, rfl, h1, h2, h3⟩
  | linearLock v => obtain ⟨M, p, o, rfl, h1, h2, h3⟩ := h; exact ⟨M, p, o, rfl, h1, ⟨ho, h2.2⟩, h3⟩
  | angularLock v => obtain ⟨M, p, o, rfl, h1, h2, h3⟩ := h; exact ⟨M, p, o, rfl, h1, ⟨h2.1, ho⟩, h3⟩
  | sleep b => exact h.sleep b

end calls

/-! ### Worlds -/

section worlds
variable {g : Quat K} (hg : g.lengthSq = 1) {w z : DW K}

theorem SimW.mapAll (h : SimW g w z) {f f' : Nat → Dyn K → Dyn K} (k : ∀ b d e, Sim g d e → Sim g (f b d) (f' b e)) : SimW g (w.mapAll f) (z.mapAll f') :=
  ⟨fun b => (h.body b).map (k b), h.on, h.limL, h.limA, h.before⟩

theorem SimW.modify (h : SimW g w z) (b : Nat) {f f' : Dyn K → Dyn K} (k : ∀ d e, Sim g d e → Sim g (f d) (f' e)) : SimW g (w.modify b f) (z.modify b f') := by
  refine ⟨fun c => ?_, h.on, h.limL, h.limA, h.before⟩
  by_cases e : c = b
  · subst e
    rw [DW.modify_same, DW.modify_same]
    exact (h.body c).map k
  · rw [DW.modify_ne _ _ e, DW.modify_ne _ _ e]
    exact h.body c

theorem SimW.set (h : SimW g w z) (b : Nat) {x y : Option (Dyn K)} (k : Both (Sim g) x y) : SimW g { w with body := upd w.body b x } { z with body := upd z.body b y } := by
  refine ⟨fun c => ?_, h.on, h.limL, h.limA, h.before⟩
  show Both _ (upd w.body b x c) (upd z.body b y c)
  by_cases e : c = b
  · subst e; rw [upd_same, upd_same]; exact k
  · rw [upd_ne _ _ e, upd_ne _ _ e]; exact h.body c

theorem nod_turn : ∀ (l : List Nat) {w z : DW K}, SimW g w z →
    SimW g (l.foldl (fun w b => w.modify b fun d => d.setIsSleeping true) w) (l.foldl (fun w b => w.modify b fun d => d.setIsSleeping true) z)
  | [], _, _, h => h
  | b :: l, _, _, h => nod_turn l (h.modify b fun _ _ k => k.sleep true)

include hg

theorem tick_turn (add : K → K → K) (dt : K) {s r : DW K × K} (h : SimW g s.1 r.1) (hm : r.2 = s.2) (b : Nat) :
    SimW g (DW.tick add dt s b).1 (DW.tick add dt r b).1 ∧ (DW.tick add dt r b).2 = (DW.tick add dt s b).2 := by
  unfold DW.tick
  cases hd : s.1.body b with
  | none => rw [(h.body b).none hd]; exact ⟨h, hm⟩
  | some d =>
    obtain ⟨e, he, q⟩ := (h.body b).some hd
    rw [he]
    have ha : r.1.atRest e = s.1.atRest d := by
      obtain ⟨M, p, o, rfl, _⟩ := q
      unfold DW.atRest
      rw [h.limL, h.limA]
      dsimp only
      rw [len_turn hg, len_turn hg]
    have hs : e.sleepTime = d.sleepTime := by obtain ⟨M, p, o, rfl, _⟩ := q; rfl
    have ht : ∀ x (d e : Dyn K), Sim g d e → Sim g { d with sleepTime := x } { e with sleepTime := x } := by
      rintro x d e ⟨M, p, o, rfl, h1, h2, h3⟩
      exact ⟨M, p, o, rfl, h1, h2, h3⟩
    dsimp only
    rw [ha, q.type, hs, hm]
    split
    · exact ⟨h, hm⟩
    · split
      · exact ⟨h.modify b (ht _), rfl⟩
      · exact ⟨h.modify b (ht _), rfl⟩

theorem ticks_turn (add : K → K → K) (dt : K) : ∀ (l : List Nat) {s r : DW K × K}, SimW g s.1 r.1 → r.2 = s.2 →
    SimW g (l.foldl (DW.tick add dt) s).1 (l.foldl (DW.tick add dt) r).1 ∧ (l.foldl (DW.tick add dt) r).2 = (l.foldl (DW.tick add dt) s).2
  | [], _, _, h, hm => ⟨h, hm⟩
  | b :: l, _, _, h, hm => by
    obtain ⟨a, c⟩ := tick_turn hg add dt h hm b
    exact ticks_turn add dt l a c

theorem sleepIsland_turn (add : K → K → K) (big dt : K) (h : SimW g w z) (l : List Nat) : SimW g (DW.sleepIsland add big dt w l) (DW.sleepIsland add big dt z l) := by
  obtain ⟨a, c⟩ := ticks_turn hg add dt l (s := (w, big)) (r := (z, big)) h rfl
  unfold DW.sleepIsland
  dsimp only
  rw [c, a.before]
  split
  · exact nod_turn l a
  · exact a

theorem updateSleeping_turn (add : K → K → K) (big dt : K) : ∀ (is : List (List Nat)) {w z : DW K}, SimW g w z →
    SimW g (DW.updateSleeping add big dt w is) (DW.updateSleeping add big dt z is)
  | [], _, _, h => h
  | l :: is, _, _, h => updateSleeping_turn add big dt is (sleepIsland_turn hg add big dt h l)

end worlds

/-! ### The step -/

section step
variable {g : Quat K} (hg : g.lengthSq = 1) {i : In K} {w z : DW K}

theorem had_smul_ones (k : K) (x : V3 K) : V3.had (V3.smul k ⟨1, 1, 1⟩) x = V3.smul k x := by ext <;> simp [V3.had, V3.smul]
theorem had_smul2_ones (m k : K) (x : V3 K) : V3.had (V3.smul m (V3.smul k ⟨1, 1, 1⟩)) x = V3.smul (m * k) x := by ext <;> simp [V3.had, V3.smul]

include hg in
/-- The inertia tensor of a turned body. -/
theorem inertia_turn {q : Quat K} (hq : q.lengthSq = 1) (i : V3 K) : Conj g (Dyn.worldInertia q.matrix i) (Dyn.worldInertia (g.mul q).matrix i) := by
  intro x
  have hgq : (g.mul q).lengthSq = 1 := by rw [Joints.mul_lengthSq, hg, hq, one_mul]
  have e : (g.mul q).conj.rot (g.rot x) = q.conj.rot x := by
    have := rot_conj hgq (q.conj.rot x)
    rwa [rot_mul, rot_conj' hq] at this
  rw [worldInertia_act, worldInertia_act, matrix_act hgq, matrix_act hq, Joints.transpose_rot hgq, Joints.transpose_rot hq, e, rot_mul]

include hg in
theorem Sim.ready {d e : Dyn K} (h : Sim g d e) (dt : K) (a : Option (V3 K)) : Sim g (d.updateInertia.integrateVel dt a) (e.updateInertia.integrateVel dt (a.map g.rot)) := by
  have k : Sim g d.updateInertia e.updateInertia := by
    obtain ⟨M, p, o, rfl, h1, h2, h3⟩ := h
    unfold Dyn.updateInertia
    dsimp only
    split_ifs
    · exact ⟨M, p, o, rfl, h1, h2, h3⟩
    · exact ⟨_, p, o, rfl, inertia_turn hg h3 _, h2, h3⟩
  generalize d.updateInertia = x at k ⊢
  generalize e.updateInertia = y at k ⊢
  obtain ⟨M, p, o, rfl, h1, h2, h3⟩ := k
  unfold Dyn.integrateVel
  dsimp only
  split_ifs
  · exact ⟨M, p, o, rfl, h1, h2, h3⟩
  · unfold Dyn.integrateDamping Dyn.integrateGravity Dyn.integrateForce
    cases a with
    | none =>
      dsimp only [Option.map]
      refine ⟨M, p, o, ?_, h1, h2, h3⟩
      rw [h2.1, h2.2, h1]
      simp only [had_smul_ones, rot_zero, Turned.rot_add, RoundProps.rot_smul]
    | some a =>
      dsimp only [Option.map]
      split_ifs
      · refine ⟨M, p, o, ?_, h1, h2, h3⟩
        dsimp only
        rw [h2.1, h2.2, h1]
        simp only [had_smul_ones, had_smul2_ones, rot_zero, Turned.rot_add, RoundProps.rot_smul]
      · refine ⟨M, p, o, ?_, h1, h2, h3⟩
        dsimp only
        rw [h2.1, h2.2, h1]
        simp only [had_smul_ones, rot_zero, Turned.rot_add, RoundProps.rot_smul]

include hg in
theorem ready_both (h : SimW g w z) (b : Nat) : Both (Sim g) ((ready i w).body b) ((ready (turnIn g i) z).body b) := by
  show Both _ (((w.body b).map _).map _) (((z.body b).map _).map _)
  refine Both.map (R := Sim g) (Both.map (h.body b) fun d e k => ?_) fun d e k => k.ready hg _ _
  show Sim g (if i.islands.any _ then _ else _) (if i.islands.any _ then _ else _)
  split
  · exact k.sleep false
  · exact k

theorem jbody_turn {d e : Dyn K} (h : Sim g d e) : TurnB g (jbody d).toSBody (jbody e).toSBody := by
  obtain ⟨M, p, o, rfl, h1, h2, h3⟩ := h
  exact ⟨rfl, rfl, rfl, rfl, h1, h2, h2⟩

theorem velOf_turn {d e : Dyn K} (h : Sim g d e) : velOf e = turnV g (velOf d) := by
  obtain ⟨M, p, o, rfl, _⟩ := h
  rfl

/-- What the solver reads of the body that stands for a missing one is the same after any rotation. -/
theorem missing_turn (g : Quat K) : TurnB g (jbody (Dyn.create ⟨0, ⟨0, 0, 0, 1⟩⟩ : Dyn K)).toSBody (jbody (Dyn.create ⟨0, ⟨0, 0, 0, 1⟩⟩ : Dyn K)).toSBody :=
  ⟨(rot_zero g).symm, (rot_zero g).symm, (rot_zero g).symm, rfl, conj_one g, ⟨rfl, rfl⟩, ⟨rfl, rfl⟩⟩

theorem missing_vel (g : Quat K) : velOf (Dyn.create ⟨0, ⟨0, 0, 0, 1⟩⟩ : Dyn K) = turnV g (velOf (Dyn.create ⟨0, ⟨0, 0, 0, 1⟩⟩ : Dyn K)) :=
  Vel.ext (rot_zero g).symm (rot_zero g).symm (rot_zero g).symm (rot_zero g).symm

theorem dyn_turn {w z : DW K} {b : Nat} (h : Both (Sim g) (w.body b) (z.body b)) :
    TurnB g (jbody (dyn w b)).toSBody (jbody (dyn z b)).toSBody ∧ velOf (dyn z b) = turnV g (velOf (dyn w b)) := by
  unfold dyn
  cases hd : w.body b with
  | none => rw [h.none hd]; exact ⟨missing_turn g, missing_vel g⟩
  | some d =>
    obtain ⟨e, he, q⟩ := h.some hd
    rw [he]
    exact ⟨jbody_turn q, velOf_turn q⟩

/-- What the slip depends on is not changed by the first part of a step. -/
theorem ready_slip (i : In K) (w : DW K) (b : Nat) : (dyn (ready i w) b).comWorld = (dyn w b).comWorld ∧ (dyn (ready i w) b).vel = (dyn w b).vel ∧ (dyn (ready i w) b).ang = (dyn w b).ang := by
  cases hd : w.body b with
  | none =>
    have e : (ready i w).body b = none := by show ((w.body b).map _).map _ = _; rw [hd]; rfl
    unfold dyn
    rw [e, hd]
    exact ⟨rfl, rfl, rfl⟩
  | some d =>
    unfold dyn
    rw [Galileo.ready_some hd, hd, Option.getD_some, Option.getD_some]
    have k : ∀ d : Dyn K, (d.updateInertia.integrateVel i.dt i.g).comWorld = d.comWorld ∧ (d.updateInertia.integrateVel i.dt i.g).vel = d.vel ∧ (d.updateInertia.integrateVel i.dt i.g).ang = d.ang := by
      intro d
      unfold Dyn.integrateVel Dyn.integrateDamping Dyn.integrateGravity Dyn.integrateForce Dyn.updateInertia
      cases i.g <;> dsimp only <;> split_ifs <;> exact ⟨rfl, rfl, rfl⟩
    have k2 : ∀ d : Dyn K, (d.setIsSleeping false).comWorld = d.comWorld ∧ (d.setIsSleeping false).vel = d.vel ∧ (d.setIsSleeping false).ang = d.ang := by
      intro d
      unfold Dyn.setIsSleeping
      simp only [Bool.false_eq_true, if_false]
      split_ifs <;> exact ⟨rfl, rfl, rfl⟩
    rw [(k _).1, (k _).2.1, (k _).2.2]
    split_ifs
    · exact k2 d
    · exact ⟨rfl, rfl, rfl⟩

theorem Clear.plain (h : Clear i w) : ∀ X ∈ i.mans, Plain { i.cc with dt := i.dt } i.jc.sqrt (fun b => (jbody (dyn (ready i w) b)).toSBody) X := by
  intro X hX
  refine (h.mans X hX).imp id fun k => ?_
  have e : slip { i.cc with dt := i.dt } i.jc.sqrt (fun b => (jbody (dyn (ready i w) b)).toSBody) X = slip i.cc i.jc.sqrt (fun b => (jbody (dyn w b)).toSBody) X := by
    unfold slip jbody
    dsimp only
    rw [(ready_slip i w X.b1).1, (ready_slip i w X.b1).2.1, (ready_slip i w X.b1).2.2, (ready_slip i w X.b2).1, (ready_slip i w X.b2).2.1, (ready_slip i w X.b2).2.2]
    rfl
  rw [e]
  exact k

include hg

theorem solved_turn (h : SimW g w z) (hc : Clear i w) :
    (solved (turnIn g i) z).1 = all g (solved i w).1 ∧ (solved (turnIn g i) z).2.1 = [] ∧ (solved i w).2.1 = [] ∧
      List.Forall₂ (TurnM g) (solved i w).2.2 (solved (turnIn g i) z).2.2 := by
  have k := solveStep_turn hg { i.cc with dt := i.dt } { i.jc with dt := i.dt } (body := fun b => jbody (dyn (ready i w) b)) (body' := fun b => jbody (dyn (ready (turnIn g i) z) b))
    (fun b => (dyn_turn (ready_both hg h b)).1) (fun b => velOf (dyn (ready i w) b)) hc.plain i.nv
  have ev : (fun b => velOf (dyn (ready (turnIn g i) z) b)) = all g (fun b => velOf (dyn (ready i w) b)) := funext fun b => (dyn_turn (ready_both hg h b)).2
  have ej : joints i.pins = [] := by rw [hc.pins]; rfl
  unfold solved
  show (solveStep { i.cc with dt := i.dt } { i.jc with dt := i.dt } _ _ (joints i.pins) (i.mans.map (turnXM g)) i.nv).1 = _ ∧
    (solveStep { i.cc with dt := i.dt } { i.jc with dt := i.dt } _ _ (joints i.pins) (i.mans.map (turnXM g)) i.nv).2.1 = _ ∧ _ ∧
    List.Forall₂ (TurnM g) _ (solveStep { i.cc with dt := i.dt } { i.jc with dt := i.dt } _ _ (joints i.pins) (i.mans.map (turnXM g)) i.nv).2.2
  rw [ev, ej]
  exact k

/-- Bodies after the integration of positions. -/
def Mid (g : Quat K) (d e : Dyn K) : Prop := Sim g d e ∧ (d.disabled = false → e.cPos = g.rot d.cPos ∧ e.cOri = g.mul d.cOri ∧ d.cOri.lengthSq ≠ 0)

omit hg in
theorem spin_ne {q : Quat K} (hq : q.lengthSq = 1) (u : V3 K) (dt : K) : (q.add ((((⟨u.x, u.y, u.z, 0⟩ : Quat K).mul q).scale (1 / 2)).scale dt)).lengthSq ≠ 0 := by
  have e : (q.add ((((⟨u.x, u.y, u.z, 0⟩ : Quat K).mul q).scale (1 / 2)).scale dt)).lengthSq = (1 + dt * dt / 4 * (u.x * u.x + u.y * u.y + u.z * u.z)) * q.lengthSq := by
    simp only [Quat.lengthSq, Quat.add, Quat.scale, Quat.mul]; ring
  rw [e, hq]
  have a : 0 ≤ dt * dt / 4 := div_nonneg (mul_self_nonneg _) (by norm_num)
  have b : 0 ≤ u.x * u.x + u.y * u.y + u.z * u.z := add_nonneg (add_nonneg (mul_self_nonneg _) (mul_self_nonneg _)) (mul_self_nonneg _)
  have := mul_nonneg a b
  linarith

theorem spin_turn (q : Quat K) (u : V3 K) (dt : K) : (g.mul q).add ((((⟨(g.rot u).x, (g.rot u).y, (g.rot u).z, 0⟩ : Quat K).mul (g.mul q)).scale (1 / 2)).scale dt) =
    g.mul (q.add ((((⟨u.x, u.y, u.z, 0⟩ : Quat K).mul q).scale (1 / 2)).scale dt)) := by
  have e : (⟨(g.rot u).x, (g.rot u).y, (g.rot u).z, 0⟩ : Quat K).mul (g.mul q) = (g.mul ((⟨u.x, u.y, u.z, 0⟩ : Quat K).mul q)).scale g.lengthSq := by
    simp only [Quat.mul, Quat.rot, Quat.scale, Quat.lengthSq, Quat.mk.injEq]
    refine ⟨?_, ?_, ?_, ?_⟩ <;> ring
  rw [e, hg]
  simp only [Quat.mul, Quat.scale, Quat.add, Quat.mk.injEq]
  refine ⟨?_, ?_, ?_, ?_⟩ <;> ring

theorem mid_of {d e : Dyn K} (h : Sim g d e) (v : Vel K) (dt s : K) :
    Mid g ((d.solveVel (some ⟨v.v, v.w, v.vs, v.ws⟩)).integratePos dt s) ((e.solveVel (some ⟨g.rot v.v, g.rot v.w, g.rot v.vs, g.rot v.ws⟩)).integratePos dt s) := by
  obtain ⟨M, p, o, rfl, h1, h2, h3⟩ := h
  unfold Dyn.solveVel Dyn.integratePos
  dsimp only
  by_cases hd : d.disabled = true
  · rw [if_pos hd, if_pos hd]
    exact ⟨⟨M, p, o, rfl, h1, h2, h3⟩, fun k => absurd (hd.symm.trans k) (by decide)⟩
  · rw [if_neg hd, if_neg hd]
    refine ⟨⟨M, _, _, rfl, h1, h2, h3⟩, fun _ => ⟨?_, ?_, spin_ne h3 _ _⟩⟩
    · simp only [Turned.rot_add, RoundProps.rot_smul]
    · dsimp only
      rw [← RoundProps.rot_smul, ← Turned.rot_add, spin_turn hg]

theorem midway_turn (h : SimW g w z) (hc : Clear i w) {b : Nat} {d : Dyn K} (hd : w.body b = some d) : Mid g (midway i w b) (midway (turnIn g i) z b) := by
  have q : Sim g (dyn (ready i w) b) (dyn (ready (turnIn g i) z) b) := by
    have hd' := Galileo.ready_some (i := i) hd
    obtain ⟨e, he, q⟩ := (ready_both (i := i) hg h b).some hd'
    unfold dyn
    rw [hd', he]
    exact q
  have e : (solved (turnIn g i) z).1 b = turnV g ((solved i w).1 b) := by rw [(solved_turn hg h hc).1]; rfl
  unfold midway vels
  rw [e]
  exact mid_of hg q _ _ _

omit hg in
theorem each_none (cfg : JCfg K) (body : Nat → PBody K) (n : Nat) (X : Nat → Pose K) : (correct cfg body n (X, ⟨[], [], [], []⟩)).1 = X := by
  induction n with
  | zero => rfl
  | succ n ih => exact ih

omit hg in
/-- Without joints the positions are not corrected. -/
theorem poss_none (h : (solved i w).2.1 = []) (b : Nat) : poss i w b = ((midway i w b).cPos, (midway i w b).cOri) := by
  unfold poss corrected
  rw [h, show pins ([] : List (Joint K)) = ⟨[], [], [], []⟩ from rfl, each_none]
  rfl

omit hg in
theorem divBy_turn (q : Quat K) (l : K) : (g.mul q).divBy l = g.mul (q.divBy l) := by
  simp only [Quat.mul, Quat.divBy, Quat.mk.injEq]
  refine ⟨?_, ?_, ?_, ?_⟩ <;> ring

theorem len_mul {len : Quat K → K} (h : ∀ q, 0 ≤ len q ∧ len q * len q = q.lengthSq) (q : Quat K) : len (g.mul q) = len q := by
  have e : len (g.mul q) * len (g.mul q) = len q * len q := by rw [(h _).2, (h _).2, Joints.mul_lengthSq, hg, one_mul]
  exact (mul_self_inj (h _).1 (h _).1).1 e

theorem state_turn {d e : Dyn K} (h : Mid g d e) {len : Quat K → K} (hl : ∀ q, 0 ≤ len q ∧ len q * len q = q.lengthSq) : Sim g (d.updateState len) (e.updateState len) := by
  obtain ⟨⟨M, p, o, rfl, h1, h2, h3⟩, k⟩ := h
  unfold Dyn.updateState
  dsimp only at k ⊢
  by_cases hd : d.disabled = true
  · rw [if_pos hd, if_pos hd]
    exact ⟨M, p, o, rfl, h1, h2, h3⟩
  · rw [if_neg hd, if_neg hd]
    obtain ⟨rfl, rfl, k0⟩ := k (by simpa using hd)
    refine ⟨M, g.rot d.cPos, g.mul d.cOri, ?_, h1, h2, ?_⟩
    · dsimp only
      rw [len_mul hg hl, divBy_turn, rot_mul, RoundProps.rot_sub]
    · dsimp only
      have l0 : len d.cOri ≠ 0 := fun z => k0 (by rw [← (hl _).2, z, zero_mul])
      have e : (d.cOri.divBy (len d.cOri)).lengthSq = d.cOri.lengthSq / (len d.cOri * len d.cOri) := by
        simp only [Quat.lengthSq, Quat.divBy]
        field_simp
      rw [e, (hl _).2, div_self k0]

theorem moved_turn (h : SimW g w z) (hc : Clear i w) : SimW g (DW.moved (i.args (fun b => some (vels i w b)) fun b => some (poss i w b)) w)
    (DW.moved ((turnIn g i).args (fun b => some (vels (turnIn g i) z b)) fun b => some (poss (turnIn g i) z b)) z) := by
  refine ⟨fun b => ?_, h.on, h.limL, h.limA, h.before⟩
  cases hd : w.body b with
  | none =>
    have hz := (h.body b).none hd
    rw [DW.moved_body, DW.moved_body]
    show Both _ (((w.body b).map _).map _) (((z.body b).map _).map _)
    rw [hd, hz]
    trivial
  | some d =>
    obtain ⟨e, he, _⟩ := (h.body b).some hd
    rw [Galileo.moved_dyn ⟨d, hd⟩, Galileo.moved_dyn ⟨e, he⟩]
    obtain ⟨_, k1, k2, _⟩ := solved_turn hg h hc
    rw [poss_none k2, poss_none k1]
    exact state_turn hg (midway_turn hg h hc hd) hc.len

/-- **C143, a step.** A step of the turned world is the turned step. -/
theorem isotropy_step_partial (h : SimW g w z) (hc : Clear i w) : SimW g (update i w) (update (turnIn g i) z) := by
  have m := moved_turn hg h hc
  show SimW g (DW.update _ _) (DW.update _ _)
  unfold DW.update
  dsimp only
  refine SimW.mapAll ?_ fun _ d e k => ?_
  · generalize (DW.moved (i.args (fun b => some (vels i w b)) fun b => some (poss i w b)) w) = x at m ⊢
    generalize (DW.moved ((turnIn g i).args (fun b => some (vels (turnIn g i) z b)) fun b => some (poss (turnIn g i) z b)) z) = y at m ⊢
    rw [m.on]
    split_ifs
    · exact updateSleeping_turn hg i.add i.big i.dt i.islands m
    · exact m
  · obtain ⟨M, p, o, rfl, h1, h2, h3⟩ := k
    exact ⟨M, p, o, by simp only [Dyn.resetForces, rot_zero], h1, h2, h3⟩

/-- **C143, what is reported.** The contacts have the same impulses. -/
theorem isotropy_report_partial (h : SimW g w z) (hc : Clear i w) :
    List.Forall₂ (fun M N : Man K => N.normal = g.rot M.normal ∧ N.f1 = M.f1 ∧ N.f2 = M.f2 ∧ N.tw = M.tw ∧ N.pts.map CPoint.imp = M.pts.map CPoint.imp) (solved i w).2.2 (solved (turnIn g i) z).2.2 :=
  (solved_turn hg h hc).2.2.2.imp fun M N k => ⟨k.normal, k.f1, k.f2, k.tw, by rw [k.pts, List.map_map]; rfl⟩

end step

/-! ### Histories -/

section history
variable {g : Quat K} (hg : g.lengthSq = 1)

theorem create_turn {T : Trans K} (hT : T.ori.lengthSq = 1) : Sim g (Dyn.create T) (Dyn.create ⟨g.rot T.pos, g.mul T.ori⟩) :=
  ⟨M3.one, 0, ⟨0, 0, 0, 1⟩, by simp only [Dyn.create, rot_zero], conj_one g, ⟨rfl, rfl⟩, hT⟩

include hg

theorem run_turn {w z : DW K} (h : SimW g w z) (e : Ev K) (hf : Fair w [e]) : SimW g (e.run w) ((turnEv g e).run z) := by
  have hf := hf.1
  cases e with
  | step i => exact isotropy_step_partial hg h hf
  | create b T => exact h.set b (create_turn hf)
  | destroy b => exact h.set b trivial
  | call b o => exact h.modify b fun d e k => k.exec hg o hf
  | enableSleeping b =>
    show SimW g (w.enableSleeping b) (z.enableSleeping b)
    have k : SimW g { w with sleepOn := b } { z with sleepOn := b } := ⟨h.body, rfl, h.limL, h.limA, h.before⟩
    unfold DW.enableSleeping
    dsimp only
    split
    · exact k.mapAll fun _ _ _ q => q.sleep false
    · exact k
  | limits l a s => exact ⟨h.body, h.on, rfl, rfl, rfl⟩

/-- **C143, histories.** The same history, turned: the world is the turned one at every moment. Missing: joints, locked axes, friction between bodies that do not slide. -/
theorem isotropy_partial : ∀ (es : List (Ev K)) {w z : DW K}, SimW g w z → Fair w es → SimW g (es.foldl Ev.run w) ((es.map (turnEv g)).foldl Ev.run z)
  | [], _, _, h, _ => h
  | e :: es, _, _, h, hf => isotropy_partial es (run_turn hg h e ⟨hf.1, trivial⟩) hf.2

omit hg in
theorem empty_turn (on : Bool) (l a b : K) : SimW g (DW.empty on l a b) (DW.empty on l a b) := ⟨fun _ => trivial, rfl, rfl, rfl, rfl⟩

omit hg in
/-- What the user sees of related bodies. -/
theorem SimW.seen {w z : DW K} (h : SimW g w z) {b : Nat} {d : Dyn K} (hd : w.body b = some d) : ∃ e, z.body b = some e ∧
    e.tr = ⟨g.rot d.tr.pos, g.mul d.tr.ori⟩ ∧ e.comWorld = g.rot d.comWorld ∧ e.vel = g.rot d.vel ∧ e.ang = g.rot d.ang ∧ e.force = g.rot d.force ∧ e.torque = g.rot d.torque ∧
    e.type = d.type ∧ e.active = d.active ∧ e.sleeping = d.sleeping ∧ e.sleepTime = d.sleepTime ∧ e.mass = d.mass ∧ e.inertia = d.inertia ∧ e.comLocal = d.comLocal := by
  obtain ⟨e, he, M, p, o, rfl, _⟩ := (h.body b).some hd
  exact ⟨_, he, rfl, rfl, rfl, rfl, rfl, rfl, rfl, rfl, rfl, rfl, rfl, rfl, rfl⟩

end history

end Isotropy
end RP3D
