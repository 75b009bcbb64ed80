import Verif.Solver.FrameLoops
import Verif.Props.Apart

/-! C137: worlds behave the same everywhere, and the same for uniformly moving observers. -/

set_option linter.unusedSectionVars false

namespace RP3D
namespace Galileo
open Solver Joints SolverProps JointProps Whole Frame
open Apart (Ev)
variable {K : Type} [Field K] [LinearOrder K] [IsStrictOrderedRing K]

/-! ### Specification -/

/-- Nothing acts on the body that refers to a frame at rest: no sleep, no damping, and it can move. No condition if the frames are at rest relative to each other. -/
def Free (u : V3 K) (d : Dyn K) : Prop := u = 0 ∨ (d.disabled = false ∧ d.sleeping = false ∧ d.linDamp = 0 ∧ d.type ≠ .static)

/-- A body of the other world: further by `t`, faster by `u`, all else the same. The constrained columns, which a step overwrites before it reads them, may differ. -/
def Sim (t u : V3 K) (d e : Dyn K) : Prop :=
  ∃ c p o, e = { d with vel := d.vel + u, comWorld := d.comWorld + t, tr := ⟨d.tr.pos + t, d.tr.ori⟩, cVel := c, cPos := p, cOri := o } ∧
    (u = 0 → c = d.cVel) ∧ (d.type = .static → p = d.cPos + t ∧ o = d.cOri) ∧ Free u d

/-- Both bodies exist and are related, or none exists. -/
def Both (R : Dyn K → Dyn K → Prop) : Option (Dyn K) → Option (Dyn K) → Prop
  | none, none => True
  | some d, some e => R d e
  | _, _ => False

/-- The other world. -/
structure SimW (t u : V3 K) (w z : DW K) : Prop where
  body : ∀ b, Both (Sim t u) (w.body b) (z.body b)
  on : z.sleepOn = w.sleepOn
  limL : z.limL = w.limL
  limA : z.limA = w.limA
  before : z.before = w.before
  free : u = 0 ∨ w.sleepOn = false

/-- The input of a step of the other world: the contacts are elsewhere. -/
def moveIn (t : V3 K) (i : In K) : In K := { i with mans := i.mans.map (moveMan t) }

/-- The call in the other world. -/
def moveOp (t u : V3 K) : Dyn.Op K → Dyn.Op K
  | .force f p => .force f (p + t)
  | .localForce f p => .localForce f (p + t)
  | .linearVelocity v => .linearVelocity (v + u)
  | .transform T => .transform ⟨T.pos + t, T.ori⟩
  | o => o

/-- Calls that refer to a frame at rest. -/
def Calm (u : V3 K) (o : Dyn.Op K) : Prop :=
  u = 0 ∨ match o with
    | .setType s => s ≠ .static
    | .active b => b = true
    | .sleep b => b = false
    | .linearDamping k => k ≤ 0
    | _ => True

/-- The events in the other world. A new body gets the velocity of the frame. -/
def moveEv (t u : V3 K) : Ev K → List (Ev K)
  | .create b T => [.create b ⟨T.pos + t, T.ori⟩, .call b (.linearVelocity u)]
  | .call b o => [.call b (moveOp t u o)]
  | .step i => [.step (moveIn t i)]
  | e => [e]

/-- How much time passes. -/
def dur : Ev K → K
  | .step i => i.dt
  | _ => 0

/-- A history of the other world, whose frame moves on in each step. -/
def moveAll (u : V3 K) : V3 K → List (Ev K) → List (Ev K)
  | _, [] => []
  | t, e :: es => moveEv t u e ++ moveAll u (t + V3.smul (dur e) u) es

def total (es : List (Ev K)) : K := (es.map dur).sum

/-- A body that joints may refer to: it exists, and it is static or awake once the islands are woken. -/
def Awake (i : In K) (w : DW K) (b : Nat) : Prop :=
  ∃ d, w.body b = some d ∧ (d.type = .static ∨ d.disabled = false ∨ d.sleeping = true ∧ d.active = true ∧ ∃ l ∈ i.islands, b ∈ l)

/-- What collision detection and the islands guarantee of a step: contacts have points and are between existing bodies, joints between bodies that are static or awake. -/
structure Live (i : In K) (w : DW K) : Prop where
  mans : ∀ X ∈ i.mans, ((∃ d, w.body X.b1 = some d) ∧ ∃ d, w.body X.b2 = some d) ∧ X.pts ≠ []
  joints : ∀ J ∈ joints i.pins, Awake i w J.b1 ∧ Awake i w J.b2

/-- A history both observers can describe. -/
def Fair (u : V3 K) : DW K → List (Ev K) → Prop
  | _, [] => True
  | w, e :: es => (match e with
      | .step i => Live i w
      | .call _ o => Calm u o
      | .enableSleeping b => u = 0 ∨ b = false
      | _ => True) ∧ Fair u (e.run w) es

/-! ### Calls -/

section calls
variable {t u : V3 K} {d e : Dyn K}

theorem Sim.free (h : Sim t u d e) : Free u d := by obtain ⟨c, p, o, _, _, _, h⟩ := h; exact h

theorem Free.asleep (h : Free u d) (hs : d.sleeping = true) : u = 0 := by
  rcases h with h | h
  · exact h
  · rw [hs] at h; exact absurd h.2.1 (by decide)

theorem Sim.wake (h : Sim t u d e) : Sim t u (d.setIsSleeping false) (e.setIsSleeping false) := by
  obtain ⟨c, p, o, rfl, h1, h2, h3⟩ := h
  unfold Dyn.setIsSleeping
  simp only [Bool.false_eq_true, if_false]
  split_ifs with k1 k2 k3
  · exact ⟨c, p, o, rfl, h1, h2, h3⟩
  · exact ⟨c, p, o, rfl, h1, h2, h3⟩
  · exact ⟨c, p, o, rfl, h1, h2, h3⟩
  · exact ⟨c, p, o, rfl, h1, h2, Or.inl (h3.asleep (by simpa using k1))⟩

theorem Sim.nod (hu : u = 0) (h : Sim t u d e) : Sim t u (d.setIsSleeping true) (e.setIsSleeping true) := by
  obtain ⟨c, p, o, rfl, h1, h2, h3⟩ := h
  subst hu
  unfold Dyn.setIsSleeping
  simp only [if_true]
  split_ifs with k1 k2 k3
  · exact ⟨c, p, o, rfl, h1, h2, h3⟩
  · exact ⟨c, p, o, rfl, h1, h2, h3⟩
  · exact ⟨c, p, o, rfl, h1, h2, h3⟩
  · exact ⟨c, p, o, by simp, h1, h2, Or.inl rfl⟩

theorem act_move (T : Trans K) (t x : V3 K) : (⟨T.pos + t, T.ori⟩ : Trans K).act x = T.act x + t := by
  unfold Trans.act
  dsimp only
  abel

/-- The types of the two bodies are the same. -/
theorem Sim.type (h : Sim t u d e) : e.type = d.type := by obtain ⟨c, p, o, rfl, _⟩ := h; rfl
theorem Sim.sleeping (h : Sim t u d e) : e.sleeping = d.sleeping := by obtain ⟨c, p, o, rfl, _⟩ := h; rfl
theorem Sim.com (h : Sim t u d e) : e.comWorld = d.comWorld + t := by obtain ⟨c, p, o, rfl, _⟩ := h; rfl

/-- Adding to the force and the torque. -/
theorem Sim.push (h : Sim t u d e) (f m : V3 K) : Sim t u { d with force := d.force + f, torque := d.torque + m } { e with force := e.force + f, torque := e.torque + m } := by
  obtain ⟨c, p, o, rfl, h1, h2, h3⟩ := h
  exact ⟨c, p, o, rfl, h1, h2, h3⟩

theorem wake_com (d : Dyn K) (b : Bool) : (d.setIsSleeping b).comWorld = d.comWorld := by
  unfold Dyn.setIsSleeping
  dsimp only
  split_ifs <;> rfl

theorem Sim.wakeIf (h : Sim t u d e) : Sim t u (if d.sleeping then d.setIsSleeping false else d) (if e.sleeping then e.setIsSleeping false else e) := by
  rw [h.sleeping]
  split
  · exact h.wake
  · exact h

theorem Sim.applyForce (h : Sim t u d e) (f p : V3 K) : Sim t u (d.applyForce f p) (e.applyForce f (p + t)) := by
  unfold Dyn.applyForce
  by_cases k : d.type ≠ .dynamic
  · rw [if_pos k, if_pos (by rw [h.type]; exact k)]; exact h
  · have k' := k
    rw [← h.type] at k'
    rw [if_neg k, if_neg k']
    dsimp only
    have g := h.wakeIf
    generalize (if d.sleeping then d.setIsSleeping false else d) = x at g ⊢
    generalize (if e.sleeping then e.setIsSleeping false else e) = y at g ⊢
    have q : p + t - y.comWorld = p - x.comWorld := by rw [g.com, add_sub_add_right_eq_sub]
    rw [q]
    exact g.push _ _

theorem Sim.applyForceCenter (h : Sim t u d e) (f : V3 K) : Sim t u (d.applyForceCenter f) (e.applyForceCenter f) := by
  unfold Dyn.applyForceCenter
  by_cases k : d.type ≠ .dynamic
  · rw [if_pos k, if_pos (by rw [h.type]; exact k)]; exact h
  · have k' := k
    rw [← h.type] at k'
    rw [if_neg k, if_neg k']
    dsimp only
    obtain ⟨c, p, o, q, h1, h2, h3⟩ := h.wakeIf
    rw [q]
    exact ⟨c, p, o, rfl, h1, h2, h3⟩

theorem Sim.applyTorque (h : Sim t u d e) (m : V3 K) : Sim t u (d.applyTorque m) (e.applyTorque m) := by
  unfold Dyn.applyTorque
  by_cases k : d.type ≠ .dynamic
  · rw [if_pos k, if_pos (by rw [h.type]; exact k)]; exact h
  · have k' := k
    rw [← h.type] at k'
    rw [if_neg k, if_neg k']
    dsimp only
    obtain ⟨c, p, o, q, h1, h2, h3⟩ := h.wakeIf
    rw [q]
    exact ⟨c, p, o, rfl, h1, h2, h3⟩

theorem Sim.rot (h : Sim t u d e) : e.tr.ori = d.tr.ori := by obtain ⟨c, p, o, rfl, _⟩ := h; rfl
theorem Sim.act (h : Sim t u d e) (x : V3 K) : e.tr.act x = d.tr.act x + t := by obtain ⟨c, p, o, rfl, _⟩ := h; exact act_move _ _ _
theorem Sim.local (h : Sim t u d e) : e.comLocal = d.comLocal := by obtain ⟨c, p, o, rfl, _⟩ := h; rfl

theorem Sim.setInertia (h : Sim t u d e) (x : V3 K) : Sim t u (d.setInertia x) (e.setInertia x) := by
  obtain ⟨c, p, o, rfl, h1, h2, h3⟩ := h
  unfold Dyn.setInertia
  dsimp only
  split_ifs <;> exact ⟨c, p, o, rfl, h1, h2, h3⟩

theorem Sim.storeMass (h : Sim t u d e) (x : K) : Sim t u (d.storeMass x) (e.storeMass x) := by
  obtain ⟨c, p, o, rfl, h1, h2, h3⟩ := h
  unfold Dyn.storeMass
  dsimp only
  split_ifs <;> exact ⟨c, p, o, rfl, h1, h2, h3⟩

theorem Sim.setCenter (h : Sim t u d e) (x : V3 K) : Sim t u (d.setCenter x) (e.setCenter x) := by
  obtain ⟨c, p, o, rfl, h1, h2, h3⟩ := h
  unfold Dyn.setCenter
  dsimp only
  rw [act_move, add_sub_add_right_eq_sub, add3]
  exact ⟨c, p, o, rfl, h1, h2, h3⟩

theorem Sim.massProperties (h : Sim t u d e) (cs : List (Dyn.MassCol K)) : Sim t u (d.updateMassProperties cs) (e.updateMassProperties cs) := by
  unfold Dyn.updateMassProperties
  dsimp only
  refine Sim.storeMass (Sim.setInertia ?_ _) _
  obtain ⟨c, p, o, rfl, h1, h2, h3⟩ := h
  dsimp only
  rw [act_move, add_sub_add_right_eq_sub, add3]
  split_ifs <;> exact ⟨c, p, o, rfl, h1, h2, h3⟩

theorem setIsSleeping_id (h : d.sleeping = false) : d.setIsSleeping false = d := by
  unfold Dyn.setIsSleeping
  rw [if_pos h]

theorem Sim.setLinearVelocity (h : Sim t u d e) (v : V3 K) : Sim t u (d.setLinearVelocity v) (e.setLinearVelocity (v + u)) := by
  unfold Dyn.setLinearVelocity
  by_cases k : d.type = .static
  · rw [if_pos k, if_pos (h.type.trans k)]; exact h
  · have k' := k
    rw [← h.type] at k'
    rw [if_neg k, if_neg k']
    have g : Sim t u { d with vel := v } { e with vel := v + u } := by
      obtain ⟨c, p, o, rfl, h1, h2, h3⟩ := h
      exact ⟨c, p, o, rfl, h1, h2, h3⟩
    dsimp only
    rcases h.free with hu | ⟨_, hs, _⟩
    · rw [show v + u = v by rw [hu, add_zero]] at g ⊢
      split
      · exact g.wake
      · exact g
    · have es : e.sleeping = false := by rw [h.sleeping, hs]
      rw [setIsSleeping_id (d := { d with vel := v }) hs, setIsSleeping_id (d := { e with vel := v + u }) es, ite_self, ite_self]
      exact g

theorem Sim.setAngularVelocity (h : Sim t u d e) (v : V3 K) : Sim t u (d.setAngularVelocity v) (e.setAngularVelocity v) := by
  unfold Dyn.setAngularVelocity
  have g : Sim t u { d with ang := v } { e with ang := v } := by
    obtain ⟨c, p, o, rfl, h1, h2, h3⟩ := h
    exact ⟨c, p, o, rfl, h1, h2, h3⟩
  by_cases k : d.type = .static
  · rw [if_pos k, if_pos (h.type.trans k)]; exact h
  · have k' := k
    rw [← h.type] at k'
    rw [if_neg k, if_neg k']
    dsimp only
    split_ifs
    · exact g.wake
    · exact g

theorem Sim.setTransform (h : Sim t u d e) (T : Trans K) : Sim t u (d.setTransform T) (e.setTransform ⟨T.pos + t, T.ori⟩) := by
  have g : Sim t u
      (let d2 := { d with comWorld := T.act d.comLocal, vel := d.vel + V3.cross d.ang (T.act d.comLocal - d.comWorld) }
       if d.type = .static then { d2 with cPos := T.pos, cOri := T.ori } else d2)
      (let d2 := { e with comWorld := (⟨T.pos + t, T.ori⟩ : Trans K).act e.comLocal, vel := e.vel + V3.cross e.ang ((⟨T.pos + t, T.ori⟩ : Trans K).act e.comLocal - e.comWorld) }
       if e.type = .static then { d2 with cPos := T.pos + t, cOri := T.ori } else d2) := by
    obtain ⟨c, p, o, rfl, h1, h2, h3⟩ := h
    dsimp only
    rw [act_move, add_sub_add_right_eq_sub, add3]
    split_ifs with k
    · exact ⟨c, _, _, rfl, h1, fun _ => ⟨rfl, rfl⟩, h3⟩
    · exact ⟨c, p, o, rfl, h1, fun k' => absurd k' k, h3⟩
  obtain ⟨c, p, o, k, h1, h2, h3⟩ := g.wake
  unfold Dyn.setTransform
  dsimp only at k ⊢
  rw [k]
  exact ⟨c, p, o, rfl, h1, h2, h3⟩

theorem Sim.setType (h : Sim t u d e) (s : BType) (hs : u = 0 ∨ s ≠ .static) : Sim t u (d.setType s) (e.setType s) := by
  unfold Dyn.setType
  by_cases k : d.type = s
  · rw [if_pos k, if_pos (h.type.trans k)]; exact h
  · have k' := k
    rw [← h.type] at k'
    rw [if_neg k, if_neg k']
    dsimp only
    have g : Sim t u { (if s = .static ∨ s = .kinematic then (if s = .static then ({ d with type := s } : Dyn K).setTypeStatic else { d with type := s }).setTypeFixed
          else (if s = .static then ({ d with type := s } : Dyn K).setTypeStatic else { d with type := s }).setTypeDynamic) with disabled := decide (s = .static) }
        { (if s = .static ∨ s = .kinematic then (if s = .static then ({ e with type := s } : Dyn K).setTypeStatic else { e with type := s }).setTypeFixed
          else (if s = .static then ({ e with type := s } : Dyn K).setTypeStatic else { e with type := s }).setTypeDynamic) with disabled := decide (s = .static) } := by
      obtain ⟨c, p, o, rfl, h1, h2, h3⟩ := h
      cases s with
      | static =>
        have hu : u = 0 := hs.resolve_right fun k => k rfl
        subst hu
        exact ⟨c, _, _, by simp [Dyn.setTypeStatic, Dyn.setTypeFixed], h1, fun _ => ⟨rfl, rfl⟩, Or.inl rfl⟩
      | kinematic =>
        refine ⟨c, p, o, rfl, h1, fun k => (by cases k), h3.imp id fun k => ⟨rfl, k.2.1, k.2.2.1, fun k => by cases k⟩⟩
      | dynamic =>
        refine ⟨c, p, o, rfl, h1, fun k => (by cases k), h3.imp id fun k => ⟨rfl, k.2.1, k.2.2.1, fun k => by cases k⟩⟩
    obtain ⟨c, p, o, k, h1, h2, h3⟩ := g.wake
    rw [k]
    exact ⟨c, p, o, rfl, h1, h2, h3⟩

theorem Sim.setAllowed (h : Sim t u d e) (b : Bool) : Sim t u (d.setAllowed b) (e.setAllowed b) := by
  have g : Sim t u { d with allowed := b } { e with allowed := b } := by
    obtain ⟨c, p, o, rfl, h1, h2, h3⟩ := h
    exact ⟨c, p, o, rfl, h1, h2, h3⟩
  unfold Dyn.setAllowed
  dsimp only
  split_ifs
  · exact g.wake
  · exact g

theorem Sim.setIsActive (h : Sim t u d e) (b : Bool) (hb : u = 0 ∨ b = true) : Sim t u (d.setIsActive b) (e.setIsActive b) := by
  have ea : e.active = d.active := by obtain ⟨c, p, o, rfl, _⟩ := h; rfl
  unfold Dyn.setIsActive
  rw [ea]
  split
  · exact h
  · have g : Sim t u (d.setIsSleeping (!b)) (e.setIsSleeping (!b)) := by
      cases b with
      | true => exact h.wake
      | false => exact h.nod (hb.resolve_right (by decide))
    obtain ⟨c, p, o, k, h1, h2, h3⟩ := g
    rw [k]
    exact ⟨c, p, o, rfl, h1, h2, h3⟩

theorem Sim.setLinearDamping (h : Sim t u d e) (k : K) (hk : u = 0 ∨ k ≤ 0) : Sim t u (d.setLinearDamping k) (e.setLinearDamping k) := by
  obtain ⟨c, p, o, rfl, h1, h2, h3⟩ := h
  unfold Dyn.setLinearDamping
  split_ifs with hp
  · refine ⟨c, p, o, rfl, h1, h2, ?_⟩
    rcases hk with hk | hk
    · exact Or.inl hk
    · exact h3.imp id fun q => ⟨q.1, q.2.1, le_antisymm hk hp, q.2.2.2⟩
  · exact ⟨c, p, o, rfl, h1, h2, h3⟩

/-- **Calls.** A call on a body and the call of the other observer. -/
theorem Sim.exec (h : Sim t u d e) (o : Dyn.Op K) (ho : Calm u o) : Sim t u (d.exec o) (e.exec (moveOp t u o)) := by
  cases o with
  | setType s => exact h.setType s ho
  | force f p => exact h.applyForce f p
  | forceLocalPos f p =>
    show Sim t u (d.applyForce f (d.tr.act p)) (e.applyForce f (e.tr.act p))
    rw [h.act]; exact h.applyForce _ _
  | localForce f p =>
    show Sim t u (d.applyForce (d.tr.ori.rot f) p) (e.applyForce (e.tr.ori.rot f) (p + t))
    rw [h.rot]; exact h.applyForce _ _
  | localForceLocalPos f p =>
    show Sim t u (d.applyForce (d.tr.ori.rot f) (d.tr.act p)) (e.applyForce (e.tr.ori.rot f) (e.tr.act p))
    rw [h.rot, h.act]; exact h.applyForce _ _
  | forceCenter f => exact h.applyForceCenter f
  | localForceCenter f =>
    show Sim t u (d.applyForceCenter (d.tr.ori.rot f)) (e.applyForceCenter (e.tr.ori.rot f))
    rw [h.rot]; exact h.applyForceCenter _
  | torque m => exact h.applyTorque m
  | localTorque m =>
    show Sim t u (d.applyTorque (d.tr.ori.rot m)) (e.applyTorque (e.tr.ori.rot m))
    rw [h.rot]; exact h.applyTorque _
  | resetForce =>
    obtain ⟨c, p, o, rfl, h1, h2, h3⟩ := h
    show Sim t u (Dyn.resetForce _) (Dyn.resetForce _)
    unfold Dyn.resetForce
    dsimp only
    split_ifs <;> exact ⟨c, p, o, rfl, h1, h2, h3⟩
  | resetTorque =>
    obtain ⟨c, p, o, rfl, h1, h2, h3⟩ := h
    show Sim t u (Dyn.resetTorque _) (Dyn.resetTorque _)
    unfold Dyn.resetTorque
    dsimp only
    split_ifs <;> exact ⟨c, p, o, rfl, h1, h2, h3⟩
  | setInertia i => exact h.setInertia i
  | inertiaFromColliders cs =>
    show Sim t u (d.setInertia (Dyn.computeInertia d.comLocal cs)) (e.setInertia (Dyn.computeInertia e.comLocal cs))
    rw [h.local]; exact h.setInertia _
  | massFromColliders cs => exact h.storeMass _
  | setMass m =>
    show Sim t u (d.setMass m) (e.setMass m)
    unfold Dyn.setMass
    split_ifs
    · exact h
    · exact h.storeMass m
  | setCenter c => exact h.setCenter c
  | centerFromColliders cs => exact h.setCenter _
  | massProperties cs => exact h.massProperties cs
  | linearVelocity v => exact h.setLinearVelocity v
  | angularVelocity v => exact h.setAngularVelocity v
  | transform T => exact h.setTransform T
  | allowed b => exact h.setAllowed b
  | active b => exact h.setIsActive b ho
  | linearDamping k => exact h.setLinearDamping k ho
  | angularDamping k =>
    obtain ⟨c, p, o, rfl, h1, h2, h3⟩ := h
    show Sim t u (Dyn.setAngularDamping _ _) (Dyn.setAngularDamping _ _)
    unfold Dyn.setAngularDamping
    split_ifs <;> exact ⟨c, p, o, rfl, h1, h2, h3⟩
  | gravity b => obtain ⟨c, p, o, rfl, h1, h2, h3⟩ := h; exact ⟨c, p, o, rfl, h1, h2, h3⟩
  | linearLock v => obtain ⟨c, p, o, rfl, h1, h2, h3⟩ := h; exact ⟨c, p, o, rfl, h1, h2, h3⟩
  | angularLock v => obtain ⟨c, p, o, rfl, h1, h2, h3⟩ := h; exact ⟨c, p, o, rfl, h1, h2, h3⟩
  | sleep b =>
    show Sim t u (d.setIsSleeping b) (e.setIsSleeping b)
    cases b with
    | false => exact h.wake
    | true => exact h.nod (ho.resolve_right fun k => Bool.noConfusion k)

end calls

/-! ### Worlds -/

section worlds
variable {t u : V3 K} {w z : DW K}

theorem Both.map {R S : Dyn K → Dyn K → Prop} {a b : Option (Dyn K)} (h : Both R a b) {f g : Dyn K → Dyn K} (k : ∀ d e, R d e → S (f d) (g e)) : Both S (a.map f) (b.map g) := by
  cases a <;> cases b
  · trivial
  · exact h.elim
  · exact h.elim
  · exact k _ _ h

theorem Both.some {R : Dyn K → Dyn K → Prop} {a b : Option (Dyn K)} (h : Both R a b) {d : Dyn K} (k : a = some d) : ∃ e, b = some e ∧ R d e := by
  subst k
  cases b
  · exact h.elim
  · exact ⟨_, rfl, h⟩

theorem Both.none {R : Dyn K → Dyn K → Prop} {a b : Option (Dyn K)} (h : Both R a b) (k : a = none) : b = none := by
  subst k
  cases b
  · rfl
  · exact h.elim

theorem SimW.mapAll (h : SimW t u w z) {f g : Nat → Dyn K → Dyn K} (k : ∀ b d e, Sim t u d e → Sim t u (f b d) (g b e)) : SimW t u (w.mapAll f) (z.mapAll g) :=
  ⟨fun b => (h.body b).map (k b), h.on, h.limL, h.limA, h.before, h.free⟩

theorem SimW.modify (h : SimW t u w z) (b : Nat) {f g : Dyn K → Dyn K} (k : ∀ d e, Sim t u d e → Sim t u (f d) (g e)) : SimW t u (w.modify b f) (z.modify b g) := by
  refine ⟨fun c => ?_, h.on, h.limL, h.limA, h.before, h.free⟩
  by_cases e : c = b
  · subst e
    rw [DW.modify_same, DW.modify_same]
    exact (h.body c).map k
  · rw [DW.modify_ne _ _ e, DW.modify_ne _ _ e]
    exact h.body c

/-! ### The sleeping pass -/

theorem tick_frame (add : K → K → K) (dt : K) {s r : DW K × K} (h : SimW t 0 s.1 r.1) (hm : r.2 = s.2) (b : Nat) :
    SimW t 0 (DW.tick add dt s b).1 (DW.tick add dt r b).1 ∧ (DW.tick add dt r b).2 = (DW.tick add dt s b).2 := by
  unfold DW.tick
  cases hd : s.1.body b with
  | none => rw [(h.body b).none hd]; exact ⟨h, hm⟩
  | some d =>
    obtain ⟨e, he, q⟩ := (h.body b).some hd
    rw [he]
    have ha : r.1.atRest e = s.1.atRest d := by
      obtain ⟨c, p, o, rfl, _⟩ := q
      unfold DW.atRest
      rw [h.limL, h.limA]
      dsimp only
      rw [add_zero]
    have hs : e.sleepTime = d.sleepTime := by obtain ⟨c, p, o, rfl, _⟩ := q; rfl
    have ht : ∀ x (d e : Dyn K), Sim t 0 d e → Sim t 0 { d with sleepTime := x } { e with sleepTime := x } := by
      rintro x d e ⟨c, p, o, rfl, h1, h2, h3⟩
      exact ⟨c, p, o, rfl, h1, h2, Or.inl rfl⟩
    dsimp only
    rw [ha, q.type, hs, hm]
    split
    · exact ⟨h, hm⟩
    · split
      · exact ⟨h.modify b (ht _), rfl⟩
      · exact ⟨h.modify b (ht _), rfl⟩

theorem ticks_frame (add : K → K → K) (dt : K) : ∀ (l : List Nat) {s r : DW K × K}, SimW t 0 s.1 r.1 → r.2 = s.2 →
    SimW t 0 (l.foldl (DW.tick add dt) s).1 (l.foldl (DW.tick add dt) r).1 ∧ (l.foldl (DW.tick add dt) r).2 = (l.foldl (DW.tick add dt) s).2
  | [], _, _, h, hm => ⟨h, hm⟩
  | b :: l, _, _, h, hm => by
    obtain ⟨a, c⟩ := tick_frame add dt h hm b
    exact ticks_frame add dt l a c

theorem nod_frame : ∀ (l : List Nat) {w z : DW K}, SimW t 0 w z →
    SimW t 0 (l.foldl (fun w b => w.modify b fun d => d.setIsSleeping true) w) (l.foldl (fun w b => w.modify b fun d => d.setIsSleeping true) z)
  | [], _, _, h => h
  | b :: l, _, _, h => nod_frame l (h.modify b fun _ _ k => k.nod rfl)

theorem sleepIsland_frame (add : K → K → K) (big dt : K) (h : SimW t 0 w z) (l : List Nat) : SimW t 0 (DW.sleepIsland add big dt w l) (DW.sleepIsland add big dt z l) := by
  obtain ⟨a, c⟩ := ticks_frame add dt l (s := (w, big)) (r := (z, big)) h rfl
  unfold DW.sleepIsland
  dsimp only
  rw [c, a.before]
  split
  · exact nod_frame l a
  · exact a

theorem updateSleeping_frame (add : K → K → K) (big dt : K) : ∀ (is : List (List Nat)) {w z : DW K}, SimW t 0 w z →
    SimW t 0 (DW.updateSleeping add big dt w is) (DW.updateSleeping add big dt z is)
  | [], _, _, h => h
  | l :: is, _, _, h => updateSleeping_frame add big dt is (sleepIsland_frame add big dt h l)

end worlds

/-! ### The step -/

section step
variable {t u : V3 K} {i : In K} {w z : DW K}

/-- Bodies after the integration of velocities. -/
def Ready (t u : V3 K) (d e : Dyn K) : Prop :=
  ∃ p o, e = { d with vel := d.vel + u, comWorld := d.comWorld + t, tr := ⟨d.tr.pos + t, d.tr.ori⟩, cVel := d.cVel + u, cPos := p, cOri := o } ∧
    (d.type = .static → p = d.cPos + t ∧ o = d.cOri) ∧ Free u d

theorem smul_one (x : V3 K) : V3.smul (1 / (1 + 0)) x = x := by
  ext <;> simp [V3.smul]

theorem Sim.ready {d e : Dyn K} (h : Sim t u d e) (dt : K) (g : Option (V3 K)) : Ready t u (d.updateInertia.integrateVel dt g) (e.updateInertia.integrateVel dt g) := by
  obtain ⟨c, p, o, rfl, h1, h2, h3⟩ := h
  unfold Dyn.updateInertia
  dsimp only
  by_cases hd : d.disabled = true
  · have hu : u = 0 := h3.resolve_right fun k => by rw [hd] at k; exact absurd k.1 (by decide)
    rw [if_pos hd, if_pos hd]
    unfold Dyn.integrateVel
    rw [if_pos hd, if_pos (by exact hd), h1 hu]
    refine ⟨p, o, ?_, h2, h3⟩
    rw [hu, add_zero, add_zero]
  · rw [if_neg hd, if_neg hd]
    unfold Dyn.integrateVel
    rw [if_neg (by exact hd), if_neg (by exact hd)]
    have key : ∀ a b : V3 K, b = a + u → V3.smul (1 / (1 + d.linDamp * dt)) b = V3.smul (1 / (1 + d.linDamp * dt)) a + u := by
      rintro a b rfl
      rcases h3 with hu | ⟨_, _, hl, _⟩
      · rw [hu, add_zero, add_zero]
      · rw [hl, zero_mul, smul_one, smul_one]
    unfold Dyn.integrateDamping Dyn.integrateGravity Dyn.integrateForce
    cases g with
    | none =>
      dsimp only
      rw [key (d.vel + V3.had (V3.smul (dt * d.invMass) d.linLock) d.force) _ (add3 _ _ _)]
      exact ⟨p, o, rfl, h2, h3⟩
    | some g =>
      dsimp only
      by_cases hg : d.gravity = true
      · rw [if_pos hg, if_pos hg]
        dsimp only
        rw [key (d.vel + V3.had (V3.smul (dt * d.invMass) d.linLock) d.force + V3.had (V3.smul d.mass (V3.smul (dt * d.invMass) d.linLock)) g)
          (d.vel + u + V3.had (V3.smul (dt * d.invMass) d.linLock) d.force + V3.had (V3.smul d.mass (V3.smul (dt * d.invMass) d.linLock)) g) (by abel)]
        exact ⟨p, o, rfl, h2, h3⟩
      · rw [if_neg hg, if_neg hg]
        dsimp only
        rw [key (d.vel + V3.had (V3.smul (dt * d.invMass) d.linLock) d.force) _ (add3 _ _ _)]
        exact ⟨p, o, rfl, h2, h3⟩

/-- The body exists. -/
def Ex (w : DW K) (b : Nat) : Prop := ∃ d, w.body b = some d

theorem ready_both (h : SimW t u w z) (b : Nat) : Both (Ready t u) ((ready i w).body b) ((ready (moveIn t i) z).body b) := by
  show Both _ (((w.body b).map _).map _) (((z.body b).map _).map _)
  refine Both.map (R := Sim t u) (Both.map (h.body b) fun d e k => ?_) fun d e k => k.ready _ _
  show Sim t u (if i.islands.any _ then _ else _) (if i.islands.any _ then _ else _)
  split
  · exact k.wake
  · exact k

theorem ready_some {b : Nat} {d : Dyn K} (hd : w.body b = some d) :
    (ready i w).body b = some ((if i.islands.any (fun l => l.contains b) then d.setIsSleeping false else d).updateInertia.integrateVel i.dt i.g) := by
  show ((w.body b).map _).map _ = _
  rw [hd]; rfl

theorem ready_dyn (h : SimW t u w z) {b : Nat} (hb : Ex w b) : Ready t u (dyn (ready i w) b) (dyn (ready (moveIn t i) z) b) := by
  obtain ⟨d, hd⟩ := hb
  have hd' := ready_some (i := i) hd
  obtain ⟨e, he, q⟩ := (ready_both (i := i) h b).some hd'
  unfold dyn
  rw [hd', he]
  exact q

theorem jbody_move {d e : Dyn K} (h : Ready t u d e) : jbody e = moveJ t u (jbody d) := by
  obtain ⟨p, o, rfl, _⟩ := h
  rfl

theorem velOf_move {d e : Dyn K} (h : Ready t u d e) : velOf e = boost u (velOf d) := by
  obtain ⟨p, o, rfl, _⟩ := h
  rfl

theorem solved_frame (h : SimW t u w z) (hl : Live i w) : Alike (Ex w) u (solved i w) (solved (moveIn t i) z) :=
  solveStep_frame (G := Ex w) (t := t) (body := fun b => jbody (dyn (ready i w) b)) (body' := fun b => jbody (dyn (ready (moveIn t i) z) b))
    (fun _ hb => jbody_move (ready_dyn h hb)) { i.cc with dt := i.dt } { i.jc with dt := i.dt } (fun b => velOf (dyn (ready i w) b)) (fun b => velOf (dyn (ready (moveIn t i) z) b))
    (joints i.pins) i.mans i.nv (fun _ hb => velOf_move (ready_dyn h hb))
    (fun J hJ => ⟨let ⟨d, k, _⟩ := (hl.joints J hJ).1; ⟨d, k⟩, let ⟨d, k, _⟩ := (hl.joints J hJ).2; ⟨d, k⟩⟩) hl.mans

/-- Bodies after the integration of positions. -/
def Mid (t u t' : V3 K) (d e : Dyn K) : Prop :=
  ∃ p o, e = { d with vel := d.vel + u, comWorld := d.comWorld + t, tr := ⟨d.tr.pos + t, d.tr.ori⟩, cVel := d.cVel + u, cPos := p, cOri := o } ∧
    (d.type = .static ∨ d.disabled = false → p = d.cPos + t' ∧ o = d.cOri) ∧ Free u d

/-- Where the other frame is after the step. -/
def next (t u : V3 K) (i : In K) : V3 K := t + V3.smul i.dt u

theorem next_rest (hu : u = 0) : next t u i = t := by
  subst hu
  unfold next
  ext <;> simp [V3.smul]

theorem midway_frame (h : SimW t u w z) (hl : Live i w) {b : Nat} (hb : Ex w b) : Mid t u (next t u i) (midway i w b) (midway (moveIn t i) z b) := by
  have q := ready_dyn (i := i) h hb
  have e : (solved (moveIn t i) z).1 b = boost u ((solved i w).1 b) := (solved_frame h hl).1 b hb
  unfold midway vels
  rw [e]
  show Mid t u (next t u i) (((dyn (ready i w) b).solveVel _).integratePos i.dt (if i.cc.split then 1 else 0)) (((dyn (ready (moveIn t i) z) b).solveVel _).integratePos i.dt (if i.cc.split then 1 else 0))
  generalize (dyn (ready (moveIn t i) z) b) = y at q ⊢
  generalize (dyn (ready i w) b) = x at q ⊢
  generalize (solved i w).1 b = v
  generalize (if i.cc.split then (1 : K) else 0) = s
  obtain ⟨p, o, rfl, h2, h3⟩ := q
  unfold Dyn.solveVel boost Dyn.integratePos
  dsimp only
  by_cases hd : x.disabled = true
  · have hu : u = 0 := h3.resolve_right fun k => by rw [hd] at k; exact absurd k.1 (by decide)
    rw [if_pos hd, if_pos hd]
    refine ⟨p, o, rfl, fun k => ?_, h3⟩
    rw [next_rest hu]
    rcases k with k | k
    · exact h2 k
    · exact absurd (hd.symm.trans k) (by decide)
  · rw [if_neg hd, if_neg hd]
    refine ⟨_, _, rfl, fun _ => ⟨?_, rfl⟩, h3⟩
    unfold next
    ext <;> simp only [V3.add_x, V3.add_y, V3.add_z, V3.smul] <;> ring

/-- Bodies whose constrained poses mean something. -/
def Posed (i : In K) (w : DW K) (b : Nat) : Prop := Ex w b ∧ ((midway i w b).type = .static ∨ (midway i w b).disabled = false)

theorem pbody_move {t' : V3 K} {d e : Dyn K} (h : Mid t u t' d e) : PBody.ofDyn d = PBody.ofDyn e := by
  obtain ⟨p, o, rfl, _⟩ := h
  rfl

theorem pose_move {t' : V3 K} {d e : Dyn K} (h : Mid t u t' d e) (hd : d.type = .static ∨ d.disabled = false) : Pose.ofDyn e = shift t' (Pose.ofDyn d) := by
  obtain ⟨p, o, rfl, k, _⟩ := h
  obtain ⟨rfl, rfl⟩ := k hd
  rfl

theorem midway_flags (i : In K) (w : DW K) (b : Nat) : (midway i w b).type = (dyn (ready i w) b).type ∧ (midway i w b).disabled = (dyn (ready i w) b).disabled := by
  unfold midway Dyn.integratePos Dyn.solveVel
  dsimp only
  split_ifs <;> exact ⟨rfl, rfl⟩

theorem vel_flags (dt : K) (g : Option (V3 K)) (d : Dyn K) : (d.updateInertia.integrateVel dt g).type = d.type ∧ (d.updateInertia.integrateVel dt g).disabled = d.disabled := by
  unfold Dyn.integrateVel Dyn.updateInertia Dyn.integrateDamping Dyn.integrateGravity Dyn.integrateForce
  cases g <;> dsimp only <;> split_ifs <;> exact ⟨rfl, rfl⟩

theorem Awake.posed {b : Nat} (h : Awake i w b) : Posed i w b := by
  obtain ⟨d, hd, k⟩ := h
  refine ⟨⟨d, hd⟩, ?_⟩
  rw [(midway_flags i w b).1, (midway_flags i w b).2]
  unfold dyn
  rw [ready_some hd, Option.getD_some, (vel_flags _ _ _).1, (vel_flags _ _ _).2]
  have wt : (d.setIsSleeping false).type = d.type := by
    unfold Dyn.setIsSleeping
    dsimp only
    split_ifs <;> rfl
  rcases k with k | k | ⟨ks, ka, l, hl, hb⟩
  · left
    split
    · rw [wt, k]
    · exact k
  · right
    split
    · unfold Dyn.setIsSleeping
      dsimp only
      split_ifs <;> first | exact k | rfl
    · exact k
  · rw [if_pos (List.any_eq_true.2 ⟨l, hl, by simpa using hb⟩)]
    unfold Dyn.setIsSleeping
    rw [if_neg (by rw [ks]; decide)]
    by_cases hs : d.type = .static
    · rw [if_pos hs]; exact Or.inl hs
    · rw [if_neg hs, if_neg (by rw [ka]; decide)]
      exact Or.inr rfl

theorem solved_pins {G : Nat → Prop} (h : ∀ J ∈ joints i.pins, G J.b1 ∧ G J.b2) : InPins G (pins (solved i w).2.1) := by
  have key := (step_same { i.cc with dt := i.dt } { i.jc with dt := i.dt } (fun b => jbody (dyn (ready i w) b)) (fun b => velOf (dyn (ready i w) b)) (joints i.pins) i.mans i.nv
    (P := fun J => G J.b1 ∧ G J.b2) (Q := fun _ => True) (fun J N hJ hs => by rw [hs.bodies.1, hs.bodies.2]; exact hJ) (fun _ _ _ _ => trivial)
    (fun J hJ => by rw [(init_bodies _ _ J).1, (init_bodies _ _ J).2]; exact h J hJ) (fun _ _ => trivial)).1
  change ∀ J ∈ (solved i w).2.1, G J.b1 ∧ G J.b2 at key
  constructor
  all_goals
    intro J hJ
    obtain ⟨N, hN, e⟩ := List.mem_filterMap.1 hJ
    cases N <;> cases e
    exact key _ hN

theorem corrected_frame (h : SimW t u w z) (hl : Live i w) :
    Map (Posed i w) (shift (next t u i)) (corrected i w).1 (corrected (moveIn t i) z).1 ∧ (corrected i w).2 = (corrected (moveIn t i) z).2 := by
  have := correct_frame (G := Posed i w) (cfg := { i.jc with dt := i.dt }) (t := next t u i) (body := fun b => PBody.ofDyn (midway i w b)) (body' := fun b => PBody.ofDyn (midway (moveIn t i) z b))
    (fun b hb => pbody_move (midway_frame h hl hb.1)) i.np (fun b => Pose.ofDyn (midway i w b)) (fun b => Pose.ofDyn (midway (moveIn t i) z b)) (pins (solved i w).2.1)
    (solved_pins fun J hJ => ⟨(hl.joints J hJ).1.posed, (hl.joints J hJ).2.posed⟩) (fun b hb => pose_move (midway_frame h hl hb.1) hb.2)
  rw [show pins (solved i w).2.1 = pins (solved (moveIn t i) z).2.1 by rw [(solved_frame h hl).2]] at this
  have e : pins (solved i w).2.1 = pins (solved (moveIn t i) z).2.1 := by rw [(solved_frame h hl).2]
  unfold corrected
  rw [e]
  exact this

theorem moved_dyn {b : Nat} (hb : Ex w b) : (DW.moved (i.args (fun b => some (vels i w b)) fun b => some (poss i w b)) w).body b =
    some (((midway i w b).solvePos (some (poss i w b))).updateState i.len) := by
  obtain ⟨d, hd⟩ := hb
  have e : (ready i w).body b = some (dyn (ready i w) b) := by
    unfold dyn
    rw [ready_some hd]; rfl
  show ((ready i w).body b).map _ = _
  rw [e]
  rfl

theorem moved_frame (h : SimW t u w z) (hl : Live i w) : SimW (next t u i) u (DW.moved (i.args (fun b => some (vels i w b)) fun b => some (poss i w b)) w)
    (DW.moved ((moveIn t i).args (fun b => some (vels (moveIn t i) z b)) fun b => some (poss (moveIn t i) z b)) z) := by
  refine ⟨fun b => ?_, h.on, h.limL, h.limA, h.before, h.free⟩
  cases hd : w.body b with
  | none =>
    have hz := (h.body b).none hd
    rw [DW.moved_body, DW.moved_body]
    show Both _ (((w.body b).map _).map _) (((z.body b).map _).map _)
    rw [hd, hz]
    trivial
  | some d =>
    have hb : Ex w b := ⟨d, hd⟩
    obtain ⟨e, he, _⟩ := (h.body b).some hd
    rw [moved_dyn hb, moved_dyn ⟨e, he⟩]
    have q := midway_frame h hl hb
    have k : ((midway i w b).type = .static ∨ (midway i w b).disabled = false) → (corrected (moveIn t i) z).1 b = shift (next t u i) ((corrected i w).1 b) :=
      fun k => (corrected_frame h hl).1 b ⟨hb, k⟩
    show Sim _ _ _ (Dyn.updateState i.len _)
    unfold poss
    generalize midway i w b = x at q k ⊢
    generalize midway (moveIn t i) z b = y at q ⊢
    generalize (corrected i w).1 b = c at k ⊢
    generalize (corrected (moveIn t i) z).1 b = c' at k ⊢
    obtain ⟨p, o, rfl, h2, h3⟩ := q
    unfold Dyn.solvePos Dyn.updateState
    dsimp only
    by_cases hx : x.disabled = true
    · have hu : u = 0 := h3.resolve_right fun k => by rw [hx] at k; exact absurd k.1 (by decide)
      rw [if_pos hx, if_pos hx, next_rest hu]
      refine ⟨_, _, _, rfl, fun _ => (by rw [hu, add_zero]), fun hs => ?_, h3⟩
      rw [k (Or.inl hs), next_rest hu]
      exact ⟨rfl, rfl⟩
    · rw [if_neg hx, if_neg hx]
      have hx' : x.disabled = false := by simpa using hx
      rw [k (Or.inr hx')]
      unfold shift
      dsimp only
      rw [sub3]
      exact ⟨_, _, _, rfl, fun hu => (by rw [hu, add_zero]), fun _ => ⟨rfl, rfl⟩, h3⟩

/-- **C137, a step.** A step of the other world is the step seen by the other observer, who has moved on. -/
theorem galileo_step (h : SimW t u w z) (hl : Live i w) : SimW (t + V3.smul i.dt u) u (update i w) (update (moveIn t i) z) := by
  have m := moved_frame h hl
  have r : ∀ {a b : DW K}, SimW (next t u i) u a b → SimW (next t u i) u (a.mapAll fun _ d => d.resetForces) (b.mapAll fun _ d => d.resetForces) := fun q =>
    q.mapAll fun _ d e k => by
      obtain ⟨c, p, o, rfl, h1, h2, h3⟩ := k
      exact ⟨c, p, o, rfl, h1, h2, h3⟩
  show SimW (next t u i) u (DW.update _ _) (DW.update _ _)
  unfold DW.update
  refine r ?_
  generalize (DW.moved (i.args (fun b => some (vels i w b)) fun b => some (poss i w b)) w) = x at m ⊢
  generalize (DW.moved ((moveIn t i).args (fun b => some (vels (moveIn t i) z b)) fun b => some (poss (moveIn t i) z b)) z) = y at m ⊢
  rw [m.on]
  by_cases hs : x.sleepOn = true
  · rw [if_pos hs, if_pos hs]
    have hu : u = 0 := m.free.resolve_right fun k => by rw [hs] at k; cases k
    subst hu
    exact updateSleeping_frame i.add i.big i.dt i.islands m
  · rw [if_neg hs, if_neg hs]
    exact m

/-- **C137, what is reported.** The impulses of all contacts and the state of all joints, also after the correction of positions, are the same. -/
theorem galileo_report (h : SimW t u w z) (hl : Live i w) : (solved (moveIn t i) z).2 = (solved i w).2 ∧ (corrected (moveIn t i) z).2 = (corrected i w).2 :=
  ⟨(solved_frame h hl).2.symm, (corrected_frame h hl).2.symm⟩

end step

/-! ### Histories -/

section history
variable {t u : V3 K}

theorem SimW.set {w z : DW K} (h : SimW t u w z) (b : Nat) {x y : Option (Dyn K)} (k : Both (Sim t u) x y) :
    SimW t u { w with body := upd w.body b x } { z with body := upd z.body b y } := by
  refine ⟨fun c => ?_, h.on, h.limL, h.limA, h.before, h.free⟩
  show Both _ (upd w.body b x c) (upd z.body b y c)
  by_cases e : c = b
  · subst e; rw [upd_same, upd_same]; exact k
  · rw [upd_ne _ _ e, upd_ne _ _ e]; exact h.body c

theorem create_sim (T : Trans K) : Sim t u (Dyn.create T) ((Dyn.create ⟨T.pos + t, T.ori⟩).setLinearVelocity u) := by
  have e : (Dyn.create (⟨T.pos + t, T.ori⟩ : Trans K)).setLinearVelocity u = { Dyn.create (⟨T.pos + t, T.ori⟩ : Trans K) with vel := u } := by
    unfold Dyn.setLinearVelocity
    rw [if_neg (by intro k; cases k)]
    dsimp only
    rw [setIsSleeping_id (by rfl), ite_self]
  rw [e]
  refine ⟨0, 0, ⟨0, 0, 0, 1⟩, ?_, fun _ => rfl, fun k => (by cases k), Or.inr ⟨rfl, rfl, rfl, fun k => by cases k⟩⟩
  unfold Dyn.create
  dsimp only
  rw [zero_add]

theorem run_frame {w z : DW K} (h : SimW t u w z) (e : Ev K) (hf : Fair u w [e]) : SimW (t + V3.smul (dur e) u) u (e.run w) ((moveEv t u e).foldl Ev.run z) := by
  have z0 : t + V3.smul (0 : K) u = t := by ext <;> simp [V3.smul]
  have hf := hf.1
  cases e with
  | step i => exact galileo_step h hf
  | create b T =>
    show SimW (t + V3.smul 0 u) u _ _
    rw [z0]
    have : (moveEv t u (.create b T)).foldl Ev.run z = { z with body := upd z.body b (some ((Dyn.create ⟨T.pos + t, T.ori⟩).setLinearVelocity u)) } := by
      refine Apart.dw_ext (funext fun c => ?_) rfl rfl rfl rfl
      show upd (upd z.body b _) b _ c = upd z.body b _ c
      by_cases k : c = b
      · subst k
        rw [upd_same, upd_same]
        show Option.map _ (upd z.body c _ c) = _
        rw [upd_same]; rfl
      · rw [upd_ne _ _ k, upd_ne _ _ k, upd_ne _ _ k]
    rw [this]
    exact h.set b (create_sim T)
  | destroy b =>
    show SimW (t + V3.smul 0 u) u _ _
    rw [z0]
    exact h.set b trivial
  | call b o =>
    show SimW (t + V3.smul 0 u) u _ _
    rw [z0]
    exact h.modify b fun d e k => k.exec o hf
  | enableSleeping b =>
    show SimW (t + V3.smul 0 u) u (w.enableSleeping b) (z.enableSleeping b)
    rw [z0]
    have k : SimW t u { w with sleepOn := b } { z with sleepOn := b } := ⟨h.body, rfl, h.limL, h.limA, h.before, hf⟩
    unfold DW.enableSleeping
    dsimp only
    split
    · exact k.mapAll fun _ _ _ q => q.wake
    · exact k
  | limits l a s =>
    show SimW (t + V3.smul 0 u) u _ _
    rw [z0]
    exact ⟨h.body, h.on, rfl, rfl, rfl, h.free⟩

/-- **C137, histories.** Two observers, the second further by `t` and faster by `u`, describe every history the same way; the distance grows by `u` times the time that passes. -/
theorem galileo : ∀ (es : List (Ev K)) {t : V3 K} {w z : DW K}, SimW t u w z → Fair u w es →
    SimW (t + V3.smul (total es) u) u (es.foldl Ev.run w) ((moveAll u t es).foldl Ev.run z)
  | [], t, w, z, h, _ => by
    have z0 : t + V3.smul (total ([] : List (Ev K))) u = t := by ext <;> simp [total, V3.smul]
    rw [z0]; exact h
  | e :: es, t, w, z, h, hf => by
    have a := galileo es (run_frame h e ⟨hf.1, trivial⟩) hf.2
    have k : t + V3.smul (dur e) u + V3.smul (total es) u = t + V3.smul (total (e :: es)) u := by
      ext <;> simp only [total, List.map_cons, List.sum_cons, V3.add_x, V3.add_y, V3.add_z, V3.smul] <;> ring
    rw [k] at a
    show SimW _ _ _ ((moveEv t u e ++ moveAll u _ es).foldl Ev.run z)
    rw [List.foldl_append]
    exact a

theorem empty_sim (t u : V3 K) (on : Bool) (l a b : K) (h : u = 0 ∨ on = false) : SimW t u (DW.empty on l a b) (DW.empty on l a b) :=
  ⟨fun _ => trivial, rfl, rfl, rfl, rfl, h⟩

/-- **C137, places.** The same history elsewhere, from the creation of the world: any body is exactly the shifted one, with the same velocities, forces, masses and sleep. No
restriction on the calls. -/
theorem same_everywhere (t : V3 K) (on : Bool) (l a b : K) (es : List (Ev K)) (hf : Fair 0 (DW.empty on l a b) es) :
    SimW t 0 (es.foldl Ev.run (DW.empty on l a b)) ((moveAll 0 t es).foldl Ev.run (DW.empty on l a b)) := by
  have := galileo es (empty_sim t 0 on l a b (Or.inl rfl)) hf
  have z0 : t + V3.smul (total es) (0 : V3 K) = t := by ext <;> simp [V3.smul]
  rwa [z0] at this

/-- What the user sees of related bodies. -/
theorem SimW.seen {w z : DW K} (h : SimW t u w z) {b : Nat} {d : Dyn K} (hd : w.body b = some d) : ∃ e, z.body b = some e ∧
    e.tr = ⟨d.tr.pos + t, d.tr.ori⟩ ∧ e.comWorld = d.comWorld + t ∧ e.vel = d.vel + u ∧ e.ang = d.ang ∧ e.force = d.force ∧ e.torque = d.torque ∧
    e.type = d.type ∧ e.active = d.active ∧ e.sleeping = d.sleeping ∧ e.sleepTime = d.sleepTime ∧ e.mass = d.mass ∧ e.inertia = d.inertia ∧ e.comLocal = d.comLocal := by
  obtain ⟨e, he, c, p, o, rfl, _⟩ := (h.body b).some hd
  exact ⟨_, he, rfl, rfl, rfl, rfl, rfl, rfl, rfl, rfl, rfl, rfl, rfl, rfl, rfl⟩

end history

end Galileo
end RP3D
