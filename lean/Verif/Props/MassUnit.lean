import Verif.Solver.Heavier
import Verif.Props.Isotropy

/-! C144: the unit of mass does not matter, up to joints. -/

set_option linter.unusedSectionVars false

namespace RP3D
namespace MassUnit
open Solver Joints Whole Heavier
open Apart (Ev)
open Galileo (Both Awake)
variable {K : Type} [Field K] [LinearOrder K] [IsStrictOrderedRing K]

/-! ### Specification -/

/-- The body with its mass, its inertia and the forces on it multiplied by `s`. The tensor of the world is recomputed in each step unless the body is disabled; that of a static body is zero. -/
def Sim (s : K) (d e : Dyn K) : Prop :=
  ∃ M, e = { d with
      mass := s * d.mass, invMass := d.invMass / s, inertia := V3.smul s d.inertia, invInertia := V3.smul (1 / s) d.invInertia
      force := V3.smul s d.force, torque := V3.smul s d.torque, invInertiaW := M } ∧
    (d.type = .static → d.disabled = true ∧ d.invInertiaW = M3.zero ∧ M = M3.zero)

/-- The world in the other unit. -/
structure SimW (s : K) (w z : DW K) : Prop where
  body : ∀ b, Both (Sim s) (w.body b) (z.body b)
  on : z.sleepOn = w.sleepOn
  limL : z.limL = w.limL
  limA : z.limA = w.limA
  before : z.before = w.before

/-- The input of a step in the other unit: impulses stored with the contacts are multiplied by `s`. -/
def scaleIn (s : K) (i : In K) : In K := { i with mans := i.mans.map (scaleXM s) }

/-- A collider `s` times as dense. -/
def scaleCol (s : K) (c : Dyn.MassCol K) : Dyn.MassCol K := { c with mass := s * c.mass, inertia := V3.smul s c.inertia }

/-- The call in the other unit. -/
def scaleOp (s : K) : Dyn.Op K → Dyn.Op K
  | .force f p => .force (V3.smul s f) p
  | .forceLocalPos f p => .forceLocalPos (V3.smul s f) p
  | .localForce f p => .localForce (V3.smul s f) p
  | .localForceLocalPos f p => .localForceLocalPos (V3.smul s f) p
  | .forceCenter f => .forceCenter (V3.smul s f)
  | .localForceCenter f => .localForceCenter (V3.smul s f)
  | .torque m => .torque (V3.smul s m)
  | .localTorque m => .localTorque (V3.smul s m)
  | .setInertia i => .setInertia (V3.smul s i)
  | .inertiaFromColliders cs => .inertiaFromColliders (cs.map (scaleCol s))
  | .massFromColliders cs => .massFromColliders (cs.map (scaleCol s))
  | .setMass m => .setMass (s * m)
  | .centerFromColliders cs => .centerFromColliders (cs.map (scaleCol s))
  | .massProperties cs => .massProperties (cs.map (scaleCol s))
  | o => o

/-- The events in the other unit. A new body has mass and inertia one, whatever the unit. -/
def scaleEv (s : K) : Ev K → List (Ev K)
  | .create b T => [.create b T, .call b (.setMass s), .call b (.setInertia ⟨s, s, s⟩)]
  | .call b o => [.call b (scaleOp s o)]
  | .step i => [.step (scaleIn s i)]
  | e => [e]

/-- Colliders have no negative mass. -/
def Fine : Dyn.Op K → Prop
  | .centerFromColliders cs => ∀ c ∈ cs, 0 ≤ c.mass
  | .massProperties cs => ∀ c ∈ cs, 0 ≤ c.mass
  | _ => True

/-- A step without joints whose contacts are between bodies that are static or awake. -/
structure Clear (i : In K) (w : DW K) : Prop where
  pins : i.pins = ⟨[], [], [], []⟩
  mans : ∀ X ∈ i.mans, Awake i w X.b1 ∧ Awake i w X.b2

def Fair : DW K → List (Ev K) → Prop
  | _, [] => True
  | w, e :: es => (match e with
      | .step i => Clear i w
      | .call _ o => Fine o
      | _ => True) ∧ Fair (e.run w) es

/-! ### Colliders -/

section colliders
variable {s : K} (hs : 0 < s)

theorem smul_add (s : K) (a b : V3 K) : V3.smul s (a + b) = V3.smul s a + V3.smul s b := by
  ext <;> simp only [V3.smul, V3.add_x, V3.add_y, V3.add_z] <;> ring

theorem smul_zero (s : K) : V3.smul s (0 : V3 K) = 0 := by ext <;> simp [V3.smul]

theorem mass_fold (cs : List (Dyn.MassCol K)) : ∀ m : K, (cs.map (scaleCol s)).foldl (fun m c => m + c.mass) (s * m) = s * cs.foldl (fun m c => m + c.mass) m := by
  induction cs with
  | nil => exact fun _ => rfl
  | cons c cs ih =>
      intro m
      rw [List.map_cons, List.foldl_cons, List.foldl_cons, ← ih]
      show List.foldl _ (s * m + s * c.mass) _ = _
      rw [mul_add]

theorem totalMass_scale (s : K) (cs : List (Dyn.MassCol K)) : Dyn.totalMass (cs.map (scaleCol s)) = s * Dyn.totalMass cs := by
  have := mass_fold (s := s) cs 0
  rwa [mul_zero] at this

theorem center_fold (cs : List (Dyn.MassCol K)) : ∀ a : V3 K, (cs.map (scaleCol s)).foldl (fun a c => a + V3.smul c.mass c.tr.pos) (V3.smul s a) =
    V3.smul s (cs.foldl (fun a c => a + V3.smul c.mass c.tr.pos) a) := by
  induction cs with
  | nil => exact fun _ => rfl
  | cons c cs ih =>
      intro a
      rw [List.map_cons, List.foldl_cons, List.foldl_cons, ← ih]
      show List.foldl _ (V3.smul s a + V3.smul (s * c.mass) c.tr.pos) _ = _
      refine congrArg (fun x => List.foldl _ x _) ?_
      ext <;> simp only [V3.smul, V3.add_x, V3.add_y, V3.add_z] <;> ring

/-- Colliders without mass. -/
theorem massless (cs : List (Dyn.MassCol K)) (h : ∀ c ∈ cs, 0 ≤ c.mass) : ∀ m : K, 0 ≤ m → m ≤ cs.foldl (fun m c => m + c.mass) m ∧
    (cs.foldl (fun m c => m + c.mass) m ≤ 0 → ∀ a : V3 K, cs.foldl (fun a c => a + V3.smul c.mass c.tr.pos) a = a) := by
  induction cs with
  | nil => exact fun m _ => ⟨le_rfl, fun _ _ => rfl⟩
  | cons c cs ih =>
      intro m hm
      have hc := h c (List.mem_cons_self ..)
      obtain ⟨k1, k2⟩ := ih (fun x hx => h x (List.mem_cons_of_mem _ hx)) (m + c.mass) (add_nonneg hm hc)
      rw [List.foldl_cons]
      refine ⟨by linarith, fun k a => ?_⟩
      have c0 : c.mass = 0 := by linarith
      rw [List.foldl_cons, k2 k, c0]
      ext <;> simp [V3.smul]

include hs in
theorem computeCenter_scale (cs : List (Dyn.MassCol K)) (h : ∀ c ∈ cs, 0 ≤ c.mass) : Dyn.computeCenter (cs.map (scaleCol s)) = Dyn.computeCenter cs := by
  have e := center_fold (s := s) cs 0
  rw [smul_zero] at e
  unfold Dyn.computeCenter
  dsimp only
  rw [totalMass_scale, e]
  by_cases k : 0 < Dyn.totalMass cs
  · rw [if_pos k, if_pos (mul_pos hs k)]
    ext <;> simp only [V3.smul] <;> exact mul_div_mul_left _ _ hs.ne'
  · have k' : ¬ 0 < s * Dyn.totalMass cs := fun q => k (by rwa [mul_pos_iff_of_pos_left hs] at q)
    rw [if_neg k, if_neg k', ((massless cs h 0 le_rfl).2 (not_lt.1 k)), smul_zero]

theorem inertia_fold (com : V3 K) (cs : List (Dyn.MassCol K)) : ∀ a : M3 K, (cs.map (scaleCol s)).foldl (fun a c => M3.add a (Dyn.colTensor com c)) (a.scale s) =
    (cs.foldl (fun a c => M3.add a (Dyn.colTensor com c)) a).scale s := by
  induction cs with
  | nil => exact fun _ => rfl
  | cons c cs ih =>
      intro a
      rw [List.map_cons, List.foldl_cons, List.foldl_cons, ← ih]
      refine congrArg (fun x => List.foldl _ x _) ?_
      unfold Dyn.colTensor scaleCol
      simp only [M3.add, M3.scale, M3.mul, M3.transpose, M3.of, V3.smul, M3.mk.injEq]
      refine ⟨?_, ?_, ?_⟩ <;> ext <;> simp only [V3.add_x, V3.add_y, V3.add_z] <;> ring

theorem computeInertia_scale (s : K) (com : V3 K) (cs : List (Dyn.MassCol K)) : Dyn.computeInertia com (cs.map (scaleCol s)) = V3.smul s (Dyn.computeInertia com cs) := by
  have e := inertia_fold (s := s) com cs M3.zero
  rw [show (M3.zero : M3 K).scale s = M3.zero by simp [M3.zero, M3.scale, M3.of, V3.smul]] at e
  unfold Dyn.computeInertia
  dsimp only
  rw [e]
  ext <;> simp only [M3.scale, M3.of, V3.smul] <;> exact mul_comm _ _

include hs in
theorem invOf_heavy (m : K) : Dyn.invOf (s * m) = Dyn.invOf m / s := by
  unfold Dyn.invOf
  by_cases k : 0 < m
  · rw [if_pos k, if_pos (mul_pos hs k)]; field_simp
  · have k' : ¬ 0 < s * m := fun q => k (by rwa [mul_pos_iff_of_pos_left hs] at q)
    rw [if_neg k, if_neg k', zero_div]

include hs in
theorem invOfI_heavy (m : K) : Dyn.invOfI (s * m) = 1 / s * Dyn.invOfI m := by
  unfold Dyn.invOfI
  by_cases k : m = 0
  · rw [k, mul_zero, if_neg (by simp), mul_zero]
  · rw [if_pos (mul_ne_zero hs.ne' k), if_pos k]; field_simp

include hs in
theorem invOfTensor_heavy (v : V3 K) : Dyn.invOfTensor (V3.smul s v) = V3.smul (1 / s) (Dyn.invOfTensor v) := by
  unfold Dyn.invOfTensor
  ext <;> simp only [V3.smul] <;> exact invOfI_heavy hs _

end colliders

/-! ### Calls -/

section calls
variable {s : K} {d e : Dyn K}

theorem Sim.type (h : Sim s d e) : e.type = d.type := by obtain ⟨M, rfl, _⟩ := h; rfl
theorem Sim.sleeping (h : Sim s d e) : e.sleeping = d.sleeping := by obtain ⟨M, rfl, _⟩ := h; rfl
theorem Sim.com (h : Sim s d e) : e.comWorld = d.comWorld := by obtain ⟨M, rfl, _⟩ := h; rfl
theorem Sim.tr (h : Sim s d e) : e.tr = d.tr := by obtain ⟨M, rfl, _⟩ := h; rfl
theorem Sim.local (h : Sim s d e) : e.comLocal = d.comLocal := by obtain ⟨M, rfl, _⟩ := h; rfl

theorem Sim.sleep (h : Sim s d e) (b : Bool) : Sim s (d.setIsSleeping b) (e.setIsSleeping b) := by
  obtain ⟨M, rfl, h1⟩ := h
  unfold Dyn.setIsSleeping
  dsimp only
  split_ifs with k1 k2 k3 k4
  · exact ⟨M, rfl, h1⟩
  · exact ⟨M, rfl, h1⟩
  · exact ⟨M, rfl, h1⟩
  · exact ⟨M, by simp only [smul_zero], fun k => absurd k k2⟩
  · exact ⟨M, rfl, fun k => absurd k k2⟩

theorem Sim.wakeIf (h : Sim s d e) : Sim s (if d.sleeping then d.setIsSleeping false else d) (if e.sleeping then e.setIsSleeping false else e) := by
  rw [h.sleeping]
  split
  · exact h.sleep false
  · exact h

theorem Sim.applyForceCenter (h : Sim s d e) (f : V3 K) : Sim s (d.applyForceCenter f) (e.applyForceCenter (V3.smul s f)) := by
  unfold Dyn.applyForceCenter
  by_cases k : d.type ≠ .dynamic
  · rw [if_pos k, if_pos (by rw [h.type]; exact k)]; exact h
  · have k' := k
    rw [← h.type] at k'
    rw [if_neg k, if_neg k']
    obtain ⟨M, q, h1⟩ := h.wakeIf
    dsimp only
    rw [q]
    exact ⟨M, by simp only [smul_add], h1⟩

theorem Sim.applyTorque (h : Sim s d e) (m : V3 K) : Sim s (d.applyTorque m) (e.applyTorque (V3.smul s m)) := by
  unfold Dyn.applyTorque
  by_cases k : d.type ≠ .dynamic
  · rw [if_pos k, if_pos (by rw [h.type]; exact k)]; exact h
  · have k' := k
    rw [← h.type] at k'
    rw [if_neg k, if_neg k']
    obtain ⟨M, q, h1⟩ := h.wakeIf
    dsimp only
    rw [q]
    exact ⟨M, by simp only [smul_add], h1⟩

theorem cross_smul (s : K) (a f : V3 K) : V3.cross a (V3.smul s f) = V3.smul s (V3.cross a f) := by
  ext <;> simp only [V3.cross, V3.smul] <;> ring

theorem Sim.applyForce (h : Sim s d e) (f p : V3 K) : Sim s (d.applyForce f p) (e.applyForce (V3.smul s f) p) := by
  unfold Dyn.applyForce
  by_cases k : d.type ≠ .dynamic
  · rw [if_pos k, if_pos (by rw [h.type]; exact k)]; exact h
  · have k' := k
    rw [← h.type] at k'
    rw [if_neg k, if_neg k']
    dsimp only
    obtain ⟨M, q, h1⟩ := h.wakeIf
    rw [q]
    exact ⟨M, by simp only [smul_add, cross_smul], h1⟩

theorem Sim.setAllowed (h : Sim s d e) (b : Bool) : Sim s (d.setAllowed b) (e.setAllowed b) := by
  have k : Sim s { d with allowed := b } { e with allowed := b } := by
    obtain ⟨M, rfl, h1⟩ := h
    exact ⟨M, rfl, h1⟩
  unfold Dyn.setAllowed
  dsimp only
  split_ifs
  · exact k.sleep false
  · exact k

theorem Sim.setIsActive (h : Sim s d e) (b : Bool) : Sim s (d.setIsActive b) (e.setIsActive b) := by
  have ea : e.active = d.active := by obtain ⟨M, rfl, _⟩ := h; rfl
  unfold Dyn.setIsActive
  rw [ea]
  split
  · exact h
  · obtain ⟨M, k, h1⟩ := h.sleep (!b)
    rw [k]
    exact ⟨M, rfl, h1⟩

theorem Sim.setCenter (h : Sim s d e) (x : V3 K) : Sim s (d.setCenter x) (e.setCenter x) := by
  obtain ⟨M, rfl, h1⟩ := h
  exact ⟨M, rfl, h1⟩

theorem Sim.setLinearVelocity (h : Sim s d e) (v : V3 K) : Sim s (d.setLinearVelocity v) (e.setLinearVelocity v) := by
  unfold Dyn.setLinearVelocity
  by_cases k : d.type = .static
  · rw [if_pos k, if_pos (h.type.trans k)]; exact h
  · have k' := k
    rw [← h.type] at k'
    rw [if_neg k, if_neg k']
    have q : Sim s { d with vel := v } { e with vel := v } := by
      obtain ⟨M, rfl, h1⟩ := h
      exact ⟨M, rfl, h1⟩
    dsimp only
    split
    · exact q.sleep false
    · exact q

theorem Sim.setAngularVelocity (h : Sim s d e) (v : V3 K) : Sim s (d.setAngularVelocity v) (e.setAngularVelocity v) := by
  unfold Dyn.setAngularVelocity
  by_cases k : d.type = .static
  · rw [if_pos k, if_pos (h.type.trans k)]; exact h
  · have k' := k
    rw [← h.type] at k'
    rw [if_neg k, if_neg k']
    have q : Sim s { d with ang := v } { e with ang := v } := by
      obtain ⟨M, rfl, h1⟩ := h
      exact ⟨M, rfl, h1⟩
    dsimp only
    split
    · exact q.sleep false
    · exact q

theorem Sim.setTransform (h : Sim s d e) (T : Trans K) : Sim s (d.setTransform T) (e.setTransform T) := by
  have q : Sim s
      (let d2 := { d with comWorld := T.act d.comLocal, vel := d.vel + V3.cross d.ang (T.act d.comLocal - d.comWorld) }
       if d.type = .static then { d2 with cPos := T.pos, cOri := T.ori } else d2)
      (let d2 := { e with comWorld := T.act e.comLocal, vel := e.vel + V3.cross e.ang (T.act e.comLocal - e.comWorld) }
       if e.type = .static then { d2 with cPos := T.pos, cOri := T.ori } else d2) := by
    obtain ⟨M, rfl, h1⟩ := h
    dsimp only
    split_ifs with k
    · exact ⟨M, rfl, h1⟩
    · exact ⟨M, rfl, h1⟩
  obtain ⟨M, k, h1⟩ := q.sleep false
  unfold Dyn.setTransform
  dsimp only at k ⊢
  rw [k]
  exact ⟨M, rfl, h1⟩

section positive
variable (hs : 0 < s)
include hs

theorem Sim.setInertia (h : Sim s d e) (x : V3 K) : Sim s (d.setInertia x) (e.setInertia (V3.smul s x)) := by
  obtain ⟨M, rfl, h1⟩ := h
  unfold Dyn.setInertia
  dsimp only
  split_ifs
  · exact ⟨M, by simp only [invOfTensor_heavy hs], h1⟩
  · exact ⟨M, rfl, h1⟩

theorem Sim.storeMass (h : Sim s d e) (x : K) : Sim s (d.storeMass x) (e.storeMass (s * x)) := by
  obtain ⟨M, rfl, h1⟩ := h
  unfold Dyn.storeMass
  dsimp only
  split_ifs
  · exact ⟨M, by simp only [invOf_heavy hs], h1⟩
  · exact ⟨M, rfl, h1⟩

theorem Sim.setType (h : Sim s d e) (t : BType) : Sim s (d.setType t) (e.setType t) := by
  unfold Dyn.setType
  by_cases k : d.type = t
  · rw [if_pos k, if_pos (h.type.trans k)]; exact h
  · have k' := k
    rw [← h.type] at k'
    rw [if_neg k, if_neg k']
    dsimp only
    have q : Sim s { (if t = .static ∨ t = .kinematic then (if t = .static then ({ d with type := t } : Dyn K).setTypeStatic else { d with type := t }).setTypeFixed
          else (if t = .static then ({ d with type := t } : Dyn K).setTypeStatic else { d with type := t }).setTypeDynamic) with disabled := decide (t = .static) }
        { (if t = .static ∨ t = .kinematic then (if t = .static then ({ e with type := t } : Dyn K).setTypeStatic else { e with type := t }).setTypeFixed
          else (if t = .static then ({ e with type := t } : Dyn K).setTypeStatic else { e with type := t }).setTypeDynamic) with disabled := decide (t = .static) } := by
      obtain ⟨M, rfl, h1⟩ := h
      cases t with
      | static => exact ⟨M3.zero, by simp [Dyn.setTypeStatic, Dyn.setTypeFixed, smul_zero], fun _ => ⟨rfl, rfl, rfl⟩⟩
      | kinematic => exact ⟨M3.zero, by simp [Dyn.setTypeFixed, smul_zero], fun q => absurd q (by simp [Dyn.setTypeFixed])⟩
      | dynamic => exact ⟨M, by simp [Dyn.setTypeDynamic, invOf_heavy hs, invOfTensor_heavy hs], fun q => absurd q (by simp [Dyn.setTypeDynamic])⟩
    obtain ⟨M, k, h1⟩ := q.sleep false
    rw [k]
    exact ⟨M, by simp only [smul_zero], h1⟩

theorem Sim.massProperties (h : Sim s d e) (cs : List (Dyn.MassCol K)) (hc : ∀ c ∈ cs, 0 ≤ c.mass) :
    Sim s (d.updateMassProperties cs) (e.updateMassProperties (cs.map (scaleCol s))) := by
  unfold Dyn.updateMassProperties
  dsimp only
  rw [computeCenter_scale hs cs hc, computeInertia_scale, totalMass_scale]
  refine Sim.storeMass hs (Sim.setInertia hs ?_ _) _
  obtain ⟨M, rfl, h1⟩ := h
  dsimp only
  split_ifs <;> exact ⟨M, rfl, h1⟩

/-- **Calls.** A call on a body and the call in the other unit. -/
theorem Sim.exec (h : Sim s d e) (o : Dyn.Op K) (ho : Fine o) : Sim s (d.exec o) (e.exec (scaleOp s o)) := by
  cases o with
  | setType t => exact h.setType hs t
  | force f p => exact h.applyForce f p
  | forceLocalPos f p =>
    show Sim s (d.applyForce f (d.tr.act p)) (e.applyForce (V3.smul s f) (e.tr.act p))
    rw [h.tr]; exact h.applyForce _ _
  | localForce f p =>
    show Sim s (d.applyForce (d.tr.ori.rot f) p) (e.applyForce (e.tr.ori.rot (V3.smul s f)) p)
    rw [h.tr, RoundProps.rot_smul]; exact h.applyForce _ _
  | localForceLocalPos f p =>
    show Sim s (d.applyForce (d.tr.ori.rot f) (d.tr.act p)) (e.applyForce (e.tr.ori.rot (V3.smul s f)) (e.tr.act p))
    rw [h.tr, RoundProps.rot_smul]; exact h.applyForce _ _
  | forceCenter f => exact h.applyForceCenter f
  | localForceCenter f =>
    show Sim s (d.applyForceCenter (d.tr.ori.rot f)) (e.applyForceCenter (e.tr.ori.rot (V3.smul s f)))
    rw [h.tr, RoundProps.rot_smul]; exact h.applyForceCenter _
  | torque m => exact h.applyTorque m
  | localTorque m =>
    show Sim s (d.applyTorque (d.tr.ori.rot m)) (e.applyTorque (e.tr.ori.rot (V3.smul s m)))
    rw [h.tr, RoundProps.rot_smul]; exact h.applyTorque _
  | resetForce =>
    obtain ⟨M, rfl, h1⟩ := h
    show Sim s (Dyn.resetForce _) (Dyn.resetForce _)
    unfold Dyn.resetForce
    dsimp only
    split_ifs
    · exact ⟨M, rfl, h1⟩
    · exact ⟨M, by simp only [smul_zero], h1⟩
  | resetTorque =>
    obtain ⟨M, rfl, h1⟩ := h
    show Sim s (Dyn.resetTorque _) (Dyn.resetTorque _)
    unfold Dyn.resetTorque
    dsimp only
    split_ifs
    · exact ⟨M, rfl, h1⟩
    · exact ⟨M, by simp only [smul_zero], h1⟩
  | setInertia i => exact h.setInertia hs i
  | inertiaFromColliders cs =>
    show Sim s (d.setInertia (Dyn.computeInertia d.comLocal cs)) (e.setInertia (Dyn.computeInertia e.comLocal (cs.map (scaleCol s))))
    rw [h.local, computeInertia_scale]; exact h.setInertia hs _
  | massFromColliders cs =>
    show Sim s (d.storeMass (Dyn.totalMass cs)) (e.storeMass (Dyn.totalMass (cs.map (scaleCol s))))
    rw [totalMass_scale]; exact h.storeMass hs _
  | setMass m =>
    show Sim s (d.setMass m) (e.setMass (s * m))
    unfold Dyn.setMass
    by_cases k : m < 0
    · rw [if_pos k, if_pos (mul_neg_of_pos_of_neg hs k)]; exact h
    · rw [if_neg k, if_neg (not_lt.2 (mul_nonneg hs.le (not_lt.1 k)))]; exact h.storeMass hs m
  | setCenter c => exact h.setCenter c
  | centerFromColliders cs =>
    show Sim s (d.setCenter (Dyn.computeCenter cs)) (e.setCenter (Dyn.computeCenter (cs.map (scaleCol s))))
    rw [computeCenter_scale hs cs ho]; exact h.setCenter _
  | massProperties cs => exact h.massProperties hs cs ho
  | linearVelocity v => exact h.setLinearVelocity v
  | angularVelocity v => exact h.setAngularVelocity v
  | transform T => exact h.setTransform T
  | allowed b => exact h.setAllowed b
  | active b => exact h.setIsActive b
  | linearDamping k =>
    obtain ⟨M, rfl, h1⟩ := h
    show Sim s (Dyn.setLinearDamping _ _) (Dyn.setLinearDamping _ _)
    unfold Dyn.setLinearDamping
    split_ifs <;> exact ⟨M, rfl, h1⟩
  | angularDamping k =>
    obtain ⟨M, rfl, h1⟩ := h
    show Sim s (Dyn.setAngularDamping _ _) (Dyn.setAngularDamping _ _)
    unfold Dyn.setAngularDamping
    split_ifs <;> exact ⟨M, rfl, h1⟩
  | gravity b => obtain ⟨M, rfl, h1⟩ := h; exact ⟨M, rfl, h1⟩
  | linearLock v => obtain ⟨M, rfl, h1⟩ := h; exact ⟨M, rfl, h1⟩
  | angularLock v => obtain ⟨M, rfl, h1⟩ := h; exact ⟨M, rfl, h1⟩
  | sleep b => exact h.sleep b

end positive
end calls

/-! ### Worlds -/

section worlds
variable {s : K} {w z : DW K}

theorem SimW.mapAll (h : SimW s w z) {f f' : Nat → Dyn K → Dyn K} (k : ∀ b d e, Sim s d e → Sim s (f b d) (f' b e)) : SimW s (w.mapAll f) (z.mapAll f') :=
  ⟨fun b => (h.body b).map (k b), h.on, h.limL, h.limA, h.before⟩

theorem SimW.modify (h : SimW s w z) (b : Nat) {f f' : Dyn K → Dyn K} (k : ∀ d e, Sim s d e → Sim s (f d) (f' e)) : SimW s (w.modify b f) (z.modify b f') := by
  refine ⟨fun c => ?_, h.on, h.limL, h.limA, h.before⟩
  by_cases e : c = b
  · subst e
    rw [DW.modify_same, DW.modify_same]
    exact (h.body c).map k
  · rw [DW.modify_ne _ _ e, DW.modify_ne _ _ e]
    exact h.body c

theorem SimW.set (h : SimW s w z) (b : Nat) {x y : Option (Dyn K)} (k : Both (Sim s) x y) : SimW s { w with body := upd w.body b x } { z with body := upd z.body b y } := by
  refine ⟨fun c => ?_, h.on, h.limL, h.limA, h.before⟩
  show Both _ (upd w.body b x c) (upd z.body b y c)
  by_cases e : c = b
  · subst e; rw [upd_same, upd_same]; exact k
  · rw [upd_ne _ _ e, upd_ne _ _ e]; exact h.body c

theorem nod_scale : ∀ (l : List Nat) {w z : DW K}, SimW s w z →
    SimW s (l.foldl (fun w b => w.modify b fun d => d.setIsSleeping true) w) (l.foldl (fun w b => w.modify b fun d => d.setIsSleeping true) z)
  | [], _, _, h => h
  | b :: l, _, _, h => nod_scale l (h.modify b fun _ _ k => k.sleep true)

theorem tick_scale (add : K → K → K) (dt : K) {x y : DW K × K} (h : SimW s x.1 y.1) (hm : y.2 = x.2) (b : Nat) :
    SimW s (DW.tick add dt x b).1 (DW.tick add dt y b).1 ∧ (DW.tick add dt y b).2 = (DW.tick add dt x b).2 := by
  unfold DW.tick
  cases hd : x.1.body b with
  | none => rw [(h.body b).none hd]; exact ⟨h, hm⟩
  | some d =>
    obtain ⟨e, he, q⟩ := (h.body b).some hd
    rw [he]
    have ha : y.1.atRest e = x.1.atRest d := by
      obtain ⟨M, rfl, _⟩ := q
      unfold DW.atRest
      rw [h.limL, h.limA]
    have hs : e.sleepTime = d.sleepTime := by obtain ⟨M, rfl, _⟩ := q; rfl
    have ht : ∀ x (d e : Dyn K), Sim s d e → Sim s { d with sleepTime := x } { e with sleepTime := x } := by
      rintro x d e ⟨M, rfl, h1⟩
      exact ⟨M, rfl, h1⟩
    dsimp only
    rw [ha, q.type, hs, hm]
    split
    · exact ⟨h, hm⟩
    · split
      · exact ⟨h.modify b (ht _), rfl⟩
      · exact ⟨h.modify b (ht _), rfl⟩

theorem ticks_scale (add : K → K → K) (dt : K) : ∀ (l : List Nat) {x y : DW K × K}, SimW s x.1 y.1 → y.2 = x.2 →
    SimW s (l.foldl (DW.tick add dt) x).1 (l.foldl (DW.tick add dt) y).1 ∧ (l.foldl (DW.tick add dt) y).2 = (l.foldl (DW.tick add dt) x).2
  | [], _, _, h, hm => ⟨h, hm⟩
  | b :: l, _, _, h, hm => by
    obtain ⟨a, c⟩ := tick_scale add dt h hm b
    exact ticks_scale add dt l a c

theorem sleepIsland_scale (add : K → K → K) (big dt : K) (h : SimW s w z) (l : List Nat) : SimW s (DW.sleepIsland add big dt w l) (DW.sleepIsland add big dt z l) := by
  obtain ⟨a, c⟩ := ticks_scale add dt l (x := (w, big)) (y := (z, big)) h rfl
  unfold DW.sleepIsland
  dsimp only
  rw [c, a.before]
  split
  · exact nod_scale l a
  · exact a

theorem updateSleeping_scale (add : K → K → K) (big dt : K) : ∀ (is : List (List Nat)) {w z : DW K}, SimW s w z →
    SimW s (DW.updateSleeping add big dt w is) (DW.updateSleeping add big dt z is)
  | [], _, _, h => h
  | l :: is, _, _, h => updateSleeping_scale add big dt is (sleepIsland_scale add big dt h l)

end worlds

/-! ### The step -/

section step
variable {s : K} (hs : 0 < s) {i : In K} {w z : DW K}

theorem less_zero (s : K) : Less s (M3.zero : M3 K) M3.zero := by
  intro x
  rw [show ∀ v : V3 K, M3.zero.act v = 0 from fun v => by ext <;> simp [M3.act, M3.zero, M3.of], show ∀ v : V3 K, M3.zero.act v = 0 from fun v => by ext <;> simp [M3.act, M3.zero, M3.of]]

include hs

theorem less_world (o : M3 K) (i : V3 K) : Less s (Dyn.worldInertia o i) (Dyn.worldInertia o (V3.smul (1 / s) i)) := by
  intro x
  rw [worldInertia_act, worldInertia_act]
  refine congrArg _ ?_
  ext <;> simp only [V3.had, V3.smul, M3.act, V3.dot] <;> field_simp

/-- The tensors after the first part of a step. -/
theorem Sim.fresh {d e : Dyn K} (h : Sim s d e) : Sim s d.updateInertia e.updateInertia ∧ (d.type = .static ∨ d.disabled = false → Less s d.updateInertia.invInertiaW e.updateInertia.invInertiaW) := by
  obtain ⟨M, rfl, h1⟩ := h
  unfold Dyn.updateInertia
  dsimp only
  by_cases k : d.disabled = true
  · rw [if_pos k, if_pos k]
    refine ⟨⟨M, rfl, h1⟩, fun q => ?_⟩
    obtain q | q := q
    · dsimp only
      rw [(h1 q).2.1, (h1 q).2.2]
      exact less_zero s
    · exact absurd (k.symm.trans q) (by decide)
  · rw [if_neg k, if_neg k]
    exact ⟨⟨_, rfl, fun q => absurd (h1 q).1 k⟩, fun _ => less_world hs _ _⟩

theorem Sim.integrate {d e : Dyn K} (h : Sim s d e) (hl : d.disabled = false → Less s d.invInertiaW e.invInertiaW) (dt : K) (a : Option (V3 K)) : Sim s (d.integrateVel dt a) (e.integrateVel dt a) := by
  obtain ⟨M, rfl, h1⟩ := h
  have ef : ∀ l f : V3 K, V3.had (V3.smul (dt * (d.invMass / s)) l) (V3.smul s f) = V3.had (V3.smul (dt * d.invMass) l) f := fun l f => by
    ext <;> simp only [V3.had, V3.smul] <;> field_simp
  have eg : ∀ l f : V3 K, V3.had (V3.smul (s * d.mass) (V3.smul (dt * (d.invMass / s)) l)) f = V3.had (V3.smul d.mass (V3.smul (dt * d.invMass) l)) f := fun l f => by
    ext <;> simp only [V3.had, V3.smul] <;> field_simp
  unfold Dyn.integrateVel
  dsimp only at hl ⊢
  by_cases k : d.disabled = true
  · rw [if_pos k, if_pos k]; exact ⟨M, rfl, h1⟩
  · have et := hl (by simpa using k) d.torque
    rw [if_neg k, if_neg k]
    unfold Dyn.integrateDamping Dyn.integrateGravity Dyn.integrateForce
    cases a with
    | none => exact ⟨M, by simp only [ef, et], h1⟩
    | some a =>
      dsimp only
      split_ifs
      · exact ⟨M, by simp only [ef, et, eg], h1⟩
      · exact ⟨M, by simp only [ef, et], h1⟩

omit hs in
theorem tensor_kept (dt : K) (a : Option (V3 K)) (d : Dyn K) : (d.integrateVel dt a).invInertiaW = d.invInertiaW := by
  unfold Dyn.integrateVel Dyn.integrateDamping Dyn.integrateGravity Dyn.integrateForce
  cases a <;> dsimp only <;> split_ifs <;> rfl

theorem Sim.ready {d e : Dyn K} (h : Sim s d e) (dt : K) (a : Option (V3 K)) : Sim s (d.updateInertia.integrateVel dt a) (e.updateInertia.integrateVel dt a) ∧
    (d.type = .static ∨ d.disabled = false → Less s (d.updateInertia.integrateVel dt a).invInertiaW (e.updateInertia.integrateVel dt a).invInertiaW) := by
  obtain ⟨k1, k2⟩ := h.fresh hs
  refine ⟨k1.integrate hs (fun q => k2 (.inr ?_)) dt a, ?_⟩
  · rw [← q]
    unfold Dyn.updateInertia
    split_ifs <;> rfl
  · rw [tensor_kept, tensor_kept]; exact k2

omit hs in
theorem Sim.woken {d e : Dyn K} (h : Sim s d e) (c : Bool) : Sim s (if c then d.setIsSleeping false else d) (if c then e.setIsSleeping false else e) := by
  split
  · exact h.sleep false
  · exact h

theorem ready_both (h : SimW s w z) (b : Nat) : Both (Sim s) ((ready i w).body b) ((ready (scaleIn s i) z).body b) := by
  show Both _ (((w.body b).map _).map _) (((z.body b).map _).map _)
  refine Both.map (R := Sim s) (Both.map (h.body b) fun d e k => ?_) fun d e k => (k.ready hs _ _).1
  exact k.woken _

omit hs in
theorem velOf_scale {d e : Dyn K} (h : Sim s d e) : velOf e = velOf d := by
  obtain ⟨M, rfl, _⟩ := h
  rfl

theorem dyn_vel (h : SimW s w z) (b : Nat) : velOf (dyn (ready (scaleIn s i) z) b) = velOf (dyn (ready i w) b) := by
  have q := ready_both (i := i) hs h b
  unfold dyn
  cases hd : (ready i w).body b with
  | none => rw [q.none hd]
  | some d =>
    obtain ⟨e, he, q⟩ := q.some hd
    rw [he]
    exact velOf_scale q

/-- A body that is static or awake as the solver reads it. -/
theorem dyn_scale (h : SimW s w z) {b : Nat} (hb : Awake i w b) : ScaleB s (jbody (dyn (ready i w) b)).toSBody (jbody (dyn (ready (scaleIn s i) z) b)).toSBody := by
  obtain ⟨d, hd, k⟩ := hb
  obtain ⟨e, he, q⟩ := (h.body b).some hd
  unfold dyn
  rw [Galileo.ready_some hd, Galileo.ready_some he, Option.getD_some, Option.getD_some]
  have wt : (d.setIsSleeping false).type = d.type := by
    unfold Dyn.setIsSleeping
    dsimp only
    split_ifs <;> rfl
  have q' := q.woken (i.islands.any fun l => l.contains b)
  obtain ⟨q1, q2⟩ := q'.ready hs i.dt i.g
  have q3 := q2 (by
    split
    · rw [wt]
      obtain k | k | ⟨k1, k2, k3⟩ := k
      · exact .inl k
      · right
        unfold Dyn.setIsSleeping
        dsimp only
        split_ifs <;> first | exact k | rfl | contradiction
      · by_cases kt : d.type = .static
        · exact .inl kt
        · right
          unfold Dyn.setIsSleeping
          simp [k1, k2, kt]
    · rename_i ka
      obtain k | k | ⟨_, _, l, k3, k4⟩ := k
      · exact .inl k
      · exact .inr k
      · exact absurd (List.any_eq_true.2 ⟨l, k3, by simpa using k4⟩) ka)
  show ScaleB s (jbody _).toSBody (jbody (Dyn.integrateVel i.dt i.g (Dyn.updateInertia _))).toSBody
  generalize Dyn.integrateVel i.dt i.g (Dyn.updateInertia (if (i.islands.any fun l => l.contains b) = true then d.setIsSleeping false else d)) = x at q1 q3 ⊢
  have e2 : (scaleIn s i).islands = i.islands := rfl
  rw [e2]
  generalize Dyn.integrateVel i.dt i.g (Dyn.updateInertia (if (i.islands.any fun l => l.contains b) = true then e.setIsSleeping false else e)) = y at q1 q3 ⊢
  obtain ⟨M, rfl, _⟩ := q1
  exact ⟨rfl, rfl, rfl, div_mul_cancel₀ _ hs.ne', q3, rfl, rfl⟩

theorem solved_scale (h : SimW s w z) (hc : Clear i w) :
    (solved (scaleIn s i) z).1 = (solved i w).1 ∧ (solved (scaleIn s i) z).2.1 = [] ∧ (solved i w).2.1 = [] ∧
      List.Forall₂ (ScaleM s) (solved i w).2.2 (solved (scaleIn s i) z).2.2 := by
  have k := solveStep_scale hs { i.cc with dt := i.dt } { i.jc with dt := i.dt } (body := fun b => jbody (dyn (ready i w) b)) (body' := fun b => jbody (dyn (ready (scaleIn s i) z) b))
    (fun b => velOf (dyn (ready i w) b)) (fun X hX => ⟨dyn_scale hs h (hc.mans X hX).1, dyn_scale hs h (hc.mans X hX).2⟩) i.nv
  have ev : (fun b => velOf (dyn (ready (scaleIn s i) z) b)) = fun b => velOf (dyn (ready i w) b) := funext fun b => dyn_vel hs h b
  have ej : joints i.pins = [] := by rw [hc.pins]; rfl
  unfold solved
  show (solveStep { i.cc with dt := i.dt } { i.jc with dt := i.dt } _ _ (joints i.pins) (i.mans.map (scaleXM s)) i.nv).1 = _ ∧
    (solveStep { i.cc with dt := i.dt } { i.jc with dt := i.dt } _ _ (joints i.pins) (i.mans.map (scaleXM s)) i.nv).2.1 = _ ∧ _ ∧
    List.Forall₂ (ScaleM s) _ (solveStep { i.cc with dt := i.dt } { i.jc with dt := i.dt } _ _ (joints i.pins) (i.mans.map (scaleXM s)) i.nv).2.2
  rw [ev, ej]
  exact k

omit hs in
theorem mid_of {d e : Dyn K} (h : Sim s d e) (v : Dyn.Vels K) (dt x : K) : Sim s ((d.solveVel (some v)).integratePos dt x) ((e.solveVel (some v)).integratePos dt x) := by
  obtain ⟨M, rfl, h1⟩ := h
  unfold Dyn.solveVel Dyn.integratePos
  dsimp only
  split_ifs <;> exact ⟨M, rfl, h1⟩

theorem midway_scale (h : SimW s w z) (hc : Clear i w) {b : Nat} {d : Dyn K} (hd : w.body b = some d) : Sim s (midway i w b) (midway (scaleIn s i) z b) := by
  have q : Sim s (dyn (ready i w) b) (dyn (ready (scaleIn s i) z) b) := by
    have hd' := Galileo.ready_some (i := i) hd
    obtain ⟨e, he, q⟩ := (ready_both (i := i) hs h b).some hd'
    unfold dyn
    rw [hd', he]
    exact q
  have e : (solved (scaleIn s i) z).1 b = (solved i w).1 b := by rw [(solved_scale hs h hc).1]
  unfold midway vels
  rw [e]
  exact mid_of q _ _ _

omit hs in
theorem state_scale {d e : Dyn K} (h : Sim s d e) (len : Quat K → K) (p : V3 K × Quat K) : Sim s ((d.solvePos (some p)).updateState len) ((e.solvePos (some p)).updateState len) := by
  obtain ⟨M, rfl, h1⟩ := h
  unfold Dyn.solvePos Dyn.updateState
  dsimp only
  split_ifs <;> exact ⟨M, rfl, h1⟩

theorem moved_scale (h : SimW s w z) (hc : Clear i w) : SimW s (DW.moved (i.args (fun b => some (vels i w b)) fun b => some (poss i w b)) w)
    (DW.moved ((scaleIn s i).args (fun b => some (vels (scaleIn s i) z b)) fun b => some (poss (scaleIn s i) z b)) z) := by
  refine ⟨fun b => ?_, h.on, h.limL, h.limA, h.before⟩
  cases hd : w.body b with
  | none =>
    have hz := (h.body b).none hd
    rw [DW.moved_body, DW.moved_body]
    show Both _ (((w.body b).map _).map _) (((z.body b).map _).map _)
    rw [hd, hz]
    trivial
  | some d =>
    obtain ⟨e, he, _⟩ := (h.body b).some hd
    rw [Galileo.moved_dyn ⟨d, hd⟩, Galileo.moved_dyn ⟨e, he⟩]
    obtain ⟨_, k1, k2, _⟩ := solved_scale hs h hc
    have q := midway_scale hs h hc hd
    have ep : ((midway (scaleIn s i) z b).cPos, (midway (scaleIn s i) z b).cOri) = ((midway i w b).cPos, (midway i w b).cOri) := by
      obtain ⟨M, k, _⟩ := q
      rw [k]
    rw [Isotropy.poss_none k2, Isotropy.poss_none k1, ep]
    exact state_scale q _ _

/-- **C144, a step.** A step in the other unit. -/
theorem mass_unit_step_partial (h : SimW s w z) (hc : Clear i w) : SimW s (update i w) (update (scaleIn s i) z) := by
  have m := moved_scale hs h hc
  show SimW s (DW.update _ _) (DW.update _ _)
  unfold DW.update
  dsimp only
  refine SimW.mapAll ?_ fun _ d e k => ?_
  · generalize (DW.moved (i.args (fun b => some (vels i w b)) fun b => some (poss i w b)) w) = x at m ⊢
    generalize (DW.moved ((scaleIn s i).args (fun b => some (vels (scaleIn s i) z b)) fun b => some (poss (scaleIn s i) z b)) z) = y at m ⊢
    rw [m.on]
    split_ifs
    · exact updateSleeping_scale i.add i.big i.dt i.islands m
    · exact m
  · obtain ⟨M, rfl, h1⟩ := k
    exact ⟨M, by simp only [Dyn.resetForces, smul_zero], h1⟩

/-- **C144, what is reported.** The impulses of the contacts in the other unit. -/
theorem mass_unit_report_partial (h : SimW s w z) (hc : Clear i w) :
    List.Forall₂ (fun M N : Man K => N.normal = M.normal ∧ N.f1 = s * M.f1 ∧ N.f2 = s * M.f2 ∧ N.tw = s * M.tw ∧ N.pts.map CPoint.imp = M.pts.map fun p => s * p.imp) (solved i w).2.2 (solved (scaleIn s i) z).2.2 :=
  (solved_scale hs h hc).2.2.2.imp fun M N k => ⟨k.normal, k.f1, k.f2, k.tw, by rw [k.pts, List.map_map]; rfl⟩

end step

/-! ### Histories -/

section history
variable {s : K} (hs : 0 < s)
include hs

theorem create_scale (T : Trans K) : Sim s (Dyn.create T) (((Dyn.create T).setMass s).setInertia ⟨s, s, s⟩) := by
  refine ⟨M3.one, ?_, fun k => absurd k (by simp [Dyn.create])⟩
  unfold Dyn.setMass
  rw [if_neg (not_lt.2 hs.le)]
  simp [Dyn.storeMass, Dyn.setInertia, Dyn.create, Dyn.invOf, Dyn.invOfTensor, Dyn.invOfI, hs, hs.ne', V3.smul]
  rfl

theorem run_scale {w z : DW K} (h : SimW s w z) (e : Ev K) (hf : Fair w [e]) : SimW s (e.run w) ((scaleEv s e).foldl Ev.run z) := by
  have hf := hf.1
  cases e with
  | step i => exact mass_unit_step_partial hs h hf
  | create b T =>
    refine ⟨fun c => ?_, h.on, h.limL, h.limA, h.before⟩
    show Both (Sim s) (upd w.body b (some (Dyn.create T)) c) _
    show Both (Sim s) _ ((DW.modify (DW.modify { z with body := upd z.body b (some (Dyn.create T)) } b fun d => d.setMass s) b fun d => d.setInertia ⟨s, s, s⟩).body c)
    by_cases k : c = b
    · subst k
      rw [DW.modify_same, DW.modify_same, upd_same]
      show Both (Sim s) _ ((((upd z.body c (some (Dyn.create T))) c).map _).map _)
      rw [upd_same]
      exact create_scale hs T
    · rw [DW.modify_ne _ _ k, DW.modify_ne _ _ k]
      show Both (Sim s) (upd w.body b (some (Dyn.create T)) c) (upd z.body b (some (Dyn.create T)) c)
      rw [upd_ne _ _ k, upd_ne _ _ k]
      exact h.body c
  | destroy b => exact h.set b trivial
  | call b o => exact h.modify b fun d e k => k.exec hs o hf
  | enableSleeping b =>
    show SimW s (w.enableSleeping b) (z.enableSleeping b)
    have k : SimW s { w with sleepOn := b } { z with sleepOn := b } := ⟨h.body, rfl, h.limL, h.limA, h.before⟩
    unfold DW.enableSleeping
    dsimp only
    split
    · exact k.mapAll fun _ _ _ q => q.sleep false
    · exact k
  | limits l a t => exact ⟨h.body, h.on, rfl, rfl, rfl⟩

/-- **C144, histories.** The same history in another unit of mass: every body is where it would be, and moves as it would, at every moment. Missing: joints. -/
theorem mass_unit_partial : ∀ (es : List (Ev K)) {w z : DW K}, SimW s w z → Fair w es → SimW s (es.foldl Ev.run w) ((es.flatMap (scaleEv s)).foldl Ev.run z)
  | [], _, _, h, _ => h
  | e :: es, _, _, h, hf => by
    rw [List.flatMap_cons, List.foldl_append]
    exact mass_unit_partial es (run_scale hs h e ⟨hf.1, trivial⟩) hf.2

omit hs in
theorem empty_scale (on : Bool) (l a b : K) : SimW s (DW.empty on l a b) (DW.empty on l a b) := ⟨fun _ => trivial, rfl, rfl, rfl, rfl⟩

omit hs in
/-- What the user sees of related bodies. -/
theorem SimW.seen {w z : DW K} (h : SimW s w z) {b : Nat} {d : Dyn K} (hd : w.body b = some d) : ∃ e, z.body b = some e ∧
    e.tr = d.tr ∧ e.comWorld = d.comWorld ∧ e.vel = d.vel ∧ e.ang = d.ang ∧ e.force = V3.smul s d.force ∧ e.torque = V3.smul s d.torque ∧
    e.type = d.type ∧ e.active = d.active ∧ e.sleeping = d.sleeping ∧ e.sleepTime = d.sleepTime ∧ e.mass = s * d.mass ∧ e.inertia = V3.smul s d.inertia ∧ e.comLocal = d.comLocal := by
  obtain ⟨e, he, M, rfl, _⟩ := (h.body b).some hd
  exact ⟨_, he, rfl, rfl, rfl, rfl, rfl, rfl, rfl, rfl, rfl, rfl, rfl, rfl, rfl⟩

end history

end MassUnit
end RP3D
