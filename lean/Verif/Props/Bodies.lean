import Verif.Props.Dynamics
import Mathlib.Analysis.Real.Sqrt
import Mathlib.Algebra.BigOperators.Group.List.Basic

/-!
Property theorems about static bodies in the solvers (C65, C66), mass properties (C67) and orientations (C68).
-/

set_option linter.unusedSectionVars false

namespace RP3D
open DW

variable {K : Type} [Field K] [LinearOrder K] [IsStrictOrderedRing K]

/-! ### C65, C66: where the code disagrees -/

namespace BodyExample

/-- The arguments of a step of length 1 in a world without gravity, contact and joint. -/
def args : Args ℚ where
  dt := 1
  g := none
  islands := [[0]]
  split := 0
  vels := fun _ => none
  poss := fun _ => none
  len := fun _ => 1
  add := fun a b => a + b
  big := 1000

/-- The identity transform. -/
def idt : Trans ℚ := ⟨0, Quat.one⟩

/-- A body is created, set in motion, moved by a step, and becomes static. -/
def stopped : DW ℚ :=
  ((((DW.empty true 1 1 1).exec (.create 0 idt)).exec (.call 0 (.linearVelocity ⟨5, 0, 0⟩))).exec (.update args)).exec (.call 0 (.setType .static))

/-- A body gets a center of mass away from its origin and becomes static. -/
def offset : DW ℚ :=
  (((DW.empty true 1 1 1).exec (.create 0 idt)).exec (.call 0 (.setCenter ⟨1, 0, 0⟩))).exec (.call 0 (.setType .static))

end BodyExample

open BodyExample in
/-- **C65** does not hold: a body that moved and became static is presented to the contact and joint solvers of the next step with its old
velocity. -/
theorem static_velocity_stale : Reach Any stopped ∧
    ∃ p, (prepared args stopped).body 0 = some p ∧ p.type = .static ∧ p.vel = 0 ∧ p.cVel = ⟨5, 0, 0⟩ := by
  refine ⟨.step _ trivial (.step _ trivial (.step _ trivial (.step _ trivial (.empty _ _ _ _)))), ?_⟩
  refine ⟨((prepared args stopped).body 0).getD (Dyn.create idt), ?_, ?_, ?_, ?_⟩
  · have : ((prepared args stopped).body 0).isSome = true := by decide +kernel
    cases h : (prepared args stopped).body 0 with
    | none => rw [h] at this; cases this
    | some p => rfl
  · decide +kernel
  · ext <;> decide +kernel
  · ext <;> decide +kernel

open BodyExample in
/-- **C66** does not hold: the position the joint solvers read for a static body is its origin, not its center of mass. -/
theorem static_center_wrong : Reach Any offset ∧
    ∃ d, offset.body 0 = some d ∧ d.type = .static ∧ d.comWorld = ⟨1, 0, 0⟩ ∧ d.cPos = 0 := by
  refine ⟨.step _ trivial (.step _ trivial (.step _ trivial (.empty _ _ _ _))), ?_⟩
  refine ⟨(offset.body 0).getD (Dyn.create idt), ?_, ?_, ?_, ?_⟩
  · have : (offset.body 0).isSome = true := by decide +kernel
    cases h : offset.body 0 with
    | none => rw [h] at this; cases this
    | some p => rfl
  · decide +kernel
  · ext <;> decide +kernel
  · ext <;> decide +kernel

/-! ### C65, C66: what holds -/

/-- The solvers do not change static bodies (their inverse masses are zero). -/
def SolversSpare (w : DW K) (a : Args K) : Prop := ∀ b d, w.body b = some d → d.type = .static → a.vels b = none ∧ a.poss b = none

/-- Histories in which bodies only become static while their constrained velocity is zero, for instance before the first step. -/
def Careful (w : DW K) : Op K → Prop
  | .call b (.setType .static) => ∀ d, w.body b = some d → d.cVel = 0 ∧ d.cAng = 0 ∧ d.sVel = 0 ∧ d.sAng = 0
  | .update a => SolversSpare w a
  | _ => True

/-- Only the part about the solvers. -/
def Spared (w : DW K) : Op K → Prop
  | .update a => SolversSpare w a
  | _ => True

theorem move_static (a : Args K) (b : Nat) (d : Dyn K) (h : d.disabled = true) (hv : a.vels b = none) (hp : a.poss b = none) :
    d.move a b = d := by
  have e1 : d.updateInertia = d := by unfold Dyn.updateInertia; rw [if_pos h]
  have e2 : d.integrateVel a.dt a.g = d := by unfold Dyn.integrateVel; rw [if_pos h]
  have e3 : d.integratePos a.dt a.split = d := by unfold Dyn.integratePos; rw [if_pos h]
  have e4 : d.updateState a.len = d := by unfold Dyn.updateState; rw [if_pos h]
  unfold Dyn.move
  rw [e1, e2, hv, hp]
  simp only [Dyn.solveVel, Dyn.solvePos]
  rw [e3, e4]

/-- What the calls other than `setType` and `setTransform` leave alone. -/
theorem call_keeps (d : Dyn K) (o : Dyn.Op K) (h : ∀ t, o ≠ .setType t) :
    (d.exec o).cVel = d.cVel ∧ (d.exec o).cAng = d.cAng ∧ (d.exec o).sVel = d.sVel ∧ (d.exec o).sAng = d.sAng ∧
    ((∀ t, o ≠ .transform t) → (d.exec o).cPos = d.cPos ∧ (d.exec o).cOri = d.cOri) := by
  have wk : ∀ (d : Dyn K) b, (d.setIsSleeping b).cVel = d.cVel ∧ (d.setIsSleeping b).cAng = d.cAng ∧ (d.setIsSleeping b).sVel = d.sVel ∧
      (d.setIsSleeping b).sAng = d.sAng ∧ (d.setIsSleeping b).cPos = d.cPos ∧ (d.setIsSleeping b).cOri = d.cOri := fun d b => by
    rcases Dyn.setIsSleeping_cases d b with e | ⟨_, _, _, _, e⟩ | ⟨_, _, _, _, e⟩ <;> rw [e] <;> simp
  cases o <;> simp only [Dyn.exec, Dyn.applyForceLocalPos, Dyn.applyLocalForce, Dyn.applyLocalForceLocalPos, Dyn.applyForce,
    Dyn.applyLocalForceCenter, Dyn.applyForceCenter, Dyn.applyLocalTorque, Dyn.applyTorque, Dyn.resetForce, Dyn.resetTorque,
    Dyn.setInertia, Dyn.storeMass, Dyn.setMass, Dyn.setCenter, Dyn.updateMassProperties, Dyn.setLinearVelocity, Dyn.setAngularVelocity,
    Dyn.setTransform, Dyn.setAllowed, Dyn.setIsActive, Dyn.setLinearDamping, Dyn.setAngularDamping]
  case setType t => exact absurd rfl (h t)
  all_goals (try split_ifs) <;> simp [wk]

theorem setIsSleeping_solver (d : Dyn K) (b : Bool) : (d.setIsSleeping b).cVel = d.cVel ∧ (d.setIsSleeping b).cAng = d.cAng ∧
    (d.setIsSleeping b).sVel = d.sVel ∧ (d.setIsSleeping b).sAng = d.sAng ∧ (d.setIsSleeping b).cPos = d.cPos ∧
    (d.setIsSleeping b).cOri = d.cOri := by
  rcases Dyn.setIsSleeping_cases d b with e | ⟨_, _, _, _, e⟩ | ⟨_, _, _, _, e⟩ <;> rw [e] <;> simp

/-- Static bodies at rest for the solvers. -/
def SolverRest (d : Dyn K) : Prop := Dyn.Flags d ∧ (d.type = .static → d.cVel = 0 ∧ d.cAng = 0 ∧ d.sVel = 0 ∧ d.sAng = 0)

theorem kept_rest : Kept (K := K) Careful SolverRest where
  create t := ⟨(kept_flags Any).create t, fun h => by cases h⟩
  exec w b d o hb ho h := by
    refine ⟨h.1.exec o, fun hs => ?_⟩
    by_cases e : ∃ t, o = .setType t
    · obtain ⟨t, rfl⟩ := e
      by_cases et : t = .static
      · subst et
        have := ho d hb
        simp only [Dyn.exec, Dyn.setType]
        split
        · exact this
        · simp [setIsSleeping_solver, Dyn.setTypeStatic, Dyn.setTypeFixed, this]
      · exfalso
        by_cases e1 : d.type = t
        · simp only [Dyn.exec, Dyn.setType, if_pos e1] at hs
          exact et (e1 ▸ hs)
        · apply et
          simp only [Dyn.exec, Dyn.setType, if_neg e1, Dyn.setIsSleeping_type] at hs
          split_ifs at hs <;> simp_all [Dyn.setTypeStatic, Dyn.setTypeFixed, Dyn.setTypeDynamic]
    · have e' : ∀ t, o ≠ .setType t := fun t ht => e ⟨t, ht⟩
      have k := call_keeps d o e'
      rw [call_type d o e'] at hs
      rw [k.1, k.2.1, k.2.2.1, k.2.2.2.1]
      exact h.2 hs
  sleep d b h := by
    refine ⟨h.1.sleep b, fun hs => ?_⟩
    have k := setIsSleeping_solver d b
    rw [Dyn.setIsSleeping_type] at hs
    rw [k.1, k.2.1, k.2.2.1, k.2.2.2.1]
    exact h.2 hs
  move w a b d e hb ho he h := by
    refine ⟨h.1.move a b, fun hs => ?_⟩
    rw [(Dyn.move_same a b e).type] at hs
    have hd : d.type = .static := by
      rcases he with rfl | rfl
      · exact hs
      · rw [Dyn.setIsSleeping_type] at hs; exact hs
    obtain ⟨q1, q2⟩ := ho b d hb hd
    rw [move_static a b e (h.1.st hs).1 q1 q2]
    exact h.2 hs
  time d t _ h := ⟨(kept_flags Any).time d t (by assumption) h.1, h.2⟩
  reset d h := ⟨(kept_flags Any).reset d h.1, h.2⟩

/-- **C65**, what holds: if bodies only become static while the solvers hold no velocity for them, and the solvers do not change static bodies, then
the solvers always read a zero velocity for a static body. Missing: bodies that become static after they moved. -/
theorem static_solver_rest_partial {w : DW K} (h : Reach Careful w) {b : Nat} {d : Dyn K} (hb : w.body b = some d) (hs : d.type = .static)
    (a : Args K) : ∃ p, (prepared a w).body b = some p ∧ p.cVel = 0 ∧ p.cAng = 0 ∧ p.sVel = 0 ∧ p.sAng = 0 := by
  have k := kept_rest.reach h b d hb
  have hd := (k.1.st hs).1
  have e1 : d.setIsSleeping false = d := by
    unfold Dyn.setIsSleeping
    split
    · rfl
    · rfl
  refine ⟨d, ?_, k.2 hs⟩
  have e2 : (d.updateInertia).integrateVel a.dt a.g = d := by
    have e1 : d.updateInertia = d := by unfold Dyn.updateInertia; rw [if_pos hd]
    rw [e1]; unfold Dyn.integrateVel; rw [if_pos hd]
  simp [prepared, wakeIslands, mapAll, hb, e1, e2]

/-- Static bodies: the solvers read the transform. -/
def SolverPlace (d : Dyn K) : Prop := Dyn.Flags d ∧ (d.type = .static → d.cPos = d.tr.pos ∧ d.cOri = d.tr.ori)

theorem kept_place : Kept (K := K) Spared SolverPlace where
  create t := ⟨(kept_flags Any).create t, fun h => by cases h⟩
  exec w b d o hb ho h := by
    refine ⟨h.1.exec o, fun hs => ?_⟩
    by_cases e : ∃ t, o = .setType t
    · obtain ⟨t, rfl⟩ := e
      by_cases e1 : d.type = t
      · simp only [Dyn.exec, Dyn.setType, if_pos e1] at hs ⊢
        exact h.2 hs
      · by_cases et : t = .static
        · subst et
          simp [Dyn.exec, Dyn.setType, e1, setIsSleeping_solver, Dyn.setIsSleeping_tr, Dyn.setTypeStatic, Dyn.setTypeFixed]
        · exfalso
          apply et
          simp only [Dyn.exec, Dyn.setType, if_neg e1, Dyn.setIsSleeping_type] at hs
          split_ifs at hs <;> simp_all [Dyn.setTypeStatic, Dyn.setTypeFixed, Dyn.setTypeDynamic]
    · have e' : ∀ t, o ≠ .setType t := fun t ht => e ⟨t, ht⟩
      rw [call_type d o e'] at hs
      by_cases e2 : ∃ t, o = .transform t
      · obtain ⟨t, rfl⟩ := e2
        simp [Dyn.exec, Dyn.setTransform, hs, setIsSleeping_solver]
      · have e2' : ∀ t, o ≠ .transform t := fun t ht => e2 ⟨t, ht⟩
        have k := (call_keeps d o e').2.2.2.2 e2'
        rw [k.1, k.2, call_tr d o e2']
        exact h.2 hs
  sleep d b h := by
    refine ⟨h.1.sleep b, fun hs => ?_⟩
    have k := setIsSleeping_solver d b
    rw [Dyn.setIsSleeping_type] at hs
    rw [k.2.2.2.2.1, k.2.2.2.2.2, Dyn.setIsSleeping_tr]
    exact h.2 hs
  move w a b d e hb ho he h := by
    refine ⟨h.1.move a b, fun hs => ?_⟩
    rw [(Dyn.move_same a b e).type] at hs
    have hd : d.type = .static := by
      rcases he with rfl | rfl
      · exact hs
      · rw [Dyn.setIsSleeping_type] at hs; exact hs
    obtain ⟨q1, q2⟩ := ho b d hb hd
    rw [move_static a b e (h.1.st hs).1 q1 q2]
    exact h.2 hs
  time d t _ h := ⟨(kept_flags Any).time d t (by assumption) h.1, h.2⟩
  reset d h := ⟨(kept_flags Any).reset d h.1, h.2⟩

/-- **C66**, what holds: a static body whose center of mass is its origin is presented to the joint solvers at its center of mass. Missing: any other
center of mass. -/
theorem static_center_partial {w : DW K} (h : Reach Spared w) {b : Nat} {d : Dyn K} (hb : w.body b = some d) (hs : d.type = .static)
    (hc : d.comLocal = 0) : d.cPos = d.comWorld ∧ d.cOri = d.tr.ori := by
  have k := (kept_place.reach h b d hb).2 hs
  have c := (kept_com Spared).reach h b d hb
  refine ⟨?_, k.2⟩
  unfold Dyn.ComOk at c
  rw [k.1, c, hc]
  unfold Trans.act Quat.rot
  ext <;> simp [V3.cross]

/-! ### C67 -/

/-- **C67** The center of mass in world space is always the image of the local one. -/
theorem center_of_mass_world {w : DW K} (h : Reach Any w) {b : Nat} {d : Dyn K} (hb : w.body b = some d) :
    d.comWorld = d.tr.act d.comLocal := (kept_com Any).reach h b d hb

/-- The sum of a quantity over the colliders. -/
def total {C : Type} (cs : List C) (f : C → K) : K := (cs.map f).sum

theorem foldl_sum {C : Type} (cs : List C) (f : C → K) (a : K) : cs.foldl (fun m c => m + f c) a = a + total cs f := by
  induction cs generalizing a with
  | nil => simp [total]
  | cons c cs ih => rw [List.foldl_cons, ih]; simp [total, add_assoc]

theorem foldl_sum_v {C : Type} (cs : List C) (f : C → V3 K) (a : V3 K) :
    cs.foldl (fun m c => m + f c) a = ⟨a.x + total cs fun c => (f c).x, a.y + total cs fun c => (f c).y, a.z + total cs fun c => (f c).z⟩ := by
  induction cs generalizing a with
  | nil => ext <;> simp [total]
  | cons c cs ih => rw [List.foldl_cons, ih]; ext <;> simp [total, add_assoc]

/-- **C67** The mass of the colliders is the sum of their masses. -/
theorem total_mass (cs : List (Dyn.MassCol K)) : Dyn.totalMass cs = total cs fun c => c.mass := by
  unfold Dyn.totalMass; rw [foldl_sum, zero_add]

/-- **C67** The center of mass is the average of the positions of the colliders, weighted by their masses. -/
theorem center_of_mass (cs : List (Dyn.MassCol K)) (h : 0 < total cs fun c => c.mass) :
    V3.smul (total cs fun c => c.mass) (Dyn.computeCenter cs) =
      ⟨total cs fun c => c.mass * c.tr.pos.x, total cs fun c => c.mass * c.tr.pos.y, total cs fun c => c.mass * c.tr.pos.z⟩ := by
  unfold Dyn.computeCenter
  simp only [foldl_sum_v, total_mass]
  rw [if_pos h]
  have := ne_of_gt h
  ext <;> simp <;> field_simp

/-- The moment of inertia of one collider about the axis `u` through `com`: its own moments turned into the body, and the parallel axis theorem. -/
def Moment (com : V3 K) (c : Dyn.MassCol K) (u : V3 K) : K :=
  let v := c.tr.ori.matrix.transpose.act u
  (c.inertia.x * v.x ^ 2 + c.inertia.y * v.y ^ 2 + c.inertia.z * v.z ^ 2) + c.mass * V3.lengthSq (V3.cross (c.tr.pos - com) u)

theorem colTensor_moment (com : V3 K) (c : Dyn.MassCol K) :
    (Dyn.colTensor com c).r0.x = Moment com c ⟨1, 0, 0⟩ ∧ (Dyn.colTensor com c).r1.y = Moment com c ⟨0, 1, 0⟩ ∧
    (Dyn.colTensor com c).r2.z = Moment com c ⟨0, 0, 1⟩ := by
  refine ⟨?_, ?_, ?_⟩ <;>
  · simp only [Dyn.colTensor, Moment, M3.add, M3.scale, M3.mul, M3.of, M3.act, M3.transpose, V3.lengthSq, V3.cross, V3.add_x, V3.add_y, V3.add_z,
      V3.smul_x, V3.smul_y, V3.smul_z, V3.sub_x, V3.sub_y, V3.sub_z]
    ring

/-- **C67** The principal moments of a body are the sums of the moments of its colliders about the axes of the body through the center of mass. -/
theorem inertia_of_colliders (com : V3 K) (cs : List (Dyn.MassCol K)) :
    Dyn.computeInertia com cs =
      ⟨total cs fun c => Moment com c ⟨1, 0, 0⟩, total cs fun c => Moment com c ⟨0, 1, 0⟩, total cs fun c => Moment com c ⟨0, 0, 1⟩⟩ := by
  have : ∀ (a : M3 K), cs.foldl (fun a c => M3.add a (Dyn.colTensor com c)) a =
      ⟨cs.foldl (fun a c => a + (Dyn.colTensor com c).r0) a.r0, cs.foldl (fun a c => a + (Dyn.colTensor com c).r1) a.r1,
        cs.foldl (fun a c => a + (Dyn.colTensor com c).r2) a.r2⟩ := by
    induction cs with
    | nil => exact fun a => rfl
    | cons c cs ih => exact fun a => by rw [List.foldl_cons, ih]; rfl
  unfold Dyn.computeInertia
  simp only [this, foldl_sum_v, colTensor_moment]
  ext <;> simp [M3.zero, M3.of]

/-- **C67** None of the mass properties depends on the order of the colliders. -/
theorem mass_order {cs cs' : List (Dyn.MassCol K)} (h : cs.Perm cs') (d : Dyn K) :
    d.exec (.massProperties cs) = d.exec (.massProperties cs') := by
  have t : ∀ f : Dyn.MassCol K → K, total cs f = total cs' f := fun f => (h.map f).sum_eq
  have e1 : Dyn.totalMass cs = Dyn.totalMass cs' := by rw [total_mass, total_mass, t]
  have e2 : Dyn.computeCenter cs = Dyn.computeCenter cs' := by
    unfold Dyn.computeCenter
    simp only [foldl_sum_v, e1, t]
  have e3 : ∀ c, Dyn.computeInertia c cs = Dyn.computeInertia c cs' := fun c => by
    rw [inertia_of_colliders, inertia_of_colliders]; simp only [t]
  simp only [Dyn.exec, Dyn.updateMassProperties, e1, e2, e3]

/-- The colliders moved by `v` in the body. -/
def shift (v : V3 K) (c : Dyn.MassCol K) : Dyn.MassCol K := { c with tr := ⟨c.tr.pos + v, c.tr.ori⟩ }

/-- **C67** Moving all colliders by the same vector moves the center of mass by it, and changes neither mass nor inertia. -/
theorem mass_shift (cs : List (Dyn.MassCol K)) (v : V3 K) (h : 0 < total cs fun c => c.mass) :
    Dyn.totalMass (cs.map (shift v)) = Dyn.totalMass cs ∧
    Dyn.computeCenter (cs.map (shift v)) = Dyn.computeCenter cs + v ∧
    Dyn.computeInertia (Dyn.computeCenter (cs.map (shift v))) (cs.map (shift v)) = Dyn.computeInertia (Dyn.computeCenter cs) cs := by
  have tm : ∀ f : Dyn.MassCol K → K, total (cs.map (shift v)) f = total cs fun c => f (shift v c) := fun f => by
    simp [total, Function.comp_def]
  have e1 : Dyn.totalMass (cs.map (shift v)) = Dyn.totalMass cs := by
    rw [total_mass, total_mass, tm]; rfl
  have tl : ∀ (f : Dyn.MassCol K → K) (k : K), (total cs fun c => c.mass * (f c + k)) = (total cs fun c => c.mass * f c) + (total cs fun c => c.mass) * k := by
    intro f k
    clear h e1 tm
    induction cs with
    | nil => simp [total]
    | cons c cs ih =>
      simp only [total, List.map_cons, List.sum_cons] at ih ⊢
      rw [ih]; ring
  have e2 : Dyn.computeCenter (cs.map (shift v)) = Dyn.computeCenter cs + v := by
    have h' : 0 < Dyn.totalMass cs := by rw [total_mass]; exact h
    unfold Dyn.computeCenter
    simp only [foldl_sum_v, e1]
    rw [if_pos h', if_pos h', total_mass]
    have := ne_of_gt h
    ext <;> simp only [tm, shift, V3.smul_x, V3.smul_y, V3.smul_z, V3.add_x, V3.add_y, V3.add_z, V3.zero_x, V3.zero_y, V3.zero_z, tl, zero_add] <;> field_simp
  refine ⟨e1, e2, ?_⟩
  rw [e2, inertia_of_colliders, inertia_of_colliders]
  have : ∀ c u, Moment (Dyn.computeCenter cs + v) (shift v c) u = Moment (Dyn.computeCenter cs) c u := fun c u => by
    have e : c.tr.pos + v - (Dyn.computeCenter cs + v) = c.tr.pos - Dyn.computeCenter cs := by ext <;> simp
    simp only [Moment, shift, e]
  simp only [tm, this]

/-! ### C69 -/

/-- **C69** does not hold: the tensor of a body keeps only the diagonal, so a body made of two balls on a diagonal is as easy to turn about the
line through the centers as about the axis across it. -/
theorem inertia_loses_products :
    ∃ (cs : List (Dyn.MassCol ℚ)), (total cs fun c => Moment (Dyn.computeCenter cs) c ⟨1, 1, 0⟩) = 0 ∧
      (total cs fun c => Moment (Dyn.computeCenter cs) c ⟨1, -1, 0⟩) = 8 ∧
      (let i := Dyn.computeInertia (Dyn.computeCenter cs) cs; i.x * 1 + i.y * 1 + i.z * 0 = 4) := by
  refine ⟨[⟨1, ⟨⟨1, 1, 0⟩, Quat.one⟩, 0⟩, ⟨1, ⟨⟨-1, -1, 0⟩, Quat.one⟩, 0⟩], ?_, ?_, ?_⟩ <;> decide +kernel

/-- The product of inertia of two directions. -/
def Product (com : V3 K) (c : Dyn.MassCol K) (u v : V3 K) : K := Moment com c (u + v) - Moment com c u - Moment com c v

/-- **C69**, what holds: if the products of inertia of the body axes vanish, the moment about any axis is that of the colliders. Missing: bodies whose
principal axes are not the axes of the body. -/
theorem inertia_axis_partial (com : V3 K) (cs : List (Dyn.MassCol K))
    (hxy : (total cs fun c => Product com c ⟨1, 0, 0⟩ ⟨0, 1, 0⟩) = 0) (hxz : (total cs fun c => Product com c ⟨1, 0, 0⟩ ⟨0, 0, 1⟩) = 0)
    (hyz : (total cs fun c => Product com c ⟨0, 1, 0⟩ ⟨0, 0, 1⟩) = 0) (u : V3 K) :
    (total cs fun c => Moment com c u) =
      (Dyn.computeInertia com cs).x * u.x ^ 2 + (Dyn.computeInertia com cs).y * u.y ^ 2 + (Dyn.computeInertia com cs).z * u.z ^ 2 := by
  rw [inertia_of_colliders]
  have h : ∀ c, Moment com c u = Moment com c ⟨1, 0, 0⟩ * u.x ^ 2 + Moment com c ⟨0, 1, 0⟩ * u.y ^ 2 + Moment com c ⟨0, 0, 1⟩ * u.z ^ 2 +
      Product com c ⟨1, 0, 0⟩ ⟨0, 1, 0⟩ * (u.x * u.y) + Product com c ⟨1, 0, 0⟩ ⟨0, 0, 1⟩ * (u.x * u.z) +
      Product com c ⟨0, 1, 0⟩ ⟨0, 0, 1⟩ * (u.y * u.z) := fun c => by
    simp only [Product, Moment, M3.act, M3.transpose, V3.lengthSq, V3.cross, V3.add_x, V3.add_y, V3.add_z]
    ring
  have : (total cs fun c => Moment com c u) = (total cs fun c => Moment com c ⟨1, 0, 0⟩) * u.x ^ 2 +
      (total cs fun c => Moment com c ⟨0, 1, 0⟩) * u.y ^ 2 + (total cs fun c => Moment com c ⟨0, 0, 1⟩) * u.z ^ 2 +
      (total cs fun c => Product com c ⟨1, 0, 0⟩ ⟨0, 1, 0⟩) * (u.x * u.y) + (total cs fun c => Product com c ⟨1, 0, 0⟩ ⟨0, 0, 1⟩) * (u.x * u.z) +
      (total cs fun c => Product com c ⟨0, 1, 0⟩ ⟨0, 0, 1⟩) * (u.y * u.z) := by
    clear hxy hxz hyz
    induction cs with
    | nil => simp [total]
    | cons c cs ih =>
      simp only [total, List.map_cons, List.sum_cons] at ih ⊢
      rw [ih, h c]; ring
  rw [this, hxy, hxz, hyz]
  ring

example : (total [⟨1, ⟨⟨2, 0, 0⟩, Quat.one⟩, ⟨1, 2, 3⟩⟩, ⟨1, ⟨⟨-2, 0, 0⟩, Quat.one⟩, (⟨1, 2, 3⟩ : V3 ℚ)⟩] fun c => Product 0 c ⟨1, 0, 0⟩ ⟨0, 1, 0⟩) = 0 := by
  decide +kernel

/-! ### C68 -/

/-- The user gives unit orientations, and the solvers of joints write nonzero ones. -/
def UnitCalls (w : DW K) : Op K → Prop
  | .create _ t => t.ori.lengthSq = 1
  | .call _ (.transform t) => t.ori.lengthSq = 1
  | .update a => (∃ sqrt, IsSqrt sqrt ∧ a.len = fun q => sqrt q.lengthSq) ∧ ∀ b p, a.poss b = some p → p.2.lengthSq ≠ 0
  | _ => True

theorem quat_lengthSq_nonneg (q : Quat K) : 0 ≤ q.lengthSq := by
  unfold Quat.lengthSq
  nlinarith [mul_self_nonneg q.x, mul_self_nonneg q.y, mul_self_nonneg q.z, mul_self_nonneg q.w]

/-- The integration of an orientation never yields the zero quaternion. -/
theorem integrated_nonzero (q : Quat K) (w : V3 K) (dt : K) :
    (q.add ((((⟨w.x, w.y, w.z, 0⟩ : Quat K).mul q).scale (1 / 2)).scale dt)).lengthSq = q.lengthSq * (1 + dt ^ 2 / 4 * V3.lengthSq w) := by
  simp only [Quat.add, Quat.scale, Quat.mul, Quat.lengthSq, V3.lengthSq]
  ring

theorem normalised {sqrt : K → K} (hs : IsSqrt sqrt) (q : Quat K) (h : q.lengthSq ≠ 0) : (q.divBy (sqrt q.lengthSq)).lengthSq = 1 := by
  have hp : 0 < q.lengthSq := lt_of_le_of_ne (quat_lengthSq_nonneg q) (Ne.symm h)
  obtain ⟨h0, h1⟩ := sqrt_pos hs hp
  have hn := ne_of_gt h0
  have : (q.divBy (sqrt q.lengthSq)).lengthSq = q.lengthSq / (sqrt q.lengthSq * sqrt q.lengthSq) := by
    simp only [Quat.divBy, Quat.lengthSq]
    field_simp
  rw [this, h1]
  exact div_self h

theorem unit_move (a : Args K) (ho : (∃ sqrt, IsSqrt sqrt ∧ a.len = fun q => sqrt q.lengthSq) ∧ ∀ b p, a.poss b = some p → p.2.lengthSq ≠ 0)
    (b : Nat) (d : Dyn K) (h : d.tr.ori.lengthSq = 1) : (d.move a b).tr.ori.lengthSq = 1 := by
  by_cases hd : d.disabled = true
  · rw [(Dyn.move_disabled a b d hd).2.2.1]; exact h
  · obtain ⟨⟨sqrt, hs, hl⟩, hp⟩ := ho
    have t1 : d.updateInertia.tr = d.tr := by unfold Dyn.updateInertia; split <;> rfl
    have t2 := (Dyn.integrateVel_keep a.dt a.g d.updateInertia).2.2.1
    have s0 := ((Dyn.updateInertia_same d).trans (Dyn.integrateVel_same a.dt a.g _)).trans (Dyn.solveVel_same (a.vels b) _)
    unfold Dyn.move
    have t3 : ((d.updateInertia.integrateVel a.dt a.g).solveVel (a.vels b)).tr = d.tr := by
      rw [Dyn.solveVel_tr, t2, t1]
    generalize (d.updateInertia.integrateVel a.dt a.g).solveVel (a.vels b) = e at s0 t3
    have he : e.disabled = false := by rw [s0.disabled]; simpa using hd
    have hq : ((e.integratePos a.dt a.split).solvePos (a.poss b)).cOri.lengthSq ≠ 0 := by
      cases hx : a.poss b with
      | some p => exact hp b p hx
      | none =>
        simp only [Dyn.solvePos]
        unfold Dyn.integratePos
        rw [if_neg (by rw [he]; simp)]
        simp only
        rw [integrated_nonzero, t3, h]
        have : 0 ≤ V3.lengthSq (e.cAng + V3.smul a.split e.sAng) := by
          simp only [V3.lengthSq]
          nlinarith [mul_self_nonneg (e.cAng + V3.smul a.split e.sAng).x, mul_self_nonneg (e.cAng + V3.smul a.split e.sAng).y,
            mul_self_nonneg (e.cAng + V3.smul a.split e.sAng).z]
        have : 0 ≤ a.dt ^ 2 / 4 * V3.lengthSq (e.cAng + V3.smul a.split e.sAng) := by positivity
        intro h0
        linarith
    unfold Dyn.updateState
    rw [if_neg (by rw [Dyn.solvePos_disabled, (Dyn.integratePos_same _ _ _).disabled, he]; simp)]
    simp only
    rw [hl]
    exact normalised hs _ hq

/-- **C68** The orientation of every body is a unit quaternion at any time, if the user gives unit orientations. -/
theorem orientation_unit {w : DW K} (h : Reach UnitCalls w) : ∀ b d, w.body b = some d → d.tr.ori.lengthSq = 1 := by
  induction h with
  | empty => intro b d h; simp [DW.empty] at h
  | @step w o ho _ ih =>
    by_cases hc : ∃ c t, o = .create c t
    · obtain ⟨c, t, rfl⟩ := hc
      intro b d hb
      simp only [DW.exec] at hb
      by_cases e : b = c
      · subst e; rw [upd_same] at hb; cases hb; exact ho
      · rw [upd_ne _ _ e] at hb; exact ih b d hb
    · intro b d hb
      cases o with
      | create c t => exact absurd ⟨c, t, rfl⟩ hc
      | destroy c =>
        simp only [DW.exec] at hb
        by_cases e : b = c
        · subst e; rw [upd_same] at hb; cases hb
        · rw [upd_ne _ _ e] at hb; exact ih b d hb
      | call c o =>
        simp only [DW.exec] at hb
        by_cases e : b = c
        · subst e
          rw [modify_same, Option.map_eq_some_iff] at hb
          obtain ⟨d', hd', rfl⟩ := hb
          by_cases e2 : ∃ t, o = .transform t
          · obtain ⟨t, rfl⟩ := e2
            exact ho
          · rw [call_tr d' o fun t ht => e2 ⟨t, ht⟩]
            exact ih _ _ hd'
        · rw [modify_ne _ _ e] at hb; exact ih b d hb
      | enableSleeping c =>
        simp only [DW.exec, enableSleeping] at hb
        split at hb
        · simp only [mapAll, Option.map_eq_some_iff] at hb
          obtain ⟨d', hd', rfl⟩ := hb
          rw [Dyn.setIsSleeping_tr]
          exact ih _ _ hd'
        · exact ih b d hb
      | limits l a t => exact ih b d hb
      | update a =>
        have h1 : ∀ b d, (moved a w).body b = some d → d.tr.ori.lengthSq = 1 := fun b d hb => by
          rw [moved_body, wakeIslands, mapAll] at hb
          cases e : w.body b with
          | none => simp [e] at hb
          | some d' =>
            simp only [e, Option.map_some, Option.some.injEq] at hb
            rw [← hb]
            refine unit_move a ho b _ ?_
            split
            · rw [Dyn.setIsSleeping_tr]; exact ih b d' e
            · exact ih b d' e
        simp only [DW.exec, DW.update, mapAll, Option.map_eq_some_iff] at hb
        obtain ⟨d', hd', rfl⟩ := hb
        show d'.tr.ori.lengthSq = 1
        split at hd'
        · exact sleep_induct (fun _ d => d.tr.ori.lengthSq = 1) (fun _ _ _ _ p => p)
            (fun _ d p => by rw [Dyn.setIsSleeping_tr]; exact p) _ _ _ _ _ h1 b d' hd'
        · exact h1 b d' hd'

end RP3D
