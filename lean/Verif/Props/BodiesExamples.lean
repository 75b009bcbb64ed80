import Verif.Props.Bodies

/-! Concrete cases that meet the hypotheses of the theorems about the dynamics of bodies. -/

namespace RP3D
open DW BodyExample

theorem getD_of_isSome {α : Type} {o : Option α} {d : α} (h : o.isSome = true) : o = some (o.getD d) := by
  cases o with
  | none => cases h
  | some a => rfl

/-- A body of mass 2 with a force, damping and a locked axis. -/
def pushed : DW ℚ :=
  ((((((DW.empty false 1 1 1).exec (.create 0 idt)).exec (.call 0 (.setMass 2))).exec (.call 0 (.linearLock ⟨1, 0, 1⟩))).exec
    (.call 0 (.linearDamping (1 / 2)))).exec (.call 0 (.linearVelocity ⟨0, 3, 6⟩))).exec (.call 0 (.force ⟨4, 4, 0⟩ ⟨0, 0, 1⟩))

def gargs : Args ℚ := { args with g := some ⟨0, 0, -10⟩ }

theorem pushed_reach : Reach Any pushed := .step _ trivial (.step _ trivial (.step _ trivial (.step _ trivial (.step _ trivial (.step _ trivial (.empty _ _ _ _))))))

def body0 (w : DW ℚ) : Dyn ℚ := (w.body 0).getD (Dyn.create idt)

/-- C33: a static body that was pushed and is in a step. -/
example : ∃ d', (stopped.update gargs).body 0 = some d' ∧ d'.type = .static ∧ d'.tr = (body0 stopped).tr ∧ d'.vel = 0 := by
  obtain ⟨d', h1, h2, h3, _, h4, _⟩ := static_not_moved static_velocity_stale.1 (b := 0) (d := body0 stopped)
    (getD_of_isSome (by decide +kernel)) (by decide +kernel) gargs
  exact ⟨d', h1, h2, h3, h4⟩

example : (body0 stopped).vel = 0 ∧ (body0 stopped).ang = 0 :=
  static_at_rest static_velocity_stale.1 (b := 0) (getD_of_isSome (by decide +kernel)) (by decide +kernel)

example : ∃ d', ((((stopped.exec (.call 0 (.forceCenter ⟨1, 1, 1⟩))).exec (.update gargs)).exec (.call 0 (.active false))).exec (.update gargs)).body 0
    = some d' ∧ d'.type = .static ∧ d'.tr = (body0 stopped).tr :=
  static_stays static_velocity_stale.1 (b := 0) (getD_of_isSome (by decide +kernel)) (by decide +kernel)
    (.step _ (.step _ (.step _ (.step _ (.refl _) trivial) trivial) trivial) trivial)

/-- C35 -/
example : (body0 pushed).invMass * (body0 pushed).mass = 1 :=
  (inverse_mass pushed_reach (b := 0) (d := body0 pushed) (getD_of_isSome (by decide +kernel))).1 ⟨by decide +kernel, by decide +kernel⟩

example (v : V3 ℚ) : (body0 (prepared gargs pushed)).invInertiaW.act v =
    (body0 (prepared gargs pushed)).tr.ori.matrix.act (V3.had (body0 (prepared gargs pushed)).invInertia
      ((body0 (prepared gargs pushed)).tr.ori.matrix.transpose.act v)) :=
  solver_tensor pushed gargs (b := 0) (getD_of_isSome (by decide +kernel)) (by decide +kernel) v

/-- C55: force 4 on mass 2 along x, locked y, gravity along z, and damping 1/2. -/
example : (body0 (prepared gargs pushed)).cVel = ⟨(0 + 1 * (1 * 2)) / (1 + 1 / 2 * 1), 3 / (1 + 1 / 2 * 1), (6 + 1 * (1 * (-10))) / (1 + 1 / 2 * 1)⟩ := by
  have := step_velocity pushed_reach gargs (b := 0) (d := body0 pushed) (p := body0 (prepared gargs pushed)) (getD_of_isSome (by decide +kernel))
    (getD_of_isSome (by decide +kernel)) (by decide +kernel) (by decide +kernel) (by decide +kernel)
  rw [this]
  ext <;> decide +kernel

/-- The same body with another mass. -/
def heavy : DW ℚ := pushed.exec (.call 0 (.setMass 7))

example : (body0 (prepared gargs (heavy.exec (.call 0 .resetForce)))).cVel = (body0 (prepared gargs (pushed.exec (.call 0 .resetForce)))).cVel :=
  gravity_mass_independent (w := pushed.exec (.call 0 .resetForce)) (w' := heavy.exec (.call 0 .resetForce)) (.step _ trivial pushed_reach)
    (.step _ trivial (.step _ trivial pushed_reach)) gargs (b := 0) (b' := 0)
    (getD_of_isSome (d := Dyn.create idt) (by decide +kernel)) (getD_of_isSome (d := Dyn.create idt) (by decide +kernel))
    (getD_of_isSome (by decide +kernel)) (getD_of_isSome (by decide +kernel)) (by decide +kernel) (by decide +kernel) (by decide +kernel)
    (by decide +kernel) (by decide +kernel) (by decide +kernel) (by ext <;> decide +kernel) (by ext <;> decide +kernel) (by ext <;> decide +kernel)
    (by decide +kernel) (by ext <;> decide +kernel) (by decide +kernel)

/-- Without force and gravity. -/
def coasting : DW ℚ := ((pushed.exec (.call 0 .resetForce)).exec (.call 0 .resetTorque)).exec (.call 0 (.gravity false))

example : V3.lengthSq (body0 (prepared gargs coasting)).cVel ≤ 45 := by
  have := (no_speed_gain (.step _ trivial (.step _ trivial (.step _ trivial pushed_reach))) gargs (b := 0) (d := body0 coasting)
    (p := body0 (prepared gargs coasting)) (getD_of_isSome (by decide +kernel)) (getD_of_isSome (by decide +kernel)) (by decide +kernel)
    (by decide +kernel) (by ext <;> decide +kernel) (by ext <;> decide +kernel) (Or.inr (by decide +kernel))).1
  refine le_trans this ?_
  decide +kernel

example : (body0 (prepared gargs pushed)).cVel.y = (body0 pushed).vel.y / (1 + (body0 pushed).linDamp * 1) :=
  (locked_axis gargs (b := 0) (getD_of_isSome (by decide +kernel)) (getD_of_isSome (by decide +kernel)) (by decide +kernel) V3.y (by simp)).1
    (by decide +kernel)

/-- A kinematic body with a force. -/
def conveyor : DW ℚ := (pushed.exec (.call 0 (.setType .kinematic))).exec (.call 0 (.forceCenter ⟨1, 1, 1⟩))

example : (body0 (prepared gargs conveyor)).cVel = V3.smul (1 / (1 + (body0 conveyor).linDamp * 1)) (body0 conveyor).vel :=
  (not_accelerated (.step _ trivial (.step _ trivial pushed_reach)) gargs (b := 0) (getD_of_isSome (by decide +kernel))
    (getD_of_isSome (by decide +kernel)) (by decide +kernel) (by decide +kernel)).1

example : ∃ d', (pushed.update gargs).body 0 = some d' ∧ d'.comWorld = (body0 pushed).comWorld + V3.smul 1 (body0 (prepared gargs pushed)).cVel := by
  obtain ⟨d', h1, _, _, h2, _⟩ := free_flight gargs (w := pushed) (b := 0) (d := body0 pushed) (p := body0 (prepared gargs pushed))
    (getD_of_isSome (by decide +kernel)) (getD_of_isSome (by decide +kernel)) (by decide +kernel) rfl rfl rfl
  exact ⟨d', h1, h2⟩

example : ((body0 pushed).exec (.force ⟨1, 2, 3⟩ ⟨0, 0, 1⟩)).force = (body0 pushed).force + ⟨1, 2, 3⟩ :=
  (forces_add (body0 pushed) (by decide +kernel) _ _ (by decide +kernel)).1

/-- A sleeping body. -/
example : (((body0 pushed).setIsSleeping true).exec (.force ⟨1, 2, 3⟩ ⟨0, 0, 1⟩)).sleeping = false :=
  (force_wakes ((body0 pushed).setIsSleeping true) (by decide +kernel) (by decide +kernel) _ _).1

/-- C65, C66: a floor that is made static when it is created. -/
def floor : DW ℚ := ((DW.empty true 1 1 1).exec (.create 0 idt)).exec (.call 0 (.setType .static))

example : ∃ p, (prepared gargs floor).body 0 = some p ∧ p.cVel = 0 ∧ p.cAng = 0 ∧ p.sVel = 0 ∧ p.sAng = 0 := by
  refine static_solver_rest_partial (w := floor) (.step _ ?_ (.step _ trivial (.empty _ _ _ _))) (b := 0) (d := body0 floor)
    (getD_of_isSome (by decide +kernel)) (by decide +kernel) gargs
  intro d hd
  simp only [DW.exec, upd_same, Option.some.injEq] at hd
  rw [← hd]
  exact ⟨rfl, rfl, rfl, rfl⟩

example : (body0 floor).cPos = (body0 floor).comWorld ∧ (body0 floor).cOri = (body0 floor).tr.ori :=
  static_center_partial (w := floor) (.step _ trivial (.step _ trivial (.empty _ _ _ _))) (b := 0) (getD_of_isSome (by decide +kernel))
    (by decide +kernel) (by ext <;> decide +kernel)

/-- C67: two colliders. -/
def duo : List (Dyn.MassCol ℚ) := [⟨1, ⟨⟨3, 0, 0⟩, Quat.one⟩, ⟨1, 2, 3⟩⟩, ⟨2, ⟨⟨0, 3, 0⟩, Quat.one⟩, 0⟩]

example : 0 < total duo fun c => c.mass := by decide +kernel
example : Dyn.computeCenter duo = ⟨1, 2, 0⟩ := by ext <;> decide +kernel
example : Dyn.computeInertia (Dyn.computeCenter duo) duo = ⟨7, 8, 15⟩ := by ext <;> decide +kernel
example : duo.Perm duo.reverse := (List.reverse_perm duo).symm

/-- C68: the square root of the reals. -/
example : IsSqrt Real.sqrt := fun x hx => ⟨Real.sqrt_nonneg x, Real.mul_self_sqrt hx⟩

noncomputable def rargs : Args ℝ where
  dt := 1
  g := none
  islands := []
  split := 0
  vels := fun _ => none
  poss := fun _ => none
  len := fun q => Real.sqrt q.lengthSq
  add := fun a b => a + b
  big := 1000

example : ∀ b d, ((((DW.empty true 1 1 1 : DW ℝ).exec (.create 0 ⟨0, Quat.one⟩)).exec (.call 0 (.angularVelocity ⟨1, 2, 3⟩))).exec (.update rargs)).body b
    = some d → d.tr.ori.lengthSq = 1 := by
  refine orientation_unit (.step _ ⟨⟨Real.sqrt, fun x hx => ⟨Real.sqrt_nonneg x, Real.mul_self_sqrt hx⟩, rfl⟩, ?_⟩
    (.step _ trivial (.step _ ?_ (.empty _ _ _ _))))
  · intro b p h; cases h
  · show Quat.lengthSq Quat.one = (1 : ℝ)
    simp [Quat.lengthSq, Quat.one]

end RP3D
