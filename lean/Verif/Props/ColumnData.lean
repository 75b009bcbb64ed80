import Verif.Engine.ColumnDataLemmas

/-! Property C139: every field of every component follows its entity. -/

namespace RP3D
namespace ColumnData
open Tab

/-! ### Specification -/

/-- The specification of a table: for each entity its fields and its disabled flag. -/
abbrev Fields (C X : Type) := Nat → Option ((C → Val X) × Bool)

/-- One operation; a new component has the fields `start`, a setter changes one field of one entity.  `none` is a violated precondition: adding a
component twice, using an absent one, or a setter for the entity column, which does not exist. -/
def expect {C X : Type} [DecidableEq C] (ent : C) (start : C → Src) (f : Fields C X) : Op C X → Option (Fields C X)
  | .add e dis ev => match f e with
    | none => some (fun e' => if e' = e then
        some (fun k => match start k with | .entity => .ent e | .expr s => .dat (ev s), dis) else f e')
    | some _ => none
  | .remove e => match f e with
    | none => none
    | some _ => some (fun e' => if e' = e then none else f e')
  | .setDisabled e dis => match f e with
    | none => none
    | some (d, _) => some (fun e' => if e' = e then some (d, dis) else f e')
  | .set e k x => match f e with
    | none => none
    | some (d, b) => if k = ent then none else
      some (fun e' => if e' = e then some (fun k' => if k' = k then .dat x else d k', b) else f e')

def expectAll {C X : Type} [DecidableEq C] (ent : C) (start : C → Src) (f : Fields C X) : List (Op C X) → Option (Fields C X)
  | [] => some f
  | op :: ops => do
    let f ← expect ent start f op
    expectAll ent start f ops

/-- The fields of all components, except those in `lost`, follow their entities: in every history every getter returns the last value
that was set for this entity and field, or else its initial value; no operation is undefined or leaks an array; and the
destructor leaves no array alive. -/
def Follows {C : Type} [DecidableEq C] (p : Prog C) (start : C → Src) (lost : List C) : Prop :=
  ∀ (X : Type) (ops : List (Op C X)) (f : Fields C X), expectAll p.ent start (fun _ => none) ops = some f →
    ∃ t, run p empty ops = some t ∧
      (∀ e, t.has e = (f e).isSome) ∧
      (∀ e k, k ∉ lost → t.get e k = (f e).map (fun x => x.1 k)) ∧
      (∀ e, t.isDisabled e = (f e).map Prod.snd) ∧
      ∃ t', t.close p = some t' ∧ ∀ k ∈ p.owning, ∀ i, t'.cells k i = none

/-! ### Proof for all classes -/

theorem run_sim {C X : Type} [DecidableEq C] {p : Prog C} {start : C → Src} {lost : List C} (w : WF p start lost)
    (ops : List (Op C X)) : ∀ {t : Tab C X} {a : Comps (C → Val X)} {f f' : Fields C X}, Sim p lost t a → Comps.Rep id a f →
    expectAll p.ent start f ops = some f' → ∃ t' a', run p t ops = some t' ∧ Sim p lost t' a' ∧ Comps.Rep id a' f' := by
  induction ops with
  | nil =>
    intro t a f f' h hr hf
    simp only [expectAll, Option.some.injEq] at hf
    subst hf
    exact ⟨t, a, rfl, h, hr⟩
  | cons op ops ih =>
    intro t a f f' h hr hf
    simp only [expectAll, Option.bind_eq_bind, Option.bind_eq_some_iff] at hf
    obtain ⟨f1, hf1, hf2⟩ := hf
    have key : ∃ t1 a1, step p t op = some t1 ∧ Sim p lost t1 a1 ∧ Comps.Rep id a1 f1 := by
      cases op with
      | add e dis ev =>
        simp only [expect] at hf1
        cases hfe : f e with
        | some v => rw [hfe] at hf1; cases hf1
        | none =>
          rw [hfe] at hf1
          have hv : (fun k => match start k with | .entity => Val.ent e | .expr s => .dat (ev s))
              = fun k => value e ev (start k) := by
            funext k; cases start k <;> rfl
          simp only [hv] at hf1
          obtain ⟨a1, ha1, hr1⟩ := Comps.add_rep hr dis (fun k => value e ev (start k)) hfe
          obtain ⟨t1, ht1, s1⟩ := add_sim w h ev ha1
          cases hf1
          exact ⟨t1, a1, ht1, s1, hr1⟩
      | remove e =>
        simp only [expect] at hf1
        cases hfe : f e with
        | none => rw [hfe] at hf1; cases hf1
        | some v =>
          rw [hfe] at hf1
          obtain ⟨a1, ha1, hr1⟩ := Comps.remove_rep hr hfe
          obtain ⟨t1, ht1, s1⟩ := remove_sim w h ha1
          cases hf1
          exact ⟨t1, a1, ht1, s1, hr1⟩
      | setDisabled e dis =>
        simp only [expect] at hf1
        cases hfe : f e with
        | none => rw [hfe] at hf1; cases hf1
        | some v =>
          rw [hfe] at hf1
          obtain ⟨a1, ha1, hr1⟩ := Comps.setDisabled_rep hr (cp := id) (fun _ => rfl) dis hfe
          obtain ⟨t1, ht1, s1⟩ := setDisabled_sim w h ha1
          cases hf1
          exact ⟨t1, a1, ht1, s1, hr1⟩
      | set e k x =>
        simp only [expect] at hf1
        cases hfe : f e with
        | none => rw [hfe] at hf1; cases hf1
        | some v =>
          obtain ⟨d, b⟩ := v
          rw [hfe] at hf1
          simp only at hf1
          by_cases hk : k = p.ent
          · rw [if_pos hk] at hf1; cases hf1
          · rw [if_neg hk] at hf1
            obtain ⟨i, d', hm, hs, hx, hb, _⟩ := Comps.map_of_f hr hfe
            simp only [id] at hx
            subst hx
            obtain ⟨a1, ha1, hr1⟩ := Comps.setData_rep hr (fun k' => if k' = k then .dat x else d k') hfe
            obtain ⟨t1, ht1, s1⟩ := set_sim w h x hk hm hs ha1
            cases hf1
            exact ⟨t1, a1, ht1, s1, hr1⟩
    obtain ⟨t1, a1, h1, s1, r1⟩ := key
    obtain ⟨t2, a2, h2, s2, r2⟩ := ih s1 r1 hf2
    exact ⟨t2, a2, by simp [run, h1, h2], s2, r2⟩

/-- A class whose program is consistent keeps all of its fields. -/
theorem follows {C : Type} [DecidableEq C] {p : Prog C} {start : C → Src} {lost : List C} (w : WF p start lost) :
    Follows p start lost := by
  intro X ops f hf
  obtain ⟨t, a, h, s, r⟩ := run_sim w ops (empty_sim p lost) Comps.rep_empty hf
  have hnone : ∀ e, f e = none → a.map e = none := by
    intro e he
    cases hm : a.map e with
    | none => rfl
    | some i =>
      obtain ⟨d, hd⟩ := (r.rep.core e i).1 hm
      have := (r.rep.spec e _ _).2 ⟨i, d, hd, rfl, rfl⟩
      rw [he] at this; cases this
  refine ⟨t, h, ?_, ?_, ?_, ?_⟩
  · intro e
    unfold has
    rw [s.map]
    cases he : f e with
    | none => simp [hnone e he]
    | some v =>
      obtain ⟨i, d, hm, _⟩ := Comps.map_of_f r (x := v.1) (b := v.2) he
      simp [hm]
  · intro e k hk
    unfold Tab.get
    rw [s.map]
    cases he : f e with
    | none => simp [hnone e he]
    | some v =>
      obtain ⟨i, d, hm, hs, hx, _⟩ := Comps.map_of_f r (x := v.1) (b := v.2) he
      have := (s.full i e d hs).2 k hk
      simp [hm, this, hx]
  · intro e
    unfold isDisabled
    rw [s.map, s.ds]
    cases he : f e with
    | none => simp [hnone e he]
    | some v =>
      obtain ⟨i, d, hm, hs, _, hb, _⟩ := Comps.map_of_f r (x := v.1) (b := v.2) he
      simp [hm, hb]
  · refine close_sim w t.nb 0 t a s ?_
    intro j
    rw [s.nb, ← r.rep.occ j]
    omega

/-! ### The nine classes

The functions `...Start` are the documented initial values of the fields: arguments of the creation, or constants (in C++ notation; an array
is constructed empty from `mMemoryAllocator`). -/

/-- The initial values of `TransformComponents`. -/
def transformStart : TransformCol → Src
  | .bodies => .entity
  | .transforms => .expr "component.transform"

theorem transform_wf : WF transformProg transformStart [] := by
  constructor
  all_goals first | decide | (intro k; cases k <;> decide)

/-- **C139** for `TransformComponents`: all fields follow their entities. -/
theorem transform_fields : Follows transformProg transformStart [] := follows transform_wf

/-- The initial values of `JointComponents`. -/
def jointStart : JointCol → Src
  | .jointEntities => .entity
  | .body1Entities => .expr "component.body1Entity"
  | .body2Entities => .expr "component.body2Entity"
  | .joints => .expr "component.joint"
  | .types => .expr "component.jointType"
  | .positionCorrectionTechniques => .expr "component.positionCorrectionTechnique"
  | .isCollisionEnabled => .expr "component.isCollisionEnabled"
  | .isAlreadyInIsland => .expr "false"

theorem joint_wf : WF jointProg jointStart [] := by
  constructor
  all_goals first | decide | (intro k; cases k <;> decide)

/-- **C139** for `JointComponents`: all fields follow their entities. -/
theorem joint_fields : Follows jointProg jointStart [] := follows joint_wf

/-- The initial values of `BodyComponents`. -/
def bodyStart : BodyCol → Src
  | .bodiesEntities => .entity
  | .bodies => .expr "component.body"
  | .colliders => .expr "mMemoryAllocator"
  | .isActive => .expr "true"
  | .userData => .expr "nullptr"
  | .hasSimulationCollider => .expr "false"

theorem body_wf : WF bodyProg bodyStart [] := by
  constructor
  all_goals first | decide | (intro k; cases k <;> decide)

/-- **C139** for `BodyComponents`: all fields follow their entities. -/
theorem body_fields : Follows bodyProg bodyStart [] := follows body_wf

/-- The initial values of `ColliderComponents`. -/
def colliderStart : ColliderCol → Src
  | .collidersEntities => .entity
  | .bodiesEntities => .expr "component.bodyEntity"
  | .colliders => .expr "component.collider"
  | .broadPhaseIds => .expr "-1"
  | .localToBodyTransforms => .expr "component.localToBodyTransform"
  | .collisionShapes => .expr "component.collisionShape"
  | .collisionCategoryBits => .expr "component.collisionCategoryBits"
  | .collideWithMaskBits => .expr "component.collideWithMaskBits"
  | .localToWorldTransforms => .expr "component.localToWorldTransform"
  | .overlappingPairs => .expr "mMemoryAllocator"
  | .hasCollisionShapeChangedSize | .isTrigger => .expr "false"
  | .isSimulationCollider | .isWorldQueryCollider => .expr "true"
  | .materials => .expr "component.material"

theorem collider_wf : WF colliderProg colliderStart [] := by
  constructor
  all_goals first | decide | (intro k; cases k <;> decide)

/-- **C139** for `ColliderComponents`: all fields follow their entities. -/
theorem collider_fields : Follows colliderProg colliderStart [] := follows collider_wf

/-- The initial values of `RigidBodyComponents`. -/
def rigidBodyStart : RigidBodyCol → Src
  | .bodiesEntities => .entity
  | .rigidBodies => .expr "component.body"
  | .isAllowedToSleep | .isGravityEnabled => .expr "true"
  | .isSleeping | .isAlreadyInIsland => .expr "false"
  | .sleepTimes => .expr "decimal(0)"
  | .bodyTypes => .expr "component.bodyType"
  | .linearVelocities | .angularVelocities | .externalForces | .externalTorques |
    .constrainedLinearVelocities | .constrainedAngularVelocities | .splitLinearVelocities |
    .splitAngularVelocities | .constrainedPositions | .centersOfMassLocal => .expr "0, 0, 0"
  | .linearDampings | .angularDampings => .expr "decimal(0.0)"
  | .masses | .inverseMasses => .expr "decimal(1.0)"
  | .localInertiaTensors | .inverseInertiaTensorsLocal => .expr "1.0, 1.0, 1.0"
  | .inverseInertiaTensorsWorld => .expr "1.0, 0.0, 0.0, 0.0, 1.0, 0.0, 0.0, 0.0, 1.0"
  | .constrainedOrientations => .expr "0, 0, 0, 1"
  | .centersOfMassWorld => .expr "component.worldPosition"
  | .joints | .contactPairs => .expr "mMemoryAllocator"
  | .linearLockAxisFactors | .angularLockAxisFactors => .expr "1, 1, 1"

theorem rigidBody_wf : WF rigidBodyProg rigidBodyStart [] := by
  constructor
  all_goals first | decide | (intro k; cases k <;> decide)

/-- **C139** for `RigidBodyComponents`: all fields follow their entities. -/
theorem rigidBody_fields : Follows rigidBodyProg rigidBodyStart [] := follows rigidBody_wf

/-- The initial values of `BallAndSocketJointComponents`. -/
def ballAndSocketJointStart : BallAndSocketJointCol → Src
  | .jointEntities => .entity
  | .joints => .expr "nullptr"
  | .localAnchorPointBody1 | .localAnchorPointBody2 | .r1World | .r2World | .biasVector | .impulse |
    .coneLimitACrossB => .expr "0, 0, 0"
  | .i1 | .i2 | .inverseMassMatrix => .expr ""
  | .isConeLimitEnabled => .expr "component.isConeLimitEnabled"
  | .coneLimitImpulse | .inverseMassMatrixConeLimit | .bConeLimit => .expr "decimal(0.0)"
  | .coneLimitHalfAngle => .expr "component.coneLimitHalfAngle"
  | .isConeLimitViolated => .expr "false"

theorem ballAndSocketJoint_wf : WF ballAndSocketJointProg ballAndSocketJointStart [] := by
  constructor
  all_goals first | decide | (intro k; cases k <;> decide)

/-- **C139** for `BallAndSocketJointComponents`: all fields follow their entities. -/
theorem ballAndSocketJoint_fields : Follows ballAndSocketJointProg ballAndSocketJointStart [] := follows ballAndSocketJoint_wf

/-- The initial values of `FixedJointComponents`. -/
def fixedJointStart : FixedJointCol → Src
  | .jointEntities => .entity
  | .joints => .expr "nullptr"
  | .localAnchorPointBody1 | .localAnchorPointBody2 | .r1World | .r2World | .impulseTranslation |
    .impulseRotation | .biasTranslation | .biasRotation => .expr "0, 0, 0"
  | .i1 | .i2 | .inverseMassMatrixTranslation | .inverseMassMatrixRotation => .expr ""
  | .initOrientationDifferenceInv => .expr "0, 0, 0, 0"

theorem fixedJoint_wf : WF fixedJointProg fixedJointStart [] := by
  constructor
  all_goals first | decide | (intro k; cases k <;> decide)

/-- **C139** for `FixedJointComponents`: all fields follow their entities. -/
theorem fixedJoint_fields : Follows fixedJointProg fixedJointStart [] := follows fixedJoint_wf

/-- The initial values of `HingeJointComponents`. -/
def hingeJointStart : HingeJointCol → Src
  | .jointEntities => .entity
  | .joints => .expr "nullptr"
  | .localAnchorPointBody1 | .localAnchorPointBody2 | .r1World | .r2World | .impulseTranslation |
    .biasTranslation | .hingeLocalAxisBody1 | .hingeLocalAxisBody2 | .a1 | .b2CrossA1 | .c2CrossA1 => .expr "0, 0, 0"
  | .i1 | .i2 | .inverseMassMatrixTranslation | .inverseMassMatrixRotation => .expr ""
  | .impulseRotation | .biasRotation => .expr "0, 0"
  | .initOrientationDifferenceInv => .expr "0, 0, 0, 0"
  | .impulseLowerLimit | .impulseUpperLimit | .impulseMotor | .inverseMassMatrixLimitMotor |
    .inverseMassMatrixMotor | .bLowerLimit | .bUpperLimit => .expr "decimal(0.0)"
  | .isLimitEnabled => .expr "component.isLimitEnabled"
  | .isMotorEnabled => .expr "component.isMotorEnabled"
  | .lowerLimit => .expr "component.lowerLimit"
  | .upperLimit => .expr "component.upperLimit"
  | .isLowerLimitViolated | .isUpperLimitViolated => .expr "false"
  | .motorSpeed => .expr "component.motorSpeed"
  | .maxMotorTorque => .expr "component.maxMotorTorque"

/-- The columns that are not kept. -/
def hingeJointLost : List HingeJointCol := [.bUpperLimit]

theorem hingeJoint_wf : WF hingeJointProg hingeJointStart hingeJointLost := by
  constructor
  all_goals first | decide | (intro k; cases k <;> decide)

/-- **C139, partial.** The fields of hinge joints; missing: `bUpperLimit`, which disabling or enabling overwrites (C59). -/
theorem hingeJoint_fields_partial : Follows hingeJointProg hingeJointStart hingeJointLost := follows hingeJoint_wf

/-- The initial values of `SliderJointComponents`. -/
def sliderJointStart : SliderJointCol → Src
  | .jointEntities => .entity
  | .joints => .expr "nullptr"
  | .localAnchorPointBody1 | .localAnchorPointBody2 | .impulseRotation | .biasRotation | .sliderAxisBody1 |
    .sliderAxisWorld | .r1 | .r2 | .n1 | .n2 | .r2CrossN1 | .r2CrossN2 | .r2CrossSliderAxis | .r1PlusUCrossN1 |
    .r1PlusUCrossN2 | .r1PlusUCrossSliderAxis => .expr "0, 0, 0"
  | .i1 | .i2 | .inverseMassMatrixTranslation | .inverseMassMatrixRotation => .expr ""
  | .impulseTranslation | .biasTranslation => .expr "0, 0"
  | .initOrientationDifferenceInv => .expr "0, 0, 0, 0"
  | .impulseLowerLimit | .impulseUpperLimit | .impulseMotor | .inverseMassMatrixLimit |
    .inverseMassMatrixMotor | .bLowerLimit | .bUpperLimit => .expr "decimal(0.0)"
  | .isLimitEnabled => .expr "component.isLimitEnabled"
  | .isMotorEnabled => .expr "component.isMotorEnabled"
  | .lowerLimit => .expr "component.lowerLimit"
  | .upperLimit => .expr "component.upperLimit"
  | .isLowerLimitViolated | .isUpperLimitViolated => .expr "false"
  | .motorSpeed => .expr "component.motorSpeed"
  | .maxMotorForce => .expr "component.maxMotorForce"

/-- The columns that are not kept. -/
def sliderJointLost : List SliderJointCol := [.bUpperLimit, .r2CrossN1, .r2CrossN2, .r2CrossSliderAxis, .r1PlusUCrossN1, .r1PlusUCrossN2, .r1PlusUCrossSliderAxis]

theorem sliderJoint_wf : WF sliderJointProg sliderJointStart sliderJointLost := by
  constructor
  all_goals first | decide | (intro k; cases k <;> decide)

/-- **C139, partial.** The fields of slider joints; missing: `bUpperLimit`, which disabling or enabling overwrites (C59), and the six vectors that
the growth of the table does not copy (C15). -/
theorem sliderJoint_fields_partial : Follows sliderJointProg sliderJointStart sliderJointLost := follows sliderJoint_wf

/-- To find the final table of a computation. -/
theorem of_any {T : Type} {o : Option T} {q : T → Prop} [DecidablePred q] (h : o.any (fun t => decide (q t)) = true) :
    ∃ t, o = some t ∧ q t := by
  cases o with
  | none => cases h
  | some t => exact ⟨t, rfl, by simpa using h⟩

/-- A history with growth-free moves and swaps: the position of the second body, set before the first one is disabled, and the
collider list of the third one. -/
example : ∃ f : Fields RigidBodyCol String, expectAll rigidBodyProg.ent rigidBodyStart (fun _ => none)
    [.add 1 false id, .add 2 false id, .set 2 .constrainedPositions "here", .setDisabled 1 true, .add 3 false id,
     .set 3 .joints "a joint", .setDisabled 2 true, .setDisabled 1 false, .remove 3] = some f ∧
    (f 1).map (fun x => x.1 .masses) = some (.dat "decimal(1.0)") ∧
    (f 2).map (fun x => x.1 .constrainedPositions) = some (.dat "here") ∧ f 3 = none :=
  ⟨_, rfl, rfl, rfl, rfl⟩

/-- What the table returns after that history. -/
example : ∃ t, run rigidBodyProg empty
    [.add 1 false id, .add 2 false id, .set 2 .constrainedPositions "here", .setDisabled 1 true, .add 3 false id,
     .set 3 .joints "a joint", .setDisabled 2 true, .setDisabled 1 false, .remove 3] = some t ∧
    t.get 2 .constrainedPositions = some (.dat "here") ∧ t.get 1 .masses = some (.dat "decimal(1.0)") ∧ t.get 3 .masses = none :=
  of_any (by decide +kernel)

/-- **C139 (violated).** Disabling the first of two hinge joints overwrites its field `bUpperLimit`, initially zero, by the upper
limit (HingeJointComponents.cpp:357, 399). -/
theorem hinge_field_overwritten : ∃ t : Tab HingeJointCol String,
    run hingeJointProg empty [.add 1 false id, .add 2 false id, .setDisabled 1 true] = some t ∧
    t.get 1 .bUpperLimit = some (.dat "component.upperLimit") ∧ hingeJointStart .bUpperLimit = .expr "decimal(0.0)" :=
  ⟨_, rfl, rfl, rfl⟩

/-- **C139 (violated).** The same for slider joints (SliderJointComponents.cpp:388, 435). -/
theorem slider_field_overwritten : ∃ t : Tab SliderJointCol String,
    run sliderJointProg empty [.add 1 false id, .add 2 false id, .setDisabled 1 true] = some t ∧
    t.get 1 .bUpperLimit = some (.dat "component.upperLimit") ∧ sliderJointStart .bUpperLimit = .expr "decimal(0.0)" :=
  ⟨_, rfl, rfl, rfl⟩

/-- **C139 (violated).** When the 17th slider joint is created, the table grows and the first one loses six of its vectors
(SliderJointComponents.cpp:188-193). -/
theorem slider_field_lost : ∃ t : Tab SliderJointCol Unit,
    run sliderJointProg empty ((List.range 17).map (fun e => .add e false (fun _ => ()))) = some t ∧
    t.get 0 .r2CrossN1 = none ∧ t.get 0 .r1 = some (.dat ()) ∧ t.get 16 .r2CrossN1 = some (.dat ()) :=
  of_any (by decide +kernel)

end ColumnData
end RP3D
