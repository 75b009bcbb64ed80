import Verif.Props.Balance

/-! C138 over any number of steps. -/

set_option linter.unusedSectionVars false

namespace RP3D
namespace Balance
open Solver Joints SolverProps JointProps Whole
variable {K : Type} [Field K] [LinearOrder K] [IsStrictOrderedRing K]

/-! ### Specification -/

/-- What a user does to a body before each step: nothing, or a force at the center of mass and a torque. -/
def push1 (u : Option (V3 K × V3 K)) (d : Dyn K) : Dyn K :=
  match u with
  | none => d
  | some (f, m) => (d.applyForceCenter f).applyTorque m

/-- The same for all bodies. -/
def push (u : Nat → Option (V3 K × V3 K)) (w : DW K) : DW K := w.mapAll fun b => push1 (u b)

/-- What the next step reads: contacts and joints keep what the solvers stored (`storeImpulses`, ContactSolverSystem.cpp:763-785; the joint components). The bodies of a scene in balance do not
move, so collision detection finds the same contact points again and hands over their impulses. -/
def next (i : In K) (w : DW K) : In K := { i with mans := (i.mans.zip (solved i w).2.2).map fun q => store q.2 q.1, pins := (corrected i w).2 }

/-- A frame of the game: the user's forces, and a step. -/
def frame (u : Nat → Option (V3 K × V3 K)) (s : In K × DW K) : In K × DW K := (next s.1 (push u s.2), update s.1 (push u s.2))

/-! ### What a joint keeps -/

/-- The part of a joint that the next step reads. -/
def coreB (J : Ball K) : Ball K := { J with r1 := 0, r2 := 0, k := M3.zero, bias := 0, axb := 0, coneK := 0, coneBias := 0 }
def coreF (J : Fixed K) : Fixed K := { J with r1 := 0, r2 := 0, k := M3.zero, bias := 0, kr := M3.zero, biasR := 0 }
def coreH (J : Hinge K) : Hinge K :=
  { J with r1 := 0, r2 := 0, ax := 0, ba := 0, ca := 0, k := M3.zero, bias := 0, kr := M2.zero, biasR := ⟨0, 0⟩, biasL := 0, biasU := 0, km := 0 }
def coreS (J : Slider K) : Slider K :=
  { J with r1 := 0, r2 := 0, ax := 0, n1 := 0, n2 := 0, c1 := 0, c2 := 0, cx := 0, e1 := 0, e2 := 0, ex := 0, k := M2.zero, bias := ⟨0, 0⟩, kr := M3.zero, biasR := 0, biasL := 0, biasU := 0, kl := 0, km := 0 }

def core : Joint K → Joint K
  | .ball J => .ball (coreB J)
  | .fixed J => .fixed (coreF J)
  | .hinge J => .hinge (coreH J)
  | .slider J => .slider (coreS J)

theorem load_core (jc : JCfg K) (body : Nat → JBody K) (J : Joint K) : (J.init jc body).load = ((core J).init jc body).load := by cases J <;> rfl
theorem core_b1 (J : Joint K) : (core J).b1 = J.b1 := by cases J <;> rfl
theorem core_b2 (J : Joint K) : (core J).b2 = J.b2 := by cases J <;> rfl
theorem firm_core {jc : JCfg K} {P : Nat → PBody K} {X : Nat → Pose K} {J : Joint K} : Firm jc P X (core J) ↔ Firm jc P X J := by cases J <;> exact Iff.rfl

theorem kept_twice (b b' : Bool) (x : K) : (if (!b || b != b) = true then 0 else if (!b || b != b') = true then 0 else x) = if (!b || b != b') = true then 0 else x := by
  cases b <;> cases b' <;> rfl

/-- Initialised twice, a joint bears the same load. -/
theorem load_twice {jc : JCfg K} (hw : jc.warm = true) (body : Nat → JBody K) (J : Joint K) : ((J.init jc body).init jc body).load = (J.init jc body).load := by
  cases J with
  | ball J =>
    unfold Joint.init Joint.load Ball.load Ball.init
    simp only [hw, if_true, kept_twice]
  | fixed J =>
    unfold Joint.init Joint.load Fixed.load Fixed.init
    simp only [hw, if_true]
  | hinge J =>
    unfold Joint.init Joint.load Hinge.load Hinge.swing Hinge.init
    simp only [hw, if_true, kept_twice]
  | slider J =>
    unfold Joint.init Joint.load Slider.load Slider.init
    simp only [hw, if_true, Bool.not_true, Bool.false_or, kept_twice]

/-- A joint that is firm is so after it has been initialised. -/
theorem firm_init {jc : JCfg K} (hw : jc.warm = true) {P : Nat → PBody K} {X : Nat → Pose K} (body : Nat → JBody K) {J : Joint K} (h : Firm jc P X J) : Firm jc P X (J.init jc body) := by
  cases J with
  | ball J => exact h
  | fixed J => exact h
  | hinge J =>
    obtain ⟨a, l, u, m⟩ := h
    refine ⟨a, ?_, ?_, ?_⟩
    · show 0 ≤ (if _ then (0 : K) else if jc.warm = true then J.impL else 0)
      rw [if_pos hw]
      split <;> first | exact le_refl _ | exact l
    · show 0 ≤ (if _ then (0 : K) else if jc.warm = true then J.impU else 0)
      rw [if_pos hw]
      split <;> first | exact le_refl _ | exact u
    · show J.motorOn = true → J.speed = 0 ∧ |if jc.warm = true then J.impM else 0| ≤ J.max * jc.dt
      rw [if_pos hw]
      exact m
  | slider J =>
    obtain ⟨a, l, u, m⟩ := h
    refine ⟨a, ?_, ?_, ?_⟩
    · show 0 ≤ (if _ then (0 : K) else J.impL)
      split <;> first | exact le_refl _ | exact l
    · show 0 ≤ (if _ then (0 : K) else J.impU)
      split <;> first | exact le_refl _ | exact u
    · show J.motorOn = true → J.speed = 0 ∧ |if jc.warm = true then J.impM else 0| ≤ J.max * jc.dt
      rw [if_pos hw]
      exact m

/-! ### The position solvers keep it -/

section position
variable {cfg : JCfg K} {body : Nat → PBody K} {X : Nat → Pose K}

/-- The joint holds, and what it remembers about its limits is right. -/
def GoodB (cfg : JCfg K) (body : Nat → PBody K) (X : Nat → Pose K) (J : Ball K) : Prop := J.Holds cfg body X ∧ (J.coneOn = true → J.cone = false)
def GoodH (cfg : JCfg K) (body : Nat → PBody K) (X : Nat → Pose K) (J : Hinge K) : Prop :=
  J.Holds cfg body X ∧ J.low = decide (hingeAngle cfg J.d (unitOf cfg ((X J.b1).q.rot J.l1)) J.lower J.upper (X J.b1).q (X J.b2).q - J.lower ≤ 0) ∧
    J.up = decide (J.upper - hingeAngle cfg J.d (unitOf cfg ((X J.b1).q.rot J.l1)) J.lower J.upper (X J.b1).q (X J.b2).q ≤ 0)
def GoodS (cfg : JCfg K) (body : Nat → PBody K) (X : Nat → Pose K) (J : Slider K) : Prop :=
  J.Holds cfg body X ∧
    J.low = decide (V3.dot ((X J.b2).x + armAt body X J.b2 J.a2 - (X J.b1).x - armAt body X J.b1 J.a1) (unitOf cfg ((X J.b1).q.rot J.l1)) - J.lower ≤ 0) ∧
    J.up = decide (J.upper - V3.dot ((X J.b2).x + armAt body X J.b2 J.a2 - (X J.b1).x - armAt body X J.b1 J.a1) (unitOf cfg ((X J.b1).q.rot J.l1)) ≤ 0)

theorem position_coreB {J : Ball K} (h : GoodB cfg body X J) : coreB (J.position cfg body X).2 = coreB J := by
  obtain ⟨⟨-, h1⟩, h2⟩ := h
  have key : ∀ (N : Ball K) (c : Two K), (N.coneOn = true → ¬ N.half - cfg.acos (V3.dot (unitOf cfg N.r1) (-unitOf cfg N.r2)) < 0 ∧ N.cone = false) →
      ∀ k, coreB { (N.cone' cfg c X).2 with k := k } = coreB N := by
    intro N c hN k
    unfold Ball.cone'
    dsimp only
    split
    · rename_i o
      obtain ⟨a, b⟩ := hN o
      rw [if_neg a]
      unfold coreB
      dsimp only
      rw [b]
    · rfl
  refine (key { J with r1 := armAt body X J.b1 J.a1, r2 := armAt body X J.b2 J.a2 } _ (fun o => ⟨?_, h2 o⟩) _).trans rfl
  exact not_lt.2 (sub_nonneg.2 (h1 o))

theorem position_coreH {J : Hinge K} (h : GoodH cfg body X J) : coreH (J.position cfg body X).2 = coreH J := by
  obtain ⟨-, h1, h2⟩ := h
  have hl : ∀ (N : Hinge K) (c : Two K) (eL eU : K) (Z : Nat → Pose K), coreH (N.limits' cfg c eL eU Z).2 = coreH N := by
    intro N c eL eU Z
    unfold Hinge.limits'
    dsimp only
    split <;> rfl
  have hr : ∀ (N : Hinge K) (dyn : Bool) (c : Two K) (b v : V3 K) (Z : Nat → Pose K), ∀ k, coreH { (N.rotate' cfg dyn c b v Z).2 with k := k } = coreH N := by
    intro N dyn c b v Z k
    unfold Hinge.rotate'
    dsimp only
    split <;> rfl
  refine ((hr _ _ _ _ _ _ _).trans (hl _ _ _ _ _)).trans ?_
  unfold coreH
  dsimp only
  rw [← h1, ← h2]

theorem position_coreS {J : Slider K} (h : GoodS cfg body X J) : coreS (J.position cfg body X).2 = coreS J := by
  obtain ⟨-, h1, h2⟩ := h
  have hl : ∀ (N : Slider K) (c : Two K) (Z : Nat → Pose K), ∀ kr, coreS { (N.limits' cfg c Z).2 with kr := kr } = coreS N := by
    intro N c Z kr
    unfold Slider.limits'
    dsimp only
    split <;> rfl
  have hr : ∀ (N : Slider K) (dyn : Bool) (c : Two K) (u : V3 K) (Z : Nat → Pose K), coreS (Slider.pull' cfg dyn c N u Z).2 = coreS N := by
    intro N dyn c u Z
    unfold Slider.pull'
    dsimp only
    split <;> rfl
  refine ((hr _ _ _ _ _).trans (hl _ _ _ _)).trans ?_
  unfold coreS
  dsimp only
  rw [← h1, ← h2]

section lists
variable {J : Type} {baum : J → Bool} {f : J → (Nat → Pose K) → (Nat → Pose K) × J} {H : J → Prop} {c : J → J}

theorem each_core (hf : ∀ j, H j → (f j X).1 = X ∧ c (f j X).2 = c j) : ∀ js : List J, (∀ j ∈ js, baum j = false → H j) → (each baum f X js).1 = X ∧ (each baum f X js).2.map c = js.map c
  | [], _ => ⟨rfl, rfl⟩
  | j :: js, h => by
    unfold each
    dsimp only
    have hjs := each_core hf js fun i hi => h i (List.mem_cons_of_mem _ hi)
    by_cases hb : baum j
    · rw [if_pos hb, List.map_cons, List.map_cons, hjs.2]
      exact ⟨hjs.1, rfl⟩
    · rw [if_neg hb]
      obtain ⟨a, b⟩ := hf j (h j List.mem_cons_self (by simpa using hb))
      rw [a, List.map_cons, List.map_cons, hjs.2, b]
      exact ⟨hjs.1, rfl⟩

theorem eachSlider_core (hf : ∀ j, H j → (f j X).1 = X ∧ c (f j X).2 = c j) : ∀ js : List J, (∀ j ∈ js, baum j = false → H j) →
    (eachSlider baum f X js).1 = X ∧ (eachSlider baum f X js).2.map c = js.map c
  | [], _ => ⟨rfl, rfl⟩
  | j :: js, h => by
    unfold eachSlider
    dsimp only
    have hjs := eachSlider_core hf js fun i hi => h i (List.mem_cons_of_mem _ hi)
    by_cases hb : baum j
    · rw [if_pos hb]
      exact ⟨rfl, rfl⟩
    · rw [if_neg hb]
      obtain ⟨a, b⟩ := hf j (h j List.mem_cons_self (by simpa using hb))
      rw [a, List.map_cons, List.map_cons, hjs.2, b]
      exact ⟨hjs.1, rfl⟩

/-- A property of what is kept goes over from list to list. -/
theorem all_core {P : J → Prop} (hP : ∀ j, P (c j) ↔ P j) {l l' : List J} (e : l'.map c = l.map c) (h : ∀ j ∈ l, P j) : ∀ j ∈ l', P j := by
  intro j hj
  have : c j ∈ l.map c := e ▸ List.mem_map_of_mem hj
  obtain ⟨k, hk, e⟩ := List.mem_map.1 this
  exact (hP j).1 (e ▸ (hP k).2 (h k hk))

end lists

def corePins (S : Pins K) : Pins K := ⟨S.balls.map coreB, S.fixeds.map coreF, S.hinges.map coreH, S.sliders.map coreS⟩

structure GoodPins (cfg : JCfg K) (body : Nat → PBody K) (X : Nat → Pose K) (S : Pins K) : Prop where
  balls : ∀ J ∈ S.balls, J.baum = false → GoodB cfg body X J
  fixeds : ∀ J ∈ S.fixeds, J.baum = false → J.Holds body X
  hinges : ∀ J ∈ S.hinges, J.baum = false → GoodH cfg body X J
  sliders : ∀ J ∈ S.sliders, J.baum = false → GoodS cfg body X J

theorem GoodPins.of_core {S S' : Pins K} (h : GoodPins cfg body X S) (e : corePins S' = corePins S) : GoodPins cfg body X S' :=
  ⟨all_core (c := coreB) (P := fun J => J.baum = false → GoodB cfg body X J) (fun _ => Iff.rfl) (congrArg Pins.balls e) h.balls,
    all_core (c := coreF) (P := fun J : Fixed K => J.baum = false → J.Holds body X) (fun _ => Iff.rfl) (congrArg Pins.fixeds e) h.fixeds,
    all_core (c := coreH) (P := fun J => J.baum = false → GoodH cfg body X J) (fun _ => Iff.rfl) (congrArg Pins.hinges e) h.hinges,
    all_core (c := coreS) (P := fun J => J.baum = false → GoodS cfg body X J) (fun _ => Iff.rfl) (congrArg Pins.sliders e) h.sliders⟩

theorem positionAll_core (hs : IsSqrt cfg.sqrt) (hq : ∀ b, (X b).q.lengthSq = 1) {S : Pins K} (h : GoodPins cfg body X S) :
    (positionAll cfg body X S).1 = X ∧ corePins (positionAll cfg body X S).2 = corePins S := by
  obtain ⟨a1, a2⟩ := each_core (baum := Ball.baum) (f := Ball.position cfg body) (X := X) (c := coreB) (fun J (hJ : GoodB cfg body X J) => ⟨J.position_hold hs body (hq _) (hq _) hJ.1, position_coreB hJ⟩) S.balls h.balls
  obtain ⟨b1, b2⟩ := each_core (baum := Fixed.baum) (f := Fixed.position cfg body) (X := X) (c := coreF) (fun J (hJ : J.Holds body X) => ⟨J.position_hold hs body (hq _) (hq _) hJ, rfl⟩) S.fixeds h.fixeds
  obtain ⟨c1, c2⟩ := each_core (baum := Hinge.baum) (f := Hinge.position cfg body) (X := X) (c := coreH) (fun J (hJ : GoodH cfg body X J) => ⟨J.position_hold hs body (hq _) (hq _) hJ.1, position_coreH hJ⟩) S.hinges h.hinges
  obtain ⟨d1, d2⟩ := eachSlider_core (baum := Slider.baum) (f := Slider.position cfg body) (X := X) (c := coreS) (fun J (hJ : GoodS cfg body X J) => ⟨J.position_hold hs body (hq _) (hq _) hJ.1, position_coreS hJ⟩) S.sliders h.sliders
  unfold positionAll
  dsimp only
  rw [a1, b1, c1]
  refine ⟨d1, ?_⟩
  unfold corePins
  dsimp only
  rw [a2, b2, c2, d2]

theorem correct_core (hs : IsSqrt cfg.sqrt) (hq : ∀ b, (X b).q.lengthSq = 1) : ∀ (n : Nat) {S : Pins K}, GoodPins cfg body X S → corePins (correct cfg body n (X, S)).2 = corePins S
  | 0, _, _ => rfl
  | n + 1, S, h => by
    obtain ⟨a, b⟩ := positionAll_core hs hq h
    have e : positionAll cfg body X S = (X, (positionAll cfg body X S).2) := Prod.ext a rfl
    unfold correct
    dsimp only
    rw [e, correct_core hs hq n (h.of_core b), b]

end position

/-! ### The next step finds the scene in balance -/

theorem map_core (S : Pins K) : (joints S).map core = joints (corePins S) := by
  unfold joints corePins
  simp only [List.map_append, List.map_map]
  rfl

/-- Initialising keeps the order of the joints. -/
theorem pins_joints (S : Pins K) : Whole.pins (joints S) = S := by
  unfold joints Whole.pins
  simp [List.filterMap_append, List.filterMap_map]

theorem pins_init (jc : JCfg K) (body : Nat → JBody K) (S : Pins K) : joints (Whole.pins ((joints S).map (Joint.init jc body))) = (joints S).map (Joint.init jc body) := by
  have e : (joints S).map (Joint.init jc body) = joints ⟨S.balls.map (Ball.init jc body), S.fixeds.map (Fixed.init jc body), S.hinges.map (Hinge.init jc body), S.sliders.map (Slider.init jc body)⟩ := by
    unfold joints
    simp only [List.map_append, List.map_map]
    rfl
  rw [e, pins_joints]

section run
variable {i : In K} {w : DW K}

/-- What the position solvers get. -/
theorem good_pins (h : Balanced i w) (hs : IsSqrt i.jc.sqrt) :
    GoodPins { i.jc with dt := i.dt } (fun b => PBody.ofDyn (midway i w b)) (fun b => Pose.ofDyn (midway i w b)) (Whole.pins ((joints i.pins).map (Joint.init { i.jc with dt := i.dt } fun b => jbody (dyn (ready i w) b)))) := by
  have key : ∀ J ∈ joints i.pins, ∀ b, b = J.b1 ∨ b = J.b2 → Galileo.Ex w b → posesOf w b = Pose.ofDyn (midway i w b) ∧ (PBody.ofDyn (dyn w b)).com = (PBody.ofDyn (midway i w b)).com ∧
      (jbody (dyn (ready i w) b)).q = (Pose.ofDyn (midway i w b)).q ∧ (jbody (dyn (ready i w) b)).x = (Pose.ofDyn (midway i w b)).x ∧ (jbody (dyn (ready i w) b)).com = (PBody.ofDyn (midway i w b)).com := by
    rintro J hJ b hb ⟨d, hd⟩
    have o := h.offJ J hJ b hb
    unfold posesOf
    rw [midway_rest h hs hd, ready_before h hd]
    rw [dyn_some hd] at o ⊢
    have x : (resting d).cPos = d.comWorld := by
      show (if d.disabled = true then d.cPos else d.comWorld) = _
      split
      · rename_i k; rw [o k]
      · rfl
    refine ⟨?_, rfl, rfl, x.symm, rfl⟩
    show _ = (⟨(resting d).cPos, d.tr.ori⟩ : Pose K)
    rw [x]
  refine ⟨fun N hN _ => ?_, fun N hN _ => ?_, fun N hN _ => ?_, fun N hN _ => ?_⟩ <;>
    obtain ⟨A, hA, e⟩ := List.mem_filterMap.1 hN <;> obtain ⟨J, hJ, rfl⟩ := List.mem_map.1 hA <;> obtain ⟨f, e1, e2⟩ := h.joints J hJ <;>
    obtain ⟨k1, k2, q1, x1, c1⟩ := key J hJ _ (Or.inl rfl) e1 <;> obtain ⟨k3, k4, q2, x2, c2⟩ := key J hJ _ (Or.inr rfl) e2 <;> have f := firm_congr (P' := fun b => PBody.ofDyn (midway i w b)) (X' := fun b => Pose.ofDyn (midway i w b)) k1 k3 k2 k4 f <;> cases J <;>
    simp only [Joint.init, Option.some.injEq, reduceCtorEq] at e
  · subst e
    rename_i J _ _
    refine ⟨f, fun o => ?_⟩
    have := f.2 o
    unfold Ball.ConeOk at this
    show decide (J.half - i.jc.acos (V3.dot (unitOf { i.jc with dt := i.dt } ((jbody (dyn (ready i w) J.b1)).q.rot (J.a1 - (jbody (dyn (ready i w) J.b1)).com)))
      (-unitOf { i.jc with dt := i.dt } ((jbody (dyn (ready i w) J.b2)).q.rot (J.a2 - (jbody (dyn (ready i w) J.b2)).com)))) < 0) = false
    change (jbody (dyn (ready i w) J.b1)).q = _ at q1; change (jbody (dyn (ready i w) J.b2)).q = _ at q2
    change (jbody (dyn (ready i w) J.b1)).com = _ at c1; change (jbody (dyn (ready i w) J.b2)).com = _ at c2
    rw [q1, q2, c1, c2, decide_eq_false_iff_not, not_lt, sub_nonneg]
    exact this
  · subst e; exact f
  · subst e
    rename_i J _ _
    change (jbody (dyn (ready i w) J.b1)).q = _ at q1; change (jbody (dyn (ready i w) J.b2)).q = _ at q2
    refine ⟨f.1, ?_, ?_⟩
    · show decide (hingeAngle { i.jc with dt := i.dt } J.d (unitOf { i.jc with dt := i.dt } ((jbody (dyn (ready i w) J.b1)).q.rot J.l1)) J.lower J.upper (jbody (dyn (ready i w) J.b1)).q (jbody (dyn (ready i w) J.b2)).q - J.lower ≤ 0) = _
      rw [q1, q2]
      rfl
    · show decide (J.upper - hingeAngle { i.jc with dt := i.dt } J.d (unitOf { i.jc with dt := i.dt } ((jbody (dyn (ready i w) J.b1)).q.rot J.l1)) J.lower J.upper (jbody (dyn (ready i w) J.b1)).q (jbody (dyn (ready i w) J.b2)).q ≤ 0) = _
      rw [q1, q2]
      rfl
  · subst e
    rename_i J _ _
    change (jbody (dyn (ready i w) J.b1)).q = _ at q1; change (jbody (dyn (ready i w) J.b2)).q = _ at q2
    change (jbody (dyn (ready i w) J.b1)).com = _ at c1; change (jbody (dyn (ready i w) J.b2)).com = _ at c2
    change (jbody (dyn (ready i w) J.b1)).x = _ at x1; change (jbody (dyn (ready i w) J.b2)).x = _ at x2
    refine ⟨f.1, ?_, ?_⟩
    · show decide (V3.dot ((jbody (dyn (ready i w) J.b2)).x + (jbody (dyn (ready i w) J.b2)).q.rot (J.a2 - (jbody (dyn (ready i w) J.b2)).com) - (jbody (dyn (ready i w) J.b1)).x -
        (jbody (dyn (ready i w) J.b1)).q.rot (J.a1 - (jbody (dyn (ready i w) J.b1)).com)) (unitOf { i.jc with dt := i.dt } ((jbody (dyn (ready i w) J.b1)).q.rot J.l1)) - J.lower ≤ 0) = _
      rw [q1, q2, c1, c2, x1, x2]
      rfl
    · show decide (J.upper - V3.dot ((jbody (dyn (ready i w) J.b2)).x + (jbody (dyn (ready i w) J.b2)).q.rot (J.a2 - (jbody (dyn (ready i w) J.b2)).com) - (jbody (dyn (ready i w) J.b1)).x -
        (jbody (dyn (ready i w) J.b1)).q.rot (J.a1 - (jbody (dyn (ready i w) J.b1)).com)) (unitOf { i.jc with dt := i.dt } ((jbody (dyn (ready i w) J.b1)).q.rot J.l1)) ≤ 0) = _
      rw [q1, q2, c1, c2, x1, x2]
      rfl

/-- What is left of the joints after a step. -/
theorem core_after (h : Balanced i w) (hs : IsSqrt i.jc.sqrt) :
    (joints (next i w).pins).map core = ((joints i.pins).map (Joint.init { i.jc with dt := i.dt } fun b => jbody (dyn (ready i w) b))).map core := by
  have e : corePins (corrected i w).2 = corePins (Whole.pins ((joints i.pins).map (Joint.init { i.jc with dt := i.dt } fun b => jbody (dyn (ready i w) b)))) := by
    have g := good_pins h hs
    unfold corrected
    rw [solved_rest h hs]
    refine correct_core (cfg := { i.jc with dt := i.dt }) hs (fun b => ?_) i.np g
    show (midway i w b).cOri.lengthSq = 1
    cases hd : w.body b with
    | none => exact midway_none h hs hd
    | some d => rw [midway_rest h hs hd]; exact h.unit b d hd
  show (joints (corrected i w).2).map core = _
  rw [map_core, e, ← map_core, pins_init]

/-- The loads of the joints in the next step. -/
theorem loads_after (h : Balanced i w) (hs : IsSqrt i.jc.sqrt) {body : Nat → JBody K} (hb : ∀ b, (body b).x = (jbody (dyn w b)).x ∧ (body b).q = (jbody (dyn w b)).q ∧ (body b).com = (jbody (dyn w b)).com) (b : Nat) :
    vsum (forceOfJoint b) ((joints (next i w).pins).map (Joint.init { i.jc with dt := i.dt } body)) = vsum (forceOfJoint b) (loaded i w) ∧
    vsum (torqueOfJoint b) ((joints (next i w).pins).map (Joint.init { i.jc with dt := i.dt } body)) = vsum (torqueOfJoint b) (loaded i w) := by
  have vm : ∀ {α β : Type} (f : β → V3 K) (g : α → β) (l : List α), vsum f (l.map g) = vsum (fun a => f (g a)) l := fun f g l => by
    induction l with
    | nil => rfl
    | cons a l ih => show f (g a) + vsum f (l.map g) = _; rw [ih]; rfl
  have hsame : ∀ b, (body b).x = (jbody (dyn (ready i w) b)).x ∧ (body b).q = (jbody (dyn (ready i w) b)).q ∧ (body b).com = (jbody (dyn (ready i w) b)).com := fun b => by
    obtain ⟨a, c, e⟩ := ready_same h b
    obtain ⟨x, q, m⟩ := hb b
    refine ⟨x.trans a.symm, q.trans ?_, m.trans e.symm⟩
    show (dyn w b).tr.ori = (dyn (ready i w) b).tr.ori
    rw [c]
  have key : ∀ f : Joint K → V3 K, (∀ J N, J.load = N.load → J.b1 = N.b1 → J.b2 = N.b2 → f J = f N) →
      vsum f ((joints (next i w).pins).map (Joint.init { i.jc with dt := i.dt } body)) = vsum f (loaded i w) := by
    intro f hf
    have e1 : (fun J => f (Joint.init { i.jc with dt := i.dt } body J)) = fun J => f (Joint.init { i.jc with dt := i.dt } body (core J)) := funext fun J => hf _ _ (load_core _ _ J) (by rw [init_b1, init_b1, core_b1]) (by rw [init_b2, init_b2, core_b2])
    rw [vm, e1, ← vm (fun J => f (Joint.init { i.jc with dt := i.dt } body J)) core, core_after h hs, vm, ← e1, vm]
    unfold loaded
    rw [vm]
    refine congrArg (fun g => vsum g (joints i.pins)) (funext fun J => hf _ _ ?_ (by rw [init_b1, init_b1, init_b1]) (by rw [init_b2, init_b2, init_b2]))
    rw [load_init (body' := fun b => jbody (dyn (ready i w) b)) hsame, load_twice (jc := { i.jc with dt := i.dt }) h.warm]
    exact load_init (fun b => ⟨(hsame b).1.symm.trans (hb b).1, (hsame b).2.1.symm.trans (hb b).2.1, (hsame b).2.2.symm.trans (hb b).2.2⟩) J
  refine ⟨key _ fun J N l b1 b2 => ?_, key _ fun J N l b1 b2 => ?_⟩
  · unfold forceOfJoint; rw [l, b1, b2]
  · unfold torqueOfJoint; rw [l, b1, b2]

/-- A body in the next step, with the same forces. -/
def again (d : Dyn K) : Dyn K := { after d with force := d.force, torque := d.torque }

theorem again_inertia (d : Dyn K) : (again d).updateInertia.invInertiaW = d.updateInertia.invInertiaW := by
  unfold again after resting Dyn.updateInertia
  dsimp only
  by_cases k : d.disabled = true
  · rw [if_pos k, if_pos k]
  · rw [if_neg k, if_neg k, if_neg k]

theorem mans_after (h : Balanced i w) (hs : IsSqrt i.jc.sqrt) : ∃ g : XMan K → XMan K, (next i w).mans = i.mans.map g ∧ ∀ X ∈ i.mans, ∃ f1 f2 t1 t2, g X = { X with f1 := f1, f2 := f2, t1 := t1, t2 := t2 } ∧ friction (g X) = friction X := by
  refine ⟨fun X => store (warmed { i.cc with dt := i.dt } i.jc.sqrt (fun b => (jbody (dyn (ready i w) b)).toSBody) X) X, ?_, fun X hX => ?_⟩
  · show (i.mans.zip (solved i w).2.2).map _ = _
    rw [solved_rest h hs]
    dsimp only
    generalize i.mans = l
    induction l with
    | nil => rfl
    | cons X l ih => rw [List.map_cons, List.zip_cons_cons, List.map_cons, ih]; rfl
  · obtain ⟨⟨a1, a2, a3, a4, a5, a6, a7, a8, a9⟩, _⟩ := h.contacts X hX
    exact store_warmed (cfg := { i.cc with dt := i.dt }) ⟨a1, a2, a3, a4, a5, a6, a7, a8, a9⟩ hs h.eps

/-- The next step finds the scene in balance. -/
theorem balanced_next (h : Balanced i w) (hs : IsSqrt i.jc.sqrt) {v : DW K} (hv : ∀ b, v.body b = (w.body b).map again) : Balanced (next i w) v := by
  have some_v : ∀ b e, v.body b = some e → ∃ d, w.body b = some d ∧ e = again d := by
    intro b e he
    rw [hv] at he
    cases hd : w.body b with
    | none => rw [hd] at he; cases he
    | some d => rw [hd] at he; cases he; exact ⟨d, rfl, rfl⟩
  have dyn_v : ∀ b d, w.body b = some d → dyn v b = again d := fun b d hd => dyn_some (by rw [hv, hd]; rfl)
  have ex_v : ∀ b, Galileo.Ex w b → Galileo.Ex v b := by
    rintro b ⟨d, hd⟩
    exact ⟨again d, by rw [hv, hd]; rfl⟩
  have same : ∀ b, (dyn v b).comWorld = (dyn w b).comWorld ∧ (dyn v b).tr = (dyn w b).tr ∧ (dyn v b).comLocal = (dyn w b).comLocal := by
    intro b
    cases hd : w.body b with
    | none =>
      have : v.body b = none := by rw [hv, hd]; rfl
      unfold dyn
      rw [this, hd]
      exact ⟨rfl, rfl, rfl⟩
    | some d => rw [dyn_v b d hd, dyn_some hd]; exact ⟨rfl, rfl, rfl⟩
  have jv : ∀ b, (jbody (dyn v b)).x = (jbody (dyn w b)).x ∧ (jbody (dyn v b)).q = (jbody (dyn w b)).q ∧ (jbody (dyn v b)).com = (jbody (dyn w b)).com := fun b => by
    obtain ⟨a, c, e⟩ := same b
    exact ⟨a, congrArg Trans.ori c, e⟩
  have poses : posesOf v = posesOf w := funext fun b => by
    obtain ⟨a, c, e⟩ := same b
    unfold posesOf
    rw [a, c]
  obtain ⟨g, gm, gX⟩ := mans_after h hs
  have vm : ∀ f : XMan K → V3 K, (∀ X ∈ i.mans, f (g X) = f X) → vsum f (i.mans.map g) = vsum f i.mans := fun f hf => by
    generalize i.mans = l at hf
    induction l with
    | nil => rfl
    | cons a l ih =>
      show f (g a) + vsum f (l.map g) = f a + vsum f l
      rw [ih fun X hX => hf X (List.mem_cons_of_mem _ hX), hf a List.mem_cons_self]
  have vf : ∀ b, vsum (forceOn b) (next i w).mans = vsum (forceOn b) i.mans := fun b => by
    rw [gm]
    refine vm _ fun X hX => ?_
    obtain ⟨f1, f2, t1, t2, e, fr⟩ := gX X hX
    unfold forceOn force
    rw [fr, e]
  have vt : ∀ b c, vsum (torqueOn b c) (next i w).mans = vsum (torqueOn b c) i.mans := fun b c => by
    rw [gm]
    refine vm _ fun X hX => ?_
    obtain ⟨f1, f2, t1, t2, e, fr⟩ := gX X hX
    unfold torqueOn torque
    rw [fr, e]
    rfl
  have hJ : ∀ N ∈ joints (next i w).pins, ∃ J ∈ joints i.pins, N.b1 = J.b1 ∧ N.b2 = J.b2 ∧ Firm { i.jc with dt := i.dt } (fun b => PBody.ofDyn (dyn w b)) (posesOf w) N := by
    intro N hN
    have := List.mem_map_of_mem (f := core) hN
    rw [core_after h hs] at this
    obtain ⟨A, hA, e⟩ := List.mem_map.1 this
    obtain ⟨J, hJ, rfl⟩ := List.mem_map.1 hA
    refine ⟨J, hJ, ?_, ?_, ?_⟩
    · rw [← core_b1 N, ← e, core_b1, init_b1]
    · rw [← core_b2 N, ← e, core_b2, init_b2]
    · rw [← firm_core, ← e, firm_core]
      exact firm_init (jc := { i.jc with dt := i.dt }) h.warm _ (h.joints J hJ).1
  constructor
  case warm => exact h.warm
  case eps => exact h.eps
  case threshold => exact h.threshold
  case rest =>
    intro b e he
    obtain ⟨d, hd, rfl⟩ := some_v b e he
    exact h.rest b d hd
  case unit =>
    intro b e he
    obtain ⟨d, hd, rfl⟩ := some_v b e he
    exact h.unit b d hd
  case com =>
    intro b e he
    obtain ⟨d, hd, rfl⟩ := some_v b e he
    exact h.com b d hd
  case off =>
    intro b e he k
    obtain ⟨d, hd, rfl⟩ := some_v b e he
    exact ⟨rfl, rfl, rfl, rfl, rfl⟩
  case offJ =>
    intro N hN b hb k
    obtain ⟨J, hJ, b1, b2, -⟩ := hJ N hN
    rw [b1, b2] at hb
    have o := h.offJ J hJ b hb
    have : Galileo.Ex w b := by
      rcases hb with rfl | rfl
      · exact (h.joints J hJ).2.1
      · exact (h.joints J hJ).2.2
    obtain ⟨d, hd⟩ := this
    rw [dyn_v b d hd] at k ⊢
    rw [dyn_some hd] at o
    show (if d.disabled = true then d.cPos else d.comWorld) = d.comWorld
    rw [if_pos (show d.disabled = true from k)]
    exact o k
  case awake =>
    intro l hl b hb
    have := h.awake l hl b hb
    cases hd : w.body b with
    | none =>
      have z : v.body b = none := by rw [hv, hd]; rfl
      unfold dyn at this ⊢
      rw [z]
      rw [hd] at this
      exact this
    | some d =>
      rw [dyn_v b d hd]
      rw [dyn_some hd] at this
      exact this
  case contacts =>
    intro Y hY
    rw [gm] at hY
    obtain ⟨X, hX, rfl⟩ := List.mem_map.1 hY
    obtain ⟨⟨a1, a2, a3, a4, a5, a6, a7, a8, a9⟩, e1, e2⟩ := h.contacts X hX
    obtain ⟨f1, f2, t1, t2, e, fr⟩ := gX X hX
    have m : Bears i.cc i.jc.sqrt (g X) := by
      refine ⟨?_, ?_, ?_, ?_, ?_, ?_, ?_, ?_, ?_⟩
      all_goals ((try rw [fr]); rw [e])
      · exact a1
      · exact a2
      · exact a3
      · exact a4
      · exact a5
      · exact a6
      · exact a7
      · exact a8
      · exact a9
    refine ⟨m, ?_, ?_⟩
    · rw [e]; exact ex_v _ e1
    · rw [e]; exact ex_v _ e2
  case joints =>
    intro N hN
    obtain ⟨J, hJ, b1, b2, f⟩ := hJ N hN
    refine ⟨?_, ?_, ?_⟩
    · rw [poses]
      exact firm_congr rfl rfl (same _).2.2.symm (same _).2.2.symm f
    · rw [b1]; exact ex_v _ (h.joints J hJ).2.1
    · rw [b2]; exact ex_v _ (h.joints J hJ).2.2
  case lin =>
    intro b e he
    obtain ⟨d, hd, rfl⟩ := some_v b e he
    rw [vf]
    have l := (loads_after h hs (body := fun b => jbody (dyn v b)) jv b).1
    show V3.had (V3.smul d.invMass (given i d + (vsum (forceOn b) i.mans + vsum (forceOfJoint b) ((joints (next i w).pins).map (Joint.init { i.jc with dt := i.dt } fun b => jbody (dyn v b)))))) d.linLock = 0
    rw [l]
    exact h.lin b d hd
  case ang =>
    intro b e he
    obtain ⟨d, hd, rfl⟩ := some_v b e he
    rw [vt, again_inertia]
    have l := (loads_after h hs (body := fun b => jbody (dyn v b)) jv b).2
    show V3.had d.angLock (d.updateInertia.invInertiaW.act (givenT i d + (vsum (torqueOn b d.comWorld) i.mans + vsum (torqueOfJoint b) ((joints (next i w).pins).map (Joint.init { i.jc with dt := i.dt } fun b => jbody (dyn v b)))))) = 0
    rw [l]
    exact h.ang b d hd

/-- The call that wakes a body. -/
def wake (d : Dyn K) : Dyn K := if d.sleeping then d.setIsSleeping false else d

theorem wake_id {d : Dyn K} (h : d.sleeping = false ∨ d.active = false) : wake d = d := by
  unfold wake Dyn.setIsSleeping
  rcases h with h | h
  · rw [if_neg (by rw [h]; decide)]
  · split
    · rename_i k
      rw [if_neg (by rw [k]; decide), h]
      split <;> rfl
    · rfl

theorem wake_spec {d : Dyn K} (h : d.type = .dynamic) : (wake d).type = .dynamic ∧ (wake d).force = d.force ∧ (wake d).torque = d.torque ∧ ((wake d).sleeping = false ∨ (wake d).active = false) := by
  unfold wake Dyn.setIsSleeping
  cases k : d.sleeping with
  | false =>
    rw [if_neg (by decide)]
    exact ⟨h, rfl, rfl, Or.inl k⟩
  | true =>
    rw [if_pos rfl, if_neg (by decide), if_neg (by rw [h]; decide)]
    cases a : d.active with
    | false => exact ⟨h, rfl, rfl, Or.inr a⟩
    | true => exact ⟨h, rfl, rfl, Or.inl rfl⟩

def withF (d : Dyn K) (f m : V3 K) : Dyn K := { d with force := f, torque := m }

theorem push_eq {d : Dyn K} (h : d.type = .dynamic) (f m : V3 K) : (d.applyForceCenter f).applyTorque m = withF (wake d) (d.force + f) (d.torque + m) := by
  obtain ⟨t, hf, hm, hw⟩ := wake_spec h
  have e1 : d.applyForceCenter f = withF (wake d) ((wake d).force + f) (wake d).torque := by
    unfold Dyn.applyForceCenter
    rw [if_neg (by rw [h]; simp)]
    rfl
  have e2 : ∀ e : Dyn K, e.type = .dynamic → e.applyTorque m = withF (wake e) (wake e).force ((wake e).torque + m) := fun e he => by
    unfold Dyn.applyTorque
    rw [if_neg (by rw [he]; simp)]
    rfl
  rw [hf, hm] at e1
  rw [e1, e2 (withF (wake d) (d.force + f) d.torque) t, wake_id (d := withF (wake d) (d.force + f) d.torque) hw]
  rfl

/-- The user's forces on a body after a step. -/
theorem push_after (u : Option (V3 K × V3 K)) {d : Dyn K} (hf : d.force = 0) (hm : d.torque = 0) : push1 u (after (push1 u d)) = again (push1 u d) := by
  cases u with
  | none =>
    show after d = again d
    unfold again
    rw [hf, hm]
    rfl
  | some p =>
    obtain ⟨f, m⟩ := p
    by_cases k : d.type = .dynamic
    · obtain ⟨t, -, -, hw⟩ := wake_spec k
      show ((after ((d.applyForceCenter f).applyTorque m)).applyForceCenter f).applyTorque m = again ((d.applyForceCenter f).applyTorque m)
      rw [push_eq k, hf, hm, push_eq (d := after (withF (wake d) (0 + f) (0 + m))) t, wake_id (d := after (withF (wake d) (0 + f) (0 + m))) hw]
      rfl
    · have e : ∀ e : Dyn K, e.type = d.type → (e.applyForceCenter f).applyTorque m = e := fun e he => by
        unfold Dyn.applyForceCenter
        rw [if_pos (by rw [he]; exact k)]
        unfold Dyn.applyTorque
        rw [if_pos (by rw [he]; exact k)]
      show ((after ((d.applyForceCenter f).applyTorque m)).applyForceCenter f).applyTorque m = again ((d.applyForceCenter f).applyTorque m)
      rw [e d rfl, e (after d) rfl]
      unfold again
      rw [hf, hm]
      rfl

/-- Forces move no body by themselves. -/
theorem push_keeps (u : Option (V3 K × V3 K)) (d : Dyn K) : (push1 u d).tr = d.tr ∧ (push1 u d).comWorld = d.comWorld ∧ (push1 u d).vel = d.vel ∧ (push1 u d).ang = d.ang := by
  cases u with
  | none => exact ⟨rfl, rfl, rfl, rfl⟩
  | some p =>
    obtain ⟨f, m⟩ := p
    show ((d.applyForceCenter f).applyTorque m).tr = d.tr ∧ _
    by_cases k : d.type = .dynamic
    · have e : (wake d).tr = d.tr ∧ (wake d).comWorld = d.comWorld ∧ (wake d).vel = d.vel ∧ (wake d).ang = d.ang := by
        unfold wake Dyn.setIsSleeping
        dsimp only
        cases d.sleeping <;> cases d.active <;> split_ifs <;> first | exact ⟨rfl, rfl, rfl, rfl⟩ | contradiction
      unfold push1
      dsimp only
      rw [push_eq k]
      exact e
    · have e : (d.applyForceCenter f).applyTorque m = d := by
        unfold Dyn.applyForceCenter
        rw [if_pos k]
        unfold Dyn.applyTorque
        rw [if_pos k]
      unfold push1
      dsimp only
      rw [e]
      exact ⟨rfl, rfl, rfl, rfl⟩

/-- The state before frame `n`. -/
def frames (u : Nat → Option (V3 K × V3 K)) : Nat → In K × DW K → In K × DW K
  | 0, s => s
  | n + 1, s => frames u n (frame u s)

/-- **C138.** A scene that is in balance with the same forces applied before every step, and with sleeping disabled, stays where it is for ever: in every step all bodies have the transform of the
beginning and no velocity, and the scene is in balance again. -/
theorem rest_forever (u : Nat → Option (V3 K × V3 K)) : ∀ (n : Nat) {i : In K} {w : DW K}, Balanced i (push u w) → (∀ b d, w.body b = some d → d.force = 0 ∧ d.torque = 0) → w.sleepOn = false →
    IsSqrt i.jc.sqrt → (∀ q : Quat K, q.lengthSq = 1 → i.len q = 1) →
    Balanced (frames u n (i, w)).1 (push u (frames u n (i, w)).2) ∧
      ∀ b d, w.body b = some d → ∃ e, (frames u n (i, w)).2.body b = some e ∧ e.tr = d.tr ∧ e.comWorld = d.comWorld ∧ e.vel = 0 ∧ e.ang = 0
  | 0, i, w, h, hf, _, _, _ => by
    refine ⟨h, fun b d hd => ?_⟩
    obtain ⟨v, a⟩ := h.rest b (push1 (u b) d) (by show (w.body b).map _ = _; rw [hd]; rfl)
    have k := push_keeps (u b) d
    exact ⟨d, hd, rfl, rfl, k.2.2.1 ▸ v, k.2.2.2 ▸ a⟩
  | n + 1, i, w, h, hf, ho, hs, hl => by
    have up : ∀ b, (frame u (i, w)).2.body b = (w.body b).map fun d => after (push1 (u b) d) := fun b => by
      show (update i (push u w)).body b = _
      rw [update_awake h hs hl ho]
      show ((w.body b).map _).map _ = _
      cases w.body b <;> rfl
    have hn : Balanced (frame u (i, w)).1 (push u (frame u (i, w)).2) := by
      refine balanced_next h hs fun b => ?_
      show ((frame u (i, w)).2.body b).map (push1 (u b)) = ((w.body b).map (push1 (u b))).map again
      rw [up]
      cases hd : w.body b with
      | none => rfl
      | some d => exact congrArg some (push_after (u b) (hf b d hd).1 (hf b d hd).2)
    have so : (frame u (i, w)).2.sleepOn = false := by
      have k : (DW.moved (i.args (fun b => some (vels i (push u w) b)) fun b => some (poss i (push u w) b)) (push u w)).sleepOn = false := ho
      show (update i (push u w)).sleepOn = false
      unfold update DW.update
      dsimp only
      rw [if_neg (by rw [k]; decide)]
      exact ho
    obtain ⟨r1, r2⟩ := rest_forever u n hn (fun b e he => by
      rw [up] at he
      cases hd : w.body b with
      | none => rw [hd] at he; cases he
      | some d => rw [hd] at he; cases he; exact ⟨rfl, rfl⟩) so hs hl
    refine ⟨r1, fun b d hd => ?_⟩
    obtain ⟨e, he, k1, k2, k3⟩ := r2 b (after (push1 (u b) d)) (by rw [up, hd]; rfl)
    obtain ⟨p1, p2, _⟩ := push_keeps (u b) d
    exact ⟨e, he, k1.trans p1, k2.trans p2, k3⟩

end run

end Balance
end RP3D
