import Verif.Solver.Still

/-! C135: groups of bodies that do not touch each other do not influence each other. -/

set_option linter.unusedSectionVars false
set_option linter.unusedVariables false

namespace RP3D
namespace Apart
open Solver Joints SolverProps JointProps Whole Local
variable {K : Type} [Field K] [LinearOrder K] [IsStrictOrderedRing K]

/-! ### Specification -/

/-- The world without the bodies outside of the group. -/
def only (G : Finset Nat) (w : DW K) : DW K := { w with body := fun b => if b ∈ G then w.body b else none }

/-- Both bodies belong to the group. -/
def both (G : Finset Nat) (a b : Nat) : Bool := decide (a ∈ G) && decide (b ∈ G)

def onlyPins (G : Finset Nat) (S : Pins K) : Pins K :=
  ⟨S.balls.filter fun J => both G J.b1 J.b2, S.fixeds.filter fun J => both G J.b1 J.b2, S.hinges.filter fun J => both G J.b1 J.b2, S.sliders.filter fun J => both G J.b1 J.b2⟩

/-- A step without the contacts, the joints and the islands of other bodies. -/
def onlyIn (G : Finset Nat) (i : In K) : In K :=
  { i with islands := i.islands.filter fun l => l.all fun b => decide (b ∈ G), mans := i.mans.filter fun X => both G X.b1 X.b2, pins := onlyPins G i.pins }

/-- A static body whose orientation is a unit quaternion: the floor. -/
def Rest (w : DW K) (b : Nat) : Prop := ∃ d, w.body b = some d ∧ d.type = .static ∧ d.cOri.lengthSq = 1

/-- A contact or joint belongs to the group, or has no body of the group besides static ones. -/
def Within (G : Finset Nat) (w : DW K) (a b : Nat) : Prop := (a ∈ G ∧ b ∈ G) ∨ ((a ∈ G → Rest w a) ∧ (b ∈ G → Rest w b))

/-- The rest of the world touches at most the static bodies of the group. -/
structure Alone (G : Finset Nat) (i : In K) (w : DW K) : Prop where
  mans : ∀ X ∈ i.mans, Within G w X.b1 X.b2
  joints : ∀ J ∈ joints i.pins, Within G w J.b1 J.b2
  islands : ∀ l ∈ i.islands, (∀ b ∈ l, b ∈ G) ∨ ∀ b ∈ l, b ∈ G → Rest w b
  sqrt : i.jc.sqrt 1 = 1

/-- The sliders of other bodies are not of the technique BAUMGARTE_JOINTS. -/
def SlidersOk (G : Finset Nat) (i : In K) : Prop := ∀ J ∈ i.pins.sliders, both G J.b1 J.b2 = false → J.baum = false

/-! ### Velocities -/

theorem both_true {G : Finset Nat} {a b : Nat} : both G a b = true ↔ a ∈ G ∧ b ∈ G := by unfold both; simp

section vels
variable {G : Finset Nat} {R : Nat → Prop} {body body' : Nat → JBody K}

/-- `R`: the bodies that stay where they are. -/
def Sep (G : Finset Nat) (R : Nat → Prop) (a b : Nat) : Prop := both G a b = false → (a ∈ G → R a) ∧ (b ∈ G → R b)

variable (hb : Agree (· ∈ G) body body') (hR : ∀ b, R b → (body b).m = 0 ∧ (body b).I = M3.zero)
include hb hR

omit hb in
theorem stillJ {a b c : Nat} (h : (a ∈ G → R a) ∧ (b ∈ G → R b)) (hc : c ∈ G) : StillJ body a b c := by
  rintro (rfl | rfl)
  · exact hR _ (h.1 hc)
  · exact hR _ (h.2 hc)

omit hb in
theorem stillM {M : Man K} (hf : Fits (fun b => (body b).toSBody) M) {c : Nat} (h : (M.b1 ∈ G → R M.b1) ∧ (M.b2 ∈ G → R M.b2)) (hc : c ∈ G) : Still M c := by
  obtain ⟨f1, f2, f3, f4, _⟩ := hf
  constructor
  · rintro rfl
    rw [f1, f3]; exact hR _ (h.1 hc)
  · rintro rfl
    rw [f2, f4]; exact hR _ (h.2 hc)

/-- What is kept of a manifold. -/
def PM (G : Finset Nat) (R : Nat → Prop) (body : Nat → JBody K) (M : Man K) : Prop := GoodM M ∧ Fits (fun b => (body b).toSBody) M ∧ Sep G R M.b1 M.b2

omit hb hR in
theorem PM.of_same {M N : Man K} (h : PM G R body M) (hs : MSame M N) : PM G R body N ∧ both G N.b1 N.b2 = both G M.b1 M.b2 := by
  have e1 : N.b1 = M.b1 := by rw [hs.eq]
  have e2 : N.b2 = M.b2 := by rw [hs.eq]
  refine ⟨⟨h.1.of_same hs, h.2.1.of_same hs, ?_⟩, by rw [e1, e2]⟩
  rw [e1, e2]; exact h.2.2

omit hb in
theorem man_part (cfg : Cfg K) : Part (· ∈ G) (solveMan cfg) (solveMan cfg) (fun M => both G M.b1 M.b2) (PM G R body) (fun _ => True) where
  inside V W M _ _ hi h := solveMan_local cfg h (both_true.1 hi).1 (both_true.1 hi).2
  outside V M _ hp hi c hc := solveMan_still cfg (stillM hR hp.2.1 (hp.2.2 hi) hc) hp.1 V
  state _ _ _ _ := trivial
  elem V M _ hp := hp.of_same (solveMan_ok cfg V M hp.1).1

omit hb in
theorem warm_part : Part (· ∈ G) (warmMan (K := K)) warmMan (fun M => both G M.b1 M.b2) (PM G R body) (fun _ => True) where
  inside V W M _ _ hi h := warmMan_local h (both_true.1 hi).1 (both_true.1 hi).2
  outside V M _ hp hi c hc := warmMan_still (stillM hR hp.2.1 (hp.2.2 hi) hc) hp.1 V
  state _ _ _ _ := trivial
  elem V M _ hp := hp.of_same (warmMan_ok V M hp.1).1

theorem joint_part (cfg : JCfg K) : Part (· ∈ G) (fun V J => Joint.solve cfg body V J) (fun V J => Joint.solve cfg body' V J) (fun J => both G J.b1 J.b2)
    (fun J => Sep G R J.b1 J.b2) (fun _ => True) where
  inside V W J _ _ hi h := Joint.solve_local cfg hb h J (both_true.1 hi).1 (both_true.1 hi).2
  outside V J _ hp hi c hc := Joint.solve_still cfg J (stillJ hR (hp hi) hc) V
  state _ _ _ _ := trivial
  elem V J _ hp := by
    obtain ⟨e1, e2⟩ := (Joint.solve_ok cfg body J V).1.bodies
    refine ⟨?_, by rw [e1, e2]⟩
    show Sep G R (Joint.solve cfg body V J).2.b1 (Joint.solve cfg body V J).2.b2
    rw [e1, e2]; exact hp

theorem warmAll_part (cfg : JCfg K) : ∀ (Js : List (Joint K)) (V W : Nat → Vel K), (∀ J ∈ Js, Sep G R J.b1 J.b2) → Agree (· ∈ G) V W →
    Agree (· ∈ G) (warmAll cfg body Js V) (warmAll cfg body' (Js.filter fun J => both G J.b1 J.b2) W) := by
  unfold warmAll
  split
  · intro Js
    induction Js with
    | nil => intro V W _ h; exact h
    | cons J Js ih =>
      intro V W hp h
      have ps : ∀ J ∈ Js, Sep G R J.b1 J.b2 := fun i hi => hp i (List.mem_cons_of_mem _ hi)
      cases hi : both G J.b1 J.b2 with
      | true =>
        rw [List.filter_cons_of_pos (p := fun J : Joint K => both G J.b1 J.b2) hi, List.foldl_cons, List.foldl_cons]
        exact ih _ _ ps (Joint.warm_local hb h J (both_true.1 hi).1 (both_true.1 hi).2)
      | false =>
        rw [List.filter_cons_of_neg (p := fun J : Joint K => both G J.b1 J.b2) (by rw [hi]; exact Bool.false_ne_true), List.foldl_cons]
        exact ih _ _ ps fun c hc => (Joint.warm_still J (stillJ hR (hp J List.mem_cons_self hi) hc) V).trans (h c hc)
  · intro _ _ _ _ h; exact h

/-- Velocities, joints and manifolds of the group. -/
def Same (G : Finset Nat) (s t : (Nat → Vel K) × List (Joint K) × List (Man K)) : Prop :=
  Agree (· ∈ G) s.1 t.1 ∧ s.2.1.filter (fun J => both G J.b1 J.b2) = t.2.1 ∧ s.2.2.filter (fun M => both G M.b1 M.b2) = t.2.2

theorem loop_part (cfg : Cfg K) (jc : JCfg K) : ∀ (n : Nat) (s t : (Nat → Vel K) × List (Joint K) × List (Man K)), Same G s t →
    (∀ J ∈ s.2.1, Sep G R J.b1 J.b2) → (∀ M ∈ s.2.2, PM G R body M) → Same G (Joints.loop cfg jc body n s) (Joints.loop cfg jc body' n t)
  | 0, _, _, h, _, _ => h
  | n + 1, s, t, h, hj, hm => by
    obtain ⟨a1, a2, _, a4⟩ := thread_part (joint_part hb hR jc) s.2.1 s.1 t.1 trivial hj h.1
    obtain ⟨b1, b2, _, b4⟩ := thread_part (man_part hR cfg) s.2.2 _ _ trivial hm a1
    rw [Joints.loop, Joints.loop]
    rw [solveAll_thread, solveAll_thread, solve_thread, solve_thread, ← h.2.1, ← h.2.2]
    exact loop_part cfg jc n _ _ ⟨b1, a2, b2⟩ a4 b4

theorem solveStep_part (cfg : Cfg K) (jc : JCfg K) (V W : Nat → Vel K) (Js : List (Joint K)) (Xs : List (XMan K)) (n : Nat) (h : Agree (· ∈ G) V W)
    (hj : ∀ J ∈ Js, Sep G R J.b1 J.b2) (hx : ∀ X ∈ Xs, Sep G R X.b1 X.b2) :
    Same G (solveStep cfg jc body V Js Xs n) (solveStep cfg jc body' W (Js.filter fun J => both G J.b1 J.b2) (Xs.filter fun X => both G X.b1 X.b2) n) := by
  have em : (Xs.filter fun X => both G X.b1 X.b2).map (initMan cfg jc.sqrt fun b => (body' b).toSBody) =
      (Xs.map (initMan cfg jc.sqrt fun b => (body b).toSBody)).filter (fun M => both G M.b1 M.b2) := by
    rw [List.filter_map]
    refine List.map_congr_left fun X hX => ?_
    have hi := both_true.1 (List.mem_filter.1 hX).2
    exact (initMan_local cfg jc.sqrt X (by rw [hb _ hi.1]) (by rw [hb _ hi.2])).symm
  have ej : (Js.filter fun J => both G J.b1 J.b2).map (Joint.init jc body') = (Js.map (Joint.init jc body)).filter (fun J => both G J.b1 J.b2) := by
    rw [List.filter_map]
    have : Js.filter ((fun J => both G J.b1 J.b2) ∘ Joint.init jc body) = Js.filter (fun J => both G J.b1 J.b2) := by
      refine List.filter_congr fun J _ => ?_
      show both G (J.init jc body).b1 (J.init jc body).b2 = _
      rw [(init_bodies jc body J).1, (init_bodies jc body J).2]
    rw [this]
    refine List.map_congr_left fun J hJ => ?_
    have hi := both_true.1 (List.mem_filter.1 hJ).2
    exact (Joint.init_local jc hb J hi.1 hi.2).symm
  have hj' : ∀ J ∈ Js.map (Joint.init jc body), Sep G R J.b1 J.b2 := by
    intro J hJ
    obtain ⟨I, hI, rfl⟩ := List.mem_map.1 hJ
    rw [(init_bodies jc body I).1, (init_bodies jc body I).2]
    exact hj I hI
  have hm' : ∀ M ∈ Xs.map (initMan cfg jc.sqrt fun b => (body b).toSBody), PM G R body M := by
    intro M hM
    obtain ⟨X, hX, rfl⟩ := List.mem_map.1 hM
    exact ⟨initMan_good _ _ _ _, initMan_fits _ _ _ _, hx X hX⟩
  obtain ⟨a1, a2, _, a4⟩ := thread_part (warm_part hR) _ V W trivial hm' h
  unfold solveStep
  dsimp only
  rw [em, ej, warmStart_thread, warmStart_thread]
  exact loop_part hb hR cfg jc n _ _ ⟨warmAll_part hb hR jc _ _ _ hj' a1, rfl, a2⟩ hj' a4

end vels

/-! ### Poses -/

section poses
variable {G : Finset Nat} {R : Nat → Prop} {body body' : Nat → PBody K} {cfg : JCfg K}

/-- The bodies that stay have unit quaternions. -/
def Units (R : Nat → Prop) (X : Nat → Pose K) : Prop := ∀ b, R b → (X b).q.lengthSq = 1

variable (hs : cfg.sqrt 1 = 1) (hb : Agree (· ∈ G) body body') (hR : ∀ b, R b → (body b).m = 0 ∧ (body b).i = 0)
include hs hb hR

/-- A type of joint. -/
structure JKind (cfg : JCfg K) (body body' : Nat → PBody K) (G : Finset Nat) {β : Type} (b1 b2 : β → Nat) (baum : β → Bool)
    (f f' : β → (Nat → Pose K) → (Nat → Pose K) × β) : Prop where
  ok : ∀ (P : Nat → Nat → Prop) J X, P (b1 J) (b2 J) → Moves cfg body P X (f J X).1 ∧ b1 (f J X).2 = b1 J ∧ b2 (f J X).2 = b2 J ∧ baum (f J X).2 = baum J
  same : ∀ J X Y, Agree (· ∈ G) X Y → b1 J ∈ G → b2 J ∈ G → Local.Pair (· ∈ G) (f J X) (f' J Y)

omit hb in
theorem JKind.part {β : Type} {b1 b2 : β → Nat} {baum : β → Bool} {f f' : β → (Nat → Pose K) → (Nat → Pose K) × β} (h : JKind cfg body body' G b1 b2 baum f f') :
    Part (· ∈ G) (fun X J => f J X) (fun X J => f' J X) (fun J => both G (b1 J) (b2 J)) (fun J => Sep G R (b1 J) (b2 J)) (Units R) where
  inside X Y J _ _ hi ha := h.same J X Y ha (both_true.1 hi).1 (both_true.1 hi).2
  outside X J hu hp hi c hc := by
    have p := hp hi
    refine moves_still hs (P := fun a b => a = b1 J ∧ b = b2 J) (fun a b hab k => ?_) (h.ok _ J X ⟨rfl, rfl⟩).1
    have : R c := by
      rcases k with rfl | rfl
      · rw [hab.1] at hc ⊢; exact p.1 hc
      · rw [hab.2] at hc ⊢; exact p.2 hc
    exact ⟨(hR c this).1, (hR c this).2, hu c this⟩
  state X J hu _ b hr := by
    rw [moves_still hs (P := fun _ _ => True) (fun _ _ _ _ => ⟨(hR b hr).1, (hR b hr).2, hu b hr⟩) (h.ok _ J X trivial).1]
    exact hu b hr
  elem X J _ hp := by
    obtain ⟨_, e1, e2, _⟩ := h.ok (fun _ _ => True) J X trivial
    refine ⟨?_, by rw [e1, e2]⟩
    show Sep G R (b1 (f J X).2) (b2 (f J X).2)
    rw [e1, e2]; exact hp

omit hb in
theorem JKind.each {β : Type} {b1 b2 : β → Nat} {baum : β → Bool} {f f' : β → (Nat → Pose K) → (Nat → Pose K) × β} (h : JKind cfg body body' G b1 b2 baum f f') :
    Part (· ∈ G) (fun X J => if baum J then (X, J) else f J X) (fun X J => if baum J then (X, J) else f' J X) (fun J => both G (b1 J) (b2 J)) (fun J => Sep G R (b1 J) (b2 J)) (Units R) where
  inside X Y J hu hp hi ha := by
    split
    · exact ⟨ha, rfl⟩
    · exact (h.part hs hR).inside X Y J hu hp hi ha
  outside X J hu hp hi := by
    split
    · exact Agree.refl _ _
    · exact (h.part hs hR).outside X J hu hp hi
  state X J hu hp := by
    split
    · exact hu
    · exact (h.part hs hR).state X J hu hp
  elem X J hu hp := by
    split
    · exact ⟨hp, rfl⟩
    · exact (h.part hs hR).elem X J hu hp

omit hb in
/-- The loop over the sliders stops at the first one with the technique BAUMGARTE_JOINTS. -/
theorem JKind.slider {β : Type} {b1 b2 : β → Nat} {baum : β → Bool} {f f' : β → (Nat → Pose K) → (Nat → Pose K) × β} (h : JKind cfg body body' G b1 b2 baum f f') :
    ∀ (l : List β) (X Y : Nat → Pose K), Units R X → (∀ J ∈ l, Sep G R (b1 J) (b2 J) ∧ (both G (b1 J) (b2 J) = false → baum J = false)) → Agree (· ∈ G) X Y →
    Agree (· ∈ G) (eachSlider baum f X l).1 (eachSlider baum f' Y (l.filter fun J => both G (b1 J) (b2 J))).1 ∧
      (eachSlider baum f X l).2.filter (fun J => both G (b1 J) (b2 J)) = (eachSlider baum f' Y (l.filter fun J => both G (b1 J) (b2 J))).2 ∧
      Units R (eachSlider baum f X l).1 ∧
      ∀ J ∈ (eachSlider baum f X l).2, Sep G R (b1 J) (b2 J) ∧ (both G (b1 J) (b2 J) = false → baum J = false)
  | [], X, Y, hu, _, ha => ⟨ha, rfl, hu, fun _ h => by cases h⟩
  | J :: Js, X, Y, hu, hp, ha => by
    have pj := hp J List.mem_cons_self
    have ps : ∀ I ∈ Js, Sep G R (b1 I) (b2 I) ∧ (both G (b1 I) (b2 I) = false → baum I = false) := fun i hi => hp i (List.mem_cons_of_mem _ hi)
    by_cases hm : baum J = true
    · have hi : both G (b1 J) (b2 J) = true := by
        by_contra k
        have := pj.2 (by simpa using k)
        rw [hm] at this; cases this
      rw [List.filter_cons_of_pos (p := fun J => both G (b1 J) (b2 J)) hi]
      unfold eachSlider
      rw [if_pos hm, if_pos hm]
      exact ⟨ha, by rw [List.filter_cons_of_pos (p := fun J => both G (b1 J) (b2 J)) hi], hu, hp⟩
    · have P := h.part hs hR
      obtain ⟨_, e1, e2, e3⟩ := h.ok (fun _ _ => True) J X trivial
      have s1 := P.state X J hu pj.1
      have q : Sep G R (b1 (f J X).2) (b2 (f J X).2) ∧ (both G (b1 (f J X).2) (b2 (f J X).2) = false → baum (f J X).2 = false) := by
        rw [e1, e2, e3]; exact pj
      cases hi : both G (b1 J) (b2 J) with
      | true =>
        obtain ⟨a, b⟩ := P.inside X Y J hu pj.1 hi ha
        obtain ⟨c1, c2, c3, c4⟩ := JKind.slider h Js _ _ s1 ps a
        rw [List.filter_cons_of_pos (p := fun J => both G (b1 J) (b2 J)) hi]
        unfold eachSlider
        rw [if_neg hm, if_neg hm]
        refine ⟨c1, ?_, c3, fun i hi => ?_⟩
        · dsimp only
          rw [List.filter_cons_of_pos (p := fun J => both G (b1 J) (b2 J)) (by rw [e1, e2]; exact hi), c2]
          exact congrArg (· :: _) b
        · rcases List.mem_cons.1 hi with rfl | hi
          · exact q
          · exact c4 i hi
      | false =>
        obtain ⟨c1, c2, c3, c4⟩ := JKind.slider h Js (f J X).1 Y s1 ps ((P.outside X J hu pj.1 hi).trans ha)
        rw [List.filter_cons_of_neg (p := fun J => both G (b1 J) (b2 J)) (by rw [hi]; exact Bool.false_ne_true)]
        rw [show eachSlider baum f X (J :: Js) = ((eachSlider baum f (f J X).1 Js).1, (f J X).2 :: (eachSlider baum f (f J X).1 Js).2) by
          rw [eachSlider, if_neg hm]]
        refine ⟨c1, ?_, c3, fun i hi => ?_⟩
        · dsimp only
          rw [List.filter_cons_of_neg (p := fun J => both G (b1 J) (b2 J)) (by rw [e1, e2, hi]; exact Bool.false_ne_true), c2]
        · rcases List.mem_cons.1 hi with rfl | hi
          · exact q
          · exact c4 i hi

/-- What is known of the joints. -/
structure SepPins (G : Finset Nat) (R : Nat → Prop) (S : Pins K) : Prop where
  balls : ∀ J ∈ S.balls, Sep G R J.b1 J.b2
  fixeds : ∀ J ∈ S.fixeds, Sep G R J.b1 J.b2
  hinges : ∀ J ∈ S.hinges, Sep G R J.b1 J.b2
  sliders : ∀ J ∈ S.sliders, Sep G R J.b1 J.b2 ∧ (both G J.b1 J.b2 = false → J.baum = false)

theorem positionAll_part (X Y : Nat → Pose K) (S : Pins K) (hu : Units R X) (hS : SepPins G R S) (ha : Agree (· ∈ G) X Y) :
    Agree (· ∈ G) (positionAll cfg body X S).1 (positionAll cfg body' Y (onlyPins G S)).1 ∧
      onlyPins G (positionAll cfg body X S).2 = (positionAll cfg body' Y (onlyPins G S)).2 ∧ Units R (positionAll cfg body X S).1 ∧
      SepPins G R (positionAll cfg body X S).2 := by
  have k1 : JKind cfg body body' G Ball.b1 Ball.b2 Ball.baum (Ball.position cfg body) (Ball.position cfg body') :=
    ⟨fun P J X h => Ball.position_ok J h X, fun J X Y h h1 h2 => Ball.position_local hb h J h1 h2⟩
  have k2 : JKind cfg body body' G Fixed.b1 Fixed.b2 Fixed.baum (Fixed.position cfg body) (Fixed.position cfg body') :=
    ⟨fun P J X h => Fixed.position_ok J h X, fun J X Y h h1 h2 => Fixed.position_local hb h J h1 h2⟩
  have k3 : JKind cfg body body' G Hinge.b1 Hinge.b2 Hinge.baum (Hinge.position cfg body) (Hinge.position cfg body') :=
    ⟨fun P J X h => Hinge.position_ok J h X, fun J X Y h h1 h2 => Hinge.position_local hb h J h1 h2⟩
  have k4 : JKind cfg body body' G Slider.b1 Slider.b2 Slider.baum (Slider.position cfg body) (Slider.position cfg body') :=
    ⟨fun P J X h => Slider.position_ok J h X, fun J X Y h h1 h2 => Slider.position_local hb h J h1 h2⟩
  obtain ⟨a1, a2, a3, a4⟩ := thread_part (k1.each hs hR) S.balls X Y hu hS.balls ha
  obtain ⟨b1, b2, b3, b4⟩ := thread_part (k2.each hs hR) S.fixeds _ _ a3 hS.fixeds a1
  obtain ⟨c1, c2, c3, c4⟩ := thread_part (k3.each hs hR) S.hinges _ _ b3 hS.hinges b1
  obtain ⟨d1, d2, d3, d4⟩ := k4.slider hs hR S.sliders _ _ c3 hS.sliders c1
  unfold positionAll onlyPins
  dsimp only
  rw [each_thread, each_thread, each_thread, each_thread, each_thread, each_thread]
  exact ⟨d1, by rw [a2, b2, c2, d2], d3, a4, b4, c4, d4⟩

theorem correct_part : ∀ (n : Nat) (X Y : Nat → Pose K) (S : Pins K), Units R X → SepPins G R S → Agree (· ∈ G) X Y →
    Agree (· ∈ G) (correct cfg body n (X, S)).1 (correct cfg body' n (Y, onlyPins G S)).1 ∧
      onlyPins G (correct cfg body n (X, S)).2 = (correct cfg body' n (Y, onlyPins G S)).2
  | 0, _, _, _, _, _, ha => ⟨ha, rfl⟩
  | n + 1, X, Y, S, hu, hS, ha => by
    obtain ⟨a, b, c, d⟩ := positionAll_part hs hb hR X Y S hu hS ha
    rw [correct, correct]
    have := correct_part n _ _ _ c d a
    rw [b] at this
    exact this

end poses

/-! ### The step up to the sleeping pass -/

theorem static_sleep {d : Dyn K} (h : d.type = .static) (b : Bool) : d.setIsSleeping b = d := by
  unfold Dyn.setIsSleeping
  split
  · rfl
  · rfl

section step
variable {G : Finset Nat} {i : In K} {w : DW K}

/-- The islands, in the words of the sleeping pass. -/
def Isles (G : Finset Nat) (w : DW K) (is : List (List Nat)) : Prop :=
  ∀ l ∈ is, (∀ b ∈ l, b ∈ G) ∨ ∀ b ∈ l, b ∈ G → ∃ d, w.body b = some d ∧ d.type = .static

def onlyIslands (G : Finset Nat) (is : List (List Nat)) : List (List Nat) := is.filter fun l => l.all fun b => decide (b ∈ G)

theorem all_mem {l : List Nat} : (l.all fun b => decide (b ∈ G)) = true ↔ ∀ b ∈ l, b ∈ G := by simp

theorem wake_same (h : Isles G w i.islands) (v v' p p') {b : Nat} (hb : b ∈ G) :
    (DW.wakeIslands (i.args v p) w).body b = (DW.wakeIslands ((onlyIn G i).args v' p') (only G w)).body b := by
  show (w.body b).map _ = (if b ∈ G then w.body b else none).map _
  rw [if_pos hb]
  cases hd : w.body b with
  | none => rfl
  | some d =>
    simp only [Option.map_some]
    congr 1
    by_cases hs : d.type = .static
    · rw [static_sleep hs, ite_self, ite_self]
    · have : i.islands.any (fun l => l.contains b) = (onlyIslands G i.islands).any (fun l => l.contains b) := by
        rw [Bool.eq_iff_iff, List.any_eq_true, List.any_eq_true]
        constructor
        · rintro ⟨l, hl, hc⟩
          refine ⟨l, List.mem_filter.2 ⟨hl, all_mem.2 ?_⟩, hc⟩
          rcases h l hl with k | k
          · exact k
          · obtain ⟨e, he, hes⟩ := k b (by simpa using hc) hb
            rw [hd] at he; cases he
            exact absurd hes hs
        · rintro ⟨l, hl, hc⟩
          exact ⟨l, (List.mem_filter.1 hl).1, hc⟩
      show (if i.islands.any _ = true then _ else _) = if (onlyIslands G i.islands).any _ = true then _ else _
      rw [this]

theorem Alone.isles (h : Alone G i w) : Isles G w i.islands := fun l hl =>
  (h.islands l hl).imp id fun k b hb hg => let ⟨d, h1, h2, _⟩ := k b hb hg; ⟨d, h1, h2⟩

theorem ready_same (h : Alone G i w) : ∀ b ∈ G, (ready i w).body b = (ready (onlyIn G i) (only G w)).body b := fun b hb => by
  show ((DW.wakeIslands _ w).body b).map _ = ((DW.wakeIslands _ (only G w)).body b).map _
  rw [wake_same h.isles _ _ _ _ hb]
  rfl

theorem dyn_same (h : Alone G i w) : ∀ b ∈ G, dyn (ready i w) b = dyn (ready (onlyIn G i) (only G w)) b := fun b hb => by
  unfold dyn
  rw [ready_same h b hb]

theorem ready_rest (hr : DW.Reach DW.Any w) {b : Nat} (h : Rest w b) : (ready i w).body b = w.body b := by
  obtain ⟨d, hd, hs, _⟩ := h
  have hf := ((DW.kept_flags _).reach hr b d hd).st hs
  show ((w.body b).map _).map _ = _
  rw [hd]
  simp only [Option.map_some]
  rw [static_sleep hs, ite_self]
  unfold Dyn.updateInertia
  rw [if_pos hf.1]
  unfold Dyn.integrateVel
  rw [if_pos hf.1]

/-- What a body at rest is like. -/
theorem rest_dyn (hr : DW.Reach DW.Any w) {b : Nat} (h : Rest w b) : (dyn (ready i w) b).disabled = true ∧ (dyn (ready i w) b).invMass = 0 ∧
    (dyn (ready i w) b).invInertiaW = M3.zero ∧ (dyn (ready i w) b).invInertia = 0 ∧ (dyn (ready i w) b).cOri.lengthSq = 1 := by
  have e := ready_rest (i := i) hr h
  obtain ⟨d, hd, hs, hq⟩ := h
  have hf := ((DW.kept_flags _).reach hr b d hd).st hs
  have hm := (DW.kept_mass _).reach hr b d hd
  have hn : d.type ≠ .dynamic := by rw [hs]; decide
  unfold dyn
  rw [e, hd]
  exact ⟨hf.1, by rw [Option.getD_some, hm.m, if_neg hn], hm.w hn, by rw [Option.getD_some, hm.i, if_neg hn], hq⟩

theorem Within.sep {a b : Nat} (h : Within G w a b) : Sep G (Rest w) a b := fun k => by
  rcases h with h | h
  · rw [both_true.2 h] at k; cases k
  · exact h

theorem joints_only (S : Pins K) : joints (onlyPins G S) = (joints S).filter fun J => both G J.b1 J.b2 := by
  unfold joints onlyPins
  simp only [List.filter_append, List.filter_map]
  rfl

theorem solved_same (hr : DW.Reach DW.Any w) (h : Alone G i w) : Same G (solved i w) (solved (onlyIn G i) (only G w)) := by
  have := solveStep_part (G := G) (R := Rest w) (body := fun b => jbody (dyn (ready i w) b)) (body' := fun b => jbody (dyn (ready (onlyIn G i) (only G w)) b))
    (fun b hb => by dsimp only; rw [dyn_same h b hb]) (fun b hb => ⟨(rest_dyn hr hb).2.1, (rest_dyn hr hb).2.2.1⟩)
    { i.cc with dt := i.dt } { i.jc with dt := i.dt } (fun b => velOf (dyn (ready i w) b)) (fun b => velOf (dyn (ready (onlyIn G i) (only G w)) b))
    (joints i.pins) i.mans i.nv (fun b hb => by dsimp only; rw [dyn_same h b hb]) (fun J hJ => (h.joints J hJ).sep) (fun X hX => (h.mans X hX).sep)
  rw [← joints_only] at this
  exact this

theorem pins_only : ∀ Js : List (Joint K), pins (Js.filter fun J => both G J.b1 J.b2) = onlyPins G (pins Js)
  | [] => rfl
  | J :: Js => by
    have ih := pins_only Js
    unfold pins onlyPins at *
    injection ih with h1 h2 h3 h4
    cases hi : both G J.b1 J.b2 with
    | true =>
      rw [List.filter_cons_of_pos (p := fun J : Joint K => both G J.b1 J.b2) hi]
      cases J <;> simp only [List.filterMap_cons, h1, h2, h3, h4] <;> congr 1 <;> symm <;> apply List.filter_cons_of_pos <;> exact hi
    | false =>
      have hn : ¬ both G J.b1 J.b2 = true := by rw [hi]; exact Bool.false_ne_true
      rw [List.filter_cons_of_neg (p := fun J : Joint K => both G J.b1 J.b2) hn]
      cases J <;> simp only [List.filterMap_cons, h1, h2, h3, h4] <;> congr 1 <;> symm <;> apply List.filter_cons_of_neg <;> exact hn

/-- What is known of a joint during the step. -/
def PJ (G : Finset Nat) (R : Nat → Prop) (J : Joint K) : Prop :=
  Sep G R J.b1 J.b2 ∧ match J with
    | .slider S => both G S.b1 S.b2 = false → S.baum = false
    | _ => True

theorem PJ.of_same {R : Nat → Prop} {J N : Joint K} (h : PJ G R J) (hs : J.Same N) : PJ G R N := by
  obtain ⟨e1, e2⟩ := hs.bodies
  refine ⟨by rw [e1, e2]; exact h.1, ?_⟩
  cases J <;> cases N <;> first | exact hs.elim | trivial | skip
  rename_i J N
  have e : N = { J with imp := N.imp, impR := N.impR, impL := N.impL, impU := N.impU, impM := N.impM } := hs
  have hx := h.2
  dsimp only at hx ⊢
  rw [e]; exact hx

theorem solved_pins (h : Alone G i w) (hs : SlidersOk G i) : SepPins G (Rest w) (pins (solved i w).2.1) := by
  have key := (step_same { i.cc with dt := i.dt } { i.jc with dt := i.dt } (fun b => jbody (dyn (ready i w) b)) (fun b => velOf (dyn (ready i w) b)) (joints i.pins) i.mans i.nv
    (P := PJ G (Rest w)) (Q := fun _ => True) (fun _ _ => PJ.of_same) (fun _ _ _ _ => trivial) (fun J hJ => by
      refine ⟨by rw [(init_bodies _ _ J).1, (init_bodies _ _ J).2]; exact (h.joints J hJ).sep, ?_⟩
      cases J <;> try trivial
      rename_i S
      refine hs S ?_
      simpa [joints] using hJ) (fun _ _ => trivial)).1
  change ∀ J ∈ (solved i w).2.1, PJ G (Rest w) J at key
  constructor
  · intro J hJ
    obtain ⟨N, hN, e⟩ := List.mem_filterMap.1 hJ
    cases N <;> cases e
    exact (key _ hN).1
  · intro J hJ
    obtain ⟨N, hN, e⟩ := List.mem_filterMap.1 hJ
    cases N <;> cases e
    exact (key _ hN).1
  · intro J hJ
    obtain ⟨N, hN, e⟩ := List.mem_filterMap.1 hJ
    cases N <;> cases e
    exact (key _ hN).1
  · intro J hJ
    obtain ⟨N, hN, e⟩ := List.mem_filterMap.1 hJ
    cases N <;> cases e
    exact key _ hN

theorem vels_same (hr : DW.Reach DW.Any w) (h : Alone G i w) : ∀ b ∈ G, vels i w b = vels (onlyIn G i) (only G w) b := fun b hb => by
  unfold vels
  rw [(solved_same hr h).1 b hb]

theorem midway_same (hr : DW.Reach DW.Any w) (h : Alone G i w) : ∀ b ∈ G, midway i w b = midway (onlyIn G i) (only G w) b := fun b hb => by
  unfold midway
  rw [vels_same hr h b hb, dyn_same h b hb]
  rfl

theorem midway_rest (hr : DW.Reach DW.Any w) {b : Nat} (h : Rest w b) : (midway i w b).invMass = 0 ∧ (midway i w b).invInertia = 0 ∧ (midway i w b).cOri.lengthSq = 1 := by
  obtain ⟨h1, h2, _, h4, h5⟩ := rest_dyn (i := i) hr h
  unfold midway
  unfold Dyn.integratePos
  rw [if_pos (by exact h1)]
  exact ⟨h2, h4, h5⟩

theorem corrected_same (hr : DW.Reach DW.Any w) (h : Alone G i w) (hs : SlidersOk G i) :
    Agree (· ∈ G) (corrected i w).1 (corrected (onlyIn G i) (only G w)).1 ∧ onlyPins G (corrected i w).2 = (corrected (onlyIn G i) (only G w)).2 := by
  have := correct_part (G := G) (R := Rest w) (cfg := { i.jc with dt := i.dt }) (body := fun b => PBody.ofDyn (midway i w b)) (body' := fun b => PBody.ofDyn (midway (onlyIn G i) (only G w) b))
    h.sqrt (fun b hb => by dsimp only; rw [midway_same hr h b hb]) (fun b hb => ⟨(midway_rest hr hb).1, (midway_rest hr hb).2.1⟩) i.np
    (fun b => Pose.ofDyn (midway i w b)) (fun b => Pose.ofDyn (midway (onlyIn G i) (only G w) b)) (pins (solved i w).2.1)
    (fun b hb => (midway_rest hr hb).2.2) (solved_pins h hs) (fun b hb => by dsimp only; rw [midway_same hr h b hb])
  rw [← pins_only, (solved_same hr h).2.1] at this
  exact this

theorem poss_same (hr : DW.Reach DW.Any w) (h : Alone G i w) (hs : SlidersOk G i) : ∀ b ∈ G, poss i w b = poss (onlyIn G i) (only G w) b := fun b hb => by
  unfold poss
  rw [(corrected_same hr h hs).1 b hb]

theorem dw_ext {v w : DW K} (h1 : v.body = w.body) (h2 : v.sleepOn = w.sleepOn) (h3 : v.limL = w.limL) (h4 : v.limA = w.limA) (h5 : v.before = w.before) : v = w := by
  cases v; cases w; cases h1; cases h2; cases h3; cases h4; cases h5; rfl

theorem moved_same (hr : DW.Reach DW.Any w) (h : Alone G i w) (hs : SlidersOk G i) :
    only G (DW.moved (i.args (fun b => some (vels i w b)) fun b => some (poss i w b)) w) =
      DW.moved ((onlyIn G i).args (fun b => some (vels (onlyIn G i) (only G w) b)) fun b => some (poss (onlyIn G i) (only G w) b)) (only G w) := by
  refine dw_ext (funext fun b => ?_) rfl rfl rfl rfl
  show (if b ∈ G then _ else none) = _
  rw [DW.moved_body, DW.moved_body]
  by_cases hb : b ∈ G
  · rw [if_pos hb, wake_same h.isles _ _ _ _ hb]
    refine congrArg (fun f => Option.map f _) (funext fun d => ?_)
    unfold Dyn.move In.args
    dsimp only
    rw [vels_same hr h b hb, poss_same hr h hs b hb]
    rfl
  · rw [if_neg hb]
    have : (DW.wakeIslands ((onlyIn G i).args (fun b => some (vels (onlyIn G i) (only G w) b)) fun b => some (poss (onlyIn G i) (only G w) b)) (only G w)).body b = none := by
      show (if b ∈ G then w.body b else none).map _ = none
      rw [if_neg hb]; rfl
    rw [this]; rfl

end step

/-! ### The sleeping pass -/

section sleep
variable {G : Finset Nat}

theorem only_body {b : Nat} (w : DW K) (h : b ∈ G) : (only G w).body b = w.body b := if_pos h

theorem only_modify {b : Nat} (w : DW K) (f : Dyn K → Dyn K) (h : b ∈ G) : only G (w.modify b f) = (only G w).modify b f := by
  refine dw_ext (funext fun c => ?_) rfl rfl rfl rfl
  by_cases e : c = b
  · subst e; rw [DW.modify_same, only_body _ h, only_body _ h, DW.modify_same]
  · rw [DW.modify_ne _ _ e]
    show (if c ∈ G then _ else none) = if c ∈ G then _ else none
    rw [DW.modify_ne _ _ e]

theorem only_modify_out {b : Nat} (w : DW K) (f : Dyn K → Dyn K) (h : b ∈ G → ∃ d, w.body b = some d ∧ f d = d) : only G (w.modify b f) = only G w := by
  refine dw_ext (funext fun c => ?_) rfl rfl rfl rfl
  show (if c ∈ G then _ else none) = if c ∈ G then _ else none
  by_cases hc : c ∈ G
  · rw [if_pos hc, if_pos hc]
    by_cases e : c = b
    · subst e
      obtain ⟨d, hd, hf⟩ := h hc
      rw [DW.modify_same, hd, Option.map_some, hf]
    · rw [DW.modify_ne _ _ e]
  · rw [if_neg hc, if_neg hc]

/-- Static bodies. -/
def Stat (R : Nat → Prop) (w : DW K) : Prop := ∀ b, R b → ∃ d, w.body b = some d ∧ d.type = .static

theorem Stat.modify {R : Nat → Prop} {w : DW K} (h : Stat R w) (b : Nat) (f : Dyn K → Dyn K) (hf : ∀ d, (f d).type = d.type) : Stat R (w.modify b f) := fun c hc => by
  obtain ⟨d, hd, hs⟩ := h c hc
  by_cases e : c = b
  · subst e
    exact ⟨f d, by rw [DW.modify_same, hd]; rfl, by rw [hf, hs]⟩
  · exact ⟨d, by rw [DW.modify_ne _ _ e, hd], hs⟩

variable (add : K → K → K) (big dt : K)

theorem tick_in (s : DW K × K) {b : Nat} (h : b ∈ G) : DW.tick add dt (only G s.1, s.2) b = (only G (DW.tick add dt s b).1, (DW.tick add dt s b).2) := by
  unfold DW.tick
  dsimp only
  rw [only_body _ h]
  cases s.1.body b with
  | none => rfl
  | some d =>
    dsimp only
    have e : (only G s.1).atRest d = s.1.atRest d := rfl
    rw [e]
    split
    · rfl
    · split
      · rw [only_modify _ _ h]
      · rw [only_modify _ _ h]

theorem tick_stat {R : Nat → Prop} (s : DW K × K) (b : Nat) (h : Stat R s.1) : Stat R (DW.tick add dt s b).1 := by
  unfold DW.tick
  split
  · exact h
  · split
    · exact h
    · split
      · exact h.modify _ _ fun _ => rfl
      · exact h.modify _ _ fun _ => rfl

theorem tick_out {R : Nat → Prop} (s : DW K × K) {b : Nat} (h : Stat R s.1) (hb : b ∈ G → R b) : only G (DW.tick add dt s b).1 = only G s.1 := by
  by_cases hg : b ∈ G
  · obtain ⟨d, hd, hs⟩ := h b (hb hg)
    unfold DW.tick
    rw [hd]
    dsimp only
    rw [if_pos hs]
  · unfold DW.tick
    split
    · rfl
    · split
      · rfl
      · split <;> exact only_modify_out _ _ fun k => absurd k hg

theorem ticks_in : ∀ (l : List Nat) (s : DW K × K), (∀ b ∈ l, b ∈ G) →
    l.foldl (DW.tick add dt) (only G s.1, s.2) = (only G (l.foldl (DW.tick add dt) s).1, (l.foldl (DW.tick add dt) s).2)
  | [], _, _ => rfl
  | b :: l, s, h => by
    rw [List.foldl_cons, List.foldl_cons, tick_in _ _ _ (h b List.mem_cons_self)]
    exact ticks_in l _ fun c hc => h c (List.mem_cons_of_mem _ hc)

theorem ticks_out {R : Nat → Prop} : ∀ (l : List Nat) (s : DW K × K), Stat R s.1 → (∀ b ∈ l, b ∈ G → R b) →
    Stat R (l.foldl (DW.tick add dt) s).1 ∧ only G (l.foldl (DW.tick add dt) s).1 = only G s.1
  | [], _, hs, _ => ⟨hs, rfl⟩
  | b :: l, s, hs, h => by
    obtain ⟨h1, h2⟩ := ticks_out l (DW.tick add dt s b) (tick_stat _ _ _ _ hs) fun c hc => h c (List.mem_cons_of_mem _ hc)
    exact ⟨h1, h2.trans (tick_out _ _ _ hs (h b List.mem_cons_self))⟩

theorem ticks_stat {R : Nat → Prop} : ∀ (l : List Nat) (s : DW K × K), Stat R s.1 → Stat R (l.foldl (DW.tick add dt) s).1
  | [], _, hs => hs
  | b :: l, s, hs => ticks_stat l _ (tick_stat _ _ _ _ hs)

theorem nod_in : ∀ (l : List Nat) (w : DW K), (∀ b ∈ l, b ∈ G) →
    only G (l.foldl (fun w b => w.modify b fun d => d.setIsSleeping true) w) = l.foldl (fun w b => w.modify b fun d => d.setIsSleeping true) (only G w)
  | [], _, _ => rfl
  | b :: l, w, h => by
    rw [List.foldl_cons, List.foldl_cons, ← only_modify _ _ (h b List.mem_cons_self)]
    exact nod_in l _ fun c hc => h c (List.mem_cons_of_mem _ hc)

theorem nod_stat {R : Nat → Prop} : ∀ (l : List Nat) (w : DW K), Stat R w → Stat R (l.foldl (fun w b => w.modify b fun d => d.setIsSleeping true) w)
  | [], _, hs => hs
  | b :: l, w, hs => nod_stat l _ (hs.modify _ _ fun d => Dyn.setIsSleeping_type d true)

theorem nod_out {R : Nat → Prop} : ∀ (l : List Nat) (w : DW K), Stat R w → (∀ b ∈ l, b ∈ G → R b) →
    only G (l.foldl (fun w b => w.modify b fun d => d.setIsSleeping true) w) = only G w
  | [], _, _, _ => rfl
  | b :: l, w, hs, h => by
    rw [List.foldl_cons, nod_out l _ (hs.modify _ _ fun d => Dyn.setIsSleeping_type d true) fun c hc => h c (List.mem_cons_of_mem _ hc)]
    exact only_modify_out _ _ fun k => let ⟨d, hd, ht⟩ := hs b (h b List.mem_cons_self k); ⟨d, hd, static_sleep ht true⟩

theorem isle_stat {R : Nat → Prop} (w : DW K) (l : List Nat) (h : Stat R w) : Stat R (DW.sleepIsland add big dt w l) := by
  unfold DW.sleepIsland
  dsimp only
  split
  · exact nod_stat _ _ (ticks_stat _ _ _ _ h)
  · exact ticks_stat _ _ _ _ h

theorem isle_in (w : DW K) (l : List Nat) (h : ∀ b ∈ l, b ∈ G) : only G (DW.sleepIsland add big dt w l) = DW.sleepIsland add big dt (only G w) l := by
  unfold DW.sleepIsland
  rw [show (only G w, big) = (only G (w, big).1, (w, big).2) from rfl, ticks_in _ _ l (w, big) h]
  dsimp only
  generalize l.foldl (DW.tick add dt) (w, big) = s
  have e : (only G s.1).before = s.1.before := rfl
  rw [e]
  by_cases k : s.2 ≥ s.1.before
  · rw [if_pos k, if_pos k]; exact nod_in l _ h
  · rw [if_neg k, if_neg k]

theorem isle_out {R : Nat → Prop} (w : DW K) (l : List Nat) (hs : Stat R w) (h : ∀ b ∈ l, b ∈ G → R b) : only G (DW.sleepIsland add big dt w l) = only G w := by
  obtain ⟨h1, h2⟩ := ticks_out add dt l (w, big) hs h
  unfold DW.sleepIsland
  dsimp only
  split
  · rw [nod_out _ _ h1 h, h2]
  · exact h2

theorem sleep_same {R : Nat → Prop} : ∀ (is : List (List Nat)) (w : DW K), Stat R w → (∀ l ∈ is, (∀ b ∈ l, b ∈ G) ∨ ∀ b ∈ l, b ∈ G → R b) →
    only G (DW.updateSleeping add big dt w is) = DW.updateSleeping add big dt (only G w) (onlyIslands G is)
  | [], _, _, _ => rfl
  | l :: is, w, hs, h => by
    have ih := sleep_same is (DW.sleepIsland add big dt w l) (isle_stat add big dt w l hs) fun k hk => h k (List.mem_cons_of_mem _ hk)
    show only G (DW.updateSleeping add big dt (DW.sleepIsland add big dt w l) is) = _
    rw [ih]
    unfold onlyIslands
    by_cases hi : (l.all fun b => decide (b ∈ G)) = true
    · rw [List.filter_cons_of_pos (p := fun l : List Nat => l.all fun b => decide (b ∈ G)) hi, isle_in _ _ _ _ _ (all_mem.1 hi)]
      rfl
    · rw [List.filter_cons_of_neg (p := fun l : List Nat => l.all fun b => decide (b ∈ G)) hi]
      rw [isle_out add big dt w l hs ((h l List.mem_cons_self).resolve_left fun k => hi (all_mem.2 k))]

end sleep

/-! ### Theorems -/

section main
variable {G : Finset Nat}

theorem update_same {R : Nat → Prop} {a a' : DW.Args K} {w : DW K} (hst : Stat R (DW.moved a w)) (hm : only G (DW.moved a w) = DW.moved a' (only G w))
    (hi : ∀ l ∈ a.islands, (∀ b ∈ l, b ∈ G) ∨ ∀ b ∈ l, b ∈ G → R b) (e1 : a'.islands = onlyIslands G a.islands) (e2 : a'.add = a.add) (e3 : a'.big = a.big) (e4 : a'.dt = a.dt) :
    only G (DW.update a w) = DW.update a' (only G w) := by
  have key : ∀ v : DW K, only G (v.mapAll fun _ d => d.resetForces) = (only G v).mapAll fun _ d => d.resetForces := fun v => by
    refine dw_ext (funext fun b => ?_) rfl rfl rfl rfl
    show (if b ∈ G then (v.body b).map _ else none) = Option.map _ (if b ∈ G then v.body b else none)
    split <;> rfl
  unfold DW.update
  dsimp only
  rw [key, ← hm, e1, e2, e3, e4]
  refine congrArg (fun v : DW K => v.mapAll fun _ d => d.resetForces) ?_
  generalize DW.moved a w = v at hst
  have e : (only G v).sleepOn = v.sleepOn := rfl
  rw [e]
  by_cases k : v.sleepOn = true
  · rw [if_pos k, if_pos k]; exact sleep_same _ _ _ _ _ hst hi
  · rw [if_neg k, if_neg k]

theorem moved_stat (a : DW.Args K) (w : DW K) : Stat (Rest w) (DW.moved a w) := fun b ⟨d, hd, ht, _⟩ => by
  refine ⟨d.move a b, ?_, (Dyn.move_same _ _ _).type.trans ht⟩
  rw [DW.moved_body]
  show (Option.map _ (w.body b)).map _ = _
  rw [hd, Option.map_some, Option.map_some]
  dsimp only
  rw [static_sleep ht, ite_self]

theorem args_only (i : In K) (v v' p p') : ((onlyIn G i).args v' p').islands = onlyIslands G (i.args v p).islands ∧ ((onlyIn G i).args v' p').add = (i.args v p).add ∧
    ((onlyIn G i).args v' p').big = (i.args v p).big ∧ ((onlyIn G i).args v' p').dt = (i.args v p).dt := ⟨rfl, rfl, rfl, rfl⟩

/-- **C135 (one step).** A step of the whole world, seen from the group, is a step of the group without the rest of the world. -/
theorem apart_step_partial {i : In K} {w : DW K} (hr : DW.Reach DW.Any w) (h : Alone G i w) (hs : SlidersOk G i) :
    only G (update i w) = update (onlyIn G i) (only G w) :=
  update_same (moved_stat _ _) (moved_same hr h hs) h.islands (args_only i _ _ _ _).1 (args_only i _ _ _ _).2.1 (args_only i _ _ _ _).2.2.1 (args_only i _ _ _ _).2.2.2

/-- **C135 (impulses).** The impulses of the contacts and of the joints of the group, and the joints after the correction of the positions, are those of a step of the group alone. -/
theorem apart_report_partial {i : In K} {w : DW K} (hr : DW.Reach DW.Any w) (h : Alone G i w) (hs : SlidersOk G i) :
    (solved i w).2.1.filter (fun J => both G J.b1 J.b2) = (solved (onlyIn G i) (only G w)).2.1 ∧
      (solved i w).2.2.filter (fun M => both G M.b1 M.b2) = (solved (onlyIn G i) (only G w)).2.2 ∧
      onlyPins G (corrected i w).2 = (corrected (onlyIn G i) (only G w)).2 :=
  ⟨(solved_same hr h).2.1, (solved_same hr h).2.2, (corrected_same hr h hs).2⟩

/-- What happens to a world: calls and steps. -/
inductive Ev (K : Type)
  | create (b : Nat) (t : Trans K)
  | destroy (b : Nat)
  | call (b : Nat) (o : Dyn.Op K)
  | enableSleeping (b : Bool)
  | limits (l a t : K)
  | step (i : In K)

def Ev.run (w : DW K) : Ev K → DW K
  | .create b t => w.exec (.create b t)
  | .destroy b => w.exec (.destroy b)
  | .call b o => w.exec (.call b o)
  | .enableSleeping b => w.exec (.enableSleeping b)
  | .limits l a t => w.exec (.limits l a t)
  | .step i => update i w

/-- What remains of an event for the group. -/
def Ev.only (G : Finset Nat) : Ev K → Option (Ev K)
  | .create b t => if b ∈ G then some (.create b t) else none
  | .destroy b => if b ∈ G then some (.destroy b) else none
  | .call b o => if b ∈ G then some (.call b o) else none
  | .enableSleeping b => some (.enableSleeping b)
  | .limits l a t => some (.limits l a t)
  | .step i => some (.step (onlyIn G i))

/-- In every step of the history the rest of the world touches at most the static bodies of the group. -/
def Quiet (G : Finset Nat) : DW K → List (Ev K) → Prop
  | _, [] => True
  | w, e :: es => (∀ i, e = .step i → Alone G i w ∧ SlidersOk G i) ∧ Quiet G (e.run w) es

theorem Ev.reach {w : DW K} (h : DW.Reach DW.Any w) (e : Ev K) : DW.Reach DW.Any (e.run w) := by
  cases e with
  | step i => exact .step (.update (i.args (fun b => some (vels i w b)) fun b => some (poss i w b))) trivial h
  | create b t => exact .step (.create b t) trivial h
  | destroy b => exact .step (.destroy b) trivial h
  | call b o => exact .step (.call b o) trivial h
  | enableSleeping b => exact .step (.enableSleeping b) trivial h
  | limits l a t => exact .step (.limits l a t) trivial h

theorem only_upd {w : DW K} {b : Nat} (x : Option (Dyn K)) (h : b ∈ G) : only G { w with body := upd w.body b x } = { only G w with body := upd (only G w).body b x } := by
  refine dw_ext (funext fun c => ?_) rfl rfl rfl rfl
  show (if c ∈ G then upd w.body b x c else none) = upd (only G w).body b x c
  by_cases e : c = b
  · subst e; rw [if_pos h, upd_same, upd_same]
  · rw [upd_ne _ _ e, upd_ne _ _ e]; rfl

theorem only_upd_out {w : DW K} {b : Nat} (x : Option (Dyn K)) (h : b ∉ G) : only G { w with body := upd w.body b x } = only G w := by
  refine dw_ext (funext fun c => ?_) rfl rfl rfl rfl
  show (if c ∈ G then upd w.body b x c else none) = if c ∈ G then w.body c else none
  by_cases e : c = b
  · subst e; rw [if_neg h, if_neg h]
  · rw [upd_ne _ _ e]

theorem event_partial {w : DW K} (hr : DW.Reach DW.Any w) (e : Ev K) (h : ∀ i, e = .step i → Alone G i w ∧ SlidersOk G i) :
    only G (e.run w) = ((e.only G).toList).foldl Ev.run (only G w) := by
  cases e with
  | step i => exact apart_step_partial hr (h i rfl).1 (h i rfl).2
  | create b t =>
    simp only [Ev.only]
    by_cases hb : b ∈ G
    · rw [if_pos hb]; exact only_upd _ hb
    · rw [if_neg hb]; exact only_upd_out _ hb
  | destroy b =>
    simp only [Ev.only]
    by_cases hb : b ∈ G
    · rw [if_pos hb]; exact only_upd _ hb
    · rw [if_neg hb]; exact only_upd_out _ hb
  | call b o =>
    simp only [Ev.only]
    by_cases hb : b ∈ G
    · rw [if_pos hb]; exact only_modify _ _ hb
    · rw [if_neg hb]; exact only_modify_out _ _ fun k => absurd k hb
  | enableSleeping x =>
    show only G (DW.enableSleeping w x) = DW.enableSleeping (only G w) x
    unfold DW.enableSleeping
    dsimp only
    split
    · refine dw_ext (funext fun b => ?_) rfl rfl rfl rfl
      show (if b ∈ G then (w.body b).map _ else none) = Option.map _ (if b ∈ G then w.body b else none)
      split <;> rfl
    · rfl
  | limits l a t => rfl

/-- **C135 (histories).** Along every history of calls and steps the group behaves as if the rest of the world did not exist. -/
theorem apart_partial : ∀ (es : List (Ev K)) (w : DW K), DW.Reach DW.Any w → Quiet G w es → only G (es.foldl Ev.run w) = (es.filterMap (Ev.only G)).foldl Ev.run (only G w)
  | [], _, _, _ => rfl
  | e :: es, w, hr, h => by
    rw [List.foldl_cons, apart_partial es _ (e.reach hr) h.2, event_partial hr e h.1]
    cases ho : e.only G with
    | none => rw [List.filterMap_cons_none ho]; rfl
    | some e' => rw [List.filterMap_cons_some ho]; rfl

/-- **C135 (two histories).** Two histories that treat the group alike leave its bodies in the same state, whatever happens to the other bodies. -/
theorem apart_same_partial {es fs : List (Ev K)} {v w : DW K} (hv : DW.Reach DW.Any v) (hw : DW.Reach DW.Any w) (h1 : Quiet G v es) (h2 : Quiet G w fs)
    (he : es.filterMap (Ev.only G) = fs.filterMap (Ev.only G)) (hs : only G v = only G w) : ∀ b ∈ G, (es.foldl Ev.run v).body b = (fs.foldl Ev.run w).body b := fun b hb => by
  rw [← only_body (es.foldl Ev.run v) hb, ← only_body (fs.foldl Ev.run w) hb, apart_partial es v hv h1, apart_partial fs w hw h2, he, hs]

end main

end Apart
end RP3D
