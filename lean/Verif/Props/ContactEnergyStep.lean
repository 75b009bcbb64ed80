import Verif.Props.ContactEnergy

/-! C133: the energy of a step with contacts and joints. -/

set_option linter.unusedSectionVars false

namespace RP3D
namespace ContactEnergy
open Solver Joints SolverProps JointProps
variable {K : Type} [Field K] [LinearOrder K] [IsStrictOrderedRing K]
variable {body : Nat → JBody K} {mass : Nat → K} {L : Nat → M3 K} {S : Finset Nat} {V W : Nat → Vel K} {M : Man K} {p : CPoint K} {cfg : Cfg K}

/-- What the contact solver sees of the bodies. -/
def seen (body : Nat → JBody K) : Nat → SBody K := fun b => (body b).toSBody

/-- A manifold between two bodies of the set, without bounce and without position correction in the velocities. -/
structure Touch (cfg : Cfg K) (body : Nat → JBody K) (S : Finset Nat) (X : XMan K) : Prop where
  pair : JointProps.Pair S X.b1 X.b2
  unit : ∀ x ∈ X.pts, V3.dot x.normal x.normal = 1
  slow : ∀ x ∈ X.pts, X.restitution = 0 ∨ -cfg.threshold ≤ normalSpeed (seen body) (fun b => ⟨(body b).v, (body b).w, 0, 0⟩) X.b1 X.b2 x
  depth : ∀ x ∈ X.pts, cfg.split = true ∨ x.depth ≤ cfg.slop
  imp : ∀ x ∈ X.pts, 0 ≤ x.imp

/-- No friction, now and before. -/
def Smooth (X : XMan K) : Prop := X.mu = 0 ∧ X.f1 = 0 ∧ X.f2 = 0 ∧ X.tw = 0

/-- All contacts are new. -/
def New (X : XMan K) : Prop := ∀ x ∈ X.pts, x.resting = false

theorem Touch.still {X : XMan K} (h : Touch cfg body S X) (sqrt : K → K) : Still cfg body S (initMan cfg sqrt (seen body) X) := by
  refine ⟨⟨h.pair, initMan_fits cfg sqrt (seen body) X, initMan_good cfg sqrt (seen body) X⟩, fun p hp => ?_⟩
  simp only [initMan, List.mem_map] at hp
  obtain ⟨x, hx, rfl⟩ := hp
  refine ⟨h.unit x hx, rfl, ?_, h.depth x hx, h.imp x hx⟩
  show (if V3.dot (rel _ _ _ _) _ < _ then _ else _) = _
  split_ifs with hd
  · rcases h.slow x hx with h0 | h0
    · rw [h0, zero_mul]
    · exact absurd hd (not_lt.2 h0)
  · rfl

theorem warmPoints_plain : ∀ (V : Nat → Vel K) (ps : List (CPoint K)), (∀ p ∈ ps, Plain cfg M p) → ∀ q ∈ (warmPoints M V ps).2, Plain cfg M q
  | _, [], _ => by simp [warmPoints]
  | V, p :: ps, h => by
    intro q hq
    simp only [warmPoints, List.mem_cons] at hq
    rcases hq with rfl | hq
    · have hp := h p List.mem_cons_self
      unfold warmPoint
      split_ifs
      · exact hp
      · exact ⟨hp.unit, hp.inv, hp.bias, hp.depth, le_refl _⟩
    · exact warmPoints_plain _ ps (fun r hr => h r (List.mem_cons_of_mem _ hr)) q hq

theorem warmMan_pts (V : Nat → Vel K) (M : Man K) : (warmMan V M).2.pts = (warmPoints M V M.pts).2 := by
  unfold warmMan
  split_ifs <;> rfl

theorem Still.warm (h : Still cfg body S M) (V : Nat → Vel K) : Still cfg body S (warmMan V M).2 := by
  obtain ⟨h1, -⟩ := warmMan_ok V M h.sits.good
  have hb : (warmMan V M).2.b1 = M.b1 ∧ (warmMan V M).2.b2 = M.b2 := by rw [h1.eq]; exact ⟨rfl, rfl⟩
  refine ⟨⟨by rw [hb.1, hb.2]; exact h.sits.pair, h.sits.fits.of_same h1, h.sits.good.of_same h1⟩, fun p hp => ?_⟩
  rw [warmMan_pts] at hp
  have := warmPoints_plain V M.pts h.plain p hp
  have hk : kinv (warmMan V M).2 p = kinv M p := by rw [h1.eq]; rfl
  exact ⟨this.unit, by rw [hk]; exact this.inv, this.bias, this.depth, this.imp⟩

theorem warm_all {P Q : Man K → Prop} (hw : ∀ M V, P M → Q (warmMan V M).2) : ∀ (V : Nat → Vel K) (Ms : List (Man K)), (∀ M ∈ Ms, P M) →
    ∀ M ∈ (warmStart V Ms).2, Q M
  | _, [], _ => by simp [warmStart]
  | V, M :: Ms, h => by
    intro N hN
    simp only [warmStart, List.mem_cons] at hN
    rcases hN with rfl | hN
    · exact hw M V (h M List.mem_cons_self)
    · exact warm_all hw _ Ms (fun r hr => h r (List.mem_cons_of_mem _ hr)) N hN

/-- The state of a step after the warm start. -/
def begun (cfg : Cfg K) (jc : JCfg K) (body : Nat → JBody K) (V : Nat → Vel K) (Js : List (Joint K)) (Xs : List (XMan K)) :
    (Nat → Vel K) × List (Joint K) × List (Man K) :=
  (warmAll jc body (Js.map (Joint.init jc body)) (warmStart V (Xs.map (initMan cfg jc.sqrt (seen body)))).1, Js.map (Joint.init jc body),
    (warmStart V (Xs.map (initMan cfg jc.sqrt (seen body)))).2)

theorem step_eq (cfg : Cfg K) (jc : JCfg K) (body : Nat → JBody K) (V : Nat → Vel K) (Js : List (Joint K)) (Xs : List (XMan K)) (n : Nat) :
    solveStep cfg jc body V Js Xs n = Joints.loop cfg jc body n (begun cfg jc body V Js Xs) := rfl

/-- **C133, partial (iterations).** With contacts that do not bounce and are not pushed apart in the velocities, and joints as in C97, no iteration makes kinetic energy: after any
number of them it is at most that after the warm start, as long as the solver does not have to take back friction because the normal impulses became smaller. Missing: that case
(`friction_gains`), the warm start (`warm_gains`), bouncing (`bounce_gains`). -/
theorem contacts_lose_partial {jc : JCfg K} (he : 0 ≤ jc.eps) (Js : List (Joint K)) (hj : ∀ J ∈ Js, Calm jc body J ∧ LimitsPush J ∧ JointProps.Pair S J.b1 J.b2)
    (Xs : List (XMan K)) (hx : ∀ X ∈ Xs, Touch cfg body S X) (V : Nat → Vel K) (hb : Bodies body mass L S (begun cfg jc body V Js Xs).1) (n : Nat)
    (hr : Rooms cfg jc body n (begun cfg jc body V Js Xs)) :
    energy2 S mass L (solveStep cfg jc body V Js Xs n).1 ≤ energy2 S mass L (begun cfg jc body V Js Xs).1 := by
  have hd : List.Forall₂ (During jc body S) Js (Js.map (Joint.init jc body)) := by
    clear hb hr
    induction Js with
    | nil => exact .nil
    | cons J Js ih =>
      obtain ⟨h1, h2, h3⟩ := hj J List.mem_cons_self
      exact .cons ⟨Joint.Same.refl _, h1, h2.init jc body, h3⟩ (ih fun q hq => hj q (List.mem_cons_of_mem _ hq))
  have hm : ∀ M ∈ (warmStart V (Xs.map (initMan cfg jc.sqrt (seen body)))).2, Still cfg body S M := by
    refine warm_all (P := Still cfg body S) (fun M V h => h.warm V) V _ fun M hM => ?_
    simp only [List.mem_map] at hM
    obtain ⟨X, hX, rfl⟩ := hM
    exact (hx X hX).still jc.sqrt
  rw [step_eq]
  exact (loop_loses' he n hd hm hb hr).2

/-! ### Without friction -/

theorem Smooth.warm (V : Nat → Vel K) (h : Slippery M) : Slippery (warmMan V M).2 := by
  obtain ⟨h1, h2, h3, h4⟩ := h
  unfold warmMan
  split_ifs
  · refine ⟨h1, ?_, ?_, h4⟩ <;> dsimp only <;> rw [h2, h3] <;> simp [V3.dot]
  · exact ⟨h1, rfl, rfl, rfl⟩

theorem Slippery.solve (V : Nat → Vel K) (h : Slippery M) : Slippery (solveMan cfg V M).2 := by
  obtain ⟨h1, h2, h3, h4⟩ := h
  refine ⟨h1, ?_, ?_, ?_⟩ <;> (unfold solveMan; dsimp only; rw [h1, zero_mul, clamp_zero])

theorem slippery_room : ∀ (V : Nat → Vel K) (Ms : List (Man K)), (∀ M ∈ Ms, Slippery M) → Room cfg V Ms ∧ ∀ M ∈ (Solver.solve cfg V Ms).2, Slippery M
  | _, [], _ => ⟨trivial, by simp [Solver.solve]⟩
  | V, M :: Ms, h => by
    obtain ⟨a, b⟩ := slippery_room (solveMan cfg V M).1 Ms fun N hN => h N (List.mem_cons_of_mem _ hN)
    refine ⟨⟨Or.inl (h M List.mem_cons_self), a⟩, fun N hN => ?_⟩
    simp only [Solver.solve, List.mem_cons] at hN
    rcases hN with rfl | hN
    · exact (h M List.mem_cons_self).solve V
    · exact b N hN

theorem slippery_rooms (jc : JCfg K) (body : Nat → JBody K) : ∀ (n : Nat) (s : (Nat → Vel K) × List (Joint K) × List (Man K)), (∀ M ∈ s.2.2, Slippery M) → Rooms cfg jc body n s
  | 0, _, _ => trivial
  | n + 1, s, h => by
    obtain ⟨a, b⟩ := slippery_room (cfg := cfg) (solveAll jc body s.1 s.2.1).1 s.2.2 h
    exact ⟨a, slippery_rooms jc body n _ b⟩

theorem smooth_begun {jc : JCfg K} {Js : List (Joint K)} {Xs : List (XMan K)} (hs : ∀ X ∈ Xs, Smooth X) : ∀ M ∈ (begun cfg jc body V Js Xs).2.2, Slippery M := by
  refine warm_all (P := Slippery) (fun M V h => Smooth.warm V h) V _ fun M hM => ?_
  simp only [List.mem_map] at hM
  obtain ⟨X, hX, rfl⟩ := hM
  exact hs X hX

/-! ### New contacts -/

theorem new_warm : ∀ (V : Nat → Vel K) (Ms : List (Man K)), (∀ M ∈ Ms, ∀ p ∈ M.pts, p.resting = false) → (warmStart V Ms).1 = V
  | _, [], _ => rfl
  | V, M :: Ms, h => by
    have e : ∀ (ps : List (CPoint K)), (∀ p ∈ ps, p.resting = false) → (warmPoints M V ps).1 = V := by
      intro ps
      induction ps with
      | nil => intro _; rfl
      | cons p ps ih =>
        intro hp
        have : (warmPoint M V p).1 = V := by unfold warmPoint; rw [hp p List.mem_cons_self]; rfl
        simp only [warmPoints, this]
        exact ih fun q hq => hp q (List.mem_cons_of_mem _ hq)
    have hany : M.pts.any CPoint.resting = false := by
      rw [List.any_eq_false]
      intro p hp
      rw [h M List.mem_cons_self p hp]
      simp
    have e2 : (warmMan V M).1 = V := by
      unfold warmMan
      rw [hany]
      exact e M.pts (h M List.mem_cons_self)
    simp only [warmStart, e2]
    exact new_warm V Ms fun N hN => h N (List.mem_cons_of_mem _ hN)

theorem new_begun {jc : JCfg K} {Js : List (Joint K)} (hj : ∀ J ∈ Js, Fresh J) {Xs : List (XMan K)} (hn : ∀ X ∈ Xs, New X) : (begun cfg jc body V Js Xs).1 = V := by
  have hw : ∀ W : Nat → Vel K, warmAll jc body (Js.map (Joint.init jc body)) W = W := by
    intro W
    unfold warmAll
    split_ifs
    · induction Js with
      | nil => rfl
      | cons J Js ih =>
        rw [List.map_cons, List.foldl_cons, ((hj J List.mem_cons_self).init jc body).warm]
        exact ih fun q hq => hj q (List.mem_cons_of_mem _ hq)
    · rfl
  unfold begun
  rw [hw]
  refine new_warm V _ fun M hM p hp => ?_
  simp only [List.mem_map] at hM
  obtain ⟨X, hX, rfl⟩ := hM
  simp only [initMan, List.mem_map] at hp
  obtain ⟨x, hx, rfl⟩ := hp
  exact hn X hX x hx

/-- **C133 (no friction).** New contacts without friction and bouncing, together with new joints as in C97, never make kinetic energy, for any number of bodies, contacts and
iterations. -/
theorem frictionless_step_loses {jc : JCfg K} (he : 0 ≤ jc.eps) (Js : List (Joint K)) (hj : ∀ J ∈ Js, Calm jc body J ∧ Fresh J ∧ JointProps.Pair S J.b1 J.b2)
    (Xs : List (XMan K)) (hx : ∀ X ∈ Xs, Touch cfg body S X ∧ Smooth X ∧ New X) (V : Nat → Vel K) (hb : Bodies body mass L S V) (n : Nat) :
    energy2 S mass L (solveStep cfg jc body V Js Xs n).1 ≤ energy2 S mass L V := by
  have e := new_begun (cfg := cfg) (jc := jc) (body := body) (V := V) (fun J hJ => (hj J hJ).2.1) (fun X hX => (hx X hX).2.2)
  have := contacts_lose_partial (cfg := cfg) he Js (fun J hJ => ⟨(hj J hJ).1, fresh_push (hj J hJ).2.1, (hj J hJ).2.2⟩) Xs (fun X hX => (hx X hX).1) V
    (by rw [e]; exact hb) n (slippery_rooms jc body n _ (smooth_begun fun X hX => (hx X hX).2.1))
  rwa [e] at this

/-- **C133, partial (no friction, contacts that lasted).** What the warm start has added is never exceeded. -/
theorem frictionless_iterations_lose_partial {jc : JCfg K} (he : 0 ≤ jc.eps) (Js : List (Joint K)) (hj : ∀ J ∈ Js, Calm jc body J ∧ LimitsPush J ∧ JointProps.Pair S J.b1 J.b2)
    (Xs : List (XMan K)) (hx : ∀ X ∈ Xs, Touch cfg body S X ∧ Smooth X) (V : Nat → Vel K) (hb : Bodies body mass L S (begun cfg jc body V Js Xs).1) (n : Nat) :
    energy2 S mass L (solveStep cfg jc body V Js Xs n).1 ≤ energy2 S mass L (begun cfg jc body V Js Xs).1 :=
  contacts_lose_partial (cfg := cfg) he Js hj Xs (fun X hX => (hx X hX).1) V hb n (slippery_rooms jc body n _ (smooth_begun fun X hX => (hx X hX).2))

/-! ### One iteration with friction -/

theorem rough_init {sqrt : K → K} (hs : IsSqrt sqrt) (he : 0 < cfg.eps) (X : XMan K) (hn : cfg.eps ≤ sqrt (sum3 (X.pts.map XPoint.normal)).lengthSq) :
    Rough (initMan cfg sqrt (seen body) X) := by
  obtain ⟨-, h1, h2, -⟩ := friction_frame hs cfg he (seen body) X hn
  exact ⟨h1, h2, rfl, rfl, rfl, rfl, rfl, rfl, rfl⟩

/-- A manifold of new contacts after the warm start. -/
structure Begins (cfg : Cfg K) (body : Nat → JBody K) (S : Finset Nat) (M : Man K) : Prop where
  still : Still cfg body S M
  rough : Rough M
  mu : 0 ≤ M.mu
  none : M.f1 = 0 ∧ M.f2 = 0 ∧ M.tw = 0

theorem begins_room : ∀ (Ms : List (Man K)) {V : Nat → Vel K}, Bodies body mass L S V → (∀ M ∈ Ms, Begins cfg body S M) → Room cfg V Ms
  | [], _, _, _ => trivial
  | M :: Ms, V, hB, h => by
    have hM := h M List.mem_cons_self
    obtain ⟨-, hq⟩ := points_lose hM.still.sits M.pts hB fun p hp => ⟨hM.still.sits.good p hp, hM.still.plain p hp⟩
    have ht : 0 ≤ M.mu * total (solvePoints cfg M V M.pts).2 := mul_nonneg hM.mu (total_nonneg _ fun p hp => (hq p hp).imp)
    have hr : Slippery M ∨ Rough M ∧ Roomy cfg V M := by
      refine Or.inr ⟨hM.rough, ?_⟩
      unfold Roomy
      rw [hM.none.1, hM.none.2.1, hM.none.2.2, abs_zero]
      exact ⟨ht, ht, ht⟩
    exact ⟨hr, begins_room Ms (man_loses hM.still hB hr).1 fun N hN => h N (List.mem_cons_of_mem _ hN)⟩

/-- **C133, partial (first iteration).** New contacts with friction, without bouncing: the first iteration does not make kinetic energy. Missing: the following ones (`friction_gains`). -/
theorem first_iteration_loses_partial {jc : JCfg K} (hs : IsSqrt jc.sqrt) (hc : 0 < cfg.eps) (he : 0 ≤ jc.eps) (Js : List (Joint K))
    (hj : ∀ J ∈ Js, Calm jc body J ∧ Fresh J ∧ JointProps.Pair S J.b1 J.b2) (Xs : List (XMan K))
    (hx : ∀ X ∈ Xs, Touch cfg body S X ∧ New X ∧ 0 ≤ X.mu ∧ cfg.eps ≤ jc.sqrt (sum3 (X.pts.map XPoint.normal)).lengthSq)
    (V : Nat → Vel K) (hb : Bodies body mass L S V) : energy2 S mass L (solveStep cfg jc body V Js Xs 1).1 ≤ energy2 S mass L V := by
  have e := new_begun (cfg := cfg) (jc := jc) (body := body) (V := V) (fun J hJ => (hj J hJ).2.1) (fun X hX => (hx X hX).2.1)
  have hB : ∀ M ∈ (begun cfg jc body V Js Xs).2.2, Begins cfg body S M := by
    refine warm_all (P := fun M => Still cfg body S M ∧ Rough M ∧ 0 ≤ M.mu ∧ ∀ p ∈ M.pts, p.resting = false) (fun M V h => ?_) V _ fun M hM => ?_
    · have hany : M.pts.any CPoint.resting = false := by
        rw [List.any_eq_false]
        intro p hp
        rw [h.2.2.2 p hp]
        simp
      have e2 : (warmMan V M).2 = { M with f1 := 0, f2 := 0, tw := 0, pts := (warmPoints M V M.pts).2 } := by
        unfold warmMan
        rw [hany]
        rfl
      refine ⟨h.1.warm V, ?_, ?_, ?_⟩
      · rw [e2]; exact ⟨h.2.1.unit1, h.2.1.unit2, h.2.1.arm11, h.2.1.arm12, h.2.1.arm21, h.2.1.arm22, h.2.1.k1, h.2.1.k2, h.2.1.kt⟩
      · rw [e2]; exact h.2.2.1
      · rw [e2]; exact ⟨rfl, rfl, rfl⟩
    · simp only [List.mem_map] at hM
      obtain ⟨X, hX, rfl⟩ := hM
      refine ⟨(hx X hX).1.still jc.sqrt, rough_init hs hc X (hx X hX).2.2.2, (hx X hX).2.2.1, fun p hp => ?_⟩
      simp only [initMan, List.mem_map] at hp
      obtain ⟨x, hx', rfl⟩ := hp
      exact (hx X hX).2.1 x hx'
  have hd : List.Forall₂ (During jc body S) Js (Js.map (Joint.init jc body)) := by
    clear hB e
    induction Js with
    | nil => exact .nil
    | cons J Js ih =>
      obtain ⟨h1, h2, h3⟩ := hj J List.mem_cons_self
      exact .cons ⟨Joint.Same.refl _, h1, (fresh_push h2).init jc body, h3⟩ (ih fun q hq => hj q (List.mem_cons_of_mem _ hq))
  have := contacts_lose_partial (cfg := cfg) he Js (fun J hJ => ⟨(hj J hJ).1, fresh_push (hj J hJ).2.1, (hj J hJ).2.2⟩) Xs (fun X hX => (hx X hX).1) V
    (by rw [e]; exact hb) 1 ⟨?_, trivial⟩
  · rwa [e] at this
  · refine begins_room (mass := mass) (L := L) _ ?_ hB
    rw [e]
    exact (solveAll_loses he hd hb).1.1

end ContactEnergy
end RP3D
