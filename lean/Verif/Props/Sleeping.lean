import Verif.Dynamics.Sleep
import Verif.Props.Dynamics

/-!
Property theorems about sleeping: C32.
-/

set_option linter.unusedSectionVars false

namespace RP3D
open DW

variable {K : Type} [Field K] [LinearOrder K] [IsStrictOrderedRing K]

namespace SleepSpec

/-- What can be seen of a body at the end of a step, and whether the sleeping pass looked at it. -/
structure Obs (K : Type) where
  dt : K
  vel : V3 K
  ang : V3 K
  allowed : Bool
  limL : K
  limA : K
  counted : Bool

/-- Slower than the thresholds and allowed to sleep. -/
def Obs.Slow (o : Obs K) : Prop := V3.lengthSq o.vel ≤ o.limL * o.limL ∧ V3.lengthSq o.ang ≤ o.limA * o.limA ∧ o.allowed = true

/-- The time of the observations that count, the latest observation first. -/
def elapsed (add : K → K → K) (l : List (Obs K)) : K := l.foldr (fun o t => if o.counted then add t o.dt else t) 0

/-- A body that was slow in all these observations that count, and for how long. -/
def SlowFor (add : K → K → K) (l : List (Obs K)) (t : K) : Prop := (∀ o ∈ l, o.counted = true → o.Slow) ∧ t = elapsed add l

/-- The observation of a body in a step. -/
def observe (a : Args K) (w : DW K) (b : Nat) : Obs K :=
  match (moved a w).body b with
  | none => ⟨a.dt, 0, 0, true, 0, 0, false⟩
  | some d => ⟨a.dt, d.vel, d.ang, d.allowed, w.limL, w.limA, w.sleepOn && decide (d.type ≠ .static) && a.islands.any (fun i => i.contains b)⟩

/-- The observations of the bodies after a call. -/
def logOp (w : DW K) (log : Nat → List (Obs K)) : Op K → Nat → List (Obs K)
  | .create c _ => upd log c []
  | .update a => fun b => observe a w b :: log b
  | _ => log

/-- Histories with their observations. -/
inductive Trace (ok : DW K → Op K → Prop) : (Nat → List (Obs K)) → DW K → Prop
  | empty (on l a t) : Trace ok (fun _ => []) (DW.empty on l a t)
  | step {log w} (o : Op K) : ok w o → Trace ok log w → Trace ok (logOp w log o) (w.exec o)

/-- Steps with islands that share only static bodies, a positive time before sleep, and one addition of times. -/
def Sane (add : K → K → K) (w : DW K) : Op K → Prop
  | .update a => a.add = add ∧ 0 < w.before ∧ IslandsOk (moved a w) a.islands
  | _ => True

end SleepSpec
open SleepSpec

theorem atRest_slow (a : Args K) (w : DW K) (b : Nat) (d : Dyn K) (h : (moved a w).body b = some d) :
    (moved a w).atRest d = true ↔ (observe a w b).Slow := by
  have hl : (moved a w).limL = w.limL := rfl
  have ha : (moved a w).limA = w.limA := rfl
  unfold observe
  rw [h]
  simp only [atRest, Obs.Slow, hl, ha]
  simp [and_assoc]

/-- Calls other than steps keep the timer or reset it. -/
theorem call_sleepTime (d : Dyn K) (o : Dyn.Op K) : (d.exec o).sleepTime = d.sleepTime ∨ (d.exec o).sleepTime = 0 := by
  have wk : ∀ (d : Dyn K) b, (d.setIsSleeping b).sleepTime = d.sleepTime ∨ (d.setIsSleeping b).sleepTime = 0 := fun d b => by
    rcases Dyn.setIsSleeping_cases d b with e | ⟨_, _, _, _, e⟩ | ⟨_, _, _, _, e⟩ <;> rw [e] <;> simp
  cases o <;> simp only [Dyn.exec, Dyn.applyForceLocalPos, Dyn.applyLocalForce, Dyn.applyLocalForceLocalPos, Dyn.applyForce,
    Dyn.applyLocalForceCenter, Dyn.applyForceCenter, Dyn.applyLocalTorque, Dyn.applyTorque, Dyn.resetForce, Dyn.resetTorque,
    Dyn.setInertia, Dyn.storeMass, Dyn.setMass, Dyn.setCenter, Dyn.updateMassProperties, Dyn.setLinearVelocity, Dyn.setAngularVelocity,
    Dyn.setTransform, Dyn.setAllowed, Dyn.setIsActive, Dyn.setLinearDamping, Dyn.setAngularDamping, Dyn.setType]
  case setType t =>
    split
    · exact Or.inl rfl
    · rcases wk { (if t = BType.static ∨ t = BType.kinematic then (if t = BType.static then { d with type := t }.setTypeStatic else { d with type := t }).setTypeFixed else (if t = BType.static then { d with type := t }.setTypeStatic else { d with type := t }).setTypeDynamic) with disabled := decide (t = BType.static) } false with h | h
      · left
        refine h.trans ?_
        split_ifs <;> rfl
      · exact Or.inr h
  case transform t =>
    rcases wk (if d.type = BType.static then { d with comWorld := t.act d.comLocal, vel := d.vel + V3.cross d.ang (t.act d.comLocal - d.comWorld), cPos := t.pos, cOri := t.ori } else { d with comWorld := t.act d.comLocal, vel := d.vel + V3.cross d.ang (t.act d.comLocal - d.comWorld) }) false with h | h
    · left
      refine h.trans ?_
      split_ifs <;> rfl
    · exact Or.inr h
  all_goals (try split_ifs) <;> first | exact Or.inl rfl | exact Or.inl trivial | exact wk _ _ | exact (wk { d with vel := _ } false) | skip

/-- The timer of a body after the movement of a step. -/
theorem moved_sleepTime {a : Args K} {w : DW K} {b : Nat} {m : Dyn K} (h : (moved a w).body b = some m) :
    ∃ d, w.body b = some d ∧ m.type = d.type ∧ m.active = d.active ∧ m.allowed = d.allowed ∧
      (m.sleepTime = d.sleepTime ∨ m.sleepTime = 0) := by
  rw [moved_body, wakeIslands, mapAll] at h
  cases e : w.body b with
  | none => simp [e] at h
  | some d =>
    simp only [e, Option.map_some, Option.some.injEq] at h
    refine ⟨d, rfl, ?_⟩
    rw [← h]
    have s := Dyn.move_same a b (if (a.islands.any fun i => i.contains b) = true then d.setIsSleeping false else d)
    rw [s.type, s.active, s.allowed, s.sleepTime]
    split
    · refine ⟨Dyn.setIsSleeping_type _ _, Dyn.setIsSleeping_active _ _, ?_, ?_⟩
      · rcases Dyn.setIsSleeping_cases d false with e | ⟨_, _, _, _, e⟩ | ⟨_, _, _, _, e⟩ <;> rw [e]
      · rcases Dyn.setIsSleeping_cases d false with e | ⟨_, _, _, _, e⟩ | ⟨_, _, _, _, e⟩ <;> rw [e] <;> simp
    · exact ⟨rfl, rfl, rfl, Or.inl rfl⟩

/-- The body after the sleeping pass. -/
theorem update_body {add} {a : Args K} {w : DW K} (ho : Sane add w (.update a)) {b : Nat} {e : Dyn K} (h : (w.update a).body b = some e) :
    ∃ m, (moved a w).body b = some m ∧
      ((w.sleepOn = false ∨ m.type = .static ∨ ∀ i ∈ a.islands, b ∉ i) ∧ e = m.resetForces ∨
       w.sleepOn = true ∧ m.type ≠ .static ∧ ∃ i ∈ a.islands, b ∈ i ∧ e = ((moved a w).slept add a.big a.dt i m).resetForces) := by
  obtain ⟨rfl, ht, hi⟩ := ho
  simp only [DW.update, mapAll, Option.map_eq_some_iff] at h
  obtain ⟨m', hm', rfl⟩ := h
  have hon : (moved a w).sleepOn = w.sleepOn := rfl
  rw [hon] at hm'
  by_cases hs : w.sleepOn = true
  · rw [if_pos hs] at hm'
    cases hm : (moved a w).body b with
    | none =>
      rw [(sleep_none a.add a.big a.dt a.islands (moved a w) b).2 hm] at hm'
      cases hm'
    | some m =>
      refine ⟨m, rfl, ?_⟩
      by_cases hst : m.type = .static
      · left
        rw [updateSleeping_other a.add a.big a.dt a.islands _ hi ht b (fun _ _ _ d hd => by rw [hm] at hd; cases hd; exact hst), hm] at hm'
        cases hm'
        exact ⟨Or.inr (Or.inl hst), rfl⟩
      · by_cases hin : ∃ i ∈ a.islands, b ∈ i
        · obtain ⟨i, h1, h2⟩ := hin
          right
          rw [updateSleeping_body a.add a.big a.dt a.islands _ hi ht i h1 b h2, hm, Option.map_some, Option.some.injEq] at hm'
          exact ⟨hs, hst, i, h1, h2, by rw [hm']⟩
        · left
          have hin' : ∀ i ∈ a.islands, b ∉ i := fun i h1 h2 => hin ⟨i, h1, h2⟩
          rw [updateSleeping_other a.add a.big a.dt a.islands _ hi ht b (fun i h1 h2 => absurd h2 (hin' i h1)), hm] at hm'
          cases hm'
          exact ⟨Or.inr (Or.inr hin'), rfl⟩
  · rw [if_neg hs] at hm'
    exact ⟨m', hm', Or.inl ⟨Or.inl (by simpa using hs), rfl⟩⟩

theorem observe_counted {a : Args K} {w : DW K} {b : Nat} {m : Dyn K} (h : (moved a w).body b = some m) :
    (observe a w b).counted = true ↔ (w.sleepOn = true ∧ m.type ≠ .static ∧ ∃ i ∈ a.islands, b ∈ i) := by
  unfold observe
  rw [h]
  simp [and_assoc]

theorem observe_dt (a : Args K) (w : DW K) (b : Nat) : (observe a w b).dt = a.dt := by
  unfold observe; split <;> rfl

theorem slowFor_zero (add : K → K → K) : SlowFor add ([] : List (Obs K)) 0 := ⟨fun _ h => (by cases h), rfl⟩

/-- The timer of every body is the time of some latest observations, in which it was slow whenever it was looked at. -/
theorem timer_meaning (add : K → K → K) {log : Nat → List (Obs K)} {w : DW K} (h : Trace (Sane add) log w) :
    ∀ b d, w.body b = some d → ∃ n, SlowFor add ((log b).take n) d.sleepTime := by
  induction h with
  | empty => intro b d h; simp [DW.empty] at h
  | @step log w o ho _ ih =>
    intro b d hb
    cases o with
    | create c t =>
      by_cases e : b = c
      · subst e
        simp only [DW.exec, upd_same, Option.some.injEq] at hb
        exact ⟨0, by rw [← hb]; exact slowFor_zero add⟩
      · simp only [DW.exec] at hb
        rw [upd_ne _ _ e] at hb
        simp only [logOp]
        rw [upd_ne _ _ e]
        exact ih b d hb
    | destroy c =>
      by_cases e : b = c
      · subst e
        simp only [DW.exec, upd_same] at hb
        cases hb
      · simp only [DW.exec] at hb
        rw [upd_ne _ _ e] at hb
        exact ih b d hb
    | call c o =>
      simp only [DW.exec] at hb
      by_cases e : b = c
      · subst e
        rw [modify_same, Option.map_eq_some_iff] at hb
        obtain ⟨d', hd', rfl⟩ := hb
        rcases call_sleepTime d' o with h | h
        · rw [h]; exact ih b d' hd'
        · rw [h]; exact ⟨0, slowFor_zero add⟩
      · rw [modify_ne _ _ e] at hb
        exact ih b d hb
    | enableSleeping c =>
      simp only [DW.exec, enableSleeping] at hb
      split at hb
      · simp only [mapAll, Option.map_eq_some_iff] at hb
        obtain ⟨d', hd', rfl⟩ := hb
        rcases call_sleepTime d' (.sleep false) with h | h
        · simp only [Dyn.exec] at h; rw [h]; exact ih b d' hd'
        · simp only [Dyn.exec] at h; rw [h]; exact ⟨0, slowFor_zero add⟩
      · exact ih b d hb
    | limits l a t => exact ih b d hb
    | update a =>
      simp only [DW.exec] at hb
      obtain ⟨m, hm, hc⟩ := update_body ho hb
      obtain ⟨d0, hd0, ht, _, _, hst⟩ := moved_sleepTime hm
      have hmt : ∃ n, SlowFor add ((log b).take n) m.sleepTime := by
        rcases hst with h | h
        · rw [h]; exact ih b d0 hd0
        · rw [h]; exact ⟨0, slowFor_zero add⟩
      have hcount := observe_counted hm
      rcases hc with ⟨hn, rfl⟩ | ⟨hs, hns, i, hi, hbi, rfl⟩
      · obtain ⟨n, h1, h2⟩ := hmt
        have hf : (observe a w b).counted = false := by
          rw [Bool.eq_false_iff]
          intro hx
          obtain ⟨h3, h4, i, h5, h6⟩ := hcount.1 hx
          rcases hn with hn | hn | hn
          · rw [h3] at hn; cases hn
          · exact h4 hn
          · exact hn i h5 h6
        refine ⟨n + 1, ?_, ?_⟩
        · intro o ho
          simp only [logOp, List.take_succ_cons, List.mem_cons] at ho
          rcases ho with rfl | ho
          · intro hx; rw [hf] at hx; cases hx
          · exact h1 o ho
        · show m.sleepTime = _
          simp only [logOp, List.take_succ_cons, elapsed, List.foldr_cons, hf]
          exact h2
      · have htrue := hcount.2 ⟨hs, hns, i, hi, hbi⟩
        have key : ((moved a w).slept add a.big a.dt i m).sleepTime = 0 ∨
            ((moved a w).atRest m = true ∧ ((moved a w).slept add a.big a.dt i m).sleepTime = add m.sleepTime a.dt) := by
          have hticked : ((moved a w).ticked add a.dt m).sleepTime = 0 ∨
              ((moved a w).atRest m = true ∧ ((moved a w).ticked add a.dt m).sleepTime = add m.sleepTime a.dt) := by
            unfold ticked
            rw [if_neg hns]
            by_cases hr : (moved a w).atRest m = true
            · rw [if_pos hr]; exact Or.inr ⟨hr, rfl⟩
            · rw [if_neg hr]; exact Or.inl rfl
          unfold slept
          split
          · rcases Dyn.setIsSleeping_cases ((moved a w).ticked add a.dt m) true with e | ⟨_, _, _, _, e⟩ | ⟨_, _, _, _, e⟩ <;> rw [e]
            · exact hticked
            · exact Or.inl rfl
            · exact Or.inl rfl
          · exact hticked
        rcases key with h | ⟨hr, h⟩
        · exact ⟨0, by show SlowFor add _ ((moved a w).slept add a.big a.dt i m).sleepTime; rw [h]; exact slowFor_zero add⟩
        · obtain ⟨n, h1, h2⟩ := hmt
          refine ⟨n + 1, ?_, ?_⟩
          · intro o ho
            simp only [logOp, List.take_succ_cons, List.mem_cons] at ho
            rcases ho with rfl | ho
            · exact fun _ => (atRest_slow a w b m hm).1 hr
            · exact h1 o ho
          · show ((moved a w).slept add a.big a.dt i m).sleepTime = _
            rw [h]
            simp only [logOp, List.take_succ_cons, elapsed, List.foldr_cons, htrue, observe_dt]
            rw [if_pos trivial]
            congr 1

/-- The bodies of an island are awake in the step. -/
theorem island_body_awake {a : Args K} {w : DW K} {i : List Nat} (hi : i ∈ a.islands) {c : Nat} (hc : c ∈ i) {d : Dyn K}
    (hd : (moved a w).body c = some d) (hdt : d.type ≠ .static) (hda : d.active = true) : d.sleeping = false := by
  rw [moved_body, wakeIslands, mapAll] at hd
  cases e : w.body c with
  | none => simp [e] at hd
  | some d0 =>
    have hany : (a.islands.any fun i => i.contains c) = true := by
      simp only [List.any_eq_true]
      exact ⟨i, hi, by simpa using hc⟩
    simp only [e, Option.map_some, Option.some.injEq, if_pos hany] at hd
    rw [← hd] at hdt hda ⊢
    have s := Dyn.move_same a c (d0.setIsSleeping false)
    rw [s.type, Dyn.setIsSleeping_type] at hdt
    rw [s.active, Dyn.setIsSleeping_active] at hda
    rw [s.sleeping]
    unfold Dyn.setIsSleeping
    by_cases h : d0.sleeping = false
    · rw [if_pos h]; exact h
    · rw [if_neg h, if_neg hdt, if_neg (by rw [hda]; simp)]
      rfl

/-- **C32** If a step puts a body to sleep, then the body is in an island whose other bodies go to sleep as well (the active ones that are not
static), and every body of the island that is not static was slow whenever it was looked at, over latest observations whose times add up to the configured time. -/
theorem sleep_needs_rest (add : K → K → K) {log : Nat → List (Obs K)} {w : DW K} (h : Trace (Sane add) log w) (a : Args K)
    (ho : Sane add w (.update a)) {b : Nat} {m e : Dyn K} (hm : (moved a w).body b = some m) (hms : m.sleeping = false)
    (he : (w.update a).body b = some e) (hes : e.sleeping = true) :
    ∃ i ∈ a.islands, b ∈ i ∧ ∀ c ∈ i, ∀ d, (moved a w).body c = some d → d.type ≠ .static →
      (d.active = true → ∃ f, (w.update a).body c = some f ∧ f.sleeping = true ∧ f.vel = 0 ∧ f.ang = 0) ∧
      ∃ n t, SlowFor add ((observe a w c :: log c).take (n + 1)) t ∧ w.before ≤ t ∧ (observe a w c).counted = true := by
  obtain ⟨m', hm', hc⟩ := update_body ho he
  rw [hm] at hm'; cases hm'
  rcases hc with ⟨_, rfl⟩ | ⟨hs, hns, i, hi, hbi, rfl⟩
  · rw [show m.resetForces.sleeping = m.sleeping from rfl, hms] at hes; cases hes
  · have hready : (moved a w).IslandReady add a.big a.dt i := by
      by_contra hn
      have : ((moved a w).slept add a.big a.dt i m).sleeping = m.sleeping := by
        unfold slept
        rw [if_neg hn]
        unfold ticked
        split_ifs <;> rfl
      rw [show ((moved a w).slept add a.big a.dt i m).resetForces.sleeping = ((moved a w).slept add a.big a.dt i m).sleeping from rfl, this, hms] at hes
      cases hes
    refine ⟨i, hi, hbi, fun c hc d hd hdt => ?_⟩
    refine ⟨fun hda => ?_, ?_⟩
    · obtain ⟨ha, ht, hio⟩ := ho
      have hb' : (w.update a).body c = some ((moved a w).slept add a.big a.dt i d).resetForces := by
        unfold DW.update
        have hon : (moved a w).sleepOn = true := hs
        simp only [mapAll, if_pos hon]
        rw [ha, updateSleeping_body add a.big a.dt a.islands _ hio ht i hi c hc, hd]
        rfl
      have hds := island_body_awake hi hc hd hdt hda
      · refine ⟨_, hb', ?_⟩
        have htk : ((moved a w).ticked add a.dt d).sleeping = false ∧ ((moved a w).ticked add a.dt d).active = true ∧
            ((moved a w).ticked add a.dt d).type ≠ .static := by
          refine ⟨?_, ?_, by rw [ticked_type]; exact hdt⟩
          · unfold ticked; split_ifs <;> exact hds
          · unfold ticked; split_ifs <;> exact hda
        have : ((moved a w).slept add a.big a.dt i d) = ((moved a w).ticked add a.dt d).setIsSleeping true := by
          unfold slept; rw [if_pos hready]
        rw [this]
        unfold Dyn.setIsSleeping
        rw [if_neg (by rw [htk.1]; simp), if_neg htk.2.2, if_neg (by rw [htk.2.1]; simp)]
        exact ⟨rfl, rfl, rfl⟩
    · obtain ⟨d0, hd0, _, _, _, hst⟩ := moved_sleepTime hd
      have hmt : ∃ n, SlowFor add ((log c).take n) d.sleepTime := by
        rcases hst with h' | h'
        · rw [h']; exact timer_meaning add h c d0 hd0
        · rw [h']; exact ⟨0, slowFor_zero add⟩
      obtain ⟨n, h1, h2⟩ := hmt
      have htrue := (observe_counted hd).2 ⟨hs, hdt, i, hi, hc⟩
      rcases hready.2 c hc d hd with h3 | ⟨h3, h4⟩
      · exact absurd h3 hdt
      · refine ⟨n, add d.sleepTime a.dt, ⟨?_, ?_⟩, h4, htrue⟩
        · intro o ho
          simp only [List.take_succ_cons, List.mem_cons] at ho
          rcases ho with rfl | ho
          · exact fun _ => (atRest_slow a w c d hd).1 h3
          · exact h1 o ho
        · simp only [List.take_succ_cons, elapsed, List.foldr_cons, htrue, observe_dt]
          rw [if_pos trivial, h2]
          rfl

/-- **C32** An island whose bodies are all slow and have been for long enough goes to sleep as a whole. -/
theorem rested_island_sleeps (add : K → K → K) {w : DW K} (a : Args K) (ho : Sane add w (.update a)) (hs : w.sleepOn = true)
    (hbig : w.before ≤ a.big) {i : List Nat} (hi : i ∈ a.islands)
    (hr : ∀ c ∈ i, ∀ d, (moved a w).body c = some d → d.type ≠ .static → (observe a w c).Slow ∧ w.before ≤ add d.sleepTime a.dt)
    {c : Nat} (hc : c ∈ i) {d : Dyn K} (hd : (moved a w).body c = some d) (hdt : d.type ≠ .static) (hda : d.active = true) :
    ∃ f, (w.update a).body c = some f ∧ f.sleeping = true := by
  obtain ⟨ha, ht, hio⟩ := ho
  have hb' : (w.update a).body c = some ((moved a w).slept add a.big a.dt i d).resetForces := by
    unfold DW.update
    have hon : (moved a w).sleepOn = true := hs
    simp only [mapAll, if_pos hon]
    rw [ha, updateSleeping_body add a.big a.dt a.islands _ hio ht i hi c hc, hd]
    rfl
  refine ⟨_, hb', ?_⟩
  have hready : (moved a w).IslandReady add a.big a.dt i := by
    refine ⟨hbig, fun c hc d hd => ?_⟩
    by_cases hst : d.type = .static
    · exact Or.inl hst
    · obtain ⟨h1, h2⟩ := hr c hc d hd hst
      exact Or.inr ⟨(atRest_slow a w c d hd).2 h1, h2⟩
  show ((moved a w).slept add a.big a.dt i d).sleeping = true
  unfold slept
  rw [if_pos hready]
  have htk : ((moved a w).ticked add a.dt d).active = true ∧ ((moved a w).ticked add a.dt d).type ≠ .static := by
    refine ⟨?_, by rw [ticked_type]; exact hdt⟩
    unfold ticked; split_ifs <;> exact hda
  unfold Dyn.setIsSleeping
  by_cases h : ((moved a w).ticked add a.dt d).sleeping = true
  · rw [if_pos h]; exact h
  · rw [if_neg h, if_neg htk.2, if_neg (by rw [htk.1]; simp)]
    rfl

/-! ### Histories in which every step looks at every body -/

/-- Histories with sleeping enabled at every step, islands that contain exactly the bodies that are awake (and static ones), and in which bodies
become static only while their timer is zero. -/
def Plain (add : K → K → K) (w : DW K) : Op K → Prop
  | .update a => Sane add w (.update a) ∧ w.sleepOn = true ∧
      (∀ b m, (moved a w).body b = some m → m.type ≠ .static → (m.disabled = false ↔ ∃ i ∈ a.islands, b ∈ i))
  | .call b (.setType .static) => ∀ d, w.body b = some d → d.sleepTime = 0
  | _ => True

/-- The timer of a body that steps do not look at is zero. -/
def TimeOk (d : Dyn K) : Prop := d.type = .static ∨ d.disabled = true → d.sleepTime = 0

theorem TimeOk.sleep {d : Dyn K} (h : TimeOk d) (b : Bool) : TimeOk (d.setIsSleeping b) := by
  rcases Dyn.setIsSleeping_cases d b with e | ⟨_, _, hs, _, e⟩ | ⟨_, _, hs, _, e⟩ <;> rw [e]
  · exact h
  · exact fun _ => rfl
  · exact fun _ => rfl

theorem TimeOk.exec {d : Dyn K} (h : TimeOk d) (o : Dyn.Op K) (ho : o = .setType .static → d.sleepTime = 0) : TimeOk (d.exec o) := by
  have wk : ∀ {d : Dyn K}, TimeOk d → TimeOk (if d.sleeping = true then d.setIsSleeping false else d) := fun h => by
    split
    · exact h.sleep false
    · exact h
  have frc : ∀ f p, TimeOk (d.applyForce f p) := fun f p => by
    unfold Dyn.applyForce
    split
    · exact h
    · exact wk h
  have frcc : ∀ f, TimeOk (d.applyForceCenter f) := fun f => by
    unfold Dyn.applyForceCenter
    split
    · exact h
    · exact wk h
  have trq : ∀ f, TimeOk (d.applyTorque f) := fun f => by
    unfold Dyn.applyTorque
    split
    · exact h
    · exact wk h
  have inr : ∀ {d : Dyn K}, TimeOk d → ∀ i, TimeOk (d.setInertia i) := fun h i => by
    unfold Dyn.setInertia
    simp only
    split <;> exact h
  have mss : ∀ {d : Dyn K}, TimeOk d → ∀ i, TimeOk (d.storeMass i) := fun h i => by
    unfold Dyn.storeMass
    simp only
    split <;> exact h
  cases o <;> simp only [Dyn.exec]
  case setType t =>
    unfold Dyn.setType
    split
    · exact h
    · rename_i hne
      have : TimeOk { (if t = BType.static ∨ t = BType.kinematic then (if t = BType.static then { d with type := t }.setTypeStatic else { d with type := t }).setTypeFixed else (if t = BType.static then { d with type := t }.setTypeStatic else { d with type := t }).setTypeDynamic) with disabled := decide (t = BType.static) } := by
        by_cases ht : t = BType.static
        · subst ht
          intro _
          simp only [if_pos, true_or]
          exact ho rfl
        · intro hx
          exfalso
          rcases hx with hx | hx
          · apply ht
            revert hx
            dsimp only
            split_ifs <;> exact fun hx => hx
          · simp [ht] at hx
      have key : ∀ x : Dyn K, TimeOk x → TimeOk { x.setIsSleeping false with force := 0, torque := 0 } := fun x hx => hx.sleep false
      exact key _ this
  case force f p => exact frc f p
  case forceLocalPos f p => exact frc f _
  case localForce f p => exact frc _ p
  case localForceLocalPos f p => exact frc _ _
  case forceCenter f => exact frcc f
  case localForceCenter f => exact frcc _
  case torque m => exact trq m
  case localTorque m => exact trq _
  case resetForce => unfold Dyn.resetForce; split <;> exact h
  case resetTorque => unfold Dyn.resetTorque; split <;> exact h
  case setInertia i => exact inr h i
  case inertiaFromColliders cs => exact inr h _
  case massFromColliders cs => exact mss h _
  case setMass m => unfold Dyn.setMass; split <;> [exact h; exact mss h m]
  case setCenter c => exact h
  case centerFromColliders cs => exact h
  case massProperties cs =>
    unfold Dyn.updateMassProperties
    refine mss (inr ?_ _) _
    simp only
    split <;> exact h
  case linearVelocity v =>
    unfold Dyn.setLinearVelocity
    have h1 : TimeOk { d with vel := v } := h
    simp only
    split_ifs
    · exact h
    · exact h1.sleep false
    · exact h1
  case angularVelocity v =>
    unfold Dyn.setAngularVelocity
    have h1 : TimeOk { d with ang := v } := h
    simp only
    split_ifs
    · exact h
    · exact h1.sleep false
    · exact h1
  case transform t =>
    have key : ∀ x : Dyn K, TimeOk x → TimeOk { x.setIsSleeping false with tr := t } := fun x hx => hx.sleep false
    unfold Dyn.setTransform
    dsimp only
    apply key
    split <;> exact h
  case allowed b =>
    have h1 : TimeOk { d with allowed := b } := h
    unfold Dyn.setAllowed
    simp only
    split
    · exact h1.sleep false
    · exact h1
  case active b =>
    unfold Dyn.setIsActive
    split
    · exact h
    · exact h.sleep _
  case linearDamping k => unfold Dyn.setLinearDamping; split <;> exact h
  case angularDamping k => unfold Dyn.setAngularDamping; split <;> exact h
  case gravity b => exact h
  case linearLock v => exact h
  case angularLock v => exact h
  case sleep b => exact h.sleep b

theorem Plain.sane {add} {w : DW K} {o : Op K} (h : Plain add w o) : Sane add w o := by
  cases o <;> first | exact h.1 | exact trivial

theorem Trace.mono {ok ok' : DW K → Op K → Prop} (hm : ∀ w o, ok w o → ok' w o) {log} {w : DW K} (h : Trace ok log w) : Trace ok' log w := by
  induction h with
  | empty on l a t => exact .empty on l a t
  | step o ho _ ih => exact .step o (hm _ _ ho) ih

theorem plain_timer (add : K → K → K) {log : Nat → List (Obs K)} {w : DW K} (h : Trace (Plain add) log w) :
    ∀ b d, w.body b = some d → TimeOk d ∧ ∃ n, (∀ o ∈ (log b).take n, o.counted = true) ∧ SlowFor add ((log b).take n) d.sleepTime := by
  have zero : ∀ (l : List (Obs K)) (t : K), t = 0 → ∃ n, (∀ o ∈ l.take n, o.counted = true) ∧ SlowFor add (l.take n) t := fun l t ht =>
    ⟨0, fun o ho => (by simp at ho), by rw [ht]; exact slowFor_zero add⟩
  induction h with
  | empty => intro b d h; simp [DW.empty] at h
  | @step log w o ho hw ih =>
    intro b d hb
    cases o with
    | create c t =>
      by_cases e : b = c
      · subst e
        simp only [DW.exec, upd_same, Option.some.injEq] at hb
        rw [← hb]
        exact ⟨fun _ => rfl, zero _ _ rfl⟩
      · simp only [DW.exec] at hb
        rw [upd_ne _ _ e] at hb
        simp only [logOp]
        rw [upd_ne _ _ e]
        exact ih b d hb
    | destroy c =>
      by_cases e : b = c
      · subst e
        simp only [DW.exec, upd_same] at hb
        cases hb
      · simp only [DW.exec] at hb
        rw [upd_ne _ _ e] at hb
        exact ih b d hb
    | call c o =>
      simp only [DW.exec] at hb
      by_cases e : b = c
      · subst e
        rw [modify_same, Option.map_eq_some_iff] at hb
        obtain ⟨d', hd', rfl⟩ := hb
        obtain ⟨h1, h2⟩ := ih b d' hd'
        refine ⟨h1.exec o (by rintro rfl; exact ho d' hd'), ?_⟩
        rcases call_sleepTime d' o with h | h
        · rw [h]; exact h2
        · exact zero _ _ h
      · rw [modify_ne _ _ e] at hb
        exact ih b d hb
    | enableSleeping c =>
      simp only [DW.exec, enableSleeping] at hb
      split at hb
      · simp only [mapAll, Option.map_eq_some_iff] at hb
        obtain ⟨d', hd', rfl⟩ := hb
        obtain ⟨h1, h2⟩ := ih b d' hd'
        refine ⟨h1.sleep false, ?_⟩
        rcases call_sleepTime d' (.sleep false) with h | h
        · simp only [Dyn.exec] at h; rw [h]; exact h2
        · exact zero _ _ h
      · exact ih b d hb
    | limits l a t => exact ih b d hb
    | update a =>
      simp only [DW.exec] at hb
      obtain ⟨hsane, hon, hcov⟩ := ho
      obtain ⟨m, hm, hc⟩ := update_body hsane hb
      have hmok : TimeOk m ∧ ∃ n, (∀ o ∈ (log b).take n, o.counted = true) ∧ SlowFor add ((log b).take n) m.sleepTime := by
        have hm' := hm
        rw [moved_body, wakeIslands, mapAll] at hm'
        cases e : w.body b with
        | none => simp [e] at hm'
        | some d0 =>
          simp only [e, Option.map_some, Option.some.injEq] at hm'
          obtain ⟨h1, h2⟩ := ih b d0 e
          have s := Dyn.move_same a b (if (a.islands.any fun i => i.contains b) = true then d0.setIsSleeping false else d0)
          rw [← hm']
          unfold TimeOk
          rw [s.type, s.disabled, s.sleepTime]
          split
          · refine ⟨h1.sleep false, ?_⟩
            rcases call_sleepTime d0 (.sleep false) with h | h
            · simp only [Dyn.exec] at h; rw [h]; exact h2
            · exact zero _ _ h
          · exact ⟨h1, h2⟩
      have hcount := observe_counted hm
      rcases hc with ⟨hn, rfl⟩ | ⟨hs, hns, i, hi, hbi, rfl⟩
      · have h0 : m.sleepTime = 0 := by
          rcases hn with hn | hn | hn
          · rw [hon] at hn; cases hn
          · exact hmok.1 (Or.inl hn)
          · by_cases hst : m.type = .static
            · exact hmok.1 (Or.inl hst)
            · refine hmok.1 (Or.inr ?_)
              by_contra hx
              obtain ⟨i, h5, h6⟩ := (hcov b m hm hst).1 (by simpa using hx)
              exact hn i h5 h6
        exact ⟨fun _ => h0, zero _ _ h0⟩
      · have htrue := hcount.2 ⟨hs, hns, i, hi, hbi⟩
        have hen : m.disabled = false := (hcov b m hm hns).2 ⟨i, hi, hbi⟩
        have htk : TimeOk ((moved a w).ticked add a.dt m) := by
          intro hx
          exfalso
          rw [ticked_type] at hx
          rcases hx with hx | hx
          · exact hns hx
          · have : ((moved a w).ticked add a.dt m).disabled = m.disabled := by unfold ticked; split_ifs <;> rfl
            rw [this, hen] at hx; cases hx
        have key : TimeOk ((moved a w).slept add a.big a.dt i m) ∧ (((moved a w).slept add a.big a.dt i m).sleepTime = 0 ∨
            ((moved a w).atRest m = true ∧ ((moved a w).slept add a.big a.dt i m).sleepTime = add m.sleepTime a.dt)) := by
          have hticked : ((moved a w).ticked add a.dt m).sleepTime = 0 ∨
              ((moved a w).atRest m = true ∧ ((moved a w).ticked add a.dt m).sleepTime = add m.sleepTime a.dt) := by
            unfold ticked
            rw [if_neg hns]
            by_cases hr : (moved a w).atRest m = true
            · rw [if_pos hr]; exact Or.inr ⟨hr, rfl⟩
            · rw [if_neg hr]; exact Or.inl rfl
          unfold slept
          split
          · refine ⟨htk.sleep true, ?_⟩
            rcases Dyn.setIsSleeping_cases ((moved a w).ticked add a.dt m) true with e | ⟨_, _, _, _, e⟩ | ⟨_, _, _, _, e⟩ <;> rw [e]
            · exact hticked
            · exact Or.inl rfl
            · exact Or.inl rfl
          · exact ⟨htk, hticked⟩
        refine ⟨key.1, ?_⟩
        rcases key.2 with h | ⟨hr, h⟩
        · exact zero _ _ h
        · obtain ⟨_, n, hall, h1, h2⟩ := hmok
          refine ⟨n + 1, ?_, ?_, ?_⟩
          · intro o ho
            simp only [logOp, List.take_succ_cons, List.mem_cons] at ho
            rcases ho with rfl | ho
            · exact htrue
            · exact hall o ho
          · intro o ho
            simp only [logOp, List.take_succ_cons, List.mem_cons] at ho
            rcases ho with rfl | ho
            · exact fun _ => (atRest_slow a w b m hm).1 hr
            · exact h1 o ho
          · show ((moved a w).slept add a.big a.dt i m).sleepTime = _
            rw [h]
            simp only [logOp, List.take_succ_cons, elapsed, List.foldr_cons, htrue, observe_dt]
            rw [if_pos trivial]
            congr 1

/-- The plain sum of the times of observations, the latest first, with the addition of the timer. -/
def timeOf (add : K → K → K) (l : List (Obs K)) : K := l.foldr (fun o t => add t o.dt) 0

theorem elapsed_counted (add : K → K → K) (l : List (Obs K)) (h : ∀ o ∈ l, o.counted = true) : elapsed add l = timeOf add l := by
  induction l with
  | nil => rfl
  | cons o l ih =>
    simp only [elapsed, timeOf, List.foldr_cons] at ih ⊢
    rw [if_pos (h o List.mem_cons_self), ih fun o ho => h o (List.mem_cons_of_mem _ ho)]

/-- **C32**, what holds without reservation: in histories with sleeping enabled at every step, a positive time before sleep and bodies that become static only with
a zero timer, a step puts a body to sleep only if every body of its island that is not static has been slow in all latest steps over
the configured time. Missing: the cases of the two disagreements below. -/
theorem sleep_needs_rest_partial (add : K → K → K) {log : Nat → List (Obs K)} {w : DW K} (h : Trace (Plain add) log w) (a : Args K)
    (ho : Plain add w (.update a)) {b : Nat} {m e : Dyn K} (hm : (moved a w).body b = some m) (hms : m.sleeping = false)
    (he : (w.update a).body b = some e) (hes : e.sleeping = true) :
    ∃ i ∈ a.islands, b ∈ i ∧ ∀ c ∈ i, ∀ d, (moved a w).body c = some d → d.type ≠ .static →
      ∃ n, (∀ o ∈ (observe a w c :: log c).take n, o.Slow) ∧ w.before ≤ timeOf add ((observe a w c :: log c).take n) := by
  obtain ⟨hsane, hon, hcov⟩ := ho
  obtain ⟨m', hm', hc⟩ := update_body hsane he
  rw [hm] at hm'; cases hm'
  rcases hc with ⟨_, rfl⟩ | ⟨hs, hns, i, hi, hbi, rfl⟩
  · rw [show m.resetForces.sleeping = m.sleeping from rfl, hms] at hes; cases hes
  · have hready : (moved a w).IslandReady add a.big a.dt i := by
      by_contra hn
      have : ((moved a w).slept add a.big a.dt i m).sleeping = m.sleeping := by
        unfold slept
        rw [if_neg hn]
        unfold ticked
        split_ifs <;> rfl
      rw [show ((moved a w).slept add a.big a.dt i m).resetForces.sleeping = ((moved a w).slept add a.big a.dt i m).sleeping from rfl, this, hms] at hes
      cases hes
    refine ⟨i, hi, hbi, fun c hc d hd hdt => ?_⟩
    obtain ⟨d0, hd0, _, _, _, hst⟩ := moved_sleepTime hd
    have hmt : ∃ n, (∀ o ∈ (log c).take n, o.counted = true) ∧ SlowFor add ((log c).take n) d.sleepTime := by
      rcases hst with h' | h'
      · rw [h']; exact (plain_timer add h c d0 hd0).2
      · rw [h']; exact ⟨0, fun o ho => (by simp at ho), slowFor_zero add⟩
    obtain ⟨n, hall, h1, h2⟩ := hmt
    rcases hready.2 c hc d hd with h3 | ⟨h3, h4⟩
    · exact absurd h3 hdt
    · refine ⟨n + 1, ?_, ?_⟩
      · intro o ho
        simp only [List.take_succ_cons, List.mem_cons] at ho
        rcases ho with rfl | ho
        · exact (atRest_slow a w c d hd).1 h3
        · exact h1 o ho (hall o ho)
      · have : timeOf add (List.take (n + 1) (observe a w c :: log c)) = add d.sleepTime a.dt := by
          simp only [List.take_succ_cons, timeOf, List.foldr_cons, observe_dt]
          rw [h2, elapsed_counted add _ hall]
          rfl
        rw [this]
        exact h4

/-! ### Where the code disagrees -/

namespace SleepExample

def args : Args ℚ where
  dt := 1
  g := none
  islands := [[0]]
  split := 0
  vels := fun _ => none
  poss := fun _ => none
  len := fun _ => 1
  add := fun a b => a + b
  big := 1000

def idt : Trans ℚ := ⟨0, Quat.one⟩

/-- A world with time before sleep 0, and a body that moves and is not allowed to sleep. -/
def hurried : DW ℚ :=
  ((((DW.empty true 1 1 1).exec (.limits 1 1 0)).exec (.create 0 idt)).exec (.call 0 (.allowed false))).exec (.call 0 (.linearVelocity ⟨5, 0, 0⟩))

/-- A body rests for one step, is fast for a step without sleeping, and rests for one step. -/
def gap1 : DW ℚ := ((DW.empty true 1 1 2).exec (.create 0 idt)).exec (.update args)
def gap2 : DW ℚ := (gap1.exec (.enableSleeping false)).exec (.call 0 (.linearVelocity ⟨5, 0, 0⟩))
def gap3 : DW ℚ := ((gap2.exec (.update args)).exec (.enableSleeping true)).exec (.call 0 (.linearVelocity 0))

def body0 (w : DW ℚ) : Dyn ℚ := (w.body 0).getD (Dyn.create idt)

/-- A body that rests for two steps. -/
def lazy1 : DW ℚ := ((DW.empty true 1 1 2).exec (.create 0 idt)).exec (.update args)

end SleepExample

open SleepExample in
/-- **C32** does not hold: `setTimeBeforeSleep(0)` puts a fast body that is not allowed to sleep to sleep. -/
theorem zero_time_sleeps : Reach Any hurried ∧ (body0 hurried).allowed = false ∧ (body0 hurried).vel = ⟨5, 0, 0⟩ ∧
    (body0 (hurried.update args)).sleeping = true := by
  refine ⟨.step _ trivial (.step _ trivial (.step _ trivial (.step _ trivial (.empty _ _ _ _)))), ?_, ?_, ?_⟩
  · decide +kernel
  · ext <;> decide +kernel
  · decide +kernel

open SleepExample in
/-- **C32** does not hold: the timer survives a time in which sleeping is disabled. The body was fast in the last step but one, the time before sleep is 2, each step
takes 1, and the body goes to sleep. -/
theorem stale_timer_sleeps : Reach Any gap3 ∧ gap3.before = 2 ∧ (body0 (gap2.update args)).vel = ⟨5, 0, 0⟩ ∧
    (body0 gap3).sleeping = false ∧ (body0 (gap3.update args)).sleeping = true := by
  refine ⟨?_, by decide +kernel, ?_, ?_, ?_⟩
  · refine .step _ trivial (.step _ trivial (.step _ trivial (.step _ trivial (.step _ trivial (.step _ trivial (.step _ trivial (.empty _ _ _ _)))))))
  · ext <;> decide +kernel
  · decide +kernel
  · decide +kernel

open SleepExample in
/-- The hypotheses of the theorems are met by a body that rests for two steps and goes to sleep. -/
example : Trace (Plain fun a b : ℚ => a + b) (logOp ((DW.empty true 1 1 2).exec (.create 0 idt)) (logOp (DW.empty true 1 1 2) (fun _ => []) (.create 0 idt)) (.update args)) lazy1 ∧
    Plain (fun a b : ℚ => a + b) lazy1 (.update args) ∧ (moved args lazy1).body 0 = some (body0 (moved args lazy1)) ∧
    (body0 (moved args lazy1)).sleeping = false ∧ (body0 (lazy1.update args)).sleeping = true := by
  have one : ∀ w : DW ℚ, (∀ b, b ≠ 0 → w.body b = none) → 0 < w.before → w.sleepOn = true → (body0 (moved args w)).disabled = false →
      Plain (fun a b : ℚ => a + b) w (.update args) := by
    intro w hw h1 h2 h3
    have none : ∀ b, b ≠ 0 → (moved args w).body b = none := fun b hb => by
      rw [moved_body, wakeIslands, mapAll]
      simp [hw b hb]
    refine ⟨⟨rfl, h1, ?_, ?_⟩, h2, ?_⟩
    · intro i hi
      simp only [args, List.mem_singleton] at hi
      subst hi
      simp
    · simp [args]
    · intro b m hm _
      by_cases hb : b = 0
      · subst hb
        have : body0 (moved args w) = m := by unfold body0; rw [hm]; rfl
        rw [this] at h3
        simp [h3, args]
      · rw [none b hb] at hm; cases hm
  have bodies : ∀ b, b ≠ 0 → ((DW.empty true 1 1 2 : DW ℚ).exec (.create 0 idt)).body b = none := fun b hb => by
    simp only [DW.exec]
    rw [upd_ne _ _ hb]; rfl
  refine ⟨.step _ (one _ bodies (by decide +kernel) rfl (by decide +kernel)) (.step _ trivial (.empty _ _ _ _)),
    one lazy1 ?_ (by decide +kernel) (by decide +kernel) (by decide +kernel), ?_, by decide +kernel, by decide +kernel⟩
  · intro b hb
    have h0 := bodies b hb
    show (DW.update args _).body b = none
    unfold DW.update
    simp only [mapAll]
    have hm : (moved args ((DW.empty true 1 1 2 : DW ℚ).exec (.create 0 idt))).body b = none := by
      rw [moved_body, wakeIslands, mapAll]
      simp [h0]
    have : (moved args ((DW.empty true 1 1 2 : DW ℚ).exec (.create 0 idt))).sleepOn = true := rfl
    rw [if_pos this, (sleep_none _ _ _ _ _ b).2 hm]
    rfl
  · have : ((moved args lazy1).body 0).isSome = true := by decide +kernel
    unfold body0
    cases h : (moved args lazy1).body 0 with
    | none => rw [h] at this; cases this
    | some p => rfl

end RP3D
