import Verif.World.Wake
import Verif.Props.Reactivate

/-!
Property theorems about the waking of bodies: C140.
-/

set_option linter.unusedSectionVars false

namespace RP3D
open World WorldSpec

namespace WakingSpec
variable {α : Type} [LinearOrder α]

/-- Collider `c` and a collider of body `n` were in contact in the last step. -/
def Touched (w : World α) (c n : Nat) : Prop := ∃ id p x, w.store.deref id = some p ∧ p.prev = true ∧
  ((p.c1 = c ∧ w.col p.c2 = some x) ∨ (p.c2 = c ∧ w.col p.c1 = some x)) ∧ x.body = n

/-- If body `n` is active and not static, it takes part in the simulation. -/
def Roused (w : World α) (n : Nat) : Prop := ∀ N, w.body n = some N → N.type ≠ .static → N.active = true → Simulated w n

/-- The positions of the body components after a call that changes the flag `disabled` of at most one body (Components.cpp:158-194): `createRigidBody` adds a
component, `setIsSleeping`, `setType` and `setIsActive` call `setBodyDisabled` with an effect at most once (RigidBody.cpp:1006-1057, 66-130, 1185-1193).  Other calls are
left out here (`none`). -/
def track (s : PWorld α) (w' : World α) : WOp α → Option (Comps Unit)
  | .createBody b => s.t.add b false ()
  | .setSleeping b _ => follow b
  | .setType b _ => follow b
  | .setActive b _ _ _ => follow b
  | .addCollider .. => some s.t
  | .update a => if a.wake = [] ∧ a.sleep = [] then some s.t else none
  | _ => none
where
  /-- One component changes sides if the flag of its body has changed. -/
  follow (b : Nat) : Option (Comps Unit) :=
    match s.w.body b, w'.body b with
    | some B, some B' => if B.disabled = B'.disabled then some s.t else s.t.setDisabled id b B'.disabled
    | _, _ => none

/-- Histories of calls with the positions of the body components. -/
inductive PHist (fat : AABB α → AABB α) (r : Rules) : PWorld α → Prop
  | init : PHist fat r ⟨World.init, Comps.empty⟩
  | step {s : PWorld α} {w' : World α} {op : WOp α} {ev : List Event} {t' : Comps Unit} (h : PHist fat r s) (hv : s.w.Valid op) (hf : s.w.Follows r op)
      (he : s.w.exec fat op = some (w', ev)) (ht : track s w' op = some t') : PHist fat r ⟨w', t'⟩

end WakingSpec
open WakingSpec

section
variable {α : Type} [LinearOrder α] {fat : AABB α → AABB α} {r : Rules} {w w' : World α} {tr : List (WOp α × List Event)} {s s' : PWorld α}

theorem PHist.hist (h : PHist fat r s) : ∃ tr, Hist fat r tr s.w := by
  induction h with
  | init => exact ⟨_, Hist.init⟩
  | step h hv hf he ht ih =>
    obtain ⟨tr, hh⟩ := ih
    exact ⟨_, Hist.step hh hv hf he⟩

/-! ### Which bodies a call touches -/

theorem setBodyDisabled_ne {b : Nat} {d : Bool} (h : w.setBodyDisabled b d = some w') {n : Nat} (hn : n ≠ b) : w'.body n = w.body n := by
  unfold setBodyDisabled at h
  split at h
  · cases h
  · split_ifs at h
    · cases h; rfl
    · rw [setColsDisabled_body h]; exact upd_ne _ _ hn

theorem setSleeping_ne {b : Nat} {v : Bool} (h : w.setSleeping b v = some w') {n : Nat} (hn : n ≠ b) : w'.body n = w.body n := by
  unfold setSleeping at h
  split at h
  · cases h
  · split at h
    · cases h; rfl
    split at h
    · cases h; rfl
    split at h
    · cases h; rfl
    split at h
    · cases h
    · rename_i h1
      have e1 := (setBodyDisabled_ne h1 hn).trans (upd_ne _ _ hn)
      split at h
      · split at h
        · cases h
        · cases h; exact e1
      · split at h
        · cases h
        · rw [foldlM_body (f := askCheck) (fun _ _ _ => askCheck_body) h]; exact e1

theorem setType_ne {b : Nat} {t : BType} (h : w.setType b t = some w') {n : Nat} (hn : n ≠ b) : w'.body n = w.body n := by
  unfold setType at h
  split at h
  · cases h
  · split at h
    · cases h; rfl
    split at h
    · cases h
    · rename_i h1
      have e1 := (setBodyDisabled_ne h1 hn).trans (upd_ne _ _ hn)
      split at h
      · cases h
      · rename_i h2
        have e2 := (setSleeping_ne h2 hn).trans e1
        split at h
        · split at h
          · cases h
          · cases h; exact e2
        · cases h; exact e2

theorem setActive_ne {b : Nat} {v : Bool} {ns : List Nat} {box : Nat → AABB α} (h : w.setActive fat b v ns box = some w') {n : Nat} (hn : n ≠ b) : w'.body n = w.body n := by
  unfold setActive at h
  split at h
  · cases h
  · split at h
    · cases h; rfl
    split at h
    · cases h
    · rename_i h1
      split at h
      · cases h
      · have e1 := setSleeping_ne h1 hn
        simp only at h
        split at h
        · rw [foldlM_body (fun _ _ _ => cdAdd_body) h]; exact (upd_ne _ _ hn).trans e1
        · rw [foldlM_body (fun _ _ _ => cdRemoveIf_body) h]; exact (upd_ne _ _ hn).trans e1

theorem addCollider_flags {b c n : Nat} {cv : Bool} {box : AABB α} (h : w.addCollider fat b c cv n box = some w') (e : Nat) :
    (w'.body e).map Body.disabled = (w.body e).map Body.disabled := by
  unfold World.addCollider at h
  cases hB : w.body b with
  | none => rw [hB] at h; cases h
  | some B =>
    rw [hB] at h
    simp only at h
    have key : w'.body = upd w.body b (some { B with cols := B.cols ++ [c], hasSim := true }) := by
      split at h
      · exact cdAdd_body h
      · cases h; rfl
    rw [key]
    by_cases he : e = b
    · subst he; rw [upd_same, hB]; rfl
    · rw [upd_ne _ _ he]

theorem updateOverlap_body {nm : Nat × Nat} (h : w.updateOverlap nm = some w') : w'.body = w.body := by
  unfold updateOverlap at h
  repeat' split at h
  all_goals first
    | (cases h; done)
    | (cases h; rfl)

theorem sweepLoop_body (k : Kind) (n : Nat) : ∀ {i : Nat} {w w' : World α}, w.sweepLoop k n i = some w' → w'.body = w.body := by
  induction n with
  | zero => intro i w w' h; cases h; rfl
  | succ n ih =>
    intro i w w' h
    unfold sweepLoop at h
    repeat' split at h
    all_goals first
      | (cases h; done)
      | exact (ih h).trans rfl

theorem broadPhase_body {nodes : List (Nat × Nat)} (h : w.broadPhase nodes = some w') : w'.body = w.body := by
  unfold broadPhase at h
  split at h
  · cases h
  · rename_i h1
    split at h
    · cases h
    · rename_i h2
      have e1 := foldlM_body (f := updateOverlap) (fun _ _ _ => updateOverlap_body) h1
      exact (sweepLoop_body _ _ h).trans ((sweepLoop_body _ _ h2).trans e1)

theorem narrow_body (ids : List Nat) : ∀ {x : World α × List CPair} {y : World α × List CPair},
    ids.foldlM process x = some y → y.1.body = x.1.body := by
  induction ids with
  | nil => intro x y h; cases h; rfl
  | cons id ids ih =>
    intro x y h
    rw [List.foldlM_cons, Option.bind_eq_bind, Option.bind_eq_some_iff] at h
    obtain ⟨z, h1, h2⟩ := h
    refine (ih h2).trans ?_
    unfold process at h1
    repeat' split at h1
    all_goals first
      | (cases h1; done)
      | (cases h1; rfl)

theorem updateCollider_body {box : Nat → AABB α} {c : Nat} (h : w.updateCollider fat box c = some w') : w'.body = w.body := by
  unfold updateCollider at h
  split at h
  · cases h
  split at h
  · cases h; rfl
  split at h
  · cases h
  simp only at h
  split at h
  · cases h; rfl
  · unfold addMoved at h
    split at h
    · cases h
    · cases h; rfl

theorem update_bodies {a : StepArgs α} {ev : List Event} (h : w.update fat a = some (w', ev)) (hw : a.wake = []) (hs : a.sleep = []) : w'.body = w.body := by
  unfold update at h
  simp only [Option.bind_eq_bind, Option.bind_eq_some_iff] at h
  obtain ⟨w1, h1, ⟨w2, ids⟩, h2, ⟨w3, cs⟩, h3, w4, h4, l, h5, ⟨w5, ev'⟩, h6, w6, h7, w7, h8, h9⟩ := h
  cases h9
  rw [hw] at h4; rw [hs] at h8
  cases h4; cases h8
  have e1 := broadPhase_body h1
  have e2 : w2.body = w1.body := by
    unfold middlePhase at h2
    split at h2
    · cases h2
    · cases h2; rfl
  have e3 : w3.body = w2.body := narrow_body _ h3
  have e4 : w5.body = w3.body := by
    unfold report at h6
    split at h6
    · cases h6; rfl
    · cases h6
  have e5 : w'.body = w5.body := foldlM_body (fun _ _ _ => updateCollider_body) h7
  rw [e5, e4, e3, e2, e1]

/-- In every history the table of positions agrees with the flags of the bodies. -/
theorem PHist.placed (h : PHist fat r s) : s.Placed := by
  induction h with
  | init => exact Comps.rep_empty
  | @step s w' op ev t' h hv hf he ht ih =>
    have hfollow : ∀ b, track.follow s w' b = some t' → (∀ n, n ≠ b → w'.body n = s.w.body n) → PWorld.Placed ⟨w', t'⟩ := by
      intro b hb hne
      unfold track.follow at hb
      split at hb
      · rename_i B B' hB hB'
        split at hb
        · rename_i e
          cases hb
          have : (fun n => (w'.body n).map fun B => ((), B.disabled)) = fun n => (s.w.body n).map fun B => ((), B.disabled) := by
            funext n
            by_cases en : n = b
            · subst en; rw [hB, hB']; simp [e]
            · rw [hne n en]
          show Comps.Rep _ s.t _
          rw [this]; exact ih
        · obtain ⟨t1, e1, e2⟩ := Comps.setDisabled_rep ih (cp := id) (fun _ => rfl) (e := b) B'.disabled (x := ()) (b := B.disabled) (by rw [hB]; rfl)
          rw [e1] at hb; cases hb
          have : (fun n => (w'.body n).map fun B => ((), B.disabled)) = fun n => if n = b then some ((), B'.disabled) else (s.w.body n).map fun B => ((), B.disabled) := by
            funext n
            by_cases en : n = b
            · subst en; rw [if_pos rfl, hB']; rfl
            · rw [if_neg en, hne n en]
          show Comps.Rep _ t' _
          rw [this]; exact e2
      · cases hb
    cases op with
    | createBody b =>
      cases he
      have hb : s.w.body b = none := hv
      obtain ⟨t1, e1, e2⟩ := Comps.add_rep ih (e := b) false () (by rw [hb]; rfl)
      have : t1 = t' := Option.some.inj (e1.symm.trans ht)
      subst this
      have : (fun n => ((s.w.createBody b).body n).map fun B => ((), B.disabled)) = fun n => if n = b then some ((), false) else (s.w.body n).map fun B => ((), B.disabled) := by
        funext n
        by_cases en : n = b
        · subst en; rw [if_pos rfl, show (s.w.createBody n).body n = _ from upd_same _ _ _]; rfl
        · rw [if_neg en, show (s.w.createBody b).body n = _ from upd_ne _ _ en]
      show Comps.Rep _ t1 _
      rw [this]; exact e2
    | setSleeping b v =>
      simp only [exec, Option.map_eq_some_iff, Prod.mk.injEq] at he
      obtain ⟨w1, h1, rfl, _⟩ := he
      exact hfollow b ht (fun n hn => setSleeping_ne h1 hn)
    | setType b t =>
      simp only [exec, Option.map_eq_some_iff, Prod.mk.injEq] at he
      obtain ⟨w1, h1, rfl, _⟩ := he
      exact hfollow b ht (fun n hn => setType_ne h1 hn)
    | setActive b v ns box =>
      simp only [exec, Option.map_eq_some_iff, Prod.mk.injEq] at he
      obtain ⟨w1, h1, rfl, _⟩ := he
      exact hfollow b ht (fun n hn => setActive_ne h1 hn)
    | addCollider b c cv n box =>
      simp only [exec, Option.map_eq_some_iff, Prod.mk.injEq] at he
      obtain ⟨w1, h1, rfl, _⟩ := he
      cases ht
      have : (fun n => (w1.body n).map fun B => ((), B.disabled)) = fun n => (s.w.body n).map fun B => ((), B.disabled) := by
        funext e
        have := congrArg (Option.map fun d => ((), d)) (addCollider_flags h1 e)
        simpa [Option.map_map, Function.comp_def] using this
      show Comps.Rep _ s.t _
      rw [this]; exact ih
    | update a =>
      change (if a.wake = [] ∧ a.sleep = [] then some s.t else none) = some t' at ht
      split at ht
      · rename_i ha
        cases ht
        have := update_bodies he ha.1 ha.2
        show Comps.Rep _ s.t (fun b => (w'.body b).map fun B => ((), B.disabled))
        rw [this]; exact ih
      · cases ht
    | _ => cases ht

/-! ### What is woken -/

theorem roused_of (h : w.Woken n) : Roused w n := fun N hN ht ha => ⟨N, hN, h N hN ht ha⟩

theorem touch_of {cfg : Cfg} {A : PMap} (h : WInv cfg w A) {c n : Nat} (ht : Touched w c n) : PWorld.Touch A w c n := by
  obtain ⟨id, p, x, h1, h2, h3, h4⟩ := ht
  obtain ⟨k, hk⟩ := pair_of_deref h h1
  obtain ⟨x1, x2, ho⟩ := h.s.pair id k p hk
  refine ⟨id, k, p, x1, x2, hk, h2, ho.c1, ho.c2, ?_⟩
  rcases h3 with ⟨e, hx⟩ | ⟨e, hx⟩
  · rw [ho.c2] at hx; cases hx; exact Or.inl ⟨e, h4⟩
  · rw [ho.c1] at hx; cases hx; exact Or.inr ⟨e, h4⟩

/-- C140: in every history, with the components of bodies in any order, destroying a body wakes all bodies that were in contact with one of its colliders.  (`m` is
the bound on the rounds of a loop: any number above the numbers of colliders of the bodies.) -/
theorem destroyed_body_wakes (h : Hist fat r tr s.w) (hp : s.Placed) {b m : Nat} {B : Body} (hB : s.w.body b = some B)
    (hm : ∀ e E, s.w.body e = some E → E.cols.length < m) (hf : s.w.Follows r (.destroyBody b [])) (he : s.destroyBody m b = some w') {c n : Nat} (hc : c ∈ B.cols)
    (ht : Touched s.w c n) : Roused w' n := by
  obtain ⟨A, hi⟩ := h.inv
  refine roused_of ((PWorld.destroyBody_woken hi.inv (fun _ h => h) hp hB hm ?_ he).1 c hc n (touch_of hi.inv ht))
  intro hl q hq
  exact ⟨(hf.1 hl B hB q hq).1, (hf.1 hl B hB q hq).2.1⟩

/-- C140 for removing a collider: in every history, with the components of bodies in any order, `removeCollider` wakes all bodies that were in contact with one of the
colliders of the body, if the body is simulated, and those that were in contact with the first collider of its list otherwise.  Missing: the other colliders of a body that is static or asleep
(`removed_collider_leaves_asleep`). -/
theorem removed_collider_wakes_partial (h : Hist fat r tr s.w) (hp : s.Placed) {b c m : Nat} {B : Body} {x : Col} (hB : s.w.body b = some B) (hx : s.w.col c = some x)
    (hb : x.body = b) (hm : ∀ e E, s.w.body e = some E → E.cols.length < m) (hf : s.w.Follows r (.removeCollider b c [])) (he : s.removeCollider m b c = some s')
    {c' n : Nat} (hc : c' ∈ B.cols) (hor : Simulated s.w b ∨ B.cols.head? = some c') (ht : Touched s.w c' n) : Roused s'.w n := by
  obtain ⟨A, hi⟩ := h.inv
  obtain ⟨A', _, g⟩ := (PWorld.removeCollider_ok hi.inv (fun _ h => h) hp hB hx hb hm hf).of_some he
  refine roused_of (g c' hc (hor.imp_left ?_) n (touch_of hi.inv ht))
  rintro ⟨B', hB', hd⟩
  rw [hB] at hB'; cases hB'
  exact hd

/-- C140: the bodies woken by `removeCollider` and by `destroyRigidBody` are among those that the model of the whole world (`World.Hist`) allows, so its theorems hold
for the code with these loops. -/
theorem removal_refines (h : Hist fat r tr s.w) (hp : s.Placed) {b m : Nat} {B : Body} (hB : s.w.body b = some B) (hm : ∀ e E, s.w.body e = some E → E.cols.length < m) :
    (∀ c x, s.w.col c = some x → x.body = b → s.w.Follows r (.removeCollider b c []) → s.removeCollider m b c = some s' →
      ∃ ws, s.w.Valid (.removeCollider b c ws) ∧ s.w.exec fat (.removeCollider b c ws) = some (s'.w, [])) ∧
    (s.w.Follows r (.destroyBody b []) → s.destroyBody m b = some w' →
      ∃ wss, wss.length = B.cols.length ∧ (∀ ws ∈ wss, ∀ n ∈ ws, ∃ N, s.w.body n = some N) ∧ s.w.exec fat (.destroyBody b wss) = some (w', [])) := by
  obtain ⟨A, hi⟩ := h.inv
  constructor
  · intro c x hx hb hf he
    obtain ⟨A', g, _⟩ := (PWorld.removeCollider_ok hi.inv (fun _ h => h) hp hB hx hb hm hf).of_some he
    obtain ⟨ws, g1, g2⟩ := g.refine
    exact ⟨ws, ⟨⟨x, hx, hb⟩, g1⟩, by simp only [exec, g2]; rfl⟩
  · intro hf he
    obtain ⟨_, wss, g1, g2, g3⟩ := PWorld.destroyBody_woken hi.inv (fun _ h => h) hp hB hm (fun hl q hq => ⟨(hf.1 hl B hB q hq).1, (hf.1 hl B hB q hq).2.1⟩) he
    exact ⟨wss, g1, g2, by simp only [exec, g3]; rfl⟩

theorem setSleeping_woken {b : Nat} (hd : ∀ B, w.body b = some B → B.disabled = true → B.type = .static ∨ B.sleeping = true) (h : w.setSleeping b false = some w') :
    w'.Woken b := by
  intro N hN ht ha
  unfold setSleeping at h
  cases hB : w.body b with
  | none => rw [hB] at h; cases h
  | some B =>
    have hdB := hd B hB
    rw [hB] at h
    simp only [Bool.false_eq_true, if_false] at h
    split at h
    · rename_i hs
      cases h
      rw [hB] at hN; cases hN
      by_contra hc
      rcases hdB (by simpa using hc) with e | e
      · exact ht e
      · rw [hs] at e; cases e
    split at h
    · rename_i hs; cases h; rw [hB] at hN; cases hN; exact absurd hs ht
    split at h
    · rename_i hs; cases h; rw [hB] at hN; cases hN; rw [hs] at ha; cases ha
    split at h
    · cases h
    · rename_i w1 h1
      split at h
      · cases h
      · rw [foldlM_body (f := askCheck) (fun _ _ _ => askCheck_body) h] at hN
        have hb' : (w.setBody b { B with sleeping := false }).body b = some { B with sleeping := false } := upd_same _ _ _
        unfold setBodyDisabled at h1
        rw [hb'] at h1
        simp only at h1
        split at h1
        · rename_i hd'
          cases h1
          have : some N = _ := hN.symm.trans hb'
          cases this
          exact hd'.symm
        · have e1 := setColsDisabled_body h1
          have : w1.body b = some { B with sleeping := false, disabled := false } := by rw [e1]; exact upd_same _ _ _
          rw [show w1.body b = some N from hN] at this
          cases this; rfl

/-- C140: in every history, destroying a joint wakes its two bodies. -/
theorem destroyed_joint_wakes (h : Hist fat r tr w) {j : Nat} {J : Jnt} (hJ : w.jnt j = some J) (he : w.destroyJoint j = some w') : Roused w' J.b1 ∧ Roused w' J.b2 := by
  obtain ⟨A, hi⟩ := h.inv
  have hne := (hi.jj.j.jnt j J hJ).1
  unfold destroyJoint at he
  rw [hJ] at he
  simp only at he
  set w0 : World α := if J.coll = true then w else w.setNoColl (bodyPair J.b1 J.b2) false with hw0
  have hb0 : w0.body = w.body := by rw [hw0]; split <;> rfl
  have hrem : ∀ {w w' : World α} {b : Nat}, w.removeJointFrom b j = some w' → Easier w w' := by
    intro w w' b hw
    unfold removeJointFrom at hw
    rw [Option.map_eq_some_iff] at hw
    obtain ⟨B, hB, rfl⟩ := hw
    exact Easier.setBody hB rfl rfl id
  cases h1 : w0.setSleeping J.b1 false with
  | none => rw [h1] at he; cases he
  | some w1 =>
    rw [h1] at he
    simp only at he
    cases h2 : w1.setSleeping J.b2 false with
    | none => rw [h2] at he; cases he
    | some w2 =>
      rw [h2] at he
      simp only at he
      cases h3 : w2.removeJointFrom J.b1 j with
      | none => rw [h3] at he; cases he
      | some w3 =>
        rw [h3] at he
        simp only at he
        cases h4 : w3.removeJointFrom J.b2 j with
        | none => rw [h4] at he; cases he
        | some w4 =>
          rw [h4] at he
          cases he
          have a1 : w1.Woken J.b1 := setSleeping_woken (fun B hB => hi.inv.d.dis _ B (by rw [← hb0]; exact hB)) h1
          have a2 : w2.Woken J.b2 := setSleeping_woken (fun B hB => hi.inv.d.dis _ B (by
            rw [setSleeping_ne h1 hne.symm, hb0] at hB; exact hB)) h2
          have c1 : Calm w2 w4 := ((hrem h3).trans (hrem h4)).calm
          exact ⟨roused_of (c1 _ ((setSleeping_false_easier h2).calm _ a1)), roused_of (c1 _ a2)⟩

/-- C140: in every history, moving a body or one of its colliders wakes the body. -/
theorem moved_body_wakes (h : Hist fat r tr w) :
    (∀ b box, w.setTransform fat b box = some w' → Roused w' b) ∧
    (∀ c x box, w.col c = some x → w.setLocalTransform fat c box = some w' → Roused w' x.body) := by
  obtain ⟨A, hi⟩ := h.inv
  constructor
  · intro b box he
    unfold World.setTransform at he
    split at he
    · cases he
    · rename_i w1 h1
      split at he
      · cases he
      · have a1 : w1.Woken b := setSleeping_woken (fun B hB => hi.inv.d.dis _ B hB) h1
        exact roused_of ((Easier.of_eq (foldlM_body (fun _ _ _ => updateCollider_body) he)).calm _ a1)
  · intro c x box hx he
    unfold World.setLocalTransform at he
    rw [hx] at he
    simp only at he
    split at he
    · cases he
    · rename_i w1 h1
      have a1 : w1.Woken x.body := setSleeping_woken (fun B hB => hi.inv.d.dis _ B hB) h1
      exact roused_of ((Easier.of_eq (updateCollider_body he)).calm _ a1)

end

/-! ### A scene: a body with two platforms, and a body on each -/

namespace WakingEx
open WEx

/-- The state after a call (the empty world if the call is undefined). -/
def go (s : PWorld Int) (op : WOp Int) : PWorld Int :=
  match s.w.exec WEx.fat op with
  | none => ⟨init, Comps.empty⟩
  | some x => ⟨x.1, (track s x.1 op).getD Comps.empty⟩

theorem PHist.go {r : Rules} {s : PWorld Int} (h : PHist WEx.fat r s) {op : WOp Int} (hv : s.w.Valid op) (hf : s.w.Follows r op)
    (he : (s.w.exec WEx.fat op).any (fun x => (track s x.1 op).isSome) = true) : PHist WEx.fat r (go s op) := by
  cases hx : s.w.exec WEx.fat op with
  | none => rw [hx] at he; cases he
  | some x =>
    rw [hx] at he
    obtain ⟨t', ht⟩ := Option.isSome_iff_exists.1 (show (track s x.1 op).isSome = true from he)
    have := PHist.step (w' := x.1) (ev := x.2) h hv hf hx ht
    simpa [WakingEx.go, hx, ht] using this

def s0 : PWorld Int := ⟨init, Comps.empty⟩
def s1 := go s0 (.createBody 0)
def s2 := go s1 (.createBody 1)
def s3 := go s2 (.createBody 2)
def s4 := go s3 (.addCollider 0 0 true 0 (cube 0))
def s5 := go s4 (.addCollider 0 1 true 1 (cube 10))
def s6 := go s5 (.addCollider 1 2 true 2 (cube 1))
def s7 := go s6 (.addCollider 2 3 true 3 (cube 11))
def aStep (s : PWorld Int) : WOp Int := .update ⟨s.w.nodesBelow 4, fun _ => true, [], [], fun _ => cube 0, []⟩
def s8 := go s7 (aStep s7)
def s9 := go s8 (.setSleeping 1 true)
def s10 := go s9 (.setSleeping 2 true)
/-- Both bodies sleep on the platforms of body 0, which is static. -/
def s11 := go s10 (.setType 0 .static)

def tree7 : Nat → Option (TObj Int) := upd (upd (upd (upd (fun _ => none) 0 (some ⟨0, WEx.fat (cube 0)⟩)) 1 (some ⟨1, WEx.fat (cube 10)⟩)) 2 (some ⟨2, WEx.fat (cube 1)⟩)) 3
  (some ⟨3, WEx.fat (cube 11)⟩)

theorem phist8 (r : Rules) : PHist WEx.fat r s8 := by
  have h0 : PHist WEx.fat r s0 := PHist.init
  have h1 := PHist.go h0 (op := .createBody 0) rfl trivial (by decide +kernel)
  have h2 := PHist.go h1 (op := .createBody 1) (none_of (o := s1.w.body 1) (by decide +kernel)) trivial (by decide +kernel)
  have h3 := PHist.go h2 (op := .createBody 2) (none_of (o := s2.w.body 2) (by decide +kernel)) trivial (by decide +kernel)
  have h4 := PHist.go h3 (op := .addCollider 0 0 true 0 (cube 0)) ⟨ex_of (o := s3.w.body 0) (by decide +kernel), none_of (o := s3.w.col 0) (by decide +kernel), by decide,
    none_of (o := s3.w.tree 0) (by decide +kernel)⟩ trivial (by decide +kernel)
  have h5 := PHist.go h4 (op := .addCollider 0 1 true 1 (cube 10)) ⟨ex_of (o := s4.w.body 0) (by decide +kernel), none_of (o := s4.w.col 1) (by decide +kernel), by decide,
    none_of (o := s4.w.tree 1) (by decide +kernel)⟩ trivial (by decide +kernel)
  have h6 := PHist.go h5 (op := .addCollider 1 2 true 2 (cube 1)) ⟨ex_of (o := s5.w.body 1) (by decide +kernel), none_of (o := s5.w.col 2) (by decide +kernel), by decide,
    none_of (o := s5.w.tree 2) (by decide +kernel)⟩ trivial (by decide +kernel)
  have h7 := PHist.go h6 (op := .addCollider 2 3 true 3 (cube 11)) ⟨ex_of (o := s6.w.body 2) (by decide +kernel), none_of (o := s6.w.col 3) (by decide +kernel), by decide,
    none_of (o := s6.w.tree 3) (by decide +kernel)⟩ trivial (by decide +kernel)
  refine PHist.go h7 (op := aStep s7) ⟨nodesBelow_ok ?_, by simp, by simp⟩ trivial (by decide +kernel)
  intro n hn
  show tree7 n = none
  rw [tree7, upd_ne _ _ (by omega), upd_ne _ _ (by omega), upd_ne _ _ (by omega), upd_ne _ _ (by omega)]

theorem phist11 (r : Rules) : PHist WEx.fat r s11 := by
  have h9 := PHist.go (phist8 r) (op := .setSleeping 1 true) (ex_of (o := s8.w.body 1) (by decide +kernel)) trivial (by decide +kernel)
  have h10 := PHist.go h9 (op := .setSleeping 2 true) (ex_of (o := s9.w.body 2) (by decide +kernel)) trivial (by decide +kernel)
  refine PHist.go h10 (op := .setType 0 .static) (ex_of (o := s10.w.body 0) (by decide +kernel)) ?_ (by decide +kernel)
  intro _ B hB ht
  have hb : s10.w.body 0 = some ⟨.dynamic, true, false, false, [0, 1], true, []⟩ := by decide +kernel
  rw [show (go (go s8 (.setSleeping 1 true)) (.setSleeping 2 true)) = s10 from rfl, hb] at hB
  cases hB
  cases ht


theorem hist11 (r : Rules) : ∃ tr, Hist WEx.fat r tr s11.w := PHist.hist (phist11 r)

theorem touched {w : World Int} {c n : Nat} (id : Nat)
    (h : (w.store.deref id).any (fun p => p.prev && ((decide (p.c1 = c) && (w.col p.c2).any (fun x => decide (x.body = n))) ||
      (decide (p.c2 = c) && (w.col p.c1).any (fun x => decide (x.body = n))))) = true) : Touched w c n := by
  have any {β : Type} {o : Option β} {f : β → Bool} (h : o.any f = true) : ∃ a, o = some a ∧ f a = true := by
    cases o with
    | none => cases h
    | some a => exact ⟨a, rfl, h⟩
  obtain ⟨p, hp, h1⟩ := any h
  simp only [Bool.and_eq_true, Bool.or_eq_true, decide_eq_true_eq] at h1
  obtain ⟨hprev, ⟨hc, hx⟩ | ⟨hc, hx⟩⟩ := h1
  · obtain ⟨x, ex, hb⟩ := any hx
    exact ⟨id, p, x, hp, hprev, Or.inl ⟨hc, ex⟩, of_decide_eq_true hb⟩
  · obtain ⟨x, ex, hb⟩ := any hx
    exact ⟨id, p, x, hp, hprev, Or.inr ⟨hc, ex⟩, of_decide_eq_true hb⟩

/-- No body of the scene has three colliders. -/
theorem short : ∀ e E, s11.w.body e = some E → E.cols.length < 3 := by
  intro e E hE
  by_cases h : e < 3
  · have : ∀ e < 3, (s11.w.body e).all (fun E => decide (E.cols.length < 3)) = true := by decide +kernel
    have := this e h
    rw [hE] at this
    exact of_decide_eq_true this
  · exfalso
    have h0 : e ≠ 0 := by omega
    have h1 : e ≠ 1 := by omega
    have h2 : e ≠ 2 := by omega
    have : s11.w.body e = none := by
      show upd (upd (upd (upd (upd (upd (upd (upd (upd (upd (upd (upd (upd (fun _ => none) 0 _) 1 _) 2 _) 0 _) 0 _) 1 _) 2 _) 1 _) 1 _) 2 _) 2 _) 0 _) 0 _ e = none
      simp only [upd_ne _ _ h0, upd_ne _ _ h1, upd_ne _ _ h2]
    rw [this] at hE; cases hE


theorem short8 : ∀ e E, s8.w.body e = some E → E.cols.length < 3 := by
  intro e E hE
  by_cases h : e < 3
  · have : ∀ e < 3, (s8.w.body e).all (fun E => decide (E.cols.length < 3)) = true := by decide +kernel
    have := this e h
    rw [hE] at this
    exact of_decide_eq_true this
  · exfalso
    have h0 : e ≠ 0 := by omega
    have h1 : e ≠ 1 := by omega
    have h2 : e ≠ 2 := by omega
    have : s8.w.body e = none := by
      show upd (upd (upd (upd (upd (upd (upd (fun _ => none) 0 _) 1 _) 2 _) 0 _) 0 _) 1 _) 2 _ e = none
      simp only [upd_ne _ _ h0, upd_ne _ _ h1, upd_ne _ _ h2]
    rw [this] at hE; cases hE

/-- The state after the second platform is removed. -/
def s12 : PWorld Int := (s11.removeCollider 3 0 1).getD s0

theorem isSome_getD {β : Type} {o : Option β} {d : β} (h : o.isSome = true) : o = some (o.getD d) := by
  cases o with
  | none => cases h
  | some a => rfl

theorem e12 : s11.removeCollider 3 0 1 = some s12 := isSome_getD (by decide +kernel)

/-- Both bodies touch the platforms and sleep. -/
theorem scene : Touched s11.w 0 1 ∧ Touched s11.w 1 2 ∧ s11.w.body 1 = some ⟨.dynamic, true, true, true, [2], true, []⟩ ∧
    s11.w.body 2 = some ⟨.dynamic, true, true, true, [3], true, []⟩ ∧ s11.w.body 0 = some ⟨.static, true, false, true, [0, 1], true, []⟩ :=
  ⟨touched 6 (by decide +kernel), touched 13 (by decide +kernel), by decide +kernel, by decide +kernel, by decide +kernel⟩

theorem noLost : s11.w.lost = [] := by decide +kernel

theorem noJoint (j : Nat) : s11.w.jnt j = none := rfl

/-- The state after the body with the platforms is made inactive. -/
def s13 : PWorld Int := go s11 (.setActive 0 false [] fun _ => cube 0)

/-- A joint between two bodies that sleep. -/
def j0 := WEx.next init (.createBody 0)
def j1 := WEx.next j0 (.createBody 1)
def j2 := WEx.next j1 (.createJoint 0 0 1 true)
def j3 := WEx.next j2 (.setSleeping 0 true)
def j4 := WEx.next j3 (.setSleeping 1 true)

end WakingEx
open WakingEx WEx

/-- C140, what does not hold: body 0 is static and has two platforms, bodies 1 and 2 sleep on them; removing the platform under body 2 wakes body 1, and body 2
sleeps on.  (Waking body 1 moves the components of the bodies, and the loop goes on with the list of colliders of the body that has taken the place of body 0.) -/
theorem removed_collider_leaves_asleep (r : Rules) :
    ∃ s s' : PWorld Int, PHist WEx.fat r s ∧ s.removeCollider 3 0 1 = some s' ∧ (∀ e E, s.w.body e = some E → E.cols.length < 3) ∧
      Touched s.w 1 2 ∧ Simulated s'.w 1 ∧ ¬ Roused s'.w 2 := by
  refine ⟨s11, s12, phist11 r, e12, short, scene.2.1, ⟨⟨.dynamic, true, false, false, [2], true, []⟩, by decide +kernel, rfl⟩, ?_⟩
  have h2 : s12.w.body 2 = some ⟨.dynamic, true, true, true, [3], true, []⟩ := by decide +kernel
  intro h
  obtain ⟨N, hN, hd⟩ := h _ h2 (by simp) rfl
  rw [h2] at hN; cases hN
  cases hd

/-- C140, what does not hold: making a body inactive (`setIsActive(false)`) takes its colliders away, and the bodies that sleep on it sleep on. -/
theorem deactivated_body_leaves_asleep (r : Rules) :
    ∃ s s' : PWorld Int, PHist WEx.fat r s ∧ s.w.exec WEx.fat (.setActive 0 false [] fun _ => cube 0) = some (s'.w, []) ∧ PHist WEx.fat r s' ∧
      Touched s.w 0 1 ∧ Touched s.w 1 2 ∧ (∀ c n, c < 4 → ¬ Touched s'.w c n) ∧ ¬ Roused s'.w 1 ∧ ¬ Roused s'.w 2 := by
  have hh : PHist WEx.fat r s13 := PHist.go (phist11 r) (op := .setActive 0 false [] fun _ => cube 0)
    ⟨_, scene.2.2.2.2, by simp⟩ trivial (by decide +kernel)
  have h1 : s13.w.body 1 = some ⟨.dynamic, true, true, true, [2], true, []⟩ := by decide +kernel
  have h2 : s13.w.body 2 = some ⟨.dynamic, true, true, true, [3], true, []⟩ := by decide +kernel
  refine ⟨s11, s13, phist11 r, ?_, hh, scene.1, scene.2.1, ?_, ?_, ?_⟩
  · show exec WEx.fat s11.w _ = some ((go s11 _).w, [])
    have hx : ((s11.w.exec WEx.fat (.setActive 0 false [] fun _ => cube 0)).map Prod.snd) = some [] := by decide +kernel
    unfold WakingEx.go
    obtain ⟨⟨y1, y2⟩, hy, e⟩ := Option.map_eq_some_iff.1 hx
    rw [hy]
    cases e
    rfl
  · intro c n hc ht
    obtain ⟨tr, hist⟩ := PHist.hist hh
    obtain ⟨A, hi⟩ := hist.inv
    obtain ⟨id, k, p, x1, x2, hA, -, -, -, hor⟩ := touch_of hi.inv ht
    have hm : id ∈ s13.w.store.own c := (hi.inv.rep.own c id).2 ⟨k, p, hA, hor.imp (fun h => h.1) (fun h => h.1)⟩
    have : ∀ c < 4, s13.w.store.own c = [] := by decide +kernel
    rw [this c hc] at hm
    cases hm
  · intro h
    obtain ⟨N, hN, hd⟩ := h _ h1 (by simp) rfl
    rw [h1] at hN; cases hN
    cases hd
  · intro h
    obtain ⟨N, hN, hd⟩ := h _ h2 (by simp) rfl
    rw [h2] at hN; cases hN
    cases hd

/-- The hypotheses of the theorems above are met: both bodies sleep on the platforms. -/
example : Roused ((s11.destroyBody 3 0).getD init) 1 ∧ Roused ((s11.destroyBody 3 0).getD init) 2 := by
  obtain ⟨tr, h⟩ := hist11 WEx.all
  have hp := PHist.placed (phist11 WEx.all)
  have he : s11.destroyBody 3 0 = some ((s11.destroyBody 3 0).getD init) := isSome_getD (by decide +kernel)
  have hf : s11.w.Follows WEx.all (.destroyBody 0 []) := ⟨fun _ B hB q hq => absurd hq (by rw [noLost]; simp), fun _ j J hJ => absurd hJ (by rw [noJoint]; simp)⟩
  exact ⟨destroyed_body_wakes h hp scene.2.2.2.2 short hf he (c := 0) (by simp) scene.1,
    destroyed_body_wakes h hp scene.2.2.2.2 short hf he (c := 1) (by simp) scene.2.1⟩

example : Roused s12.w 1 := by
  obtain ⟨tr, h⟩ := hist11 WEx.all
  have hf : s11.w.Follows WEx.all (.removeCollider 0 1 []) := fun _ q hq => absurd hq (by rw [noLost]; simp)
  exact removed_collider_wakes_partial h (PHist.placed (phist11 WEx.all)) scene.2.2.2.2 (c := 1) (x := ⟨0, some 1, true, 1, 65535, false, true, true, true, false⟩) (by decide +kernel) rfl short hf e12 (c' := 0) (by simp)
    (Or.inr rfl) scene.1

/-- A simulated body with a collider removed: the body in contact with the other one is woken (it was not asleep). -/
example : Roused ((s8.removeCollider 3 0 0).getD s0).w 2 := by
  obtain ⟨tr, h⟩ := PHist.hist (phist8 WEx.all)
  have hb : s8.w.body 0 = some ⟨.dynamic, true, false, false, [0, 1], true, []⟩ := by decide +kernel
  have hl : s8.w.lost = [] := by decide +kernel
  exact removed_collider_wakes_partial h (PHist.placed (phist8 WEx.all)) hb (c := 0) (x := ⟨0, some 0, true, 1, 65535, false, true, true, false, false⟩) (by decide +kernel) rfl short8
    (fun _ q hq => absurd hq (by rw [hl]; simp)) (isSome_getD (by decide +kernel)) (c' := 1) (by simp) (Or.inl ⟨_, hb, rfl⟩) (touched 13 (by decide +kernel))

/-- Two sleeping bodies and a joint. -/
theorem WakingEx.histJ (r : Rules) : ∃ tr, Hist WEx.fat r tr j4 := by
  have h1 : Hist WEx.fat r _ j0 := WEx.Hist.next Hist.init (op := .createBody 0) rfl trivial (by decide +kernel)
  have h2 := WEx.Hist.next h1 (op := .createBody 1) (none_of (o := j0.body 1) (by decide +kernel)) trivial (by decide +kernel)
  have h3 := WEx.Hist.next h2 (op := .createJoint 0 0 1 true) ⟨by decide, ex_of (o := j1.body 0) (by decide +kernel), ex_of (o := j1.body 1) (by decide +kernel), rfl⟩ trivial (by decide +kernel)
  have h4 := WEx.Hist.next h3 (op := .setSleeping 0 true) (ex_of (o := j2.body 0) (by decide +kernel)) trivial (by decide +kernel)
  have h5 := WEx.Hist.next h4 (op := .setSleeping 1 true) (ex_of (o := j3.body 1) (by decide +kernel)) trivial (by decide +kernel)
  exact ⟨_, h5⟩

example : Roused ((j4.destroyJoint 0).getD init) 0 ∧ Roused ((j4.destroyJoint 0).getD init) 1 ∧ ¬ Roused j4 0 := by
  obtain ⟨tr, h⟩ := histJ WEx.all
  have hj : j4.jnt 0 = some ⟨0, 1, true⟩ := by decide +kernel
  obtain ⟨a, b⟩ := destroyed_joint_wakes h hj (isSome_getD (d := init) (by decide +kernel))
  refine ⟨a, b, ?_⟩
  have hb : j4.body 0 = some ⟨.dynamic, true, true, true, [], false, [0]⟩ := by decide +kernel
  intro hr
  obtain ⟨N, hN, hd⟩ := hr _ hb (by simp) rfl
  rw [hb] at hN; cases hN
  cases hd

example : Roused ((j4.setTransform WEx.fat 0 fun _ => cube 0).getD init) 0 := by
  obtain ⟨tr, h⟩ := histJ WEx.all
  exact (moved_body_wakes h).1 0 _ (isSome_getD (d := init) (by decide +kernel))

end RP3D
