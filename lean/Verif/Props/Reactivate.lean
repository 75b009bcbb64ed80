import Verif.Props.World

/-!
Property theorems about deactivating and reactivating a body: C34.
-/

set_option linter.unusedSectionVars false

namespace RP3D
open World WorldSpec

section
variable {α : Type} [LinearOrder α] {fat : AABB α → AABB α} {r : Rules} {w w' : World α} {tr : List (WOp α × List Event)}

theorem removeOverlap_body {id : Nat} {n : Bool} (he : w.removeOverlap id n = some w') : w'.body = w.body := by
  unfold removeOverlap at he
  split at he
  · cases he
  split at he
  · cases he
  split at he
  · cases he
  · cases he; rfl

theorem dropPairs_body {c m : Nat} (he : w.dropPairs c m = some w') : w'.body = w.body := by
  induction m generalizing w with
  | zero =>
    unfold dropPairs at he
    split at he
    · cases he; rfl
    · cases he
  | succ m ih =>
    unfold dropPairs at he
    split at he
    · cases he; rfl
    · split at he
      · cases he
      · rename_i h1
        exact (ih he).trans (removeOverlap_body h1)

theorem cdRemoveIf_body {c : Nat} (he : w.cdRemoveIf c = some w') : w'.body = w.body := by
  unfold cdRemoveIf at he
  split at he
  · cases he
  split at he
  · cases he; rfl
  unfold cdRemove at he
  split at he
  · cases he
  rename_i h1
  split at he
  · cases he
  split at he
  · cases he
  · cases he
    have := dropPairs_body h1
    exact this

theorem cdAdd_body {c n : Nat} {box : AABB α} (he : w.cdAdd fat c n box = some w') : w'.body = w.body := by
  unfold cdAdd at he
  split at he
  · cases he
  split at he
  · cases he
  rename_i w1 h1
  have e1 : w1.body = w.body := by
    unfold addMoved at h1
    split at h1
    · cases h1
    · cases h1; rfl
  split at he
  · cases he
  · cases he; exact e1

theorem foldlM_body {γ : Type} {f : World α → γ → Option (World α)} (hf : ∀ w x w', f w x = some w' → w'.body = w.body) {l : List γ}
    (he : l.foldlM f w = some w') : w'.body = w.body := by
  induction l generalizing w with
  | nil => cases he; rfl
  | cons x l ih =>
    rw [List.foldlM_cons] at he
    cases h1 : f w x with
    | none => rw [h1] at he; cases he
    | some w1 =>
      rw [h1] at he
      exact (ih he).trans (hf _ _ _ h1)

/-- Deactivating an active body that is not static puts it to sleep and excludes it from the simulation. -/
theorem deactivated_body (h : Hist fat r tr w) {b : Nat} {B : Body} (hB : w.body b = some B) (ha : B.active = true) (ht : B.type ≠ .static)
    {ns : List Nat} {box : Nat → AABB α} (he : w.setActive fat b false ns box = some w') :
    w'.body b = some { B with active := false, sleeping := true, disabled := if B.sleeping then B.disabled else true } := by
  obtain ⟨A, hi⟩ := h.inv
  obtain ⟨w1, A1, e1, _, _, _, _, _, hb⟩ := setSleeping_true_ok hi.inv hB
  unfold setActive at he
  simp only [hB, ha, Bool.not_false, e1, Bool.true_eq_false, if_false, hb, Bool.false_eq_true] at he
  rw [foldlM_body (fun _ _ _ => cdRemoveIf_body) he]
  show upd w1.body b _ b = _
  rw [upd_same]
  obtain ⟨t, a, sl, d, cs, hs, js⟩ := B
  simp only at ha ht
  subst ha
  cases sl <;> simp [ht]

/-- Activating an inactive body changes nothing but the active flag: in particular the body is not woken, since `setIsSleeping(false)` is called before the flag is
set (RigidBody.cpp:1185-1193) and does nothing for an inactive body (RigidBody.cpp:1016). -/
theorem activated_body {b : Nat} {B : Body} (hB : w.body b = some B) (ha : B.active = false) {ns : List Nat} {box : Nat → AABB α}
    (he : w.setActive fat b true ns box = some w') : w'.body b = some { B with active := true } := by
  have e : w.setSleeping b false = some w := by
    unfold World.setSleeping
    simp only [hB, ha]
    split
    · rfl
    · split <;> rfl
  unfold setActive at he
  simp only [hB, ha, Bool.not_true, e, if_true, Bool.false_eq_true, if_false] at he
  rw [foldlM_body (fun _ _ _ => cdAdd_body) he]
  exact upd_same _ _ _

/-- C34 does not hold: whatever the history, an awake body that is not static is asleep and excluded from the simulation after it has been deactivated and
activated again. -/
theorem reactivated_body_asleep (h : Hist fat r tr w) {b : Nat} {B : Body} (hB : w.body b = some B) (ha : B.active = true) (ht : B.type ≠ .static)
    (hs : B.sleeping = false) {ns ns' : List Nat} {box box' : Nat → AABB α} {w1 w2 : World α} (h1 : w.setActive fat b false ns box = some w1)
    (h2 : w1.setActive fat b true ns' box' = some w2) : ¬ Simulated w2 b ∧ w2.body b = some { B with sleeping := true, disabled := true } := by
  have g1 := deactivated_body h hB ha ht h1
  have g2 := activated_body g1 rfl h2
  simp only [hs, Bool.false_eq_true, if_false] at g2
  have g3 : w2.body b = some { B with sleeping := true, disabled := true } := by
    rw [g2]
    obtain ⟨t, a, sl, d, cs, hh, js⟩ := B
    simp only at ha
    subst ha
    rfl
  refine ⟨?_, g3⟩
  rintro ⟨B', hB', hd⟩
  rw [g3] at hB'
  cases hB'
  cases hd

/-- C34, if the user wakes the body explicitly after activating it: in every history, `setIsSleeping(false)` on a sleeping, active body that is not static makes it
take part in the simulation.  Missing: that `setIsActive(true)` alone does so (`reactivated_body_asleep`). -/
theorem woken_body_simulated_partial (h : Hist fat r tr w) {b : Nat} {B : Body} (hB : w.body b = some B) (ha : B.active = true) (ht : B.type ≠ .static)
    (hs : B.sleeping = true) (he : w.setSleeping b false = some w') : Simulated w' b := by
  obtain ⟨A, hi⟩ := h.inv
  obtain ⟨A', _, _, _, _, _, hb⟩ := (setSleeping_false_ok (hi.inv.addEx b) hB (fun _ => hi.inv)).of_some he
  refine ⟨_, hb, ?_⟩
  rw [if_neg (by simp [ha, ht])]
  simp [hs]

/-- C34: in every history, an inactive body has no pair and is not in the tree, so it is in no contact. -/
theorem inactive_body_no_pairs (h : Hist fat r tr w) {b : Nat} {B : Body} (hB : w.body b = some B) (ha : B.active = false) :
    ∀ c ∈ B.cols, ∃ x, w.col c = some x ∧ x.bp = none ∧ ∀ c', ¬ HasPair w c c' := (static_or_inactive_excluded h hB).2 ha

end

namespace WEx

/-- Body 1 is deactivated and activated again. -/
def g1 := next w5 (.setActive 1 false [] fun _ => cube 0)
def g2 := next g1 (.setActive 1 true [1] fun _ => cube 0)

/-- The hypotheses of `reactivated_body_asleep` can be met, and the body stays asleep. -/
example : ∃ tr B W1 W2, Hist WEx.fat all tr w5 ∧ w5.body 1 = some B ∧ B.active = true ∧ B.type ≠ .static ∧ B.sleeping = false ∧
    w5.setActive WEx.fat 1 false [] (fun _ => cube 0) = some W1 ∧ W1.setActive WEx.fat 1 true [1] (fun _ => cube 0) = some W2 ∧ ¬ Simulated W2 1 := by
  obtain ⟨tr, h⟩ := hist5 all
  obtain ⟨W1, e1⟩ := ex_of (o := w5.setActive WEx.fat 1 false [] (fun _ => cube 0)) (by decide +kernel)
  have hg : W1 = g1 := by
    simp [g1, next, exec, e1]
  obtain ⟨W2, e2⟩ := ex_of (o := g1.setActive WEx.fat 1 true [1] (fun _ => cube 0)) (by decide +kernel)
  rw [← hg] at e2
  have hb : w5.body 1 = some ⟨.dynamic, true, false, false, [1], true, []⟩ := by decide +kernel
  exact ⟨tr, _, W1, W2, h, hb, rfl, by decide, rfl, e1, e2, (reactivated_body_asleep h hb rfl (by decide) rfl e1 e2).1⟩

def g3 := next g1 (.setType 1 .kinematic)

end WEx
open WEx

/-- C34 does not hold either while the body is inactive: `setType` on an inactive body makes it take part in the simulation (RigidBody.cpp:111 calls
`setBodyDisabled(false)` without looking at the active flag), so that its velocity is integrated. -/
theorem inactive_body_simulated : ∃ tr w B, Hist WEx.fat free tr w ∧ w.body 1 = some B ∧ B.active = false ∧ Simulated w 1 := by
  obtain ⟨tr, h⟩ := hist5 free
  have hb : w5.body 1 = some ⟨.dynamic, true, false, false, [1], true, []⟩ := by decide +kernel
  have h1 := Hist.next h (op := .setActive 1 false [] fun _ => cube 0) ⟨_, hb, by simp⟩ (follows_free _ _) (by decide +kernel)
  have h2 := Hist.next h1 (op := .setType 1 .kinematic) (ex_of (o := g1.body 1) (by decide +kernel)) (follows_free _ _) (by decide +kernel)
  have hb' : g3.body 1 = some ⟨.kinematic, false, true, false, [1], true, []⟩ := by decide +kernel
  exact ⟨_, g3, _, h2, hb', rfl, _, hb', rfl⟩

end RP3D
