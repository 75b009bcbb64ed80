import Verif.Engine.ComponentsLemmas

/-! Property theorems C14 and C59: component tables. -/

namespace RP3D
open Comps

/-- **C14.** For every history of additions, removals, enabling, disabling and writes, every lookup returns what a finite
map from entities to (data, disabled flag) would, no operation is undefined, and
the slots below the number of components are exactly the occupied ones, the enabled components
being those in the first `ds` (`getNbEnabledComponents`) slots. `obs` is any observation of the data that `swapComponents`
does not change (the identity for all tables but the hinge and slider ones). -/
theorem components_refine_map {D X : Type} (obs : D → X) (cp : D → D) (hcp : ∀ d, obs (cp d) = obs d)
    (ops : List (Comps.Op D)) (f : Nat → Option (X × Bool))
    (h : CompsSpec.run obs (fun _ => none) ops = some f) :
    ∃ c : Comps D, Comps.run cp Comps.empty ops = some c ∧
      (∀ e, c.has e = (f e).isSome) ∧
      (∀ e, (c.getData e).map obs = (f e).map Prod.fst) ∧
      (∀ e, c.isDisabled e = (f e).map Prod.snd) ∧
      c.ds ≤ c.nb ∧ c.nb ≤ c.cap ∧
      (∀ i, i < c.nb ↔ ∃ e d, c.slots i = some (e, d)) ∧
      (∀ i e d, c.slots i = some (e, d) → (f e = some (obs d, true) ↔ c.ds ≤ i)) := by
  obtain ⟨c, hc, hr⟩ := run_rep hcp ops (rep_empty (D := D) (obs := obs)) h
  have hnone : ∀ e, f e = none → c.map e = none := by
    intro e he
    cases hm : c.map e with
    | none => rfl
    | some i =>
      obtain ⟨d, hd⟩ := (hr.rep.core e i).1 hm
      have := (hr.rep.spec e _ _).2 ⟨i, d, hd, rfl, rfl⟩
      rw [he] at this; cases this
  refine ⟨c, hc, ?_, ?_, ?_, hr.ds, hr.nb, ?_, ?_⟩
  · intro e
    cases he : f e with
    | none => simp [has, hnone e he]
    | some v =>
      obtain ⟨i, d, hm, _⟩ := map_of_f hr (x := v.1) (b := v.2) he
      simp [has, hm]
  · intro e
    cases he : f e with
    | none => simp [getData, hnone e he]
    | some v =>
      obtain ⟨i, d, hm, hs, hx, _⟩ := map_of_f hr (x := v.1) (b := v.2) he
      simp [getData, hm, hs, hx]
  · intro e
    cases he : f e with
    | none => simp [isDisabled, hnone e he]
    | some v =>
      obtain ⟨i, d, hm, hs, _, hb, _⟩ := map_of_f hr (x := v.1) (b := v.2) he
      simp [isDisabled, hm, hb]
  · intro i
    rw [hr.rep.occ i]
    constructor
    · intro hne
      cases hs : c.slots i with
      | none => exact absurd hs hne
      | some p => exact ⟨p.1, p.2, rfl⟩
    · rintro ⟨e, d, hs⟩; rw [hs]; simp
  · intro i e d hs
    have := (hr.rep.spec e _ _).2 ⟨i, d, hs, rfl, rfl⟩
    rw [this]
    simp

/-- A history with growth-free swaps and moves in all four branches. -/
example : ∃ f, CompsSpec.run (id : Nat → Nat) (fun _ => none)
    [.add 7 false 70, .add 8 true 80, .add 9 false 90, .setDisabled 7 true, .setDisabled 8 false, .remove 9] = some f ∧
    f 7 = some (70, true) ∧ f 8 = some (80, false) ∧ f 9 = none := ⟨_, rfl, rfl, rfl, rfl⟩

/-- **C59 (violated).** Disabling a hinge (or slider) joint can change a stored value: with two enabled
joints, disabling the first one overwrites the bias `mBUpperLimit` of its upper limit by the limit itself. -/
theorem hinge_disable_changes_data :
    ∃ (d1 d2 : HingeData) (c : Comps HingeData),
      Comps.run HingeData.swapCopy Comps.empty [.add 1 false d1, .add 2 false d2, .setDisabled 1 true] = some c ∧
      c.getData 1 ≠ some d1 := by
  refine ⟨⟨5, 3, 0⟩, ⟨0, 0, 0⟩, ?_⟩
  refine ⟨_, rfl, by decide⟩

/-- **C59, partial.** All the other columns of a hinge or slider joint are unaffected: for every history, the data without
`bUpperLimit` are those of the finite map. Missing: `bUpperLimit` itself, for which the property fails. -/
theorem hinge_columns_preserved_partial (ops : List (Comps.Op HingeData)) (f : Nat → Option ((Int × Int) × Bool))
    (h : CompsSpec.run (fun d : HingeData => (d.upperLimit, d.others)) (fun _ => none) ops = some f) :
    ∃ c : Comps HingeData, Comps.run HingeData.swapCopy Comps.empty ops = some c ∧
      ∀ e, (c.getData e).map (fun d => (d.upperLimit, d.others)) = (f e).map Prod.fst := by
  obtain ⟨c, h1, _, h2, _⟩ := components_refine_map (fun d : HingeData => (d.upperLimit, d.others)) HingeData.swapCopy
    (fun _ => rfl) ops f h
  exact ⟨c, h1, h2⟩

example : ∃ f, CompsSpec.run (fun d : HingeData => (d.upperLimit, d.others)) (fun _ => none)
    [.add 1 false ⟨5, 3, 0⟩, .add 2 false ⟨0, 0, 0⟩, .setDisabled 1 true] = some f ∧ f 1 = some ((3, 0), true) :=
  ⟨_, rfl, rfl⟩

end RP3D
