import Verif.World.Hist

/-!
The flag `mHasSimulationCollider` of the bodies over histories: every call except those that create a body or a collider or make a
collider a simulation collider keeps the flags that are set and adds no simulation collider.
-/

set_option linter.unusedSectionVars false

namespace RP3D
namespace World
variable {α : Type} [LinearOrder α]

/-- No flag is cleared and no collider becomes a simulation collider. -/
structure Keeps (w w' : World α) : Prop where
  body : ∀ b B', w'.body b = some B' → ∃ B, w.body b = some B ∧ (B.hasSim = true → B'.hasSim = true)
  col : ∀ c x', w'.col c = some x' → ∃ x, w.col c = some x ∧ x'.body = x.body ∧ (x'.sim = true → x.sim = true)

variable {w w' w1 w2 : World α}

theorem Keeps.of_eq (hb : w'.body = w.body) (hc : w'.col = w.col) : Keeps w w' := by
  refine ⟨?_, ?_⟩
  · intro b B' h
    rw [hb] at h
    exact ⟨B', h, id⟩
  · intro c x' h
    rw [hc] at h
    exact ⟨x', h, rfl, id⟩

theorem Keeps.refl (w : World α) : Keeps w w := .of_eq rfl rfl

theorem Keeps.trans (h1 : Keeps w w1) (h2 : Keeps w1 w2) : Keeps w w2 := by
  refine ⟨?_, ?_⟩
  · intro b B' h
    obtain ⟨B, hB, hs⟩ := h2.body b B' h
    obtain ⟨B0, hB0, hs0⟩ := h1.body b B hB
    exact ⟨B0, hB0, hs ∘ hs0⟩
  · intro c x' h
    obtain ⟨x, hx, hb, hs⟩ := h2.col c x' h
    obtain ⟨x0, hx0, hb0, hs0⟩ := h1.col c x hx
    exact ⟨x0, hx0, hb.trans hb0, hs0 ∘ hs⟩

theorem Keeps.pre (h : Keeps w1 w2) (hb : w1.body = w.body) (hc : w1.col = w.col) : Keeps w w2 := (Keeps.of_eq hb hc).trans h

theorem Keeps.setBody {b : Nat} {B B' : Body} (hB : w.body b = some B) (hs : B.hasSim = true → B'.hasSim = true) : Keeps w (w.setBody b B') := by
  refine ⟨?_, fun c x' h => ⟨x', h, rfl, id⟩⟩
  intro b' B1 h
  by_cases he : b' = b
  · subst he
    have : some B' = some B1 := (upd_same _ _ _).symm.trans h
    cases this
    exact ⟨B, hB, hs⟩
  · exact ⟨B1, (upd_ne _ _ he).symm.trans h, id⟩

theorem Keeps.setCol {c : Nat} {x x' : Col} (hx : w.col c = some x) (hb : x'.body = x.body) (hs : x'.sim = true → x.sim = true) : Keeps w (w.setCol c x') := by
  refine ⟨fun b B' h => ⟨B', h, id⟩, ?_⟩
  intro c' x1 h
  by_cases he : c' = c
  · subst he
    have : some x' = some x1 := (upd_same _ _ _).symm.trans h
    cases this
    exact ⟨x, hx, hb, hs⟩
  · exact ⟨x1, (upd_ne _ _ he).symm.trans h, rfl, id⟩

theorem Keeps.foldlM {β : Type} {f : World α → β → Option (World α)} (hf : ∀ w a w', f w a = some w' → Keeps w w') :
    ∀ (l : List β) (w w' : World α), l.foldlM f w = some w' → Keeps w w'
  | [], w, w', h => by
    simp only [List.foldlM_nil] at h
    cases h
    exact Keeps.refl w
  | a :: l, w, w', h => by
    simp only [List.foldlM_cons, Option.bind_eq_bind] at h
    obtain ⟨w1, h1, h2⟩ := Option.bind_eq_some_iff.1 h
    exact (hf _ _ _ h1).trans (Keeps.foldlM hf l w1 w' h2)

theorem addMoved_keeps {n c : Nat} (h : w.addMoved n c = some w') : Keeps w w' := by
  unfold addMoved at h
  split at h
  · exact absurd h (by simp)
  · cases h; exact .of_eq rfl rfl

theorem askCheck_keeps {c : Nat} (h : w.askCheck c = some w') : Keeps w w' := by
  unfold askCheck at h
  split at h
  · exact absurd h (by simp)
  · split at h
    · cases h; exact .refl _
    · exact addMoved_keeps h

theorem updateCollider_keeps {fat : AABB α → AABB α} {box : Nat → AABB α} {c : Nat} (h : updateCollider fat box w c = some w') : Keeps w w' := by
  unfold updateCollider at h
  split at h
  · exact absurd h (by simp)
  · rename_i x hx
    split at h
    · cases h; exact .refl _
    · split at h
      · exact absurd h (by simp)
      · dsimp only at h
        split at h
        · cases h
          exact .setCol hx rfl id
        · exact (Keeps.setCol (x' := { x with changed := false }) hx rfl id).trans ((addMoved_keeps h).pre rfl rfl)

theorem setColsDisabled_keeps {cs : List Nat} {d : Bool} (h : w.setColsDisabled cs d = some w') : Keeps w w' := by
  unfold setColsDisabled at h
  refine Keeps.foldlM ?_ _ _ _ h
  intro w a w' h
  obtain ⟨x, hx, rfl⟩ := Option.map_eq_some_iff.1 h
  exact .setCol hx rfl id

theorem setBodyDisabled_keeps {b : Nat} {d : Bool} (h : w.setBodyDisabled b d = some w') : Keeps w w' := by
  unfold setBodyDisabled at h
  split at h
  · exact absurd h (by simp)
  · rename_i B hB
    split at h
    · cases h; exact .refl _
    · exact (Keeps.setBody (B' := { B with disabled := d }) hB id).trans (setColsDisabled_keeps h)

theorem setSleeping_keeps {b : Nat} {v : Bool} (h : w.setSleeping b v = some w') : Keeps w w' := by
  unfold setSleeping at h
  split at h
  · exact absurd h (by simp)
  · rename_i B hB
    split at h
    · cases h; exact .refl _
    · split at h
      · cases h; exact .refl _
      · split at h
        · cases h; exact .refl _
        · split at h
          · exact absurd h (by simp)
          · rename_i w1 h1
            have k1 := (Keeps.setBody (B' := { B with sleeping := v }) hB id).trans (setBodyDisabled_keeps h1)
            split at h
            · split at h
              · exact absurd h (by simp)
              · cases h; exact k1.trans (.of_eq rfl rfl)
            · split at h
              · exact absurd h (by simp)
              · exact k1.trans ((Keeps.foldlM (fun _ _ _ h => askCheck_keeps h) _ _ _ h).pre rfl rfl)

theorem setSleepingAll_keeps {bs : List Nat} {v : Bool} (h : w.setSleepingAll bs v = some w') : Keeps w w' :=
  Keeps.foldlM (fun _ _ _ h => setSleeping_keeps h) _ _ _ h

theorem cdAdd_keeps {fat : AABB α → AABB α} {c n : Nat} {box : AABB α} (h : w.cdAdd fat c n box = some w') : Keeps w w' := by
  unfold cdAdd at h
  split at h
  · exact absurd h (by simp)
  · rename_i x hx
    split at h
    · exact absurd h (by simp)
    · rename_i w1 h1
      have k1 : Keeps w w1 := Keeps.pre (w1 := { w with tree := upd w.tree n (some ⟨c, fat box⟩) })
        ((Keeps.setCol (w := { w with tree := upd w.tree n (some ⟨c, fat box⟩) }) (x' := { x with bp := some n }) hx rfl id).trans
          (addMoved_keeps h1)) rfl rfl
      split at h
      · exact absurd h (by simp)
      · cases h; exact k1.trans (.of_eq rfl rfl)

theorem removeOverlap_keeps {id : Nat} {nt : Bool} (h : w.removeOverlap id nt = some w') : Keeps w w' := by
  unfold removeOverlap at h
  split at h
  · exact absurd h (by simp)
  · split at h
    · exact absurd h (by simp)
    · split at h
      · exact absurd h (by simp)
      · cases h; exact .of_eq rfl rfl

theorem dropPairs_keeps {c : Nat} : ∀ (k : Nat) (w w' : World α), w.dropPairs c k = some w' → Keeps w w'
  | 0, w, w', h => by
    unfold dropPairs at h
    split at h
    · cases h; exact .refl _
    · exact absurd h (by simp)
  | k + 1, w, w', h => by
    unfold dropPairs at h
    split at h
    · cases h; exact .refl _
    · split at h
      · exact absurd h (by simp)
      · rename_i h1
        exact (removeOverlap_keeps h1).trans (dropPairs_keeps k _ _ h)

theorem cdRemove_keeps {c n : Nat} (h : w.cdRemove c n = some w') : Keeps w w' := by
  unfold cdRemove at h
  split at h
  · exact absurd h (by simp)
  · rename_i w1 h1
    split at h
    · exact absurd h (by simp)
    · rename_i x hx
      split at h
      · exact absurd h (by simp)
      · cases h
        refine (dropPairs_keeps _ _ _ h1).trans ?_
        refine Keeps.pre (w1 := { w1 with bpMap := upd w1.bpMap n none, tree := upd w1.tree n none, moved := upd w1.moved n false }) ?_ rfl rfl
        exact Keeps.setCol (x := x) hx rfl id

theorem updateHasSim_keeps {b : Nat} (h : w.updateHasSim b = some w') : Keeps w w' := by
  unfold updateHasSim at h
  split at h
  · exact absurd h (by simp)
  · rename_i B hB
    split at h
    · cases h; exact .setBody hB (fun _ => rfl)
    · cases h; exact .refl _

theorem updateHasSimIf_keeps {b : Nat} (h : w.updateHasSimIf b = some w') : Keeps w w' := by
  unfold updateHasSimIf at h
  split at h
  · exact absurd h (by simp)
  · split at h
    · exact updateHasSim_keeps h
    · cases h; exact .refl _

theorem cdRemoveIf_keeps {c : Nat} (h : w.cdRemoveIf c = some w') : Keeps w w' := by
  unfold cdRemoveIf at h
  split at h
  · exact absurd h (by simp)
  · split at h
    · cases h; exact .refl _
    · exact cdRemove_keeps h

theorem Keeps.dropCol (c : Nat) : Keeps w { w with col := upd w.col c none } := by
  refine ⟨fun b B' h => ⟨B', h, id⟩, ?_⟩
  intro c' x1 h
  by_cases he : c' = c
  · subst he
    have : none = some x1 := (upd_same _ _ _).symm.trans h
    cases this
  · exact ⟨x1, (upd_ne _ _ he).symm.trans h, rfl, id⟩

theorem Keeps.dropBody (b : Nat) : Keeps w { w with body := upd w.body b none } := by
  refine ⟨?_, fun c x' h => ⟨x', h, rfl, id⟩⟩
  intro b' B1 h
  by_cases he : b' = b
  · subst he
    have : none = some B1 := (upd_same _ _ _).symm.trans h
    cases this
  · exact ⟨B1, (upd_ne _ _ he).symm.trans h, id⟩

theorem bodyRemoveCollider_keeps {b c : Nat} (h : w.bodyRemoveCollider b c = some w') : Keeps w w' := by
  unfold bodyRemoveCollider at h
  split at h
  · exact absurd h (by simp)
  · rename_i w1 h1
    split at h
    · exact absurd h (by simp)
    · rename_i B hB
      exact (cdRemoveIf_keeps h1).trans ((Keeps.setBody (B' := { B with cols := B.cols.erase c }) hB id).trans
        ((Keeps.dropCol c).trans (updateHasSimIf_keeps h)))

theorem removeCollider_keeps {b c : Nat} {ws : List Nat} (h : w.removeCollider b c ws = some w') : Keeps w w' := by
  unfold removeCollider at h
  split at h
  · exact absurd h (by simp)
  · rename_i h1
    exact (setSleepingAll_keeps h1).trans (bodyRemoveCollider_keeps h)

theorem setType_keeps {b : Nat} {t : BType} (h : w.setType b t = some w') : Keeps w w' := by
  unfold setType at h
  split at h
  · exact absurd h (by simp)
  · rename_i B hB
    split at h
    · cases h; exact .refl _
    · split at h
      · exact absurd h (by simp)
      · rename_i h1
        have k1 := (Keeps.setBody (B' := { B with type := t }) hB id).trans (setBodyDisabled_keeps h1)
        split at h
        · exact absurd h (by simp)
        · rename_i h2
          have k2 := k1.trans (setSleeping_keeps h2)
          split at h
          · split at h
            · exact absurd h (by simp)
            · cases h; exact k2.trans (.of_eq rfl rfl)
          · cases h; exact k2

theorem setActive_keeps {fat : AABB α → AABB α} {b : Nat} {v : Bool} {ns : List Nat} {box : Nat → AABB α}
    (h : w.setActive fat b v ns box = some w') : Keeps w w' := by
  unfold setActive at h
  split at h
  · exact absurd h (by simp)
  · split at h
    · cases h; exact .refl _
    · split at h
      · exact absurd h (by simp)
      · rename_i h1
        split at h
        · exact absurd h (by simp)
        · rename_i B1 hB1
          have k1 := (setSleeping_keeps h1).trans (Keeps.setBody (B' := { B1 with active := v }) hB1 id)
          dsimp only at h
          split at h
          · exact k1.trans (Keeps.foldlM (fun _ _ _ h => cdAdd_keeps h) _ _ _ h)
          · exact k1.trans (Keeps.foldlM (fun _ _ _ h => cdRemoveIf_keeps h) _ _ _ h)

theorem setTransform_keeps {fat : AABB α → AABB α} {b : Nat} {box : Nat → AABB α} (h : w.setTransform fat b box = some w') : Keeps w w' := by
  unfold setTransform at h
  split at h
  · exact absurd h (by simp)
  · rename_i h1
    split at h
    · exact absurd h (by simp)
    · exact (setSleeping_keeps h1).trans (Keeps.foldlM (fun _ _ _ h => updateCollider_keeps h) _ _ _ h)

theorem setLocalTransform_keeps {fat : AABB α → AABB α} {c : Nat} {box : AABB α} (h : w.setLocalTransform fat c box = some w') : Keeps w w' := by
  unfold setLocalTransform at h
  split at h
  · exact absurd h (by simp)
  · split at h
    · exact absurd h (by simp)
    · rename_i h1
      exact (setSleeping_keeps h1).trans (updateCollider_keeps h)

theorem setCategory_keeps {c bits : Nat} (h : w.setCategory c bits = some w') : Keeps w w' := by
  unfold setCategory at h
  split at h
  · exact absurd h (by simp)
  · rename_i x hx
    exact (Keeps.setCol (x' := { x with cat := bits }) hx rfl id).trans (askCheck_keeps h)

theorem setMask_keeps {c bits : Nat} (h : w.setMask c bits = some w') : Keeps w w' := by
  unfold setMask at h
  split at h
  · exact absurd h (by simp)
  · rename_i x hx
    exact (Keeps.setCol (x' := { x with mask := bits }) hx rfl id).trans (askCheck_keeps h)

theorem setSimFalse_keeps {c : Nat} (h : w.setSimFalse c = some w') : Keeps w w' := by
  unfold setSimFalse at h
  split at h
  · exact absurd h (by simp)
  · rename_i x hx
    exact (Keeps.setCol (x' := { x with sim := false }) hx rfl (fun e => by cases e)).trans (updateHasSim_keeps h)

theorem setTrigger_keeps {c : Nat} {v : Bool} (h : w.setTrigger c v = some w') : Keeps w w' := by
  unfold setTrigger at h
  split at h
  · exact absurd h (by simp)
  · rename_i x hx
    have k1 := Keeps.setCol (x' := { x with trigger := v }) hx rfl id
    dsimp only at h
    split at h
    · exact k1.trans (setSimFalse_keeps h)
    · cases h; exact k1

theorem addNoColl_keeps {b1 b2 : Nat} (h : w.addNoColl b1 b2 = some w') : Keeps w w' := by
  unfold addNoColl at h
  split at h
  · exact absurd h (by simp)
  · dsimp only at h
    split at h
    · exact absurd h (by simp)
    · exact Keeps.pre (w1 := w.setNoColl (bodyPair b1 b2) true) (Keeps.foldlM (fun _ _ _ h => removeOverlap_keeps h) _ _ _ h) rfl rfl

theorem addJointTo_keeps {b j : Nat} (h : w.addJointTo b j = some w') : Keeps w w' := by
  obtain ⟨B, hB, rfl⟩ := Option.map_eq_some_iff.1 h
  exact .setBody hB id

theorem removeJointFrom_keeps {b j : Nat} (h : w.removeJointFrom b j = some w') : Keeps w w' := by
  obtain ⟨B, hB, rfl⟩ := Option.map_eq_some_iff.1 h
  exact .setBody hB id

theorem createJoint_keeps {j b1 b2 : Nat} {coll : Bool} (h : w.createJoint j b1 b2 coll = some w') : Keeps w w' := by
  unfold createJoint at h
  dsimp only at h
  split at h
  · exact absurd h (by simp)
  · rename_i w1 h1
    have k1 : Keeps w w1 := by
      refine Keeps.pre (w1 := { w with jnt := upd w.jnt j (some ⟨b1, b2, coll⟩) }) ?_ rfl rfl
      split at h1
      · cases h1; exact .refl _
      · exact addNoColl_keeps h1
    split at h
    · exact absurd h (by simp)
    · rename_i h2
      exact k1.trans ((addJointTo_keeps h2).trans (addJointTo_keeps h))

theorem destroyJoint_keeps {j : Nat} (h : w.destroyJoint j = some w') : Keeps w w' := by
  unfold destroyJoint at h
  split at h
  · exact absurd h (by simp)
  · rename_i J _
    dsimp only at h
    have k0 : Keeps w (if J.coll then w else w.setNoColl (bodyPair J.b1 J.b2) false) := by
      split
      · exact .refl _
      · exact .of_eq rfl rfl
    split at h
    · exact absurd h (by simp)
    · rename_i h1
      split at h
      · exact absurd h (by simp)
      · rename_i h2
        split at h
        · exact absurd h (by simp)
        · rename_i h3
          split at h
          · exact absurd h (by simp)
          · rename_i h4
            cases h
            exact k0.trans ((setSleeping_keeps h1).trans ((setSleeping_keeps h2).trans ((removeJointFrom_keeps h3).trans
              ((removeJointFrom_keeps h4).trans (.of_eq rfl rfl)))))

theorem destroyJoints_keeps {b : Nat} : ∀ (k : Nat) (w w' : World α), w.destroyJoints b k = some w' → Keeps w w'
  | 0, w, w', h => by
    unfold destroyJoints at h
    split at h
    · split at h
      · cases h; exact .refl _
      · exact absurd h (by simp)
    · exact absurd h (by simp)
  | k + 1, w, w', h => by
    unfold destroyJoints at h
    split at h
    · exact absurd h (by simp)
    · split at h
      · cases h; exact .refl _
      · split at h
        · exact absurd h (by simp)
        · rename_i h1
          exact (destroyJoint_keeps h1).trans (destroyJoints_keeps k _ _ h)

theorem destroyBody_keeps {b : Nat} {wss : List (List Nat)} (h : w.destroyBody b wss = some w') : Keeps w w' := by
  unfold destroyBody at h
  split at h
  · exact absurd h (by simp)
  · split at h
    · exact absurd h (by simp)
    · rename_i h1
      split at h
      · exact absurd h (by simp)
      · rename_i h2
        cases h
        exact (Keeps.foldlM (fun _ _ _ h => removeCollider_keeps h) _ _ _ h1).trans ((destroyJoints_keeps _ _ _ h2).trans (Keeps.dropBody b))

theorem updateOverlap_keeps {nm : Nat × Nat} (h : w.updateOverlap nm = some w') : Keeps w w' := by
  unfold updateOverlap at h
  repeat' split at h
  all_goals first
    | (cases h; exact .refl _)
    | (cases h; exact .of_eq rfl rfl)
    | cases h

theorem sweepLoop_keeps {k : Kind} : ∀ (n i : Nat) (w w' : World α), w.sweepLoop k n i = some w' → Keeps w w'
  | 0, i, w, w', h => by
    unfold sweepLoop at h
    cases h; exact .refl _
  | n + 1, i, w, w', h => by
    unfold sweepLoop at h
    split at h
    · exact absurd h (by simp)
    · split at h
      · split at h
        · exact absurd h (by simp)
        · split at h
          · exact absurd h (by simp)
          · exact (sweepLoop_keeps n _ _ _ h).pre rfl rfl
        · split at h
          · exact absurd h (by simp)
          · split at h
            · exact absurd h (by simp)
            · exact (sweepLoop_keeps n _ _ _ h).pre rfl rfl
      · exact sweepLoop_keeps n _ _ _ h

theorem broadPhase_keeps {nodes : List (Nat × Nat)} (h : w.broadPhase nodes = some w') : Keeps w w' := by
  unfold broadPhase at h
  split at h
  · exact absurd h (by simp)
  · rename_i h1
    split at h
    · exact absurd h (by simp)
    · rename_i h2
      exact Keeps.pre (w1 := { w with moved := fun _ => false })
        ((Keeps.foldlM (fun _ _ _ h => updateOverlap_keeps h) _ _ _ h1).trans ((sweepLoop_keeps _ _ _ _ h2).trans (sweepLoop_keeps _ _ _ _ h))) rfl rfl

theorem middlePhase_keeps {q : Bool} {r : World α × List Nat} (h : w.middlePhase q = some r) : Keeps w r.1 := by
  unfold middlePhase at h
  split at h
  · exact absurd h (by simp)
  · cases h; exact .of_eq rfl rfl

theorem process_keeps {ws ws' : World α × List CPair} {id : Nat} (h : process ws id = some ws') : Keeps ws.1 ws'.1 := by
  unfold process at h
  repeat' split at h
  all_goals first
    | (cases h; exact .of_eq rfl rfl)
    | cases h

theorem narrow_keeps : ∀ (l : List Nat) (ws ws' : World α × List CPair), l.foldlM process ws = some ws' → Keeps ws.1 ws'.1
  | [], ws, ws', h => by
    simp only [List.foldlM_nil] at h
    cases h
    exact .refl _
  | a :: l, ws, ws', h => by
    simp only [List.foldlM_cons, Option.bind_eq_bind] at h
    obtain ⟨w1, h1, h2⟩ := Option.bind_eq_some_iff.1 h
    exact (process_keeps h1).trans (narrow_keeps l w1 ws' h2)

theorem update_keeps {fat : AABB α → AABB α} {a : StepArgs α} {r : World α × List Event} (h : w.update fat a = some r) : Keeps w r.1 := by
  unfold update at h
  simp only [Option.bind_eq_bind] at h
  obtain ⟨w1, h1, h⟩ := Option.bind_eq_some_iff.1 h
  obtain ⟨w2, h2, h⟩ := Option.bind_eq_some_iff.1 h
  obtain ⟨w3, h3, h⟩ := Option.bind_eq_some_iff.1 h
  obtain ⟨w4, h4, h⟩ := Option.bind_eq_some_iff.1 h
  obtain ⟨l, h5, h⟩ := Option.bind_eq_some_iff.1 h
  obtain ⟨w6, h6, h⟩ := Option.bind_eq_some_iff.1 h
  obtain ⟨w7, h7, h⟩ := Option.bind_eq_some_iff.1 h
  obtain ⟨w8, h8, h⟩ := Option.bind_eq_some_iff.1 h
  cases h
  have k6 : Keeps w4 w6.1 := by
    unfold report at h6
    split at h6
    · cases h6; exact .of_eq rfl rfl
    · exact absurd h6 (by simp)
  exact (broadPhase_keeps h1).trans ((middlePhase_keeps h2).trans ((narrow_keeps _ _ _ h3).trans ((setSleepingAll_keeps h4).trans
    (k6.trans ((Keeps.foldlM (fun _ _ _ h => updateCollider_keeps h) _ _ _ h7).trans (setSleepingAll_keeps h8))))))

/-- A simulation collider makes the flag of its body true. -/
def SimOk (w : World α) : Prop := ∀ c x B, w.col c = some x → w.body x.body = some B → x.sim = true → B.hasSim = true

theorem Keeps.simOk (h : Keeps w w') (hs : SimOk w) : SimOk w' := by
  intro c x B hx hB hsim
  obtain ⟨x0, hx0, hb, hs0⟩ := h.col c x hx
  obtain ⟨B0, hB0, hm⟩ := h.body _ B hB
  rw [hb] at hB0
  exact hm (hs c x0 B0 hx0 hB0 (hs0 hsim))

theorem addCollider_simOk {fat : AABB α → AABB α} {b c n : Nat} {cv : Bool} {box : AABB α} (hs : SimOk w)
    (h : w.addCollider fat b c cv n box = some w') : SimOk w' := by
  unfold addCollider at h
  split at h
  · exact absurd h (by simp)
  · rename_i B hB
    dsimp only at h
    have k : SimOk (({ w with store := { w.store with own := upd w.store.own c [] } }.setCol c
        ⟨b, none, cv, 1, 0xFFFF, false, true, true, B.disabled, false⟩).setBody b { B with cols := B.cols ++ [c], hasSim := true }) := by
      intro c' x B' hx hB' hsim
      by_cases hb : x.body = b
      · rw [hb] at hB'
        have : some _ = some B' := (upd_same _ _ _).symm.trans hB'
        cases this
        rfl
      · have hB1 : w.body x.body = some B' := (upd_ne _ _ hb).symm.trans hB'
        by_cases hc : c' = c
        · subst hc
          have : some _ = some x := (upd_same _ _ _).symm.trans hx
          cases this
          exact absurd rfl hb
        · have hx1 : w.col c' = some x := (upd_ne _ _ hc).symm.trans hx
          exact hs c' x B' hx1 hB1 hsim
    split at h
    · exact (cdAdd_keeps h).simOk k
    · cases h; exact k

theorem setSim_simOk {c : Nat} {v : Bool} (hs : SimOk w) (h : w.setSim c v = some w') : SimOk w' := by
  unfold setSim at h
  split at h
  · split at h
    · exact absurd h (by simp)
    · rename_i x hx
      split at h
      · exact absurd h (by simp)
      · rename_i B hB
        cases h
        intro c' x' B' hx' hB' hsim
        by_cases hb : x'.body = x.body
        · rw [hb] at hB'
          have : some _ = some B' := (upd_same _ _ _).symm.trans hB'
          cases this
          rfl
        · have hB1 : w.body x'.body = some B' := (upd_ne _ _ hb).symm.trans hB'
          by_cases hc : c' = c
          · subst hc
            have : some _ = some x' := (upd_same _ _ _).symm.trans hx'
            cases this
            exact absurd rfl hb
          · have hx1 : w.col c' = some x' := (upd_ne _ _ hc).symm.trans hx'
            exact hs c' x' B' hx1 hB1 hsim
  · exact (setSimFalse_keeps h).simOk hs

theorem exec_simOk {fat : AABB α → AABB α} {op : WOp α} {ev : List Event} {r : Rules} {A : PMap} (hi : HInv r w A) (hv : w.Valid op) (hs : SimOk w)
    (h : w.exec fat op = some (w', ev)) : SimOk w' := by
  have conv : ∀ {o : Option (World α)}, (o.map fun w => (w, ([] : List Event))) = some (w', ev) → o = some w' := by
    intro o ho
    obtain ⟨x, hx, he⟩ := Option.map_eq_some_iff.1 ho
    cases he; exact hx
  cases op with
  | createBody b =>
    simp only [exec, Option.some.injEq, Prod.mk.injEq] at h
    obtain ⟨rfl, rfl⟩ := h
    intro c x B hx hB hsim
    obtain ⟨B0, hB0, _⟩ := hi.inv.s.col c x hx
    have hne : x.body ≠ b := by
      intro e
      rw [e, show w.body b = none from hv] at hB0
      cases hB0
    exact hs c x B hx ((upd_ne _ _ hne).symm.trans hB) hsim
  | destroyBody b wss => exact (destroyBody_keeps (conv h)).simOk hs
  | addCollider b c cv n box => exact addCollider_simOk hs (conv h)
  | removeCollider b c ws => exact (removeCollider_keeps (conv h)).simOk hs
  | setType b t => exact (setType_keeps (conv h)).simOk hs
  | setActive b v ns box => exact (setActive_keeps (conv h)).simOk hs
  | setSleeping b v => exact (setSleeping_keeps (conv h)).simOk hs
  | setTransform b box => exact (setTransform_keeps (conv h)).simOk hs
  | setLocalTransform c box => exact (setLocalTransform_keeps (conv h)).simOk hs
  | setCategory c bits => exact (setCategory_keeps (conv h)).simOk hs
  | setMask c bits => exact (setMask_keeps (conv h)).simOk hs
  | setTrigger c v => exact (setTrigger_keeps (conv h)).simOk hs
  | setSim c v => exact setSim_simOk hs (conv h)
  | setQuery c v =>
    obtain ⟨x, hx, rfl⟩ := Option.map_eq_some_iff.1 (conv h)
    exact (Keeps.setCol (x' := { x with query := v }) hx rfl id).simOk hs
  | resize c =>
    obtain ⟨x, hx, rfl⟩ := Option.map_eq_some_iff.1 (conv h)
    exact (Keeps.setCol (x' := { x with changed := true }) hx rfl id).simOk hs
  | createJoint j b1 b2 coll => exact (createJoint_keeps (conv h)).simOk hs
  | destroyJoint j => exact (destroyJoint_keeps (conv h)).simOk hs
  | update a => exact (update_keeps h).simOk hs
  | queryOverlapAll nodes hit =>
    obtain ⟨x, hx, he⟩ := Option.map_eq_some_iff.1 h
    cases he
    unfold queryOverlapAll at hx
    simp only [Option.bind_eq_bind] at hx
    obtain ⟨w1, h1, hx⟩ := Option.bind_eq_some_iff.1 hx
    obtain ⟨w2, h2, hx⟩ := Option.bind_eq_some_iff.1 hx
    cases hx
    exact ((broadPhase_keeps h1).trans (middlePhase_keeps h2)).simOk hs
  | queryCollisionAll nodes hit =>
    obtain ⟨x, hx, he⟩ := Option.map_eq_some_iff.1 h
    cases he
    unfold queryCollisionAll at hx
    simp only [Option.bind_eq_bind] at hx
    obtain ⟨w1, h1, hx⟩ := Option.bind_eq_some_iff.1 hx
    obtain ⟨w2, h2, hx⟩ := Option.bind_eq_some_iff.1 hx
    obtain ⟨w3, h3, hx⟩ := Option.bind_eq_some_iff.1 hx
    cases hx
    exact ((broadPhase_keeps h1).trans ((middlePhase_keeps h2).trans (narrow_keeps _ _ _ h3))).simOk hs
  | testOverlap b1 b2 nodes hit =>
    obtain ⟨x, hx, he⟩ := Option.map_eq_some_iff.1 h
    cases he
    unfold testOverlap at hx
    simp only [Option.bind_eq_bind] at hx
    obtain ⟨w1, h1, hx⟩ := Option.bind_eq_some_iff.1 hx
    obtain ⟨w2, h2, hx⟩ := Option.bind_eq_some_iff.1 hx
    cases hx
    exact (broadPhase_keeps h1).simOk hs

theorem Hist.simOk {fat : AABB α → AABB α} {r : Rules} {tr : List (WOp α × List Event)} (h : Hist fat r tr w) : SimOk w := by
  induction h with
  | init => intro c x B hx; exact absurd hx (by simp [World.init])
  | step h hv hf he ih =>
    obtain ⟨A, hA⟩ := h.inv
    exact exec_simOk hA hv ih he

end World
end RP3D
