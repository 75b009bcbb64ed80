import Verif.Props.World

/-!
Histories in which the code does not do what the properties C25-C28, C34, C37-C39 and C63 say.  All start from `WEx.w5`: two dynamic bodies with
one collider each, in contact.
-/

namespace RP3D
open World WorldSpec WEx

/-- The mask of collider 1 is set to zero while the colliders are in contact. -/
def WEx.a1 := next w5 (.setMask 1 0)

/-- C25 does not hold: after the mask of a collider is cleared, contacts are still reported (the bits are only looked at when a pair is created,
CollisionDetectionSystem.cpp:300-340). -/
theorem filtering_not_respected : ∃ tr w a w' ev e x1 x2, Hist WEx.fat free tr w ∧ w.StepOk a ∧ w.update WEx.fat a = some (w', ev) ∧ e ∈ ev ∧
    e.kind = .stay ∧ w.col e.c1 = some x1 ∧ w.col e.c2 = some x2 ∧ x2.mask = 0 := by
  obtain ⟨tr, h⟩ := hist5 free
  have h1 := Hist.next h (op := .setMask 1 0) (ex_of (o := w5.col 1) (by decide +kernel)) (follows_free _ _) (by decide +kernel)
  obtain ⟨⟨w', ev⟩, he⟩ := ex_of (o := a1.exec WEx.fat (stepOp a1 [] [])) (by decide +kernel)
  have hev : ev = evs a1 (stepOp a1 [] []) := by rw [evs, he]; rfl
  refine ⟨_, a1, _, w', ev, ⟨.stay, 0, 1, false⟩, col0, { col1 with mask := 0 }, h1, step_valid (hit := true) (wake := []) (sleep := []) rfl rfl, he, ?_, rfl, ?_, ?_, rfl⟩
  · rw [hev]; decide +kernel
  · decide +kernel
  · decide +kernel

/-- Body 0 becomes static, body 1 falls asleep: their pair is disabled. -/
def WEx.b1 := next w5 (.setType 0 .static)
def WEx.b2 := next b1 (.setSleeping 1 true)
/-- Body 0 becomes dynamic again. -/
def WEx.b3 := next b2 (.setType 0 .dynamic)

theorem hist_b2 : ∃ tr, Hist WEx.fat free tr b2 := by
  obtain ⟨tr, h⟩ := hist5 free
  have h1 := Hist.next h (op := .setType 0 .static) (ex_of (o := w5.body 0) (by decide +kernel)) (follows_free _ _) (by decide +kernel)
  exact ⟨_, Hist.next h1 (op := .setSleeping 1 true) (ex_of (o := b1.body 1) (by decide +kernel)) (follows_free _ _) (by decide +kernel)⟩

theorem hist_b3 : ∃ tr, Hist WEx.fat free tr b3 := by
  obtain ⟨tr, h⟩ := hist_b2
  exact ⟨_, Hist.next h (op := .setType 0 .dynamic) (ex_of (o := b2.body 0) (by decide +kernel)) (follows_free _ _) (by decide +kernel)⟩

/-- C26 does not hold: a static body under a sleeping one becomes dynamic; it takes part in the simulation, but its pair stays disabled and is not tested
(`setType` only wakes the body, which does nothing for a body that is not asleep; RigidBody.cpp:66-130, 1006-1057). -/
theorem pair_of_awake_body_skipped : ∃ tr w id p x, Hist WEx.fat free tr w ∧ w.store.deref id = some p ∧ w.col p.c1 = some x ∧ Simulated w x.body ∧ x.sim = true ∧
    ∀ w' ids, w.middlePhase false = some (w', ids) → id ∉ ids := by
  obtain ⟨tr, h⟩ := hist_b3
  obtain ⟨p, hp⟩ := ex_of (o := b3.store.deref (pairId 0 1)) (by decide +kernel)
  have hc : p.c1 = 0 := by
    have : (b3.store.deref (pairId 0 1)).map Pair.c1 = some 0 := by decide +kernel
    rw [hp] at this; exact Option.some.inj this
  refine ⟨tr, b3, pairId 0 1, p, col0, h, hp, by rw [hc]; decide +kernel, ?_, rfl, ?_⟩
  · obtain ⟨B, hB⟩ := ex_of (o := b3.body 0) (by decide +kernel)
    refine ⟨B, hB, ?_⟩
    have : (b3.body 0).map Body.disabled = some false := by decide +kernel
    rw [hB] at this; exact Option.some.inj this
  · intro w' ids he
    have : (b3.middlePhase false).map Prod.snd = some [] := by decide +kernel
    rw [he] at this
    have e : ids = [] := Option.some.inj this
    rw [e]
    simp

/-- C27 does not hold: changing the mask of a collider of a sleeping body on a static one looks up the disabled pair in the map of enabled
pairs (OverlappingPairs.h:459-470), which is undefined. -/
theorem bits_of_sleeping_collider_undefined : ∃ tr w c, Hist WEx.fat free tr w ∧ w.Valid (.setMask c 0) ∧ w.setMask c 0 = none := by
  obtain ⟨tr, h⟩ := hist_b2
  exact ⟨tr, b2, 1, h, ex_of (o := b2.col 1) (by decide +kernel), none_of (by decide +kernel)⟩

/-- C27 does not hold: the same when the static body is moved. -/
theorem moving_static_body_undefined : ∃ tr w b box, Hist WEx.fat free tr w ∧ w.Valid (.setTransform b box) ∧ w.setTransform WEx.fat b box = none := by
  obtain ⟨tr, h⟩ := hist_b2
  exact ⟨tr, b2, 0, fun _ => cube 3, h, ex_of (o := b2.body 0) (by decide +kernel), none_of (by decide +kernel)⟩

/-- Two joints that forbid collision, of which one is destroyed. -/
def WEx.c1 := next w4 (.createJoint 0 0 1 false)
def WEx.c2 := next c1 (.createJoint 1 0 1 false)
def WEx.c3 := next c2 (.destroyJoint 1)

/-- C28 does not hold: after one of two joints that forbid collision is destroyed the bodies collide (`mNoCollisionPairs` is a set,
CollisionDetectionSystem.h:427-429). -/
theorem second_joint_ignored : ∃ tr w a w' ev e j J x1 x2, Hist WEx.fat free tr w ∧ w.StepOk a ∧ w.update WEx.fat a = some (w', ev) ∧ e ∈ ev ∧ e.kind = .start ∧
    w.jnt j = some J ∧ J.coll = false ∧ w.col e.c1 = some x1 ∧ w.col e.c2 = some x2 ∧ x1.body = J.b1 ∧ x2.body = J.b2 := by
  obtain ⟨tr, h⟩ := hist4 free
  have h1 := Hist.next h (op := .createJoint 0 0 1 false) ⟨by decide, ex_of (o := w4.body 0) (by decide +kernel), ex_of (o := w4.body 1) (by decide +kernel),
    none_of (o := w4.jnt 0) (by decide +kernel)⟩ (follows_free _ _) (by decide +kernel)
  have h2 := Hist.next h1 (op := .createJoint 1 0 1 false) ⟨by decide, ex_of (o := c1.body 0) (by decide +kernel), ex_of (o := c1.body 1) (by decide +kernel),
    none_of (o := c1.jnt 1) (by decide +kernel)⟩ (follows_free _ _) (by decide +kernel)
  have h3 := Hist.next h2 (op := .destroyJoint 1) (ex_of (o := c2.jnt 1) (by decide +kernel)) (follows_free _ _) (by decide +kernel)
  obtain ⟨⟨w', ev⟩, he⟩ := ex_of (o := c3.exec WEx.fat (stepOp c3 [] [])) (by decide +kernel)
  have hev : ev = evs c3 (stepOp c3 [] []) := by rw [evs, he]; rfl
  refine ⟨_, c3, _, w', ev, ⟨.start, 0, 1, false⟩, 0, ⟨0, 1, false⟩, col0, col1, h3, step_valid (hit := true) (wake := []) (sleep := []) rfl rfl, he, ?_, rfl, ?_, rfl, ?_, ?_,
    rfl, rfl⟩
  · rw [hev]; decide +kernel
  · decide +kernel
  · decide +kernel
  · decide +kernel

/-- A joint that forbids collision is created between the two bodies in contact, and destroyed. -/
def WEx.d1 := next w5 (.createJoint 0 0 1 false)
def WEx.d2 := next d1 (.destroyJoint 0)
def WEx.d3 := next d2 (stepOp d2 [] [])

theorem hist_d1 : ∃ tr, Hist WEx.fat free tr d1 := by
  obtain ⟨tr, h⟩ := hist5 free
  exact ⟨_, Hist.next h (op := .createJoint 0 0 1 false) ⟨by decide, ex_of (o := w5.body 0) (by decide +kernel), ex_of (o := w5.body 1) (by decide +kernel),
    none_of (o := w5.jnt 0) (by decide +kernel)⟩ (follows_free _ _) (by decide +kernel)⟩

theorem hist_d2 : ∃ tr, Hist WEx.fat free tr d2 := by
  obtain ⟨tr, h⟩ := hist_d1
  exact ⟨_, Hist.next h (op := .destroyJoint 0) (ex_of (o := d1.jnt 0) (by decide +kernel)) (follows_free _ _) (by decide +kernel)⟩

/-- C28 does not hold either after the only joint is destroyed: `destroyJoint` does not ask for a new check, so the pair of two overlapping, awake
colliders that may collide is not found by the next step. -/
theorem destroyed_joint_no_recheck : ∃ tr w a w' ev x1 x2 t1 t2, Hist WEx.fat free tr w ∧ (∀ j, w.jnt j = none) ∧ Meet w 0 1 0 1 x1 x2 t1 t2 ∧ Simulated w x1.body ∧
    Simulated w x2.body ∧ w.StepOk a ∧ w.update WEx.fat a = some (w', ev) ∧ ¬ HasPair w' 0 1 := by
  obtain ⟨tr, h⟩ := hist_d2
  have hv : d2.Valid (stepOp d2 [] []) := step_valid rfl rfl
  have hs : (d2.exec WEx.fat (stepOp d2 [] [])).isSome = true := by decide +kernel
  have h3 := Hist.next h (op := stepOp d2 [] []) hv (follows_free _ _) hs
  obtain ⟨⟨w', ev⟩, he⟩ := ex_of hs
  have hw' : w' = d3 := by rw [d3, next, he]; rfl
  have sim : ∀ b, ((d2.body b).map Body.disabled = some false) → Simulated d2 b := by
    intro b hb
    cases hB : d2.body b with
    | none => rw [hB] at hb; cases hb
    | some B => rw [hB] at hb; exact ⟨B, hB, Option.some.inj hb⟩
  refine ⟨_, d2, _, w', ev, col0, col1, _, _, h, ?_, meet_of rfl (by decide +kernel) (by decide +kernel) ⟨rfl, rfl⟩ (by decide) (by decide +kernel) (by decide) rfl,
    sim 0 (by decide +kernel), sim 1 (by decide +kernel), hv, he, ?_⟩
  · intro j
    have : d2.jnt = upd (upd (fun _ => none) 0 (some ⟨0, 1, false⟩)) 0 none := rfl
    rw [this]
    by_cases e : j = 0
    · subst e; exact upd_same _ _ _
    · rw [upd_ne _ _ e, upd_ne _ _ e]
  · rw [hw']
    rintro ⟨id, p, hp, hsame⟩
    obtain ⟨A, hi⟩ := h3.inv
    obtain ⟨k, ha⟩ := pair_of_deref hi.inv hp
    have hown : d3.store.own 0 = [] := by decide +kernel
    have := own_nil_all hi.inv hown id k p ha
    rcases hsame with ⟨e, _⟩ | ⟨_, e⟩
    · exact this.1 e
    · exact this.2 e

/-- Then body 0 is put to sleep and woken, which asks for a new check. -/
def WEx.d4 := next d2 (.setSleeping 0 true)
def WEx.d5 := next d4 (.setSleeping 0 false)
def WEx.d6 := next d5 (stepOp d5 [] [])

/-- C37 does not hold: a contact that ends between two frames (here by creating a joint that forbids collision) is kept to be reported; if the pair is created again
before the next frame, that frame reports a start and then an exit, and the following frames report stays. -/
theorem start_and_exit_in_one_frame : ∃ tr w0 evs w, Hist WEx.fat free tr w0 ∧ w0.col 0 = none ∧
    Later WEx.fat free (fun w op _ => ¬ w.dropped op 0 ∧ ¬ w.dropped op 1) w0 evs w ∧
    eventsOf evs 0 1 = [.start, .start, .exit, .stay] ∧ rounds false (eventsOf evs 0 1) = none := by
  have h0 : Hist WEx.fat free [] (World.init : World Int) := Hist.init
  have nx : ∀ {evs0 : List (List Event)} {w : World Int}, Later WEx.fat free (fun w op _ => ¬ w.dropped op 0 ∧ ¬ w.dropped op 1) World.init evs0 w → ∀ {op : WOp Int},
      w.Valid op → (¬ w.dropped op 0 ∧ ¬ w.dropped op 1) → (w.exec WEx.fat op).isSome = true →
      Later WEx.fat free (fun w op _ => ¬ w.dropped op 0 ∧ ¬ w.dropped op 1) World.init (evs0 ++ [evs w op]) (next w op) := by
    intro evs0 w h op hv hd he
    obtain ⟨x, hx⟩ := ex_of he
    exact Later.step h hv (follows_free _ _) (by simp [WEx.next, evs, hx]) hd
  have nd : ¬ False ∧ ¬ False := ⟨id, id⟩
  have l1 := nx Later.refl (op := .createBody 0) rfl nd (by decide +kernel)
  have l2 := nx l1 (op := .createBody 1) (none_of (o := w1.body 1) (by decide +kernel)) nd (by decide +kernel)
  have l3 := nx l2 (op := .addCollider 0 0 true 0 (cube 0)) ⟨ex_of (o := w2.body 0) (by decide +kernel), none_of (o := w2.col 0) (by decide +kernel), by decide,
    none_of (o := w2.tree 0) (by decide +kernel)⟩ nd (by decide +kernel)
  have l4 := nx l3 (op := .addCollider 1 1 true 1 (cube 1)) ⟨ex_of (o := w3.body 1) (by decide +kernel), none_of (o := w3.col 1) (by decide +kernel), by decide,
    none_of (o := w3.tree 1) (by decide +kernel)⟩ nd (by decide +kernel)
  have l5 := nx l4 (op := stepOp w4 [] []) (step_valid (w := w4) rfl rfl) nd (by decide +kernel)
  have l6 := nx l5 (op := .createJoint 0 0 1 false) ⟨by decide, ex_of (o := w5.body 0) (by decide +kernel), ex_of (o := w5.body 1) (by decide +kernel),
    none_of (o := w5.jnt 0) (by decide +kernel)⟩ nd (by decide +kernel)
  have l7 := nx l6 (op := .destroyJoint 0) (ex_of (o := d1.jnt 0) (by decide +kernel)) nd (by decide +kernel)
  have l8 := nx l7 (op := .setSleeping 0 true) (ex_of (o := d2.body 0) (by decide +kernel)) nd (by decide +kernel)
  have l9 := nx l8 (op := .setSleeping 0 false) (ex_of (o := d4.body 0) (by decide +kernel)) nd (by decide +kernel)
  have l10 := nx l9 (op := stepOp d5 [] []) (step_valid (w := d5) rfl rfl) nd (by decide +kernel)
  have l11 := nx l10 (op := stepOp d6 [] []) (step_valid (w := d6) rfl rfl) nd (by decide +kernel)
  have he : eventsOf [[], [], [], [], evs w4 (stepOp w4 [] []), [], [], [], [], evs d5 (stepOp d5 [] []), evs d6 (stepOp d6 [] [])] 0 1 =
    [.start, .start, .exit, .stay] := by decide +kernel
  exact ⟨_, _, [[], [], [], [], evs w4 (stepOp w4 [] []), [], [], [], [], evs d5 (stepOp d5 [] []), evs d6 (stepOp d6 [] [])], _, h0, rfl, l11, he, by rw [he]; rfl⟩

/-- A third body connected to body 0 by a joint; the first step finds no contact; the user asks for all contacts of the world; bodies 0 and 1
fall asleep. -/
def WEx.e1 := next w4 (.createBody 2)
def WEx.e2 := next e1 (.createJoint 0 0 2 true)
def WEx.e3 := next e2 (stepWith false e2 [0, 1, 2] [])
def WEx.e4 := next e3 (.queryCollisionAll (e3.nodesBelow 2) fun _ => true)
def WEx.e5 := next e4 (.setSleeping 0 true)
def WEx.e6 := next e5 (.setSleeping 1 true)
def WEx.e7 := next e6 (stepWith true e6 [2, 0] [])

/-- C37 does not hold: a query of the whole world writes the flags from which the events are computed (CollisionDetectionSystem.cpp:1884-1896).  Here a stay is reported
without a start: the query sets the flag of the current frame, the pair is disabled, and it is enabled again by the construction of islands (body 0 is
connected to body 2, which is awake) in the middle of the next step. -/
theorem stay_without_start : ∃ tr w0 evs w, Hist WEx.fat free tr w0 ∧ w0.col 0 = none ∧
    Later WEx.fat free (fun w op ev => ¬ w.dropped op 0 ∧ ¬ w.dropped op 1 ∧ ¬ BothIn ev 0 1) w0 evs w ∧ eventsOf evs 0 1 = [.stay] ∧
    rounds false (eventsOf evs 0 1) = none := by
  have h0 : Hist WEx.fat free [] (World.init : World Int) := Hist.init
  have nx : ∀ {evs0 : List (List Event)} {w : World Int}, Later WEx.fat free (fun w op ev => ¬ w.dropped op 0 ∧ ¬ w.dropped op 1 ∧ ¬ BothIn ev 0 1) World.init evs0 w →
      ∀ {op : WOp Int}, w.Valid op → (¬ w.dropped op 0 ∧ ¬ w.dropped op 1) → (w.exec WEx.fat op).isSome = true → (evs w op).all (fun e => decide (e.kind ≠ .exit)) = true →
      Later WEx.fat free (fun w op ev => ¬ w.dropped op 0 ∧ ¬ w.dropped op 1 ∧ ¬ BothIn ev 0 1) World.init (evs0 ++ [evs w op]) (next w op) := by
    intro evs0 w h op hv hd he hx
    obtain ⟨x, hx'⟩ := ex_of he
    refine Later.step h hv (follows_free _ _) (by simp [WEx.next, evs, hx']) ⟨hd.1, hd.2, ?_⟩
    rintro ⟨⟨e, hm, hk, _⟩, _⟩
    rw [List.all_eq_true] at hx
    have := hx e hm
    rw [hk] at this
    simp at this
  have nd : ¬ False ∧ ¬ False := ⟨id, id⟩
  have l1 := nx Later.refl (op := .createBody 0) rfl nd (by decide +kernel) (by decide +kernel)
  have l2 := nx l1 (op := .createBody 1) (none_of (o := w1.body 1) (by decide +kernel)) nd (by decide +kernel) (by decide +kernel)
  have l3 := nx l2 (op := .addCollider 0 0 true 0 (cube 0)) ⟨ex_of (o := w2.body 0) (by decide +kernel), none_of (o := w2.col 0) (by decide +kernel), by decide,
    none_of (o := w2.tree 0) (by decide +kernel)⟩ nd (by decide +kernel) (by decide +kernel)
  have l4 := nx l3 (op := .addCollider 1 1 true 1 (cube 1)) ⟨ex_of (o := w3.body 1) (by decide +kernel), none_of (o := w3.col 1) (by decide +kernel), by decide,
    none_of (o := w3.tree 1) (by decide +kernel)⟩ nd (by decide +kernel) (by decide +kernel)
  have l5 := nx l4 (op := .createBody 2) (none_of (o := w4.body 2) (by decide +kernel)) nd (by decide +kernel) (by decide +kernel)
  have l6 := nx l5 (op := .createJoint 0 0 2 true) ⟨by decide, ex_of (o := e1.body 0) (by decide +kernel), ex_of (o := e1.body 2) (by decide +kernel),
    none_of (o := e1.jnt 0) (by decide +kernel)⟩ nd (by decide +kernel) (by decide +kernel)
  have l7 := nx l6 (op := stepWith false e2 [0, 1, 2] []) (step_valid (w := e2) rfl (by decide +kernel)) nd (by decide +kernel) (by decide +kernel)
  have l8 := nx l7 (op := .queryCollisionAll (e3.nodesBelow 2) fun _ => true) (nodes_ok (w := e3) rfl) nd (by decide +kernel) (by decide +kernel)
  have l9 := nx l8 (op := .setSleeping 0 true) (ex_of (o := e4.body 0) (by decide +kernel)) nd (by decide +kernel) (by decide +kernel)
  have l10 := nx l9 (op := .setSleeping 1 true) (ex_of (o := e5.body 1) (by decide +kernel)) nd (by decide +kernel) (by decide +kernel)
  have l11 := nx l10 (op := stepWith true e6 [2, 0] []) (step_valid (w := e6) rfl (by decide +kernel)) nd (by decide +kernel) (by decide +kernel)
  have l12 := nx l11 (op := stepWith true e7 [] []) (step_valid (w := e7) rfl rfl) nd (by decide +kernel) (by decide +kernel)
  have he : eventsOf [[], [], [], [], [], [], evs e2 (stepWith false e2 [0, 1, 2] []), [], [], [], evs e6 (stepWith true e6 [2, 0] []),
      evs e7 (stepWith true e7 [] [])] 0 1 = [.stay] := by decide +kernel
  exact ⟨_, _, [[], [], [], [], [], [], evs e2 (stepWith false e2 [0, 1, 2] []), [], [], [], evs e6 (stepWith true e6 [2, 0] []),
      evs e7 (stepWith true e7 [] [])], _, h0, rfl, l12, he, by rw [he]; rfl⟩

/-- Collider 0 is removed after its contact has been lost between two frames. -/
def WEx.f1 := next d1 (.removeCollider 0 0 [])

/-- C38 does not hold: the exit event of a contact that was lost between two frames refers to a collider that has been removed, and the step is undefined. -/
theorem event_of_removed_collider : ∃ tr w a q, Hist WEx.fat free tr w ∧ w.StepOk a ∧ q ∈ w.lost ∧ w.col q.c1 = none ∧ w.update WEx.fat a = none := by
  obtain ⟨tr, h⟩ := hist_d1
  have h1 := Hist.next h (op := .removeCollider 0 0 []) ⟨⟨col0, by decide +kernel, rfl⟩, by simp⟩ (follows_free _ _) (by decide +kernel)
  have ht : ∀ n, 2 ≤ n → f1.tree n = none := by
    intro n hn
    have : f1.tree = upd theTree 0 none := rfl
    rw [this, upd_ne _ _ (by omega)]
    exact theTree_none n hn
  refine ⟨_, f1, ⟨f1.nodesBelow 2, fun _ => true, [], [], fun _ => cube 0, []⟩, ⟨pairId 1 0, 0, 1, 0, 1, true, false⟩, h1, ⟨nodesBelow_ok ht, by simp, by simp⟩, ?_, ?_, ?_⟩
  · decide +kernel
  · decide +kernel
  · exact none_of (by decide +kernel)

/-- C39 does not hold: `testOverlap` finds the overlap of the two bodies in `w5`, but not in `b2`, where one is static and the other asleep and
the boxes and the result of the narrow phase are the same. -/
theorem overlap_of_sleeping_not_found : ∃ tr w tr' w', Hist WEx.fat free tr w ∧ Hist WEx.fat free tr' w' ∧ w.tree = w'.tree ∧
    (∀ nodes, w.NodesOf nodes → ∃ v, w.testOverlap 0 1 nodes (fun _ => true) = some (v, true)) ∧
    ∀ nodes, w'.NodesOf nodes → ∃ v, w'.testOverlap 0 1 nodes (fun _ => true) = some (v, false) := by
  obtain ⟨tr, h⟩ := hist5 all
  obtain ⟨trf, hf⟩ := hist5 free
  obtain ⟨tr', h'⟩ := hist_b2
  refine ⟨trf, w5, tr', b2, hf, h', rfl, ?_, ?_⟩
  · intro nodes hN
    have sim : Simulated w5 0 := by
      obtain ⟨B, hB⟩ := ex_of (o := w5.body 0) (by decide +kernel)
      refine ⟨B, hB, ?_⟩
      have : (w5.body 0).map Body.disabled = some false := by decide +kernel
      rw [hB] at this; exact Option.some.inj this
    exact test_overlap_complete_partial h trivial trivial hN (Or.inl sim) w5_meet rfl rfl rfl
  · intro nodes hN
    have hmv : ∀ n, b2.moved n = false := by
      intro n; rfl
    have hnil : nodes = [] := by
      cases nodes with
      | nil => rfl
      | cons nm l =>
        have := ((hN nm.1 nm.2).1 (by simp)).1
        rw [hmv] at this; cases this
    subst hnil
    have : (b2.testOverlap 0 1 [] (fun _ => true)).map Prod.snd = some false := by decide +kernel
    obtain ⟨v, hv⟩ := ex_of (o := b2.testOverlap 0 1 [] (fun _ => true)) (by decide +kernel)
    rw [hv] at this
    refine ⟨v.1, hv.trans ?_⟩
    rw [← Option.some.inj this]

/-- Collider 0 is not meant for queries. -/
def WEx.q1 := next w5 (.setQuery 0 false)

/-- C63 does not hold for queries about two bodies: `computeMiddlePhaseCollisionSnapshot` (CollisionDetectionSystem.cpp:461-515) does not look at the flag. -/
theorem query_flag_ignored : ∃ tr w x, Hist WEx.fat free tr w ∧ w.col 0 = some x ∧ x.query = false ∧ (∀ c y, w.col c = some y → y.body = 0 → c = 0) ∧
    w.NodesOf [] ∧ ∃ v, w.testOverlap 0 1 [] (fun _ => true) = some (v, true) := by
  obtain ⟨tr, h⟩ := hist5 free
  have h1 := Hist.next h (op := .setQuery 0 false) (ex_of (o := w5.col 0) (by decide +kernel)) (follows_free _ _) (by decide +kernel)
  refine ⟨_, q1, { col0 with query := false }, h1, by decide +kernel, rfl, ?_, ?_, ?_⟩
  · intro c y hy hb
    obtain ⟨A, hi⟩ := h1.inv
    obtain ⟨B, hB, hm, _⟩ := hi.inv.s.col c y hy
    rw [hb] at hB
    have : (q1.body 0).map Body.cols = some [0] := by decide +kernel
    have e : q1.body 0 = some B := hB
    rw [e] at this
    rw [Option.some.inj this] at hm
    simpa using hm
  · intro n m
    have : q1.moved n = false := rfl
    constructor
    · intro h; cases h
    · rintro ⟨h, _⟩
      have h' : q1.moved n = true := h
      rw [this] at h'; cases h'
  · have : (q1.testOverlap 0 1 [] (fun _ => true)).map Prod.snd = some true := by decide +kernel
    obtain ⟨v, hv⟩ := ex_of (o := q1.testOverlap 0 1 [] (fun _ => true)) (by decide +kernel)
    rw [hv] at this
    refine ⟨v.1, hv.trans ?_⟩
    rw [← Option.some.inj this]

end RP3D
