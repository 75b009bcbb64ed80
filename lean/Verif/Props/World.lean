import Verif.World.Examples

/-!
Property theorems about whole worlds: C23, C25, C26, C27, C28, C34, C36, C37, C38, C39, C63.  The theorems quantify over all histories of
calls (`World.Hist`) with arbitrary answers of the geometric oracles; histories that disagree with a property are in
`Props/WorldDisagree`.
-/

set_option linter.unusedSectionVars false

namespace RP3D

namespace WorldSpec
open World
variable {α : Type} [LinearOrder α]

/-- The world holds an overlapping pair for two colliders. -/
def HasPair (w : World α) (c1 c2 : Nat) : Prop := ∃ id p, w.store.deref id = some p ∧ Same2 p.c1 p.c2 c1 c2

/-- The body takes part in the simulation. -/
def Simulated (w : World α) (b : Nat) : Prop := ∃ B, w.body b = some B ∧ B.disabled = false

/-- Rounds of events: `false` if no round is open. -/
def round : Bool → EvKind → Option Bool
  | false, .start => some true
  | true, .stay => some true
  | true, .exit => some false
  | _, _ => none

/-- The events form rounds of one start, any number of stays and at most one exit (the last round may be open). -/
def rounds : Bool → List EvKind → Option Bool
  | o, [] => some o
  | o, e :: l => (round o e).bind fun o => rounds o l

/-- The events of two colliders, in order, given the events of each call. -/
def eventsOf (evs : List (List Event)) (c1 c2 : Nat) : List EvKind := evs.flatMap fun ev => kinds ev c1 c2

/-- A frame reports both a contact and the end of a contact of the same two colliders. -/
def BothIn (ev : List Event) (c1 c2 : Nat) : Prop :=
  (∃ e ∈ ev, e.kind = .exit ∧ Same2 e.c1 e.c2 c1 c2) ∧ ∃ e ∈ ev, e.kind ≠ .exit ∧ Same2 e.c1 e.c2 c1 c2

/-- The continuation of a history by calls that satisfy `P`, with the events of each call. -/
inductive Later (fat : AABB α → AABB α) (r : Rules) (P : World α → WOp α → List Event → Prop) (w0 : World α) : List (List Event) → World α → Prop
  | refl : Later fat r P w0 [] w0
  | step {evs : List (List Event)} {w w' : World α} {op : WOp α} {ev : List Event} (h : Later fat r P w0 evs w) (hv : w.Valid op) (hf : w.Follows r op)
      (he : w.exec fat op = some (w', ev)) (hp : P w op ev) : Later fat r P w0 (evs ++ [ev]) w'

end WorldSpec

open World WorldSpec

section
variable {α : Type} [LinearOrder α] {fat : AABB α → AABB α} {r : Rules} {w w' : World α} {tr : List (WOp α × List Event)}

theorem hasPair_of {cfg : Cfg} {A : PMap} (h : WInv cfg w A) {c1 c2 n1 n2 : Nat} {x1 x2 : Col} (h1 : w.col c1 = some x1) (h2 : w.col c2 = some x2)
    (b1 : x1.bp = some n1) (b2 : x2.bp = some n2) (hp : ∃ y, A (pairId n1 n2) = some y) : HasPair w c1 c2 := by
  obtain ⟨⟨k, p⟩, hp⟩ := hp
  exact ⟨_, p, h.rep.deref_eq hp, h.pair_at h1 h2 b1 b2 hp⟩

theorem pair_of_deref {cfg : Cfg} {A : PMap} (h : WInv cfg w A) {id : Nat} {p : Pair} (hp : w.store.deref id = some p) : ∃ k, A id = some (k, p) := by
  cases ha : A id with
  | none => simp [PStore.deref, h.rep.get_eq id, ha] at hp
  | some y =>
    obtain ⟨k, q⟩ := y
    rw [h.rep.deref_eq ha] at hp
    cases hp
    exact ⟨k, rfl⟩

/-- C23: two colliders of different bodies that may collide and whose fat boxes overlap have a pair after the next broad-phase step, if one of
them is to be tested (it was added, left its fat box, or a re-check was asked for since the last step). -/
theorem overlaps_discovered (h : Hist fat r tr w) {nodes : List (Nat × Nat)} (hN : w.NodesOf nodes) {c1 c2 n1 n2 : Nat} {x1 x2 : Col} {t1 t2 : TObj α}
    (hm : Meet w c1 c2 n1 n2 x1 x2 t1 t2) (hd : w.moved n1 = true ∨ w.moved n2 = true) : ∃ w', w.broadPhase nodes = some w' ∧ HasPair w' c1 c2 := by
  obtain ⟨A, hi⟩ := h.inv
  obtain ⟨s, l, A', e, h1, hb⟩ := broad_ok hi.inv hN
  exact ⟨_, e, hasPair_of h1 hm.hc1 hm.hc2 hm.hn1 hm.hn2 (hb.meet hi.inv hN hm (Or.inr hd))⟩

/-- C23: the same for all colliders that may collide and whose fat boxes overlap, if the user destroys a joint that forbids collision only when
one of its bodies has no collider. -/
theorem overlaps_complete_partial (h : Hist fat r tr w) (hr : r.cover) {nodes : List (Nat × Nat)} (hN : w.NodesOf nodes) {c1 c2 n1 n2 : Nat} {x1 x2 : Col}
    {t1 t2 : TObj α} (hm : Meet w c1 c2 n1 n2 x1 x2 t1 t2) : ∃ w', w.broadPhase nodes = some w' ∧ HasPair w' c1 c2 := by
  obtain ⟨A, hi⟩ := h.inv
  obtain ⟨s, l, A', e, h1, hb⟩ := broad_ok hi.inv hN
  exact ⟨_, e, hasPair_of h1 hm.hc1 hm.hc2 hm.hn1 hm.hn2 (hb.meet hi.inv hN hm (hi.inv.s.cover hr _ _ _ _ _ _ _ _ hm))⟩

/-- C23: a new collider of an active body is to be tested. -/
theorem added_collider_tested {b c n : Nat} {cv : Bool} {box : AABB α} {B : Body} (hB : w.body b = some B) (ha : B.active = true)
    (he : w.addCollider fat b c cv n box = some w') : w'.moved n = true := by
  simp only [World.addCollider, hB, ha, if_true, cdAdd, addMoved] at he
  simp only [setBody, setCol, upd_same] at he
  split at he
  · cases he
  · rename_i w1 hw1
    split at hw1
    · cases hw1
    · cases hw1
      split at he
      · cases he
      · cases he
        exact upd_same _ _ _

/-- C23: a collider that leaves its fat box is to be tested. -/
theorem moved_collider_tested {box : Nat → AABB α} {c n : Nat} {x : Col} {t : TObj α} (hx : w.col c = some x) (hn : x.bp = some n) (ht : w.tree n = some t)
    (ho : t.fat.contains (box c) = false) (he : w.updateCollider fat box c = some w') : w'.moved n = true := by
  simp only [updateCollider, hx, hn, ht, ho, Bool.and_false, Bool.false_eq_true, if_false, addMoved] at he
  split at he
  · cases he
  · cases he
    exact upd_same _ _ _

/-- C23: a collider for which a re-check is asked (it was resized, its bits changed or its body woke up) is to be tested. -/
theorem recheck_tested {c n : Nat} {x : Col} (hx : w.col c = some x) (hn : x.bp = some n) (he : w.askCheck c = some w') : w'.moved n = true := by
  simp only [askCheck, hx, hn, addMoved] at he
  split at he
  · cases he
  · cases he
    exact upd_same _ _ _

/-- C25, for histories in which filter bits are changed only while the collider has no pair: a reported contact is between colliders whose bits match
in both directions.  Missing: changes of the bits of a collider that has pairs (`filtering_not_respected`). -/
theorem filtering_respected_partial (h : Hist fat r tr w) (hr : r.bits) {a : StepArgs α} (hv : w.StepOk a) {ev : List Event}
    (he : w.update fat a = some (w', ev)) : ∀ e ∈ ev, e.kind ≠ .exit →
    ∃ x1 x2, w.col e.c1 = some x1 ∧ w.col e.c2 = some x2 ∧ (x1.mask &&& x2.cat ≠ 0) ∧ (x2.mask &&& x1.cat ≠ 0) := by
  obtain ⟨A, hi⟩ := h.inv
  obtain ⟨A', _, _, hs⟩ := (update_ok (fat := fat) hi.inv (fun _ h => h) hv).of_some he
  intro e hm hk
  obtain ⟨k, p, x1, x2, ho, e1, e2, _⟩ := hs.contact e hm hk
  obtain ⟨g1, g2⟩ := ho.bits hr
  exact ⟨x1, x2, by rw [e1]; exact ho.c1, by rw [e2]; exact ho.c2, g1, by rw [Nat.and_comm]; exact g2⟩

/-- Contacts are reported only between colliders of different bodies, each of which is a trigger or a simulation collider, and for which the
narrow phase found a contact. -/
theorem contacts_sound (h : Hist fat r tr w) {a : StepArgs α} (hv : w.StepOk a) {ev : List Event} (he : w.update fat a = some (w', ev)) :
    ∀ e ∈ ev, e.kind ≠ .exit → ∃ x1 x2 n1 n2, w.col e.c1 = some x1 ∧ w.col e.c2 = some x2 ∧ x1.body ≠ x2.body ∧ (x1.sim || x1.trigger) = true ∧
      (x2.sim || x2.trigger) = true ∧ x1.bp = some n1 ∧ x2.bp = some n2 ∧ a.hit (pairId n1 n2) = true := by
  obtain ⟨A, hi⟩ := h.inv
  obtain ⟨A', _, _, hs⟩ := (update_ok (fat := fat) hi.inv (fun _ h => h) hv).of_some he
  intro e hm hk
  obtain ⟨k, p, x1, x2, ho, e1, e2, hh, ht⟩ := hs.contact e hm hk
  simp only [isTested, ho.c1, ho.c2, Option.some.injEq, Bool.false_and, Bool.not_false, Bool.true_and, Bool.false_or, Bool.and_eq_true] at ht
  exact ⟨x1, x2, p.bp1, p.bp2, by rw [e1]; exact ho.c1, by rw [e2]; exact ho.c2, ho.ne, ht.1.1, ht.1.2, ho.b1, ho.b2, by rw [← ho.id]; exact hh⟩

/-- C26, for histories that follow the rule `strict`: a pair of colliders that are triggers or simulation colliders is tested in a step if one of the
bodies takes part in the simulation.  Missing: a static body with a sleeping neighbour that is made dynamic (`pair_of_awake_body_skipped`). -/
theorem pair_with_awake_body_tested_partial (h : Hist fat r tr w) (hr : r.strict) {id : Nat} {p : Pair} (hp : w.store.deref id = some p) {x1 x2 : Col}
    (h1 : w.col p.c1 = some x1) (h2 : w.col p.c2 = some x2) (f1 : (x1.sim || x1.trigger) = true) (f2 : (x2.sim || x2.trigger) = true)
    (hs : Simulated w x1.body ∨ Simulated w x2.body) : ∃ w' ids, w.middlePhase false = some (w', ids) ∧ id ∈ ids := by
  obtain ⟨A, hi⟩ := h.inv
  obtain ⟨k, ha⟩ := pair_of_deref hi.inv hp
  have hw := hi.inv.noSync
  obtain ⟨s, ids, e, _, _, hm⟩ := middlePhase_ok hw (fun h => h) false
  refine ⟨_, ids, e, (hm id).2 ⟨k, p, ha, ?_, ?_⟩⟩
  · cases hk : k.enabled with
    | true => rfl
    | false =>
      exfalso
      rcases hs with ⟨B, hB, hd⟩ | ⟨B, hB, hd⟩
      · rcases hi.inv.d.pair hr _ _ _ ha hk _ _ _ (Or.inl rfl) h1 hB with g | g
        · rw [hd] at g; cases g
        · exact g
      · rcases hi.inv.d.pair hr _ _ _ ha hk _ _ _ (Or.inr rfl) h2 hB with g | g
        · rw [hd] at g; cases g
        · exact g
  · have hd : (!x1.disabled || !x2.disabled) = true := by
      rcases hs with ⟨B, hB, hd⟩ | ⟨B, hB, hd⟩
      · rw [hi.inv.d.col _ _ _ h1 hB, hd]; simp
      · rw [hi.inv.d.col _ _ _ h2 hB, hd]; simp
    simp only [isTested, h1, h2, f1, f2, hd]
    rfl

/-- C26: a body is excluded from the simulation only if it is static or sleeping. -/
theorem disabled_static_or_sleeping (h : Hist fat r tr w) {b : Nat} {B : Body} (hB : w.body b = some B) (hd : ¬ Simulated w b) :
    B.type = .static ∨ B.sleeping = true := by
  obtain ⟨A, hi⟩ := h.inv
  refine hi.inv.d.dis b B hB ?_
  cases e : B.disabled with
  | true => rfl
  | false => exact absurd ⟨B, hB, e⟩ hd

/-- C26: a static body never takes part in the simulation, and the colliders of an inactive body are not in the tree. -/
theorem static_or_inactive_excluded (h : Hist fat r tr w) {b : Nat} {B : Body} (hB : w.body b = some B) :
    (B.type = .static → ¬ Simulated w b) ∧ (B.active = false → ∀ c ∈ B.cols, ∃ x, w.col c = some x ∧ x.bp = none ∧ ∀ c', ¬ HasPair w c c') := by
  obtain ⟨A, hi⟩ := h.inv
  constructor
  · rintro ht ⟨B', hB', hd⟩
    rw [hB] at hB'; cases hB'
    rw [hi.inv.d.static b B hB ht] at hd; cases hd
  · intro ha c hc
    obtain ⟨x, hx, hxb⟩ := (hi.inv.s.cols b B hB).2 c hc
    obtain ⟨B', hB', _, hbp⟩ := hi.inv.s.col c x hx
    rw [hxb, hB] at hB'; cases hB'
    have hbp : x.bp = none := by
      rcases hbp with g | g
      · rw [ha] at g
        cases e : x.bp with
        | none => rfl
        | some n => rw [e] at g; cases g
      · exact absurd g (fun h => h)
    refine ⟨x, hx, hbp, ?_⟩
    rintro c' ⟨id, p, hp, hsame⟩
    obtain ⟨k, hpa⟩ := pair_of_deref hi.inv hp
    have := hi.inv.no_pair_of_bp (c := c) (fun y hy => by rw [hx] at hy; cases hy; exact hbp) id k p hpa
    rcases hsame with ⟨e, _⟩ | ⟨_, e⟩
    · exact this.1 e
    · exact this.2 e

/-- C26, C23 and the narrow phase together: in histories that follow the rules `strict` and `cover`, a contact found by the narrow phase between two
colliders that may collide, one of whose bodies takes part in the simulation, is reported. -/
theorem contacts_complete_partial (h : Hist fat r tr w) (hs : r.strict) (hc : r.cover) {a : StepArgs α} (hv : w.StepOk a) {ev : List Event}
    (he : w.update fat a = some (w', ev)) {c1 c2 n1 n2 : Nat} {x1 x2 : Col} {t1 t2 : TObj α} (hm : Meet w c1 c2 n1 n2 x1 x2 t1 t2)
    (f1 : (x1.sim || x1.trigger) = true) (f2 : (x2.sim || x2.trigger) = true) (hb : Simulated w x1.body ∨ Simulated w x2.body)
    (hh : a.hit (pairId n1 n2) = true) : ∃ e ∈ ev, e.kind ≠ .exit ∧ Same2 e.c1 e.c2 c1 c2 := by
  obtain ⟨A, hi⟩ := h.inv
  obtain ⟨A', _, _, hst⟩ := (update_ok (fat := fat) hi.inv (fun _ h => h) hv).of_some he
  refine hst.told hc hs c1 c2 n1 n2 x1 x2 t1 t2 hm f1 f2 ?_ hh
  rcases hb with ⟨B, hB, hd⟩ | ⟨B, hB, hd⟩
  · rw [hi.inv.d.col _ _ _ hm.hc1 hB, hd]; simp
  · rw [hi.inv.d.col _ _ _ hm.hc2 hB, hd]; simp

/-- C27, for histories that follow the rules `strict` and `lost`: no call has undefined behaviour.  Missing: changes of the bits or of the local
transform of a collider while one of its pairs is disabled (`bits_of_sleeping_collider_undefined`). -/
theorem calls_defined_partial (h : Hist fat r tr w) (hs : r.strict) (hl : r.lost) {op : WOp α} (hv : w.Valid op) (hf : w.Follows r op) :
    ∃ w' ev, w.exec fat op = some (w', ev) := by
  obtain ⟨A, hi⟩ := h.inv
  have := exec_ok (fat := fat) hi hv hf
  cases e : w.exec fat op with
  | none => rw [e] at this; exact absurd ⟨hs, hl⟩ this
  | some x => exact ⟨x.1, x.2, rfl⟩

/-- C27: whatever the history, after a call that is defined the stored pairs join existing colliders of different bodies, each pair is stored once,
and each collider lists exactly its pairs. -/
theorem pairs_stay_consistent (h : Hist fat r tr w) :
    (∀ id p, w.store.deref id = some p → p.id = id ∧ (∃ x1 x2, w.col p.c1 = some x1 ∧ w.col p.c2 = some x2 ∧ x1.body ≠ x2.body) ∧
      id ∈ w.store.own p.c1 ∧ id ∈ w.store.own p.c2) ∧
    (∀ c, (w.store.own c).Nodup) ∧ (∀ c id, id ∈ w.store.own c → ∃ p, w.store.deref id = some p ∧ (p.c1 = c ∨ p.c2 = c)) ∧
    (∀ id id' p p', w.store.deref id = some p → w.store.deref id' = some p' → Same2 p.c1 p.c2 p'.c1 p'.c2 → id = id') := by
  obtain ⟨A, hi⟩ := h.inv
  refine ⟨?_, hi.inv.rep.nodup, ?_, ?_⟩
  · intro id p hp
    obtain ⟨k, ha⟩ := pair_of_deref hi.inv hp
    obtain ⟨x1, x2, ho⟩ := hi.inv.s.pair _ _ _ ha
    exact ⟨(hi.inv.rep.wf _ _ _ ha).1, ⟨x1, x2, ho.c1, ho.c2, ho.ne⟩, (hi.inv.rep.own _ _).2 ⟨k, p, ha, Or.inl rfl⟩,
      (hi.inv.rep.own _ _).2 ⟨k, p, ha, Or.inr rfl⟩⟩
  · intro c id hid
    obtain ⟨k, p, ha, hc⟩ := (hi.inv.rep.own c id).1 hid
    exact ⟨p, hi.inv.rep.deref_eq ha, hc⟩
  · intro id id' p p' hp hp' hs
    obtain ⟨k, ha⟩ := pair_of_deref hi.inv hp
    obtain ⟨k', ha'⟩ := pair_of_deref hi.inv hp'
    exact hi.inv.pair_unique ha ha' hs

/-- C28, for histories in which two bodies are connected by at most one joint that forbids collision when such a joint is destroyed: colliders of two bodies
connected by a joint that forbids collision never have a pair.  Missing: several such joints between two bodies (`second_joint_ignored`). -/
theorem joined_bodies_no_pair_partial (h : Hist fat r tr w) (hr : r.joint) {j : Nat} {J : Jnt} (hJ : w.jnt j = some J) (hc : J.coll = false) {c1 c2 : Nat}
    {x1 x2 : Col} (h1 : w.col c1 = some x1) (h2 : w.col c2 = some x2) (hb : Same2 x1.body x2.body J.b1 J.b2) : ¬ HasPair w c1 c2 := by
  obtain ⟨A, hi⟩ := h.inv
  rintro ⟨id, p, hp, hs⟩
  obtain ⟨k, ha⟩ := pair_of_deref hi.inv hp
  obtain ⟨y1, y2, ho⟩ := hi.inv.s.pair _ _ _ ha
  have hn := hi.jj.n.from_joint hr j J hJ hc
  have e : bodyPair y1.body y2.body = bodyPair J.b1 J.b2 := by
    have g1 := ho.c1
    have g2 := ho.c2
    rcases hs with ⟨e1, e2⟩ | ⟨e1, e2⟩
    · rw [e1, h1] at g1; rw [e2, h2] at g2; cases g1; cases g2
      rcases hb with ⟨e3, e4⟩ | ⟨e3, e4⟩
      · rw [e3, e4]
      · rw [e3, e4]; exact bodyPair_comm _ _
    · rw [e1, h2] at g1; rw [e2, h1] at g2; cases g1; cases g2
      rcases hb with ⟨e3, e4⟩ | ⟨e3, e4⟩
      · rw [e3, e4]; exact bodyPair_comm _ _
      · rw [e3, e4]
  have := ho.noColl
  rw [e, hn] at this
  cases this

/-- C28: in the same histories no contact between two such bodies is reported. -/
theorem joined_bodies_no_contact_partial (h : Hist fat r tr w) (hr : r.joint) {a : StepArgs α} (hv : w.StepOk a) {ev : List Event}
    (he : w.update fat a = some (w', ev)) {j : Nat} {J : Jnt} (hJ : w.jnt j = some J) (hc : J.coll = false) :
    ∀ e ∈ ev, e.kind ≠ .exit → ∀ x1 x2, w.col e.c1 = some x1 → w.col e.c2 = some x2 → ¬ Same2 x1.body x2.body J.b1 J.b2 := by
  obtain ⟨A, hi⟩ := h.inv
  obtain ⟨A', _, _, hs⟩ := (update_ok (fat := fat) hi.inv (fun _ h => h) hv).of_some he
  intro e hm hk x1 x2 h1 h2 hb
  obtain ⟨k, p, y1, y2, ho, e1, e2, _⟩ := hs.contact e hm hk
  have hn := hi.jj.n.from_joint hr j J hJ hc
  rw [e1, ho.c1] at h1
  rw [e2, ho.c2] at h2
  cases h1; cases h2
  have e : bodyPair x1.body x2.body = bodyPair J.b1 J.b2 := by
    rcases hb with ⟨e3, e4⟩ | ⟨e3, e4⟩
    · rw [e3, e4]
    · rw [e3, e4]; exact bodyPair_comm _ _
  have := ho.noColl
  rw [e, hn] at this
  cases this

/-- C28: two bodies that are not connected by a joint that forbids collision may collide: they are not excluded from the broad phase. -/
theorem unjoined_bodies_may_collide (h : Hist fat r tr w) {b1 b2 : Nat} (hn : ∀ j J, w.jnt j = some J → J.coll = false → ¬ Same2 J.b1 J.b2 b1 b2) :
    w.noColl (bodyPair b1 b2) = false := by
  obtain ⟨A, hi⟩ := h.inv
  cases e : w.noColl (bodyPair b1 b2) with
  | false => rfl
  | true =>
    obtain ⟨j, J, hJ, hc, hb⟩ := hi.jj.n.to_joint _ e
    exact absurd (bodyPair_eq hb) (hn j J hJ hc)

/-- C36: a collider is never both a trigger and a simulation collider. -/
theorem never_trigger_and_simulation (h : Hist fat r tr w) {c : Nat} {x : Col} (hx : w.col c = some x) : ¬ (x.trigger = true ∧ x.sim = true) := by
  obtain ⟨A, hi⟩ := h.inv
  exact hi.inv.s.flags c x hx

/-- C38, for histories in which no collider is removed while the end of one of its contacts is still to be reported: a step is defined and the colliders
of all its events exist when they are delivered.  Missing: such removals (`event_of_removed_collider`). -/
theorem events_refer_to_existing_partial (h : Hist fat r tr w) (hs : r.strict) (hl : r.lost) {a : StepArgs α} (hv : w.StepOk a) :
    ∃ w' ev, w.update fat a = some (w', ev) ∧ ∀ e ∈ ev, (∃ x, w'.col e.c1 = some x) ∧ ∃ x, w'.col e.c2 = some x := by
  obtain ⟨A, hi⟩ := h.inv
  have := update_ok (fat := fat) hi.inv (fun _ h => h) hv
  cases e : w.update fat a with
  | none => rw [e] at this; exact absurd ⟨hs, hl⟩ this
  | some x =>
    rw [e] at this
    obtain ⟨A', _, _, hst⟩ := this
    exact ⟨x.1, x.2, rfl, hst.exist⟩

theorem rounds_append (o : Bool) (l l' : List EvKind) : rounds o (l ++ l') = (rounds o l).bind fun o => rounds o l' := by
  induction l generalizing o with
  | nil => rfl
  | cons e l ih =>
    simp only [List.cons_append, rounds]
    cases round o e with
    | none => rfl
    | some o' => exact ih o'

/-- C37, for histories without queries of the whole world and without removals while the end of a contact is to be reported: from any time at which one
of two colliders does not exist, and as long as neither is dropped (destroyed, or its body destroyed or (de)activated) and no frame reports both a
contact and the end of a contact of the two, their events form rounds and each frame reports at most one of them.  Missing: whole-world queries
(`stay_without_start`), and contacts lost between two frames and found again (`start_and_exit_in_one_frame`). -/
theorem events_form_rounds_partial {w0 : World α} (h : Hist fat r tr w0) (hs : r.sync) (hl : r.lost) {c1 c2 : Nat} (h0 : w0.col c1 = none)
    {evs : List (List Event)}
    (hL : Later fat r (fun w op ev => ¬ w.dropped op c1 ∧ ¬ w.dropped op c2 ∧ ¬ BothIn ev c1 c2) w0 evs w) :
    (rounds false (eventsOf evs c1 c2)).isSome = true ∧ ∀ ev ∈ evs, (kinds ev c1 c2).length ≤ 1 := by
  suffices H : (∃ A, HInv r w A ∧ ∃ o, rounds false (eventsOf evs c1 c2) = some o ∧ (o = true ↔ Open A w.lost c1 c2)) ∧
      ∀ ev ∈ evs, (kinds ev c1 c2).length ≤ 1 by
    obtain ⟨⟨_, _, o, ho, _⟩, h2⟩ := H
    exact ⟨by rw [ho]; rfl, h2⟩
  induction hL with
  | refl =>
    obtain ⟨A, hi⟩ := h.inv
    refine ⟨⟨A, hi, false, rfl, ?_⟩, fun ev hev => by cases hev⟩
    constructor
    · intro h; cases h
    · rintro (⟨id, k, p, hp, _, hsame⟩ | ⟨q, hq, hsame⟩)
      · obtain ⟨x1, x2, ho⟩ := hi.inv.s.pair _ _ _ hp
        have g1 := ho.c1
        have g2 := ho.c2
        rcases hsame with ⟨e, _⟩ | ⟨_, e⟩
        · rw [e, h0] at g1; cases g1
        · rw [e, h0] at g2; cases g2
      · have := hi.inv.s.lost hl q hq
        simp only [reportable, Bool.and_eq_true] at this
        rcases hsame with ⟨e, _⟩ | ⟨_, e⟩
        · rw [e, h0] at this; simp at this
        · rw [e, h0] at this; simp at this
  | @step evs w w' op ev hL hv hf he hp ih =>
    obtain ⟨⟨A, hi, o, ho, hopen⟩, hlen⟩ := ih
    obtain ⟨A', hi', hef⟩ := (exec_ok hi hv hf).of_some he
    have key : RoundStep (Open A w.lost c1 c2) (kinds ev c1 c2) (Open A' w'.lost c1 c2) := by
      cases op with
      | update a =>
        refine hef.rounds hs c1 c2 ?_
        intro q hq hqs e hev hes
        by_contra hk
        exact hp.2.2 ⟨⟨lostEvent q, hef.reported q hq, rfl, hqs⟩, ⟨e, hev, hk, hes⟩⟩
      | _ =>
        obtain ⟨rfl, hr⟩ := hef
        have := hr c1 c2 hp.1 hp.2.1
        by_cases hO : Open A w.lost c1 c2
        · exact Or.inr (Or.inr (Or.inl ⟨hO, rfl, this.2 hO⟩))
        · exact Or.inl ⟨hO, rfl, fun h => hO (this.1 h)⟩
    refine ⟨⟨A', hi', ?_⟩, ?_⟩
    · have e : eventsOf (evs ++ [ev]) c1 c2 = eventsOf evs c1 c2 ++ kinds ev c1 c2 := by simp [eventsOf]
      rw [e, rounds_append, ho]
      simp only [Option.bind_some]
      rcases key with ⟨a1, a2, a3⟩ | ⟨a1, a2, a3⟩ | ⟨a1, a2, a3⟩ | ⟨a1, a2, a3⟩ | ⟨a1, a2, a3⟩
      all_goals rw [a2]
      · have : o = false := by cases o with | false => rfl | true => exact absurd (hopen.1 rfl) a1
        subst this
        exact ⟨false, rfl, ⟨(by simp), fun h => absurd h a3⟩⟩
      · have : o = false := by cases o with | false => rfl | true => exact absurd (hopen.1 rfl) a1
        subst this
        exact ⟨true, rfl, ⟨fun _ => a3, fun _ => rfl⟩⟩
      · have : o = true := hopen.2 a1
        subst this
        exact ⟨true, rfl, ⟨fun _ => a3, fun _ => rfl⟩⟩
      · have : o = true := hopen.2 a1
        subst this
        exact ⟨true, rfl, ⟨fun _ => a3, fun _ => rfl⟩⟩
      · have : o = true := hopen.2 a1
        subst this
        exact ⟨false, rfl, ⟨(by simp), fun h => absurd h a3⟩⟩
    · intro ev' hev'
      rcases List.mem_append.1 hev' with hev' | hev'
      · exact hlen ev' hev'
      · rw [List.mem_singleton] at hev'
        subst hev'
        rcases key with ⟨_, a2, _⟩ | ⟨_, a2, _⟩ | ⟨_, a2, _⟩ | ⟨_, a2, _⟩ | ⟨_, a2, _⟩ <;> rw [a2] <;> simp

/-- C39, for histories that follow the rules `strict` and `cover`: if one of the two bodies takes part in the simulation, `testOverlap(body1, body2)`
finds every contact between colliders that may collide.  Missing: two bodies that are both static or asleep (`overlap_of_sleeping_not_found`). -/
theorem test_overlap_complete_partial (h : Hist fat r tr w) (hs : r.strict) (hc : r.cover) {b1 b2 : Nat} {nodes : List (Nat × Nat)} (hN : w.NodesOf nodes)
    {hit : Nat → Bool} (hb : Simulated w b1 ∨ Simulated w b2) {c1 c2 n1 n2 : Nat} {x1 x2 : Col} {t1 t2 : TObj α} (hm : Meet w c1 c2 n1 n2 x1 x2 t1 t2)
    (e1 : x1.body = b1) (e2 : x2.body = b2) (hh : hit (pairId n1 n2) = true) : ∃ w', w.testOverlap b1 b2 nodes hit = some (w', true) := by
  obtain ⟨A, hi⟩ := h.inv
  obtain ⟨w', res, A1, e, h1, _, _, ebody, ecol, ⟨l, hbr⟩, hres⟩ := testOverlap_ok hi.inv hN b1 b2 hit
  obtain ⟨⟨k, p⟩, hp⟩ := hbr.meet hi.inv hN hm (hi.inv.s.cover hc _ _ _ _ _ _ _ _ hm)
  have hc1' : w'.col c1 = some x1 := by rw [ecol]; exact hm.hc1
  have hc2' : w'.col c2 = some x2 := by rw [ecol]; exact hm.hc2
  have hpe := h1.pair_at hc1' hc2' hm.hn1 hm.hn2 hp
  have hk : k.enabled = true := by
    cases hk : k.enabled with
    | true => rfl
    | false =>
      exfalso
      have hdis : ∀ c x B, c = p.c1 ∨ c = p.c2 → w.col c = some x → w.body x.body = some B → B.disabled = true := by
        intro c x B hc hx hB
        rcases h1.d.pair hs _ _ _ hp hk c x B hc (by rw [ecol]; exact hx) (by rw [ebody]; exact hB) with g | g
        · exact g
        · exact g.elim
      have m1 : c1 = p.c1 ∨ c1 = p.c2 := by
        rcases hpe with ⟨a1, a2⟩ | ⟨a1, a2⟩
        · exact Or.inl a1.symm
        · exact Or.inr a2.symm
      have m2 : c2 = p.c1 ∨ c2 = p.c2 := by
        rcases hpe with ⟨a1, a2⟩ | ⟨a1, a2⟩
        · exact Or.inr a2.symm
        · exact Or.inl a1.symm
      rcases hb with ⟨B, hB, hd⟩ | ⟨B, hB, hd⟩
      · rw [hdis c1 x1 B m1 hm.hc1 (by rw [e1]; exact hB)] at hd; cases hd
      · rw [hdis c2 x2 B m2 hm.hc2 (by rw [e2]; exact hB)] at hd; cases hd
  have : res = true := by
    rw [hres]
    rcases hpe with ⟨a1, a2⟩ | ⟨a1, a2⟩
    · exact ⟨_, k, p, x1, x2, hh, hp, hk, by rw [a1]; exact hm.hc1, by rw [a2]; exact hm.hc2, Or.inl ⟨e1, e2⟩⟩
    · exact ⟨_, k, p, x2, x1, hh, hp, hk, by rw [a1]; exact hm.hc2, by rw [a2]; exact hm.hc1, Or.inr ⟨e2, e1⟩⟩
  rw [this] at e
  exact ⟨w', e⟩

/-- C39: `testOverlap(body1, body2)` answers yes only if the narrow phase finds a contact between a collider of one and a collider of the other. -/
theorem test_overlap_sound (h : Hist fat r tr w) {b1 b2 : Nat} {nodes : List (Nat × Nat)} (hN : w.NodesOf nodes) {hit : Nat → Bool}
    (he : w.testOverlap b1 b2 nodes hit = some (w', true)) : ∃ c1 c2 x1 x2 n1 n2, w.col c1 = some x1 ∧ w.col c2 = some x2 ∧ x1.body = b1 ∧ x2.body = b2 ∧
      x1.bp = some n1 ∧ x2.bp = some n2 ∧ hit (pairId n1 n2) = true := by
  obtain ⟨A, hi⟩ := h.inv
  obtain ⟨w'', res, A1, e, h1, _, _, ebody, ecol, _, hres⟩ := testOverlap_ok hi.inv hN b1 b2 hit
  rw [he] at e
  cases e
  obtain ⟨id, k, p, x1, x2, hh, hp, _, g1, g2, hb⟩ := hres.1 rfl
  obtain ⟨y1, y2, ho⟩ := h1.s.pair _ _ _ hp
  have hy1 := ho.c1
  have hy2 := ho.c2
  rw [ecol, g1] at hy1
  rw [ecol, g2] at hy2
  cases hy1; cases hy2
  have hid : pairId p.bp1 p.bp2 = id := by rw [← ho.id]; exact (h1.rep.wf _ _ _ hp).1
  rcases hb with ⟨e1, e2⟩ | ⟨e1, e2⟩
  · exact ⟨p.c1, p.c2, x1, x2, p.bp1, p.bp2, g1, g2, e1, e2, ho.b1, ho.b2, by rw [hid]; exact hh⟩
  · exact ⟨p.c2, p.c1, x2, x1, p.bp2, p.bp1, g2, g1, e2, e1, ho.b2, ho.b1, by rw [pairId_comm, hid]; exact hh⟩

/-- C39: asking does not change which bodies and colliders there are, nor their state. -/
theorem test_overlap_pure (h : Hist fat r tr w) {b1 b2 : Nat} {nodes : List (Nat × Nat)} (hN : w.NodesOf nodes) {hit : Nat → Bool} :
    ∃ w' res, w.testOverlap b1 b2 nodes hit = some (w', res) ∧ w'.body = w.body ∧ w'.col = w.col ∧ w'.jnt = w.jnt := by
  obtain ⟨A, hi⟩ := h.inv
  obtain ⟨w', res, A1, e, h1, _, hj, ebody, ecol, _⟩ := testOverlap_ok hi.inv hN b1 b2 hit
  exact ⟨w', res, e, ebody, ecol, hj.1.1⟩

/-- C63: a query of the whole world reports no pair with a collider that is not meant for queries (`testOverlap(callback)`; for the queries about one or two bodies
see `query_flag_ignored`). -/
theorem query_flag_respected_partial (h : Hist fat r tr w) {nodes : List (Nat × Nat)} (hN : w.NodesOf nodes) {hit : Nat → Bool} :
    ∃ w' ids, w.queryOverlapAll nodes hit = some (w', ids) ∧ ∀ id ∈ ids, ∃ c1 c2 x1 x2 n1 n2, w.col c1 = some x1 ∧ w.col c2 = some x2 ∧ x1.query = true ∧
      x2.query = true ∧ x1.bp = some n1 ∧ x2.bp = some n2 ∧ id = pairId n1 n2 ∧ hit id = true := by
  obtain ⟨A, hi⟩ := h.inv
  obtain ⟨w', ids, A1, e, _, _, _, _, ⟨l, hb⟩, hpair, hm⟩ := queryOverlapAll_ok hi.inv.noSync (fun h => h) hN hit
  refine ⟨w', ids, e, ?_⟩
  intro id hid
  obtain ⟨hh, k, p, hp, hk, ht⟩ := (hm id).1 hid
  unfold isTested at ht
  split at ht
  · rename_i x1 x2 g1 g2
    simp only [Option.some.injEq, Bool.true_and, Bool.not_true, Bool.false_and, Bool.or_false, Bool.true_or, Bool.and_true, Bool.and_eq_true] at ht
    obtain ⟨hpid, y1, y2, ho⟩ := hpair _ _ _ hp
    have k1 := ho.c1
    have k2 := ho.c2
    rw [g1] at k1; rw [g2] at k2
    cases k1; cases k2
    exact ⟨p.c1, p.c2, x1, x2, p.bp1, p.bp2, g1, g2, ht.1, ht.2, ho.b1, ho.b2, by rw [← hpid]; exact ho.id, hh⟩
  · cases ht

end

/-! Each theorem applied to a concrete history: the scenes `WEx.w4` (two overlapping colliders, not stepped yet) and `WEx.w5` (after one step), reached under all
rules. -/

namespace WEx

theorem sim_of {w : World Int} {b : Nat} (hb : (w.body b).map Body.disabled = some false) : Simulated w b := by
  cases hB : w.body b with
  | none => rw [hB] at hb; cases hb
  | some B => rw [hB] at hb; exact ⟨B, hB, Option.some.inj hb⟩

/-- The first step of the scene. -/
def args4 : StepArgs Int := ⟨w4.nodesBelow 2, fun _ => true, [], [], fun _ => cube 0, []⟩

theorem args4_ok : w4.StepOk args4 := step_valid (w := w4) (hit := true) (wake := []) (sleep := []) rfl rfl

theorem update4 : ∃ w', w4.update fat args4 = some (w', [⟨.start, 0, 1, false⟩]) := by
  obtain ⟨⟨w', ev⟩, he⟩ := ex_of (o := w4.update fat args4) (by decide +kernel)
  have : ev = [⟨.start, 0, 1, false⟩] := by
    have := w4_step
    rw [evs, show w4.exec fat (stepOp w4 [] []) = some (w', ev) from he] at this
    exact this
  exact ⟨w', by rw [he, this]⟩

example : ∃ w', w4.broadPhase (w4.nodesBelow 2) = some w' ∧ HasPair w' 0 1 := by
  obtain ⟨tr, h⟩ := hist4 all
  exact overlaps_discovered h (nodes_ok rfl) w4_meet (Or.inl rfl)

example : ∃ w', w5.broadPhase (w5.nodesBelow 2) = some w' ∧ HasPair w' 0 1 := by
  obtain ⟨tr, h⟩ := hist5 all
  exact overlaps_complete_partial h trivial (nodes_ok rfl) w5_meet

example : w4.moved 1 = true := by
  obtain ⟨w', he⟩ := ex_of (o := w3.addCollider fat 1 1 true 1 (cube 1)) (by decide +kernel)
  have := added_collider_tested (fat := fat) (w := w3) (B := ⟨.dynamic, true, false, false, [], false, []⟩) (by decide +kernel) rfl he
  have e : w4 = w' := by simp [w4, next, exec, he]
  rw [e]; exact this

example : ∃ w', w5.updateCollider fat (fun _ => cube 9) 0 = some w' ∧ w5.moved 0 = false ∧ w'.moved 0 = true := by
  obtain ⟨w', he⟩ := ex_of (o := w5.updateCollider fat (fun _ => cube 9) 0) (by decide +kernel)
  exact ⟨w', he, rfl, moved_collider_tested (t := ⟨0, fat (cube 0)⟩) (x := col0) (by decide +kernel) rfl rfl (by decide) he⟩

example : ∃ w', w5.askCheck 0 = some w' ∧ w5.moved 0 = false ∧ w'.moved 0 = true := by
  obtain ⟨w', he⟩ := ex_of (o := w5.askCheck 0) (by decide +kernel)
  exact ⟨w', he, rfl, recheck_tested (x := col0) (by decide +kernel) rfl he⟩

/-- A contact is reported in the scene, and it satisfies the conclusions of the theorems about reported contacts. -/
example : ∃ x1 x2, w4.col 0 = some x1 ∧ w4.col 1 = some x2 ∧ (x1.mask &&& x2.cat ≠ 0) ∧ (x2.mask &&& x1.cat ≠ 0) := by
  obtain ⟨tr, h⟩ := hist4 all
  obtain ⟨w', he⟩ := update4
  exact filtering_respected_partial h trivial args4_ok he ⟨.start, 0, 1, false⟩ (by simp) (by decide)

example : ∃ x1 x2 n1 n2, w4.col 0 = some x1 ∧ w4.col 1 = some x2 ∧ x1.body ≠ x2.body ∧ (x1.sim || x1.trigger) = true ∧ (x2.sim || x2.trigger) = true ∧
    x1.bp = some n1 ∧ x2.bp = some n2 ∧ args4.hit (pairId n1 n2) = true := by
  obtain ⟨tr, h⟩ := hist4 all
  obtain ⟨w', he⟩ := update4
  exact contacts_sound h args4_ok he ⟨.start, 0, 1, false⟩ (by simp) (by decide)

example : ∃ w' ids, w5.middlePhase false = some (w', ids) ∧ pairId 0 1 ∈ ids := by
  obtain ⟨tr, h⟩ := hist5 all
  obtain ⟨p, hp⟩ := ex_of (o := w5.store.deref (pairId 0 1)) (by decide +kernel)
  have hc : p.c1 = 0 ∧ p.c2 = 1 := by
    have e : (w5.store.deref (pairId 0 1)).map (fun p => (p.c1, p.c2)) = some (0, 1) := by decide +kernel
    rw [hp] at e
    have := Option.some.inj e
    rw [Prod.mk.injEq] at this
    exact this
  exact pair_with_awake_body_tested_partial h trivial hp (x1 := col0) (x2 := col1) (by rw [hc.1]; decide +kernel) (by rw [hc.2]; decide +kernel) rfl rfl
    (Or.inl (sim_of (by decide +kernel)))

example : ∃ e ∈ [(⟨.start, 0, 1, false⟩ : Event)], e.kind ≠ .exit ∧ Same2 e.c1 e.c2 0 1 := by
  obtain ⟨tr, h⟩ := hist4 all
  obtain ⟨w', he⟩ := update4
  exact contacts_complete_partial h trivial trivial args4_ok he w4_meet rfl rfl (Or.inl (sim_of (by decide +kernel))) rfl

/-- A sleeping body. -/
def s1 := next w5 (.setSleeping 1 true)

example : ∃ B, s1.body 1 = some B ∧ ¬ Simulated s1 1 ∧ (B.type = .static ∨ B.sleeping = true) := by
  obtain ⟨tr, h⟩ := hist5 all
  have h1 := Hist.next h (op := .setSleeping 1 true) (ex_of (o := w5.body 1) (by decide +kernel)) trivial (by decide +kernel)
  have hb : s1.body 1 = some ⟨.dynamic, true, true, true, [1], true, []⟩ := by decide +kernel
  have hn : ¬ Simulated s1 1 := by
    rintro ⟨B, hB, hd⟩
    rw [hb] at hB; cases hB; cases hd
  exact ⟨_, hb, hn, disabled_static_or_sleeping h1 hb hn⟩

/-- An inactive body. -/
def s2 := next w5 (.setActive 1 false [] fun _ => cube 0)

example : ∀ c ∈ [1], ∃ x, s2.col c = some x ∧ x.bp = none ∧ ∀ c', ¬ HasPair s2 c c' := by
  obtain ⟨tr, h⟩ := hist5 all
  have hb : w5.body 1 = some ⟨.dynamic, true, false, false, [1], true, []⟩ := by decide +kernel
  have h1 := Hist.next h (op := .setActive 1 false [] fun _ => cube 0) ⟨_, hb, by simp⟩ trivial (by decide +kernel)
  have hb' : s2.body 1 = some ⟨.dynamic, false, true, true, [1], true, []⟩ := by decide +kernel
  exact (static_or_inactive_excluded h1 hb').2 rfl

example : ∃ w' ev, w5.exec fat (.removeCollider 0 0 [1]) = some (w', ev) := by
  obtain ⟨tr, h⟩ := hist5 all
  refine calls_defined_partial h trivial trivial ⟨⟨col0, by decide +kernel, rfl⟩, ?_⟩ ?_
  · intro b hb
    rw [List.mem_singleton] at hb
    subst hb
    exact ex_of (o := w5.body 1) (by decide +kernel)
  · intro _ q hq
    have : w5.lost = [] := by decide +kernel
    rw [this] at hq; cases hq

example : ∃ p, w5.store.deref (pairId 0 1) = some p ∧ pairId 0 1 ∈ w5.store.own p.c1 := by
  obtain ⟨tr, h⟩ := hist5 all
  obtain ⟨p, hp⟩ := ex_of (o := w5.store.deref (pairId 0 1)) (by decide +kernel)
  exact ⟨p, hp, ((pairs_stay_consistent h).1 _ _ hp).2.2.1⟩

/-- A joint that forbids collision. -/
def j1 := next w5 (.createJoint 0 0 1 false)

theorem hist_j1 : ∃ tr, Hist fat all tr j1 := by
  obtain ⟨tr, h⟩ := hist5 all
  exact ⟨_, Hist.next h (op := .createJoint 0 0 1 false) ⟨by decide, ex_of (o := w5.body 0) (by decide +kernel), ex_of (o := w5.body 1) (by decide +kernel),
    none_of (o := w5.jnt 0) (by decide +kernel)⟩ trivial (by decide +kernel)⟩

example : ¬ HasPair j1 0 1 := by
  obtain ⟨tr, h⟩ := hist_j1
  exact joined_bodies_no_pair_partial h trivial (j := 0) (J := ⟨0, 1, false⟩) (by decide +kernel) rfl (x1 := col0) (x2 := col1) (by decide +kernel) (by decide +kernel)
    (Or.inl ⟨rfl, rfl⟩)

/-- The step after the joint is created reports the end of the contact. -/
example : ∃ w', j1.update fat ⟨j1.nodesBelow 2, fun _ => true, [], [], fun _ => cube 0, []⟩ = some (w', [⟨.exit, 0, 1, false⟩]) := by
  obtain ⟨tr, h⟩ := hist_j1
  have hv : j1.StepOk ⟨j1.nodesBelow 2, fun _ => true, [], [], fun _ => cube 0, []⟩ := step_valid (w := j1) (hit := true) (wake := []) (sleep := []) rfl rfl
  obtain ⟨w', ev, he, _⟩ := events_refer_to_existing_partial (fat := fat) h trivial trivial hv
  have : ev = [⟨.exit, 0, 1, false⟩] := by
    have : evs j1 (stepOp j1 [] []) = [⟨.exit, 0, 1, false⟩] := by decide +kernel
    rw [evs, show j1.exec fat (stepOp j1 [] []) = some (w', ev) from he] at this
    exact this
  have hn := joined_bodies_no_contact_partial h trivial hv he (j := 0) (J := ⟨0, 1, false⟩) (by decide +kernel) rfl
  exact ⟨w', by rw [he, this]⟩

example : w5.noColl (bodyPair 0 1) = false := by
  obtain ⟨tr, h⟩ := hist5 all
  exact unjoined_bodies_may_collide h (by intro j J hJ; have e : w5.jnt j = none := rfl; rw [e] at hJ; cases hJ)

example : ¬ (col0.trigger = true ∧ col0.sim = true) := by
  obtain ⟨tr, h⟩ := hist5 all
  exact never_trigger_and_simulation h (c := 0) (by decide +kernel)

/-- The events of the scene from the empty world: a start, then a stay. -/
example : ∃ l, eventsOf l 0 1 = [.start, .stay] ∧ (rounds false (eventsOf l 0 1)).isSome = true := by
  have nx : ∀ {evs0 : List (List Event)} {w : World Int}, Later fat all (fun w op ev => ¬ w.dropped op 0 ∧ ¬ w.dropped op 1 ∧ ¬ BothIn ev 0 1) World.init evs0 w →
      ∀ {op : WOp Int}, w.Valid op → w.Follows all op → (¬ w.dropped op 0 ∧ ¬ w.dropped op 1) → (w.exec fat op).isSome = true →
      (evs w op).all (fun e => decide (e.kind ≠ .exit)) = true →
      Later fat all (fun w op ev => ¬ w.dropped op 0 ∧ ¬ w.dropped op 1 ∧ ¬ BothIn ev 0 1) World.init (evs0 ++ [evs w op]) (next w op) := by
    intro evs0 w h op hv hf hd he hx
    obtain ⟨x, hx'⟩ := ex_of he
    refine Later.step h hv hf (by simp [WEx.next, evs, hx']) ⟨hd.1, hd.2, ?_⟩
    rintro ⟨⟨e, hm, hk, _⟩, _⟩
    rw [List.all_eq_true] at hx
    have := hx e hm
    rw [hk] at this
    simp at this
  have nd : ¬ False ∧ ¬ False := ⟨id, id⟩
  have l1 := nx Later.refl (op := .createBody 0) rfl trivial nd (by decide +kernel) (by decide +kernel)
  have l2 := nx l1 (op := .createBody 1) (none_of (o := w1.body 1) (by decide +kernel)) trivial nd (by decide +kernel) (by decide +kernel)
  have l3 := nx l2 (op := .addCollider 0 0 true 0 (cube 0)) ⟨ex_of (o := w2.body 0) (by decide +kernel), none_of (o := w2.col 0) (by decide +kernel), by decide,
    none_of (o := w2.tree 0) (by decide +kernel)⟩ trivial nd (by decide +kernel) (by decide +kernel)
  have l4 := nx l3 (op := .addCollider 1 1 true 1 (cube 1)) ⟨ex_of (o := w3.body 1) (by decide +kernel), none_of (o := w3.col 1) (by decide +kernel), by decide,
    none_of (o := w3.tree 1) (by decide +kernel)⟩ trivial nd (by decide +kernel) (by decide +kernel)
  have l5 := nx l4 (op := stepOp w4 [] []) (step_valid (w := w4) rfl rfl) trivial nd (by decide +kernel) (by decide +kernel)
  have l6 := nx l5 (op := stepOp w5 [] []) (step_valid (w := w5) rfl rfl) trivial nd (by decide +kernel) (by decide +kernel)
  refine ⟨[[], [], [], [], evs w4 (stepOp w4 [] []), evs w5 (stepOp w5 [] [])], by decide +kernel, ?_⟩
  exact (events_form_rounds_partial Hist.init trivial trivial rfl l6).1

example : ∃ w', w5.testOverlap 0 1 (w5.nodesBelow 2) (fun _ => true) = some (w', true) := by
  obtain ⟨tr, h⟩ := hist5 all
  exact test_overlap_complete_partial h trivial trivial (nodes_ok rfl) (Or.inl (sim_of (by decide +kernel))) w5_meet rfl rfl rfl

example : ∃ w' ids, w5.queryOverlapAll (w5.nodesBelow 2) (fun _ => true) = some (w', ids) ∧ pairId 0 1 ∈ ids := by
  obtain ⟨⟨w', ids⟩, e⟩ := ex_of (o := w5.queryOverlapAll (w5.nodesBelow 2) (fun _ => true)) (by decide +kernel)
  have : (w5.queryOverlapAll (w5.nodesBelow 2) (fun _ => true)).map Prod.snd = some [pairId 0 1] := by decide +kernel
  rw [e] at this
  have hi : ids = [pairId 0 1] := Option.some.inj this
  exact ⟨w', ids, e, by rw [hi]; simp⟩

end WEx
end RP3D
