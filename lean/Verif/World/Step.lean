import Verif.World.Joints

/-! Lemmas: the collision detection keeps the invariant, and what it does to pairs and rounds of events. -/

set_option linter.unusedVariables false
set_option linter.unusedSimpArgs false
set_option linter.unusedSectionVars false

namespace RP3D
namespace World
variable {α : Type} [LinearOrder α]
variable {w w' w'' : World α} {A A' A'' : PMap} {cfg : Cfg}

/-- Pairs are only added, and only their marks are lifted. -/
structure Grow (A A' : PMap) : Prop where
  keep : ∀ id k p, A id = some (k, p) → ∃ b, (b = p.need ∨ b = false) ∧ A' id = some (k, { p with need := b })
  new : ∀ id k p', A' id = some (k, p') → (∃ p, A id = some (k, p)) ∨
    (A id = none ∧ p'.prev = false ∧ p'.cur = false ∧ p'.need = false ∧ k.enabled = true)

theorem Grow.refl (A : PMap) : Grow A A := ⟨fun id k p h => ⟨p.need, Or.inl rfl, h⟩, fun id k p h => Or.inl ⟨p, h⟩⟩

theorem Grow.old (h : Grow A A') {id : Nat} {k : Kind} {p p' : Pair} (hp : A id = some (k, p)) (hp' : A' id = some (k, p')) :
    p' = { p with need := p'.need } ∧ (p'.need = p.need ∨ p'.need = false) := by
  obtain ⟨b, hb, e⟩ := h.keep id k p hp
  rw [hp'] at e
  cases e
  exact ⟨rfl, hb⟩

theorem Grow.trans (h : Grow A A') (h2 : Grow A' A'') : Grow A A'' := by
  constructor
  · intro id k p hp
    obtain ⟨b, hb, e⟩ := h.keep id k p hp
    obtain ⟨b', hb', e'⟩ := h2.keep id k _ e
    refine ⟨b', ?_, e'⟩
    rcases hb' with rfl | rfl
    · exact hb
    · exact Or.inr rfl
  · intro id k p'' hp
    rcases h2.new id k p'' hp with ⟨p', hp'⟩ | ⟨hn, h3⟩
    · rcases h.new id k p' hp' with ⟨p, hp⟩ | ⟨hn, h3, h4, h5, h6⟩
      · exact Or.inl ⟨p, hp⟩
      · obtain ⟨e, e'⟩ := h2.old hp' hp
        exact Or.inr ⟨hn, by rw [e]; exact h3, by rw [e]; exact h4, e'.elim (fun e => e.trans h5) (fun e => e), h6⟩
    · refine Or.inr ⟨?_, h3⟩
      cases ha : A id with
      | none => rfl
      | some x =>
        obtain ⟨b, _, hb⟩ := h.keep id x.1 x.2 ha
        rw [hn] at hb; cases hb

/-- `Meet` does not depend on the pairs. -/
theorem Meet.store {s : PStore} {L : List CPair} {m : Nat → Bool} {c1 c2 n1 n2 : Nat} {x1 x2 : Col} {t1 t2 : TObj α} (h : Meet w c1 c2 n1 n2 x1 x2 t1 t2) :
    Meet { w with store := s, lost := L, moved := m } c1 c2 n1 n2 x1 x2 t1 t2 :=
  ⟨h.hc1, h.hc2, h.hn1, h.hn2, h.ht1, h.ht2, h.ne, h.noColl, h.bits, h.cvx, h.fat⟩

/-- The store changes by adding pairs that are fine. -/
theorem store_grow {s : PStore} (h : WInv cfg w A) (hcov : ¬ cfg.cover) (hr : s.Rep A') (hg : Grow A A')
    (hn : ∀ id k p, A' id = some (k, p) → A id = none → ∃ x1 x2, PairOk cfg w k p x1 x2) : WInv cfg { w with store := s } A' := by
  have key : ∀ id k p', A' id = some (k, p') → ∃ x1 x2, PairOk cfg w k p' x1 x2 := by
    intro id k p' hp'
    rcases hg.new id k p' hp' with ⟨p, hp⟩ | ⟨hno, _⟩
    · obtain ⟨x1, x2, ho⟩ := h.s.pair id k p hp
      have e := (hg.old hp hp').1
      refine ⟨x1, x2, ⟨by rw [e]; exact ho.c1, by rw [e]; exact ho.c2, ho.ne, by rw [e]; exact ho.b1, by rw [e]; exact ho.b2, by rw [e]; exact ho.id,
        ho.noColl, ho.cvx, ho.bits⟩⟩
    · exact hn id k p' hp' hno
  refine ⟨hr, ⟨?_, h.s.col, h.s.cols, h.s.bp, h.s.bpMap, h.s.tree, h.s.flags, h.s.lost, fun hc => absurd hc hcov, ⟨h.s.once.once, ?_⟩, ?_⟩,
    ⟨h.d.col, h.d.static, h.d.dis, h.d.moved, ?_⟩⟩
  · intro id k p' hp'
    obtain ⟨x1, x2, ho⟩ := key id k p' hp'
    exact ⟨x1, x2, ⟨ho.c1, ho.c2, ho.ne, ho.b1, ho.b2, ho.id, ho.noColl, ho.cvx, ho.bits⟩⟩
  · intro q hq id k p' hp' hpr
    rcases hg.new id k p' hp' with ⟨p, hp⟩ | ⟨_, hno, _⟩
    · have e := (hg.old hp hp').1
      rw [e] at hpr ⊢
      exact h.s.once.apart q hq id k p hp hpr
    · rw [hno] at hpr; cases hpr
  · intro hs id k p' hp'
    rcases hg.new id k p' hp' with ⟨p, hp⟩ | ⟨_, h1, h2, _⟩
    · have e := (hg.old hp hp').1
      rw [e]
      exact h.s.sync hs id k p hp
    · rw [h1, h2]
  · intro hst id k p' hp' hk c x B hc hx hB
    rcases hg.new id k p' hp' with ⟨p, hp⟩ | ⟨_, _, _, _, he⟩
    · have e := (hg.old hp hp').1
      rw [e] at hc
      exact h.d.pair hst id k p hp hk c x B hc hx hB
    · rw [he] at hk; cases hk

theorem grow_need {id : Nat} {k : Kind} {p : Pair} (ha : A id = some (k, p)) : Grow A (upd A id (some (k, { p with need := false }))) := by
  constructor
  · intro j k' p' hj
    by_cases e : j = id
    · subst e; rw [ha] at hj; cases hj; exact ⟨false, Or.inr rfl, upd_same _ _ _⟩
    · exact ⟨p'.need, Or.inl rfl, by rw [upd_ne _ _ e]; exact hj⟩
  · intro j k' p' hj
    by_cases e : j = id
    · subst e; rw [upd_same] at hj; cases hj; exact Or.inl ⟨p, ha⟩
    · rw [upd_ne _ _ e] at hj; exact Or.inl ⟨p', hj⟩

theorem grow_new {id : Nat} {k : Kind} {p : Pair} (ha : A id = none) (h1 : p.prev = false) (h2 : p.cur = false) (h3 : p.need = false) (h4 : k.enabled = true) :
    Grow A (upd A id (some (k, p))) := by
  constructor
  · intro j k' p' hj
    have e : j ≠ id := by rintro rfl; rw [ha] at hj; cases hj
    exact ⟨p'.need, Or.inl rfl, by rw [upd_ne _ _ e]; exact hj⟩
  · intro j k' p' hj
    by_cases e : j = id
    · subst e; rw [upd_same] at hj; cases hj; exact Or.inr ⟨ha, h1, h2, h3, h4⟩
    · rw [upd_ne _ _ e] at hj; exact Or.inl ⟨p', hj⟩

/-- One pair of nodes reported by the tree. -/
theorem updateOverlap_ok (h : WInv cfg w A) (hcov : ¬ cfg.cover) {nm : Nat × Nat} (h1 : ∃ t, w.tree nm.1 = some t) (h2 : ∃ t, w.tree nm.2 = some t) :
    ∃ s A', w.updateOverlap nm = some { w with store := s } ∧ WInv cfg { w with store := s } A' ∧ Grow A A' ∧
      ∀ c1 c2 x1 x2 t1 t2, Meet w c1 c2 nm.1 nm.2 x1 x2 t1 t2 → ∃ y, A' (pairId nm.1 nm.2) = some y := by
  obtain ⟨t1, ht1⟩ := h1
  obtain ⟨t2, ht2⟩ := h2
  have hm1 := h.s.tree _ _ ht1
  have hm2 := h.s.tree _ _ ht2
  obtain ⟨⟨x1, hx1, hb1⟩, _⟩ := h.s.bpMap _ _ hm1
  obtain ⟨⟨x2, hx2, hb2⟩, _⟩ := h.s.bpMap _ _ hm2
  have hnode : ∀ {n c c' : Nat} {x x' : Col}, w.col c = some x → x.bp = some n → w.col c' = some x' → x'.bp = some n → x = x' := by
    intro n c c' x x' hc hb hc' hb'
    have := h.bp_inj hc hc' hb hb'
    subst this
    rw [hc] at hc'; exact Option.some.inj hc'
  unfold updateOverlap
  have id0 : w = { w with store := w.store } := rfl
  by_cases e0 : nm.1 = nm.2
  · rw [if_pos e0]
    refine ⟨w.store, A, rfl, h, Grow.refl A, ?_⟩
    intro c1 c2 y1 y2 u1 u2 hm
    exact absurd (by rw [hnode hm.hc1 hm.hn1 hm.hc2 (by rw [e0]; exact hm.hn2)]) hm.ne
  rw [if_neg e0]
  simp only [hm1, hm2, hx1, hx2]
  by_cases e1 : x1.body = x2.body
  · rw [if_pos e1]
    refine ⟨w.store, A, rfl, h, Grow.refl A, ?_⟩
    intro c1 c2 y1 y2 u1 u2 hm
    exact absurd (by rw [hnode hm.hc1 hm.hn1 hx1 hb1, hnode hm.hc2 hm.hn2 hx2 hb2]; exact e1) hm.ne
  rw [if_neg e1]
  by_cases e2 : w.noColl (bodyPair x1.body x2.body) = true
  · rw [if_pos e2]
    refine ⟨w.store, A, rfl, h, Grow.refl A, ?_⟩
    intro c1 c2 y1 y2 u1 u2 hm
    have := hm.noColl
    rw [hnode hm.hc1 hm.hn1 hx1 hb1, hnode hm.hc2 hm.hn2 hx2 hb2, e2] at this
    cases this
  rw [if_neg e2, h.rep.get_eq]
  cases ha : A (pairId nm.1 nm.2) with
  | some y =>
    obtain ⟨k, p⟩ := y
    obtain ⟨s, hs, hr, ho⟩ := PStore.modify_rep (f := fun p => { p with need := false }) h.rep ha (fun _ => rfl) (fun _ => ⟨rfl, rfl, rfl⟩)
    simp only [Option.map_some, hs]
    refine ⟨s, _, rfl, store_grow h hcov hr (grow_need ha) ?_, grow_need ha, ?_⟩
    · intro j k' p' hj hno
      by_cases e : j = pairId nm.1 nm.2
      · subst e; rw [ha] at hno; cases hno
      · rw [upd_ne _ _ e, hno] at hj; cases hj
    · intro c1 c2 y1 y2 u1 u2 hm
      exact ⟨_, upd_same _ _ _⟩
  | none =>
    simp only [Option.map_none]
    by_cases e3 : x1.mask &&& x2.cat ≠ 0 ∧ x1.cat &&& x2.mask ≠ 0
    · rw [if_pos e3]
      by_cases e4 : (x1.convex || x2.convex) = true
      · rw [if_pos e4]
        simp only [hb1, hb2]
        have hne : t1.col ≠ t2.col := by
          intro e
          rw [e] at hx1
          rw [hx1] at hx2; cases hx2
          exact e1 rfl
        obtain ⟨s, hs, hr⟩ := PStore.addPair_rep h.rep (a := t1.col) (b := t2.col) hne ha (x1.convex && x2.convex)
        simp only [hs]
        have hg : Grow A (upd A (pairId nm.1 nm.2) (some (Kind.of true (x1.convex && x2.convex), Pair.new (pairId nm.1 nm.2) nm.1 nm.2 t1.col t2.col true))) :=
          grow_new ha rfl rfl rfl (by cases (x1.convex && x2.convex) <;> rfl)
        refine ⟨s, _, rfl, store_grow h hcov hr hg ?_, hg, fun _ _ _ _ _ _ _ => ⟨_, upd_same _ _ _⟩⟩
        intro j k' p' hj hno
        by_cases e : j = pairId nm.1 nm.2
        · subst e
          rw [upd_same] at hj; cases hj
          refine ⟨x1, x2, ⟨hx1, hx2, e1, hb1, hb2, rfl, by simpa using e2, ?_, fun _ => e3⟩⟩
          cases (x1.convex && x2.convex) <;> rfl
        · rw [upd_ne _ _ e, hno] at hj; cases hj
      · rw [if_neg e4]
        refine ⟨w.store, A, rfl, h, Grow.refl A, ?_⟩
        intro c1 c2 y1 y2 u1 u2 hm
        have := hm.cvx
        rw [hnode hm.hc1 hm.hn1 hx1 hb1, hnode hm.hc2 hm.hn2 hx2 hb2] at this
        rw [Bool.or_eq_true] at e4
        exact absurd this e4
    · rw [if_neg e3]
      refine ⟨w.store, A, rfl, h, Grow.refl A, ?_⟩
      intro c1 c2 y1 y2 u1 u2 hm
      have := hm.bits
      rw [hnode hm.hc1 hm.hn1 hx1 hb1, hnode hm.hc2 hm.hn2 hx2 hb2] at this
      exact absurd this e3

theorem updateOverlaps_ok (nodes : List (Nat × Nat)) (h : WInv cfg w A) (hcov : ¬ cfg.cover)
    (hn : ∀ nm ∈ nodes, (∃ t, w.tree nm.1 = some t) ∧ ∃ t, w.tree nm.2 = some t) :
    ∃ s A', nodes.foldlM updateOverlap w = some { w with store := s } ∧ WInv cfg { w with store := s } A' ∧ Grow A A' ∧
      ∀ nm ∈ nodes, ∀ c1 c2 x1 x2 t1 t2, Meet w c1 c2 nm.1 nm.2 x1 x2 t1 t2 → ∃ y, A' (pairId nm.1 nm.2) = some y := by
  induction nodes generalizing w A with
  | nil => exact ⟨w.store, A, rfl, h, Grow.refl A, fun _ h => absurd h (by simp)⟩
  | cons nm rest ih =>
    obtain ⟨s, A1, e, h1, g1, m1⟩ := updateOverlap_ok h hcov (hn nm (by simp)).1 (hn nm (by simp)).2
    obtain ⟨s', A', e', h', g', m'⟩ := ih h1 (fun nm' hm' => hn nm' (by simp [hm']))
    refine ⟨s', A', ?_, h', g1.trans g', ?_⟩
    · rw [List.foldlM_cons, e]; exact e'
    · intro nm' hnm c1 c2 x1 x2 t1 t2 hm
      rcases List.mem_cons.1 hnm with rfl | hnm
      · obtain ⟨y, hy⟩ := m1 c1 c2 x1 x2 t1 t2 hm
        obtain ⟨b, _, hb⟩ := g'.keep _ _ _ hy
        exact ⟨_, hb⟩
      · exact m' nm' hnm c1 c2 x1 x2 t1 t2 ⟨hm.hc1, hm.hc2, hm.hn1, hm.hn2, hm.ht1, hm.ht2, hm.ne, hm.noColl, hm.bits, hm.cvx, hm.fat⟩

/-- What the removal of pairs that no longer overlap does to one pair. -/
def swept (w : World α) (k : Kind) (x : Kind × Pair) : Option (Kind × Pair) :=
  if x.1 = k then if x.2.need = true ∧ w.overlapping x.2 = some false then none else some (x.1, { x.2 with need := false }) else some x

/-- ... and to the map of pairs. -/
def sweepMap (w : World α) (k : Kind) (A : PMap) : PMap := fun id => (A id).bind (w.swept k)

theorem sweepMap_some {k k' : Kind} {id : Nat} {p' : Pair} (h : w.sweepMap k A id = some (k', p')) :
    ∃ p, A id = some (k', p) ∧ p' = { p with need := p'.need } ∧ (k' ≠ k → p' = p) ∧
      (k' = k → p'.need = false ∧ ¬ (p.need = true ∧ w.overlapping p = some false)) := by
  unfold sweepMap at h
  cases ha : A id with
  | none => rw [ha] at h; cases h
  | some x =>
    obtain ⟨k0, p⟩ := x
    rw [ha] at h
    simp only [Option.bind_some, swept] at h
    split at h
    · rename_i hk
      split at h
      · cases h
      · rename_i hn
        cases h
        exact ⟨p, rfl, rfl, fun h => absurd hk h, fun _ => ⟨rfl, hn⟩⟩
    · rename_i hk
      cases h
      exact ⟨p', rfl, rfl, fun _ => rfl, fun h => absurd h hk⟩

theorem sweepMap_none {k k' : Kind} {id : Nat} {p : Pair} (ha : A id = some (k', p)) (h : w.sweepMap k A id = none) :
    k' = k ∧ p.need = true ∧ w.overlapping p = some false := by
  unfold sweepMap at h
  rw [ha] at h
  simp only [Option.bind_some, swept] at h
  split at h
  · rename_i hk
    split at h
    · rename_i hn; exact ⟨hk, hn⟩
    · cases h
  · cases h

theorem sweepMap_upd {k k' : Kind} {id : Nat} {x : Kind × Pair} {y : Option (Kind × Pair)} (ha : A id = some x) (e : w.swept k x = y.bind (w.swept k)) :
    w.sweepMap k (upd A id y) = w.sweepMap k A := by
  funext j
  unfold sweepMap
  by_cases ej : j = id
  · subst ej; rw [upd_same, ha, Option.bind_some]; exact e.symm
  · rw [upd_ne _ _ ej]

theorem sweepMap_id {k : Kind} (h : ∀ id p, A id = some (k, p) → p.need = false) : w.sweepMap k A = A := by
  funext id
  unfold sweepMap
  cases ha : A id with
  | none => rfl
  | some x =>
    obtain ⟨k', p⟩ := x
    simp only [Option.bind_some, swept]
    by_cases e : k' = k
    · subst e
      have := h id p ha
      rw [if_pos rfl, if_neg (by rw [this]; simp)]
      cases p
      simp only at this
      subst this; rfl
    · rw [if_neg e]

/-- The entry of a lost pair. -/
def LostOf (q : CPair) (p : Pair) : Prop := q.id = p.id ∧ q.c1 = p.c1 ∧ q.c2 = p.c2

/-- The lost contacts that are added are those of the removed pairs that collided before. -/
structure LostRel (A A' : PMap) (l : List CPair) : Prop where
  of : ∀ q ∈ l, ∃ id k p, A id = some (k, p) ∧ A' id = none ∧ p.prev = true ∧ LostOf q p
  all : ∀ id k p, A id = some (k, p) → A' id = none → p.prev = true → ∃ q ∈ l, LostOf q p

/-- All pairs at the nodes exist. -/
theorem WInv.overlapping_some (h : WInv cfg w A) {id : Nat} {k : Kind} {p : Pair} (ha : A id = some (k, p)) : ∃ b, w.overlapping p = some b := by
  obtain ⟨x1, x2, ho⟩ := h.s.pair _ _ _ ha
  obtain ⟨t1, ht1, _⟩ := h.node ho.c1 ho.b1
  obtain ⟨t2, ht2, _⟩ := h.node ho.c2 ho.b2
  exact ⟨t1.fat.testCollision t2.fat, by simp only [overlapping, ht1, ht2]⟩

theorem upd_self (f : Nat → β) (a : Nat) : upd f a (f a) = f := by
  funext b
  by_cases e : b = a
  · subst e; rw [upd_same]
  · rw [upd_ne _ _ e]

theorem sweepLoop_ok (k : Kind) (n : Nat) : ∀ {w : World α} {A : PMap} (i : Nat), WInv cfg w A → ¬ cfg.cover → (w.store.tab k).arr.length = i + n →
    (∀ j p, j < i → (w.store.tab k).arr[j]? = some p → p.need = false) →
    ∃ s l, w.sweepLoop k n i = some { w with store := s, lost := w.lost ++ l } ∧ WInv cfg { w with store := s, lost := w.lost ++ l } (w.sweepMap k A) ∧
      LostRel A (w.sweepMap k A) l := by
  induction n with
  | zero =>
    intro w A i h hcov hlen hpre
    have hid : w.sweepMap k A = A := by
      apply sweepMap_id
      intro id p ha
      obtain ⟨j, _, hj⟩ := h.rep.idx_of ha
      exact hpre j p (by
        have := (List.getElem?_eq_some_iff.1 hj).1
        omega) hj
    refine ⟨w.store, [], by simp only [sweepLoop, List.append_nil], ?_, ?_⟩
    · rw [hid, List.append_nil]; exact h
    · rw [hid]
      exact ⟨fun q hq => absurd hq (by simp), fun id k p h1 h2 => by rw [h1] at h2; cases h2⟩
  | succ n ih =>
    intro w A i h hcov hlen hpre
    obtain ⟨p, hp⟩ : ∃ p, (w.store.tab k).arr[i]? = some p := ⟨_, List.getElem?_eq_getElem (by omega)⟩
    have ha : A p.id = some (k, p) := (h.rep.mem k p).1 (List.mem_of_getElem? hp)
    simp only [sweepLoop, hp]
    by_cases hneed : p.need = true
    · rw [if_pos hneed]
      obtain ⟨b, hb⟩ := h.overlapping_some ha
      rw [hb]
      cases b with
      | true =>
        obtain ⟨t, ht, hok, hl, hm, hj, hi⟩ := PTable.modify_ok (f := fun p => { p with need := false }) (h.rep.ok k) hp (fun _ => rfl)
        simp only [ht]
        have hr : (w.store.setTab k t).Rep (upd A p.id (some (k, { p with need := false }))) := PStore.rep_replace (q := { p with need := false }) h.rep ha rfl rfl rfl rfl hok hm
        have hw := store_grow h hcov hr (grow_need ha) (by
          intro j k' p' hj hno
          by_cases e : j = p.id
          · subst e; rw [ha] at hno; cases hno
          · rw [upd_ne _ _ e, hno] at hj; cases hj)
        obtain ⟨s, l, e1, e2, e3⟩ := ih (i + 1) hw hcov (by simp only [PStore.setTab_same]; omega) (by
          intro j p' hj' hp'
          simp only [PStore.setTab_same] at hp'
          by_cases e : j = i
          · subst e; rw [hi] at hp'; cases hp'; rfl
          · rw [hj j e] at hp'; exact hpre j p' (by omega) hp')
        have hmap : ({ w with store := w.store.setTab k t } : World α).sweepMap k (upd A p.id (some (k, { p with need := false }))) = w.sweepMap k A := by
          refine sweepMap_upd (w := w) (k' := k) (x := (k, p)) ha ?_
          have h2 : w.overlapping { p with need := false } = some true := hb
          simp [Option.bind_some, swept, hb, h2]
        rw [hmap] at e2 e3
        refine ⟨s, l, e1, e2, ⟨?_, ?_⟩⟩
        · intro q hq
          obtain ⟨id, k', p', g1, g2, g3, g4⟩ := e3.of q hq
          by_cases e : id = p.id
          · subst e; rw [upd_same] at g1; cases g1
            exact ⟨p.id, k, p, ha, g2, g3, g4⟩
          · rw [upd_ne _ _ e] at g1; exact ⟨id, k', p', g1, g2, g3, g4⟩
        · intro id k' p' g1 g2 g3
          by_cases e : id = p.id
          · subst e
            rw [ha] at g1; cases g1
            exact e3.all p.id k { p with need := false } (upd_same _ _ _) g2 g3
          · exact e3.all id k' p' (by rw [upd_ne _ _ e]; exact g1) g2 g3
      | false =>
        obtain ⟨l1, hl1, hrep, _, hnp, hpq⟩ := lostOf_ok h ha true
        simp only [hl1]
        obtain ⟨s1, hs1, hr, hlen1, hpre1, _⟩ := PStore.removeIdx_rep h.rep hp
        simp only [hs1]
        have hw : WInv cfg { w with store := s1, lost := w.lost ++ l1 } (upd A p.id none) := by
          refine store_sub h hr (subCore_upd_none p.id) ?_ (fun hc => absurd hc hcov) (h.removeLost ha hl1) (fun hs => h.sync_none hs p.id)
          intro hlo q hq
          rcases List.mem_append.1 hq with hq | hq
          · exact h.s.lost hlo q hq
          · exact hrep q hq
        obtain ⟨s, l, e1, e2, e3⟩ := ih i hw hcov (by simp only; omega) (by
          intro j p' hj' hp'
          simp only at hp'
          rw [hpre1 j hj'] at hp'
          exact hpre j p' hj' hp')
        have hmap : ({ w with store := s1, lost := w.lost ++ l1 } : World α).sweepMap k (upd A p.id none) = w.sweepMap k A := by
          refine sweepMap_upd (w := w) (k' := k) (x := (k, p)) ha ?_
          simp only [Option.bind_none, swept, if_true, hb, hneed, and_self]
        have hgone : w.sweepMap k A p.id = none := by
          simp only [sweepMap, ha, Option.bind_some, swept, if_true, hb, hneed, and_self]
        rw [hmap] at e2 e3
        refine ⟨s, l1 ++ l, ?_, ?_, ⟨?_, ?_⟩⟩
        · rw [e1]; simp only [List.append_assoc]
        · simp only [List.append_assoc] at e2; exact e2
        · intro q hq
          rcases List.mem_append.1 hq with hq | hq
          · by_cases hpr : p.prev = true
            · obtain ⟨q', x1, x2, rfl, hx1, hx2, hqe⟩ := hpq hpr rfl
              rw [List.mem_singleton] at hq
              subst hq; subst hqe
              exact ⟨p.id, k, p, ha, hgone, hpr, rfl, rfl, rfl⟩
            · rw [hnp (by simpa using hpr)] at hq; cases hq
          · obtain ⟨id, k', p', g1, g2, g3, g4⟩ := e3.of q hq
            by_cases e : id = p.id
            · subst e; rw [upd_same] at g1; cases g1
            · rw [upd_ne _ _ e] at g1; exact ⟨id, k', p', g1, g2, g3, g4⟩
        · intro id k' p' g1 g2 g3
          by_cases e : id = p.id
          · subst e
            rw [ha] at g1; cases g1
            obtain ⟨q', x1, x2, rfl, hx1, hx2, hqe⟩ := hpq g3 rfl
            subst hqe
            exact ⟨_, List.mem_append_left _ (List.mem_singleton.2 rfl), rfl, rfl, rfl⟩
          · obtain ⟨q, hq, hq'⟩ := e3.all id k' p' (by rw [upd_ne _ _ e]; exact g1) g2 g3
            exact ⟨q, List.mem_append_right _ hq, hq'⟩
    · rw [if_neg hneed]
      exact ih (i + 1) h hcov (by omega) (by
        intro j p' hj hp'
        by_cases e : j = i
        · subst e; rw [hp] at hp'; cases hp'; simpa using hneed
        · exact hpre j p' (by omega) hp')

theorem sweep_ok (k : Kind) (h : WInv cfg w A) (hcov : ¬ cfg.cover) :
    ∃ s l, w.sweep k = some { w with store := s, lost := w.lost ++ l } ∧ WInv cfg { w with store := s, lost := w.lost ++ l } (w.sweepMap k A) ∧
      LostRel A (w.sweepMap k A) l :=
  sweepLoop_ok k _ 0 h hcov (by omega) (fun j p hj => absurd hj (by omega))

/-- What a broad-phase step does to the pairs. -/
structure Broad (w : World α) (nodes : List (Nat × Nat)) (A A' : PMap) (l : List CPair) : Prop where
  /-- old pairs keep their flags, new pairs start with none -/
  old : ∀ id k p', A' id = some (k, p') → (∃ p, A id = some (k, p) ∧ p' = { p with need := p'.need }) ∨
    (A id = none ∧ p'.prev = false ∧ p'.cur = false ∧ k.enabled = true)
  /-- only marked pairs whose boxes are apart are removed -/
  gone : ∀ id k p, A id = some (k, p) → A' id = none → k.enabled = true ∧ p.need = true ∧ w.overlapping p = some false
  /-- no pair stays marked -/
  unmarked : ∀ id k p', A' id = some (k, p') → k.enabled = true → p'.need = false
  /-- the reported pairs of nodes that may collide have a pair -/
  found : ∀ nm ∈ nodes, ∀ c1 c2 x1 x2 t1 t2, Meet w c1 c2 nm.1 nm.2 x1 x2 t1 t2 → ∃ y, A' (pairId nm.1 nm.2) = some y
  lost : LostRel A A' l

theorem testCollision_symm {a b : AABB α} (h : a.testCollision b = true) : b.testCollision a = true := by
  rw [AABB.testCollision_iff] at *
  tauto

theorem Meet.symm {c1 c2 n1 n2 : Nat} {x1 x2 : Col} {t1 t2 : TObj α} (h : Meet w c1 c2 n1 n2 x1 x2 t1 t2) : Meet w c2 c1 n2 n1 x2 x1 t2 t1 :=
  ⟨h.hc2, h.hc1, h.hn2, h.hn1, h.ht2, h.ht1, fun e => h.ne e.symm, by rw [bodyPair_comm]; exact h.noColl,
    ⟨by rw [Nat.land_comm]; exact h.bits.2, by rw [Nat.land_comm]; exact h.bits.1⟩, h.cvx.symm, testCollision_symm h.fat⟩

/-- A pair whose colliders meet is not removed. -/
theorem WInv.meet_overlapping (h : WInv cfg w A) {c1 c2 n1 n2 : Nat} {x1 x2 : Col} {t1 t2 : TObj α} (hm : Meet w c1 c2 n1 n2 x1 x2 t1 t2)
    {k : Kind} {p : Pair} (hp : A (pairId n1 n2) = some (k, p)) : w.overlapping p = some true := by
  obtain ⟨y1, y2, ho⟩ := h.s.pair _ _ _ hp
  have hid : pairId p.bp1 p.bp2 = pairId n1 n2 := by rw [← ho.id]; exact (h.rep.wf _ _ _ hp).1
  rcases pairId_injective _ _ _ _ (h.s.bp _ _ _ ho.c1 ho.b1).1 (h.s.bp _ _ _ ho.c2 ho.b2).1 (h.s.bp _ _ _ hm.hc1 hm.hn1).1 (h.s.bp _ _ _ hm.hc2 hm.hn2).1 hid
    with ⟨a1, a2⟩ | ⟨a1, a2⟩
  · simp only [overlapping, a1, a2, hm.ht1, hm.ht2, hm.fat]
  · simp only [overlapping, a1, a2, hm.ht1, hm.ht2, hm.symm.fat]

/-- `computeBroadPhase`: always defined. -/
theorem broadPhase_ok (h : WInv cfg w A) (nodes : List (Nat × Nat)) (hcov : ¬ cfg.cover)
    (hn : ∀ nm ∈ nodes, (∃ t, w.tree nm.1 = some t) ∧ ∃ t, w.tree nm.2 = some t) :
    ∃ s l A', w.broadPhase nodes = some { w with store := s, lost := w.lost ++ l, moved := fun _ => false } ∧
      WInv cfg { w with store := s, lost := w.lost ++ l, moved := fun _ => false } A' ∧ Broad w nodes A A' l := by
  have h0 : WInv cfg { w with moved := fun _ => false } A :=
    ⟨h.rep, ⟨fun id k p hp => by
        obtain ⟨x1, x2, ho⟩ := h.s.pair id k p hp
        exact ⟨x1, x2, ⟨ho.c1, ho.c2, ho.ne, ho.b1, ho.b2, ho.id, ho.noColl, ho.cvx, ho.bits⟩⟩,
      h.s.col, h.s.cols, h.s.bp, h.s.bpMap, h.s.tree, h.s.flags, h.s.lost, fun hc => absurd hc hcov, h.s.once, h.s.sync⟩,
      ⟨h.d.col, h.d.static, h.d.dis, fun n hn => absurd hn (by simp), h.d.pair⟩⟩
  obtain ⟨s1, A1, e1, h1, g1, m1⟩ := updateOverlaps_ok nodes h0 hcov hn
  obtain ⟨s2, l2, e2, h2, r2⟩ := sweep_ok .cv h1 hcov
  obtain ⟨s3, l3, e3, h3, r3⟩ := sweep_ok .cc h2 hcov
  refine ⟨s3, l2 ++ l3, w.sweepMap .cc (w.sweepMap .cv A1), ?_, ?_, ?_⟩
  · simp only [broadPhase, e1, e2, e3, List.append_assoc]
  · simp only [List.append_assoc] at h3; exact h3
  obtain ⟨A2, hA2⟩ : ∃ A2, A2 = w.sweepMap .cv A1 := ⟨_, rfl⟩
  obtain ⟨A3, hA3⟩ : ∃ A3, A3 = w.sweepMap .cc A2 := ⟨_, rfl⟩
  have r2' : LostRel A1 A2 l2 := by rw [hA2]; exact r2
  have r3' : LostRel A2 A3 l3 := by rw [hA3, hA2]; exact r3
  rw [← hA2, ← hA3]
  -- pairs that stay
  have back : ∀ id k p', A3 id = some (k, p') → ∃ p, A1 id = some (k, p) ∧ p' = { p with need := p'.need } ∧ (k.enabled = true → p'.need = false) := by
    intro id k p3 hp3
    rw [hA3] at hp3
    obtain ⟨p2, hp2, e3, n3, f3⟩ := sweepMap_some hp3
    rw [hA2] at hp2
    obtain ⟨p1, hp1, e2, n2, f2⟩ := sweepMap_some hp2
    refine ⟨p1, hp1, by rw [e3, e2], ?_⟩
    intro hk
    cases k with
    | cc => exact (f3 rfl).1
    | cv => rw [n3 (by decide)]; exact (f2 rfl).1
    | dcv => cases hk
    | dcc => cases hk
  have gone : ∀ id k p, A1 id = some (k, p) → A3 id = none → k.enabled = true ∧ p.need = true ∧ w.overlapping p = some false := by
    intro id k p hp hno
    cases h2 : A2 id with
    | none =>
      rw [hA2] at h2
      obtain ⟨rfl, g⟩ := sweepMap_none hp h2
      exact ⟨rfl, g⟩
    | some y =>
      obtain ⟨k2, p2⟩ := y
      have h2' := h2
      rw [hA3] at hno
      obtain ⟨rfl, g⟩ := sweepMap_none h2 hno
      rw [hA2] at h2'
      obtain ⟨p1, hp1, e2, n2, f2⟩ := sweepMap_some h2'
      rw [hp] at hp1; cases hp1
      rw [n2 (by decide)] at g
      exact ⟨rfl, g⟩
  refine ⟨?_, ?_, ?_, ?_, ⟨?_, ?_⟩⟩
  · intro id k p3 hp3
    obtain ⟨p1, hp1, e, _⟩ := back id k p3 hp3
    rcases g1.new id k p1 hp1 with ⟨p, hp⟩ | ⟨hno, a1, a2, a3, a4⟩
    · exact Or.inl ⟨p, hp, by rw [e, (g1.old hp hp1).1]⟩
    · exact Or.inr ⟨hno, by rw [e]; exact a1, by rw [e]; exact a2, a4⟩
  · intro id k p hp hno
    obtain ⟨b, hb, e⟩ := g1.keep id k p hp
    obtain ⟨a1, a2, a3⟩ := gone id k _ e hno
    refine ⟨a1, ?_, a3⟩
    rcases hb with rfl | rfl
    · exact a2
    · cases a2
  · intro id k p3 hp3 hk
    obtain ⟨p1, hp1, e, f⟩ := back id k p3 hp3
    exact f hk
  · intro nm hnm c1 c2 x1 x2 t1 t2 hm
    obtain ⟨⟨k, p⟩, hy⟩ := m1 nm hnm c1 c2 x1 x2 t1 t2 hm.store
    cases h3 : A3 (pairId nm.1 nm.2) with
    | some y => exact ⟨y, rfl⟩
    | none =>
      have := (gone _ k p hy h3).2.2
      have h' := h1.meet_overlapping hm.store hy
      rw [show w.overlapping p = ({ w with moved := fun _ => false, store := s1 } : World α).overlapping p from rfl, h'] at this
      cases this
  · intro q hq
    rcases List.mem_append.1 hq with hq | hq
    · obtain ⟨id, k, p1, a1, a2, a3, a4⟩ := r2'.of q hq
      have hno : A3 id = none := by rw [hA3]; simp only [sweepMap, a2, Option.bind_none]
      rcases g1.new id k p1 a1 with ⟨p, hp⟩ | ⟨_, hf, _⟩
      · have e := (g1.old hp a1).1
        rw [e] at a3 a4
        exact ⟨id, k, p, hp, hno, a3, a4⟩
      · rw [hf] at a3; cases a3
    · obtain ⟨id, k, p2, a1, a2, a3, a4⟩ := r3'.of q hq
      have a1' := a1
      rw [hA2] at a1'
      obtain ⟨p1, hp1, e2, _⟩ := sweepMap_some a1'
      rcases g1.new id k p1 hp1 with ⟨p, hp⟩ | ⟨_, hf, _⟩
      · have e := (g1.old hp hp1).1
        rw [e2, e] at a3 a4
        exact ⟨id, k, p, hp, a2, a3, a4⟩
      · rw [e2] at a3
        rw [show ({ p1 with need := p2.need } : Pair).prev = p1.prev from rfl, hf] at a3; cases a3
  · intro id k p hp hno hpr
    obtain ⟨b, _, e⟩ := g1.keep id k p hp
    cases h2 : A2 id with
    | none =>
      obtain ⟨q, hq, hq'⟩ := r2'.all id k _ e h2 hpr
      exact ⟨q, List.mem_append_left _ hq, hq'⟩
    | some y =>
      obtain ⟨k2, p2⟩ := y
      have h2' := h2
      rw [hA2] at h2'
      obtain ⟨p1, hp1, e2, _⟩ := sweepMap_some h2'
      rw [e] at hp1
      cases hp1
      obtain ⟨q, hq, hq'⟩ := r3'.all id k p2 h2 hno (by rw [e2]; exact hpr)
      refine ⟨q, List.mem_append_right _ hq, ?_⟩
      rw [e2] at hq'
      exact hq'

/-- The tree reports exactly the pairs of a node to be tested and a node whose fat box overlaps (C19). -/
def NodesOf (w : World α) (nodes : List (Nat × Nat)) : Prop :=
  ∀ n m, (n, m) ∈ nodes ↔ w.moved n = true ∧ ∃ t u, w.tree n = some t ∧ w.tree m = some u ∧ t.fat.testCollision u.fat = true

/-- After a broad-phase step two colliders that meet and had a pair, or of which one was to be tested, have a pair. -/
theorem Broad.meet {nodes : List (Nat × Nat)} {l : List CPair} (h : WInv cfg w A) (hb : Broad w nodes A A' l) (hN : w.NodesOf nodes) {c1 c2 n1 n2 : Nat} {x1 x2 : Col}
    {t1 t2 : TObj α} (hm : Meet w c1 c2 n1 n2 x1 x2 t1 t2) (hc : (∃ y, A (pairId n1 n2) = some y) ∨ w.moved n1 = true ∨ w.moved n2 = true) :
    ∃ y, A' (pairId n1 n2) = some y := by
  rcases hc with ⟨⟨k, p⟩, hy⟩ | hc | hc
  · cases ha : A' (pairId n1 n2) with
    | some y => exact ⟨y, rfl⟩
    | none =>
      have := (hb.gone _ k p hy ha).2.2
      rw [h.meet_overlapping hm hy] at this
      cases this
  · exact hb.found (n1, n2) ((hN n1 n2).2 ⟨hc, t1, t2, hm.ht1, hm.ht2, hm.fat⟩) c1 c2 x1 x2 t1 t2 hm
  · rw [pairId_comm]
    exact hb.found (n2, n1) ((hN n2 n1).2 ⟨hc, t2, t1, hm.ht2, hm.ht1, hm.symm.fat⟩) c2 c1 x2 x1 t2 t1 hm.symm

theorem Broad.rounds {nodes : List (Nat × Nat)} {l : List CPair} (hb : Broad w nodes A A' l) (c1 c2 : Nat) :
    Open A' (w.lost ++ l) c1 c2 ↔ Open A w.lost c1 c2 := by
  constructor
  · rintro (⟨id, k, p', h1, h2, h3⟩ | ⟨q, h1, h2⟩)
    · rcases hb.old id k p' h1 with ⟨p, hp, e⟩ | ⟨_, hf, _⟩
      · rw [e] at h2 h3
        exact Or.inl ⟨id, k, p, hp, h2, h3⟩
      · rw [hf] at h2; cases h2
    · rcases List.mem_append.1 h1 with h1 | h1
      · exact Or.inr ⟨q, h1, h2⟩
      · obtain ⟨id, k, p, g1, g2, g3, g4⟩ := hb.lost.of q h1
        exact Or.inl ⟨id, k, p, g1, g3, by rw [← g4.2.1, ← g4.2.2]; exact h2⟩
  · rintro (⟨id, k, p, h1, h2, h3⟩ | ⟨q, h1, h2⟩)
    · cases ha : A' id with
      | none =>
        obtain ⟨q, hq, hl⟩ := hb.lost.all id k p h1 ha h2
        exact Or.inr ⟨q, List.mem_append_right _ hq, by rw [hl.2.1, hl.2.2]; exact h3⟩
      | some y =>
        obtain ⟨k', p'⟩ := y
        rcases hb.old id k' p' ha with ⟨p0, hp, e⟩ | ⟨hf, _⟩
        · rw [h1] at hp; cases hp
          exact Or.inl ⟨id, k, p', ha, by rw [e]; exact h2, by rw [e]; exact h3⟩
        · rw [h1] at hf; cases hf
    · exact Or.inr ⟨q, List.mem_append_left _ h1, h2⟩

theorem broad_ok (h : WInv cfg w A) {nodes : List (Nat × Nat)} (hN : w.NodesOf nodes) :
    ∃ s l A', w.broadPhase nodes = some { w with store := s, lost := w.lost ++ l, moved := fun _ => false } ∧
      WInv cfg { w with store := s, lost := w.lost ++ l, moved := fun _ => false } A' ∧ Broad w nodes A A' l := by
  obtain ⟨s, l, A', e, hw, hb⟩ := broadPhase_ok h.noCover nodes (fun h => h) (by
    rintro ⟨n, m⟩ hnm
    obtain ⟨_, t, u, ht, hu, _⟩ := (hN n m).1 hnm
    exact ⟨⟨t, ht⟩, u, hu⟩)
  refine ⟨s, l, A', e, WInv.cover hw ?_, hb⟩
  intro hcov c1 c2 n1 n2 x1 x2 t1 t2 hm
  have hm' : Meet w c1 c2 n1 n2 x1 x2 t1 t2 := ⟨hm.hc1, hm.hc2, hm.hn1, hm.hn2, hm.ht1, hm.ht2, hm.ne, hm.noColl, hm.bits, hm.cvx, hm.fat⟩
  exact Or.inl (hb.meet h hN hm' (h.s.cover hcov c1 c2 n1 n2 x1 x2 t1 t2 hm'))

/-- The enabled pairs, in the order of the arrays. -/
def enabledPairs (s : PStore) : List Pair := (s.tab .cv).arr ++ (s.tab .cc).arr

theorem mem_enabledPairs {s : PStore} (hr : s.Rep A) (p : Pair) : p ∈ enabledPairs s ↔ ∃ k, k.enabled = true ∧ A p.id = some (k, p) := by
  unfold enabledPairs
  rw [List.mem_append, hr.mem, hr.mem]
  constructor
  · rintro (h | h)
    · exact ⟨.cv, rfl, h⟩
    · exact ⟨.cc, rfl, h⟩
  · rintro ⟨k, hk, h⟩
    cases k with
    | cv => exact Or.inl h
    | cc => exact Or.inr h
    | dcv => cases hk
    | dcc => cases hk

theorem table_nodup {t : PTable} (h : t.Ok) : (t.arr.map Pair.id).Nodup := by
  rw [List.nodup_iff_getElem?_ne_getElem?]
  intro i j hij hj e
  rw [List.length_map] at hj
  rw [List.getElem?_map, List.getElem?_map, List.getElem?_eq_getElem hj, List.getElem?_eq_getElem (Nat.lt_trans hij hj)] at e
  simp only [Option.map_some, Option.some.injEq] at e
  have := (h.unique (List.getElem?_eq_getElem (Nat.lt_trans hij hj)) (List.getElem?_eq_getElem hj) e).1
  omega

theorem enabledPairs_nodup {s : PStore} (hr : s.Rep A) : ((enabledPairs s).map Pair.id).Nodup := by
  unfold enabledPairs
  rw [List.map_append, List.nodup_append]
  refine ⟨table_nodup (hr.ok _), table_nodup (hr.ok _), ?_⟩
  intro a ha b hb e
  subst e
  obtain ⟨p, hp, e1⟩ := List.mem_map.1 ha
  obtain ⟨q, hq, e2⟩ := List.mem_map.1 hb
  have h1 := (hr.mem _ _).1 hp
  have h2 := (hr.mem _ _).1 hq
  rw [e1] at h1; rw [e2, h1] at h2
  cases h2

/-- The enabled pairs are changed. -/
def flagMap (A : PMap) (f : Pair → Pair) : PMap := fun id => (A id).map fun x => if x.1.enabled = true then (x.1, f x.2) else x

theorem flagMap_eq (f : Pair → Pair) : PStore.mapKind (PStore.mapKind A .cv f) .cc f = flagMap A f := by
  funext id
  simp only [PStore.mapKind, flagMap]
  cases A id with
  | none => rfl
  | some x =>
    obtain ⟨k, p⟩ := x
    cases k <;> rfl

theorem flagMap_rep {s : PStore} (hr : s.Rep A) {f : Pair → Pair} (hf : ∀ p, (f p).id = p.id)
    (hf2 : ∀ p, (f p).enabled = p.enabled ∧ (f p).c1 = p.c1 ∧ (f p).c2 = p.c2) : ((s.mapTab .cv f).mapTab .cc f).Rep (flagMap A f) := by
  rw [← flagMap_eq]
  exact PStore.mapTab_rep (PStore.mapTab_rep hr .cv hf hf2) .cc hf hf2

theorem flagMap_fwd {f : Pair → Pair} {id : Nat} {k : Kind} {p : Pair} (h : A id = some (k, p)) :
    flagMap A f id = some (k, if k.enabled = true then f p else p) := by
  simp only [flagMap, h, Option.map_some]
  cases k <;> rfl

theorem flagMap_bwd {f : Pair → Pair} {id : Nat} {k : Kind} {p' : Pair} (h : flagMap A f id = some (k, p')) :
    ∃ p, A id = some (k, p) ∧ p' = if k.enabled = true then f p else p := by
  cases ha : A id with
  | none => simp only [flagMap, ha] at h; cases h
  | some x =>
    obtain ⟨k0, p⟩ := x
    rw [flagMap_fwd ha] at h
    cases h
    exact ⟨p, rfl, rfl⟩

/-- The flags of pairs change. -/
theorem store_flags {s : PStore} {L : List CPair} (h : WInv cfg w A) (hr : s.Rep A') (hs : SubCore A A') (he : ∀ id y, A id = some y → ∃ y', A' id = some y')
    (hl : cfg.lost → ∀ q ∈ L, w.reportable q = true) (ho : LostOnce L A') (hy : cfg.sync → ∀ id k p, A' id = some (k, p) → p.cur = p.prev) :
    WInv cfg { w with store := s, lost := L } A' :=
  store_sub h hr hs hl (fun _ _ _ _ _ _ _ _ _ _ ⟨y, hy⟩ => he _ y hy) ho hy

/-- `computeMiddlePhase`. -/
theorem middlePhase_ok (h : WInv cfg w A) (hsy : ¬ cfg.sync) (q : Bool) :
    ∃ s ids, w.middlePhase q = some ({ w with store := s }, ids) ∧ WInv cfg { w with store := s } (flagMap A fun p => { p with cur := false }) ∧
      ids.Nodup ∧ (∀ id, id ∈ ids ↔ ∃ k p, A id = some (k, p) ∧ k.enabled = true ∧ w.isTested q p = some true) := by
  unfold middlePhase
  have hdef : ∀ p ∈ enabledPairs w.store, ∃ b, w.isTested q p = some b := by
    intro p hp
    obtain ⟨k, _, ha⟩ := (mem_enabledPairs h.rep p).1 hp
    obtain ⟨x1, x2, ho⟩ := h.s.pair _ _ _ ha
    simp only [isTested, ho.c1, ho.c2]
    exact ⟨_, rfl⟩
  obtain ⟨r, hr, er⟩ := collect_some hdef
  have hr' : collect (w.isTested q) ((w.store.tab .cv).arr ++ (w.store.tab .cc).arr) = some r := hr
  rw [hr']
  refine ⟨_, _, rfl, ?_, ?_, ?_⟩
  · refine store_flags (L := w.lost) h (flagMap_rep h.rep (fun _ => rfl) (fun _ => ⟨rfl, rfl, rfl⟩)) ?_ ?_ h.s.lost ⟨h.s.once.once, ?_⟩ (fun hs => absurd hs hsy)
    · intro id k p' hp'
      obtain ⟨p, hp, e⟩ := flagMap_bwd hp'
      refine ⟨p, hp, ?_⟩
      rw [e]
      split <;> exact ⟨rfl, rfl, rfl, rfl, rfl⟩
    · intro id y hy
      exact ⟨_, flagMap_fwd (k := y.1) (p := y.2) hy⟩
    · intro q' hq' id k p' hp' hpr
      obtain ⟨p, hp, e⟩ := flagMap_bwd hp'
      have e1 : p'.prev = p.prev := by rw [e]; split <;> rfl
      have e2 : p'.c1 = p.c1 := by rw [e]; split <;> rfl
      have e3 : p'.c2 = p.c2 := by rw [e]; split <;> rfl
      rw [e2, e3]
      exact h.s.once.apart q' hq' id k p hp (e1 ▸ hpr)
  · rw [er]
    exact (List.filter_sublist.map _).nodup (enabledPairs_nodup h.rep)
  · intro id
    rw [er, List.mem_map]
    constructor
    · rintro ⟨p, hp, rfl⟩
      rw [List.mem_filter] at hp
      obtain ⟨k, hk, ha⟩ := (mem_enabledPairs h.rep p).1 hp.1
      exact ⟨k, p, ha, hk, by simpa using hp.2⟩
    · rintro ⟨k, p, ha, hk, ht⟩
      have hid := (h.rep.wf _ _ _ ha).1
      exact ⟨p, List.mem_filter.2 ⟨(mem_enabledPairs h.rep p).2 ⟨k, hk, by rw [hid]; exact ha⟩, by simpa using ht⟩, hid⟩

/-- Some pairs are marked as colliding in this frame. -/
def hitMap (A : PMap) (ids : List Nat) : PMap := fun id => (A id).map fun x => if id ∈ ids then (x.1, { x.2 with cur := true }) else x

theorem hitMap_fwd {ids : List Nat} {id : Nat} {k : Kind} {p : Pair} (h : A id = some (k, p)) :
    hitMap A ids id = some (k, if id ∈ ids then { p with cur := true } else p) := by
  simp only [hitMap, h, Option.map_some]
  split <;> rfl

theorem hitMap_bwd {ids : List Nat} {id : Nat} {k : Kind} {p' : Pair} (h : hitMap A ids id = some (k, p')) :
    ∃ p, A id = some (k, p) ∧ p' = if id ∈ ids then { p with cur := true } else p := by
  cases ha : A id with
  | none => simp only [hitMap, ha] at h; cases h
  | some x =>
    obtain ⟨k0, p⟩ := x
    rw [hitMap_fwd ha] at h
    cases h
    exact ⟨p, rfl, rfl⟩

theorem hitMap_nil : hitMap A [] = A := by
  funext id
  simp only [hitMap, List.not_mem_nil, if_false]
  cases A id <;> rfl

theorem hitMap_cons {id : Nat} {ids : List Nat} {k : Kind} {p : Pair} (ha : A id = some (k, p)) :
    hitMap (upd A id (some (k, { p with cur := true }))) ids = hitMap A (id :: ids) := by
  funext j
  by_cases e : j = id
  · subst e
    simp only [hitMap, upd_same, ha, Option.map_some, List.mem_cons, true_or, if_true]
    split <;> rfl
  · simp only [hitMap]
    rw [upd_ne _ _ e]
    simp only [List.mem_cons, e, false_or]

/-- The contact pairs of this frame. -/
structure Contacts (w : World α) (A : PMap) (ids : List Nat) (cs : List CPair) : Prop where
  ids : cs.map CPair.id = ids
  pair : ∀ q ∈ cs, ∃ k p, A q.id = some (k, p) ∧ q.c1 = p.c1 ∧ q.c2 = p.c2 ∧ q.prev = p.prev ∧ w.reportable q = true

theorem store_cur {id : Nat} {k : Kind} {p : Pair} {s : PStore} (h : WInv cfg w A) (hsy : ¬ cfg.sync) (ha : A id = some (k, p))
    (hr : s.Rep (upd A id (some (k, { p with cur := true })))) : WInv cfg { w with store := s } (upd A id (some (k, { p with cur := true }))) := by
  have hb : ∀ j k' p', upd A id (some (k, { p with cur := true })) j = some (k', p') → ∃ p0, A j = some (k', p0) ∧ p' = { p0 with cur := p'.cur } := by
    intro j k' p' hj
    by_cases e : j = id
    · subst e; rw [upd_same] at hj; cases hj; exact ⟨p, ha, rfl⟩
    · rw [upd_ne _ _ e] at hj; exact ⟨p', hj, rfl⟩
  refine store_flags (L := w.lost) h hr ?_ ?_ h.s.lost ⟨h.s.once.once, ?_⟩ (fun hs => absurd hs hsy)
  · intro j k' p' hj
    obtain ⟨p0, h0, e⟩ := hb j k' p' hj
    exact ⟨p0, h0, by rw [e], by rw [e], by rw [e], by rw [e], by rw [e]⟩
  · intro j y hy
    by_cases e : j = id
    · subst e; exact ⟨_, upd_same _ _ _⟩
    · exact ⟨y, by rw [upd_ne _ _ e]; exact hy⟩
  · intro q hq j k' p' hj hpr
    obtain ⟨p0, h0, e⟩ := hb j k' p' hj
    rw [e] at hpr ⊢
    exact h.s.once.apart q hq j k' p0 h0 hpr

theorem processAll_ok (hsy : ¬ cfg.sync) (ids : List Nat) : ∀ {w : World α} {A : PMap} (cs : List CPair), WInv cfg w A → ids.Nodup → (∀ id ∈ ids, ∃ k p, A id = some (k, p)) →
    ∃ s cs', ids.foldlM process (w, cs) = some ({ w with store := s }, cs ++ cs') ∧ WInv cfg { w with store := s } (hitMap A ids) ∧ Contacts w A ids cs' := by
  induction ids with
  | nil =>
    intro w A cs h _ _
    refine ⟨w.store, [], by simp, ?_, ⟨rfl, fun _ h => absurd h (by simp)⟩⟩
    rw [hitMap_nil]; exact h
  | cons id ids ih =>
    intro w A cs h hnd hex
    obtain ⟨k, p, ha⟩ := hex id (by simp)
    obtain ⟨x1, x2, ho⟩ := h.s.pair _ _ _ ha
    obtain ⟨B1, hB1, _⟩ := h.s.col _ _ ho.c1
    obtain ⟨B2, hB2, _⟩ := h.s.col _ _ ho.c2
    obtain ⟨s1, e1, hr, _⟩ := PStore.modify_rep (f := fun p => { p with cur := true }) h.rep ha (fun _ => rfl) (fun _ => ⟨rfl, rfl, rfl⟩)
    have hpr : process (w, cs) id = some ({ w with store := s1 }, cs ++ [⟨id, x1.body, x2.body, p.c1, p.c2, p.prev, x1.trigger || x2.trigger⟩]) := by
      simp only [process, h.rep.deref_eq ha, ho.c1, ho.c2, e1]
    rw [List.nodup_cons] at hnd
    have hw := store_cur h hsy ha hr
    obtain ⟨s, cs', e, hw', hc⟩ := ih (cs ++ [⟨id, x1.body, x2.body, p.c1, p.c2, p.prev, x1.trigger || x2.trigger⟩]) hw hnd.2 (by
      intro j hj
      have : j ≠ id := by rintro rfl; exact hnd.1 hj
      obtain ⟨k', p', hj'⟩ := hex j (by simp [hj])
      exact ⟨k', p', by rw [upd_ne _ _ this]; exact hj'⟩)
    refine ⟨s, ⟨id, x1.body, x2.body, p.c1, p.c2, p.prev, x1.trigger || x2.trigger⟩ :: cs', ?_, ?_, ⟨by rw [List.map_cons, hc.ids], ?_⟩⟩
    · rw [List.foldlM_cons, hpr]
      rw [List.append_assoc] at e
      exact e
    · rw [← hitMap_cons ha]; exact hw'
    · intro q hq
      rcases List.mem_cons.1 hq with rfl | hq
      · exact ⟨k, p, ha, rfl, rfl, rfl, by simp [reportable, ho.c1, ho.c2, hB1, hB2]⟩
      · obtain ⟨k', p', h1, h2⟩ := hc.pair q hq
        have : q.id ≠ id := by
          intro e
          apply hnd.1
          rw [← e, ← hc.ids]
          exact List.mem_map_of_mem hq
        rw [upd_ne _ _ this] at h1
        exact ⟨k', p', h1, h2⟩

theorem narrowPhase_ok (h : WInv cfg w A) (hsy : ¬ cfg.sync) {ids : List Nat} (hnd : ids.Nodup) (hex : ∀ id ∈ ids, ∃ k p, A id = some (k, p)) (hit : Nat → Bool) :
    ∃ s cs, w.narrowPhase ids hit = some ({ w with store := s }, cs) ∧ WInv cfg { w with store := s } (hitMap A (ids.filter hit)) ∧ Contacts w A (ids.filter hit) cs := by
  obtain ⟨s, cs, e, h1, h2⟩ := processAll_ok hsy (ids.filter hit) [] h (hnd.filter _) (fun id hid => hex id (List.mem_filter.1 hid).1)
  exact ⟨s, cs, e, h1, h2⟩

/-- `computeLostContactPairs`. -/
theorem lostPairs_ok (h : WInv cfg w A) : ∃ l, w.lostPairs = some l ∧ (∀ q ∈ l, w.reportable q = true) ∧
    (∀ q ∈ l, ∃ id k p, A id = some (k, p) ∧ k.enabled = true ∧ p.prev = true ∧ p.cur = false ∧ LostOf q p) ∧
    (∀ id k p, A id = some (k, p) → k.enabled = true → p.prev = true → p.cur = false → ∃ q ∈ l, LostOf q p) ∧
    l.Pairwise (fun q r => ¬ Same2 q.c1 q.c2 r.c1 r.c2) := by
  unfold lostPairs
  obtain ⟨ps, hps⟩ : ∃ ps, ps = (enabledPairs w.store).filter fun p => p.prev && !p.cur := ⟨_, rfl⟩
  have hmem : ∀ p, p ∈ ps ↔ ∃ k, A p.id = some (k, p) ∧ k.enabled = true ∧ p.prev = true ∧ p.cur = false := by
    intro p
    rw [hps, List.mem_filter, mem_enabledPairs h.rep]
    simp only [Bool.and_eq_true, Bool.not_eq_true']
    constructor
    · rintro ⟨⟨k, h1, h2⟩, h3⟩; exact ⟨k, h2, h1, h3⟩
    · rintro ⟨k, h1, h2, h3⟩; exact ⟨⟨k, h2, h1⟩, h3⟩
  have hdef : ∀ p ∈ ps, ∃ q, w.mkLost p = some q ∧ LostOf q p ∧ w.reportable q = true := by
    intro p hp
    obtain ⟨k, ha, _⟩ := (hmem p).1 hp
    obtain ⟨q, x1, x2, e, _, _, hq, hr⟩ := mkLost_ok h ha
    exact ⟨q, e, by subst hq; exact ⟨rfl, rfl, rfl⟩, hr⟩
  have hnd : (ps.map Pair.id).Nodup := by rw [hps]; exact (List.filter_sublist.map _).nodup (enabledPairs_nodup h.rep)
  have hgoal : mapO w.mkLost (((w.store.tab .cv).arr ++ (w.store.tab .cc).arr).filter fun p => p.prev && !p.cur) = mapO w.mkLost ps := by rw [hps]; rfl
  rw [hgoal]
  obtain ⟨l, hl, hm⟩ := mapO_some (fun p hp => (hdef p hp).imp fun q h => h.1)
  refine ⟨l, hl, ?_, ?_, ?_, ?_⟩
  · intro q hq
    obtain ⟨p, hp, e⟩ := (hm q).1 hq
    obtain ⟨q', e', _, hr⟩ := hdef p hp
    rw [e] at e'; cases e'; exact hr
  · intro q hq
    obtain ⟨p, hp, e⟩ := (hm q).1 hq
    obtain ⟨q', e', hlo, hr⟩ := hdef p hp
    rw [e] at e'; cases e'
    obtain ⟨k, h1, h2, h3, h4⟩ := (hmem p).1 hp
    exact ⟨p.id, k, p, h1, h2, h3, h4, hlo⟩
  · intro id k p ha hk hp hc
    have hid := (h.rep.wf _ _ _ ha).1
    have hp' : p ∈ ps := (hmem p).2 ⟨k, by rw [hid]; exact ha, hk, hp, hc⟩
    obtain ⟨q, e, hlo, _⟩ := hdef p hp'
    exact ⟨q, (hm q).2 ⟨p, hp', e⟩, hlo⟩
  · have hin : ∀ p ∈ ps, ∃ k, A p.id = some (k, p) := fun p hp => by
      obtain ⟨k, h1, _⟩ := (hmem p).1 hp
      exact ⟨k, h1⟩
    have hdef' : ∀ p ∈ ps, ∃ q, w.mkLost p = some q ∧ LostOf q p := fun p hp => by
      obtain ⟨q, h1, h2, _⟩ := hdef p hp
      exact ⟨q, h1, h2⟩
    clear hmem hdef hps hgoal hm
    induction ps generalizing l with
    | nil => simp only [mapO] at hl; cases hl; exact List.Pairwise.nil
    | cons p ps ih =>
      obtain ⟨q, e, hlo⟩ := hdef' p (by simp)
      rw [mapO, e] at hl
      cases hr : mapO w.mkLost ps with
      | none => rw [hr] at hl; cases hl
      | some r =>
        rw [hr] at hl
        simp only [Option.some.injEq] at hl
        subst hl
        rw [List.map_cons, List.nodup_cons] at hnd
        rw [List.pairwise_cons]
        refine ⟨?_, ih hnd.2 r hr (fun p hp => hin p (by simp [hp])) (fun p hp => hdef' p (by simp [hp]))⟩
        intro q' hq' hs
        obtain ⟨r', hr', hm'⟩ := mapO_some (f := w.mkLost) (l := ps) (fun p hp => (hdef' p (by simp [hp])).imp fun q h => h.1)
        rw [hr] at hr'; cases hr'
        obtain ⟨p', hp', e'⟩ := (hm' q').1 hq'
        obtain ⟨q'', e'', hlo''⟩ := hdef' p' (by simp [hp'])
        rw [e'] at e''; cases e''
        obtain ⟨k, ha⟩ := hin p (by simp)
        obtain ⟨k', ha'⟩ := hin p' (by simp [hp'])
        have := h.pair_unique ha ha' (by rw [← hlo.2.1, ← hlo.2.2, ← hlo''.2.1, ← hlo''.2.2]; exact hs)
        apply hnd.1
        rw [this]
        exact List.mem_map_of_mem hp'

end World
end RP3D
