import Verif.World.Sleep
import Verif.Props.Integers

/-! Lemmas: changes of the store, removal of pairs, colliders and joints. -/

set_option linter.unusedVariables false
set_option linter.unusedSimpArgs false
set_option linter.unusedSectionVars false

namespace RP3D

theorem pairId_comm (a b : Nat) : pairId a b = pairId b a := by
  unfold pairId pairNumbers
  rcases Nat.lt_trichotomy a b with h | h | h
  · rw [Nat.max_comm, Nat.min_comm]
  · subst h; rfl
  · rw [Nat.max_comm, Nat.min_comm]

theorem bodyPair_comm (a b : Nat) : bodyPair a b = bodyPair b a := by
  unfold bodyPair
  split <;> split <;> first | rfl | (rw [Prod.mk.injEq]; omega)

namespace World
variable {α : Type} [LinearOrder α]
variable {w w' w'' : World α} {A A' A'' : PMap} {cfg : Cfg}

/-- Every pair of the second map is a pair of the first, with other marks. -/
def SubCore (A A' : PMap) : Prop := ∀ id k p', A' id = some (k, p') →
  ∃ p, A id = some (k, p) ∧ p'.id = p.id ∧ p'.bp1 = p.bp1 ∧ p'.bp2 = p.bp2 ∧ p'.c1 = p.c1 ∧ p'.c2 = p.c2

theorem SubCore.refl (A : PMap) : SubCore A A := fun id k p h => ⟨p, h, rfl, rfl, rfl, rfl, rfl⟩
theorem SubCore.trans (h : SubCore A A') (h' : SubCore A' A'') : SubCore A A'' := by
  intro id k p hp
  obtain ⟨p1, g1, e1, e2, e3, e4, e5⟩ := h' id k p hp
  obtain ⟨p2, g2, f1, f2, f3, f4, f5⟩ := h id k p1 g1
  exact ⟨p2, g2, e1.trans f1, e2.trans f2, e3.trans f3, e4.trans f4, e5.trans f5⟩

/-- The store and the list of lost contacts change. -/
theorem store_sub {s : PStore} {l : List CPair} (h : WInv cfg w A) (hr : s.Rep A') (hs : SubCore A A') (hl : cfg.lost → ∀ q ∈ l, w.reportable q = true)
    (hc : cfg.cover → ∀ c1 c2 n1 n2 x1 x2 t1 t2, Meet w c1 c2 n1 n2 x1 x2 t1 t2 → (∃ y, A (pairId n1 n2) = some y) → ∃ y, A' (pairId n1 n2) = some y)
    (ho : LostOnce l A') (hy : cfg.sync → ∀ id k p, A' id = some (k, p) → p.cur = p.prev) :
    WInv cfg { w with store := s, lost := l } A' := by
  refine ⟨hr, ⟨?_, h.s.col, h.s.cols, h.s.bp, h.s.bpMap, h.s.tree, h.s.flags, hl, ?_, ho, hy⟩, ⟨h.d.col, h.d.static, h.d.dis, h.d.moved, ?_⟩⟩
  · intro id k p' hp'
    obtain ⟨p, hp, e1, e2, e3, e4, e5⟩ := hs id k p' hp'
    obtain ⟨x1, x2, ho⟩ := h.s.pair id k p hp
    exact ⟨x1, x2, ⟨by rw [e4]; exact ho.c1, by rw [e5]; exact ho.c2, ho.ne, by rw [e2]; exact ho.b1, by rw [e3]; exact ho.b2, by rw [e1, e2, e3]; exact ho.id,
      ho.noColl, ho.cvx, ho.bits⟩⟩
  · intro hcov c1 c2 n1 n2 x1 x2 t1 t2 hm
    have hm' : Meet w c1 c2 n1 n2 x1 x2 t1 t2 :=
      ⟨hm.hc1, hm.hc2, hm.hn1, hm.hn2, hm.ht1, hm.ht2, hm.ne, hm.noColl, hm.bits, hm.cvx, hm.fat⟩
    exact (h.s.cover hcov c1 c2 n1 n2 x1 x2 t1 t2 hm').imp (hc hcov c1 c2 n1 n2 x1 x2 t1 t2 hm') (fun h => h)
  · intro hst id k p' hp' hk c x B hcp hx hB
    obtain ⟨p, hp, e1, e2, e3, e4, e5⟩ := hs id k p' hp'
    exact h.d.pair hst id k p hp hk c x B (by rw [← e4, ← e5]; exact hcp) hx hB

/-- The colliders and bodies of a pair exist, so its loss can be reported. -/
theorem mkLost_ok (h : WInv cfg w A) {id : Nat} {k : Kind} {p : Pair} (ha : A id = some (k, p)) :
    ∃ q x1 x2, w.mkLost p = some q ∧ w.col p.c1 = some x1 ∧ w.col p.c2 = some x2 ∧
      q = ⟨p.id, x1.body, x2.body, p.c1, p.c2, true, x1.trigger || x2.trigger⟩ ∧ w.reportable q = true := by
  obtain ⟨x1, x2, ho⟩ := h.s.pair id k p ha
  obtain ⟨B1, hB1, _⟩ := h.s.col _ _ ho.c1
  obtain ⟨B2, hB2, _⟩ := h.s.col _ _ ho.c2
  exact ⟨_, x1, x2, by simp [mkLost, ho.c1, ho.c2], ho.c1, ho.c2, rfl, by simp [reportable, ho.c1, ho.c2, hB1, hB2]⟩

/-- What is added to the lost contacts when a pair is removed. -/
theorem lostOf_ok (h : WInv cfg w A) {id : Nat} {k : Kind} {p : Pair} (ha : A id = some (k, p)) (notify : Bool) :
    ∃ l, w.lostOf p notify = some l ∧ (∀ q ∈ l, w.reportable q = true) ∧ (notify = false → l = []) ∧ (p.prev = false → l = []) ∧
      (p.prev = true → notify = true → ∃ q x1 x2, l = [q] ∧ w.col p.c1 = some x1 ∧ w.col p.c2 = some x2 ∧ q = ⟨p.id, x1.body, x2.body, p.c1, p.c2, true, x1.trigger || x2.trigger⟩) := by
  unfold lostOf
  by_cases hb : (p.prev && notify) = true
  · rw [if_pos hb]
    rw [Bool.and_eq_true] at hb
    obtain ⟨q, x1, x2, e, hx1, hx2, hq, hr⟩ := mkLost_ok h ha
    rw [e]
    refine ⟨[q], rfl, by simpa using hr, ?_, ?_, ?_⟩
    · intro hn; rw [hn] at hb; cases hb.2
    · intro hn; rw [hn] at hb; cases hb.1
    · intro _ _; exact ⟨q, x1, x2, rfl, hx1, hx2, hq⟩
  · rw [if_neg hb]
    refine ⟨[], rfl, by simp, fun _ => rfl, fun _ => rfl, ?_⟩
    intro h1 h2; rw [h1, h2] at hb; exact absurd rfl hb

theorem subCore_upd_none (id : Nat) : SubCore A (upd A id none) := by
  intro j k p hp
  by_cases e : j = id
  · subst e; rw [upd_same] at hp; cases hp
  · rw [upd_ne _ _ e] at hp; exact ⟨p, hp, rfl, rfl, rfl, rfl, rfl⟩

/-- A node belongs to one collider. -/
theorem WInv.bp_inj (h : WInv cfg w A) {c c' n : Nat} {x x' : Col} (hc : w.col c = some x) (hc' : w.col c' = some x') (hn : x.bp = some n)
    (hn' : x'.bp = some n) : c = c' := by
  have h1 := (h.s.bp c x n hc hn).2
  have h2 := (h.s.bp c' x' n hc' hn').2
  rw [h1] at h2
  cases h2; rfl

/-- The pair of two nodes joins their colliders. -/
theorem WInv.pair_at (h : WInv cfg w A) {c1 c2 n1 n2 : Nat} {x1 x2 : Col} {k : Kind} {p : Pair} (h1 : w.col c1 = some x1) (h2 : w.col c2 = some x2)
    (b1 : x1.bp = some n1) (b2 : x2.bp = some n2) (hp : A (pairId n1 n2) = some (k, p)) : (p.c1 = c1 ∧ p.c2 = c2) ∨ (p.c1 = c2 ∧ p.c2 = c1) := by
  obtain ⟨y1, y2, ho⟩ := h.s.pair _ k p hp
  have hid : pairId p.bp1 p.bp2 = pairId n1 n2 := by rw [← ho.id]; exact (h.rep.wf _ _ _ hp).1
  rcases pairId_injective _ _ _ _ (h.s.bp _ _ _ ho.c1 ho.b1).1 (h.s.bp _ _ _ ho.c2 ho.b2).1 (h.s.bp _ _ _ h1 b1).1 (h.s.bp _ _ _ h2 b2).1 hid
    with ⟨a1, a2⟩ | ⟨a1, a2⟩
  · exact Or.inl ⟨h.bp_inj ho.c1 h1 ho.b1 (by rw [a1]; exact b1), h.bp_inj ho.c2 h2 ho.b2 (by rw [a2]; exact b2)⟩
  · exact Or.inr ⟨h.bp_inj ho.c1 h2 ho.b1 (by rw [a1]; exact b2), h.bp_inj ho.c2 h1 ho.b2 (by rw [a2]; exact b1)⟩

/-- Two colliders have at most one pair. -/
theorem WInv.pair_unique (h : WInv cfg w A) {id id' : Nat} {k k' : Kind} {p p' : Pair} (hp : A id = some (k, p)) (hp' : A id' = some (k', p'))
    (hs : Same2 p.c1 p.c2 p'.c1 p'.c2) : id = id' := by
  obtain ⟨x1, x2, ho⟩ := h.s.pair _ _ _ hp
  obtain ⟨y1, y2, ho'⟩ := h.s.pair _ _ _ hp'
  have e : p.id = p'.id := by
    rw [ho.id, ho'.id]
    rcases hs with ⟨e1, e2⟩ | ⟨e1, e2⟩
    · have h1 := ho.c1; have h2 := ho.c2
      rw [e1, ho'.c1] at h1; rw [e2, ho'.c2] at h2
      cases h1; cases h2
      have b1 := ho.b1; have b2 := ho.b2
      rw [ho'.b1] at b1; rw [ho'.b2] at b2
      rw [Option.some.inj b1, Option.some.inj b2]
    · have h1 := ho.c1; have h2 := ho.c2
      rw [e1, ho'.c2] at h1; rw [e2, ho'.c1] at h2
      cases h1; cases h2
      have b1 := ho.b1; have b2 := ho.b2
      rw [ho'.b2] at b1; rw [ho'.b1] at b2
      rw [Option.some.inj b1, Option.some.inj b2]; exact pairId_comm _ _
  rw [← (h.rep.wf _ _ _ hp).1, ← (h.rep.wf _ _ _ hp').1, e]

theorem Same2.symm {a b c d : Nat} (h : Same2 a b c d) : Same2 c d a b := by
  rcases h with ⟨h1, h2⟩ | ⟨h1, h2⟩
  · exact Or.inl ⟨h1.symm, h2.symm⟩
  · exact Or.inr ⟨h2.symm, h1.symm⟩

theorem Same2.trans {a b c d e f : Nat} (h : Same2 a b c d) (h2 : Same2 c d e f) : Same2 a b e f := by
  unfold Same2 at *; omega

/-- A removed pair is recorded as lost once. -/
theorem WInv.removeLost (h : WInv cfg w A) {id : Nat} {k : Kind} {p : Pair} (ha : A id = some (k, p)) {notify : Bool} {l : List CPair}
    (hl : w.lostOf p notify = some l) : LostOnce (w.lost ++ l) (upd A id none) := by
  obtain ⟨l', hl', _, hnn, hnp, hpq⟩ := lostOf_ok h ha notify
  rw [hl] at hl'; cases hl'
  have hA : ∀ j k' p', upd A id none j = some (k', p') → j ≠ id ∧ A j = some (k', p') := by
    intro j k' p' hj
    by_cases e : j = id
    · subst e; rw [upd_same] at hj; cases hj
    · rw [upd_ne _ _ e] at hj; exact ⟨e, hj⟩
  by_cases hpn : p.prev = true ∧ notify = true
  · obtain ⟨q, x1, x2, rfl, hx1, hx2, hq⟩ := hpq hpn.1 hpn.2
    constructor
    · rw [List.pairwise_append]
      refine ⟨h.s.once.once, by simp, ?_⟩
      intro r hr q' hq' hs
      rw [List.mem_singleton] at hq'
      subst hq'
      subst hq
      exact h.s.once.apart r hr id k p ha hpn.1 hs.symm
    · intro r hr j k' p' hj hpr hs
      obtain ⟨e, hj⟩ := hA j k' p' hj
      rcases List.mem_append.1 hr with hr | hr
      · exact h.s.once.apart r hr j k' p' hj hpr hs
      · rw [List.mem_singleton] at hr
        subst hr
        subst hq
        exact e (h.pair_unique hj ha hs)
  · have : l = [] := by
      by_cases hp : p.prev = true
      · exact hnn (by
          cases hn : notify with
          | false => rfl
          | true => exact absurd ⟨hp, hn⟩ hpn)
      · exact hnp (by simpa using hp)
    subst this
    rw [List.append_nil]
    exact ⟨h.s.once.once, fun r hr j k' p' hj hpr => h.s.once.apart r hr j k' p' (hA j k' p' hj).2 hpr⟩

theorem WInv.sync_none (h : WInv cfg w A) (hs : cfg.sync) (id : Nat) : ∀ j k p, upd A id none j = some (k, p) → p.cur = p.prev := by
  intro j k p hj
  by_cases e : j = id
  · subst e; rw [upd_same] at hj; cases hj
  · rw [upd_ne _ _ e] at hj; exact h.s.sync hs j k p hj

theorem removeOverlap_ok (h : WInv cfg w A) {id : Nat} {k : Kind} {p : Pair} (ha : A id = some (k, p)) (notify : Bool)
    (hc : cfg.cover → ∀ c1 c2 n1 n2 x1 x2 t1 t2, Meet w c1 c2 n1 n2 x1 x2 t1 t2 → pairId n1 n2 ≠ id) :
    ∃ s l, w.removeOverlap id notify = some { w with store := s, lost := w.lost ++ l } ∧ WInv cfg { w with store := s, lost := w.lost ++ l } (upd A id none) ∧
      w.lostOf p notify = some l := by
  unfold removeOverlap
  rw [h.rep.deref_eq ha]
  obtain ⟨l, hl, h1, h2, _⟩ := lostOf_ok h ha notify
  simp only [hl]
  obtain ⟨s, hs, hr⟩ := PStore.removePair_rep h.rep id
  rw [hs]
  refine ⟨s, l, rfl, store_sub h hr (subCore_upd_none id) ?_ ?_ (h.removeLost ha hl) (fun hs => h.sync_none hs id), rfl⟩
  · intro hlo q hq
    rcases List.mem_append.1 hq with hq | hq
    · exact h.s.lost hlo q hq
    · exact h1 q hq
  · intro hcov c1 c2 n1 n2 x1 x2 t1 t2 hm hy
    rw [upd_ne _ _ (hc hcov c1 c2 n1 n2 x1 x2 t1 t2 hm)]
    exact hy

/-- The map without the pairs of a collider. -/
def without (A : PMap) (c : Nat) : PMap := fun id =>
  match A id with
  | some (k, p) => if p.c1 = c ∨ p.c2 = c then none else some (k, p)
  | none => none

theorem without_some {c id : Nat} {k : Kind} {p : Pair} : without A c id = some (k, p) ↔ A id = some (k, p) ∧ p.c1 ≠ c ∧ p.c2 ≠ c := by
  unfold without
  cases ha : A id with
  | none => simp
  | some x =>
    obtain ⟨k', p'⟩ := x
    simp only
    split
    · rename_i hc
      constructor
      · intro h; cases h
      · rintro ⟨h, h1, h2⟩; cases h; exact absurd hc (by tauto)
    · rename_i hc
      constructor
      · intro h; cases h; exact ⟨rfl, by tauto⟩
      · rintro ⟨h, _⟩; cases h; rfl

theorem without_upd {c id : Nat} {k : Kind} {p : Pair} (ha : A id = some (k, p)) (hc : p.c1 = c ∨ p.c2 = c) : without (upd A id none) c = without A c := by
  funext j
  by_cases e : j = id
  · subst e; simp [without, ha, hc]
  · simp only [without]; rw [upd_ne _ _ e]

theorem without_self {c : Nat} (h : ∀ id k p, A id = some (k, p) → p.c1 ≠ c ∧ p.c2 ≠ c) : without A c = A := by
  funext id
  cases ha : A id with
  | none => simp [without, ha]
  | some x =>
    obtain ⟨k, p⟩ := x
    have := h id k p ha
    simp [without, ha, this]

/-- All pairs of a collider are removed, and nothing else changes; the collider may then no longer take part in `cover`. -/
theorem dropPairs_ok (c : Nat) (m : Nat) (h : WInv cfg w A) (hcov : ¬ cfg.cover) (hm : (w.store.own c).length ≤ m) :
    ∃ s, w.dropPairs c m = some { w with store := s } ∧ WInv cfg { w with store := s } (without A c) := by
  induction m generalizing w A with
  | zero =>
    have h0 : w.store.own c = [] := List.length_eq_zero_iff.1 (Nat.le_zero.1 hm)
    refine ⟨w.store, by simp only [dropPairs, h0], ?_⟩
    rw [without_self]; · exact h
    intro id k p hp
    constructor
    · intro e
      have := (h.rep.own c id).2 ⟨k, p, hp, Or.inl e⟩
      rw [h0] at this; cases this
    · intro e
      have := (h.rep.own c id).2 ⟨k, p, hp, Or.inr e⟩
      rw [h0] at this; cases this
  | succ m ih =>
    unfold dropPairs
    cases ho : w.store.own c with
    | nil =>
      refine ⟨w.store, rfl, ?_⟩
      rw [without_self]; · exact h
      intro id k p hp
      constructor
      · intro e
        have := (h.rep.own c id).2 ⟨k, p, hp, Or.inl e⟩
        rw [ho] at this; cases this
      · intro e
        have := (h.rep.own c id).2 ⟨k, p, hp, Or.inr e⟩
        rw [ho] at this; cases this
    | cons id rest =>
      obtain ⟨k, p, ha, hcp⟩ := (h.rep.own c id).1 (by rw [ho]; simp)
      obtain ⟨s, l, e, hw, hl⟩ := removeOverlap_ok h ha false (fun hc => absurd hc hcov)
      obtain ⟨l', hl', _, hn, _⟩ := lostOf_ok h ha false
      rw [hl] at hl'; cases hl'
      have := hn rfl
      subst this
      rw [List.append_nil] at e hw
      simp only [e]
      obtain ⟨s', e', hw'⟩ := ih hw (by
        have hsub : s.own c ⊆ rest := by
          intro j hj
          obtain ⟨k', p', hj', hc'⟩ := (hw.rep.own c j).1 hj
          have hne : j ≠ id := by
            intro e; subst e; rw [upd_same] at hj'; cases hj'
          rw [upd_ne _ _ hne] at hj'
          have := (h.rep.own c j).2 ⟨k', p', hj', hc'⟩
          rw [ho] at this
          rcases List.mem_cons.1 this with e | e
          · exact absurd e hne
          · exact e
        have h1 := (List.subperm_of_subset (hw.rep.nodup c) hsub).length_le
        have h2 : rest.length ≤ m := by rw [ho] at hm; simpa using hm
        exact Nat.le_trans h1 h2)
      exact ⟨s', e', by rw [← without_upd ha hcp]; exact hw'⟩

def Cfg.noCover (cfg : Cfg) : Cfg := { cfg with cover := False }
def Cfg.addExA (cfg : Cfg) (b : Nat) : Cfg := { cfg with exA := fun b' => cfg.exA b' ∨ b' = b }

theorem WInv.noCover (h : WInv cfg w A) : WInv cfg.noCover w A :=
  ⟨h.rep, h.s.weaken (fun h => h) (fun h => h) (fun h => h.elim) (fun h => h) (fun _ h => h), ⟨h.d.col, h.d.static, h.d.dis, h.d.moved, h.d.pair⟩⟩

theorem WInv.addExA (h : WInv cfg w A) (b : Nat) : WInv (cfg.addExA b) w A :=
  ⟨h.rep, h.s.weaken (fun h => h) (fun h => h) (fun h => h) (fun h => h) (fun _ h => Or.inl h), ⟨h.d.col, h.d.static, h.d.dis, h.d.moved, h.d.pair⟩⟩

/-- The optional part `cover` is added. -/
theorem WInv.cover (h : WInv cfg.noCover w A) (hc : cfg.cover → ∀ c1 c2 n1 n2 x1 x2 t1 t2, Meet w c1 c2 n1 n2 x1 x2 t1 t2 →
    (∃ y, A (pairId n1 n2) = some y) ∨ w.moved n1 = true ∨ w.moved n2 = true) : WInv cfg w A := by
  refine ⟨h.rep, ⟨?_, h.s.col, h.s.cols, h.s.bp, h.s.bpMap, h.s.tree, h.s.flags, h.s.lost, hc, h.s.once, h.s.sync⟩, ⟨h.d.col, h.d.static, h.d.dis, h.d.moved, h.d.pair⟩⟩
  intro id k p hp
  obtain ⟨x1, x2, ho⟩ := h.s.pair id k p hp
  exact ⟨x1, x2, ⟨ho.c1, ho.c2, ho.ne, ho.b1, ho.b2, ho.id, ho.noColl, ho.cvx, ho.bits⟩⟩

/-- The exemption of a body is lifted. -/
theorem WInv.dropExA {b : Nat} (h : WInv (cfg.addExA b) w A)
    (hb : ∀ c x B, w.col c = some x → x.body = b → w.body b = some B → x.bp.isSome = B.active ∨ cfg.exA b) : WInv cfg w A := by
  refine ⟨h.rep, ⟨?_, ?_, h.s.cols, h.s.bp, h.s.bpMap, h.s.tree, h.s.flags, h.s.lost, h.s.cover, h.s.once, h.s.sync⟩, ⟨h.d.col, h.d.static, h.d.dis, h.d.moved, h.d.pair⟩⟩
  · intro id k p hp
    obtain ⟨x1, x2, ho⟩ := h.s.pair id k p hp
    exact ⟨x1, x2, ⟨ho.c1, ho.c2, ho.ne, ho.b1, ho.b2, ho.id, ho.noColl, ho.cvx, ho.bits⟩⟩
  · intro c x hx
    obtain ⟨B, h1, h2, h3⟩ := h.s.col c x hx
    refine ⟨B, h1, h2, ?_⟩
    rcases h3 with h3 | h3 | h3
    · exact Or.inl h3
    · exact Or.inr h3
    · rw [h3]; exact hb c x B hx h3 (by rw [← h3]; exact h1)

/-- A collider is taken out of the broad phase. -/
def offTree (w : World α) (c n : Nat) (x : Col) (s : PStore) : World α :=
  { w with store := s, bpMap := upd w.bpMap n none, tree := upd w.tree n none, moved := upd w.moved n false, col := upd w.col c (some { x with bp := none }) }

theorem cdRemove_ok (h : WInv cfg w A) {c n : Nat} {x : Col} (hc : w.col c = some x) (hn : x.bp = some n) :
    ∃ s, w.cdRemove c n = some (w.offTree c n x s) ∧ WInv (cfg.addExA x.body) (w.offTree c n x s) (without A c) := by
  unfold cdRemove
  obtain ⟨s, e, hw⟩ := dropPairs_ok c _ h.noCover (fun h => h) (Nat.le_refl _)
  rw [e]
  simp only [hc]
  obtain ⟨t, ht, htc⟩ := h.node hc hn
  simp only [ht]
  refine ⟨s, rfl, ?_⟩
  have hcol : ∀ c', c' ≠ c → (w.offTree c n x s).col c' = w.col c' := fun c' e => upd_ne _ _ e
  have hcolc : (w.offTree c n x s).col c = some { x with bp := none } := upd_same _ _ _
  have hcb : ∀ c' y, (w.offTree c n x s).col c' = some y → ∃ y', w.col c' = some y' ∧ y = if c' = c then { y' with bp := none } else y' := by
    intro c' y hy
    by_cases e : c' = c
    · subst e; rw [hcolc] at hy; cases hy; exact ⟨x, hc, by rw [if_pos rfl]⟩
    · rw [hcol c' e] at hy; exact ⟨y, hy, by rw [if_neg e]⟩
  have hnn : ∀ c' y n', w.col c' = some y → y.bp = some n' → c' ≠ c → n' ≠ n := by
    intro c' y n' hy hb hne e
    subst e
    exact hne (h.bp_inj hy hc hb hn)
  refine ⟨hw.rep, ⟨?_, ?_, ?_, ?_, ?_, ?_, ?_, ?_, ?_, hw.s.once, hw.s.sync⟩, ⟨?_, h.d.static, h.d.dis, ?_, ?_⟩⟩
  · intro id k p hp
    obtain ⟨hp', n1, n2⟩ := without_some.1 hp
    obtain ⟨x1, x2, ho⟩ := h.s.pair id k p hp'
    exact ⟨x1, x2, ⟨by rw [hcol _ n1]; exact ho.c1, by rw [hcol _ n2]; exact ho.c2, ho.ne, ho.b1, ho.b2, ho.id, ho.noColl, ho.cvx, ho.bits⟩⟩
  · intro c' y hy
    obtain ⟨y', hy', rfl⟩ := hcb c' y hy
    obtain ⟨B, h1, h2, h3⟩ := h.s.col c' y' hy'
    by_cases e : c' = c
    · subst e
      rw [hc] at hy'; cases hy'
      rw [if_pos rfl]
      exact ⟨B, h1, h2, Or.inr (Or.inr rfl)⟩
    · rw [if_neg e]
      exact ⟨B, h1, h2, h3.imp (fun h => h) Or.inl⟩
  · intro b B hB
    obtain ⟨h1, h2⟩ := h.s.cols b B hB
    refine ⟨h1, fun c' hc' => ?_⟩
    obtain ⟨y, hy, e⟩ := h2 c' hc'
    by_cases e' : c' = c
    · subst e'
      rw [hc] at hy; cases hy
      exact ⟨_, hcolc, e⟩
    · exact ⟨y, by rw [hcol c' e']; exact hy, e⟩
  · intro c' y n' hy hb
    obtain ⟨y', hy', rfl⟩ := hcb c' y hy
    by_cases e : c' = c
    · rw [if_pos e] at hb; cases hb
    · rw [if_neg e] at hb
      obtain ⟨h1, h2⟩ := h.s.bp c' y' n' hy' hb
      exact ⟨h1, (upd_ne _ _ (hnn c' y' n' hy' hb e)).trans h2⟩
  · intro n' c' hb
    by_cases e : n' = n
    · subst e
      rw [show (w.offTree c n' x s).bpMap n' = none from upd_same _ _ _] at hb; cases hb
    · rw [show (w.offTree c n x s).bpMap n' = w.bpMap n' from upd_ne _ _ e] at hb
      obtain ⟨⟨y, hy, hyb⟩, t', ht', e'⟩ := h.s.bpMap n' c' hb
      have hne : c' ≠ c := by
        intro e2; subst e2
        rw [hc] at hy; cases hy
        rw [hn] at hyb; cases hyb
        exact e rfl
      exact ⟨⟨y, by rw [hcol c' hne]; exact hy, hyb⟩, t', (upd_ne _ _ e).trans ht', e'⟩
  · intro n' t' ht'
    by_cases e : n' = n
    · subst e
      rw [show (w.offTree c n' x s).tree n' = none from upd_same _ _ _] at ht'; cases ht'
    · rw [show (w.offTree c n x s).tree n' = w.tree n' from upd_ne _ _ e] at ht'
      exact (upd_ne _ _ e).trans (h.s.tree n' t' ht')
  · intro c' y hy
    obtain ⟨y', hy', rfl⟩ := hcb c' y hy
    have := h.s.flags c' y' hy'
    split <;> exact this
  · intro hl q hq
    have := h.s.lost hl q hq
    have hb : ∀ c', ((w.offTree c n x s).col c').isSome = (w.col c').isSome := by
      intro c'
      by_cases e : c' = c
      · subst e; rw [hcolc, hc]; rfl
      · rw [hcol c' e]
    have hb' : (w.offTree c n x s).body = w.body := rfl
    simp only [reportable, hb, hb'] at this ⊢
    exact this
  · intro hcov c1 c2 n1 n2 y1 y2 t1 t2 hm
    have e1 : c1 ≠ c := by
      intro e; subst e
      have := hm.hc1
      rw [hcolc] at this; cases this
      cases hm.hn1
    have e2 : c2 ≠ c := by
      intro e; subst e
      have := hm.hc2
      rw [hcolc] at this; cases this
      cases hm.hn2
    have g1 := hm.hc1; rw [hcol _ e1] at g1
    have g2 := hm.hc2; rw [hcol _ e2] at g2
    have f1 := hnn _ _ _ g1 hm.hn1 e1
    have f2 := hnn _ _ _ g2 hm.hn2 e2
    have hm' : Meet w c1 c2 n1 n2 y1 y2 t1 t2 := by
      refine ⟨g1, g2, hm.hn1, hm.hn2, ?_, ?_, hm.ne, hm.noColl, hm.bits, hm.cvx, hm.fat⟩
      · have := hm.ht1; rwa [show (w.offTree c n x s).tree n1 = w.tree n1 from upd_ne _ _ f1] at this
      · have := hm.ht2; rwa [show (w.offTree c n x s).tree n2 = w.tree n2 from upd_ne _ _ f2] at this
    rcases h.s.cover hcov c1 c2 n1 n2 y1 y2 t1 t2 hm' with ⟨⟨k, p⟩, hp⟩ | hm1 | hm1
    · left
      refine ⟨(k, p), without_some.2 ⟨hp, ?_⟩⟩
      rcases h.pair_at g1 g2 hm.hn1 hm.hn2 hp with ⟨a1, a2⟩ | ⟨a1, a2⟩
      · rw [a1, a2]; exact ⟨e1, e2⟩
      · rw [a1, a2]; exact ⟨e2, e1⟩
    · exact Or.inr (Or.inl ((upd_ne _ _ f1).trans hm1))
    · exact Or.inr (Or.inr ((upd_ne _ _ f2).trans hm1))
  · intro c' y B hy hB
    obtain ⟨y', hy', rfl⟩ := hcb c' y hy
    by_cases e : c' = c
    · rw [if_pos e] at hB ⊢
      exact h.d.col c' y' B hy' hB
    · rw [if_neg e] at hB ⊢
      exact h.d.col c' y' B hy' hB
  · intro n' hm
    by_cases e : n' = n
    · subst e
      rw [show (w.offTree c n' x s).moved n' = false from upd_same _ _ _] at hm; cases hm
    · rw [show (w.offTree c n x s).moved n' = w.moved n' from upd_ne _ _ e] at hm
      obtain ⟨t', ht'⟩ := h.d.moved n' hm
      exact ⟨t', (upd_ne _ _ e).trans ht'⟩
  · intro hst id k p hp hk c' y B hcp hy hB
    obtain ⟨hp', n1, n2⟩ := without_some.1 hp
    have hne : c' ≠ c := by rcases hcp with rfl | rfl <;> assumption
    rw [hcol c' hne] at hy
    exact h.d.pair hst id k p hp' hk c' y B hcp hy hB

end World
end RP3D
