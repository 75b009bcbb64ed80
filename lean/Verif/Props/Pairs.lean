import Verif.Pairs.StoreLemmas

/-!
Property theorem C24: the store of overlapping pairs.

The specification `PairSpec` is what the collision detection has in mind: a partial map from ids to pairs.
-/

namespace RP3D
namespace PairSpec

/-- What is known about a pair. -/
structure Entry where
  a : Nat
  b : Nat
  ba : Nat
  bb : Nat
  convex : Bool
  enabled : Bool
  need : Bool
  prev : Bool
  cur : Bool

abbrev M := Nat → Option Entry

inductive Op
  | add (a b ba bb : Nat) (convex : Bool)
  | remove (id : Nat)
  | enable (id : Nat)
  | disable (id : Nat)
  | need (id : Nat) (v : Bool)
  | collide (id : Nat) (v : Bool)
  | endFrame

/-- When a client may call the operation: the pair to add is new, the pair to change exists and is in the right state.  A pair
may be disabled twice. -/
def Valid (m : M) : Op → Prop
  | .add a b ba bb _ => a ≠ b ∧ m (pairId ba bb) = none
  | .remove _ => True
  | .enable id => ∃ e, m id = some e ∧ e.enabled = false
  | .disable id => ∃ e, m id = some e
  | .need id _ => ∃ e, m id = some e ∧ e.enabled = true
  | .collide id _ => ∃ e, m id = some e
  | .endFrame => True

/-- The effect of an operation. -/
def step (m : M) : Op → M
  | .add a b ba bb cvx => fun i => if i = pairId ba bb then some ⟨a, b, ba, bb, cvx, true, false, false, false⟩ else m i
  | .remove id => fun i => if i = id then none else m i
  | .enable id => fun i => if i = id then (m i).map fun e => { e with enabled := true, need := false } else m i
  | .disable id => fun i =>
      if i = id then (m i).map fun e => if e.enabled then { e with enabled := false, need := false } else e else m i
  | .need id v => fun i => if i = id then (m i).map fun e => { e with need := v } else m i
  | .collide id v => fun i => if i = id then (m i).map fun e => { e with cur := v } else m i
  | .endFrame => fun i => (m i).map fun e => if e.enabled then { e with prev := e.cur } else e

end PairSpec

open PairSpec

/-- The operations of the code. -/
def pairExec (s : PStore) : PairSpec.Op → Option PStore
  | .add a b ba bb cvx => s.addPair a b ba bb cvx
  | .remove id => s.removePair id
  | .enable id => s.enablePair id
  | .disable id => s.disablePair id
  | .need id v => s.setNeed id v
  | .collide id v => s.modify id fun p => { p with cur := v }
  | .endFrame => some s.updatePrev

/-- All histories of valid operations; the code returns `none` where it has undefined behaviour. -/
inductive PairHist : Option PStore → PairSpec.M → Prop
  | init : PairHist (some PStore.init) (fun _ => none)
  | step {s : Option PStore} {m : PairSpec.M} (op : PairSpec.Op) : PairHist s m → Valid m op → PairHist (s.bind (pairExec · op)) (step m op)

/-- The pair that represents an entry. -/
def Entry.pair (id : Nat) (e : Entry) : Pair := ⟨id, e.ba, e.bb, e.a, e.b, e.need, e.prev, e.cur, e.enabled⟩

/-- The map of pairs that represents a specification map. -/
def absMap (m : PairSpec.M) : PMap := fun id => (m id).map fun e => (Kind.of e.enabled e.convex, Entry.pair id e)

theorem kind_convex (b c : Bool) : (Kind.of b c).convex = c := by cases b <;> cases c <;> rfl
theorem kind_enabled (b c : Bool) : (Kind.of b c).enabled = b := by cases b <;> cases c <;> rfl

theorem absMap_upd {m : PairSpec.M} {id : Nat} {e : Entry} {m' : PairSpec.M} (h1 : m' id = some e) (h2 : ∀ i, i ≠ id → m' i = m i) :
    absMap m' = upd (absMap m) id (some (Kind.of e.enabled e.convex, Entry.pair id e)) := by
  funext i
  by_cases hi : i = id
  · subst hi; simp [absMap, h1]
  · rw [upd_ne _ _ hi]; simp [absMap, h2 i hi]

theorem absMap_some {m : PairSpec.M} {id : Nat} {e : Entry} (h : m id = some e) :
    absMap m id = some (Kind.of e.enabled e.convex, Entry.pair id e) := by simp [absMap, h]

theorem pairExec_rep {s : PStore} {m : PairSpec.M} (h : s.Rep (absMap m)) (op : PairSpec.Op) (hv : Valid m op) :
    ∃ s', pairExec s op = some s' ∧ s'.Rep (absMap (step m op)) := by
  cases op with
  | add a b ba bb cvx =>
    obtain ⟨hab, hn⟩ := hv
    obtain ⟨s', hs, hr⟩ := PStore.addPair_rep h hab (show absMap m (pairId ba bb) = none by simp [absMap, hn]) cvx
    refine ⟨s', hs, ?_⟩
    have e := absMap_upd (m := m) (m' := step m (.add a b ba bb cvx)) (id := pairId ba bb)
      (e := ⟨a, b, ba, bb, cvx, true, false, false, false⟩) (if_pos rfl) (fun i hi => if_neg hi)
    rw [e]
    exact hr
  | remove id =>
    obtain ⟨s', hs, hr⟩ := PStore.removePair_rep h id
    refine ⟨s', hs, ?_⟩
    have e : absMap (step m (.remove id)) = upd (absMap m) id none := by
      funext i
      by_cases hi : i = id
      · subst hi; simp [absMap, step]
      · rw [upd_ne _ _ hi]; simp [absMap, step, hi]
    rw [e]
    exact hr
  | enable id =>
    obtain ⟨e, he, hd⟩ := hv
    obtain ⟨s', hs, hr, _⟩ := PStore.enablePair_rep h (absMap_some he) (by rw [kind_enabled]; exact hd)
    refine ⟨s', hs, ?_⟩
    rw [absMap_upd (m := m) (m' := step m (.enable id)) (id := id) (e := { e with enabled := true, need := false }) (by simp [step, he]) (fun i hi => if_neg hi)]
    rw [kind_convex] at hr
    exact hr
  | disable id =>
    obtain ⟨e, he⟩ := hv
    cases hd : e.enabled with
    | true =>
      obtain ⟨s', hs, hr, _⟩ := PStore.disablePair_rep h (absMap_some he) (by rw [kind_enabled]; exact hd)
      refine ⟨s', hs, ?_⟩
      rw [absMap_upd (m := m) (m' := step m (.disable id)) (id := id) (e := { e with enabled := false, need := false }) (by simp [step, he, hd])
        (fun i hi => if_neg hi)]
      rw [kind_convex] at hr
      exact hr
    | false =>
      refine ⟨s, PStore.disablePair_noop h ?_, ?_⟩
      · intro k p hp
        rw [absMap_some he] at hp
        cases hp
        rw [kind_enabled]; exact hd
      · have : step m (.disable id) = m := by
          funext i
          by_cases hi : i = id
          · subst hi; simp [step, he, hd]
          · simp [step, hi]
        rw [this]; exact h
  | need id v =>
    obtain ⟨e, he, hd⟩ := hv
    obtain ⟨s', hs, hr, _⟩ := PStore.setNeed_rep h (absMap_some he) (by rw [kind_enabled]; exact hd) v
    refine ⟨s', hs, ?_⟩
    rw [absMap_upd (m := m) (m' := step m (.need id v)) (id := id) (e := { e with need := v }) (by simp [step, he]) (fun i hi => if_neg hi)]
    exact hr
  | collide id v =>
    obtain ⟨e, he⟩ := hv
    obtain ⟨s', hs, hr, _⟩ := PStore.modify_rep (f := fun p => { p with cur := v }) h (absMap_some he) (fun _ => rfl)
      (fun _ => ⟨rfl, rfl, rfl⟩)
    refine ⟨s', hs, ?_⟩
    rw [absMap_upd (m := m) (m' := step m (.collide id v)) (id := id) (e := { e with cur := v }) (by simp [step, he]) (fun i hi => if_neg hi)]
    exact hr
  | endFrame =>
    refine ⟨_, rfl, ?_⟩
    have h1 := PStore.mapTab_rep (f := fun p => { p with prev := p.cur }) h .cv (fun _ => rfl) (fun _ => ⟨rfl, rfl, rfl⟩)
    have h2 := PStore.mapTab_rep (f := fun p => { p with prev := p.cur }) h1 .cc (fun _ => rfl) (fun _ => ⟨rfl, rfl, rfl⟩)
    have e : absMap (step m .endFrame) = PStore.mapKind (PStore.mapKind (absMap m) .cv fun p => { p with prev := p.cur }) .cc
        fun p => { p with prev := p.cur } := by
      funext i
      simp only [absMap, step, PStore.mapKind, Option.map_map]
      congr 1
      funext x
      obtain ⟨a, b, ba, bb, c, en, n, p, u⟩ := x
      cases en <;> cases c <;> simp [Kind.of, Entry.pair]
    rw [e]
    exact h2

theorem pairHist_rep {o : Option PStore} {m : PairSpec.M} (h : PairHist o m) : ∃ s, o = some s ∧ s.Rep (absMap m) := by
  induction h with
  | init => exact ⟨_, rfl, PStore.rep_init⟩
  | step op _ hv ih =>
    obtain ⟨s, rfl, hr⟩ := ih
    obtain ⟨s', hs, hr'⟩ := pairExec_rep hr op hv
    exact ⟨s', by simpa using hs, hr'⟩

/-- **C24.** No valid history of the store is undefined, and a lookup returns exactly what the specification map holds. -/
theorem pairs_lookup_exact {o : Option PStore} {m : PairSpec.M} (h : PairHist o m) :
    ∃ s, o = some s ∧ ∀ id, s.get id = some ((m id).map (Entry.pair id)) := by
  obtain ⟨s, rfl, hr⟩ := pairHist_rep h
  refine ⟨s, rfl, fun id => ?_⟩
  rw [hr.get_eq]
  simp [absMap, Option.map_map, Function.comp_def]

/-- **C24.** Every pair is at exactly one index of exactly one of the four arrays, the one of its sort; and nothing else is stored. -/
theorem pairs_stored_once {o : Option PStore} {m : PairSpec.M} (h : PairHist o m) :
    ∃ s, o = some s ∧ (∀ id e, m id = some e → ∃ i, (s.tab (Kind.of e.enabled e.convex)).arr[i]? = some (Entry.pair id e) ∧
        ∀ (k : Kind) (j : Nat) (p : Pair), (s.tab k).arr[j]? = some p → p.id = id → k = Kind.of e.enabled e.convex ∧ j = i) ∧
      ∀ (k : Kind) (j : Nat) (p : Pair), (s.tab k).arr[j]? = some p → ∃ e, m p.id = some e ∧ p = Entry.pair p.id e := by
  obtain ⟨s, rfl, hr⟩ := pairHist_rep h
  refine ⟨s, rfl, ?_, ?_⟩
  · intro id e he
    obtain ⟨i, h1, h2⟩ := hr.idx_of (absMap_some he)
    refine ⟨i, h2, ?_⟩
    intro k j p hp hid
    have hA := (hr.mem k p).1 (List.mem_of_getElem? hp)
    rw [hid, absMap_some he] at hA
    cases hA
    exact ⟨rfl, ((hr.ok _).unique hp h2 rfl).1⟩
  · intro k j p hp
    have hA := (hr.mem k p).1 (List.mem_of_getElem? hp)
    obtain ⟨e, he, hx⟩ := Option.map_eq_some_iff.1 hA
    exact ⟨e, he, (Prod.mk.inj hx).2.symm⟩

/-- **C24.** The list of a collider names exactly the stored pairs that it belongs to, each once. -/
theorem pairs_collider_lists {o : Option PStore} {m : PairSpec.M} (h : PairHist o m) :
    ∃ s, o = some s ∧ ∀ c, (s.own c).Nodup ∧ ∀ id, id ∈ s.own c ↔ ∃ e, m id = some e ∧ (e.a = c ∨ e.b = c) := by
  obtain ⟨s, rfl, hr⟩ := pairHist_rep h
  refine ⟨s, rfl, fun c => ⟨hr.nodup c, fun id => ?_⟩⟩
  rw [hr.own]
  constructor
  · rintro ⟨k, p, hA, hc⟩
    obtain ⟨e, he, hx⟩ := Option.map_eq_some_iff.1 hA
    cases hx
    exact ⟨e, he, hc⟩
  · rintro ⟨e, he, hc⟩
    exact ⟨_, _, absMap_some he, hc⟩

/-- A history with three pairs, one disabled and one removed, whose hypotheses are met. -/
example : ∃ o m, PairHist o m ∧ (m (pairId 0 1)).isSome ∧ m (pairId 0 2) = none ∧ (m (pairId 1 2)).isSome := by
  have d1 : pairId 0 2 ≠ pairId 0 1 := by decide
  have d2 : pairId 1 2 ≠ pairId 0 1 := by decide
  have d3 : pairId 1 2 ≠ pairId 0 2 := by decide
  have h1 := PairHist.init.step (.add 10 11 0 1 true) ⟨by decide, rfl⟩
  have h2 := h1.step (.add 10 12 0 2 false) ⟨by decide, by simp [step, d1]⟩
  have h3 := h2.step (.add 11 12 1 2 true) ⟨by decide, by simp [step, d2, d3]⟩
  have h4 := h3.step (.disable (pairId 0 1)) ⟨⟨10, 11, 0, 1, true, true, false, false, false⟩, by simp [step, d1.symm, d2.symm]⟩
  have h5 := h4.step (.remove (pairId 0 2)) trivial
  refine ⟨_, _, h5, ?_, ?_, ?_⟩
  · simp [step, d1.symm, d2.symm]
  · simp [step]
  · simp [step, d2, d3]

/-- **C27.** Marking a disabled pair for a test reads a map with a missing key: undefined behaviour. -/
theorem setNeed_disabled_undefined {o : Option PStore} {m : PairSpec.M} (h : PairHist o m) {id : Nat} {e : Entry}
    (he : m id = some e) (hd : e.enabled = false) (v : Bool) : ∃ s, o = some s ∧ s.setNeed id v = none := by
  obtain ⟨s, rfl, hr⟩ := pairHist_rep h
  refine ⟨s, rfl, PStore.setNeed_none hr ?_ v⟩
  intro k p hp
  rw [absMap_some he] at hp
  cases hp
  rw [kind_enabled]; exact hd

example : ∃ o m id e, PairHist o m ∧ m id = some e ∧ e.enabled = false := by
  have h1 := PairHist.init.step (.add 10 11 0 1 true) ⟨by decide, rfl⟩
  have h2 := h1.step (.disable (pairId 0 1)) ⟨⟨10, 11, 0, 1, true, true, false, false, false⟩, by simp [step]⟩
  exact ⟨_, _, pairId 0 1, _, h2, by simp [step]; rfl, rfl⟩

end RP3D
