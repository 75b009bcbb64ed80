import Verif.Pairs.Store
import Mathlib.Data.List.Basic
import Mathlib.Data.List.Nodup

/-! The store of overlapping pairs refines a finite map from ids to pairs. -/

set_option linter.unusedVariables false
set_option linter.unusedSimpArgs false

namespace RP3D

namespace PTable

/-- The map and the array agree. -/
def Ok (t : PTable) : Prop := ∀ id i, t.idx id = some i ↔ ∃ p, t.arr[i]? = some p ∧ p.id = id

theorem ok_empty : PTable.empty.Ok := by
  intro id i
  simp [PTable.empty]

theorem Ok.find {t : PTable} (h : t.Ok) {p : Pair} (hp : p ∈ t.arr) : ∃ i, t.idx p.id = some i ∧ t.arr[i]? = some p := by
  obtain ⟨i, hi⟩ := List.mem_iff_getElem?.1 hp
  exact ⟨i, (h p.id i).2 ⟨p, hi, rfl⟩, hi⟩

theorem Ok.unique {t : PTable} (h : t.Ok) {i j : Nat} {p q : Pair} (hi : t.arr[i]? = some p) (hj : t.arr[j]? = some q)
    (e : p.id = q.id) : i = j ∧ p = q := by
  have h1 := (h p.id i).2 ⟨p, hi, rfl⟩
  have h2 := (h p.id j).2 ⟨q, hj, e.symm⟩
  rw [h1] at h2
  cases h2
  rw [hi] at hj
  exact ⟨rfl, by simpa using hj⟩

theorem Ok.none {t : PTable} (h : t.Ok) {id : Nat} : t.idx id = none ↔ ∀ p ∈ t.arr, p.id ≠ id := by
  constructor
  · intro hn p hp e
    obtain ⟨i, hi, _⟩ := h.find hp
    rw [e, hn] at hi
    cases hi
  · intro hn
    cases hc : t.idx id with
    | none => rfl
    | some i =>
      obtain ⟨p, hp, e⟩ := (h id i).1 hc
      exact absurd e (hn p (List.mem_of_getElem? hp))

theorem add_ok {t : PTable} (h : t.Ok) {p : Pair} (hn : ∀ q ∈ t.arr, q.id ≠ p.id) :
    ∃ t', t.add p = some t' ∧ t'.Ok ∧ t'.arr = t.arr ++ [p] := by
  have h0 := h.none.2 hn
  refine ⟨⟨t.arr ++ [p], upd t.idx p.id (some t.arr.length)⟩, by simp only [add, h0], ?_, rfl⟩
  intro id i
  simp only
  by_cases e : id = p.id
  · subst e
    rw [upd_same]
    constructor
    · intro hi
      cases hi
      exact ⟨p, by simp, rfl⟩
    · rintro ⟨q, hq, e⟩
      rw [List.getElem?_append] at hq
      split_ifs at hq with hl
      · exact absurd e (hn q (List.mem_of_getElem? hq))
      · have : i - t.arr.length = 0 := by
          by_contra hc
          obtain ⟨m, hm⟩ := Nat.exists_eq_succ_of_ne_zero hc
          rw [hm] at hq
          simp at hq
        have : i = t.arr.length := by omega
        rw [this]
  · rw [upd_ne _ _ e, h id i]
    constructor
    · rintro ⟨q, hq, e2⟩
      refine ⟨q, ?_, e2⟩
      rw [List.getElem?_append_left]
      · exact hq
      · exact (List.getElem?_eq_some_iff.1 hq).1
    · rintro ⟨q, hq, e2⟩
      rw [List.getElem?_append] at hq
      split_ifs at hq with hl
      · exact ⟨q, hq, e2⟩
      · obtain ⟨m, hm⟩ : ∃ m, i - t.arr.length = m := ⟨_, rfl⟩
        rw [hm] at hq
        cases m with
        | zero => simp at hq; subst hq; exact absurd e2.symm e
        | succ m => simp at hq

theorem removeAt_ok {t : PTable} (h : t.Ok) {i : Nat} {p : Pair} (hp : t.arr[i]? = some p) :
    ∃ t', t.removeAt i = some t' ∧ t'.Ok ∧ t'.arr.length + 1 = t.arr.length ∧ (∀ q, q ∈ t'.arr ↔ q ∈ t.arr ∧ q.id ≠ p.id) ∧
      (∀ j, j < i → t'.arr[j]? = t.arr[j]?) := by
  obtain ⟨hlt, hpe⟩ := List.getElem?_eq_some_iff.1 hp
  have hne : t.arr ≠ [] := by intro e; rw [e] at hlt; simp at hlt
  obtain ⟨last, hlast⟩ : ∃ q, t.arr.getLast? = some q := ⟨_, List.getLast?_eq_getLast_of_ne_nil hne⟩
  have hl : t.arr[t.arr.length - 1]? = some last := by rw [← hlast, List.getLast?_eq_getElem?]
  have hlen : (t.arr.set i last).dropLast.length + 1 = t.arr.length := by simp; omega
  have hget : ∀ j, j < t.arr.length - 1 → (t.arr.set i last).dropLast[j]? = if j = i then some last else t.arr[j]? := by
    intro j hj
    rw [List.getElem?_dropLast, if_pos (by simpa using hj), List.getElem?_set]
    by_cases e : i = j
    · subst e; simp [hlt]
    · simp [e, Ne.symm e]
  have hget0 : ∀ j, ¬ j < t.arr.length - 1 → (t.arr.set i last).dropLast[j]? = none := by
    intro j hj
    rw [List.getElem?_dropLast, if_neg (by simpa using hj)]
  by_cases hi : i < t.arr.length - 1
  · have hpl : last.id ≠ p.id := by
      intro e
      have := (h.unique hl hp e).1
      omega
    have hlx : t.idx last.id = some (t.arr.length - 1) := (h _ _).2 ⟨last, hl, rfl⟩
    have hr : relink (upd t.idx p.id none) t.arr.length i last.id = some (upd (upd t.idx p.id none) last.id (some i)) := by
      unfold relink
      rw [if_pos ⟨by omega, hi⟩, upd_ne _ _ hpl, hlx]
    refine ⟨⟨(t.arr.set i last).dropLast, upd (upd t.idx p.id none) last.id (some i)⟩, ?_, ?_, hlen, ?_, ?_⟩
    · simp only [removeAt, hp, hlast, hr, Option.bind_eq_bind, Option.bind_some]
    · intro id j
      simp only
      by_cases e1 : id = last.id
      · subst e1
        rw [upd_same]
        constructor
        · intro hj
          cases hj
          exact ⟨last, by rw [hget i hi, if_pos rfl], rfl⟩
        · rintro ⟨q, hq, e⟩
          by_cases hj : j < t.arr.length - 1
          · rw [hget j hj] at hq
            split_ifs at hq with hji
            · rw [hji]
            · have := (h.unique hq hl e).1
              omega
          · rw [hget0 j hj] at hq; cases hq
      · rw [upd_ne _ _ e1]
        by_cases e2 : id = p.id
        · subst e2
          rw [upd_same]
          constructor
          · intro hj; cases hj
          · rintro ⟨q, hq, e⟩
            by_cases hj : j < t.arr.length - 1
            · rw [hget j hj] at hq
              split_ifs at hq with hji
              · cases hq; exact absurd e.symm e1
              · exact absurd (h.unique hq hp e).1 hji
            · rw [hget0 j hj] at hq; cases hq
        · rw [upd_ne _ _ e2, h id j]
          constructor
          · rintro ⟨q, hq, e⟩
            have hjl : j < t.arr.length := (List.getElem?_eq_some_iff.1 hq).1
            have hji : j ≠ i := by
              rintro rfl
              rw [hp] at hq; cases hq; exact e2 e.symm
            have hj : j < t.arr.length - 1 := by
              by_contra hc
              have : j = t.arr.length - 1 := by omega
              subst this
              rw [hl] at hq; cases hq; exact e1 e.symm
            exact ⟨q, by rw [hget j hj, if_neg hji]; exact hq, e⟩
          · rintro ⟨q, hq, e⟩
            by_cases hj : j < t.arr.length - 1
            · rw [hget j hj] at hq
              split_ifs at hq with hji
              · cases hq; exact absurd e.symm e1
              · exact ⟨q, hq, e⟩
            · rw [hget0 j hj] at hq; cases hq
    · intro q
      simp only
      constructor
      · intro hq
        obtain ⟨j, hj⟩ := List.mem_iff_getElem?.1 hq
        by_cases hj2 : j < t.arr.length - 1
        · rw [hget j hj2] at hj
          split_ifs at hj with hji
          · cases hj; exact ⟨List.mem_of_getElem? hl, hpl⟩
          · exact ⟨List.mem_of_getElem? hj, fun e => hji (h.unique hj hp e).1⟩
        · rw [hget0 j hj2] at hj; cases hj
      · rintro ⟨hq, hne2⟩
        obtain ⟨j, hj⟩ := List.mem_iff_getElem?.1 hq
        have hjl : j < t.arr.length := (List.getElem?_eq_some_iff.1 hj).1
        by_cases hj2 : j < t.arr.length - 1
        · apply List.mem_iff_getElem?.2
          refine ⟨j, ?_⟩
          rw [hget j hj2, if_neg]
          · exact hj
          · rintro rfl; rw [hp] at hj; cases hj; exact hne2 rfl
        · have : j = t.arr.length - 1 := by omega
          subst this
          rw [hl] at hj; cases hj
          exact List.mem_iff_getElem?.2 ⟨i, by rw [hget i hi, if_pos rfl]⟩
    · intro j hj
      simp only
      rw [hget j (by omega), if_neg (by omega)]
  · have hie : i = t.arr.length - 1 := by omega
    have hpl : last = p := by
      rw [hie, hl] at hp; cases hp; rfl
    subst hpl
    have hr : relink (upd t.idx last.id none) t.arr.length i last.id = some (upd t.idx last.id none) := by
      unfold relink
      rw [if_neg]
      rintro ⟨_, hc⟩; exact hi hc
    refine ⟨⟨(t.arr.set i last).dropLast, upd t.idx last.id none⟩, ?_, ?_, hlen, ?_, ?_⟩
    · simp only [removeAt, hp, hlast, hr, Option.bind_eq_bind, Option.bind_some]
    · intro id j
      simp only
      by_cases e2 : id = last.id
      · subst e2
        rw [upd_same]
        constructor
        · intro hj; cases hj
        · rintro ⟨q, hq, e⟩
          by_cases hj : j < t.arr.length - 1
          · rw [hget j hj, if_neg (by omega)] at hq
            have := (h.unique hq hl e).1
            omega
          · rw [hget0 j hj] at hq; cases hq
      · rw [upd_ne _ _ e2, h id j]
        constructor
        · rintro ⟨q, hq, e⟩
          have hjl : j < t.arr.length := (List.getElem?_eq_some_iff.1 hq).1
          have hji : j ≠ i := by
            rintro rfl
            rw [hp] at hq; cases hq; exact e2 e.symm
          have hj : j < t.arr.length - 1 := by omega
          exact ⟨q, by rw [hget j hj, if_neg hji]; exact hq, e⟩
        · rintro ⟨q, hq, e⟩
          by_cases hj : j < t.arr.length - 1
          · rw [hget j hj, if_neg (by omega)] at hq
            exact ⟨q, hq, e⟩
          · rw [hget0 j hj] at hq; cases hq
    · intro q
      simp only
      constructor
      · intro hq
        obtain ⟨j, hj⟩ := List.mem_iff_getElem?.1 hq
        by_cases hj2 : j < t.arr.length - 1
        · rw [hget j hj2, if_neg (by omega)] at hj
          exact ⟨List.mem_of_getElem? hj, fun e => by have := (h.unique hj hp e).1; omega⟩
        · rw [hget0 j hj2] at hj; cases hj
      · rintro ⟨hq, hne2⟩
        obtain ⟨j, hj⟩ := List.mem_iff_getElem?.1 hq
        have hjl : j < t.arr.length := (List.getElem?_eq_some_iff.1 hj).1
        by_cases hj2 : j < t.arr.length - 1
        · exact List.mem_iff_getElem?.2 ⟨j, by rw [hget j hj2, if_neg (by omega)]; exact hj⟩
        · have : j = t.arr.length - 1 := by omega
          subst this
          rw [hl] at hj; cases hj
          exact absurd rfl hne2
    · intro j hj
      simp only
      rw [hget j (by omega), if_neg (by omega)]

theorem modify_ok {t : PTable} (h : t.Ok) {i : Nat} {p : Pair} (hp : t.arr[i]? = some p) {f : Pair → Pair}
    (hf : ∀ p, (f p).id = p.id) :
    ∃ t', t.modify i f = some t' ∧ t'.Ok ∧ t'.arr.length = t.arr.length ∧
      (∀ q, q ∈ t'.arr ↔ (q ∈ t.arr ∧ q.id ≠ p.id) ∨ q = f p) ∧ (∀ j, j ≠ i → t'.arr[j]? = t.arr[j]?) ∧ t'.arr[i]? = some (f p) := by
  obtain ⟨hlt, hpe⟩ := List.getElem?_eq_some_iff.1 hp
  have hget : ∀ j, (t.arr.set i (f p))[j]? = if j = i then some (f p) else t.arr[j]? := by
    intro j
    rw [List.getElem?_set]
    by_cases e : i = j
    · subst e; simp [hlt]
    · simp [e, Ne.symm e]
  refine ⟨⟨t.arr.set i (f p), t.idx⟩, by simp only [modify, hp, Option.bind_eq_bind, Option.bind_some], ?_, by simp, ?_,
    fun j hj => by simp only [hget, if_neg hj], by simp only [hget, if_pos]⟩
  · intro id j
    rw [h id j]
    simp only [hget]
    by_cases e : j = i
    · subst e
      rw [if_pos rfl, hp]
      constructor
      · rintro ⟨q, hq, e⟩; cases hq; exact ⟨_, rfl, by rw [hf]; exact e⟩
      · rintro ⟨q, hq, e⟩; cases hq; exact ⟨_, rfl, by rw [← hf]; exact e⟩
    · rw [if_neg e]
  · intro q
    constructor
    · intro hq
      obtain ⟨j, hj⟩ := List.mem_iff_getElem?.1 hq
      simp only [hget] at hj
      split_ifs at hj with hji
      · cases hj; exact Or.inr rfl
      · exact Or.inl ⟨List.mem_of_getElem? hj, fun e => hji (h.unique hj hp e).1⟩
    · rintro (⟨hq, hne⟩ | rfl)
      · obtain ⟨j, hj⟩ := List.mem_iff_getElem?.1 hq
        refine List.mem_iff_getElem?.2 ⟨j, ?_⟩
        simp only [hget]
        rw [if_neg]
        · exact hj
        · rintro rfl; rw [hp] at hj; cases hj; exact hne rfl
      · exact List.mem_iff_getElem?.2 ⟨i, by simp only [hget, if_pos]⟩

theorem map_ok {t : PTable} (h : t.Ok) {f : Pair → Pair} (hf : ∀ p, (f p).id = p.id) : Ok ⟨t.arr.map f, t.idx⟩ := by
  intro id i
  simp only [List.getElem?_map]
  rw [h id i]
  constructor
  · rintro ⟨p, hp, e⟩; exact ⟨f p, by rw [hp]; rfl, by rw [hf]; exact e⟩
  · rintro ⟨q, hq, e⟩
    obtain ⟨p, hp, rfl⟩ := Option.map_eq_some_iff.1 hq
    exact ⟨p, hp, by rw [← hf]; exact e⟩

end PTable

/-- The specification: a partial map from ids to a pair and the array that it is in. -/
abbrev PMap := Nat → Option (Kind × Pair)

namespace PStore

/-- The store represents the map. -/
structure Rep (s : PStore) (A : PMap) : Prop where
  ok : ∀ k, (s.tab k).Ok
  mem : ∀ k p, p ∈ (s.tab k).arr ↔ A p.id = some (k, p)
  wf : ∀ id k p, A id = some (k, p) → p.id = id ∧ p.enabled = k.enabled ∧ p.c1 ≠ p.c2
  nodup : ∀ c, (s.own c).Nodup
  own : ∀ c id, id ∈ s.own c ↔ ∃ k p, A id = some (k, p) ∧ (p.c1 = c ∨ p.c2 = c)

variable {s : PStore} {A : PMap}

theorem rep_init : Rep init (fun _ => none) :=
  ⟨fun _ => PTable.ok_empty, fun _ _ => by simp [init, PTable.empty], fun _ _ _ h => (by cases h), fun _ => List.nodup_nil,
    fun _ _ => by simp [init]⟩

theorem Rep.idx_some (h : Rep s A) {k : Kind} {id i : Nat} (hi : (s.tab k).idx id = some i) :
    ∃ p, (s.tab k).arr[i]? = some p ∧ p.id = id ∧ A id = some (k, p) := by
  obtain ⟨p, hp, e⟩ := (h.ok k id i).1 hi
  refine ⟨p, hp, e, ?_⟩
  rw [← e]
  exact (h.mem k p).1 (List.mem_of_getElem? hp)

theorem Rep.idx_of (h : Rep s A) {k : Kind} {id : Nat} {p : Pair} (ha : A id = some (k, p)) :
    ∃ i, (s.tab k).idx id = some i ∧ (s.tab k).arr[i]? = some p := by
  have e := (h.wf id k p ha).1
  have := (h.ok k).find ((h.mem k p).2 (by rw [e]; exact ha))
  rw [e] at this
  exact this

theorem Rep.idx_none (h : Rep s A) {k k' : Kind} {id : Nat} {p : Pair} (ha : A id = some (k, p)) (hk : k' ≠ k) :
    (s.tab k').idx id = none := by
  cases hc : (s.tab k').idx id with
  | none => rfl
  | some i =>
    obtain ⟨q, _, _, hq⟩ := h.idx_some hc
    rw [ha] at hq
    cases hq
    exact absurd rfl hk

theorem Rep.idx_none' (h : Rep s A) {k : Kind} {id : Nat} (ha : A id = none) : (s.tab k).idx id = none := by
  cases hc : (s.tab k).idx id with
  | none => rfl
  | some i =>
    obtain ⟨q, _, _, hq⟩ := h.idx_some hc
    rw [ha] at hq
    cases hq

theorem Rep.locate_none (h : Rep s A) {id : Nat} (ha : A id = none) : s.locate id = none := by
  simp only [locate, h.idx_none' ha]

theorem Rep.locate_some (h : Rep s A) {k : Kind} {id : Nat} {p : Pair} (ha : A id = some (k, p)) :
    ∃ i, s.locate id = some (k, i) ∧ (s.tab k).arr[i]? = some p := by
  obtain ⟨i, h1, h2⟩ := h.idx_of ha
  refine ⟨i, ?_, h2⟩
  cases k with
  | cv => simp only [locate, h1]
  | cc => simp only [locate, h1, h.idx_none ha (show Kind.cv ≠ Kind.cc by decide)]
  | dcv =>
    simp only [locate, h1, h.idx_none ha (show Kind.cv ≠ Kind.dcv by decide), h.idx_none ha (show Kind.cc ≠ Kind.dcv by decide)]
  | dcc =>
    simp only [locate, h1, h.idx_none ha (show Kind.cv ≠ Kind.dcc by decide), h.idx_none ha (show Kind.cc ≠ Kind.dcc by decide),
      h.idx_none ha (show Kind.dcv ≠ Kind.dcc by decide)]

theorem Rep.get_eq (h : Rep s A) (id : Nat) : s.get id = some ((A id).map Prod.snd) := by
  cases ha : A id with
  | none => simp [get, h.locate_none ha]
  | some x =>
    obtain ⟨k, p⟩ := x
    obtain ⟨i, h1, h2⟩ := h.locate_some ha
    simp [get, h1, h2]

theorem Rep.deref_eq (h : Rep s A) {k : Kind} {id : Nat} {p : Pair} (ha : A id = some (k, p)) : s.deref id = some p := by
  simp [deref, h.get_eq id, ha]

@[simp] theorem setTab_same (s : PStore) (k : Kind) (t : PTable) : (s.setTab k t).tab k = t := if_pos rfl
theorem setTab_ne (s : PStore) {k k' : Kind} (t : PTable) (h : k' ≠ k) : (s.setTab k t).tab k' = s.tab k' := if_neg h
@[simp] theorem setTab_own (s : PStore) (k : Kind) (t : PTable) : (s.setTab k t).own = s.own := rfl
@[simp] theorem disown_tab (s : PStore) (c id : Nat) : (s.disown c id).tab = s.tab := rfl
@[simp] theorem give_tab (s : PStore) (c id : Nat) : (s.give c id).tab = s.tab := rfl

/-- A pair is changed without changing its id and colliders. -/
theorem rep_replace (h : Rep s A) {k : Kind} {id : Nat} {p q : Pair} (ha : A id = some (k, p)) (e1 : q.id = p.id)
    (e2 : q.enabled = p.enabled) (e3 : q.c1 = p.c1) (e4 : q.c2 = p.c2) {t : PTable} (ht : t.Ok)
    (hm : ∀ x, x ∈ t.arr ↔ (x ∈ (s.tab k).arr ∧ x.id ≠ p.id) ∨ x = q) : Rep (s.setTab k t) (upd A id (some (k, q))) := by
  obtain ⟨w1, w2, w3⟩ := h.wf id k p ha
  refine ⟨?_, ?_, ?_, h.nodup, ?_⟩
  · intro k'
    by_cases e : k' = k
    · subst e; rw [setTab_same]; exact ht
    · rw [setTab_ne _ _ e]; exact h.ok k'
  · intro k' x
    by_cases e : k' = k
    · subst e
      rw [setTab_same, hm, h.mem]
      by_cases ex : x.id = id
      · rw [ex, upd_same]
        constructor
        · rintro (⟨_, h2⟩ | rfl)
          · exact absurd w1.symm h2
          · rfl
        · intro hh; cases hh; exact Or.inr rfl
      · rw [upd_ne _ _ ex]
        constructor
        · rintro (⟨h1, _⟩ | rfl)
          · exact h1
          · exact absurd (e1.trans w1) ex
        · intro hh; exact Or.inl ⟨hh, by rw [w1]; exact ex⟩
    · rw [setTab_ne _ _ e, h.mem]
      by_cases ex : x.id = id
      · rw [ex, upd_same, ha]
        constructor
        · intro hh; cases hh; exact absurd rfl e
        · intro hh; cases hh; exact absurd rfl e
      · rw [upd_ne _ _ ex]
  · intro id' k' x hx
    by_cases ex : id' = id
    · subst ex
      rw [upd_same] at hx; cases hx
      exact ⟨e1.trans w1, e2.trans w2, by rw [e3, e4]; exact w3⟩
    · rw [upd_ne _ _ ex] at hx; exact h.wf _ _ _ hx
  · intro c id'
    rw [setTab_own, h.own]
    by_cases ex : id' = id
    · subst ex
      rw [upd_same, ha]
      constructor
      · rintro ⟨_, _, hh, hc⟩; cases hh; exact ⟨_, _, rfl, by rw [e3, e4]; exact hc⟩
      · rintro ⟨_, _, hh, hc⟩; cases hh; exact ⟨_, _, rfl, by rw [e3, e4] at hc; exact hc⟩
    · rw [upd_ne _ _ ex]

theorem modify_rep (h : Rep s A) {k : Kind} {id : Nat} {p : Pair} (ha : A id = some (k, p)) {f : Pair → Pair}
    (hf : ∀ p, (f p).id = p.id) (hf2 : ∀ p, (f p).enabled = p.enabled ∧ (f p).c1 = p.c1 ∧ (f p).c2 = p.c2) :
    ∃ s', s.modify id f = some s' ∧ Rep s' (upd A id (some (k, f p))) ∧ s'.own = s.own := by
  obtain ⟨i, h1, h2⟩ := h.locate_some ha
  obtain ⟨t, ht, hok, _, hm, _⟩ := PTable.modify_ok (h.ok k) h2 hf
  refine ⟨s.setTab k t, by simp only [modify, h1, ht], ?_, rfl⟩
  exact rep_replace h ha (hf p) (hf2 p).1 (hf2 p).2.1 (hf2 p).2.2 hok hm

theorem setNeed_rep (h : Rep s A) {k : Kind} {id : Nat} {p : Pair} (ha : A id = some (k, p)) (hk : k.enabled = true) (b : Bool) :
    ∃ s', s.setNeed id b = some s' ∧ Rep s' (upd A id (some (k, { p with need := b }))) ∧ s'.own = s.own := by
  obtain ⟨i, h1, h2⟩ := h.idx_of ha
  obtain ⟨t, ht, hok, _, hm, _⟩ := PTable.modify_ok (f := fun p => { p with need := b }) (h.ok k) h2 (fun _ => rfl)
  refine ⟨s.setTab k t, ?_, rep_replace (q := { p with need := b }) h ha rfl rfl rfl rfl hok hm, rfl⟩
  cases k with
  | cv => simp only [setNeed, h1, ht, Option.bind_eq_bind, Option.bind_some]
  | cc =>
    simp only [setNeed, h1, ht, h.idx_none ha (show Kind.cv ≠ Kind.cc by decide), Option.bind_eq_bind, Option.bind_some]
  | dcv => cases hk
  | dcc => cases hk

/-- The lookup of a disabled pair is undefined. -/
theorem setNeed_none (h : Rep s A) {id : Nat} (ha : ∀ k p, A id = some (k, p) → k.enabled = false) (b : Bool) :
    s.setNeed id b = none := by
  have key : ∀ k, k.enabled = true → (s.tab k).idx id = none := by
    intro k hk
    cases hc : (s.tab k).idx id with
    | none => rfl
    | some i =>
      obtain ⟨q, _, _, hq⟩ := h.idx_some hc
      rw [ha _ _ hq] at hk
      cases hk
  simp only [setNeed, key .cv rfl, key .cc rfl]

theorem removeIdx_rep (h : Rep s A) {k : Kind} {i : Nat} {p : Pair} (hp : (s.tab k).arr[i]? = some p) :
    ∃ s', s.removeIdx k i true = some s' ∧ Rep s' (upd A p.id none) ∧ (s'.tab k).arr.length + 1 = (s.tab k).arr.length ∧
      (∀ j, j < i → (s'.tab k).arr[j]? = (s.tab k).arr[j]?) ∧ (∀ k', k' ≠ k → s'.tab k' = s.tab k') := by
  have ha := (h.mem k p).1 (List.mem_of_getElem? hp)
  obtain ⟨_, w2, w3⟩ := h.wf _ _ _ ha
  obtain ⟨t, ht, hok, hl, hm, hj⟩ := PTable.removeAt_ok (h.ok k) hp
  refine ⟨((s.disown p.c1 p.id).disown p.c2 p.id).setTab k t, ?_, ⟨?_, ?_, ?_, ?_, ?_⟩, by rw [setTab_same]; exact hl,
    fun j hj2 => by rw [setTab_same]; exact hj j hj2, fun k' hk => setTab_ne _ _ hk⟩
  · simp only [removeIdx, hp, ht, Option.bind_eq_bind, Option.bind_some, if_true]
  · intro k'
    by_cases e : k' = k
    · subst e; rw [setTab_same]; exact hok
    · rw [setTab_ne _ _ e]; exact h.ok k'
  · intro k' x
    by_cases e : k' = k
    · subst e
      rw [setTab_same, hm, h.mem]
      by_cases ex : x.id = p.id
      · rw [ex, upd_same]; simp
      · rw [upd_ne _ _ ex]; simp [ex]
    · rw [setTab_ne _ _ e, disown_tab, disown_tab, h.mem]
      by_cases ex : x.id = p.id
      · rw [ex, upd_same, ha]
        constructor
        · intro hh; cases hh; exact absurd rfl e
        · intro hh; cases hh
      · rw [upd_ne _ _ ex]
  · intro id' k' x hx
    by_cases ex : id' = p.id
    · subst ex; rw [upd_same] at hx; cases hx
    · rw [upd_ne _ _ ex] at hx; exact h.wf _ _ _ hx
  · intro c
    rw [setTab_own]
    simp only [disown]
    by_cases e2 : c = p.c2
    · subst e2
      rw [upd_same, upd_ne _ _ w3.symm]
      exact (h.nodup _).erase _
    · rw [upd_ne _ _ e2]
      by_cases e1 : c = p.c1
      · subst e1; rw [upd_same]; exact (h.nodup _).erase _
      · rw [upd_ne _ _ e1]; exact h.nodup c
  · intro c id'
    rw [setTab_own]
    simp only [disown]
    have key : ∀ c, (p.c1 = c ∨ p.c2 = c) → (id' ∈ (s.own c).erase p.id ↔
        ∃ k' x, upd A p.id none id' = some (k', x) ∧ (x.c1 = c ∨ x.c2 = c)) := by
      intro c _
      rw [(h.nodup c).mem_erase_iff, h.own]
      by_cases ex : id' = p.id
      · subst ex; rw [upd_same]; simp
      · rw [upd_ne _ _ ex]; simp [ex]
    by_cases e2 : c = p.c2
    · subst e2
      rw [upd_same, upd_ne _ _ w3.symm]
      exact key _ (Or.inr rfl)
    · rw [upd_ne _ _ e2]
      by_cases e1 : c = p.c1
      · subst e1; rw [upd_same]; exact key _ (Or.inl rfl)
      · rw [upd_ne _ _ e1, h.own]
        by_cases ex : id' = p.id
        · subst ex
          rw [upd_same, ha]
          constructor
          · rintro ⟨_, _, hh, hc⟩
            cases hh
            rcases hc with hc | hc
            · exact absurd hc.symm e1
            · exact absurd hc.symm e2
          · rintro ⟨_, _, hh, _⟩; cases hh
        · rw [upd_ne _ _ ex]

theorem removePair_rep (h : Rep s A) (id : Nat) : ∃ s', s.removePair id = some s' ∧ Rep s' (upd A id none) := by
  cases ha : A id with
  | none =>
    refine ⟨s, by simp only [removePair, h.locate_none ha], ?_⟩
    have : upd A id none = A := by
      funext j
      by_cases e : j = id
      · subst e; rw [upd_same, ha]
      · rw [upd_ne _ _ e]
    rw [this]; exact h
  | some x =>
    obtain ⟨k, p⟩ := x
    obtain ⟨i, h1, h2⟩ := h.locate_some ha
    obtain ⟨s', hs, hr, _⟩ := removeIdx_rep h h2
    rw [(h.wf _ _ _ ha).1] at hr
    exact ⟨s', by simp only [removePair, h1, hs], hr⟩

theorem transfer_rep (h : Rep s A) {k k' : Kind} {i : Nat} {p : Pair} (hp : (s.tab k).arr[i]? = some p) (hk : k' ≠ k) :
    ∃ s', s.transfer k k' i k'.enabled = some s' ∧
      Rep s' (upd A p.id (some (k', { p with need := false, enabled := k'.enabled }))) ∧ s'.own = s.own := by
  have ha := (h.mem k p).1 (List.mem_of_getElem? hp)
  obtain ⟨_, w2, w3⟩ := h.wf _ _ _ ha
  obtain ⟨q, hq⟩ : ∃ q : Pair, q = { p with need := false, enabled := k'.enabled } := ⟨_, rfl⟩
  have hqe : ({ Pair.new p.id p.bp1 p.bp2 p.c1 p.c2 k'.enabled with cur := p.cur, prev := p.prev } : Pair) = q := by
    rw [hq]; rfl
  have hqi : q.id = p.id := by rw [hq]
  have hn : ∀ x ∈ (s.tab k').arr, x.id ≠ q.id := by
    intro x hx e
    rw [hqi] at e
    have := (h.mem k' x).1 hx
    rw [e, ha] at this
    cases this
    exact hk rfl
  obtain ⟨t1, ht1, hok1, ha1⟩ := PTable.add_ok (h.ok k') hn
  have hp2 : ((s.setTab k' t1).tab k).arr[i]? = some p := by rw [setTab_ne _ _ hk.symm]; exact hp
  obtain ⟨t, ht, hok, _, hm, _⟩ := PTable.removeAt_ok (h.ok k) hp
  rw [← hq]
  refine ⟨(s.setTab k' t1).setTab k t, ?_, ⟨?_, ?_, ?_, h.nodup, ?_⟩, rfl⟩
  · simp only [transfer, hp, hqe, ht1, removeIdx, hp2, setTab_ne _ _ hk.symm, ht, Option.bind_eq_bind, Option.bind_some,
      Bool.false_eq_true, if_false]
  · intro k2
    by_cases e : k2 = k
    · subst e; rw [setTab_same]; exact hok
    · rw [setTab_ne _ _ e]
      by_cases e2 : k2 = k'
      · subst e2; rw [setTab_same]; exact hok1
      · rw [setTab_ne _ _ e2]; exact h.ok k2
  · intro k2 x
    by_cases e : k2 = k
    · subst e
      rw [setTab_same, hm, h.mem]
      by_cases ex : x.id = p.id
      · rw [ex, upd_same]
        constructor
        · rintro ⟨_, h2⟩; exact absurd rfl h2
        · intro hh; cases hh; exact absurd rfl hk
      · rw [upd_ne _ _ ex]; simp [ex]
    · rw [setTab_ne _ _ e]
      by_cases e2 : k2 = k'
      · subst e2
        rw [setTab_same, ha1, List.mem_append, h.mem, List.mem_singleton]
        by_cases ex : x.id = p.id
        · rw [ex, upd_same, ha]
          constructor
          · rintro (hh | rfl)
            · cases hh; exact absurd rfl hk
            · rfl
          · intro hh; cases hh; exact Or.inr rfl
        · rw [upd_ne _ _ ex]
          constructor
          · rintro (hh | rfl)
            · exact hh
            · exact absurd hqi ex
          · exact Or.inl
      · rw [setTab_ne _ _ e2, h.mem]
        by_cases ex : x.id = p.id
        · rw [ex, upd_same, ha]
          constructor
          · intro hh; cases hh; exact absurd rfl e
          · intro hh; cases hh; exact absurd rfl e2
        · rw [upd_ne _ _ ex]
  · intro id' k2 x hx
    by_cases ex : id' = p.id
    · subst ex
      rw [upd_same] at hx; cases hx
      rw [hq]
      exact ⟨rfl, rfl, w3⟩
    · rw [upd_ne _ _ ex] at hx; exact h.wf _ _ _ hx
  · intro c id'
    rw [setTab_own, setTab_own, h.own]
    by_cases ex : id' = p.id
    · subst ex
      rw [upd_same, ha, hq]
      constructor
      · rintro ⟨_, _, hh, hc⟩; cases hh; exact ⟨_, _, rfl, hc⟩
      · rintro ⟨_, _, hh, hc⟩; cases hh; exact ⟨_, _, rfl, hc⟩
    · rw [upd_ne _ _ ex]

theorem enablePair_rep (h : Rep s A) {k : Kind} {id : Nat} {p : Pair} (ha : A id = some (k, p)) (hk : k.enabled = false) :
    ∃ s', s.enablePair id = some s' ∧
      Rep s' (upd A id (some (Kind.of true k.convex, { p with need := false, enabled := true }))) ∧ s'.own = s.own := by
  obtain rfl := (h.wf _ _ _ ha).1
  obtain ⟨i, h1, h2⟩ := h.idx_of ha
  cases k with
  | cv => cases hk
  | cc => cases hk
  | dcv =>
    obtain ⟨s', hs, hr, ho⟩ := transfer_rep (k' := .cv) h h2 (by decide)
    exact ⟨s', by simp only [enablePair, h1]; exact hs, hr, ho⟩
  | dcc =>
    obtain ⟨s', hs, hr, ho⟩ := transfer_rep (k' := .cc) h h2 (by decide)
    exact ⟨s', by simp only [enablePair, h1, h.idx_none ha (show Kind.dcv ≠ Kind.dcc by decide)]; exact hs, hr, ho⟩

theorem disablePair_rep (h : Rep s A) {k : Kind} {id : Nat} {p : Pair} (ha : A id = some (k, p)) (hk : k.enabled = true) :
    ∃ s', s.disablePair id = some s' ∧
      Rep s' (upd A id (some (Kind.of false k.convex, { p with need := false, enabled := false }))) ∧ s'.own = s.own := by
  obtain rfl := (h.wf _ _ _ ha).1
  obtain ⟨i, h1, h2⟩ := h.idx_of ha
  cases k with
  | dcv => cases hk
  | dcc => cases hk
  | cv =>
    obtain ⟨s', hs, hr, ho⟩ := transfer_rep (k' := .dcv) h h2 (by decide)
    exact ⟨s', by simp only [disablePair, h1]; exact hs, hr, ho⟩
  | cc =>
    obtain ⟨s', hs, hr, ho⟩ := transfer_rep (k' := .dcc) h h2 (by decide)
    exact ⟨s', by simp only [disablePair, h1, h.idx_none ha (show Kind.cv ≠ Kind.cc by decide)]; exact hs, hr, ho⟩

/-- `disablePair` leaves a disabled pair alone. -/
theorem disablePair_noop (h : Rep s A) {id : Nat} (ha : ∀ k p, A id = some (k, p) → k.enabled = false) : s.disablePair id = some s := by
  have key : ∀ k, k.enabled = true → (s.tab k).idx id = none := by
    intro k hk
    cases hc : (s.tab k).idx id with
    | none => rfl
    | some i =>
      obtain ⟨q, _, _, hq⟩ := h.idx_some hc
      rw [ha _ _ hq] at hk
      cases hk
  simp only [disablePair, key .cv rfl, key .cc rfl]

theorem addPair_rep (h : Rep s A) {a b ba bb : Nat} (hab : a ≠ b) (hn : A (pairId ba bb) = none) (cvx : Bool) :
    ∃ s', s.addPair a b ba bb cvx = some s' ∧
      Rep s' (upd A (pairId ba bb) (some (Kind.of true cvx, Pair.new (pairId ba bb) ba bb a b true))) := by
  obtain ⟨id, hid⟩ : ∃ id, id = pairId ba bb := ⟨_, rfl⟩
  obtain ⟨k, hk⟩ : ∃ k, k = Kind.of true cvx := ⟨_, rfl⟩
  have hke : k.enabled = true := by rw [hk]; cases cvx <;> rfl
  rw [← hid] at hn ⊢
  rw [← hk]
  have hno : ∀ c, id ∉ s.own c := by
    intro c hc
    obtain ⟨_, _, hh, _⟩ := (h.own c id).1 hc
    rw [hn] at hh; cases hh
  have hq : ∀ q ∈ (s.tab k).arr, q.id ≠ (Pair.new id ba bb a b true).id := by
    intro q hq e
    have := (h.mem k q).1 hq
    rw [show q.id = id from e, hn] at this
    cases this
  obtain ⟨t, ht, hok, hta⟩ := PTable.add_ok (h.ok k) hq
  refine ⟨((s.setTab k t).give a id).give b id, ?_, ⟨?_, ?_, ?_, ?_, ?_⟩⟩
  · simp only [addPair, ← hid, ← hk, ht, Option.bind_eq_bind, Option.bind_some]
  · intro k'
    rw [give_tab, give_tab]
    by_cases e : k' = k
    · subst e; rw [setTab_same]; exact hok
    · rw [setTab_ne _ _ e]; exact h.ok k'
  · intro k' x
    rw [give_tab, give_tab]
    by_cases e : k' = k
    · subst e
      rw [setTab_same, hta, List.mem_append, List.mem_singleton, h.mem]
      by_cases ex : x.id = id
      · rw [ex, upd_same, hn]
        constructor
        · rintro (hh | rfl)
          · cases hh
          · rfl
        · intro hh; cases hh; exact Or.inr rfl
      · rw [upd_ne _ _ ex]
        constructor
        · rintro (hh | rfl)
          · exact hh
          · exact absurd rfl ex
        · exact Or.inl
    · rw [setTab_ne _ _ e, h.mem]
      by_cases ex : x.id = id
      · rw [ex, upd_same, hn]
        constructor
        · intro hh; cases hh
        · intro hh; cases hh; exact absurd rfl e
      · rw [upd_ne _ _ ex]
  · intro id' k' x hx
    by_cases ex : id' = id
    · subst ex
      rw [upd_same] at hx; cases hx
      exact ⟨rfl, hke.symm, hab⟩
    · rw [upd_ne _ _ ex] at hx; exact h.wf _ _ _ hx
  · intro c
    have key : ∀ c, (s.own c ++ [id]).Nodup := by
      intro c
      rw [List.nodup_append]
      refine ⟨h.nodup c, List.nodup_singleton _, ?_⟩
      intro x hx y hy e
      rw [List.mem_singleton] at hy
      subst hy; subst e
      exact hno c hx
    simp only [give, setTab_own]
    by_cases e2 : c = b
    · subst e2; rw [upd_same, upd_ne _ _ hab.symm]; exact key c
    · rw [upd_ne _ _ e2]
      by_cases e1 : c = a
      · subst e1; rw [upd_same]; exact key c
      · rw [upd_ne _ _ e1]; exact h.nodup c
  · intro c id'
    simp only [give, setTab_own]
    have key : ∀ c, (a = c ∨ b = c) → (id' ∈ s.own c ++ [id] ↔ ∃ k' x,
        upd A id (some (k, Pair.new id ba bb a b true)) id' = some (k', x) ∧ (x.c1 = c ∨ x.c2 = c)) := by
      intro c hc
      rw [List.mem_append, List.mem_singleton, h.own]
      by_cases ex : id' = id
      · subst ex
        rw [upd_same]
        constructor
        · intro _; exact ⟨_, _, rfl, hc⟩
        · intro _; exact Or.inr rfl
      · rw [upd_ne _ _ ex]; simp [ex]
    by_cases e2 : c = b
    · subst e2; rw [upd_same, upd_ne _ _ hab.symm]; exact key c (Or.inr rfl)
    · rw [upd_ne _ _ e2]
      by_cases e1 : c = a
      · subst e1; rw [upd_same]; exact key c (Or.inl rfl)
      · rw [upd_ne _ _ e1, h.own]
        by_cases ex : id' = id
        · subst ex
          rw [upd_same, hn]
          constructor
          · rintro ⟨_, _, hh, _⟩; cases hh
          · rintro ⟨_, _, hh, hc⟩
            cases hh
            rcases hc with hc | hc
            · exact absurd hc.symm e1
            · exact absurd hc.symm e2
        · rw [upd_ne _ _ ex]

/-- A function applied to the pairs of one array of the map. -/
def mapKind (A : PMap) (k : Kind) (f : Pair → Pair) : PMap := fun id =>
  (A id).map fun x => if x.1 = k then (x.1, f x.2) else x

theorem mapTab_rep (h : Rep s A) (k : Kind) {f : Pair → Pair} (hf : ∀ p, (f p).id = p.id)
    (hf2 : ∀ p, (f p).enabled = p.enabled ∧ (f p).c1 = p.c1 ∧ (f p).c2 = p.c2) : Rep (s.mapTab k f) (mapKind A k f) := by
  refine ⟨?_, ?_, ?_, h.nodup, ?_⟩
  · intro k'
    by_cases e : k' = k
    · subst e; simp only [mapTab, setTab_same]; exact PTable.map_ok (h.ok _) hf
    · simp only [mapTab]; rw [setTab_ne _ _ e]; exact h.ok k'
  · intro k' x
    simp only [mapTab, mapKind]
    by_cases e : k' = k
    · subst e
      rw [setTab_same]
      constructor
      · intro hx
        obtain ⟨y, hy, rfl⟩ := List.mem_map.1 hx
        rw [hf, (h.mem _ _).1 hy]
        simp
      · intro hx
        obtain ⟨⟨k2, y⟩, hy, hxy⟩ := Option.map_eq_some_iff.1 hx
        simp only at hxy
        split_ifs at hxy with e2
        · cases hxy
          exact List.mem_map_of_mem ((h.mem _ _).2 (by rw [← hf]; exact hy))
        · cases hxy; exact absurd rfl e2
    · rw [setTab_ne _ _ e, h.mem]
      constructor
      · intro hx; rw [hx]; simp [e]
      · intro hx
        obtain ⟨⟨k2, y⟩, hy, hxy⟩ := Option.map_eq_some_iff.1 hx
        simp only at hxy
        split_ifs at hxy with e2
        · cases hxy; exact absurd e2 e
        · cases hxy; exact hy
  · intro id k' x hx
    obtain ⟨⟨k2, y⟩, hy, hxy⟩ := Option.map_eq_some_iff.1 hx
    obtain ⟨w1, w2, w3⟩ := h.wf _ _ _ hy
    simp only at hxy
    split_ifs at hxy with e2
    · cases hxy
      exact ⟨(hf y).trans w1, (hf2 y).1.trans w2, by rw [(hf2 y).2.1, (hf2 y).2.2]; exact w3⟩
    · cases hxy; exact ⟨w1, w2, w3⟩
  · intro c id
    simp only [mapTab, setTab_own]
    rw [h.own]
    constructor
    · rintro ⟨k2, y, hy, hc⟩
      by_cases e2 : k2 = k
      · exact ⟨k2, f y, by simp [mapKind, hy, e2], by rw [(hf2 y).2.1, (hf2 y).2.2]; exact hc⟩
      · exact ⟨k2, y, by simp [mapKind, hy, e2], hc⟩
    · rintro ⟨k', x, hx, hc⟩
      obtain ⟨⟨k2, y⟩, hy, hxy⟩ := Option.map_eq_some_iff.1 hx
      simp only at hxy
      split_ifs at hxy with e2
      · cases hxy; exact ⟨_, _, hy, by rw [(hf2 y).2.1, (hf2 y).2.2] at hc; exact hc⟩
      · cases hxy; exact ⟨_, _, hy, hc⟩

end PStore
end RP3D
