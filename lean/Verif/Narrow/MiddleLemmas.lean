import Verif.Narrow.Middle
import Verif.Props.Integers

/-! Lemmas about the remembered data of a concave pair. -/

namespace RP3D
namespace Middle

variable {D : Type}

/-- The map has every key once, and different objects for different keys. -/
structure Infos.Ok (s : Infos D) : Prop where
  keys : (s.entries.map (·.1)).Nodup
  ptrs : (s.entries.map (·.2.ptr)).Nodup
  bound : ∀ e ∈ s.entries, e.2.ptr < s.next

theorem Infos.empty_ok : (Infos.empty D).Ok := ⟨List.nodup_nil, List.nodup_nil, fun _ h => by cases h⟩

theorem shapesKey_eq (a b : Nat) : shapesKey a b = pairId a b := by
  unfold shapesKey pairId
  split_ifs with h
  · rw [Nat.max_eq_right h.le, Nat.min_eq_left h.le]
  · rw [Nat.max_eq_left (by omega), Nat.min_eq_right (by omega)]

/-- The key of the triangle with the id `i`. -/
def triKey (i : Nat) : Nat := pairId 0 i

theorem key_eq (first : Bool) (i : Nat) : shapesKey (if first then 0 else i) (if first then i else 0) = triKey i := by
  rw [shapesKey_eq]
  cases first
  · exact pairId_symmetric i 0
  · rfl

theorem triKey_inj {i j : Nat} (hi : i < 2 ^ 32) (hj : j < 2 ^ 32) (h : triKey i = triKey j) : i = j := by
  rcases pairId_injective 0 i 0 j (by norm_num) hi (by norm_num) hj h with h | h <;> omega

theorem Infos.find_some {s : Infos D} (h : s.Ok) {k : Nat} {i : Info D} : s.find k = some i ↔ (k, i) ∈ s.entries := by
  unfold Infos.find
  constructor
  · intro hf
    obtain ⟨e, he, rfl⟩ := Option.map_eq_some_iff.1 hf
    have h1 := List.mem_of_find?_eq_some he
    have h2 := List.find?_some he
    simp only [beq_iff_eq] at h2
    subst h2
    exact h1
  · intro hm
    cases hf : s.entries.find? fun e => e.1 == k with
    | none =>
      have := List.find?_eq_none.1 hf _ hm
      simp at this
    | some e =>
      have h1 := List.mem_of_find?_eq_some hf
      have h2 := List.find?_some hf
      simp only [beq_iff_eq] at h2
      have := List.inj_on_of_nodup_map h.keys h1 hm (by simpa using h2)
      rw [this]
      rfl

theorem Infos.find_none {s : Infos D} {k : Nat} : s.find k = none ↔ ∀ e ∈ s.entries, e.1 ≠ k := by
  unfold Infos.find
  rw [Option.map_eq_none_iff, List.find?_eq_none]
  simp

theorem Infos.ext_find {s : Infos D} (h : s.Ok) {k : Nat} {o : Option (Info D)} (ho : ∀ i, o = some i ↔ (k, i) ∈ s.entries) : s.find k = o := by
  cases hf : s.find k with
  | none =>
    cases o with
    | none => rfl
    | some i => rw [(Infos.find_some h).2 ((ho i).1 rfl)] at hf; exact hf.symm ▸ rfl
  | some i => exact ((ho i).2 ((Infos.find_some h).1 hf)).symm

/-- Different keys have different objects. -/
theorem Infos.ptr_inj {s : Infos D} (h : s.Ok) {k k' : Nat} {i i' : Info D} (h1 : s.find k = some i) (h2 : s.find k' = some i')
    (e : i.ptr = i'.ptr) : k = k' := by
  have := List.inj_on_of_nodup_map h.ptrs ((Infos.find_some h).1 h1) ((Infos.find_some h).1 h2) e
  exact congrArg Prod.fst this

/-- `clear` keeps the data that are not obsolete, and marks them. -/
theorem Infos.clear_ok {s : Infos D} (h : s.Ok) : s.clear.Ok ∧
    ∀ k, s.clear.find k = ((s.find k).filter fun i => !i.obsolete).map fun i => { i with obsolete := true } := by
  have ok : s.clear.Ok := by
    refine ⟨?_, ?_, ?_⟩
    · have := (List.filter_sublist (p := fun e : Nat × Info D => !e.2.obsolete) (l := s.entries)).map (·.1)
      simp only [Infos.clear, List.map_map]
      exact this.nodup h.keys
    · have := (List.filter_sublist (p := fun e : Nat × Info D => !e.2.obsolete) (l := s.entries)).map (·.2.ptr)
      simp only [Infos.clear, List.map_map]
      exact this.nodup h.ptrs
    · intro e he
      simp only [Infos.clear, List.mem_map, List.mem_filter] at he
      obtain ⟨e', ⟨h1, _⟩, rfl⟩ := he
      exact h.bound e' h1
  refine ⟨ok, fun k => ?_⟩
  apply Infos.ext_find ok
  intro i
  simp only [Infos.clear, List.mem_map, List.mem_filter, Option.map_eq_some_iff, Option.filter_eq_some_iff]
  constructor
  · rintro ⟨j, ⟨h1, h2⟩, rfl⟩
    exact ⟨(k, j), ⟨(Infos.find_some h).1 h1, h2⟩, rfl⟩
  · rintro ⟨⟨k', j⟩, ⟨h1, h2⟩, e⟩
    simp only [Prod.mk.injEq] at e
    obtain ⟨rfl, rfl⟩ := e
    exact ⟨j, ⟨(Infos.find_some h).2 h1, h2⟩, rfl⟩

/-- What the narrow phase writes. -/
theorem Infos.write_ok {s : Infos D} (h : s.Ok) (f : Nat → D → D) : (s.write f).Ok ∧
    ∀ k, (s.write f).find k = (s.find k).map fun i => { i with data := f i.ptr i.data } := by
  have ok : (s.write f).Ok := by
    refine ⟨?_, ?_, ?_⟩
    · simpa [Infos.write, List.map_map, Function.comp_def] using h.keys
    · simpa [Infos.write, List.map_map, Function.comp_def] using h.ptrs
    · intro e he
      simp only [Infos.write, List.mem_map] at he
      obtain ⟨e', h1, rfl⟩ := he
      exact h.bound e' h1
  refine ⟨ok, fun k => ?_⟩
  apply Infos.ext_find ok
  intro i
  simp only [Infos.write, List.mem_map, Option.map_eq_some_iff]
  constructor
  · rintro ⟨j, h1, rfl⟩
    exact ⟨(k, j), (Infos.find_some h).1 h1, rfl⟩
  · rintro ⟨⟨k', j⟩, h1, e⟩
    simp only [Prod.mk.injEq] at e
    obtain ⟨rfl, rfl⟩ := e
    exact ⟨j, (Infos.find_some h).2 h1, rfl⟩

/-- The data an object for the key starts with. -/
def Infos.start (d : D) (s : Infos D) (k : Nat) : D := ((s.find k).map (·.data)).getD d

/-- `addLastFrameInfoIfNecessary`. -/
theorem Infos.add_ok (d : D) {s : Infos D} (h : s.Ok) (a b : Nat) : (s.add d a b).1.Ok ∧
    (∃ i, (s.add d a b).1.find (shapesKey a b) = some i ∧ i.ptr = (s.add d a b).2 ∧ i.obsolete = false ∧ i.data = s.start d (shapesKey a b) ∧
      ∀ i0, s.find (shapesKey a b) = some i0 → i.ptr = i0.ptr) ∧
    (∀ k, k ≠ shapesKey a b → (s.add d a b).1.find k = s.find k) ∧
    (s.add d a b).1.entries.length ≤ s.entries.length + 1 := by
  generalize hk : shapesKey a b = key
  cases hf : s.find key with
  | none =>
    have hno := Infos.find_none.1 hf
    have e : s.add d a b = (⟨s.entries ++ [(key, ⟨s.next, false, d⟩)], s.next + 1⟩, s.next) := by
      unfold Infos.add; simp only [hk, hf]
    rw [e]
    have ok : (⟨s.entries ++ [(key, ⟨s.next, false, d⟩)], s.next + 1⟩ : Infos D).Ok := by
      refine ⟨?_, ?_, ?_⟩
      · simp only [List.map_append, List.map_cons, List.map_nil]
        refine List.nodup_append.2 ⟨h.keys, by simp, ?_⟩
        intro x hx y hy
        simp only [List.mem_singleton] at hy
        obtain ⟨e', he', rfl⟩ := List.mem_map.1 hx
        rw [hy]
        exact hno e' he'
      · simp only [List.map_append, List.map_cons, List.map_nil]
        refine List.nodup_append.2 ⟨h.ptrs, by simp, ?_⟩
        intro x hx y hy
        simp only [List.mem_singleton] at hy
        obtain ⟨e', he', rfl⟩ := List.mem_map.1 hx
        have := h.bound e' he'
        omega
      · intro e' he'
        simp only [List.mem_append, List.mem_singleton] at he'
        rcases he' with he' | rfl
        · exact (h.bound e' he').trans (Nat.lt_succ_self _)
        · exact Nat.lt_succ_self _
    refine ⟨ok, ⟨_, (Infos.find_some ok).2 (List.mem_append.2 (.inr (List.mem_singleton.2 rfl))), rfl, rfl, ?_, ?_⟩, ?_, ?_⟩
    · simp [Infos.start, hf]
    · intro i0 hi0; simp at hi0
    · intro k hne
      apply Infos.ext_find ok
      intro i
      rw [Infos.find_some h]
      simp only [List.mem_append, List.mem_singleton, Prod.mk.injEq]
      constructor
      · exact .inl
      · rintro (hh | hh)
        · exact hh
        · exact absurd hh.1 hne
    · simp
  | some i0 =>
    have e : s.add d a b = ({ s with entries := s.entries.map fun e => if e.1 = key then (e.1, { e.2 with obsolete := false }) else e }, i0.ptr) := by
      unfold Infos.add; simp only [hk, hf]
    rw [e]
    have p1 : ∀ e : Nat × Info D, (if e.1 = key then ((e.1, { e.2 with obsolete := false }) : Nat × Info D) else e).1 = e.1 := by
      intro e; split_ifs <;> rfl
    have p2 : ∀ e : Nat × Info D, (if e.1 = key then ((e.1, { e.2 with obsolete := false }) : Nat × Info D) else e).2.ptr = e.2.ptr := by
      intro e; split_ifs <;> rfl
    have ok : ({ s with entries := s.entries.map fun e => if e.1 = key then (e.1, { e.2 with obsolete := false }) else e } : Infos D).Ok := by
      refine ⟨?_, ?_, ?_⟩
      · simpa [List.map_map, Function.comp_def, p1] using h.keys
      · simpa [List.map_map, Function.comp_def, p2] using h.ptrs
      · intro e' he'
        obtain ⟨e'', h1, rfl⟩ := List.mem_map.1 he'
        rw [p2]
        exact h.bound _ h1
    have hi0 := (Infos.find_some h).1 hf
    refine ⟨ok, ⟨{ i0 with obsolete := false }, (Infos.find_some ok).2 (List.mem_map.2 ⟨_, hi0, by simp⟩), rfl, rfl, ?_, ?_⟩, ?_, ?_⟩
    · simp [Infos.start, hf]
    · intro i1 hi1
      simp only [Option.some.injEq] at hi1
      rw [hi1]
    · intro k hne
      apply Infos.ext_find ok
      intro i
      rw [Infos.find_some h]
      constructor
      · intro hm
        exact List.mem_map.2 ⟨_, hm, by simp [hne]⟩
      · intro hm
        obtain ⟨e', h1, h2⟩ := List.mem_map.1 hm
        split_ifs at h2 with hc
        · exact absurd (congrArg Prod.fst h2).symm (by simpa [hc] using hne)
        · rwa [h2] at h1
    · simp

/-- All calls of a middle phase. -/
theorem Infos.touch_ok (d : D) (first : Bool) : ∀ (ids : List Nat) {s : Infos D}, s.Ok → ids.Nodup → (∀ i ∈ ids, i < 2 ^ 32) →
    (s.touch d first ids).1.Ok ∧ (s.touch d first ids).2.length = ids.length ∧
    (∀ j (hj : j < ids.length) (hj' : j < (s.touch d first ids).2.length), ∃ i, (s.touch d first ids).1.find (triKey ids[j]) = some i ∧
      i.ptr = (s.touch d first ids).2[j] ∧ i.obsolete = false ∧ i.data = s.start d (triKey ids[j]) ∧
      ∀ i0, s.find (triKey ids[j]) = some i0 → i.ptr = i0.ptr) ∧
    (∀ k, (∀ i ∈ ids, triKey i ≠ k) → (s.touch d first ids).1.find k = s.find k) ∧
    (s.touch d first ids).1.entries.length ≤ s.entries.length + ids.length := by
  intro ids
  induction ids with
  | nil => intro s h _ _; exact ⟨h, rfl, fun j hj => absurd hj (Nat.not_lt_zero _), fun _ _ => rfl, Nat.le_refl _⟩
  | cons i is ih =>
    intro s h hn hb
    have ha := Infos.add_ok d h (if first then 0 else i) (if first then i else 0)
    rw [key_eq] at ha
    obtain ⟨a1, ⟨inf, a2, a3, a4, a5, a6⟩, a7, a8⟩ := ha
    rw [List.nodup_cons] at hn
    have hi := hb i List.mem_cons_self
    have hb' : ∀ j ∈ is, j < 2 ^ 32 := fun j hj => hb j (List.mem_cons_of_mem _ hj)
    have hne : ∀ j ∈ is, triKey j ≠ triKey i := fun j hj e => hn.1 (triKey_inj (hb' j hj) hi e ▸ hj)
    obtain ⟨t1, t2, t3, t4, t5⟩ := ih a1 hn.2 hb'
    simp only [Infos.touch]
    refine ⟨t1, by simp [t2], ?_, ?_, ?_⟩
    · intro j hj hj'
      cases j with
      | zero =>
        refine ⟨inf, ?_, a3, a4, a5, a6⟩
        simp only [List.getElem_cons_zero]
        rw [t4 _ hne]
        exact a2
      | succ j =>
        simp only [List.getElem_cons_succ]
        have hj1 : j < is.length := by simpa using hj
        obtain ⟨x, x1, x2, x3, x4, x5⟩ := t3 j hj1 (by rw [t2]; exact hj1)
        have hf := a7 _ (hne _ (List.getElem_mem hj1))
        refine ⟨x, x1, x2, x3, ?_, ?_⟩
        · rw [x4]; unfold Infos.start; rw [hf]
        · intro i0 hi0; exact x5 i0 (by rw [hf]; exact hi0)
    · intro k hk
      rw [t4 k fun j hj => hk j (List.mem_cons_of_mem _ hj), a7 k (hk i List.mem_cons_self).symm]
    · simp only [List.length_cons]
      omega

/-- The objects of different triangles are different. -/
theorem Infos.touch_ptrs (d : D) (first : Bool) {ids : List Nat} {s : Infos D} (h : s.Ok) (hn : ids.Nodup) (hb : ∀ i ∈ ids, i < 2 ^ 32) :
    (s.touch d first ids).2.Nodup := by
  obtain ⟨t1, t2, t3, _, _⟩ := Infos.touch_ok d first ids h hn hb
  rw [List.nodup_iff_injective_get]
  rintro ⟨a, ha⟩ ⟨b, hb'⟩ e
  simp only [List.get_eq_getElem] at e
  have ha1 : a < ids.length := by omega
  have hb1 : b < ids.length := by omega
  obtain ⟨x, x1, x2, _⟩ := t3 a ha1 ha
  obtain ⟨y, y1, y2, _⟩ := t3 b hb1 hb'
  have := triKey_inj (hb _ (List.getElem_mem ha1)) (hb _ (List.getElem_mem hb1)) (Infos.ptr_inj t1 x1 y1 (by rw [x2, y2, e]))
  exact Fin.ext ((List.Nodup.getElem_inj_iff hn).1 this)

end Middle
end RP3D
