import Verif.Containers.Array

/-! Simulation between `Arr` and the sequence specification. -/

namespace RP3D
namespace Arr
variable {α : Type}

/-- `a` represents the sequence `l`, with a capacity that survives float conversion. -/
structure Rep (a : Arr α) (l : List (Option α)) : Prop where
  size : a.size = l.length
  cap : l.length ≤ a.cap
  f32 : IsF32 a.cap
  mod16 : a.cap % 16 = 0
  get : ∀ i, i < l.length → l[i]? = some (a.buf i)

theorem Rep.empty : Rep (Arr.empty : Arr α) [] :=
  ⟨rfl, le_refl _, f32OfNat_small (by norm_num [Arr.empty]), rfl, by simp⟩

theorem Rep.reserve {a : Arr α} {l} (h : Rep a l) (n : Nat) :
    ∃ a', a.reserve n = some a' ∧ Rep a' l ∧ (n ≤ a.cap → a' = a) ∧
      (a.cap < n → a'.cap = ceil16F n) ∧ a'.size = a.size := by
  unfold Arr.reserve
  split
  · exact ⟨a, rfl, h, fun _ => rfl, by omega, rfl⟩
  · rename_i hn
    have h1 := le_ceil16F h.f32 (show a.cap ≤ n by omega)
    have h2 := h.cap
    have h3 := h.size
    simp only
    rw [if_pos (by omega)]
    refine ⟨_, rfl, ⟨h3, by simp; omega, ceil16F_isF32' n, ceil16F_mod n, ?_⟩, by omega, fun _ => rfl, rfl⟩
    intro i hi
    simp only
    rw [if_pos (by omega)]
    exact h.get i hi

theorem Rep.construct {a : Arr α} {l} (h : Rep a l) (hc : l.length < a.cap) (x : Option α) :
    ∃ a', a.construct x = some a' ∧ Rep a' (l ++ [x]) ∧ a'.cap = a.cap := by
  unfold Arr.construct
  have h3 := h.size
  rw [if_pos (by omega)]
  refine ⟨_, rfl, ⟨by simp [h3], by simp; omega, h.f32, h.mod16, ?_⟩, rfl⟩
  intro i hi
  simp only [List.length_append, List.length_cons, List.length_nil] at hi
  rcases Nat.lt_or_ge i l.length with h4 | h4
  · rw [List.getElem?_append_left h4]
    show l[i]? = some (upd a.buf a.size x i)
    rw [upd_ne _ _ (by omega)]
    exact h.get i h4
  · have : i = l.length := by omega
    subst this
    simp [h3]

theorem Rep.add {a : Arr α} {l} (h : Rep a l) (x : α) :
    ∃ a', a.add x = some a' ∧ Rep a' (l ++ [some x]) := by
  unfold Arr.add
  have hs := h.size
  have hc := h.cap
  split
  · rename_i heq
    obtain ⟨a1, e1, r1, _, hcap, _⟩ := h.reserve (if a.cap = 0 then 16 else a.cap * 2)
    have : l.length < a1.cap := by
      have h0 : a.cap < (if a.cap = 0 then 16 else a.cap * 2) := by split <;> omega
      rw [hcap h0]
      split
      · have := ceil16F_ge (n := 16) (by norm_num); omega
      · rw [ceil16F_of_isF32 h.f32.mul_two (by have := h.mod16; omega)]; omega
    obtain ⟨a2, e2, r2, _⟩ := r1.construct this (some x)
    exact ⟨a2, by simp [e1, e2], r2⟩
  · obtain ⟨a2, e2, r2, _⟩ := h.construct (by omega) (some x)
    exact ⟨a2, by simp [e2], r2⟩

theorem Rep.addOwn {a : Arr α} {l} (h : Rep a l) (hc : l.length < a.cap) {i : Nat} {x : α}
    (hi : l[i]? = some (some x)) : ∃ a', a.addOwn i = some a' ∧ Rep a' (l ++ [some x]) := by
  unfold Arr.addOwn
  have hs := h.size
  have hlt : i < l.length := by
    rw [List.getElem?_eq_some_iff] at hi; exact hi.1
  rw [if_neg (by omega), if_pos (by omega)]
  have := h.get i hlt
  rw [hi] at this
  rw [← Option.some.inj this]
  obtain ⟨a2, e2, r2, _⟩ := h.construct hc (some x)
  exact ⟨a2, by simp [e2], r2⟩

theorem Rep.addWithoutInit {a : Arr α} {l} (h : Rep a l) {n : Nat} (hn : n ≤ 2 ^ 24) :
    ∃ a', a.addWithoutInit n = some a' ∧ Rep a' (l ++ List.replicate n none) := by
  unfold Arr.addWithoutInit
  have hs := h.size
  have hc := h.cap
  have key : ∀ a1 : Arr α, Rep a1 l → a1.size + n ≤ a1.cap →
      Rep ⟨fun i => if i < a1.size then a1.buf i else none, a1.cap, a1.size + n⟩
        (l ++ List.replicate n none) := by
    intro a1 r1 hle
    have hs1 := r1.size
    refine ⟨by simp [hs1], by simp; omega, r1.f32, r1.mod16, ?_⟩
    intro i hi
    simp only [List.length_append, List.length_replicate] at hi
    rcases Nat.lt_or_ge i l.length with h4 | h4
    · rw [List.getElem?_append_left h4]
      simp only [hs1, h4, if_true]
      exact r1.get i h4
    · rw [List.getElem?_append_right h4]
      simp only [hs1, Nat.not_lt.mpr h4, if_false]
      rw [List.getElem?_replicate]
      rw [if_pos (by omega)]
  split
  · rename_i hgt
    obtain ⟨a1, e1, r1, _, hcap, hsz⟩ := h.reserve (if a.cap = 0 then n else (a.cap + n) * 2)
    have hle : a1.size + n ≤ a1.cap := by
      have h0 : a.cap < (if a.cap = 0 then n else (a.cap + n) * 2) := by split <;> omega
      rw [hcap h0, hsz]
      split
      · have := ceil16F_ge hn; omega
      · have := ceil16F_double ((a.cap + n) * 2); omega
    refine ⟨_, ?_, key a1 r1 hle⟩
    simp [e1, hle]
  · refine ⟨_, ?_, key a h (by omega)⟩
    simp; omega

theorem Rep.addAll {a : Arr α} {l} (h : Rep a l) (xs : List (Option α))
    (hc : l.length + xs.length ≤ a.cap) : ∃ a', a.addAll xs = some a' ∧ Rep a' (l ++ xs) := by
  induction xs generalizing a l with
  | nil => exact ⟨a, rfl, by simpa using h⟩
  | cons x xs ih =>
    simp only [List.length_cons] at hc
    obtain ⟨a1, e1, r1, c1⟩ := h.construct (by omega) x
    obtain ⟨a2, e2, r2⟩ := ih r1 (by simp; omega)
    exact ⟨a2, by simp [Arr.addAll, e1, e2], by simpa using r2⟩

theorem Rep.addRange {a : Arr α} {l} (h : Rep a l) (xs : List (Option α))
    (hx : l.length + xs.length ≤ 2 ^ 24) : ∃ a', a.addRange xs = some a' ∧ Rep a' (l ++ xs) := by
  unfold Arr.addRange
  have hs := h.size
  split
  · rename_i hgt
    obtain ⟨a1, e1, r1, _, hcap, hsz⟩ := h.reserve (a.size + xs.length)
    have hcap := hcap (by omega)
    have := ceil16F_ge (n := a.size + xs.length) (by omega)
    obtain ⟨a2, e2, r2⟩ := r1.addAll xs (by omega)
    exact ⟨a2, by simp [e1, e2], r2⟩
  · obtain ⟨a2, e2, r2⟩ := h.addAll xs (by omega)
    exact ⟨a2, by simp [e2], r2⟩

theorem Rep.clear {a : Arr α} {l} (h : Rep a l) (r : Bool) : Rep (a.clear r) [] := by
  unfold Arr.clear
  cases r
  · exact ⟨rfl, by simp, h.f32, h.mod16, by simp⟩
  · exact Rep.empty

theorem Rep.assign {a : Arr α} {l} (h : Rep a l) (xs : List (Option α)) (hx : xs.length ≤ 2 ^ 24) :
    ∃ a', a.assign xs = some a' ∧ Rep a' xs := by
  simpa [Arr.assign] using (h.clear false).addRange xs (by simpa using hx)

theorem Rep.set {a : Arr α} {l} (h : Rep a l) {i : Nat} (hi : i < l.length) (x : α) :
    ∃ a', a.set i x = some a' ∧ Rep a' (l.set i (some x)) := by
  unfold Arr.set
  have hs := h.size
  rw [if_pos (by omega)]
  refine ⟨_, rfl, ⟨by simp [hs], by simpa using h.cap, h.f32, h.mod16, ?_⟩⟩
  intro j hj
  simp only [List.length_set] at hj
  simp only [List.getElem?_set]
  by_cases hji : i = j
  · subst hji; simp [hj]
  · rw [if_neg hji]
    simp only [upd_ne _ _ (Ne.symm hji)]
    exact h.get j hj

theorem Rep.removeAt {a : Arr α} {l} (h : Rep a l) {i : Nat} (hi : i < l.length) :
    ∃ a', a.removeAt i = some a' ∧ Rep a' (l.eraseIdx i) := by
  unfold Arr.removeAt
  have hs := h.size
  have hc := h.cap
  rw [if_pos (by omega)]
  have hlen : (l.eraseIdx i).length = l.length - 1 := by rw [List.length_eraseIdx]; simp [hi]
  refine ⟨_, rfl, ⟨by simp [hs, hlen], by simp [hlen]; omega, h.f32, h.mod16, ?_⟩⟩
  intro j hj
  rw [hlen] at hj
  rw [List.getElem?_eraseIdx]
  simp only
  by_cases hji : j < i
  · rw [if_pos hji, if_pos hji]; exact h.get j (by omega)
  · rw [if_neg hji, if_neg hji, if_pos (by omega)]; exact h.get (j + 1) (by omega)

theorem Rep.removeLast {a : Arr α} {l} (h : Rep a l) {i : Nat} (hi : i < l.length) :
    ∃ a', a.removeAtAndReplaceByLast i = some a' ∧
      Rep a' ((l.set i (l.getLast?.getD none)).dropLast) := by
  unfold Arr.removeAtAndReplaceByLast
  have hs := h.size
  have hc := h.cap
  rw [if_pos (by omega)]
  refine ⟨_, rfl, ⟨by simp [hs], by simp; omega, h.f32, h.mod16, ?_⟩⟩
  intro j hj
  simp only [List.length_dropLast, List.length_set] at hj
  have hlast : l.getLast?.getD none = a.buf (a.size - 1) := by
    rw [List.getLast?_eq_getElem?, hs, h.get (l.length - 1) (by omega)]; rfl
  rw [List.getElem?_dropLast, List.length_set, if_pos hj, List.getElem?_set, hlast]
  simp only
  rw [upd_ne _ _ (by omega)]
  by_cases hji : i = j
  · subst hji; simp [hi]
  · rw [if_neg hji, upd_ne _ _ (Ne.symm hji)]
    exact h.get j (by omega)

theorem Rep.findFrom [DecidableEq α] {a : Arr α} {l} (h : Rep a l) (hn : none ∉ l) (x : α)
    (fuel i : Nat) (hf : i + fuel = l.length) :
    a.findFrom x fuel i = some (i + (l.drop i).idxOf (some x)) := by
  induction fuel generalizing i with
  | zero =>
    have : l.drop i = [] := List.drop_eq_nil_of_le (by omega)
    simp [Arr.findFrom, this]
  | succ n ih =>
    have hi : i < l.length := by omega
    have hg := h.get i hi
    rw [List.getElem?_eq_getElem hi] at hg
    have hg := Option.some.inj hg
    have hd : l.drop i = l[i] :: l.drop (i + 1) := List.drop_eq_getElem_cons hi
    have hne : l[i] ≠ none := fun e => hn (e ▸ List.getElem_mem hi)
    obtain ⟨y, hy⟩ := Option.ne_none_iff_exists'.mp hne
    unfold Arr.findFrom
    rw [← hg, hy]
    simp only
    rw [hd, hy, List.idxOf_cons]
    by_cases hxy : x = y
    · subst hxy; simp
    · rw [if_neg hxy, ih (i + 1) (by omega)]
      have hb : (some y == some x) = false := by simp [Ne.symm hxy]
      rw [hb]; simp; omega

theorem Rep.find [DecidableEq α] {a : Arr α} {l} (h : Rep a l) (hn : none ∉ l) (x : α) :
    a.find x = some (l.idxOf (some x)) := by
  unfold Arr.find
  rw [h.size, h.findFrom hn x _ 0 (by omega)]
  simp

theorem Rep.remove [DecidableEq α] {a : Arr α} {l} (h : Rep a l) (hn : none ∉ l) {x : α}
    (hx : some x ∈ l) : ∃ a', a.remove x = some a' ∧ Rep a' (l.erase (some x)) := by
  unfold Arr.remove
  rw [h.find hn x]
  have := h.removeAt (List.idxOf_lt_length_of_mem hx)
  rw [List.erase_eq_eraseIdx_of_idxOf rfl]
  simpa using this

theorem Rep.toList {a : Arr α} {l} (h : Rep a l) : a.toList = l := by
  apply List.ext_getElem?
  intro i
  unfold Arr.toList
  rw [h.size]
  rcases Nat.lt_or_ge i l.length with h4 | h4
  · rw [h.get i h4]; simp [h4]
  · rw [List.getElem?_eq_none (by simpa using h4), List.getElem?_eq_none h4]

theorem Rep.copyOf {b : Arr α} {l} (h : Rep b l) :
    ∃ a, Arr.copyOf b = some a ∧ Rep a l := by
  unfold Arr.copyOf
  rw [h.toList]
  split
  · rename_i hpos
    obtain ⟨a1, e1, r1, _, hcap, hsz⟩ := (Rep.empty (α := α)).reserve b.cap
    have hcap := hcap (by simp [Arr.empty]; omega)
    rw [ceil16F_of_isF32 h.f32 h.mod16] at hcap
    have hs1 : a1.size = 0 := hsz
    have hlen := h.cap
    obtain ⟨a2, e2, r2⟩ := r1.addAll l (by simp [hcap]; exact hlen)
    refine ⟨a2, ?_, by simpa using r2⟩
    simp only [e1, Arr.addRange, Option.bind_eq_bind, Option.bind_some]
    rw [if_neg (by omega)]
    simpa using e2
  · have : l = [] := List.length_eq_zero_iff.mp (by have := h.cap; omega)
    subst this
    exact ⟨Arr.empty, by simp [Arr.addRange, Arr.empty, Arr.addAll], Rep.empty⟩

theorem Rep.step [DecidableEq α] {a : Arr α} {l l' : List (Option α)} (h : Rep a l) {op : Op α}
    (hs : ArrSpec.step l op = some l') (hr : ArrSpec.smallReq l op) :
    ∃ a', a.step op = some a' ∧ Rep a' l' := by
  cases op with
  | add x => simp only [ArrSpec.step, Option.some.injEq] at hs; subst hs; exact h.add x
  | addOwn i => exact absurd hr (by simp [ArrSpec.smallReq])
  | addWithoutInit n =>
    simp only [ArrSpec.step, Option.some.injEq] at hs; subst hs; exact h.addWithoutInit hr
  | addRange xs =>
    simp only [ArrSpec.step, Option.some.injEq] at hs; subst hs
    exact h.addRange (xs.map some) (by simpa [ArrSpec.smallReq] using hr)
  | assign xs =>
    simp only [ArrSpec.step, Option.some.injEq] at hs; subst hs
    exact h.assign (xs.map some) (by simpa [ArrSpec.smallReq] using hr)
  | set i x =>
    simp only [ArrSpec.step] at hs
    split at hs
    · rename_i hi; simp only [Option.some.injEq] at hs; subst hs; exact h.set hi x
    · cases hs
  | removeAt i =>
    simp only [ArrSpec.step] at hs
    split at hs
    · rename_i hi; simp only [Option.some.injEq] at hs; subst hs; exact h.removeAt hi
    · cases hs
  | removeLast i =>
    simp only [ArrSpec.step] at hs
    split at hs
    · rename_i hi; simp only [Option.some.injEq] at hs; subst hs; exact h.removeLast hi
    · cases hs
  | remove x =>
    simp only [ArrSpec.step] at hs
    split at hs
    · rename_i hi; simp only [Option.some.injEq] at hs; subst hs; exact h.remove hi.2 hi.1
    · cases hs
  | reserve n =>
    simp only [ArrSpec.step, Option.some.injEq] at hs; subst hs
    obtain ⟨a', e, r, _⟩ := h.reserve n
    exact ⟨a', e, r⟩
  | clear r => simp only [ArrSpec.step, Option.some.injEq] at hs; subst hs; exact ⟨_, rfl, h.clear r⟩

theorem Rep.run [DecidableEq α] {a : Arr α} {l l' : List (Option α)} (h : Rep a l) {ops : List (Op α)}
    (hs : ArrSpec.run l ops = some l') (hr : ArrSpec.smallRun l ops) :
    ∃ a', a.run ops = some a' ∧ Rep a' l' := by
  induction ops generalizing a l with
  | nil => simp only [ArrSpec.run, Option.some.injEq] at hs; subst hs; exact ⟨a, rfl, h⟩
  | cons op ops ih =>
    simp only [ArrSpec.run, Option.bind_eq_bind, Option.bind_eq_some_iff] at hs
    obtain ⟨l1, e1, hs⟩ := hs
    obtain ⟨a1, e2, r1⟩ := h.step e1 hr.1
    obtain ⟨a2, e3, r2⟩ := ih r1 hs (hr.2 l1 e1)
    exact ⟨a2, by simp [Arr.run, e2, e3], r2⟩

end Arr
end RP3D
