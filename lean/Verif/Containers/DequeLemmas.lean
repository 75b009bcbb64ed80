import Verif.Containers.Deque

namespace RP3D
namespace Deq
variable {α : Type}

/-- `d` stores the sequence `l`. -/
structure Rep (d : Deq α) (l : List α) : Prop where
  size : d.size = l.length
  cap : (d.cap = 0 ∧ d.first = 0) ∨ ∃ k, d.cap = 16 * 2 ^ k
  bound : d.first + d.size ≤ d.cap
  items : ∀ i, i < l.length → d.buf (d.first + i) = l[i]?
  home : l = [] → d.first = d.cap / 2 - 1

theorem isF32_16pow (k : Nat) : IsF32 (16 * 2 ^ k) := isF32_mul_pow (f32OfNat_small (by norm_num))

theorem ceil16F_16pow (k : Nat) : ceil16F (16 * 2 ^ k) = 16 * 2 ^ k :=
  ceil16F_of_isF32 (isF32_16pow k) (by rw [Nat.mul_mod_right])

theorem rep_empty : Rep (empty : Deq α) [] := ⟨rfl, Or.inl ⟨rfl, rfl⟩, by simp [empty], by simp, fun _ => by simp [empty]⟩

theorem grow_rep {d : Deq α} {l : List α} (h : Rep d l) :
    ∃ d', d.reserve d.moreCap = some d' ∧ Rep d' l ∧ 0 < d'.first ∧ d'.first + d'.size < d'.cap ∧
      d'.cap = d.moreCap := by
  obtain ⟨k, hk, hlt, hsz⟩ : ∃ k, d.moreCap = 16 * 2 ^ k ∧ d.cap < d.moreCap ∧ d.size ≤ d.moreCap / 2 := by
    unfold moreCap
    rcases h.cap with ⟨h1, h2⟩ | ⟨k, hk⟩
    · refine ⟨0, by simp [h1], by simp [h1], ?_⟩
      have := h.bound
      omega
    · have h0 : d.cap ≠ 0 := by rw [hk]; positivity
      refine ⟨k + 1, ?_, ?_, ?_⟩
      · rw [if_neg h0, hk, pow_succ]; ring
      · rw [if_neg h0]; omega
      · rw [if_neg h0]
        have := h.bound
        omega
  have hp : 0 < 2 ^ k := by positivity
  unfold reserve
  rw [if_neg (by omega)]
  simp only
  rw [hk, ceil16F_16pow]
  rw [hk] at hsz
  rw [if_pos (by omega)]
  refine ⟨_, rfl, ⟨h.size, Or.inr ⟨k, rfl⟩, ?_, ?_, fun _ => rfl⟩, ?_, ?_, rfl⟩
  · show 16 * 2 ^ k / 2 - 1 + d.size ≤ 16 * 2 ^ k; omega
  · intro i hi
    have hs := h.size
    show (if 16 * 2 ^ k / 2 - 1 ≤ 16 * 2 ^ k / 2 - 1 + i ∧ 16 * 2 ^ k / 2 - 1 + i < 16 * 2 ^ k / 2 - 1 + d.size then
      d.buf (d.first + (16 * 2 ^ k / 2 - 1 + i - (16 * 2 ^ k / 2 - 1))) else none) = _
    rw [if_pos (by constructor <;> omega), ← h.items i hi]
    congr 1
    omega
  · show 0 < 16 * 2 ^ k / 2 - 1; omega
  · show 16 * 2 ^ k / 2 - 1 + d.size < 16 * 2 ^ k; omega

theorem addBack_rep {d : Deq α} {l : List α} (h : Rep d l) (x : α) :
    ∃ d', d.addBack x = some d' ∧ Rep d' (l ++ [x]) := by
  obtain ⟨d1, h1, h2, h3⟩ : ∃ d1, d.growBack = some d1 ∧ Rep d1 l ∧ d1.first + d1.size < d1.cap := by
    unfold growBack
    by_cases hf : d.first + d.size ≥ d.cap
    · rw [if_pos hf]
      obtain ⟨d', a, b, _, c, _⟩ := grow_rep h
      exact ⟨d', a, b, c⟩
    · rw [if_neg hf]; exact ⟨d, rfl, h, by omega⟩
  refine ⟨{ d1 with buf := upd d1.buf (d1.first + d1.size) (some x), size := d1.size + 1 }, ?_, ?_⟩
  · unfold addBack
    rw [h1]
    simp only [Option.bind_eq_bind, Option.bind_some]
    rw [if_pos h3]
  · have hs := h2.size
    refine ⟨by simp [h2.size], ?_, ?_, ?_, by simp⟩
    · rcases h2.cap with ⟨a, b⟩ | hk
      · omega
      · exact Or.inr hk
    · show d1.first + (d1.size + 1) ≤ d1.cap; omega
    · intro i hi
      simp only [List.length_append, List.length_singleton] at hi
      show upd d1.buf (d1.first + d1.size) (some x) (d1.first + i) = _
      rcases Nat.lt_or_ge i l.length with hil | hil
      · rw [upd_ne _ _ (by omega), h2.items i hil, List.getElem?_append_left hil]
      · have : i = l.length := by omega
        subst this
        rw [← hs, upd_same, hs]; simp

theorem addFront_rep {d : Deq α} {l : List α} (h : Rep d l) (x : α) :
    ∃ d', d.addFront x = some d' ∧ Rep d' (x :: l) := by
  obtain ⟨d1, h1, h2, h3⟩ : ∃ d1, d.growFront = some d1 ∧ Rep d1 l ∧ 0 < d1.first := by
    unfold growFront
    by_cases hf : d.first = 0
    · rw [if_pos hf]
      obtain ⟨d', a, b, c, _, _⟩ := grow_rep h
      exact ⟨d', a, b, c⟩
    · rw [if_neg hf]; exact ⟨d, rfl, h, by omega⟩
  have hb := h2.bound
  refine ⟨{ d1 with buf := upd d1.buf (d1.first - 1) (some x), size := d1.size + 1, first := d1.first - 1 }, ?_, ?_⟩
  · unfold addFront
    rw [h1]
    simp only [Option.bind_eq_bind, Option.bind_some]
    rw [if_pos ⟨h3, by omega⟩]
  · refine ⟨by simp [h2.size], ?_, ?_, ?_, by simp⟩
    · rcases h2.cap with ⟨a, b⟩ | hk
      · omega
      · exact Or.inr hk
    · show d1.first - 1 + (d1.size + 1) ≤ d1.cap; omega
    · intro i hi
      simp only [List.length_cons] at hi
      show upd d1.buf (d1.first - 1) (some x) (d1.first - 1 + i) = _
      cases i with
      | zero => simp
      | succ i =>
        rw [upd_ne _ _ (by omega)]
        have : d1.first - 1 + (i + 1) = d1.first + i := by omega
        rw [this, h2.items i (by omega)]; simp

theorem popFront_rep {d : Deq α} {l : List α} (h : Rep d l) : Rep d.popFront l.tail := by
  unfold popFront
  have hs := h.size
  cases l with
  | nil =>
    have : ¬ d.size > 0 := by simp at hs; omega
    rw [if_neg this]; exact h
  | cons a l =>
    simp only [List.length_cons] at hs
    rw [if_pos (by omega)]
    have hb := h.bound
    refine ⟨?_, ?_, ?_, ?_, ?_⟩
    · show d.size - 1 = l.length; omega
    · rcases h.cap with ⟨a, b⟩ | hk
      · omega
      · exact Or.inr hk
    · show (if d.size - 1 = 0 then d.cap / 2 - 1 else d.first + 1) + (d.size - 1) ≤ d.cap
      split_ifs with h0 <;> omega
    · intro i hi
      show upd d.buf d.first none ((if d.size - 1 = 0 then d.cap / 2 - 1 else d.first + 1) + i) = _
      have hi' : i < l.length := hi
      rw [if_neg (by omega), upd_ne _ _ (by omega)]
      have := h.items (i + 1) (by simp; omega)
      have e : d.first + 1 + i = d.first + (i + 1) := by omega
      rw [e, this]; simp
    · intro hl
      have hl' : l = [] := hl
      subst hl'
      show (if d.size - 1 = 0 then d.cap / 2 - 1 else d.first + 1) = d.cap / 2 - 1
      rw [if_pos (by simp at hs; omega)]

theorem popBack_rep {d : Deq α} {l : List α} (h : Rep d l) : Rep d.popBack l.dropLast := by
  unfold popBack
  have hs := h.size
  rcases List.eq_nil_or_concat l with rfl | ⟨l', a, rfl⟩
  · have : ¬ d.size > 0 := by simp at hs; omega
    rw [if_neg this]; exact h
  · simp only [List.length_concat] at hs
    rw [if_pos (by omega)]
    have hb := h.bound
    refine ⟨?_, ?_, ?_, ?_, ?_⟩
    · show d.size - 1 = _; simp; omega
    · rcases h.cap with ⟨a, b⟩ | hk
      · omega
      · exact Or.inr hk
    · show (if d.size - 1 = 0 then d.cap / 2 - 1 else d.first) + (d.size - 1) ≤ d.cap
      split_ifs with h0 <;> omega
    · intro i hi
      have hi' : i < l'.length := by simpa using hi
      show upd d.buf (d.first + d.size - 1) none ((if d.size - 1 = 0 then d.cap / 2 - 1 else d.first) + i) = _
      rw [if_neg (by omega), upd_ne _ _ (by omega)]
      rw [h.items i (by simp; omega)]
      simp [List.getElem?_append_left, hi']
    · intro hl
      have hl' : l' = [] := by simpa using hl
      subst hl'
      show (if d.size - 1 = 0 then d.cap / 2 - 1 else d.first) = d.cap / 2 - 1
      rw [if_pos (by simp at hs; omega)]

theorem clear_rep {d : Deq α} {l : List α} (h : Rep d l) : Rep d.clear [] := by
  unfold clear
  split_ifs with h0
  · refine ⟨rfl, ?_, ?_, by simp, fun _ => rfl⟩
    · rcases h.cap with ⟨a, b⟩ | hk
      · have := h.bound; omega
      · exact Or.inr hk
    · show d.cap / 2 - 1 + 0 ≤ d.cap; omega
  · have hs := h.size
    have : l = [] := List.length_eq_zero_iff.1 (by omega)
    subst this
    exact h

theorem get_rep {d : Deq α} {l : List α} (h : Rep d l) (i : Nat) : d.get i = l[i]? := by
  unfold get
  rw [h.size]
  split_ifs with hi
  · exact h.items i hi
  · rw [List.getElem?_eq_none (by omega)]

theorem toList_rep {d : Deq α} {l : List α} (h : Rep d l) : d.toList = some l := by
  unfold toList
  rw [h.size]
  have : ∀ n, n ≤ l.length → (List.range n).mapM (fun i => d.get i) = some (l.take n) := by
    intro n
    induction n with
    | zero => intro _; rfl
    | succ n ih =>
      intro hn
      rw [List.range_succ, List.mapM_append, ih (by omega)]
      have hg : d.get n = some l[n] := by rw [get_rep h, List.getElem?_eq_getElem (by omega)]
      have ht : l.take (n + 1) = l.take n ++ [l[n]] := by
        rw [List.take_add_one, List.getElem?_eq_getElem (by omega)]; rfl
      simp only [List.mapM_cons, List.mapM_nil, hg, ht]; rfl
  rw [this _ (le_refl _)]; simp

theorem set_rep {d : Deq α} {l : List α} (h : Rep d l) {i : Nat} (hi : i < l.length) (x : α) :
    ∃ d', d.set i x = some d' ∧ Rep d' (l.set i x) := by
  unfold set
  rw [if_pos (by rw [h.size]; exact hi)]
  refine ⟨_, rfl, by simp [h.size], h.cap, h.bound, ?_, ?_⟩
  · intro j hj
    simp only [List.length_set] at hj
    show upd d.buf (d.first + i) (some x) (d.first + j) = _
    by_cases hij : j = i
    · subst hij; simp [hi]
    · rw [upd_ne _ _ (by omega), h.items j hj, List.getElem?_set_ne (Ne.symm hij)]
  · intro hl
    have : l = [] := by simpa using hl
    exact h.home this

theorem step_rep {d : Deq α} {l l' : List α} {op : Op α} {o : Out α} (h : Rep d l)
    (hs : DeqSpec.step l op = some (l', o)) : ∃ d', d.step op = some (d', o) ∧ Rep d' l' := by
  cases op with
  | addBack x =>
    simp only [DeqSpec.step, Option.some.injEq, Prod.mk.injEq] at hs
    obtain ⟨rfl, rfl⟩ := hs
    obtain ⟨d', h1, h2⟩ := addBack_rep h x
    exact ⟨d', by simp [step, h1], h2⟩
  | addFront x =>
    simp only [DeqSpec.step, Option.some.injEq, Prod.mk.injEq] at hs
    obtain ⟨rfl, rfl⟩ := hs
    obtain ⟨d', h1, h2⟩ := addFront_rep h x
    exact ⟨d', by simp [step, h1], h2⟩
  | popFront =>
    simp only [DeqSpec.step, Option.some.injEq, Prod.mk.injEq] at hs
    obtain ⟨rfl, rfl⟩ := hs
    exact ⟨_, rfl, popFront_rep h⟩
  | popBack =>
    simp only [DeqSpec.step, Option.some.injEq, Prod.mk.injEq] at hs
    obtain ⟨rfl, rfl⟩ := hs
    exact ⟨_, rfl, popBack_rep h⟩
  | clear =>
    simp only [DeqSpec.step, Option.some.injEq, Prod.mk.injEq] at hs
    obtain ⟨rfl, rfl⟩ := hs
    exact ⟨_, rfl, clear_rep h⟩
  | set i x =>
    simp only [DeqSpec.step] at hs
    split_ifs at hs with hi
    simp only [Option.some.injEq, Prod.mk.injEq] at hs
    obtain ⟨rfl, rfl⟩ := hs
    obtain ⟨d', h1, h2⟩ := set_rep h hi x
    exact ⟨d', by simp [step, h1], h2⟩
  | get i =>
    simp only [DeqSpec.step, Option.map_eq_some_iff, Prod.mk.injEq] at hs
    obtain ⟨x, hx, rfl, rfl⟩ := hs
    exact ⟨d, by simp [step, get_rep h, hx], h⟩
  | front =>
    simp only [DeqSpec.step, Option.map_eq_some_iff, Prod.mk.injEq] at hs
    obtain ⟨x, hx, rfl, rfl⟩ := hs
    refine ⟨d, ?_, h⟩
    have hlen : 0 < l.length := by
      cases l with
      | nil => cases hx
      | cons a l => simp
    have := h.items 0 hlen
    rw [Nat.add_zero, ← List.head?_eq_getElem?, hx] at this
    simp [step, front, h.size, hlen, this]
  | back =>
    simp only [DeqSpec.step, Option.map_eq_some_iff, Prod.mk.injEq] at hs
    obtain ⟨x, hx, rfl, rfl⟩ := hs
    refine ⟨d, ?_, h⟩
    have hlen : 0 < l.length := by
      cases l with
      | nil => cases hx
      | cons a l => simp
    have := h.items (l.length - 1) (by omega)
    rw [← List.getLast?_eq_getElem?, hx] at this
    have e : d.first + l.length - 1 = d.first + (l.length - 1) := by omega
    simp [step, back, h.size, hlen, e, this]
  | size =>
    simp only [DeqSpec.step, Option.some.injEq, Prod.mk.injEq] at hs
    obtain ⟨rfl, rfl⟩ := hs
    exact ⟨d, by simp [step, h.size], h⟩
  | toList =>
    simp only [DeqSpec.step, Option.some.injEq, Prod.mk.injEq] at hs
    obtain ⟨rfl, rfl⟩ := hs
    exact ⟨d, by simp [step, toList_rep h], h⟩

theorem run_rep (ops : List (Op α)) : ∀ {d : Deq α} {l l' : List α} {os : List (Out α)}, Rep d l →
    DeqSpec.run l ops = some (l', os) → ∃ d', d.run ops = some (d', os) ∧ Rep d' l' := by
  induction ops with
  | nil =>
    intro d l l' os h hs
    simp only [DeqSpec.run, Option.some.injEq, Prod.mk.injEq] at hs
    obtain ⟨rfl, rfl⟩ := hs
    exact ⟨d, rfl, h⟩
  | cons op ops ih =>
    intro d l l' os h hs
    simp only [DeqSpec.run, Option.bind_eq_bind, Option.bind_eq_some_iff, Prod.exists] at hs
    obtain ⟨l1, o, h1, l2, os2, h2, h3⟩ := hs
    obtain ⟨d1, a1, a2⟩ := step_rep h h1
    obtain ⟨d2, b1, b2⟩ := ih a2 h2
    simp only [pure, Option.some.injEq, Prod.mk.injEq] at h3
    obtain ⟨rfl, rfl⟩ := h3
    exact ⟨d2, by simp [run, a1, b1], b2⟩

theorem run_append (ops1 ops2 : List (Op α)) (d : Deq α) :
    d.run (ops1 ++ ops2) = (d.run ops1).bind (fun r => (r.1.run ops2).map (fun r2 => (r2.1, r.2 ++ r2.2))) := by
  induction ops1 generalizing d with
  | nil => simp only [List.nil_append, run, Option.bind_some]; cases d.run ops2 <;> rfl
  | cons op ops1 ih =>
    simp only [List.cons_append, run, Option.bind_eq_bind]
    cases d.step op with
    | none => rfl
    | some r =>
      obtain ⟨d1, o⟩ := r
      simp only [Option.bind_some, ih]
      cases d1.run ops1 with
      | none => rfl
      | some r =>
        simp only [Option.bind_some, pure]
        cases r.1.run ops2 <;> rfl

end Deq
end RP3D
