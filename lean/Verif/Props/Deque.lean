import Verif.Containers.DequeLemmas

/-! Property theorems C06, C07, C58: `Deque`. -/

namespace RP3D
open Deq
variable {α : Type}

/-- **C06.** Every history of operations on an initially empty deque that is valid for a sequence runs without
undefined behaviour and returns the results of the sequence. -/
theorem deque_refines_sequence (ops : List (Op α)) (l : List α) (outs : List (Out α))
    (h : DeqSpec.run [] ops = some (l, outs)) :
    ∃ d, Deq.empty.run ops = some (d, outs) ∧ d.toList = some l := by
  obtain ⟨d, h1, h2⟩ := run_rep ops rep_empty h
  exact ⟨d, h1, toList_rep h2⟩

example : DeqSpec.run [] [.addBack 1, .addFront 2, .addBack 3, .popFront, .set 1 7, .back, .toList, .popBack, .front] =
    some ([1], [.unit, .unit, .unit, .unit, .unit, .val 7, .items [1, 7], .unit, .val 1]) := by rfl

/-- **C07 (violated).** There is a history after which the copy constructor produces a deque
whose content cannot even be read: its items are raw memory. -/
theorem deque_copy_broken :
    ∃ (ops : List (Op Nat)) (d : Deq Nat) (outs : List (Out Nat)) (c : Deq Nat), Deq.empty.run ops = some (d, outs) ∧
      d.toList = some [2, 1] ∧ d.copy = some c ∧ c.size = 2 ∧ c.get 0 = some 1 ∧ c.get 1 = none := by
  refine ⟨[.addBack 1, .addFront 2], _, _, _, rfl, rfl, rfl, rfl, rfl, rfl⟩

/-- **C07 (violated).** There is a history after which assigning the deque to a new empty deque writes outside
of the allocated buffer. -/
theorem deque_assign_overflows :
    ∃ (ops : List (Op Nat)) (d : Deq Nat) (outs : List (Out Nat)), Deq.empty.run ops = some (d, outs) ∧
      d.size = 11 ∧ Deq.empty.assign d = none := by
  refine ⟨List.replicate 9 (.addBack 1) ++ List.replicate 2 (.addFront 2), _, _, rfl, rfl, rfl⟩

/-- **C07 (partial).** The copy constructor is correct when the first item of the source is at its initial
position in the middle of the buffer.  Missing: all other positions, where it is wrong
(`deque_copy_broken`). -/
theorem deque_copy_partial (ops : List (Op α)) (l : List α) (outs outs' : List (Out α)) (d : Deq α)
    (h : DeqSpec.run [] ops = some (l, outs)) (hd : Deq.empty.run ops = some (d, outs'))
    (hfirst : d.first = d.cap / 2 - 1) : ∃ c, d.copy = some c ∧ c.toList = some l := by
  obtain ⟨d', h1, h2⟩ := run_rep ops rep_empty h
  rw [hd] at h1
  cases h1
  have hb := h2.bound
  rcases h2.cap with ⟨hc, hf⟩ | ⟨k, hk⟩
  · have hs : d.size = 0 := by omega
    refine ⟨⟨fun _ => none, 0, 0, d.first⟩, by simp [copy, reserve, hc, hs], ?_⟩
    have : l = [] := List.length_eq_zero_iff.1 (by rw [← h2.size]; exact hs)
    subst this
    rfl
  · have hp : 0 < 2 ^ k := by positivity
    have hres : (⟨fun _ => none, 0, 0, d.first⟩ : Deq α).reserve d.cap =
        some ⟨fun _ => none, 0, d.cap, d.cap / 2 - 1⟩ := by
      unfold reserve
      rw [if_neg (by simp; omega)]
      simp only
      rw [hk, ceil16F_16pow, if_pos (by omega)]
      congr 2
      funext i
      rw [if_neg (by omega)]
    unfold copy
    rw [hres]
    simp only [Option.bind_eq_bind, Option.bind_some]
    by_cases hs : d.size = 0
    · rw [if_pos hs]
      have : l = [] := List.length_eq_zero_iff.1 (by rw [← h2.size]; exact hs)
      subst this
      exact ⟨_, rfl, rfl⟩
    · rw [if_neg hs, if_pos hb]
      refine ⟨_, rfl, toList_rep ⟨h2.size, Or.inr ⟨k, hk⟩, ?_, ?_, fun _ => rfl⟩⟩
      · show d.cap / 2 - 1 + d.size ≤ d.cap
        rw [← hfirst]; exact hb
      · intro i hi
        have hsz := h2.size
        show (if d.first ≤ d.cap / 2 - 1 + i ∧ d.cap / 2 - 1 + i < d.first + d.size then d.buf (d.cap / 2 - 1 + i) else none) = _
        rw [← hfirst, if_pos (by constructor <;> omega)]
        exact h2.items i hi

/-- The hypotheses are met by a deque filled at the back only. -/
example : ∃ d o, Deq.empty.run [.addBack 1, .addBack 2, (.addBack 3 : Op Nat)] = some (d, o) ∧
    d.first = d.cap / 2 - 1 ∧ d.size = 3 := ⟨_, _, rfl, rfl, rfl⟩

/-- **C07 (partial).** Assignment is correct when the source has at most half as many items (plus one) as the capacity of
the target after the operation.  Missing: fuller sources, where it overflows (`deque_assign_overflows`). -/
theorem deque_assign_partial (ops ops2 : List (Op α)) (l l2 : List α) (outs outs' outs2 outs2' : List (Out α))
    (d d2 : Deq α) (h : DeqSpec.run [] ops = some (l, outs)) (hd : Deq.empty.run ops = some (d, outs'))
    (h2 : DeqSpec.run [] ops2 = some (l2, outs2)) (hd2 : Deq.empty.run ops2 = some (d2, outs2'))
    (hsize : 2 * d2.size ≤ max d.cap d2.cap + 2 ∨ d2.size = 0) : ∃ c, d.assign d2 = some c ∧ c.toList = some l2 := by
  obtain ⟨d', a1, a2⟩ := run_rep ops rep_empty h
  rw [hd] at a1; cases a1
  obtain ⟨d2', b1, b2⟩ := run_rep ops2 rep_empty h2
  rw [hd2] at b1; cases b1
  have hcl := clear_rep a2
  have hclcap : d.clear.cap = d.cap := by unfold clear; split_ifs <;> rfl
  have hbd := b2.bound
  obtain ⟨e, he, hr, hcap⟩ : ∃ e, d.clear.reserve d2.cap = some e ∧ Rep e [] ∧ e.cap = max d.cap d2.cap := by
    unfold reserve
    rw [hclcap]
    split_ifs with hle
    · exact ⟨_, rfl, hcl, by rw [hclcap]; omega⟩
    · have hsz : d.clear.size = 0 := hcl.size
      rcases b2.cap with ⟨hc, _⟩ | ⟨k, hk⟩
      · omega
      · simp only
        rw [hk, ceil16F_16pow, hsz]
        have hp : 0 < 2 ^ k := by positivity
        rw [if_pos (by omega)]
        refine ⟨_, rfl, ⟨rfl, Or.inr ⟨k, rfl⟩, ?_, by simp, fun _ => rfl⟩, ?_⟩
        · show 16 * 2 ^ k / 2 - 1 + 0 ≤ 16 * 2 ^ k; omega
        · show 16 * 2 ^ k = max d.cap (16 * 2 ^ k); omega
  have hfirst := hr.home rfl
  unfold assign
  rw [he]
  simp only [Option.bind_eq_bind, Option.bind_some]
  have hcond : d2.size = 0 ∨ e.first + d2.size ≤ e.cap := by
    by_cases h0 : d2.size = 0
    · exact Or.inl h0
    · right
      rcases hr.cap with ⟨hc, _⟩ | ⟨k, hk⟩
      · rw [hfirst, hcap]; omega
      · have hp : 0 < 2 ^ k := by positivity
        rw [hfirst, hcap]
        rw [hcap] at hk
        omega
  rw [if_pos hcond]
  refine ⟨_, rfl, ?_⟩
  by_cases h0 : d2.size = 0
  · have hl : l2 = [] := List.length_eq_zero_iff.1 (by rw [← b2.size]; exact h0)
    subst hl
    simp [toList, h0]
  · have hcond' : e.first + d2.size ≤ e.cap := by
      rcases hcond with h | h
      · exact absurd h h0
      · exact h
    apply toList_rep
    refine ⟨b2.size, ?_, hcond', ?_, ?_⟩
    · exact hr.cap
    · intro i hi
      have hsz := b2.size
      show (if e.first ≤ e.first + i ∧ e.first + i < e.first + d2.size then d2.buf (d2.first + (e.first + i - e.first)) else _) = _
      rw [if_pos (by constructor <;> omega), ← b2.items i hi]
      congr 1
      omega
    · intro _; exact hfirst

/-- The hypotheses are met by a source filled at both ends. -/
example : ∃ d o c, Deq.empty.run [.addBack 1, .addFront 2, (.addBack 3 : Op Nat)] = some (d, o) ∧
    Deq.empty.assign d = some c ∧ 2 * d.size ≤ d.cap + 2 ∧ c.toList = some [2, 1, 3] :=
  ⟨_, _, _, rfl, rfl, by decide, rfl⟩

/-! ### C58: memory use of a deque used as a queue -/

/-- One turn of a queue: `addBack(x); popFront()`. -/
def turn (x : α) : List (Op α) := [.addBack x, .popFront]

/-- One turn on a deque with a single item: the first index moves by one, or the capacity doubles. -/
theorem turn_step {d : Deq α} {y : α} (h : Rep d [y]) (x : α) :
    ∃ d' o, d.run (turn x) = some (d', o) ∧ Rep d' [x] ∧
      ((d'.cap = d.cap ∧ d'.first = d.first + 1) ∨ d'.cap = d.cap * 2) := by
  obtain ⟨d1, h1, h2⟩ := addBack_rep h x
  have h3 := popFront_rep h2
  refine ⟨d1.popFront, [.unit, .unit], by simp [turn, run, step, h1], h3, ?_⟩
  have hs1 : d1.size = 2 := by rw [h2.size]; rfl
  have hs : d.size = 1 := by rw [h.size]; rfl
  have hb := h.bound
  have pf : d1.popFront.cap = d1.cap ∧ d1.popFront.first = d1.first + 1 := by
    unfold popFront
    simp [hs1]
  rw [pf.1, pf.2]
  unfold addBack growBack at h1
  by_cases hf : d.first + d.size ≥ d.cap
  · rw [if_pos hf] at h1
    obtain ⟨d', a, b, _, c, e⟩ := grow_rep h
    rw [a] at h1
    simp only [Option.bind_eq_bind, Option.bind_some] at h1
    rw [if_pos c] at h1
    have e1 := Option.some.inj h1
    right
    rw [← e1]
    show d'.cap = _
    rw [e, moreCap, if_neg (by omega)]
  · rw [if_neg hf] at h1
    simp only [Option.bind_eq_bind, Option.bind_some] at h1
    rw [if_pos (by omega)] at h1
    have e1 := Option.some.inj h1
    left
    rw [← e1]
    exact ⟨rfl, rfl⟩

theorem turns_double (x : α) : ∀ (n : Nat) {d : Deq α} {y : α}, Rep d [y] → d.cap - d.first ≤ n →
    ∃ m d' o z, d.run (List.replicate m (turn x)).flatten = some (d', o) ∧ Rep d' [z] ∧ d'.cap = d.cap * 2 := by
  intro n
  induction n with
  | zero =>
    intro d y h hn
    have := h.bound
    have := h.size
    simp at this
    omega
  | succ n ih =>
    intro d y h hn
    obtain ⟨d1, o1, h1, h2, h3⟩ := turn_step h x
    have hb := h.bound
    have hs : d.size = 1 := by rw [h.size]; rfl
    rcases h3 with ⟨h3, h4⟩ | h3
    · obtain ⟨m, d2, o2, z, h5, h6, h7⟩ := ih h2 (by omega)
      refine ⟨m + 1, d2, o1 ++ o2, z, ?_, h6, by rw [h7, h3]⟩
      rw [List.replicate_succ, List.flatten_cons, run_append, h1]
      simp [h5]
    · exact ⟨1, d1, o1, x, by simpa using h1, h2, h3⟩

/-- **C58 (violated).** A deque used as a queue that never holds more than two items can use an
arbitrarily large buffer: for every bound there is a number of turns `addBack(x); popFront()` after which the
capacity exceeds it. -/
theorem deque_queue_memory_unbounded (x : α) (bound : Nat) :
    ∃ m d outs, Deq.empty.run (.addBack x :: (List.replicate m (turn x)).flatten) = some (d, outs) ∧
      d.size = 1 ∧ bound < d.cap := by
  have key : ∀ k, ∃ m d outs z, Deq.empty.run (.addBack x :: (List.replicate m (turn x)).flatten) = some (d, outs) ∧
      Rep d [z] ∧ k < d.cap := by
    intro k
    induction k with
    | zero =>
      obtain ⟨d, h1, h2⟩ := addBack_rep (rep_empty (α := α)) x
      refine ⟨0, d, [.unit], x, by simp [run, step, h1], h2, ?_⟩
      have := h2.bound
      have := h2.size
      simp at this
      omega
    | succ k ih =>
      obtain ⟨m, d, o, z, h1, h2, h3⟩ := ih
      obtain ⟨m', d', o', z', h4, h5, h6⟩ := turns_double x _ h2 (le_refl _)
      refine ⟨m + m', d', o ++ o', z', ?_, h5, by omega⟩
      rw [← List.replicate_append_replicate, List.flatten_append, ← List.cons_append, run_append, h1]
      simp [h4]
  obtain ⟨m, d, o, z, h1, h2, h3⟩ := key bound
  exact ⟨m, d, o, h1, by rw [h2.size]; rfl, h3⟩

/-- The phenomenon on a small case: 9 turns with at most two items double the buffer. -/
example : ∃ d o, Deq.empty.run (.addBack 5 :: (List.replicate 9 (turn 5)).flatten : List (Op Nat)) = some (d, o) ∧
    d.size = 1 ∧ d.cap = 32 := ⟨_, _, rfl, rfl, rfl⟩

end RP3D
