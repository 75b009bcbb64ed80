import Verif.Containers.ArrayLemmas

/-! Property theorems for `Array` (C01, C02). -/

namespace RP3D

/-- **C01.** Any history of operations that an ideal sequence accepts runs without undefined
behaviour and leaves the array with exactly the elements of the ideal sequence: same `size()`,
same `operator[]` at every valid index, capacity at least the size.  (Range additions are bounded
by 2^24 elements because of C02; adding an element of the array to itself is C57.) -/
theorem array_refines_sequence {α : Type} [DecidableEq α] (ops : List (Arr.Op α))
    (l : List (Option α)) (hspec : ArrSpec.run [] ops = some l) (hsmall : ArrSpec.smallRun [] ops) :
    ∃ a, (Arr.empty : Arr α).run ops = some a ∧ a.size = l.length ∧ a.size ≤ a.cap ∧
      ∀ i, i < a.size → l[i]? = some (a.get i) := by
  obtain ⟨a, e, r⟩ := Arr.Rep.empty.run hspec hsmall
  refine ⟨a, e, r.size, by rw [r.size]; exact r.cap, ?_⟩
  intro i hi
  rw [Arr.get, if_pos hi]
  exact r.get i (by rw [← r.size]; exact hi)

/-- A history that grows past the first allocation, removes in two ways, finds and clears. -/
example : ∃ ops : List (Arr.Op Nat), ops.length = 25 ∧ ArrSpec.smallRun [] ops ∧
    ArrSpec.run [] ops = some [some 7] := by
  refine ⟨(List.range 20).map .add ++ [.removeAt 3, .removeLast 0, .remove 5, .clear true, .add 7],
    rfl, ?_, by rfl⟩
  simp [ArrSpec.smallRun, ArrSpec.smallReq, List.range, List.range.loop]

/-- **C01.** Copy construction yields an array with the same elements. -/
theorem array_copy_equal {α : Type} [DecidableEq α] (ops : List (Arr.Op α))
    (l : List (Option α)) (hspec : ArrSpec.run [] ops = some l) (hsmall : ArrSpec.smallRun [] ops) :
    ∃ a b, (Arr.empty : Arr α).run ops = some a ∧ Arr.copyOf a = some b ∧ b.size = l.length ∧
      ∀ i, i < b.size → l[i]? = some (b.get i) := by
  obtain ⟨a, e, r⟩ := Arr.Rep.empty.run hspec hsmall
  obtain ⟨b, e2, r2⟩ := r.copyOf
  refine ⟨a, b, e, e2, r2.size, ?_⟩
  intro i hi
  rw [Arr.get, if_pos hi]
  exact r2.get i (by rw [← r2.size]; exact hi)

example : ArrSpec.run [] [.addRange [1, 2, 3], .set 1 9, .addWithoutInit 1] =
    some [some 1, some 9, some 3, none] := by rfl

/-- **C01.** `find` returns the index of the first equal element, the end position if there is
none. -/
theorem array_find_first {α : Type} [DecidableEq α] (ops : List (Arr.Op α)) (l : List α)
    (hspec : ArrSpec.run [] ops = some (l.map some)) (hsmall : ArrSpec.smallRun [] ops) (x : α) :
    ∃ a i, (Arr.empty : Arr α).run ops = some a ∧ a.find x = some i ∧
      (x ∈ l → l[i]? = some x) ∧ (x ∉ l → i = a.size) ∧ ∀ j < i, l[j]? ≠ some x := by
  obtain ⟨a, e, r⟩ := Arr.Rep.empty.run hspec hsmall
  have hn : none ∉ l.map some := by simp
  refine ⟨a, _, e, r.find hn x, ?_, ?_, ?_⟩
  · intro hx
    have hx' : some x ∈ l.map some := by simpa using hx
    have h1 := List.idxOf_lt_length_of_mem hx'
    have h2 := List.getElem_idxOf h1
    rw [List.getElem_map] at h2
    rw [List.getElem?_eq_getElem (by simpa using h1)]
    exact h2
  · intro hx
    have hx' : some x ∉ l.map some := by simpa using hx
    rw [r.size, List.idxOf_eq_length hx']
  · intro j hj hjx
    have h3 := List.not_of_lt_findIdx (p := (· == some x)) hj
    rw [List.getElem?_eq_some_iff] at hjx
    obtain ⟨hlt, hjx⟩ := hjx
    simp [hjx] at h3

example : ArrSpec.run [] [.add 4, .add 2, .add 4] = some ([4, 2, 4].map some) := by rfl

/-! ### C02 -/

/-- **C02 (disagreement).** `reserve(n)` does not always grant `n` slots: for `n = 2^24 + 1` on a
fresh array the capacity becomes `2^24`, one short, because the request is rounded to a 32-bit
float. -/
theorem array_reserve_grants_too_little :
    ¬ ∀ n : Nat, n < 2 ^ 64 → ∃ a, (Arr.empty : Arr Nat).reserve n = some a ∧ n ≤ a.cap := by
  intro h
  obtain ⟨a, h1, h2⟩ := h 16777217 (by norm_num)
  have hlog : Nat.log 2 16777217 = 24 := by
    rw [Nat.log_eq_iff (by norm_num)]; norm_num
  have hf : f32OfNat 16777217 = 16777216 := by
    unfold f32OfNat; rw [hlog]; norm_num
  have hc : ceil16F 16777217 = 16777216 := by
    unfold ceil16F; rw [hf]
  simp only [Arr.reserve, Arr.empty, hc] at h1
  norm_num at h1
  subst h1
  norm_num at h2

/-- **C02 (disagreement, consequence).** Appending an array of `2^24 + 1` elements to an empty
array writes outside the buffer. -/
theorem array_addRange_overflows :
    ∃ xs : List (Option Nat), (Arr.empty : Arr Nat).addRange xs = none := by
  have hlog : Nat.log 2 16777217 = 24 := by
    rw [Nat.log_eq_iff (by norm_num)]; norm_num
  have hf : f32OfNat 16777217 = 16777216 := by
    unfold f32OfNat; rw [hlog]; norm_num
  have hc : ceil16F 16777217 = 16777216 := by
    unfold ceil16F; rw [hf]
  have key : ∀ (xs : List (Option Nat)) (a : Arr Nat), a.size ≤ a.cap → a.cap < a.size + xs.length →
      a.addAll xs = none := by
    intro xs
    induction xs with
    | nil => intro a h1 h2; simp at h2; omega
    | cons x xs ih =>
      intro a h1 h2
      simp only [List.length_cons] at h2
      unfold Arr.addAll Arr.construct
      by_cases h : a.size < a.cap
      · simp only [h, if_true, Option.bind_eq_bind, Option.bind_some]
        exact ih _ (by simp; omega) (by simp; omega)
      · simp [h]
  have hex : ∀ n : Nat, ∃ xs : List (Option Nat), xs.length = n :=
    fun n => ⟨List.replicate n none, List.length_replicate⟩
  obtain ⟨xs, hx⟩ := hex 16777217
  refine ⟨xs, ?_⟩
  unfold Arr.addRange Arr.reserve
  simp only [hx, Arr.empty]
  rw [if_pos (by norm_num), if_neg (by norm_num)]
  simp only [Nat.zero_add, hc]
  rw [if_pos (by norm_num)]
  simp only [Option.bind_eq_bind, Option.bind_some]
  apply key
  · simp
  · rw [hx]; norm_num

/-- **C02 (partial).** Up to `2^24` elements, and for every request that is a float multiple of 16,
`reserve(n)` on any array reached by a history grants at least `n` slots; it never shrinks the
capacity and keeps the contents.  Missing: requests above `2^24` that are not representable, for
which the claim is false (`array_reserve_grants_too_little`). -/
theorem array_reserve_grants_partial {α : Type} [DecidableEq α] (ops : List (Arr.Op α))
    (l : List (Option α)) (hspec : ArrSpec.run [] ops = some l) (hsmall : ArrSpec.smallRun [] ops)
    (n : Nat) (hn : n ≤ 2 ^ 24 ∨ (IsF32 n ∧ n % 16 = 0)) :
    ∃ a b, (Arr.empty : Arr α).run ops = some a ∧ a.reserve n = some b ∧ n ≤ b.cap ∧
      a.cap ≤ b.cap ∧ b.size = a.size ∧ ∀ i, i < b.size → b.get i = a.get i := by
  obtain ⟨a, e, r⟩ := Arr.Rep.empty.run hspec hsmall
  obtain ⟨b, e2, r2, h1, h2, h3⟩ := r.reserve n
  refine ⟨a, b, e, e2, ?_, ?_, h3, ?_⟩
  · rcases Nat.lt_or_ge a.cap n with h | h
    · rw [h2 h]
      rcases hn with hn | hn
      · exact ceil16F_ge hn
      · rw [ceil16F_of_isF32 hn.1 hn.2]
    · rw [h1 h]; exact h
  · rcases Nat.lt_or_ge a.cap n with h | h
    · rw [h2 h]; exact le_ceil16F r.f32 (le_of_lt h)
    · rw [h1 h]
  · intro i hi
    have hia : i < a.size := by omega
    have h4 := r.get i (by rw [← r.size]; exact hia)
    have h5 := r2.get i (by rw [← r.size]; exact hia)
    simp only [Arr.get, if_pos hi, if_pos hia]
    rw [h4] at h5
    exact (Option.some.inj h5).symm

example : IsF32 (2 ^ 25) ∧ 2 ^ 25 % 16 = 0 :=
  ⟨IsF32.mul_two (n := 2 ^ 24) (f32OfNat_le_pow24 (le_refl _)), by norm_num⟩

/-! ### C57 -/

/-- **C57 (disagreement).** `array.add(array[i])` is not safe: there is a reachable array and a
valid index for which it reads released memory. -/
theorem array_add_own_element_unsafe :
    ∃ (ops : List (Arr.Op Nat)) (a : Arr Nat) (i : Nat),
      (Arr.empty : Arr Nat).run ops = some a ∧ i < a.size ∧ a.addOwn i = none := by
  obtain ⟨a, e, r⟩ := (Arr.Rep.empty (α := Nat)).run
    (ops := (List.range 16).map .add) (l' := (List.range 16).map some) (by rfl)
    (by simp [ArrSpec.smallRun, ArrSpec.smallReq, List.range, List.range.loop])
  have hcap : a.cap = 16 := by
    have : ((Arr.empty : Arr Nat).run ((List.range 16).map .add)).map Arr.cap = some 16 := by rfl
    rw [e] at this; simpa using this
  refine ⟨_, a, 0, e, ?_, ?_⟩
  · rw [r.size]; simp
  · unfold Arr.addOwn
    rw [if_pos (by rw [r.size, hcap]; simp)]

/-- **C57 (partial).** When the array is not full, adding one of its own elements appends a copy of
it.  Missing: full arrays, where the claim is false. -/
theorem array_add_own_element_partial {α : Type} [DecidableEq α] (ops : List (Arr.Op α))
    (l : List (Option α)) (hspec : ArrSpec.run [] ops = some l) (hsmall : ArrSpec.smallRun [] ops)
    (i : Nat) (x : α) (hi : l[i]? = some (some x)) :
    ∃ a, (Arr.empty : Arr α).run ops = some a ∧ (a.size < a.cap →
      ∃ b, a.addOwn i = some b ∧ b.size = a.size + 1 ∧ b.get a.size = some x ∧
        ∀ j, j < a.size → b.get j = a.get j) := by
  obtain ⟨a, e, r⟩ := Arr.Rep.empty.run hspec hsmall
  refine ⟨a, e, fun hc => ?_⟩
  obtain ⟨b, e2, r2⟩ := r.addOwn (by rw [← r.size]; exact hc) hi
  have hs := r.size
  have hs2 := r2.size
  simp only [List.length_append, List.length_cons, List.length_nil] at hs2
  refine ⟨b, e2, by omega, ?_, ?_⟩
  · have h5 := r2.get a.size (by simp; omega)
    rw [hs] at h5 ⊢
    simp only [List.getElem?_append_right (le_refl _)] at h5
    simp only [Arr.get, if_pos (show l.length < b.size by omega)]
    simpa using h5.symm
  · intro j hj
    have h4 := r.get j (by omega)
    have h5 := r2.get j (by simp; omega)
    rw [List.getElem?_append_left (by omega), h4] at h5
    simp only [Arr.get, if_pos hj, if_pos (show j < b.size by omega)]
    exact (Option.some.inj h5).symm

example : ArrSpec.run [] [Arr.Op.add 4, .add 2] = some [some 4, some 2] := by rfl

end RP3D
