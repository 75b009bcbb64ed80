import Mathlib.Data.Nat.Log
import Mathlib.Data.Nat.Bitwise
import Mathlib.Tactic.Linarith
import Mathlib.Tactic.Ring

/-! Integer helpers of include/reactphysics3d/mathematics/mathematics_functions.h:400-433.
`uint64` is modelled as `Nat` reduced modulo `2^64` after each operation that may wrap. -/

namespace RP3D

/-- `isPowerOfTwo` (mathematics_functions.h:406-408); `number - 1` is only evaluated for
`number ≠ 0`. -/
def isPowerOfTwo (n : Nat) : Bool := n != 0 && (n &&& (n - 1)) == 0

/-- The statement `number |= number >> s` (mathematics_functions.h:413-418). -/
def orShift (n s : Nat) : Nat := n ||| (n >>> s)

/-- `nextPowerOfTwo64Bits` (mathematics_functions.h:411-422). -/
def nextPowerOfTwo64 (n : Nat) : Nat :=
  let n := (n + 2 ^ 64 - 1) % 2 ^ 64
  let n := orShift n 1
  let n := orShift n 2
  let n := orShift n 4
  let n := orShift n 8
  let n := orShift n 16
  let n := orShift n 32
  let n := (n + 1) % 2 ^ 64
  (n + (if n = 0 then 1 else 0)) % 2 ^ 64

/-- `pairNumbers` (mathematics_functions.h:428-433), with 64-bit wrap-around. -/
def pairNumbers (n1 n2 : Nat) : Nat := (n1 * n1 + n1 + n2) % 2 ^ 64

/-- The pair identifier of two broad-phase ids: `pairNumbers(max, min)`
(src/engine/OverlappingPairs.cpp:413, src/systems/CollisionDetectionSystem.cpp:305). -/
def pairId (a b : Nat) : Nat := pairNumbers (max a b) (min a b)

/-! ### Lemmas -/

theorem two_pow_and_pred (k : Nat) : 2 ^ k &&& (2 ^ k - 1) = 0 := by
  rw [Nat.and_two_pow_sub_one_eq_mod]; simp

theorem isPowerOfTwo_pow (k : Nat) : isPowerOfTwo (2 ^ k) = true := by
  simp [isPowerOfTwo]

theorem isPowerOfTwo_iff (n : Nat) : isPowerOfTwo n = true ↔ ∃ k, n = 2 ^ k := by
  constructor
  · intro h
    simp only [isPowerOfTwo, Bool.and_eq_true, bne_iff_ne, ne_eq, beq_iff_eq] at h
    obtain ⟨h0, h1⟩ := h
    refine ⟨Nat.log 2 n, ?_⟩
    by_contra hne
    have hle := Nat.pow_log_le_self 2 h0
    have hlt := Nat.lt_pow_succ_log_self (b := 2) (by norm_num) n
    set k := Nat.log 2 n
    have b1 : n.testBit k = true := by
      rw [Nat.testBit_eq_decide_div_mod_eq]
      have : n / 2 ^ k = 1 := by
        apply Nat.div_eq_of_lt_le <;> rw [pow_succ] at * <;> omega
      simp [this]
    have b2 : (n - 1).testBit k = true := by
      rw [Nat.testBit_eq_decide_div_mod_eq]
      have : (n - 1) / 2 ^ k = 1 := by
        apply Nat.div_eq_of_lt_le <;> rw [pow_succ] at * <;> omega
      simp [this]
    have : (n &&& (n - 1)).testBit k = true := by rw [Nat.testBit_and, b1, b2]; rfl
    rw [h1] at this
    simp at this
  · rintro ⟨k, rfl⟩; exact isPowerOfTwo_pow k

/-- Bit `i` of the smeared value looks at bits `i .. i + s - 1` of the original. -/
def Smeared (n m s : Nat) : Prop := ∀ i, m.testBit i = true ↔ ∃ j, i ≤ j ∧ j < i + s ∧ n.testBit j = true

theorem Smeared.step {n m s : Nat} (h : Smeared n m s) : Smeared n (orShift m s) (s + s) := by
  intro i
  simp only [orShift, Nat.testBit_or, Nat.testBit_shiftRight, Bool.or_eq_true, h i, h (s + i)]
  constructor
  · rintro (⟨j, h1, h2, h3⟩ | ⟨j, h1, h2, h3⟩)
    · exact ⟨j, h1, by omega, h3⟩
    · exact ⟨j, by omega, by omega, h3⟩
  · rintro ⟨j, h1, h2, h3⟩
    rcases Nat.lt_or_ge j (i + s) with h | h
    · exact Or.inl ⟨j, h1, h, h3⟩
    · exact Or.inr ⟨j, by omega, by omega, h3⟩

theorem Smeared.refl (n : Nat) : Smeared n n 1 := by
  intro i
  constructor
  · intro h; exact ⟨i, le_refl _, by omega, h⟩
  · rintro ⟨j, h1, h2, h3⟩
    have : j = i := by omega
    rwa [this] at h3

/-- A smeared number has all the bits up to its top bit. -/
theorem Smeared.eq {n m s : Nat} (h : Smeared n m s) (h0 : n ≠ 0) (hs : Nat.log 2 n < s) :
    m = 2 ^ (Nat.log 2 n + 1) - 1 := by
  have hle := Nat.pow_log_le_self 2 h0
  have hlt := Nat.lt_pow_succ_log_self (b := 2) (by norm_num) n
  have btop : n.testBit (Nat.log 2 n) = true := by
    rw [Nat.testBit_eq_decide_div_mod_eq]
    have : n / 2 ^ Nat.log 2 n = 1 := by
      apply Nat.div_eq_of_lt_le <;> rw [pow_succ] at * <;> omega
    simp [this]
  apply Nat.eq_of_testBit_eq
  intro i
  rw [Nat.testBit_two_pow_sub_one, Bool.eq_iff_iff, h i]
  simp only [decide_eq_true_eq]
  constructor
  · rintro ⟨j, h1, h2, h3⟩
    by_contra hcon
    have : n < 2 ^ j := lt_of_lt_of_le hlt (Nat.pow_le_pow_right (by norm_num) (by omega))
    rw [Nat.testBit_lt_two_pow this] at h3
    cases h3
  · intro hi
    exact ⟨Nat.log 2 n, by omega, by omega, btop⟩

theorem nextPowerOfTwo64_one : nextPowerOfTwo64 1 = 1 := by decide

theorem nextPowerOfTwo64_eq {n : Nat} (h1 : 2 ≤ n) (h2 : n ≤ 2 ^ 63) :
    nextPowerOfTwo64 n = 2 ^ (Nat.log 2 (n - 1) + 1) := by
  have hn : (n + 2 ^ 64 - 1) % 2 ^ 64 = n - 1 := by omega
  have hl : Nat.log 2 (n - 1) < 63 := Nat.log_lt_of_lt_pow (by omega) (by omega)
  unfold nextPowerOfTwo64
  simp only [hn]
  have hsm := (((((Smeared.refl (n - 1)).step).step).step).step).step.step
  have := hsm.eq (by omega) (by omega)
  norm_num at this
  rw [this]
  have hp : 0 < 2 ^ (Nat.log 2 (n - 1) + 1) := by positivity
  have hb : 2 ^ (Nat.log 2 (n - 1) + 1) ≤ 2 ^ 63 := Nat.pow_le_pow_right (by norm_num) (by omega)
  have : (2 ^ (Nat.log 2 (n - 1) + 1) - 1 + 1) % 2 ^ 64 = 2 ^ (Nat.log 2 (n - 1) + 1) := by
    rw [Nat.sub_add_cancel hp, Nat.mod_eq_of_lt (by omega)]
  rw [this, if_neg (by omega), Nat.add_zero, Nat.mod_eq_of_lt (by omega)]

end RP3D
