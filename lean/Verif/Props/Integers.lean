import Verif.Math.Integers

/-! Property theorems C16 and C17. -/

namespace RP3D

/-- **C16.** Distinct unordered pairs of 32-bit ids get distinct 64-bit identifiers. -/
theorem pairId_injective (a b c d : Nat) (ha : a < 2 ^ 32) (hb : b < 2 ^ 32) (hc : c < 2 ^ 32)
    (hd : d < 2 ^ 32) (h : pairId a b = pairId c d) : (a = c ∧ b = d) ∨ (a = d ∧ b = c) := by
  have key : ∀ x y : Nat, x < 2 ^ 32 → y ≤ x → pairNumbers x y = x * x + x + y := by
    intro x y hx hy
    unfold pairNumbers
    apply Nat.mod_eq_of_lt
    have : x * x ≤ (2 ^ 32 - 1) * (2 ^ 32 - 1) := Nat.mul_le_mul (by omega) (by omega)
    norm_num at this ⊢
    omega
  have uniq : ∀ x y z w : Nat, y ≤ x → w ≤ z → x * x + x + y = z * z + z + w → x = z ∧ y = w := by
    intro x y z w h1 h2 h3
    have hxz : x = z := by
      rcases Nat.lt_trichotomy x z with h | h | h
      · exfalso; nlinarith
      · exact h
      · exfalso; nlinarith
    subst hxz
    exact ⟨rfl, by omega⟩
  unfold pairId at h
  rw [key _ _ (by omega) (by omega), key _ _ (by omega) (by omega)] at h
  obtain ⟨h1, h2⟩ := uniq _ _ _ _ (by omega) (by omega) h
  omega

example : pairId 3 5 = 33 ∧ pairId 5 4 = 34 ∧ pairId 4 4 = 24 := by decide

/-- **C16.** The identifier does not depend on the order of the two ids. -/
theorem pairId_symmetric (a b : Nat) : pairId a b = pairId b a := by
  unfold pairId; rw [Nat.max_comm, Nat.min_comm]

/-- **C16.** The computation never wraps around for 32-bit ids. -/
theorem pairId_no_overflow (a b : Nat) (ha : a < 2 ^ 32) (hb : b < 2 ^ 32) :
    pairId a b = max a b * max a b + max a b + min a b ∧ pairId a b < 2 ^ 64 := by
  unfold pairId pairNumbers
  refine ⟨?_, Nat.mod_lt _ (by norm_num)⟩
  apply Nat.mod_eq_of_lt
  have : max a b * max a b ≤ (2 ^ 32 - 1) * (2 ^ 32 - 1) := Nat.mul_le_mul (by omega) (by omega)
  norm_num at this ⊢
  omega

example : pairId (2 ^ 32 - 1) (2 ^ 32 - 1) = 2 ^ 64 - 1 := by norm_num [pairId, pairNumbers]

/-- **C17.** `isPowerOfTwo` decides the powers of two. -/
theorem isPowerOfTwo_correct (n : Nat) : isPowerOfTwo n = true ↔ ∃ k, n = 2 ^ k := isPowerOfTwo_iff n

example : isPowerOfTwo 1024 = true ∧ isPowerOfTwo 1023 = false ∧ isPowerOfTwo 0 = false := by decide

/-- **C17.** `nextPowerOfTwo64Bits n` is the least power of two that is at least `n`. -/
theorem nextPowerOfTwo64_correct (n : Nat) (h1 : 1 ≤ n) (h2 : n ≤ 2 ^ 63) :
    n ≤ nextPowerOfTwo64 n ∧ (∃ k, nextPowerOfTwo64 n = 2 ^ k) ∧
      ∀ k, n ≤ 2 ^ k → nextPowerOfTwo64 n ≤ 2 ^ k := by
  rcases Nat.lt_or_ge n 2 with h | h
  · have : n = 1 := by omega
    subst this
    rw [nextPowerOfTwo64_one]
    exact ⟨le_refl _, ⟨0, rfl⟩, fun k hk => hk⟩
  · rw [nextPowerOfTwo64_eq h h2]
    refine ⟨?_, ⟨_, rfl⟩, ?_⟩
    · have := Nat.lt_pow_succ_log_self (b := 2) (by norm_num) (n - 1)
      omega
    · intro k hk
      apply Nat.pow_le_pow_right (by norm_num)
      have : Nat.log 2 (n - 1) < k := Nat.log_lt_of_lt_pow (by omega) (by omega)
      omega

example : nextPowerOfTwo64 17 = 32 ∧ nextPowerOfTwo64 (2 ^ 63) = 2 ^ 63 := by decide

end RP3D
