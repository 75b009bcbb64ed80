import Mathlib.Data.Nat.Log
import Mathlib.Tactic.Linarith
import Mathlib.Tactic.Ring

/-! Rounding of integers to IEEE single precision, and the capacity rounding used by the
containers. -/

namespace RP3D

/-- Value of `(float) n` for an unsigned integer `n` (IEEE-754 binary32, round to nearest, ties to
even).  Integers below `2^24` are exact; above, the `k = log2 n - 23` low bits are rounded away.
Implicit conversion in `capacity / float(GLOBAL_ALIGNMENT)`,
include/reactphysics3d/containers/Array.h:255. -/
def f32OfNat (n : Nat) : Nat :=
  if n < 2 ^ 24 then n
  else
    let k := Nat.log 2 n - 23
    let q := n / 2 ^ k
    let r := n % 2 ^ k
    let half := 2 ^ (k - 1)
    if r < half ∨ (r = half ∧ q % 2 = 0) then q * 2 ^ k else (q + 1) * 2 ^ k

/-- `capacity = std::ceil(capacity / float(GLOBAL_ALIGNMENT)) * GLOBAL_ALIGNMENT`
(Array.h:255).  Dividing a float by 16, `ceil` and multiplying by 16 are exact in binary32 for
values in the range of a 64-bit integer, so the only rounding is the conversion to float. -/
def ceil16F (n : Nat) : Nat := (f32OfNat n + 15) / 16 * 16

/-- Natural numbers that are exactly representable as a float: they survive the conversion. -/
def IsF32 (n : Nat) : Prop := f32OfNat n = n

theorem f32OfNat_small {n : Nat} (h : n < 2 ^ 24) : f32OfNat n = n := by
  unfold f32OfNat; rw [if_pos h]

theorem log_mul_two {n : Nat} (hn : 0 < n) : Nat.log 2 (n * 2) = Nat.log 2 n + 1 :=
  Nat.log_mul_base (by norm_num) (by omega)

/-- Writing `n` as a multiple of the rounding quantum makes it representable. -/
theorem isF32_of_mod {n : Nat} (h : 2 ^ 24 ≤ n) (hm : n % 2 ^ (Nat.log 2 n - 23) = 0) : IsF32 n := by
  unfold IsF32 f32OfNat
  rw [if_neg (by omega)]
  simp only [hm]
  rw [if_pos (Or.inl (by positivity))]
  have := Nat.div_add_mod n (2 ^ (Nat.log 2 n - 23))
  rw [hm, Nat.add_zero, Nat.mul_comm] at this
  exact this

theorem f32_mod {n : Nat} (h : IsF32 n) (h24 : 2 ^ 24 ≤ n) : n % 2 ^ (Nat.log 2 n - 23) = 0 := by
  unfold IsF32 f32OfNat at h
  rw [if_neg (by omega)] at h
  simp only at h
  split at h
  · exact Nat.mod_eq_zero_of_dvd ⟨_, by rw [Nat.mul_comm]; exact h.symm⟩
  · exact Nat.mod_eq_zero_of_dvd ⟨_, by rw [Nat.mul_comm]; exact h.symm⟩

theorem log_ge {n : Nat} (h : 2 ^ 24 ≤ n) : 24 ≤ Nat.log 2 n := by
  have := Nat.log_mono_right (b := 2) h
  rwa [Nat.log_pow (by norm_num)] at this

/-- Doubling a representable integer is exact. -/
theorem IsF32.mul_two {n : Nat} (h : IsF32 n) : IsF32 (n * 2) := by
  by_cases h1 : n * 2 < 2 ^ 24
  · exact f32OfNat_small h1
  · have hn : 0 < n := by omega
    apply isF32_of_mod (by omega)
    rw [log_mul_two hn]
    by_cases h2 : n < 2 ^ 24
    · have : Nat.log 2 n < 24 := Nat.log_lt_of_lt_pow (by omega) h2
      have h3 : Nat.log 2 n + 1 - 23 ≤ 1 := by omega
      have : Nat.log 2 n + 1 - 23 = 0 ∨ Nat.log 2 n + 1 - 23 = 1 := by omega
      rcases this with h | h <;> rw [h] <;> simp [Nat.mod_one]
    · have h24 : 2 ^ 24 ≤ n := by omega
      have := f32_mod h h24
      have hl := log_ge h24
      have h3 : Nat.log 2 n + 1 - 23 = (Nat.log 2 n - 23) + 1 := by omega
      rw [h3, pow_succ, Nat.mul_mod_mul_right, this]

/-- For a representable multiple of 16 the capacity rounding is the identity. -/
theorem ceil16F_of_isF32 {n : Nat} (h : IsF32 n) (h16 : n % 16 = 0) : ceil16F n = n := by
  unfold ceil16F
  rw [h]
  omega

theorem ceil16F_small {n : Nat} (h : n < 2 ^ 24) : ceil16F n = (n + 15) / 16 * 16 := by
  simp [ceil16F, f32OfNat_small h]

theorem f32OfNat_le_pow24 {n : Nat} (h : n ≤ 2 ^ 24) : f32OfNat n = n := by
  rcases Nat.lt_or_ge n (2 ^ 24) with h1 | h1
  · exact f32OfNat_small h1
  · have : n = 2 ^ 24 := by omega
    subst this
    apply isF32_of_mod (le_refl _)
    rw [Nat.log_pow (by norm_num)]
    norm_num

theorem ceil16F_ge {n : Nat} (h : n ≤ 2 ^ 24) : n ≤ ceil16F n := by
  unfold ceil16F
  rw [f32OfNat_le_pow24 h]
  omega

theorem f32OfNat_isF32_lt {n : Nat} (h : n ≤ 2 ^ 24) : IsF32 n := f32OfNat_le_pow24 h

theorem ceil16F_isF32 {n : Nat} (h : n ≤ 2 ^ 24) : IsF32 (ceil16F n) := by
  apply f32OfNat_le_pow24
  unfold ceil16F
  rw [f32OfNat_le_pow24 h]
  have : (2 ^ 24 : Nat) = 16 * 1048576 := by norm_num
  omega

theorem ceil16F_mod (n : Nat) : ceil16F n % 16 = 0 := by
  unfold ceil16F; omega

/-- Shape of a rounded value above `2^24`. -/
theorem f32OfNat_shape {n : Nat} (h : 2 ^ 24 ≤ n) :
    ∃ q, 2 ^ 23 ≤ q ∧ q ≤ 2 ^ 24 ∧ f32OfNat n = q * 2 ^ (Nat.log 2 n - 23) ∧
      n / 2 ^ (Nat.log 2 n - 23) ≤ q ∧ n / 2 ^ (Nat.log 2 n - 23) < 2 ^ 24 ∧
      2 ^ 23 ≤ n / 2 ^ (Nat.log 2 n - 23) := by
  have hl := log_ge h
  set k := Nat.log 2 n - 23 with hk
  have hlo : 2 ^ (23 + k) ≤ n := by
    have : 23 + k = Nat.log 2 n := by omega
    rw [this]; exact Nat.pow_log_le_self 2 (by omega)
  have hhi : n < 2 ^ (24 + k) := by
    have : 24 + k = Nat.log 2 n + 1 := by omega
    rw [this]; exact Nat.lt_pow_succ_log_self (by norm_num) n
  have hpos : 0 < 2 ^ k := by positivity
  have hq1 : 2 ^ 23 ≤ n / 2 ^ k := by
    rw [Nat.le_div_iff_mul_le hpos, ← pow_add]; exact hlo
  have hq2 : n / 2 ^ k < 2 ^ 24 := by
    rw [Nat.div_lt_iff_lt_mul hpos, ← pow_add]; exact hhi
  unfold f32OfNat
  rw [if_neg (by omega)]
  simp only [← hk]
  split
  · exact ⟨n / 2 ^ k, hq1, by omega, rfl, le_refl _, hq2, hq1⟩
  · exact ⟨n / 2 ^ k + 1, by omega, by omega, rfl, by omega, hq2, hq1⟩

theorem log_mul_pow {q k : Nat} (hq : 0 < q) : Nat.log 2 (q * 2 ^ k) = Nat.log 2 q + k := by
  induction k with
  | zero => simp
  | succ k ih => rw [pow_succ, ← Nat.mul_assoc, log_mul_two (by positivity), ih]; omega

theorem isF32_mul_pow {q k : Nat} (h : IsF32 q) : IsF32 (q * 2 ^ k) := by
  induction k with
  | zero => simpa using h
  | succ k ih => rw [pow_succ, ← Nat.mul_assoc]; exact ih.mul_two

/-- Rounding is idempotent. -/
theorem f32OfNat_isF32 (n : Nat) : IsF32 (f32OfNat n) := by
  rcases Nat.lt_or_ge n (2 ^ 24) with h | h
  · rw [f32OfNat_small h]; exact f32OfNat_small h
  · obtain ⟨q, _, h2, h3, _⟩ := f32OfNat_shape h
    rw [h3]
    exact isF32_mul_pow (f32OfNat_le_pow24 h2)

/-- Every capacity granted by `reserve` is a representable float. -/
theorem ceil16F_isF32' (n : Nat) : IsF32 (ceil16F n) := by
  rcases Nat.lt_or_ge n (2 ^ 24) with h | h
  · exact ceil16F_isF32 (by omega)
  · obtain ⟨q, h1, h2, h3, _⟩ := f32OfNat_shape h
    have hl := log_ge h
    by_cases hk : 4 ≤ Nat.log 2 n - 23
    · have : f32OfNat n % 16 = 0 := by
        rw [h3]
        obtain ⟨j, hj⟩ := Nat.exists_eq_add_of_le hk
        rw [hj, pow_add, ← Nat.mul_assoc, Nat.mul_right_comm]
        norm_num
      have h4 : ceil16F n = f32OfNat n := by unfold ceil16F; omega
      rw [h4]; exact f32OfNat_isF32 n
    · have hle : f32OfNat n ≤ 2 ^ 27 := by
        rw [h3]
        calc q * 2 ^ (Nat.log 2 n - 23) ≤ 2 ^ 24 * 2 ^ 3 :=
              Nat.mul_le_mul h2 (Nat.pow_le_pow_right (by norm_num) (by omega))
          _ = 2 ^ 27 := by norm_num
      have : ceil16F n = (f32OfNat n + 15) / 16 * 2 ^ 4 := by unfold ceil16F; rfl
      rw [this]
      apply isF32_mul_pow
      apply f32OfNat_le_pow24
      norm_num at hle ⊢
      omega

/-- Rounding never goes below a representable lower bound. -/
theorem le_f32OfNat {c n : Nat} (hc : IsF32 c) (h : c ≤ n) : c ≤ f32OfNat n := by
  rcases Nat.lt_or_ge n (2 ^ 24) with h1 | h1
  · rwa [f32OfNat_small h1]
  · obtain ⟨q, h2, h3, h4, h5, h6, h7⟩ := f32OfNat_shape h1
    have hl := log_ge h1
    rw [h4]
    set k := Nat.log 2 n - 23 with hk
    have hpos : 0 < 2 ^ k := by positivity
    by_contra hlt
    have hlt' : n / 2 ^ k * 2 ^ k < c :=
      lt_of_le_of_lt (Nat.mul_le_mul_right _ h5) (by omega)
    have hc24 : 2 ^ 24 ≤ c := by
      have h8 : 1 ≤ k := by omega
      calc 2 ^ 24 = 2 ^ 23 * 2 ^ 1 := by norm_num
        _ ≤ n / 2 ^ k * 2 ^ k := Nat.mul_le_mul h7 (Nat.pow_le_pow_right (by norm_num) h8)
        _ ≤ c := by omega
    have hlog : Nat.log 2 c = 23 + k := by
      rw [Nat.log_eq_iff (Or.inr ⟨by norm_num, by omega⟩)]
      constructor
      · calc 2 ^ (23 + k) = 2 ^ 23 * 2 ^ k := by rw [pow_add]
          _ ≤ n / 2 ^ k * 2 ^ k := Nat.mul_le_mul_right _ h7
          _ ≤ c := by omega
      · calc c ≤ n := h
          _ < 2 ^ (Nat.log 2 n + 1) := Nat.lt_pow_succ_log_self (by norm_num) n
          _ = 2 ^ (23 + k + 1) := by congr 1; omega
    have hm := f32_mod hc hc24
    rw [hlog, Nat.add_sub_cancel_left] at hm
    have hd : c / 2 ^ k = n / 2 ^ k := by
      apply le_antisymm (Nat.div_le_div_right h)
      rw [Nat.le_div_iff_mul_le hpos]; omega
    have := Nat.div_add_mod c (2 ^ k)
    rw [hm, hd, Nat.add_zero, Nat.mul_comm] at this
    omega

theorem le_ceil16F {c n : Nat} (hc : IsF32 c) (h : c ≤ n) : c ≤ ceil16F n := by
  have := le_f32OfNat hc h
  unfold ceil16F; omega

/-- Rounding keeps more than half of the value. -/
theorem f32OfNat_double (n : Nat) : n ≤ f32OfNat n * 2 := by
  rcases Nat.lt_or_ge n (2 ^ 24) with h1 | h1
  · rw [f32OfNat_small h1]; omega
  · obtain ⟨q, h2, h3, h4, h5, h6, h7⟩ := f32OfNat_shape h1
    rw [h4]
    set k := Nat.log 2 n - 23 with hk
    have hpos : 0 < 2 ^ k := by positivity
    have h8 := Nat.div_add_mod n (2 ^ k)
    have h9 := Nat.mod_lt n hpos
    have h10 : 2 ^ k * (n / 2 ^ k) ≤ q * 2 ^ k := by
      rw [Nat.mul_comm]; exact Nat.mul_le_mul_right _ h5
    have h11 : 2 ^ k ≤ q * 2 ^ k := Nat.le_mul_of_pos_left _ (by omega)
    omega

theorem ceil16F_double (n : Nat) : n ≤ ceil16F n * 2 := by
  have := f32OfNat_double n
  unfold ceil16F; omega

end RP3D
