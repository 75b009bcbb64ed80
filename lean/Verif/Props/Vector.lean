import Verif.Math.Vector
import Mathlib.Tactic.FinCases
import Mathlib.Tactic.LinearCombination
import Mathlib.Tactic.Positivity

/-! C156: vectors and matrices compute what their names say. -/

namespace RP3D
namespace Vector
open Joints (M2)

/-! ### Axes and order -/

/-- `getMinAxis` is an axis with the smallest component, `getMinValue` is that component. -/
theorem min_axis (v : V3 ℝ) (i : Fin 3) : v.get (minAxis v) ≤ v.get i ∧ minValue v = v.get (minAxis v) := by
  unfold minAxis minValue
  constructor
  · split_ifs <;> fin_cases i <;> simp [V3.get] <;> linarith
  · split_ifs <;> simp only [V3.get]
    · rw [min_eq_left (by linarith : v.x ≤ v.y), min_eq_left (by linarith)]
    · rw [min_eq_left (by linarith : v.x ≤ v.y), min_eq_right (by linarith)]
    · rw [min_eq_right (by linarith : v.y ≤ v.x), min_eq_left (by linarith)]
    · rw [min_eq_right (by linarith : v.y ≤ v.x), min_eq_right (by linarith)]

/-- `getMaxAxis` is an axis with the largest component, `getMaxValue` is that component. -/
theorem max_axis (v : V3 ℝ) (i : Fin 3) : v.get i ≤ v.get (maxAxis v) ∧ maxValue v = v.get (maxAxis v) := by
  unfold maxAxis maxValue
  constructor
  · split_ifs <;> fin_cases i <;> simp [V3.get] <;> linarith
  · split_ifs <;> simp only [V3.get]
    · rw [max_eq_right (by linarith : v.x ≤ v.y), max_eq_right (by linarith)]
    · rw [max_eq_right (by linarith : v.x ≤ v.y), max_eq_left (by linarith)]
    · rw [max_eq_left (by linarith : v.y ≤ v.x), max_eq_right (by linarith)]
    · rw [max_eq_left (by linarith : v.y ≤ v.x), max_eq_left (by linarith)]

theorem less_irrefl (v : V3 ℝ) : ¬ less v v := by
  rintro (⟨-, ⟨-, h⟩ | ⟨h, -⟩⟩ | ⟨h, -⟩)
  · exact lt_irrefl _ h
  · exact h rfl
  · exact h rfl

theorem less_trans {u v w : V3 ℝ} (h : less u v) (k : less v w) : less u w := by
  unfold less at *
  rcases h with ⟨a, ⟨b, c⟩ | ⟨-, c⟩⟩ | ⟨-, c⟩ <;> rcases k with ⟨d, ⟨e, f⟩ | ⟨-, f⟩⟩ | ⟨-, f⟩
  · exact .inl ⟨a.trans d, .inl ⟨b.trans e, c.trans f⟩⟩
  · exact .inl ⟨a.trans d, .inr ⟨by rw [b]; exact ne_of_lt f, by rw [b]; exact f⟩⟩
  · exact .inr ⟨by rw [a]; exact ne_of_lt f, by rw [a]; exact f⟩
  · exact .inl ⟨a.trans d, .inr ⟨by rw [← e]; exact ne_of_lt c, by rw [← e]; exact c⟩⟩
  · exact .inl ⟨a.trans d, .inr ⟨ne_of_lt (c.trans f), c.trans f⟩⟩
  · exact .inr ⟨by rw [a]; exact ne_of_lt f, by rw [a]; exact f⟩
  · exact .inr ⟨by rw [← d]; exact ne_of_lt c, by rw [← d]; exact c⟩
  · exact .inr ⟨by rw [← d]; exact ne_of_lt c, by rw [← d]; exact c⟩
  · exact .inr ⟨ne_of_lt (c.trans f), c.trans f⟩

/-- `operator<` orders all vectors: of two vectors exactly one is less than the other or they are equal, as a set needs it. -/
theorem less_order (u v w : V3 ℝ) : ¬ less v v ∧ (less u v → less v w → less u w) ∧ (less v w ∨ v = w ∨ less w v) := by
  refine ⟨less_irrefl v, less_trans, ?_⟩
  unfold less
  rcases lt_trichotomy v.x w.x with h | h | h
  · exact .inl (.inr ⟨ne_of_lt h, h⟩)
  · rcases lt_trichotomy v.y w.y with k | k | k
    · exact .inl (.inl ⟨h, .inr ⟨ne_of_lt k, k⟩⟩)
    · rcases lt_trichotomy v.z w.z with l | l | l
      · exact .inl (.inl ⟨h, .inl ⟨k, l⟩⟩)
      · exact .inr (.inl (V3.ext h k l))
      · exact .inr (.inr (.inl ⟨h.symm, .inl ⟨k.symm, l⟩⟩))
    · exact .inr (.inr (.inl ⟨h.symm, .inr ⟨ne_of_lt k, k⟩⟩))
  · exact .inr (.inr (.inr ⟨ne_of_lt h, h⟩))

/-! ### Division -/

/-- Dividing by a number above the tolerance undoes the multiplication. -/
theorem div_partial {eps c : ℝ} (he : 0 ≤ eps) (hc : eps < c) (v : V3 ℝ) : ∃ u, div eps v c = some u ∧ V3.smul c u = v := by
  have h0 : c ≠ 0 := ne_of_gt (lt_of_le_of_lt he hc)
  refine ⟨_, if_pos hc, ?_⟩
  ext <;> simp only [V3.smul] <;> field_simp

/-- Dividing by a negative number breaks an assertion, and so does dividing componentwise by a vector with a negative component. -/
theorem div_negative {eps c : ℝ} (he : 0 ≤ eps) (hc : c < 0) (v w : V3 ℝ) (hw : w.x < 0 ∨ w.y < 0 ∨ w.z < 0) :
    div eps v c = none ∧ divV eps v w = none := by
  refine ⟨if_neg (by linarith), if_neg ?_⟩
  rintro ⟨a, b, d⟩
  rcases hw with h | h | h <;> linarith

/-- Dividing componentwise by a vector with components above the tolerance undoes the multiplication of the components. -/
theorem div_vector_partial {eps : ℝ} (he : 0 ≤ eps) (v w : V3 ℝ) (hw : eps < w.x ∧ eps < w.y ∧ eps < w.z) :
    ∃ u, divV eps v w = some u ∧ (⟨w.x * u.x, w.y * u.y, w.z * u.z⟩ : V3 ℝ) = v := by
  have h1 : w.x ≠ 0 := ne_of_gt (lt_of_le_of_lt he hw.1)
  have h2 : w.y ≠ 0 := ne_of_gt (lt_of_le_of_lt he hw.2.1)
  have h3 : w.z ≠ 0 := ne_of_gt (lt_of_le_of_lt he hw.2.2)
  refine ⟨_, if_pos hw, ?_⟩
  ext <;> simp only <;> field_simp

/-! ### Unit vectors -/

theorem length_sq (v : V3 ℝ) : length v * length v = v.lengthSq := Real.mul_self_sqrt (by nlinarith [mul_self_nonneg v.x, mul_self_nonneg v.y, mul_self_nonneg v.z])

theorem length_nonneg (v : V3 ℝ) : 0 ≤ length v := Real.sqrt_nonneg _

/-- `getUnit` has length one and the direction of the vector, unless it is shorter than the tolerance. -/
theorem get_unit {eps : ℝ} (he : 0 < eps) (v : V3 ℝ) (h : eps ≤ length v) :
    (getUnit eps v).lengthSq = 1 ∧ isUnit eps (getUnit eps v) ∧ V3.smul (length v) (getUnit eps v) = v := by
  have hl : length v ≠ 0 := ne_of_gt (lt_of_lt_of_le he h)
  have e : getUnit eps v = ⟨v.x * (1 / length v), v.y * (1 / length v), v.z * (1 / length v)⟩ := if_neg (not_lt.2 h)
  have one : (getUnit eps v).lengthSq = 1 := by
    rw [e]
    have : (⟨v.x * (1 / length v), v.y * (1 / length v), v.z * (1 / length v)⟩ : V3 ℝ).lengthSq = v.lengthSq / (length v * length v) := by
      unfold V3.lengthSq
      field_simp
    rw [this, ← length_sq]
    field_simp
  refine ⟨one, ?_, ?_⟩
  · unfold isUnit approxEqual
    rw [one]; simpa using he
  · rw [e]
    ext <;> simp only [V3.smul] <;> field_simp

/-- A zero vector is recognised; a vector that is not zero too, if it is not shorter than the root of the tolerance. -/
theorem is_zero_partial {eps : ℝ} (he : 0 < eps) (v : V3 ℝ) (h : v = 0 ∨ eps ≤ v.lengthSq) : isZero eps v ↔ v = 0 := by
  constructor
  · intro z
    rcases h with h | h
    · exact h
    · unfold isZero approxEqual at z
      rw [sub_zero] at z
      exact absurd (lt_of_le_of_lt (le_abs_self _) z) (not_lt.2 h)
  · rintro rfl
    unfold isZero approxEqual
    simpa [V3.lengthSq] using he

/-- But a vector far longer than the tolerance is taken for zero: the square of the length is compared. -/
theorem is_zero_wrong : ∃ v : V3 ℝ, v ≠ 0 ∧ length v = 1000 * (1 / 10 ^ 7) ∧ isZero (1 / 10 ^ 7) v := by
  refine ⟨⟨1000 * (1 / 10 ^ 7), 0, 0⟩, ?_, ?_, ?_⟩
  · intro h
    have := congrArg V3.x h
    norm_num at this
  · unfold length
    have : (1000 * (1 / 10 ^ 7) : ℝ) * (1000 * (1 / 10 ^ 7)) + 0 * 0 + 0 * 0 = (1000 * (1 / 10 ^ 7)) ^ 2 := by ring
    simp only [this]
    exact Real.sqrt_sq (by norm_num)
  · unfold isZero approxEqual V3.lengthSq
    norm_num

/-! ### Orthogonal vectors -/

theorem div_unit {eps a b : ℝ} (he : 0 ≤ eps) (h : eps * eps < a * a + b * b) : eps < Real.sqrt (a * a + b * b) ∧
    0 < Real.sqrt (a * a + b * b) ∧ Real.sqrt (a * a + b * b) * Real.sqrt (a * a + b * b) = a * a + b * b := by
  have h1 : eps < Real.sqrt (a * a + b * b) := Real.lt_sqrt_of_sq_lt (by rw [pow_two]; exact h)
  exact ⟨h1, lt_of_le_of_lt he h1, Real.mul_self_sqrt (by nlinarith [mul_self_nonneg a, mul_self_nonneg b])⟩

theorem unit_pair {a b s : ℝ} (h : 0 < s) (e : s * s = a * a + b * b) : a / s * (a / s) + b / s * (b / s) = 1 := by
  rw [div_mul_div_comm, div_mul_div_comm, ← add_div, ← e, div_self (ne_of_gt (mul_pos h h))]

theorem abs_le_sq {a b : ℝ} (h : |a| ≤ |b|) : a * a ≤ b * b := by
  have := mul_self_le_mul_self (abs_nonneg a) h
  rwa [abs_mul_abs_self, abs_mul_abs_self] at this

/-- A vector longer than the tolerance by a quarter has a unit orthogonal vector. -/
theorem orth_partial {eps : ℝ} (he : 0 < eps) (v : V3 ℝ) (h : 5 / 4 * eps < length v) :
    ∃ u, orth eps v = some u ∧ u.lengthSq = 1 ∧ u.dot v = 0 := by
  have hl : eps < length v := by linarith
  have sq : 25 / 16 * (eps * eps) < v.x * v.x + v.y * v.y + v.z * v.z := by
    have := length_sq v
    unfold V3.lengthSq at this
    nlinarith
  have m0 : ∀ i, (⟨|v.x|, |v.y|, |v.z|⟩ : V3 ℝ).get (minAxis ⟨|v.x|, |v.y|, |v.z|⟩) ≤ (⟨|v.x|, |v.y|, |v.z|⟩ : V3 ℝ).get i :=
    fun i => (min_axis _ i).1
  unfold orth
  rw [if_pos hl]
  simp only
  generalize minAxis ⟨|v.x|, |v.y|, |v.z|⟩ = m at m0
  have key : ∀ a b c : ℝ, |c| ≤ |a| → |c| ≤ |b| → 25 / 16 * (eps * eps) < a * a + b * b + c * c → eps * eps < a * a + b * b := by
    intro a b c h1 h2 h3
    have := abs_le_sq h1
    have := abs_le_sq h2
    nlinarith [mul_self_nonneg eps]
  fin_cases m
  · have k1 : |v.x| ≤ |v.y| := m0 1
    have k2 : |v.x| ≤ |v.z| := m0 2
    obtain ⟨d1, d2, d3⟩ := div_unit he.le (key v.y v.z v.x k1 k2 (by linarith))
    refine ⟨_, if_pos d1, ?_, ?_⟩
    · unfold V3.lengthSq; simp only; linear_combination unit_pair d2 d3
    · unfold V3.dot; simp only; field_simp; ring
  · have k1 : |v.y| ≤ |v.x| := m0 0
    have k2 : |v.y| ≤ |v.z| := m0 2
    obtain ⟨d1, d2, d3⟩ := div_unit he.le (key v.x v.z v.y k1 k2 (by linarith))
    refine ⟨_, if_pos d1, ?_, ?_⟩
    · unfold V3.lengthSq; simp only; linear_combination unit_pair d2 d3
    · unfold V3.dot; simp only; field_simp; ring
  · have k1 : |v.z| ≤ |v.x| := m0 0
    have k2 : |v.z| ≤ |v.y| := m0 1
    obtain ⟨d1, d2, d3⟩ := div_unit he.le (key v.x v.y v.z k1 k2 (by linarith))
    refine ⟨_, if_pos d1, ?_, ?_⟩
    · unfold V3.lengthSq; simp only; linear_combination unit_pair d2 d3
    · unfold V3.dot; simp only; field_simp; ring

/-- The assertion of the function asks only for a length above the tolerance, which is not enough: the one of the division breaks. -/
theorem orth_fails {eps : ℝ} (he : 0 < eps) : ∃ v : V3 ℝ, eps < length v ∧ orth eps v = none := by
  have h1 : eps < length ⟨3 / 5 * eps, 3 / 5 * eps, 3 / 5 * eps⟩ := Real.lt_sqrt_of_sq_lt (by simp only; nlinarith [mul_pos he he])
  refine ⟨⟨3 / 5 * eps, 3 / 5 * eps, 3 / 5 * eps⟩, h1, ?_⟩
  unfold orth
  rw [if_pos h1]
  have hm : minAxis (⟨|3 / 5 * eps|, |3 / 5 * eps|, |3 / 5 * eps|⟩ : V3 ℝ) = 2 := by
    unfold minAxis; simp
  simp only [hm]
  rw [if_neg (by decide), if_neg (by decide)]
  refine if_neg (not_lt.2 ?_)
  exact Real.sqrt_le_iff.2 ⟨he.le, by nlinarith [mul_pos he he]⟩

/-! ### Inverse of a matrix -/

/-- `getInverse` of a matrix with a determinant other than zero is its inverse from both sides. -/
theorem inverse3_spec (m : M3 ℝ) (h : m.det ≠ 0) : ∃ i, inverse3 m = some i ∧ M3.mul m i = M3.one ∧ M3.mul i m = M3.one := by
  have k : m.det * (1 / m.det) = 1 := by field_simp
  refine ⟨_, if_pos h, ?_, ?_⟩ <;> unfold M3.inverse M3.inverseWith <;> generalize 1 / m.det = d at k <;> unfold M3.det at k <;>
    ext <;> simp only [M3.mul, M3.scale, M3.of, M3.one] <;> first | ring1 | linear_combination k

/-- A matrix without inverse breaks the assertion, and every other matrix has at most one inverse, the one returned. -/
theorem inverse3_only (m i : M3 ℝ) (h : M3.mul m i = M3.one) : inverse3 m = some i := by
  have hd : m.det ≠ 0 := by
    intro h0
    have e : m.det * i.det = (M3.mul m i).det := by simp only [M3.det, M3.mul, M3.of]; ring
    rw [h, h0, zero_mul] at e
    simp [M3.one, M3.of, M3.det] at e
  obtain ⟨j, hj, -, l⟩ := inverse3_spec m hd
  rw [hj]
  congr 1
  have a : M3.mul (M3.mul j m) i = M3.mul j (M3.mul m i) := by ext <;> simp only [M3.mul, M3.of] <;> ring
  have b : M3.mul M3.one i = i := by ext <;> simp [M3.mul, M3.of, M3.one]
  have c : M3.mul j M3.one = j := by ext <;> simp [M3.mul, M3.of, M3.one]
  rw [l, h, b, c] at a
  exact a.symm

/-- The same for a two by two matrix whose determinant is above the tolerance. -/
theorem inverse2_partial {eps : ℝ} (he : 0 ≤ eps) (m : M2 ℝ) (h : eps < |m.det|) :
    ∃ i, inverse2 eps m = some i ∧ mul2 m i = one2 ∧ mul2 i m = one2 := by
  have h0 : m.det ≠ 0 := by
    intro e
    rw [e, abs_zero] at h
    linarith
  have k : m.det * (1 / m.det) = 1 := by field_simp
  refine ⟨_, if_pos h, ?_, ?_⟩ <;> unfold M2.inverseWith <;> generalize 1 / m.det = d at k <;> unfold M2.det at k <;>
    ext <;> simp only [mul2, one2] <;> first | ring1 | linear_combination k

/-- But a two by two matrix with an inverse breaks the assertion if it scales things down enough, whatever the tolerance. -/
theorem inverse2_fails {eps : ℝ} (he : 0 < eps) : ∃ m i : M2 ℝ, mul2 m i = one2 ∧ mul2 i m = one2 ∧ inverse2 eps m = none := by
  refine ⟨⟨1, 0, 0, eps⟩, ⟨1, 0, 0, 1 / eps⟩, ?_, ?_, if_neg ?_⟩
  · ext <;> simp only [mul2, one2] <;> field_simp <;> norm_num
  · ext <;> simp only [mul2, one2] <;> field_simp <;> norm_num
  · simp [M2.det, abs_of_pos he]

/-! ### Examples -/

example : ∃ i, inverse2 (1 / 10 ^ 7) (⟨1, 2, 0, 3⟩ : M2 ℝ) = some i := by
  obtain ⟨i, h, -⟩ := inverse2_partial (eps := 1 / 10 ^ 7) (by norm_num) (⟨1, 2, 0, 3⟩ : M2 ℝ) (by simp [M2.det]; norm_num)
  exact ⟨i, h⟩

example : (1 : ℝ) ≤ length ⟨2, 2, 1⟩ := by
  have : length ⟨2, 2, 1⟩ = 3 := by
    unfold length
    rw [show (2 * 2 + 2 * 2 + 1 * 1 : ℝ) = 3 ^ 2 by norm_num]
    exact Real.sqrt_sq (by norm_num)
  rw [this]; norm_num

example : (M3.of 1 2 0 0 1 0 0 0 (2 : ℝ)).det ≠ 0 := by simp [M3.of, M3.det]

end Vector
end RP3D
