import Verif.Math.Rigid
import Mathlib.Tactic.LinearCombination
import Mathlib.Tactic.NormNum

/-! C48: rigid transforms form a group. -/

namespace RP3D

/-- Specification of rotations, by rows: the rows are orthonormal and right-handed. -/
structure RotSpec {K : Type} [Field K] (m : M3 K) : Prop where
  n0 : m.r0.x ^ 2 + m.r0.y ^ 2 + m.r0.z ^ 2 = 1
  n1 : m.r1.x ^ 2 + m.r1.y ^ 2 + m.r1.z ^ 2 = 1
  o01 : m.r0.x * m.r1.x + m.r0.y * m.r1.y + m.r0.z * m.r1.z = 0
  rx : m.r2.x = m.r0.y * m.r1.z - m.r0.z * m.r1.y
  ry : m.r2.y = m.r0.z * m.r1.x - m.r0.x * m.r1.z
  rz : m.r2.z = m.r0.x * m.r1.y - m.r0.y * m.r1.x

section
variable {K : Type} [Field K]

/-- Rotating with a unit quaternion preserves scalar products, hence lengths and angles. -/
theorem rot_dot {q : Quat K} (h : q.lengthSq = 1) (a b : V3 K) : V3.dot (q.rot a) (q.rot b) = V3.dot a b := by
  have e : V3.dot (q.rot a) (q.rot b) = q.lengthSq * q.lengthSq * V3.dot a b := by
    simp only [V3.dot, Quat.rot, Quat.lengthSq]; ring
  rw [e, h]; ring

/-- Rotating preserves the orientation of space. -/
theorem rot_cross {q : Quat K} (h : q.lengthSq = 1) (a b : V3 K) :
    V3.cross (q.rot a) (q.rot b) = q.rot (V3.cross a b) := by
  have e : V3.cross (q.rot a) (q.rot b) = V3.smul q.lengthSq (q.rot (V3.cross a b)) := by
    simp only [V3.cross, Quat.rot, Quat.lengthSq, V3.smul, V3.mk.injEq]
    refine ⟨?_, ?_, ?_⟩ <;> ring
  rw [e, h]; simp [V3.smul]

/-- Rotating is linear. -/
theorem rot_linear (q : Quat K) (k : K) (a b : V3 K) : q.rot (a + V3.smul k b) = q.rot a + V3.smul k (q.rot b) := by
  ext <;> simp only [Quat.rot, V3.add_x, V3.add_y, V3.add_z, V3.smul_x, V3.smul_y, V3.smul_z] <;> ring

/-- The rotation is conjugation with the quaternion. -/
theorem rot_is_conjugation (q : Quat K) (v : V3 K) :
    (q.mul ⟨v.x, v.y, v.z, 0⟩).mul q.conj = ⟨(q.rot v).x, (q.rot v).y, (q.rot v).z, 0⟩ := by
  simp only [Quat.mul, Quat.conj, Quat.rot, Quat.mk.injEq]
  refine ⟨?_, ?_, ?_, ?_⟩ <;> ring

/-- The product of unit quaternions and the inverse of one are unit quaternions. -/
theorem unit_mul {p q : Quat K} (hp : p.lengthSq = 1) (hq : q.lengthSq = 1) : (p.mul q).lengthSq = 1 := by
  have e : (p.mul q).lengthSq = p.lengthSq * q.lengthSq := by simp only [Quat.mul, Quat.lengthSq]; ring
  rw [e, hp, hq]; ring

theorem unit_inverse {q : Quat K} (hq : q.lengthSq = 1) : q.conj.lengthSq = 1 := by
  rw [← hq]; simp only [Quat.conj, Quat.lengthSq]; ring

/-- Composing quaternions composes the rotations. -/
theorem rot_mul (p q : Quat K) (v : V3 K) : (p.mul q).rot v = p.rot (q.rot v) := by
  simp only [Quat.mul, Quat.rot, V3.mk.injEq]
  refine ⟨?_, ?_, ?_⟩ <;> ring

theorem trans_mul_eq (t u : Trans K) : t.mul u = ⟨t.ori.rot u.pos + t.pos, t.ori.mul u.ori⟩ := by
  ext <;> simp only [Trans.mul, Quat.rot, Quat.mul, V3.add_x, V3.add_y, V3.add_z] <;> ring

/-- Composing transforms corresponds to applying them one after the other. -/
theorem trans_mul_act (t u : Trans K) (v : V3 K) : (t.mul u).act v = t.act (u.act v) := by
  rw [trans_mul_eq]
  simp only [Trans.act]
  rw [rot_mul]
  have e := rot_linear t.ori 1 (u.ori.rot v) u.pos
  have s : ∀ a : V3 K, V3.smul 1 a = a := fun a => by simp [V3.smul]
  rw [s, s] at e
  rw [e]
  ext <;> simp only [V3.add_x, V3.add_y, V3.add_z] <;> ring

/-- Composition is associative. -/
theorem trans_mul_assoc (t u v : Trans K) : (t.mul u).mul v = t.mul (u.mul v) := by
  ext <;> simp only [Trans.mul] <;> ring

theorem rot_conj {q : Quat K} (h : q.lengthSq = 1) (v : V3 K) : q.conj.rot (q.rot v) = v := by
  have e : q.conj.rot (q.rot v) = V3.smul (q.lengthSq * q.lengthSq) v := by
    simp only [Quat.rot, Quat.conj, Quat.lengthSq, V3.smul, V3.mk.injEq]
    refine ⟨?_, ?_, ?_⟩ <;> ring
  rw [e, h]; simp [V3.smul]

theorem rot_conj' {q : Quat K} (h : q.lengthSq = 1) (v : V3 K) : q.rot (q.conj.rot v) = v := by
  have e : q.rot (q.conj.rot v) = V3.smul (q.lengthSq * q.lengthSq) v := by
    simp only [Quat.rot, Quat.conj, Quat.lengthSq, V3.smul, V3.mk.injEq]
    refine ⟨?_, ?_, ?_⟩ <;> ring
  rw [e, h]; simp [V3.smul]

/-- The inverse transform undoes the transform. -/
theorem trans_inverse_act {t : Trans K} (h : t.ori.lengthSq = 1) (v : V3 K) : t.inverse.act (t.act v) = v := by
  simp only [Trans.act, Trans.inverse]
  have e : t.ori.conj.rot (t.ori.rot v + t.pos) + t.ori.conj.rot (-t.pos) = t.ori.conj.rot (t.ori.rot v) := by
    ext <;> simp only [Quat.rot, V3.add_x, V3.add_y, V3.add_z, V3.neg_x, V3.neg_y, V3.neg_z] <;> ring
  rw [e, rot_conj h]

theorem trans_act_inverse {t : Trans K} (h : t.ori.lengthSq = 1) (v : V3 K) : t.act (t.inverse.act v) = v := by
  simp only [Trans.act, Trans.inverse]
  have e := rot_linear t.ori 1 (t.ori.conj.rot v) (t.ori.conj.rot (-t.pos))
  have s : ∀ a : V3 K, V3.smul 1 a = a := fun a => by simp [V3.smul]
  rw [s, s, rot_conj' h, rot_conj' h] at e
  rw [e]
  ext <;> simp only [V3.add_x, V3.add_y, V3.add_z, V3.neg_x, V3.neg_y, V3.neg_z] <;> ring

/-- The inverse is the inverse with respect to composition, on both sides. -/
theorem trans_inverse_mul {t : Trans K} (h : t.ori.lengthSq = 1) : t.inverse.mul t = Trans.one ∧ t.mul t.inverse = Trans.one := by
  have q1 : t.ori.conj.mul t.ori = Quat.one := by
    have e : t.ori.conj.mul t.ori = ⟨0, 0, 0, t.ori.lengthSq⟩ := by
      simp only [Quat.mul, Quat.conj, Quat.lengthSq, Quat.mk.injEq]
      refine ⟨?_, ?_, ?_, ?_⟩ <;> ring
    rw [e, h]; rfl
  have q2 : t.ori.mul t.ori.conj = Quat.one := by
    have e : t.ori.mul t.ori.conj = ⟨0, 0, 0, t.ori.lengthSq⟩ := by
      simp only [Quat.mul, Quat.conj, Quat.lengthSq, Quat.mk.injEq]
      refine ⟨?_, ?_, ?_, ?_⟩ <;> ring
    rw [e, h]; rfl
  constructor
  · rw [trans_mul_eq]
    simp only [Trans.inverse, Trans.one]
    rw [q1]
    have e : t.ori.conj.rot t.pos + t.ori.conj.rot (-t.pos) = 0 := by
      ext <;> simp only [Quat.rot, V3.add_x, V3.add_y, V3.add_z, V3.neg_x, V3.neg_y, V3.neg_z, V3.zero_x, V3.zero_y, V3.zero_z] <;> ring
    rw [e]
  · rw [trans_mul_eq]
    simp only [Trans.inverse, Trans.one]
    rw [q2, rot_conj' h]
    have e : -t.pos + t.pos = 0 := by
      ext <;> simp only [V3.add_x, V3.add_y, V3.add_z, V3.neg_x, V3.neg_y, V3.neg_z, V3.zero_x, V3.zero_y, V3.zero_z] <;> ring
    rw [e]

/-- The identity transform. -/
theorem trans_one_act (v : V3 K) : (Trans.one : Trans K).act v = v := by
  ext <;> simp [Trans.act, Trans.one, Quat.rot, Quat.one]

/-- The inverse matrix. -/
theorem matrix_inverse {m : M3 K} (h : m.det ≠ 0) : m.mul m.inverse = M3.one ∧ m.inverse.mul m = M3.one := by
  constructor
  · simp only [M3.mul, M3.inverse, M3.inverseWith, M3.scale, M3.of, M3.one, M3.mk.injEq, V3.mk.injEq]
    refine ⟨⟨?_, ?_, ?_⟩, ⟨?_, ?_, ?_⟩, ?_, ?_, ?_⟩ <;> field_simp <;> simp only [M3.det] <;> ring
  · simp only [M3.mul, M3.inverse, M3.inverseWith, M3.scale, M3.of, M3.one, M3.mk.injEq, V3.mk.injEq]
    refine ⟨⟨?_, ?_, ?_⟩, ⟨?_, ?_, ?_⟩, ?_, ?_, ?_⟩ <;> field_simp <;> simp only [M3.det] <;> ring

/-- Matrix multiplication composes, and the skew matrix is the cross product. -/
theorem matrix_mul_act (a b : M3 K) (v : V3 K) : (a.mul b).act v = a.act (b.act v) := by
  simp only [M3.mul, M3.act, M3.of, V3.mk.injEq]
  refine ⟨?_, ?_, ?_⟩ <;> ring

theorem skew_act (a v : V3 K) : (M3.skew a).act v = V3.cross a v := by
  simp only [M3.skew, M3.act, M3.of, V3.cross, V3.mk.injEq]
  refine ⟨?_, ?_, ?_⟩ <;> ring

end

section
variable {K : Type} [Field K] [LinearOrder K] [IsStrictOrderedRing K]

theorem lengthSq_pos_or (q : Quat K) : 0 < q.lengthSq ∨ q = ⟨0, 0, 0, 0⟩ := by
  by_cases h : 0 < q.lengthSq
  · exact Or.inl h
  · right
    simp only [Quat.lengthSq] at h
    have hx := mul_self_nonneg q.x
    have hy := mul_self_nonneg q.y
    have hz := mul_self_nonneg q.z
    have hw := mul_self_nonneg q.w
    have ex : q.x * q.x = 0 := by linarith
    have ey : q.y * q.y = 0 := by linarith
    have ez : q.z * q.z = 0 := by linarith
    have ew : q.w * q.w = 0 := by linarith
    ext <;> simp_all

/-- The matrix of a quaternion of length one. -/
theorem matrix_of_unit {q : Quat K} (h : q.lengthSq = 1) :
    q.matrix = M3.of (1 - 2 * q.y * q.y - 2 * q.z * q.z) (2 * q.x * q.y - 2 * q.w * q.z) (2 * q.x * q.z + 2 * q.w * q.y)
      (2 * q.x * q.y + 2 * q.w * q.z) (1 - 2 * q.x * q.x - 2 * q.z * q.z) (2 * q.y * q.z - 2 * q.w * q.x)
      (2 * q.x * q.z - 2 * q.w * q.y) (2 * q.y * q.z + 2 * q.w * q.x) (1 - 2 * q.x * q.x - 2 * q.y * q.y) := by
  have e : q.x * q.x + q.y * q.y + q.z * q.z + q.w * q.w = 1 := h
  simp only [Quat.matrix, e]
  rw [if_pos one_pos]
  simp only [M3.of, M3.mk.injEq, V3.mk.injEq]
  refine ⟨⟨?_, ?_, ?_⟩, ⟨?_, ?_, ?_⟩, ?_, ?_, ?_⟩ <;> ring

/-- The rotation matrix of a quaternion acts like the quaternion. -/
theorem matrix_act {q : Quat K} (h : q.lengthSq = 1) (v : V3 K) : q.matrix.act v = q.rot v := by
  rw [matrix_of_unit h]
  have e : q.w * q.w = 1 - q.x * q.x - q.y * q.y - q.z * q.z := by
    simp only [Quat.lengthSq] at h; linarith
  simp only [M3.act, M3.of, Quat.rot, V3.mk.injEq]
  refine ⟨?_, ?_, ?_⟩
  · linear_combination (-v.x) * e
  · linear_combination (-v.y) * e
  · linear_combination (-v.z) * e

/-- Every quaternion other than zero gives a rotation matrix. -/
theorem matrix_is_rotation {q : Quat K} (h : q ≠ ⟨0, 0, 0, 0⟩) : RotSpec q.matrix := by
  have hp : 0 < q.lengthSq := (lengthSq_pos_or q).resolve_right h
  have hn : q.x * q.x + q.y * q.y + q.z * q.z + q.w * q.w ≠ 0 := ne_of_gt hp
  have hs : ∃ s, s * (q.x * q.x + q.y * q.y + q.z * q.z + q.w * q.w) = 2 ∧ q.matrix =
      M3.of (1 - q.y * (q.y * s) - q.z * (q.z * s)) (q.x * (q.y * s) - q.w * (q.z * s)) (q.x * (q.z * s) + q.w * (q.y * s))
        (q.x * (q.y * s) + q.w * (q.z * s)) (1 - q.x * (q.x * s) - q.z * (q.z * s)) (q.y * (q.z * s) - q.w * (q.x * s))
        (q.x * (q.z * s) - q.w * (q.y * s)) (q.y * (q.z * s) + q.w * (q.x * s)) (1 - q.x * (q.x * s) - q.y * (q.y * s)) := by
    refine ⟨2 / (q.x * q.x + q.y * q.y + q.z * q.z + q.w * q.w), div_mul_cancel₀ _ hn, ?_⟩
    have hp' : q.x * q.x + q.y * q.y + q.z * q.z + q.w * q.w > 0 := hp
    simp only [Quat.matrix]
    rw [if_pos hp']
  obtain ⟨s, h2, e⟩ := hs
  rw [e]
  obtain ⟨x, y, z, w⟩ := q
  simp only at h2
  clear hp hn h e
  constructor <;> simp only [M3.of] <;> grind

/-- What the square root is used for. -/
def IsSqrt (sqrt : K → K) : Prop := ∀ x, 0 ≤ x → 0 ≤ sqrt x ∧ sqrt x * sqrt x = x

theorem sqrt_pos {sqrt : K → K} (hs : IsSqrt sqrt) {x : K} (hx : 0 < x) : 0 < sqrt x ∧ sqrt x * sqrt x = x := by
  obtain ⟨h0, h1⟩ := hs x (le_of_lt hx)
  refine ⟨lt_of_le_of_ne h0 fun e => ?_, h1⟩
  rw [← e] at h1
  rw [← h1] at hx
  simp at hx

theorem matrix_eq_of {q : Quat K} {m : M3 K} (h1 : q.lengthSq = 1)
    (h : M3.of (1 - 2 * q.y * q.y - 2 * q.z * q.z) (2 * q.x * q.y - 2 * q.w * q.z) (2 * q.x * q.z + 2 * q.w * q.y)
      (2 * q.x * q.y + 2 * q.w * q.z) (1 - 2 * q.x * q.x - 2 * q.z * q.z) (2 * q.y * q.z - 2 * q.w * q.x)
      (2 * q.x * q.z - 2 * q.w * q.y) (2 * q.y * q.z + 2 * q.w * q.x) (1 - 2 * q.x * q.x - 2 * q.y * q.y) = m) :
    q.lengthSq = 1 ∧ q.matrix = m := ⟨h1, by rw [matrix_of_unit h1, h]⟩

theorem ofMatrix_w {a b c d e f g i j r s : K} (h1 : a ^ 2 + b ^ 2 + c ^ 2 = 1) (h2 : d ^ 2 + e ^ 2 + f ^ 2 = 1)
    (h3 : a * d + b * e + c * f = 0) (h4 : g = b * f - c * e) (h5 : i = c * d - a * f) (h6 : j = a * e - b * d)
    (h7 : r * r = 1 + a + e + j) (h8 : 2 * s * r = 1) :
    (⟨(i - f) * s, (c - g) * s, (d - b) * s, 1 / 2 * r⟩ : Quat K).lengthSq = 1 ∧ (⟨(i - f) * s, (c - g) * s, (d - b) * s, 1 / 2 * r⟩ : Quat K).matrix = ⟨⟨a, b, c⟩, ⟨d, e, f⟩, ⟨g, i, j⟩⟩ := by
  have h9 : 4 * s * s * (1 + a + e + j) = 1 := by rw [← h7]; linear_combination (2 * s * r + 1) * h8
  have i1 : (i - f) ^ 2 = (1 + a + e + j) * (1 + a - e - j) := by grind
  have i2 : (c - g) ^ 2 = (1 + a + e + j) * (1 + e - a - j) := by grind
  have i3 : (d - b) ^ 2 = (1 + a + e + j) * (1 + j - a - e) := by grind
  have i4 : (b + d) ^ 2 = (1 + a - e - j) * (1 + e - a - j) := by grind
  have i5 : (g + c) ^ 2 = (1 + a - e - j) * (1 + j - a - e) := by grind
  have i6 : (f + i) ^ 2 = (1 + e - a - j) * (1 + j - a - e) := by grind
  have j1 : (i - f) * (c - g) = (1 + a + e + j) * (b + d) := by grind
  have j2 : (i - f) * (d - b) = (1 + a + e + j) * (g + c) := by grind
  have j3 : (c - g) * (d - b) = (1 + a + e + j) * (f + i) := by grind
  have j4 : (b + d) * (g + c) = (1 + a - e - j) * (f + i) := by grind
  have j5 : (b + d) * (f + i) = (1 + e - a - j) * (g + c) := by grind
  have j6 : (g + c) * (f + i) = (1 + j - a - e) * (b + d) := by grind
  have k1 : (i - f) * (b + d) = (1 + a - e - j) * (c - g) := by grind
  have k2 : (i - f) * (g + c) = (1 + a - e - j) * (d - b) := by grind
  have k3 : (c - g) * (b + d) = (1 + e - a - j) * (i - f) := by grind
  have k4 : (c - g) * (f + i) = (1 + e - a - j) * (d - b) := by grind
  have k5 : (d - b) * (g + c) = (1 + j - a - e) * (i - f) := by grind
  have k6 : (d - b) * (f + i) = (1 + j - a - e) * (c - g) := by grind
  clear h1 h2 h3 h4 h5 h6
  apply matrix_eq_of
  · simp only [Quat.lengthSq]; grind
  · simp only [M3.of, M3.mk.injEq, V3.mk.injEq]
    refine ⟨⟨?_, ?_, ?_⟩, ⟨?_, ?_, ?_⟩, ?_, ?_, ?_⟩ <;> grind

theorem ofMatrix_x {a b c d e f g i j r s : K} (h1 : a ^ 2 + b ^ 2 + c ^ 2 = 1) (h2 : d ^ 2 + e ^ 2 + f ^ 2 = 1)
    (h3 : a * d + b * e + c * f = 0) (h4 : g = b * f - c * e) (h5 : i = c * d - a * f) (h6 : j = a * e - b * d)
    (h7 : r * r = 1 + a - e - j) (h8 : 2 * s * r = 1) :
    (⟨1 / 2 * r, (b + d) * s, (g + c) * s, (i - f) * s⟩ : Quat K).lengthSq = 1 ∧ (⟨1 / 2 * r, (b + d) * s, (g + c) * s, (i - f) * s⟩ : Quat K).matrix = ⟨⟨a, b, c⟩, ⟨d, e, f⟩, ⟨g, i, j⟩⟩ := by
  have h9 : 4 * s * s * (1 + a - e - j) = 1 := by rw [← h7]; linear_combination (2 * s * r + 1) * h8
  have i1 : (i - f) ^ 2 = (1 + a + e + j) * (1 + a - e - j) := by grind
  have i2 : (c - g) ^ 2 = (1 + a + e + j) * (1 + e - a - j) := by grind
  have i3 : (d - b) ^ 2 = (1 + a + e + j) * (1 + j - a - e) := by grind
  have i4 : (b + d) ^ 2 = (1 + a - e - j) * (1 + e - a - j) := by grind
  have i5 : (g + c) ^ 2 = (1 + a - e - j) * (1 + j - a - e) := by grind
  have i6 : (f + i) ^ 2 = (1 + e - a - j) * (1 + j - a - e) := by grind
  have j1 : (i - f) * (c - g) = (1 + a + e + j) * (b + d) := by grind
  have j2 : (i - f) * (d - b) = (1 + a + e + j) * (g + c) := by grind
  have j3 : (c - g) * (d - b) = (1 + a + e + j) * (f + i) := by grind
  have j4 : (b + d) * (g + c) = (1 + a - e - j) * (f + i) := by grind
  have j5 : (b + d) * (f + i) = (1 + e - a - j) * (g + c) := by grind
  have j6 : (g + c) * (f + i) = (1 + j - a - e) * (b + d) := by grind
  have k1 : (i - f) * (b + d) = (1 + a - e - j) * (c - g) := by grind
  have k2 : (i - f) * (g + c) = (1 + a - e - j) * (d - b) := by grind
  have k3 : (c - g) * (b + d) = (1 + e - a - j) * (i - f) := by grind
  have k4 : (c - g) * (f + i) = (1 + e - a - j) * (d - b) := by grind
  have k5 : (d - b) * (g + c) = (1 + j - a - e) * (i - f) := by grind
  have k6 : (d - b) * (f + i) = (1 + j - a - e) * (c - g) := by grind
  clear h1 h2 h3 h4 h5 h6
  apply matrix_eq_of
  · simp only [Quat.lengthSq]; grind
  · simp only [M3.of, M3.mk.injEq, V3.mk.injEq]
    refine ⟨⟨?_, ?_, ?_⟩, ⟨?_, ?_, ?_⟩, ?_, ?_, ?_⟩ <;> grind

theorem ofMatrix_y {a b c d e f g i j r s : K} (h1 : a ^ 2 + b ^ 2 + c ^ 2 = 1) (h2 : d ^ 2 + e ^ 2 + f ^ 2 = 1)
    (h3 : a * d + b * e + c * f = 0) (h4 : g = b * f - c * e) (h5 : i = c * d - a * f) (h6 : j = a * e - b * d)
    (h7 : r * r = 1 + e - a - j) (h8 : 2 * s * r = 1) :
    (⟨(b + d) * s, 1 / 2 * r, (f + i) * s, (c - g) * s⟩ : Quat K).lengthSq = 1 ∧ (⟨(b + d) * s, 1 / 2 * r, (f + i) * s, (c - g) * s⟩ : Quat K).matrix = ⟨⟨a, b, c⟩, ⟨d, e, f⟩, ⟨g, i, j⟩⟩ := by
  have h9 : 4 * s * s * (1 + e - a - j) = 1 := by rw [← h7]; linear_combination (2 * s * r + 1) * h8
  have i1 : (i - f) ^ 2 = (1 + a + e + j) * (1 + a - e - j) := by grind
  have i2 : (c - g) ^ 2 = (1 + a + e + j) * (1 + e - a - j) := by grind
  have i3 : (d - b) ^ 2 = (1 + a + e + j) * (1 + j - a - e) := by grind
  have i4 : (b + d) ^ 2 = (1 + a - e - j) * (1 + e - a - j) := by grind
  have i5 : (g + c) ^ 2 = (1 + a - e - j) * (1 + j - a - e) := by grind
  have i6 : (f + i) ^ 2 = (1 + e - a - j) * (1 + j - a - e) := by grind
  have j1 : (i - f) * (c - g) = (1 + a + e + j) * (b + d) := by grind
  have j2 : (i - f) * (d - b) = (1 + a + e + j) * (g + c) := by grind
  have j3 : (c - g) * (d - b) = (1 + a + e + j) * (f + i) := by grind
  have j4 : (b + d) * (g + c) = (1 + a - e - j) * (f + i) := by grind
  have j5 : (b + d) * (f + i) = (1 + e - a - j) * (g + c) := by grind
  have j6 : (g + c) * (f + i) = (1 + j - a - e) * (b + d) := by grind
  have k1 : (i - f) * (b + d) = (1 + a - e - j) * (c - g) := by grind
  have k2 : (i - f) * (g + c) = (1 + a - e - j) * (d - b) := by grind
  have k3 : (c - g) * (b + d) = (1 + e - a - j) * (i - f) := by grind
  have k4 : (c - g) * (f + i) = (1 + e - a - j) * (d - b) := by grind
  have k5 : (d - b) * (g + c) = (1 + j - a - e) * (i - f) := by grind
  have k6 : (d - b) * (f + i) = (1 + j - a - e) * (c - g) := by grind
  clear h1 h2 h3 h4 h5 h6
  apply matrix_eq_of
  · simp only [Quat.lengthSq]; grind
  · simp only [M3.of, M3.mk.injEq, V3.mk.injEq]
    refine ⟨⟨?_, ?_, ?_⟩, ⟨?_, ?_, ?_⟩, ?_, ?_, ?_⟩ <;> grind

theorem ofMatrix_z {a b c d e f g i j r s : K} (h1 : a ^ 2 + b ^ 2 + c ^ 2 = 1) (h2 : d ^ 2 + e ^ 2 + f ^ 2 = 1)
    (h3 : a * d + b * e + c * f = 0) (h4 : g = b * f - c * e) (h5 : i = c * d - a * f) (h6 : j = a * e - b * d)
    (h7 : r * r = 1 + j - a - e) (h8 : 2 * s * r = 1) :
    (⟨(g + c) * s, (f + i) * s, 1 / 2 * r, (d - b) * s⟩ : Quat K).lengthSq = 1 ∧ (⟨(g + c) * s, (f + i) * s, 1 / 2 * r, (d - b) * s⟩ : Quat K).matrix = ⟨⟨a, b, c⟩, ⟨d, e, f⟩, ⟨g, i, j⟩⟩ := by
  have h9 : 4 * s * s * (1 + j - a - e) = 1 := by rw [← h7]; linear_combination (2 * s * r + 1) * h8
  have i1 : (i - f) ^ 2 = (1 + a + e + j) * (1 + a - e - j) := by grind
  have i2 : (c - g) ^ 2 = (1 + a + e + j) * (1 + e - a - j) := by grind
  have i3 : (d - b) ^ 2 = (1 + a + e + j) * (1 + j - a - e) := by grind
  have i4 : (b + d) ^ 2 = (1 + a - e - j) * (1 + e - a - j) := by grind
  have i5 : (g + c) ^ 2 = (1 + a - e - j) * (1 + j - a - e) := by grind
  have i6 : (f + i) ^ 2 = (1 + e - a - j) * (1 + j - a - e) := by grind
  have j1 : (i - f) * (c - g) = (1 + a + e + j) * (b + d) := by grind
  have j2 : (i - f) * (d - b) = (1 + a + e + j) * (g + c) := by grind
  have j3 : (c - g) * (d - b) = (1 + a + e + j) * (f + i) := by grind
  have j4 : (b + d) * (g + c) = (1 + a - e - j) * (f + i) := by grind
  have j5 : (b + d) * (f + i) = (1 + e - a - j) * (g + c) := by grind
  have j6 : (g + c) * (f + i) = (1 + j - a - e) * (b + d) := by grind
  have k1 : (i - f) * (b + d) = (1 + a - e - j) * (c - g) := by grind
  have k2 : (i - f) * (g + c) = (1 + a - e - j) * (d - b) := by grind
  have k3 : (c - g) * (b + d) = (1 + e - a - j) * (i - f) := by grind
  have k4 : (c - g) * (f + i) = (1 + e - a - j) * (d - b) := by grind
  have k5 : (d - b) * (g + c) = (1 + j - a - e) * (i - f) := by grind
  have k6 : (d - b) * (f + i) = (1 + j - a - e) * (c - g) := by grind
  clear h1 h2 h3 h4 h5 h6
  apply matrix_eq_of
  · simp only [Quat.lengthSq]; grind
  · simp only [M3.of, M3.mk.injEq, V3.mk.injEq]
    refine ⟨⟨?_, ?_, ?_⟩, ⟨?_, ?_, ?_⟩, ?_, ?_, ?_⟩ <;> grind

/-- The constructor from a rotation matrix inverts `getMatrix`: it yields a unit quaternion with this matrix. -/
theorem quaternion_of_matrix {sqrt : K → K} (hs : IsSqrt sqrt) {m : M3 K} (h : RotSpec m) :
    (Quat.ofMatrix sqrt m).lengthSq = 1 ∧ (Quat.ofMatrix sqrt m).matrix = m := by
  obtain ⟨⟨a, b, c⟩, ⟨d, e, f⟩, ⟨g, i, j⟩⟩ := m
  obtain ⟨h1, h2, h3, h4, h5, h6⟩ := h
  simp only at h1 h2 h3 h4 h5 h6
  simp only [Quat.ofMatrix, M3.trace]
  split_ifs with t1 t2 t3 t4
  · obtain ⟨hr, h7⟩ := sqrt_pos hs (x := j - a - e + 1) (by linarith)
    generalize sqrt (j - a - e + 1) = r at hr h7 ⊢
    obtain ⟨s, hs', h8⟩ : ∃ s, s = 1 / 2 / r ∧ 2 * s * r = 1 := ⟨_, rfl, by field_simp⟩
    rw [← hs']
    exact ofMatrix_z h1 h2 h3 h4 h5 h6 (by linear_combination h7) h8
  · obtain ⟨hr, h7⟩ := sqrt_pos hs (x := e - j - a + 1) (by linarith)
    generalize sqrt (e - j - a + 1) = r at hr h7 ⊢
    obtain ⟨s, hs', h8⟩ : ∃ s, s = 1 / 2 / r ∧ 2 * s * r = 1 := ⟨_, rfl, by field_simp⟩
    rw [← hs']
    exact ofMatrix_y h1 h2 h3 h4 h5 h6 (by linear_combination h7) h8
  · obtain ⟨hr, h7⟩ := sqrt_pos hs (x := j - a - e + 1) (by linarith)
    generalize sqrt (j - a - e + 1) = r at hr h7 ⊢
    obtain ⟨s, hs', h8⟩ : ∃ s, s = 1 / 2 / r ∧ 2 * s * r = 1 := ⟨_, rfl, by field_simp⟩
    rw [← hs']
    exact ofMatrix_z h1 h2 h3 h4 h5 h6 (by linear_combination h7) h8
  · obtain ⟨hr, h7⟩ := sqrt_pos hs (x := a - e - j + 1) (by linarith)
    generalize sqrt (a - e - j + 1) = r at hr h7 ⊢
    obtain ⟨s, hs', h8⟩ : ∃ s, s = 1 / 2 / r ∧ 2 * s * r = 1 := ⟨_, rfl, by field_simp⟩
    rw [← hs']
    exact ofMatrix_x h1 h2 h3 h4 h5 h6 (by linear_combination h7) h8
  · obtain ⟨hr, h7⟩ := sqrt_pos hs (x := a + e + j + 1) (by linarith)
    generalize sqrt (a + e + j + 1) = r at hr h7 ⊢
    obtain ⟨s, hs', h8⟩ : ∃ s, s = 1 / 2 / r ∧ 2 * s * r = 1 := ⟨_, rfl, by field_simp⟩
    rw [← hs']
    exact ofMatrix_w h1 h2 h3 h4 h5 h6 (by linear_combination h7) h8

end

/-- A rotation about an oblique axis meets the hypotheses, and is not trivial. -/
example : (⟨1 / 2, 1 / 2, 1 / 2, 1 / 2⟩ : Quat ℚ).lengthSq = 1 ∧
    (⟨1 / 2, 1 / 2, 1 / 2, 1 / 2⟩ : Quat ℚ).rot ⟨1, 2, 3⟩ = ⟨3, 1, 2⟩ := by
  constructor
  · norm_num [Quat.lengthSq]
  · norm_num [Quat.rot]

/-- The four branches of the constructor that are reached by rotations with a negative trace or not. -/
example : RotSpec (M3.of (-1) 0 0 0 (-1) 0 0 0 1 : M3 ℚ) ∧ RotSpec (M3.of (-1) 0 0 0 1 0 0 0 (-1) : M3 ℚ) ∧
    RotSpec (M3.of 1 0 0 0 (-1) 0 0 0 (-1) : M3 ℚ) ∧ RotSpec (M3.of 0 0 1 1 0 0 0 1 0 : M3 ℚ) := by
  refine ⟨⟨?_, ?_, ?_, ?_, ?_, ?_⟩, ⟨?_, ?_, ?_, ?_, ?_, ?_⟩, ⟨?_, ?_, ?_, ?_, ?_, ?_⟩, ⟨?_, ?_, ?_, ?_, ?_, ?_⟩⟩ <;> norm_num [M3.of]

example : (M3.of 1 2 0 0 1 0 0 0 1 : M3 ℚ).det ≠ 0 := by norm_num [M3.det, M3.of]

section
end
end RP3D
