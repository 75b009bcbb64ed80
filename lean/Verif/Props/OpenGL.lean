import Verif.Math.OpenGL
import Verif.Props.Transform
import Mathlib.Tactic.IntervalCases
import Mathlib.Analysis.Real.Sqrt

/-!
C150: the OpenGL matrix of a transform moves the points of the world like the transform, and reading it back gives the
transform again.
-/

namespace RP3D
namespace OpenGL

/-! ### Specification -/

/-- Row `i` of the product of a column-major 4x4 matrix with a column, as OpenGL defines it. -/
def row {K : Type} [Field K] (m : Nat → K) (i : Nat) (a b c d : K) : K :=
  m i * a + m (4 + i) * b + m (8 + i) * c + m (12 + i) * d

/-- The matrix sends the column `(v, k)` to the column `(u, l)`. -/
def Sends {K : Type} [Field K] (m : Nat → K) (v : V3 K) (k : K) (u : V3 K) (l : K) : Prop :=
  row m 0 v.x v.y v.z k = u.x ∧ row m 1 v.x v.y v.z k = u.y ∧ row m 2 v.x v.y v.z k = u.z ∧ row m 3 v.x v.y v.z k = l

/-- The matrix is the product of two matrices: entry `(i, j)` is row `i` times column `j`. -/
def IsProduct {K : Type} [Field K] (m a b : Nat → K) : Prop :=
  ∀ i < 4, ∀ j < 4, m (4 * j + i) = row a i (b (4 * j)) (b (4 * j + 1)) (b (4 * j + 2)) (b (4 * j + 3))

/-- The matrix of a rigid motion: orthonormal right-handed rows, and `0 0 0 1` at the bottom. -/
def Rigid {K : Type} [Field K] (m : Nat → K) : Prop :=
  RotSpec (M3.of (m 0) (m 4) (m 8) (m 1) (m 5) (m 9) (m 2) (m 6) (m 10)) ∧ m 3 = 0 ∧ m 7 = 0 ∧ m 11 = 0 ∧ m 15 = 1

/-! ### Theorems -/

section
variable {K : Type} [Field K] [LinearOrder K] [IsStrictOrderedRing K]

omit [IsStrictOrderedRing K] in
/-- Exactly sixteen numbers are written: the memory behind them keeps its contents. -/
theorem rest_kept (t : Trans K) (mem : Nat → K) (i : Nat) (h : 16 ≤ i) : t.toGL mem i = mem i := by
  simp only [Trans.toGL, poke]
  repeat rw [if_neg (by omega)]

omit [IsStrictOrderedRing K] in
/-- The sixteen numbers do not depend on what was in the memory before. -/
theorem all_written (t : Trans K) (mem mem' : Nat → K) (i : Nat) (h : i < 16) : t.toGL mem i = t.toGL mem' i := by
  interval_cases i <;> rfl

/-- A point is moved like by the transform. -/
theorem moves_points {t : Trans K} (h : t.ori.lengthSq = 1) (mem : Nat → K) (v : V3 K) :
    Sends (t.toGL mem) v 1 (t.act v) 1 := by
  have e := matrix_act h v
  have ex := congrArg V3.x e
  have ey := congrArg V3.y e
  have ez := congrArg V3.z e
  simp only [M3.act] at ex ey ez
  refine ⟨?_, ?_, ?_, ?_⟩
  · show t.ori.matrix.r0.x * v.x + t.ori.matrix.r0.y * v.y + t.ori.matrix.r0.z * v.z + t.pos.x * 1 = _
    rw [ex, mul_one]; rfl
  · show t.ori.matrix.r1.x * v.x + t.ori.matrix.r1.y * v.y + t.ori.matrix.r1.z * v.z + t.pos.y * 1 = _
    rw [ey, mul_one]; rfl
  · show t.ori.matrix.r2.x * v.x + t.ori.matrix.r2.y * v.y + t.ori.matrix.r2.z * v.z + t.pos.z * 1 = _
    rw [ez, mul_one]; rfl
  · show 0 * v.x + 0 * v.y + 0 * v.z + 1 * 1 = (1 : K)
    ring

/-- A direction is turned like by the orientation, and not moved. -/
theorem turns_directions {t : Trans K} (h : t.ori.lengthSq = 1) (mem : Nat → K) (v : V3 K) :
    Sends (t.toGL mem) v 0 (t.ori.rot v) 0 := by
  have e := matrix_act h v
  have ex := congrArg V3.x e
  have ey := congrArg V3.y e
  have ez := congrArg V3.z e
  simp only [M3.act] at ex ey ez
  refine ⟨?_, ?_, ?_, ?_⟩
  · show t.ori.matrix.r0.x * v.x + t.ori.matrix.r0.y * v.y + t.ori.matrix.r0.z * v.z + t.pos.x * 0 = _
    rw [ex, mul_zero, add_zero]
  · show t.ori.matrix.r1.x * v.x + t.ori.matrix.r1.y * v.y + t.ori.matrix.r1.z * v.z + t.pos.y * 0 = _
    rw [ey, mul_zero, add_zero]
  · show t.ori.matrix.r2.x * v.x + t.ori.matrix.r2.y * v.y + t.ori.matrix.r2.z * v.z + t.pos.z * 0 = _
    rw [ez, mul_zero, add_zero]
  · show 0 * v.x + 0 * v.y + 0 * v.z + 1 * 0 = (0 : K)
    ring

/-- The matrix of a composed transform is the product of the matrices. -/
theorem composes {t u : Trans K} (ht : t.ori.lengthSq = 1) (hu : u.ori.lengthSq = 1) (mem mem' mem'' : Nat → K) :
    IsProduct ((t.mul u).toGL mem) (t.toGL mem') (u.toGL mem'') := by
  have col (v : V3 K) : (t.ori.mul u.ori).matrix.act v = t.ori.matrix.act (u.ori.matrix.act v) := by
    rw [matrix_act (unit_mul ht hu), matrix_act ht, matrix_act hu, rot_mul]
  have c0 := col ⟨1, 0, 0⟩
  have c1 := col ⟨0, 1, 0⟩
  have c2 := col ⟨0, 0, 1⟩
  have c3 := matrix_act ht u.pos
  rw [trans_mul_eq]
  simp only [M3.act, mul_one, mul_zero, add_zero, zero_add, V3.mk.injEq] at c0 c1 c2
  have px := congrArg V3.x c3
  have py := congrArg V3.y c3
  have pz := congrArg V3.z c3
  simp only [M3.act] at px py pz
  intro i hi j hj
  interval_cases j <;> interval_cases i
  · simpa [Trans.toGL, poke, row] using c0.1
  · simpa [Trans.toGL, poke, row] using c0.2.1
  · simpa [Trans.toGL, poke, row] using c0.2.2
  · simp [Trans.toGL, poke, row]
  · simpa [Trans.toGL, poke, row] using c1.1
  · simpa [Trans.toGL, poke, row] using c1.2.1
  · simpa [Trans.toGL, poke, row] using c1.2.2
  · simp [Trans.toGL, poke, row]
  · simpa [Trans.toGL, poke, row] using c2.1
  · simpa [Trans.toGL, poke, row] using c2.2.1
  · simpa [Trans.toGL, poke, row] using c2.2.2
  · simp [Trans.toGL, poke, row]
  · simp [Trans.toGL, poke, row, px]
  · simp [Trans.toGL, poke, row, py]
  · simp [Trans.toGL, poke, row, pz]
  · simp [Trans.toGL, poke, row]

/-- Two unit quaternions with the same matrix are equal or opposite. -/
theorem same_matrix {p q : Quat K} (hp : p.lengthSq = 1) (hq : q.lengthSq = 1) (h : p.matrix = q.matrix) :
    p = q ∨ p = ⟨-q.x, -q.y, -q.z, -q.w⟩ := by
  rw [matrix_of_unit hp, matrix_of_unit hq] at h
  simp only [M3.of, M3.mk.injEq, V3.mk.injEq] at h
  obtain ⟨⟨a, b, c⟩, ⟨d, e, f⟩, g, i, j⟩ := h
  simp only [Quat.lengthSq] at hp hq
  have xx : p.x * p.x = q.x * q.x := by linarith
  have yy : p.y * p.y = q.y * q.y := by linarith
  have zz : p.z * p.z = q.z * q.z := by linarith
  have ww : p.w * p.w = q.w * q.w := by linarith
  have xy : p.x * p.y = q.x * q.y := by linarith
  have xz : p.x * p.z = q.x * q.z := by linarith
  have yz : p.y * p.z = q.y * q.z := by linarith
  have wx : p.w * p.x = q.w * q.x := by linarith
  have wy : p.w * p.y = q.w * q.y := by linarith
  have wz : p.w * p.z = q.w * q.z := by linarith
  have s : (p.x * q.x + p.y * q.y + p.z * q.z + p.w * q.w - 1) *
      (p.x * q.x + p.y * q.y + p.z * q.z + p.w * q.w + 1) = 0 := by
    linear_combination q.x * q.x * xx + q.y * q.y * yy + q.z * q.z * zz + q.w * q.w * ww +
      2 * q.x * q.y * xy + 2 * q.x * q.z * xz + 2 * q.y * q.z * yz + 2 * q.w * q.x * wx + 2 * q.w * q.y * wy +
      2 * q.w * q.z * wz + (q.x * q.x + q.y * q.y + q.z * q.z + q.w * q.w + 1) * hq
  rcases mul_eq_zero.1 s with s | s
  · left
    have n : (p.x - q.x) * (p.x - q.x) + (p.y - q.y) * (p.y - q.y) + (p.z - q.z) * (p.z - q.z) +
        (p.w - q.w) * (p.w - q.w) = 0 := by linear_combination hp + hq - 2 * s
    have nx := mul_self_nonneg (p.x - q.x)
    have ny := mul_self_nonneg (p.y - q.y)
    have nz := mul_self_nonneg (p.z - q.z)
    have nw := mul_self_nonneg (p.w - q.w)
    ext
    · exact sub_eq_zero.1 (mul_self_eq_zero.1 (by linarith))
    · exact sub_eq_zero.1 (mul_self_eq_zero.1 (by linarith))
    · exact sub_eq_zero.1 (mul_self_eq_zero.1 (by linarith))
    · exact sub_eq_zero.1 (mul_self_eq_zero.1 (by linarith))
  · right
    have n : (p.x + q.x) * (p.x + q.x) + (p.y + q.y) * (p.y + q.y) + (p.z + q.z) * (p.z + q.z) +
        (p.w + q.w) * (p.w + q.w) = 0 := by linear_combination hp + hq + 2 * s
    have nx := mul_self_nonneg (p.x + q.x)
    have ny := mul_self_nonneg (p.y + q.y)
    have nz := mul_self_nonneg (p.z + q.z)
    have nw := mul_self_nonneg (p.w + q.w)
    ext
    · exact eq_neg_of_add_eq_zero_left (mul_self_eq_zero.1 (by linarith))
    · exact eq_neg_of_add_eq_zero_left (mul_self_eq_zero.1 (by linarith))
    · exact eq_neg_of_add_eq_zero_left (mul_self_eq_zero.1 (by linarith))
    · exact eq_neg_of_add_eq_zero_left (mul_self_eq_zero.1 (by linarith))

theorem unit_ne_zero {q : Quat K} (h : q.lengthSq = 1) : q ≠ ⟨0, 0, 0, 0⟩ := by
  rintro rfl
  simp [Quat.lengthSq] at h

/-- The matrix of a transform is the matrix of a rigid motion. -/
theorem is_rigid {t : Trans K} (h : t.ori.lengthSq = 1) (mem : Nat → K) : Rigid (t.toGL mem) :=
  ⟨matrix_is_rotation (unit_ne_zero h), rfl, rfl, rfl, rfl⟩

/-- Reading the matrix of a transform gives the position exactly and the orientation up to the sign of the quaternion. -/
theorem read_back {sqrt : K → K} (hs : IsSqrt sqrt) {t : Trans K} (h : t.ori.lengthSq = 1) (mem : Nat → K) :
    (Trans.ofGL sqrt (t.toGL mem)).pos = t.pos ∧
    ((Trans.ofGL sqrt (t.toGL mem)).ori = t.ori ∨
     (Trans.ofGL sqrt (t.toGL mem)).ori = ⟨-t.ori.x, -t.ori.y, -t.ori.z, -t.ori.w⟩) := by
  have k := quaternion_of_matrix hs (matrix_is_rotation (unit_ne_zero h))
  exact ⟨rfl, same_matrix k.1 h k.2⟩

/-- Hence the transform that is read moves every point like the one that was written. -/
theorem read_back_acts {sqrt : K → K} (hs : IsSqrt sqrt) {t : Trans K} (h : t.ori.lengthSq = 1) (mem : Nat → K) (v : V3 K) :
    (Trans.ofGL sqrt (t.toGL mem)).act v = t.act v := by
  obtain ⟨p, o⟩ := read_back hs h mem
  simp only [Trans.act]
  rw [p]
  rcases o with o | o
  · rw [o]
  · rw [o]
    refine congrArg (· + t.pos) ?_
    simp only [Quat.rot, V3.mk.injEq]
    refine ⟨?_, ?_, ?_⟩ <;> ring

/-- A matrix of a rigid motion, from wherever it comes, is read as a transform with a unit quaternion, and writing this
transform gives the matrix again. -/
theorem write_back {sqrt : K → K} (hs : IsSqrt sqrt) {m : Nat → K} (h : Rigid m) (mem : Nat → K) :
    (Trans.ofGL sqrt m).ori.lengthSq = 1 ∧ ∀ i < 16, (Trans.ofGL sqrt m).toGL mem i = m i := by
  obtain ⟨r, h3, h7, h11, h15⟩ := h
  obtain ⟨k, e⟩ := quaternion_of_matrix hs r
  refine ⟨k, fun i hi => ?_⟩
  have e' : (Trans.ofGL sqrt m).ori.matrix = M3.of (m 0) (m 4) (m 8) (m 1) (m 5) (m 9) (m 2) (m 6) (m 10) := e
  interval_cases i
  · exact congrArg (fun a => a.r0.x) e'
  · exact congrArg (fun a => a.r1.x) e'
  · exact congrArg (fun a => a.r2.x) e'
  · exact h3.symm
  · exact congrArg (fun a => a.r0.y) e'
  · exact congrArg (fun a => a.r1.y) e'
  · exact congrArg (fun a => a.r2.y) e'
  · exact h7.symm
  · exact congrArg (fun a => a.r0.z) e'
  · exact congrArg (fun a => a.r1.z) e'
  · exact congrArg (fun a => a.r2.z) e'
  · exact h11.symm
  · rfl
  · rfl
  · rfl
  · exact h15.symm

omit [IsStrictOrderedRing K] in
/-- The last row and the scale are not looked at: the result depends on twelve of the sixteen numbers only. -/
theorem last_row_ignored (sqrt : K → K) {m m' : Nat → K} (h : ∀ i < 15, i % 4 ≠ 3 → m i = m' i) :
    Trans.ofGL sqrt m = Trans.ofGL sqrt m' := by
  simp only [Trans.ofGL]
  rw [h 0 (by decide) (by decide), h 1 (by decide) (by decide), h 2 (by decide) (by decide), h 4 (by decide) (by decide),
    h 5 (by decide) (by decide), h 6 (by decide) (by decide), h 8 (by decide) (by decide), h 9 (by decide) (by decide),
    h 10 (by decide) (by decide), h 12 (by decide) (by decide), h 13 (by decide) (by decide), h 14 (by decide) (by decide)]

/-- The matrix that enlarges everything by five. -/
def scaled : Nat → K := poke (poke (poke (poke (fun _ => 0) 0 5) 5 5) 10 5) 15 1

/-- A matrix with a scale is not refused, and its scale not dropped either: the orientation gets length two, so that it is
no orientation, and enlarges by four. -/
theorem scale_breaks {sqrt : K → K} (hs : IsSqrt sqrt) :
    (Trans.ofGL sqrt scaled).ori.lengthSq = 4 ∧ (Trans.ofGL sqrt scaled).act ⟨1, 0, 0⟩ = ⟨4, 0, 0⟩ := by
  have r : sqrt ((5 : K) + 5 + 5 + 1) = 4 := by
    obtain ⟨a, b⟩ := hs (5 + 5 + 5 + 1) (by norm_num)
    nlinarith
  have e : Trans.ofGL sqrt (scaled : Nat → K) = ⟨⟨0, 0, 0⟩, ⟨0, 0, 0, 2⟩⟩ := by
    have t : ¬ (5 : K) + 5 + 5 < 0 := by norm_num
    simp only [Trans.ofGL, scaled, poke, Quat.ofMatrix, M3.of, M3.trace]
    norm_num
    norm_num at r
    rw [r]; norm_num
  rw [e]
  constructor
  · norm_num [Quat.lengthSq]
  · ext <;> norm_num [Trans.act, Quat.rot]

end

/-- A transform that turns about an oblique axis and shifts: its matrix moves a point as the transform does. -/
example : (⟨1 / 2, 1 / 2, 1 / 2, 1 / 2⟩ : Quat ℚ).lengthSq = 1 ∧
    Sends ((⟨⟨10, 20, 30⟩, ⟨1 / 2, 1 / 2, 1 / 2, 1 / 2⟩⟩ : Trans ℚ).toGL fun _ => 7) ⟨1, 2, 3⟩ 1 ⟨13, 21, 32⟩ 1 := by
  refine ⟨by norm_num [Quat.lengthSq], ?_, ?_, ?_, ?_⟩ <;> decide +kernel

/-- The square root of the real numbers is one. -/
example : IsSqrt Real.sqrt := fun x h => ⟨Real.sqrt_nonneg x, Real.mul_self_sqrt h⟩

/-- A matrix of a rigid motion with a negative trace. -/
example : Rigid ((⟨⟨1, 2, 3⟩, ⟨1, 0, 0, 0⟩⟩ : Trans ℚ).toGL fun _ => 7) :=
  is_rigid (by norm_num [Quat.lengthSq]) _

end OpenGL
end RP3D
