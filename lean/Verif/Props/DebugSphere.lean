import Verif.Props.DebugGrid

/-! C131, spheres and capsules with the real trigonometric functions. -/

namespace RP3D
namespace Debug
open V3

/-- The exact trigonometric functions (a simplification: the code has `float` or `double` functions and thirteen digits of π). -/
noncomputable def realTrig : Trig ℝ := ⟨Real.sin, Real.cos, Real.pi⟩

section Faces
variable {K : Type} [Field K] [LinearOrder K]

theorem mem_indexed {v : Nat → V3 K} {c : Nat} {l : List (Nat × Nat × Nat)} {t : Tri K} :
    t ∈ indexed v c l ↔ ∃ f ∈ l, (⟨v f.1, v f.2.1, v f.2.2, c⟩ : Tri K) = t := by
  simp [indexed]

theorem mem_cell {S : Nat} {first second : Bool} {i j : Nat} {f : Nat × Nat × Nat} (h : f ∈ cell S first second i j) :
    (first = true ∧ f = (i * (S + 1) + j, i * (S + 1) + j + S + 1, i * (S + 1) + j + 1)) ∨
    (second = true ∧ f = (i * (S + 1) + j + 1, i * (S + 1) + j + S + 1, i * (S + 1) + j + S + 1 + 1)) := by
  cases first <;> cases second <;> simp_all [cell]

/-- The points of the triangles of a cell. -/
theorem cell_points {S : Nat} {first second : Bool} {i j : Nat} (hj : j < S) {f : Nat × Nat × Nat} (h : f ∈ cell S first second i j) (v : Nat → Nat → V3 K) :
    (first = true ∧ gridAt S v f.1 = v i j ∧ gridAt S v f.2.1 = v (i + 1) j ∧ gridAt S v f.2.2 = v i (j + 1)) ∨
    (second = true ∧ gridAt S v f.1 = v i (j + 1) ∧ gridAt S v f.2.1 = v (i + 1) j ∧ gridAt S v f.2.2 = v (i + 1) (j + 1)) := by
  have e1 : gridAt S v (i * (S + 1) + j) = v i j := gridAt_at S v i j (by omega)
  have e2 : gridAt S v (i * (S + 1) + j + 1) = v i (j + 1) := gridAt_at S v i (j + 1) (by omega)
  have e3 : gridAt S v (i * (S + 1) + j + S + 1) = v (i + 1) j := by
    rw [← gridAt_at S v (i + 1) j (by omega)]
    congr 1
    ring
  have e4 : gridAt S v (i * (S + 1) + j + S + 1 + 1) = v (i + 1) (j + 1) := by
    rw [← gridAt_at S v (i + 1) (j + 1) (by omega)]
    congr 1
    ring
  rcases mem_cell h with ⟨hb, rfl⟩ | ⟨hb, rfl⟩
  · exact .inl ⟨hb, e1, e3, e2⟩
  · exact .inr ⟨hb, e2, e3, e4⟩

/-- The triangles of a sphere. -/
theorem mem_sphere {S N c : Nat} {v : Nat → Nat → V3 K} {t : Tri K} (h : t ∈ indexed (gridAt S v) c (sphereFaces S N)) :
    ∃ i < N, ∃ j < S, (i ≠ 0 ∧ t = ⟨v i j, v (i + 1) j, v i (j + 1), c⟩) ∨ (i + 1 ≠ N ∧ t = ⟨v i (j + 1), v (i + 1) j, v (i + 1) (j + 1), c⟩) := by
  obtain ⟨f, hf, rfl⟩ := mem_indexed.1 h
  simp only [sphereFaces, List.mem_flatMap, List.mem_range] at hf
  obtain ⟨i, hi, j, hj, hf⟩ := hf
  refine ⟨i, hi, j, hj, ?_⟩
  rcases cell_points hj hf v with ⟨hb, e1, e2, e3⟩ | ⟨hb, e1, e2, e3⟩
  · exact .inl ⟨by simpa using hb, by rw [e1, e2, e3]⟩
  · refine .inr ⟨?_, by rw [e1, e2, e3]⟩
    have : i ≠ N - 1 := by simpa using hb
    omega

/-- The triangles of a capsule: both triangles of the cells of all rows, except at the poles. -/
theorem mem_capsule {S H c : Nat} {w : V3 K → V3 K} {v : Nat → Nat → V3 K} {t : Tri K} (hH : 1 ≤ H)
    (h : t ∈ indexed (fun k => w (gridAt S v k)) c (capsuleFaces S H)) :
    ∃ i < 2 * H + 1, ∃ j < S, (i ≠ 0 ∧ t = ⟨w (v i j), w (v (i + 1) j), w (v i (j + 1)), c⟩) ∨
      (i ≠ 2 * H ∧ t = ⟨w (v i (j + 1)), w (v (i + 1) j), w (v (i + 1) (j + 1)), c⟩) := by
  obtain ⟨f, hf, rfl⟩ := mem_indexed.1 h
  simp only [capsuleFaces, List.mem_append, List.mem_flatMap, List.mem_range] at hf
  rcases hf with (⟨i, hi, j, hj, hf⟩ | ⟨i, hi, j, hj, hf⟩) | ⟨j, hj, hf | hf⟩
  · refine ⟨i, by omega, j, hj, ?_⟩
    rcases cell_points hj hf v with ⟨hb, e1, e2, e3⟩ | ⟨hb, e1, e2, e3⟩
    · exact .inl ⟨by simpa using hb, by rw [e1, e2, e3]⟩
    · exact .inr ⟨by omega, by rw [e1, e2, e3]⟩
  · refine ⟨H + 1 + i, by omega, j, hj, ?_⟩
    rcases cell_points hj hf v with ⟨hb, e1, e2, e3⟩ | ⟨hb, e1, e2, e3⟩
    · exact .inl ⟨by omega, by rw [e1, e2, e3]⟩
    · refine .inr ⟨?_, by rw [e1, e2, e3]⟩
      have : i ≠ H - 1 := by simpa using hb
      omega
  · refine ⟨H, by omega, j, hj, ?_⟩
    rcases cell_points hj hf v with ⟨hb, e1, e2, e3⟩ | ⟨hb, e1, e2, e3⟩
    · simp at hb
    · exact .inr ⟨by omega, by rw [e1, e2, e3]⟩
  · refine ⟨H, by omega, j, hj, ?_⟩
    rcases cell_points hj hf v with ⟨hb, e1, e2, e3⟩ | ⟨hb, e1, e2, e3⟩
    · exact .inl ⟨by omega, by rw [e1, e2, e3]⟩
    · simp at hb

/-- Spec: the point is a vertex of a triangle of the list. -/
def Shown (l : List (Tri K)) (p : V3 K) : Prop := ∃ t ∈ l, t.a = p ∨ t.b = p ∨ t.c = p

/-- The cells of a sphere and of a capsule are drawn. -/
theorem first_in_sphere {S N c i j : Nat} {w : V3 K → V3 K} {v : Nat → Nat → V3 K} (hi : i < N) (h0 : i ≠ 0) (hj : j < S) :
    (⟨w (v i j), w (v (i + 1) j), w (v i (j + 1)), c⟩ : Tri K) ∈ indexed (fun k => w (gridAt S v k)) c (sphereFaces S N) := by
  have hm : (i * (S + 1) + j, i * (S + 1) + j + S + 1, i * (S + 1) + j + 1) ∈ cell S (i != 0) (i != N - 1) i j := by
    have : (i != 0) = true := by simpa using h0
    simp [cell, this]
  refine mem_indexed.2 ⟨(i * (S + 1) + j, i * (S + 1) + j + S + 1, i * (S + 1) + j + 1), ?_, ?_⟩
  · exact List.mem_flatMap.2 ⟨i, List.mem_range.2 hi, List.mem_flatMap.2 ⟨j, List.mem_range.2 hj, hm⟩⟩
  · have e3 : i * (S + 1) + j + S + 1 = (i + 1) * (S + 1) + j := by ring
    simp only [e3, gridAt_at S v i j (by omega), gridAt_at S v (i + 1) j (by omega), Nat.add_assoc (i * (S + 1)) j 1, gridAt_at S v i (j + 1) (by omega)]

theorem second_in_sphere {S N c i j : Nat} {w : V3 K → V3 K} {v : Nat → Nat → V3 K} (hi : i + 1 < N) (hj : j < S) :
    (⟨w (v i (j + 1)), w (v (i + 1) j), w (v (i + 1) (j + 1)), c⟩ : Tri K) ∈ indexed (fun k => w (gridAt S v k)) c (sphereFaces S N) := by
  have hm : (i * (S + 1) + j + 1, i * (S + 1) + j + S + 1, i * (S + 1) + j + S + 1 + 1) ∈ cell S (i != 0) (i != N - 1) i j := by
    have : (i != N - 1) = true := by simp; omega
    simp [cell, this]
  refine mem_indexed.2 ⟨(i * (S + 1) + j + 1, i * (S + 1) + j + S + 1, i * (S + 1) + j + S + 1 + 1), ?_, ?_⟩
  · exact List.mem_flatMap.2 ⟨i, List.mem_range.2 (by omega), List.mem_flatMap.2 ⟨j, List.mem_range.2 hj, hm⟩⟩
  · have e3 : i * (S + 1) + j + S + 1 = (i + 1) * (S + 1) + j := by ring
    simp only [e3, Nat.add_assoc _ j 1, gridAt_at S v (i + 1) j (by omega), gridAt_at S v i (j + 1) (by omega), gridAt_at S v (i + 1) (j + 1) (by omega)]

/-- Every point of a grid with a seam and poles is a vertex of a triangle of the sphere. -/
theorem sphere_shown {S N c : Nat} (hS : 1 ≤ S) (hN : 2 ≤ N) {w : V3 K → V3 K} {v : Nat → Nat → V3 K} (hseam : ∀ i, w (v i S) = w (v i 0))
    {i j : Nat} (hi : i ≤ N) (hj : j ≤ S) : Shown (indexed (fun k => w (gridAt S v k)) c (sphereFaces S N)) (w (v i j)) := by
  have main : ∀ j < S, Shown (indexed (fun k => w (gridAt S v k)) c (sphereFaces S N)) (w (v i j)) := by
    intro j hj
    by_cases h1 : i = N
    · obtain ⟨m, rfl⟩ : ∃ m, i = m + 1 := ⟨i - 1, by omega⟩
      exact ⟨_, first_in_sphere (by omega) (by omega : m ≠ 0) hj, .inr (.inl rfl)⟩
    by_cases h0 : i = 0
    · subst h0
      by_cases hj0 : j = 0
      · obtain ⟨m, rfl⟩ : ∃ m, S = m + 1 := ⟨S - 1, by omega⟩
        exact ⟨_, second_in_sphere (i := 0) (by omega) (by omega : m < m + 1), .inl (by rw [hj0]; exact hseam 0)⟩
      · obtain ⟨m, rfl⟩ : ∃ m, j = m + 1 := ⟨j - 1, by omega⟩
        exact ⟨_, second_in_sphere (i := 0) (by omega) (by omega : m < S), .inl rfl⟩
    · exact ⟨_, first_in_sphere (by omega) h0 hj, .inl rfl⟩
  rcases Nat.lt_or_eq_of_le hj with h | rfl
  · exact main j h
  · rw [hseam]
    exact main 0 (by omega)

/-- The faces of a capsule are those of a sphere with one more stack. -/
theorem sphere_sub_capsule {S H : Nat} (hH : 1 ≤ H) {f : Nat × Nat × Nat} (h : f ∈ sphereFaces S (2 * H + 1)) : f ∈ capsuleFaces S H := by
  simp only [sphereFaces, List.mem_flatMap, List.mem_range] at h
  obtain ⟨i, hi, j, hj, hf⟩ := h
  simp only [capsuleFaces, List.mem_append, List.mem_flatMap, List.mem_range]
  rcases Nat.lt_trichotomy i H with h | rfl | h
  · refine .inl (.inl ⟨i, h, j, hj, ?_⟩)
    have : (i != 2 * H + 1 - 1) = true := by simp; omega
    rwa [this] at hf
  · refine .inr ⟨j, hj, ?_⟩
    have h1 : (i != 2 * i + 1 - 1) = true := by simp; omega
    have h2 : (i != 0) = true := by simp; omega
    rw [h1, h2] at hf
    simp [cell] at hf ⊢
    tauto
  · refine .inl (.inr ⟨i - (H + 1), by omega, j, hj, ?_⟩)
    have h2 : (i != 0) = true := by simp; omega
    have h3 : (i != 2 * H + 1 - 1) = (i - (H + 1) != H - 1) := by
      rw [Bool.eq_iff_iff]
      simp
      omega
    have h4 : H + 1 + (i - (H + 1)) = i := by omega
    rwa [h2, h3, ← h4, Nat.add_sub_cancel_left] at hf

theorem capsule_shown {S H c : Nat} (hS : 1 ≤ S) (hH : 1 ≤ H) {w : V3 K → V3 K} {v : Nat → Nat → V3 K} (hseam : ∀ i, w (v i S) = w (v i 0))
    {i j : Nat} (hi : i ≤ 2 * H + 1) (hj : j ≤ S) : Shown (indexed (fun k => w (gridAt S v k)) c (capsuleFaces S H)) (w (v i j)) := by
  obtain ⟨t, ht, h⟩ := sphere_shown (c := c) hS (by omega : 2 ≤ 2 * H + 1) hseam hi hj
  obtain ⟨f, hf, rfl⟩ := mem_indexed.1 ht
  exact ⟨_, mem_indexed.2 ⟨f, sphere_sub_capsule hH hf, rfl⟩, h⟩

/-- The indices of the faces stay inside the part of the array `vertices` that has been written: `(NB_STACKS_SPHERE + 1) * (NB_SECTORS_SPHERE + 1)`
entries for a sphere, one row more for a capsule, which is the whole array. -/
theorem faces_in_array :
    (∀ f ∈ sphereFaces nbSectors nbStacks, f.1 < (nbStacks + 1) * (nbSectors + 1) ∧ f.2.1 < (nbStacks + 1) * (nbSectors + 1) ∧
      f.2.2 < (nbStacks + 1) * (nbSectors + 1)) ∧
    (∀ f ∈ capsuleFaces nbSectors (nbStacks / 2), f.1 < (nbStacks + 1) * (nbSectors + 1) + (nbSectors + 1) ∧
      f.2.1 < (nbStacks + 1) * (nbSectors + 1) + (nbSectors + 1) ∧ f.2.2 < (nbStacks + 1) * (nbSectors + 1) + (nbSectors + 1)) := by
  constructor <;> decide +kernel

end Faces

/-! ### Spheres -/

/-- The points of a grid, as angles. -/
theorem vertex_on_sphere (S N : Nat) (pos : V3 ℝ) (r : ℝ) (i j : Nat) : (sphereVertex realTrig S N pos r i j - pos).lengthSq = r * r := by
  simp only [sphereVertex, realTrig, lengthSq, sub_x, sub_y, sub_z, add_x, add_y, add_z]
  generalize Real.pi / 2 - (i : ℝ) * (Real.pi / N) = a
  generalize (j : ℝ) * (2 * Real.pi / S) = b
  have h1 := Real.sin_sq_add_cos_sq a
  have h2 := Real.sin_sq_add_cos_sq b
  linear_combination r * r * h1 + r * r * Real.cos a ^ 2 * h2

/-- Spec: the triangle shows its front (the side from which its vertices are in counterclockwise order) to the points away from `o`. -/
def Outward (o : V3 ℝ) (t : Tri ℝ) : Prop := 0 < ((t.b - t.a).cross (t.c - t.a)).dot (t.a - o)

section Angles
variable {N : Nat}

/-- The cosine of the angle of a stack between the poles is positive. -/
theorem cos_stack_pos (hN : 2 ≤ N) {i : Nat} (h0 : i ≠ 0) (h1 : i < N) : 0 < Real.cos (Real.pi / 2 - (i : ℝ) * (Real.pi / N)) := by
  rw [Real.cos_pi_div_two_sub]
  have hN' : (0 : ℝ) < N := by exact_mod_cast (by omega : 0 < N)
  have hi : (0 : ℝ) < i := by exact_mod_cast Nat.pos_of_ne_zero h0
  have hiN : (i : ℝ) < N := by exact_mod_cast h1
  apply Real.sin_pos_of_pos_of_lt_pi
  · have := Real.pi_pos
    positivity
  · rw [← mul_div_assoc, div_lt_iff₀ hN', mul_comm]
    exact mul_lt_mul_of_pos_left hiN Real.pi_pos

theorem cos_stack_nonneg (hN : 2 ≤ N) {i : Nat} (h1 : i ≤ N) : 0 ≤ Real.cos (Real.pi / 2 - (i : ℝ) * (Real.pi / N)) := by
  rw [Real.cos_pi_div_two_sub]
  have hN' : (0 : ℝ) < N := by exact_mod_cast (by omega : 0 < N)
  have hiN : (i : ℝ) ≤ N := by exact_mod_cast h1
  apply Real.sin_nonneg_of_nonneg_of_le_pi
  · have := Real.pi_pos
    positivity
  · rw [← mul_div_assoc, div_le_iff₀ hN', mul_comm]
    exact mul_le_mul_of_nonneg_left hiN Real.pi_pos.le

theorem sin_step (hN : 2 ≤ N) (i : Nat) :
    0 < Real.sin (Real.pi / 2 - (i : ℝ) * (Real.pi / N)) * Real.cos (Real.pi / 2 - ((i + 1 : Nat) : ℝ) * (Real.pi / N)) -
      Real.cos (Real.pi / 2 - (i : ℝ) * (Real.pi / N)) * Real.sin (Real.pi / 2 - ((i + 1 : Nat) : ℝ) * (Real.pi / N)) := by
  rw [← Real.sin_sub]
  have hN' : (2 : ℝ) ≤ N := by exact_mod_cast hN
  have e : Real.pi / 2 - (i : ℝ) * (Real.pi / N) - (Real.pi / 2 - ((i + 1 : Nat) : ℝ) * (Real.pi / N)) = Real.pi / N := by
    push_cast
    ring
  rw [e]
  have := Real.pi_pos
  apply Real.sin_pos_of_pos_of_lt_pi
  · positivity
  · rw [div_lt_iff₀ (by linarith)]
    nlinarith

theorem sector_step {S : Nat} (hS : 3 ≤ S) (j : Nat) :
    0 < Real.sin (((j + 1 : Nat) : ℝ) * (2 * Real.pi / S)) * Real.cos ((j : ℝ) * (2 * Real.pi / S)) -
      Real.cos (((j + 1 : Nat) : ℝ) * (2 * Real.pi / S)) * Real.sin ((j : ℝ) * (2 * Real.pi / S)) := by
  rw [← Real.sin_sub]
  have hS' : (3 : ℝ) ≤ S := by exact_mod_cast hS
  have e : ((j + 1 : Nat) : ℝ) * (2 * Real.pi / S) - (j : ℝ) * (2 * Real.pi / S) = 2 * Real.pi / S := by
    push_cast
    ring
  rw [e]
  have := Real.pi_pos
  apply Real.sin_pos_of_pos_of_lt_pi
  · positivity
  · rw [div_lt_iff₀ (by linarith)]
    nlinarith

theorem seam_angle {S : Nat} (hS : 3 ≤ S) : (S : ℝ) * (2 * Real.pi / S) = 2 * Real.pi := by
  have : (S : ℝ) ≠ 0 := by exact_mod_cast (by omega : S ≠ 0)
  field_simp

theorem cos_bottom (hN : 2 ≤ N) : Real.cos (Real.pi / 2 - (N : ℝ) * (Real.pi / N)) = 0 := by
  have : (N : ℝ) ≠ 0 := by exact_mod_cast (by omega : N ≠ 0)
  rw [Real.cos_pi_div_two_sub]
  have : (N : ℝ) * (Real.pi / N) = Real.pi := by field_simp
  rw [this, Real.sin_pi]

end Angles

/-- The seam and the poles of the grid of a sphere. -/
theorem sphere_seam {S N : Nat} (hS : 3 ≤ S) (pos : V3 ℝ) (r : ℝ) (i : Nat) : sphereVertex realTrig S N pos r i S = sphereVertex realTrig S N pos r i 0 := by
  simp only [sphereVertex, realTrig, seam_angle hS, Real.cos_two_pi, Real.sin_two_pi, Nat.cast_zero, zero_mul, Real.cos_zero, Real.sin_zero]

theorem sphere_top {S N : Nat} (pos : V3 ℝ) (r : ℝ) (j : Nat) : sphereVertex realTrig S N pos r 0 j = sphereVertex realTrig S N pos r 0 0 := by
  simp [sphereVertex, realTrig]

theorem sphere_bottom {S N : Nat} (hN : 2 ≤ N) (pos : V3 ℝ) (r : ℝ) (j : Nat) : sphereVertex realTrig S N pos r N j = sphereVertex realTrig S N pos r N 0 := by
  simp only [sphereVertex, realTrig, cos_bottom hN, mul_zero, zero_mul]

/-- The triangles of a grid on a sphere show their front to the outside. -/
theorem sphere_outward {S N c : Nat} (hS : 3 ≤ S) (hN : 2 ≤ N) (pos : V3 ℝ) {r : ℝ} (hr : 0 < r) {t : Tri ℝ}
    (h : t ∈ indexed (gridAt S (sphereVertex realTrig S N pos r)) c (sphereFaces S N)) : Outward pos t := by
  obtain ⟨i, hi, j, hj, ⟨h0, rfl⟩ | ⟨h0, rfl⟩⟩ := mem_sphere h
  · have hc := cos_stack_pos hN h0 hi
    have hd := sin_step hN i
    have hs := sector_step hS j
    simp only [Outward, sphereVertex, realTrig, dot, cross, sub_x, sub_y, sub_z, add_x, add_y, add_z]
    generalize Real.pi / 2 - (i : ℝ) * (Real.pi / N) = a at hc hd ⊢
    generalize Real.pi / 2 - ((i + 1 : Nat) : ℝ) * (Real.pi / N) = b at hd ⊢
    generalize (j : ℝ) * (2 * Real.pi / S) = x at hs ⊢
    generalize ((j + 1 : Nat) : ℝ) * (2 * Real.pi / S) = y at hs ⊢
    refine lt_of_lt_of_eq (mul_pos (mul_pos (pow_pos hr 3) (mul_pos hc hd)) hs) ?_
    ring
  · have hc := cos_stack_pos hN (Nat.succ_ne_zero i) (by omega : i + 1 < N)
    have hd := sin_step hN i
    have hs := sector_step hS j
    simp only [Outward, sphereVertex, realTrig, dot, cross, sub_x, sub_y, sub_z, add_x, add_y, add_z]
    generalize Real.pi / 2 - (i : ℝ) * (Real.pi / N) = a at hd ⊢
    generalize Real.pi / 2 - ((i + 1 : Nat) : ℝ) * (Real.pi / N) = b at hc hd ⊢
    generalize (j : ℝ) * (2 * Real.pi / S) = x at hs ⊢
    generalize ((j + 1 : Nat) : ℝ) * (2 * Real.pi / S) = y at hs ⊢
    refine lt_of_lt_of_eq (mul_pos (mul_pos (pow_pos hr 3) (mul_pos hc hd)) hs) ?_
    ring

/-- Spec: the point of the sphere at an elevation and a direction. -/
noncomputable def Spec.atAngles (r up turn : ℝ) : V3 ℝ := ⟨r * Real.cos up * Real.cos turn, r * Real.cos up * Real.sin turn, r * Real.sin up⟩

/-- C131: a drawn sphere is a closed surface of triangles; their vertices are on the sphere and they show their front to the outside. Every point whose
elevation is a multiple of 18° and whose direction is a multiple of 20° is a vertex. -/
theorem sphere_drawn (pos : V3 ℝ) (r : ℝ) (hr : 0 < r) (c : Nat) :
    Closed (drawSphere realTrig pos r c) ∧ (∀ t ∈ drawSphere realTrig pos r c, t.colour = c ∧ Outward pos t ∧
      (t.a - pos).lengthSq = r * r ∧ (t.b - pos).lengthSq = r * r ∧ (t.c - pos).lengthSq = r * r) ∧
    ∀ i : ℕ, i ≤ 10 → ∀ j : ℕ, j ≤ 18 → Shown (drawSphere realTrig pos r c) (pos + Spec.atAngles r (Real.pi / 2 - i * (Real.pi / 10)) (j * (2 * Real.pi / 18))) := by
  have hS : 3 ≤ nbSectors := by decide
  have hN : 2 ≤ nbStacks := by decide
  refine ⟨sphereFaces_closed nbSectors nbStacks hN c id _ (sphere_seam hS pos r) (sphere_top pos r) (sphere_bottom hN pos r), fun t ht => ?_, ?_⟩
  rotate_left
  · intro i hi j hj
    exact sphere_shown (w := id) (v := sphereVertex realTrig nbSectors nbStacks pos r) (by decide : 1 ≤ nbSectors) hN (sphere_seam hS pos r) hi hj
  refine ⟨?_, sphere_outward hS hN pos hr ht, ?_⟩
  · obtain ⟨f, _, rfl⟩ := mem_indexed.1 ht
    rfl
  · obtain ⟨i, hi, j, hj, ⟨_, rfl⟩ | ⟨_, rfl⟩⟩ := mem_sphere ht <;> exact ⟨vertex_on_sphere .., vertex_on_sphere .., vertex_on_sphere ..⟩

/-! ### Capsules -/

/-- Spec: the distance of the point to the segment between the centres of the caps is the radius. -/
def OnCapsule (r half : ℝ) (x : V3 ℝ) : Prop :=
  (half ≤ x.y ∧ (x - ⟨0, half, 0⟩).lengthSq = r * r) ∨ (x.y ≤ -half ∧ (x - ⟨0, -half, 0⟩).lengthSq = r * r) ∨
    (-half ≤ x.y ∧ x.y ≤ half ∧ x.x * x.x + x.z * x.z = r * r)

theorem sin_top {H : Nat} (hH : 1 ≤ H) {i : Nat} (h : i ≤ H) : 0 ≤ Real.sin (Real.pi / 2 - (i : ℝ) * (Real.pi / ((2 * H : Nat) : ℝ))) := by
  rw [Real.sin_pi_div_two_sub]
  have hH' : (0 : ℝ) < H := by exact_mod_cast (by omega : 0 < H)
  have hi : (i : ℝ) ≤ H := by exact_mod_cast h
  have hp := Real.pi_pos
  apply Real.cos_nonneg_of_neg_pi_div_two_le_of_le
  · have : 0 ≤ (i : ℝ) * (Real.pi / ((2 * H : Nat) : ℝ)) := by positivity
    linarith
  · push_cast
    rw [← mul_div_assoc, div_le_div_iff₀ (by positivity) (by norm_num)]
    nlinarith

theorem sin_low {H : Nat} (hH : 1 ≤ H) {k : Nat} (h : H ≤ k) (h2 : k ≤ 2 * H) : Real.sin (Real.pi / 2 - (k : ℝ) * (Real.pi / ((2 * H : Nat) : ℝ))) ≤ 0 := by
  rw [Real.sin_pi_div_two_sub]
  have hH' : (0 : ℝ) < H := by exact_mod_cast (by omega : 0 < H)
  have hi : (H : ℝ) ≤ k := by exact_mod_cast h
  have hi2 : (k : ℝ) ≤ 2 * H := by exact_mod_cast h2
  have hp := Real.pi_pos
  apply Real.cos_nonpos_of_pi_div_two_le_of_le
  · push_cast
    rw [← mul_div_assoc, div_le_div_iff₀ (by norm_num) (by positivity)]
    nlinarith
  · push_cast
    have : (k : ℝ) * (Real.pi / (2 * H)) ≤ Real.pi := by
      rw [← mul_div_assoc, div_le_iff₀ (by positivity)]
      nlinarith
    linarith

/-- The vertices are on the capsule. -/
theorem vertex_on_capsule {S H : Nat} (hH : 1 ≤ H) {r height : ℝ} (hr : 0 < r) {i : Nat} (hi : i ≤ 2 * H + 1) (j : Nat) :
    OnCapsule r (1 / 2 * height) (capsuleVertex realTrig S H r height i j) := by
  by_cases h : i ≤ H
  · left
    have hs := sin_top hH h
    simp only [capsuleVertex, realTrig, if_pos h, lengthSq, sub_x, sub_y, sub_z]
    generalize Real.pi / 2 - (i : ℝ) * (Real.pi / ((2 * H : Nat) : ℝ)) = a at hs ⊢
    generalize (j : ℝ) * (2 * Real.pi / S) = b
    have h1 := Real.sin_sq_add_cos_sq a
    have h2 := Real.sin_sq_add_cos_sq b
    refine ⟨by nlinarith, ?_⟩
    linear_combination r * r * h1 + r * r * Real.cos a ^ 2 * h2
  · right
    left
    have hs := sin_low hH (by omega : H ≤ H + (i - (H + 1))) (by omega)
    simp only [capsuleVertex, realTrig, if_neg h, lengthSq, sub_x, sub_y, sub_z]
    generalize Real.pi / 2 - ((H + (i - (H + 1)) : Nat) : ℝ) * (Real.pi / ((2 * H : Nat) : ℝ)) = a at hs ⊢
    generalize (j : ℝ) * (2 * Real.pi / S) = b
    have h1 := Real.sin_sq_add_cos_sq a
    have h2 := Real.sin_sq_add_cos_sq b
    refine ⟨by nlinarith, ?_⟩
    linear_combination r * r * h1 + r * r * Real.cos a ^ 2 * h2

theorem capsule_seam {S H : Nat} (hS : 3 ≤ S) (r height : ℝ) (i : Nat) :
    capsuleVertex realTrig S H r height i S = capsuleVertex realTrig S H r height i 0 := by
  simp only [capsuleVertex, realTrig, seam_angle hS, Real.cos_two_pi, Real.sin_two_pi, Nat.cast_zero, zero_mul, Real.cos_zero, Real.sin_zero]

theorem capsule_top {S H : Nat} (r height : ℝ) (j : Nat) : capsuleVertex realTrig S H r height 0 j = capsuleVertex realTrig S H r height 0 0 := by
  simp [capsuleVertex, realTrig]

theorem capsule_bottom {S H : Nat} (hH : 1 ≤ H) (r height : ℝ) (j : Nat) :
    capsuleVertex realTrig S H r height (2 * H + 1) j = capsuleVertex realTrig S H r height (2 * H + 1) 0 := by
  have h : ¬ 2 * H + 1 ≤ H := by omega
  have e : H + (2 * H + 1 - (H + 1)) = 2 * H := by omega
  simp only [capsuleVertex, realTrig, if_neg h, e, cos_bottom (by omega : 2 ≤ 2 * H), mul_zero, zero_mul]

/-- Moving a triangle does not turn it around. -/
theorem outward_moved {t : Trans ℝ} (ht : t.ori.lengthSq = 1) {a b c : V3 ℝ} {k : Nat} (h : Outward 0 ⟨a, b, c, k⟩) :
    Outward t.pos ⟨t.act a, t.act b, t.act c, k⟩ := by
  simp only [Outward] at h ⊢
  have e1 : ∀ p q : V3 ℝ, t.act p - t.act q = t.ori.rot (p - q) := fun p q => by
    ext <;> simp only [Trans.act, Quat.rot, sub_x, sub_y, sub_z, add_x, add_y, add_z] <;> ring
  have e2 : t.act a - t.pos = t.ori.rot a := by
    ext <;> simp only [Trans.act, sub_x, sub_y, sub_z, add_x, add_y, add_z] <;> ring
  have e3 : a - 0 = a := by ext <;> simp
  rw [e1, e1, e2, rot_cross ht, rot_dot ht]
  rwa [e3] at h

/-- The orientation of the two triangles of a cell of a capsule, with the height `e` of its cap. -/
theorem cap_first (r e f ca sa cb sb sx cx sy cy : ℝ) :
    (0 < ((⟨r * cb * sx, r * sb + f, r * cb * cx⟩ - ⟨r * ca * sx, r * sa + e, r * ca * cx⟩ : V3 ℝ).cross
      (⟨r * ca * sy, r * sa + e, r * ca * cy⟩ - ⟨r * ca * sx, r * sa + e, r * ca * cx⟩)).dot ⟨r * ca * sx, r * sa + e, r * ca * cx⟩) ↔
    0 < r ^ 2 * ca * (sy * cx - cy * sx) * (r * (sa * cb - ca * sb) + e * (cb - ca) + (e - f) * ca) := by
  simp only [dot, cross, sub_x, sub_y, sub_z]
  apply Eq.to_iff
  congr 1
  ring

theorem cap_second (r e f ca sa cb sb sx cx sy cy : ℝ) :
    (0 < ((⟨r * cb * sx, r * sb + f, r * cb * cx⟩ - ⟨r * ca * sy, r * sa + e, r * ca * cy⟩ : V3 ℝ).cross
      (⟨r * cb * sy, r * sb + f, r * cb * cy⟩ - ⟨r * ca * sy, r * sa + e, r * ca * cy⟩)).dot ⟨r * ca * sy, r * sa + e, r * ca * cy⟩) ↔
    0 < r ^ 2 * cb * (sy * cx - cy * sx) * (r * (sa * cb - ca * sb) + e * (cb - ca) + (e - f) * ca) := by
  simp only [dot, cross, sub_x, sub_y, sub_z]
  apply Eq.to_iff
  congr 1
  ring

theorem cos_up {H : Nat} (hH : 1 ≤ H) {i : Nat} (h : i < H) :
    Real.cos (Real.pi / 2 - (i : ℝ) * (Real.pi / ((2 * H : Nat) : ℝ))) ≤ Real.cos (Real.pi / 2 - ((i + 1 : Nat) : ℝ) * (Real.pi / ((2 * H : Nat) : ℝ))) := by
  rw [Real.cos_pi_div_two_sub, Real.cos_pi_div_two_sub]
  have hH' : (0 : ℝ) < H := by exact_mod_cast (by omega : 0 < H)
  have hi : ((i + 1 : Nat) : ℝ) ≤ H := by exact_mod_cast h
  have hp := Real.pi_pos
  apply Real.sin_le_sin_of_le_of_le_pi_div_two
  · have : 0 ≤ (i : ℝ) * (Real.pi / ((2 * H : Nat) : ℝ)) := by positivity
    linarith
  · push_cast at hi ⊢
    rw [← mul_div_assoc, div_le_div_iff₀ (by positivity) (by norm_num)]
    nlinarith
  · apply mul_le_mul_of_nonneg_right _ (by positivity)
    push_cast
    linarith

theorem cos_down {H : Nat} (hH : 1 ≤ H) {k : Nat} (h : H ≤ k) (h2 : k < 2 * H) :
    Real.cos (Real.pi / 2 - ((k + 1 : Nat) : ℝ) * (Real.pi / ((2 * H : Nat) : ℝ))) ≤ Real.cos (Real.pi / 2 - (k : ℝ) * (Real.pi / ((2 * H : Nat) : ℝ))) := by
  rw [Real.cos_pi_div_two_sub, Real.cos_pi_div_two_sub, ← Real.sin_pi_sub, ← Real.sin_pi_sub ((k : ℝ) * _)]
  have hH' : (0 : ℝ) < H := by exact_mod_cast (by omega : 0 < H)
  have hi : (H : ℝ) ≤ k := by exact_mod_cast h
  have hi2 : ((k + 1 : Nat) : ℝ) ≤ 2 * H := by exact_mod_cast h2
  have hp := Real.pi_pos
  apply Real.sin_le_sin_of_le_of_le_pi_div_two
  · push_cast at hi2 ⊢
    have : ((k : ℝ) + 1) * (Real.pi / (2 * H)) ≤ Real.pi := by
      rw [← mul_div_assoc, div_le_iff₀ (by positivity)]
      nlinarith
    linarith
  · push_cast
    have : Real.pi / 2 ≤ (k : ℝ) * (Real.pi / (2 * H)) := by
      rw [← mul_div_assoc, div_le_div_iff₀ (by norm_num) (by positivity)]
      nlinarith
    linarith
  · have : (k : ℝ) * (Real.pi / ((2 * H : Nat) : ℝ)) ≤ ((k + 1 : Nat) : ℝ) * (Real.pi / ((2 * H : Nat) : ℝ)) := by
      apply mul_le_mul_of_nonneg_right _ (by positivity)
      push_cast
      linarith
    linarith

/-- The two triangles of a cell of a capsule show their front to the outside. -/
theorem capsule_cell {S H : Nat} (hS : 3 ≤ S) (hH : 1 ≤ H) {r height : ℝ} (hr : 0 < r) (hh : 0 < height) {i : Nat} (hi : i < 2 * H + 1) (j k : Nat) :
    (i ≠ 0 → Outward 0 ⟨capsuleVertex realTrig S H r height i j, capsuleVertex realTrig S H r height (i + 1) j,
      capsuleVertex realTrig S H r height i (j + 1), k⟩) ∧
    (i ≠ 2 * H → Outward 0 ⟨capsuleVertex realTrig S H r height i (j + 1), capsuleVertex realTrig S H r height (i + 1) j,
      capsuleVertex realTrig S H r height (i + 1) (j + 1), k⟩) := by
  have hs := sector_step hS j
  have e3 : ∀ a : V3 ℝ, a - 0 = a := fun a => by ext <;> simp
  simp only [Outward, e3]
  rcases Nat.lt_trichotomy i H with h | rfl | h
  · have hd := sin_step (by omega : 2 ≤ 2 * H) i
    have hm := cos_up hH h
    have p1 : i ≤ H := by omega
    have p2 : i + 1 ≤ H := by omega
    have hX : ∀ x : ℝ, 0 < r * x → ∀ y : ℝ, 0 ≤ y → ∀ z, 0 < r * x + 1 / 2 * height * y + (1 / 2 * height - 1 / 2 * height) * z := fun x hx y hy z => by
      have : 0 ≤ 1 / 2 * height * y := by positivity
      rw [sub_self, zero_mul]
      linarith
    constructor
    · intro h0
      have hc := cos_stack_pos (by omega : 2 ≤ 2 * H) h0 (by omega)
      simp only [capsuleVertex, realTrig, if_pos p1, if_pos p2]
      rw [cap_first _ _ _ _ _ _ _ _ _ _ _]
      exact mul_pos (mul_pos (mul_pos (pow_pos hr 2) hc) hs) (hX _ (mul_pos hr hd) _ (sub_nonneg.2 hm) _)
    · intro h0
      have hc := cos_stack_pos (by omega : 2 ≤ 2 * H) (Nat.succ_ne_zero i) (by omega)
      simp only [capsuleVertex, realTrig, if_pos p1, if_pos p2]
      rw [cap_second _ _ _ _ _ _ _ _ _ _ _]
      exact mul_pos (mul_pos (mul_pos (pow_pos hr 2) hc) hs) (hX _ (mul_pos hr hd) _ (sub_nonneg.2 hm) _)
  · have p2 : ¬ i + 1 ≤ i := by omega
    have e : i + (i + 1 - (i + 1)) = i := by omega
    have hc := cos_stack_pos (by omega : 2 ≤ 2 * i) (by omega : i ≠ 0) (by omega)
    have hX : ∀ x y : ℝ, 0 < y → 0 < r * (x * y - y * x) + 1 / 2 * height * (y - y) + (1 / 2 * height - -(1 / 2 * height)) * y := fun x y hy => by
      have := mul_pos hh hy
      linarith
    constructor
    · intro h0
      simp only [capsuleVertex, realTrig, if_pos (Nat.le_refl i), if_neg p2, e, sub_eq_add_neg _ (1 / 2 * height)]
      rw [cap_first _ _ _ _ _ _ _ _ _ _ _]
      exact mul_pos (mul_pos (mul_pos (pow_pos hr 2) hc) hs) (hX _ _ hc)
    · intro h0
      simp only [capsuleVertex, realTrig, if_pos (Nat.le_refl i), if_neg p2, e, sub_eq_add_neg _ (1 / 2 * height)]
      rw [cap_second _ _ _ _ _ _ _ _ _ _ _]
      exact mul_pos (mul_pos (mul_pos (pow_pos hr 2) hc) hs) (hX _ _ hc)
  · obtain ⟨m, rfl⟩ : ∃ m, i = m + 1 := ⟨i - 1, by omega⟩
    have p1 : ¬ m + 1 ≤ H := by omega
    have p2 : ¬ m + 1 + 1 ≤ H := by omega
    have e1 : H + (m + 1 - (H + 1)) = m := by omega
    have e2 : H + (m + 1 + 1 - (H + 1)) = m + 1 := by omega
    have hd := sin_step (by omega : 2 ≤ 2 * H) m
    have hm := cos_down hH (by omega : H ≤ m) (by omega)
    have hX : ∀ x : ℝ, 0 < r * x → ∀ y : ℝ, y ≤ 0 → ∀ z, 0 < r * x + -(1 / 2 * height) * y + (-(1 / 2 * height) - -(1 / 2 * height)) * z := fun x hx y hy z => by
      have : 0 ≤ -(1 / 2 * height) * y := by nlinarith
      rw [sub_self, zero_mul]
      linarith
    constructor
    · intro h0
      have hc := cos_stack_pos (by omega : 2 ≤ 2 * H) (by omega : m ≠ 0) (by omega)
      simp only [capsuleVertex, realTrig, if_neg p1, if_neg p2, e1, e2, sub_eq_add_neg _ (1 / 2 * height)]
      rw [cap_first _ _ _ _ _ _ _ _ _ _ _]
      exact mul_pos (mul_pos (mul_pos (pow_pos hr 2) hc) hs) (hX _ (mul_pos hr hd) _ (sub_nonpos.2 hm) _)
    · intro h0
      have hc := cos_stack_pos (by omega : 2 ≤ 2 * H) (Nat.succ_ne_zero m) (by omega)
      simp only [capsuleVertex, realTrig, if_neg p1, if_neg p2, e1, e2, sub_eq_add_neg _ (1 / 2 * height)]
      rw [cap_second _ _ _ _ _ _ _ _ _ _ _]
      exact mul_pos (mul_pos (mul_pos (pow_pos hr 2) hc) hs) (hX _ (mul_pos hr hd) _ (sub_nonpos.2 hm) _)

/-- C131: a drawn capsule is a closed surface of triangles; their vertices are on the capsule and they show their front to the outside. Every point of
the caps whose elevation is a multiple of 18° and whose direction is a multiple of 20° is a vertex. -/
theorem capsule_drawn (t : Trans ℝ) (ht : t.ori.lengthSq = 1) (r height : ℝ) (hr : 0 < r) (hh : 0 < height) (c : Nat) :
    Closed (drawCapsule realTrig t r height c) ∧ (∀ x ∈ drawCapsule realTrig t r height c, x.colour = c ∧ Outward t.pos x ∧
      (∃ p, OnCapsule r (1 / 2 * height) p ∧ x.a = t.act p) ∧ (∃ p, OnCapsule r (1 / 2 * height) p ∧ x.b = t.act p) ∧
      (∃ p, OnCapsule r (1 / 2 * height) p ∧ x.c = t.act p)) ∧
    ∀ i : ℕ, i ≤ 5 → ∀ j : ℕ, j ≤ 18 → ∃ p, p = Spec.atAngles r (i * (Real.pi / 10)) (j * (2 * Real.pi / 18)) ∧
      Shown (drawCapsule realTrig t r height c) (t.act ⟨p.y, p.z + 1 / 2 * height, p.x⟩) ∧
      Shown (drawCapsule realTrig t r height c) (t.act ⟨p.y, -p.z - 1 / 2 * height, p.x⟩) := by
  have hS : 3 ≤ nbSectors := by decide
  have hH : 1 ≤ nbStacks / 2 := by decide
  refine ⟨capsuleFaces_closed nbSectors (nbStacks / 2) hH c t.act _ (fun i => congrArg t.act (capsule_seam hS r height i))
    (fun j => congrArg t.act (capsule_top r height j)) (fun j => congrArg t.act (capsule_bottom hH r height j)), fun x hx => ?_, ?_⟩
  rotate_left
  · intro i hi j hj
    refine ⟨_, rfl, ?_, ?_⟩
    · have e : capsuleVertex realTrig nbSectors (nbStacks / 2) r height (5 - i) j = ⟨(Spec.atAngles r (i * (Real.pi / 10)) (j * (2 * Real.pi / 18))).y,
          (Spec.atAngles r (i * (Real.pi / 10)) (j * (2 * Real.pi / 18))).z + 1 / 2 * height, (Spec.atAngles r (i * (Real.pi / 10)) (j * (2 * Real.pi / 18))).x⟩ := by
        have h5 : 5 - i ≤ nbStacks / 2 := by simp [nbStacks]
        have ha : Real.pi / 2 - ((5 - i : Nat) : ℝ) * (Real.pi / ((2 * (nbStacks / 2) : Nat) : ℝ)) = i * (Real.pi / 10) := by
          rw [Nat.cast_sub hi]
          norm_num [nbStacks]
          ring
        simp only [capsuleVertex, if_pos h5, realTrig, ha, Spec.atAngles]
        norm_num [nbSectors]
      rw [← e]
      exact capsule_shown (w := t.act) (v := capsuleVertex realTrig nbSectors (nbStacks / 2) r height) (by decide : 1 ≤ nbSectors) hH (fun i => congrArg t.act (capsule_seam hS r height i)) (by simp [nbStacks]; omega) hj
    · have e : capsuleVertex realTrig nbSectors (nbStacks / 2) r height (6 + i) j = ⟨(Spec.atAngles r (i * (Real.pi / 10)) (j * (2 * Real.pi / 18))).y,
          -(Spec.atAngles r (i * (Real.pi / 10)) (j * (2 * Real.pi / 18))).z - 1 / 2 * height, (Spec.atAngles r (i * (Real.pi / 10)) (j * (2 * Real.pi / 18))).x⟩ := by
        have h5 : ¬ 6 + i ≤ nbStacks / 2 := by simp [nbStacks]; omega
        have hn : nbStacks / 2 + (6 + i - (nbStacks / 2 + 1)) = 5 + i := by simp [nbStacks]
        have ha : Real.pi / 2 - ((5 + i : Nat) : ℝ) * (Real.pi / ((2 * (nbStacks / 2) : Nat) : ℝ)) = -(i * (Real.pi / 10)) := by
          push_cast
          norm_num [nbStacks]
          ring
        simp only [capsuleVertex, if_neg h5, hn, realTrig, ha, Spec.atAngles, Real.cos_neg, Real.sin_neg, mul_neg]
        norm_num [nbSectors]
      rw [← e]
      exact capsule_shown (w := t.act) (v := capsuleVertex realTrig nbSectors (nbStacks / 2) r height) (by decide : 1 ≤ nbSectors) hH (fun i => congrArg t.act (capsule_seam hS r height i)) (by simp [nbStacks]; omega) hj
  refine ⟨?_, ?_, ?_⟩
  · obtain ⟨f, _, rfl⟩ := mem_indexed.1 hx
    rfl
  · obtain ⟨i, hi, j, hj, ⟨h0, rfl⟩ | ⟨h0, rfl⟩⟩ := mem_capsule hH hx
    · exact outward_moved ht ((capsule_cell hS hH hr hh hi j c).1 h0)
    · exact outward_moved ht ((capsule_cell hS hH hr hh hi j c).2 h0)
  · obtain ⟨i, hi, j, hj, ⟨_, rfl⟩ | ⟨_, rfl⟩⟩ := mem_capsule hH hx <;>
      exact ⟨⟨_, vertex_on_capsule hH hr (by omega) _, rfl⟩, ⟨_, vertex_on_capsule hH hr (by omega) _, rfl⟩, ⟨_, vertex_on_capsule hH hr (by omega) _, rfl⟩⟩

end Debug
end RP3D
