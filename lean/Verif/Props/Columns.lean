import Verif.Engine.Columns

/-! Property theorem C15: layout of the component tables. -/

namespace RP3D

/-- **C15.** For each of the nine tables, every size of the column types, every number of components and every aligned
buffer address, the columns are 16-byte aligned, inside of the requested buffer, and follow each other without overlap. -/
theorem columns_disjoint_in_buffer (t : Table) (ht : t ∈ allTables) (sz : ColTy → Nat) (n base : Nat) (hb : base % 16 = 0) :
    (t.starts sz n base).length = t.columns.length ∧
    (∀ (j : Nat) (a : Nat) (ty : ColTy), (t.starts sz n base)[j]? = some a → t.columns[j]? = some ty →
      a % 16 = 0 ∧ base ≤ a ∧ a + n * sz ty ≤ base + t.bytes sz n) ∧
    (∀ (i j : Nat) (a b : Nat) (ty : ColTy), i < j → (t.starts sz n base)[i]? = some a → t.columns[i]? = some ty →
      (t.starts sz n base)[j]? = some b → a + n * sz ty ≤ b) := by
  have hm : t.sizeofs.Perm t.columns ∧ t.margins = t.columns.length := by
    have hall : ∀ t ∈ allTables, t.sizeofs = t.columns ∧ t.margins = t.columns.length := by decide
    exact ⟨(hall t ht).1 ▸ List.Perm.refl _, (hall t ht).2⟩
  obtain ⟨h1, h2, h3⟩ := columnStarts_spec n (t.columns.map sz) base hb
  refine ⟨by simp [Table.starts, columnStarts_length], ?_, ?_⟩
  · intro j a ty hj hty
    have ha := h1 a (List.mem_of_getElem? hj)
    refine ⟨ha.1, ha.2, ?_⟩
    have := h2 j a (sz ty) hj (by simp [hty])
    unfold Table.bytes totalSizeBytes
    rw [(hm.1.map sz).sum_eq, hm.2]
    simp only [List.length_map] at this
    omega
  · intro i j a b ty hij hi hty hj
    exact h3 i j a b (sz ty) hij hi (by simp [hty]) hj

/-- The addresses for the joint table, with 16 components at address 4096 on a 64-bit machine. -/
example : jointTable.starts (fun ty => match ty with | .pointer => 8 | .bool => 1 | _ => 4) 16 4096 =
    [4096, 4176, 4256, 4336, 4480, 4560, 4640, 4672] := by decide +kernel

/-- The `memcpy` calls of `allocate` when the table grows from capacity `n` at `old` to capacity `n'` at `new`. -/
def Table.grow {B : Type} (t : Table) (sz : ColTy → Nat) (nb n n' old new : Nat) (mem : Nat → B) : Nat → B :=
  copyColumns nb ((t.starts sz n' new).zip ((t.starts sz n old).zip (t.copied.map sz))) mem

/-- What is copied of a column: the column, or less. -/
theorem copied_le (sz : ColTy → Nat) (hs : sz .decimal ≤ sz .vector3) (t : Table) (ht : t ∈ allTables) (j : Nat) (c ty : ColTy)
    (h1 : t.copied[j]? = some c) (h2 : t.columns[j]? = some ty) : sz c ≤ sz ty := by
  have h : ∀ t ∈ allTables, ∀ q ∈ t.copied.zip t.columns, q.1 = q.2 ∨ q = (.decimal, .vector3) := by decide
  have hq : (c, ty) ∈ t.copied.zip t.columns := List.mem_iff_getElem?.2 ⟨j, by rw [List.getElem?_zip_eq_some]; exact ⟨h1, h2⟩⟩
  rcases h t ht _ hq with e | e
  · rw [show c = ty from e]
  · rw [(Prod.mk.inj e).1, (Prod.mk.inj e).2]; exact hs

section
variable {B : Type} (t : Table) (ht : t ∈ allTables) (sz : ColTy → Nat) (hs : sz .decimal ≤ sz .vector3) (nb n n' old new : Nat)
  (hold : old % 16 = 0) (hnew : new % 16 = 0) (hn : nb ≤ n) (hn' : nb ≤ n') (hdisj : old + t.bytes sz n ≤ new ∨ new + t.bytes sz n' ≤ old)
include ht hs hold hnew hn hn' hdisj

theorem copies_apart :
    (∀ c ∈ (t.starts sz n' new).zip ((t.starts sz n old).zip (t.copied.map sz)), ∃ (i : Nat) (ty co : ColTy), t.columns[i]? = some ty ∧
      t.copied[i]? = some co ∧ (t.starts sz n' new)[i]? = some c.1 ∧ (t.starts sz n old)[i]? = some c.2.1 ∧ c.2.2 = sz co ∧ nb * sz co ≤ nb * sz ty) ∧
    (∀ c ∈ (t.starts sz n' new).zip ((t.starts sz n old).zip (t.copied.map sz)), ∀ c' ∈ (t.starts sz n' new).zip ((t.starts sz n old).zip (t.copied.map sz)),
      ∀ x, x < nb * c.2.2 → ¬ (c'.1 ≤ c.2.1 + x ∧ c.2.1 + x < c'.1 + nb * c'.2.2)) ∧
    ((t.starts sz n' new).zip ((t.starts sz n old).zip (t.copied.map sz))).Pairwise (fun c c' => c.1 + nb * c.2.2 ≤ c'.1) := by
  obtain ⟨o1, o2, o3⟩ := columns_disjoint_in_buffer t ht sz n old hold
  obtain ⟨w1, w2, w3⟩ := columns_disjoint_in_buffer t ht sz n' new hnew
  have hlen : t.copied.length = t.columns.length := by
    have : ∀ t ∈ allTables, t.copied.length = t.columns.length := by decide
    exact this t ht
  have hmem : ∀ (i : Nat) (c : Nat × Nat × Nat), ((t.starts sz n' new).zip ((t.starts sz n old).zip (t.copied.map sz)))[i]? = some c →
      ∃ (ty co : ColTy), t.columns[i]? = some ty ∧ t.copied[i]? = some co ∧ (t.starts sz n' new)[i]? = some c.1 ∧
        (t.starts sz n old)[i]? = some c.2.1 ∧ c.2.2 = sz co ∧ nb * sz co ≤ nb * sz ty := by
    intro i c hi
    rw [List.getElem?_zip_eq_some, List.getElem?_zip_eq_some, List.getElem?_map] at hi
    obtain ⟨g1, g2, g3⟩ := hi
    obtain ⟨co, g4, g5⟩ := Option.map_eq_some_iff.1 g3
    have hi' : i < t.columns.length := by rw [← hlen]; exact (List.getElem?_eq_some_iff.1 g4).1
    exact ⟨t.columns[i], co, List.getElem?_eq_getElem hi', g4, g1, g2, g5.symm,
      Nat.mul_le_mul_left _ (copied_le sz hs t ht i co _ g4 (List.getElem?_eq_getElem hi'))⟩
  have hle : ∀ ty, nb * sz ty ≤ n * sz ty ∧ nb * sz ty ≤ n' * sz ty := fun ty =>
    ⟨Nat.mul_le_mul_right _ hn, Nat.mul_le_mul_right _ hn'⟩
  refine ⟨?_, ?_, ?_⟩
  · intro c hc
    obtain ⟨i, hi⟩ := List.mem_iff_getElem?.1 hc
    obtain ⟨ty, co, h⟩ := hmem i c hi
    exact ⟨i, ty, co, h⟩
  · intro c hc c' hc' y hy hh
    obtain ⟨i, hi⟩ := List.mem_iff_getElem?.1 hc
    obtain ⟨i', hi'⟩ := List.mem_iff_getElem?.1 hc'
    obtain ⟨ty1, co1, a1, _, a2, a3, a4, a5⟩ := hmem i c hi
    obtain ⟨ty2, co2, b1, _, b2, b3, b4, b5⟩ := hmem i' c' hi'
    have e1 := o2 i _ ty1 a3 a1
    have e2 := w2 i' _ ty2 b2 b1
    rw [a4] at hy
    rw [b4] at hh
    have := (hle ty1).1
    have := (hle ty2).2
    omega
  · rw [List.pairwise_iff_getElem]
    intro i k hi hk hik
    obtain ⟨ty1, co1, a1, _, a2, a3, a4, a5⟩ := hmem i _ (List.getElem?_eq_getElem hi)
    obtain ⟨ty2, co2, b1, _, b2, b3, b4, b5⟩ := hmem k _ (List.getElem?_eq_getElem hk)
    have := w3 i k _ _ ty1 hik a2 a1 b2
    have := (hle ty1).2
    rw [a4]; omega

/-- **C15, partial.** Growing a table preserves every stored byte of every column that is copied with the size of its type: when the columns of `nb`
live components are copied from the old buffer (capacity `n`) to a new, disjoint buffer with capacity `n' ≥ nb`, such a column has the same content
in the new buffer. Missing: the six columns of `slider_levers_lost`; `copied_whole` says that there are no others. -/
theorem columns_copied_on_growth_partial (mem : Nat → B) (j : Nat) (src dst : Nat) (ty : ColTy) (h1 : (t.starts sz n old)[j]? = some src)
    (h2 : (t.starts sz n' new)[j]? = some dst) (h3 : t.columns[j]? = some ty) (h4 : t.copied[j]? = some ty) (x : Nat) (hx : x < nb * sz ty) :
    t.grow sz nb n n' old new mem (dst + x) = mem (src + x) := by
  obtain ⟨_, k2, k3⟩ := copies_apart t ht sz hs nb n n' old new hold hnew hn hn' hdisj
  refine copyColumns_value nb _ mem k2 k3 (dst, src, sz ty) ?_ x hx
  apply List.mem_iff_getElem?.2
  refine ⟨j, ?_⟩
  rw [List.getElem?_zip_eq_some, List.getElem?_zip_eq_some]
  exact ⟨h2, h1, by simp [h4]⟩

/-- What lies in a column of the new buffer behind the bytes that are copied is what was in the new memory before. -/
theorem rest_of_column_garbage (mem : Nat → B) (j : Nat) (dst : Nat) (ty co : ColTy) (h2 : (t.starts sz n' new)[j]? = some dst)
    (h3 : t.columns[j]? = some ty) (h4 : t.copied[j]? = some co) (x : Nat) (hx : nb * sz co ≤ x) (hx' : x < nb * sz ty) :
    t.grow sz nb n n' old new mem (dst + x) = mem (dst + x) := by
  obtain ⟨w1, w2, w3⟩ := columns_disjoint_in_buffer t ht sz n' new hnew
  obtain ⟨k1, _, _⟩ := copies_apart t ht sz hs nb n n' old new hold hnew hn hn' hdisj
  refine copyColumns_outside nb _ mem (dst + x) fun c hc hh => ?_
  obtain ⟨i, ty1, co1, a1, a0, a2, a3, a4, a5⟩ := k1 c hc
  have e1 : nb * sz ty1 ≤ n' * sz ty1 := Nat.mul_le_mul_right _ hn'
  have e2 : nb * sz ty ≤ n' * sz ty := Nat.mul_le_mul_right _ hn'
  rw [a4] at hh
  rcases Nat.lt_trichotomy i j with h | h | h
  · have := w3 i j _ _ ty1 h a2 a1 h2
    omega
  · subst h
    rw [h2] at a2
    rw [h4] at a0
    have := Option.some.inj a2
    have := Option.some.inj a0
    subst this
    omega
  · have := w3 j i _ _ ty h h2 h3 a2
    omega

end

/-- All columns are copied with the size of their type, but for the last six of the slider table. -/
theorem copied_whole (t : Table) (ht : t ∈ allTables) (j : Nat) (hj : t ≠ sliderTable ∨ j < 34) : t.copied[j]? = t.columns[j]? := by
  have h : ∀ t ∈ allTables, t ≠ sliderTable → t.copied = t.columns := by decide
  by_cases e : t = sliderTable
  · subst e
    have hj' : j < 34 := hj.resolve_left fun h => h rfl
    have : ∀ j < 34, sliderTable.copied[j]? = sliderTable.columns[j]? := by decide
    exact this j hj'
  · rw [h t ht e]

/-- **C15 fails.** When the table of the sliders grows (because the user creates another slider), the vectors `mR2CrossN1`, ...,
`mR1PlusUCrossSliderAxis` are copied with `sizeof(decimal)` (SliderJointComponents.cpp:188-193): whatever the sizes of the types and the number `nb` of
sliders, the bytes from `nb * sizeof(decimal)` on are those that happen to be in the new memory. `mR2CrossSliderAxis` is read by the next step before it
is computed again (SolveSliderJointSystem.cpp:128). -/
theorem slider_levers_lost {B : Type} (sz : ColTy → Nat) (hs : sz .decimal ≤ sz .vector3) (nb n n' old new : Nat) (hold : old % 16 = 0) (hnew : new % 16 = 0)
    (hn : nb ≤ n) (hn' : nb ≤ n') (hdisj : old + sliderTable.bytes sz n ≤ new ∨ new + sliderTable.bytes sz n' ≤ old) (mem : Nat → B) (j : Nat)
    (hj : 34 ≤ j) (hj' : j < 40) (dst : Nat) (h2 : (sliderTable.starts sz n' new)[j]? = some dst) (x : Nat) (hx : nb * sz .decimal ≤ x)
    (hx' : x < nb * sz .vector3) : sliderTable.grow sz nb n n' old new mem (dst + x) = mem (dst + x) := by
  have h : ∀ j < 40, 34 ≤ j → sliderTable.columns[j]? = some .vector3 ∧ sliderTable.copied[j]? = some .decimal := by decide
  obtain ⟨a, b⟩ := h j hj' hj
  exact rest_of_column_garbage sliderTable (by decide) sz hs nb n n' old new hold hnew hn hn' hdisj mem j dst _ _ h2 a b x hx hx'

/-- Sizes of the types on a 64-bit machine with single precision. -/
def size64 : ColTy → Nat
  | .entity => 4 | .pointer => 8 | .vector3 => 12 | .vector2 => 8 | .matrix3 => 36 | .matrix2 => 16 | .quaternion => 16 | .transform => 28
  | .decimal => 4 | .bool => 1 | .array => 32 | .i32 => 4 | .u16 => 2 | .bodyType => 4 | .jointType => 4 | .correction => 4 | .material => 12

/-- With 16 sliders and a table that grows to 32 the memory of the second slider's lever changes. -/
theorem slider_levers_lost_negates : ¬ ∀ (t : Table), t ∈ allTables → ∀ (nb n n' old new : Nat), old % 16 = 0 → new % 16 = 0 → nb ≤ n → nb ≤ n' →
    old + t.bytes size64 n ≤ new → ∀ (mem : Nat → Bool) (j src dst : Nat) (ty : ColTy), (t.starts size64 n old)[j]? = some src →
    (t.starts size64 n' new)[j]? = some dst → t.columns[j]? = some ty → ∀ x < nb * size64 ty,
    t.grow size64 nb n n' old new mem (dst + x) = mem (src + x) := by
  intro h
  obtain ⟨src, hsrc⟩ : ∃ a, (sliderTable.starts size64 16 4096)[36]? = some a := Option.isSome_iff_exists.1 (by decide +kernel)
  obtain ⟨dst, hdst⟩ : ∃ a, (sliderTable.starts size64 32 65536)[36]? = some a := Option.isSome_iff_exists.1 (by decide +kernel)
  have hd : 4096 + sliderTable.bytes size64 16 ≤ 65536 := by decide +kernel
  have h1 := h sliderTable (by decide) 16 16 32 4096 65536 rfl rfl (by decide) (by decide) hd (fun a => decide (a < 65536)) 36 src dst .vector3 hsrc hdst
    (by decide) 64 (by decide)
  have h2 := slider_levers_lost size64 (by decide) 16 16 32 4096 65536 rfl rfl (by decide) (by decide) (Or.inl hd) (fun a => decide (a < 65536)) 36
    (by decide) (by decide) dst hdst 64 (by decide) (by decide)
  rw [h1] at h2
  have h3 := (columns_disjoint_in_buffer sliderTable (by decide) size64 16 4096 rfl).2.1 36 src .vector3 hsrc (by decide)
  have h4 := (columns_disjoint_in_buffer sliderTable (by decide) size64 32 65536 rfl).2.1 36 dst .vector3 hdst (by decide)
  have h5 : 16 * size64 .vector3 = 192 := rfl
  have e1 : decide (src + 64 < 65536) = true := decide_eq_true (by omega)
  have e2 : decide (dst + 64 < 65536) = false := decide_eq_false (by omega)
  rw [e1, e2] at h2
  cases h2

/-- The hypotheses of the partial theorem are met, e.g. when the transform table grows from 16 to 32 components. -/
example : (transformTable.starts (fun _ => 28) 32 65536)[1]? = some 66448 ∧
    65536 % 16 = 0 ∧ 4096 + transformTable.bytes (fun _ => 28) 16 ≤ 65536 := by decide +kernel

end RP3D
