import Verif.Containers.Float32
import Mathlib.Algebra.BigOperators.Group.List.Basic
import Mathlib.Data.Nat.Bitwise
import Mathlib.Tactic.Linarith
import Mathlib.Tactic.Ring

/-! Memory layout of the component tables: `allocate` of the nine derived tables (src/components/*Components.cpp) and
`MemoryAllocator::alignAddress` (src/memory/MemoryAllocator.cpp:44-71).  Addresses are natural numbers (no
overflow of the address space). -/

namespace RP3D

/-- `MemoryAllocator::alignAddress` (MemoryAllocator.cpp:44-71).  A pointer that is already aligned is advanced by a
full alignment step. -/
def alignAddress (addr alignment : Nat) : Nat := addr + (alignment - (addr &&& (alignment - 1)))

/-- Start addresses of the columns of element sizes `sizes` for `n` components in a buffer at `base`
(e.g. JointComponents.cpp:56-71): the first column is at the start of the buffer, each other one after the end of
its predecessor, aligned. -/
def columnStarts (n : Nat) : (base : Nat) → (sizes : List Nat) → List Nat
  | _, [] => []
  | base, s :: rest => base :: columnStarts n (alignAddress (base + n * s) 16) rest

/-- `totalSizeBytes` (JointComponents.cpp:48) for a component size `dataSize` and `margin` bytes. -/
def totalSizeBytes (n dataSize margin : Nat) : Nat := n * dataSize + margin

/-- The types of the columns. -/
inductive ColTy
  | entity | pointer | vector3 | vector2 | matrix3 | matrix2 | quaternion | transform | decimal | bool | array | i32 | u16
  | bodyType | jointType | correction | material
deriving DecidableEq

open ColTy

/-- A component table: its columns in memory order (the `new...` pointers of `allocate`), the types of the `sizeof`
operands of the constructor that sum up to `mComponentDataSize`, the number of alignments in `mAlignmentMarginSize`, and the types of the `sizeof`
operands of the `memcpy` calls by which `allocate` moves the components to the new buffer, column by column. -/
structure Table where
  columns : List ColTy
  sizeofs : List ColTy
  margins : Nat
  copied : List ColTy
deriving DecidableEq

/-- TransformComponents.cpp:37-40, 43-80. -/
def transformTable : Table := ⟨[entity, transform], [entity, transform], 2,
   [entity, transform]⟩

/-- JointComponents.cpp:35-40, 43-103. -/
def jointTable : Table :=
  ⟨[entity, entity, entity, pointer, jointType, correction, bool, bool],
   [entity, entity, entity, pointer, jointType, correction, bool, bool], 8,
   [entity, entity, entity, pointer, jointType, correction, bool, bool]⟩

/-- BodyComponents.cpp:36-40, 43-96. -/
def bodyTable : Table :=
  ⟨[entity, pointer, array, bool, pointer, bool], [entity, pointer, array, bool, pointer, bool], 6,
   [entity, pointer, array, bool, pointer, bool]⟩

/-- ColliderComponents.cpp:37-43, 46-135. -/
def colliderTable : Table :=
  ⟨[entity, entity, pointer, i32, transform, pointer, u16, u16, transform, array, bool, bool, bool, bool, material],
   [entity, entity, pointer, i32, transform, pointer, u16, u16, transform, array, bool, bool, bool, bool, material], 15,
   [entity, entity, pointer, i32, transform, pointer, u16, u16, transform, array, bool, bool, bool, bool, material]⟩

/-- RigidBodyComponents.cpp:37-49, 52-204. -/
def rigidBodyTable : Table :=
  ⟨[entity, pointer, bool, bool, decimal, bodyType, vector3, vector3, vector3, vector3, decimal, decimal, decimal, decimal,
    vector3, vector3, matrix3, vector3, vector3, vector3, vector3, vector3, quaternion, vector3, vector3, bool, bool, array,
    array, vector3, vector3],
   [entity, pointer, bool, bool, decimal, bodyType, vector3, vector3, vector3, vector3, decimal, decimal, decimal, decimal,
    vector3, vector3, matrix3, vector3, vector3, vector3, vector3, vector3, quaternion, vector3, vector3, bool, bool, array,
    array, vector3, vector3], 31,
   [entity, pointer, bool, bool, decimal, bodyType, vector3, vector3, vector3, vector3, decimal, decimal, decimal, decimal,
    vector3, vector3, matrix3, vector3, vector3, vector3, vector3, vector3, quaternion, vector3, vector3, bool, bool, array,
    array, vector3, vector3]⟩

/-- BallAndSocketJointComponents.cpp:36-44, 47-148. -/
def ballSocketTable : Table :=
  ⟨[entity, pointer, vector3, vector3, vector3, vector3, matrix3, matrix3, vector3, matrix3, vector3, bool, decimal, decimal,
    decimal, decimal, bool, vector3],
   [entity, pointer, vector3, vector3, vector3, vector3, matrix3, matrix3, vector3, matrix3, vector3, bool, decimal, decimal,
    decimal, decimal, bool, vector3], 18,
   [entity, pointer, vector3, vector3, vector3, vector3, matrix3, matrix3, vector3, matrix3, vector3, bool, decimal, decimal,
    decimal, decimal, bool, vector3]⟩

/-- FixedJointComponents.cpp:36-43, 46-134. -/
def fixedTable : Table :=
  ⟨[entity, pointer, vector3, vector3, vector3, vector3, matrix3, matrix3, vector3, vector3, matrix3, matrix3, vector3, vector3,
    quaternion],
   [entity, pointer, vector3, vector3, vector3, vector3, matrix3, matrix3, vector3, vector3, matrix3, matrix3, vector3, vector3,
    quaternion], 15,
   [entity, pointer, vector3, vector3, vector3, vector3, matrix3, matrix3, vector3, vector3, matrix3, matrix3, vector3, vector3,
    quaternion]⟩

/-- HingeJointComponents.cpp:36-48, 51-219. -/
def hingeTable : Table :=
  ⟨[entity, pointer, vector3, vector3, vector3, vector3, matrix3, matrix3, vector3, vector2, matrix3, matrix2, vector3, vector2,
    quaternion, vector3, vector3, vector3, vector3, vector3, decimal, decimal, decimal, decimal, decimal, decimal, decimal, bool,
    bool, decimal, decimal, bool, bool, decimal, decimal],
   [entity, pointer, vector3, vector3, vector3, vector3, matrix3, matrix3, vector3, vector2, matrix3, matrix2, vector3, vector2,
    quaternion, vector3, vector3, vector3, vector3, vector3, decimal, decimal, decimal, decimal, decimal, decimal, decimal, bool,
    bool, decimal, decimal, bool, bool, decimal, decimal], 35,
   [entity, pointer, vector3, vector3, vector3, vector3, matrix3, matrix3, vector3, vector2, matrix3, matrix2, vector3, vector2,
    quaternion, vector3, vector3, vector3, vector3, vector3, decimal, decimal, decimal, decimal, decimal, decimal, decimal, bool,
    bool, decimal, decimal, bool, bool, decimal, decimal]⟩

/-- SliderJointComponents.cpp:36-50, 53-241. The last six columns hold vectors, but are copied with `sizeof(decimal)` (lines 188-193). -/
def sliderTable : Table :=
  ⟨[entity, pointer, vector3, vector3, matrix3, matrix3, vector2, vector3, matrix2, matrix3, vector2, vector3, quaternion, vector3,
    vector3, vector3, vector3, vector3, vector3, decimal, decimal, decimal, decimal, decimal, decimal, decimal, bool, bool, decimal,
    decimal, bool, bool, decimal, decimal, vector3, vector3, vector3, vector3, vector3, vector3],
   [entity, pointer, vector3, vector3, matrix3, matrix3, vector2, vector3, matrix2, matrix3, vector2, vector3, quaternion, vector3,
    vector3, vector3, vector3, vector3, vector3, decimal, decimal, decimal, decimal, decimal, decimal, decimal, bool, bool, decimal,
    decimal, bool, bool, decimal, decimal, vector3, vector3, vector3, vector3, vector3, vector3], 40,
   [entity, pointer, vector3, vector3, matrix3, matrix3, vector2, vector3, matrix2, matrix3, vector2, vector3, quaternion, vector3,
    vector3, vector3, vector3, vector3, vector3, decimal, decimal, decimal, decimal, decimal, decimal, decimal, bool, bool, decimal,
    decimal, bool, bool, decimal, decimal, decimal, decimal, decimal, decimal, decimal, decimal]⟩

/-- All the component tables of the library. -/
def allTables : List Table :=
  [transformTable, jointTable, bodyTable, colliderTable, rigidBodyTable, ballSocketTable, fixedTable, hingeTable, sliderTable]

/-- Start addresses of the columns of a table for `n` components at address `base`; `sz` gives the size of each type. -/
def Table.starts (t : Table) (sz : ColTy → Nat) (n base : Nat) : List Nat := columnStarts n base (t.columns.map sz)

/-- The number of bytes requested by `allocate` for `n` components. -/
def Table.bytes (t : Table) (sz : ColTy → Nat) (n : Nat) : Nat :=
  totalSizeBytes n (t.sizeofs.map sz).sum (t.margins * 16)

/-- `memcpy(dst, src, len)` for non-overlapping ranges. -/
def memcpy {B : Type} (mem : Nat → B) (dst src len : Nat) : Nat → B :=
  fun a => if dst ≤ a ∧ a < dst + len then mem (src + (a - dst)) else mem a

/-- The sequence of `memcpy` calls of `allocate` (e.g. JointComponents.cpp:77-84): the columns are copied one after
the other, `nb` elements each. -/
def copyColumns {B : Type} (nb : Nat) : List (Nat × Nat × Nat) → (Nat → B) → (Nat → B)
  | [], mem => mem
  | (dst, src, size) :: rest, mem => copyColumns nb rest (memcpy mem dst src (nb * size))

/-! ### Lemmas -/

theorem alignAddress_16 (a : Nat) : alignAddress a 16 % 16 = 0 ∧ a < alignAddress a 16 ∧ alignAddress a 16 ≤ a + 16 := by
  unfold alignAddress
  have : a &&& (16 - 1) = a % 16 := Nat.and_two_pow_sub_one_eq_mod (n := 4) a
  rw [this]; omega

theorem columnStarts_length (n : Nat) (sizes : List Nat) : ∀ base, (columnStarts n base sizes).length = sizes.length := by
  induction sizes with
  | nil => intro _; rfl
  | cons s r ih => intro b; simp [columnStarts, ih]

theorem columnStarts_spec (n : Nat) (sizes : List Nat) : ∀ (base : Nat), base % 16 = 0 →
    (∀ a ∈ columnStarts n base sizes, a % 16 = 0 ∧ base ≤ a) ∧
    (∀ (j : Nat) (a s : Nat), (columnStarts n base sizes)[j]? = some a → sizes[j]? = some s →
      a + n * s ≤ base + n * sizes.sum + 16 * (sizes.length - 1)) ∧
    (∀ (i j : Nat) (a b s : Nat), i < j → (columnStarts n base sizes)[i]? = some a → sizes[i]? = some s →
      (columnStarts n base sizes)[j]? = some b → a + n * s ≤ b) := by
  induction sizes with
  | nil => intro base _; simp [columnStarts]
  | cons s r ih =>
    intro base hb
    obtain ⟨al, al1, al2⟩ := alignAddress_16 (base + n * s)
    obtain ⟨h1, h2, h3⟩ := ih (alignAddress (base + n * s) 16) al
    refine ⟨?_, ?_, ?_⟩
    · intro a ha
      simp only [columnStarts, List.mem_cons] at ha
      rcases ha with rfl | ha
      · exact ⟨hb, le_refl _⟩
      · have := h1 a ha; constructor
        · exact this.1
        · have : n * s ≥ 0 := Nat.zero_le _
          have := (h1 a ha).2; omega
    · intro j a t hj ht
      simp only [List.sum_cons, List.length_cons, Nat.add_sub_cancel]
      have hms : n * (s + r.sum) = n * s + n * r.sum := by ring
      cases j with
      | zero =>
        simp [columnStarts] at hj ht
        subst hj; subst ht
        rw [hms]; omega
      | succ j =>
        simp only [columnStarts, List.getElem?_cons_succ] at hj ht
        have := h2 j a t hj ht
        have hlen : 1 ≤ r.length := by
          have := (List.getElem?_eq_some_iff.1 ht).1; omega
        rw [hms]; omega
    · intro i j a b t hij hi ht hj
      cases j with
      | zero => omega
      | succ j =>
        simp only [columnStarts, List.getElem?_cons_succ] at hj
        cases i with
        | zero =>
          simp [columnStarts] at hi ht
          subst hi; subst ht
          have := (h1 b (List.mem_of_getElem? hj)).2
          omega
        | succ i =>
          simp only [columnStarts, List.getElem?_cons_succ] at hi ht
          exact h3 i j a b t (by omega) hi ht hj

/-- Copying to columns outside of a range does not change the range. -/
theorem copyColumns_outside {B : Type} (nb : Nat) (l : List (Nat × Nat × Nat)) : ∀ (mem : Nat → B) (a : Nat),
    (∀ c ∈ l, ¬ (c.1 ≤ a ∧ a < c.1 + nb * c.2.2)) → copyColumns nb l mem a = mem a := by
  induction l with
  | nil => intro mem a _; rfl
  | cons c l ih =>
    intro mem a h
    obtain ⟨dst, src, size⟩ := c
    simp only [copyColumns]
    rw [ih _ _ (fun c hc => h c (List.mem_cons_of_mem _ hc))]
    unfold memcpy
    rw [if_neg (h _ (List.mem_cons_self ..))]

theorem copyColumns_value {B : Type} (nb : Nat) (l : List (Nat × Nat × Nat)) : ∀ (mem : Nat → B),
    (∀ c ∈ l, ∀ c' ∈ l, ∀ x, x < nb * c.2.2 → ¬ (c'.1 ≤ c.2.1 + x ∧ c.2.1 + x < c'.1 + nb * c'.2.2)) →
    l.Pairwise (fun c c' => c.1 + nb * c.2.2 ≤ c'.1) →
    ∀ c ∈ l, ∀ x, x < nb * c.2.2 → copyColumns nb l mem (c.1 + x) = mem (c.2.1 + x) := by
  induction l with
  | nil => intro mem _ _ c hc; cases hc
  | cons c0 l ih =>
    intro mem hsrc hdst c hc x hx
    obtain ⟨hp1, hp2⟩ := List.pairwise_cons.1 hdst
    obtain ⟨dst, src, size⟩ := c0
    simp only [copyColumns]
    rcases List.mem_cons.1 hc with rfl | hc'
    · rw [copyColumns_outside]
      · unfold memcpy
        simp only at hx ⊢
        rw [if_pos ⟨by omega, by omega⟩]
        congr 1; omega
      · intro c' hc' hh
        have := hp1 c' hc'
        simp only at this hx hh; omega
    · rw [ih _ (fun a ha b hb => hsrc a (List.mem_cons_of_mem _ ha) b (List.mem_cons_of_mem _ hb)) hp2 c hc' x hx]
      unfold memcpy
      rw [if_neg]
      exact hsrc c hc _ (List.mem_cons_self ..) x hx

end RP3D
