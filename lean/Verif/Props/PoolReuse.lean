import Verif.Memory.PoolLemmas

/-! C73: creating and destroying an object again and again does not consume memory.

`PhysicsCommon` creates its objects with `mMemoryManager.allocate(Pool, sizeof(X))` and destroys them with
`mMemoryManager.release(Pool, p, sizeof(X))` (PhysicsCommon.cpp:279-839). The height field is the exception: it is
allocated with `sizeof(TriangleMesh)` (PhysicsCommon.cpp:487) and released with `sizeof(HeightField)` (496, 769). -/

namespace RP3D
namespace PoolReuse
open Pool

/-- Create and destroy one object: allocate `size` bytes, let the object use its memory (`w` is what it leaves
there), release it with the size `rel`. -/
def cycle (size rel : Nat) (p : Pool) (a : Nat × Nat × (Nat → Option Nat)) : Option Pool := do
  let (p, r) ← p.allocate size a.1 a.2.1
  match r with
  | some ptr =>
    Pool.release { p with mem := fun x => if ptr ≤ x ∧ x < ptr + size then a.2.2 x else p.mem x } ptr rel
  | none => some p

/-- A list of such cycles; the elements are the answers of the base allocator and the data of the objects. -/
def cycles (size rel : Nat) (p : Pool) (as : List (Nat × Nat × (Nat → Option Nat))) : Option Pool :=
  as.foldlM (cycle size rel) p

theorem cycle_again {p p' : Pool} {size : Nat} (h0 : size ≠ 0) (hs : size ≤ maxUnit) {u : Nat}
    (hu : p.free (heapIndex size) = some u) {a : Nat × Nat × (Nat → Option Nat)}
    (h : cycle size size p a = some p') : p'.base = p.base ∧ p'.blocks = p.blocks ∧ p'.free (heapIndex size) = some u := by
  have h1 : ¬ size > maxUnit := by omega
  simp only [cycle, allocate, Pool.release, if_neg h0, if_neg h1, hu, Option.bind_eq_bind, Option.bind_some,
    Option.some.injEq] at h
  subst h
  exact ⟨rfl, rfl, upd_same ..⟩

/-- After one object of a size has been created and destroyed, creating and destroying any number of objects of
that size takes nothing more from the base allocator. (With sizes above `maxUnit` every object is a base block of
its own, which the release returns: the second part.) -/
theorem create_destroy_no_growth_partial {p p1 p2 : Pool} {size : Nat} (h0 : size ≠ 0) (hs : size ≤ maxUnit)
    {a : Nat × Nat × (Nat → Option Nat)} {as : List (Nat × Nat × (Nat → Option Nat))}
    (h1 : cycle size size p a = some p1) (h2 : cycles size size p1 as = some p2) :
    p2.base = p1.base ∧ p2.blocks = p1.blocks := by
  have hfree : ∃ u, p1.free (heapIndex size) = some u := by
    have hn : ¬ size > maxUnit := by omega
    unfold cycle at h1
    cases ha : p.allocate size a.1 a.2.1 with
    | none => rw [ha] at h1; exact absurd h1 (by simp)
    | some r =>
      obtain ⟨q, r⟩ := r
      rw [ha] at h1
      cases r with
      | none =>
        exfalso
        rw [allocate, if_neg h0, if_neg hn] at ha
        dsimp only at ha
        split at ha
        · simp at ha
        · cases hg : p.growArray a.1 with
          | none => rw [hg] at ha; simp at ha
          | some q' =>
            rw [hg] at ha
            simp only [Option.bind_eq_bind, Option.bind_some] at ha
            split at ha <;> simp at ha
      | some ptr =>
        simp only [Option.bind_eq_bind, Option.bind_some, Pool.release, if_neg h0, if_neg hn,
          Option.some.injEq] at h1
        subst h1
        exact ⟨ptr, upd_same ..⟩
  obtain ⟨u, hu⟩ := hfree
  clear h1
  induction as generalizing p1 with
  | nil =>
    rw [cycles, List.foldlM_nil] at h2
    cases h2
    exact ⟨rfl, rfl⟩
  | cons b as ih =>
    rw [cycles, List.foldlM_cons] at h2
    cases hb : cycle size size p1 b with
    | none => rw [hb] at h2; simp at h2
    | some q =>
      rw [hb] at h2
      obtain ⟨e1, e2, e3⟩ := cycle_again h0 hs hu hb
      obtain ⟨f1, f2⟩ := ih h2 e3
      exact ⟨f1.trans e1, f2.trans e2⟩

theorem create_destroy_large_partial {p p1 : Pool} {size : Nat} (hs : maxUnit < size) {a : Nat × Nat × (Nat → Option Nat)}
    (h1 : cycle size size p a = some p1) : p1.base = p.base ∧ p1.blocks = p.blocks := by
  have h0 : size ≠ 0 := by omega
  have hg : size > maxUnit := hs
  simp only [cycle, allocate, Pool.release, if_neg h0, if_pos hg, Option.bind_eq_bind, Option.bind_some, baseRelease,
    List.mem_cons_self, if_true, Option.some.injEq, List.erase_cons_head, Option.pure_def] at h1
  subst h1
  exact ⟨rfl, rfl⟩

/-! The height field. `float` build for a 64-bit platform: `sizeof(HeightField)` is 112 (8 allocator, 4+4 sizes of the
grid, 6·4 decimals, 4 enumeration, 4 padding, 32 array, 24 box, 8 reference) and `sizeof(TriangleMesh)` is 152 (8
allocator, 3·32 arrays, 40 tree, 4 decimal, 4 padding). -/

abbrev sizeofHeightField : Nat := 112
abbrev sizeofTriangleMesh : Nat := 152

/-- The objects leave the memory of the free units alone; for the height field the data does not matter. -/
structure Leak (n : Nat) (p : Pool) : Prop where
  chain : ∃ L : List Nat, L.Pairwise (fun x y => x + 160 ≤ y) ∧ Chain p.mem (p.free 9) L ∧
    n + L.length = 204 * p.blocks.length
  arr : (p.arr, p.nbAlloc * 8) ∈ p.base
  le : p.blocks.length ≤ p.nbAlloc
  base : p.base.length = p.blocks.length + 1

theorem growArray_leak {p : Pool} (a : Nat) (harr : (p.arr, p.nbAlloc * 8) ∈ p.base)
    (hle : p.blocks.length ≤ p.nbAlloc) : ∃ q, p.growArray a = some q ∧ q.free = p.free ∧ q.mem = p.mem ∧
      q.blocks = p.blocks ∧ q.blocks.length < q.nbAlloc ∧ (q.arr, q.nbAlloc * 8) ∈ q.base ∧
      q.base.length = p.base.length := by
  unfold growArray
  by_cases he : p.blocks.length = p.nbAlloc
  · rw [if_pos he]
    unfold baseRelease
    rw [he, if_pos (List.mem_cons_of_mem _ harr)]
    refine ⟨_, rfl, rfl, rfl, rfl, by simp only; omega, ?_, ?_⟩
    · simp only
      rw [List.erase_cons_tail]
      · exact List.mem_cons_self ..
      · simp only [beq_iff_eq, Prod.mk.injEq, not_and]; omega
    · simp only
      rw [List.length_erase_of_mem (List.mem_cons_of_mem _ harr)]
      rfl
  · rw [if_neg he]
    exact ⟨p, rfl, rfl, rfl, rfl, by omega, harr, rfl⟩

theorem upd_69 (f : Nat → Option Nat) (v w : Option Nat) : upd (upd f 9 v) 6 w 9 = v := rfl

theorem leak_cycle {n : Nat} {p : Pool} (h : Leak n p) (a : Nat × Nat × (Nat → Option Nat)) :
    ∃ q, cycle sizeofTriangleMesh sizeofHeightField p a = some q ∧ Leak (n + 1) q := by
  obtain ⟨⟨L, hL, hc, hn⟩, harr, hle, hbase⟩ := h
  have i9 : heapIndex 152 = 9 := heapIndex_eq 151
  have i6 : heapIndex 112 = 6 := heapIndex_eq 111
  have m1 : ¬ (152 : Nat) > maxUnit := by unfold maxUnit; omega
  have m2 : ¬ (112 : Nat) > maxUnit := by unfold maxUnit; omega
  cases L with
  | cons u L =>
    obtain ⟨hu, hc⟩ := hc
    obtain ⟨hL1, hL2⟩ := List.pairwise_cons.1 hL
    simp only [cycle, allocate, Pool.release, sizeofTriangleMesh, sizeofHeightField, i9, i6, if_neg m1, if_neg m2, hu,
      Option.bind_eq_bind, Option.bind_some, show ¬ (152 : Nat) = 0 by omega, show ¬ (112 : Nat) = 0 by omega, if_false]
    refine ⟨_, rfl, ⟨L, hL2, ?_, ?_⟩, harr, hle, hbase⟩
    · simp only
      rw [upd_69]
      refine hc.congr ?_
      intro x hx
      have := hL1 x hx
      rw [upd_ne _ _ (by omega), if_neg (by omega)]
    · simp only [List.length_cons] at hn ⊢
      omega
  | nil =>
    obtain ⟨q, hq, hq1, hq2, hq3, hq4, hq5, hq6⟩ := growArray_leak a.1 harr hle
    have hf : p.free 9 = none := hc
    simp only [cycle, allocate, Pool.release, sizeofTriangleMesh, sizeofHeightField, i9, i6, if_neg m1, if_neg m2, hf,
      Option.bind_eq_bind, Option.bind_some, show ¬ (152 : Nat) = 0 by omega, show ¬ (112 : Nat) = 0 by omega, if_false,
      hq, if_pos hq4]
    have hk := chain_block (mem := q.mem) (b := a.2.1) (u := 160) (by omega) 203 0 (by unfold blockSize; rfl)
    rw [Nat.zero_mul, Nat.add_zero] at hk
    refine ⟨_, rfl, ⟨(List.range' 1 203).map (fun j => a.2.1 + j * 160), ?_, ?_, ?_⟩, ?_, ?_, ?_⟩
    · rw [List.pairwise_map]
      refine List.Pairwise.imp ?_ (List.pairwise_lt_range' (s := 1) (n := 203))
      intro i j hij
      omega
    · simp only [newBlock, show unitSize 9 = 160 from rfl]
      rw [upd_69]
      refine hk.congr ?_
      intro x hx
      obtain ⟨j, hj, rfl⟩ := List.mem_map.1 hx
      have := (List.mem_range'_1.1 hj).1
      rw [upd_ne _ _ (by omega), if_neg (by omega)]
    · simp only [newBlock, List.length_map, List.length_range', List.length_cons, hq3]
      simp only [List.length_nil] at hn
      omega
    · simp only [newBlock]
      exact List.mem_cons_of_mem _ hq5
    · simp only [newBlock, List.length_cons]; omega
    · simp only [newBlock, List.length_cons]
      rw [hq6, hq3, hbase]

theorem leak_cycles (as : List (Nat × Nat × (Nat → Option Nat))) : ∀ {n : Nat} {p : Pool}, Leak n p →
    ∃ q, cycles sizeofTriangleMesh sizeofHeightField p as = some q ∧ Leak (n + as.length) q := by
  induction as with
  | nil => intro n p h; exact ⟨p, rfl, h⟩
  | cons a as ih =>
    intro n p h
    obtain ⟨q, hq, hl⟩ := leak_cycle h a
    obtain ⟨r, hr, hl'⟩ := ih hl
    refine ⟨r, ?_, ?_⟩
    · rw [cycles, List.foldlM_cons, hq]; exact hr
    · rw [List.length_cons]
      have : n + (as.length + 1) = n + 1 + as.length := by omega
      rw [this]; exact hl'

/-- The property fails for height fields: whatever the base allocator answers, `n` times creating and destroying a
height field takes at least `n / 204` blocks of 32768 bytes from the base allocator, and keeps them until the
allocator is destroyed. -/
theorem height_field_leak (a : Nat) (as : List (Nat × Nat × (Nat → Option Nat))) :
    ∃ q, cycles sizeofTriangleMesh sizeofHeightField (init a) as = some q ∧
      as.length ≤ 204 * q.blocks.length ∧ q.base.length = q.blocks.length + 1 := by
  have h : Leak 0 (init a) := ⟨⟨[], List.Pairwise.nil, rfl, rfl⟩, by simp [init], by simp [init], by simp [init]⟩
  obtain ⟨q, hq, ⟨⟨L, _, _, hn⟩, _, _, hb⟩⟩ := leak_cycles as h
  exact ⟨q, hq, by omega, hb⟩

/-- In particular no bound on the memory holds, although no height field is alive at the end. -/
theorem height_field_unbounded (a N : Nat) : ∃ (as : List (Nat × Nat × (Nat → Option Nat))) (q : Pool),
    cycles sizeofTriangleMesh sizeofHeightField (init a) as = some q ∧ N < q.base.length := by
  obtain ⟨q, hq, h1, h2⟩ := height_field_leak a (List.replicate (204 * N) (0, 0, fun _ => none))
  rw [List.length_replicate] at h1
  exact ⟨_, q, hq, by omega⟩

/-- The same cycles with equal sizes: 1000 objects need one block. -/
example : ∃ p1, cycle 152 152 (init 0) (4096, 8192, fun _ => some 1) = some p1 ∧ p1.blocks = [8192] ∧
    ∀ as p2, cycles 152 152 p1 as = some p2 → p2.blocks = [8192] :=
  ⟨_, rfl, rfl, fun _ _ h => (create_destroy_no_growth_partial (p := init 0) (a := (4096, 8192, fun _ => some 1)) (by omega)
    (by unfold maxUnit; omega) rfl h).2⟩

example : ∃ p1, cycle 5000 5000 (init 0) (4096, 8192, fun _ => some 1) = some p1 ∧ p1.base = [(0, 512)] :=
  ⟨_, rfl, rfl⟩

end PoolReuse
end RP3D
