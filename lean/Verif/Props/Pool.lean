import Verif.Memory.PoolLemmas

/-! Property theorem C09: the pool allocator. -/

namespace RP3D
open Pool

/-- **C09.** In every history of allocations, releases and writes of the clients inside of their allocations, for
every choice of addresses by the base allocator: the live allocations do not overlap pairwise, are 16-byte aligned, are
inside of memory that the pool owns in the base allocator, and do not overlap the pool's array of blocks. -/
theorem pool_live_disjoint (a : Nat) (s : Pool × List Range) (h : Reach a s) :
    s.2.Pairwise disj ∧ (∀ r ∈ s.2, r.1 % 16 = 0) ∧ (∀ r ∈ s.2, ∃ b ∈ s.1.base, inside r b) ∧
      (∀ r ∈ s.2, disj r (s.1.arr, s.1.nbAlloc * 8)) := by
  obtain ⟨F, hi⟩ := reach_inv h
  have hsplit : s.2.Perm (small s.2 ++ large s.2) := by
    unfold small large
    exact (List.filter_append_perm _ _).symm
  have hin : ∀ r : Range, inside r (unitOf r) := by
    intro r
    have := size_le_unit r.2
    unfold inside unitOf; simp only; omega
  have hsm : ∀ r ∈ small s.2, ∃ b ∈ s.1.blocks, inside (unitOf r) (b, blockSize) ∧ r.1 % 16 = 0 := fun r hr =>
    hi.inblk _ (List.mem_append_right _ (List.mem_map_of_mem hr))
  have htr : ∀ {p q r : Range}, inside p q → inside q r → inside p r := by
    intro p q r h1 h2; unfold inside at *; omega
  have hbase := (pairwise_disj_perm hi.base).1 hi.ok.disj
  obtain ⟨_, hb2, hb3⟩ := List.pairwise_append.1 hbase
  obtain ⟨hb4, hb5⟩ := List.pairwise_cons.1 hb2
  have hlm : ∀ r ∈ large s.2, r ∈ s.1.base := fun r hr =>
    hi.base.mem_iff.2 (List.mem_append_right _ (List.mem_cons_of_mem _ hr))
  refine ⟨?_, ?_, ?_, ?_⟩
  · rw [pairwise_disj_perm hsplit, List.pairwise_append]
    refine ⟨?_, hb5, ?_⟩
    · have := (List.pairwise_append.1 hi.units).2.1
      rw [List.pairwise_map] at this
      refine this.imp ?_
      intro p q hpq
      exact disj_symm (disj_of_inside (disj_symm (disj_of_inside hpq (hin p))) (hin q))
    · intro r hr q hq
      obtain ⟨b, hb, h1, _⟩ := hsm r hr
      exact disj_of_inside (hb3 _ (List.mem_map_of_mem hb) _ (List.mem_cons_of_mem _ hq)) (htr (hin r) h1)
  · intro r hr
    rcases List.mem_append.1 (hsplit.mem_iff.1 hr) with hr | hr
    · obtain ⟨b, hb, _, h2⟩ := hsm r hr; exact h2
    · exact hi.ok.aligned r (hlm r hr)
  · intro r hr
    rcases List.mem_append.1 (hsplit.mem_iff.1 hr) with hr | hr
    · obtain ⟨b, hb, h1, _⟩ := hsm r hr
      exact ⟨_, hi.block_mem hb, htr (hin r) h1⟩
    · exact ⟨r, hlm r hr, ⟨le_refl _, le_refl _⟩⟩
  · intro r hr
    rcases List.mem_append.1 (hsplit.mem_iff.1 hr) with hr | hr
    · obtain ⟨b, hb, h1, _⟩ := hsm r hr
      exact disj_of_inside (hb3 _ (List.mem_map_of_mem hb) _ (List.mem_cons_self ..)) (htr (hin r) h1)
    · exact disj_symm (hb4 r hr)

/-- **C09.** Every valid operation is defined: nothing is released to the base allocator that is not live with the
released size. An allocation of a positive size returns a pointer and adds exactly its range to the live allocations,
a release removes exactly the released one. -/
theorem pool_valid_defined (a : Nat) (s : Pool × List Range) (h : Reach a s) (op : Op) (hv : valid s op) :
    ∃ s', step s op = some s' ∧ match op with
      | .alloc size _ _ => if size = 0 then s'.2 = s.2 else ∃ ptr, s'.2 = (ptr, size) :: s.2
      | .release ptr size => s'.2 = s.2.erase (ptr, size)
      | .write _ _ => s'.2 = s.2 := by
  obtain ⟨F, hi⟩ := reach_inv h
  cases op with
  | alloc size a1 a2 =>
    obtain ⟨s', _, e, _, h2⟩ := alloc_inv hi hv
    exact ⟨s', e, h2⟩
  | release ptr size =>
    obtain ⟨s', _, e, _, h2⟩ := release_inv hi hv
    exact ⟨s', e, h2⟩
  | write x v => exact ⟨_, rfl, rfl⟩

/-- **C09.** When everything has been released, the destructor gives back every block of the base allocator
exactly once with its size. -/
theorem pool_destroy_returns_all (a : Nat) (s : Pool × List Range) (h : Reach a s) (he : s.2 = []) :
    s.1.destroy = some [] := by
  obtain ⟨F, hi⟩ := reach_inv h
  have hb := hi.base
  rw [he] at hb
  obtain ⟨base', e1, e2⟩ := releaseBlocks_spec _ _ _ hb
  have hl : large [] = [] := rfl
  rw [hl] at e2
  have : base' = [(s.1.arr, s.1.nbAlloc * 8)] := List.perm_singleton.1 e2
  subst this
  simp [destroy, e1, baseRelease]

/-- A reachable state with a large and two small live allocations, one unit having been reused after the client
wrote to it. -/
example : ∃ s, Reach 1600 s ∧ s.2 = [(100000, 5000), (32768, 12), (32784, 16)] := by
  refine ⟨_, .step (op := .alloc 5000 0 100000) (.step (op := .alloc 12 4000 65536) (.step (op := .release 32768 10)
    (.step (op := .write 32768 (some 7)) (.step (op := .alloc 16 4000 65536) (.step (op := .alloc 10 4000 32768)
      (.init rfl) ?_ rfl) ?_ rfl) ?_ rfl) ?_ rfl) ?_ rfl) ?_ rfl, rfl⟩
  all_goals simp [valid, Fresh, disj, growArray, newBlock, init, blockSize, maxUnit]
  all_goals (intros; omega)

end RP3D
