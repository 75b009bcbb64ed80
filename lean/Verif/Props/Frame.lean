import Verif.Memory.Frame
import Verif.Props.Heap

/-! Property theorem C12: the single-frame allocator. -/

namespace RP3D
open Frame

/-- **C12.** In every history of allocations, releases and resets, over every base allocator that returns fresh blocks: the
allocations that are live at the same time do not overlap, are 16-byte aligned, and lie inside of the buffer or of a live block
of the base allocator. -/
theorem frame_live_disjoint (s : Frame × Live) (h : Reach Fresh s) :
    (s.2.map Prod.fst).Pairwise disj ∧ (∀ x ∈ s.2, x.1.1 % 16 = 0) ∧
      ∀ x ∈ s.2, inside x.1 (s.1.start, s.1.total) ∨ x.1 ∈ s.1.base := by
  have hi := reach_inv good_fresh h
  obtain ⟨extra, hp, _⟩ := hi.sub
  have hsplit : (s.2.map Prod.fst).Perm (over s.2 ++ buf s.2) := by
    unfold over buf
    rw [← List.map_append]
    exact (List.filter_append_perm _ _).symm.map _
  have hb := (hi.ok.perm hp).disj
  obtain ⟨hb1, hb2⟩ := List.pairwise_cons.1 hb
  have hbin : ∀ r ∈ buf s.2, inside r (s.1.start, s.1.total) := by
    intro r hr
    have h1 := hi.bufin r hr
    have h2 := hi.offle
    unfold inside; simp only; omega
  have hob : ∀ r ∈ over s.2, r ∈ s.1.base := fun r hr => hp.mem_iff.2 (by simp [hr])
  have hmem : ∀ x ∈ s.2, x.1 ∈ over s.2 ∨ x.1 ∈ buf s.2 := by
    intro x hx
    exact List.mem_append.1 (hsplit.mem_iff.1 (List.mem_map_of_mem hx))
  refine ⟨?_, ?_, ?_⟩
  · rw [pairwise_disj_perm hsplit, List.pairwise_append]
    refine ⟨(List.pairwise_append.1 hb2).1, hi.bufd, ?_⟩
    intro r hr q hq
    exact disj_symm (disj_of_inside (hb1 r (by simp [hr])) (hbin q hq))
  · intro x hx
    rcases hmem x hx with h | h
    · exact hi.ok.aligned _ (hob _ h)
    · exact (hi.bufin _ h).2.2.1
  · intro x hx
    rcases hmem x hx with h | h
    · exact Or.inr (hob _ h)
    · exact Or.inl (hbin _ h)

/-- **C12.** Every valid operation is defined; in particular nothing is given back to the base allocator that is not live there. After
a reset the whole buffer is available again and exactly the overflow allocations are still live. -/
theorem frame_valid_defined (s : Frame × Live) (h : Reach Fresh s) (op : Op) (hv : valid Fresh s op) :
    ∃ s', step s op = some s' ∧ match op with
      | .alloc n _ => ∃ p o, s'.2 = ((p, n), o) :: s.2
      | .release p n o => s'.2 = s.2.erase ((p, n), o)
      | .reset _ => s'.2 = s.2.filter (fun x => x.2) ∧ s'.1.off = 0 := by
  have hi := reach_inv good_fresh h
  cases op with
  | alloc n b =>
    obtain ⟨s', p, o, e, h2, _⟩ := alloc_inv good_fresh hi hv
    exact ⟨s', e, p, o, h2⟩
  | release p n o =>
    obtain ⟨s', e, h2, _⟩ := release_inv good_fresh hi hv
    exact ⟨s', e, h2⟩
  | reset b =>
    obtain ⟨s', e, h2, h3, _⟩ := reset_inv good_fresh hi hv
    exact ⟨s', e, h2, h3⟩

/-- **C12.** Over a base allocator that never returns a block adjacent to a live one (such as the heap allocator, see
`heap_live_gap`), the base blocks are at all times exactly the buffer and the overflow allocations that have not been released. -/
theorem frame_base_exact (s : Frame × Live) (h : Reach FreshGap s) :
    s.1.base.Perm ((s.1.start, s.1.total) :: over s.2) := by
  have hi := reach_inv good_gap h
  obtain ⟨extra, hp, he⟩ := hi.sub
  rw [he trivial, List.append_nil] at hp
  exact hp

/-- **C12.** With such a base allocator, the destructor leaves nothing once the overflow allocations have been released. -/
theorem frame_destroy_returns_all (s : Frame × Live) (h : Reach FreshGap s) (he : s.2 = []) : s.1.destroy = some [] := by
  have := frame_base_exact s h
  rw [he] at this
  have : s.1.base = [(s.1.start, s.1.total)] := List.perm_singleton.1 this
  simp [destroy, this, baseRelease]

/-- Allocations of the heap allocator are never adjacent: there is a unit header between any two of them. -/
theorem heap_live_gap (s : Heap × List Range) (h : Heap.Reach (fun _ => True) s) :
    s.2.Pairwise (fun r q => r.1 + r.2 < q.1 ∨ q.1 + q.2 < r.1) := by
  obtain ⟨us, fs, hr, hna, hl⟩ := heap_reach_inv h
  have hsym : ∀ {r q : Range}, (r.1 + r.2 < q.1 ∨ q.1 + q.2 < r.1) → (q.1 + q.2 < r.1 ∨ r.1 + r.2 < q.1) := fun h => h.symm
  rw [hr.1.live.pairwise_iff (fun {_ _} => hsym), List.pairwise_filterMap]
  have hdj := hr.1.dj
  rw [List.pairwise_map] at hdj
  refine hdj.imp_of_mem ?_
  intro u v hu hv hd r hr1 q hq
  have key : ∀ w ∈ us, ∀ r, w.live = some r → w.addr + Heap.hsz < r.1 ∧ r.1 + r.2 ≤ w.addr + Heap.hsz + w.size := by
    intro w hw r hwr
    have ha := Heap.align_facts (w.addr + Heap.hsz)
    unfold Heap.U.live at hwr
    cases hst : w.st with
    | free => rw [hst] at hwr; cases hwr
    | limbo => rw [hst] at hwr; cases hwr
    | used n =>
      rw [hst] at hwr
      have := hr.1.req w hw n hst
      cases hwr
      unfold Heap.U.ptr
      simp only; omega
  have k1 := key u hu r hr1
  have k2 := key v hv q hq
  unfold disj Heap.U.rng at hd
  simp only at hd
  omega

/-- A history that overflows the buffer, resets and grows it. -/
example : ∃ s, Reach FreshGap s ∧ s.2 = [((8000032, 100), false), ((3200000, 1048576), true)] ∧ s.1.total = 2097152 := by
  have r0 : Reach FreshGap (Frame.init 16, []) := .init (by constructor <;> simp)
  have r1 : Reach FreshGap (⟨16, 1048576, 1016, false, [(16, 1048576)]⟩, [((32, 1000), false)]) :=
    .step (op := .alloc 1000 1600000) r0 (by simp [valid, FreshGap, Frame.init]) (by simp [step, allocate, Frame.init, Heap.align])
  have r2 : Reach FreshGap (⟨16, 1048576, 1016, true, [(3200000, 1048576), (16, 1048576)]⟩,
      [((3200000, 1048576), true), ((32, 1000), false)]) :=
    .step (op := .alloc 1048576 3200000) r1 (by simp [valid, FreshGap]) (by simp [step, allocate])
  have r3 : Reach FreshGap (⟨8000016, 2097152, 0, false, [(8000016, 2097152), (3200000, 1048576)]⟩, [((3200000, 1048576), true)]) :=
    .step (op := .reset 8000016) r2 (by simp [valid, FreshGap, List.erase_cons]) (by simp [step, reset, baseRelease, List.erase_cons])
  have r4 : Reach FreshGap (⟨8000016, 2097152, 116, false, [(8000016, 2097152), (3200000, 1048576)]⟩,
      [((8000032, 100), false), ((3200000, 1048576), true)]) :=
    .step (op := .alloc 100 0) r3 (by simp [valid, FreshGap]) (by simp [step, allocate, Heap.align])
  exact ⟨_, r4, rfl, rfl⟩

/-- **C12 fails over a general base allocator.** A base allocator that returns a block starting exactly at the end of the
buffer never gets it back: `release` compares with `>` instead of `>=`. -/
theorem frame_release_leaks : ∃ s s', Reach Fresh s ∧ valid Fresh s (.release 1048592 1048576 true) ∧
    step s (.release 1048592 1048576 true) = some s' ∧ s'.2 = [] ∧ (1048592, 1048576) ∈ s'.1.base := by
  have r0 : Reach Fresh (Frame.init 16, []) := .init (by constructor <;> simp)
  have r1 : Reach Fresh (⟨16, 1048576, 0, true, [(1048592, 1048576), (16, 1048576)]⟩, [((1048592, 1048576), true)]) :=
    .step (op := .alloc 1048576 1048592) r0 (by simp [valid, Fresh, disj, Frame.init]) (by simp [step, allocate, Frame.init])
  exact ⟨_, (⟨16, 1048576, 0, true, [(1048592, 1048576), (16, 1048576)]⟩, []), r1, by simp [valid], by simp [step, release],
    rfl, by simp⟩

end RP3D
