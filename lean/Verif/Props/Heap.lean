import Verif.Memory.HeapOps

/-! Property theorems C10, C11 and C60: the heap allocator. -/

namespace RP3D
open Heap

theorem heap_reach_inv {s : Heap × List Range} (h : Reach (fun _ => True) s) : Inv False s :=
  reach_inv (fun hf => hf.elim) h

/-- **C10.** In every history of allocations, releases and writes of the clients inside of their allocations, for every
choice of addresses by the base allocator: the live allocations do not overlap pairwise, are 16-byte aligned, lie inside of
memory obtained from the base allocator, and overlap no unit header of the allocator. -/
theorem heap_live_disjoint (s : Heap × List Range) (h : Reach (fun _ => True) s) :
    s.2.Pairwise disj ∧ (∀ r ∈ s.2, r.1 % 16 = 0) ∧ (∀ r ∈ s.2, ∃ b ∈ s.1.base, inside r b) ∧
      ∀ r ∈ s.2, ∀ a, IsUnit s.1 a → disj r (a, hsz) := by
  obtain ⟨us, fs, hr, hna, hl⟩ := heap_reach_inv h
  have hin : ∀ u ∈ us, ∀ r, u.live = some r → inside r u.rng ∧ u.addr + hsz ≤ r.1 ∧ r.1 % 16 = 0 := by
    intro u hu r hur
    have ha := align_facts (u.addr + hsz)
    unfold U.live at hur
    cases hst : u.st with
    | free => rw [hst] at hur; cases hur
    | limbo => rw [hst] at hur; cases hur
    | used n =>
      rw [hst] at hur
      have := hr.1.req u hu n hst
      cases hur
      unfold inside U.rng U.ptr
      simp only; omega
  refine ⟨?_, ?_, ?_, ?_⟩
  · rw [pairwise_disj_perm hr.1.live, List.pairwise_filterMap]
    have hdj := hr.1.dj
    rw [List.pairwise_map] at hdj
    refine hdj.imp_of_mem ?_
    intro u v hu hv hd r hr1 q hq
    have h1 := (hin u hu r hr1).1
    have h2 := (hin v hv q hq).1
    exact disj_symm (disj_of_inside (disj_symm (disj_of_inside hd h1)) h2)
  · intro r hrm
    obtain ⟨u, hu, hur⟩ := List.mem_filterMap.1 (hr.1.live.mem_iff.1 hrm)
    exact (hin u hu r hur).2.2
  · intro r hrm
    obtain ⟨u, hu, hur⟩ := List.mem_filterMap.1 (hr.1.live.mem_iff.1 hrm)
    obtain ⟨b, hb, hib⟩ := unit_inside hr.1.adj hu
    refine ⟨b, hr.1.blk.mem_iff.2 hb, ?_⟩
    have := (hin u hu r hur).1
    unfold inside at *; omega
  · intro r hrm a ha
    obtain ⟨u, hu, hur⟩ := List.mem_filterMap.1 (hr.1.live.mem_iff.1 hrm)
    obtain ⟨v, hv, rfl⟩ := isUnit_mem hr.2 ha
    obtain ⟨h1, h2, _⟩ := hin u hu r hur
    by_cases huv : u = v
    · subst huv
      right; exact h2
    · have hdj := hr.1.dj
      rw [List.pairwise_map] at hdj
      have := disj_of_inside (hdj.forall hu hv huv) h1
      unfold disj U.rng at *
      simp only at *; omega

/-- **C10.** Every valid operation is defined: no corrupted header is touched and no list is cyclic. An allocation adds exactly
its range to the live ones, a release removes exactly the released one. -/
theorem heap_valid_defined (s : Heap × List Range) (h : Reach (fun _ => True) s) (op : Op) (hv : valid s op) :
    ∃ s', step s op = some s' ∧ match op with
      | .alloc n _ => ∃ ptr, s'.2 = (ptr, n) :: s.2
      | .release ptr n => s'.2 = s.2.erase (ptr, n)
      | .write _ _ => s'.2 = s.2 := by
  have hi := heap_reach_inv h
  cases op with
  | alloc n b =>
    obtain ⟨s', ptr, e, h2, _⟩ := alloc_inv hi hv (fun hf => hf.elim)
    exact ⟨s', e, ptr, h2⟩
  | release ptr n =>
    obtain ⟨s', e, h2, _⟩ := release_inv hi hv
    exact ⟨s', e, h2⟩
  | write x v => exact ⟨_, rfl, rfl⟩

theorem heap_all_free {s : Heap × List Range} (h : Reach (fun _ => True) s) (he : s.2 = []) :
    ∃ us fs, R False s.1 us fs [] ∧ (∀ u ∈ us, u.isUsed = false) ∧ (∀ u ∈ us, u.isFree = true) ∧
      blocks us = us.map U.rng := by
  obtain ⟨us, fs, hr, hna, hl⟩ := heap_reach_inv h
  rw [he] at hr
  have hu : ∀ u ∈ us, u.isUsed = false := by
    intro u hu
    by_contra hc
    obtain ⟨n, hn⟩ := isUsed_st (show u.isUsed = true by simpa using hc)
    have : (u.ptr, n) ∈ us.filterMap U.live := List.mem_filterMap.2 ⟨u, hu, by simp [U.live, hn]⟩
    rw [← hr.1.live.mem_iff] at this
    cases this
  refine ⟨us, fs, hr, hu, ?_, blocks_all_free (all_free (al := False) hr.1.adj hna hu)⟩
  intro u hm
  have := free_of_not (hu u hm) (hl u hm)
  simp [U.isFree, this]

/-- **C11.** When every allocation has been released, in whatever order, the list of units consists of exactly one free unit for
each block obtained from the base allocator, covering the whole block. -/
theorem heap_coalesces (s : Heap × List Range) (h : Reach (fun _ => True) s) (he : s.2 = []) :
    ∃ l, ListFrom s.1 s.1.units l ∧ s.1.base.Perm (l.map (fun a => (a, s.1.size a + hsz))) ∧
      ∀ a ∈ l, s.1.alloc a = false := by
  obtain ⟨us, fs, hr, hu, hf, hb⟩ := heap_all_free h he
  refine ⟨us.map U.addr, ?_, ?_, ?_⟩
  · rw [hr.2.uhead]
    refine listFrom_of_seg _ none hr.2.useg ?_
    intro a ha
    obtain ⟨u, hu, rfl⟩ := List.mem_map.1 ha
    exact hr.2.ok u hu
  · have := hr.1.blk
    rw [hb] at this
    rw [List.map_map]
    have e : us.map ((fun a => (a, s.1.size a + hsz)) ∘ U.addr) = us.map U.rng := by
      apply List.map_congr_left
      intro u hu
      simp only [Function.comp, hr.2.size u hu, U.rng, Nat.add_comm]
    rw [e]; exact this
  · intro a ha
    obtain ⟨u, hm, rfl⟩ := List.mem_map.1 ha
    rw [hr.2.alloc u hm, hu u hm]

/-- **C11.** Destroying the allocator when every allocation has been released is defined and gives every base block back
exactly once with its size. -/
theorem heap_destroy_returns_all (s : Heap × List Range) (h : Reach (fun _ => True) s) (he : s.2 = []) :
    ∃ h', s.1.destroy = some h' ∧ h'.base = [] := by
  obtain ⟨us, fs, hr, hu, hf, hb⟩ := heap_all_free h he
  have hper : fs.Perm (us.map U.addr) := by
    have := hr.2.fperm
    rwa [List.filter_eq_self.2 hf] at this
  have e : us.map ((fun a => (a, s.1.size a + hsz)) ∘ U.addr) = us.map U.rng := by
    apply List.map_congr_left
    intro u hu
    simp only [Function.comp, hr.2.size u hu, U.rng, Nat.add_comm]
  have hper2 : (fs.map (fun a => (a, s.1.size a + hsz))).Perm (us.map U.rng) := by
    have := hper.map (fun a => (a, s.1.size a + hsz))
    rw [List.map_map, e] at this
    exact this
  unfold destroy
  rw [hr.2.fhead]
  refine destroyFrom_spec fs s.1 none hr.2.fseg ?_ ?_ ?_
  · intro x hx
    obtain ⟨u, hu, _, rfl⟩ := hr.2.free_unit hx
    exact hr.2.ok u hu
  · have := hr.1.blk
    rw [hb] at this
    exact this.trans hper2.symm
  · rw [pairwise_disj_perm hper2]; exact hr.1.dj

/-- Allocating from the first free unit. -/
theorem heap_alloc_first {h : Heap} {n b u : Nat} (hf : h.free = some u) (hok : h.ok u = true) (hs : n + 16 ≤ h.size u) :
    h.allocate n b = h.take n u := by
  have e : h.findFit (n + 16) (some u) = some (some u) := by
    rw [findFit]; simp [hok, hs]
  rw [allocate_eq]
  unfold chooseUnit
  rw [hf, e]
  rfl

theorem heap_reach_first {p : Nat → Prop} {s : Heap × List Range} (r : Reach p s) {n b u ptr : Nat} {h' : Heap} (hf : s.1.free = some u)
    (hok : s.1.ok u = true) (hs : n + 16 ≤ s.1.size u) (hn : 0 < n) (hp : p n)
    (hfr : Fresh s.1.base (b, (s.1.allocated + (n + 16)) * 2 + hsz)) (ht : s.1.take n u = some (h', ptr)) :
    Reach p (h', (ptr, n) :: s.2) := by
  refine Reach.step (op := .alloc n b) r ⟨hn, hfr⟩ hp ?_
  simp only [step, heap_alloc_first hf hok hs, ht, Option.bind_eq_bind, Option.bind_some]
  rfl

/-- Heaps of the examples: 1000 bytes at 1600; one byte allocated; five bytes allocated; the first one released. -/
def heapEx0 : Heap := (Heap.init 1000 1600).get rfl
def heapEx1 : Heap := ((heapEx0.take 1 1600).get rfl).1
def heapEx2 : Heap := ((heapEx1.take 5 1665).get rfl).1
def heapEx3 : Heap := (heapEx2.release 1664).get rfl

theorem heapEx0_reach : Reach (fun _ => True) (heapEx0, []) := .init (n0 := 1000) (b := 1600) (by omega) trivial rfl rfl

theorem heapEx1_reach : Reach (fun _ => True) (heapEx1, [(1664, 1)]) :=
  heap_reach_first (b := 8000) (u := 1600) heapEx0_reach rfl rfl (by decide) (by decide) trivial (by decide) rfl

/-- Two allocations and a release. -/
example : ∃ s, Reach (fun _ => True) s ∧ s.2 = [(1728, 5)] := by
  have r2 : Reach (fun _ => True) (heapEx2, [(1728, 5), (1664, 1)]) :=
    heap_reach_first (b := 8000) (u := 1665) heapEx1_reach rfl rfl (by decide) (by decide) trivial (by decide) rfl
  have r3 : Reach (fun _ => True) (heapEx3, [(1728, 5)]) := Reach.step (op := .release 1664 1) r2 (by simp [valid]) trivial rfl
  exact ⟨_, r3, rfl⟩

/-- Everything released. -/
example : ∃ s, Reach (fun _ => True) s ∧ s.2 = [] ∧ s.1.base = [(1600, 1048)] :=
  ⟨_, Reach.step (op := .release 1664 1) heapEx1_reach (by simp [valid]) trivial rfl, rfl, rfl⟩

/-- **C60 is violated.** After a single allocation of one byte the header of the second unit is constructed at an
address that is not a multiple of 8 (the alignment of a structure of pointers). -/
theorem heap_header_misaligned : ∃ s, Reach (fun _ => True) s ∧ ∃ a, IsUnit s.1 a ∧ a % 8 ≠ 0 :=
  ⟨_, heapEx1_reach, 1665, .next (.head (a := 1600) rfl) rfl, by decide⟩

/-- **C60 is violated.** A request that is not a multiple of 8 and does not fit makes the allocator ask the base allocator for a
number of bytes that is not a multiple of 16, which the default allocator does not accept. -/
theorem heap_base_request_not_multiple : ∃ s s' op, Reach (fun _ => True) s ∧ valid s op ∧ step s op = some s' ∧
    ∃ r ∈ s'.1.base, r ∉ s.1.base ∧ r.2 % 16 ≠ 0 := by
  have e : heapEx0.findFit (1001 + 16) (some 1600) = some none := by
    rw [findFit]
    have h1 : heapEx0.ok 1600 = true := rfl
    have h2 : ¬ 1001 + 16 ≤ heapEx0.size 1600 := by decide
    have h3 : heapEx0.nfree 1600 = none := rfl
    simp only [h1, if_true, if_neg h2, h3]
    rw [findFit]
  have hf : heapEx0.free = some 1600 := rfl
  have hch : heapEx0.chooseUnit (1001 + 16) 8000 = some ((heapEx0.reserve 4034 8000).get rfl, 8000) := by
    unfold chooseUnit
    rw [hf, e]
    rfl
  refine ⟨_, ((((heapEx0.reserve 4034 8000).get rfl).take 1001 8000).get rfl |>.1, [(8064, 1001)]), .alloc 1001 8000, heapEx0_reach,
    ⟨by omega, by decide⟩, ?_, (8000, 4082), by decide, by decide, by decide⟩
  simp only [step, allocate_eq, hch, Option.bind_eq_bind, Option.bind_some]
  rfl

theorem blocks_al {us : List U} (h : ∀ u ∈ us, u.addr % 16 = 0 ∧ u.size % 16 = 0) : ∀ b ∈ blocks us, b.2 % 16 = 0 := by
  induction us with
  | nil => simp [blocks]
  | cons u l ih =>
    have ih := ih (fun v hv => h v (List.mem_cons_of_mem _ hv))
    have hu := h u (List.mem_cons_self ..)
    intro b hb
    rw [blocks] at hb
    by_cases hc : u.contig
    · rw [if_pos hc] at hb
      cases hbl : blocks l with
      | nil => rw [hbl] at hb; cases hb
      | cons c bs =>
        rw [hbl] at hb ih
        rcases List.mem_cons.1 hb with rfl | hb
        · have := ih c (List.mem_cons_self ..)
          unfold hsz; simp only; omega
        · exact ih b (List.mem_cons_of_mem _ hb)
    · rw [if_neg hc] at hb
      rcases List.mem_cons.1 hb with rfl | hb
      · unfold U.rng hsz; simp only; omega
      · exact ih b hb

/-- **C60, partial** (missing: requests of other sizes, for which it is false). When all requested sizes and the initial size
are multiples of 16, all unit headers are 16-byte aligned and all requests to the base allocator are multiples of 16. -/
theorem heap_headers_aligned_partial (s : Heap × List Range) (h : Reach (fun n => n % 16 = 0) s) :
    (∀ a, IsUnit s.1 a → a % 16 = 0) ∧ ∀ r ∈ s.1.base, r.2 % 16 = 0 := by
  obtain ⟨us, fs, hr, _, _⟩ := reach_inv (al := True) (fun _ n hn => hn) h
  have hal := (hr.1.al16 trivial).1
  constructor
  · intro a ha
    obtain ⟨u, hu, rfl⟩ := isUnit_mem hr.2 ha
    exact (hal u hu).1
  · intro r hrm
    exact blocks_al hal r (hr.1.blk.mem_iff.1 hrm)

/-- A history whose sizes are multiples of 16. -/
example : ∃ s, Reach (fun n => n % 16 = 0) s ∧ s.2 = [(1664, 32)] := by
  have r0 : Reach (fun n => n % 16 = 0) ((Heap.init 1600 1600).get rfl, []) := .init (n0 := 1600) (b := 1600) (by omega) rfl rfl rfl
  have r1 : Reach (fun n => n % 16 = 0) ((((Heap.init 1600 1600).get rfl).take 32 1600).get rfl |>.1, [(1664, 32)]) :=
    heap_reach_first (b := 8000) (u := 1600) r0 rfl rfl (by decide) (by decide) rfl (by decide) rfl
  exact ⟨_, r1, rfl⟩

end RP3D
