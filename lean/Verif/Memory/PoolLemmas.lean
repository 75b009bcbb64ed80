import Verif.Memory.Pool

/-! Helper lemmas for the pool allocator. -/

namespace RP3D
namespace Pool

theorem heapIndex_eq (n : Nat) : heapIndex (n + 1) = n / 16 := by
  induction n with
  | zero => rfl
  | succ n ih =>
    rw [heapIndex, ih]
    unfold unitSize
    split_ifs <;> omega

theorem heapIndex_lt {size : Nat} (h0 : size ≠ 0) (h : ¬ size > maxUnit) : heapIndex size < nbHeaps := by
  obtain ⟨n, rfl⟩ := Nat.exists_eq_succ_of_ne_zero h0
  rw [Nat.succ_eq_add_one, heapIndex_eq]
  unfold nbHeaps; unfold maxUnit at h; omega

theorem size_le_unit (size : Nat) : size ≤ unitSize (heapIndex size) := by
  cases size with
  | zero => exact Nat.zero_le _
  | succ n => rw [heapIndex_eq]; unfold unitSize; omega

/-- The free list `l` starts at `h` in the memory. -/
def Chain (mem : Nat → Option Nat) : Option Nat → List Nat → Prop
  | h, [] => h = none
  | h, a :: l => h = some a ∧ Chain mem (mem a) l

theorem Chain.congr {mem mem' : Nat → Option Nat} {l : List Nat} : ∀ {h : Option Nat}, Chain mem h l →
    (∀ a ∈ l, mem' a = mem a) → Chain mem' h l := by
  induction l with
  | nil => intro h hc _; exact hc
  | cons a l ih =>
    intro h hc hm
    refine ⟨hc.1, ?_⟩
    rw [hm a (List.mem_cons_self ..)]
    exact ih hc.2 (fun b hb => hm b (List.mem_cons_of_mem _ hb))

/-- All the free units with their sizes. -/
def tag (F : Nat → List Nat) : List Range :=
  (List.range nbHeaps).flatMap (fun i => (F i).map (fun a => (a, unitSize i)))

theorem tag_upd (F : Nat → List Nat) {i : Nat} (hi : i < nbHeaps) (l : List Nat) :
    ∃ rest, (tag F).Perm ((F i).map (fun a => (a, unitSize i)) ++ rest) ∧
      (tag (upd F i l)).Perm (l.map (fun a => (a, unitSize i)) ++ rest) := by
  have hmem : i ∈ List.range nbHeaps := List.mem_range.2 hi
  have hp := List.perm_cons_erase hmem
  have hnd : i ∉ (List.range nbHeaps).erase i := by
    intro hh
    exact ((List.nodup_cons).1 (hp.nodup_iff.1 List.nodup_range)).1 hh
  refine ⟨((List.range nbHeaps).erase i).flatMap (fun i => (F i).map (fun a => (a, unitSize i))), ?_, ?_⟩
  · unfold tag
    refine (hp.flatMap_right _).trans ?_
    rw [List.flatMap_cons]
  · unfold tag
    refine (hp.flatMap_right _).trans ?_
    rw [List.flatMap_cons, upd_same]
    refine List.Perm.append_left _ ?_
    rw [List.flatMap_congr]
    intro j hj
    have : j ≠ i := by rintro rfl; exact hnd hj
    rw [upd_ne _ _ this]

theorem mem_tag {F : Nat → List Nat} {i a : Nat} (hi : i < nbHeaps) (ha : a ∈ F i) : (a, unitSize i) ∈ tag F := by
  unfold tag
  rw [List.mem_flatMap]
  exact ⟨i, List.mem_range.2 hi, List.mem_map_of_mem ha⟩

/-- The unit that serves an allocation. -/
def unitOf (r : Range) : Range := (r.1, unitSize (heapIndex r.2))

def small (live : List Range) : List Range := live.filter (fun r => decide (r.2 ≤ maxUnit))
def large (live : List Range) : List Range := live.filter (fun r => !decide (r.2 ≤ maxUnit))

/-- The invariant: `F i` is the free list of heap `i`. -/
structure Inv (s : Pool × List Range) (F : Nat → List Nat) : Prop where
  chain : ∀ i, i < nbHeaps → Chain s.1.mem (s.1.free i) (F i)
  units : (tag F ++ (small s.2).map unitOf).Pairwise disj
  inblk : ∀ u ∈ tag F ++ (small s.2).map unitOf, ∃ b ∈ s.1.blocks, inside u (b, blockSize) ∧ u.1 % 16 = 0
  base : s.1.base.Perm (s.1.blocks.map (fun b => (b, blockSize)) ++ (s.1.arr, s.1.nbAlloc * 8) :: large s.2)
  ok : BaseOk s.1.base
  len : s.1.blocks.length ≤ s.1.nbAlloc
  pos : ∀ r ∈ s.2, 0 < r.2

theorem Inv.block_mem {s : Pool × List Range} {F : Nat → List Nat} (h : Inv s F) {b : Nat} (hb : b ∈ s.1.blocks) :
    (b, blockSize) ∈ s.1.base :=
  h.base.mem_iff.2 (List.mem_append_left _ (List.mem_map_of_mem hb))

theorem inv_init {a : Nat} (ha : a % 16 = 0) : Inv (init a, []) (fun _ => []) := by
  refine ⟨fun i _ => rfl, ?_, ?_, ?_, ?_, Nat.zero_le _, by simp⟩
  · simp [tag, small, List.flatMap]
  · simp [tag, small, List.flatMap]
  · simp [init, large]
  · refine ⟨by simp [init], ?_⟩
    intro r hr
    simp [init] at hr
    rw [hr]; exact ha

theorem unit_pos (i : Nat) : 0 < unitSize i := by unfold unitSize; omega

theorem blockUnits_pos {i : Nat} (hi : i < nbHeaps) : 0 < blockSize / unitSize i ∧
    blockSize / unitSize i * unitSize i ≤ blockSize := by
  refine ⟨Nat.div_pos ?_ (unit_pos i), Nat.div_mul_le_self _ _⟩
  unfold unitSize blockSize; unfold nbHeaps at hi; omega

/-- The units of a new block. -/
def unitsOf (b u n : Nat) : List Range := (List.range n).map (fun k => (b + k * u, u))

theorem unitsOf_pairwise (b u n : Nat) : (unitsOf b u n).Pairwise disj := by
  unfold unitsOf
  rw [List.pairwise_map]
  refine List.Pairwise.imp ?_ (List.pairwise_lt_range (n := n))
  intro i j hij
  left
  show b + i * u + u ≤ b + j * u
  have : (i + 1) * u ≤ j * u := Nat.mul_le_mul_right _ hij
  rw [Nat.add_mul] at this; omega

theorem unitsOf_inside {b u n : Nat} {r : Range} (h : r ∈ unitsOf b u n) : inside r (b, n * u) := by
  unfold unitsOf at h
  obtain ⟨k, hk, rfl⟩ := List.mem_map.1 h
  have hk := List.mem_range.1 hk
  have : (k + 1) * u ≤ n * u := Nat.mul_le_mul_right _ hk
  rw [Nat.add_mul] at this
  unfold inside; simp only; omega

theorem chainUnits_at {mem : Nat → Option Nat} {b u k : Nat} (hu : 0 < u) (hk : k < blockSize / u) :
    chainUnits mem b u (b + k * u) = if k + 1 < blockSize / u then some (b + (k + 1) * u) else none := by
  unfold chainUnits
  have h1 : b + k * u - b = k * u := by omega
  rw [h1, Nat.mul_mod_left, Nat.mul_div_cancel _ hu, if_pos ⟨by omega, rfl, hk⟩]
  have : b + k * u + u = b + (k + 1) * u := by ring
  rw [this]

theorem chainUnits_outside {mem : Nat → Option Nat} {b u x : Nat} (hu : 0 < u) (hx : x < b ∨ b + blockSize ≤ x) :
    chainUnits mem b u x = mem x := by
  unfold chainUnits
  rw [if_neg]
  rintro ⟨h1, h2, h3⟩
  rcases hx with hx | hx
  · omega
  · have : (x - b) / u * u = x - b := by
      have := Nat.div_add_mod (x - b) u
      rw [h2] at this; rw [Nat.mul_comm]; omega
    have h4 : ((x - b) / u + 1) * u ≤ blockSize / u * u := Nat.mul_le_mul_right _ h3
    have h5 : blockSize / u * u ≤ blockSize := Nat.div_mul_le_self _ _
    rw [Nat.add_mul] at h4; omega

theorem chain_block {mem : Nat → Option Nat} {b u : Nat} (hu : 0 < u) : ∀ (m k : Nat), k + m + 1 = blockSize / u →
    Chain (chainUnits mem b u) (chainUnits mem b u (b + k * u)) ((List.range' (k + 1) m).map (fun j => b + j * u)) := by
  intro m
  induction m with
  | zero =>
    intro k hk
    rw [chainUnits_at hu (by omega), if_neg (by omega)]
    rfl
  | succ m ih =>
    intro k hk
    rw [chainUnits_at hu (by omega), if_pos (by omega), List.range'_succ, List.map_cons]
    exact ⟨rfl, ih (k + 1) (by omega)⟩

/-- Growth of the array of blocks keeps the invariant. -/
theorem growArray_inv {p : Pool} {live : List Range} {F : Nat → List Nat} (h : Inv (p, live) F) {a : Nat}
    (ha : Fresh p.base (a, (p.nbAlloc + 64) * 8)) :
    ∃ p', p.growArray a = some p' ∧ Inv (p', live) F ∧ p'.blocks.length < p'.nbAlloc ∧ p'.free = p.free := by
  unfold growArray
  by_cases he : p.blocks.length = p.nbAlloc
  · rw [if_pos he, he]
    have hmem : (p.arr, p.nbAlloc * 8) ∈ p.base := h.base.mem_iff.2 (by simp)
    have hb1 : BaseOk ((a, (p.nbAlloc + 64) * 8) :: p.base) := h.ok.cons ha
    have hmem' : (p.arr, p.nbAlloc * 8) ∈ (a, (p.nbAlloc + 64) * 8) :: p.base := List.mem_cons_of_mem _ hmem
    refine ⟨Pool.mk p.free p.mem p.blocks a (p.nbAlloc + 64)
      (((a, (p.nbAlloc + 64) * 8) :: p.base).erase (p.arr, p.nbAlloc * 8)), ?_, ?_, ?_, rfl⟩
    · simp only [baseRelease, if_pos hmem', Option.bind_eq_bind, Option.bind_some]; rfl
    · refine ⟨h.chain, h.units, h.inblk, ?_, hb1.erase hmem', ?_, h.pos⟩
      · have hp : ((a, (p.nbAlloc + 64) * 8) :: p.base).Perm ((p.arr, p.nbAlloc * 8) ::
            (p.blocks.map (fun b => (b, blockSize)) ++ (a, (p.nbAlloc + 64) * 8) :: large live)) := by
          refine (List.Perm.cons _ h.base).trans ?_
          refine (List.Perm.cons _ List.perm_middle).trans ?_
          refine (List.Perm.swap _ _ _).trans ?_
          exact List.Perm.cons _ List.perm_middle.symm
        have := hp.erase (p.arr, p.nbAlloc * 8)
        rwa [List.erase_cons_head] at this
      · show p.blocks.length ≤ p.nbAlloc + 64
        omega
    · show p.blocks.length < p.nbAlloc + 64
      omega
  · rw [if_neg he]
    exact ⟨p, rfl, h, by have := h.len; simp only at this; omega, rfl⟩

theorem small_cons {live : List Range} {r : Range} (h : ¬ r.2 > maxUnit) : small (r :: live) = r :: small live ∧
    large (r :: live) = large live := by
  unfold small large
  have : r.2 ≤ maxUnit := by omega
  constructor <;> simp [this]

theorem large_cons {live : List Range} {r : Range} (h : r.2 > maxUnit) : small (r :: live) = small live ∧
    large (r :: live) = r :: large live := by
  unfold small large
  have : ¬ r.2 ≤ maxUnit := by omega
  constructor <;> simp [this]

theorem small_perm {l l' : List Range} (h : l.Perm l') : (small l).Perm (small l') ∧ (large l).Perm (large l') :=
  ⟨h.filter _, h.filter _⟩

/-- A block of the pool is disjoint from the ranges inside of other blocks. -/
theorem Inv.disj_fresh {s : Pool × List Range} {F : Nat → List Nat} (h : Inv s F) {r : Range} (hr : Fresh s.1.base r)
    {u : Range} (hu : u ∈ tag F ++ (small s.2).map unitOf) : disj u r := by
  obtain ⟨b, hb, hin, _⟩ := h.inblk u hu
  exact disj_of_inside (disj_symm (hr.2 _ (h.block_mem hb))) hin

/-- Replacing the units of the invariant by a permutation. -/
theorem Inv.of_perm {s s' : Pool × List Range} {F F' : Nat → List Nat} (h : Inv s F)
    (hp : (tag F' ++ (small s'.2).map unitOf).Perm (tag F ++ (small s.2).map unitOf))
    (hb : s'.1.blocks = s.1.blocks) (harr : s'.1.arr = s.1.arr) (hn : s'.1.nbAlloc = s.1.nbAlloc)
    (hbase : s'.1.base = s.1.base) (hl : (large s'.2).Perm (large s.2)) (hpos : ∀ r ∈ s'.2, 0 < r.2)
    (hc : ∀ i, i < nbHeaps → Chain s'.1.mem (s'.1.free i) (F' i)) : Inv s' F' := by
  refine ⟨hc, (pairwise_disj_perm hp).2 h.units, ?_, ?_, by rw [hbase]; exact h.ok, by rw [hb, hn]; exact h.len, hpos⟩
  · intro u hu
    rw [hb]
    exact h.inblk u (hp.mem_iff.1 hu)
  · rw [hbase, hb, harr, hn]
    exact h.base.trans (List.Perm.append_left _ (List.Perm.cons _ hl.symm))

/-- A live small allocation is at no free unit. -/
theorem Inv.ptr_not_free {s : Pool × List Range} {F : Nat → List Nat} (h : Inv s F) {r : Range} (hr : r ∈ s.2)
    (hs : ¬ r.2 > maxUnit) {i a x : Nat} (hi : i < nbHeaps) (ha : a ∈ F i) (hx : r.1 ≤ x ∧ x < r.1 + unitSize (heapIndex r.2)) :
    a ≠ x := by
  have h1 : (a, unitSize i) ∈ tag F := mem_tag hi ha
  have h2 : unitOf r ∈ (small s.2).map unitOf := by
    apply List.mem_map_of_mem
    unfold small
    rw [List.mem_filter]
    exact ⟨hr, by simp; omega⟩
  have := (List.pairwise_append.1 h.units).2.2 _ h1 _ h2
  have hp := unit_pos i
  unfold disj unitOf at this
  simp only at this
  rintro rfl
  omega

theorem alloc_inv {s : Pool × List Range} {F : Nat → List Nat} (h : Inv s F) {size a1 a2 : Nat}
    (hv : valid s (.alloc size a1 a2)) :
    ∃ s' F', step s (.alloc size a1 a2) = some s' ∧ Inv s' F' ∧
      (if size = 0 then s'.2 = s.2 else ∃ ptr, s'.2 = (ptr, size) :: s.2) := by
  by_cases h0 : size = 0
  · subst h0
    exact ⟨s, F, by simp [step, allocate], h, by simp⟩
  · simp only [if_neg h0]
    by_cases hl : size > maxUnit
    · simp only [valid, if_pos hl] at hv
      refine ⟨({ s.1 with base := (a2, size) :: s.1.base }, (a2, size) :: s.2), F, ?_, ?_, a2, rfl⟩
      · simp [step, allocate, h0, hl]
      · obtain ⟨e1, e2⟩ := large_cons (live := s.2) (r := (a2, size)) hl
        refine ⟨h.chain, ?_, ?_, ?_, h.ok.cons hv, h.len, ?_⟩
        · rw [e1]; exact h.units
        · rw [e1]; exact h.inblk
        · rw [e2]
          refine (List.Perm.cons _ h.base).trans ?_
          show (_ :: (_ ++ _)).Perm _
          refine List.perm_middle.symm.trans ?_
          refine List.Perm.append_left _ ?_
          exact List.Perm.swap _ _ _
        · intro r hr
          rcases List.mem_cons.1 hr with rfl | hr
          · simp only; omega
          · exact h.pos r hr
    · simp only [valid, if_neg hl] at hv
      have hi := heapIndex_lt h0 hl
      have hposl : ∀ ptr : Nat, ∀ r ∈ (ptr, size) :: s.2, 0 < r.2 := by
        intro ptr r hr
        rcases List.mem_cons.1 hr with rfl | hr
        · simp only; omega
        · exact h.pos r hr
      cases hf : s.1.free (heapIndex size) with
      | some u =>
        have hch := h.chain _ hi
        rw [hf] at hch
        obtain ⟨l, hFl, hcl⟩ : ∃ l, F (heapIndex size) = u :: l ∧ Chain s.1.mem (s.1.mem u) l := by
          cases hF : F (heapIndex size) with
          | nil => rw [hF] at hch; cases hch
          | cons a l =>
            rw [hF] at hch
            obtain ⟨e, hc⟩ := hch
            cases e
            exact ⟨l, rfl, hc⟩
        obtain ⟨e1, e2⟩ := small_cons (live := s.2) (r := (u, size)) hl
        refine ⟨({ s.1 with free := upd s.1.free (heapIndex size) (s.1.mem u) }, (u, size) :: s.2),
          upd F (heapIndex size) l, ?_, ?_, u, rfl⟩
        · simp [step, allocate, h0, hl, hf]
        · refine h.of_perm ?_ rfl rfl rfl rfl ?_ (hposl u) ?_
          · rw [e1, List.map_cons]
            obtain ⟨rest, t1, t2⟩ := tag_upd F hi l
            rw [hFl] at t1
            refine List.perm_middle.trans ?_
            refine List.Perm.trans ?_ (t1.append_right _).symm
            rw [List.map_cons, List.cons_append, List.cons_append]
            exact List.Perm.cons _ (t2.append_right _)
          · rw [e2]
          · intro i hi'
            show Chain s.1.mem (upd s.1.free (heapIndex size) (s.1.mem u) i) (upd F (heapIndex size) l i)
            by_cases hii : i = heapIndex size
            · subst hii; rw [upd_same, upd_same]; exact hcl
            · rw [upd_ne _ _ hii, upd_ne _ _ hii]; exact h.chain i hi'
      | none =>
        obtain ⟨p1, g1, g2, g3, g4⟩ := growArray_inv (p := s.1) (live := s.2) h hv.1
        have hfr := hv.2 p1 g1
        set i := heapIndex size with hidef
        have hFi : F i = [] := by
          have hch := h.chain _ hi
          rw [hf] at hch
          cases hF : F i with
          | nil => rfl
          | cons a l => rw [hF] at hch; cases hch.1
        set n := blockSize / unitSize i with hn
        obtain ⟨hn0, hnle⟩ := blockUnits_pos hi
        rw [← hn] at hn0 hnle
        have hu := unit_pos i
        have hbin : ∀ r ∈ unitsOf a2 (unitSize i) n, inside r (a2, blockSize) := by
          intro r hr
          have := unitsOf_inside hr
          unfold inside at this ⊢
          simp only at this ⊢; omega
        set l' := (List.range' 1 (n - 1)).map (fun j => a2 + j * unitSize i) with hl'
        have hunits : unitsOf a2 (unitSize i) n = (a2, unitSize i) :: l'.map (fun a => (a, unitSize i)) := by
          unfold unitsOf
          have hr : List.range n = 0 :: List.range' 1 (n - 1) := by
            rw [List.range_eq_range']
            obtain ⟨m, hm⟩ : ∃ m, n = m + 1 := ⟨n - 1, by omega⟩
            rw [hm, List.range'_succ]
            simp
          rw [hr, List.map_cons, hl', List.map_map]
          simp [Function.comp]
        obtain ⟨e1, e2⟩ := small_cons (live := s.2) (r := (a2, size)) hl
        have hperm : (tag (upd F i l') ++ (small ((a2, size) :: s.2)).map unitOf).Perm
            (unitsOf a2 (unitSize i) n ++ (tag F ++ (small s.2).map unitOf)) := by
          rw [e1, List.map_cons, hunits]
          obtain ⟨rest, t1, t2⟩ := tag_upd F hi l'
          rw [hFi, List.map_nil, List.nil_append] at t1
          refine List.perm_middle.trans ?_
          rw [List.cons_append]
          refine List.Perm.cons _ ?_
          refine (t2.append_right _).trans ?_
          rw [List.append_assoc]
          exact List.Perm.append_left _ (t1.symm.append_right _)
        refine ⟨(p1.newBlock i a2, (a2, size) :: s.2), upd F i l', ?_, ?_, a2, rfl⟩
        · simp [step, allocate, h0, hl, ← hidef, hf, g1, g3]
        · refine ⟨?_, ?_, ?_, ?_, ?_, ?_, hposl a2⟩
          · intro j hj
            show Chain (chainUnits p1.mem a2 (unitSize i)) (upd p1.free i (chainUnits p1.mem a2 (unitSize i) a2) j) (upd F i l' j)
            by_cases hji : j = i
            · subst hji
              rw [upd_same, upd_same]
              have := chain_block (mem := p1.mem) (b := a2) hu (n - 1) 0 (by omega)
              simpa [hl'] using this
            · rw [upd_ne _ _ hji, upd_ne _ _ hji]
              refine Chain.congr (g2.chain j hj) ?_
              intro a ha
              apply chainUnits_outside hu
              have := g2.disj_fresh hfr (u := (a, unitSize j)) (List.mem_append_left _ (mem_tag hj ha))
              unfold disj at this
              have hup := unit_pos j
              simp only at this; omega
          · rw [pairwise_disj_perm hperm, List.pairwise_append]
            refine ⟨unitsOf_pairwise _ _ _, h.units, ?_⟩
            intro r hr u hu'
            have := g2.disj_fresh hfr hu'
            exact disj_of_inside (disj_symm this) (hbin r hr)
          · intro u hu'
            rcases List.mem_append.1 (hperm.mem_iff.1 hu') with hu' | hu'
            · refine ⟨a2, List.mem_cons_self .., hbin u hu', ?_⟩
              unfold unitsOf at hu'
              obtain ⟨k, _, rfl⟩ := List.mem_map.1 hu'
              have h16 := hfr.1
              show (a2 + k * ((i + 1) * 16)) % 16 = 0
              simp only at h16
              rw [← Nat.mul_assoc, Nat.add_mul_mod_self_right]; exact h16
            · obtain ⟨b, hb, hin⟩ := g2.inblk u hu'
              exact ⟨b, List.mem_cons_of_mem _ hb, hin⟩
          · rw [e2]
            exact List.Perm.cons _ g2.base
          · exact g2.ok.cons hfr
          · exact g3

theorem release_inv {s : Pool × List Range} {F : Nat → List Nat} (h : Inv s F) {ptr size : Nat}
    (hv : valid s (.release ptr size)) :
    ∃ s' F', step s (.release ptr size) = some s' ∧ Inv s' F' ∧ s'.2 = s.2.erase (ptr, size) := by
  have hv' : (ptr, size) ∈ s.2 := hv
  have hpos := h.pos _ hv'
  have h0 : size ≠ 0 := by simp only at hpos; omega
  have hper := List.perm_cons_erase hv'
  have hpos' : ∀ r ∈ s.2.erase (ptr, size), 0 < r.2 := fun r hr => h.pos r (List.mem_of_mem_erase hr)
  obtain ⟨sm, lg⟩ := small_perm hper
  by_cases hl : size > maxUnit
  · obtain ⟨e1, e2⟩ := large_cons (live := s.2.erase (ptr, size)) (r := (ptr, size)) hl
    rw [e1] at sm; rw [e2] at lg
    have hmem : (ptr, size) ∈ s.1.base := by
      rw [h.base.mem_iff]
      apply List.mem_append_right
      apply List.mem_cons_of_mem
      exact lg.mem_iff.2 (List.mem_cons_self ..)
    refine ⟨({ s.1 with base := s.1.base.erase (ptr, size) }, s.2.erase (ptr, size)), F, ?_, ?_, rfl⟩
    · simp only [step, release, h0, hl, if_true, if_false, baseRelease, hmem]; rfl
    · refine ⟨h.chain, ?_, ?_, ?_, h.ok.erase hmem, h.len, hpos'⟩
      · rw [pairwise_disj_perm (List.Perm.append_left _ (sm.symm.map unitOf))]; exact h.units
      · intro u hu
        exact h.inblk u ((List.Perm.append_left _ (sm.symm.map unitOf)).mem_iff.1 hu)
      · have hb := h.base
        have : (s.1.blocks.map (fun b => (b, blockSize)) ++ (s.1.arr, s.1.nbAlloc * 8) :: large s.2).Perm
            ((ptr, size) :: (s.1.blocks.map (fun b => (b, blockSize)) ++ (s.1.arr, s.1.nbAlloc * 8) ::
              large (s.2.erase (ptr, size)))) := by
          refine (List.Perm.append_left _ (List.Perm.cons _ lg)).trans ?_
          refine (List.Perm.append_left _ (List.Perm.swap _ _ _)).trans ?_
          exact List.perm_middle
        have := ((hb.trans this).erase (ptr, size))
        rwa [List.erase_cons_head] at this
  · have hi := heapIndex_lt h0 hl
    obtain ⟨e1, e2⟩ := small_cons (live := s.2.erase (ptr, size)) (r := (ptr, size)) hl
    rw [e1] at sm; rw [e2] at lg
    set i := heapIndex size with hidef
    refine ⟨({ s.1 with mem := upd s.1.mem ptr (s.1.free i), free := upd s.1.free i (some ptr) }, s.2.erase (ptr, size)),
      upd F i (ptr :: F i), ?_, ?_, rfl⟩
    · simp [step, release, h0, hl, ← hidef]
    · have hne : ∀ j, j < nbHeaps → ∀ a ∈ F j, a ≠ ptr := by
        intro j hj a ha
        exact h.ptr_not_free hv' hl hj ha ⟨le_refl _, by have := unit_pos (heapIndex size); simp only; omega⟩
      refine h.of_perm ?_ rfl rfl rfl rfl lg.symm hpos' ?_
      · obtain ⟨rest, t1, t2⟩ := tag_upd F hi (ptr :: F i)
        refine (t2.append_right _).trans ?_
        refine List.Perm.trans ?_ (List.Perm.append_left _ (sm.map unitOf)).symm
        rw [List.map_cons, List.map_cons, List.cons_append, List.cons_append]
        refine List.Perm.trans ?_ List.perm_middle.symm
        exact List.Perm.cons _ (t1.symm.append_right _)
      · intro j hj
        show Chain (upd s.1.mem ptr (s.1.free i)) (upd s.1.free i (some ptr) j) (upd F i (ptr :: F i) j)
        by_cases hji : j = i
        · subst hji
          rw [upd_same, upd_same]
          refine ⟨rfl, ?_⟩
          rw [upd_same]
          exact Chain.congr (h.chain _ hj) (fun a ha => upd_ne _ _ (hne _ hj a ha))
        · rw [upd_ne _ _ hji, upd_ne _ _ hji]
          exact Chain.congr (h.chain _ hj) (fun a ha => upd_ne _ _ (hne _ hj a ha))

theorem Inv.large_mem {s : Pool × List Range} {F : Nat → List Nat} (h : Inv s F) {r : Range} (hr : r ∈ s.2)
    (hl : r.2 > maxUnit) : r ∈ s.1.base := by
  rw [h.base.mem_iff]
  apply List.mem_append_right
  apply List.mem_cons_of_mem
  unfold large
  rw [List.mem_filter]
  exact ⟨hr, by simp; omega⟩

/-- Pool blocks, the array and large allocations are pairwise disjoint. -/
theorem Inv.blk_large {s : Pool × List Range} {F : Nat → List Nat} (h : Inv s F) {r : Range} (hr : r ∈ s.2)
    (hl : r.2 > maxUnit) {b : Nat} (hb : b ∈ s.1.blocks) : disj (b, blockSize) r := by
  have hp := (pairwise_disj_perm h.base).1 h.ok.disj
  refine (List.pairwise_append.1 hp).2.2 _ (List.mem_map_of_mem hb) _ ?_
  apply List.mem_cons_of_mem
  unfold large
  rw [List.mem_filter]
  exact ⟨hr, by simp; omega⟩

theorem write_inv {s : Pool × List Range} {F : Nat → List Nat} (h : Inv s F) {x : Nat} {v : Option Nat}
    (hv : valid s (.write x v)) : Inv ({ s.1 with mem := upd s.1.mem x v }, s.2) F := by
  obtain ⟨r, hr, h1, h2⟩ := hv
  refine ⟨?_, h.units, h.inblk, h.base, h.ok, h.len, h.pos⟩
  intro i hi
  refine Chain.congr (h.chain i hi) ?_
  intro a ha
  apply upd_ne
  by_cases hl : r.2 > maxUnit
  · obtain ⟨b, hb, hin, _⟩ := h.inblk _ (List.mem_append_left _ (mem_tag hi ha))
    have hd := disj_of_inside (h.blk_large hr hl hb) hin
    have hp := unit_pos i
    unfold disj at hd
    simp only at hd
    rintro rfl
    omega
  · have := size_le_unit r.2
    exact h.ptr_not_free hr hl hi ha ⟨h1, by omega⟩

theorem step_inv {s s' : Pool × List Range} {F : Nat → List Nat} {op : Op} (h : Inv s F) (hv : valid s op)
    (hs : step s op = some s') : ∃ F', Inv s' F' := by
  cases op with
  | alloc size a1 a2 =>
    obtain ⟨s1, F', e, hi, _⟩ := alloc_inv h hv
    rw [e] at hs; cases hs; exact ⟨F', hi⟩
  | release ptr size =>
    obtain ⟨s1, F', e, hi, _⟩ := release_inv h hv
    rw [e] at hs; cases hs; exact ⟨F', hi⟩
  | write x v =>
    cases hs
    exact ⟨F, write_inv h hv⟩

theorem reach_inv {a : Nat} {s : Pool × List Range} (h : Reach a s) : ∃ F, Inv s F := by
  induction h with
  | init ha => exact ⟨_, inv_init ha⟩
  | step _ hv hs ih =>
    obtain ⟨F, hi⟩ := ih
    exact step_inv hi hv hs

theorem releaseBlocks_spec (bs : List Nat) : ∀ (rest : List Range) (base : List Range),
    base.Perm (bs.map (fun b => (b, blockSize)) ++ rest) →
    ∃ base', releaseBlocks bs base = some base' ∧ base'.Perm rest := by
  induction bs with
  | nil => intro rest base h; exact ⟨base, rfl, h⟩
  | cons b bs ih =>
    intro rest base h
    rw [List.map_cons, List.cons_append] at h
    obtain ⟨base', e, hp⟩ := ih ((b, blockSize) :: rest) base (h.trans List.perm_middle.symm)
    have hm : (b, blockSize) ∈ base' := hp.mem_iff.2 (List.mem_cons_self ..)
    refine ⟨base'.erase (b, blockSize), ?_, ?_⟩
    · simp [releaseBlocks, e, baseRelease, hm]
    · have := hp.erase (b, blockSize)
      rwa [List.erase_cons_head] at this

end Pool
end RP3D
