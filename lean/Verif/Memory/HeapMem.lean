import Verif.Memory.HeapLemmas
import Mathlib.Data.List.Pairwise

set_option linter.unusedVariables false

/-! The memory part of the invariant of the heap allocator under each function. -/

namespace RP3D
namespace Heap

theorem first_mid {l1 l2 l3 : List Nat} {a : Nat} {t t' : Option Nat} : first (l1 ++ a :: l2) t = first (l1 ++ a :: l3) t' := by
  cases l1 <;> rfl

instance : Std.Symm (fun a b : U => disj a.rng b.rng) := ⟨fun _ _ h => disj_symm h⟩

/-- The writes of `ifSet`. -/
theorem ifSet_nfree (h : Heap) (o : Option Nat) (g : Heap → Option Nat) (hok : ∀ p, o = some p → h.ok p = true) :
    h.ifSet o (fun h x => h.setNfree x (g h)) = some { h with nfree := updO h.nfree o (g h) } := by
  cases o with
  | none => rfl
  | some p => simp [ifSet, setNfree, hok p rfl, updO]

theorem ifSet_pfree (h : Heap) (o : Option Nat) (g : Heap → Option Nat) (hok : ∀ p, o = some p → h.ok p = true) :
    h.ifSet o (fun h x => h.setPfree x (g h)) = some { h with pfree := updO h.pfree o (g h) } := by
  cases o with
  | none => rfl
  | some p => simp [ifSet, setPfree, hok p rfl, updO]

theorem ifSet_prev (h : Heap) (o : Option Nat) (g : Heap → Option Nat) (hok : ∀ p, o = some p → h.ok p = true) :
    h.ifSet o (fun h x => h.setPrev x (g h)) = some { h with prev := updO h.prev o (g h) } := by
  cases o with
  | none => rfl
  | some p => simp [ifSet, setPrev, hok p rfl, updO]

/-- The result of `removeFree`. -/
def rmv (h : Heap) (u : Nat) : Heap :=
  { h with nfree := upd (updO h.nfree (h.pfree u) (h.nfree u)) u none
           pfree := upd (updO h.pfree (h.nfree u) (h.pfree u)) u none
           free := if h.free = some u then h.nfree u else h.free }

theorem removeFree_eq (h : Heap) (u : Nat) (hu : h.ok u = true) (hp : ∀ p, h.pfree u = some p → h.ok p = true)
    (hn : ∀ p, h.nfree u = some p → h.ok p = true) (hpu : h.pfree u ≠ some u) (hnu : h.nfree u ≠ some u) :
    h.removeFree u = some (h.rmv u) := by
  unfold removeFree
  rw [if_pos hu, ifSet_nfree h _ (fun h => h.nfree u) hp]
  simp only [Option.bind_eq_bind, Option.bind_some]
  have e1 : updO h.nfree (h.pfree u) (h.nfree u) u = h.nfree u := updO_ne hpu
  rw [ifSet_pfree _ _ (fun h => h.pfree u) (by simp only; rw [e1]; exact hn)]
  simp only [Option.bind_some, e1]
  unfold rmv
  by_cases hf : h.free = some u
  · simp [hf, setNfree, setPfree, hu]
  · simp [hf, setNfree, setPfree, hu]

theorem Pure.mid_ne {al : Prop} {l1 l2 : List U} {u : U} {base live : List Range} {m : Nat}
    (h : Pure al (l1 ++ u :: l2) base live m) : ∀ v ∈ l1 ++ l2, v.addr ≠ u.addr := by
  intro v hv
  have := h.disj_mid v hv
  unfold disj U.rng hsz at this
  simp only at this; omega

theorem eq_of_addr {us : List U} (hnd : (us.map U.addr).Nodup) {u v : U} (hu : u ∈ us) (hv : v ∈ us)
    (h : u.addr = v.addr) : u = v := List.inj_on_of_nodup_map hnd hu hv h

theorem Mem.free_unit {h : Heap} {us : List U} {fs : List Nat} (hm : Mem h us fs) {x : Nat} (hx : x ∈ fs) :
    ∃ u ∈ us, u.isFree = true ∧ u.addr = x := by
  have := hm.fperm.mem_iff.1 hx
  obtain ⟨u, hu, rfl⟩ := List.mem_map.1 this
  exact ⟨u, (List.mem_filter.1 hu).1, (List.mem_filter.1 hu).2, rfl⟩

theorem Mem.free_mem {h : Heap} {us : List U} {fs : List Nat} (hm : Mem h us fs) {u : U} (hu : u ∈ us)
    (hf : u.isFree = true) : u.addr ∈ fs :=
  hm.fperm.mem_iff.2 (List.mem_map_of_mem (List.mem_filter.2 ⟨hu, hf⟩))

theorem Mem.fnodup {h : Heap} {us : List U} {fs : List Nat} (hm : Mem h us fs) (hnd : (us.map U.addr).Nodup) :
    fs.Nodup := by
  rw [hm.fperm.nodup_iff]
  exact hnd.sublist (List.Sublist.map _ (List.filter_sublist))

theorem Mem.not_free {h : Heap} {us : List U} {fs : List Nat} (hm : Mem h us fs) (hnd : (us.map U.addr).Nodup)
    {u : U} (hu : u ∈ us) (hf : u.isFree = false) : u.addr ∉ fs := by
  intro hx
  obtain ⟨v, hv, hvf, he⟩ := hm.free_unit hx
  rw [eq_of_addr hnd hv hu he, hf] at hvf
  cases hvf

theorem filter_mid (l1 l2 : List U) (u : U) : (l1 ++ u :: l2).filter U.isFree =
    l1.filter U.isFree ++ ([u].filter U.isFree ++ l2.filter U.isFree) := by
  have : l1 ++ u :: l2 = l1 ++ ([u] ++ l2) := by simp
  rw [this, List.filter_append, List.filter_append]

theorem filter_free {u : U} (h : u.isFree = true) : [u].filter U.isFree = [u] := by simp [h]
theorem filter_nfree {u : U} (h : u.isFree = false) : [u].filter U.isFree = [] := by simp [h]

/-- Removing a free unit from the free list. -/
theorem Mem.remove {al : Prop} {h : Heap} {l1 l2 : List U} {fs : List Nat} {base live : List Range} {m a s : Nat} {c : Bool}
    (hp : Pure al (l1 ++ ⟨a, s, c, .free⟩ :: l2) base live m) (hm : Mem h (l1 ++ ⟨a, s, c, .free⟩ :: l2) fs) :
    h.removeFree a = some (h.rmv a) ∧ ({ h with alloc := upd h.alloc a true }).removeFree a =
      some { h.rmv a with alloc := upd h.alloc a true } ∧
    ∃ fs', Mem (h.rmv a) (l1 ++ ⟨a, s, c, .limbo⟩ :: l2) fs' := by
  have hu : (⟨a, s, c, .free⟩ : U) ∈ l1 ++ ⟨a, s, c, .free⟩ :: l2 := by simp
  have hnd := hp.nodup
  have hfnd := hm.fnodup hnd
  have hafs : a ∈ fs := hm.free_mem hu rfl
  obtain ⟨f1, f2, hfs⟩ := List.append_of_mem hafs
  subst hfs
  obtain ⟨s1, hPa, hNa, s2⟩ := seg_append.1 hm.fseg
  have hperm : (f1 ++ a :: f2).Perm (a :: (f1 ++ f2)) := List.perm_middle
  have hfnd' := hperm.nodup_iff.1 hfnd
  obtain ⟨han, _⟩ := List.nodup_cons.1 hfnd'
  have hokfs : ∀ x ∈ f1 ++ a :: f2, h.ok x = true := by
    intro x hx
    obtain ⟨v, hv, _, rfl⟩ := hm.free_unit hx
    exact hm.ok v hv
  have hp1 : ∀ p, h.pfree a = some p → p ∈ f1 := by
    intro p hh; rw [hPa] at hh; exact last_none_mem hh
  have hn1 : ∀ p, h.nfree a = some p → p ∈ f2 := by
    intro p hh; rw [hNa] at hh; exact first_none_mem hh
  have hpok : ∀ p, h.pfree a = some p → h.ok p = true := fun p hh => hokfs p (by simp [hp1 p hh])
  have hnok : ∀ p, h.nfree a = some p → h.ok p = true := fun p hh => hokfs p (by simp [hn1 p hh])
  have hpa : h.pfree a ≠ some a := fun hh => han (by simp [hp1 a hh])
  have hna : h.nfree a ≠ some a := fun hh => han (by simp [hn1 a hh])
  have hne := hp.mid_ne
  refine ⟨removeFree_eq h a (hm.ok _ hu) hpok hnok hpa hna, removeFree_eq _ a (hm.ok _ hu) hpok hnok hpa hna,
    f1 ++ f2, ?_⟩
  have hmap : (l1 ++ (⟨a, s, c, .limbo⟩ : U) :: l2).map U.addr = (l1 ++ ⟨a, s, c, .free⟩ :: l2).map U.addr := by simp
  refine ⟨?_, ?_, ?_, ?_, by rw [hmap]; exact hm.useg, by rw [hmap]; exact hm.uhead, seg_remove hm.fseg hfnd, ?_, ?_, ?_, ?_⟩
  · intro v hv
    rcases mem_mid.1 hv with rfl | hv
    · have e := hm.ok _ hu; exact e
    · exact hm.ok v (mem_mid.2 (Or.inr hv))
  · intro v hv
    rcases mem_mid.1 hv with rfl | hv
    · have e := hm.size _ hu; exact e
    · exact hm.size v (mem_mid.2 (Or.inr hv))
  · intro v hv
    rcases mem_mid.1 hv with rfl | hv
    · have e := hm.contig _ hu; exact e
    · exact hm.contig v (mem_mid.2 (Or.inr hv))
  · intro v hv
    rcases mem_mid.1 hv with rfl | hv
    · have e := hm.alloc _ hu; exact e
    · exact hm.alloc v (mem_mid.2 (Or.inr hv))
  · have := first_remove hm.fseg hfnd
    rw [← this]
    show (if h.free = some a then h.nfree a else h.free) = _
    rw [hm.fhead]
  · have h1 := hm.fperm
    rw [filter_mid, filter_free rfl] at h1
    rw [filter_mid, filter_nfree rfl, List.nil_append]
    have h2 : ((l1.filter U.isFree ++ ([(⟨a, s, c, .free⟩ : U)] ++ l2.filter U.isFree)).map U.addr).Perm
        (a :: ((l1.filter U.isFree ++ l2.filter U.isFree).map U.addr)) := by
      rw [← List.map_cons (f := U.addr) (a := ⟨a, s, c, .free⟩)]
      exact List.perm_middle.map _
    exact ((hperm.symm.trans h1).trans h2).cons_inv
  · intro v hv hvf
    show upd _ _ _ _ = none ∧ upd _ _ _ _ = none
    rcases mem_mid.1 hv with rfl | hv
    · exact ⟨upd_same _ _ _, upd_same _ _ _⟩
    · have hv' := (mem_mid (u := (⟨a, s, c, .free⟩ : U))).2 (Or.inr hv)
      have hnf := hm.not_free hnd hv' hvf
      rw [upd_ne _ _ (hne v hv), upd_ne _ _ (hne v hv), updO_ne, updO_ne]
      · exact hm.nofree v hv' hvf
      · intro hh; exact hnf (by simp [hp1 _ hh])
      · intro hh; exact hnf (by simp [hn1 _ hh])
  · intro v hv hvu
    rcases mem_mid.1 hv with rfl | hv
    · cases hvu
    · exact hm.off v (mem_mid.2 (Or.inr hv)) hvu

/-- Writing a byte in the payload of a unit. -/
theorem poke_ok {h : Heap} {x y : Nat} {v : Option Nat} (hy : h.ok y = true) (hx : x < y ∨ y + hsz ≤ x) :
    (h.poke x v).ok y = true := by
  unfold poke
  simp only
  rw [if_neg (by omega)]
  exact hy

theorem Pure.payload {al : Prop} {us : List U} {base live : List Range} {m : Nat}
    (hp : Pure al us base live m) {u v : U} (hu : u ∈ us) (hv : v ∈ us) {x : Nat}
    (h1 : u.addr + hsz ≤ x) (h2 : x < u.addr + hsz + u.size) : x < v.addr ∨ v.addr + hsz ≤ x := by
  by_cases huv : u = v
  · subst huv; right; exact h1
  · have hdj := hp.dj
    rw [List.pairwise_map] at hdj
    have := hdj.forall hu hv huv
    unfold disj U.rng at this
    simp only at this; omega

theorem Pure.ptr_ne {al : Prop} {us : List U} {base live : List Range} {m : Nat}
    (hp : Pure al us base live m) {u v : U} (hu : u ∈ us) (hv : v ∈ us) (huv : u ≠ v) (hvu : v.isUsed = true) {x : Nat}
    (h1 : u.addr ≤ x) (h2 : x < u.addr + hsz + u.size) : v.ptr - 1 ≠ x := by
  have hdj := hp.dj
  rw [List.pairwise_map] at hdj
  have := hdj.forall hu hv huv
  have hsz : 16 ≤ v.size := by
    unfold U.isUsed at hvu
    cases hst : v.st with
    | used n => have := hp.req v hv n hst; omega
    | free => rw [hst] at hvu; cases hvu
    | limbo => rw [hst] at hvu; cases hvu
  have ha := align_facts (v.addr + Heap.hsz)
  unfold U.ptr
  unfold disj U.rng at this
  simp only at this; omega

theorem Mem.poke {al : Prop} {h : Heap} {us : List U} {fs : List Nat} {base live : List Range} {m : Nat}
    (hp : Pure al us base live m) (hm : Mem h us fs) {u : U} (hu : u ∈ us) {x : Nat} (v : Option Nat)
    (h1 : u.addr + hsz ≤ x) (h2 : x < u.addr + hsz + u.size) (h3 : u.isUsed = true → u.ptr - 1 ≠ x) :
    Mem (h.poke x v) us fs := by
  refine ⟨?_, hm.size, hm.contig, hm.alloc, hm.useg, hm.uhead, hm.fseg, hm.fhead, hm.fperm, hm.nofree, ?_⟩
  · intro w hw
    exact poke_ok (hm.ok w hw) (hp.payload hu hw h1 h2)
  · intro w hw hwu
    show upd _ _ _ _ = _
    rw [upd_ne]
    · exact hm.off w hw hwu
    · by_cases hwe : u = w
      · subst hwe; exact h3 hwu
      · exact hp.ptr_ne hu hw hwe hwu (by omega) h2

/-- A unit in limbo becomes allocated. -/
theorem Mem.use {al : Prop} {h : Heap} {l1 l2 : List U} {fs : List Nat} {base live : List Range} {m a s n : Nat} {c : Bool}
    (hp : Pure al (l1 ++ ⟨a, s, c, .limbo⟩ :: l2) base live m) (hm : Mem h (l1 ++ ⟨a, s, c, .limbo⟩ :: l2) fs)
    (hn : n + 16 ≤ s) :
    Mem (({ h with alloc := upd h.alloc a true }).poke (align (a + hsz) - 1) (some ((align (a + hsz) - (a + hsz)) % 256)))
      (l1 ++ ⟨a, s, c, .used n⟩ :: l2) fs := by
  have hu : (⟨a, s, c, .limbo⟩ : U) ∈ l1 ++ ⟨a, s, c, .limbo⟩ :: l2 := by simp
  have hmap : (l1 ++ (⟨a, s, c, .used n⟩ : U) :: l2).map U.addr = (l1 ++ ⟨a, s, c, .limbo⟩ :: l2).map U.addr := by simp
  have ha := align_facts (a + hsz)
  have hne := hp.mid_ne
  have hpk : ∀ v, Mem (h.poke (align (a + hsz) - 1) v) (l1 ++ ⟨a, s, c, .limbo⟩ :: l2) fs := fun v =>
    hm.poke hp hu v (by simp only; omega) (by simp only; omega) (by intro hh; cases hh)
  have hm' := hpk (some ((align (a + hsz) - (a + hsz)) % 256))
  refine ⟨?_, ?_, ?_, ?_, by rw [hmap]; exact hm'.useg, by rw [hmap]; exact hm'.uhead, hm'.fseg, hm'.fhead, ?_, ?_, ?_⟩
  · intro v hv
    rcases mem_mid.1 hv with rfl | hv
    · have e := hm'.ok _ hu; exact e
    · exact hm'.ok v (mem_mid.2 (Or.inr hv))
  · intro v hv
    rcases mem_mid.1 hv with rfl | hv
    · have e := hm'.size _ hu; exact e
    · exact hm'.size v (mem_mid.2 (Or.inr hv))
  · intro v hv
    rcases mem_mid.1 hv with rfl | hv
    · have e := hm'.contig _ hu; exact e
    · exact hm'.contig v (mem_mid.2 (Or.inr hv))
  · intro v hv
    show upd _ _ _ _ = _
    rcases mem_mid.1 hv with rfl | hv
    · exact upd_same _ _ _
    · rw [upd_ne _ _ (hne v hv)]
      exact hm'.alloc v (mem_mid.2 (Or.inr hv))
  · have := hm'.fperm
    rw [filter_mid, filter_nfree rfl] at this ⊢
    exact this
  · intro v hv hvf
    rcases mem_mid.1 hv with rfl | hv
    · have e := hm'.nofree _ hu rfl; exact e
    · exact hm'.nofree v (mem_mid.2 (Or.inr hv)) hvf
  · intro v hv hvu
    rcases mem_mid.1 hv with rfl | hv
    · show upd _ (align (a + hsz) - 1) _ (align (a + hsz) - 1) = some (align (a + hsz) - (a + hsz))
      rw [upd_same]
      congr 1
      omega
    · exact hm'.off v (mem_mid.2 (Or.inr hv)) hvu

/-- An allocated unit goes to limbo. -/
theorem Mem.unuse {al : Prop} {h : Heap} {l1 l2 : List U} {fs : List Nat} {base live : List Range} {m a s n : Nat} {c : Bool}
    (hp : Pure al (l1 ++ ⟨a, s, c, .used n⟩ :: l2) base live m) (hm : Mem h (l1 ++ ⟨a, s, c, .used n⟩ :: l2) fs) :
    h.setAlloc a false = some { h with alloc := upd h.alloc a false } ∧
    Mem { h with alloc := upd h.alloc a false } (l1 ++ ⟨a, s, c, .limbo⟩ :: l2) fs := by
  have hu : (⟨a, s, c, .used n⟩ : U) ∈ l1 ++ ⟨a, s, c, .used n⟩ :: l2 := by simp
  have hmap : (l1 ++ (⟨a, s, c, .limbo⟩ : U) :: l2).map U.addr = (l1 ++ ⟨a, s, c, .used n⟩ :: l2).map U.addr := by simp
  have hne := hp.mid_ne
  have hok : h.ok a = true := hm.ok _ hu
  refine ⟨by simp [setAlloc, hok], ?_⟩
  refine ⟨?_, ?_, ?_, ?_, by rw [hmap]; exact hm.useg, by rw [hmap]; exact hm.uhead, hm.fseg, hm.fhead, ?_, ?_, ?_⟩
  · intro v hv
    rcases mem_mid.1 hv with rfl | hv
    · have e := hm.ok _ hu; exact e
    · exact hm.ok v (mem_mid.2 (Or.inr hv))
  · intro v hv
    rcases mem_mid.1 hv with rfl | hv
    · have e := hm.size _ hu; exact e
    · exact hm.size v (mem_mid.2 (Or.inr hv))
  · intro v hv
    rcases mem_mid.1 hv with rfl | hv
    · have e := hm.contig _ hu; exact e
    · exact hm.contig v (mem_mid.2 (Or.inr hv))
  · intro v hv
    show upd _ _ _ _ = _
    rcases mem_mid.1 hv with rfl | hv
    · exact upd_same _ _ _
    · rw [upd_ne _ _ (hne v hv)]
      exact hm.alloc v (mem_mid.2 (Or.inr hv))
  · have := hm.fperm
    rw [filter_mid, filter_nfree rfl] at this ⊢
    exact this
  · intro v hv hvf
    rcases mem_mid.1 hv with rfl | hv
    · have e := hm.nofree _ hu rfl; exact e
    · exact hm.nofree v (mem_mid.2 (Or.inr hv)) hvf
  · intro v hv hvu
    rcases mem_mid.1 hv with rfl | hv
    · cases hvu
    · exact hm.off v (mem_mid.2 (Or.inr hv)) hvu

/-- A unit in limbo becomes free. -/
theorem Mem.add {al : Prop} {h : Heap} {l1 l2 : List U} {fs : List Nat} {base live : List Range} {m a s : Nat} {c : Bool}
    (hp : Pure al (l1 ++ ⟨a, s, c, .limbo⟩ :: l2) base live m) (hm : Mem h (l1 ++ ⟨a, s, c, .limbo⟩ :: l2) fs) :
    ∃ h', h.addFree a = some h' ∧ h'.base = h.base ∧ h'.allocated = h.allocated ∧
      Mem h' (l1 ++ ⟨a, s, c, .free⟩ :: l2) (a :: fs) := by
  have hu : (⟨a, s, c, .limbo⟩ : U) ∈ l1 ++ ⟨a, s, c, .limbo⟩ :: l2 := by simp
  have hmap : (l1 ++ (⟨a, s, c, .free⟩ : U) :: l2).map U.addr = (l1 ++ ⟨a, s, c, .limbo⟩ :: l2).map U.addr := by simp
  have hne := hp.mid_ne
  have hnd := hp.nodup
  have hok : h.ok a = true := hm.ok _ hu
  have hfnd := hm.fnodup hnd
  have hafs : a ∉ fs := hm.not_free hnd hu rfl
  have hokfs : ∀ x ∈ fs, h.ok x = true := by
    intro x hx
    obtain ⟨v, hv, _, rfl⟩ := hm.free_unit hx
    exact hm.ok v hv
  have hfok : ∀ p, h.free = some p → h.ok p = true := by
    intro p hh; rw [hm.fhead] at hh; exact hokfs p (first_none_mem hh)
  have hnefs : ∀ x ∈ fs, x ≠ a := by rintro x hx rfl; exact hafs hx
  refine ⟨{ h with pfree := updO h.pfree h.free (some a), nfree := upd h.nfree a h.free, free := some a }, ?_, rfl, rfl, ?_⟩
  · unfold addFree
    rw [ifSet_pfree h _ (fun _ => some a) hfok]
    simp [setNfree, hok]
  refine ⟨?_, ?_, ?_, ?_, by rw [hmap]; exact hm.useg, by rw [hmap]; exact hm.uhead, ?_, rfl, ?_, ?_, ?_⟩
  · intro v hv
    rcases mem_mid.1 hv with rfl | hv
    · have e := hm.ok _ hu; exact e
    · exact hm.ok v (mem_mid.2 (Or.inr hv))
  · intro v hv
    rcases mem_mid.1 hv with rfl | hv
    · have e := hm.size _ hu; exact e
    · exact hm.size v (mem_mid.2 (Or.inr hv))
  · intro v hv
    rcases mem_mid.1 hv with rfl | hv
    · have e := hm.contig _ hu; exact e
    · exact hm.contig v (mem_mid.2 (Or.inr hv))
  · intro v hv
    rcases mem_mid.1 hv with rfl | hv
    · have e := hm.alloc _ hu; exact e
    · exact hm.alloc v (mem_mid.2 (Or.inr hv))
  · refine seg_push hm.fseg hfnd hafs ?_ ?_ ?_ ?_ ?_
    · intro x hx hf
      show updO _ _ _ _ = _
      rw [hm.fhead, updO_ne hf]
    · intro x hx
      show updO _ _ _ _ = _
      rw [hm.fhead, updO_same hx]
    · intro x hx
      exact upd_ne _ _ (hnefs x hx)
    · show updO _ _ _ _ = _
      rw [updO_ne]
      · exact (hm.nofree _ hu rfl).1
      · intro hh; rw [hm.fhead] at hh; exact hafs (first_none_mem hh)
    · show upd _ _ _ _ = _
      rw [upd_same, hm.fhead]
  · have := hm.fperm
    rw [filter_mid, filter_nfree rfl, List.nil_append] at this
    rw [filter_mid, filter_free rfl]
    refine (List.Perm.cons _ this).trans ?_
    rw [← List.map_cons (f := U.addr) (a := ⟨a, s, c, .free⟩)]
    exact List.perm_middle.symm.map _
  · intro v hv hvf
    show updO _ _ _ _ = none ∧ upd _ _ _ _ = none
    rcases mem_mid.1 hv with rfl | hv
    · cases hvf
    · have hv' := (mem_mid (u := (⟨a, s, c, .limbo⟩ : U))).2 (Or.inr hv)
      have hnf := hm.not_free hnd hv' hvf
      rw [upd_ne _ _ (hne v hv), updO_ne]
      · exact hm.nofree v hv' hvf
      · intro hh; rw [hm.fhead] at hh; exact hnf (first_none_mem hh)
  · intro v hv hvu
    rcases mem_mid.1 hv with rfl | hv
    · cases hvu
    · exact hm.off v (mem_mid.2 (Or.inr hv)) hvu

/-- Merging two units in limbo. -/
theorem Mem.merge {al : Prop} {h : Heap} {l1 l2 : List U} {fs : List Nat} {base live : List Range} {m a s a' s' : Nat} {c' : Bool}
    (hp : Pure al (l1 ++ ⟨a, s, true, .limbo⟩ :: ⟨a', s', c', .limbo⟩ :: l2) base live m)
    (hm : Mem h (l1 ++ ⟨a, s, true, .limbo⟩ :: ⟨a', s', c', .limbo⟩ :: l2) fs) :
    ∃ h', h.merge a a' = some h' ∧ h'.base = h.base ∧ h'.allocated = h.allocated ∧ h'.next a' = h.next a' ∧
      h'.ok = h.ok ∧ h'.alloc = h.alloc ∧
      Mem h' (l1 ++ ⟨a, s + (s' + hsz), c', .limbo⟩ :: l2) fs := by
  have hu : (⟨a, s, true, .limbo⟩ : U) ∈ l1 ++ ⟨a, s, true, .limbo⟩ :: ⟨a', s', c', .limbo⟩ :: l2 := by simp
  have hu' : (⟨a', s', c', .limbo⟩ : U) ∈ l1 ++ ⟨a, s, true, .limbo⟩ :: ⟨a', s', c', .limbo⟩ :: l2 := by simp
  have hne := hp.mid_ne
  have hnd := hp.nodup
  have hok : h.ok a = true := hm.ok _ hu
  have hok' : h.ok a' = true := hm.ok _ hu'
  have hsz1 : h.size a = s := hm.size _ hu
  have hsz2 : h.size a' = s' := hm.size _ hu'
  have hct : h.contig a' = c' := hm.contig _ hu'
  have haa : a' ≠ a := hne ⟨a', s', c', .limbo⟩ (by simp)
  have hmem : ∀ v, v ∈ l1 ++ (⟨a, s + (s' + hsz), c', .limbo⟩ : U) :: l2 → v = ⟨a, s + (s' + hsz), c', .limbo⟩ ∨
      (v ∈ l1 ++ ⟨a', s', c', .limbo⟩ :: l2 ∧ v ∈ l1 ++ ⟨a, s, true, .limbo⟩ :: ⟨a', s', c', .limbo⟩ :: l2) := by
    intro v hv
    simp only [List.mem_append, List.mem_cons] at hv ⊢; tauto
  have hseg := hm.useg
  have hmapeq : (l1 ++ (⟨a, s, true, .limbo⟩ : U) :: ⟨a', s', c', .limbo⟩ :: l2).map U.addr =
      l1.map U.addr ++ a :: a' :: l2.map U.addr := by simp
  rw [hmapeq] at hseg hnd
  have hmapeq' : (l1 ++ (⟨a, s + (s' + hsz), c', .limbo⟩ : U) :: l2).map U.addr = l1.map U.addr ++ a :: l2.map U.addr := by simp
  have hnx : h.next a' = first (l2.map U.addr) none := (seg_append.1 hseg).2.2.2.2.1
  have hnok : ∀ p, h.next a' = some p → h.ok p = true := by
    intro p hh
    rw [hnx] at hh
    obtain ⟨v, hv, rfl⟩ := List.mem_map.1 (first_none_mem hh)
    exact hm.ok v (by simp [hv])
  refine ⟨Heap.mk h.ok (updO h.prev (h.next a') (some a)) (upd h.next a (h.next a')) h.pfree h.nfree
    (upd h.size a (s + (s' + hsz))) (upd h.contig a c') h.alloc h.off h.units h.free h.allocated h.base, ?_, rfl, rfl,
    upd_ne _ _ haa, rfl, rfl, ?_⟩
  · unfold Heap.merge
    rw [if_pos ⟨hok, hok'⟩]
    simp only [setSize, setNext, hok, if_true, Option.bind_eq_bind, Option.bind_some]
    rw [ifSet_prev _ _ (fun _ => some a) (by
      simp only; rw [upd_ne _ _ haa]; exact hnok)]
    simp [setContig, hok, hsz1, hsz2, hct, upd_ne _ _ haa]
  refine ⟨?_, ?_, ?_, ?_, ?_, ?_, hm.fseg, hm.fhead, ?_, ?_, ?_⟩
  · intro v hv
    rcases hmem v hv with rfl | ⟨_, hv⟩
    · exact hok
    · exact hm.ok v hv
  · intro v hv
    show upd _ _ _ _ = _
    rcases hmem v hv with rfl | ⟨hv1, hv⟩
    · exact upd_same _ _ _
    · rw [upd_ne _ _ (hne v hv1)]; exact hm.size v hv
  · intro v hv
    show upd _ _ _ _ = _
    rcases hmem v hv with rfl | ⟨hv1, hv⟩
    · exact upd_same _ _ _
    · rw [upd_ne _ _ (hne v hv1)]; exact hm.contig v hv
  · intro v hv
    rcases hmem v hv with rfl | ⟨_, hv⟩
    · have e := hm.alloc _ hu; exact e
    · exact hm.alloc v hv
  · rw [hmapeq']
    exact seg_delete_after hseg hnd
  · rw [hmapeq']
    have := hm.uhead
    rw [hmapeq] at this
    show h.units = _
    rw [this]
    exact first_mid
  · have := hm.fperm
    rw [filter_mid, filter_nfree rfl, List.nil_append] at this ⊢
    rw [List.filter_cons_of_neg (by simp [U.isFree])] at this
    exact this
  · intro v hv hvf
    rcases hmem v hv with rfl | ⟨_, hv⟩
    · have e := hm.nofree _ hu rfl; exact e
    · exact hm.nofree v hv hvf
  · intro v hv hvu
    rcases hmem v hv with rfl | ⟨_, hv⟩
    · cases hvu
    · exact hm.off v hv hvu

/-- Splitting a free unit. -/
theorem Mem.split {al : Prop} {h : Heap} {l1 l2 : List U} {fs : List Nat} {base live : List Range} {m a s n : Nat} {c : Bool}
    (hp : Pure al (l1 ++ ⟨a, s, c, .free⟩ :: l2) base live m)
    (hm : Mem h (l1 ++ ⟨a, s, c, .free⟩ :: l2) fs) (hn : n + hsz < s) :
    ∃ h' fs', h.split a n = some h' ∧ h'.base = h.base ∧ h'.allocated = h.allocated ∧
      Mem h' (l1 ++ ⟨a, n, true, .free⟩ :: ⟨a + hsz + n, s - hsz - n, c, .free⟩ :: l2) fs' := by
  have hu : (⟨a, s, c, .free⟩ : U) ∈ l1 ++ ⟨a, s, c, .free⟩ :: l2 := by simp
  have hne := hp.mid_ne
  have hdm := hp.disj_mid
  have hnd := hp.nodup
  have hok : h.ok a = true := hm.ok _ hu
  have hs : h.size a = s := hm.size _ hu
  have hct : h.contig a = c := hm.contig _ hu
  set w := a + hsz + n with hw
  have hwa : a ≠ w := by unfold hsz at hw; omega
  have hfnd := hm.fnodup hnd
  -- the new header is in the range of the unit
  have hvw : ∀ v ∈ l1 ++ l2, v.addr + hsz ≤ w ∧ v.addr ≤ a ∨ w + hsz ≤ v.addr := by
    intro v hv
    have := hdm v hv
    unfold disj U.rng at this
    unfold hsz at *
    simp only at this; omega
  have hwne : ∀ v ∈ l1 ++ l2, v.addr ≠ w := by
    intro v hv
    have := hvw v hv
    unfold hsz at *; omega
  have hall : ∀ x ∈ (l1 ++ (⟨a, s, c, .free⟩ : U) :: l2).map U.addr, x ≠ w ∧ (x + hsz ≤ w ∨ w + hsz ≤ x) := by
    intro x hx
    obtain ⟨v, hv, rfl⟩ := List.mem_map.1 hx
    rcases mem_mid.1 hv with rfl | hv
    · refine ⟨hwa, Or.inl ?_⟩
      simp only; omega
    · refine ⟨hwne v hv, ?_⟩
      have := hvw v hv
      omega
  have hfsall : ∀ x ∈ fs, x ∈ (l1 ++ (⟨a, s, c, .free⟩ : U) :: l2).map U.addr := by
    intro x hx
    obtain ⟨v, hv, _, rfl⟩ := hm.free_unit hx
    exact List.mem_map_of_mem hv
  have hokall : ∀ x ∈ (l1 ++ (⟨a, s, c, .free⟩ : U) :: l2).map U.addr,
      (if x = w then true else if x < w + hsz ∧ w < x + hsz then false else h.ok x) = true := by
    intro x hx
    obtain ⟨e1, e2⟩ := hall x hx
    rw [if_neg e1, if_neg (by omega)]
    obtain ⟨v, hv, rfl⟩ := List.mem_map.1 hx
    exact hm.ok v hv
  -- the two lists
  have hseg := hm.useg
  have hmapeq : (l1 ++ (⟨a, s, c, .free⟩ : U) :: l2).map U.addr = l1.map U.addr ++ a :: l2.map U.addr := by simp
  have hmapeq' : (l1 ++ (⟨a, n, true, .free⟩ : U) :: ⟨w, s - hsz - n, c, .free⟩ :: l2).map U.addr =
      l1.map U.addr ++ a :: w :: l2.map U.addr := by simp
  have hafs : a ∈ fs := hm.free_mem hu rfl
  obtain ⟨f1, f2, hfs⟩ := List.append_of_mem hafs
  have hwu : w ∉ l1.map U.addr ++ a :: l2.map U.addr := by
    intro hh; rw [← hmapeq] at hh; exact (hall w hh).1 rfl
  have hwf : w ∉ f1 ++ a :: f2 := by
    intro hh; rw [← hfs] at hh; exact (hall w (hfsall w hh)).1 rfl
  have hfseg := hm.fseg
  rw [hfs] at hfseg hfnd
  rw [hmapeq] at hseg hnd
  have hnx : ∀ p, h.next a = some p → p ∈ (l1 ++ (⟨a, s, c, .free⟩ : U) :: l2).map U.addr := by
    intro p hh
    rw [(seg_append.1 hseg).2.2.1] at hh
    rw [hmapeq]
    have := first_none_mem hh
    simp only [List.mem_append, List.mem_cons]; tauto
  have hnf : ∀ p, h.nfree a = some p → p ∈ (l1 ++ (⟨a, s, c, .free⟩ : U) :: l2).map U.addr := by
    intro p hh
    rw [(seg_append.1 hfseg).2.2.1] at hh
    apply hfsall
    rw [hfs]
    have := first_none_mem hh
    simp only [List.mem_append, List.mem_cons]; tauto
  refine ⟨Heap.mk (fun x => if x = w then true else if x < w + hsz ∧ w < x + hsz then false else h.ok x)
    (updO (upd h.prev w (some a)) (h.next a) (some w)) (upd (upd h.next w (h.next a)) a (some w))
    (updO (upd h.pfree w (some a)) (h.nfree a) (some w)) (upd (upd h.nfree w (h.nfree a)) a (some w))
    (upd (upd h.size w (s - hsz - n)) a n) (upd (upd h.contig w c) a true) (upd h.alloc w false)
    (fun x => if w ≤ x ∧ x < w + hsz then none else h.off x) h.units h.free h.allocated h.base,
    f1 ++ a :: w :: f2, ?_, rfl, rfl, ?_⟩
  · have hokw : ∀ x ∈ (l1 ++ (⟨a, s, c, .free⟩ : U) :: l2).map U.addr,
        (h.newHeader w (h.size a - hsz - n) (some a) (h.next a) (some a) (h.nfree a) (h.contig a)).ok x = true := hokall
    have hoka := hokw a (by simp)
    unfold Heap.split
    rw [if_pos hok, if_pos (by rw [hs]; exact hn), ← hw]
    simp only [setNext, setNfree, hoka, if_true, Option.bind_eq_bind, Option.bind_some]
    have e1 : upd (h.newHeader w (h.size a - hsz - n) (some a) (h.next a) (some a) (h.nfree a) (h.contig a)).next a
        (some w) w = h.next a := by
      rw [upd_ne _ _ (Ne.symm hwa)]; exact upd_same _ _ _
    have e2 : upd (h.newHeader w (h.size a - hsz - n) (some a) (h.next a) (some a) (h.nfree a) (h.contig a)).nfree a
        (some w) w = h.nfree a := by
      rw [upd_ne _ _ (Ne.symm hwa)]; exact upd_same _ _ _
    rw [ifSet_prev _ _ (fun _ => some w) (by
      simp only; rw [e1]; exact fun p hh => hokw p (hnx p hh))]
    simp only [Option.bind_some]
    rw [ifSet_pfree _ _ (fun _ => some w) (by
      simp only; rw [e2]; exact fun p hh => hokw p (hnf p hh))]
    simp only [Option.bind_some, setContig, setSize, hoka, if_true, e1, e2]
    simp only [newHeader, hs, hct]
  have hmem : ∀ v, v ∈ l1 ++ (⟨a, n, true, .free⟩ : U) :: ⟨w, s - hsz - n, c, .free⟩ :: l2 →
      v = ⟨a, n, true, .free⟩ ∨ v = ⟨w, s - hsz - n, c, .free⟩ ∨ v ∈ l1 ++ l2 := by
    intro v hv
    simp only [List.mem_append, List.mem_cons] at hv ⊢; tauto
  have hold : ∀ v ∈ l1 ++ l2, v ∈ l1 ++ (⟨a, s, c, .free⟩ : U) :: l2 := fun v hv => mem_mid.2 (Or.inr hv)
  refine ⟨?_, ?_, ?_, ?_, ?_, ?_, seg_insert hfseg hfnd hwf, ?_, ?_, ?_, ?_⟩
  · intro v hv
    show (if _ then _ else _) = _
    rcases hmem v hv with rfl | rfl | hv
    · exact hokall a (by simp)
    · exact if_pos rfl
    · exact hokall v.addr (List.mem_map_of_mem (hold v hv))
  · intro v hv
    show upd _ _ _ _ = _
    rcases hmem v hv with rfl | rfl | hv
    · exact upd_same _ _ _
    · rw [upd_ne _ _ (Ne.symm hwa), upd_same]
    · rw [upd_ne _ _ (hne v hv), upd_ne _ _ (hwne v hv)]; exact hm.size v (hold v hv)
  · intro v hv
    show upd _ _ _ _ = _
    rcases hmem v hv with rfl | rfl | hv
    · exact upd_same _ _ _
    · rw [upd_ne _ _ (Ne.symm hwa), upd_same]
    · rw [upd_ne _ _ (hne v hv), upd_ne _ _ (hwne v hv)]; exact hm.contig v (hold v hv)
  · intro v hv
    show upd _ _ _ _ = _
    rcases hmem v hv with rfl | rfl | hv
    · rw [upd_ne _ _ hwa]; have e := hm.alloc _ hu; exact e
    · rw [upd_same]; rfl
    · rw [upd_ne _ _ (hwne v hv)]; exact hm.alloc v (hold v hv)
  · rw [hmapeq']
    exact seg_insert hseg hnd hwu
  · show h.units = _
    rw [hm.uhead, hmapeq, hmapeq']
    exact first_mid
  · show h.free = _
    rw [hm.fhead, hfs]
    exact first_mid
  · have h1 := hm.fperm
    rw [hfs] at h1
    have h2 : (f1 ++ a :: w :: f2).Perm (w :: (f1 ++ a :: f2)) := by
      have : f1 ++ a :: w :: f2 = (f1 ++ [a]) ++ w :: f2 := by simp
      rw [this]
      refine List.perm_middle.trans ?_
      simp
    have h3 : (((l1 ++ (⟨a, n, true, .free⟩ : U) :: ⟨w, s - hsz - n, c, .free⟩ :: l2).filter U.isFree).map U.addr).Perm
        (w :: (((l1 ++ (⟨a, s, c, .free⟩ : U) :: l2).filter U.isFree).map U.addr)) := by
      have e : l1 ++ (⟨a, n, true, .free⟩ : U) :: ⟨w, s - hsz - n, c, .free⟩ :: l2 =
          (l1 ++ [⟨a, n, true, .free⟩]) ++ ⟨w, s - hsz - n, c, .free⟩ :: l2 := by simp
      rw [e]
      refine ((List.perm_middle.filter _).map _).trans ?_
      rw [List.filter_cons_of_pos (by rfl), List.map_cons]
      refine List.Perm.cons _ ?_
      rw [List.append_assoc, List.singleton_append, filter_mid, filter_mid, filter_free rfl, filter_free rfl]
      simp
    exact (h2.trans (List.Perm.cons _ h1)).trans h3.symm
  · intro v hv hvf
    rcases hmem v hv with rfl | rfl | hv
    · cases hvf
    · cases hvf
    · have hnfr := hm.not_free hp.nodup (hold v hv) hvf
      show updO _ _ _ _ = none ∧ upd _ _ _ _ = none
      rw [upd_ne _ _ (hne v hv), upd_ne _ _ (hwne v hv), updO_ne, upd_ne _ _ (hwne v hv)]
      · exact hm.nofree v (hold v hv) hvf
      · intro hh
        rw [(seg_append.1 hfseg).2.2.1] at hh
        apply hnfr
        rw [hfs]
        have := first_none_mem hh
        simp only [List.mem_append, List.mem_cons]; tauto
  · intro v hv hvu
    rcases hmem v hv with rfl | rfl | hv
    · cases hvu
    · cases hvu
    · show (if _ then _ else _) = _
      rw [if_neg]
      · exact hm.off v (hold v hv) hvu
      · have e := hp.req v (hold v hv)
        have h16 : 16 ≤ v.size := by
          unfold U.isUsed at hvu
          cases hst : v.st with
          | used k => have := e k hst; omega
          | free => rw [hst] at hvu; cases hvu
          | limbo => rw [hst] at hvu; cases hvu
        have ha := align_facts (v.addr + hsz)
        have hd := hdm v hv
        unfold U.ptr
        unfold disj U.rng at hd
        unfold hsz at *
        simp only at hd
        omega

/-- A new block. -/
theorem Mem.reserve {al : Prop} {h : Heap} {us : List U} {fs : List Nat} {live : List Range} {m n b : Nat}
    (hp : Pure al us h.base live m) (hm : Mem h us fs) (hf : Fresh h.base (b, n + hsz)) :
    ∃ h', h.reserve n b = some h' ∧ h'.base = (b, n + hsz) :: h.base ∧ h'.allocated = h.allocated + n ∧
      h'.free = some b ∧ Mem h' (⟨b, n, false, .free⟩ :: us) (b :: fs) := by
  have hnd := hp.nodup
  have hfnd := hm.fnodup hnd
  have hdis : ∀ v ∈ us, disj (b, n + hsz) v.rng := by
    intro v hv
    obtain ⟨c, hc, hin⟩ := unit_inside hp.adj hv
    exact disj_symm (disj_of_inside (disj_symm (hf.2 c (hp.blk.mem_iff.2 hc))) hin)
  have hne : ∀ v ∈ us, v.addr ≠ b := by
    intro v hv
    have := hdis v hv
    unfold disj U.rng hsz at this
    simp only at this; omega
  have hokall : ∀ v ∈ us, (if v.addr = b then true else if v.addr < b + hsz ∧ b < v.addr + hsz then false else h.ok v.addr) = true := by
    intro v hv
    have := hdis v hv
    unfold disj U.rng at this
    unfold hsz at *
    simp only at this
    rw [if_neg (hne v hv), if_neg (by omega)]
    exact hm.ok v hv
  have hbfs : b ∉ fs := by
    intro hh
    obtain ⟨v, hv, _, e⟩ := hm.free_unit hh
    exact hne v hv e
  have hbu : b ∉ us.map U.addr := by
    intro hh
    obtain ⟨v, hv, e⟩ := List.mem_map.1 hh
    exact hne v hv e
  refine ⟨Heap.mk (fun x => if x = b then true else if x < b + hsz ∧ b < x + hsz then false else h.ok x)
    (updO (upd h.prev b none) h.units (some b)) (upd h.next b h.units)
    (updO (upd h.pfree b none) h.free (some b)) (upd h.nfree b h.free)
    (upd h.size b n) (upd h.contig b false) (upd h.alloc b false)
    (fun x => if b ≤ x ∧ x < b + hsz then none else h.off x) (some b) (some b) (h.allocated + n) ((b, n + hsz) :: h.base),
    ?_, rfl, rfl, rfl, ?_⟩
  · unfold Heap.reserve
    simp only []
    rw [ifSet_pfree _ _ (fun _ => some b) (by
      intro p hh
      have : h.free = some p := hh
      rw [hm.fhead] at this
      obtain ⟨v, hv, _, rfl⟩ := hm.free_unit (first_none_mem this)
      exact hokall v hv)]
    simp only [Option.bind_eq_bind, Option.bind_some]
    rw [ifSet_prev _ _ (fun _ => some b) (by
      intro p hh
      have : h.units = some p := hh
      rw [hm.uhead] at this
      obtain ⟨v, hv, rfl⟩ := List.mem_map.1 (first_none_mem this)
      exact hokall v hv)]
    rfl
  refine ⟨?_, ?_, ?_, ?_, ?_, rfl, ?_, rfl, ?_, ?_, ?_⟩
  · intro v hv
    rcases List.mem_cons.1 hv with rfl | hv
    · exact if_pos rfl
    · exact hokall v hv
  · intro v hv
    show upd _ _ _ _ = _
    rcases List.mem_cons.1 hv with rfl | hv
    · exact upd_same _ _ _
    · rw [upd_ne _ _ (hne v hv)]; exact hm.size v hv
  · intro v hv
    show upd _ _ _ _ = _
    rcases List.mem_cons.1 hv with rfl | hv
    · exact upd_same _ _ _
    · rw [upd_ne _ _ (hne v hv)]; exact hm.contig v hv
  · intro v hv
    show upd _ _ _ _ = _
    rcases List.mem_cons.1 hv with rfl | hv
    · exact upd_same _ _ _
    · rw [upd_ne _ _ (hne v hv)]; exact hm.alloc v hv
  · rw [List.map_cons]
    refine seg_push hm.useg hnd hbu ?_ ?_ ?_ ?_ ?_
    · intro x hx hh
      show updO _ _ _ _ = _
      have hxb : x ≠ b := by rintro rfl; exact hbu hx
      rw [hm.uhead, updO_ne hh, upd_ne _ _ hxb]
    · intro x hx
      show updO _ _ _ _ = _
      rw [hm.uhead, updO_same hx]
    · intro x hx
      have hxb : x ≠ b := by rintro rfl; exact hbu hx
      exact upd_ne _ _ hxb
    · show updO _ _ _ _ = _
      rw [updO_ne]
      · exact upd_same _ _ _
      · intro hh; rw [hm.uhead] at hh; exact hbu (first_none_mem hh)
    · show upd _ _ _ _ = _
      rw [upd_same, hm.uhead]
  · refine seg_push hm.fseg hfnd hbfs ?_ ?_ ?_ ?_ ?_
    · intro x hx hh
      show updO _ _ _ _ = _
      have hxb : x ≠ b := by rintro rfl; exact hbfs hx
      rw [hm.fhead, updO_ne hh, upd_ne _ _ hxb]
    · intro x hx
      show updO _ _ _ _ = _
      rw [hm.fhead, updO_same hx]
    · intro x hx
      have hxb : x ≠ b := by rintro rfl; exact hbfs hx
      exact upd_ne _ _ hxb
    · show updO _ _ _ _ = _
      rw [updO_ne]
      · exact upd_same _ _ _
      · intro hh; rw [hm.fhead] at hh; exact hbfs (first_none_mem hh)
    · show upd _ _ _ _ = _
      rw [upd_same, hm.fhead]
  · rw [List.filter_cons_of_pos (by rfl), List.map_cons]
    exact List.Perm.cons _ hm.fperm
  · intro v hv hvf
    rcases List.mem_cons.1 hv with rfl | hv
    · cases hvf
    · have hnfr := hm.not_free hnd hv hvf
      show updO _ _ _ _ = none ∧ upd _ _ _ _ = none
      rw [upd_ne _ _ (hne v hv), updO_ne, upd_ne _ _ (hne v hv)]
      · exact hm.nofree v hv hvf
      · intro hh; rw [hm.fhead] at hh; exact hnfr (first_none_mem hh)
  · intro v hv hvu
    rcases List.mem_cons.1 hv with rfl | hv
    · cases hvu
    · show (if _ then _ else _) = _
      rw [if_neg]
      · exact hm.off v hv hvu
      · have e := hp.req v hv
        have h16 : 16 ≤ v.size := by
          unfold U.isUsed at hvu
          cases hst : v.st with
          | used k => have := e k hst; omega
          | free => rw [hst] at hvu; cases hvu
          | limbo => rw [hst] at hvu; cases hvu
        have ha := align_facts (v.addr + hsz)
        have hd := hdis v hv
        unfold U.ptr
        unfold disj U.rng at hd
        unfold hsz at *
        simp only at hd
        omega

end Heap
end RP3D
