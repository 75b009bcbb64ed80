import Verif.Memory.HeapMem

set_option linter.unusedVariables false

/-! The operations of the heap allocator keep the invariant. -/

namespace RP3D
namespace Heap

/-- The invariant between two operations. -/
def Inv (al : Prop) (s : Heap × List Range) : Prop :=
  ∃ us fs, R al s.1 us fs s.2 ∧ Ctx NaQ us none ∧ ∀ u ∈ us, u.st ≠ .limbo

theorem findFit_spec {h : Heap} {us : List U} {fs : List Nat} (hm : Mem h us fs) (total : Nat) :
    ∀ (f : List Nat) (p : Option Nat), (∀ x ∈ f, x ∈ fs) → Seg h.pfree h.nfree p f none →
      h.findFit total (first f none) = some none ∨
      ∃ x ∈ f, h.findFit total (first f none) = some (some x) ∧ total ≤ h.size x := by
  intro f
  induction f with
  | nil => intro p _ _; left; rw [first, findFit]
  | cons x f ih =>
    intro p hsub hseg
    have hx : h.ok x = true := by
      obtain ⟨u, hu, _, rfl⟩ := hm.free_unit (hsub x (List.mem_cons_self ..))
      exact hm.ok u hu
    rw [first, findFit]
    simp only [hx, if_true]
    by_cases ht : total ≤ h.size x
    · right
      exact ⟨x, List.mem_cons_self .., by rw [if_pos ht], ht⟩
    · rw [if_neg ht, hseg.2.1]
      rcases ih (some x) (fun y hy => hsub y (List.mem_cons_of_mem _ hy)) hseg.2.2 with e | ⟨y, hy, e⟩
      · left; exact e
      · right; exact ⟨y, List.mem_cons_of_mem _ hy, e⟩

theorem isFree_st {u : U} (h : u.isFree = true) : u.st = .free := by
  unfold U.isFree at h
  cases hst : u.st with
  | free => rfl
  | limbo => rw [hst] at h; cases h
  | used n => rw [hst] at h; cases h

theorem isUsed_st {u : U} (h : u.isUsed = true) : ∃ n, u.st = .used n := by
  unfold U.isUsed at h
  cases hst : u.st with
  | used n => exact ⟨n, rfl⟩
  | limbo => rw [hst] at h; cases h
  | free => rw [hst] at h; cases h

theorem free_of_not {u : U} (h1 : u.isUsed = false) (h2 : u.st ≠ .limbo) : u.st = .free := by
  unfold U.isUsed at h1
  cases hst : u.st with
  | used n => rw [hst] at h1; cases h1
  | limbo => exact absurd hst h2
  | free => rfl

/-- The part of `allocate` after the choice of the unit. -/
def take (h : Heap) (n u : Nat) : Option (Heap × Nat) := do
  let h ← h.split u (n + 16)
  let h ← h.setAlloc u true
  let h ← h.removeFree u
  let ptr := align (u + hsz)
  return (h.poke (ptr - 1) (some ((ptr - (u + hsz)) % 256)), ptr)

theorem allocate_eq (h : Heap) (n b : Nat) : h.allocate n b = (h.chooseUnit (n + 16) b).bind (fun q => q.1.take n q.2) := by
  unfold allocate take
  rfl

/-- The part of `allocate` after the split. -/
def mark (h : Heap) (u : Nat) : Option (Heap × Nat) := do
  let h ← h.setAlloc u true
  let h ← h.removeFree u
  let ptr := align (u + hsz)
  return (h.poke (ptr - 1) (some ((ptr - (u + hsz)) % 256)), ptr)

theorem mark_R {al : Prop} {h : Heap} {l1 l2 : List U} {fs : List Nat} {live : List Range} {a s n : Nat} {c : Bool}
    (hr : R al h (l1 ++ ⟨a, s, c, .free⟩ :: l2) fs live) (hn : n + 16 ≤ s) (hn0 : 0 < n) :
    ∃ h' fs', h.mark a = some (h', align (a + hsz)) ∧
      R al h' (l1 ++ ⟨a, s, c, .used n⟩ :: l2) fs' ((align (a + hsz), n) :: live) := by
  obtain ⟨hp, hm⟩ := hr
  have hu : (⟨a, s, c, .free⟩ : U) ∈ l1 ++ ⟨a, s, c, .free⟩ :: l2 := by simp
  have hok : h.ok a = true := hm.ok _ hu
  obtain ⟨_, e2, fs', hm1⟩ := hm.remove hp
  have hlive := hp.live
  rw [filterMap_mid] at hlive
  have hp1 : Pure al (l1 ++ ⟨a, s, c, .limbo⟩ :: l2) h.base live h.allocated :=
    hp.setSt .limbo hlive (by intro k hk; cases hk)
  have hm2 := hm1.use hp1 hn
  refine ⟨_, fs', ?_, ?_, hm2⟩
  · unfold mark
    simp only [setAlloc, hok, if_true, Option.bind_eq_bind, Option.bind_some, e2]
    rfl
  · refine hp.setSt (.used n) ?_ ?_
    · refine (List.Perm.cons _ hlive).trans ?_
      show List.Perm _ (l1.filterMap U.live ++ [(align (a + hsz), n)] ++ l2.filterMap U.live)
      have : [(⟨a, s, c, .free⟩ : U)].filterMap U.live = [] := rfl
      rw [this, List.append_nil, List.append_assoc, List.singleton_append]
      exact List.perm_middle.symm
    · intro k hk
      cases hk
      exact ⟨hn0, hn⟩

theorem take_R {al : Prop} {h : Heap} {l1 l2 : List U} {fs : List Nat} {live : List Range} {a s n : Nat} {c : Bool}
    (hr : R al h (l1 ++ ⟨a, s, c, .free⟩ :: l2) fs live) (hna : Ctx NaQ (l1 ++ ⟨a, s, c, .free⟩ :: l2) none)
    (hl : ∀ u ∈ l1 ++ (⟨a, s, c, .free⟩ : U) :: l2, u.st ≠ .limbo)
    (hn : n + 16 ≤ s) (hn0 : 0 < n) (hal : al → n % 16 = 0) :
    ∃ h', h.take n a = some (h', align (a + hsz)) ∧ Inv al (h', (align (a + hsz), n) :: live) := by
  have hu : (⟨a, s, c, .free⟩ : U) ∈ l1 ++ ⟨a, s, c, .free⟩ :: l2 := by simp
  have hok : h.ok a = true := hr.2.ok _ hu
  have hsz1 : h.size a = s := hr.2.size _ hu
  obtain ⟨c1, c2, c3⟩ := ctx_append.1 hna
  have hctx1 : ∀ v : U, v.isUsed = true → Ctx NaQ l1 (some v) := by
    intro v hv
    refine ctx_mono c1 ?_
    intro x _ _ w hw _
    cases hw
    exact Or.inr hv
  have heq : h.take n a = (h.split a (n + 16)).bind (fun h => h.mark a) := rfl
  by_cases hs : n + 16 + hsz < s
  · obtain ⟨h1, fs1, e1, eb, ea, hm1⟩ := hr.2.split hr.1 hs
    have hp1 := hr.1.split hs (by omega) (by intro a; have := hal a; omega)
    have hr1 : R al h1 _ fs1 live := ⟨by rw [eb, ea]; exact hp1, hm1⟩
    obtain ⟨h2, fs2, e2, hr2⟩ := mark_R hr1 (le_refl _) hn0
    refine ⟨h2, by rw [heq, e1]; exact e2, _, _, hr2, ?_, ?_⟩
    · refine ctx_append.2 ⟨hctx1 _ rfl, ?_, ?_, c3⟩
      · intro v _ _; exact Or.inl rfl
      · intro v hv hc
        rcases c2 v hv hc with h | h
        · cases h
        · exact Or.inr h
    · intro u hu'
      rcases mem_mid.1 hu' with rfl | hu'
      · simp
      · simp only [List.mem_append, List.mem_cons] at hu'
        rcases hu' with hu' | rfl | hu'
        · exact hl u (by simp [hu'])
        · simp
        · exact hl u (by simp [hu'])
  · have e1 : h.split a (n + 16) = some h := by
      unfold Heap.split
      rw [if_pos hok, hsz1, if_neg hs]
    obtain ⟨h2, fs2, e2, hr2⟩ := mark_R hr hn hn0
    refine ⟨h2, by rw [heq, e1]; exact e2, _, _, hr2, ?_, ?_⟩
    · refine ctx_append.2 ⟨hctx1 _ rfl, ?_, c3⟩
      intro v _ _; exact Or.inl rfl
    · intro u hu'
      rcases mem_mid.1 hu' with rfl | hu'
      · simp
      · exact hl u (mem_mid.2 (Or.inr hu'))

theorem alloc_inv {al : Prop} {s : Heap × List Range} (hi : Inv al s) {n b : Nat} (hv : valid s (.alloc n b))
    (hal : al → n % 16 = 0) :
    ∃ s' ptr, step s (.alloc n b) = some s' ∧ s'.2 = (ptr, n) :: s.2 ∧ Inv al s' := by
  obtain ⟨us, fs, hr, hna, hl⟩ := hi
  obtain ⟨hn0, hf⟩ := hv
  have key : ∃ h u l1 l2 a z c fs', s.1.chooseUnit (n + 16) b = some (h, a) ∧
      R al h (l1 ++ ⟨a, z, c, .free⟩ :: l2) fs' s.2 ∧ Ctx NaQ (l1 ++ ⟨a, z, c, .free⟩ :: l2) none ∧
      (∀ u ∈ l1 ++ (⟨a, z, c, .free⟩ : U) :: l2, u.st ≠ .limbo) ∧ n + 16 ≤ z ∧ u = a := by
    rcases findFit_spec hr.2 (n + 16) fs none (fun _ hx => hx) hr.2.fseg with e | ⟨x, hx, e, ht⟩
    · obtain ⟨h', e1, e2, e3, e4, hm⟩ := hr.2.reserve hr.1 hf
      refine ⟨h', b, [], us, b, (s.1.allocated + (n + 16)) * 2, false, b :: fs, ?_, ⟨?_, hm⟩, ?_, ?_, by omega, rfl⟩
      · unfold chooseUnit
        rw [hr.2.fhead, e]
        simp [e1, e4]
      · rw [e2, e3]
        exact hr.1.reserve hf (by omega) (by
          intro a
          have h1 := hal a
          have h2 := (hr.1.al16 a).2
          omega)
      · exact ⟨fun v hv hc => (by cases hc), hna⟩
      · intro u hu
        rcases List.mem_cons.1 hu with rfl | hu
        · simp
        · exact hl u hu
    · obtain ⟨u, hu, huf, rfl⟩ := hr.2.free_unit hx
      obtain ⟨l1, l2, rfl⟩ := List.append_of_mem hu
      obtain ⟨a, z, c, st⟩ := u
      have : st = .free := isFree_st huf
      subst this
      have hz := hr.2.size _ hu
      refine ⟨s.1, a, l1, l2, a, z, c, fs, ?_, hr, hna, hl, by simp only at hz ht; omega, rfl⟩
      unfold chooseUnit
      rw [hr.2.fhead, e]
      rfl
  obtain ⟨h, u, l1, l2, a, z, c, fs', e, hr', hna', hl', hz, rfl⟩ := key
  obtain ⟨h', e2, hi'⟩ := take_R hr' hna' hl' hz hn0 hal
  refine ⟨(h', (align (u + hsz), n) :: s.2), align (u + hsz), ?_, rfl, hi'⟩
  simp only [step, allocate_eq, e, Option.bind_some, e2, Option.bind_eq_bind]
  rfl

/-! ### Release -/

theorem mergePrev_R {al : Prop} {h : Heap} {l1 l2 : List U} {fs : List Nat} {live : List Range} {a s : Nat} {c : Bool}
    (hr : R al h (l1 ++ ⟨a, s, c, .limbo⟩ :: l2) fs live) (hna : Ctx NaQ l1 none) (hl : ∀ u ∈ l1, u.st ≠ .limbo) :
    ∃ h' cur l1' s' fs', h.mergePrev a = some (h', cur) ∧ R al h' (l1' ++ ⟨cur, s', c, .limbo⟩ :: l2) fs' live ∧
      (∀ v : U, Ctx NaQ l1' (some v)) ∧ (∀ u ∈ l1', u.st ≠ .limbo) ∧ h'.ok a = true ∧
      h'.next a = first (l2.map U.addr) none := by
  have hu : (⟨a, s, c, .limbo⟩ : U) ∈ l1 ++ ⟨a, s, c, .limbo⟩ :: l2 := by simp
  have hok : h.ok a = true := hr.2.ok _ hu
  have hseg := hr.2.useg
  have hmapeq : (l1 ++ (⟨a, s, c, .limbo⟩ : U) :: l2).map U.addr = l1.map U.addr ++ a :: l2.map U.addr := by simp
  rw [hmapeq] at hseg
  obtain ⟨_, hpr, hnx, _⟩ := seg_append.1 hseg
  rcases List.eq_nil_or_concat l1 with rfl | ⟨l0, p, rfl⟩
  · refine ⟨h, a, [], s, fs, ?_, hr, fun v => trivial, by simp, hok, hnx⟩
    unfold mergePrev
    rw [hpr]; rfl
  · obtain ⟨pa, ps, pc, pst⟩ := p
    have hpm : (⟨pa, ps, pc, pst⟩ : U) ∈ l0.concat ⟨pa, ps, pc, pst⟩ ++ (⟨a, s, c, .limbo⟩ : U) :: l2 := by simp
    have hpok : h.ok pa = true := hr.2.ok _ hpm
    have hpal := hr.2.alloc _ hpm
    have hpct : h.contig pa = pc := hr.2.contig _ hpm
    have hlast : last none ((l0.concat ⟨pa, ps, pc, pst⟩).map U.addr) = some pa := by
      simp [last_append, last]
    rw [hlast] at hpr
    rw [List.concat_eq_append] at hna hl
    obtain ⟨hna1, hna2, _⟩ := ctx_append.1 hna
    by_cases hcond : h.alloc pa = false ∧ h.contig pa = true
    · have hpf : pst = .free := by
        have hz : (⟨pa, ps, pc, pst⟩ : U).isUsed = false := by rw [← hpal]; exact hcond.1
        exact free_of_not hz (hl _ (by simp))
      subst hpf
      have hpc : pc = true := by rw [← hpct]; exact hcond.2
      subst hpc
      have hr' : R al h (l0 ++ ⟨pa, ps, true, .free⟩ :: ⟨a, s, c, .limbo⟩ :: l2) fs live := by simpa using hr
      obtain ⟨e1, _, fs1, hm1⟩ := hr'.2.remove hr'.1
      have hlive := hr'.1.live
      rw [filterMap_mid] at hlive
      have hp1 : Pure al (l0 ++ ⟨pa, ps, true, .limbo⟩ :: ⟨a, s, c, .limbo⟩ :: l2) h.base live h.allocated :=
        hr'.1.setSt .limbo hlive (by intro k hk; cases hk)
      obtain ⟨h2, e2, eb, ea, enx, eok, _, hm2⟩ := hm1.merge hp1
      refine ⟨h2, pa, l0, ps + (s + hsz), fs1, ?_, ⟨?_, hm2⟩, ?_, fun u hu => hl u (by simp [hu]), ?_, ?_⟩
      · unfold mergePrev
        rw [hpr]
        simp only [hpok, if_true, hcond, and_self, e1, e2, Option.bind_eq_bind, Option.bind_some]
        rfl
      · rw [eb, ea]; exact hp1.merge
      · intro v
        refine ctx_mono hna1 ?_
        intro x hx hq w hw hc
        rcases hq _ rfl hc with h | h
        · exact Or.inl h
        · cases h
      · rw [eok]; exact hok
      · rw [enx]; exact hnx
    · refine ⟨h, a, l0.concat ⟨pa, ps, pc, pst⟩, s, fs, ?_, hr, ?_, ?_, hok, hnx⟩
      · unfold mergePrev
        rw [hpr]
        simp only [hpok, if_true, if_neg hcond]
      · intro v
        rw [List.concat_eq_append]
        refine ctx_append.2 ⟨hna1, ?_, trivial⟩
        intro w hw hc
        left
        by_contra hh
        apply hcond
        rw [hpal, hpct]
        exact ⟨by simpa using hh, hc⟩
      · rw [List.concat_eq_append]; exact hl

theorem mergeNext_R {al : Prop} {h : Heap} {l1 l2 : List U} {fs : List Nat} {live : List Range} {unit a s : Nat} {c : Bool}
    (hr : R al h (l1 ++ ⟨a, s, c, .limbo⟩ :: l2) fs live) (hna : Ctx NaQ l2 none) (hl : ∀ u ∈ l2, u.st ≠ .limbo)
    (hok1 : h.ok unit = true) (hnx1 : h.next unit = first (l2.map U.addr) none) :
    ∃ h' s' c' l2' fs', h.mergeNext unit a = some h' ∧ R al h' (l1 ++ ⟨a, s', c', .limbo⟩ :: l2') fs' live ∧
      (∀ st, Ctx NaQ (⟨a, s', c', st⟩ :: l2') none) ∧ (∀ u ∈ l2', u.st ≠ .limbo) := by
  have hu : (⟨a, s, c, .limbo⟩ : U) ∈ l1 ++ ⟨a, s, c, .limbo⟩ :: l2 := by simp
  have hok : h.ok a = true := hr.2.ok _ hu
  have hct : h.contig a = c := hr.2.contig _ hu
  have hseg := hr.2.useg
  have hmapeq : (l1 ++ (⟨a, s, c, .limbo⟩ : U) :: l2).map U.addr = l1.map U.addr ++ a :: l2.map U.addr := by simp
  rw [hmapeq] at hseg
  obtain ⟨_, _, hnx, _⟩ := seg_append.1 hseg
  cases l2 with
  | nil =>
    refine ⟨h, s, c, [], fs, ?_, hr, ?_, by simp⟩
    · unfold mergeNext
      rw [if_pos hok, hnx]; rfl
    · intro st
      exact ⟨fun v hv => (by cases hv), trivial⟩
  | cons v l2 =>
    obtain ⟨va, vs, vc, vst⟩ := v
    have hvm : (⟨va, vs, vc, vst⟩ : U) ∈ l1 ++ (⟨a, s, c, .limbo⟩ : U) :: ⟨va, vs, vc, vst⟩ :: l2 := by simp
    have hvok : h.ok va = true := hr.2.ok _ hvm
    have hval := hr.2.alloc _ hvm
    have hfirst : first ((⟨va, vs, vc, vst⟩ :: l2 : List U).map U.addr) none = some va := rfl
    rw [hfirst] at hnx hnx1
    by_cases hcond : h.alloc va = false ∧ h.contig a = true
    · have hvf : vst = .free := by
        have hz : (⟨va, vs, vc, vst⟩ : U).isUsed = false := by rw [← hval]; exact hcond.1
        exact free_of_not hz (hl _ (by simp))
      subst hvf
      have hc : c = true := by rw [← hct]; exact hcond.2
      subst hc
      have hr' : R al h ((l1 ++ [⟨a, s, true, .limbo⟩]) ++ ⟨va, vs, vc, .free⟩ :: l2) fs live := by simpa using hr
      obtain ⟨e1, _, fs1, hm1⟩ := hr'.2.remove hr'.1
      have hlive := hr'.1.live
      rw [filterMap_mid] at hlive
      have hp1 : Pure al ((l1 ++ [⟨a, s, true, .limbo⟩]) ++ ⟨va, vs, vc, .limbo⟩ :: l2) h.base live h.allocated :=
        hr'.1.setSt .limbo hlive (by intro k hk; cases hk)
      have hp2 : Pure al (l1 ++ ⟨a, s, true, .limbo⟩ :: ⟨va, vs, vc, .limbo⟩ :: l2) h.base live h.allocated := by simpa using hp1
      have hm2 : Mem (h.rmv va) (l1 ++ ⟨a, s, true, .limbo⟩ :: ⟨va, vs, vc, .limbo⟩ :: l2) fs1 := by simpa using hm1
      obtain ⟨h2, e2, eb, ea, _, _, _, hm3⟩ := hm2.merge hp2
      refine ⟨h2, s + (vs + hsz), vc, l2, fs1, ?_, ⟨?_, hm3⟩, ?_, fun u hu => hl u (by simp [hu])⟩
      · unfold mergeNext
        rw [if_pos hok, hnx]
        simp only [hvok, if_true, hcond, and_self, hok1, hnx1, e1, Option.bind_eq_bind, Option.bind_some]
        have : (h.rmv va).next a = some va := hnx
        rw [this]
        exact e2
      · rw [eb, ea]; exact hp2.merge
      · intro st
        refine ⟨?_, hna.2⟩
        intro v hv hvc
        rcases hna.1 v hv hvc with hh | hh
        · cases hh
        · exact Or.inr hh
    · refine ⟨h, s, c, ⟨va, vs, vc, vst⟩ :: l2, fs, ?_, hr, ?_, hl⟩
      · unfold mergeNext
        rw [if_pos hok, hnx]
        simp only [hvok, if_true, if_neg hcond]
      · intro st
        refine ⟨?_, hna⟩
        intro v hv hvc
        cases hv
        right
        by_contra hh
        apply hcond
        rw [hval, hct]
        exact ⟨by simpa using hh, hvc⟩

theorem release_inv {al : Prop} {s : Heap × List Range} (hi : Inv al s) {ptr n : Nat} (hv : valid s (.release ptr n)) :
    ∃ s', step s (.release ptr n) = some s' ∧ s'.2 = s.2.erase (ptr, n) ∧ Inv al s' := by
  obtain ⟨us, fs, hr, hna, hl⟩ := hi
  have hmem : (ptr, n) ∈ us.filterMap U.live := hr.1.live.mem_iff.1 hv
  obtain ⟨u, hu, hul⟩ := List.mem_filterMap.1 hmem
  obtain ⟨a, z, c, st⟩ := u
  have hst : st = .used n ∧ ptr = align (a + hsz) := by
    unfold U.live at hul
    cases st with
    | used k => simp only [Option.some.injEq, Prod.mk.injEq] at hul; exact ⟨by rw [hul.2], hul.1.symm⟩
    | free => cases hul
    | limbo => cases hul
  obtain ⟨rfl, rfl⟩ := hst
  obtain ⟨l1, l2, rfl⟩ := List.append_of_mem hu
  have hoff := hr.2.off _ hu rfl
  obtain ⟨e1, hm1⟩ := hr.2.unuse hr.1
  have hlive : (s.2.erase (align (a + hsz), n)).Perm
      (l1.filterMap U.live ++ [(⟨a, z, c, .limbo⟩ : U)].filterMap U.live ++ l2.filterMap U.live) := by
    have h1 := hr.1.live
    rw [filterMap_mid] at h1
    have h2 : (l1.filterMap U.live ++ [(⟨a, z, c, .used n⟩ : U)].filterMap U.live ++ l2.filterMap U.live).Perm
        ((align (a + hsz), n) :: (l1.filterMap U.live ++ l2.filterMap U.live)) := by
      show (l1.filterMap U.live ++ [(align (a + hsz), n)] ++ l2.filterMap U.live).Perm _
      rw [List.append_assoc, List.singleton_append]
      exact List.perm_middle
    have h3 := (h1.trans h2).erase (align (a + hsz), n)
    rw [List.erase_cons_head] at h3
    have h4 : [(⟨a, z, c, .limbo⟩ : U)].filterMap U.live = [] := rfl
    rw [h4, List.append_nil]
    exact h3
  have hp1 := hr.1.setSt .limbo hlive (by intro k hk; cases hk)
  have hl1 : ∀ u ∈ l1, u.st ≠ .limbo := fun u hu => hl u (by simp [hu])
  have hl2 : ∀ u ∈ l2, u.st ≠ .limbo := fun u hu => hl u (by simp [hu])
  have hna1 : Ctx NaQ l1 none := ctx_mono (ctx_append.1 hna).1 (fun _ _ _ v hv => (by cases hv))
  have hna2 : Ctx NaQ l2 none := (ctx_append.1 hna).2.2
  obtain ⟨h2, cur, l1', s', fs2, e2, hr2, hq2, hl2', hok2, hnx2⟩ := mergePrev_R (al := al) (h := { s.1 with alloc := upd s.1.alloc a false }) ⟨hp1, hm1⟩ hna1 hl1
  obtain ⟨h3, s3, c3, l2', fs3, e3, hr3, hq3, hl3⟩ := mergeNext_R hr2 hna2 hl2 hok2 hnx2
  obtain ⟨h4, e4, eb, ea, hm4⟩ := hr3.2.add hr3.1
  have hlive4 := hr3.1.live
  rw [filterMap_mid] at hlive4
  have hp4 := hr3.1.setSt .free hlive4 (by intro k hk; cases hk)
  refine ⟨(h4, s.2.erase (align (a + hsz), n)), ?_, rfl, ?_⟩
  · have ha := align_facts (a + hsz)
    have hoff' : s.1.off (align (a + hsz) - 1) = some (align (a + hsz) - (a + hsz)) := hoff
    have hunit : align (a + hsz) - (align (a + hsz) - (a + hsz)) - hsz = a := by omega
    simp only [step, release, hoff', Option.bind_eq_bind, Option.bind_some, hunit, e1, e2, e3, e4]
    rfl
  · refine ⟨_, _, ⟨?_, hm4⟩, ctx_append.2 ⟨hq2 _, hq3 _⟩, ?_⟩
    · rw [eb, ea]; exact hp4
    · intro u hu
      rcases mem_mid.1 hu with rfl | hu
      · simp
      · rcases List.mem_append.1 hu with hu | hu
        · exact hl2' u hu
        · exact hl3 u hu

/-- The unit of a live allocation. -/
theorem live_unit {al : Prop} {us : List U} {base live : List Range} {m : Nat} (hp : Pure al us base live m) {r : Range}
    (hr : r ∈ live) : ∃ u ∈ us, u.st = .used r.2 ∧ r.1 = u.ptr ∧ r.2 + 16 ≤ u.size ∧ 0 < r.2 := by
  have hmem := hp.live.mem_iff.1 hr
  obtain ⟨u, hu, hul⟩ := List.mem_filterMap.1 hmem
  have hst : u.st = .used r.2 ∧ r.1 = u.ptr := by
    unfold U.live at hul
    cases hst : u.st with
    | used k => rw [hst] at hul; simp only [Option.some.injEq] at hul; subst hul; exact ⟨rfl, rfl⟩
    | free => rw [hst] at hul; cases hul
    | limbo => rw [hst] at hul; cases hul
  have := hp.req u hu _ hst.1
  exact ⟨u, hu, hst.1, hst.2, this.2, this.1⟩

theorem write_inv {al : Prop} {s : Heap × List Range} (hi : Inv al s) {x : Nat} {v : Option Nat} (hv : valid s (.write x v)) :
    Inv al (s.1.poke x v, s.2) := by
  obtain ⟨us, fs, hr, hna, hl⟩ := hi
  obtain ⟨r, hrm, h1, h2⟩ := hv
  obtain ⟨u, hu, hst, hp, hs, _⟩ := live_unit hr.1 hrm
  have ha := align_facts (u.addr + hsz)
  rw [hp] at h1 h2
  unfold U.ptr at h1 h2
  refine ⟨us, fs, ⟨hr.1, hr.2.poke hr.1 hu v (by omega) (by omega) ?_⟩, hna, hl⟩
  intro _
  unfold U.ptr; omega

theorem init_inv {al : Prop} {n b : Nat} {h : Heap} (hn : 0 < n) (hal : al → n % 16 = 0) (hb : b % 16 = 0) (hi : init n b = some h) :
    Inv al (h, []) := by
  have hp : Pure al [] blank.base [] blank.allocated :=
    ⟨trivial, List.Pairwise.nil, List.Perm.refl _, ⟨List.Pairwise.nil, by simp [blank]⟩, List.Perm.refl _, by simp, by simp,
     fun _ => ⟨by simp, rfl⟩⟩
  have hm : Mem blank [] [] :=
    ⟨by simp, by simp, by simp, by simp, trivial, rfl, trivial, rfl, List.Perm.refl _, by simp, by simp⟩
  have hf : Fresh blank.base (b, n + hsz) := ⟨hb, by simp [blank]⟩
  obtain ⟨h', e1, e2, e3, e4, hm'⟩ := hm.reserve hp hf
  have hhh : h' = h := by
    have : init n b = some h' := e1
    rw [this] at hi; cases hi; rfl
  subst hhh
  refine ⟨_, _, ⟨?_, hm'⟩, ⟨fun v _ hc => (by cases hc), trivial⟩, by simp⟩
  rw [e2, e3]
  exact hp.reserve hf hn hal

theorem step_inv {al : Prop} {p : Nat → Prop} (hpal : al → ∀ n, p n → n % 16 = 0) {s s' : Heap × List Range} {op : Op}
    (hi : Inv al s) (hv : valid s op) (hsz : op.sizeOk p) (hs : step s op = some s') : Inv al s' := by
  cases op with
  | alloc n b =>
    obtain ⟨s1, ptr, e, _, h1⟩ := alloc_inv hi hv (fun a => hpal a n hsz)
    rw [e] at hs; cases hs; exact h1
  | release ptr n =>
    obtain ⟨s1, e, _, h1⟩ := release_inv hi hv
    rw [e] at hs; cases hs; exact h1
  | write x v =>
    cases hs
    exact write_inv hi hv

theorem reach_inv {al : Prop} {p : Nat → Prop} (hpal : al → ∀ n, p n → n % 16 = 0) {s : Heap × List Range}
    (h : Reach p s) : Inv al s := by
  induction h with
  | init hn hp hb hi => exact init_inv hn (fun a => hpal a _ hp) hb hi
  | step _ hv hsz hs ih => exact step_inv hpal ih hv hsz hs

/-! ### Walking through the list of units -/

theorem isUnit_mem {h : Heap} {us : List U} {fs : List Nat} (hm : Mem h us fs) {a : Nat} (ha : IsUnit h a) :
    ∃ u ∈ us, u.addr = a := by
  induction ha with
  | head e =>
    rw [hm.uhead] at e
    obtain ⟨u, hu, e⟩ := List.mem_map.1 (first_none_mem e)
    exact ⟨u, hu, e⟩
  | @next a0 b0 _ e ih =>
    obtain ⟨u, hu, rfl⟩ := ih
    have hseg := hm.useg
    obtain ⟨l1, l2, hl⟩ := List.append_of_mem (List.mem_map_of_mem (f := U.addr) hu)
    rw [hl] at hseg
    rw [(seg_append.1 hseg).2.2.1] at e
    have hb := first_none_mem e
    obtain ⟨v, hv, hve⟩ := List.mem_map.1 (show b0 ∈ us.map U.addr by rw [hl]; simp [hb])
    exact ⟨v, hv, hve⟩

theorem listFrom_of_seg {h : Heap} (l : List Nat) : ∀ (p : Option Nat), Seg h.prev h.next p l none → (∀ a ∈ l, h.ok a = true) →
    ListFrom h (first l none) l := by
  induction l with
  | nil => intro p _ _; rfl
  | cons a l ih =>
    intro p hs hok
    refine ⟨rfl, hok a (List.mem_cons_self ..), ?_⟩
    rw [hs.2.1]
    exact ih _ hs.2.2 (fun b hb => hok b (List.mem_cons_of_mem _ hb))

theorem destroyFrom_spec (f : List Nat) : ∀ (h : Heap) (p : Option Nat), Seg h.pfree h.nfree p f none →
    (∀ x ∈ f, h.ok x = true) → h.base.Perm (f.map (fun x => (x, h.size x + hsz))) →
    (f.map (fun x => (x, h.size x + hsz))).Pairwise disj →
    ∃ h', h.destroyFrom (first f none) = some h' ∧ h'.base = [] := by
  induction f with
  | nil =>
    intro h p _ _ hb _
    refine ⟨h, by rw [first, destroyFrom], ?_⟩
    simpa using hb
  | cons x f ih =>
    intro h p hs hok hb hd
    rw [List.map_cons] at hb hd
    obtain ⟨hd1, hd2⟩ := List.pairwise_cons.1 hd
    have hm : (x, h.size x + hsz) ∈ h.base := hb.mem_iff.2 (List.mem_cons_self ..)
    set h1 : Heap := { h with base := h.base.erase (x, h.size x + hsz), ok := fun y => if disj (y, hsz) (x, h.size x + hsz) then h.ok y else false } with hh1
    have e1 : h.giveBack (x, h.size x + hsz) = some h1 := by unfold giveBack; rw [if_pos hm]
    obtain ⟨h2, e2, e3⟩ := ih h1 (some x) hs.2.2 (by
      intro y hy
      show (if disj (y, hsz) (x, h.size x + hsz) then h.ok y else false) = true
      rw [if_pos, hok y (List.mem_cons_of_mem _ hy)]
      have := hd1 _ (List.mem_map_of_mem (f := fun x => (x, h.size x + hsz)) hy)
      unfold disj at *
      simp only at *; omega) (by
      have := hb.erase (x, h.size x + hsz)
      rw [List.erase_cons_head] at this
      exact this) hd2
    refine ⟨h2, ?_, e3⟩
    rw [first, destroyFrom]
    simp only [hok x (List.mem_cons_self ..), if_true, e1]
    rw [hs.2.1]
    exact e2

/-- When nothing is allocated, no unit is contiguous with the next one. -/
theorem all_free {al : Prop} {us : List U} (hadj : Ctx AdjQ us none) (hna : Ctx NaQ us none) (hu : ∀ u ∈ us, u.isUsed = false) :
    ∀ u ∈ us, u.contig = false := by
  induction us with
  | nil => simp
  | cons a l ih =>
    intro u hm
    rcases List.mem_cons.1 hm with rfl | hm
    · by_contra hc
      have hc' : u.contig = true := by simpa using hc
      obtain ⟨v, hv, _⟩ := hadj.1 hc'
      rcases hna.1 v hv hc' with h | h
      · rw [hu u (List.mem_cons_self ..)] at h; cases h
      · cases l with
        | nil => simp at hv
        | cons w l =>
          simp only [List.head?_cons, Option.some_or, Option.some.injEq] at hv
          subst hv
          rw [hu w (by simp)] at h; cases h
    · exact ih hadj.2 hna.2 (fun x hx => hu x (List.mem_cons_of_mem _ hx)) u hm

theorem blocks_all_free {us : List U} (h : ∀ u ∈ us, u.contig = false) : blocks us = us.map U.rng := by
  induction us with
  | nil => rfl
  | cons a l ih =>
    rw [blocks, if_neg (by simp [h a (List.mem_cons_self ..)]), List.map_cons, ih (fun u hu => h u (List.mem_cons_of_mem _ hu))]

end Heap
end RP3D
