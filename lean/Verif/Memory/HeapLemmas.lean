import Verif.Memory.Heap
import Verif.Memory.Seg

set_option linter.unusedVariables false

/-! Abstract state of the heap allocator (a list of units) and the effect of each function on it. -/

namespace RP3D
namespace Heap

inductive St
  | free
  | limbo
  | used (n : Nat)

/-- An abstract unit. `limbo` is a unit that is not allocated but not on the free list either (inside of `release`). -/
structure U where
  addr : Nat
  size : Nat
  contig : Bool
  st : St

namespace U
def rng (u : U) : Range := (u.addr, hsz + u.size)
def ptr (u : U) : Nat := align (u.addr + hsz)
def isFree (u : U) : Bool := match u.st with | .free => true | _ => false
def isUsed (u : U) : Bool := match u.st with | .used _ => true | _ => false
def live (u : U) : Option Range := match u.st with | .used n => some (u.ptr, n) | _ => none
end U

/-- A property of every unit and the unit that follows it. -/
def Ctx (Q : U → Option U → Prop) : List U → Option U → Prop
  | [], _ => True
  | u :: l, t => Q u (l.head?.or t) ∧ Ctx Q l t

theorem ctx_append {Q : U → Option U → Prop} {l1 l2 : List U} {t : Option U} :
    Ctx Q (l1 ++ l2) t ↔ Ctx Q l1 (l2.head?.or t) ∧ Ctx Q l2 t := by
  induction l1 with
  | nil => simp [Ctx]
  | cons a l ih =>
    simp only [List.cons_append, Ctx, ih, and_assoc]
    have : (l ++ l2).head?.or t = l.head?.or (l2.head?.or t) := by
      cases l <;> simp
    rw [this]

theorem ctx_mono {Q : U → Option U → Prop} {l : List U} {t t' : Option U} (h : Ctx Q l t)
    (hm : ∀ u ∈ l, Q u t → Q u t') : Ctx Q l t' := by
  induction l with
  | nil => trivial
  | cons a l ih =>
    refine ⟨?_, ih h.2 (fun u hu => hm u (List.mem_cons_of_mem _ hu))⟩
    cases l with
    | nil => exact hm a (List.mem_cons_self ..) h.1
    | cons b l => exact h.1

/-- A contiguous unit is followed by its successor in memory. -/
def AdjQ (u : U) (o : Option U) : Prop := u.contig = true → ∃ v, o = some v ∧ v.addr = u.addr + hsz + u.size

/-- Two contiguous units are not both free. -/
def NaQ (u : U) (o : Option U) : Prop := ∀ v, o = some v → u.contig = true → u.isUsed = true ∨ v.isUsed = true

/-- The blocks of the base allocator that the units make up. -/
def blocks : List U → List Range
  | [] => []
  | u :: l =>
    if u.contig then
      match blocks l with
      | [] => []
      | (_, n) :: bs => (u.addr, hsz + u.size + n) :: bs
    else u.rng :: blocks l

theorem blocks_append {l l' : List U} (h : blocks l = blocks l') (pre : List U) : blocks (pre ++ l) = blocks (pre ++ l') := by
  induction pre with
  | nil => exact h
  | cons a pre ih => simp only [List.cons_append, blocks, ih]

theorem blocks_head {u : U} {l : List U} (h : Ctx AdjQ (u :: l) none) :
    ∃ n bs, blocks (u :: l) = (u.addr, n) :: bs ∧ hsz + u.size ≤ n := by
  induction l generalizing u with
  | nil =>
    by_cases hc : u.contig
    · obtain ⟨v, hv, _⟩ := h.1 hc
      simp at hv
    · exact ⟨hsz + u.size, [], by simp [blocks, hc, U.rng], le_refl _⟩
  | cons v l ih =>
    by_cases hc : u.contig
    · obtain ⟨n, bs, e, hn⟩ := ih h.2
      exact ⟨hsz + u.size + n, bs, by rw [blocks, if_pos hc, e], by omega⟩
    · exact ⟨hsz + u.size, blocks (v :: l), by rw [blocks, if_neg hc]; rfl, le_refl _⟩

theorem unit_inside {l : List U} (h : Ctx AdjQ l none) {u : U} (hu : u ∈ l) : ∃ b ∈ blocks l, inside u.rng b := by
  induction l with
  | nil => cases hu
  | cons v l ih =>
    rcases List.mem_cons.1 hu with rfl | hu
    · obtain ⟨n, bs, e, hn⟩ := blocks_head h
      exact ⟨_, by rw [e]; exact List.mem_cons_self .., by unfold inside U.rng; simp only; omega⟩
    · obtain ⟨b, hb, hin⟩ := ih h.2 hu
      by_cases hc : v.contig
      · obtain ⟨w, hw, haddr⟩ := h.1 hc
        cases l with
        | nil => cases hu
        | cons w' l =>
          simp only [List.head?_cons, Option.some_or, Option.some.injEq] at hw
          subst hw
          obtain ⟨n, bs, e, hn⟩ := blocks_head h.2
          rw [e] at hb
          rw [blocks, if_pos hc, e]
          rcases List.mem_cons.1 hb with rfl | hb
          · refine ⟨_, List.mem_cons_self .., ?_⟩
            unfold inside at *
            simp only at *; omega
          · exact ⟨b, List.mem_cons_of_mem _ hb, hin⟩
      · rw [blocks, if_neg hc]
        exact ⟨b, List.mem_cons_of_mem _ hb, hin⟩

/-- The part of the invariant that does not mention the memory. -/
structure Pure (al : Prop) (us : List U) (base live : List Range) (allocated : Nat) : Prop where
  adj : Ctx AdjQ us none
  dj : (us.map U.rng).Pairwise disj
  blk : base.Perm (blocks us)
  bok : BaseOk base
  live : live.Perm (us.filterMap U.live)
  req : ∀ u ∈ us, ∀ n, u.st = .used n → 0 < n ∧ n + 16 ≤ u.size
  pos : ∀ u ∈ us, 0 < u.size
  al16 : al → (∀ u ∈ us, u.addr % 16 = 0 ∧ u.size % 16 = 0) ∧ allocated % 16 = 0

/-- The part of the invariant about the memory. -/
structure Mem (h : Heap) (us : List U) (fs : List Nat) : Prop where
  ok : ∀ u ∈ us, h.ok u.addr = true
  size : ∀ u ∈ us, h.size u.addr = u.size
  contig : ∀ u ∈ us, h.contig u.addr = u.contig
  alloc : ∀ u ∈ us, h.alloc u.addr = u.isUsed
  useg : Seg h.prev h.next none (us.map U.addr) none
  uhead : h.units = first (us.map U.addr) none
  fseg : Seg h.pfree h.nfree none fs none
  fhead : h.free = first fs none
  fperm : fs.Perm ((us.filter U.isFree).map U.addr)
  nofree : ∀ u ∈ us, u.isFree = false → h.pfree u.addr = none ∧ h.nfree u.addr = none
  off : ∀ u ∈ us, u.isUsed = true → h.off (u.ptr - 1) = some (u.ptr - (u.addr + hsz))

def R (al : Prop) (h : Heap) (us : List U) (fs : List Nat) (live : List Range) : Prop :=
  Pure al us h.base live h.allocated ∧ Mem h us fs

theorem Pure.nodup {al : Prop} {us : List U} {base live : List Range} {m : Nat} (h : Pure al us base live m) :
    (us.map U.addr).Nodup := by
  have := h.dj
  rw [List.pairwise_map] at this
  unfold List.Nodup
  rw [List.pairwise_map]
  refine this.imp ?_
  intro u v hd he
  unfold disj U.rng hsz at hd
  simp only at hd; omega

/-- Two different units. -/
theorem Pure.disj_mid {al : Prop} {l1 l2 : List U} {u : U} {base live : List Range} {m : Nat}
    (h : Pure al (l1 ++ u :: l2) base live m) : ∀ v ∈ l1 ++ l2, disj u.rng v.rng := by
  have h1 : ((l1 ++ u :: l2).map U.rng).Perm ((u :: (l1 ++ l2)).map U.rng) := List.perm_middle.map _
  have h2 := (pairwise_disj_perm h1).1 h.dj
  rw [List.map_cons, List.pairwise_cons] at h2
  intro v hv
  exact h2.1 _ (List.mem_map_of_mem hv)

theorem mem_mid {l1 l2 : List U} {u v : U} : v ∈ l1 ++ u :: l2 ↔ v = u ∨ v ∈ l1 ++ l2 := by
  simp only [List.mem_append, List.mem_cons]; tauto

theorem align_facts (a : Nat) : a < align a ∧ align a ≤ a + 16 ∧ align a % 16 = 0 := by
  unfold align; omega

/-! ### The pure part -/

/-- Replacing the unit in the middle by units with the same place in memory. -/
theorem Pure.replace {al : Prop} {l1 l2 m1 : List U} {u : U} {base live live' : List Range} {m : Nat}
    (h : Pure al (l1 ++ u :: l2) base live m)
    (hhead : ∃ v, m1.head? = some v ∧ v.addr = u.addr)
    (hadj : Ctx AdjQ (m1 ++ l2) none)
    (hdj : (m1.map U.rng).Pairwise disj) (hin : ∀ v ∈ m1, inside v.rng u.rng)
    (hblk : blocks (m1 ++ l2) = blocks (u :: l2))
    (hlive : live'.Perm (l1.filterMap U.live ++ m1.filterMap U.live ++ l2.filterMap U.live))
    (hreq : ∀ v ∈ m1, ∀ n, v.st = .used n → 0 < n ∧ n + 16 ≤ v.size) (hpos : ∀ v ∈ m1, 0 < v.size)
    (hal : al → ∀ v ∈ m1, v.addr % 16 = 0 ∧ v.size % 16 = 0) : Pure al (l1 ++ (m1 ++ l2)) base live' m := by
  obtain ⟨v, hv, haddr⟩ := hhead
  have hctx := ctx_append.1 h.adj
  have hmem : ∀ x ∈ l1 ++ (m1 ++ l2), x ∈ m1 ∨ x ∈ l1 ++ u :: l2 := by
    intro x hx
    simp only [List.mem_append, List.mem_cons] at hx ⊢; tauto
  have hd := h.disj_mid
  refine ⟨ctx_append.2 ⟨?_, hadj⟩, ?_, ?_, h.bok, ?_, ?_, ?_, ?_⟩
  · have : (m1 ++ l2).head? = some v := by rw [List.head?_append, hv]; rfl
    rw [this]
    refine ctx_mono hctx.1 ?_
    intro x hx hq hc
    obtain ⟨y, hy, hya⟩ := hq hc
    simp only [List.head?_cons, Option.some_or, Option.some.injEq] at hy
    subst hy
    exact ⟨v, rfl, by rw [haddr]; exact hya⟩
  · have hp : ((l1 ++ (m1 ++ l2)).map U.rng).Perm (m1.map U.rng ++ (l1 ++ l2).map U.rng) := by
      rw [← List.map_append]
      apply List.Perm.map
      rw [← List.append_assoc, ← List.append_assoc]
      exact List.perm_append_comm.append_right _
    rw [pairwise_disj_perm hp, List.pairwise_append]
    have h1 : ((l1 ++ u :: l2).map U.rng).Perm ((u :: (l1 ++ l2)).map U.rng) := List.perm_middle.map _
    have h2 := (pairwise_disj_perm h1).1 h.dj
    rw [List.map_cons, List.pairwise_cons] at h2
    refine ⟨hdj, h2.2, ?_⟩
    intro a ha b hb
    obtain ⟨x, hx, rfl⟩ := List.mem_map.1 ha
    exact disj_of_inside (h2.1 b hb) (hin x hx)
  · rw [← blocks_append hblk.symm]; exact h.blk
  · rw [List.filterMap_append, List.filterMap_append, ← List.append_assoc]
    exact hlive
  · intro x hx
    rcases hmem x hx with hx | hx
    · exact hreq x hx
    · exact h.req x hx
  · intro x hx
    rcases hmem x hx with hx | hx
    · exact hpos x hx
    · exact h.pos x hx
  · intro a
    refine ⟨fun x hx => ?_, (h.al16 a).2⟩
    rcases hmem x hx with hx | hx
    · exact hal a x hx
    · exact (h.al16 a).1 x hx

theorem ctx_head_congr {u v : U} {l : List U} (ha : v.addr = u.addr) (hs : v.size = u.size) (hc : v.contig = u.contig)
    (h : Ctx AdjQ (u :: l) none) : Ctx AdjQ (v :: l) none := by
  refine ⟨?_, h.2⟩
  intro hv
  rw [ha, hs]
  exact h.1 (by rw [← hc]; exact hv)

/-- Changing the state of a unit. -/
theorem Pure.setSt {al : Prop} {l1 l2 : List U} {u : U} {base live live' : List Range} {m : Nat}
    (h : Pure al (l1 ++ u :: l2) base live m) (st : St)
    (hlive : live'.Perm (l1.filterMap U.live ++ [({ u with st := st } : U)].filterMap U.live ++ l2.filterMap U.live))
    (hreq : ∀ n, st = .used n → 0 < n ∧ n + 16 ≤ u.size) : Pure al (l1 ++ { u with st := st } :: l2) base live' m := by
  have hu : u ∈ l1 ++ u :: l2 := by simp
  have := h.replace (m1 := [({ u with st := st } : U)]) (live' := live') ⟨_, rfl, rfl⟩
    (ctx_head_congr rfl rfl rfl (ctx_append.1 h.adj).2) (List.pairwise_singleton _ _) ?_ ?_ hlive ?_ ?_ ?_
  · exact this
  · intro v hv
    rw [List.mem_singleton.1 hv]
    exact ⟨le_refl _, le_refl _⟩
  · rfl
  · intro v hv
    rw [List.mem_singleton.1 hv]
    exact hreq
  · intro v hv
    rw [List.mem_singleton.1 hv]
    exact h.pos u hu
  · intro a v hv
    rw [List.mem_singleton.1 hv]
    exact (h.al16 a).1 u hu

theorem filterMap_mid (l1 l2 : List U) (u : U) : (l1 ++ u :: l2).filterMap U.live =
    l1.filterMap U.live ++ [u].filterMap U.live ++ l2.filterMap U.live := by
  have : l1 ++ u :: l2 = l1 ++ [u] ++ l2 := by simp
  rw [this, List.filterMap_append, List.filterMap_append]

/-- Splitting a unit. -/
theorem Pure.split {al : Prop} {l1 l2 : List U} {a s : Nat} {c : Bool} {base live : List Range} {m n : Nat}
    (h : Pure al (l1 ++ ⟨a, s, c, .free⟩ :: l2) base live m) (hn : n + hsz < s) (hn0 : 0 < n) (hal : al → n % 16 = 0) :
    Pure al (l1 ++ ⟨a, n, true, .free⟩ :: ⟨a + hsz + n, s - hsz - n, c, .free⟩ :: l2) base live m := by
  have hu : (⟨a, s, c, .free⟩ : U) ∈ l1 ++ ⟨a, s, c, .free⟩ :: l2 := by simp
  have hctx := (ctx_append.1 h.adj).2
  have := h.replace (m1 := [⟨a, n, true, .free⟩, ⟨a + hsz + n, s - hsz - n, c, .free⟩]) (live' := live) ⟨_, rfl, rfl⟩
    ?_ ?_ ?_ ?_ ?_ ?_ ?_ ?_
  · exact this
  · refine ⟨fun _ => ⟨_, rfl, rfl⟩, ?_, hctx.2⟩
    intro hc
    obtain ⟨v, hv, hva⟩ := hctx.1 hc
    refine ⟨v, hv, ?_⟩
    simp only at hva ⊢
    rw [hva]; unfold hsz at *; omega
  · simp [U.rng, disj, hsz]; omega
  · intro v hv
    simp only [List.mem_cons, List.not_mem_nil, or_false] at hv
    rcases hv with rfl | rfl <;> (unfold inside U.rng; unfold hsz at *; simp only; omega)
  · show blocks (⟨a, n, true, .free⟩ :: ⟨a + hsz + n, s - hsz - n, c, .free⟩ :: l2) = _
    simp only [blocks, if_true]
    by_cases hc : c
    · subst hc
      simp only [if_true]
      cases blocks l2 with
      | nil => rfl
      | cons b bs =>
        simp only [List.cons.injEq, Prod.mk.injEq, true_and, and_true]
        unfold hsz at *; omega
    · simp only [hc, Bool.false_eq_true, if_false, U.rng, List.cons.injEq, Prod.mk.injEq, true_and, and_true]
      unfold hsz at *; omega
  · have := h.live
    rw [filterMap_mid] at this
    exact this
  · intro v hv k hk
    simp only [List.mem_cons, List.not_mem_nil, or_false] at hv
    rcases hv with rfl | rfl <;> cases hk
  · intro v hv
    simp only [List.mem_cons, List.not_mem_nil, or_false] at hv
    rcases hv with rfl | rfl <;> (simp only; omega)
  · intro ha v hv
    have h16 := (h.al16 ha).1 _ hu
    have := hal ha
    simp only at h16
    simp only [List.mem_cons, List.not_mem_nil, or_false] at hv
    unfold hsz at *
    rcases hv with rfl | rfl <;> (simp only; omega)

/-- Merging two units. -/
theorem Pure.merge {al : Prop} {l1 l2 : List U} {a s a' s' : Nat} {c' : Bool} {base live : List Range} {m : Nat}
    (h : Pure al (l1 ++ ⟨a, s, true, .limbo⟩ :: ⟨a', s', c', .limbo⟩ :: l2) base live m) :
    Pure al (l1 ++ ⟨a, s + (s' + hsz), c', .limbo⟩ :: l2) base live m := by
  have hctx := ctx_append.1 h.adj
  obtain ⟨q1, q2, hl2⟩ := hctx.2
  obtain ⟨v, hv, ha'⟩ := q1 rfl
  simp only [List.head?_cons, Option.some_or, Option.some.injEq] at hv
  subst hv
  simp only at ha'
  have hd := h.disj_mid
  have h' : Pure al ((l1 ++ [⟨a, s, true, .limbo⟩]) ++ ⟨a', s', c', .limbo⟩ :: l2) base live m := by simpa using h
  have hd' := h'.disj_mid
  have hmem : ∀ x ∈ l1 ++ (⟨a, s + (s' + hsz), c', .limbo⟩ : U) :: l2, x = ⟨a, s + (s' + hsz), c', .limbo⟩ ∨
      x ∈ l1 ++ ⟨a, s, true, .limbo⟩ :: ⟨a', s', c', .limbo⟩ :: l2 := by
    intro x hx
    simp only [List.mem_append, List.mem_cons] at hx ⊢; tauto
  have hu1 : (⟨a, s, true, .limbo⟩ : U) ∈ l1 ++ ⟨a, s, true, .limbo⟩ :: ⟨a', s', c', .limbo⟩ :: l2 := by simp
  have hu2 : (⟨a', s', c', .limbo⟩ : U) ∈ l1 ++ ⟨a, s, true, .limbo⟩ :: ⟨a', s', c', .limbo⟩ :: l2 := by simp
  refine ⟨ctx_append.2 ⟨?_, ?_, hl2⟩, ?_, ?_, h.bok, ?_, ?_, ?_, ?_⟩
  · refine ctx_mono hctx.1 ?_
    intro x hx hq hc
    obtain ⟨y, hy, hya⟩ := hq hc
    simp only [List.head?_cons, Option.some_or, Option.some.injEq] at hy
    subst hy
    exact ⟨_, rfl, hya⟩
  · intro hc
    obtain ⟨y, hy, hya⟩ := q2 hc
    refine ⟨y, hy, ?_⟩
    simp only at hya ⊢; omega
  · have h1 : ((l1 ++ (⟨a, s + (s' + hsz), c', .limbo⟩ : U) :: l2).map U.rng).Perm
        (((⟨a, s + (s' + hsz), c', .limbo⟩ : U) :: (l1 ++ l2)).map U.rng) := List.perm_middle.map _
    rw [pairwise_disj_perm h1, List.map_cons, List.pairwise_cons]
    constructor
    · intro r hr
      obtain ⟨x, hx, rfl⟩ := List.mem_map.1 hr
      have d1 := hd x (by simp only [List.mem_append, List.mem_cons] at hx ⊢; tauto)
      have d2 := hd' x (by simp only [List.mem_append, List.mem_cons] at hx ⊢; tauto)
      unfold disj U.rng at *
      unfold hsz at *
      simp only at *; omega
    · have hs : (l1 ++ l2).Sublist (l1 ++ ⟨a, s, true, .limbo⟩ :: ⟨a', s', c', .limbo⟩ :: l2) :=
        List.Sublist.append (List.Sublist.refl _) (List.Sublist.cons _ (List.Sublist.cons _ (List.Sublist.refl _)))
      exact h.dj.sublist (hs.map _)
  · have : blocks ((⟨a, s + (s' + hsz), c', .limbo⟩ : U) :: l2) = blocks (⟨a, s, true, .limbo⟩ :: ⟨a', s', c', .limbo⟩ :: l2) := by
      simp only [blocks, if_true]
      by_cases hc : c'
      · subst hc
        simp only [if_true]
        cases blocks l2 with
        | nil => rfl
        | cons b bs => simp only [List.cons.injEq, Prod.mk.injEq, true_and, and_true]; omega
      · simp only [hc, Bool.false_eq_true, if_false, U.rng, List.cons.injEq, Prod.mk.injEq, true_and, and_true]; omega
    rw [blocks_append this]; exact h.blk
  · have := h.live
    rw [filterMap_mid] at this ⊢
    exact this
  · intro x hx n hn
    rcases hmem x hx with rfl | hx
    · cases hn
    · exact h.req x hx n hn
  · intro x hx
    rcases hmem x hx with rfl | hx
    · have := h.pos _ hu1; simp only at this ⊢; omega
    · exact h.pos x hx
  · intro ha
    refine ⟨fun x hx => ?_, (h.al16 ha).2⟩
    rcases hmem x hx with rfl | hx
    · have e1 := (h.al16 ha).1 _ hu1
      have e2 := (h.al16 ha).1 _ hu2
      simp only at e1 e2 ⊢
      unfold hsz; omega
    · exact (h.al16 ha).1 x hx

/-- A new block. -/
theorem Pure.reserve {al : Prop} {us : List U} {base live : List Range} {m n b : Nat} (h : Pure al us base live m)
    (hf : Fresh base (b, n + hsz)) (hn : 0 < n) (hal : al → n % 16 = 0) :
    Pure al (⟨b, n, false, .free⟩ :: us) ((b, n + hsz) :: base) live (m + n) := by
  refine ⟨⟨fun hc => (by cases hc), h.adj⟩, ?_, ?_, h.bok.cons hf, ?_, ?_, ?_, ?_⟩
  · rw [List.map_cons, List.pairwise_cons]
    refine ⟨?_, h.dj⟩
    intro r hr
    obtain ⟨x, hx, rfl⟩ := List.mem_map.1 hr
    obtain ⟨c, hc, hin⟩ := unit_inside h.adj hx
    have := hf.2 c (h.blk.mem_iff.2 hc)
    have := disj_of_inside (disj_symm this) hin
    unfold disj U.rng at *
    simp only at *; omega
  · show List.Perm _ (U.rng _ :: blocks us)
    have : U.rng ⟨b, n, false, .free⟩ = (b, n + hsz) := by simp [U.rng, Nat.add_comm]
    rw [this]
    exact List.Perm.cons _ h.blk
  · exact h.live
  · intro u hu k hk
    rcases List.mem_cons.1 hu with rfl | hu
    · cases hk
    · exact h.req u hu k hk
  · intro u hu
    rcases List.mem_cons.1 hu with rfl | hu
    · exact hn
    · exact h.pos u hu
  · intro ha
    have e := hal ha
    have e2 := (h.al16 ha).2
    refine ⟨fun u hu => ?_, by omega⟩
    rcases List.mem_cons.1 hu with rfl | hu
    · exact ⟨hf.1, e⟩
    · exact (h.al16 ha).1 u hu

end Heap
end RP3D
