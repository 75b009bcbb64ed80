import Verif.Memory.Base
import Verif.Memory.Heap

set_option linter.unusedVariables false

/-! Model of `SingleFrameAllocator` (src/memory/SingleFrameAllocator.cpp). The live list tags each allocation with `true` if it came
from the base allocator.  Simplification: no overflow of addresses and sizes. -/

namespace RP3D

/-- `mMemoryBufferStart, mTotalSizeBytes, mCurrentOffset, mNeedToAllocatedMore` (SingleFrameAllocator.h:53-74) and the live
blocks of the base allocator. -/
structure Frame where
  start : Nat
  total : Nat
  off : Nat
  need : Bool
  base : List Range

namespace Frame

/-- The constructor (SingleFrameAllocator.cpp:35-49); 1 MB initially. -/
def init (b : Nat) : Frame := ⟨b, 1048576, 0, false, [(b, 1048576)]⟩

/-- `allocate` (SingleFrameAllocator.cpp:59-91); the flag says whether the base allocator was used; `b` is its answer. -/
def allocate (f : Frame) (n b : Nat) : Frame × Nat × Bool :=
  if f.off + (n + 16) > f.total then ({ f with need := true, base := (b, n) :: f.base }, b, true)
  else ({ f with off := f.off + (n + 16) }, Heap.align (f.start + f.off), false)

/-- `release` (SingleFrameAllocator.cpp:94-106). -/
def release (f : Frame) (p n : Nat) : Option Frame :=
  if p < f.start ∨ p > f.start + f.total then do
    let base ← baseRelease f.base (p, n)
    return { f with base := base }
  else some f

/-- `reset` (SingleFrameAllocator.cpp:109-132). -/
def reset (f : Frame) (b : Nat) : Option Frame :=
  if f.need then do
    let base ← baseRelease f.base (f.start, f.total)
    return ⟨b, f.total * 2, 0, false, (b, f.total * 2) :: base⟩
  else some { f with off := 0 }

/-- The destructor (SingleFrameAllocator.cpp:52-56). -/
def destroy (f : Frame) : Option (List Range) := baseRelease f.base (f.start, f.total)

abbrev Live := List (Range × Bool)

/-- The allocations that came from the base allocator and those in the buffer. -/
def over (l : Live) : List Range := (l.filter (fun x => x.2)).map Prod.fst
def buf (l : Live) : List Range := (l.filter (fun x => !x.2)).map Prod.fst

inductive Op
  | alloc (n b : Nat)
  | release (p n : Nat) (o : Bool)
  | reset (b : Nat)

/-- One operation. A reset ends the life of all allocations in the buffer. -/
def step (s : Frame × Live) : Op → Option (Frame × Live)
  | .alloc n b =>
    let (f, p, o) := s.1.allocate n b
    some (f, ((p, n), o) :: s.2)
  | .release p n o => do
    let f ← s.1.release p n
    return (f, s.2.erase ((p, n), o))
  | .reset b => do
    let f ← s.1.reset b
    return (f, s.2.filter (fun x => x.2))

/-- Contract of the base allocator: `G` is what it guarantees about a new block and the live ones. -/
def valid (G : List Range → Range → Prop) (s : Frame × Live) : Op → Prop
  | .alloc n b => 0 < n ∧ G s.1.base (b, n)
  | .release p n o => ((p, n), o) ∈ s.2
  | .reset b => s.1.need = true → G (s.1.base.erase (s.1.start, s.1.total)) (b, s.1.total * 2)

inductive Reach (G : List Range → Range → Prop) : Frame × Live → Prop
  | init {b : Nat} : G [] (b, 1048576) → Reach G (init b, [])
  | step {s s' : Frame × Live} {op : Op} : Reach G s → valid G s op → step s op = some s' → Reach G s'

/-- Fresh blocks that are not adjacent to a live block. -/
def FreshGap (base : List Range) (r : Range) : Prop :=
  r.1 % 16 = 0 ∧ ∀ q ∈ base, r.1 + r.2 < q.1 ∨ q.1 + q.2 < r.1

instance (base : List Range) (r : Range) : Decidable (FreshGap base r) := by unfold FreshGap; infer_instance

/-! ### Invariant -/

/-- `gap`: no overflow allocation starts at the end of the buffer. -/
structure Inv (gap : Prop) (s : Frame × Live) : Prop where
  bufd : (buf s.2).Pairwise disj
  bufin : ∀ r ∈ buf s.2, s.1.start ≤ r.1 ∧ r.1 + r.2 ≤ s.1.start + s.1.off ∧ r.1 % 16 = 0 ∧ s.1.start < r.1
  offle : s.1.off ≤ s.1.total
  sub : ∃ extra, s.1.base.Perm ((s.1.start, s.1.total) :: (over s.2 ++ extra)) ∧ (gap → extra = [])
  ok : BaseOk s.1.base
  pos : ∀ x ∈ s.2, 0 < x.1.2
  nogap : gap → ∀ r ∈ s.1.base, r.1 ≠ s.1.start + s.1.total

theorem over_cons_t (r : Range) (l : Live) : over ((r, true) :: l) = r :: over l ∧ buf ((r, true) :: l) = buf l := ⟨rfl, rfl⟩
theorem over_cons_f (r : Range) (l : Live) : over ((r, false) :: l) = over l ∧ buf ((r, false) :: l) = r :: buf l := ⟨rfl, rfl⟩

theorem over_perm {l l' : Live} (h : l.Perm l') : (over l).Perm (over l') ∧ (buf l).Perm (buf l') :=
  ⟨(h.filter _).map _, (h.filter _).map _⟩

theorem over_filter (l : Live) : over (l.filter (fun x => x.2)) = over l ∧ buf (l.filter (fun x => x.2)) = [] := by
  constructor
  · unfold over; rw [List.filter_filter]; simp
  · unfold buf
    rw [List.filter_filter]
    have : (fun x : Range × Bool => (!x.2 && x.2)) = fun _ => false := by
      funext x; cases x.2 <;> rfl
    rw [this]; simp

/-- What the proofs need of the contract. -/
structure Good (gap : Prop) (G : List Range → Range → Prop) : Prop where
  fresh : ∀ base r, G base r → Fresh base r
  gap : gap → ∀ base r, G base r → ∀ q ∈ base, r.1 ≠ q.1 + q.2 ∧ q.1 ≠ r.1 + r.2

theorem alloc_inv {gap : Prop} {G : List Range → Range → Prop} (hg : Good gap G) {s : Frame × Live} (hi : Inv gap s) {n b : Nat}
    (hv : valid G s (.alloc n b)) : ∃ s' p o, step s (.alloc n b) = some s' ∧ s'.2 = ((p, n), o) :: s.2 ∧ Inv gap s' := by
  obtain ⟨hn, hb⟩ := hv
  by_cases hc : s.1.off + (n + 16) > s.1.total
  · refine ⟨({ s.1 with need := true, base := (b, n) :: s.1.base }, ((b, n), true) :: s.2), b, true, ?_, rfl, ?_⟩
    · simp only [step, allocate, if_pos hc]
    · obtain ⟨extra, hp, he⟩ := hi.sub
      refine ⟨hi.bufd, hi.bufin, hi.offle, ⟨extra, ?_, he⟩, hi.ok.cons (hg.fresh _ _ hb), ?_, ?_⟩
      · rw [(over_cons_t _ _).1]
        exact (List.Perm.cons _ hp).trans (List.Perm.swap _ _ _)
      · intro x hx
        rcases List.mem_cons.1 hx with rfl | hx
        · exact hn
        · exact hi.pos x hx
      · intro g r hr
        rcases List.mem_cons.1 hr with rfl | hr
        · exact (hg.gap g _ _ hb (s.1.start, s.1.total) (hp.mem_iff.2 (List.mem_cons_self ..))).1
        · exact hi.nogap g r hr
  · have ha : s.1.start + s.1.off < Heap.align (s.1.start + s.1.off) ∧ Heap.align (s.1.start + s.1.off) ≤ s.1.start + s.1.off + 16 ∧
        Heap.align (s.1.start + s.1.off) % 16 = 0 := by unfold Heap.align; omega
    refine ⟨({ s.1 with off := s.1.off + (n + 16) }, ((Heap.align (s.1.start + s.1.off), n), false) :: s.2), _, false, ?_, rfl, ?_⟩
    · simp only [step, allocate, if_neg hc]
    · refine ⟨?_, ?_, by simp only; omega, hi.sub, hi.ok, ?_, hi.nogap⟩
      · rw [(over_cons_f _ _).2, List.pairwise_cons]
        refine ⟨?_, hi.bufd⟩
        intro r hr
        have := hi.bufin r hr
        right
        show r.1 + r.2 ≤ _
        simp only; omega
      · rw [(over_cons_f _ _).2]
        intro r hr
        rcases List.mem_cons.1 hr with rfl | hr
        · simp only; omega
        · have := hi.bufin r hr
          simp only; omega
      · intro x hx
        rcases List.mem_cons.1 hx with rfl | hx
        · exact hn
        · exact hi.pos x hx

theorem buf_off_le {s : Frame × Live} {gap : Prop} (hi : Inv gap s) {r : Range} (hr : r ∈ buf s.2) :
    s.1.start ≤ r.1 ∧ r.1 ≤ s.1.start + s.1.total := by
  have h1 := hi.bufin r hr
  have h2 := hi.offle
  omega

theorem release_inv {gap : Prop} {G : List Range → Range → Prop} (hg : Good gap G) {s : Frame × Live} (hi : Inv gap s) {p n : Nat}
    {o : Bool} (hv : valid G s (.release p n o)) :
    ∃ s', step s (.release p n o) = some s' ∧ s'.2 = s.2.erase ((p, n), o) ∧ Inv gap s' := by
  have hv' : ((p, n), o) ∈ s.2 := hv
  have hper := List.perm_cons_erase hv'
  obtain ⟨ho, hb⟩ := over_perm hper
  have hn : 0 < n := hi.pos _ hv'
  have hpos : ∀ x ∈ s.2.erase ((p, n), o), 0 < x.1.2 := fun x hx => hi.pos x (List.mem_of_mem_erase hx)
  obtain ⟨extra, hp, he⟩ := hi.sub
  cases o with
  | false =>
    rw [(over_cons_f _ _).2] at hb
    rw [(over_cons_f _ _).1] at ho
    have hm : (p, n) ∈ buf s.2 := hb.mem_iff.2 (List.mem_cons_self ..)
    have hin := buf_off_le hi hm
    simp only at hin
    refine ⟨(s.1, s.2.erase ((p, n), false)), ?_, rfl, ?_⟩
    · simp only [step, release]
      rw [if_neg (by omega)]
      rfl
    · refine ⟨?_, ?_, hi.offle, ⟨extra, ?_, he⟩, hi.ok, hpos, hi.nogap⟩
      · have := (pairwise_disj_perm hb).1 hi.bufd
        exact (List.pairwise_cons.1 this).2
      · intro r hr
        exact hi.bufin r (hb.mem_iff.2 (List.mem_cons_of_mem _ hr))
      · exact hp.trans (List.Perm.cons _ (ho.append_right _))
  | true =>
    rw [(over_cons_t _ _).2] at hb
    rw [(over_cons_t _ _).1] at ho
    have hp2 : s.1.base.Perm ((s.1.start, s.1.total) :: (p, n) :: (over (s.2.erase ((p, n), true)) ++ extra)) :=
      hp.trans (List.Perm.cons _ (ho.append_right _))
    have hm : (p, n) ∈ s.1.base := hp2.mem_iff.2 (by simp)
    have hd := (hi.ok.perm hp2).disj
    have hd1 := (List.pairwise_cons.1 hd).1 (p, n) (by simp)
    have hbufd : (buf (s.2.erase ((p, n), true))).Pairwise disj := (pairwise_disj_perm hb).1 hi.bufd
    have hbufin : ∀ r ∈ buf (s.2.erase ((p, n), true)), s.1.start ≤ r.1 ∧ r.1 + r.2 ≤ s.1.start + s.1.off ∧ r.1 % 16 = 0 ∧
        s.1.start < r.1 := fun r hr => hi.bufin r (hb.mem_iff.2 hr)
    by_cases hc : p < s.1.start ∨ p > s.1.start + s.1.total
    · refine ⟨({ s.1 with base := s.1.base.erase (p, n) }, s.2.erase ((p, n), true)), ?_, rfl, ?_⟩
      · simp only [step, release, if_pos hc, baseRelease, if_pos hm]
        rfl
      · refine ⟨hbufd, hbufin, hi.offle, ⟨extra, ?_, he⟩, hi.ok.erase hm, hpos, ?_⟩
        · have h3 := (hp2.trans (List.Perm.swap _ _ _)).erase (p, n)
          rw [List.erase_cons_head] at h3
          exact h3
        · intro g r hr
          exact hi.nogap g r (List.mem_of_mem_erase hr)
    · refine ⟨(s.1, s.2.erase ((p, n), true)), ?_, rfl, ?_⟩
      · simp only [step, release, if_neg hc]
        rfl
      · refine ⟨hbufd, hbufin, hi.offle, ⟨(p, n) :: extra, ?_, ?_⟩, hi.ok, hpos, hi.nogap⟩
        · exact hp2.trans (List.Perm.cons _ List.perm_middle.symm)
        · intro g
          exfalso
          have h4 := hi.nogap g _ hm
          simp only at h4
          unfold disj at hd1
          simp only at hd1
          omega

theorem reset_inv {gap : Prop} {G : List Range → Range → Prop} (hg : Good gap G) {s : Frame × Live} (hi : Inv gap s) {b : Nat}
    (hv : valid G s (.reset b)) :
    ∃ s', step s (.reset b) = some s' ∧ s'.2 = s.2.filter (fun x => x.2) ∧ s'.1.off = 0 ∧ Inv gap s' := by
  obtain ⟨e1, e2⟩ := over_filter s.2
  obtain ⟨extra, hp, he⟩ := hi.sub
  have hpos : ∀ x ∈ s.2.filter (fun x => x.2), 0 < x.1.2 := fun x hx => hi.pos x (List.mem_filter.1 hx).1
  by_cases hc : s.1.need = true
  · have hb := hv hc
    have hm : (s.1.start, s.1.total) ∈ s.1.base := hp.mem_iff.2 (List.mem_cons_self ..)
    have hp2 : (s.1.base.erase (s.1.start, s.1.total)).Perm (over s.2 ++ extra) := by
      have := hp.erase (s.1.start, s.1.total)
      rwa [List.erase_cons_head] at this
    refine ⟨(⟨b, s.1.total * 2, 0, false, (b, s.1.total * 2) :: s.1.base.erase (s.1.start, s.1.total)⟩, s.2.filter (fun x => x.2)),
      ?_, rfl, rfl, ?_⟩
    · simp only [step, reset, if_pos hc, baseRelease, if_pos hm]
      rfl
    · refine ⟨by rw [e2]; exact List.Pairwise.nil, by rw [e2]; simp, Nat.zero_le _, ⟨extra, ?_, he⟩,
        (hi.ok.erase hm).cons (hg.fresh _ _ hb), hpos, ?_⟩
      · rw [e1]
        exact List.Perm.cons _ hp2
      · intro g r hr
        rcases List.mem_cons.1 hr with rfl | hr
        · -- the buffer is not empty
          have hne := (hg.fresh _ _ hb)
          simp only
          intro hh
          have ht : s.1.total = 0 := by omega
          have := hi.nogap g (s.1.start, s.1.total) hm
          simp only [ht] at this
          omega
        · exact (hg.gap g _ _ hb r hr).2
  · refine ⟨({ s.1 with off := 0 }, s.2.filter (fun x => x.2)), ?_, rfl, rfl, ?_⟩
    · simp only [step, reset, if_neg hc]
      rfl
    · refine ⟨by rw [e2]; exact List.Pairwise.nil, by rw [e2]; simp, Nat.zero_le _, ⟨extra, ?_, he⟩, hi.ok, hpos, hi.nogap⟩
      rw [e1]
      exact hp

theorem reach_inv {gap : Prop} {G : List Range → Range → Prop} (hg : Good gap G) {s : Frame × Live} (h : Reach G s) : Inv gap s := by
  induction h with
  | @init b hb =>
    have hf := hg.fresh _ _ hb
    refine ⟨List.Pairwise.nil, by simp [buf], by simp [init], ⟨[], by simp [init, over], fun _ => rfl⟩, ?_, by simp, ?_⟩
    · exact (BaseOk.mk List.Pairwise.nil (by simp)).cons hf
    · intro g r hr
      simp [init] at hr ⊢
      rw [hr]; simp
  | @step s s' op _ hv hs ih =>
    cases op with
    | alloc n b =>
      obtain ⟨s1, p, o, e, _, h1⟩ := alloc_inv hg ih hv
      rw [e] at hs; cases hs; exact h1
    | release p n o =>
      obtain ⟨s1, e, _, h1⟩ := release_inv hg ih hv
      rw [e] at hs; cases hs; exact h1
    | reset b =>
      obtain ⟨s1, e, _, _, h1⟩ := reset_inv hg ih hv
      rw [e] at hs; cases hs; exact h1

theorem good_fresh : Good False Fresh := ⟨fun _ _ h => h, fun h => h.elim⟩

theorem good_gap : Good True FreshGap := by
  refine ⟨?_, ?_⟩
  · intro base r h
    refine ⟨h.1, fun q hq => ?_⟩
    have := h.2 q hq
    unfold disj; omega
  · intro _ base r h q hq
    have := h.2 q hq
    omega

end Frame
end RP3D
