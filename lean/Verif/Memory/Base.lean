import Mathlib.Data.List.Perm.Basic
import Mathlib.Data.List.Nodup
import Mathlib.Tactic.Linarith
import Mathlib.Tactic.Ring

/-! The base allocator under the allocators of the library (include/reactphysics3d/memory/MemoryAllocator.h:50-62: `allocate`
returns 16-byte aligned memory, `release` gets the pointer and the size).  The addresses it returns are
arbitrary (chosen by the environment) subject to the contract `Fresh`. -/

namespace RP3D

/-- A range of memory: address and number of bytes. -/
abbrev Range := Nat × Nat

/-- Two ranges do not overlap. -/
def disj (p q : Range) : Prop := p.1 + p.2 ≤ q.1 ∨ q.1 + q.2 ≤ p.1

instance (p q : Range) : Decidable (disj p q) := by unfold disj; infer_instance

theorem disj_symm {p q : Range} (h : disj p q) : disj q p := h.symm

/-- `p` lies inside `q`. -/
def inside (p q : Range) : Prop := q.1 ≤ p.1 ∧ p.1 + p.2 ≤ q.1 + q.2

theorem disj_of_inside {p q r : Range} (h : disj q r) (hp : inside p q) : disj p r := by
  unfold disj inside at *; omega

/-- Contract of the base allocator: the new block is 16-byte aligned and disjoint from the live ones. -/
def Fresh (base : List Range) (r : Range) : Prop := r.1 % 16 = 0 ∧ ∀ q ∈ base, disj r q

instance (base : List Range) (r : Range) : Decidable (Fresh base r) := by unfold Fresh; infer_instance

/-- Releasing a block to the base allocator; releasing anything that is not a live block with that size is
undefined (`none`). -/
def baseRelease (base : List Range) (r : Range) : Option (List Range) :=
  if r ∈ base then some (base.erase r) else none

/-- The live blocks of the base allocator. -/
structure BaseOk (base : List Range) : Prop where
  disj : base.Pairwise disj
  aligned : ∀ r ∈ base, r.1 % 16 = 0

theorem BaseOk.cons {base : List Range} (h : BaseOk base) {r : Range} (hr : Fresh base r) : BaseOk (r :: base) :=
  ⟨List.pairwise_cons.2 ⟨hr.2, h.disj⟩, by
    intro q hq
    rcases List.mem_cons.1 hq with rfl | hq
    · exact hr.1
    · exact h.aligned q hq⟩

theorem pairwise_disj_perm {l l' : List Range} (h : l.Perm l') : l.Pairwise disj ↔ l'.Pairwise disj :=
  h.pairwise_iff (fun {_ _} => disj_symm)

theorem BaseOk.perm {base base' : List Range} (h : BaseOk base) (hp : base.Perm base') : BaseOk base' :=
  ⟨(pairwise_disj_perm hp).1 h.disj, fun r hr => h.aligned r (hp.mem_iff.2 hr)⟩

theorem BaseOk.tail {base : List Range} {r : Range} (h : BaseOk (r :: base)) : BaseOk base :=
  ⟨(List.pairwise_cons.1 h.disj).2, fun q hq => h.aligned q (List.mem_cons_of_mem _ hq)⟩

theorem BaseOk.erase {base : List Range} {r : Range} (h : BaseOk base) (hr : r ∈ base) : BaseOk (base.erase r) :=
  (h.perm (List.perm_cons_erase hr)).tail

end RP3D
