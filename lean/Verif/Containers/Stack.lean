import Verif.Containers.Array

/-! Model of `Stack<T>` (include/reactphysics3d/containers/Stack.h), with the conventions of
`Verif/Containers/Array.lean`. -/

namespace RP3D

/-- `mArray, mNbElements, mCapacity` (Stack.h:49-56). -/
structure Stk (α : Type) where
  buf : Nat → Option α
  size : Nat
  cap : Nat

namespace Stk
variable {α : Type}

/-- `allocate` (Stack.h:61-85); copying past the end of the new array is undefined. -/
def allocate (s : Stk α) (n : Nat) : Option (Stk α) :=
  let c := ceil16F n
  if s.size ≤ c then some ⟨fun i => if i < s.size then s.buf i else none, s.size, c⟩ else none

/-- Constructor (Stack.h:92-98). -/
def new (n : Nat) : Option (Stk α) :=
  if n > 0 then (⟨fun _ => none, 0, 0⟩ : Stk α).allocate n else some ⟨fun _ => none, 0, 0⟩

/-- Copy constructor (Stack.h:101-117). -/
def copy (s : Stk α) : Option (Stk α) :=
  if s.size ≤ s.cap then some ⟨fun i => if i < s.size then s.buf i else none, s.size, s.cap⟩ else none

/-- `clear` (Stack.h:132-140). -/
def clear (s : Stk α) : Stk α := ⟨fun i => if i < s.size then none else s.buf i, 0, s.cap⟩

/-- Making room in `push` (Stack.h:146-149). -/
def grow (s : Stk α) : Option (Stk α) :=
  if s.size = s.cap then s.allocate (if s.cap > 0 then s.cap * 2 else 1) else some s

/-- `push` (Stack.h:143-155). -/
def push (s : Stk α) (x : α) : Option (Stk α) := do
  let s ← s.grow
  if s.size < s.cap then some { s with buf := upd s.buf s.size (some x), size := s.size + 1 } else none

/-- `pop` (Stack.h:158-171). -/
def pop (s : Stk α) : Option (Stk α × α) := do
  if s.size = 0 then none
  else
    let x ← s.buf (s.size - 1)
    return ({ s with buf := upd s.buf (s.size - 1) none, size := s.size - 1 }, x)

/-- `top` (Stack.h:174-179). -/
def top (s : Stk α) : Option α := if s.size = 0 then none else s.buf (s.size - 1)

inductive Op (α : Type)
  | push (x : α)
  | pop
  | top
  | clear
  | size
  | copy

inductive Out (α : Type)
  | unit
  | val (x : α)
  | nat (n : Nat)

def step (s : Stk α) : Op α → Option (Stk α × Out α)
  | .push x => do return (← s.push x, .unit)
  | .pop => do
    let (s, x) ← s.pop
    return (s, .val x)
  | .top => do return (s, .val (← s.top))
  | .clear => some (s.clear, .unit)
  | .size => some (s, .nat s.size)
  | .copy => do return (← s.copy, .unit)

def run (s : Stk α) : List (Op α) → Option (Stk α × List (Out α))
  | [] => some (s, [])
  | op :: ops => do
    let (s, o) ← step s op
    let (s, os) ← run s ops
    return (s, o :: os)

end Stk

/-! The specification: a list whose head is the top. -/
namespace StkSpec
variable {α : Type}

def step (l : List α) : Stk.Op α → Option (List α × Stk.Out α)
  | .push x => some (x :: l, .unit)
  | .pop => match l with
    | [] => none
    | x :: l => some (l, .val x)
  | .top => match l with
    | [] => none
    | x :: l => some (x :: l, .val x)
  | .clear => some ([], .unit)
  | .size => some (l, .nat l.length)
  | .copy => some (l, .unit)

def run (l : List α) : List (Stk.Op α) → Option (List α × List (Stk.Out α))
  | [] => some (l, [])
  | op :: ops => do
    let (l, o) ← step l op
    let (l, os) ← run l ops
    return (l, o :: os)

end StkSpec

namespace Stk
variable {α : Type}

/-- `s` stores the stack `l` (top first). -/
structure Rep (s : Stk α) (l : List α) : Prop where
  size : s.size = l.length
  cap : s.cap = 0 ∨ (0 < s.cap ∧ IsF32 s.cap ∧ s.cap % 16 = 0)
  bound : s.size ≤ s.cap
  items : ∀ i, i < l.length → s.buf i = l.reverse[i]?

theorem ceil16F_pos {n : Nat} (h : 0 < n) : 0 < ceil16F n := by
  have := ceil16F_double n
  omega

theorem rep_new (n : Nat) : ∃ s : Stk α, new n = some s ∧ Rep s [] := by
  unfold new allocate
  split_ifs with h
  · exact ⟨_, rfl, rfl, Or.inr ⟨ceil16F_pos h, ceil16F_isF32' n, ceil16F_mod n⟩, Nat.zero_le _, by simp⟩
  · exact ⟨_, rfl, rfl, Or.inl rfl, le_refl _, by simp⟩

theorem grow_rep {s : Stk α} {l : List α} (h : Rep s l) : ∃ s', s.grow = some s' ∧ Rep s' l ∧ s'.size < s'.cap := by
  unfold grow
  by_cases he : s.size = s.cap
  · rw [if_pos he]
    have hb := h.bound
    obtain ⟨hc, hcap⟩ : s.size < ceil16F (if s.cap > 0 then s.cap * 2 else 1) ∧
        0 < ceil16F (if s.cap > 0 then s.cap * 2 else 1) := by
      rcases h.cap with h0 | ⟨h1, h2, h3⟩
      · rw [if_neg (by omega)]
        have := ceil16F_pos (n := 1) (by norm_num)
        omega
      · rw [if_pos h1, ceil16F_of_isF32 (IsF32.mul_two h2) (by omega)]
        omega
    unfold allocate
    simp only
    rw [if_pos (by omega)]
    refine ⟨_, rfl, ⟨h.size, Or.inr ⟨hcap, ceil16F_isF32' _, ceil16F_mod _⟩, by simp only; omega, ?_⟩, hc⟩
    intro i hi
    show (if i < s.size then s.buf i else none) = _
    rw [if_pos (by rw [h.size]; exact hi)]
    exact h.items i hi
  · rw [if_neg he]
    exact ⟨s, rfl, h, by have := h.bound; omega⟩

theorem push_rep {s : Stk α} {l : List α} (h : Rep s l) (x : α) : ∃ s', s.push x = some s' ∧ Rep s' (x :: l) := by
  obtain ⟨s1, h1, h2, h3⟩ := grow_rep h
  refine ⟨{ s1 with buf := upd s1.buf s1.size (some x), size := s1.size + 1 }, ?_, ?_⟩
  · unfold push
    rw [h1]
    simp only [Option.bind_eq_bind, Option.bind_some]
    rw [if_pos h3]
  · refine ⟨by simp [h2.size], h2.cap, h3, ?_⟩
    intro i hi
    show upd s1.buf s1.size (some x) i = _
    rw [List.reverse_cons]
    by_cases hil : i = l.length
    · subst hil
      rw [← h2.size, upd_same, h2.size]
      simp
    · simp only [List.length_cons] at hi
      rw [upd_ne _ _ (by rw [h2.size]; exact hil), List.getElem?_append_left (by simp; omega)]
      exact h2.items i (by omega)

theorem top_buf {s : Stk α} {x : α} {l : List α} (h : Rep s (x :: l)) : s.buf (s.size - 1) = some x := by
  have := h.items (s.size - 1) (by rw [h.size]; simp)
  rw [this, h.size]; simp

theorem step_rep {s : Stk α} {l l' : List α} {op : Op α} {o : Out α} (h : Rep s l)
    (hs : StkSpec.step l op = some (l', o)) : ∃ s', s.step op = some (s', o) ∧ Rep s' l' := by
  cases op with
  | push x =>
    simp only [StkSpec.step, Option.some.injEq, Prod.mk.injEq] at hs
    obtain ⟨rfl, rfl⟩ := hs
    obtain ⟨s', h1, h2⟩ := push_rep h x
    exact ⟨s', by simp [step, h1], h2⟩
  | pop =>
    cases l with
    | nil => simp [StkSpec.step] at hs
    | cons x l =>
      simp only [StkSpec.step, Option.some.injEq, Prod.mk.injEq] at hs
      obtain ⟨rfl, rfl⟩ := hs
      have hsz := h.size
      have h0 : s.size ≠ 0 := by rw [hsz]; simp
      refine ⟨{ s with buf := upd s.buf (s.size - 1) none, size := s.size - 1 }, ?_, ?_⟩
      · simp [step, pop, h0, top_buf h]
      · simp only [List.length_cons] at hsz
        refine ⟨by simp only; omega, h.cap, by have := h.bound; simp only; omega, ?_⟩
        intro i hi
        show upd s.buf (s.size - 1) none i = _
        rw [upd_ne _ _ (by omega), h.items i (by simp; omega), List.reverse_cons,
          List.getElem?_append_left (by simpa using hi)]
  | top =>
    cases l with
    | nil => simp [StkSpec.step] at hs
    | cons x l =>
      simp only [StkSpec.step, Option.some.injEq, Prod.mk.injEq] at hs
      obtain ⟨rfl, rfl⟩ := hs
      have h0 : s.size ≠ 0 := by rw [h.size]; simp
      exact ⟨s, by simp [step, top, h0, top_buf h], h⟩
  | clear =>
    simp only [StkSpec.step, Option.some.injEq, Prod.mk.injEq] at hs
    obtain ⟨rfl, rfl⟩ := hs
    exact ⟨_, rfl, rfl, h.cap, Nat.zero_le _, by simp⟩
  | size =>
    simp only [StkSpec.step, Option.some.injEq, Prod.mk.injEq] at hs
    obtain ⟨rfl, rfl⟩ := hs
    exact ⟨s, by simp [step, h.size], h⟩
  | copy =>
    simp only [StkSpec.step, Option.some.injEq, Prod.mk.injEq] at hs
    obtain ⟨rfl, rfl⟩ := hs
    refine ⟨⟨fun i => if i < s.size then s.buf i else none, s.size, s.cap⟩, by simp [step, copy, h.bound],
      h.size, h.cap, h.bound, ?_⟩
    intro i hi
    show (if i < s.size then s.buf i else none) = _
    rw [if_pos (by rw [h.size]; exact hi)]
    exact h.items i hi

theorem run_rep (ops : List (Op α)) : ∀ {s : Stk α} {l l' : List α} {os : List (Out α)}, Rep s l →
    StkSpec.run l ops = some (l', os) → ∃ s', s.run ops = some (s', os) ∧ Rep s' l' := by
  induction ops with
  | nil =>
    intro s l l' os h hs
    simp only [StkSpec.run, Option.some.injEq, Prod.mk.injEq] at hs
    obtain ⟨rfl, rfl⟩ := hs
    exact ⟨s, rfl, h⟩
  | cons op ops ih =>
    intro s l l' os h hs
    simp only [StkSpec.run, Option.bind_eq_bind, Option.bind_eq_some_iff, Prod.exists] at hs
    obtain ⟨l1, o, h1, l2, os2, h2, h3⟩ := hs
    obtain ⟨d1, a1, a2⟩ := step_rep h h1
    obtain ⟨d2, b1, b2⟩ := ih a2 h2
    simp only [pure, Option.some.injEq, Prod.mk.injEq] at h3
    obtain ⟨rfl, rfl⟩ := h3
    exact ⟨d2, by simp [run, a1, b1], b2⟩

end Stk
end RP3D
