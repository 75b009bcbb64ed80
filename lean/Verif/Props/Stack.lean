import Verif.Containers.Stack

/-! Property theorem C08: `Stack`. -/

namespace RP3D

/-- **C08.** For every initial capacity, every history of operations valid for a LIFO sequence runs without
undefined behaviour and returns its results. -/
theorem stack_refines_lifo {α : Type} (capacity : Nat) (ops : List (Stk.Op α)) (l : List α) (outs : List (Stk.Out α))
    (h : StkSpec.run [] ops = some (l, outs)) :
    ∃ s0 s, Stk.new capacity = some s0 ∧ s0.run ops = some (s, outs) ∧ s.size = l.length := by
  obtain ⟨s0, h1, h2⟩ := Stk.rep_new (α := α) capacity
  obtain ⟨s, h3, h4⟩ := Stk.run_rep ops h2 h
  exact ⟨s0, s, h1, h3, h4.size⟩

example : StkSpec.run [] [.push 1, .push 2, .top, .pop, .push 3, .copy, .pop, .size] =
    some ([1], [.unit, .unit, .val 2, .val 2, .unit, .unit, .val 3, .nat 1]) := by rfl

end RP3D
