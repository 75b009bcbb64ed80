import Verif.Narrow.Algorithms
import Verif.Memory.PoolLemmas
import Mathlib.Data.List.Induction
import Mathlib.Tactic.Common

/-! C154: a narrow-phase algorithm set by the user is used for its kind of pairs; the default ones are given back once. -/

namespace RP3D
namespace Algorithms
open Dispatch

/-! ### Specification -/

/-- What was set last for a kind. -/
def lastSet (h : List (Algo × Nat)) (k : Algo) : Option Nat := (h.filter fun c => c.1 = k).getLast?.map Prod.snd

/-- Histories of a user who does not hand back an algorithm of the library. -/
def Own (dflt : Algo → Nat) (h : List (Algo × Nat)) : Prop := ∀ c ∈ h, ∀ k, c.2 ≠ dflt k

/-! ### Theorems -/

theorem run_snoc (size : Algo → Nat) (s : State) (h : List (Algo × Nat)) (c : Algo × Nat) :
    s.run size (h ++ [c]) = (s.run size h).setAlgo size c.1 c.2 := List.foldl_concat ..

theorem slot_run (size dflt : Algo → Nat) (h : List (Algo × Nat)) (k : Algo) :
    ((init dflt).run size h).slot k = match lastSet h k with
      | some p => ⟨p, false⟩
      | none => ⟨dflt k, true⟩ := by
  induction h using List.reverseRecOn with
  | nil => rfl
  | append_singleton h c ih =>
    rw [run_snoc]
    obtain ⟨j, p⟩ := c
    by_cases e : j = k
    · simp [State.setAlgo, lastSet, List.filter_append, e]
    · simp only [State.setAlgo, if_neg (Ne.symm e)]
      rw [ih]
      simp [lastSet, List.filter_append, e]

/-- The getter returns what was set last for the kind, and the default algorithm if nothing was. -/
theorem get_last (size dflt : Algo → Nat) (h : List (Algo × Nat)) (k : Algo) :
    ((init dflt).run size h).get k = (lastSet h k).getD (dflt k) := by
  unfold State.get
  rw [slot_run]
  cases lastSet h k <;> rfl

theorem lastSet_none (h : List (Algo × Nat)) (k : Algo) : lastSet h k = none ↔ ∀ c ∈ h, c.1 ≠ k := by
  simp [lastSet]

/-- The calls of `release` while the setters run: at the first one of every kind. -/
theorem mem_released (size dflt : Algo → Nat) (h : List (Algo × Nat)) (r : Nat × Nat) :
    r ∈ ((init dflt).run size h).released ↔ ∃ k, lastSet h k ≠ none ∧ r = (dflt k, size k) := by
  induction h using List.reverseRecOn with
  | nil => simp [State.run, init, lastSet]
  | append_singleton h c ih =>
    obtain ⟨j, p⟩ := c
    have last (k : Algo) : lastSet (h ++ [(j, p)]) k ≠ none ↔ lastSet h k ≠ none ∨ j = k := by
      rw [Ne, Ne, lastSet_none, lastSet_none]
      simp only [List.mem_append, List.mem_singleton, or_imp, forall_and, forall_eq]
      by_cases e : j = k <;> simp [e]
    rw [run_snoc]
    have hs := slot_run size dflt h j
    simp only [last]
    cases e : lastSet h j with
    | some q =>
      rw [e] at hs
      simp only [State.setAlgo, hs, Bool.false_eq_true, if_false, ih]
      refine ⟨fun ⟨k, a, b⟩ => ⟨k, .inl a, b⟩, fun ⟨k, a, b⟩ => ⟨k, ?_, b⟩⟩
      rcases a with a | rfl
      · exact a
      · rw [e]; simp
    | none =>
      rw [e] at hs
      simp only [State.setAlgo, hs, if_true, List.mem_append, ih, List.mem_singleton]
      constructor
      · rintro (⟨k, a, b⟩ | b)
        · exact ⟨k, .inl a, b⟩
        · exact ⟨j, .inr rfl, b⟩
      · rintro ⟨k, a | rfl, b⟩
        · exact .inl ⟨k, a, b⟩
        · exact .inr b

theorem count_released (size dflt : Algo → Nat) (inj : ∀ j k, dflt j = dflt k → j = k) (h : List (Algo × Nat)) (k : Algo) :
    (((init dflt).run size h).released.map Prod.fst).count (dflt k) = if lastSet h k = none then 0 else 1 := by
  induction h using List.reverseRecOn with
  | nil => simp [State.run, init, lastSet]
  | append_singleton h c ih =>
    obtain ⟨j, p⟩ := c
    have hs := slot_run size dflt h j
    have last : lastSet (h ++ [(j, p)]) k = if j = k then some p else lastSet h k := by
      by_cases e : j = k <;> simp [lastSet, List.filter_append, e]
    rw [run_snoc, last]
    cases e : lastSet h j with
    | some q =>
      rw [e] at hs
      simp only [State.setAlgo, hs, Bool.false_eq_true, if_false, ih]
      by_cases ek : j = k
      · subst ek; simp [e]
      · simp [ek]
    | none =>
      rw [e] at hs
      simp only [State.setAlgo, hs, if_true, List.map_append, List.count_append, ih]
      by_cases ek : j = k
      · subst ek; simp [e]
      · have : dflt j ≠ dflt k := fun e => ek (inj _ _ e)
        simp [ek, this]

theorem count_filter_map (dflt : Algo → Nat) (inj : ∀ j k, dflt j = dflt k → j = k) (P : Algo → Bool) (k : Algo) :
    ∀ l : List Algo, ((l.filter P).map dflt).count (dflt k) = if P k then l.count k else 0
  | [] => by simp
  | j :: l => by
    have ih := count_filter_map dflt inj P k l
    by_cases e : j = k
    · subst e
      cases hp : P j <;> simp [hp] at ih ⊢ <;> exact ih
    · have : dflt j ≠ dflt k := fun h => e (inj _ _ h)
      cases hp : P j <;> simp [hp, e, this, ih]

theorem count_kinds (k : Algo) (hk : k ≠ .none) : kinds.count k = 1 := by cases k <;> first | exact absurd rfl hk | rfl

/-- In the life of a `CollisionDispatch` each default algorithm is released exactly once, whatever the user sets. -/
theorem released_once (size dflt : Algo → Nat) (inj : ∀ j k, dflt j = dflt k → j = k) (h : List (Algo × Nat)) (k : Algo)
    (hk : k ≠ .none) : ((((init dflt).run size h).destroy size).released.map Prod.fst).count (dflt k) = 1 := by
  have hs := slot_run size dflt h
  have e : ((kinds.filter fun j => (((init dflt).run size h).slot j).isDefault).map fun j =>
      ((((init dflt).run size h).slot j).ptr, allocSize (size j))).map Prod.fst =
      (kinds.filter fun j => (((init dflt).run size h).slot j).isDefault).map dflt := by
    rw [List.map_map]
    refine List.map_congr_left fun j hj => ?_
    have := (List.mem_filter.1 hj).2
    show (((init dflt).run size h).slot j).ptr = _
    rw [hs] at this ⊢
    cases el : lastSet h j with
    | none => rfl
    | some p => rw [el] at this; cases this
  unfold State.destroy
  simp only [List.map_append, List.count_append]
  rw [count_released size dflt inj, e, count_filter_map dflt inj, count_kinds k hk, hs]
  cases lastSet h k <;> simp

/-- Nothing else is released: the algorithms of the user stay theirs. -/
theorem only_defaults_released (size dflt : Algo → Nat) (h : List (Algo × Nat)) (r : Nat × Nat)
    (hr : r ∈ (((init dflt).run size h).destroy size).released) :
    ∃ k, r.1 = dflt k ∧ (r.2 = size k ∨ r.2 = allocSize (size k)) := by
  rcases List.mem_append.1 hr with hr | hr
  · obtain ⟨k, -, rfl⟩ := (mem_released size dflt h r).1 hr
    exact ⟨k, rfl, .inl rfl⟩
  · obtain ⟨k, hk, rfl⟩ := List.mem_map.1 hr
    have := (List.mem_filter.1 hk).2
    refine ⟨k, ?_, .inr rfl⟩
    show (((init dflt).run size h).slot k).ptr = _
    rw [slot_run] at this ⊢
    cases el : lastSet h k with
    | none => rfl
    | some p => rw [el] at this; cases this

/-- The setters pass `sizeof` instead of the size that was asked for; the pool allocator puts the memory in the right list all the same. -/
theorem release_size (p : Pool) (ptr n : Nat) (h0 : 0 < n) (h : n ≤ Pool.maxUnit) : p.release ptr n = p.release ptr (allocSize n) := by
  obtain ⟨m, rfl⟩ : ∃ m, n = m + 1 := ⟨n - 1, by omega⟩
  have hm : allocSize (m + 1) = (m / 16 * 16 + 15) + 1 := by unfold allocSize; omega
  have hx : Pool.maxUnit = 2048 := rfl
  unfold Pool.release
  rw [hm, if_neg (by omega), if_neg (by omega), if_neg (by omega), if_neg (by omega), Pool.heapIndex_eq, Pool.heapIndex_eq]
  have : (m / 16 * 16 + 15) / 16 = m / 16 := by omega
  rw [this]

/-- For a user who does not hand back an algorithm of the library, the algorithm in use has not been released. -/
theorem in_use_alive (size dflt : Algo → Nat) (inj : ∀ j k, dflt j = dflt k → j = k) (h : List (Algo × Nat)) (own : Own dflt h)
    (k : Algo) : ∀ r ∈ ((init dflt).run size h).released, r.1 ≠ ((init dflt).run size h).get k := by
  intro r hr
  obtain ⟨j, hj, rfl⟩ := (mem_released size dflt h r).1 hr
  rw [get_last]
  cases e : lastSet h k with
  | none =>
    intro ee
    rw [inj _ _ ee] at hj
    exact hj e
  | some p =>
    have hp : ∃ c ∈ h, c.2 = p := by
      unfold lastSet at e
      obtain ⟨c, hc, rfl⟩ := Option.map_eq_some_iff.1 e
      exact ⟨c, (List.mem_filter.1 (List.mem_of_getLast? hc)).1, rfl⟩
    obtain ⟨c, hc, rfl⟩ := hp
    exact fun ee => own c hc j ee.symm

/-- But setting what the getter returns leaves an algorithm in use whose memory has been released. -/
theorem set_get_dangles (size dflt : Algo → Nat) (k : Algo) :
    (((init dflt).setAlgo size k ((init dflt).get k)).get k, size k) ∈
      ((init dflt).setAlgo size k ((init dflt).get k)).released := by
  simp [State.setAlgo, State.get, init]

/-- What the user wants of a custom algorithm: the pairs of a kind are tested by the algorithm that was set last. -/
def Uses {α β : Type} (std : Algo → α → β) (own : Nat → α → β) (s : State) (h : List (Algo × Nat)) : Prop :=
  ∀ k p, lastSet h k = some p → s.test std own k = own p

/-- With no algorithm set, or only ones that do not bring a test of their own, it is so. -/
theorem uses_partial {α β : Type} (size dflt : Algo → Nat) (std : Algo → α → β) (own : Nat → α → β) (h : List (Algo × Nat))
    (same : ∀ c ∈ h, own c.2 = std c.1) : Uses std own ((init dflt).run size h) h := by
  intro k p hp
  unfold lastSet at hp
  obtain ⟨c, hc, rfl⟩ := Option.map_eq_some_iff.1 hp
  obtain ⟨m1, m2⟩ := List.mem_filter.1 (List.mem_of_getLast? hc)
  rw [same c m1, of_decide_eq_true m2]
  unfold State.test
  cases k <;> rfl

/-- In general it is not: the test of the library is called whatever the user has set. -/
theorem std_test_always {α β : Type} (size dflt : Algo → Nat) (std : Algo → α → β) (own : Nat → α → β)
    (h : List (Algo × Nat)) (k : Algo) : ((init dflt).run size h).test std own k = std k := by
  unfold State.test
  cases k <;> rfl

/-- An algorithm for two spheres that reports every pair is never asked. -/
theorem custom_ignored (size dflt : Algo → Nat) : ∃ (std : Algo → Unit → Bool) (own : Nat → Unit → Bool) (h : List (Algo × Nat)),
    Own dflt h ∧ lastSet h .sphereSphere ≠ none ∧ ¬ Uses std own ((init dflt).run size h) h := by
  obtain ⟨p, hp⟩ : ∃ p, ∀ k, p ≠ dflt k := by
    refine ⟨dflt .none + dflt .sphereSphere + dflt .sphereCapsule + dflt .capsuleCapsule + dflt .spherePoly + dflt .capsulePoly +
      dflt .polyPoly + 1, fun k => ?_⟩
    cases k <;> omega
  refine ⟨fun _ _ => false, fun _ _ => true, [(.sphereSphere, p)], ?_, by simp [lastSet], fun u => ?_⟩
  · intro c hc k
    rw [List.mem_singleton.1 hc]
    exact hp k
  · have := u .sphereSphere p (by simp [lastSet])
    rw [std_test_always] at this
    exact Bool.false_ne_true (congrFun this ())

/-! ### Examples -/

/-- Addresses of the default algorithms. -/
def someDefaults : Algo → Nat
  | .none => 0
  | .sphereSphere => 16
  | .sphereCapsule => 32
  | .capsuleCapsule => 48
  | .spherePoly => 64
  | .capsulePoly => 80
  | .polyPoly => 96

example : (∀ j k, someDefaults j = someDefaults k → j = k) ∧
    Own someDefaults [(.sphereSphere, 1000), (.polyPoly, 2000), (.sphereSphere, 3000)] ∧
    (((init someDefaults).run (fun _ => 8) [(.sphereSphere, 1000), (.polyPoly, 2000), (.sphereSphere, 3000)]).destroy fun _ => 8).released =
      [(16, 8), (96, 8), (32, 16), (48, 16), (64, 16), (80, 16)] := by
  refine ⟨fun j k => ?_, ?_, by decide +kernel⟩
  · cases j <;> cases k <;> simp [someDefaults]
  · intro c hc k
    simp only [List.mem_cons, List.not_mem_nil, or_false] at hc
    rcases hc with rfl | rfl | rfl <;> cases k <;> simp [someDefaults]

end Algorithms
end RP3D
