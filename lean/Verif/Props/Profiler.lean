import Verif.Engine.Profiler
import Mathlib.Tactic.Common
import Mathlib.Tactic.SplitIfs
import Mathlib.Data.List.Infix
import Mathlib.Algebra.BigOperators.Group.List.Basic

/-!
C153: the profiler counts every call of a block under the blocks that called it, and the time of a block covers the times of the
blocks inside it.
-/

namespace RP3D
namespace Profile

/-! ### Specification -/

/-- The blocks of a program as they ran one after the other: a block has a name, a time when it began and one when it
ended, and the blocks inside it. -/
inductive Runs
  | nil
  | cons (n : Nat) (t0 t1 : Int) (sub rest : Runs)
deriving DecidableEq, Repr

/-- What the profiler is told. -/
def Runs.events : Runs → List Ev
  | .nil => []
  | .cons n t0 t1 sub rest => .start n t0 :: (sub.events ++ .stop t1 :: rest.events)

/-- The clock does not run backwards: everything happens between `a` and `b`. -/
def Runs.Timed : Int → Runs → Int → Prop
  | a, .nil, b => a ≤ b
  | a, .cons _ t0 t1 sub rest, b => a ≤ t0 ∧ Timed t0 sub t1 ∧ Timed t1 rest b

/-- The blocks that are open, innermost first, after one more is entered; a block that calls itself counts as one. -/
def within (n : Nat) (c : Path) : Path := if c.head? = some n then c else n :: c

/-- How often the block with the callers `p` was entered. -/
def Runs.count : Path → Runs → Path → Nat
  | _, .nil, _ => 0
  | c, .cons n _ _ sub rest, p => (if within n c = p then 1 else 0) + count (within n c) sub p + count c rest p

/-- The time spent in it: from the beginning to the end, but not again for a call by itself. -/
def Runs.time : Path → Runs → Path → Int
  | _, .nil, _ => 0
  | c, .cons n t0 t1 sub rest, p =>
    (if c.head? ≠ some n ∧ n :: c = p then t1 - t0 else 0) + time (within n c) sub p + time c rest p

/-! ### Theorems -/

theorem enter_within (n : Nat) (c : Path) : enter n c = within n c := by
  cases c with
  | nil => rfl
  | cons m c =>
    simp only [enter, within, List.head?_cons, Option.some.injEq]
    by_cases h : n = m
    · rw [if_pos h, if_pos h.symm]
    · rw [if_neg h, if_neg (Ne.symm h)]

/-- The states between the events: the open nodes are those up from the current one. -/
structure Ok (s : Prof) : Prop where
  closed : ∀ p, ¬ p <:+ s.cur → s.rc p = 0
  open_ : s.cur ≠ [] → 0 < s.rc s.cur

theorem run_append (s : Prof) : ∀ (p q : List Ev), s.run (p ++ q) = (s.run p).bind fun u => u.run q := by
  intro p
  induction p generalizing s with
  | nil => exact fun q => rfl
  | cons e p ih =>
    intro q
    show (s.step e).bind _ = ((s.step e).bind _).bind _
    cases s.step e with
    | none => rfl
    | some u => exact ih u q

theorem not_suffix (n : Nat) (c : Path) : ¬ (n :: c) <:+ c := by
  intro h
  have := h.length_le
  simp only [List.length_cons] at this
  exact absurd this (Nat.not_succ_le_self _)

/-- The effect of a program on the profiler. -/
theorem run_runs (F : Runs) : ∀ s : Prof, Ok s → ∃ s', s.run F.events = some s' ∧ s'.cur = s.cur ∧ s'.rc = s.rc ∧
    (∀ p, s'.calls p = s.calls p + F.count s.cur p) ∧ (∀ p, s'.total p = s.total p + F.time s.cur p) ∧
    (∀ p, 0 < s.rc p → s'.start p = s.start p) := by
  induction F with
  | nil => exact fun s _ => ⟨s, rfl, rfl, rfl, fun p => rfl, fun p => (Int.add_zero _).symm, fun p _ => rfl⟩
  | cons n t0 t1 sub rest ih1 ih2 =>
    intro s hs
    have ew := enter_within n s.cur
    by_cases hh : s.cur.head? = some n
    · have hw : within n s.cur = s.cur := if_pos hh
      have hne : s.cur ≠ [] := by intro e; rw [e] at hh; cases hh
      have hpos := hs.open_ hne
      have e1 : s.startBlock n t0 = { s with
          calls := set s.calls s.cur (s.calls s.cur + 1), rc := set s.rc s.cur (s.rc s.cur + 1) } := by
        unfold Prof.startBlock
        rw [ew, hw]
        simp only
        rw [if_neg (by omega)]
      have ok1 : Ok { s with calls := set s.calls s.cur (s.calls s.cur + 1), rc := set s.rc s.cur (s.rc s.cur + 1) } := by
        refine ⟨fun p hp => ?_, fun _ => ?_⟩
        · have : p ≠ s.cur := fun e => hp (by rw [e])
          simp only [set, if_neg this]
          exact hs.closed p hp
        · simp only [set, if_true]; omega
      obtain ⟨s2, r2, c2, k2, n2, m2, a2⟩ := ih1 _ ok1
      simp only at c2 k2 n2 m2 a2
      have e3 : s2.stopBlock t1 = some { s2 with rc := s.rc } := by
        have hr : s2.rc s2.cur - 1 = s.rc s.cur := by
          rw [k2, c2]; simp [set]
        have h0 : s.rc s.cur ≠ 0 := by omega
        have hset : set s2.rc s2.cur (s.rc s.cur) = s.rc := by
          funext p
          by_cases hp : p = s.cur
          · rw [hp, c2]; simp [set]
          · rw [k2, c2]; simp [set, hp]
        unfold Prof.stopBlock
        simp only [hr, if_neg h0, hset]
        rw [if_neg (fun h => h0 h.1)]
      have ok3 : Ok { s2 with rc := s.rc } :=
        ⟨fun p hp => hs.closed p (by rw [← c2]; exact hp), fun _ => by show 0 < s.rc s2.cur; rw [c2]; exact hpos⟩
      obtain ⟨s4, r4, c4, k4, n4, m4, a4⟩ := ih2 _ ok3
      simp only at c4 k4 n4 m4 a4
      refine ⟨s4, ?_, c4.trans c2, k4, fun p => ?_, fun p => ?_, fun p hp => ?_⟩
      · show ((some (s.startBlock n t0)).bind fun u => u.run (sub.events ++ .stop t1 :: rest.events)) = some s4
        rw [e1]
        show Prof.run _ _ = _
        rw [run_append, r2]
        show ((s2.stopBlock t1).bind fun u => u.run rest.events) = _
        rw [e3]
        exact r4
      · rw [n4, n2, c2]
        show set s.calls s.cur (s.calls s.cur + 1) p + _ + _ = s.calls p + ((if within n s.cur = p then 1 else 0) +
          sub.count (within n s.cur) p + rest.count s.cur p)
        rw [hw]
        by_cases hp : p = s.cur
        · rw [hp]; simp [set]; omega
        · simp [set, hp, Ne.symm hp]; omega
      · rw [m4, m2, c2]
        show s.total p + _ + _ = s.total p + ((if s.cur.head? ≠ some n ∧ n :: s.cur = p then t1 - t0 else 0) +
          sub.time (within n s.cur) p + rest.time s.cur p)
        rw [hw, if_neg (fun h => h.1 hh)]
        omega
      · rw [a4 p hp, a2 p]
        show 0 < set s.rc s.cur (s.rc s.cur + 1) p
        unfold set
        split
        · omega
        · exact hp
    · have hw : within n s.cur = n :: s.cur := if_neg hh
      have h0 : s.rc (n :: s.cur) = 0 := hs.closed _ (not_suffix n s.cur)
      have e1 : s.startBlock n t0 = { s with
          cur := n :: s.cur, calls := set s.calls (n :: s.cur) (s.calls (n :: s.cur) + 1),
          start := set s.start (n :: s.cur) t0, rc := set s.rc (n :: s.cur) 1 } := by
        unfold Prof.startBlock
        rw [ew, hw]
        simp only [h0, if_true]
        rfl
      have ok1 : Ok { s with
          cur := n :: s.cur, calls := set s.calls (n :: s.cur) (s.calls (n :: s.cur) + 1),
          start := set s.start (n :: s.cur) t0, rc := set s.rc (n :: s.cur) 1 } := by
        refine ⟨fun p hp => ?_, fun _ => ?_⟩
        · have h1 : p ≠ n :: s.cur := fun e => hp (by rw [e])
          simp only [set, if_neg h1]
          exact hs.closed p fun k => hp (k.trans (List.suffix_cons n s.cur))
        · simp [set]
      obtain ⟨s2, r2, c2, k2, n2, m2, a2⟩ := ih1 _ ok1
      simp only at c2 k2 n2 m2 a2
      have e3 : s2.stopBlock t1 = some { s2 with
          cur := s.cur, rc := s.rc, total := set s2.total (n :: s.cur) (s2.total (n :: s.cur) + (t1 - t0)) } := by
        have hr : s2.rc s2.cur - 1 = 0 := by rw [k2, c2]; simp [set]
        have hc : s2.calls s2.cur ≠ 0 := by
          rw [c2, n2]; simp only [set, if_true]; omega
        have hset : set s2.rc s2.cur 0 = s.rc := by
          funext p
          by_cases hp : p = n :: s.cur
          · rw [hp, c2]; simp [set, h0]
          · rw [k2, c2]; simp [set, hp]
        have hst : s2.start (n :: s.cur) = t0 := by
          rw [a2 _ (by simp [set])]; simp [set]
        unfold Prof.stopBlock
        simp only [hr, if_true, hset]
        rw [if_pos ⟨trivial, hc⟩]
        simp only [c2, hst]
      have ok3 : Ok { s2 with
          cur := s.cur, rc := s.rc, total := set s2.total (n :: s.cur) (s2.total (n :: s.cur) + (t1 - t0)) } :=
        ⟨hs.closed, hs.open_⟩
      obtain ⟨s4, r4, c4, k4, n4, m4, a4⟩ := ih2 _ ok3
      simp only at c4 k4 n4 m4 a4
      refine ⟨s4, ?_, c4, k4, fun p => ?_, fun p => ?_, fun p hp => ?_⟩
      · show ((some (s.startBlock n t0)).bind fun u => u.run (sub.events ++ .stop t1 :: rest.events)) = some s4
        rw [e1]
        show Prof.run _ _ = _
        rw [run_append, r2]
        show ((s2.stopBlock t1).bind fun u => u.run rest.events) = _
        rw [e3]
        exact r4
      · rw [n4, n2]
        show set s.calls (n :: s.cur) (s.calls (n :: s.cur) + 1) p + _ + _ = s.calls p + ((if within n s.cur = p then 1 else 0) +
          sub.count (within n s.cur) p + rest.count s.cur p)
        rw [hw]
        by_cases hp : p = n :: s.cur
        · rw [hp]; simp [set]; omega
        · simp [set, hp, Ne.symm hp]; omega
      · rw [m4]
        show set s2.total (n :: s.cur) (s2.total (n :: s.cur) + (t1 - t0)) p + _ = s.total p +
          ((if s.cur.head? ≠ some n ∧ n :: s.cur = p then t1 - t0 else 0) + sub.time (within n s.cur) p + rest.time s.cur p)
        rw [hw]
        by_cases hp : p = n :: s.cur
        · rw [hp, if_pos ⟨hh, rfl⟩]; simp only [set, if_true]; rw [m2]; omega
        · rw [if_neg (fun h => hp h.2.symm)]; simp only [set, if_neg hp]; rw [m2]; omega
      · rw [a4 p hp, a2 p]
        · have : p ≠ n :: s.cur := by intro e; rw [e, h0] at hp; omega
          simp [set, this]
        · have : p ≠ n :: s.cur := by intro e; rw [e, h0] at hp; omega
          simp [set, this, hp]

/-- Whatever blocks run, the profiler is at the root afterwards, and every node has the number of calls and the time that it
should have. -/
theorem profiled (F : Runs) : ∃ s, Prof.empty.run F.events = some s ∧ s.cur = [] ∧
    (∀ p, s.calls p = F.count [] p) ∧ (∀ p, s.total p = F.time [] p) := by
  obtain ⟨s, h1, h2, -, h4, h5, -⟩ := run_runs F Prof.empty ⟨fun _ _ => rfl, fun h => absurd rfl h⟩
  exact ⟨s, h1, h2, fun p => by rw [h4]; exact Nat.zero_add _, fun p => by rw [h5]; exact Int.zero_add _⟩

/-- After a `reset` at the root only what runs then is counted; the root itself counts as called once. -/
theorem profiled_since_reset (F G : Runs) (t : Int) : ∃ s s', Prof.empty.run F.events = some s ∧
    (s.reset t).run G.events = some s' ∧ s'.cur = [] ∧
    (∀ p, p ≠ [] → s'.calls p = G.count [] p) ∧ (∀ p, s'.total p = G.time [] p) := by
  obtain ⟨s, h1, h2, h3, -, -, -⟩ := run_runs F Prof.empty ⟨fun _ _ => rfl, fun h => absurd rfl h⟩
  have ok : Ok (s.reset t) := by
    refine ⟨fun p hp => ?_, fun h => absurd h2 h⟩
    have hp' : p ≠ [] := fun e => hp (by rw [e]; exact List.nil_suffix)
    simp only [Prof.reset, set, if_neg hp', h3]
    rfl
  obtain ⟨s', g1, g2, -, g4, g5, -⟩ := run_runs G (s.reset t) ok
  have hc : (s.reset t).cur = [] := h2
  rw [hc] at g2 g4 g5
  refine ⟨s, s', h1, g1, g2, fun p hp => ?_, fun p => ?_⟩
  · rw [g4]; simp [Prof.reset, set, hp]
  · rw [g5]; simp [Prof.reset]

/-- The sum of the times of some children of a node. -/
def sumTimes (c : Path) (F : Runs) (p : Path) (ns : List Nat) : Int := (ns.map fun n => F.time c (n :: p)).sum

theorem sum_ite (ns : List Nat) (hn : ns.Nodup) (n : Nat) (p c : Path) (d : Int) (hd : 0 ≤ d) :
    (ns.map fun m => if n :: c = m :: p then d else 0).sum ≤ if p = c then d else 0 := by
  by_cases hp : p = c
  · rw [if_pos hp]
    subst hp
    induction ns with
    | nil => exact hd
    | cons m ns ih =>
      rw [List.nodup_cons] at hn
      rw [List.map_cons, List.sum_cons]
      by_cases hm : m = n
      · have z : (ns.map fun k => if n :: p = k :: p then d else 0).sum = 0 := by
          apply List.sum_eq_zero
          intro x hx
          obtain ⟨k, hk, rfl⟩ := List.mem_map.1 hx
          rw [if_neg]
          intro e
          simp only [List.cons.injEq, and_true] at e
          exact hn.1 (by rw [hm, e]; exact hk)
        rw [z, if_pos (by rw [hm])]; omega
      · rw [if_neg (by intro e; simp only [List.cons.injEq, and_true] at e; exact hm e.symm)]
        have := ih hn.2
        omega
  · rw [if_neg hp]
    apply Int.le_of_eq
    apply List.sum_eq_zero
    intro x hx
    obtain ⟨k, hk, rfl⟩ := List.mem_map.1 hx
    rw [if_neg]
    intro e
    simp only [List.cons.injEq] at e
    exact hp e.2.symm

theorem timed_le : ∀ {F : Runs} {a b : Int}, F.Timed a b → a ≤ b
  | .nil, _, _, h => h
  | .cons _ _ _ _ _, _, _, h => by
    obtain ⟨h1, h2, h3⟩ := h
    exact Int.le_trans h1 (Int.le_trans (timed_le h2) (timed_le h3))

theorem sum_le (F : Runs) (ns : List Nat) (hn : ns.Nodup) : ∀ (a b : Int) (c p : Path), F.Timed a b →
    sumTimes c F p ns ≤ F.time c p + if p = c then b - a else 0 := by
  induction F with
  | nil =>
    intro a b c p h
    have h' : a ≤ b := h
    have : sumTimes c .nil p ns = 0 := by
      apply List.sum_eq_zero
      intro x hx
      obtain ⟨k, _, rfl⟩ := List.mem_map.1 hx
      rfl
    rw [this]
    show 0 ≤ 0 + _
    split <;> omega
  | cons n t0 t1 sub rest ih1 ih2 =>
    intro a b c p h
    obtain ⟨h1, h2, h3⟩ := h
    have l2 := timed_le h2
    have l3 := timed_le h3
    have i1 := ih1 t0 t1 (within n c) p h2
    have i2 := ih2 t1 b c p h3
    have split3 : sumTimes c (.cons n t0 t1 sub rest) p ns =
        (ns.map fun m => if c.head? ≠ some n ∧ n :: c = m :: p then t1 - t0 else 0).sum + sumTimes (within n c) sub p ns + sumTimes c rest p ns := by
      unfold sumTimes
      rw [← List.sum_map_add, ← List.sum_map_add]
      rfl
    rw [split3]
    show _ ≤ (if c.head? ≠ some n ∧ n :: c = p then t1 - t0 else 0) + sub.time (within n c) p + rest.time c p + _
    by_cases hh : c.head? = some n
    · have hw : within n c = c := if_pos hh
      rw [hw] at i1 ⊢
      have z : (ns.map fun m => if c.head? ≠ some n ∧ n :: c = m :: p then t1 - t0 else 0).sum = 0 := by
        apply List.sum_eq_zero
        intro x hx
        obtain ⟨k, _, rfl⟩ := List.mem_map.1 hx
        rw [if_neg (fun e => e.1 hh)]
      rw [z, if_neg (fun e => e.1 hh)]
      split_ifs at i1 i2 ⊢ <;> omega
    · have hw : within n c = n :: c := if_neg hh
      rw [hw] at i1 ⊢
      have z := sum_ite ns hn n p c (t1 - t0) (by omega)
      have e1 : (ns.map fun m => if c.head? ≠ some n ∧ n :: c = m :: p then t1 - t0 else 0) =
          ns.map fun m => if n :: c = m :: p then t1 - t0 else 0 := by
        refine List.map_congr_left fun m _ => ?_
        simp only [ne_eq, hh, not_false_eq_true, true_and]
      rw [e1]
      have e2 : (if c.head? ≠ some n ∧ n :: c = p then t1 - t0 else 0) = if p = n :: c then t1 - t0 else 0 := by
        simp only [ne_eq, hh, not_false_eq_true, true_and, eq_comm]
      rw [e2]
      split_ifs at i1 i2 z ⊢ <;> omega

theorem time_root (G : Runs) : ∀ c : Path, G.time c [] = 0 := by
  induction G with
  | nil => exact fun c => rfl
  | cons n t0 t1 sub rest i1 i2 =>
    intro c
    show (if c.head? ≠ some n ∧ n :: c = [] then t1 - t0 else 0) + sub.time (within n c) [] + rest.time c [] = 0
    rw [i1, i2]; simp

/-- The times of different blocks inside a block add up to no more than its own time, and those at the top to no more than
the time that has passed: the report never says that something is wrong. -/
theorem children_within (F : Runs) {a b : Int} (h : F.Timed a b) (ns : List Nat) (hn : ns.Nodup) :
    ∃ s, Prof.empty.run F.events = some s ∧
      (∀ p, p ≠ [] → (ns.map fun n => s.total (n :: p)).sum ≤ s.total p) ∧ (ns.map fun n => s.total [n]).sum ≤ b - a := by
  obtain ⟨s, h1, -, -, h4⟩ := profiled F
  have e (p : Path) : (ns.map fun n => s.total (n :: p)).sum = sumTimes [] F p ns := by
    unfold sumTimes
    simp only [h4]
  refine ⟨s, h1, fun p hp => ?_, ?_⟩
  · rw [e, h4]
    have := sum_le F ns hn a b [] p h
    rw [if_neg hp] at this
    omega
  · have := sum_le F ns hn a b [] [] h
    rw [if_pos rfl, time_root] at this
    rw [e]
    omega

/-- The same since a `reset` between the blocks. -/
theorem children_within_since_reset (F G : Runs) {t b : Int} (h : G.Timed t b) (ns : List Nat) (hn : ns.Nodup) :
    ∃ s s', Prof.empty.run F.events = some s ∧ (s.reset t).run G.events = some s' ∧
      (∀ p, p ≠ [] → (ns.map fun n => s'.total (n :: p)).sum ≤ s'.total p) ∧ (ns.map fun n => s'.total [n]).sum ≤ b - t := by
  obtain ⟨s, s', h1, h2, -, -, h4⟩ := profiled_since_reset F G t
  have e (p : Path) : (ns.map fun n => s'.total (n :: p)).sum = sumTimes [] G p ns := by
    unfold sumTimes
    simp only [h4]
  refine ⟨s, s', h1, h2, fun p hp => ?_, ?_⟩
  · rw [e, h4]
    have := sum_le G ns hn t b [] p h
    rw [if_neg hp] at this
    omega
  · have := sum_le G ns hn t b [] [] h
    rw [if_pos rfl, time_root] at this
    rw [e]
    omega

/-- A `reset` while a block is open is not harmless: a block that calls itself after it is charged with the time before it. Here the
block 1 runs from 0 to 100, is reset at 90 and calls itself at 91: it shows 100 although 10 have passed since the reset. -/
theorem reset_inside : ∃ s s', Prof.empty.run [.start 1 0] = some s ∧
    (s.reset 90).run [.start 1 91, .stop 92, .stop 100] = some s' ∧ s'.total [1] = 100 ∧ s'.calls [1] = 1 := by
  have e : ((Prof.empty.run [.start 1 0]).bind fun s =>
      (s.reset 90).run [.start 1 91, .stop 92, .stop 100]).any (fun s' => s'.total [1] = 100 ∧ s'.calls [1] = 1) = true := by
    decide +kernel
  obtain ⟨s', h1, h2⟩ := (Option.any_eq_true _ _).1 e
  obtain ⟨s, h3, h4⟩ := Option.bind_eq_some_iff.1 h1
  exact ⟨s, s', h3, h4, of_decide_eq_true h2⟩

/-! ### Examples -/

/-- A step 1 that calls 2 and 3, where 3 calls itself; then another step. -/
def frame : Runs := .cons 1 0 50 (.cons 2 5 10 .nil (.cons 3 12 40 (.cons 3 13 20 .nil .nil) .nil)) (.cons 1 60 70 .nil .nil)

example : frame.Timed 0 100 ∧ frame.count [] [1] = 2 ∧ frame.count [] [3, 1] = 2 ∧ frame.time [] [1] = 60 ∧
    frame.time [] [2, 1] = 5 ∧ frame.time [] [3, 1] = 28 := by
  refine ⟨⟨?_, ⟨?_, ?_, ?_, ⟨?_, ?_, ?_⟩, ?_⟩, ?_, ?_, ?_⟩, ?_, ?_, ?_, ?_, ?_⟩ <;> simp [Runs.Timed, Runs.count, Runs.time, frame, within]

end Profile
end RP3D
