import Verif.Engine.Logger
import Mathlib.Tactic.Common
import Mathlib.Tactic.NormNum
import Mathlib.Data.List.Induction

/-!
C152: each destination of the default logger gets the messages of the levels that were selected for it, in their order,
between the head and the tail of its format.  What a level flag selects in the code is not what the documentation says
(`unselected_written`, `all_flags_silent`).
-/

namespace RP3D
namespace Log

/-! ### Specification -/

/-- The levels selected by a flag as the documentation combines them (UserDocumentation.md:2026-2027): the bit of the level is set. -/
def Selected (flag : Nat) : Level → Prop
  | .error => flag.testBit 0 = true
  | .warning => flag.testBit 1 = true
  | .information => flag.testBit 2 = true

/-- What a destination is to get from a list of calls: the messages that are wanted, in their order. -/
def Gets (wanted : Level → Prop) (f : Format) : List Op → List Line → Prop
  | [], out => out = []
  | .log l m :: h, out => (wanted l ∧ ∃ r, out = .entry f l m :: r ∧ Gets wanted f h r) ∨ (¬ wanted l ∧ Gets wanted f h out)
  | _ :: h, out => Gets wanted f h out

/-- The flag selects the levels up to a certain one: nothing, errors, errors and warnings, or everything. -/
def Nested (flag : Nat) : Prop := flag = 0 ∨ flag = 1 ∨ flag = 3 ∨ flag = 7

/-! ### Theorems -/

/-- The messages that the code writes. -/
def Written (flag : Nat) (l : Level) : Prop := (l.val : Int) ≤ toInt flag

theorem write_eq (d : Dest) (l : Level) (m : String) :
    d.write l m = { d with out := d.out ++ if (l.val : Int) ≤ toInt d.flag then [.entry d.format l m] else [] } := by
  unfold Dest.write
  split
  · rfl
  · rw [List.append_nil]

/-- One destination through a list of calls without `removeAllDestinations`. -/
def through (d : Dest) : List Op → Dest
  | [] => d
  | .log l m :: h => through (d.write l m) h
  | _ :: h => through d h

theorem through_gets (h : List Op) : ∀ d : Dest, ∃ r, Gets (Written d.flag) d.format h r ∧
    through d h = { d with out := d.out ++ r } := by
  induction h with
  | nil => exact fun d => ⟨[], rfl, by rw [List.append_nil]; rfl⟩
  | cons o h ih =>
    intro d
    cases o with
    | add flag f => exact ih d
    | removeAll => exact ih d
    | log l m =>
      obtain ⟨r, g, e⟩ := ih (d.write l m)
      rw [write_eq] at g e
      by_cases k : (l.val : Int) ≤ toInt d.flag
      · rw [if_pos k] at g e
        refine ⟨.entry d.format l m :: r, Or.inl ⟨k, r, rfl, g⟩, ?_⟩
        show through (d.write l m) h = _
        rw [write_eq, if_pos k, e]
        simp
      · rw [if_neg k] at g e
        refine ⟨r, Or.inr ⟨k, g⟩, ?_⟩
        show through (d.write l m) h = _
        rw [write_eq, if_neg k, e]
        simp

theorem mem_through (h : List Op) : ∀ (s : Logger) (d : Dest), d ∈ s.dests → Op.removeAll ∉ h → through d h ∈ (s.run h).dests := by
  induction h with
  | nil => exact fun s d k _ => k
  | cons o h ih =>
    intro s d k n
    have n' : Op.removeAll ∉ h := fun e => n (List.mem_cons_of_mem _ e)
    cases o with
    | add flag f => exact ih _ d (List.mem_append_left _ k) n'
    | log l m => exact ih _ _ (List.mem_map_of_mem k) n'
    | removeAll => exact absurd List.mem_cons_self n

theorem run_append (s : Logger) (p q : List Op) : s.run (p ++ q) = (s.run p).run q := List.foldl_append ..

theorem closed_kept (h : List Op) : ∀ (s : Logger) (d : Dest), d ∈ s.closed → d ∈ (s.run h).closed := by
  induction h with
  | nil => exact fun s d k => k
  | cons o h ih =>
    intro s d k
    cases o with
    | add flag f => exact ih _ d k
    | log l m => exact ih _ d k
    | removeAll => exact ih _ d (List.mem_append_left _ k)

/-- A destination that is open has got its head and then the messages since it was added, whatever happened before and
whatever other destinations there are. -/
theorem open_output (p q : List Op) (flag : Nat) (f : Format) (n : Op.removeAll ∉ q) :
    ∃ r, Gets (Written flag) f q r ∧ (⟨flag, f, .header f :: r⟩ : Dest) ∈ (Logger.empty.run (p ++ .add flag f :: q)).dests := by
  obtain ⟨r, g, e⟩ := through_gets q (Dest.make flag f)
  refine ⟨r, g, ?_⟩
  rw [run_append]
  have k := mem_through q ((Logger.empty.run p).step (.add flag f)) (Dest.make flag f)
    (List.mem_append_right _ (List.mem_singleton_self _)) n
  rw [e] at k
  exact k

/-- After `removeAllDestinations` it ends with its tail and gets nothing more. -/
theorem closed_output (p q r : List Op) (flag : Nat) (f : Format) (n : Op.removeAll ∉ q) :
    ∃ m, Gets (Written flag) f q m ∧
      (⟨flag, f, .header f :: (m ++ [.tail f])⟩ : Dest) ∈ (Logger.empty.run (p ++ .add flag f :: (q ++ .removeAll :: r))).closed := by
  obtain ⟨m, g, k⟩ := open_output p q flag f n
  refine ⟨m, g, ?_⟩
  have e : p ++ Op.add flag f :: (q ++ .removeAll :: r) = (p ++ .add flag f :: q) ++ .removeAll :: r := by simp
  rw [e, run_append]
  refine closed_kept r _ _ (List.mem_append_right _ ?_)
  exact List.mem_map.2 ⟨_, k, rfl⟩

theorem dests_from (h : List Op) : ∀ d ∈ (Logger.empty.run h).dests, ∃ p q, h = p ++ .add d.flag d.format :: q ∧ Op.removeAll ∉ q := by
  induction h using List.reverseRecOn with
  | nil => intro d k; cases k
  | append_singleton h o ih =>
    intro d k
    rw [run_append] at k
    cases o with
    | add flag f =>
      rcases List.mem_append.1 k with k | k
      · obtain ⟨p, q, e, n⟩ := ih d k
        exact ⟨p, q ++ [.add flag f], by rw [e]; simp, by simpa using n⟩
      · rw [List.mem_singleton.1 k]
        exact ⟨h, [], rfl, List.not_mem_nil⟩
    | log l m =>
      obtain ⟨d', k', rfl⟩ := List.mem_map.1 k
      obtain ⟨p, q, e, n⟩ := ih d' k'
      rw [write_eq]
      exact ⟨p, q ++ [.log l m], by rw [e]; simp, by simpa using n⟩
    | removeAll => cases k

theorem count_from (h : List Op) : ∀ s : Logger, Op.removeAll ∉ h →
    (s.run h).dests.length = s.dests.length + h.countP fun o => match o with | .add _ _ => true | _ => false := by
  induction h with
  | nil => exact fun s _ => rfl
  | cons o h ih =>
    intro s n
    have n' : Op.removeAll ∉ h := fun e => n (List.mem_cons_of_mem _ e)
    rw [List.countP_cons]
    show ((s.step o).run h).dests.length = _
    rw [ih _ n']
    cases o with
    | add flag f => simp [Logger.step]; omega
    | log l m => simp [Logger.step]
    | removeAll => exact absurd List.mem_cons_self n

/-- There are no other destinations: each one was added since the last removal, and there are as many as were added. -/
theorem nothing_else (h q : List Op) (n : Op.removeAll ∉ q) :
    (∀ d ∈ (Logger.empty.run h).dests, ∃ p q, h = p ++ .add d.flag d.format :: q ∧ Op.removeAll ∉ q) ∧
    (Logger.empty.run (h ++ .removeAll :: q)).dests.length = q.countP (fun o => match o with | .add _ _ => true | _ => false) ∧
    (Logger.empty.run q).dests.length = q.countP (fun o => match o with | .add _ _ => true | _ => false) := by
  refine ⟨dests_from h, ?_, ?_⟩
  · rw [run_append]
    have := count_from q ((Logger.empty.run h).step .removeAll) n
    show (((Logger.empty.run h).step .removeAll).run q).dests.length = _
    rw [this]
    exact Nat.zero_add _
  · have := count_from q Logger.empty n
    simpa [Logger.empty] using this

theorem val_le {flag : Nat} {l : Level} (s : Selected flag l) : l.val ≤ flag := by
  cases l with
  | error => exact Nat.ge_two_pow_of_testBit s
  | warning => exact Nat.ge_two_pow_of_testBit s
  | information => exact Nat.ge_two_pow_of_testBit s

/-- No selected message is lost, for flags that are no negative numbers as `int`. -/
theorem selected_written {flag : Nat} (hf : flag < 2 ^ 31) {l : Level} (s : Selected flag l) : Written flag l := by
  unfold Written toInt
  rw [if_pos hf]
  exact Int.ofNat_le.2 (val_le s)

/-- For the flags that select everything up to a level, exactly the selected messages are written. -/
theorem exactly_selected_partial {flag : Nat} (hn : Nested flag) (l : Level) : Written flag l ↔ Selected flag l := by
  rcases hn with rfl | rfl | rfl | rfl <;> cases l <;> simp [Written, Selected, toInt, Level.val, Nat.testBit]

/-- What is written in general: every level whose value is not larger than the flag. -/
theorem written_iff {flag : Nat} (hf : flag < 2 ^ 31) (l : Level) : Written flag l ↔ l.val ≤ flag := by
  unfold Written toInt
  rw [if_pos hf]
  exact Int.ofNat_le

/-- The claim fails: with the flag of `Information` alone, errors and warnings are written too, and with the flag of
`Warning` alone, errors. -/
theorem unselected_written : (¬ Selected Level.information.val .error ∧ Written Level.information.val .error) ∧
    (¬ Selected Level.information.val .warning ∧ Written Level.information.val .warning) ∧
    (¬ Selected Level.warning.val .error ∧ Written Level.warning.val .error) := by
  refine ⟨⟨?_, ?_⟩, ⟨?_, ?_⟩, ⟨?_, ?_⟩⟩ <;> simp [Written, Selected, toInt, Level.val, Nat.testBit]

/-- The claim fails: if all bits of the flag are set, so that every level is selected, nothing is ever written. -/
theorem all_flags_silent (l : Level) : Selected (2 ^ 32 - 1) l ∧ ¬ Written (2 ^ 32 - 1) l := by
  cases l <;> simp [Written, Selected, toInt, Level.val, Nat.testBit]

/-! ### Examples -/

/-- Two destinations, of which one wants errors and warnings, and some messages. -/
def story : List Op := [.log .error "lost", .add 3 .html, .log .error "a", .add 7 .text, .log .information "b", .log .warning "c", .removeAll,
  .log .error "d"]

example : (Logger.empty.run story).closed =
    [⟨3, .html, [.header .html, .entry .html .error "a", .entry .html .warning "c", .tail .html]⟩,
     ⟨7, .text, [.header .text, .entry .text .information "b", .entry .text .warning "c", .tail .text]⟩] ∧
    (Logger.empty.run story).dests = [] := by decide +kernel

/-- The hypotheses of `closed_output` for the first one. -/
example : story = [.log .error "lost"] ++ .add 3 .html ::
    ([.log .error "a", .add 7 .text, .log .information "b", .log .warning "c"] ++ .removeAll :: [.log .error "d"]) ∧
    Op.removeAll ∉ [Op.log .error "a", .add 7 .text, .log .information "b", .log .warning "c"] := by decide +kernel

example : Nested 3 ∧ Selected 3 .warning ∧ ¬ Selected 3 .information := by
  refine ⟨Or.inr (Or.inr (Or.inl rfl)), ?_, ?_⟩ <;> simp [Selected, Nat.testBit]

end Log
end RP3D
