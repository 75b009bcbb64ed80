import Verif.Containers.Array
import Mathlib.Data.List.Nodup
import Mathlib.Data.List.Perm.Basic

set_option linter.unusedVariables false

/-! Segments of doubly linked lists given by two functions `P` (previous) and `N` (next). -/

namespace RP3D

/-- The first element of `l`, or `t`. -/
def first : List Nat → Option Nat → Option Nat
  | [], t => t
  | a :: _, _ => some a

/-- The last element of `l`, or `p`. -/
def last : Option Nat → List Nat → Option Nat
  | p, [] => p
  | _, a :: l => last (some a) l

/-- `l` is linked by `P` and `N`, starting after `p` and ending before `t`. -/
def Seg (P N : Nat → Option Nat) : Option Nat → List Nat → Option Nat → Prop
  | _, [], _ => True
  | p, a :: l, t => P a = p ∧ N a = first l t ∧ Seg P N (some a) l t

theorem first_append (l1 l2 : List Nat) (t : Option Nat) : first (l1 ++ l2) t = first l1 (first l2 t) := by
  cases l1 <;> rfl

theorem last_append (p : Option Nat) (l1 l2 : List Nat) : last p (l1 ++ l2) = last (last p l1) l2 := by
  induction l1 generalizing p with
  | nil => rfl
  | cons a l ih => exact ih _

theorem seg_append {P N : Nat → Option Nat} {l1 l2 : List Nat} : ∀ {p t : Option Nat},
    Seg P N p (l1 ++ l2) t ↔ Seg P N p l1 (first l2 t) ∧ Seg P N (last p l1) l2 t := by
  induction l1 with
  | nil => intro p t; simp [Seg, last]
  | cons a l ih =>
    intro p t
    simp only [List.cons_append, Seg, last, first_append, ih, and_assoc]

theorem seg_congr {P N P' N' : Nat → Option Nat} {l : List Nat} : ∀ {p t : Option Nat}, Seg P N p l t →
    (∀ a ∈ l, P' a = P a) → (∀ a ∈ l, N' a = N a) → Seg P' N' p l t := by
  induction l with
  | nil => intros; trivial
  | cons a l ih =>
    intro p t h hP hN
    refine ⟨?_, ?_, ih h.2.2 (fun b hb => hP b (List.mem_cons_of_mem _ hb)) (fun b hb => hN b (List.mem_cons_of_mem _ hb))⟩
    · rw [hP a (List.mem_cons_self ..)]; exact h.1
    · rw [hN a (List.mem_cons_self ..)]; exact h.2.1

theorem last_cases (p : Option Nat) (l : List Nat) : (l = [] ∧ last p l = p) ∨ ∃ l' a, l = l' ++ [a] ∧ last p l = some a := by
  rcases List.eq_nil_or_concat l with h | ⟨l', a, h⟩
  · left; subst h; exact ⟨rfl, rfl⟩
  · right
    refine ⟨l', a, by simpa using h, ?_⟩
    rw [h]; simp [last_append, last]

/-- Changing what comes after a segment. -/
theorem seg_set_last {P N P' N' : Nat → Option Nat} {l : List Nat} {p t t' : Option Nat} (h : Seg P N p l t)
    (hP : ∀ a ∈ l, P' a = P a) (hN : ∀ a ∈ l, last none l ≠ some a → N' a = N a) (hnd : l.Nodup)
    (hl : ∀ a, last none l = some a → N' a = t') : Seg P' N' p l t' := by
  rcases last_cases none l with ⟨rfl, _⟩ | ⟨l', a, rfl, hla⟩
  · trivial
  · rw [seg_append] at h ⊢
    have hna : a ∉ l' := by
      have := List.nodup_append.1 hnd
      intro hh
      exact this.2.2 a hh a (List.mem_singleton.2 rfl) rfl
    refine ⟨?_, ?_⟩
    · refine seg_congr h.1 (fun b hb => hP b (List.mem_append_left _ hb)) (fun b hb => ?_)
      apply hN b (List.mem_append_left _ hb)
      rw [hla]; rintro hh; cases hh; exact hna hb
    · refine ⟨?_, hl a hla, trivial⟩
      rw [hP a (by simp)]
      exact h.2.1

/-- Changing what comes before a segment. -/
theorem seg_set_first {P N P' N' : Nat → Option Nat} {l : List Nat} {p p' t : Option Nat} (h : Seg P N p l t)
    (hN : ∀ a ∈ l, N' a = N a) (hP : ∀ a ∈ l, first l none ≠ some a → P' a = P a) (hnd : l.Nodup)
    (hl : ∀ a, first l none = some a → P' a = p') : Seg P' N' p' l t := by
  cases l with
  | nil => trivial
  | cons a l =>
    refine ⟨hl a rfl, ?_, ?_⟩
    · rw [hN a (List.mem_cons_self ..)]; exact h.2.1
    · refine seg_congr h.2.2 (fun b hb => ?_) (fun b hb => hN b (List.mem_cons_of_mem _ hb))
      apply hP b (List.mem_cons_of_mem _ hb)
      show some a ≠ some b
      rintro hh; cases hh
      exact (List.nodup_cons.1 hnd).1 hb

theorem last_mem {l : List Nat} {p : Option Nat} {a : Nat} (h : last p l = some a) : a ∈ l ∨ (l = [] ∧ p = some a) := by
  rcases last_cases p l with ⟨rfl, h2⟩ | ⟨l', b, rfl, h2⟩
  · right; rw [h2] at h; exact ⟨rfl, h⟩
  · left; rw [h2] at h; cases h; simp

theorem last_none_mem {l : List Nat} {a : Nat} (h : last none l = some a) : a ∈ l := by
  rcases last_mem h with h | ⟨_, h⟩
  · exact h
  · cases h

theorem first_none_mem {l : List Nat} {a : Nat} (h : first l none = some a) : a ∈ l := by
  cases l with
  | nil => cases h
  | cons b l => cases h; simp

/-- Conditional update at an optional address. -/
def updO {α : Type} (f : Nat → α) (o : Option Nat) (v : α) : Nat → α :=
  match o with
  | none => f
  | some a => upd f a v

theorem updO_ne {α : Type} {f : Nat → α} {o : Option Nat} {v : α} {x : Nat} (h : o ≠ some x) : updO f o v x = f x := by
  cases o with
  | none => rfl
  | some a => exact upd_ne _ _ (by rintro rfl; exact h rfl)

theorem updO_same {α : Type} {f : Nat → α} {o : Option Nat} {v : α} {x : Nat} (h : o = some x) : updO f o v x = v := by
  subst h; exact upd_same _ _ _

/-- Unlinking `a`. -/
theorem seg_remove {P N : Nat → Option Nat} {l1 l2 : List Nat} {a : Nat} (h : Seg P N none (l1 ++ a :: l2) none)
    (hnd : (l1 ++ a :: l2).Nodup) :
    Seg (upd (updO P (N a) (P a)) a none) (upd (updO N (P a) (N a)) a none) none (l1 ++ l2) none := by
  have hs := seg_append.1 h
  obtain ⟨s1, hPa, hNa, s2⟩ := hs
  have hperm : (l1 ++ a :: l2).Perm (a :: (l1 ++ l2)) := List.perm_middle
  have hnd' := hperm.nodup_iff.1 hnd
  obtain ⟨ha, hnd2⟩ := List.nodup_cons.1 hnd'
  obtain ⟨n1, n2, n3⟩ := List.nodup_append.1 hnd2
  have ha1 : a ∉ l1 := fun hh => ha (List.mem_append_left _ hh)
  have ha2 : a ∉ l2 := fun hh => ha (List.mem_append_right _ hh)
  rw [hPa, hNa]
  rw [seg_append]
  have ne1 : ∀ b ∈ l1, b ≠ a := fun b hb => by rintro rfl; exact ha1 hb
  have ne2 : ∀ b ∈ l2, b ≠ a := fun b hb => by rintro rfl; exact ha2 hb
  refine ⟨seg_set_last s1 ?_ ?_ n1 ?_, seg_set_first s2 ?_ ?_ n2 ?_⟩
  · intro b hb
    rw [upd_ne _ _ (ne1 b hb), updO_ne]
    intro hf
    exact n3 b hb b (first_none_mem hf) rfl
  · intro b hb hl
    rw [upd_ne _ _ (ne1 b hb), updO_ne hl]
  · intro b hb
    rw [upd_ne _ _ (ne1 b (last_none_mem hb)), updO_same hb]
  · intro b hb
    rw [upd_ne _ _ (ne2 b hb), updO_ne]
    intro hf
    exact n3 b (last_none_mem hf) b hb rfl
  · intro b hb hl
    rw [upd_ne _ _ (ne2 b hb), updO_ne hl]
  · intro b hb
    rw [upd_ne _ _ (ne2 b (first_none_mem hb)), updO_same hb]

/-- The head after unlinking. -/
theorem first_remove {P N : Nat → Option Nat} {l1 l2 : List Nat} {a : Nat} (h : Seg P N none (l1 ++ a :: l2) none)
    (hnd : (l1 ++ a :: l2).Nodup) :
    (if first (l1 ++ a :: l2) none = some a then N a else first (l1 ++ a :: l2) none) = first (l1 ++ l2) none := by
  obtain ⟨s1, hPa, hNa, s2⟩ := seg_append.1 h
  cases l1 with
  | nil => simp [first, hNa]
  | cons b l1 =>
    have : b ≠ a := by
      rintro rfl
      simp at hnd
    simp [first, this]

/-- Inserting `w` after `a`. -/
theorem seg_insert {P N : Nat → Option Nat} {l1 l2 : List Nat} {a w : Nat} (h : Seg P N none (l1 ++ a :: l2) none)
    (hnd : (l1 ++ a :: l2).Nodup) (hw : w ∉ l1 ++ a :: l2) :
    Seg (updO (upd P w (some a)) (N a) (some w)) (upd (upd N w (N a)) a (some w)) none (l1 ++ a :: w :: l2) none := by
  obtain ⟨s1, hPa, hNa, s2⟩ := seg_append.1 h
  have hperm : (l1 ++ a :: l2).Perm (a :: (l1 ++ l2)) := List.perm_middle
  have hnd' := hperm.nodup_iff.1 hnd
  obtain ⟨ha, hnd2⟩ := List.nodup_cons.1 hnd'
  obtain ⟨n1, n2, n3⟩ := List.nodup_append.1 hnd2
  have hwa : a ≠ w := by rintro rfl; exact hw (by simp)
  have hw1 : ∀ b ∈ l1, b ≠ w := by rintro b hb rfl; exact hw (by simp [hb])
  have hw2 : ∀ b ∈ l2, b ≠ w := by rintro b hb rfl; exact hw (by simp [hb])
  have ne1 : ∀ b ∈ l1, b ≠ a := fun b hb => by rintro rfl; exact ha (List.mem_append_left _ hb)
  have ne2 : ∀ b ∈ l2, b ≠ a := fun b hb => by rintro rfl; exact ha (List.mem_append_right _ hb)
  have hfw : first l2 none ≠ some w := fun hh => hw2 w (first_none_mem hh) rfl
  have hfa : first l2 none ≠ some a := fun hh => ne2 a (first_none_mem hh) rfl
  rw [hNa]
  rw [seg_append]
  refine ⟨seg_congr s1 ?_ ?_, ?_, ?_, ?_, ?_, seg_set_first s2 ?_ ?_ n2 ?_⟩
  · intro b hb
    rw [updO_ne, upd_ne _ _ (hw1 b hb)]
    intro hf
    exact n3 b hb b (first_none_mem hf) rfl
  · intro b hb
    rw [upd_ne _ _ (ne1 b hb), upd_ne _ _ (hw1 b hb)]
  · rw [updO_ne hfa, upd_ne _ _ hwa]; exact hPa
  · rw [upd_same]; rfl
  · rw [updO_ne hfw, upd_same]
  · rw [upd_ne _ _ (Ne.symm hwa), upd_same]
  · intro b hb
    rw [upd_ne _ _ (ne2 b hb), upd_ne _ _ (hw2 b hb)]
  · intro b hb hl
    rw [updO_ne hl, upd_ne _ _ (hw2 b hb)]
  · intro b hb
    rw [updO_same hb]

/-- Removing the element `b` after `a`, leaving the pointers of `b` as they are. -/
theorem seg_delete_after {P N : Nat → Option Nat} {l1 l2 : List Nat} {a b : Nat} (h : Seg P N none (l1 ++ a :: b :: l2) none)
    (hnd : (l1 ++ a :: b :: l2).Nodup) :
    Seg (updO P (N b) (some a)) (upd N a (N b)) none (l1 ++ a :: l2) none := by
  obtain ⟨s1, hPa, hNa, hPb, hNb, s2⟩ := seg_append.1 h
  have hperm : (l1 ++ a :: b :: l2).Perm (a :: b :: (l1 ++ l2)) :=
    List.perm_middle.trans (List.Perm.cons _ List.perm_middle)
  have hnd' := hperm.nodup_iff.1 hnd
  obtain ⟨ha, hnd1⟩ := List.nodup_cons.1 hnd'
  obtain ⟨hb, hnd2⟩ := List.nodup_cons.1 hnd1
  obtain ⟨n1, n2, n3⟩ := List.nodup_append.1 hnd2
  have ne1 : ∀ x ∈ l1, x ≠ a := fun x hx => by rintro rfl; exact ha (by simp [hx])
  have ne2 : ∀ x ∈ l2, x ≠ a := fun x hx => by rintro rfl; exact ha (by simp [hx])
  rw [hNb, seg_append]
  refine ⟨seg_congr s1 ?_ ?_, ?_, ?_, seg_set_first s2 ?_ ?_ n2 ?_⟩
  · intro x hx
    rw [updO_ne]
    intro hf
    exact n3 x hx x (first_none_mem hf) rfl
  · intro x hx
    rw [upd_ne _ _ (ne1 x hx)]
  · rw [updO_ne]
    · exact hPa
    · intro hf
      exact ne2 a (first_none_mem hf) rfl
  · rw [upd_same]
  · intro x hx
    rw [upd_ne _ _ (ne2 x hx)]
  · intro x hx hl
    rw [updO_ne hl]
  · intro x hx
    rw [updO_same hx]

/-- Adding `w` at the front. -/
theorem seg_push {P N P' N' : Nat → Option Nat} {l : List Nat} {w : Nat} (h : Seg P N none l none) (hnd : l.Nodup)
    (hw : w ∉ l) (hP : ∀ a ∈ l, first l none ≠ some a → P' a = P a) (hPf : ∀ a, first l none = some a → P' a = some w)
    (hN : ∀ a ∈ l, N' a = N a) (hPw : P' w = none) (hNw : N' w = first l none) : Seg P' N' none (w :: l) none :=
  ⟨hPw, hNw, seg_set_first h hN hP hnd hPf⟩

end RP3D
