import Verif.Contacts.Reduce
import Mathlib.Data.List.Basic

/-! Lemmas about the reduction of contacts. -/

namespace RP3D
namespace Contacts

variable {K : Type} [LinearOrder K]

theorem swapRemove_spec {α : Type} {l l' : List α} {i : Nat} (h : swapRemove l i = some l') :
    ∃ x, l[i]? = some x ∧ l.Perm (x :: l') := by
  unfold swapRemove at h
  rcases List.eq_nil_or_concat l with rfl | ⟨a, x, rfl⟩
  · simp at h
  · simp only [List.concat_eq_append, List.getLast?_append, List.getLast?_singleton, Option.some_or] at h ⊢
    split at h
    case isFalse => cases h
    case isTrue hi =>
      cases h
      simp only [List.length_append, List.length_singleton] at hi
      rcases Nat.lt_or_ge i a.length with hlt | hge
      · refine ⟨a[i], ?_, ?_⟩
        · rw [List.getElem?_append_left hlt, List.getElem?_eq_getElem hlt]
        · rw [List.set_append_left _ _ hlt, List.dropLast_concat, List.set_eq_take_append_cons_drop, if_pos hlt]
          have h1 : a = a.take i ++ a[i] :: a.drop (i + 1) := by
            rw [← List.drop_eq_getElem_cons hlt, List.take_append_drop]
          have h2 : (a ++ [x]).Perm (x :: a) := List.perm_append_singleton x a
          have h3 : (x :: a).Perm (x :: (a[i] :: (a.take i ++ a.drop (i + 1)))) := by
            refine List.Perm.cons x ?_
            conv_lhs => rw [h1]
            exact List.perm_middle
          refine h2.trans (h3.trans ?_)
          refine (List.Perm.swap _ _ _).trans (List.Perm.cons _ ?_)
          exact List.perm_middle.symm
      · have : i = a.length := by omega
        subst this
        refine ⟨x, by simp, ?_⟩
        rw [List.set_append_right _ _ (Nat.le_refl _)]
        simp only [Nat.sub_self, List.set_cons_zero, List.dropLast_concat]
        exact List.perm_append_singleton x a

theorem swapRemove_some {α : Type} {l : List α} {i : Nat} (h : i < l.length) : ∃ l', swapRemove l i = some l' := by
  unfold swapRemove
  rcases List.eq_nil_or_concat l with rfl | ⟨a, x, rfl⟩
  · simp at h
  · simp only [List.concat_eq_append] at h
    simpa using h

theorem take_some {l : List Nat} {i : Nat} (h : i < l.length) :
    ∃ p l', take l i = some (p, l') ∧ l[i]? = some p ∧ l.Perm (p :: l') := by
  obtain ⟨l', hl'⟩ := swapRemove_some h
  obtain ⟨x, hx, hp⟩ := swapRemove_spec hl'
  refine ⟨x, l', ?_, hx, hp⟩
  simp [take, hx, hl']

/-- A scan either keeps the value it started with, or ends at the position and value of an element of the list. -/
theorem scan_pos (better : K → K → Bool) (f : Nat → K) (cs : List Nat) (i : Nat) (s : K × Nat) :
    (scan better f cs i s = s) ∨ ∃ k c, cs[k]? = some c ∧ scan better f cs i s = (f c, i + k) := by
  induction cs generalizing i s with
  | nil => exact Or.inl rfl
  | cons c cs ih =>
    unfold scan
    rcases ih (i + 1) (if better (f c) s.1 then (f c, i) else s) with h | ⟨k, c', hk, h⟩
    · rw [h]
      split
      · exact Or.inr ⟨0, c, rfl, rfl⟩
      · exact Or.inl rfl
    · refine Or.inr ⟨k + 1, c', by simpa using hk, ?_⟩
      rw [h, Nat.add_assoc, Nat.add_comm 1 k]

theorem scan_lt (better : K → K → Bool) (f : Nat → K) (cs : List Nat) (v : K) (h : cs ≠ []) :
    (scan better f cs 0 (v, 0)).2 < cs.length := by
  rcases scan_pos better f cs 0 (v, 0) with h' | ⟨k, c, hk, h'⟩
  · rw [h']
    exact List.length_pos_iff.2 h
  · rw [h']
    simp only [Nat.zero_add]
    exact (List.getElem?_eq_some_iff.1 hk).1

/-- The value at the end of a scan is at least as good as all those seen. -/
theorem scan_best (R : K → K → Prop) (better : K → K → Bool) (f : Nat → K) (hrefl : ∀ a, R a a) (htrans : ∀ a b c, R a b → R b c → R a c)
    (hb : ∀ v b, better v b = true → R v b) (hn : ∀ v b, better v b = false → R b v) (cs : List Nat) (i : Nat) (s : K × Nat) :
    R (scan better f cs i s).1 s.1 ∧ ∀ c ∈ cs, R (scan better f cs i s).1 (f c) := by
  induction cs generalizing i s with
  | nil => exact ⟨hrefl _, by simp⟩
  | cons c cs ih =>
    unfold scan
    obtain ⟨h1, h2⟩ := ih (i + 1) (if better (f c) s.1 then (f c, i) else s)
    cases hbt : better (f c) s.1 with
    | true =>
      simp only [hbt, if_true] at h1 h2 ⊢
      refine ⟨htrans _ _ _ h1 (hb _ _ hbt), fun d hd => ?_⟩
      rcases List.mem_cons.1 hd with rfl | hd
      · exact h1
      · exact h2 d hd
    | false =>
      simp only [hbt, Bool.false_eq_true, if_false] at h1 h2 ⊢
      refine ⟨h1, fun d hd => ?_⟩
      rcases List.mem_cons.1 hd with rfl | hd
      · exact htrans _ _ _ h1 (hn _ _ hbt)
      · exact h2 d hd

/-- A scan that ends with another value than the one it started with ends at an element. -/
theorem scan_at (better : K → K → Bool) (f : Nat → K) (cs : List Nat) (s : K × Nat) (h : scan better f cs 0 s ≠ s) :
    ∃ c, cs[(scan better f cs 0 s).2]? = some c ∧ (scan better f cs 0 s).1 = f c := by
  rcases scan_pos better f cs 0 s with h' | ⟨k, c, hk, h'⟩
  · exact absurd h' h
  · exact ⟨c, by rw [h']; simpa using hk, by rw [h']⟩

theorem scan_gt (f : Nat → K) (cs : List Nat) (i : Nat) (s : K × Nat) :
    s.1 ≤ (scan (fun v b => decide (v > b)) f cs i s).1 ∧ ∀ c ∈ cs, f c ≤ (scan (fun v b => decide (v > b)) f cs i s).1 :=
  scan_best (fun a b => b ≤ a) _ f (fun a => le_refl a) (fun _ _ _ h1 h2 => le_trans h2 h1) (fun v b h => le_of_lt (of_decide_eq_true h))
    (fun v b h => not_lt.1 (of_decide_eq_false h)) cs i s

theorem scan_ge (f : Nat → K) (cs : List Nat) (i : Nat) (s : K × Nat) :
    s.1 ≤ (scan (fun v b => decide (v ≥ b)) f cs i s).1 ∧ ∀ c ∈ cs, f c ≤ (scan (fun v b => decide (v ≥ b)) f cs i s).1 :=
  scan_best (fun a b => b ≤ a) _ f (fun a => le_refl a) (fun _ _ _ h1 h2 => le_trans h2 h1) (fun v b h => of_decide_eq_true h)
    (fun v b h => le_of_lt (not_le.1 (of_decide_eq_false h))) cs i s

theorem scan_lt' (f : Nat → K) (cs : List Nat) (i : Nat) (s : K × Nat) :
    (scan (fun v b => decide (v < b)) f cs i s).1 ≤ s.1 ∧ ∀ c ∈ cs, (scan (fun v b => decide (v < b)) f cs i s).1 ≤ f c :=
  scan_best (fun a b => a ≤ b) _ f (fun a => le_refl a) (fun _ _ _ h1 h2 => le_trans h1 h2) (fun v b h => le_of_lt (of_decide_eq_true h))
    (fun v b h => not_lt.1 (of_decide_eq_false h)) cs i s

theorem scan_le (f : Nat → K) (cs : List Nat) (i : Nat) (s : K × Nat) :
    (scan (fun v b => decide (v ≤ b)) f cs i s).1 ≤ s.1 ∧ ∀ c ∈ cs, (scan (fun v b => decide (v ≤ b)) f cs i s).1 ≤ f c :=
  scan_best (fun a b => a ≤ b) _ f (fun a => le_refl a) (fun _ _ _ h1 h2 => le_trans h1 h2) (fun v b h => of_decide_eq_true h)
    (fun v b h => le_of_lt (not_le.1 (of_decide_eq_false h))) cs i s

/-- With `≥` or `≤`, a nonempty scan ends at an element if some element is as good as the start. -/
theorem scan_ge_at (f : Nat → K) (cs : List Nat) (i : Nat) (s : K × Nat) (h : ∃ c ∈ cs, s.1 ≤ f c) :
    ∃ k c, cs[k]? = some c ∧ scan (fun v b => decide (v ≥ b)) f cs i s = (f c, i + k) := by
  induction cs generalizing i s with
  | nil => obtain ⟨c, hc, _⟩ := h; simp at hc
  | cons c cs ih =>
    unfold scan
    by_cases hb : f c ≥ s.1
    · simp only [hb, decide_true, if_true]
      rcases scan_pos (fun v b => decide (v ≥ b)) f cs (i + 1) (f c, i) with h' | ⟨k, c', hk, h'⟩
      · exact ⟨0, c, rfl, by rw [h']; rfl⟩
      · exact ⟨k + 1, c', by simpa using hk, by rw [h', Nat.add_assoc, Nat.add_comm 1 k]⟩
    · simp only [hb, decide_false, Bool.false_eq_true, if_false]
      obtain ⟨d, hd, hs⟩ := h
      rcases List.mem_cons.1 hd with rfl | hd
      · exact absurd hs hb
      · obtain ⟨k, c', hk, h'⟩ := ih (i + 1) s ⟨d, hd, hs⟩
        exact ⟨k + 1, c', by simpa using hk, by rw [h', Nat.add_assoc, Nat.add_comm 1 k]⟩

theorem scan_le_at (f : Nat → K) (cs : List Nat) (i : Nat) (s : K × Nat) (h : ∃ c ∈ cs, f c ≤ s.1) :
    ∃ k c, cs[k]? = some c ∧ scan (fun v b => decide (v ≤ b)) f cs i s = (f c, i + k) := by
  induction cs generalizing i s with
  | nil => obtain ⟨c, hc, _⟩ := h; simp at hc
  | cons c cs ih =>
    unfold scan
    by_cases hb : f c ≤ s.1
    · simp only [hb, decide_true, if_true]
      rcases scan_pos (fun v b => decide (v ≤ b)) f cs (i + 1) (f c, i) with h' | ⟨k, c', hk, h'⟩
      · exact ⟨0, c, rfl, by rw [h']; rfl⟩
      · exact ⟨k + 1, c', by simpa using hk, by rw [h', Nat.add_assoc, Nat.add_comm 1 k]⟩
    · simp only [hb, decide_false, Bool.false_eq_true, if_false]
      obtain ⟨d, hd, hs⟩ := h
      rcases List.mem_cons.1 hd with rfl | hd
      · exact absurd hs hb
      · obtain ⟨k, c', hk, h'⟩ := ih (i + 1) s ⟨d, hd, hs⟩
        exact ⟨k + 1, c', by simpa using hk, by rw [h', Nat.add_assoc, Nat.add_comm 1 k]⟩

/-! ### The fourth point -/

theorem fourthEdges_snd (k : Keys K) (pos : Bool) (a b c i p : Nat) (s : K × Nat) :
    (fourthEdges k pos a b c i p s).2 = s.2 ∨ (fourthEdges k pos a b c i p s).2 = i := by
  unfold fourthEdges
  simp only [List.foldl]
  split_ifs <;> simp

theorem fourth_lt (k : Keys K) (pos : Bool) (a b c : Nat) (cs : List Nat) (i n : Nat) (s : K × Nat) (hs : s.2 < n)
    (hn : i + cs.length ≤ n) : (fourth k pos a b c cs i s).2 < n := by
  induction cs generalizing i s with
  | nil => exact hs
  | cons p cs ih =>
    unfold fourth
    simp only [List.length_cons] at hn
    refine ih _ _ ?_ (by omega)
    rcases fourthEdges_snd k pos a b c i p s with h | h
    · omega
    · omega

/-! ### Manifolds -/

theorem largestDepth_spec (zero : K) (depth : Nat → K) (m : List Nat) :
    zero ≤ largestDepth zero depth m ∧ (∀ p ∈ m, depth p ≤ largestDepth zero depth m) ∧
      (largestDepth zero depth m = zero ∨ ∃ p ∈ m, largestDepth zero depth m = depth p) := by
  unfold largestDepth
  induction m generalizing zero with
  | nil => simp
  | cons p ps ih =>
    simp only [List.foldl_cons]
    split
    case isTrue h =>
      obtain ⟨h1, h2, h3⟩ := ih (depth p)
      refine ⟨le_trans (le_of_lt h) h1, ?_, ?_⟩
      · intro q hq
        rcases List.mem_cons.1 hq with rfl | hq
        · exact h1
        · exact h2 q hq
      · rcases h3 with h3 | ⟨q, hq, h3⟩
        · exact Or.inr ⟨p, List.mem_cons_self, h3⟩
        · exact Or.inr ⟨q, List.mem_cons_of_mem _ hq, h3⟩
    case isFalse h =>
      obtain ⟨h1, h2, h3⟩ := ih zero
      refine ⟨h1, ?_, ?_⟩
      · intro q hq
        rcases List.mem_cons.1 hq with rfl | hq
        · exact le_trans (not_lt.1 h) h1
        · exact h2 q hq
      · rcases h3 with h3 | ⟨q, hq, h3⟩
        · exact Or.inl h3
        · exact Or.inr ⟨q, List.mem_cons_of_mem _ hq, h3⟩

/-- One round removes a manifold of the smallest depth. -/
theorem reduce_round (big : K) (depth : Nat → K) (ms : List Nat) (hbig : ∃ m ∈ ms, depth m < big) :
    ∃ x ms', swapRemove ms (scan (fun v b => decide (v < b)) depth ms 0 (big, ms.length)).2 = some ms' ∧ ms.Perm (x :: ms') ∧
      ∀ m ∈ ms, depth x ≤ depth m := by
  obtain ⟨h1, h2⟩ := scan_lt' depth ms 0 (big, ms.length)
  obtain ⟨m, hm, hb⟩ := hbig
  have hne : scan (fun v b => decide (v < b)) depth ms 0 (big, ms.length) ≠ (big, ms.length) := by
    intro h
    have := h2 m hm
    rw [h] at this
    exact absurd hb (not_lt.2 this)
  obtain ⟨c, hc, hv⟩ := scan_at _ _ _ _ hne
  obtain ⟨ms', hms'⟩ := swapRemove_some (List.getElem?_eq_some_iff.1 hc).1
  obtain ⟨x, hx, hp⟩ := swapRemove_spec hms'
  rw [hc] at hx
  cases hx
  exact ⟨c, ms', hms', hp, fun m hm => by rw [← hv]; exact h2 m hm⟩

theorem reduceManifolds_spec (big : K) (depth : Nat → K) (max : Nat) (n : Nat) (ms : List Nat) (hn : ms.length ≤ n)
    (hbig : ∀ m ∈ ms, depth m < big) :
    ∃ kept dropped, reduceManifolds big depth max n ms = some kept ∧ ms.Perm (dropped ++ kept) ∧
      kept.length = min ms.length max ∧ ∀ d ∈ dropped, ∀ k ∈ kept, depth d ≤ depth k := by
  induction n generalizing ms with
  | zero =>
    have : ms = [] := List.length_eq_zero_iff.1 (by omega)
    subst this
    exact ⟨[], [], by simp [reduceManifolds], by simp, by simp, by simp⟩
  | succ n ih =>
    unfold reduceManifolds
    by_cases hl : ms.length > max
    · rw [if_pos hl]
      have hex : ∃ m ∈ ms, depth m < big := by
        cases ms with
        | nil => simp at hl
        | cons m ms => exact ⟨m, List.mem_cons_self, hbig m List.mem_cons_self⟩
      obtain ⟨x, ms', hs, hp, hmin⟩ := reduce_round big depth ms hex
      simp only [hs]
      have hlen := hp.length_eq
      simp only [List.length_cons] at hlen
      have hsub : ∀ m ∈ ms', m ∈ ms := fun m hm => hp.mem_iff.2 (List.mem_cons_of_mem _ hm)
      obtain ⟨kept, dropped, h1, h2, h3, h4⟩ := ih ms' (by omega) (fun m hm => hbig m (hsub m hm))
      refine ⟨kept, x :: dropped, h1, hp.trans (List.Perm.cons x h2), by omega, ?_⟩
      intro d hd k hk
      rcases List.mem_cons.1 hd with rfl | hd
      · exact hmin k (hsub k (h2.mem_iff.2 (List.mem_append_right _ hk)))
      · exact h4 d hd k hk
    · rw [if_neg hl]
      exact ⟨ms, [], rfl, by simp, by omega, by simp⟩

/-! ### Duplicates -/

theorem dedupInner_spec (near : Nat → Nat → Bool) (pre : List Nat) (p : Nat) (todo : List Nat) :
    ∀ (done : List Nat) (n : Nat), todo.length ≤ n → (∀ q ∈ done, near p q = false) →
      ∃ t, dedupInner near pre.length n (pre.length + 1 + done.length) (pre ++ p :: (done ++ todo)) = some (pre ++ p :: t) ∧
        t.Perm (done ++ todo.filter fun q => !near p q) := by
  generalize hlen : todo.length = len
  induction len using Nat.strong_induction_on generalizing todo with
  | _ len ih =>
    intro done n hn hdone
    cases todo with
    | nil =>
      refine ⟨done, ?_, by simp⟩
      cases n with
      | zero => simp [dedupInner]; omega
      | succ n => simp [dedupInner]; omega
    | cons q qs =>
      simp only [List.length_cons] at hlen
      cases n with
      | zero => omega
      | succ n =>
        unfold dedupInner
        have hl : pre.length + 1 + done.length < (pre ++ p :: (done ++ q :: qs)).length := by
          simp only [List.length_append, List.length_cons]; omega
        rw [if_pos hl]
        have hi : (pre ++ p :: (done ++ q :: qs))[pre.length]? = some p := by simp
        have hj : (pre ++ p :: (done ++ q :: qs))[pre.length + 1 + done.length]? = some q := by
          rw [List.getElem?_append_right (by omega)]
          have : pre.length + 1 + done.length - pre.length = done.length + 1 := by omega
          rw [this]
          simp
        simp only [hi, hj]
        cases hnear : near p q with
        | false =>
          simp only [Bool.false_eq_true, if_false]
          have hd : ∀ r ∈ done ++ [q], near p r = false := by
            intro r hr
            rcases List.mem_append.1 hr with hr | hr
            · exact hdone r hr
            · rw [List.mem_singleton.1 hr]; exact hnear
          obtain ⟨t, ht, hp⟩ := ih qs.length (by omega) qs rfl (done ++ [q]) n (by omega) hd
          refine ⟨t, ?_, ?_⟩
          · rw [← ht]
            simp only [List.length_append, List.length_singleton, List.append_assoc, List.singleton_append]
            congr 1
          · simpa [hnear] using hp
        | true =>
          simp only [if_true]
          have hsw : ∃ qs', swapRemove (pre ++ p :: (done ++ q :: qs)) (pre.length + 1 + done.length) = some (pre ++ p :: (done ++ qs')) ∧
              qs'.Perm qs := by
            unfold swapRemove
            rcases List.eq_nil_or_concat qs with rfl | ⟨a, x, rfl⟩
            · refine ⟨[], ?_, List.Perm.refl _⟩
              have hlast : (pre ++ p :: (done ++ [q])).getLast? = some q := by
                rw [← List.cons_append, ← List.append_assoc, List.getLast?_append]; rfl
              simp only [hlast]
              rw [if_pos hl]
              have : (pre ++ p :: (done ++ [q])) = (pre ++ p :: done) ++ [q] := by simp
              rw [this, List.set_append_right _ _ (by simp; omega)]
              have hz : pre.length + 1 + done.length - (pre ++ p :: done).length = 0 := by simp; omega
              rw [hz, List.set_cons_zero, List.dropLast_concat]
              simp
            · refine ⟨x :: a, ?_, ?_⟩
              · simp only [List.concat_eq_append] at hl ⊢
                have hlast : (pre ++ p :: (done ++ q :: (a ++ [x]))).getLast? = some x := by
                  have : (pre ++ p :: (done ++ q :: (a ++ [x]))) = (pre ++ p :: (done ++ q :: a)) ++ [x] := by simp
                  rw [this, List.getLast?_append]; rfl
                simp only [hlast]
                rw [if_pos hl]
                have : (pre ++ p :: (done ++ q :: (a ++ [x]))) = (pre ++ p :: done) ++ (q :: (a ++ [x])) := by simp
                rw [this, List.set_append_right _ _ (by simp; omega)]
                have hz : pre.length + 1 + done.length - (pre ++ p :: done).length = 0 := by simp; omega
                rw [hz, List.set_cons_zero]
                have : (pre ++ p :: done) ++ (x :: (a ++ [x])) = ((pre ++ p :: done) ++ (x :: a)) ++ [x] := by simp
                rw [this, List.dropLast_concat]
                simp
              · simp only [List.concat_eq_append]
                exact (List.perm_append_singleton x a).symm
          obtain ⟨qs', hs, hp'⟩ := hsw
          simp only [hs]
          obtain ⟨t, ht, hp⟩ := ih qs'.length (by rw [hp'.length_eq]; omega) qs' rfl done n (by rw [hp'.length_eq]; omega) hdone
          refine ⟨t, ht, hp.trans ?_⟩
          simp only [List.filter_cons, hnear, Bool.not_true, Bool.false_eq_true, if_false]
          exact List.Perm.append_left _ (hp'.filter _)

/-- What the removal of duplicates keeps of the points after position `i`. -/
theorem dedup_spec (near : Nat → Nat → Bool) (todo : List Nat) :
    ∀ (pre : List Nat) (n : Nat), todo.length ≤ n →
      ∃ t, dedup near n pre.length (pre ++ todo) = some (pre ++ t) ∧ t.Pairwise (fun a b => near a b = false) ∧ t.Subperm todo ∧
        (∀ q ∈ todo, q ∈ t ∨ ∃ p ∈ t, near p q = true) ∧ t.head? = todo.head? := by
  generalize hlen : todo.length = len
  induction len using Nat.strong_induction_on generalizing todo with
  | _ len ih =>
    intro pre n hn
    cases todo with
    | nil =>
      refine ⟨[], ?_, List.Pairwise.nil, List.Subperm.refl _, by simp, rfl⟩
      cases n <;> simp [dedup]
    | cons p todo =>
      simp only [List.length_cons] at hlen
      cases n with
      | zero => omega
      | succ n =>
        unfold dedup
        rw [if_pos (by simp)]
        obtain ⟨t, ht, hp⟩ := dedupInner_spec near pre p todo [] (pre ++ p :: todo).length (by simp; omega) (by simp)
        simp only [List.length_nil, Nat.add_zero, List.nil_append] at ht hp
        simp only [ht]
        have hsub : t.Subperm todo := hp.subperm.trans List.filter_sublist.subperm
        have hlt := hsub.length_le
        obtain ⟨t', ht', hpw, hsub', hcov, hhead⟩ := ih t.length (by omega) t rfl (pre ++ [p]) n (by omega)
        simp only [List.length_append, List.length_singleton, List.append_assoc, List.singleton_append] at ht'
        refine ⟨p :: t', ht', ?_, ?_, ?_, rfl⟩
        · refine List.Pairwise.cons ?_ hpw
          intro q hq
          have := hp.mem_iff.1 (hsub'.subset hq)
          simpa using (List.mem_filter.1 this).2
        · exact (List.subperm_cons p).2 (hsub'.trans hsub)
        · intro q hq
          rcases List.mem_cons.1 hq with rfl | hq
          · exact Or.inl List.mem_cons_self
          · cases hnear : near p q with
            | true => exact Or.inr ⟨p, List.mem_cons_self, hnear⟩
            | false =>
              have : q ∈ t := hp.mem_iff.2 (List.mem_filter.2 ⟨hq, by simp [hnear]⟩)
              rcases hcov q this with h | ⟨r, hr, hrq⟩
              · exact Or.inl (List.mem_cons_of_mem _ h)
              · exact Or.inr ⟨r, List.mem_cons_of_mem _ hr, hrq⟩

end Contacts
end RP3D
