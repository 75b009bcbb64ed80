import Verif.Contacts.Listen

/-! C145: a listener can read every event of a step, once, in the right method. -/

namespace RP3D
namespace Listen
variable {α : Type}

/-! ### Indices -/

theorem keep_acc (f : CPair → Bool) : ∀ (qs : List CPair) (i : Nat) (acc : List Nat), keep f qs i acc = acc ++ keep f qs i []
  | [], _, acc => (List.append_nil acc).symm
  | q :: qs, i, acc => by
    unfold keep
    rw [keep_acc f qs (i + 1) (if f q then acc ++ [i] else acc), keep_acc f qs (i + 1) (if f q then [] ++ [i] else [])]
    split <;> simp

/-- The kept indices point to the kept pairs. -/
theorem keep_get (f : CPair → Bool) : ∀ (qs pre : List CPair), (keep f qs pre.length []).map (fun j => (pre ++ qs)[j]?) = (qs.filter f).map some
  | [], _ => rfl
  | q :: qs, pre => by
    have ih := keep_get f qs (pre ++ [q])
    rw [List.length_append, List.append_assoc] at ih
    unfold keep
    rw [keep_acc, List.map_append]
    have ih' : (keep f qs (pre.length + 1) []).map (fun j => (pre ++ q :: qs)[j]?) = (qs.filter f).map some := ih
    rw [ih']
    by_cases h : f q = true
    · rw [if_pos h, List.filter_cons_of_pos h]
      simp
    · rw [if_neg h, List.filter_cons_of_neg h]
      rfl

theorem keep_all (f : CPair → Bool) (qs : List CPair) : (keep f qs 0 []).map (fun j => qs[j]?) = (qs.filter f).map some := keep_get f qs []

theorem keep_length (f : CPair → Bool) (qs : List CPair) : (keep f qs 0 []).length = (qs.filter f).length := by
  have := congrArg List.length (keep_all f qs)
  rwa [List.length_map, List.length_map] at this

theorem keep_at (f : CPair → Bool) (qs : List CPair) (i : Nat) : ((keep f qs 0 [])[i]? >>= fun j => qs[j]?) = (qs.filter f)[i]? := by
  have h := congrArg (fun l => l[i]?) (keep_all f qs)
  simp only [List.getElem?_map] at h
  cases h1 : (keep f qs 0 [])[i]? with
  | none =>
    rw [h1] at h
    cases h2 : (qs.filter f)[i]? with
    | none => rfl
    | some q => rw [h2] at h; cases h
  | some j =>
    rw [h1] at h
    cases h2 : (qs.filter f)[i]? with
    | none => rw [h2] at h; cases h
    | some q =>
      rw [h2] at h
      exact Option.some.inj h

/-! ### Reading -/

/-- The data of a filter. -/
def made (f : CPair → Bool) (pairs lost : List CPair) : Data := ⟨pairs, lost, keep f pairs 0 [], keep f lost 0 []⟩

theorem made_nb (f : CPair → Bool) (pairs lost : List CPair) : (made f pairs lost).nb = (pairs.filter f).length + (lost.filter f).length := by
  unfold Data.nb made
  rw [keep_length, keep_length]

/-- What index `i` gives: the kept pairs of the step, then the kept lost ones. -/
theorem made_get (f : CPair → Bool) (pairs lost : List CPair) (i : Nat) :
    (made f pairs lost).get i = ((pairs.filter f).map (fun q => (q, false)) ++ (lost.filter f).map (fun q => (q, true)))[i]? := by
  have hp := keep_at f pairs i
  have hl := keep_at f lost (i - (pairs.filter f).length)
  unfold Data.get
  rw [made_nb]
  show (if _ then (if i < (keep f pairs 0 []).length then (((keep f pairs 0 [])[i]?).bind fun j => (pairs[j]?).bind fun q => some (q, false))
    else (((keep f lost 0 [])[i - (keep f pairs 0 []).length]?).bind fun j => (lost[j]?).bind fun q => some (q, true))) else none) = _
  rw [keep_length, ← Option.bind_assoc, ← Option.bind_assoc]
  rw [show ((keep f pairs 0 [])[i]?.bind fun j => pairs[j]?) = _ from hp, show ((keep f lost 0 [])[i - (pairs.filter f).length]?.bind fun j => lost[j]?) = _ from hl]
  split
  · split
    · rename_i h
      rw [List.getElem?_append_left (by rwa [List.length_map]), List.getElem?_map]
      cases (pairs.filter f)[i]? <;> rfl
    · rename_i h
      rw [List.getElem?_append_right (by rw [List.length_map]; omega), List.length_map, List.getElem?_map]
      cases (lost.filter f)[i - (pairs.filter f).length]? <;> rfl
  · rename_i h
    rw [List.getElem?_eq_none]
    rw [List.length_append, List.length_map, List.length_map]
    omega

theorem mapM_range {β : Type} (l : List β) (g : Nat → Option β) (h : ∀ i, i < l.length → g i = l[i]?) : (List.range l.length).mapM g = some l := by
  have key : ∀ (k : Nat), k ≤ l.length → (List.range' (l.length - k) k).mapM g = some (l.drop (l.length - k)) := by
    intro k
    induction k with
    | zero => intro _; simp
    | succ k ih =>
      intro hk
      have hlt : l.length - (k + 1) < l.length := by omega
      rw [List.range'_succ, List.mapM_cons, h _ hlt, show l.length - (k + 1) + 1 = l.length - k by omega, ih (by omega), List.getElem?_eq_getElem hlt,
        List.drop_eq_getElem_cons hlt, show l.length - (k + 1) + 1 = l.length - k by omega]
      rfl
  have := key l.length le_rfl
  rw [Nat.sub_self, List.drop_zero] at this
  rw [List.range_eq_range']
  exact this

theorem made_all (f : CPair → Bool) (pairs lost : List CPair) :
    (made f pairs lost).readAll = some ((pairs.filter f).map World.contactEvent ++ (lost.filter f).map World.lostEvent) := by
  have e : ((pairs.filter f).map World.contactEvent ++ (lost.filter f).map World.lostEvent) =
      ((pairs.filter f).map (fun q => (q, false)) ++ (lost.filter f).map (fun q => (q, true))).map eventOf := by
    rw [List.map_append, List.map_map, List.map_map]
    rfl
  unfold Data.readAll
  have hl : (made f pairs lost).nb = ((pairs.filter f).map World.contactEvent ++ (lost.filter f).map World.lostEvent).length := by
    rw [made_nb, List.length_append, List.length_map, List.length_map]
  rw [hl]
  refine mapM_range _ _ fun i _ => ?_
  rw [made_get, e, List.getElem?_map]

/-! ### Specification and theorems -/

theorem filter_event (g : Bool → Bool) (cs lost : List CPair) : (cs.map World.contactEvent ++ lost.map World.lostEvent).filter (fun e => g e.trigger) =
    (cs.filter fun q => g q.trigger).map World.contactEvent ++ (lost.filter fun q => g q.trigger).map World.lostEvent := by
  rw [List.filter_append, List.filter_map, List.filter_map]
  rfl

/-- **C145, contacts.** Reading all pairs in `onContact` gives the contact events of the step, each once and in their order, and no event of a trigger; no index fails. -/
theorem contacts_heard {w w' : World α} {cs : List CPair} {es : List World.Event} (h : w.report cs = some (w', es)) :
    heard (onContact cs w.lost) = some (es.filter fun e => !e.trigger) := by
  unfold World.report at h
  split at h
  · obtain ⟨-, rfl⟩ := Prod.mk.inj (Option.some.inj h)
    rw [filter_event (fun b => !b)]
    unfold onContact
    split
    · exact made_all (fun q => !q.trigger) cs w.lost
    · rename_i k
      have a : cs = [] := List.length_eq_zero_iff.1 (by omega)
      have b : w.lost = [] := List.length_eq_zero_iff.1 (by omega)
      rw [a, b]
      rfl
  · cases h

/-- **C145, triggers.** Reading all pairs in `onTrigger` gives the events of triggers. -/
theorem triggers_heard {w w' : World α} {cs : List CPair} {es : List World.Event} (h : w.report cs = some (w', es)) :
    heard (onTrigger cs w.lost) = some (es.filter fun e => e.trigger) := by
  unfold World.report at h
  split at h
  · obtain ⟨-, rfl⟩ := Prod.mk.inj (Option.some.inj h)
    rw [filter_event (fun b => b)]
    unfold onTrigger
    split
    · exact made_all (fun q => q.trigger) cs w.lost
    · rename_i k
      have a : cs = [] := List.length_eq_zero_iff.1 (by omega)
      have b : w.lost = [] := List.length_eq_zero_iff.1 (by omega)
      rw [a, b]
      rfl
  · cases h

/-- **C145.** The two methods together: every event of the step is heard exactly once, in one of them. -/
theorem events_heard {w w' : World α} {cs : List CPair} {es : List World.Event} (h : w.report cs = some (w', es)) :
    ∃ a b, heard (onContact cs w.lost) = some a ∧ heard (onTrigger cs w.lost) = some b ∧ (a ++ b).Perm es ∧ (∀ e ∈ a, e.trigger = false) ∧ ∀ e ∈ b, e.trigger = true := by
  refine ⟨_, _, contacts_heard h, triggers_heard h, ?_, fun e he => by simpa using (List.mem_filter.1 he).2, fun e he => (List.mem_filter.1 he).2⟩
  have := List.filter_append_perm (fun e : World.Event => !e.trigger) es
  simpa using this

/-- **C145, one index.** A pair that is read by an index below the number of pairs is one of the step or a lost one, as it says, and belongs to the method it is read in. -/
theorem pair_heard (pairs lost : List CPair) {i : Nat} (h : i < (contactData pairs lost).nb) : ∃ q b, (contactData pairs lost).get i = some (q, b) ∧ q.trigger = false ∧
    (b = false → q ∈ pairs) ∧ (b = true → q ∈ lost) := by
  have hg := made_get (fun q => !q.trigger) pairs lost i
  have hn : i < ((pairs.filter fun q => !q.trigger).map (fun q => (q, false)) ++ (lost.filter fun q => !q.trigger).map (fun q => (q, true))).length := by
    rw [List.length_append, List.length_map, List.length_map, ← made_nb]
    exact h
  rw [List.getElem?_eq_getElem hn] at hg
  have hm := List.getElem_mem hn
  rcases List.mem_append.1 hm with k | k
  · obtain ⟨q, hq, e⟩ := List.mem_map.1 k
    rw [← e] at hg
    exact ⟨q, false, hg, by simpa using (List.mem_filter.1 hq).2, fun _ => (List.mem_filter.1 hq).1, fun x => by cases x⟩
  · obtain ⟨q, hq, e⟩ := List.mem_map.1 k
    rw [← e] at hg
    exact ⟨q, true, hg, by simpa using (List.mem_filter.1 hq).2, (fun x => by cases x), fun _ => (List.mem_filter.1 hq).1⟩

/-- **C145, queries.** `testOverlap` reports every overlapping pair, triggers and others, once. -/
theorem overlaps_heard (pairs : List CPair) : (overlapData pairs [] false).readAll = some (pairs.map World.contactEvent) := by
  have := made_all (fun q => !false || q.trigger) pairs []
  simpa [made, overlapData] using this

/-! ### Examples -/

/-- Two contacts, a trigger, and the ends of a contact and of an overlap. -/
example : let cs : List CPair := [⟨1, 0, 1, 10, 11, false, false⟩, ⟨2, 0, 2, 10, 12, true, true⟩, ⟨3, 1, 2, 11, 12, true, false⟩]
    let lost : List CPair := [⟨4, 1, 3, 11, 13, true, true⟩, ⟨5, 2, 3, 12, 13, true, false⟩]
    heard (onContact cs lost) = some [⟨.start, 10, 11, false⟩, ⟨.stay, 11, 12, false⟩, ⟨.exit, 12, 13, false⟩] ∧
    heard (onTrigger cs lost) = some [⟨.stay, 10, 12, true⟩, ⟨.exit, 11, 13, true⟩] ∧
    (contactData cs lost).get 2 = some (⟨5, 2, 3, 12, 13, true, false⟩, true) ∧ (contactData cs lost).get 3 = none := by decide

end Listen
end RP3D
