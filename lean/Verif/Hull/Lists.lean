import Verif.Hull.Tetra

/-! Lemmas about the lists of points in front of faces. -/

namespace RP3D.Hull
variable {K : Type} [Field K] [LinearOrder K] [IsStrictOrderedRing K]

/-- The face chosen for a point. -/
def chosen (e : K) (s : St K) (ps : List (V3 K)) (deleted faces : List Nat) (i : Nat) : Option Nat :=
  (farthestFace e s (ps.getD i 0) deleted faces (some (none, e))).bind (·.1)

theorem farthestFace_none (e : K) (s : St K) (p : V3 K) (deleted faces : List Nat) : farthestFace e s p deleted faces none = none := by
  induction faces with
  | nil => rfl
  | cons f fs ih =>
    unfold farthestFace
    split_ifs
    · exact ih
    · cases s.plane f <;> rfl

theorem farthestFace_spec {e : K} {s : St K} {p : V3 K} {deleted faces : List Nat} {b r : Option Nat × K}
    (h : farthestFace e s p deleted faces (some b) = some r) :
    (∀ f ∈ faces, f ∉ deleted → ∃ F, s.plane f = some F ∧ F.dist p ≤ r.2) ∧ b.2 ≤ r.2 ∧
    (r = b ∨ ∃ f ∈ faces, f ∉ deleted ∧ r.1 = some f ∧ (∃ F, s.plane f = some F ∧ F.dist p = r.2) ∧ b.2 < r.2) := by
  induction faces generalizing b with
  | nil =>
    simp only [farthestFace, Option.some.injEq] at h
    subst h
    exact ⟨by simp, le_rfl, Or.inl rfl⟩
  | cons f fs ih =>
    unfold farthestFace at h
    split_ifs at h with hd
    · obtain ⟨h1, h2, h3⟩ := ih h
      refine ⟨fun g hg hgd => ?_, h2, ?_⟩
      · rcases List.mem_cons.mp hg with rfl | hg
        · exact absurd hd hgd
        · exact h1 g hg hgd
      · rcases h3 with h3 | ⟨g, h3, h4⟩
        · exact Or.inl h3
        · exact Or.inr ⟨g, List.mem_cons_of_mem _ h3, h4⟩
    · cases hF : s.plane f with
      | none => rw [hF] at h; simp at h
      | some F =>
        rw [hF] at h
        dsimp only at h
        obtain ⟨h1, h2, h3⟩ := ih h
        by_cases hc : b.2 < F.normal.dot (p - F.centroid)
        · rw [if_pos hc] at h2 h3
          refine ⟨fun g hg hgd => ?_, hc.le.trans h2, Or.inr ?_⟩
          · rcases List.mem_cons.mp hg with rfl | hg
            · exact ⟨F, hF, h2⟩
            · exact h1 g hg hgd
          · rcases h3 with h3 | ⟨g, h3, h4, h5, h6, h7⟩
            · exact ⟨f, List.mem_cons_self, hd, by rw [h3], ⟨F, hF, by rw [h3]; rfl⟩, by rw [h3]; exact hc⟩
            · exact ⟨g, List.mem_cons_of_mem _ h3, h4, h5, h6, hc.trans h7⟩
        · rw [if_neg hc] at h2 h3
          refine ⟨fun g hg hgd => ?_, h2, ?_⟩
          · rcases List.mem_cons.mp hg with rfl | hg
            · exact ⟨F, hF, (not_lt.mp hc).trans h2⟩
            · exact h1 g hg hgd
          · rcases h3 with h3 | ⟨g, h3, h4⟩
            · exact Or.inl h3
            · exact Or.inr ⟨g, List.mem_cons_of_mem _ h3, h4⟩

theorem farthestFace_some {e : K} {s : St K} {p : V3 K} {deleted faces : List Nat} (b : Option Nat × K)
    (h : ∀ f ∈ faces, f ∉ deleted → ∃ F, s.plane f = some F) : ∃ r, farthestFace e s p deleted faces (some b) = some r := by
  induction faces generalizing b with
  | nil => exact ⟨b, rfl⟩
  | cons f fs ih =>
    unfold farthestFace
    split_ifs with hd
    · exact ih b (fun g hg => h g (List.mem_cons_of_mem _ hg))
    · obtain ⟨F, hF⟩ := h f List.mem_cons_self hd
      rw [hF]
      exact ih _ (fun g hg => h g (List.mem_cons_of_mem _ hg))

theorem farthestFace_congr {e : K} {s s' : St K} {p : V3 K} {deleted faces : List Nat} {b : Option (Option Nat × K)} (ht : s'.t = s.t) (hp : s'.planes = s.planes) :
    farthestFace e s' p deleted faces b = farthestFace e s p deleted faces b := by
  have hpl : ∀ f, s'.plane f = s.plane f := fun f => by unfold St.plane; rw [ht, hp]
  induction faces generalizing b with
  | nil => rfl
  | cons f fs ih =>
    unfold farthestFace
    split_ifs
    · exact ih
    · rw [hpl f]
      cases s.plane f with
      | none => rfl
      | some F =>
        cases b with
        | none => rfl
        | some b => exact ih

theorem addConflict_spec {s s' : St K} {f : Nat} {is : List Nat} (h : addConflict s f is = some s') :
    s'.t = s.t ∧ s'.planes = s.planes ∧ s.t.live f = true ∧ ∃ c, s.conf[f]? = some c ∧ s'.conf = s.conf.set f (c ++ is) := by
  unfold addConflict St.conflict at h
  split_ifs at h with hl
  · cases hc : s.conf[f]? with
    | none => rw [hc] at h; simp at h
    | some c =>
      rw [hc] at h
      simp only [Option.map_some, Option.some.injEq] at h
      subst h
      exact ⟨rfl, rfl, hl, c, rfl, rfl⟩
  · simp at h

/-- What `associate` does: each point goes to the end of the list of its face. -/
theorem associate_spec {e : K} {ps : List (V3 K)} {faces deleted is : List Nat} {s s' : St K} (h : associate e ps faces deleted is s = some s') :
    s'.t = s.t ∧ s'.planes = s.planes ∧ (∀ i ∈ is, i < ps.length ∧ ∃ r, farthestFace e s (ps.getD i 0) deleted faces (some (none, e)) = some r) ∧
    ∀ f, s'.conf[f]? = (s.conf[f]?).map (· ++ is.filter (fun i => chosen e s ps deleted faces i == some f)) := by
  induction is generalizing s with
  | nil =>
    simp only [associate, Option.some.injEq] at h
    subst h
    refine ⟨rfl, rfl, by simp, fun f => ?_⟩
    cases s.conf[f]? <;> simp
  | cons i is ih =>
    unfold associate at h
    cases hp : ps[i]? with
    | none => rw [hp] at h; simp at h
    | some p =>
      rw [hp] at h
      simp only [Option.bind_some] at h
      obtain ⟨hlt, hpi⟩ := List.getElem?_eq_some_iff.mp hp
      have hget : ps.getD i 0 = p := by rw [List.getD_eq_getElem?_getD, hp]; rfl
      cases hr : farthestFace e s p deleted faces (some (none, e)) with
      | none => rw [hr] at h; simp at h
      | some r =>
        rw [hr] at h
        simp only [Option.bind_some] at h
        have hch : chosen e s ps deleted faces i = r.1 := by unfold chosen; rw [hget, hr]; rfl
        cases hr1 : r.1 with
        | none =>
          rw [hr1] at h hch
          obtain ⟨h1, h2, h3, h4⟩ := ih h
          refine ⟨h1, h2, ?_, fun f => ?_⟩
          · intro j hj
            rcases List.mem_cons.mp hj with rfl | hj
            · exact ⟨hlt, r, by rw [hget]; exact hr⟩
            · exact h3 j hj
          · rw [h4 f, List.filter_cons, hch]
            simp
        | some g =>
          rw [hr1] at h hch
          dsimp only at h
          cases ha : addConflict s g [i] with
          | none => rw [ha] at h; simp at h
          | some s1 =>
            rw [ha] at h
            simp only [Option.bind_some] at h
            obtain ⟨t1, pl1, lv, c, hc, hconf⟩ := addConflict_spec ha
            obtain ⟨h1, h2, h3, h4⟩ := ih h
            have hcc : ∀ j, chosen e s1 ps deleted faces j = chosen e s ps deleted faces j := fun j => by
              unfold chosen; rw [farthestFace_congr t1 pl1]
            refine ⟨h1.trans t1, h2.trans pl1, ?_, fun f => ?_⟩
            · intro j hj
              rcases List.mem_cons.mp hj with rfl | hj
              · exact ⟨hlt, r, by rw [hget]; exact hr⟩
              · obtain ⟨a, r', b⟩ := h3 j hj
                exact ⟨a, r', by rw [← b, farthestFace_congr t1 pl1]⟩
            · rw [h4 f, hconf, List.filter_cons, hch]
              simp only [hcc]
              by_cases hgf : g = f
              · subst hgf
                have hlen : g < s.conf.length := (List.getElem?_eq_some_iff.mp hc).1
                rw [List.getElem?_set_self hlen, hc]
                simp
              · rw [List.getElem?_set_ne hgf]
                have : (some g == some f) = false := by simp [hgf]
                rw [this]
                simp

theorem associate_some {e : K} {ps : List (V3 K)} {faces deleted is : List Nat} {s : St K} (hi : ∀ i ∈ is, i < ps.length)
    (hf : ∀ f ∈ faces, f ∉ deleted → (∃ F, s.plane f = some F) ∧ ∃ c, s.conflict f = some c) : ∃ s', associate e ps faces deleted is s = some s' := by
  induction is generalizing s with
  | nil => exact ⟨s, rfl⟩
  | cons i is ih =>
    have hlt := hi i List.mem_cons_self
    unfold associate
    rw [List.getElem?_eq_getElem hlt]
    simp only [Option.bind_some]
    obtain ⟨r, hr⟩ := farthestFace_some (e := e) (p := ps[i]) (deleted := deleted) (none, e) (fun f h1 h2 => (hf f h1 h2).1)
    rw [hr]
    simp only [Option.bind_some]
    have hi' : ∀ i ∈ is, i < ps.length := fun j hj => hi j (List.mem_cons_of_mem _ hj)
    cases hr1 : r.1 with
    | none => exact ih hi' hf
    | some g =>
      dsimp only
      have hg : g ∈ faces ∧ g ∉ deleted := by
        rcases (farthestFace_spec hr).2.2 with h | ⟨f, h1, h2, h3, -⟩
        · rw [h] at hr1; simp at hr1
        · rw [hr1] at h3
          simp only [Option.some.injEq] at h3
          subst h3
          exact ⟨h1, h2⟩
      obtain ⟨c, hc⟩ := (hf g hg.1 hg.2).2
      have ha : addConflict s g [i] = some { s with conf := s.conf.set g (c ++ [i]) } := by unfold addConflict; rw [hc]; rfl
      rw [ha]
      simp only [Option.bind_some]
      refine ih hi' (fun f h1 h2 => ⟨(hf f h1 h2).1, ?_⟩)
      obtain ⟨d, hd⟩ := (hf f h1 h2).2
      unfold St.conflict at hd ⊢
      split_ifs at hd with hl
      · rw [if_pos hl]
        by_cases hgf : g = f
        · subst hgf
          exact ⟨c ++ [i], List.getElem?_set_self (List.getElem?_eq_some_iff.mp hd).1⟩
        · exact ⟨d, by rw [← hd]; exact List.getElem?_set_ne hgf⟩

theorem dot_comm' (a b : V3 K) : a.dot b = b.dot a := by unfold V3.dot; ring

theorem bestOf_some {dbg : Bool} {e : K} {ps : List (V3 K)} {f : Nat} {F : Plane K} {is : List Nat} (j : Nat) (b : Option (Nat × Nat × Nat) × K)
    (h : ∀ i ∈ is, ∃ p, ps[i]? = some p ∧ e < F.dist p) : ∃ r, bestOf dbg e ps f F is j b = some r := by
  induction is generalizing j b with
  | nil => exact ⟨b, rfl⟩
  | cons i is ih =>
    obtain ⟨p, hp, hd⟩ := h i List.mem_cons_self
    unfold bestOf
    rw [hp]
    simp only [Option.bind_some]
    rw [if_pos (by rw [dot_comm']; unfold Plane.dist at hd; simp [hd])]
    exact ih _ _ (fun k hk => h k (List.mem_cons_of_mem _ hk))

theorem best_some {dbg : Bool} {e : K} {ps : List (V3 K)} {s : St K} {fs : List Nat} (b : Option (Nat × Nat × Nat) × K)
    (h : ∀ f ∈ fs, ∃ F c, s.plane f = some F ∧ s.conflict f = some c ∧ ∀ i ∈ c, ∃ p, ps[i]? = some p ∧ e < F.dist p) : ∃ r, best dbg e ps s fs b = some r := by
  induction fs generalizing b with
  | nil => exact ⟨b, rfl⟩
  | cons f fs ih =>
    obtain ⟨F, c, hF, hc, hi⟩ := h f List.mem_cons_self
    unfold best
    rw [hF, hc]
    simp only [Option.bind_some]
    obtain ⟨r, hr⟩ := bestOf_some (dbg := dbg) (f := f) 0 b hi
    rw [hr]
    exact ih r (fun g hg => h g (List.mem_cons_of_mem _ hg))

/-- The chosen candidate: it is in the list of its face and highest above its face among all candidates. -/
theorem bestOf_spec {dbg : Bool} {e : K} {ps : List (V3 K)} {f : Nat} {F : Plane K} {is pre : List Nat} {b r : Option (Nat × Nat × Nat) × K}
    (h : bestOf dbg e ps f F is pre.length b = some r) :
    (∀ i ∈ is, ∃ p, ps[i]? = some p ∧ F.dist p ≤ r.2 ∧ (dbg = true → e < F.dist p)) ∧ b.2 ≤ r.2 ∧
    (r = b ∨ b.2 < r.2 ∧ ∃ j i p, r.1 = some (f, j, i) ∧ (pre ++ is)[j]? = some i ∧ ps[i]? = some p ∧ F.dist p = r.2) := by
  induction is generalizing pre b with
  | nil =>
    simp only [bestOf, Option.some.injEq] at h
    subst h
    exact ⟨by simp, le_rfl, Or.inl rfl⟩
  | cons i is ih =>
    unfold bestOf at h
    cases hp : ps[i]? with
    | none => rw [hp] at h; simp at h
    | some p =>
      rw [hp] at h
      simp only [Option.bind_some] at h
      rw [dot_comm'] at h
      split_ifs at h with hd hb
      · have hl : pre.length + 1 = (pre ++ [i]).length := by simp
        rw [hl] at h
        obtain ⟨h1, h2, h3⟩ := ih h
        have happ : pre ++ [i] ++ is = pre ++ i :: is := by simp
        rw [happ] at h3
        refine ⟨fun k hk => ?_, hb.le.trans h2, Or.inr ?_⟩
        · rcases List.mem_cons.mp hk with rfl | hk
          · exact ⟨p, hp, h2, fun hdbg => by simpa [hdbg, Plane.dist] using hd⟩
          · exact h1 k hk
        · rcases h3 with h3 | ⟨h3, h4⟩
          · refine ⟨by rw [h3]; exact hb, pre.length, i, p, by rw [h3], by simp, hp, by rw [h3]; rfl⟩
          · exact ⟨hb.trans h3, h4⟩
      · have hl : pre.length + 1 = (pre ++ [i]).length := by simp
        rw [hl] at h
        obtain ⟨h1, h2, h3⟩ := ih h
        have happ : pre ++ [i] ++ is = pre ++ i :: is := by simp
        rw [happ] at h3
        refine ⟨fun k hk => ?_, h2, h3⟩
        rcases List.mem_cons.mp hk with rfl | hk
        · exact ⟨p, hp, (not_lt.mp hb).trans h2, fun hdbg => by simpa [hdbg, Plane.dist] using hd⟩
        · exact h1 k hk

theorem best_spec {dbg : Bool} {e : K} {ps : List (V3 K)} {s : St K} {fs : List Nat} {b r : Option (Nat × Nat × Nat) × K}
    (h : best dbg e ps s fs b = some r) :
    (∀ f ∈ fs, ∃ F c, s.plane f = some F ∧ s.conflict f = some c ∧ ∀ i ∈ c, ∃ p, ps[i]? = some p ∧ F.dist p ≤ r.2 ∧ (dbg = true → e < F.dist p)) ∧ b.2 ≤ r.2 ∧
    (r = b ∨ b.2 < r.2 ∧ ∃ f ∈ fs, ∃ F c j i p, r.1 = some (f, j, i) ∧ s.plane f = some F ∧ s.conflict f = some c ∧ c[j]? = some i ∧ ps[i]? = some p ∧ F.dist p = r.2) := by
  induction fs generalizing b with
  | nil =>
    simp only [best, Option.some.injEq] at h
    subst h
    exact ⟨by simp, le_rfl, Or.inl rfl⟩
  | cons f fs ih =>
    unfold best at h
    cases hF : s.plane f with
    | none => rw [hF] at h; simp at h
    | some F =>
      cases hc : s.conflict f with
      | none => rw [hF, hc] at h; simp at h
      | some c =>
        rw [hF, hc] at h
        simp only [Option.bind_some] at h
        cases hq : bestOf dbg e ps f F c 0 b with
        | none => rw [hq] at h; simp at h
        | some q =>
          rw [hq] at h
          simp only [Option.bind_some] at h
          obtain ⟨a1, a2, a3⟩ := bestOf_spec (pre := []) hq
          obtain ⟨h1, h2, h3⟩ := ih h
          refine ⟨fun g hg => ?_, a2.trans h2, ?_⟩
          · rcases List.mem_cons.mp hg with rfl | hg
            · refine ⟨F, c, hF, hc, fun i hi => ?_⟩
              obtain ⟨p, hp, hd, hdbg⟩ := a1 i hi
              exact ⟨p, hp, hd.trans h2, hdbg⟩
            · exact h1 g hg
          · rcases h3 with rfl | ⟨h3, g, hg, h4⟩
            · rcases a3 with a3 | ⟨a3, j, i, p, e1, e2, e3, e4⟩
              · exact Or.inl a3
              · exact Or.inr ⟨a3, f, List.mem_cons_self, F, c, j, i, p, e1, hF, hc, by simpa using e2, e3, e4⟩
            · exact Or.inr ⟨a2.trans_lt h3, g, List.mem_cons_of_mem _ hg, h4⟩

end RP3D.Hull
