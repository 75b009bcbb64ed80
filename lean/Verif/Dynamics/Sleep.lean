import Verif.Dynamics.World

/-! What the sleeping pass does to each body. -/

namespace RP3D
namespace DW
variable {K : Type} [Field K] [LinearOrder K]

/-- The timer of one body. -/
def ticked (w : DW K) (add : K → K → K) (dt : K) (d : Dyn K) : Dyn K :=
  if d.type = .static then d else if w.atRest d then { d with sleepTime := add d.sleepTime dt } else { d with sleepTime := 0 }

/-- The settings of the sleeping technique are equal. -/
structure SameLimits (w v : DW K) : Prop where
  l : v.limL = w.limL
  a : v.limA = w.limA
  t : v.before = w.before

theorem SameLimits.rest {w v : DW K} (h : SameLimits w v) (d : Dyn K) : v.atRest d = w.atRest d := by
  unfold atRest; rw [h.l, h.a]

theorem SameLimits.ticked {w v : DW K} (h : SameLimits w v) (add) (dt : K) (d : Dyn K) : v.ticked add dt d = w.ticked add dt d := by
  unfold DW.ticked; rw [h.rest]

theorem tick_limits (add) (dt : K) (s : DW K × K) (b : Nat) : SameLimits s.1 (tick add dt s b).1 := by
  unfold tick
  split
  · exact ⟨rfl, rfl, rfl⟩
  · split
    · exact ⟨rfl, rfl, rfl⟩
    · split <;> exact ⟨rfl, rfl, rfl⟩

theorem SameLimits.trans {u v w : DW K} (h : SameLimits u v) (g : SameLimits v w) : SameLimits u w :=
  ⟨g.l.trans h.l, g.a.trans h.a, g.t.trans h.t⟩

theorem ticks_limits (add) (dt : K) (i : List Nat) (s : DW K × K) : SameLimits s.1 (i.foldl (tick add dt) s).1 := by
  induction i generalizing s with
  | nil => exact ⟨rfl, rfl, rfl⟩
  | cons b i ih => exact (tick_limits add dt s b).trans (ih _)

theorem tick_body (add) (dt : K) (s : DW K × K) (b c : Nat) :
    (tick add dt s b).1.body c = if c = b then (s.1.body c).map (s.1.ticked add dt) else s.1.body c := by
  by_cases e : c = b
  · subst e
    rw [if_pos rfl]
    unfold tick
    cases h : s.1.body c with
    | none => simp [h]
    | some d =>
      simp only [Option.map_some, DW.ticked]
      by_cases h1 : d.type = .static
      · rw [if_pos h1, if_pos h1]; exact h
      · rw [if_neg h1, if_neg h1]
        by_cases h2 : s.1.atRest d = true
        · rw [if_pos h2, if_pos h2]
          show (s.1.modify c _).body c = _
          rw [modify_same, h]; rfl
        · rw [if_neg h2, if_neg h2]
          show (s.1.modify c _).body c = _
          rw [modify_same, h]; rfl
  · rw [if_neg e]
    unfold tick
    split
    · rfl
    · split_ifs
      · rfl
      · exact modify_ne _ _ e
      · exact modify_ne _ _ e

theorem ticks_body (add) (dt : K) (i : List Nat) (hi : i.Nodup) (s : DW K × K) (c : Nat) :
    (i.foldl (tick add dt) s).1.body c = if c ∈ i then (s.1.body c).map (s.1.ticked add dt) else s.1.body c := by
  induction i generalizing s with
  | nil => simp
  | cons b i ih =>
    rw [List.foldl_cons, ih (List.nodup_cons.1 hi).2, tick_body]
    have ht : (tick add dt s b).1.ticked add dt = s.1.ticked add dt := funext fun d => (tick_limits add dt s b).ticked add dt d
    rw [ht]
    by_cases e : c = b
    · subst e
      rw [if_neg (List.nodup_cons.1 hi).1, if_pos rfl, if_pos (List.mem_cons_self)]
    · by_cases m : c ∈ i
      · rw [if_pos m, if_neg e, if_pos (List.mem_cons_of_mem _ m)]
      · rw [if_neg m, if_neg e, if_neg (by simp [e, m])]

/-- The body does not stop the island from sleeping. -/
def Ready (w : DW K) (add : K → K → K) (dt t : K) (d : Dyn K) : Prop := d.type = .static ∨ (w.atRest d = true ∧ t ≤ add d.sleepTime dt)

theorem tick_min (add) (dt t : K) (ht : 0 < t) (s : DW K × K) (b : Nat) :
    t ≤ (tick add dt s b).2 ↔ ((t ≤ s.2 ∨ ∃ d, s.1.body b = some d ∧ d.type ≠ .static ∧ s.1.atRest d = false) ∧ ∀ d, s.1.body b = some d → s.1.Ready add dt t d) := by
  unfold tick
  cases h : s.1.body b with
  | none => simp
  | some d =>
    simp only [Option.some.injEq, forall_eq', Ready]
    by_cases h1 : d.type = .static
    · simp [h1]
    · rw [if_neg h1]
      by_cases h2 : s.1.atRest d = true
      · rw [if_pos h2]
        simp only [h1, h2, false_or, true_and]
        by_cases h3 : add d.sleepTime dt < s.2
        · rw [if_pos h3]
          constructor
          · exact fun h => ⟨Or.inl (h.trans (le_of_lt h3)), h⟩
          · exact fun h => h.2
        · rw [if_neg h3]
          constructor
          · exact fun h => ⟨Or.inl h, h.trans (not_lt.1 h3)⟩
          · rintro ⟨h | ⟨d', rfl, _, h'⟩, _⟩
            · exact h
            · rw [h2] at h'; cases h'
      · rw [if_neg h2]
        constructor
        · exact fun h => absurd h (not_le.2 ht)
        · rintro ⟨_, h | h⟩
          · exact absurd h h1
          · exact absurd h.1 h2

theorem ticks_min (add) (dt t : K) (ht : 0 < t) (i : List Nat) (hi : i.Nodup) (s : DW K × K) :
    t ≤ (i.foldl (tick add dt) s).2 ↔
      ((t ≤ s.2 ∨ ∃ b ∈ i, ∃ d, s.1.body b = some d ∧ d.type ≠ .static ∧ s.1.atRest d = false) ∧
        ∀ b ∈ i, ∀ d, s.1.body b = some d → s.1.Ready add dt t d) := by
  induction i generalizing s with
  | nil => simp
  | cons b i ih =>
    rw [List.foldl_cons, ih (List.nodup_cons.1 hi).2, tick_min add dt t ht]
    have hb : ∀ c ∈ i, (tick add dt s b).1.body c = s.1.body c := fun c hc => by
      rw [tick_body, if_neg]
      rintro rfl
      exact (List.nodup_cons.1 hi).1 hc
    have hl := tick_limits add dt s b
    have hr : ∀ d, (tick add dt s b).1.Ready add dt t d ↔ s.1.Ready add dt t d := fun d => by
      unfold Ready; rw [hl.rest]
    constructor
    · rintro ⟨h1, h2⟩
      have h2' : ∀ c ∈ i, ∀ d, s.1.body c = some d → s.1.Ready add dt t d := fun c hc d hd =>
        (hr d).1 (h2 c hc d (by rw [hb c hc]; exact hd))
      rcases h1 with ⟨h1, h3⟩ | ⟨c, hc, d, h4, h5, h6⟩
      · refine ⟨?_, ?_⟩
        · rcases h1 with h1 | ⟨d, h4, h5, h6⟩
          · exact Or.inl h1
          · exact Or.inr ⟨b, List.mem_cons_self, d, h4, h5, h6⟩
        · intro c hc d hd
          rcases List.mem_cons.1 hc with rfl | hc
          · exact h3 d hd
          · exact h2' c hc d hd
      · rw [hb c hc] at h4
        rw [hl.rest] at h6
        exfalso
        rcases h2' c hc d h4 with h7 | ⟨h7, _⟩
        · exact h5 h7
        · rw [h6] at h7; cases h7
    · rintro ⟨h1, h2⟩
      refine ⟨Or.inl ⟨?_, h2 b List.mem_cons_self⟩, fun c hc d hd => ?_⟩
      · rcases h1 with h1 | ⟨c, hc, d, h4, h5, h6⟩
        · exact Or.inl h1
        · exfalso
          rcases h2 c hc d h4 with h7 | ⟨h7, _⟩
          · exact h5 h7
          · rw [h6] at h7; cases h7
      · rw [hb c hc] at hd
        exact (hr d).2 (h2 c (List.mem_cons_of_mem _ hc) d hd)

/-- An island of bodies all at rest for long enough. -/
def IslandReady (w : DW K) (add : K → K → K) (big dt : K) (i : List Nat) : Prop :=
  w.before ≤ big ∧ ∀ b ∈ i, ∀ d, w.body b = some d → w.Ready add dt w.before d

theorem island_ready_iff (add) (big dt : K) (w : DW K) (i : List Nat) (hi : i.Nodup) (ht : 0 < w.before) :
    (i.foldl (tick add dt) (w, big)).2 ≥ (i.foldl (tick add dt) (w, big)).1.before ↔ w.IslandReady add big dt i := by
  rw [(ticks_limits add dt i (w, big)).t, ge_iff_le, ticks_min add dt w.before ht i hi]
  unfold IslandReady
  constructor
  · rintro ⟨h1, h2⟩
    refine ⟨?_, h2⟩
    rcases h1 with h1 | ⟨c, hc, d, h4, h5, h6⟩
    · exact h1
    · exfalso
      rcases h2 c hc d h4 with h7 | ⟨h7, _⟩
      · exact h5 h7
      · change w.atRest d = true at h7
        rw [h6] at h7; cases h7
  · rintro ⟨h1, h2⟩
    exact ⟨Or.inl h1, h2⟩

theorem setIsSleeping_idem (d : Dyn K) : (d.setIsSleeping true).setIsSleeping true = d.setIsSleeping true := by
  by_cases h : (d.setIsSleeping true).sleeping = true
  · generalize hx : d.setIsSleeping true = x at h
    unfold Dyn.setIsSleeping
    rw [if_pos h]
  · rcases Dyn.setIsSleeping_cases d true with e | ⟨_, _, _, _, e⟩ | ⟨hf, _⟩
    · rw [e, e]
    · rw [e] at h; exact absurd rfl h
    · cases hf

theorem sleeps_body (i : List Nat) (w : DW K) (c : Nat) :
    (i.foldl (fun w b => w.modify b fun d => d.setIsSleeping true) w).body c =
      if c ∈ i then (w.body c).map (fun d => d.setIsSleeping true) else w.body c := by
  induction i generalizing w with
  | nil => simp
  | cons b i ih =>
    rw [List.foldl_cons, ih]
    by_cases e : c = b
    · subst e
      rw [modify_same, if_pos (List.mem_cons_self)]
      split
      · rw [Option.map_map]
        congr 1
        funext d
        exact setIsSleeping_idem d
      · rfl
    · rw [modify_ne _ _ e]
      by_cases m : c ∈ i
      · rw [if_pos m, if_pos (List.mem_cons_of_mem _ m)]
      · rw [if_neg m, if_neg (by simp [e, m])]

theorem sleeps_limits (i : List Nat) (w : DW K) : SameLimits w (i.foldl (fun w b => w.modify b fun d => d.setIsSleeping true) w) := by
  induction i generalizing w with
  | nil => exact ⟨rfl, rfl, rfl⟩
  | cons b i ih => exact SameLimits.trans (v := w.modify b fun d => d.setIsSleeping true) ⟨rfl, rfl, rfl⟩ (ih _)

theorem sleepIsland_limits (add) (big dt : K) (w : DW K) (i : List Nat) : SameLimits w (sleepIsland add big dt w i) := by
  unfold sleepIsland
  simp only
  split
  · exact (ticks_limits add dt i (w, big)).trans (sleeps_limits _ _)
  · exact ticks_limits add dt i (w, big)

open Classical in
/-- The sleeping pass on one body of an island. -/
noncomputable def slept (w : DW K) (add : K → K → K) (big dt : K) (i : List Nat) (d : Dyn K) : Dyn K :=
  if w.IslandReady add big dt i then (w.ticked add dt d).setIsSleeping true else w.ticked add dt d

theorem sleepIsland_body (add) (big dt : K) (w : DW K) (i : List Nat) (hi : i.Nodup) (ht : 0 < w.before) (c : Nat) :
    (sleepIsland add big dt w i).body c = if c ∈ i then (w.body c).map (w.slept add big dt i) else w.body c := by
  classical
  unfold sleepIsland
  simp only
  have hr := island_ready_iff add big dt w i hi ht
  by_cases h : w.IslandReady add big dt i
  · rw [if_pos (hr.2 h), sleeps_body, ticks_body add dt i hi]
    split
    · rw [Option.map_map]
      congr 1
      funext d
      simp [slept, h]
    · rfl
  · rw [if_neg (fun x => h (hr.1 x)), ticks_body add dt i hi]
    split
    · congr 1
      funext d
      simp [slept, h]
    · rfl

theorem slept_static (w : DW K) (add) (big dt : K) (i : List Nat) (d : Dyn K) (h : d.type = .static) : w.slept add big dt i d = d := by
  have e : w.ticked add dt d = d := by unfold ticked; rw [if_pos h]
  have e' : d.setIsSleeping true = d := by
    unfold Dyn.setIsSleeping
    split
    · rfl
    · rfl
  unfold slept
  split <;> simp [e, e']

theorem ticked_type (w : DW K) (add) (dt : K) (d : Dyn K) : (w.ticked add dt d).type = d.type := by
  unfold ticked; split_ifs <;> rfl

theorem slept_type (w : DW K) (add) (big dt : K) (i : List Nat) (d : Dyn K) : (w.slept add big dt i d).type = d.type := by
  unfold slept
  split
  · rw [Dyn.setIsSleeping_type, ticked_type]
  · exact ticked_type _ _ _ _

/-- The islands of a step: lists without repetition that share only static bodies (C29). -/
structure IslandsOk (w : DW K) (is : List (List Nat)) : Prop where
  nodup : ∀ i ∈ is, i.Nodup
  disj : is.Pairwise fun i j => ∀ b ∈ i, b ∈ j → ∀ d, w.body b = some d → d.type = .static

/-- The bodies after one island are those before, up to the nonstatic bodies of the island. -/
theorem sleepIsland_other (add) (big dt : K) (w : DW K) (i : List Nat) (hi : i.Nodup) (ht : 0 < w.before) (c : Nat)
    (h : c ∈ i → ∀ d, w.body c = some d → d.type = .static) : (sleepIsland add big dt w i).body c = w.body c := by
  rw [sleepIsland_body add big dt w i hi ht]
  split
  · rename_i hc
    cases e : w.body c with
    | none => rfl
    | some d => rw [Option.map_some, slept_static _ _ _ _ _ _ (h hc d e)]
  · rfl

theorem IslandsOk.tail {w : DW K} {i : List Nat} {is : List (List Nat)} (h : IslandsOk w (i :: is)) (add) (big dt : K) (ht : 0 < w.before) :
    IslandsOk (sleepIsland add big dt w i) is := by
  refine ⟨fun j hj => h.nodup j (List.mem_cons_of_mem _ hj), ?_⟩
  refine (List.pairwise_cons.1 h.disj).2.imp ?_
  intro a b hab c hc hc' d hd
  rw [sleepIsland_body add big dt w i (h.nodup i List.mem_cons_self) ht] at hd
  split at hd
  · simp only [Option.map_eq_some_iff] at hd
    obtain ⟨d', hd', rfl⟩ := hd
    rw [slept_type]
    exact hab c hc hc' d' hd'
  · exact hab c hc hc' d hd

/-- The sleeping pass on a body outside of all islands, or static. -/
theorem updateSleeping_other (add) (big dt : K) (is : List (List Nat)) (w : DW K) (ho : IslandsOk w is) (ht : 0 < w.before) (c : Nat)
    (h : ∀ i ∈ is, c ∈ i → ∀ d, w.body c = some d → d.type = .static) : (updateSleeping add big dt w is).body c = w.body c := by
  induction is generalizing w with
  | nil => rfl
  | cons i is ih =>
    have e : (sleepIsland add big dt w i).body c = w.body c :=
      sleepIsland_other add big dt w i (ho.nodup i List.mem_cons_self) ht c (h i List.mem_cons_self)
    show (updateSleeping add big dt (sleepIsland add big dt w i) is).body c = w.body c
    rw [ih _ (ho.tail add big dt ht) (by rw [(sleepIsland_limits add big dt w i).t]; exact ht)]
    · exact e
    · intro j hj hc d hd
      rw [e] at hd
      exact h j (List.mem_cons_of_mem _ hj) hc d hd

/-- The sleeping pass on a body of an island. -/
theorem updateSleeping_body (add) (big dt : K) (is : List (List Nat)) (w : DW K) (ho : IslandsOk w is) (ht : 0 < w.before)
    (i : List Nat) (hi : i ∈ is) (c : Nat) (hc : c ∈ i) : (updateSleeping add big dt w is).body c = (w.body c).map (w.slept add big dt i) := by
  by_cases hst : ∀ d, w.body c = some d → d.type = .static
  · rw [updateSleeping_other add big dt is w ho ht c fun _ _ _ => hst]
    cases e : w.body c with
    | none => rfl
    | some d => rw [Option.map_some, slept_static _ _ _ _ _ _ (hst d e)]
  induction is generalizing w with
  | nil => cases hi
  | cons j is ih =>
    show (updateSleeping add big dt (sleepIsland add big dt w j) is).body c = _
    have hj := ho.nodup j List.mem_cons_self
    have hl := sleepIsland_limits add big dt w j
    have ht' : 0 < (sleepIsland add big dt w j).before := by rw [hl.t]; exact ht
    rcases List.mem_cons.1 hi with rfl | hi
    · have e := sleepIsland_body add big dt w i hj ht c
      rw [if_pos hc] at e
      rw [updateSleeping_other add big dt is _ (ho.tail add big dt ht) ht']
      · exact e
      · intro k hk hck d hd
        rw [e] at hd
        simp only [Option.map_eq_some_iff] at hd
        obtain ⟨d', hd', rfl⟩ := hd
        rw [slept_type]
        exact (List.pairwise_cons.1 ho.disj).1 k hk c hc hck d' hd'
    · have hd := (List.pairwise_cons.1 ho.disj).1 i hi
      have eq : ∀ b ∈ i, (sleepIsland add big dt w j).body b = w.body b := fun b hb =>
        sleepIsland_other add big dt w j hj ht b fun hbj d hd' => hd b hbj hb d hd'
      rw [ih _ (ho.tail add big dt ht) ht' hi (by rw [eq c hc]; exact hst), eq c hc]
      have hrdy : (sleepIsland add big dt w j).IslandReady add big dt i ↔ w.IslandReady add big dt i := by
        unfold IslandReady Ready
        rw [hl.t]
        constructor
        · rintro ⟨h1, h2⟩
          refine ⟨h1, fun b hb d hd => ?_⟩
          have := h2 b hb d (by rw [eq b hb]; exact hd)
          rwa [hl.rest] at this
        · rintro ⟨h1, h2⟩
          refine ⟨h1, fun b hb d hd => ?_⟩
          rw [eq b hb] at hd
          have := h2 b hb d hd
          rwa [hl.rest]
      congr 1
      funext d
      classical
      unfold slept
      rw [hl.ticked]
      simp only [hrdy]

end DW
end RP3D
