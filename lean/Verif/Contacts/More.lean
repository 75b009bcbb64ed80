import Verif.Contacts.Lemmas

/-! The fourth point, the whole reduction, and the grouping of points. -/

namespace RP3D
namespace Contacts

variable {K : Type} [LinearOrder K]

/-! ### The fourth point -/

/-- `a` is at least as good as `b` for the fourth point. -/
def Better (pos : Bool) (a b : K) : Prop := if pos then a ≤ b else b ≤ a

instance (pos : Bool) (a b : K) : Decidable (Better pos a b) := by unfold Better; infer_instance

theorem Better.refl (pos : Bool) (a : K) : Better pos a a := by cases pos <;> simp [Better]

theorem Better.trans {pos : Bool} {a b c : K} (h : Better pos a b) (h' : Better pos b c) : Better pos a c := by
  cases pos
  · exact le_trans (show c ≤ b by simpa [Better] using h') (by simpa [Better] using h)
  · exact le_trans (show a ≤ b by simpa [Better] using h) (by simpa [Better] using h')

/-- One edge. -/
theorem fourth_edge (pos : Bool) (v : K) (i : Nat) (s : K × Nat) :
    (if pos && decide (v ≤ s.1) then (v, i) else if !pos && decide (v ≥ s.1) then (v, i) else s) = (if Better pos v s.1 then (v, i) else s) := by
  cases pos <;> simp [Better]

/-- A scan of the candidates and edges: the value at the end is at least as good as all others, and if any is as good as the start it is
the value of the candidate at the index. -/
theorem fourth_spec (k : Keys K) (pos : Bool) (a b c : Nat) (cs : List Nat) (i : Nat) (s : K × Nat) :
    Better pos (fourth k pos a b c cs i s).1 s.1 ∧
    (∀ p ∈ cs, ∀ e ∈ [(a, b), (b, c), (c, a)], Better pos (fourth k pos a b c cs i s).1 (k.area p e.1 e.2)) ∧
    ((fourth k pos a b c cs i s = s ∧ ∀ p ∈ cs, ∀ e ∈ [(a, b), (b, c), (c, a)], ¬ Better pos (k.area p e.1 e.2) s.1) ∨
      ∃ n p e, cs[n]? = some p ∧ e ∈ [(a, b), (b, c), (c, a)] ∧ fourth k pos a b c cs i s = (k.area p e.1 e.2, i + n)) := by
  induction cs generalizing i s with
  | nil => exact ⟨Better.refl _ _, by simp, Or.inl ⟨rfl, by simp⟩⟩
  | cons p cs ih =>
    have key : Better pos (fourthEdges k pos a b c i p s).1 s.1 ∧
        (∀ e ∈ [(a, b), (b, c), (c, a)], Better pos (fourthEdges k pos a b c i p s).1 (k.area p e.1 e.2)) ∧
        ((fourthEdges k pos a b c i p s = s ∧ ∀ e ∈ [(a, b), (b, c), (c, a)], ¬ Better pos (k.area p e.1 e.2) s.1) ∨
          ∃ e ∈ [(a, b), (b, c), (c, a)], fourthEdges k pos a b c i p s = (k.area p e.1 e.2, i)) := by
      unfold fourthEdges
      generalize [(a, b), (b, c), (c, a)] = es
      clear ih
      induction es generalizing s with
      | nil => exact ⟨Better.refl _ _, by simp, Or.inl ⟨rfl, by simp⟩⟩
      | cons e es ihe =>
        simp only [List.foldl_cons, fourth_edge]
        by_cases hb : Better pos (k.area p e.1 e.2) s.1
        · simp only [if_pos hb]
          obtain ⟨h1, h2, h3⟩ := ihe (k.area p e.1 e.2, i)
          simp only [fourth_edge] at h1 h2 h3
          refine ⟨h1.trans hb, ?_, Or.inr ?_⟩
          · intro e' he'
            rcases List.mem_cons.1 he' with rfl | he'
            · exact h1
            · exact h2 e' he'
          · rcases h3 with ⟨h3, -⟩ | ⟨e', he', h3⟩
            · exact ⟨e, List.mem_cons_self, h3⟩
            · exact ⟨e', List.mem_cons_of_mem _ he', h3⟩
        · simp only [if_neg hb]
          obtain ⟨h1, h2, h3⟩ := ihe s
          simp only [fourth_edge] at h1 h2 h3
          refine ⟨h1, ?_, ?_⟩
          · intro e' he'
            rcases List.mem_cons.1 he' with rfl | he'
            · refine h1.trans ?_
              cases pos
              · simp only [Better, Bool.false_eq_true, if_false, not_le] at hb ⊢; exact le_of_lt hb
              · simp only [Better, if_true, not_le] at hb ⊢; exact le_of_lt hb
            · exact h2 e' he'
          · rcases h3 with ⟨h3, h4⟩ | ⟨e', he', h3⟩
            · refine Or.inl ⟨h3, ?_⟩
              intro e' he'
              rcases List.mem_cons.1 he' with rfl | he'
              · exact hb
              · exact h4 e' he'
            · exact Or.inr ⟨e', List.mem_cons_of_mem _ he', h3⟩
    unfold fourth
    obtain ⟨h1, h2, h3⟩ := ih (i + 1) (fourthEdges k pos a b c i p s)
    obtain ⟨k1, k2, k3⟩ := key
    refine ⟨h1.trans k1, ?_, ?_⟩
    · intro q hq e he
      rcases List.mem_cons.1 hq with rfl | hq
      · exact h1.trans (k2 e he)
      · exact h2 q hq e he
    · rcases h3 with ⟨h3, h4⟩ | ⟨n, q, e, hq, he, h3⟩
      · rcases k3 with ⟨k3, k4⟩ | ⟨e, he, k3⟩
        · refine Or.inl ⟨by rw [h3, k3], ?_⟩
          intro q hq
          rcases List.mem_cons.1 hq with rfl | hq
          · exact k4
          · rw [k3] at h4; exact h4 q hq
        · exact Or.inr ⟨0, p, e, rfl, he, by rw [h3, k3]; rfl⟩
      · exact Or.inr ⟨n + 1, q, e, by simpa using hq, he, by rw [h3, Nat.add_assoc, Nat.add_comm 1 n]⟩

/-! ### The four points -/

/-- The steps of `reduceContactPoints` on more than four points. -/
theorem reducePoints_steps (k : Keys K) (ps : List Nat) (h : 4 ≤ ps.length) :
    ∃ p0 p1 p2 p3 c1 c2 c3 c4,
      reducePoints k ps = some [p0, p1, p2, p3] ∧
      ps[(scan (fun v b => decide (v > b)) k.dir ps 0 (k.smallest, 0)).2]? = some p0 ∧ ps.Perm (p0 :: c1) ∧
      c1[(scan (fun v b => decide (v ≥ b)) (k.dist p0) c1 0 (k.zero, 0)).2]? = some p1 ∧ c1.Perm (p1 :: c2) ∧
      (let mx := scan (fun v b => decide (v ≥ b)) (fun p => k.area p p0 p1) c2 0 (k.zero, 0)
       let mn := scan (fun v b => decide (v ≤ b)) (fun p => k.area p p0 p1) c2 0 (k.zero, 0)
       let pos := decide (mx.1 > k.neg mn.1)
       c2[if pos then mx.2 else mn.2]? = some p2 ∧ c2.Perm (p2 :: c3) ∧
       c3[(fourth k pos p0 p1 p2 c3 0 (k.zero, 0)).2]? = some p3 ∧ c3.Perm (p3 :: c4)) := by
  have hne : ∀ l : List Nat, 0 < l.length → l ≠ [] := fun l hl => List.length_pos_iff.1 hl
  obtain ⟨p0, c1, ht0, hp0, hperm0⟩ := take_some (scan_lt (fun v b => decide (v > b)) k.dir ps k.smallest (hne _ (by omega)))
  have hl0 := hperm0.length_eq
  simp only [List.length_cons] at hl0
  obtain ⟨p1, c2, ht1, hp1, hperm1⟩ := take_some (scan_lt (fun v b => decide (v ≥ b)) (k.dist p0) c1 k.zero (hne _ (by omega)))
  have hl1 := hperm1.length_eq
  simp only [List.length_cons] at hl1
  have h2 : (if decide ((scan (fun v b => decide (v ≥ b)) (fun p => k.area p p0 p1) c2 0 (k.zero, 0)).1 >
        k.neg (scan (fun v b => decide (v ≤ b)) (fun p => k.area p p0 p1) c2 0 (k.zero, 0)).1) then
      (scan (fun v b => decide (v ≥ b)) (fun p => k.area p p0 p1) c2 0 (k.zero, 0)).2
      else (scan (fun v b => decide (v ≤ b)) (fun p => k.area p p0 p1) c2 0 (k.zero, 0)).2) < c2.length := by
    split
    · exact scan_lt _ _ _ _ (hne _ (by omega))
    · exact scan_lt _ _ _ _ (hne _ (by omega))
  obtain ⟨p2, c3, ht2, hp2, hperm2⟩ := take_some h2
  have hl2 := hperm2.length_eq
  simp only [List.length_cons] at hl2
  obtain ⟨p3, c4, ht3, hp3, hperm3⟩ := take_some
    (fourth_lt k (decide ((scan (fun v b => decide (v ≥ b)) (fun p => k.area p p0 p1) c2 0 (k.zero, 0)).1 >
        k.neg (scan (fun v b => decide (v ≤ b)) (fun p => k.area p p0 p1) c2 0 (k.zero, 0)).1)) p0 p1 p2 c3 0 c3.length (k.zero, 0)
      (by show 0 < c3.length; omega) (by omega))
  refine ⟨p0, p1, p2, p3, c1, c2, c3, c4, ?_, hp0, hperm0, hp1, hperm1, hp2, hperm2, hp3, hperm3⟩
  unfold reducePoints
  simp only [ht0, ht1, ht2, ht3]

/-! ### The whole reduction -/

theorem reduceOne_spec (d : Data K) (m : List Nat) (hm : m ≠ []) :
    ∃ m', reduceOne d m = some m' ∧ m'.Subperm m ∧ 0 < m'.length ∧ m'.length ≤ 4 ∧ m'.Pairwise (fun a b => d.near a b = false) := by
  cases m with
  | nil => exact absurd rfl hm
  | cons p tl =>
    have h4 : ∃ m1, (if (p :: tl).length > 4 then reducePoints (d.keys p) (p :: tl) else some (p :: tl)) = some m1 ∧
        m1.Subperm (p :: tl) ∧ 0 < m1.length ∧ m1.length ≤ 4 := by
      by_cases hl : (p :: tl).length > 4
      · rw [if_pos hl]
        obtain ⟨p0, p1, p2, p3, c1, c2, c3, c4, h1, -, hp0, -, hp1, h2⟩ := reducePoints_steps (d.keys p) (p :: tl) (by omega)
        obtain ⟨-, hp2, -, hp3⟩ := h2
        refine ⟨_, h1, ?_, by simp, by simp⟩
        have : (p :: tl).Perm ([p0, p1, p2, p3] ++ c4) :=
          hp0.trans (List.Perm.cons _ (hp1.trans (List.Perm.cons _ (hp2.trans (List.Perm.cons _ hp3)))))
        exact (List.sublist_append_left _ _).subperm.trans this.symm.subperm
      · rw [if_neg hl]
        exact ⟨_, rfl, List.Subperm.refl _, by simp, by omega⟩
    obtain ⟨m1, h1, hs1, hl1, hl4⟩ := h4
    obtain ⟨t, ht, hpw, hst, -, hh⟩ := dedup_spec d.near m1 [] m1.length (le_refl _)
    simp only [List.nil_append, List.length_nil] at ht
    refine ⟨t, ?_, hst.trans hs1, ?_, le_trans hst.length_le hl4, hpw⟩
    · unfold reduceOne
      simp only [h1, ht]
    · cases t with
      | nil => cases m1 with
        | nil => simp at hl1
        | cons _ _ => simp at hh
      | cons _ _ => simp

theorem reduceAll_spec (d : Data K) (ms : List (List Nat)) (hm : ∀ m ∈ ms, m ≠ []) :
    ∃ ms', reduceAll d ms = some ms' ∧ List.Forall₂ (fun m' m => reduceOne d m = some m') ms' ms := by
  induction ms with
  | nil => exact ⟨[], rfl, List.Forall₂.nil⟩
  | cons m ms ih =>
    obtain ⟨ms', h1, h2⟩ := ih fun m hm' => hm m (List.mem_cons_of_mem _ hm')
    obtain ⟨m', h3, -⟩ := reduceOne_spec d m (hm m List.mem_cons_self)
    exact ⟨m' :: ms', by simp [reduceAll, h1, h3], List.Forall₂.cons h3 h2⟩

/-! ### Grouping -/

/-- A manifold that would take the point. -/
def Fits (sim : Nat → Nat → Bool) (cap p : Nat) (m : List Nat) : Prop := ∃ q, m.head? = some q ∧ m.length < cap ∧ sim q p = true

theorem addSimilar_none {sim : Nat → Nat → Bool} {cap p : Nat} {ms : List (List Nat)} (h : addSimilar sim cap p ms = none) :
    ∀ m ∈ ms, ¬ Fits sim cap p m := by
  induction ms with
  | nil => simp
  | cons m ms ih =>
    intro m' hm'
    unfold addSimilar at h
    cases m with
    | nil =>
      simp only [Option.map_eq_none_iff] at h
      rcases List.mem_cons.1 hm' with rfl | hm'
      · rintro ⟨q, hq, -⟩; simp at hq
      · exact ih h m' hm'
    | cons q tl =>
      simp only at h
      split at h
      case isTrue => cases h
      case isFalse hc =>
        simp only [Option.map_eq_none_iff] at h
        rcases List.mem_cons.1 hm' with rfl | hm'
        · rintro ⟨q', hq', hl, hs⟩
          simp only [List.head?_cons, Option.some.injEq] at hq'
          subst hq'
          exact hc (by simp only [Bool.and_eq_true, decide_eq_true_eq]; exact ⟨hl, hs⟩)
        · exact ih h m' hm'

theorem addSimilar_some {sim : Nat → Nat → Bool} {cap p : Nat} {ms ms' : List (List Nat)} (h : addSimilar sim cap p ms = some ms') :
    ∃ pre m post, ms = pre ++ m :: post ∧ ms' = pre ++ (m ++ [p]) :: post ∧ Fits sim cap p m ∧ ∀ m' ∈ pre, ¬ Fits sim cap p m' := by
  induction ms generalizing ms' with
  | nil => simp [addSimilar] at h
  | cons m ms ih =>
    unfold addSimilar at h
    cases m with
    | nil =>
      simp only [Option.map_eq_some_iff] at h
      obtain ⟨a, ha, rfl⟩ := h
      obtain ⟨pre, m, post, h1, h2, h3, h4⟩ := ih ha
      refine ⟨[] :: pre, m, post, by rw [h1]; rfl, by rw [h2]; rfl, h3, ?_⟩
      intro m' hm'
      rcases List.mem_cons.1 hm' with rfl | hm'
      · rintro ⟨q, hq, -⟩; simp at hq
      · exact h4 m' hm'
    | cons q tl =>
      simp only at h
      split at h
      case isTrue hc =>
        cases h
        simp only [Bool.and_eq_true, decide_eq_true_eq] at hc
        exact ⟨[], q :: tl, ms, rfl, rfl, ⟨q, rfl, hc.1, hc.2⟩, by simp⟩
      case isFalse hc =>
        simp only [Option.map_eq_some_iff] at h
        obtain ⟨a, ha, rfl⟩ := h
        obtain ⟨pre, m, post, h1, h2, h3, h4⟩ := ih ha
        refine ⟨(q :: tl) :: pre, m, post, by rw [h1]; rfl, by rw [h2]; rfl, h3, ?_⟩
        intro m' hm'
        rcases List.mem_cons.1 hm' with rfl | hm'
        · rintro ⟨q', hq', hl, hs⟩
          simp only [List.head?_cons, Option.some.injEq] at hq'
          subst hq'
          exact hc (by simp only [Bool.and_eq_true, decide_eq_true_eq]; exact ⟨hl, hs⟩)
        · exact h4 m' hm'

/-- What holds after the points `ps` were added. -/
structure Grouped (sim : Nat → Nat → Bool) (cap maxM : Nat) (ps : List Nat) (ms : List (List Nat)) : Prop where
  count : ms.length ≤ maxM
  manifold : ∀ m ∈ ms, ∃ q tl, m = q :: tl ∧ m.length ≤ cap ∧ (∀ r ∈ tl, sim q r = true) ∧ m.Sublist ps
  once : ms.flatten.Subperm ps
  all : ms.length < maxM → ms.flatten.Perm ps
  apart : ms.Pairwise fun m m' => m.length = cap ∨ ∀ q q', m.head? = some q → m'.head? = some q' → sim q q' = false

theorem addPoint_grouped {sim : Nat → Nat → Bool} {cap maxM : Nat} (hcap : 0 < cap) {ps : List Nat} {ms : List (List Nat)} (p : Nat)
    (h : Grouped sim cap maxM ps ms) : Grouped sim cap maxM (ps ++ [p]) (addPoint sim cap maxM ms p) := by
  unfold addPoint
  cases ha : addSimilar sim cap p ms with
  | none =>
    simp only
    by_cases hl : ms.length < maxM
    · rw [if_pos hl]
      refine ⟨by simp; omega, ?_, ?_, ?_, ?_⟩
      · intro m hm
        rcases List.mem_append.1 hm with hm | hm
        · obtain ⟨q, tl, h1, h2, h3, h4⟩ := h.manifold m hm
          exact ⟨q, tl, h1, h2, h3, h4.trans (List.sublist_append_left _ _)⟩
        · rw [List.mem_singleton.1 hm]
          exact ⟨p, [], rfl, hcap, by simp, List.sublist_append_right _ _⟩
      · simp only [List.flatten_append, List.flatten_cons, List.flatten_nil, List.append_nil]
        exact (List.subperm_append_right _).2 h.once
      · intro _
        simp only [List.flatten_append, List.flatten_cons, List.flatten_nil, List.append_nil]
        exact List.Perm.append_right _ (h.all hl)
      · refine List.pairwise_append.2 ⟨h.apart, by simp, ?_⟩
        intro m hm m' hm'
        rw [List.mem_singleton.1 hm']
        have hf := addSimilar_none ha m hm
        obtain ⟨q, tl, h1, h2, -⟩ := h.manifold m hm
        by_cases hc : m.length = cap
        · exact Or.inl hc
        · refine Or.inr ?_
          intro q1 q2 hq1 hq2
          simp only [List.head?_cons, Option.some.injEq] at hq2
          subst hq2
          cases hs : sim q1 p with
          | false => rfl
          | true => exact absurd ⟨q1, hq1, by omega, hs⟩ hf
    · rw [if_neg hl]
      refine ⟨h.count, ?_, ?_, fun hh => absurd hh hl, h.apart⟩
      · intro m hm
        obtain ⟨q, tl, h1, h2, h3, h4⟩ := h.manifold m hm
        exact ⟨q, tl, h1, h2, h3, h4.trans (List.sublist_append_left _ _)⟩
      · exact h.once.trans (List.sublist_append_left _ _).subperm
  | some ms' =>
    simp only
    obtain ⟨pre, m, post, rfl, rfl, hfit, hpre⟩ := addSimilar_some ha
    obtain ⟨q0, hq0, hlen, hsim⟩ := hfit
    have hperm : (pre ++ (m ++ [p]) :: post).flatten.Perm ((pre ++ m :: post).flatten ++ [p]) := by
      simp only [List.flatten_append, List.flatten_cons, List.append_assoc]
      refine List.Perm.append_left _ (List.Perm.append_left _ ?_)
      exact List.perm_append_comm
    refine ⟨by simpa using h.count, ?_, ?_, ?_, ?_⟩
    · intro m' hm'
      rcases List.mem_append.1 hm' with hm' | hm'
      · obtain ⟨q, tl, h1, h2, h3, h4⟩ := h.manifold m' (List.mem_append_left _ hm')
        exact ⟨q, tl, h1, h2, h3, h4.trans (List.sublist_append_left _ _)⟩
      · rcases List.mem_cons.1 hm' with rfl | hm'
        · obtain ⟨q, tl, h1, h2, h3, h4⟩ := h.manifold m (List.mem_append_right _ List.mem_cons_self)
          subst h1
          simp only [List.head?_cons, Option.some.injEq] at hq0
          subst hq0
          refine ⟨q, tl ++ [p], rfl, by simp at hlen ⊢; omega, ?_, h4.append_right _⟩
          intro r hr
          rcases List.mem_append.1 hr with hr | hr
          · exact h3 r hr
          · rw [List.mem_singleton.1 hr]; exact hsim
        · obtain ⟨q, tl, h1, h2, h3, h4⟩ := h.manifold m' (List.mem_append_right _ (List.mem_cons_of_mem _ hm'))
          exact ⟨q, tl, h1, h2, h3, h4.trans (List.sublist_append_left _ _)⟩
    · exact hperm.subperm.trans ((List.subperm_append_right _).2 h.once)
    · intro hh
      exact hperm.trans (List.Perm.append_right _ (h.all (by simpa using hh)))
    · have ha := h.apart
      rw [List.pairwise_append, List.pairwise_cons] at ha ⊢
      obtain ⟨h1, ⟨h2, h3⟩, h4⟩ := ha
      have hhead : (m ++ [p]).head? = m.head? := by
        cases m with
        | nil => simp at hq0
        | cons _ _ => rfl
      refine ⟨h1, ⟨?_, h3⟩, ?_⟩
      · intro m' hm'
        rcases h2 m' hm' with h | h
        · omega
        · exact Or.inr (by rw [hhead]; exact h)
      · intro a haa b hb
        rcases List.mem_cons.1 hb with rfl | hb
        · rw [hhead]
          exact h4 a haa m List.mem_cons_self
        · exact h4 a haa b (List.mem_cons_of_mem _ hb)

end Contacts
end RP3D
