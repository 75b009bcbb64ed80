import Verif.Engine.Components

/-! Helper lemmas for the component tables. -/

set_option linter.unusedVariables false

namespace RP3D
namespace Comps
variable {D X : Type}

/-- The content of a table during an operation: `cls i` is the disabled flag given by slot `i`, `occ i` tells
whether the slot is occupied. -/
structure GRep (obs : D → X) (slots : Nat → Option (Nat × D)) (map : Nat → Option Nat)
    (f : Nat → Option (X × Bool)) (cls : Nat → Bool) (occ : Nat → Prop) : Prop where
  core : ∀ e i, map e = some i ↔ ∃ d, slots i = some (e, d)
  occ : ∀ i, occ i ↔ slots i ≠ none
  spec : ∀ e x b, f e = some (x, b) ↔ ∃ i d, slots i = some (e, d) ∧ x = obs d ∧ b = cls i

variable {obs : D → X} {slots : Nat → Option (Nat × D)} {map : Nat → Option Nat}
  {f : Nat → Option (X × Bool)} {cls : Nat → Bool} {occ : Nat → Prop}

theorem GRep.inj (h : GRep obs slots map f cls occ) {i j e : Nat} {d d' : D} (h1 : slots i = some (e, d))
    (h2 : slots j = some (e, d')) : i = j := by
  have a := (h.core e i).2 ⟨d, h1⟩
  have b := (h.core e j).2 ⟨d', h2⟩
  rw [a] at b; exact Option.some.inj b

theorem GRep.destroy (h : GRep obs slots map f cls occ) {i e : Nat} {d : D} (hs : slots i = some (e, d)) :
    GRep obs (upd slots i none) (upd map e none) (fun e' => if e' = e then none else f e') cls
      (fun j => j ≠ i ∧ occ j) := by
  refine ⟨?_, ?_, ?_⟩
  · intro e' j
    by_cases he : e' = e
    · subst he
      rw [upd_same]
      constructor
      · intro hh; cases hh
      · rintro ⟨d', hd'⟩
        by_cases hj : j = i
        · subst hj; rw [upd_same] at hd'; cases hd'
        · rw [upd_ne _ _ hj] at hd'
          exact absurd (h.inj hd' hs) hj
    · rw [upd_ne _ _ he, h.core]
      by_cases hj : j = i
      · subst hj
        rw [upd_same, hs]
        constructor
        · rintro ⟨d', hd'⟩
          cases hd'; exact absurd rfl he
        · rintro ⟨d', hd'⟩; cases hd'
      · rw [upd_ne _ _ hj]
  · intro j
    by_cases hj : j = i
    · subst hj; simp
    · rw [upd_ne _ _ hj, ← h.occ]; simp [hj]
  · intro e' x b
    show (if e' = e then none else f e') = some (x, b) ↔ _
    by_cases he : e' = e
    · subst he
      rw [if_pos rfl]
      constructor
      · intro hh; cases hh
      · rintro ⟨j, d', hd', _⟩
        by_cases hj : j = i
        · subst hj; rw [upd_same] at hd'; cases hd'
        · rw [upd_ne _ _ hj] at hd'
          exact absurd (h.inj hd' hs) hj
    · rw [if_neg he, h.spec]
      constructor
      · rintro ⟨j, d', hd', hr⟩
        refine ⟨j, d', ?_, hr⟩
        have hj : j ≠ i := by
          rintro rfl
          rw [hs] at hd'; cases hd'; exact he rfl
        rw [upd_ne _ _ hj]; exact hd'
      · rintro ⟨j, d', hd', hr⟩
        refine ⟨j, d', ?_, hr⟩
        have hj : j ≠ i := by
          rintro rfl
          rw [upd_same] at hd'; cases hd'
        rw [upd_ne _ _ hj] at hd'; exact hd'

theorem GRep.place (h : GRep obs slots map f cls occ) {i e : Nat} (d : D) (hs : slots i = none) (hm : map e = none) :
    GRep obs (upd slots i (some (e, d))) (upd map e (some i)) (fun e' => if e' = e then some (obs d, cls i) else f e') cls
      (fun j => j = i ∨ occ j) := by
  have hno : ∀ j d', slots j ≠ some (e, d') := by
    intro j d' hh
    have := (h.core e j).2 ⟨d', hh⟩
    rw [hm] at this; cases this
  refine ⟨?_, ?_, ?_⟩
  · intro e' j
    by_cases he : e' = e
    · subst he
      rw [upd_same]
      by_cases hj : j = i
      · subst hj; simp
      · rw [upd_ne _ _ hj]
        constructor
        · intro hh; exact absurd (Option.some.inj hh).symm hj
        · rintro ⟨d', hd'⟩; exact absurd hd' (hno j d')
    · rw [upd_ne _ _ he, h.core]
      by_cases hj : j = i
      · subst hj
        rw [upd_same, hs]
        constructor
        · rintro ⟨d', hd'⟩; cases hd'
        · rintro ⟨d', hd'⟩; cases hd'; exact absurd rfl he
      · rw [upd_ne _ _ hj]
  · intro j
    by_cases hj : j = i
    · subst hj; simp
    · rw [upd_ne _ _ hj, ← h.occ]; simp [hj]
  · intro e' x b
    show (if e' = e then some (obs d, cls i) else f e') = some (x, b) ↔ _
    by_cases he : e' = e
    · subst he
      rw [if_pos rfl]
      constructor
      · intro hh; cases hh
        exact ⟨i, d, upd_same _ _ _, rfl, rfl⟩
      · rintro ⟨j, d', hd', rfl, rfl⟩
        by_cases hj : j = i
        · subst hj; rw [upd_same] at hd'; cases hd'; rfl
        · rw [upd_ne _ _ hj] at hd'
          exact absurd hd' (hno j d')
    · rw [if_neg he, h.spec]
      constructor
      · rintro ⟨j, d', hd', hr⟩
        refine ⟨j, d', ?_, hr⟩
        have hj : j ≠ i := by
          rintro rfl
          rw [hs] at hd'; cases hd'
        rw [upd_ne _ _ hj]; exact hd'
      · rintro ⟨j, d', hd', hr⟩
        refine ⟨j, d', ?_, hr⟩
        have hj : j ≠ i := by
          rintro rfl
          rw [upd_same] at hd'; cases hd'; exact he rfl
        rw [upd_ne _ _ hj] at hd'; exact hd'

theorem GRep.congr (h : GRep obs slots map f cls occ) {cls' : Nat → Bool} {occ' : Nat → Prop}
    {f' : Nat → Option (X × Bool)} (hc : ∀ i, occ i → cls' i = cls i) (ho : ∀ i, occ' i ↔ occ i)
    (hf : ∀ e, f' e = f e) : GRep obs slots map f' cls' occ' := by
  refine ⟨h.core, fun i => by rw [ho, h.occ], ?_⟩
  intro e x b
  rw [hf, h.spec]
  constructor
  · rintro ⟨i, d, h1, h2, h3⟩
    exact ⟨i, d, h1, h2, by rw [h3, hc i ((h.occ i).2 (by rw [h1]; simp))]⟩
  · rintro ⟨i, d, h1, h2, h3⟩
    exact ⟨i, d, h1, h2, by rw [h3, hc i ((h.occ i).2 (by rw [h1]; simp))]⟩

theorem GRep.slot (h : GRep obs slots map f cls occ) {i : Nat} (ho : occ i) :
    ∃ e d, slots i = some (e, d) ∧ map e = some i ∧ f e = some (obs d, cls i) := by
  have := (h.occ i).1 ho
  cases hs : slots i with
  | none => exact absurd hs this
  | some p =>
    obtain ⟨e, d⟩ := p
    exact ⟨e, d, rfl, (h.core e i).2 ⟨d, hs⟩, (h.spec e _ _).2 ⟨i, d, hs, rfl, rfl⟩⟩

theorem GRep.free (h : GRep obs slots map f cls occ) {i : Nat} (ho : ¬ occ i) : slots i = none := by
  by_contra hh
  exact ho ((h.occ i).2 hh)

/-- The relation on tables. -/
def CRep (obs : D → X) (c : Comps D) (f : Nat → Option (X × Bool)) (cls : Nat → Bool) (occ : Nat → Prop) : Prop :=
  GRep obs c.slots c.map f cls occ

theorem upd_upd {β : Type} (g : Nat → β) (i : Nat) (v w : β) : upd (upd g i v) i w = upd g i w := by
  funext j; unfold upd; split_ifs <;> rfl

theorem upd_comm {β : Type} (g : Nat → β) {i j : Nat} (h : i ≠ j) (v w : β) :
    upd (upd g i v) j w = upd (upd g j w) i v := by
  funext k; unfold upd; split_ifs <;> simp_all

theorem destroyAt_spec {c : Comps D} (h : CRep obs c f cls occ) {i : Nat} (ho : occ i) :
    ∃ e d c', c.slots i = some (e, d) ∧ c.map e = some i ∧ f e = some (obs d, cls i) ∧ c.destroyAt i = some c' ∧
      c'.nb = c.nb ∧ c'.cap = c.cap ∧ c'.ds = c.ds ∧ c'.map e = none ∧
      CRep obs c' (fun e' => if e' = e then none else f e') cls (fun j => j ≠ i ∧ occ j) := by
  obtain ⟨e, d, hs, hm, hf⟩ := GRep.slot h ho
  refine ⟨e, d, { c with slots := upd c.slots i none, map := upd c.map e none }, hs, hm, hf, ?_, rfl, rfl, rfl,
    upd_same _ _ _, GRep.destroy h hs⟩
  unfold destroyAt; rw [hs]

theorem place_spec {c : Comps D} (h : CRep obs c f cls occ) {i e : Nat} (d : D) (ho : ¬ occ i) (hm : c.map e = none)
    (hi : i < c.cap) : ∃ c', c.place i e d = some c' ∧ c'.nb = c.nb ∧ c'.cap = c.cap ∧ c'.ds = c.ds ∧
      CRep obs c' (fun e' => if e' = e then some (obs d, cls i) else f e') cls (fun j => j = i ∨ occ j) := by
  refine ⟨{ c with slots := upd c.slots i (some (e, d)), map := upd c.map e (some i) }, ?_, rfl, rfl, rfl,
    GRep.place h d (GRep.free h ho) hm⟩
  unfold place; rw [if_pos ⟨hi, GRep.free h ho, hm⟩]

theorem move_spec {c : Comps D} (h : CRep obs c f cls occ) {src dst : Nat} (ho : occ src) (hd : ¬ occ dst)
    (hi : dst < c.cap) (hcls : cls src = cls dst) :
    ∃ c', c.move src dst = some c' ∧ c'.nb = c.nb ∧ c'.cap = c.cap ∧ c'.ds = c.ds ∧
      (∀ e, c.map e = none → c'.map e = none) ∧
      CRep obs c' f cls (fun j => j = dst ∨ (j ≠ src ∧ occ j)) := by
  obtain ⟨e, d, hs, hm, hf⟩ := GRep.slot h ho
  have hne : src ≠ dst := by rintro rfl; exact hd ho
  have h1 := GRep.destroy h hs
  have h2 := GRep.place h1 (i := dst) (e := e) d (by rw [upd_ne _ _ (Ne.symm hne)]; exact GRep.free h hd) (upd_same _ _ _)
  refine ⟨{ c with slots := upd (upd c.slots src none) dst (some (e, d)), map := upd (upd c.map e none) e (some dst) },
    ?_, rfl, rfl, rfl, ?_, ?_⟩
  · unfold move
    rw [hs]
    simp only
    rw [if_pos ⟨hi, GRep.free h hd⟩]
    simp only [destroyAt, upd_ne _ _ hne, hs, Option.bind_eq_bind, Option.bind_some]
    rw [if_pos (upd_same _ _ _), upd_comm _ (Ne.symm hne)]
  · intro e' he'
    have : e' ≠ e := by rintro rfl; rw [hm] at he'; cases he'
    show upd (upd c.map e none) e (some dst) e' = none
    rw [upd_ne _ _ this, upd_ne _ _ this]; exact he'
  · refine GRep.congr h2 (fun _ _ => rfl) (fun _ => Iff.rfl) ?_
    intro e'
    by_cases he : e' = e
    · subst he; simp [hf, hcls]
    · simp [he]

/-- `c` stores `f`: dense slots, enabled ones first. -/
structure Rep (obs : D → X) (c : Comps D) (f : Nat → Option (X × Bool)) : Prop where
  rep : CRep obs c f (fun i => decide (c.ds ≤ i)) (fun i => i < c.nb)
  ds : c.ds ≤ c.nb
  nb : c.nb ≤ c.cap
  cap : 0 < c.cap ∧ IsF32 c.cap ∧ c.cap % 16 = 0

theorem rep_empty : Rep obs (empty : Comps D) (fun _ => none) := by
  refine ⟨⟨?_, ?_, ?_⟩, le_refl _, Nat.zero_le _, ?_, ceil16F_isF32' _, ceil16F_mod _⟩
  · intro e i; simp [empty]
  · intro i; simp [empty]
  · intro e x b; simp [empty]
  · have := ceil16F_ge (n := 10) (by norm_num); simp only [empty]; omega

theorem growAdd_spec {c : Comps D} (h : Rep obs c f) :
    ∃ c', c.growAdd = some c' ∧ Rep obs c' f ∧ c'.nb < c'.cap ∧ c'.map = c.map ∧ c'.ds = c.ds ∧ c'.nb = c.nb := by
  unfold growAdd
  by_cases he : c.nb = c.cap
  · rw [if_pos he]
    unfold allocate
    have hk : ceil16F (c.cap * 2) = c.cap * 2 :=
      ceil16F_of_isF32 (IsF32.mul_two h.cap.2.1) (by have := h.cap.2.2; omega)
    simp only [hk]
    have hpos := h.cap.1
    rw [if_pos (by omega)]
    have hsl : (fun i => if i < c.nb then c.slots i else none) = c.slots := by
      funext i
      by_cases hi : i < c.nb
      · simp [hi]
      · simp only [hi, if_false]; exact (GRep.free h.rep hi).symm
    refine ⟨_, rfl, ⟨?_, h.ds, by (try simp only); omega, by (try simp only); omega, IsF32.mul_two h.cap.2.1, by
      have := h.cap.2.2; simp only; omega⟩, by (try simp only); omega, rfl, rfl, rfl⟩
    show GRep obs (fun i => if i < c.nb then c.slots i else none) c.map f _ _
    rw [hsl]; exact h.rep
  · rw [if_neg he]
    exact ⟨c, rfl, h, by have := h.nb; omega, rfl, rfl, rfl⟩

theorem add_rep {c : Comps D} (h : Rep obs c f) {e : Nat} (dis : Bool) (d : D) (hf : f e = none) :
    ∃ c', c.add e dis d = some c' ∧ Rep obs c' (fun e' => if e' = e then some (obs d, dis) else f e') := by
  obtain ⟨c1, hg, h1, hlt, hmap, _, _⟩ := growAdd_spec h
  have hm : c1.map e = none := by
    cases hm : c1.map e with
    | none => rfl
    | some i =>
      obtain ⟨d', hd'⟩ := (h1.rep.core e i).1 hm
      have := (h1.rep.spec e _ _).2 ⟨i, d', hd', rfl, rfl⟩
      rw [hf] at this; cases this
  unfold add prepareAdd
  rw [hg]
  simp only [Option.bind_eq_bind, Option.bind_some]
  have hds := h1.ds
  cases dis with
  | true =>
    simp only [if_true, Option.bind_some]
    obtain ⟨c2, p1, p2, p3, p4, p5⟩ := place_spec h1.rep (i := c1.nb) (e := e) d (by omega) hm hlt
    rw [p1]
    refine ⟨_, rfl, ?_, ?_, ?_, ?_⟩
    · refine GRep.congr p5 ?_ ?_ ?_
      · intro i _; simp only [p4]
      · intro i; simp only [p2]; omega
      · intro e'; simp [hds]
    · simp only [p4, p2]; omega
    · simp only [p2, p3]; omega
    · simp only [p3]; exact h1.cap
  | false =>
    simp only [Bool.false_eq_true, if_false]
    by_cases hne : c1.ds = c1.nb
    · rw [if_neg (by simpa using hne)]
      simp only [Option.bind_some]
      have h1' : CRep obs ({ c1 with ds := c1.ds + 1 } : Comps D) f (fun i => decide (c1.ds + 1 ≤ i)) (fun i => i < c1.nb) :=
        GRep.congr h1.rep (by intro i hi; simp only [decide_eq_decide]; omega) (fun _ => Iff.rfl) (fun _ => rfl)
      obtain ⟨c2, p1, p2, p3, p4, p5⟩ := place_spec h1' (i := c1.ds) (e := e) d (by (try simp only); omega) hm (by (try simp only); omega)
      rw [p1]
      refine ⟨_, rfl, ?_, ?_, ?_, ?_⟩
      · refine GRep.congr p5 ?_ ?_ ?_
        · intro i _; simp only [p4]
        · intro i; simp only [p2]; omega
        · intro e'; simp
      · simp only [p4, p2]; omega
      · simp only [p2, p3]; omega
      · simp only [p3]; exact h1.cap
    · rw [if_pos hne]
      obtain ⟨c2, q1, q2, q3, q4, q5, q6⟩ := move_spec h1.rep (src := c1.ds) (dst := c1.nb) (by (try simp only); omega) (by (try simp only); omega) hlt
        (by simp only [decide_eq_decide]; omega)
      rw [q1]
      simp only [Option.bind_some]
      have h2' : CRep obs ({ c2 with ds := c2.ds + 1 } : Comps D) f (fun i => decide (c1.ds + 1 ≤ i))
          (fun j => j = c1.nb ∨ j ≠ c1.ds ∧ j < c1.nb) :=
        GRep.congr q6 (by intro i hi; simp only [decide_eq_decide]; omega) (fun _ => Iff.rfl) (fun _ => rfl)
      obtain ⟨c3, p1, p2, p3, p4, p5⟩ := place_spec h2' (i := c2.ds) (e := e) d (by (try simp only); omega) (q5 e hm) (by (try simp only); omega)
      rw [p1]
      simp only at p2 p3 p4
      refine ⟨_, rfl, ?_, ?_, ?_, ?_⟩
      · refine GRep.congr p5 ?_ ?_ ?_
        · intro i _; simp only [p4, q4]
        · intro i; simp only [p2, q2, q4]; omega
        · intro e'; simp [q4]
      · simp only [p4, p2, q2, q4]; omega
      · simp only [p2, p3, q2, q3]; omega
      · simp only [p3, q3]; exact h1.cap

theorem map_of_f {c : Comps D} (h : Rep obs c f) {e : Nat} {x : X} {b : Bool} (hf : f e = some (x, b)) :
    ∃ i d, c.map e = some i ∧ c.slots i = some (e, d) ∧ x = obs d ∧ b = decide (c.ds ≤ i) ∧ i < c.nb := by
  obtain ⟨i, d, h1, h2, h3⟩ := (h.rep.spec e x b).1 hf
  exact ⟨i, d, (h.rep.core e i).2 ⟨d, h1⟩, h1, h2, h3, (h.rep.occ i).2 (by rw [h1]; simp)⟩

theorem remove_rep {c : Comps D} (h : Rep obs c f) {e : Nat} {v : X × Bool} (hf : f e = some v) :
    ∃ c', c.remove e = some c' ∧ Rep obs c' (fun e' => if e' = e then none else f e') := by
  obtain ⟨x, b⟩ := v
  obtain ⟨i, d, hm, hs, hx, hb, hi⟩ := map_of_f h hf
  obtain ⟨e1, d1, c1, k1, k2, k3, k4, k5, k6, k7, k8, k9⟩ := destroyAt_spec h.rep (i := i) hi
  have he1 : e1 = e := by rw [hs] at k1; cases k1; rfl
  subst he1
  have hds := h.ds
  have hnb := h.nb
  unfold remove
  rw [hm]
  simp only [Option.bind_eq_bind, Option.bind_some, k4]
  by_cases hd : i ≥ c1.ds
  · rw [if_pos hd]
    unfold fillDisabled
    by_cases hl : i = c1.nb - 1
    · rw [if_neg (by simpa using hl)]
      refine ⟨_, rfl, ?_, ?_, ?_, ?_⟩
      · refine GRep.congr k9 ?_ ?_ (fun _ => rfl)
        · intro j _; simp only [k7]
        · intro j; simp only [k5]; omega
      · simp only [k7, k5]; omega
      · simp only [k5, k6]; omega
      · simp only [k6]; exact h.cap
    · rw [if_pos hl]
      obtain ⟨c2, q1, q2, q3, q4, q5, q6⟩ := move_spec k9 (src := c1.nb - 1) (dst := i) (by (try simp only); omega) (by (try simp only); omega)
        (by omega) (by simp only [decide_eq_decide]; omega)
      rw [q1]
      refine ⟨_, rfl, ?_, ?_, ?_, ?_⟩
      · refine GRep.congr q6 ?_ ?_ (fun _ => rfl)
        · intro j _; simp only [q4, k7]
        · intro j; simp only [q2, k5]; omega
      · simp only [q4, k7, q2, k5]; omega
      · simp only [q2, k5, q3, k6]; omega
      · simp only [q3, k6]; exact h.cap
  · rw [if_neg hd]
    -- first replacement: the last enabled slot becomes free
    obtain ⟨c2, r1, r2, r3, r4, r5⟩ : ∃ c2, c1.fillEnabled i = some c2 ∧ c2.nb = c.nb ∧ c2.cap = c.cap ∧ c2.ds = c.ds ∧
        CRep obs c2 (fun e' => if e' = e1 then none else f e') (fun i => decide (c.ds ≤ i))
          (fun j => j ≠ c.ds - 1 ∧ j < c.nb) := by
      unfold fillEnabled
      by_cases hl : i = c1.ds - 1
      · rw [if_neg (by simpa using hl)]
        refine ⟨c1, rfl, k5, k6, k7, GRep.congr k9 (fun _ _ => rfl) ?_ (fun _ => rfl)⟩
        intro j; (try simp only); omega
      · rw [if_pos hl]
        obtain ⟨c2, q1, q2, q3, q4, q5, q6⟩ := move_spec k9 (src := c1.ds - 1) (dst := i) (by (try simp only); omega) (by (try simp only); omega)
          (by omega) (by simp only [decide_eq_decide]; omega)
        refine ⟨c2, q1, by omega, by omega, by omega, GRep.congr q6 (fun _ _ => rfl) ?_ (fun _ => rfl)⟩
        intro j; (try simp only); omega
    rw [r1]
    simp only [Option.bind_some]
    unfold fillGap
    have hdp : 0 < c.ds := by omega
    have r6 : CRep obs c2 (fun e' => if e' = e1 then none else f e') (fun i => decide (c.ds - 1 ≤ i))
          (fun j => j ≠ c.ds - 1 ∧ j < c.nb) :=
      GRep.congr r5 (by intro j hj; simp only [decide_eq_decide]; omega) (fun _ => Iff.rfl) (fun _ => rfl)
    by_cases hl : c2.ds = c2.nb
    · rw [if_neg (by simpa using hl)]
      refine ⟨_, rfl, ?_, ?_, ?_, ?_⟩
      · refine GRep.congr r6 ?_ ?_ (fun _ => rfl)
        · intro j _; simp only [r4]
        · intro j; simp only [r2]; omega
      · simp only [r4, r2]; omega
      · simp only [r2, r3]; omega
      · simp only [r3]; exact h.cap
    · rw [if_pos hl]
      obtain ⟨c3, q1, q2, q3, q4, q5, q6⟩ := move_spec r6 (src := c2.nb - 1) (dst := c2.ds - 1) (by (try simp only); omega) (by (try simp only); omega)
        (by omega) (by simp only [decide_eq_decide]; omega)
      rw [q1]
      refine ⟨_, rfl, ?_, ?_, ?_, ?_⟩
      · refine GRep.congr q6 ?_ ?_ (fun _ => rfl)
        · intro j _; simp only [q4, r4]
        · intro j; simp only [q2, r2, r4]; omega
      · simp only [q4, r4, q2, r2]; omega
      · simp only [q2, r2, q3, r3]; omega
      · simp only [q3, r3]; exact h.cap

theorem setDisabled_rep {c : Comps D} (h : Rep obs c f) {cp : D → D} (hcp : ∀ d, obs (cp d) = obs d) {e : Nat}
    (dis : Bool) {x : X} {b : Bool} (hf : f e = some (x, b)) :
    ∃ c', c.setDisabled cp e dis = some c' ∧ Rep obs c' (fun e' => if e' = e then some (x, dis) else f e') := by
  obtain ⟨i, d, hm, hs, hx, hb, hi⟩ := map_of_f h hf
  have hds := h.ds
  have hnb := h.nb
  have hsame : b = dis → ∀ e', (if e' = e then some (x, dis) else f e') = f e' := by
    intro hbd e'
    by_cases he : e' = e
    · subst he; rw [if_pos rfl, hf, hbd]
    · rw [if_neg he]
  obtain ⟨e1, d1, c1, k1, k2, k3, k4, k5, k6, k7, k8, k9⟩ := destroyAt_spec h.rep (i := i) hi
  have hed : e1 = e ∧ d1 = d := by rw [hs] at k1; cases k1; exact ⟨rfl, rfl⟩
  obtain ⟨rfl, rfl⟩ := hed
  unfold setDisabled
  rw [hm]
  simp only [Option.bind_eq_bind, Option.bind_some]
  -- the situation when no swap is needed: only the boundary moves
  have key : ∀ (k : Nat) (hk : k ≤ c.nb), (∀ j, j < c.nb → j ≠ i → decide (k ≤ j) = decide (c.ds ≤ j)) → decide (k ≤ i) = dis →
      Rep obs ({ c with ds := k } : Comps D) (fun e' => if e' = e1 then some (x, dis) else f e') := by
    intro k hk h1 h2
    have g1 : GRep obs c1.slots c1.map (fun e' => if e' = e1 then none else f e') (fun j => decide (k ≤ j))
        (fun j => j ≠ i ∧ j < c.nb) :=
      GRep.congr k9 (fun j hj => h1 j hj.2 hj.1) (fun _ => Iff.rfl) (fun _ => rfl)
    have g2 := GRep.place g1 (i := i) (e := e1) d1 (GRep.free k9 (by simp)) k8
    have hsl : upd c1.slots i (some (e1, d1)) = c.slots ∧ upd c1.map e1 (some i) = c.map := by
      unfold destroyAt at k4
      rw [hs] at k4
      cases k4
      constructor
      · show upd (upd c.slots i none) i _ = _
        rw [upd_upd]; funext j
        by_cases hj : j = i
        · subst hj; rw [upd_same, hs]
        · rw [upd_ne _ _ hj]
      · show upd (upd c.map e1 none) e1 _ = _
        rw [upd_upd]; funext j
        by_cases hj : j = e1
        · subst hj; rw [upd_same, hm]
        · rw [upd_ne _ _ hj]
    rw [hsl.1, hsl.2] at g2
    refine ⟨GRep.congr g2 (fun _ _ => rfl) ?_ ?_, hk, hnb, h.cap⟩
    · intro j; (try simp only); omega
    · intro e'
      by_cases he : e' = e1
      · subst he; simp [hx, h2]
      · simp [he]
  -- the situation with a swap
  have key2 : ∀ (j k : Nat), j ≠ i → j < c.nb → k ≤ c.nb → decide (c.ds ≤ j) = decide (c.ds ≤ i) →
      (∀ l, l < c.nb → l ≠ j → decide (k ≤ l) = decide (c.ds ≤ l)) → decide (k ≤ j) = dis →
      ∃ c', c.swap cp i j = some c' ∧ c'.ds = c.ds ∧
      Rep obs ({ c' with ds := k } : Comps D) (fun e' => if e' = e1 then some (x, dis) else f e') := by
    intro j k hji hj hk hcls h1 h2
    obtain ⟨c2, q1, q2, q3, q4, q5, q6⟩ := move_spec k9 (src := j) (dst := i) (by (try simp only); omega) (by (try simp only); omega)
        (by omega) (by simpa using hcls)
    have g1 : CRep obs c2 (fun e' => if e' = e1 then none else f e') (fun j => decide (k ≤ j))
        (fun l => l ≠ j ∧ l < c.nb) :=
      GRep.congr q6 (fun l hl => h1 l (by omega) (by omega))
        (by intro l; (try simp only); omega) (fun _ => rfl)
    obtain ⟨c3, p1, p2, p3, p4, p5⟩ := place_spec g1 (i := j) (e := e1) (cp d1) (by simp) (q5 _ k8) (by omega)
    refine ⟨c3, ?_, by omega, ?_⟩
    · unfold swap; rw [hs]; simp only [Option.bind_eq_bind, k4, Option.bind_some, q1, p1]
    · refine ⟨GRep.congr p5 (fun _ _ => rfl) ?_ ?_, ?_, ?_, ?_⟩
      · intro l; simp only [p2, q2, k5]; omega
      · intro e'
        by_cases he : e' = e1
        · subst he; simp [hx, h2, hcp]
        · simp [he]
      · simp only [p2, q2, k5]; exact hk
      · simp only [p2, q2, k5, p3, q3, k6]; exact hnb
      · simp only [p3, q3, k6]; exact h.cap
  by_cases ha : dis = false ∧ i ≥ c.ds
  · rw [if_pos ha]
    obtain ⟨rfl, hge⟩ := ha
    by_cases hl : c.ds = i
    · rw [if_neg (by simpa using hl)]
      refine ⟨_, rfl, key (c.ds + 1) (by omega) ?_ ?_⟩
      · intro j _ hj; simp only [decide_eq_decide]; omega
      · simp only [decide_eq_false_iff_not]; omega
    · rw [if_pos hl]
      obtain ⟨c', w1, w2, w3⟩ := key2 c.ds (c.ds + 1) hl (by omega) (by omega) (by simp only [decide_eq_decide]; omega)
        (by intro j _ hj; simp only [decide_eq_decide]; omega) (by simp only [decide_eq_false_iff_not]; omega)
      rw [w1]
      refine ⟨_, rfl, ?_⟩
      rw [w2]; exact w3
  · rw [if_neg ha]
    by_cases hb' : dis = true ∧ i < c.ds
    · rw [if_pos hb']
      obtain ⟨rfl, hlt⟩ := hb'
      by_cases hl : i = c.ds - 1
      · rw [if_neg (by simpa using hl)]
        refine ⟨_, rfl, key (c.ds - 1) (by omega) ?_ ?_⟩
        · intro j _ hj; simp only [decide_eq_decide]; omega
        · simp only [decide_eq_true_eq]; omega
      · rw [if_pos hl]
        obtain ⟨c', w1, w2, w3⟩ := key2 (c.ds - 1) (c.ds - 1) (by omega) (by omega) (by omega) (by simp only [decide_eq_decide]; omega)
          (by intro j _ hj; simp only [decide_eq_decide]; omega) (by simp only [decide_eq_true_eq]; omega)
        rw [w1]
        refine ⟨_, rfl, ?_⟩
        rw [w2]; exact w3
    · rw [if_neg hb']
      refine ⟨c, rfl, ?_⟩
      have hbd : b = dis := by
        rw [hb]
        cases dis
        · simp only [decide_eq_false_iff_not]; intro hh; exact ha ⟨rfl, hh⟩
        · simp only [decide_eq_true_eq]; by_contra hh; exact hb' ⟨rfl, by omega⟩
      exact ⟨GRep.congr h.rep (fun _ _ => rfl) (fun _ => Iff.rfl) (hsame hbd), h.ds, h.nb, h.cap⟩

theorem setData_rep {c : Comps D} (h : Rep obs c f) {e : Nat} (d' : D) {x : X} {b : Bool} (hf : f e = some (x, b)) :
    ∃ c', c.setData e d' = some c' ∧ Rep obs c' (fun e' => if e' = e then some (obs d', b) else f e') := by
  obtain ⟨i, d, hm, hs, hx, hb, hi⟩ := map_of_f h hf
  refine ⟨{ c with slots := upd c.slots i (some (e, d')) }, ?_, ?_, h.ds, h.nb, h.cap⟩
  · unfold setData; rw [hm]; simp [hs]
  · have h1 := GRep.place (GRep.destroy h.rep hs) (i := i) (e := e) d' (upd_same _ _ _) (upd_same _ _ _)
    have hmm : upd (upd c.map e none) e (some i) = c.map := by
      rw [upd_upd]; funext j
      by_cases hj : j = e
      · subst hj; rw [upd_same, hm]
      · rw [upd_ne _ _ hj]
    rw [upd_upd, hmm] at h1
    refine GRep.congr h1 (fun _ _ => rfl) ?_ ?_
    · intro j; (try simp only); omega
    · intro e'
      by_cases he : e' = e
      · subst he; simp [hb]
      · simp [he]

theorem step_rep {c : Comps D} {f f' : Nat → Option (X × Bool)} {cp : D → D} (hcp : ∀ d, obs (cp d) = obs d)
    (h : Rep obs c f) {op : Op D} (hs : CompsSpec.step obs f op = some f') :
    ∃ c', c.step cp op = some c' ∧ Rep obs c' f' := by
  cases op with
  | add e dis d =>
    simp only [CompsSpec.step] at hs
    cases hf : f e with
    | some v => rw [hf] at hs; cases hs
    | none => rw [hf] at hs; cases hs; exact add_rep h dis d hf
  | remove e =>
    simp only [CompsSpec.step] at hs
    cases hf : f e with
    | none => rw [hf] at hs; cases hs
    | some v => rw [hf] at hs; cases hs; exact remove_rep h hf
  | setDisabled e dis =>
    simp only [CompsSpec.step] at hs
    cases hf : f e with
    | none => rw [hf] at hs; cases hs
    | some v => rw [hf] at hs; cases hs; exact setDisabled_rep h hcp dis hf
  | setData e d =>
    simp only [CompsSpec.step] at hs
    cases hf : f e with
    | none => rw [hf] at hs; cases hs
    | some v => rw [hf] at hs; cases hs; exact setData_rep h d hf

theorem run_rep {cp : D → D} (hcp : ∀ d, obs (cp d) = obs d) (ops : List (Op D)) :
    ∀ {c : Comps D} {f f' : Nat → Option (X × Bool)}, Rep obs c f → CompsSpec.run obs f ops = some f' →
    ∃ c', c.run cp ops = some c' ∧ Rep obs c' f' := by
  induction ops with
  | nil =>
    intro c f f' h hs
    simp only [CompsSpec.run, Option.some.injEq] at hs
    subst hs
    exact ⟨c, rfl, h⟩
  | cons op ops ih =>
    intro c f f' h hs
    simp only [CompsSpec.run, Option.bind_eq_bind, Option.bind_eq_some_iff] at hs
    obtain ⟨f1, h1, h2⟩ := hs
    obtain ⟨c1, a1, a2⟩ := step_rep hcp h h1
    obtain ⟨c2, b1, b2⟩ := ih a2 h2
    exact ⟨c2, by simp [run, a1, b1], b2⟩

end Comps
end RP3D
