import Verif.Engine.ColumnData
import Verif.Engine.ComponentsLemmas

/-! The tables of `Verif/Engine/ColumnData.lean` implement those of `Verif/Engine/Components.lean`. -/

set_option linter.unusedVariables false

namespace RP3D
namespace ColumnData
open Tab
variable {C X : Type} [DecidableEq C]

/-- The consistency conditions on the program of a class: `start` are the initial values, `lost` the columns that are not kept. -/
structure WF (p : Prog C) (start : C → Src) (lost : List C) : Prop where
  addNodup : (p.add.map Prod.fst).Nodup
  addAll : ∀ k, (k, start k) ∈ p.add
  startEnt : start p.ent = .entity
  moveNodup : (p.moves.map Prod.fst).Nodup
  moveAll : ∀ k, k ∉ lost → (k, k) ∈ p.moves
  storeNodup : (p.stores.map Prod.fst).Nodup
  storeIn : ∀ x ∈ p.stores, x.2 < p.loads.length
  storeAll : ∀ k, k ∉ lost → ∃ x ∈ p.stores, x.1 = k ∧ p.loads[x.2]? = some k
  loadEnt : p.loads.head? = some p.ent
  desNodup : p.destroys.Nodup
  desOwn : ∀ k ∈ p.owning, k ∈ p.destroys
  ownKept : ∀ k ∈ p.owning, k ∉ lost
  entKept : p.ent ∉ lost
  entFree : p.ent ∉ p.owning
  shortLost : ∀ k ∈ p.short, k ∈ lost

/-- The members besides the cells are the same. -/
structure Same (t t' : Tab C X) : Prop where
  map : t'.map = t.map
  nb : t'.nb = t.nb
  cap : t'.cap = t.cap
  ds : t'.ds = t.ds

theorem puts_spec {K : Type} (p : Prog C) (i : Nat) (f : Tab C X → K → Option (Option (Val X))) (g : K → Option (Val X))
    (l : List (C × K)) : ∀ (t : Tab C X), (l.map Prod.fst).Nodup → i < t.cap →
    (∀ x ∈ l, x.1 ∈ p.owning → t.cells x.1 i = none) →
    (∀ t' : Tab C X, (∀ k j, j ≠ i → t'.cells k j = t.cells k j) → ∀ x ∈ l, f t' x.2 = some (g x.2)) →
    ∃ t', puts p i f l t = some t' ∧ Same t t' ∧ (∀ k j, j ≠ i → t'.cells k j = t.cells k j) ∧
      (∀ x ∈ l, t'.cells x.1 i = g x.2) ∧ (∀ k, k ∉ l.map Prod.fst → t'.cells k i = t.cells k i) := by
  induction l with
  | nil => intro t _ _ _ _; exact ⟨t, rfl, ⟨rfl, rfl, rfl, rfl⟩, fun _ _ _ => rfl, fun _ h => (by cases h), fun _ _ => rfl⟩
  | cons x l ih =>
    intro t hn hi ho hf
    obtain ⟨k, x⟩ := x
    simp only [List.map_cons, List.nodup_cons] at hn
    obtain ⟨hk, hn⟩ := hn
    have hfx : f t x = some (g x) := hf t (fun _ _ _ => rfl) (k, x) (List.mem_cons_self ..)
    have hp : t.put p k i (g x) = some { t with cells := fun k' i' => if k' = k ∧ i' = i then g x else t.cells k' i' } := by
      unfold put
      rw [if_pos ⟨hi, ho (k, x) (List.mem_cons_self ..)⟩]
    obtain ⟨t', h1, h2, h3, h4, h5⟩ := ih { t with cells := fun k' i' => if k' = k ∧ i' = i then g x else t.cells k' i' } hn hi
      (by
        intro y hy hyo
        have : y.1 ≠ k := by rintro rfl; exact hk (List.mem_map_of_mem hy)
        simp only [this, false_and, if_false]
        exact ho y (List.mem_cons_of_mem _ hy) hyo)
      (by
        intro t' ht' y hy
        refine hf t' ?_ y (List.mem_cons_of_mem _ hy)
        intro k' j hj
        rw [ht' k' j hj]
        simp only [hj, and_false, if_false])
    refine ⟨t', ?_, ?_, ?_, ?_, ?_⟩
    · simp only [puts, hfx, hp, Option.bind_eq_bind, Option.bind_some]; exact h1
    · exact ⟨h2.map, h2.nb, h2.cap, h2.ds⟩
    · intro k' j hj
      rw [h3 k' j hj]
      simp only [hj, and_false, if_false]
    · intro y hy
      rcases List.mem_cons.1 hy with rfl | hy
      · rw [h5 k hk]; simp
      · exact h4 y hy
    · intro k' hk'
      simp only [List.map_cons, List.mem_cons, not_or] at hk'
      rw [h5 k' hk'.2]
      simp only [hk'.1, false_and, if_false]

theorem clear_spec (p : Prog C) (i : Nat) (l : List C) : ∀ (t : Tab C X), l.Nodup →
    (∀ k ∈ l, k ∈ p.owning → t.cells k i ≠ none) →
    ∃ t', clear p i l t = some t' ∧ Same t t' ∧ (∀ k j, j ≠ i → t'.cells k j = t.cells k j) ∧
      (∀ k ∈ l, t'.cells k i = none) := by
  induction l with
  | nil => intro t _ _; exact ⟨t, rfl, ⟨rfl, rfl, rfl, rfl⟩, fun _ _ _ => rfl, fun _ h => by cases h⟩
  | cons k l ih =>
    intro t hn ho
    obtain ⟨hk, hn⟩ := List.nodup_cons.1 hn
    have hc : t.copy p k i = some (t.cells k i) := by
      unfold copy
      rw [if_neg]
      rintro ⟨a, b⟩; exact ho k (List.mem_cons_self ..) a b
    obtain ⟨t', h1, h2, h3, h4⟩ := ih { t with cells := fun k' i' => if k' = k ∧ i' = i then none else t.cells k' i' } hn
      (by
        intro y hy hyo
        have : y ≠ k := by rintro rfl; exact hk hy
        simp only [this, false_and, if_false]
        exact ho y (List.mem_cons_of_mem _ hy) hyo)
    have h5 : ∀ (l : List C) (t t' : Tab C X), clear p i l t = some t' → t.cells k i = none → t'.cells k i = none := by
      intro l
      induction l with
      | nil => intro t t' h hh; simp only [clear, Option.some.injEq] at h; subst h; exact hh
      | cons y l ih =>
        intro t t' h hh
        simp only [clear, Option.bind_eq_bind, Option.bind_eq_some_iff] at h
        obtain ⟨_, _, h⟩ := h
        refine ih _ _ h ?_
        simp only
        split
        · rfl
        · exact hh
    refine ⟨t', ?_, ⟨h2.map, h2.nb, h2.cap, h2.ds⟩, ?_, ?_⟩
    · simp only [clear, hc, Option.bind_eq_bind, Option.bind_some]; exact h1
    · intro k' j hj
      rw [h3 k' j hj]
      simp only [hj, and_false, if_false]
    · intro y hy
      rcases List.mem_cons.1 hy with rfl | hy
      · exact h5 _ _ _ h1 (by simp)
      · exact h4 y hy

/-- The table `t` holds the components of `a`, column by column. -/
structure Sim (p : Prog C) (lost : List C) (t : Tab C X) (a : Comps (C → Val X)) : Prop where
  map : t.map = a.map
  nb : t.nb = a.nb
  cap : t.cap = a.cap
  ds : t.ds = a.ds
  full : ∀ i e d, a.slots i = some (e, d) → d p.ent = .ent e ∧ ∀ k, k ∉ lost → t.cells k i = some (d k)
  free : ∀ i, a.slots i = none → ∀ k ∈ p.owning, t.cells k i = none
  core : ∀ i e d, a.slots i = some (e, d) → a.map e = some i

variable {p : Prog C} {start : C → Src} {lost : List C} {t : Tab C X} {a a' : Comps (C → Val X)}

omit [DecidableEq C] in
theorem entityAt_sim (w : WF p start lost) (h : Sim p lost t a) {i e : Nat} {d : C → Val X} (hs : a.slots i = some (e, d)) :
    t.entityAt p i = some e := by
  obtain ⟨h1, h2⟩ := h.full i e d hs
  unfold entityAt
  rw [h2 _ w.entKept, h1]

theorem copy_sim (w : WF p start lost) (h : Sim p lost t a) {i e : Nat} {d : C → Val X} (hs : a.slots i = some (e, d)) (k : C) :
    t.copy p k i = some (t.cells k i) := by
  unfold copy
  rw [if_neg]
  rintro ⟨x, y⟩
  rw [(h.full i e d hs).2 k (w.ownKept k x)] at y
  cases y

theorem destroyAt_sim (w : WF p start lost) (h : Sim p lost t a) {i : Nat} (ha : a.destroyAt i = some a') :
    ∃ t', t.destroyAt p i = some t' ∧ Sim p lost t' a' := by
  unfold Comps.destroyAt at ha
  cases hs : a.slots i with
  | none => rw [hs] at ha; cases ha
  | some x =>
    obtain ⟨e, d⟩ := x
    rw [hs] at ha
    simp only [Option.some.injEq] at ha
    subst ha
    have he := entityAt_sim w h hs
    have hm : t.map e = some i := by rw [h.map]; exact h.core i e d hs
    obtain ⟨t', h1, h2, h3, h4⟩ := clear_spec p i p.destroys { t with map := upd t.map e none } w.desNodup
      (by
        intro k _ hk hh
        have := (h.full i e d hs).2 k (w.ownKept k hk)
        simp only at hh
        rw [this] at hh; cases hh)
    refine ⟨t', ?_, ?_⟩
    · unfold destroyAt
      rw [he]
      simp only [Option.bind_eq_bind, Option.bind_some]
      rw [if_pos hm]; exact h1
    · refine ⟨?_, ?_, ?_, ?_, ?_, ?_, ?_⟩
      · rw [h2.map]; simp only; rw [h.map]
      · rw [h2.nb]; exact h.nb
      · rw [h2.cap]; exact h.cap
      · rw [h2.ds]; exact h.ds
      · intro j e' d' hj
        simp only at hj
        have hji : j ≠ i := by rintro rfl; rw [upd_same] at hj; cases hj
        rw [upd_ne _ _ hji] at hj
        obtain ⟨q1, q2⟩ := h.full j e' d' hj
        refine ⟨q1, ?_⟩
        intro k hk
        rw [h3 k j hji]; exact q2 k hk
      · intro j hj k hk
        by_cases hji : j = i
        · subst hji; exact h4 k (w.desOwn k hk)
        · simp only at hj
          rw [upd_ne _ _ hji] at hj
          rw [h3 k j hji]; exact h.free j hj k hk
      · intro j e' d' hj
        simp only at hj ⊢
        have hji : j ≠ i := by rintro rfl; rw [upd_same] at hj; cases hj
        rw [upd_ne _ _ hji] at hj
        have hme := h.core j e' d' hj
        have : e' ≠ e := by
          rintro rfl
          rw [h.core i e' d hs] at hme
          exact hji (Option.some.inj hme).symm
        rw [upd_ne _ _ this]; exact hme

/-- Construction of a component from values. -/
theorem place_sim {K : Type} (w : WF p start lost) (h : Sim p lost t a) {i e : Nat} {d : C → Val X}
    (ha : a.place i e d = some a') (l : List (C × K)) (f : Tab C X → K → Option (Option (Val X))) (g : K → Option (Val X))
    (hn : (l.map Prod.fst).Nodup) (hf : ∀ t' : Tab C X, ∀ x ∈ l, f t' x.2 = some (g x.2))
    (hd : d p.ent = .ent e) (hg : ∀ k, k ∉ lost → ∃ x ∈ l, x.1 = k ∧ g x.2 = some (d k)) :
    ∃ t1 t', puts p i f l t = some t1 ∧ t1.enter e i = some t' ∧ Sim p lost t' a' := by
  unfold Comps.place at ha
  split at ha
  · rename_i hc
    obtain ⟨c1, c2, c3⟩ := hc
    simp only [Option.some.injEq] at ha
    subst ha
    obtain ⟨t1, h1, h2, h3, h4, h5⟩ := puts_spec p i f g l t hn (by rw [h.cap]; exact c1)
      (fun x _ hx => h.free i c2 x.1 hx) (fun t' _ x hx => hf t' x hx)
    have hm : t1.map e = none := by rw [h2.map, h.map]; exact c3
    refine ⟨t1, { t1 with map := upd t1.map e (some i) }, h1, ?_, ?_⟩
    · unfold enter; rw [if_pos hm]
    · refine ⟨?_, ?_, ?_, ?_, ?_, ?_, ?_⟩
      · simp only; rw [h2.map, h.map]
      · simp only; rw [h2.nb, h.nb]
      · simp only; rw [h2.cap, h.cap]
      · simp only; rw [h2.ds, h.ds]
      · intro j e' d' hj
        simp only at hj ⊢
        by_cases hji : j = i
        · subst hji
          rw [upd_same] at hj
          simp only [Option.some.injEq, Prod.mk.injEq] at hj
          obtain ⟨rfl, rfl⟩ := hj
          refine ⟨hd, ?_⟩
          intro k hk
          obtain ⟨x, hx, rfl, hgx⟩ := hg k hk
          rw [h4 x hx, hgx]
        · rw [upd_ne _ _ hji] at hj
          obtain ⟨q1, q2⟩ := h.full j e' d' hj
          exact ⟨q1, fun k hk => by rw [h3 k j hji]; exact q2 k hk⟩
      · intro j hj k hk
        simp only at hj ⊢
        have hji : j ≠ i := by rintro rfl; rw [upd_same] at hj; cases hj
        rw [upd_ne _ _ hji] at hj
        rw [h3 k j hji]; exact h.free j hj k hk
      · intro j e' d' hj
        simp only at hj ⊢
        by_cases hji : j = i
        · subst hji
          rw [upd_same] at hj
          simp only [Option.some.injEq, Prod.mk.injEq] at hj
          obtain ⟨rfl, rfl⟩ := hj
          rw [upd_same]
        · rw [upd_ne _ _ hji] at hj
          have hme := h.core j e' d' hj
          have : e' ≠ e := by rintro rfl; rw [c3] at hme; cases hme
          rw [upd_ne _ _ this]; exact hme
  · cases ha

theorem move_sim (w : WF p start lost) (h : Sim p lost t a) {src dst : Nat} (ha : a.move src dst = some a') :
    ∃ t', t.move p src dst = some t' ∧ Sim p lost t' a' := by
  unfold Comps.move at ha
  cases hs : a.slots src with
  | none => rw [hs] at ha; cases ha
  | some x =>
    obtain ⟨e, d⟩ := x
    rw [hs] at ha
    simp only at ha
    split at ha
    · rename_i hc
      obtain ⟨hcap, hfree⟩ := hc
      have hne : src ≠ dst := by rintro rfl; rw [hs] at hfree; cases hfree
      have hme := h.core src e d hs
      have hds : Comps.destroyAt ({ a with slots := upd a.slots dst (some (e, d)) } : Comps (C → Val X)) src
          = some { a with slots := upd (upd a.slots dst (some (e, d))) src none, map := upd a.map e none } := by
        unfold Comps.destroyAt
        simp only [upd_ne _ _ hne, hs]
      rw [hds] at ha
      simp only [Option.bind_eq_bind, Option.bind_some, upd_same, if_true, Option.some.injEq] at ha
      subst ha
      have he := entityAt_sim w h hs
      obtain ⟨q1, q2⟩ := h.full src e d hs
      obtain ⟨t1, h1, h2, h3, h4, h5⟩ := puts_spec p dst (fun t k => t.copy p k src) (fun k => t.cells k src) p.moves t
        w.moveNodup (by rw [h.cap]; exact hcap) (fun x _ hx => h.free dst hfree x.1 hx)
        (by
          intro t' ht' x _
          show t'.copy p x.2 src = _
          rw [← ht' x.2 src hne]
          unfold copy
          rw [if_neg]
          rintro ⟨u, v⟩
          rw [ht' x.2 src hne, q2 x.2 (w.ownKept _ u)] at v
          cases v)
      have hkeep : ∀ k, k ∉ lost → t1.cells k dst = some (d k) := by
        intro k hk
        rw [h4 (k, k) (w.moveAll k hk)]; exact q2 k hk
      have he1 : t1.entityAt p src = some e := by
        unfold entityAt; rw [h3 _ _ hne]; exact he
      have hm1 : t1.map e = some src := by rw [h2.map, h.map]; exact hme
      obtain ⟨t2, k1, k2, k3, k4⟩ := clear_spec p src p.destroys { t1 with map := upd t1.map e none } w.desNodup
        (by
          intro k _ hk hh
          simp only at hh
          rw [h3 _ _ hne, q2 k (w.ownKept k hk)] at hh; cases hh)
      have hm2 : t2.map e = none := by rw [k2.map]; simp only [upd_same]
      refine ⟨{ t2 with map := upd t2.map e (some dst) }, ?_, ?_⟩
      · unfold move
        rw [he]
        simp only [Option.bind_eq_bind, Option.bind_some]
        rw [h1]
        simp only [Option.bind_some]
        have : t1.destroyAt p src = some t2 := by
          unfold destroyAt
          rw [he1]
          simp only [Option.bind_eq_bind, Option.bind_some]
          rw [if_pos hm1]; exact k1
        rw [this]
        simp only [Option.bind_some]
        unfold enter; rw [if_pos hm2]
      · refine ⟨?_, ?_, ?_, ?_, ?_, ?_, ?_⟩
        · simp only; rw [k2.map]; simp only; rw [h2.map, h.map]
        · simp only; rw [k2.nb]; simp only; rw [h2.nb, h.nb]
        · simp only; rw [k2.cap]; simp only; rw [h2.cap, h.cap]
        · simp only; rw [k2.ds]; simp only; rw [h2.ds, h.ds]
        · intro j e' d' hj
          simp only at hj ⊢
          have hjs : j ≠ src := by rintro rfl; rw [upd_same] at hj; cases hj
          rw [upd_ne _ _ hjs] at hj
          by_cases hjd : j = dst
          · subst hjd
            rw [upd_same] at hj
            simp only [Option.some.injEq, Prod.mk.injEq] at hj
            obtain ⟨rfl, rfl⟩ := hj
            exact ⟨q1, fun k hk => by rw [k3 k _ hjs]; exact hkeep k hk⟩
          · rw [upd_ne _ _ hjd] at hj
            obtain ⟨r1, r2⟩ := h.full j e' d' hj
            refine ⟨r1, fun k hk => ?_⟩
            rw [k3 k j hjs]; simp only; rw [h3 k j hjd]; exact r2 k hk
        · intro j hj k hk
          simp only at hj ⊢
          by_cases hjs : j = src
          · subst hjs; exact k4 k (w.desOwn k hk)
          · rw [upd_ne _ _ hjs] at hj
            have hjd : j ≠ dst := by rintro rfl; rw [upd_same] at hj; cases hj
            rw [upd_ne _ _ hjd] at hj
            rw [k3 k j hjs]; simp only; rw [h3 k j hjd]; exact h.free j hj k hk
        · intro j e' d' hj
          simp only at hj ⊢
          have hjs : j ≠ src := by rintro rfl; rw [upd_same] at hj; cases hj
          rw [upd_ne _ _ hjs] at hj
          by_cases hjd : j = dst
          · subst hjd
            rw [upd_same] at hj
            simp only [Option.some.injEq, Prod.mk.injEq] at hj
            obtain ⟨rfl, rfl⟩ := hj
            rw [upd_same]
          · rw [upd_ne _ _ hjd] at hj
            have hme' := h.core j e' d' hj
            have : e' ≠ e := by
              rintro rfl
              rw [hme] at hme'; exact hjs (Option.some.inj hme').symm
            rw [upd_ne _ _ this, upd_ne _ _ this]; exact hme'
    · cases ha

theorem locals_sim (w : WF p start lost) (h : Sim p lost t a) {i e : Nat} {d : C → Val X} (hs : a.slots i = some (e, d))
    (l : List C) : t.locals p i l = some (l.map (fun k => t.cells k i)) := by
  induction l with
  | nil => rfl
  | cons k l ih =>
    simp only [locals, copy_sim w h hs k, ih, Option.bind_eq_bind, Option.bind_some, List.map_cons]
    rfl

theorem swap_sim (w : WF p start lost) (h : Sim p lost t a) {i1 i2 : Nat} (ha : a.swap id i1 i2 = some a') :
    ∃ t', t.swap p i1 i2 = some t' ∧ Sim p lost t' a' := by
  unfold Comps.swap at ha
  cases hs : a.slots i1 with
  | none => rw [hs] at ha; cases ha
  | some x =>
    obtain ⟨e, d⟩ := x
    rw [hs] at ha
    simp only [Option.bind_eq_bind, Option.bind_eq_some_iff] at ha
    obtain ⟨a1, ha1, a2, ha2, ha3⟩ := ha
    obtain ⟨q1, q2⟩ := h.full i1 e d hs
    obtain ⟨t1, h1, s1⟩ := destroyAt_sim w h ha1
    obtain ⟨t2, h2, s2⟩ := move_sim w s1 ha2
    have hl := locals_sim w h hs p.loads
    obtain ⟨t3, t4, h3, h4, s4⟩ := place_sim w s2 ha3 p.stores
      (fun _ n => (p.loads.map (fun k => t.cells k i1))[n]?) (fun n => ((p.loads.map (fun k => t.cells k i1))[n]?).getD none)
      w.storeNodup
      (by
        intro t' x hx
        have := w.storeIn x hx
        simp [this])
      q1
      (by
        intro k hk
        obtain ⟨x, hx, hx1, hx2⟩ := w.storeAll k hk
        refine ⟨x, hx, hx1, ?_⟩
        simp only [List.getElem?_map, hx2, Option.map_some, Option.getD_some, id]
        exact q2 k hk)
    refine ⟨t4, ?_, s4⟩
    unfold swap
    rw [hl]
    simp only [Option.bind_eq_bind, Option.bind_some]
    rw [h1]
    simp only [Option.bind_some]
    rw [h2]
    simp only [Option.bind_some]
    rw [h3]
    simp only [Option.bind_some]
    have : ∃ r, p.loads.map (fun k => t.cells k i1) = some (Val.ent e) :: r := by
      have hh := w.loadEnt
      cases hp : p.loads with
      | nil => rw [hp] at hh; cases hh
      | cons y r =>
        rw [hp] at hh
        simp only [List.head?_cons, Option.some.injEq] at hh
        subst hh
        refine ⟨r.map (fun k => t.cells k i1), ?_⟩
        rw [List.map_cons, q2 _ w.entKept, q1]
    obtain ⟨r, hr⟩ := this
    rw [hr]
    exact h4

theorem allocate_sim (w : WF p start lost) (h : Sim p lost t a) {n : Nat} (ha : a.allocate n = some a') :
    ∃ t', t.allocate p n = some t' ∧ Sim p lost t' a' := by
  unfold Comps.allocate at ha
  simp only at ha
  split at ha
  · rename_i hc
    simp only [Option.some.injEq] at ha
    subst ha
    refine ⟨{ t with cells := fun c i => if i < t.nb ∧ c ∉ p.short then t.cells c i else none, cap := ceil16F n }, ?_, ?_⟩
    · unfold allocate
      simp only
      rw [if_pos (by rw [h.nb]; exact hc)]
    · refine ⟨h.map, h.nb, rfl, h.ds, ?_, ?_, ?_⟩
      · intro i e d hi
        simp only at hi ⊢
        split at hi
        · rename_i hlt
          obtain ⟨q1, q2⟩ := h.full i e d hi
          refine ⟨q1, fun k hk => ?_⟩
          rw [if_pos ⟨by rw [h.nb]; exact hlt, fun hsh => hk (w.shortLost k hsh)⟩]
          exact q2 k hk
        · cases hi
      · intro i hi k hk
        simp only at hi ⊢
        split
        · rename_i hlt
          rw [if_pos (by rw [← h.nb]; exact hlt.1)] at hi
          exact h.free i hi k hk
        · rfl
      · intro i e d hi
        simp only at hi ⊢
        split at hi
        · exact h.core i e d hi
        · cases hi
  · cases ha

omit [DecidableEq C] in
theorem empty_sim (p : Prog C) (lost : List C) : Sim p lost (empty : Tab C X) Comps.empty :=
  ⟨rfl, rfl, rfl, rfl, fun i e d h => (by cases h), fun _ _ _ _ => rfl, fun i e d h => by cases h⟩

theorem growAdd_sim (w : WF p start lost) (h : Sim p lost t a) (ha : a.growAdd = some a') :
    ∃ t', t.growAdd p = some t' ∧ Sim p lost t' a' := by
  unfold Comps.growAdd at ha
  unfold growAdd
  rw [h.nb, h.cap]
  split at ha
  · rename_i hc; rw [if_pos hc]; exact allocate_sim w h ha
  · rename_i hc; rw [if_neg hc]
    simp only [Option.some.injEq] at ha
    subst ha; exact ⟨t, rfl, h⟩

omit [DecidableEq C] in
theorem Sim.setDs (h : Sim p lost t a) {n m : Nat} (hn : n = m) : Sim p lost { t with ds := n } { a with ds := m } :=
  ⟨h.map, h.nb, h.cap, hn, h.full, h.free, h.core⟩

omit [DecidableEq C] in
theorem Sim.setNb (h : Sim p lost t a) {n m : Nat} (hn : n = m) : Sim p lost { t with nb := n } { a with nb := m } :=
  ⟨h.map, hn, h.cap, h.ds, h.full, h.free, h.core⟩

theorem prepareAdd_sim (w : WF p start lost) (h : Sim p lost t a) {dis : Bool} {i : Nat}
    (ha : a.prepareAdd dis = some (a', i)) : ∃ t', t.prepareAdd p dis = some (t', i) ∧ Sim p lost t' a' := by
  unfold Comps.prepareAdd at ha
  simp only [Option.bind_eq_bind, Option.bind_eq_some_iff] at ha
  obtain ⟨a1, ha1, ha⟩ := ha
  obtain ⟨t1, h1, s1⟩ := growAdd_sim w h ha1
  unfold prepareAdd
  rw [h1]
  simp only [Option.bind_eq_bind, Option.bind_some]
  cases dis with
  | true =>
    simp only [if_true, Option.some.injEq, Prod.mk.injEq] at ha ⊢
    obtain ⟨rfl, rfl⟩ := ha
    exact ⟨t1, ⟨rfl, s1.nb⟩, s1⟩
  | false =>
    simp only [Bool.false_eq_true, if_false] at ha ⊢
    rw [s1.ds, s1.nb]
    split at ha
    · rename_i hc
      rw [if_pos hc]
      cases hm : a1.move a1.ds a1.nb with
      | none => rw [hm] at ha; cases ha
      | some a2 =>
        rw [hm] at ha
        simp only [Option.some.injEq, Prod.mk.injEq] at ha
        obtain ⟨rfl, rfl⟩ := ha
        obtain ⟨t2, h2, s2⟩ := move_sim w s1 hm
        rw [h2]
        exact ⟨{ t2 with ds := t2.ds + 1 }, by simp only [s2.ds], s2.setDs (by rw [s2.ds])⟩
    · rename_i hc
      rw [if_neg hc]
      simp only [Option.some.injEq, Prod.mk.injEq] at ha
      obtain ⟨rfl, rfl⟩ := ha
      exact ⟨_, rfl, ⟨s1.map, rfl, s1.cap, rfl, s1.full, s1.free, s1.core⟩⟩

theorem add_sim (w : WF p start lost) (h : Sim p lost t a) {e : Nat} {dis : Bool} (ev : String → X)
    (ha : a.add e dis (fun k => value e ev (start k)) = some a') :
    ∃ t', t.add p e dis ev = some t' ∧ Sim p lost t' a' := by
  unfold Comps.add at ha
  simp only [Option.bind_eq_bind, Option.bind_eq_some_iff] at ha
  obtain ⟨⟨a1, i⟩, ha1, a2, ha2, ha⟩ := ha
  simp only [Option.pure_def, Option.some.injEq] at ha
  subst ha
  obtain ⟨t1, h1, s1⟩ := prepareAdd_sim w h ha1
  obtain ⟨t2, t3, h2, h3, s3⟩ := place_sim w s1 ha2 p.add (fun _ s => some (some (value e ev s)))
    (fun s => some (value e ev s)) w.addNodup (fun _ _ _ => rfl) (by rw [w.startEnt]; rfl)
    (fun k _ => ⟨_, w.addAll k, rfl, rfl⟩)
  refine ⟨{ t3 with nb := t3.nb + 1 }, ?_, s3.setNb (by rw [s3.nb])⟩
  unfold add
  rw [h1]
  simp only [Option.bind_eq_bind, Option.bind_some]
  rw [h2]
  simp only [Option.bind_some]
  rw [h3]
  rfl

theorem fillDisabled_sim (w : WF p start lost) (h : Sim p lost t a) {i : Nat} (ha : a.fillDisabled i = some a') :
    ∃ t', t.fillDisabled p i = some t' ∧ Sim p lost t' a' := by
  unfold Comps.fillDisabled at ha
  unfold fillDisabled
  rw [h.nb]
  split at ha
  · rename_i hc; rw [if_pos hc]; exact move_sim w h ha
  · rename_i hc; rw [if_neg hc]; cases ha; exact ⟨t, rfl, h⟩

theorem fillEnabled_sim (w : WF p start lost) (h : Sim p lost t a) {i : Nat} (ha : a.fillEnabled i = some a') :
    ∃ t', t.fillEnabled p i = some t' ∧ Sim p lost t' a' := by
  unfold Comps.fillEnabled at ha
  unfold fillEnabled
  rw [h.ds]
  split at ha
  · rename_i hc; rw [if_pos hc]; exact move_sim w h ha
  · rename_i hc; rw [if_neg hc]; cases ha; exact ⟨t, rfl, h⟩

theorem fillGap_sim (w : WF p start lost) (h : Sim p lost t a) (ha : a.fillGap = some a') :
    ∃ t', t.fillGap p = some t' ∧ Sim p lost t' a' := by
  unfold Comps.fillGap at ha
  unfold fillGap
  rw [h.ds, h.nb]
  split at ha
  · rename_i hc; rw [if_pos hc]; exact move_sim w h ha
  · rename_i hc; rw [if_neg hc]; cases ha; exact ⟨t, rfl, h⟩

theorem remove_sim (w : WF p start lost) (h : Sim p lost t a) {e : Nat} (ha : a.remove e = some a') :
    ∃ t', t.remove p e = some t' ∧ Sim p lost t' a' := by
  unfold Comps.remove at ha
  simp only [Option.bind_eq_bind, Option.bind_eq_some_iff] at ha
  obtain ⟨i, hi, a1, ha1, ha⟩ := ha
  obtain ⟨t1, h1, s1⟩ := destroyAt_sim w h ha1
  unfold remove
  rw [h.map, hi]
  simp only [Option.bind_eq_bind, Option.bind_some]
  rw [h1]
  simp only [Option.bind_some]
  rw [s1.ds]
  split at ha
  · rename_i hc
    rw [if_pos hc]
    simp only [Option.bind_eq_some_iff] at ha
    obtain ⟨a2, ha2, ha⟩ := ha
    obtain ⟨t2, h2, s2⟩ := fillDisabled_sim w s1 ha2
    cases ha
    rw [h2]
    exact ⟨_, rfl, s2.setNb (by rw [s2.nb])⟩
  · rename_i hc
    rw [if_neg hc]
    simp only [Option.bind_eq_some_iff] at ha
    obtain ⟨a2, ha2, a3, ha3, ha⟩ := ha
    obtain ⟨t2, h2, s2⟩ := fillEnabled_sim w s1 ha2
    obtain ⟨t3, h3, s3⟩ := fillGap_sim w s2 ha3
    cases ha
    rw [h2]
    simp only [Option.bind_some]
    rw [h3]
    exact ⟨{ t3 with ds := t3.ds - 1, nb := t3.nb - 1 }, rfl,
      ⟨s3.map, congrArg (· - 1) s3.nb, s3.cap, congrArg (· - 1) s3.ds, s3.full, s3.free, s3.core⟩⟩

theorem setDisabled_sim (w : WF p start lost) (h : Sim p lost t a) {e : Nat} {dis : Bool}
    (ha : a.setDisabled id e dis = some a') : ∃ t', t.setDisabled p e dis = some t' ∧ Sim p lost t' a' := by
  unfold Comps.setDisabled at ha
  simp only [Option.bind_eq_bind, Option.bind_eq_some_iff] at ha
  obtain ⟨i, hi, ha⟩ := ha
  unfold setDisabled
  rw [h.map, hi]
  simp only [Option.bind_eq_bind, Option.bind_some]
  rw [h.ds]
  have opt : ∀ (j j' : Nat) (q : Prop) [Decidable q] (a1 : Comps (C → Val X)),
      (if q then a.swap id j j' else some a) = some a1 →
      ∃ t1, (if q then t.swap p j j' else some t) = some t1 ∧ Sim p lost t1 a1 := by
    intro j j' q _ a1 hq
    split at hq
    · rename_i hc; rw [if_pos hc]; exact swap_sim w h hq
    · rename_i hc; rw [if_neg hc]; cases hq; exact ⟨t, rfl, h⟩
  split at ha
  · rename_i hc
    rw [if_pos hc]
    split at ha
    · cases ha
    · rename_i a1 hq
      obtain ⟨t1, h1, s1⟩ := opt _ _ _ _ hq
      rw [h1]
      cases ha
      exact ⟨_, rfl, s1.setDs (by rw [s1.ds])⟩
  · rename_i hc
    rw [if_neg hc]
    split at ha
    · rename_i hc2
      rw [if_pos hc2]
      split at ha
      · cases ha
      · rename_i a1 hq
        obtain ⟨t1, h1, s1⟩ := opt _ _ _ _ hq
        rw [h1]
        cases ha
        exact ⟨_, rfl, s1.setDs (by rw [s1.ds])⟩
    · rename_i hc2
      rw [if_neg hc2]
      cases ha
      exact ⟨t, rfl, h⟩

theorem set_sim (w : WF p start lost) (h : Sim p lost t a) {e i : Nat} {d : C → Val X} {k : C} (x : X) (hk : k ≠ p.ent)
    (hm : a.map e = some i) (hs : a.slots i = some (e, d))
    (ha : a.setData e (fun k' => if k' = k then .dat x else d k') = some a') :
    ∃ t', t.set p e k x = some t' ∧ Sim p lost t' a' := by
  unfold Comps.setData at ha
  rw [hm] at ha
  simp only [Option.bind_eq_bind, Option.bind_some, hs, Option.pure_def, Option.some.injEq] at ha
  subst ha
  refine ⟨{ t with cells := fun k' i' => if k' = k ∧ i' = i then some (.dat x) else t.cells k' i' }, ?_, ?_⟩
  · unfold Tab.set
    rw [h.map, hm]
    simp only [Option.bind_eq_bind, Option.bind_some]
    rw [copy_sim w h hs k]
    rfl
  · refine ⟨h.map, h.nb, h.cap, h.ds, ?_, ?_, ?_⟩
    · intro j e' d' hj
      simp only at hj ⊢
      by_cases hji : j = i
      · subst hji
        rw [upd_same] at hj
        simp only [Option.some.injEq, Prod.mk.injEq] at hj
        obtain ⟨rfl, rfl⟩ := hj
        obtain ⟨q1, q2⟩ := h.full _ _ _ hs
        refine ⟨by simp only [if_neg (Ne.symm hk)]; exact q1, ?_⟩
        intro k' hk'
        by_cases hkk : k' = k
        · subst hkk; simp
        · simp only [hkk, false_and, if_false]; exact q2 k' hk'
      · rw [upd_ne _ _ hji] at hj
        simp only [hji, and_false, if_false]
        exact h.full j e' d' hj
    · intro j hj k' hk'
      simp only at hj ⊢
      have hji : j ≠ i := by rintro rfl; rw [upd_same] at hj; cases hj
      rw [upd_ne _ _ hji] at hj
      simp only [hji, and_false, if_false]
      exact h.free j hj k' hk'
    · intro j e' d' hj
      simp only at hj ⊢
      by_cases hji : j = i
      · subst hji
        rw [upd_same] at hj
        simp only [Option.some.injEq, Prod.mk.injEq] at hj
        obtain ⟨rfl, rfl⟩ := hj
        exact hm
      · rw [upd_ne _ _ hji] at hj
        exact h.core j e' d' hj

/-- The destructor, for a table whose components are at `i` to `i + n - 1`. -/
theorem close_sim (w : WF p start lost) (n : Nat) : ∀ (i : Nat) (t : Tab C X) (a : Comps (C → Val X)), Sim p lost t a →
    (∀ j, (i ≤ j ∧ j < i + n) ↔ a.slots j ≠ none) →
    ∃ t', closeFrom p n i t = some t' ∧ ∀ k ∈ p.owning, ∀ j, t'.cells k j = none := by
  induction n with
  | zero =>
    intro i t a h hs
    refine ⟨t, rfl, ?_⟩
    intro k hk j
    refine h.free j ?_ k hk
    by_contra hh
    have := (hs j).2 hh
    omega
  | succ n ih =>
    intro i t a h hs
    have hi := (hs i).1 ⟨le_refl _, by omega⟩
    cases hsi : a.slots i with
    | none => exact absurd hsi hi
    | some x =>
      obtain ⟨e, d⟩ := x
      have ha : a.destroyAt i = some { a with slots := upd a.slots i none, map := upd a.map e none } := by
        unfold Comps.destroyAt; rw [hsi]
      obtain ⟨t1, h1, s1⟩ := destroyAt_sim w h ha
      obtain ⟨t2, h2, h3⟩ := ih (i + 1) t1 _ s1 (by
        intro j
        simp only
        by_cases hj : j = i
        · subst hj; rw [upd_same]; simp
        · rw [upd_ne _ _ hj, ← hs j]; omega)
      refine ⟨t2, ?_, h3⟩
      simp only [closeFrom, h1, Option.bind_eq_bind, Option.bind_some]
      exact h2

end ColumnData
end RP3D
