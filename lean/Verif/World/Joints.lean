import Verif.World.Build

/-! Lemmas: removal of colliders with wake-up, activation, joints, destruction of bodies. -/

set_option linter.unusedVariables false
set_option linter.unusedSimpArgs false
set_option linter.unusedSectionVars false

namespace RP3D

theorem bodyPair_eq {a b c d : Nat} (h : bodyPair a b = bodyPair c d) : (a = c ∧ b = d) ∨ (a = d ∧ b = c) := by
  unfold bodyPair at h
  split at h <;> split at h <;> (rw [Prod.mk.injEq] at h; omega)

namespace World
variable {α : Type} [LinearOrder α]
variable {w w' w'' : World α} {A A' A'' : PMap} {cfg : Cfg}

theorem removeCollider_ok {b c : Nat} {x : Col} {ws : List Nat} (h : WInv cfg w A) (hA : ∀ b, ¬ cfg.exA b) (hc : w.col c = some x) (hb : x.body = b)
    (hws : ∀ b ∈ ws, ∃ B, w.body b = some B) (hl : cfg.lost → ∀ q ∈ w.lost, q.c1 ≠ c ∧ q.c2 ≠ c) :
    Ok cfg.strict (fun w' => ∃ A', WInv cfg w' A' ∧ Rounds (· = c) w A w' A' ∧ JEq w w' ∧ w'.lost = w.lost ∧ w'.col c = none ∧
      (∀ c', c' ≠ c → (w'.col c').map Col.body = (w.col c').map Col.body) ∧ (∀ b', (w'.body b').isSome = (w.body b').isSome) ∧
      ∀ B, w.body b = some B → ∃ B', w'.body b = some B' ∧ B'.cols = B.cols.erase c) (w.removeCollider b c ws) := by
  unfold removeCollider
  have key := h.setSleepingAll hws false
  cases hk : w.setSleepingAll ws false with
  | none => rw [hk] at key; exact key
  | some w1 =>
    rw [hk] at key
    obtain ⟨A1, g1, g2, g3⟩ := key
    simp only
    obtain ⟨x', hx', e'⟩ := g2.col_fwd hc
    obtain ⟨w2, A2, e2, k1, k2, k3, k4, k5, k6⟩ := bodyRemoveCollider_ok (b := b) g1 hA hx' ((Col.core_eq e').1.trans hb) (by rw [g2.lost]; exact hl)
    rw [e2]
    refine ⟨A2, k1, (g2.rounds _).trans k2, g2.jeq.trans k3, k4.trans g2.lost, by rw [k5]; exact upd_same _ _ _, ?_, ?_, ?_⟩
    · intro c' hne
      rw [k5, upd_ne _ _ hne]
      have := congrArg (Option.map Col.body) (g2.col c')
      simpa [Option.map_map, Function.comp_def, Col.core] using this
    · intro b'
      obtain ⟨B, hB, _⟩ := g1.s.col c x' hx'
      have hB1 : w1.body b = some B := by rw [← hb, ← (Col.core_eq e').1]; exact hB
      obtain ⟨v, e⟩ := k6 B hB1
      rw [e]
      by_cases eb : b' = b
      · subst eb; rw [upd_same, ← isSome_map (g2.body b'), hB1]; rfl
      · rw [upd_ne _ _ eb]; exact isSome_map (g2.body b')
    · intro B hB
      obtain ⟨B1, hB1, eB⟩ := g2.body_fwd hB
      obtain ⟨v, e⟩ := k6 B1 hB1
      rw [e, upd_same]
      exact ⟨_, rfl, by rw [← (Body.core_eq eB).2.2.1]⟩

theorem removeAllColliders_ok {b : Nat} {B : Body} {cws : List (Nat × List Nat)} (h : WInv cfg w A) (hA : ∀ b, ¬ cfg.exA b) (hB : w.body b = some B)
    (hcs : B.cols = cws.map Prod.fst) (hws : ∀ cw ∈ cws, ∀ b ∈ cw.2, ∃ B, w.body b = some B)
    (hl : cfg.lost → ∀ q ∈ w.lost, q.c1 ∉ B.cols ∧ q.c2 ∉ B.cols) :
    Ok cfg.strict (fun w' => ∃ A', WInv cfg w' A' ∧ Rounds (· ∈ B.cols) w A w' A' ∧ JEq w w' ∧ w'.lost = w.lost ∧ (∀ b', (w'.body b').isSome = (w.body b').isSome) ∧
      ∃ B', w'.body b = some B' ∧ B'.cols = []) (w.removeAllColliders b cws) := by
  induction cws generalizing w A B with
  | nil => exact ⟨A, h, Rounds.refl _ _ _, JEq.refl _, rfl, fun _ => rfl, B, hB, hcs⟩
  | cons cw cws ih =>
    obtain ⟨c, ws⟩ := cw
    unfold removeAllColliders
    rw [List.foldlM_cons]
    rw [List.map_cons] at hcs
    obtain ⟨x, hx, hxb⟩ := (h.s.cols b B hB).2 c (by rw [hcs]; simp)
    have key := removeCollider_ok (ws := ws) h hA hx hxb (hws (c, ws) (by simp)) (fun hl' q hq => by
      obtain ⟨h1, h2⟩ := hl hl' q hq
      rw [hcs] at h1 h2
      exact ⟨fun e => h1 (by simp [e]), fun e => h2 (by simp [e])⟩)
    simp only
    refine Ok.bind key ?_
    rintro w1 _ ⟨A1, g1, g2, g3, g4, g5, g6, g7, g8⟩
    obtain ⟨B1, hB1, e1⟩ := g8 B hB
    rw [hcs, List.erase_cons_head] at e1
    have := ih (w := w1) (A := A1) (B := B1) g1 hB1 e1 (by
      intro cw hcw b' hb'
      obtain ⟨B', hB'⟩ := hws cw (by simp [hcw]) b' hb'
      have := g7 b'
      rw [hB'] at this
      exact Option.isSome_iff_exists.1 this) (by
      intro hl' q hq
      rw [g4] at hq
      obtain ⟨h1, h2⟩ := hl hl' q hq
      rw [hcs] at h1 h2
      rw [e1]
      exact ⟨fun e => h1 (List.mem_cons_of_mem _ e), fun e => h2 (List.mem_cons_of_mem _ e)⟩)
    refine this.mono ?_
    rintro w2 ⟨A2, k1, k2, k3, k4, k5, k6⟩
    refine ⟨A2, k1, (g2.mono ?_).trans (k2.mono ?_), g3.trans k3, k4.trans g4, fun b' => (k5 b').trans (g7 b'), k6⟩
    · rintro c' rfl; rw [hcs]; simp
    · intro c' hc'; rw [hcs]; rw [e1] at hc'; exact List.mem_cons_of_mem _ hc'

/-! ### Activation -/

/-- The flag of activity of a body changes; its colliders may disagree with it for a moment. -/
theorem setActiveFlag_winv {b : Nat} {B : Body} (h : WInv cfg w A) (hB : w.body b = some B) (v : Bool) :
    WInv (cfg.addExA b) (w.setBody b { B with active := v }) A := by
  have h1 := h.addExA b
  have hbk : ∀ b' B', (w.setBody b { B with active := v }).body b' = some B' → ∃ B0, w.body b' = some B0 ∧ B'.type = B0.type ∧ 
      B'.sleeping = B0.sleeping ∧ B'.disabled = B0.disabled ∧ B'.cols = B0.cols ∧ (b' ≠ b → B'.active = B0.active) := by
    intro b' B' hb
    by_cases e : b' = b
    · subst e
      rw [show (w.setBody b' { B with active := v }).body b' = some { B with active := v } from upd_same _ _ _] at hb; cases hb
      exact ⟨B, hB, rfl, rfl, rfl, rfl, fun h => absurd rfl h⟩
    · exact ⟨B', (upd_ne _ _ e).symm.trans hb, rfl, rfl, rfl, rfl, fun _ => rfl⟩
  have hbf : ∀ b' B0, w.body b' = some B0 → ∃ B', (w.setBody b { B with active := v }).body b' = some B' ∧ B'.cols = B0.cols ∧ (b' ≠ b → B'.active = B0.active) := by
    intro b' B0 hb
    by_cases e : b' = b
    · subst e
      rw [hB] at hb; cases hb
      exact ⟨_, upd_same _ _ _, rfl, fun h => absurd rfl h⟩
    · exact ⟨B0, (upd_ne _ _ e).trans hb, rfl, fun _ => rfl⟩
  refine ⟨h.rep, ⟨?_, ?_, ?_, h.s.bp, h.s.bpMap, h.s.tree, h.s.flags, ?_, ?_, h.s.once, h.s.sync⟩, ⟨?_, ?_, ?_, h.d.moved, ?_⟩⟩
  · intro id k p hp
    obtain ⟨x1, x2, ho⟩ := h.s.pair id k p hp
    exact ⟨x1, x2, ⟨ho.c1, ho.c2, ho.ne, ho.b1, ho.b2, ho.id, ho.noColl, ho.cvx, ho.bits⟩⟩
  · intro c x hx
    obtain ⟨B2, h1, h2, h3⟩ := h.s.col c x hx
    obtain ⟨B1, g, g1, g2⟩ := hbf _ _ h1
    refine ⟨B1, g, by rw [g1]; exact h2, ?_⟩
    by_cases e : x.body = b
    · exact Or.inr (Or.inr e)
    · rw [g2 e]; exact h3.imp (fun h => h) Or.inl
  · intro b' B1 h1
    obtain ⟨B2, g, _, _, _, g5, _⟩ := hbk _ _ h1
    rw [g5]; exact h.s.cols b' B2 g
  · intro hl q hq
    have := h.s.lost hl q hq
    simp only [reportable, Bool.and_eq_true, Option.isSome_iff_exists] at this ⊢
    obtain ⟨⟨⟨h1, h2⟩, ⟨B1, h3⟩⟩, ⟨B2, h4⟩⟩ := this
    obtain ⟨B3, g3, _⟩ := hbf _ _ h3
    obtain ⟨B4, g4, _⟩ := hbf _ _ h4
    exact ⟨⟨⟨h1, h2⟩, ⟨B3, g3⟩⟩, ⟨B4, g4⟩⟩
  · intro hc c1 c2 n1 n2 x1 x2 t1 t2 hm
    exact h.s.cover hc c1 c2 n1 n2 x1 x2 t1 t2 ⟨hm.hc1, hm.hc2, hm.hn1, hm.hn2, hm.ht1, hm.ht2, hm.ne, hm.noColl, hm.bits, hm.cvx, hm.fat⟩
  · intro c x B1 hx h1
    obtain ⟨B2, g, _, _, g4, _⟩ := hbk _ _ h1
    rw [g4]; exact h.d.col c x B2 hx g
  · intro b' B1 h1 hs
    obtain ⟨B2, g, g1, _, g4, _⟩ := hbk _ _ h1
    rw [g4]; exact h.d.static b' B2 g (by rw [← g1]; exact hs)
  · intro b' B1 h1 hs
    obtain ⟨B2, g, g1, g3, g4, _⟩ := hbk _ _ h1
    rw [g1, g3]; exact h.d.dis b' B2 g (by rw [← g4]; exact hs)
  · intro hst id k p hp hk c x B1 hc hx h1
    obtain ⟨B2, g, _, _, g4, _⟩ := hbk _ _ h1
    rw [g4]; exact h.d.pair hst id k p hp hk c x B2 hc hx g

theorem setActive_ok {fat : AABB α → AABB α} {box : Nat → AABB α} {b : Nat} {B : Body} {ns : List Nat} (h : WInv cfg w A) (hA : ∀ b, ¬ cfg.exA b)
    (hB : w.body b = some B) (v : Bool) (hns : v = true → ns.Nodup ∧ ns.length = B.cols.length ∧ ∀ n ∈ ns, n < 2 ^ 32 ∧ w.tree n = none) :
    ∃ w', w.setActive fat b v ns box = some w' ∧ Post cfg w A (· ∈ B.cols) w' ∧ JEq w w' ∧ w'.lost = w.lost := by
  unfold setActive
  simp only [hB]
  by_cases he : B.active = v
  · rw [if_pos he]; exact ⟨w, rfl, ⟨A, h, Rounds.refl _ _ _⟩, JEq.refl w, rfl⟩
  rw [if_neg he]
  cases v with
  | true =>
    have hact : B.active = false := by simpa using he
    have e : w.setSleeping b false = some w := by
      unfold World.setSleeping
      simp only [hB]
      split
      · rfl
      · split
        · rfl
        · first | rfl | rw [if_pos hact]
    simp only [Bool.not_true, e, hB, if_true]
    have h1 := setActiveFlag_winv h hB true
    obtain ⟨hn1, hn2, hn3⟩ := hns rfl
    have hz : (B.cols.zip ns).map Prod.fst = B.cols := List.map_fst_zip (by omega)
    have hz2 : (B.cols.zip ns).map Prod.snd = ns := List.map_snd_zip (by omega)
    obtain ⟨w2, e2, k1, k2, k3, k4, k5, k6⟩ := cdAddAll_ok (fat := fat) (box := box) (cns := B.cols.zip ns) h1 (by rw [hz]; exact (h.s.cols b B hB).1) (by rw [hz2]; exact hn1) (by
      rintro ⟨c, n⟩ hm
      obtain ⟨hm1, hm2⟩ := List.of_mem_zip hm
      obtain ⟨x, hx, hxb⟩ := (h.s.cols b B hB).2 c hm1
      refine ⟨⟨x, hx, hxb, ?_⟩, hn3 n hm2⟩
      obtain ⟨B', g1, _, g3⟩ := h.s.col c x hx
      rw [hxb, hB] at g1; cases g1
      have := g3.resolve_right (hA _)
      rw [hact] at this
      exact Option.not_isSome_iff_eq_none.1 (by rw [this]; simp))
    refine ⟨w2, e2, ⟨A, ?_, rounds_same k4⟩, ⟨k3, fun b' => ?_⟩, k4⟩
    · refine k1.dropExA ?_
      intro c x B' hx hxb hB'
      left
      rw [k2] at hB'
      rw [show (w.setBody b { B with active := true }).body b = some { B with active := true } from upd_same _ _ _] at hB'
      cases hB'
      refine k5 c ?_ x hx
      rw [hz]
      obtain ⟨B', g1, g2, _⟩ := k1.s.col c x hx
      rw [hxb, k2, show (w.setBody b { B with active := true }).body b = some { B with active := true } from upd_same _ _ _] at g1
      cases g1; exact g2
    · rw [k2]; exact joints_setBody (B' := { B with active := true }) hB rfl b'
  | false =>
    obtain ⟨w1, A1, e1, g1, g2, g3, g4, g5, g6⟩ := setSleeping_true_ok h hB
    simp only [Bool.not_false, e1, g6]
    have hcols : (if B.type = BType.static ∨ B.active = false ∨ B.sleeping = true then B else { B with sleeping := true, disabled := true }).cols = B.cols := by split <;> rfl
    generalize hB1 : (if B.type = BType.static ∨ B.active = false ∨ B.sleeping = true then B else { B with sleeping := true, disabled := true }) = B1 at *
    have hcols' : B1.cols = B.cols := hcols
    have h1 := setActiveFlag_winv g1 g6 false
    obtain ⟨w2, A2, e2, k1, k2, k3, k4, k5, k6, k7, k8⟩ := cdRemoveAll_ok (cs := B1.cols) h1 (by
      rw [hcols']
      intro c hc
      obtain ⟨x, hx, hxb⟩ := (h.s.cols b B hB).2 c hc
      obtain ⟨x', hx', e'⟩ := g2.col_fwd hx
      exact ⟨x', hx', (Col.core_eq e').1.trans hxb⟩)
    rw [if_neg (by simp)]
    refine ⟨w2, e2, ⟨A2, ?_, ?_⟩, ?_, ?_⟩
    · refine k1.dropExA ?_
      intro c x B' hx hxb hB'
      left
      rw [k2, show (w1.setBody b { B1 with active := false }).body b = some { B1 with active := false } from upd_same _ _ _] at hB'
      cases hB'
      rw [k6 c ?_ x hx]
      · rfl
      · obtain ⟨B', q1, q2, _⟩ := k1.s.col c x hx
        rw [hxb, k2, show (w1.setBody b { B1 with active := false }).body b = some { B1 with active := false } from upd_same _ _ _] at q1
        cases q1; exact q2
    · rw [hcols'] at k5
      exact ((g2.rounds _).trans (rounds_same (w' := w1.setBody b { B1 with active := false }) rfl)).trans k5
    · refine g2.jeq.trans ⟨k3, fun b' => ?_⟩
      rw [k2]; exact joints_setBody (B' := { B1 with active := false }) g6 rfl b'
    · rw [k4]; exact g2.lost

/-! ### Joints -/

theorem jnt_winv (h : WInv cfg w A) (f : Nat → Option Jnt) : WInv cfg { w with jnt := f } A := by
  refine ⟨h.rep, ⟨?_, h.s.col, h.s.cols, h.s.bp, h.s.bpMap, h.s.tree, h.s.flags, h.s.lost, ?_, h.s.once, h.s.sync⟩, ⟨h.d.col, h.d.static, h.d.dis, h.d.moved, h.d.pair⟩⟩
  · intro id k p hp
    obtain ⟨x1, x2, ho⟩ := h.s.pair id k p hp
    exact ⟨x1, x2, ⟨ho.c1, ho.c2, ho.ne, ho.b1, ho.b2, ho.id, ho.noColl, ho.cvx, ho.bits⟩⟩
  · intro hc c1 c2 n1 n2 x1 x2 t1 t2 hm
    exact h.s.cover hc c1 c2 n1 n2 x1 x2 t1 t2 ⟨hm.hc1, hm.hc2, hm.hn1, hm.hn2, hm.ht1, hm.ht2, hm.ne, hm.noColl, hm.bits, hm.cvx, hm.fat⟩

theorem setNoColl_true_winv {q : Nat × Nat} (h : WInv cfg w A)
    (hq : ∀ id k p x1 x2, A id = some (k, p) → w.col p.c1 = some x1 → w.col p.c2 = some x2 → bodyPair x1.body x2.body ≠ q) : WInv cfg (w.setNoColl q true) A := by
  refine ⟨h.rep, ⟨?_, h.s.col, h.s.cols, h.s.bp, h.s.bpMap, h.s.tree, h.s.flags, h.s.lost, ?_, h.s.once, h.s.sync⟩, ⟨h.d.col, h.d.static, h.d.dis, h.d.moved, h.d.pair⟩⟩
  · intro id k p hp
    obtain ⟨x1, x2, ho⟩ := h.s.pair id k p hp
    refine ⟨x1, x2, ⟨ho.c1, ho.c2, ho.ne, ho.b1, ho.b2, ho.id, ?_, ho.cvx, ho.bits⟩⟩
    have := hq id k p x1 x2 hp ho.c1 ho.c2
    simp only [setNoColl, if_neg this]
    exact ho.noColl
  · intro hc c1 c2 n1 n2 x1 x2 t1 t2 hm
    refine h.s.cover hc c1 c2 n1 n2 x1 x2 t1 t2 ⟨hm.hc1, hm.hc2, hm.hn1, hm.hn2, hm.ht1, hm.ht2, hm.ne, ?_, hm.bits, hm.cvx, hm.fat⟩
    have := hm.noColl
    simp only [setNoColl] at this
    split at this
    · cases this
    · exact this

theorem setNoColl_false_winv {q : Nat × Nat} (h : WInv cfg w A)
    (hq : cfg.cover → ∀ c1 c2 x1 x2, w.col c1 = some x1 → w.col c2 = some x2 → bodyPair x1.body x2.body ≠ q) : WInv cfg (w.setNoColl q false) A := by
  refine ⟨h.rep, ⟨?_, h.s.col, h.s.cols, h.s.bp, h.s.bpMap, h.s.tree, h.s.flags, h.s.lost, ?_, h.s.once, h.s.sync⟩, ⟨h.d.col, h.d.static, h.d.dis, h.d.moved, h.d.pair⟩⟩
  · intro id k p hp
    obtain ⟨x1, x2, ho⟩ := h.s.pair id k p hp
    refine ⟨x1, x2, ⟨ho.c1, ho.c2, ho.ne, ho.b1, ho.b2, ho.id, ?_, ho.cvx, ho.bits⟩⟩
    simp only [setNoColl]
    split
    · rfl
    · exact ho.noColl
  · intro hc c1 c2 n1 n2 x1 x2 t1 t2 hm
    refine h.s.cover hc c1 c2 n1 n2 x1 x2 t1 t2 ⟨hm.hc1, hm.hc2, hm.hn1, hm.hn2, hm.ht1, hm.ht2, hm.ne, ?_, hm.bits, hm.cvx, hm.fat⟩
    have := hm.noColl
    simp only [setNoColl, if_neg (hq hc _ _ _ _ hm.hc1 hm.hc2)] at this
    exact this

/-- Removing a pair and recording its loss does not change the round of events. -/
theorem removeOverlap_rounds {id : Nat} {k : Kind} {p : Pair} {s : PStore} {l : List CPair} (h : WInv cfg w A) (ha : A id = some (k, p))
    (hl : w.lostOf p true = some l) : Rounds nobody w A { w with store := s, lost := w.lost ++ l } (upd A id none) := by
  obtain ⟨l', hl', _, _, h3, h4⟩ := lostOf_ok h ha true
  rw [hl] at hl'; cases hl'
  intro c1 c2 _ _
  constructor
  · rintro (⟨id', k', p', hp, g1, g2⟩ | ⟨q, hq, g⟩)
    · have hne : id' ≠ id := by intro e; subst e; rw [upd_same] at hp; cases hp
      rw [upd_ne _ _ hne] at hp
      exact Or.inl ⟨id', k', p', hp, g1, g2⟩
    · rcases List.mem_append.1 hq with hq | hq
      · exact Or.inr ⟨q, hq, g⟩
      · cases hpv : p.prev with
        | false => rw [h3 hpv] at hq; cases hq
        | true =>
          obtain ⟨q', x1, x2, e, _, _, e'⟩ := h4 hpv rfl
          rw [e, List.mem_singleton] at hq
          subst hq; subst e'
          exact Or.inl ⟨id, k, p, ha, hpv, g⟩
  · rintro (⟨id', k', p', hp, g1, g2⟩ | ⟨q, hq, g⟩)
    · by_cases e : id' = id
      · subst e
        rw [ha] at hp; cases hp
        obtain ⟨q', x1, x2, e, _, _, e'⟩ := h4 g1 rfl
        refine Or.inr ⟨q', ?_, ?_⟩
        · show q' ∈ w.lost ++ l
          rw [e]; simp
        · subst e'; exact g2
      · exact Or.inl ⟨id', k', p', by rw [upd_ne _ _ e]; exact hp, g1, g2⟩
    · exact Or.inr ⟨q, List.mem_append_left _ hq, g⟩

theorem removeAll_ok {ids : List Nat} (h : WInv cfg w A) (hcov : ¬ cfg.cover) (hn : ids.Nodup) (hi : ∀ id ∈ ids, ∃ x, A id = some x) :
    ∃ s l, ids.foldlM (fun w id => w.removeOverlap id true) w = some { w with store := s, lost := w.lost ++ l } ∧
      WInv cfg { w with store := s, lost := w.lost ++ l } (fun id => if id ∈ ids then none else A id) ∧
      Rounds nobody w A { w with store := s, lost := w.lost ++ l } (fun id => if id ∈ ids then none else A id) ∧
      ∀ q ∈ l, ∃ id k p, A id = some (k, p) ∧ q.id = id ∧ q.c1 = p.c1 ∧ q.c2 = p.c2 := by
  induction ids generalizing w A with
  | nil =>
    refine ⟨w.store, [], ?_, ?_, ?_, by simp⟩
    · rw [List.append_nil]; rfl
    · rw [List.append_nil]; simpa using h
    · rw [List.append_nil]; simpa using Rounds.refl nobody w A
  | cons id ids ih =>
    rw [List.nodup_cons] at hn
    obtain ⟨⟨k, p⟩, ha⟩ := hi id (by simp)
    obtain ⟨s, l, e, hw, hl⟩ := removeOverlap_ok h ha true (fun hc => absurd hc hcov)
    have hr := removeOverlap_rounds (s := s) h ha hl
    obtain ⟨s', l', e', hw', hr', hl'⟩ := ih hw hn.2 (by
      intro id' hid'
      obtain ⟨x, hx⟩ := hi id' (by simp [hid'])
      exact ⟨x, by rw [upd_ne _ _ (by intro e; subst e; exact hn.1 hid')]; exact hx⟩)
    have hA' : (fun id' => if id' ∈ id :: ids then none else A id') = (fun id' => if id' ∈ ids then none else upd A id none id') := by
      funext id'
      by_cases e : id' = id
      · subst e; rw [if_pos (by simp), upd_same]; simp
      · rw [upd_ne _ _ e]
        by_cases e2 : id' ∈ ids
        · rw [if_pos (by simp [e2]), if_pos e2]
        · rw [if_neg (by simp [e, e2]), if_neg e2]
    refine ⟨s', l ++ l', ?_, ?_, ?_, ?_⟩
    · rw [List.foldlM_cons, e]
      simp only [Option.bind_eq_bind, Option.bind_some]
      rw [← List.append_assoc]
      exact e'
    · rw [hA', ← List.append_assoc]; exact hw'
    · rw [hA', ← List.append_assoc]; exact hr.trans hr'
    · intro q hq
      rcases List.mem_append.1 hq with hq | hq
      · obtain ⟨l'', hl'', _, _, h3, h4⟩ := lostOf_ok h ha true
        rw [hl] at hl''; cases hl''
        cases hpv : p.prev with
        | false => rw [h3 hpv] at hq; cases hq
        | true =>
          obtain ⟨q', x1, x2, e, _, _, e''⟩ := h4 hpv rfl
          rw [e, List.mem_singleton] at hq
          subst hq; subst e''
          exact ⟨id, k, p, ha, (h.rep.wf _ _ _ ha).1, rfl, rfl⟩
      · obtain ⟨id', k', p', hp', g⟩ := hl' q hq
        have hne : id' ≠ id := by intro e; subst e; rw [upd_same] at hp'; cases hp'
        rw [upd_ne _ _ hne] at hp'
        exact ⟨id', k', p', hp', g⟩

theorem removeOverlap_setNoColl (w : World α) (q : Nat × Nat) (v : Bool) (id : Nat) (nt : Bool) :
    (w.setNoColl q v).removeOverlap id nt = (w.removeOverlap id nt).map (fun w => w.setNoColl q v) := by
  unfold removeOverlap
  simp only [show (w.setNoColl q v).store = w.store from rfl, show ∀ p, (w.setNoColl q v).lostOf p nt = w.lostOf p nt from fun _ => rfl]
  cases w.store.deref id with
  | none => rfl
  | some p =>
    simp only
    cases w.lostOf p nt with
    | none => rfl
    | some l =>
      simp only
      cases w.store.removePair id with
      | none => rfl
      | some s => rfl

theorem removeAll_setNoColl (q : Nat × Nat) (v : Bool) (ids : List Nat) (w : World α) :
    ids.foldlM (fun (w : World α) id => w.removeOverlap id true) (w.setNoColl q v) = (ids.foldlM (fun (w : World α) id => w.removeOverlap id true) w).map (fun w => w.setNoColl q v) := by
  induction ids generalizing w with
  | nil => rfl
  | cons id ids ih =>
    rw [List.foldlM_cons, List.foldlM_cons, removeOverlap_setNoColl]
    cases w.removeOverlap id true with
    | none => rfl
    | some w1 =>
      simp only [Option.map_some, Option.bind_eq_bind, Option.bind_some]
      exact ih w1

theorem addNoColl_ok {b1 b2 : Nat} {B1 : Body} (h : WInv cfg w A) (hne12 : b1 ≠ b2) (hB : w.body b1 = some B1) :
    ∃ s l A', w.addNoColl b1 b2 = some ({ w with store := s, lost := w.lost ++ l }.setNoColl (bodyPair b1 b2) true) ∧
      WInv cfg ({ w with store := s, lost := w.lost ++ l }.setNoColl (bodyPair b1 b2) true) A' ∧
      Rounds nobody w A ({ w with store := s, lost := w.lost ++ l }.setNoColl (bodyPair b1 b2) true) A' := by
  unfold addNoColl
  simp only [hB]
  have hcon : ∀ c, ∀ id ∈ w.store.own c, ∃ b, (w.setNoColl (bodyPair b1 b2) true).concerns b2 id = some b := by
    intro c id hid
    obtain ⟨k, p, hp, _⟩ := (h.rep.own c id).1 hid
    obtain ⟨x1, x2, ho⟩ := h.s.pair id k p hp
    refine ⟨decide (x1.body = b2) || decide (x2.body = b2), ?_⟩
    simp only [concerns, setNoColl]
    rw [h.rep.deref_eq hp]
    simp only [ho.c1, ho.c2]
  have hmap := mapO_eq (f := (w.setNoColl (bodyPair b1 b2) true).noCollIds b2)
    (g := fun c => (w.store.own c).filter (fun id => (w.setNoColl (bodyPair b1 b2) true).concerns b2 id = some true)) (l := B1.cols) (by
      intro c hc
      unfold noCollIds
      obtain ⟨r, e1, e2⟩ := collect_some (hcon c)
      exact e1.trans (by rw [e2]))
  rw [hmap]
  simp only
  generalize hids : (B1.cols.map fun c => (w.store.own c).filter (fun id => (w.setNoColl (bodyPair b1 b2) true).concerns b2 id = some true)).flatten = ids
  have hmem : ∀ id, id ∈ ids ↔ ∃ c ∈ B1.cols, id ∈ w.store.own c ∧ (w.setNoColl (bodyPair b1 b2) true).concerns b2 id = some true := by
    intro id
    rw [← hids]
    simp only [List.mem_flatten, List.mem_map]
    constructor
    · rintro ⟨l, ⟨c, hc, rfl⟩, hm⟩
      rw [List.mem_filter] at hm
      exact ⟨c, hc, hm.1, by simpa using hm.2⟩
    · rintro ⟨c, hc, h1, h2⟩
      exact ⟨_, ⟨c, hc, rfl⟩, List.mem_filter.2 ⟨h1, by simpa using h2⟩⟩
  have hnd : ids.Nodup := by
    rw [← hids, List.nodup_flatten]
    constructor
    · intro l hl
      obtain ⟨c, hc, rfl⟩ := List.mem_map.1 hl
      exact (h.rep.nodup c).filter _
    · rw [List.pairwise_map]
      refine (h.s.cols b1 B1 hB).1.imp_of_mem ?_
      intro c c' hc hc' hne id hid hid'
      have m1 := (List.mem_filter.1 hid).1
      have m2 := (List.mem_filter.1 hid').1
      obtain ⟨k, p, hp, e1⟩ := (h.rep.own c id).1 m1
      obtain ⟨k', p', hp', e2⟩ := (h.rep.own c' id).1 m2
      rw [hp] at hp'; cases hp'
      obtain ⟨x1, x2, ho⟩ := h.s.pair id k p hp
      obtain ⟨y, hy, hyb⟩ := (h.s.cols b1 B1 hB).2 c hc
      obtain ⟨y', hy', hyb'⟩ := (h.s.cols b1 B1 hB).2 c' hc'
      rcases e1 with e1 | e1 <;> rcases e2 with e2 | e2
      · exact hne (e1.symm.trans e2)
      · rw [← e1, ho.c1] at hy; rw [← e2, ho.c2] at hy'; cases hy; cases hy'
        exact ho.ne (hyb.trans hyb'.symm)
      · rw [← e1, ho.c2] at hy; rw [← e2, ho.c1] at hy'; cases hy; cases hy'
        exact ho.ne (hyb'.trans hyb.symm)
      · exact hne (e1.symm.trans e2)
  have hin : ∀ id ∈ ids, ∃ k p x1 x2, A id = some (k, p) ∧ w.col p.c1 = some x1 ∧ w.col p.c2 = some x2 ∧ bodyPair x1.body x2.body = bodyPair b1 b2 := by
    intro id hid
    obtain ⟨c, hc, h1, h2⟩ := (hmem id).1 hid
    obtain ⟨k, p, hp, e1⟩ := (h.rep.own c id).1 h1
    obtain ⟨x1, x2, ho⟩ := h.s.pair id k p hp
    refine ⟨k, p, x1, x2, hp, ho.c1, ho.c2, ?_⟩
    simp only [concerns, setNoColl] at h2
    rw [h.rep.deref_eq hp] at h2
    simp only [ho.c1, ho.c2, Option.some.injEq, Bool.or_eq_true, decide_eq_true_eq] at h2
    obtain ⟨y, hy, hyb⟩ := (h.s.cols b1 B1 hB).2 c hc
    rcases e1 with e1 | e1
    · rw [← e1, ho.c1] at hy; cases hy
      rcases h2 with h2 | h2
      · exact absurd (hyb.symm.trans h2) hne12
      · rw [hyb, h2]
    · rw [← e1, ho.c2] at hy; cases hy
      rcases h2 with h2 | h2
      · rw [hyb, h2]; exact bodyPair_comm _ _
      · exact absurd (hyb.symm.trans h2) hne12
  have hout : ∀ id k p x1 x2, A id = some (k, p) → w.col p.c1 = some x1 → w.col p.c2 = some x2 → bodyPair x1.body x2.body = bodyPair b1 b2 → id ∈ ids := by
    intro id k p x1 x2 hp hx1 hx2 e
    rw [hmem]
    have hco : (w.setNoColl (bodyPair b1 b2) true).concerns b2 id = some (decide (x1.body = b2) || decide (x2.body = b2)) := by
      simp only [concerns, setNoColl]
      rw [h.rep.deref_eq hp]
      simp only [hx1, hx2]
    rcases bodyPair_eq e with ⟨a1, a2⟩ | ⟨a1, a2⟩
    · obtain ⟨B', q1, q2, _⟩ := h.s.col _ _ hx1
      rw [a1, hB] at q1; cases q1
      exact ⟨p.c1, q2, (h.rep.own _ id).2 ⟨k, p, hp, Or.inl rfl⟩, by rw [hco]; simp [a2]⟩
    · obtain ⟨B', q1, q2, _⟩ := h.s.col _ _ hx2
      rw [a2, hB] at q1; cases q1
      exact ⟨p.c2, q2, (h.rep.own _ id).2 ⟨k, p, hp, Or.inr rfl⟩, by rw [hco]; simp [a1]⟩
  obtain ⟨s, l, e, hw, hr, _⟩ := removeAll_ok h.noCover (fun h => h) hnd (fun id hid => by
    obtain ⟨k, p, _, _, hp, _⟩ := hin id hid
    exact ⟨_, hp⟩)
  refine ⟨s, l, fun id => if id ∈ ids then none else A id, by rw [removeAll_setNoColl, e]; rfl, ?_, ?_⟩
  rotate_left
  · intro c1 c2 h1 h2
    exact hr c1 c2 h1 h2
  · have h2 : WInv cfg.noCover ({ w with store := s, lost := w.lost ++ l }.setNoColl (bodyPair b1 b2) true) (fun id => if id ∈ ids then none else A id) := by
      refine setNoColl_true_winv hw ?_
      intro id k p x1 x2 hp hx1 hx2 e
      split at hp
      · cases hp
      · rename_i hni
        exact hni (hout id k p x1 x2 hp hx1 hx2 e)
    refine h2.cover ?_
    intro hc c1 c2 n1 n2 x1 x2 t1 t2 hm
    have hnc := hm.noColl
    simp only [setNoColl] at hnc
    split at hnc
    · cases hnc
    rename_i hq
    rcases h.s.cover hc c1 c2 n1 n2 x1 x2 t1 t2 ⟨hm.hc1, hm.hc2, hm.hn1, hm.hn2, hm.ht1, hm.ht2, hm.ne, hnc, hm.bits, hm.cvx, hm.fat⟩ with ⟨⟨k, p⟩, hp⟩ | h1
    · left
      refine ⟨(k, p), ?_⟩
      rw [if_neg]; exact hp
      intro hid
      obtain ⟨k', p', y1, y2, hp', hy1, hy2, e⟩ := hin _ hid
      rw [hp] at hp'; cases hp'
      rcases h.pair_at hm.hc1 hm.hc2 hm.hn1 hm.hn2 hp with ⟨a1, a2⟩ | ⟨a1, a2⟩
      · rw [a1, show w.col c1 = some x1 from hm.hc1] at hy1; rw [a2, show w.col c2 = some x2 from hm.hc2] at hy2; cases hy1; cases hy2
        exact hq e
      · rw [a1, show w.col c2 = some x2 from hm.hc2] at hy1; rw [a2, show w.col c1 = some x1 from hm.hc1] at hy2; cases hy1; cases hy2
        rw [bodyPair_comm] at e
        exact hq e
    · exact Or.inr h1

/-- The set of body pairs that must not collide is the set of pairs joined by a joint without collision; one direction only if `N`. -/
structure NInv (N : Prop) (w : World α) : Prop where
  from_joint : N → ∀ j J, w.jnt j = some J → J.coll = false → w.noColl (bodyPair J.b1 J.b2) = true
  to_joint : ∀ q, w.noColl q = true → ∃ j J, w.jnt j = some J ∧ J.coll = false ∧ bodyPair J.b1 J.b2 = q

theorem JN.ninv {N : Prop} (h : JN w w') (hn : NInv N w) : NInv N w' := by
  obtain ⟨h1, h2⟩ := hn
  refine ⟨?_, ?_⟩
  · rw [h.1, h.2]; exact h1
  · rw [h.1, h.2]; exact h2

/-- Both parts of the invariant that are about joints. -/
structure JJ (N : Prop) (w : World α) : Prop where
  j : JInv w
  n : NInv N w

theorem JEq.jj {N : Prop} (h : JEq w w') (hj : JJ N w) : JJ N w' := ⟨h.jinv hj.j, h.1.ninv hj.n⟩

theorem addJointTo_ok {b j : Nat} {B : Body} (h : WInv cfg w A) (hB : w.body b = some B) :
    w.addJointTo b j = some (w.setBody b { B with joints := B.joints ++ [j] }) ∧ WInv cfg (w.setBody b { B with joints := B.joints ++ [j] }) A := by
  refine ⟨by simp only [addJointTo, hB, Option.map_some], setBody_winv h hB rfl rfl rfl rfl rfl⟩

theorem createJoint_ok {N : Prop} {j b1 b2 : Nat} {B1 B2 : Body} {coll : Bool} (h : WInv cfg w A) (hj : JJ N w) (hne : b1 ≠ b2) (hB1 : w.body b1 = some B1)
    (hB2 : w.body b2 = some B2) (hf : w.jnt j = none) :
    ∃ w', w.createJoint j b1 b2 coll = some w' ∧ Post cfg w A nobody w' ∧ JJ N w' := by
  unfold createJoint
  have h0 := jnt_winv h (upd w.jnt j (some ⟨b1, b2, coll⟩))
  have key : ∃ w1 A1, (if coll = true then some { w with jnt := upd w.jnt j (some ⟨b1, b2, coll⟩) }
      else ({ w with jnt := upd w.jnt j (some ⟨b1, b2, coll⟩) } : World α).addNoColl b1 b2) = some w1 ∧ WInv cfg w1 A1 ∧
      Rounds nobody w A w1 A1 ∧ w1.body = w.body ∧ w1.jnt = upd w.jnt j (some ⟨b1, b2, coll⟩) ∧
      w1.noColl = (if coll = true then w.noColl else fun q => if q = bodyPair b1 b2 then true else w.noColl q) := by
    cases coll with
    | true => exact ⟨_, A, by rw [if_pos rfl], h0, rounds_same rfl, rfl, rfl, rfl⟩
    | false =>
      obtain ⟨s, l, A', e, g1, g2⟩ := addNoColl_ok (b2 := b2) h0 hne hB1
      refine ⟨_, A', by rw [if_neg (by simp), e], g1, ?_, rfl, rfl, by rw [if_neg (by simp)]; rfl⟩
      intro c1 c2 q1 q2
      exact g2 c1 c2 q1 q2
  obtain ⟨w1, A1, e1, g1, g2, g3, g4, g5⟩ := key
  simp only [e1]
  obtain ⟨e2, k1⟩ := addJointTo_ok (j := j) g1 (show w1.body b1 = some B1 by rw [g3]; exact hB1)
  simp only [e2]
  have hb2 : (w1.setBody b1 { B1 with joints := B1.joints ++ [j] }).body b2 = some B2 := by
    rw [show (w1.setBody b1 { B1 with joints := B1.joints ++ [j] }).body b2 = w1.body b2 from upd_ne _ _ hne.symm, g3]; exact hB2
  obtain ⟨e3, k2⟩ := addJointTo_ok (j := j) k1 hb2
  refine ⟨_, e3, ⟨A1, k2, g2⟩, ?_⟩
  have hbody : ∀ b, ((w1.setBody b1 { B1 with joints := B1.joints ++ [j] }).setBody b2 { B2 with joints := B2.joints ++ [j] }).body b =
      (w.body b).map (fun B => if b = b1 ∨ b = b2 then { B with joints := B.joints ++ [j] } else B) := by
    intro b
    show upd (upd w1.body b1 _) b2 _ b = _
    rw [g3]
    by_cases e : b = b2
    · subst e; rw [upd_same, hB2]; simp
    · rw [upd_ne _ _ e]
      by_cases e' : b = b1
      · subst e'; rw [upd_same, hB1]; simp
      · rw [upd_ne _ _ e']
        cases w.body b <;> simp [e, e']
  generalize hw3 : (w1.setBody b1 { B1 with joints := B1.joints ++ [j] }).setBody b2 { B2 with joints := B2.joints ++ [j] } = w3 at *
  have hjnt : w3.jnt = upd w.jnt j (some ⟨b1, b2, coll⟩) := by rw [← hw3]; exact g4
  have hnoc : w3.noColl = (if coll = true then w.noColl else fun q => if q = bodyPair b1 b2 then true else w.noColl q) := by rw [← hw3]; exact g5
  refine ⟨⟨?_, ?_⟩, ⟨?_, ?_⟩⟩
  · intro j' J hJ
    rw [hjnt] at hJ
    by_cases e : j' = j
    · subst e
      rw [upd_same] at hJ; cases hJ
      refine ⟨hne, ?_⟩
      rintro b (rfl | rfl)
      · exact ⟨_, by rw [hbody, hB1]; rfl, by simp⟩
      · exact ⟨_, by rw [hbody, hB2]; rfl, by simp⟩
    · rw [upd_ne _ _ e] at hJ
      obtain ⟨q1, q2⟩ := hj.j.jnt j' J hJ
      refine ⟨q1, fun b hb => ?_⟩
      obtain ⟨B, hB, hm⟩ := q2 b hb
      refine ⟨_, by rw [hbody, hB]; rfl, ?_⟩
      split
      · simp [hm]
      · exact hm
  · intro b B' hB'
    rw [hbody] at hB'
    cases hb : w.body b with
    | none => rw [hb] at hB'; cases hB'
    | some B =>
      rw [hb] at hB'
      simp only [Option.map_some, Option.some.injEq] at hB'
      obtain ⟨q1, q2⟩ := hj.j.joints b B hb
      have hold : ∀ j' ∈ B.joints, ∃ J, w3.jnt j' = some J ∧ (b = J.b1 ∨ b = J.b2) := by
        intro j' hj'
        obtain ⟨J, r1, r2⟩ := q2 j' hj'
        have : j' ≠ j := by intro e; subst e; rw [hf] at r1; cases r1
        exact ⟨J, by rw [hjnt, upd_ne _ _ this]; exact r1, r2⟩
      by_cases e : b = b1 ∨ b = b2
      · rw [if_pos e] at hB'
        subst hB'
        refine ⟨?_, ?_⟩
        · show (B.joints ++ [j]).Nodup
          rw [List.nodup_append]
          refine ⟨q1, List.nodup_singleton _, ?_⟩
          intro a ha d hd e
          rw [List.mem_singleton] at hd
          subst hd; subst e
          obtain ⟨J, r1, _⟩ := q2 a ha
          rw [hf] at r1; cases r1
        · intro j' hj'
          rcases List.mem_append.1 hj' with hj' | hj'
          · exact hold j' hj'
          · rw [List.mem_singleton] at hj'; subst hj'
            exact ⟨_, by rw [hjnt]; exact upd_same _ _ _, e⟩
      · rw [if_neg e] at hB'
        subst hB'
        exact ⟨q1, hold⟩
  · intro hN j' J hJ hc
    rw [hjnt] at hJ
    rw [hnoc]
    by_cases e : j' = j
    · subst e
      rw [upd_same] at hJ; cases hJ
      simp only at hc; subst hc
      simp
    · rw [upd_ne _ _ e] at hJ
      have := hj.n.from_joint hN j' J hJ hc
      split
      · exact this
      · beta_reduce
        split
        · rfl
        · exact this
  · intro q hq
    rw [hnoc] at hq
    have hold : w.noColl q = true → ∃ j' J, w3.jnt j' = some J ∧ J.coll = false ∧ bodyPair J.b1 J.b2 = q := by
      intro hq'
      obtain ⟨j', J, r1, r2, r3⟩ := hj.n.to_joint q hq'
      have : j' ≠ j := by intro e; subst e; rw [hf] at r1; cases r1
      exact ⟨j', J, by rw [hjnt, upd_ne _ _ this]; exact r1, r2, r3⟩
    cases coll with
    | true => exact hold hq
    | false =>
      simp only [Bool.false_eq_true, if_false] at hq
      split at hq
      · rename_i e
        exact ⟨j, ⟨b1, b2, false⟩, by rw [hjnt]; exact upd_same _ _ _, rfl, e.symm⟩
      · exact hold hq

/-- What is kept of bodies: colliders and joints. -/
def Body.links (B : Body) : List Nat × List Nat := (B.cols, B.joints)

theorem Frame.links (h : Frame w A w' A') (b : Nat) : (w'.body b).map Body.links = (w.body b).map Body.links := by
  have := congrArg (Option.map Body.links) (h.body b)
  rw [Option.map_map, Option.map_map] at this
  exact this

theorem removeJointFrom_ok {b j : Nat} {B : Body} (h : WInv cfg w A) (hB : w.body b = some B) :
    w.removeJointFrom b j = some (w.setBody b { B with joints := B.joints.erase j }) ∧ WInv cfg (w.setBody b { B with joints := B.joints.erase j }) A := by
  refine ⟨by simp only [removeJointFrom, hB, Option.map_some], setBody_winv h hB rfl rfl rfl rfl rfl⟩

theorem destroyJoint_ok {N : Prop} {j : Nat} {J : Jnt} (h : WInv cfg w A) (hj : JJ N w) (hJ : w.jnt j = some J)
    (hcov : cfg.cover → J.coll = true ∨ ∃ b, (b = J.b1 ∨ b = J.b2) ∧ ∀ B, w.body b = some B → B.cols = [])
    (hN : N → J.coll = false → ∀ j' J', w.jnt j' = some J' → J'.coll = false → bodyPair J'.b1 J'.b2 = bodyPair J.b1 J.b2 → j' = j) :
    Ok cfg.strict (fun w' => ∃ A', WInv cfg w' A' ∧ Rounds nobody w A w' A' ∧ JJ N w' ∧ w'.lost = w.lost ∧ w'.jnt = upd w.jnt j none ∧
      ∀ b, (w'.body b).map Body.links = (w.body b).map (fun B => (B.cols, if b = J.b1 ∨ b = J.b2 then B.joints.erase j else B.joints))) (w.destroyJoint j) := by
  unfold destroyJoint
  simp only [hJ]
  obtain ⟨hne, hbs⟩ := hj.j.jnt j J hJ
  obtain ⟨B1, hB1, _⟩ := hbs J.b1 (Or.inl rfl)
  obtain ⟨B2, hB2, _⟩ := hbs J.b2 (Or.inr rfl)
  have h0 : WInv cfg (if J.coll = true then w else w.setNoColl (bodyPair J.b1 J.b2) false) A := by
    split
    · exact h
    · rename_i hc
      refine setNoColl_false_winv h ?_
      intro hcv c1 c2 x1 x2 hx1 hx2 e
      obtain ⟨B3, q1, q2, _⟩ := h.s.col _ _ hx1
      obtain ⟨B4, q3, q4, _⟩ := h.s.col _ _ hx2
      rcases hcov hcv with h1 | ⟨b, hb, h1⟩
      · exact hc h1
      · have : x1.body = b ∨ x2.body = b := by
          rcases bodyPair_eq e with ⟨a1, a2⟩ | ⟨a1, a2⟩ <;> rcases hb with hb | hb <;> rw [hb] <;> tauto
        rcases this with e | e
        · rw [e] at q1; rw [h1 B3 q1] at q2; cases q2
        · rw [e] at q3; rw [h1 B4 q3] at q4; cases q4
  have hw0b : (if J.coll = true then w else w.setNoColl (bodyPair J.b1 J.b2) false).body = w.body := by split <;> rfl
  have hw0j : (if J.coll = true then w else w.setNoColl (bodyPair J.b1 J.b2) false).jnt = w.jnt := by split <;> rfl
  have hw0l : (if J.coll = true then w else w.setNoColl (bodyPair J.b1 J.b2) false).lost = w.lost := by split <;> rfl
  have hw0n : (if J.coll = true then w else w.setNoColl (bodyPair J.b1 J.b2) false).noColl =
      (if J.coll = true then w.noColl else fun q => if q = bodyPair J.b1 J.b2 then false else w.noColl q) := by split <;> rfl
  generalize (if J.coll = true then w else w.setNoColl (bodyPair J.b1 J.b2) false) = w0 at *
  have hr0 : Rounds nobody w A w0 A := rounds_same hw0l
  have key := h0.setSleeping (b := J.b1) (by rw [hw0b]; exact hB1) false
  cases hk1 : w0.setSleeping J.b1 false with
  | none => rw [hk1] at key; exact key
  | some w1 =>
    rw [hk1] at key
    obtain ⟨A1, g1, g2, _⟩ := key
    simp only
    obtain ⟨B2', hB2', _⟩ := g2.body_fwd (b := J.b2) (by rw [hw0b]; exact hB2)
    have key2 := g1.setSleeping hB2' false
    cases hk2 : w1.setSleeping J.b2 false with
    | none => rw [hk2] at key2; exact key2
    | some w2 =>
      rw [hk2] at key2
      obtain ⟨A2, g3, g4, _⟩ := key2
      simp only
      have fr := g2.trans g4
      obtain ⟨C1, hC1, eC1⟩ := fr.body_fwd (b := J.b1) (by rw [hw0b]; exact hB1)
      obtain ⟨C2, hC2, eC2⟩ := fr.body_fwd (b := J.b2) (by rw [hw0b]; exact hB2)
      obtain ⟨e1, k1⟩ := removeJointFrom_ok (j := j) g3 hC1
      rw [e1]
      simp only
      obtain ⟨e2, k2⟩ := removeJointFrom_ok (j := j) k1 (b := J.b2) (B := C2) ((upd_ne _ _ hne.symm).trans hC2)
      rw [e2]
      simp only
      have hlinks : ∀ b, ((((w2.setBody J.b1 { C1 with joints := C1.joints.erase j }).setBody J.b2 { C2 with joints := C2.joints.erase j })).body b).map Body.links =
          (w.body b).map (fun B => (B.cols, if b = J.b1 ∨ b = J.b2 then B.joints.erase j else B.joints)) := by
        intro b
        show (upd (upd w2.body J.b1 _) J.b2 _ b).map Body.links = _
        obtain ⟨_, _, c3, _, c5⟩ := Body.core_eq eC1
        obtain ⟨_, _, d3, _, d5⟩ := Body.core_eq eC2
        by_cases e : b = J.b2
        · subst e
          rw [upd_same, hB2]; simp [Body.links, d3, d5]
        · rw [upd_ne _ _ e]
          by_cases e' : b = J.b1
          · subst e'
            rw [upd_same, hB1]; simp [Body.links, c3, c5]
          · rw [upd_ne _ _ e', fr.links b, hw0b]
            simp only [e, e', or_self, if_false]
            rfl
      generalize hw3 : (w2.setBody J.b1 { C1 with joints := C1.joints.erase j }).setBody J.b2 { C2 with joints := C2.joints.erase j } = w3 at *
      have hj3 : w3.jnt = w.jnt := by rw [← hw3]; exact fr.jnt.trans hw0j
      have hl3 : w3.lost = w.lost := by rw [← hw3]; exact fr.lost.trans hw0l
      have hn3 : w3.noColl = (if J.coll = true then w.noColl else fun q => if q = bodyPair J.b1 J.b2 then false else w.noColl q) := by
        rw [← hw3]; exact fr.noColl.trans hw0n
      refine ⟨A2, jnt_winv k2 _, ?_, ⟨⟨?_, ?_⟩, ⟨?_, ?_⟩⟩, hl3, by rw [← hj3], hlinks⟩
      · refine (hr0.trans (fr.rounds _)).trans (rounds_same ?_)
        rw [show ({ w3 with jnt := upd w3.jnt j none } : World α).lost = w3.lost from rfl, hl3, fr.lost, hw0l]
      · intro j' J' hJ'
        simp only [hj3] at hJ'
        have hne' : j' ≠ j := by intro e; subst e; rw [upd_same] at hJ'; cases hJ'
        rw [upd_ne _ _ hne'] at hJ'
        obtain ⟨q1, q2⟩ := hj.j.jnt j' J' hJ'
        refine ⟨q1, fun b hb => ?_⟩
        obtain ⟨B, hB, hm⟩ := q2 b hb
        have := hlinks b
        rw [hB] at this
        cases hb3 : w3.body b with
        | none => rw [hb3] at this; cases this
        | some B3 =>
          rw [hb3] at this
          simp only [Option.map_some, Option.some.injEq, Body.links, Prod.mk.injEq] at this
          refine ⟨B3, rfl, ?_⟩
          rw [this.2]
          split
          · exact (List.mem_erase_of_ne hne').2 hm
          · exact hm
      · intro b B3 hb3
        simp only at hb3
        have := hlinks b
        rw [hb3] at this
        cases hb : w.body b with
        | none => rw [hb] at this; cases this
        | some B =>
          rw [hb] at this
          simp only [Option.map_some, Option.some.injEq, Body.links, Prod.mk.injEq] at this
          obtain ⟨q1, q2⟩ := hj.j.joints b B hb
          rw [this.2]
          simp only [hj3]
          by_cases e : b = J.b1 ∨ b = J.b2
          · rw [if_pos e]
            refine ⟨q1.erase j, fun j' hj' => ?_⟩
            have hm := q1.mem_erase_iff.1 hj'
            rw [upd_ne _ _ hm.1]; exact q2 j' hm.2
          · rw [if_neg e]
            refine ⟨q1, fun j' hj' => ?_⟩
            obtain ⟨J', r1, r2⟩ := q2 j' hj'
            have : j' ≠ j := by
              intro e'; subst e'; rw [hJ] at r1; cases r1; exact e r2
            rw [upd_ne _ _ this]; exact ⟨J', r1, r2⟩
      · intro hn j' J' hJ' hc
        simp only [hj3] at hJ'
        have hne' : j' ≠ j := by intro e; subst e; rw [upd_same] at hJ'; cases hJ'
        rw [upd_ne _ _ hne'] at hJ'
        have := hj.n.from_joint hn j' J' hJ' hc
        simp only [hn3]
        split
        · exact this
        · rename_i hcc
          beta_reduce
          split
          · rename_i eq
            exact absurd (hN hn (by simpa using hcc) j' J' hJ' hc eq) hne'
          · exact this
      · intro q hq
        simp only [hn3] at hq
        have hq' : w.noColl q = true ∧ (J.coll = true ∨ q ≠ bodyPair J.b1 J.b2) := by
          split at hq
          · rename_i hc; exact ⟨hq, Or.inl hc⟩
          · beta_reduce at hq
            split at hq
            · cases hq
            · rename_i hne'; exact ⟨hq, Or.inr hne'⟩
        obtain ⟨j', J', r1, r2, r3⟩ := hj.n.to_joint q hq'.1
        refine ⟨j', J', ?_, r2, r3⟩
        simp only [hj3]
        have : j' ≠ j := by
          intro e; subst e
          rw [hJ] at r1; cases r1
          rcases hq'.2 with h1 | h1
          · rw [r2] at h1; cases h1
          · exact h1 r3.symm
        rw [upd_ne _ _ this]; exact r1

/-- A body without colliders whose joints are destroyed one by one. -/
theorem destroyJoints_ok {N : Prop} {b : Nat} {B : Body} (m : Nat) (h : WInv cfg w A) (hj : JJ N w) (hB : w.body b = some B) (hc : B.cols = [])
    (hm : B.joints.length = m)
    (hN : N → ∀ j J j' J', w.jnt j = some J → w.jnt j' = some J' → (b = J.b1 ∨ b = J.b2) → J.coll = false → J'.coll = false →
      bodyPair J'.b1 J'.b2 = bodyPair J.b1 J.b2 → j' = j) :
    Ok cfg.strict (fun w' => ∃ A', WInv cfg w' A' ∧ Rounds nobody w A w' A' ∧ JJ N w' ∧ w'.lost = w.lost ∧ (∀ b', (w'.body b').isSome = (w.body b').isSome) ∧
      (∀ j, w'.jnt j = (w.jnt j).bind fun J => if b = J.b1 ∨ b = J.b2 then none else some J) ∧
      ∃ B', w'.body b = some B' ∧ B'.cols = [] ∧ B'.joints = []) (w.destroyJoints b m) := by
  induction m generalizing w A B with
  | zero =>
    have h0 : B.joints = [] := List.length_eq_zero_iff.1 hm
    unfold destroyJoints
    simp only [hB, h0, if_true]
    refine ⟨A, h, Rounds.refl _ _ _, hj, rfl, fun _ => rfl, ?_, B, hB, hc, h0⟩
    intro j
    cases hJ : w.jnt j with
    | none => rfl
    | some J =>
    simp only [Option.bind_some]
    rw [if_neg]
    intro hb
    obtain ⟨B', q1, q2⟩ := (hj.j.jnt j J hJ).2 b hb
    rw [hB] at q1; cases q1
    rw [h0] at q2; cases q2
  | succ m ih =>
    unfold destroyJoints
    simp only [hB]
    cases hjs : B.joints with
    | nil => rw [hjs] at hm; cases hm
    | cons j rest =>
      simp only
      obtain ⟨J, hJ, hbJ⟩ := (hj.j.joints b B hB).2 j (by rw [hjs]; simp)
      have key := destroyJoint_ok h hj hJ (fun _ => Or.inr ⟨b, hbJ, fun B' hB' => by rw [hB] at hB'; cases hB'; exact hc⟩)
        (fun hn hcl j' J' hJ' hc' e => hN hn j J j' J' hJ hJ' hbJ hcl hc' e)
      cases hk : w.destroyJoint j with
      | none => rw [hk] at key; exact key
      | some w1 =>
        rw [hk] at key
        obtain ⟨A1, g1, g2, g3, g4, g5, g6⟩ := key
        simp only
        have hl := g6 b
        rw [hB] at hl
        cases hb1 : w1.body b with
        | none => rw [hb1] at hl; cases hl
        | some B1 =>
          rw [hb1] at hl
          simp only [Option.map_some, Option.some.injEq, Body.links, Prod.mk.injEq, if_pos hbJ, hjs, List.erase_cons_head] at hl
          have := ih (w := w1) (A := A1) (B := B1) g1 g3 hb1 (hl.1.trans hc) (by rw [hl.2]; rw [hjs] at hm; simpa using hm) (by
            intro hn j1 J1 j2 J2 h1 h2 h3 h4 h5 h6
            rw [g5] at h1 h2
            have n1 : j1 ≠ j := by intro e; subst e; rw [upd_same] at h1; cases h1
            have n2 : j2 ≠ j := by intro e; subst e; rw [upd_same] at h2; cases h2
            rw [upd_ne _ _ n1] at h1; rw [upd_ne _ _ n2] at h2
            exact hN hn j1 J1 j2 J2 h1 h2 h3 h4 h5 h6)
          refine this.mono ?_
          rintro w2 ⟨A2, k1, k2, k3, k4, k5, k6, k7⟩
          refine ⟨A2, k1, g2.trans k2, k3, k4.trans g4, fun b' => (k5 b').trans ?_, ?_, k7⟩
          · have := congrArg Option.isSome (g6 b')
            simpa using this
          · intro j'
            rw [k6 j', g5]
            by_cases e : j' = j
            · subst e
              rw [upd_same, hJ]
              simp only [Option.bind_none, Option.bind_some, if_pos hbJ]
            · rw [upd_ne _ _ e]

/-- A body without colliders and joints is deleted. -/
theorem delBody_ok {N : Prop} {b : Nat} {B : Body} (h : WInv cfg w A) (hj : JJ N w) (hB : w.body b = some B) (hc : B.cols = []) (hjs : B.joints = [])
    (hl : cfg.lost → ∀ q ∈ w.lost, q.b1 ≠ b ∧ q.b2 ≠ b) : WInv cfg { w with body := upd w.body b none } A ∧ JJ N { w with body := upd w.body b none } := by
  have hbk : ∀ b' B', upd w.body b none b' = some B' → b' ≠ b ∧ w.body b' = some B' := by
    intro b' B' h1
    have : b' ≠ b := by intro e; subst e; rw [upd_same] at h1; cases h1
    exact ⟨this, by rw [upd_ne _ _ this] at h1; exact h1⟩
  have hcb : ∀ c x, w.col c = some x → x.body ≠ b := by
    intro c x hx e
    obtain ⟨B', h1, h2, _⟩ := h.s.col c x hx
    rw [e, hB] at h1; cases h1
    rw [hc] at h2; cases h2
  refine ⟨⟨h.rep, ⟨?_, ?_, ?_, h.s.bp, h.s.bpMap, h.s.tree, h.s.flags, ?_, ?_, h.s.once, h.s.sync⟩, ⟨?_, ?_, ?_, h.d.moved, ?_⟩⟩, ⟨?_, ?_⟩, ⟨hj.n.from_joint, hj.n.to_joint⟩⟩
  · intro id k p hp
    obtain ⟨x1, x2, ho⟩ := h.s.pair id k p hp
    exact ⟨x1, x2, ⟨ho.c1, ho.c2, ho.ne, ho.b1, ho.b2, ho.id, ho.noColl, ho.cvx, ho.bits⟩⟩
  · intro c x hx
    obtain ⟨B', h1, h2, h3⟩ := h.s.col c x hx
    exact ⟨B', (upd_ne _ _ (hcb c x hx)).trans h1, h2, h3⟩
  · intro b' B' hB'
    exact h.s.cols b' B' (hbk b' B' hB').2
  · intro hl' q hq
    have := h.s.lost hl' q hq
    obtain ⟨n1, n2⟩ := hl hl' q hq
    simp only [reportable, Bool.and_eq_true, Option.isSome_iff_exists] at this ⊢
    obtain ⟨⟨⟨h1, h2⟩, ⟨B1, h3⟩⟩, ⟨B2, h4⟩⟩ := this
    exact ⟨⟨⟨h1, h2⟩, ⟨B1, (upd_ne _ _ n1).trans h3⟩⟩, ⟨B2, (upd_ne _ _ n2).trans h4⟩⟩
  · intro hc c1 c2 n1 n2 x1 x2 t1 t2 hm
    exact h.s.cover hc c1 c2 n1 n2 x1 x2 t1 t2 ⟨hm.hc1, hm.hc2, hm.hn1, hm.hn2, hm.ht1, hm.ht2, hm.ne, hm.noColl, hm.bits, hm.cvx, hm.fat⟩
  · intro c x B' hx hB'
    exact h.d.col c x B' hx (hbk _ _ hB').2
  · intro b' B' hB' hs
    exact h.d.static b' B' (hbk _ _ hB').2 hs
  · intro b' B' hB' hs
    exact h.d.dis b' B' (hbk _ _ hB').2 hs
  · intro hst id k p hp hk c x B' hcp hx hB'
    exact h.d.pair hst id k p hp hk c x B' hcp hx (hbk _ _ hB').2
  · intro j J hJ
    obtain ⟨h1, h2⟩ := hj.j.jnt j J hJ
    refine ⟨h1, fun b' hb' => ?_⟩
    obtain ⟨B', h3, h4⟩ := h2 b' hb'
    have : b' ≠ b := by intro e; subst e; rw [hB] at h3; cases h3; rw [hjs] at h4; cases h4
    exact ⟨B', (upd_ne _ _ this).trans h3, h4⟩
  · intro b' B' hB'
    exact hj.j.joints b' B' (hbk _ _ hB').2

theorem destroyBody_ok {N : Prop} {b : Nat} {B : Body} {wss : List (List Nat)} (h : WInv cfg w A) (hA : ∀ b, ¬ cfg.exA b) (hj : JJ N w) (hB : w.body b = some B)
    (hlen : wss.length = B.cols.length) (hws : ∀ ws ∈ wss, ∀ b ∈ ws, ∃ B, w.body b = some B)
    (hl : cfg.lost → ∀ q ∈ w.lost, q.c1 ∉ B.cols ∧ q.c2 ∉ B.cols ∧ q.b1 ≠ b ∧ q.b2 ≠ b)
    (hN : N → ∀ j J j' J', w.jnt j = some J → w.jnt j' = some J' → (b = J.b1 ∨ b = J.b2) → J.coll = false → J'.coll = false →
      bodyPair J'.b1 J'.b2 = bodyPair J.b1 J.b2 → j' = j) :
    Ok cfg.strict (fun w' => Post cfg w A (· ∈ B.cols) w' ∧ JJ N w' ∧ w'.lost = w.lost ∧ w'.body b = none ∧
      ∀ j, w'.jnt j = (w.jnt j).bind fun J => if b = J.b1 ∨ b = J.b2 then none else some J) (w.destroyBody b wss) := by
  unfold destroyBody
  simp only [hB]
  have key := removeAllColliders_ok (cws := B.cols.zip wss) h hA hB (List.map_fst_zip (by omega)).symm (by
    rintro ⟨c, ws⟩ hm b' hb'
    exact hws ws (List.of_mem_zip hm).2 b' hb') (fun hl' q hq => ⟨(hl hl' q hq).1, (hl hl' q hq).2.1⟩)
  cases hk : w.removeAllColliders b (B.cols.zip wss) with
  | none => rw [hk] at key; exact key
  | some w1 =>
    rw [hk] at key
    obtain ⟨A1, g1, g2, g3, g4, g5, B1, hB1, hc1⟩ := key
    simp only
    have hjl : B1.joints = B.joints := by
      have := g3.2 b
      rw [hB, hB1] at this
      simpa using this
    have key2 := destroyJoints_ok B.joints.length g1 (g3.jj hj) hB1 hc1 (by rw [hjl]) (by rw [g3.1.1]; exact hN)
    cases hk2 : w1.destroyJoints b B.joints.length with
    | none => rw [hk2] at key2; exact key2
    | some w2 =>
      rw [hk2] at key2
      obtain ⟨A2, k1, k2, k3, k4, k5, k6, B2, hB2, hc2, hj2⟩ := key2
      obtain ⟨r1, r2⟩ := delBody_ok k1 k3 hB2 hc2 hj2 (fun hl' q hq => by
        rw [k4, g4] at hq
        exact ⟨(hl hl' q hq).2.2.1, (hl hl' q hq).2.2.2⟩)
      refine ⟨⟨A2, r1, ?_⟩, r2, k4.trans g4, upd_same _ _ _, ?_⟩
      · exact (g2.trans (k2.mono (fun c h => h.elim))).trans (rounds_same rfl)
      · intro j
        show w2.jnt j = _
        rw [k6 j, g3.1.1]

end World
end RP3D
