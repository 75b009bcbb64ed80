import Verif.World.Step

/-! Lemmas: a step of the simulation and the queries of the world. -/

set_option linter.unusedVariables false
set_option linter.unusedSimpArgs false
set_option linter.unusedSectionVars false

namespace RP3D

theorem Ok.weak {S S' : Prop} {β : Type} {P : β → Prop} {o : Option β} (h : Ok S P o) (hs : S' → S) : Ok S' P o := by
  cases o with
  | none => exact fun h' => h (hs h')
  | some x => exact h

namespace World
variable {α : Type} [LinearOrder α]
variable {w w' w'' : World α} {A A' A'' : PMap} {cfg : Cfg}

instance (a b c d : Nat) : Decidable (Same2 a b c d) := by unfold Same2; infer_instance

/-- The kinds of the events of two colliders, in order. -/
def kinds (ev : List Event) (c1 c2 : Nat) : List EvKind := (ev.filter fun e => decide (Same2 e.c1 e.c2 c1 c2)).map Event.kind

/-- The events of two colliders in one frame follow the rounds: a start opens a round, an exit closes it, and a stay happens only in an open
round. -/
def RoundStep (o : Prop) (ks : List EvKind) (o' : Prop) : Prop :=
  (¬ o ∧ ks = [] ∧ ¬ o') ∨ (¬ o ∧ ks = [.start] ∧ o') ∨ (o ∧ ks = [] ∧ o') ∨ (o ∧ ks = [.stay] ∧ o') ∨ (o ∧ ks = [.exit] ∧ ¬ o')

def Cfg.noSync (cfg : Cfg) : Cfg := { cfg with sync := False }

theorem WInv.noSync (h : WInv cfg w A) : WInv cfg.noSync w A :=
  ⟨h.rep, h.s.weaken (fun h => h) (fun h => h) (fun h => h) (fun h => h.elim) (fun _ h => h), ⟨h.d.col, h.d.static, h.d.dis, h.d.moved, h.d.pair⟩⟩

theorem WInv.addSync (h : WInv cfg.noSync w A) (hs : cfg.sync → ∀ id k p, A id = some (k, p) → p.cur = p.prev) : WInv cfg w A := by
  refine ⟨h.rep, ⟨?_, h.s.col, h.s.cols, h.s.bp, h.s.bpMap, h.s.tree, h.s.flags, h.s.lost, h.s.cover, h.s.once, hs⟩, ⟨h.d.col, h.d.static, h.d.dis, h.d.moved, h.d.pair⟩⟩
  intro id k p hp
  obtain ⟨x1, x2, ho⟩ := h.s.pair id k p hp
  exact ⟨x1, x2, ⟨ho.c1, ho.c2, ho.ne, ho.b1, ho.b2, ho.id, ho.noColl, ho.cvx, ho.bits⟩⟩

theorem filter_one {β : Type} {S : β → Bool} {l : List β} {q : β} (hl : l.Pairwise fun a b => ¬ (S a = true ∧ S b = true)) (hq : q ∈ l) (hs : S q = true) :
    l.filter S = [q] := by
  induction l with
  | nil => cases hq
  | cons a l ih =>
    rw [List.pairwise_cons] at hl
    rcases List.mem_cons.1 hq with rfl | hq
    · rw [List.filter_cons, if_pos hs, List.filter_eq_nil_iff.2]
      intro b hb hsb
      exact hl.1 b hb ⟨hs, hsb⟩
    · rw [List.filter_cons, if_neg (fun ha => hl.1 q hq ⟨ha, hs⟩), ih hl.2 hq]

theorem kinds_append (ev ev' : List Event) (c1 c2 : Nat) : kinds (ev ++ ev') c1 c2 = kinds ev c1 c2 ++ kinds ev' c1 c2 := by
  simp [kinds]

/-- The pairs of the same colliders have the same id, also in two worlds with the same colliders. -/
theorem pair_unique2 (h : WInv cfg w A) (h' : WInv cfg w' A') (hc : ∀ c x, w.col c = some x → ∃ x', w'.col c = some x' ∧ x'.bp = x.bp) {id id' : Nat} {k k' : Kind}
    {p p' : Pair} (hp : A id = some (k, p)) (hp' : A' id' = some (k', p')) (hs : Same2 p.c1 p.c2 p'.c1 p'.c2) : id = id' := by
  obtain ⟨x1, x2, ho⟩ := h.s.pair _ _ _ hp
  obtain ⟨y1, y2, ho'⟩ := h'.s.pair _ _ _ hp'
  obtain ⟨z1, hz1, e1⟩ := hc _ _ ho.c1
  obtain ⟨z2, hz2, e2⟩ := hc _ _ ho.c2
  have e : p.id = p'.id := by
    rw [ho.id, ho'.id]
    have b1 := ho.b1; have b2 := ho.b2
    rw [← e1] at b1; rw [← e2] at b2
    rcases hs with ⟨f1, f2⟩ | ⟨f1, f2⟩
    · rw [f1, ho'.c1] at hz1; rw [f2, ho'.c2] at hz2
      cases hz1; cases hz2
      rw [ho'.b1] at b1; rw [ho'.b2] at b2
      rw [Option.some.inj b1, Option.some.inj b2]
    · rw [f1, ho'.c2] at hz1; rw [f2, ho'.c1] at hz2
      cases hz1; cases hz2
      rw [ho'.b2] at b1; rw [ho'.b1] at b2
      rw [Option.some.inj b1, Option.some.inj b2]; exact pairId_comm _ _
  rw [← (h.rep.wf _ _ _ hp).1, ← (h'.rep.wf _ _ _ hp').1, e]

/-- What a step does to the events. -/
structure Stepped (cfg : Cfg) (hit : Nat → Bool) (w : World α) (A : PMap) (w' : World α) (A' : PMap) (ev : List Event) : Prop where
  /-- rounds of events; no contact is reported for two colliders whose last contact has been recorded as lost before the step -/
  rounds : cfg.sync → ∀ c1 c2, (∀ q ∈ w.lost, Same2 q.c1 q.c2 c1 c2 → ∀ e ∈ ev, Same2 e.c1 e.c2 c1 c2 → e.kind = .exit) →
    RoundStep (Open A w.lost c1 c2) (kinds ev c1 c2) (Open A' w'.lost c1 c2)
  /-- events refer to existing colliders -/
  exist : ∀ e ∈ ev, (∃ x, w'.col e.c1 = some x) ∧ ∃ x, w'.col e.c2 = some x
  /-- contacts are reported only for colliders that may collide -/
  contact : ∀ e ∈ ev, e.kind ≠ .exit → ∃ k p x1 x2, PairOk cfg w k p x1 x2 ∧ e.c1 = p.c1 ∧ e.c2 = p.c2 ∧ hit p.id = true ∧ w.isTested false p = some true
  /-- the end of each contact recorded as lost is reported -/
  reported : ∀ q ∈ w.lost, lostEvent q ∈ ev
  /-- a contact between two colliders that may collide is reported if one of their bodies takes part in the simulation -/
  told : cfg.cover → cfg.strict → ∀ c1 c2 n1 n2 x1 x2 t1 t2, Meet w c1 c2 n1 n2 x1 x2 t1 t2 → (x1.sim || x1.trigger) = true → (x2.sim || x2.trigger) = true →
    (!x1.disabled || !x2.disabled) = true → hit (pairId n1 n2) = true → ∃ e ∈ ev, e.kind ≠ .exit ∧ Same2 e.c1 e.c2 c1 c2
  /-- no lost contact is left -/
  lost : w'.lost = []

theorem kinds_contacts (cs : List CPair) (c1 c2 : Nat) :
    kinds (cs.map contactEvent) c1 c2 = (cs.filter fun q => decide (Same2 q.c1 q.c2 c1 c2)).map fun q => if q.prev then .stay else .start := by
  simp only [kinds, List.filter_map, List.map_map]
  rfl

theorem kinds_lost (L : List CPair) (c1 c2 : Nat) :
    kinds (L.map lostEvent) c1 c2 = (L.filter fun q => decide (Same2 q.c1 q.c2 c1 c2)).map fun _ => .exit := by
  simp only [kinds, List.filter_map, List.map_map]
  rfl

/-- The rounds of events of one step, in terms of the successive maps of pairs. -/
theorem round_core {w1 : World α} {A1 A4 : PMap} {nodes : List (Nat × Nat)} {l1 l4 cs : List CPair} {H : List Nat} (h : WInv cfg w A) (h1 : WInv cfg w1 A1)
    (hcol : w1.col = w.col) (hlost : w1.lost = w.lost ++ l1) (hb : Broad w nodes A A1 l1) (hnd : H.Nodup)
    (hH : ∀ id ∈ H, ∃ k p, A1 id = some (k, p) ∧ k.enabled = true)
    (hcs : Contacts w1 (flagMap A1 fun p => { p with cur := false }) H cs)
    (hcore : ∀ id, (A4 id).map pairCore = (hitMap (flagMap A1 fun p => { p with cur := false }) H id).map pairCore)
    (hup : Up (hitMap (flagMap A1 fun p => { p with cur := false }) H) A4)
    (hl1 : ∀ q ∈ l4, ∃ id k p, A4 id = some (k, p) ∧ k.enabled = true ∧ p.prev = true ∧ p.cur = false ∧ LostOf q p)
    (hl2 : ∀ id k p, A4 id = some (k, p) → k.enabled = true → p.prev = true → p.cur = false → ∃ q ∈ l4, LostOf q p)
    (hl3 : l4.Pairwise (fun q r => ¬ Same2 q.c1 q.c2 r.c1 r.c2))
    (hsync : ∀ id k p, A id = some (k, p) → p.cur = p.prev) (c1 c2 : Nat)
    (hno : ∀ q ∈ w.lost, Same2 q.c1 q.c2 c1 c2 → ∀ e ∈ cs.map contactEvent, ¬ Same2 e.c1 e.c2 c1 c2) :
    RoundStep (Open A w.lost c1 c2) (kinds (cs.map contactEvent ++ (w.lost ++ l1 ++ l4).map lostEvent) c1 c2)
      (Open (flagMap A4 fun p => { p with prev := p.cur }) [] c1 c2) := by
  -- from the last map back to the first
  have back4 : ∀ id k p, A4 id = some (k, p) → ∃ k1 p1, A1 id = some (k1, p1) ∧ p.c1 = p1.c1 ∧ p.c2 = p1.c2 ∧ p.prev = p1.prev ∧
      p.cur = (if id ∈ H then true else if k1.enabled = true then false else p1.cur) ∧ (k1.enabled = true → k.enabled = true) := by
    intro id k p hp
    obtain ⟨⟨k3, p3⟩, h3, e3⟩ := map_fwd (hcore id).symm hp
    obtain ⟨p2, h2, e2⟩ := hitMap_bwd h3
    obtain ⟨p1, g1, e1⟩ := flagMap_bwd h2
    obtain ⟨_, _, _, _, a1, a2, a3, a4⟩ := pairCore_eq e3
    refine ⟨k3, p1, g1, ?_, ?_, ?_, ?_, ?_⟩
    · rw [← a1, e2, e1]; split <;> split <;> rfl
    · rw [← a2, e2, e1]; split <;> split <;> rfl
    · rw [← a3, e2, e1]; split <;> split <;> rfl
    · rw [← a4, e2, e1]; split <;> split <;> rfl
    · intro hk
      obtain ⟨k', p', g, hk'⟩ := hup id k3 p3 h3 hk
      rw [hp] at g; cases g; exact hk'
  have fwd4 : ∀ id k1 p1, A1 id = some (k1, p1) → ∃ k p, A4 id = some (k, p) := by
    intro id k1 p1 hp
    obtain ⟨⟨k, p⟩, h, _⟩ := map_fwd (hcore id) (hitMap_fwd (ids := H) (flagMap_fwd (f := fun p => { p with cur := false }) hp))
    exact ⟨k, p, h⟩
  -- disabled pairs are synchronised
  have sync1 : ∀ id k p, A1 id = some (k, p) → k.enabled = false → p.cur = p.prev := by
    intro id k p hp hk
    rcases hb.old id k p hp with ⟨p0, hp0, e⟩ | ⟨_, _, _, he⟩
    · rw [e]; exact hsync id k p0 hp0
    · rw [hk] at he; cases he
  have hcolE : ∀ c x, w.col c = some x → ∃ x', w1.col c = some x' ∧ x'.bp = x.bp := fun c x hx => ⟨x, by rw [hcol]; exact hx, rfl⟩
  -- contacts
  have hcp : ∀ q ∈ cs, q.id ∈ H ∧ ∃ k p, A1 q.id = some (k, p) ∧ k.enabled = true ∧ q.c1 = p.c1 ∧ q.c2 = p.c2 ∧ q.prev = p.prev := by
    intro q hq
    have hin : q.id ∈ H := by rw [← hcs.ids]; exact List.mem_map_of_mem hq
    obtain ⟨k, p2, g1, g2, g3, g4, _⟩ := hcs.pair q hq
    obtain ⟨p1, f1, e1⟩ := flagMap_bwd g1
    obtain ⟨k', p', f2, f3⟩ := hH q.id hin
    rw [f1] at f2; cases f2
    refine ⟨hin, k, p1, f1, f3, ?_, ?_, ?_⟩
    · rw [g2, e1]; split <;> rfl
    · rw [g3, e1]; split <;> rfl
    · rw [g4, e1]; split <;> rfl
  have hcs1 : cs.Pairwise fun a b => ¬ (decide (Same2 a.c1 a.c2 c1 c2) = true ∧ decide (Same2 b.c1 b.c2 c1 c2) = true) := by
    have h0 : (cs.map CPair.id).Nodup := by rw [hcs.ids]; exact hnd
    unfold List.Nodup at h0
    rw [List.pairwise_map] at h0
    refine h0.imp_of_mem ?_
    rintro a b ha hb hne ⟨s1, s2⟩
    obtain ⟨_, k, p, g1, _, g2, g3, _⟩ := hcp a ha
    obtain ⟨_, k', p', g1', _, g2', g3', _⟩ := hcp b hb
    apply hne
    refine h1.pair_unique g1 g1' ?_
    rw [← g2, ← g3, ← g2', ← g3']
    exact (of_decide_eq_true s1).trans (of_decide_eq_true s2).symm
  have hL1 : ∀ q ∈ w.lost ++ l1, ∀ id k p, A1 id = some (k, p) → p.prev = true → ¬ Same2 p.c1 p.c2 q.c1 q.c2 := by
    intro q hq; rw [← hlost] at hq; exact h1.s.once.apart q hq
  have hL : (w.lost ++ l1 ++ l4).Pairwise fun a b => ¬ (decide (Same2 a.c1 a.c2 c1 c2) = true ∧ decide (Same2 b.c1 b.c2 c1 c2) = true) := by
    have : (w.lost ++ l1 ++ l4).Pairwise fun q r => ¬ Same2 q.c1 q.c2 r.c1 r.c2 := by
      rw [List.pairwise_append]
      refine ⟨by rw [← hlost]; exact h1.s.once.once, hl3, ?_⟩
      intro q hq r hr hs
      obtain ⟨id, k, p, g1, g2, g3, g4, g5⟩ := hl1 r hr
      obtain ⟨k1, p1, f1, f2, f3, f4, _⟩ := back4 id k p g1
      refine hL1 q hq id k1 p1 f1 (by rw [← f4]; exact g3) ?_
      rw [← f2, ← f3, ← g5.2.1, ← g5.2.2]; exact hs.symm
    exact this.imp (fun hne hs => hne ((of_decide_eq_true hs.1).trans (of_decide_eq_true hs.2).symm))
  have hopen := hb.rounds c1 c2
  rw [kinds_append, kinds_contacts, kinds_lost]
  have nocs : (∀ q ∈ cs, ¬ Same2 q.c1 q.c2 c1 c2) → (cs.filter fun q => decide (Same2 q.c1 q.c2 c1 c2)) = [] := by
    intro hn
    rw [List.filter_eq_nil_iff]
    intro q hq hs
    exact hn q hq (of_decide_eq_true hs)
  have noL : (∀ q ∈ w.lost ++ l1 ++ l4, ¬ Same2 q.c1 q.c2 c1 c2) → ((w.lost ++ l1 ++ l4).filter fun q => decide (Same2 q.c1 q.c2 c1 c2)) = [] := by
    intro hn
    rw [List.filter_eq_nil_iff]
    intro q hq hs
    exact hn q hq (of_decide_eq_true hs)
  have open5 : Open (flagMap A4 fun p => { p with prev := p.cur }) [] c1 c2 ↔
      ∃ id k p, A4 id = some (k, p) ∧ (if k.enabled = true then p.cur else p.prev) = true ∧ Same2 p.c1 p.c2 c1 c2 := by
    constructor
    · rintro (⟨id, k, p', g1, g2, g3⟩ | ⟨q, hq, _⟩)
      · obtain ⟨p, g4, e⟩ := flagMap_bwd g1
        refine ⟨id, k, p, g4, ?_, ?_⟩
        · rw [e] at g2
          split at g2 <;> rename_i hk
          · rw [if_pos hk]; exact g2
          · rw [if_neg hk]; exact g2
        · rw [e] at g3
          split at g3 <;> exact g3
      · cases hq
    · rintro ⟨id, k, p, g1, g2, g3⟩
      refine Or.inl ⟨id, k, _, flagMap_fwd g1, ?_, ?_⟩
      · split at g2 <;> rename_i hk
        · rw [if_pos hk]; exact g2
        · rw [if_neg hk]; exact g2
      · split <;> exact g3
  by_cases hq : ∃ q ∈ w.lost ++ l1, Same2 q.c1 q.c2 c1 c2
  · -- the contact was already lost
    obtain ⟨q, hq, hqs⟩ := hq
    have ho : Open A w.lost c1 c2 := hopen.1 (Or.inr ⟨q, hq, hqs⟩)
    have hnc : ∀ r ∈ cs, ¬ Same2 r.c1 r.c2 c1 c2 := by
      intro r hr hrs
      rcases List.mem_append.1 hq with hq1 | hq1
      · exact hno q hq1 hqs (contactEvent r) (List.mem_map_of_mem hr) hrs
      · obtain ⟨id, k, p, g1, g2, g3, g4⟩ := hb.lost.of q hq1
        obtain ⟨_, k', p', f1, _, f2, f3, _⟩ := hcp r hr
        have := pair_unique2 h h1 hcolE g1 f1 (by
          rw [← g4.2.1, ← g4.2.2, ← f2, ← f3]; exact hqs.trans hrs.symm)
        rw [this, f1] at g2; cases g2
    refine Or.inr (Or.inr (Or.inr (Or.inr ⟨ho, ?_, ?_⟩)))
    · rw [nocs hnc, filter_one hL (List.mem_append_left _ hq) (decide_eq_true hqs)]
      rfl
    · rw [open5]
      rintro ⟨id, k, p, g1, g2, g3⟩
      obtain ⟨k1, p1, f1, f2, f3, f4, f5, f6⟩ := back4 id k p g1
      have hs1 : Same2 p1.c1 p1.c2 q.c1 q.c2 := by rw [← f2, ← f3]; exact g3.trans hqs.symm
      have hnH : id ∉ H := by
        intro hin
        rw [← hcs.ids] at hin
        obtain ⟨r, hr, e⟩ := List.mem_map.1 hin
        obtain ⟨_, k', p', f1', _, f2', f3', _⟩ := hcp r hr
        rw [e, f1] at f1'; cases f1'
        exact hnc r hr (by rw [f2', f3', ← f2, ← f3]; exact g3)
      rw [if_neg hnH] at f5
      cases hk1 : k1.enabled with
      | true =>
        rw [if_pos (f6 hk1), f5, if_pos hk1] at g2; cases g2
      | false =>
        have hsy := sync1 id k1 p1 f1 hk1
        have hp1 : p1.prev = true := by
          split at g2
          · rw [f5, if_neg (by rw [hk1]; simp)] at g2
            rw [← hsy]; exact g2
          · rw [← f4]; exact g2
        exact hL1 q hq id k1 p1 f1 hp1 hs1
  · by_cases hp : ∃ id k1 p1, A1 id = some (k1, p1) ∧ Same2 p1.c1 p1.c2 c1 c2
    · obtain ⟨id, k1, p1, f1, hs⟩ := hp
      obtain ⟨k, p, g1⟩ := fwd4 id k1 p1 f1
      obtain ⟨k1', p1', f1', f2, f3, f4, f5, f6⟩ := back4 id k p g1
      rw [f1] at f1'; cases f1'
      have ho : Open A w.lost c1 c2 ↔ p1.prev = true := by
        rw [← hopen]
        constructor
        · rintro (⟨id', k', p', g1', g2', g3'⟩ | hq')
          · have := h1.pair_unique g1' f1 (g3'.trans hs.symm)
            subst this
            rw [f1] at g1'; cases g1'; exact g2'
          · exact absurd hq' hq
        · intro hpr; exact Or.inl ⟨id, k1, p1, f1, hpr, hs⟩
      have ho' : Open (flagMap A4 fun p => { p with prev := p.cur }) [] c1 c2 ↔ (if k.enabled = true then p.cur else p.prev) = true := by
        rw [open5]
        constructor
        · rintro ⟨id', k', p', g1', g2', g3'⟩
          obtain ⟨k2, p2, a1, a2, a3, _⟩ := back4 id' k' p' g1'
          have := h1.pair_unique a1 f1 (by rw [← a2, ← a3]; exact g3'.trans hs.symm)
          subst this
          rw [g1] at g1'; cases g1'; exact g2'
        · intro hpr; exact ⟨id, k, p, g1, hpr, by rw [f2, f3]; exact hs⟩
      have hls : Same2 p.c1 p.c2 c1 c2 := by rw [f2, f3]; exact hs
      -- whether the pair is in the list of lost contacts of this step
      have hl4 : (∀ q ∈ l4, ¬ Same2 q.c1 q.c2 c1 c2) ∨ (k.enabled = true ∧ p.prev = true ∧ p.cur = false) := by
        by_cases hx : k.enabled = true ∧ p.prev = true ∧ p.cur = false
        · exact Or.inr hx
        · left
          intro q hq hqs
          obtain ⟨id', k', p', a1, a2, a3, a4, a5⟩ := hl1 q hq
          obtain ⟨k2, p2, b1, b2, b3, _⟩ := back4 id' k' p' a1
          have := h1.pair_unique b1 f1 (by rw [← b2, ← b3, ← a5.2.1, ← a5.2.2]; exact hqs.trans hs.symm)
          subst this
          rw [g1] at a1; cases a1
          exact hx ⟨a2, a3, a4⟩
      have noL' : (∀ q ∈ l4, ¬ Same2 q.c1 q.c2 c1 c2) → ((w.lost ++ l1 ++ l4).filter fun q => decide (Same2 q.c1 q.c2 c1 c2)) = [] := by
        intro hn
        apply noL
        intro q hq' hqs
        rcases List.mem_append.1 hq' with hq' | hq'
        · exact hq ⟨q, hq', hqs⟩
        · exact hn q hq' hqs
      by_cases hin : id ∈ H
      · rw [if_pos hin] at f5
        have hk1 : k1.enabled = true := by
          obtain ⟨k', p', e1, e2⟩ := hH id hin
          rw [f1] at e1; cases e1; exact e2
        have hk := f6 hk1
        have hll : ∀ q ∈ l4, ¬ Same2 q.c1 q.c2 c1 c2 := by
          rcases hl4 with h | ⟨_, _, h⟩
          · exact h
          · rw [f5] at h; cases h
        obtain ⟨r, hr, er⟩ : ∃ r ∈ cs, r.id = id := by
          have := hin
          rw [← hcs.ids] at this
          exact List.mem_map.1 this
        obtain ⟨_, k', p', e1, e2, e3, e4, e5⟩ := hcp r hr
        rw [er, f1] at e1; cases e1
        rw [filter_one hcs1 hr (decide_eq_true (by rw [e3, e4]; exact hs)), noL' hll]
        rw [ho, ho', if_pos hk, f5]
        cases hpr : p1.prev with
        | true => exact Or.inr (Or.inr (Or.inr (Or.inl ⟨rfl, by simp [e5, hpr], rfl⟩)))
        | false => exact Or.inr (Or.inl ⟨by simp, by simp [e5, hpr], rfl⟩)
      · rw [if_neg hin] at f5
        have hnc : ∀ r ∈ cs, ¬ Same2 r.c1 r.c2 c1 c2 := by
          intro r hr hrs
          obtain ⟨e0, k', p', e1, e2, e3, e4, e5⟩ := hcp r hr
          have := h1.pair_unique e1 f1 (by rw [← e3, ← e4]; exact hrs.trans hs.symm)
          rw [this] at e0
          exact hin e0
        rw [nocs hnc]
        cases hk1 : k1.enabled with
        | true =>
          have hk := f6 hk1
          rw [if_pos hk1] at f5
          cases hpr : p1.prev with
          | true =>
            obtain ⟨q, hq', hlo⟩ := hl2 id k p g1 hk (by rw [f4]; exact hpr) f5
            rw [filter_one hL (List.mem_append_right _ hq') (decide_eq_true (by rw [hlo.2.1, hlo.2.2]; exact hls))]
            refine Or.inr (Or.inr (Or.inr (Or.inr ⟨ho.2 hpr, rfl, ?_⟩)))
            rw [ho', if_pos hk, f5]; simp
          | false =>
            have hll : ∀ q ∈ l4, ¬ Same2 q.c1 q.c2 c1 c2 := by
              rcases hl4 with h | ⟨_, h, _⟩
              · exact h
              · rw [f4, hpr] at h; cases h
            rw [noL' hll]
            refine Or.inl ⟨?_, rfl, ?_⟩
            · rw [ho, hpr]; simp
            · rw [ho', if_pos hk, f5]; simp
        | false =>
          rw [if_neg (by rw [hk1]; simp)] at f5
          have hsy := sync1 id k1 p1 f1 hk1
          have hcp' : p.cur = p.prev := by rw [f5, f4]; exact hsy
          have hll : ∀ q ∈ l4, ¬ Same2 q.c1 q.c2 c1 c2 := by
            rcases hl4 with h | ⟨_, h, h'⟩
            · exact h
            · rw [hcp', h] at h'; cases h'
          rw [noL' hll, ho, ho', hcp', ite_self, f4]
          cases hpr : p1.prev with
          | true => exact Or.inr (Or.inr (Or.inl ⟨rfl, rfl, rfl⟩))
          | false => exact Or.inl ⟨by simp, rfl, by simp⟩
    · -- no pair
      have hnc : ∀ r ∈ cs, ¬ Same2 r.c1 r.c2 c1 c2 := by
        intro r hr hrs
        obtain ⟨e0, k', p', e1, e2, e3, e4, e5⟩ := hcp r hr
        exact hp ⟨r.id, k', p', e1, by rw [← e3, ← e4]; exact hrs⟩
      have hll : ∀ q ∈ w.lost ++ l1 ++ l4, ¬ Same2 q.c1 q.c2 c1 c2 := by
        intro q hq' hqs
        rcases List.mem_append.1 hq' with hq' | hq'
        · exact hq ⟨q, hq', hqs⟩
        · obtain ⟨id', k', p', a1, a2, a3, a4, a5⟩ := hl1 q hq'
          obtain ⟨k2, p2, b1, b2, b3, _⟩ := back4 id' k' p' a1
          exact hp ⟨id', k2, p2, b1, by rw [← b2, ← b3, ← a5.2.1, ← a5.2.2]; exact hqs⟩
      rw [nocs hnc, noL hll]
      refine Or.inl ⟨?_, rfl, ?_⟩
      · rw [← hopen]
        rintro (⟨id', k', p', g1', g2', g3'⟩ | hq')
        · exact hp ⟨id', k', p', g1', g3'⟩
        · exact hq hq'
      · rw [open5]
        rintro ⟨id', k', p', g1', g2', g3'⟩
        obtain ⟨k2, p2, b1, b2, b3, _⟩ := back4 id' k' p' g1'
        exact hp ⟨id', k2, p2, b1, by rw [← b2, ← b3]; exact g3'⟩

/-- What the oracles of a step must satisfy. -/
structure StepOk (w : World α) (a : StepArgs α) : Prop where
  /-- the tree reports the overlapping pairs of nodes -/
  nodes : w.NodesOf a.nodes
  /-- islands are made of bodies -/
  wake : ∀ b ∈ a.wake, ∃ B, w.body b = some B
  sleep : ∀ b ∈ a.sleep, ∃ B, w.body b = some B

theorem updateColliders_ok {fat : AABB α → AABB α} {box : Nat → AABB α} (h : WInv cfg w A) (hE : ∀ b, ¬ cfg.ex b) (cs : List Nat) :
    Ok cfg.strict (fun w' => ∃ A', WInv cfg w' A' ∧ QFrame w A w' A') (w.updateColliders fat box cs) := by
  unfold updateColliders
  have hm : ∀ c ∈ cs.filter (fun c => match w.col c with | some x => !x.disabled | none => false), ∃ x, w.col c = some x ∧ x.disabled = false := by
    intro c hc
    have := (List.mem_filter.1 hc).2
    cases hx : w.col c with
    | none => rw [hx] at this; cases this
    | some x => rw [hx] at this; exact ⟨x, rfl, by simpa using this⟩
  refine updateFold_ok h _ (fun c hc => (hm c hc).imp fun x h => h.1) ?_
  intro hs c hc
  obtain ⟨x, hx, hd⟩ := hm c hc
  obtain ⟨B, hB, _⟩ := h.s.col c x hx
  exact h.allEnabled hs hx hB (by rw [← h.d.col c x B hx hB]; exact hd) (hE _)

/-- `PhysicsWorld::update`. -/
theorem update_ok {fat : AABB α → AABB α} {a : StepArgs α} (h : WInv cfg w A) (hE : ∀ b, ¬ cfg.ex b) (ha : w.StepOk a) :
    Ok (cfg.strict ∧ cfg.lost) (fun r => ∃ A', WInv cfg r.1 A' ∧ JEq w r.1 ∧ Stepped cfg a.hit w A r.1 A' r.2) (w.update fat a) := by
  have h0 := h.noSync
  obtain ⟨s1, l1, A1, e1, h1, hb⟩ := broad_ok h0 ha.nodes
  obtain ⟨s2, ids, e2, h2, nd2, m2⟩ := middlePhase_ok h1 (fun h => h) false
  obtain ⟨s3, cs, e3, h3, hc3⟩ := narrowPhase_ok h2 (fun h => h) nd2 (fun id hid => by
    obtain ⟨k, p, g1, _⟩ := (m2 id).1 hid
    exact ⟨k, _, flagMap_fwd g1⟩) a.hit
  have e : w.update fat a = (({ w with store := s3, lost := w.lost ++ l1, moved := fun _ => false } : World α).setSleepingAll a.wake false).bind (fun w4 =>
      w4.lostPairs.bind fun l => ({ w4 with lost := w4.lost ++ l }.report cs).bind fun r =>
        (r.1.updateColliders fat a.box a.cols).bind fun w6 => (w6.setSleepingAll a.sleep true).bind fun w7 => some (w7, r.2)) := by
    unfold update
    rw [e1]
    simp only [Option.bind_eq_bind, Option.bind_some, e2, e3]
  rw [e]
  have k4 := (h3.wakeAll (bs := a.wake) ha.wake).weak (S' := cfg.strict ∧ cfg.lost) (fun h => h.1)
  refine Ok.bind k4 ?_
  rintro w4 - ⟨A4, h4, f4, _, u4⟩
  obtain ⟨l4, e4, r4, la, lb, lc⟩ := lostPairs_ok h4
  rw [e4]
  simp only [Option.bind_some]
  have hH : ∀ id ∈ ids.filter a.hit, ∃ k p, A1 id = some (k, p) ∧ k.enabled = true := by
    intro id hid
    obtain ⟨k, p, g1, g2, _⟩ := (m2 id).1 (List.mem_filter.1 hid).1
    exact ⟨k, p, g1, g2⟩
  have hlost4 : w4.lost = w.lost ++ l1 := f4.lost
  unfold report
  by_cases hall : (cs ++ (w4.lost ++ l4)).all (World.reportable { w4 with lost := w4.lost ++ l4 }) = true
  swap
  · simp only [if_neg hall]
    rintro ⟨hs, hl⟩
    apply hall
    rw [List.all_eq_true]
    intro q hq
    rcases List.mem_append.1 hq with hq | hq
    · obtain ⟨k, p, _, _, _, _, hr⟩ := hc3.pair q hq
      have := f4.reportable q
      rw [show ({ w4 with lost := w4.lost ++ l4 } : World α).reportable q = w4.reportable q from rfl, this]
      exact hr
    · rcases List.mem_append.1 hq with hq | hq
      · exact h4.s.lost hl q hq
      · exact r4 q hq
  simp only [if_pos hall]
  rw [Option.bind_some]
  simp only
  -- the flags after the report
  have core4 : ∀ id k p, A4 id = some (k, p) → k.enabled = false → ∃ k1 p1, A1 id = some (k1, p1) ∧ k1.enabled = false ∧ p.prev = p1.prev ∧ p.cur = p1.cur := by
    intro id k p hp hk
    obtain ⟨k3, p3, g3, c3⟩ := f4.pair_bwd hp
    obtain ⟨p2, g2, c2⟩ := hitMap_bwd g3
    obtain ⟨p1, g1, c1⟩ := flagMap_bwd g2
    have hk3 : k3.enabled = false := by
      cases hk3 : k3.enabled with
      | false => rfl
      | true =>
        obtain ⟨k', p', q1, q2⟩ := u4 id k3 p3 g3 hk3
        rw [hp] at q1; cases q1
        rw [hk] at q2; cases q2
    have hnH : id ∉ ids.filter a.hit := by
      intro hin
      obtain ⟨k', p', q1, q2⟩ := hH id hin
      rw [g1] at q1; cases q1
      rw [hk3] at q2; cases q2
    rw [if_neg hnH] at c2
    rw [if_neg (by rw [hk3]; simp)] at c1
    obtain ⟨_, _, _, _, _, _, a3, a4⟩ := pairCore_eq c3
    exact ⟨k3, p1, g1, hk3, by rw [← a3, c2, c1], by rw [← a4, c2, c1]⟩
  have h5 : WInv cfg { w4 with store := w4.store.updatePrev, lost := [] } (flagMap A4 fun p => { p with prev := p.cur }) := by
    refine WInv.addSync (store_flags h4 (flagMap_rep h4.rep (fun _ => rfl) (fun _ => ⟨rfl, rfl, rfl⟩)) ?_ ?_ (fun _ q hq => absurd hq (by simp))
      ⟨List.Pairwise.nil, fun q hq => absurd hq (by simp)⟩ (fun hs => hs.elim)) ?_
    · intro id k p' hp'
      obtain ⟨p, hp, e⟩ := flagMap_bwd hp'
      refine ⟨p, hp, ?_⟩
      rw [e]
      split <;> exact ⟨rfl, rfl, rfl, rfl, rfl⟩
    · intro id y hy
      exact ⟨_, flagMap_fwd (k := y.1) (p := y.2) hy⟩
    · intro hs id k p' hp'
      obtain ⟨p, hp, e⟩ := flagMap_bwd hp'
      cases hk : k.enabled with
      | true => rw [e, if_pos hk]
      | false =>
        rw [e, if_neg (by rw [hk]; simp)]
        obtain ⟨k1, p1, g1, g2, g3, g4⟩ := core4 id k p hp hk
        rw [g3, g4]
        rcases hb.old id k1 p1 g1 with ⟨p0, hp0, e0⟩ | ⟨_, _, _, he⟩
        · rw [e0]; exact h.s.sync hs id k1 p0 hp0
        · rw [g2] at he; cases he
  have k6 := (updateColliders_ok (fat := fat) (box := a.box) h5 hE a.cols).weak (S' := cfg.strict ∧ cfg.lost) (fun h => h.1)
  refine Ok.bind k6 ?_
  rintro w6 - ⟨A6, h6, f6⟩
  have k7 := (h6.setSleepingAll (bs := a.sleep) (fun b hb => by
    obtain ⟨B, hB⟩ := ha.sleep b hb
    obtain ⟨B', hB', _⟩ := f4.body_fwd (show _ = some B from hB)
    rw [f6.body']
    exact ⟨B', hB'⟩) true).weak (S' := cfg.strict ∧ cfg.lost) (fun h => h.1)
  refine Ok.bind k7 ?_
  rintro w7 - ⟨A7, h7, f7, _⟩
  have f57 := f6.toFrame.trans f7
  have hj : JEq w w7 := by
    have j1 : JEq w { w with store := s3, lost := w.lost ++ l1, moved := fun _ => false } := ⟨⟨rfl, rfl⟩, fun _ => rfl⟩
    have j5 : JEq w4 { w4 with store := w4.store.updatePrev, lost := [] } := ⟨⟨rfl, rfl⟩, fun _ => rfl⟩
    exact ((j1.trans f4.jeq).trans j5).trans f57.jeq
  refine ⟨A7, h7, hj, ⟨?_, ?_, ?_, ?_, ?_, ?_⟩⟩
  · intro hs c1 c2 hno
    have hr := f57.rounds nobody c1 c2 (fun h => h) (fun h => h)
    simp only
    rw [hr]
    simp only at hno
    have := round_core (l1 := l1) (l4 := l4) h.noSync h1 rfl rfl hb (nd2.filter _) hH (show Contacts _ _ _ cs from ⟨hc3.ids, hc3.pair⟩) f4.pair u4 la lb lc
      (h.s.sync hs) c1 c2 (by
        intro q hq hqs e he hes
        have h' := hno q hq hqs e (List.mem_append_left _ he) hes
        obtain ⟨r, _, rfl⟩ := List.mem_map.1 he
        unfold contactEvent at h'
        simp only at h'
        split at h' <;> cases h')
    rw [hlost4]
    exact this
  · intro ev hev
    have hrep : ∀ q : CPair, World.reportable { w4 with lost := w4.lost ++ l4 } q = true → (∃ x, w7.col q.c1 = some x) ∧ ∃ x, w7.col q.c2 = some x := by
      intro q hq
      have h7r : w7.reportable q = true := by rw [f57.reportable]; exact hq
      simp only [reportable, Bool.and_eq_true] at h7r
      exact ⟨Option.isSome_iff_exists.1 h7r.1.1.1, Option.isSome_iff_exists.1 h7r.1.1.2⟩
    rw [List.all_eq_true] at hall
    rcases List.mem_append.1 hev with hev | hev
    · obtain ⟨q, hq, rfl⟩ := List.mem_map.1 hev
      exact hrep q (hall q (List.mem_append_left _ hq))
    · obtain ⟨q, hq, rfl⟩ := List.mem_map.1 hev
      exact hrep q (hall q (List.mem_append_right _ hq))
  · intro ev hev hk
    rcases List.mem_append.1 hev with hev | hev
    · obtain ⟨q, hq, rfl⟩ := List.mem_map.1 hev
      obtain ⟨k, p2, g1, g2, g3, _⟩ := hc3.pair q hq
      obtain ⟨x1, x2, ho⟩ := h2.s.pair _ _ _ g1
      have hin : q.id ∈ ids.filter a.hit := by rw [← hc3.ids]; exact List.mem_map.2 ⟨q, hq, rfl⟩
      have hid := (h2.rep.wf _ _ _ g1).1
      obtain ⟨k1, p1, q1, _, q3⟩ := (m2 q.id).1 (List.mem_filter.1 hin).1
      obtain ⟨p1', q1', e'⟩ := flagMap_bwd g1
      rw [q1] at q1'; cases q1'
      have hc12 : p2.c1 = p1.c1 ∧ p2.c2 = p1.c2 := by rw [e']; split <;> exact ⟨rfl, rfl⟩
      refine ⟨k, p2, x1, x2, ⟨ho.c1, ho.c2, ho.ne, ho.b1, ho.b2, ho.id, ho.noColl, ho.cvx, ho.bits⟩, g2, g3, ?_, ?_⟩
      · rw [hid]; exact (List.mem_filter.1 hin).2
      · unfold isTested at q3 ⊢
        rw [hc12.1, hc12.2]
        exact q3
    · obtain ⟨q, hq, rfl⟩ := List.mem_map.1 hev
      exact absurd rfl hk
  · intro q hq
    refine List.mem_append_right _ (List.mem_map.2 ⟨q, ?_, rfl⟩)
    rw [hlost4]
    exact List.mem_append_left _ (List.mem_append_left _ hq)
  · intro hcov hst c1 c2 n1 n2 x1 x2 t1 t2 hm hf1 hf2 hd hhit
    obtain ⟨⟨k, p⟩, hp⟩ := hb.meet h0 ha.nodes hm (h.s.cover hcov _ _ _ _ _ _ _ _ hm)
    have hpe := h1.pair_at hm.hc1 hm.hc2 hm.hn1 hm.hn2 hp
    have hen : k.enabled = true := by
      cases hk : k.enabled with
      | true => rfl
      | false =>
        exfalso
        have hdis : ∀ c x, c = p.c1 ∨ c = p.c2 → w.col c = some x → x.disabled = true := by
          intro c x hc hx
          obtain ⟨B, hB, _⟩ := h.s.col c x hx
          rw [h.d.col c x B hx hB]
          rcases h1.d.pair hst _ _ _ hp hk c x B hc hx hB with g | g
          · exact g
          · exact absurd g (hE _)
        rcases hpe with ⟨a1, a2⟩ | ⟨a1, a2⟩
        · rw [hdis c1 x1 (Or.inl a1.symm) hm.hc1, hdis c2 x2 (Or.inr a2.symm) hm.hc2] at hd; simp at hd
        · rw [hdis c1 x1 (Or.inr a2.symm) hm.hc1, hdis c2 x2 (Or.inl a1.symm) hm.hc2] at hd; simp at hd
    have htest : World.isTested { w with store := s1, lost := w.lost ++ l1, moved := fun _ => false } false p = some true := by
      unfold isTested
      rcases hpe with ⟨a1, a2⟩ | ⟨a1, a2⟩
      · rw [a1, a2]; simp only [hm.hc1, hm.hc2, hf1, hf2, hd]; simp
      · rw [a1, a2]; simp only [hm.hc1, hm.hc2, hf1, hf2, Bool.or_comm (!x2.disabled) (!x1.disabled), hd]; simp
    have hin : pairId n1 n2 ∈ ids.filter a.hit := List.mem_filter.2 ⟨(m2 _).2 ⟨k, p, hp, hen, htest⟩, hhit⟩
    rw [← hc3.ids] at hin
    obtain ⟨q, hq, hqid⟩ := List.mem_map.1 hin
    obtain ⟨k2, p2, g1, g2, g3, _⟩ := hc3.pair q hq
    refine ⟨contactEvent q, List.mem_append_left _ (List.mem_map.2 ⟨q, hq, rfl⟩), ?_, ?_⟩
    · unfold contactEvent; simp only; split <;> simp
    · have hg := g1
      rw [hqid] at hg
      have := h2.pair_at (n1 := n1) (n2 := n2) hm.hc1 hm.hc2 hm.hn1 hm.hn2 hg
      show Same2 q.c1 q.c2 c1 c2
      rw [g2, g3]
      exact this
  · exact f57.lost

/-- Only flags and lost contacts change. -/
theorem flagMap_open {f : Pair → Pair} (hf : ∀ p, (f p).prev = p.prev ∧ (f p).c1 = p.c1 ∧ (f p).c2 = p.c2) (L : List CPair) (c1 c2 : Nat) :
    Open (flagMap A f) L c1 c2 ↔ Open A L c1 c2 := by
  constructor
  · rintro (⟨id, k, p', g1, g2, g3⟩ | hq)
    · obtain ⟨p, g4, e⟩ := flagMap_bwd g1
      refine Or.inl ⟨id, k, p, g4, ?_, ?_⟩
      · rw [e] at g2; split at g2
        · rw [← (hf p).1]; exact g2
        · exact g2
      · rw [e] at g3; split at g3
        · rw [← (hf p).2.1, ← (hf p).2.2]; exact g3
        · exact g3
    · exact Or.inr hq
  · rintro (⟨id, k, p, g1, g2, g3⟩ | hq)
    · refine Or.inl ⟨id, k, _, flagMap_fwd g1, ?_, ?_⟩
      · split
        · rw [(hf p).1]; exact g2
        · exact g2
      · split
        · rw [(hf p).2.1, (hf p).2.2]; exact g3
        · exact g3
    · exact Or.inr hq

theorem hitMap_open (ids : List Nat) (L : List CPair) (c1 c2 : Nat) : Open (hitMap A ids) L c1 c2 ↔ Open A L c1 c2 := by
  constructor
  · rintro (⟨id, k, p', g1, g2, g3⟩ | hq)
    · obtain ⟨p, g4, e⟩ := hitMap_bwd g1
      refine Or.inl ⟨id, k, p, g4, ?_, ?_⟩
      · rw [e] at g2; split at g2 <;> exact g2
      · rw [e] at g3; split at g3 <;> exact g3
    · exact Or.inr hq
  · rintro (⟨id, k, p, g1, g2, g3⟩ | hq)
    · refine Or.inl ⟨id, k, _, hitMap_fwd g1, ?_, ?_⟩
      · split <;> exact g2
      · split <;> exact g3
    · exact Or.inr hq

/-- `testOverlap(callback)`. -/
theorem queryOverlapAll_ok (h : WInv cfg w A) (hs : ¬ cfg.sync) {nodes : List (Nat × Nat)} (hN : w.NodesOf nodes) (hit : Nat → Bool) :
    ∃ w' ids A1, w.queryOverlapAll nodes hit = some (w', ids) ∧ Post cfg w A nobody w' ∧ JEq w w' ∧ w'.body = w.body ∧ w'.col = w.col ∧
      (∃ l, Broad w nodes A A1 l) ∧ (∀ id k p, A1 id = some (k, p) → p.id = id ∧ ∃ x1 x2, PairOk cfg w k p x1 x2) ∧
      (∀ id, id ∈ ids ↔ hit id = true ∧ ∃ k p, A1 id = some (k, p) ∧ k.enabled = true ∧ w.isTested true p = some true) := by
  obtain ⟨s1, l1, A1, e1, h1, hb⟩ := broad_ok h hN
  obtain ⟨s2, ids, e2, h2, nd2, m2⟩ := middlePhase_ok h1 hs true
  refine ⟨_, ids.filter hit, A1, ?_, ⟨_, h2, ?_⟩, ⟨⟨rfl, rfl⟩, fun _ => rfl⟩, rfl, rfl, ⟨l1, hb⟩, ?_, ?_⟩
  · simp only [queryOverlapAll, e1, Option.bind_eq_bind, Option.bind_some, e2]
  · intro c1 c2 _ _
    rw [flagMap_open (f := fun p => { p with cur := false }) (fun _ => ⟨rfl, rfl, rfl⟩)]
    exact hb.rounds c1 c2
  · intro id k p hp
    obtain ⟨x1, x2, ho⟩ := h1.s.pair _ _ _ hp
    exact ⟨(h1.rep.wf _ _ _ hp).1, x1, x2, ⟨ho.c1, ho.c2, ho.ne, ho.b1, ho.b2, ho.id, ho.noColl, ho.cvx, ho.bits⟩⟩
  · intro id
    rw [List.mem_filter, m2, and_comm]
    rfl

/-- `testCollision(callback)`. -/
theorem queryCollisionAll_ok (h : WInv cfg w A) (hs : ¬ cfg.sync) {nodes : List (Nat × Nat)} (hN : w.NodesOf nodes) (hit : Nat → Bool) :
    ∃ w' ids A1, w.queryCollisionAll nodes hit = some (w', ids) ∧ Post cfg w A nobody w' ∧ JEq w w' ∧ w'.body = w.body ∧ w'.col = w.col ∧
      (∃ l, Broad w nodes A A1 l) ∧ (∀ id k p, A1 id = some (k, p) → p.id = id ∧ ∃ x1 x2, PairOk cfg w k p x1 x2) ∧
      (∀ id, id ∈ ids ↔ hit id = true ∧ ∃ k p, A1 id = some (k, p) ∧ k.enabled = true ∧ w.isTested true p = some true) := by
  obtain ⟨s1, l1, A1, e1, h1, hb⟩ := broad_ok h hN
  obtain ⟨s2, ids, e2, h2, nd2, m2⟩ := middlePhase_ok h1 hs true
  obtain ⟨s3, cs, e3, h3, _⟩ := narrowPhase_ok h2 hs nd2 (fun id hid => by
    obtain ⟨k, p, g1, _⟩ := (m2 id).1 hid
    exact ⟨k, _, flagMap_fwd g1⟩) hit
  refine ⟨_, ids.filter hit, A1, ?_, ⟨_, h3, ?_⟩, ⟨⟨rfl, rfl⟩, fun _ => rfl⟩, rfl, rfl, ⟨l1, hb⟩, ?_, ?_⟩
  · simp only [queryCollisionAll, e1, Option.bind_eq_bind, Option.bind_some, e2, e3]
  · intro c1 c2 _ _
    rw [hitMap_open, flagMap_open (f := fun p => { p with cur := false }) (fun _ => ⟨rfl, rfl, rfl⟩)]
    exact hb.rounds c1 c2
  · intro id k p hp
    obtain ⟨x1, x2, ho⟩ := h1.s.pair _ _ _ hp
    exact ⟨(h1.rep.wf _ _ _ hp).1, x1, x2, ⟨ho.c1, ho.c2, ho.ne, ho.b1, ho.b2, ho.id, ho.noColl, ho.cvx, ho.bits⟩⟩
  · intro id
    rw [List.mem_filter, m2, and_comm]
    rfl

/-- `testOverlap(body1, body2)`. -/
theorem testOverlap_ok (h : WInv cfg w A) {nodes : List (Nat × Nat)} (hN : w.NodesOf nodes) (b1 b2 : Nat) (hit : Nat → Bool) :
    ∃ w' r A1, w.testOverlap b1 b2 nodes hit = some (w', r) ∧ WInv cfg w' A1 ∧ Rounds nobody w A w' A1 ∧ JEq w w' ∧ w'.body = w.body ∧ w'.col = w.col ∧
      (∃ l, Broad w nodes A A1 l) ∧
      (r = true ↔ ∃ id k p x1 x2, hit id = true ∧ A1 id = some (k, p) ∧ k.enabled = true ∧ w.col p.c1 = some x1 ∧ w.col p.c2 = some x2 ∧ Same2 x1.body x2.body b1 b2) := by
  obtain ⟨s1, l1, A1, e1, h1, hb⟩ := broad_ok h hN
  have hdef : ∀ p ∈ enabledPairs s1, ∃ b, w.isBetween b1 b2 p = some b := by
    intro p hp
    obtain ⟨k, _, ha⟩ := (mem_enabledPairs h1.rep p).1 hp
    obtain ⟨x1, x2, ho⟩ := h1.s.pair _ _ _ ha
    simp only [isBetween, show w.col p.c1 = some x1 from ho.c1, show w.col p.c2 = some x2 from ho.c2]
    exact ⟨_, rfl⟩
  obtain ⟨r, hr, er⟩ := collect_some hdef
  have hr' : ({ w with store := s1, lost := w.lost ++ l1, moved := fun _ => false } : World α).pairsBetween b1 b2 = some (r.map Pair.id) := by
    unfold pairsBetween
    have : collect (({ w with store := s1, lost := w.lost ++ l1, moved := fun _ => false } : World α).isBetween b1 b2) ((s1.tab .cv).arr ++ (s1.tab .cc).arr) = some r := hr
    rw [this]; rfl
  refine ⟨_, (r.map Pair.id).any hit, A1, ?_, h1, fun c1 c2 _ _ => hb.rounds c1 c2, ⟨⟨rfl, rfl⟩, fun _ => rfl⟩, rfl, rfl, ⟨l1, hb⟩, ?_⟩
  · simp only [World.testOverlap, e1, Option.bind_eq_bind, Option.bind_some, hr']
  · rw [List.any_eq_true]
    constructor
    · rintro ⟨id, hid, hh⟩
      obtain ⟨p, hp, rfl⟩ := List.mem_map.1 hid
      rw [er, List.mem_filter] at hp
      obtain ⟨k, hk, ha⟩ := (mem_enabledPairs h1.rep p).1 hp.1
      obtain ⟨x1, x2, ho⟩ := h1.s.pair _ _ _ ha
      have hx1 : w.col p.c1 = some x1 := ho.c1
      have hx2 : w.col p.c2 = some x2 := ho.c2
      have := hp.2
      simp only [isBetween, hx1, hx2, Option.some.injEq, decide_eq_true_eq] at this
      exact ⟨p.id, k, p, x1, x2, hh, ha, hk, hx1, hx2, this⟩
    · rintro ⟨id, k, p, x1, x2, hh, ha, hk, hx1, hx2, hsame⟩
      have hid := (h1.rep.wf _ _ _ ha).1
      refine ⟨id, List.mem_map.2 ⟨p, ?_, hid⟩, hh⟩
      rw [er, List.mem_filter]
      refine ⟨(mem_enabledPairs h1.rep p).2 ⟨k, hk, by rw [hid]; exact ha⟩, ?_⟩
      simp only [isBetween, hx1, hx2, Option.some.injEq, decide_eq_true_eq]
      exact hsame

end World
end RP3D
