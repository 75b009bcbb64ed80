import Verif.World.Inv

/-! Lemmas: marks, moved colliders, sleep. -/

set_option linter.unusedVariables false
set_option linter.unusedSimpArgs false
set_option linter.unusedSectionVars false

namespace RP3D

theorem Kind.eq_of {k k' : Kind} (h1 : k'.enabled = k.enabled) (h2 : k'.convex = k.convex) : k' = k := by
  cases k <;> cases k' <;> simp [Kind.enabled, Kind.convex] at h1 h2 ⊢

namespace PStore
variable {s : PStore} {A A' : PMap}

theorem Rep.unique (h : Rep s A) (h' : Rep s A') : A = A' := by
  funext id
  have key : ∀ {A A' : PMap}, Rep s A → Rep s A' → ∀ x, A id = some x → A' id = some x := by
    intro A A' h h' x hx
    obtain ⟨k, p⟩ := x
    have e := (h.wf _ _ _ hx).1
    have := (h'.mem k p).1 ((h.mem k p).2 (by rw [e]; exact hx))
    rw [e] at this
    exact this
  cases ha : A id with
  | some x => exact (key h h' x ha).symm
  | none =>
    cases hb : A' id with
    | none => rfl
    | some x => rw [key h' h x hb] at ha; cases ha

end PStore

/-- Only marks differ. -/
def Mark (A A' : PMap) : Prop :=
  ∀ id, (A' id).map (fun x => (x.1, ({ x.2 with need := false } : Pair))) = (A id).map fun x => (x.1, ({ x.2 with need := false } : Pair))

theorem Mark.refl (A : PMap) : Mark A A := fun _ => rfl
theorem Mark.trans {A A' A'' : PMap} (h : Mark A A') (h2 : Mark A' A'') : Mark A A'' := fun id => (h2 id).trans (h id)
theorem Mark.symm {A A' : PMap} (h : Mark A A') : Mark A' A := fun id => (h id).symm

theorem Mark.fwd {A A' : PMap} (h : Mark A A') {id : Nat} {k : Kind} {p : Pair} (hb : A id = some (k, p)) :
    ∃ p', A' id = some (k, p') ∧ ({ p' with need := false } : Pair) = { p with need := false } := by
  obtain ⟨⟨k', p'⟩, h1, h2⟩ := map_fwd (h id) hb
  simp only [Prod.mk.injEq] at h2
  obtain ⟨rfl, h3⟩ := h2
  exact ⟨p', h1, h3⟩

theorem Mark.pair {A A' : PMap} (h : Mark A A') (id : Nat) : (A' id).map pairCore = (A id).map pairCore := by
  cases ha : A id with
  | none =>
    have := h id
    rw [ha] at this
    cases hb : A' id with
    | none => rfl
    | some x => rw [hb] at this; simp at this
  | some x =>
    obtain ⟨k, p⟩ := x
    obtain ⟨p', h1, h2⟩ := h.fwd ha
    rw [h1]
    simp only [Option.map_some, pairCore, Option.some.injEq, Prod.mk.injEq, true_and]
    simp only [Pair.mk.injEq] at h2 ⊢
    tauto

theorem need_eq {p p' : Pair} (h : ({ p' with need := false } : Pair) = { p with need := false }) :
    p'.id = p.id ∧ p'.bp1 = p.bp1 ∧ p'.bp2 = p.bp2 ∧ p'.c1 = p.c1 ∧ p'.c2 = p.c2 ∧ p'.prev = p.prev ∧ p'.cur = p.cur ∧ p'.enabled = p.enabled := by
  simp only [Pair.mk.injEq] at h
  tauto

/-- All pairs of a collider are enabled. -/
def AllEnabled (A : PMap) (c : Nat) : Prop := ∀ id k p, A id = some (k, p) → c = p.c1 ∨ c = p.c2 → k.enabled = true

theorem Mark.allEnabled {A A' : PMap} (h : Mark A A') {c : Nat} (he : AllEnabled A c) : AllEnabled A' c := by
  intro id k p hp hc
  obtain ⟨p', h1, h2⟩ := h.symm.fwd hp
  obtain ⟨_, _, _, e1, e2, _⟩ := need_eq h2
  exact he id k p' h1 (by rw [e1, e2]; exact hc)

namespace World
variable {α : Type} [LinearOrder α]
variable {w w' w'' : World α} {A A' A'' : PMap} {cfg : Cfg}

theorem notifyPairs_ok {S : Prop} {s : PStore} (h : s.Rep A) {ids : List Nat}
    (hi : ∀ id ∈ ids, ∃ k p, A id = some (k, p) ∧ (S → k.enabled = true)) :
    Ok S (fun s' => ∃ A', s'.Rep A' ∧ Mark A A' ∧ s'.own = s.own) (notifyPairs s ids) := by
  unfold notifyPairs
  refine Ok.foldlM (I := fun s' : PStore => ∃ A', s'.Rep A' ∧ Mark A A' ∧ s'.own = s.own) ⟨A, h, Mark.refl A, rfl⟩ ?_
  rintro s' id hid ⟨A', hr, hm, ho⟩
  obtain ⟨k, p, ha, hk⟩ := hi id hid
  obtain ⟨p', hp', hn⟩ := hm.fwd ha
  by_cases hs : k.enabled = true
  · obtain ⟨s'', e, hr', ho'⟩ := PStore.setNeed_rep hr hp' hs true
    rw [e]
    refine ⟨_, hr', hm.trans ?_, ho'.trans ho⟩
    intro j
    by_cases hj : j = id
    · subst hj; rw [upd_same, hp']; rfl
    · rw [upd_ne _ _ hj]
  · have : s'.setNeed id true = none := PStore.setNeed_none hr (by
      intro k' q hq
      rw [hp'] at hq
      cases hq
      simpa using hs) true
    rw [this]
    exact fun hS => hs (hk hS)

/-- No change in the activity of bodies. -/
structure QFrame (w : World α) (A : PMap) (w' : World α) (A' : PMap) : Prop extends Frame w A w' A' where
  body' : w'.body = w.body
  col' : ∀ c, (w'.col c).map Col.disabled = (w.col c).map Col.disabled
  mark : Mark A A'

theorem QFrame.refl (w : World α) (A : PMap) : QFrame w A w A := ⟨Frame.refl w A, rfl, fun _ => rfl, Mark.refl A⟩
theorem QFrame.trans (h : QFrame w A w' A') (h2 : QFrame w' A' w'' A'') : QFrame w A w'' A'' :=
  ⟨h.toFrame.trans h2.toFrame, h2.body'.trans h.body', fun c => (h2.col' c).trans (h.col' c), h.mark.trans h2.mark⟩

theorem QFrame.winv (h : QFrame w A w' A') (hw : WInv cfg w A) (hr : w'.store.Rep A') (hm : ∀ n, w'.moved n = true → ∃ t, w'.tree n = some t) :
    WInv cfg w' A' := by
  refine ⟨hr, h.toFrame.sinv hw.s, ⟨?_, ?_, ?_, hm, ?_⟩⟩
  · intro c x' B hc hB
    obtain ⟨x, hx, e⟩ := map_fwd (h.col' c).symm hc
    obtain ⟨y, hy, e'⟩ := h.col_bwd hc
    rw [hx] at hy; cases hy
    rw [h.body'] at hB
    rw [← e]
    exact hw.d.col c x B hx (by rw [(Col.core_eq e').1]; exact hB)
  · intro b B hB; rw [h.body'] at hB; exact hw.d.static b B hB
  · intro b B hB; rw [h.body'] at hB; exact hw.d.dis b B hB
  · intro hs id k p hp hk c x' B hc hx hB
    obtain ⟨p0, hp0, e0⟩ := h.mark.symm.fwd hp
    obtain ⟨_, _, _, e1, e2, _⟩ := need_eq e0
    obtain ⟨x, hx0, e⟩ := h.col_bwd hx
    rw [h.body'] at hB
    rw [← (Col.core_eq e).1]
    exact hw.d.pair hs id k p0 hp0 hk c x B (by rw [e1, e2]; exact hc) hx0 (by rw [(Col.core_eq e).1]; exact hB)

theorem WInv.own_pair (h : WInv cfg w A) {c id : Nat} (hid : id ∈ w.store.own c) : ∃ k p, A id = some (k, p) ∧ (c = p.c1 ∨ c = p.c2) := by
  obtain ⟨k, p, h1, h2⟩ := (h.rep.own c id).1 hid
  exact ⟨k, p, h1, h2.imp Eq.symm Eq.symm⟩

/-- The pairs of an enabled body are enabled. -/
theorem WInv.allEnabled (h : WInv cfg w A) (hs : cfg.strict) {c : Nat} {x : Col} {B : Body} (hc : w.col c = some x)
    (hB : w.body x.body = some B) (hd : B.disabled = false) (he : ¬ cfg.ex x.body) : AllEnabled A c := by
  intro id k p hp hcp
  cases hk : k.enabled with
  | true => rfl
  | false =>
    rcases h.d.pair hs id k p hp hk c x B hcp hc hB with h1 | h1
    · rw [hd] at h1; cases h1
    · exact absurd h1 he

theorem addMoved_ok (h : WInv cfg w A) {c n : Nat} (ht : ∃ t, w.tree n = some t) (he : cfg.strict → AllEnabled A c) :
    Ok cfg.strict (fun w' => ∃ A', WInv cfg w' A' ∧ QFrame w A w' A' ∧ w'.moved n = true ∧ w'.store.own = w.store.own ∧
      w'.tree = w.tree ∧ w'.col = w.col) (w.addMoved n c) := by
  unfold addMoved
  have := notifyPairs_ok (S := cfg.strict) h.rep (ids := w.store.own c) (fun id hid => by
    obtain ⟨k, p, h1, h2⟩ := h.own_pair hid
    exact ⟨k, p, h1, fun hs => he hs id k p h1 h2⟩)
  cases hn : notifyPairs w.store (w.store.own c) with
  | none => rw [hn] at this; exact this
  | some s =>
    rw [hn] at this
    obtain ⟨A', hr, hm, ho⟩ := this
    have hq : QFrame w A { w with moved := upd w.moved n true, store := s } A' :=
      ⟨⟨fun _ => rfl, fun _ => rfl, rfl, fun _ => rfl, rfl, rfl, rfl, hm.pair, (fun m hm => by
        by_cases e : m = n
        · subst e; exact upd_same _ _ _
        · simp only; rw [upd_ne _ _ e]; exact hm), fun _ => Or.inl rfl⟩, rfl, fun _ => rfl, hm⟩
    refine ⟨A', hq.winv h hr ?_, hq, upd_same _ _ _, ho, rfl, rfl⟩
    intro m hm
    simp only at hm ⊢
    by_cases e : m = n
    · subst e; exact ht
    · rw [upd_ne _ _ e] at hm; exact h.d.moved m hm

theorem WInv.node (h : WInv cfg w A) {c n : Nat} {x : Col} (hc : w.col c = some x) (hn : x.bp = some n) :
    ∃ t, w.tree n = some t ∧ t.col = c := (h.s.bpMap n c (h.s.bp c x n hc hn).2).2

theorem askCheck_ok (h : WInv cfg w A) {c : Nat} {x : Col} (hc : w.col c = some x) (he : cfg.strict → AllEnabled A c) :
    Ok cfg.strict (fun w' => ∃ A', WInv cfg w' A' ∧ QFrame w A w' A' ∧ (∀ n, x.bp = some n → w'.moved n = true) ∧ w'.store.own = w.store.own)
      (w.askCheck c) := by
  unfold askCheck
  simp only [hc]
  cases hn : x.bp with
  | none => exact ⟨A, h, QFrame.refl w A, (by intro n hn; cases hn), rfl⟩
  | some n =>
    simp only
    obtain ⟨t, ht, _⟩ := h.node hc hn
    exact (addMoved_ok h ⟨t, ht⟩ he).mono (fun w' ⟨A', h1, h2, h3, h4, _⟩ => ⟨A', h1, h2, (by intro m hm; cases hm; exact h3), h4⟩)

/-- Whether a collider was reinserted into the tree or not, its node now contains its box. -/
theorem updateCollider_ok {fat : AABB α → AABB α} {box : Nat → AABB α} (h : WInv cfg w A) {c : Nat} {x : Col} (hc : w.col c = some x)
    (he : cfg.strict → AllEnabled A c) :
    Ok cfg.strict (fun w' => ∃ A', WInv cfg w' A' ∧ QFrame w A w' A' ∧ w'.store.own = w.store.own ∧
      (∀ n', some n' ≠ x.bp → w'.tree n' = w.tree n') ∧
      ∀ n t, x.bp = some n → w.tree n = some t → (w'.tree n = some t ∧ t.fat.contains (box c) = true ∧ x.changed = false) ∨
        (w'.tree n = some ⟨t.col, fat (box c)⟩ ∧ w'.moved n = true)) (w.updateCollider fat box c) := by
  obtain ⟨b0, o, cv, ca, ma, tr, si, qu, di, ch⟩ := x
  unfold updateCollider
  simp only [hc]
  cases o with
  | none => exact ⟨A, h, QFrame.refl w A, rfl, fun _ _ => rfl, (by intro n t hn; cases hn)⟩
  | some n =>
    simp only
    obtain ⟨t, ht, htc⟩ := h.node hc rfl
    simp only [ht]
    generalize hy : (⟨b0, some n, cv, ca, ma, tr, si, qu, di, false⟩ : Col) = y
    have q1 : QFrame w A (w.setCol c y) A := by
      refine ⟨⟨fun _ => rfl, ?_, rfl, fun _ => rfl, rfl, rfl, rfl, fun _ => rfl, fun _ h => h, fun _ => Or.inl rfl⟩, rfl, ?_, Mark.refl A⟩
      · intro d
        simp only [setCol]
        by_cases e : d = c
        · subst e; rw [upd_same, hc, ← hy]; rfl
        · rw [upd_ne _ _ e]
      · intro d
        simp only [setCol]
        by_cases e : d = c
        · subst e; rw [upd_same, hc, ← hy]; rfl
        · rw [upd_ne _ _ e]
    have w1 := q1.winv h h.rep h.d.moved
    split
    · rename_i hcond
      rw [Bool.and_eq_true, Bool.not_eq_true'] at hcond
      refine ⟨A, w1, q1, rfl, fun _ _ => rfl, ?_⟩
      intro m t' hm ht'
      cases hm
      rw [ht] at ht'; cases ht'
      exact Or.inl ⟨ht, hcond.2, hcond.1⟩
    · have q2 : QFrame w A { w.setCol c y with tree := upd w.tree n (some ⟨t.col, fat (box c)⟩), moved := upd w.moved n true } A :=
        ⟨⟨q1.body, q1.col, rfl, (fun m => by
          simp only
          by_cases e : m = n
          · subst e; rw [upd_same, ht]; rfl
          · rw [upd_ne _ _ e]), rfl, rfl, rfl, fun _ => rfl, (fun m hm => by
          simp only
          by_cases e : m = n
          · subst e; exact upd_same _ _ _
          · rw [upd_ne _ _ e]; exact hm), (fun m => by
          simp only
          by_cases e : m = n
          · subst e; right; exact upd_same _ _ _
          · left; rw [upd_ne _ _ e])⟩, rfl, q1.col', Mark.refl A⟩
      have w2 := q2.winv h h.rep (by
        intro m hm
        simp only at hm ⊢
        by_cases e : m = n
        · subst e; exact ⟨_, upd_same _ _ _⟩
        · rw [upd_ne _ _ e] at hm ⊢; exact h.d.moved m hm)
      have key := addMoved_ok (c := c) (n := n) w2 ⟨⟨t.col, fat (box c)⟩, upd_same _ _ _⟩ he
      have eq : ({ w.setCol c y with tree := upd w.tree n (some ⟨t.col, fat (box c)⟩), moved := upd w.moved n true } : World α).addMoved n c =
          ({ w.setCol c y with tree := upd w.tree n (some ⟨t.col, fat (box c)⟩) } : World α).addMoved n c := by
        unfold addMoved
        simp only [setCol]
        cases notifyPairs w.store (w.store.own c) with
        | none => rfl
        | some s =>
          simp only [Option.some.injEq, World.mk.injEq, and_true, true_and]
          funext m
          by_cases e : m = n
          · subst e; rw [upd_same, upd_same]
          · rw [upd_ne _ _ e, upd_ne _ _ e]
      rw [eq] at key
      refine key.mono ?_
      rintro w' ⟨A', k1, k2, k3, k4, k5, _⟩
      refine ⟨A', k1, q2.trans k2, k4, ?_, ?_⟩
      · intro n' hn'
        rw [k5]
        simp only
        rw [upd_ne _ _ (fun e => hn' (by rw [e]))]
      · intro m t' hm ht'
        cases hm
        rw [ht] at ht'; cases ht'
        refine Or.inr ⟨?_, k3⟩
        rw [k5]
        exact upd_same _ _ _

/-- The colliders of a body are put into the disabled part or taken out of it. -/
def disCol (w : World α) (b : Nat) (d : Bool) : Nat → Option Col := fun c => (w.col c).map fun x => if x.body = b then { x with disabled := d } else x

theorem setColsDisabled_eq (cs : List Nat) (d : Bool) (hcs : ∀ c ∈ cs, ∃ x, w.col c = some x) :
    w.setColsDisabled cs d = some { w with col := fun c => if c ∈ cs then (w.col c).map (fun x => { x with disabled := d }) else w.col c } := by
  unfold setColsDisabled
  induction cs generalizing w with
  | nil => simp
  | cons a cs ih =>
    obtain ⟨x, hx⟩ := hcs a (by simp)
    rw [List.foldlM_cons]
    simp only [hx, Option.map_some, Option.bind_eq_bind, Option.bind_some]
    rw [ih]
    · congr 2
      funext c
      simp only [setCol, List.mem_cons]
      by_cases e : c = a
      · subst e
        rw [upd_same, hx]
        simp
      · rw [upd_ne _ _ e]
        simp [e]
    · intro c hc
      simp only [setCol]
      by_cases e : c = a
      · subst e; exact ⟨_, upd_same _ _ _⟩
      · rw [upd_ne _ _ e]; exact hcs c (by simp [hc])

theorem setBodyDisabled_eq {b : Nat} {B : Body} (hB : w.body b = some B) (hcs : ∀ c ∈ B.cols, ∃ x, w.col c = some x ∧ x.body = b)
    (hc2 : ∀ c x, w.col c = some x → x.body = b → c ∈ B.cols ∧ x.disabled = B.disabled) (d : Bool) :
    w.setBodyDisabled b d = some { w with body := upd w.body b (some { B with disabled := d }), col := w.disCol b d } := by
  unfold setBodyDisabled
  simp only [hB]
  split
  · rename_i e
    subst e
    congr 2
    rw [World.mk.injEq]
    refine ⟨?_, ?_, rfl, rfl, rfl, rfl, rfl, rfl, rfl⟩
    · funext b'
      by_cases e : b' = b
      · subst e; rw [upd_same, hB]
      · rw [upd_ne _ _ e]
    · funext c
      simp only [disCol]
      cases hx : w.col c with
      | none => rfl
      | some x =>
        simp only [Option.map_some, Option.some.injEq]
        split
        · rename_i e; rw [← (hc2 c x hx e).2]
        · rfl
  · rw [setColsDisabled_eq (w := w.setBody b { B with disabled := d }) B.cols d (fun c hc => by
      obtain ⟨x, hx, _⟩ := hcs c hc
      exact ⟨x, hx⟩)]
    simp only [setBody]
    congr 2
    funext c
    simp only [disCol]
    cases hx : w.col c with
    | none => simp
    | some x =>
      by_cases e : x.body = b
      · simp [e, (hc2 c x hx e).1]
      · have : c ∉ B.cols := fun hc => by
          obtain ⟨y, hy, e'⟩ := hcs c hc
          rw [hx] at hy; cases hy
          exact e e'
        simp [e, this]

/-- A body more is exempted. -/
def Cfg.addEx (cfg : Cfg) (b : Nat) : Cfg := { cfg with ex := fun b' => cfg.ex b' ∨ b' = b }

theorem SInv.weaken {cfg' : Cfg} (h : SInv cfg w A) (e1 : cfg'.bits → cfg.bits) (e2 : cfg'.lost → cfg.lost)
    (e4 : cfg'.cover → cfg.cover) (e5 : cfg'.sync → cfg.sync) (e3 : ∀ b, cfg.exA b → cfg'.exA b) : SInv cfg' w A := by
  refine ⟨?_, ?_, h.cols, h.bp, h.bpMap, h.tree, h.flags, fun hl => h.lost (e2 hl), fun hl => h.cover (e4 hl), h.once, fun hl => h.sync (e5 hl)⟩
  · intro id k p hp
    obtain ⟨x1, x2, ho⟩ := h.pair id k p hp
    exact ⟨x1, x2, ⟨ho.c1, ho.c2, ho.ne, ho.b1, ho.b2, ho.id, ho.noColl, ho.cvx, fun hb => ho.bits (e1 hb)⟩⟩
  · intro c x hx
    obtain ⟨B, h1, h2, h3⟩ := h.col c x hx
    exact ⟨B, h1, h2, h3.imp id (e3 _)⟩

theorem WInv.addEx (h : WInv cfg w A) (b : Nat) : WInv (cfg.addEx b) w A :=
  ⟨h.rep, h.s.weaken (fun h => h) (fun h => h) (fun h => h) (fun h => h) (fun _ h => h), ⟨h.d.col, h.d.static, h.d.dis, h.d.moved, fun hs id k p hp hk c x B hc hx hB =>
    (h.d.pair hs id k p hp hk c x B hc hx hB).imp (fun h => h) (fun h => Or.inl h)⟩⟩

/-- Only the store differs, and in it only which pairs are enabled, and marks. -/
theorem store_frame {s : PStore} (hp : ∀ id, (A' id).map pairCore = (A id).map pairCore) : Frame w A { w with store := s } A' :=
  ⟨fun _ => rfl, fun _ => rfl, rfl, fun _ => rfl, rfl, rfl, rfl, hp, fun _ h => h, fun _ => Or.inl rfl⟩

theorem store_winv {s : PStore} (h : WInv cfg w A) (hr : s.Rep A') (hp : ∀ id, (A' id).map pairCore = (A id).map pairCore)
    (hd : cfg.strict → ∀ id k p, A' id = some (k, p) → k.enabled = false → ∀ c x B, c = p.c1 ∨ c = p.c2 → w.col c = some x →
      w.body x.body = some B → B.disabled = true ∨ cfg.ex x.body) : WInv cfg { w with store := s } A' :=
  ⟨hr, (store_frame hp).sinv h.s, ⟨h.d.col, h.d.static, h.d.dis, h.d.moved, hd⟩⟩

theorem upd_pairCore {id : Nat} {k k' : Kind} {p p' : Pair} (ha : A id = some (k, p)) (e : pairCore (k', p') = pairCore (k, p)) (j : Nat) :
    (upd A id (some (k', p')) j).map pairCore = (A j).map pairCore := by
  by_cases hj : j = id
  · subst hj; rw [upd_same, ha]; simp [e]
  · rw [upd_ne _ _ hj]

theorem kind_of_convex (b c : Bool) : (Kind.of b c).convex = c := by cases b <;> cases c <;> rfl
theorem kind_of_enabled (b c : Bool) : (Kind.of b c).enabled = b := by cases b <;> cases c <;> rfl

theorem enableOne_ok (h : WInv cfg w A) {id : Nat} {k : Kind} {p : Pair} (ha : A id = some (k, p)) :
    ∃ s A', enableOne w.store id = some s ∧ WInv cfg { w with store := s } A' ∧ s.own = w.store.own ∧
      (∀ id, (A' id).map pairCore = (A id).map pairCore) ∧ (∃ k' p', A' id = some (k', p') ∧ k'.enabled = true) ∧
      (∀ id k p, A id = some (k, p) → k.enabled = true → ∃ k' p', A' id = some (k', p') ∧ k'.enabled = true) := by
  unfold enableOne
  rw [h.rep.deref_eq ha]
  simp only
  have hw := h.rep.wf _ _ _ ha
  cases hk : k.enabled with
  | true =>
    rw [hw.2.1, hk]
    exact ⟨w.store, A, rfl, h, rfl, fun _ => rfl, ⟨k, p, ha, hk⟩, fun id k p h1 h2 => ⟨k, p, h1, h2⟩⟩
  | false =>
    rw [hw.2.1, hk]
    obtain ⟨s', e, hr, ho⟩ := PStore.enablePair_rep h.rep ha hk
    have hpc : pairCore (Kind.of true k.convex, ({ p with need := false, enabled := true } : Pair)) = pairCore (k, p) := by
      simp only [pairCore, kind_of_convex]
    refine ⟨s', _, e, store_winv h hr (upd_pairCore ha hpc) ?_, ho, upd_pairCore ha hpc, ⟨_, _, upd_same _ _ _, kind_of_enabled _ _⟩, ?_⟩
    · intro hs j k' p' hj hk' c x B hc hx hB
      by_cases e : j = id
      · subst e; rw [upd_same] at hj; cases hj; rw [kind_of_enabled] at hk'; cases hk'
      · rw [upd_ne _ _ e] at hj
        exact h.d.pair hs j k' p' hj hk' c x B hc hx hB
    · intro j k' p' hj hk'
      by_cases e : j = id
      · subst e; exact ⟨_, _, upd_same _ _ _, kind_of_enabled _ _⟩
      · rw [upd_ne _ _ e]; exact ⟨_, _, hj, hk'⟩

/-- Enabled pairs stay enabled. -/
def Up (A A' : PMap) : Prop := ∀ id k p, A id = some (k, p) → k.enabled = true → ∃ k' p', A' id = some (k', p') ∧ k'.enabled = true

theorem Up.refl (A : PMap) : Up A A := fun _ k p h hk => ⟨k, p, h, hk⟩
theorem Up.trans (h : Up A A') (h2 : Up A' A'') : Up A A'' := by
  intro id k p hp hk
  obtain ⟨k', p', hp', hk'⟩ := h id k p hp hk
  exact h2 id k' p' hp' hk'
theorem Mark.up (h : Mark A A') : Up A A' := by
  intro id k p hp hk
  obtain ⟨p', hp', _⟩ := h.fwd hp
  exact ⟨k, p', hp', hk⟩

/-- The pairs of some colliders are enabled. -/
theorem enablePairs_ok (h : WInv cfg w A) (cs : List Nat) :
    ∃ s A', enablePairs w.store cs = some s ∧ WInv cfg { w with store := s } A' ∧ s.own = w.store.own ∧
      (∀ id, (A' id).map pairCore = (A id).map pairCore) ∧ (∀ c ∈ cs, AllEnabled A' c) ∧ Up A A' := by
  let I : PStore → Prop := fun s => ∃ A', WInv cfg { w with store := s } A' ∧ s.own = w.store.own ∧ (∀ id, (A' id).map pairCore = (A id).map pairCore) ∧ Up A A'
  let D : Nat → PStore → Prop := fun id s => ∀ A', s.Rep A' → ∀ k p, A' id = some (k, p) → k.enabled = true
  have step : ∀ (s : PStore) (id : Nat), I s → (∃ c, id ∈ w.store.own c) → Ok True (fun s' => I s' ∧ D id s' ∧ ∀ j, D j s → D j s') (enableOne s id) := by
    rintro s id ⟨A1, h1, h2, h3, h3'⟩ ⟨c, hc⟩
    rw [← h2] at hc
    obtain ⟨k, p, ha, _⟩ := h1.own_pair (w := { w with store := s }) hc
    obtain ⟨s', A', e, g1, g2, g3, g4, g5⟩ := enableOne_ok h1 ha
    have e' : enableOne s id = some s' := e
    rw [e']
    refine ⟨⟨A', g1, g2.trans h2, fun j => (g3 j).trans (h3 j), Up.trans h3' g5⟩, ?_, ?_⟩
    · intro A2 hA2 k2 p2 hk2
      rw [← PStore.Rep.unique g1.rep hA2] at hk2
      obtain ⟨k', p', h5, h6⟩ := g4
      rw [hk2] at h5; cases h5; exact h6
    · intro j hj A2 hA2 k2 p2 hk2
      rw [← PStore.Rep.unique g1.rep hA2] at hk2
      have hpc := g3 j
      obtain ⟨⟨k0, p0⟩, h5, h6⟩ := map_fwd (g3 j).symm hk2
      obtain ⟨k', p', h7, h8⟩ := g5 j k0 p0 h5 (hj A1 h1.rep k0 p0 h5)
      rw [hk2] at h7; cases h7; exact h8
  have inner : ∀ (s : PStore) (c : Nat), I s → Ok True (fun s' => I s' ∧ (∀ id ∈ s.own c, D id s') ∧ ∀ j, D j s → D j s') ((s.own c).foldlM enableOne s) := by
    intro s c hs
    have h0 : s.own = w.store.own := by obtain ⟨_, _, h, _⟩ := hs; exact h
    have := Ok.foldlM_each (S := True) (I := fun s' => I s' ∧ ∀ j, D j s → D j s') (D := D) (f := enableOne) (l := s.own c) (x := s) ⟨hs, fun _ h => h⟩ (by
      rintro y a ha ⟨hy, hm⟩
      refine (step y a hy ⟨c, by rw [← h0]; exact ha⟩).mono ?_
      rintro z ⟨z1, z2, z3⟩
      exact ⟨⟨z1, fun j hj => z3 j (hm j hj)⟩, z2, fun b _ hb => z3 b hb⟩)
    exact this.mono (fun z hz => ⟨hz.1.1, hz.2, hz.1.2⟩)
  have outer := Ok.foldlM_each (S := True) (I := I) (D := fun c s => ∀ id ∈ w.store.own c, D id s) (f := fun s c => (s.own c).foldlM enableOne s) (l := cs)
    (x := w.store) ⟨A, h, rfl, fun _ => rfl, Up.refl A⟩ (by
      intro y c _ hy
      have h0 : y.own = w.store.own := by obtain ⟨_, _, h, _⟩ := hy; exact h
      refine (inner y c hy).mono ?_
      rintro z ⟨z1, z2, z3⟩
      exact ⟨z1, fun id hid => z2 id (by rw [h0]; exact hid), fun b _ hb id hid => z3 id (hb id hid)⟩)
  obtain ⟨s, e, ⟨A', h1, h2, h3, h3'⟩, h4⟩ := outer.some_of
  refine ⟨s, A', e, h1, h2, h3, ?_, h3'⟩
  intro c hc id k p hp hcp
  refine h4 c hc id ?_ A' h1.rep k p hp
  rw [← h2]
  exact (h1.rep.own c id).2 ⟨k, p, hp, hcp.imp Eq.symm Eq.symm⟩

theorem WInv.both (h : WInv cfg w A) {id : Nat} {k : Kind} {p : Pair} (ha : A id = some (k, p)) :
    ∃ x1 x2 B1 B2, w.col p.c1 = some x1 ∧ w.col p.c2 = some x2 ∧ w.body x1.body = some B1 ∧ w.body x2.body = some B2 ∧
      w.bothDisabled p = some (B1.disabled && B2.disabled) := by
  obtain ⟨x1, x2, ho⟩ := h.s.pair id k p ha
  obtain ⟨B1, hB1, _⟩ := h.s.col _ _ ho.c1
  obtain ⟨B2, hB2, _⟩ := h.s.col _ _ ho.c2
  exact ⟨x1, x2, B1, B2, ho.c1, ho.c2, hB1, hB2, by simp [bothDisabled, ho.c1, ho.c2, hB1, hB2]⟩

theorem disableOne_ok (h : WInv cfg w A) {id : Nat} {k : Kind} {p : Pair} (ha : A id = some (k, p)) :
    ∃ s A', w.disableOne w.store id = some s ∧ WInv cfg { w with store := s } A' ∧ s.own = w.store.own ∧
      (∀ id, (A' id).map pairCore = (A id).map pairCore) := by
  unfold disableOne
  rw [h.rep.deref_eq ha]
  obtain ⟨x1, x2, B1, B2, hx1, hx2, hB1, hB2, e⟩ := h.both ha
  simp only [e]
  cases hd : (B1.disabled && B2.disabled) with
  | false => exact ⟨w.store, A, rfl, h, rfl, fun _ => rfl⟩
  | true =>
    rw [Bool.and_eq_true] at hd
    simp only
    cases hk : k.enabled with
    | false =>
      refine ⟨w.store, A, PStore.disablePair_noop h.rep ?_, h, rfl, fun _ => rfl⟩
      intro k' p' hp'
      rw [ha] at hp'; cases hp'; exact hk
    | true =>
      obtain ⟨s', e, hr, ho⟩ := PStore.disablePair_rep h.rep ha hk
      have hpc : pairCore (Kind.of false k.convex, ({ p with need := false, enabled := false } : Pair)) = pairCore (k, p) := by
        simp only [pairCore, kind_of_convex]
      refine ⟨s', _, e, store_winv h hr (upd_pairCore ha hpc) ?_, ho, upd_pairCore ha hpc⟩
      intro hs j k' p' hj hk' c x B hc hx hB
      by_cases e : j = id
      · subst e
        rw [upd_same] at hj; cases hj
        rcases hc with rfl | rfl
        · rw [show w.col p.c1 = some x from hx] at hx1; cases hx1
          rw [hB] at hB1; cases hB1
          exact Or.inl hd.1
        · rw [show w.col p.c2 = some x from hx] at hx2; cases hx2
          rw [hB] at hB2; cases hB2
          exact Or.inl hd.2
      · rw [upd_ne _ _ e] at hj
        exact h.d.pair hs j k' p' hj hk' c x B hc hx hB

theorem checkDisabled_ok (h : WInv cfg w A) (cs : List Nat) :
    ∃ s A', w.checkDisabled cs = some s ∧ WInv cfg { w with store := s } A' ∧ s.own = w.store.own ∧
      (∀ id, (A' id).map pairCore = (A id).map pairCore) := by
  let I : PStore → Prop := fun s => ∃ A', WInv cfg { w with store := s } A' ∧ s.own = w.store.own ∧ ∀ id, (A' id).map pairCore = (A id).map pairCore
  have outer := Ok.foldlM (S := True) (I := I) (f := fun s c => (s.own c).foldlM w.disableOne s) (l := cs) (x := w.store) ⟨A, h, rfl, fun _ => rfl⟩ (by
    intro s c _ hs
    have h0 : s.own = w.store.own := by obtain ⟨_, _, h, _⟩ := hs; exact h
    refine Ok.foldlM hs ?_
    rintro y id hid ⟨A1, h1, h2, h3⟩
    rw [h0, ← h2] at hid
    obtain ⟨k, p, ha, _⟩ := h1.own_pair (w := { w with store := y }) hid
    obtain ⟨s', A', e, g1, g2, g3⟩ := disableOne_ok h1 ha
    have e' : w.disableOne y id = some s' := e
    rw [e']
    exact ⟨A', g1, g2.trans h2, fun j => (g3 j).trans (h3 j)⟩)
  obtain ⟨s, e, A', h1, h2, h3⟩ := outer.some_of
  exact ⟨s, A', e, h1, h2, h3⟩

/-- A body whose activity is set, with its colliders. -/
def act (w : World α) (b : Nat) (B : Body) (t : BType) (sl d : Bool) : World α :=
  { w with body := upd w.body b (some { B with type := t, sleeping := sl, disabled := d }), col := w.disCol b d }

theorem act_col_fwd {b : Nat} {B : Body} {t : BType} {sl d : Bool} {c : Nat} {x : Col} (hx : w.col c = some x) :
    (w.act b B t sl d).col c = some (if x.body = b then { x with disabled := d } else x) := by simp [act, disCol, hx]

theorem act_col_bwd {b : Nat} {B : Body} {t : BType} {sl d : Bool} {c : Nat} {y : Col} (hy : (w.act b B t sl d).col c = some y) :
    ∃ x, w.col c = some x ∧ y = if x.body = b then { x with disabled := d } else x := by
  simp only [act, disCol, Option.map_eq_some_iff] at hy
  obtain ⟨x, h1, h2⟩ := hy
  exact ⟨x, h1, h2.symm⟩

theorem act_body {b : Nat} {B : Body} {t : BType} {sl d : Bool} : (w.act b B t sl d).body b = some { B with type := t, sleeping := sl, disabled := d } := upd_same _ _ _
theorem act_body_ne {b b' : Nat} {B : Body} {t : BType} {sl d : Bool} (h : b' ≠ b) : (w.act b B t sl d).body b' = w.body b' := upd_ne _ _ h

theorem act_frame {b : Nat} {B : Body} {sl d : Bool} (hB : w.body b = some B) : Frame w A (w.act b B B.type sl d) A := by
  refine ⟨?_, ?_, rfl, fun _ => rfl, rfl, rfl, rfl, fun _ => rfl, fun _ h => h, fun _ => Or.inl rfl⟩
  · intro b'
    by_cases e : b' = b
    · subst e; rw [act_body, hB]; rfl
    · rw [act_body_ne e]
  · intro c
    cases hx : w.col c with
    | none => simp [act, disCol, hx]
    | some x =>
      rw [act_col_fwd hx]
      by_cases e : x.body = b <;> simp [e, Col.core]

/-- The invariant after a change of activity, with the body exempted. -/
theorem act_winv {b : Nat} {B : Body} {t : BType} {sl d : Bool} (h : WInv (cfg.addEx b) w A) (hB : w.body b = some B) (ht : t = .static → d = true)
    (hd : d = true → t = .static ∨ sl = true) : WInv (cfg.addEx b) (w.act b B t sl d) A := by
  have hs : SInv (cfg.addEx b) (w.act b B B.type sl d) A := (act_frame hB).sinv h.s
  have hs' : SInv (cfg.addEx b) (w.act b B t sl d) A := by
    have e : ∀ b' B', (w.act b B t sl d).body b' = some B' → ∃ B'', (w.act b B B.type sl d).body b' = some B'' ∧ B''.active = B'.active ∧ B''.cols = B'.cols ∧ B''.joints = B'.joints := by
      intro b' B' hb
      by_cases e : b' = b
      · subst e
        rw [act_body] at hb ⊢; cases hb
        exact ⟨_, rfl, rfl, rfl, rfl⟩
      · rw [act_body_ne e] at hb ⊢
        exact ⟨_, hb, rfl, rfl, rfl⟩
    have e' : ∀ b' B', (w.act b B B.type sl d).body b' = some B' → ∃ B'', (w.act b B t sl d).body b' = some B'' ∧ B''.active = B'.active ∧ B''.cols = B'.cols ∧ B''.joints = B'.joints := by
      intro b' B' hb
      by_cases e : b' = b
      · subst e
        rw [act_body] at hb ⊢; cases hb
        exact ⟨_, rfl, rfl, rfl, rfl⟩
      · rw [act_body_ne e] at hb ⊢
        exact ⟨_, hb, rfl, rfl, rfl⟩
    refine ⟨?_, ?_, ?_, hs.bp, hs.bpMap, hs.tree, hs.flags, ?_, ?_, hs.once, hs.sync⟩
    · intro id k p hp
      obtain ⟨x1, x2, ho⟩ := hs.pair id k p hp
      exact ⟨x1, x2, ⟨ho.c1, ho.c2, ho.ne, ho.b1, ho.b2, ho.id, ho.noColl, ho.cvx, ho.bits⟩⟩
    · intro c x hx
      obtain ⟨B', h1, h2, h3⟩ := hs.col c x hx
      obtain ⟨B'', g1, g2, g3, g4⟩ := e' _ _ h1
      exact ⟨B'', g1, by rw [g3]; exact h2, by rw [g2]; exact h3⟩
    · intro b' B' hb
      obtain ⟨B'', g1, g2, g3, g4⟩ := e _ _ hb
      rw [← g3]; exact hs.cols _ _ g1
    · intro hl q hq
      have := hs.lost hl q hq
      have hb : ∀ b', ((w.act b B t sl d).body b').isSome = ((w.act b B B.type sl d).body b').isSome := by
        intro b'
        by_cases e : b' = b
        · subst e; rw [act_body, act_body]; rfl
        · rw [act_body_ne e, act_body_ne e]
      simp only [reportable, hb] at this ⊢
      exact this
    · intro hc c1 c2 n1 n2 x1 x2 t1 t2 hm
      exact hs.cover hc c1 c2 n1 n2 x1 x2 t1 t2 ⟨hm.hc1, hm.hc2, hm.hn1, hm.hn2, hm.ht1, hm.ht2, hm.ne, hm.noColl, hm.bits, hm.cvx, hm.fat⟩
  refine ⟨h.rep, hs', ⟨?_, ?_, ?_, h.d.moved, ?_⟩⟩
  · intro c y B' hy hB'
    obtain ⟨x, hx, rfl⟩ := act_col_bwd hy
    by_cases e : x.body = b
    · rw [if_pos e] at hB' ⊢
      rw [show ({ x with disabled := d } : Col).body = b from e, act_body] at hB'
      cases hB'; rfl
    · rw [if_neg e] at hB' ⊢
      rw [act_body_ne e] at hB'
      exact h.d.col c x B' hx hB'
  · intro b' B' hB' hst
    by_cases e : b' = b
    · subst e; rw [act_body] at hB'; cases hB'; exact ht hst
    · rw [act_body_ne e] at hB'; exact h.d.static b' B' hB' hst
  · intro b' B' hB' hdi
    by_cases e : b' = b
    · subst e; rw [act_body] at hB'; cases hB'; exact hd hdi
    · rw [act_body_ne e] at hB'; exact h.d.dis b' B' hB' hdi
  · intro hst id k p hp hk c y B' hc hy hB'
    obtain ⟨x, hx, rfl⟩ := act_col_bwd hy
    by_cases e : x.body = b
    · rw [if_pos e]; exact Or.inr (Or.inr e)
    · rw [if_neg e] at hB' ⊢
      rw [act_body_ne e] at hB'
      exact h.d.pair hst id k p hp hk c x B' hc hx hB'

/-- The exemption is lifted when the body is disabled, or all its pairs are enabled. -/
theorem WInv.dropEx {b : Nat} (h : WInv (cfg.addEx b) w A)
    (hb : cfg.strict → ∀ c x B, w.col c = some x → x.body = b → w.body b = some B → B.disabled = true ∨ AllEnabled A c) : WInv cfg w A := by
  refine ⟨h.rep, h.s.weaken (fun h => h) (fun h => h) (fun h => h) (fun h => h) (fun _ h => h), ⟨h.d.col, h.d.static, h.d.dis, h.d.moved, ?_⟩⟩
  intro hs id k p hp hk c x B hc hx hB
  rcases h.d.pair hs id k p hp hk c x B hc hx hB with h1 | h1 | h1
  · exact Or.inl h1
  · exact Or.inr h1
  · rcases hb hs c x B hx h1 (by rw [← h1]; exact hB) with h2 | h2
    · exact Or.inl h2
    · rw [h2 id k p hp hc] at hk; cases hk

theorem setBodyDisabled_act {b : Nat} {B : Body} (h : WInv cfg w A) (hB : w.body b = some B) (t : BType) (sl d : Bool) :
    (w.setBody b { B with type := t, sleeping := sl }).setBodyDisabled b d = some (w.act b B t sl d) := by
  have := setBodyDisabled_eq (w := w.setBody b { B with type := t, sleeping := sl }) (b := b) (B := { B with type := t, sleeping := sl })
    (upd_same _ _ _) (h.s.cols b B hB).2 (by
      intro c x hx e
      obtain ⟨B', h1, h2, _⟩ := h.s.col c x hx
      subst e
      rw [hB] at h1; cases h1
      exact ⟨h2, h.d.col c x B hx hB⟩) d
  rw [this]
  congr 1
  simp only [act, setBody, World.mk.injEq, and_true, true_and]
  refine ⟨?_, rfl⟩
  funext b'
  by_cases e : b' = b
  · subst e; rw [upd_same, upd_same]
  · rw [upd_ne _ _ e, upd_ne _ _ e, upd_ne _ _ e]

/-- Enabling the pairs of a body that was woken, and the requests for new tests. -/
theorem wake_ok {b : Nat} {B : Body} (h : WInv (cfg.addEx b) w A) (hB : w.body b = some B) :
    Ok cfg.strict (fun w' => ∃ A', WInv cfg w' A' ∧ Frame w A w' A' ∧ w'.body = w.body ∧ w'.tree = w.tree ∧ Up A A')
      (match enablePairs w.store B.cols with
        | none => none
        | some s => B.cols.foldlM askCheck { w with store := s }) := by
  obtain ⟨s, A1, e, h1, h2, h3, h4, h5⟩ := enablePairs_ok h B.cols
  rw [e]
  simp only
  have hw : WInv cfg { w with store := s } A1 := h1.dropEx (by
    intro _ c x B' hx hxb hB'
    refine Or.inr (h4 c ?_)
    obtain ⟨B'', g1, g2, _⟩ := h1.s.col c x hx
    rw [hxb] at g1
    rw [show w.body b = some B'' from g1] at hB
    cases hB; exact g2)
  refine Ok.mono (P := fun w' => ∃ A', WInv cfg w' A' ∧ QFrame { w with store := s } A1 w' A' ∧ w'.tree = w.tree) ?_ ?_
  · refine Ok.foldlM ⟨A1, hw, QFrame.refl _ _, rfl⟩ ?_
    rintro y c hc ⟨A', g1, g2, g3⟩
    obtain ⟨x, hx, _⟩ := (h.s.cols b B hB).2 c hc
    obtain ⟨x', hx', _⟩ := g2.col_fwd (show ({ w with store := s } : World α).col c = some x from hx)
    have key := askCheck_ok g1 hx' (fun _ => g2.mark.allEnabled (h4 c hc))
    have ht : ∀ y', y.askCheck c = some y' → y'.tree = y.tree := by
      intro y' hy'
      unfold askCheck at hy'
      rw [hx'] at hy'
      simp only at hy'
      cases hb : x'.bp with
      | none => rw [hb] at hy'; cases hy'; rfl
      | some n =>
        rw [hb] at hy'
        simp only [addMoved] at hy'
        split at hy'
        · cases hy'
        · cases hy'; rfl
    cases hk : y.askCheck c with
    | none => rw [hk] at key; exact key
    | some y' =>
      rw [hk] at key
      obtain ⟨A'', k1, k2, _⟩ := key
      exact ⟨A'', k1, g2.trans k2, (ht y' hk).trans g3⟩
  · rintro w' ⟨A', g1, g2, g3⟩
    exact ⟨A', g1, (store_frame h3).trans g2.toFrame, g2.body', g3, h5.trans (Mark.up g2.mark)⟩

/-- Waking a body. -/
theorem setSleeping_false_ok {b : Nat} {B : Body} (h : WInv (cfg.addEx b) w A) (hB : w.body b = some B)
    (hn : B.sleeping = false ∨ B.type = .static ∨ B.active = false → WInv cfg w A) :
    Ok cfg.strict (fun w' => ∃ A', WInv cfg w' A' ∧ Frame w A w' A' ∧ (∀ b', b' ≠ b → w'.body b' = w.body b') ∧ w'.tree = w.tree ∧ Up A A' ∧
      w'.body b = some (if B.type = .static ∨ B.active = false then B
        else { B with sleeping := false, disabled := if B.sleeping then false else B.disabled })) (w.setSleeping b false) := by
  unfold setSleeping
  simp only [hB]
  by_cases h1 : B.sleeping = false
  · rw [if_pos h1]
    refine ⟨A, hn (Or.inl h1), Frame.refl w A, fun _ _ => rfl, rfl, Up.refl A, ?_⟩
    rw [hB]
    obtain ⟨t, a, sl, d, cs, hs, js⟩ := B
    simp only at h1
    subst h1
    simp
  · rw [if_neg h1]
    by_cases h2 : B.type = .static
    · rw [if_pos h2, if_pos (Or.inl h2)]
      exact ⟨A, hn (Or.inr (Or.inl h2)), Frame.refl w A, fun _ _ => rfl, rfl, Up.refl A, hB⟩
    · rw [if_neg h2]
      by_cases h3 : B.active = false
      · rw [if_pos h3, if_pos (Or.inr h3)]
        exact ⟨A, hn (Or.inr (Or.inr h3)), Frame.refl w A, fun _ _ => rfl, rfl, Up.refl A, hB⟩
      · rw [if_neg h3]
        have e := setBodyDisabled_act h hB B.type false false
        rw [show ({ B with type := B.type, sleeping := false } : Body) = { B with sleeping := false } from rfl] at e
        rw [e]
        simp only [if_neg (show ¬ (false = true) by simp)]
        have hw := act_winv (t := B.type) (sl := false) (d := false) h hB (fun h => absurd h h2) (fun h => by cases h)
        refine (wake_ok hw act_body).mono ?_
        rintro w' ⟨A', g1, g2, g3, g4, g5⟩
        refine ⟨A', g1, (act_frame hB).trans g2, fun b' hb' => by rw [g3]; exact act_body_ne hb', g4, g5, ?_⟩
        rw [if_neg (by tauto), g3, act_body]
        simp [h1]

/-- Putting a body to sleep. -/
theorem setSleeping_true_ok {b : Nat} {B : Body} (h : WInv cfg w A) (hB : w.body b = some B) :
    ∃ w' A', w.setSleeping b true = some w' ∧ WInv cfg w' A' ∧ Frame w A w' A' ∧ (∀ b', b' ≠ b → w'.body b' = w.body b') ∧ w'.tree = w.tree ∧
      w'.moved = w.moved ∧ w'.body b = some (if B.type = .static ∨ B.active = false ∨ B.sleeping = true then B else { B with sleeping := true, disabled := true }) := by
  unfold setSleeping
  simp only [hB]
  by_cases h1 : B.sleeping = true
  · rw [if_pos h1]
    exact ⟨w, A, rfl, h, Frame.refl w A, fun _ _ => rfl, rfl, rfl, by rw [if_pos (Or.inr (Or.inr h1)), hB]⟩
  · rw [if_neg h1]
    by_cases h2 : B.type = .static
    · rw [if_pos h2, if_pos (Or.inl h2)]
      exact ⟨w, A, rfl, h, Frame.refl w A, fun _ _ => rfl, rfl, rfl, hB⟩
    · rw [if_neg h2]
      by_cases h3 : B.active = false
      · rw [if_pos h3, if_pos (Or.inr (Or.inl h3))]
        exact ⟨w, A, rfl, h, Frame.refl w A, fun _ _ => rfl, rfl, rfl, hB⟩
      · rw [if_neg h3]
        have e := setBodyDisabled_act h hB B.type true true
        rw [show ({ B with type := B.type, sleeping := true } : Body) = { B with sleeping := true } from rfl] at e
        rw [e]
        simp only [if_true]
        have hw := (act_winv (t := B.type) (sl := true) (d := true) (h.addEx b) hB (fun h => rfl) (fun h => Or.inr rfl)).dropEx (by
          intro _ c x B' _ _ hB'
          rw [act_body] at hB'; cases hB'
          exact Or.inl rfl)
        obtain ⟨s, A', e, g1, g2, g3⟩ := checkDisabled_ok hw B.cols
        rw [e]
        refine ⟨_, A', rfl, g1, (act_frame hB).trans (store_frame g3), fun b' hb' => act_body_ne hb', rfl, rfl, ?_⟩
        rw [if_neg (by tauto)]
        exact act_body

theorem WInv.setSleeping (h : WInv cfg w A) {b : Nat} {B : Body} (hB : w.body b = some B) (v : Bool) :
    Ok cfg.strict (fun w' => ∃ A', WInv cfg w' A' ∧ Frame w A w' A' ∧ w'.tree = w.tree) (w.setSleeping b v) := by
  cases v with
  | false => exact (setSleeping_false_ok (h.addEx b) hB (fun _ => h)).mono (fun w' ⟨A', h1, h2, _, h3, _⟩ => ⟨A', h1, h2, h3⟩)
  | true =>
    obtain ⟨w', A', e, h1, h2, _, h3, _⟩ := setSleeping_true_ok h hB
    rw [e]
    exact ⟨A', h1, h2, h3⟩

theorem WInv.setSleepingAll (h : WInv cfg w A) {bs : List Nat} (hB : ∀ b ∈ bs, ∃ B, w.body b = some B) (v : Bool) :
    Ok cfg.strict (fun w' => ∃ A', WInv cfg w' A' ∧ Frame w A w' A' ∧ w'.tree = w.tree) (w.setSleepingAll bs v) := by
  unfold World.setSleepingAll
  refine Ok.foldlM (I := fun w' => ∃ A', WInv cfg w' A' ∧ Frame w A w' A' ∧ w'.tree = w.tree) ⟨A, h, Frame.refl w A, rfl⟩ ?_
  rintro y b hb ⟨A1, h1, h2, h3⟩
  obtain ⟨B, hB'⟩ := hB b hb
  obtain ⟨B', hB'', _⟩ := h2.body_fwd hB'
  exact (h1.setSleeping hB'' v).mono (fun w' ⟨A', g1, g2, g3⟩ => ⟨A', g1, h2.trans g2, g3.trans h3⟩)

/-- Waking bodies enables pairs and disables none. -/
theorem WInv.wakeAll (h : WInv cfg w A) {bs : List Nat} (hB : ∀ b ∈ bs, ∃ B, w.body b = some B) :
    Ok cfg.strict (fun w' => ∃ A', WInv cfg w' A' ∧ Frame w A w' A' ∧ w'.tree = w.tree ∧ Up A A') (w.setSleepingAll bs false) := by
  unfold World.setSleepingAll
  refine Ok.foldlM (I := fun w' => ∃ A', WInv cfg w' A' ∧ Frame w A w' A' ∧ w'.tree = w.tree ∧ Up A A') ⟨A, h, Frame.refl w A, rfl, Up.refl A⟩ ?_
  rintro y b hb ⟨A1, h1, h2, h3, h4⟩
  obtain ⟨B, hB'⟩ := hB b hb
  obtain ⟨B', hB'', _⟩ := h2.body_fwd hB'
  exact (setSleeping_false_ok (h1.addEx b) hB'' (fun _ => h1)).mono (fun w' ⟨A', g1, g2, _, g3, g4, _⟩ => ⟨A', g1, h2.trans g2, g3.trans h3, h4.trans g4⟩)

end World
end RP3D
