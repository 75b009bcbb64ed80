import Verif.World.Remove

/-! Lemmas: the calls of the user interface that do not run the collision detection keep the invariant. -/

set_option linter.unusedVariables false
set_option linter.unusedSimpArgs false
set_option linter.unusedSectionVars false

namespace RP3D
namespace World
variable {α : Type} [LinearOrder α]
variable {w w' w'' : World α} {A A' A'' : PMap} {cfg : Cfg}

/-- A round of events of two colliders is open: they touched in the previous frame, or the end of their contact is still to be reported. -/
def Open (A : PMap) (L : List CPair) (c1 c2 : Nat) : Prop :=
  (∃ id k p, A id = some (k, p) ∧ p.prev = true ∧ Same2 p.c1 p.c2 c1 c2) ∨ ∃ q ∈ L, Same2 q.c1 q.c2 c1 c2

/-- Rounds do not change, except for colliders of `R`. -/
def Rounds (R : Nat → Prop) (w : World α) (A : PMap) (w' : World α) (A' : PMap) : Prop :=
  ∀ c1 c2, ¬ R c1 → ¬ R c2 → (Open A' w'.lost c1 c2 ↔ Open A w.lost c1 c2)

theorem Rounds.refl (R : Nat → Prop) (w : World α) (A : PMap) : Rounds R w A w A := fun _ _ _ _ => Iff.rfl
theorem Rounds.trans {R : Nat → Prop} (h : Rounds R w A w' A') (h2 : Rounds R w' A' w'' A'') : Rounds R w A w'' A'' :=
  fun c1 c2 h1 h3 => (h2 c1 c2 h1 h3).trans (h c1 c2 h1 h3)
theorem Rounds.mono {R R' : Nat → Prop} (h : Rounds R w A w' A') (hr : ∀ c, R c → R' c) : Rounds R' w A w' A' :=
  fun c1 c2 h1 h3 => h c1 c2 (fun h => h1 (hr _ h)) (fun h => h3 (hr _ h))

theorem Open.mono {L L' : List CPair} {c1 c2 : Nat} (h : Open A L c1 c2)
    (hp : ∀ id k p, A id = some (k, p) → p.prev = true → Same2 p.c1 p.c2 c1 c2 → Open A' L' c1 c2) (hl : ∀ q ∈ L, q ∈ L') : Open A' L' c1 c2 := by
  rcases h with ⟨id, k, p, h1, h2, h3⟩ | ⟨q, h1, h2⟩
  · exact hp id k p h1 h2 h3
  · exact Or.inr ⟨q, hl q h1, h2⟩

theorem Frame.rounds (h : Frame w A w' A') (R : Nat → Prop) : Rounds R w A w' A' := by
  intro c1 c2 _ _
  constructor
  · intro ho
    refine ho.mono ?_ (by rw [h.lost]; exact fun q hq => hq)
    intro id k p h1 h2 h3
    obtain ⟨k', p', g1, g2⟩ := h.pair_bwd h1
    obtain ⟨_, _, _, _, e1, e2, e3, _⟩ := pairCore_eq g2
    exact Or.inl ⟨id, k', p', g1, e3.trans h2, by rw [e1, e2]; exact h3⟩
  · intro ho
    refine ho.mono ?_ (by rw [h.lost]; exact fun q hq => hq)
    intro id k p h1 h2 h3
    obtain ⟨k', p', g1, g2⟩ := h.pair_fwd h1
    obtain ⟨_, _, _, _, e1, e2, e3, _⟩ := pairCore_eq g2
    exact Or.inl ⟨id, k', p', g1, e3.trans h2, by rw [e1, e2]; exact h3⟩

theorem rounds_same {R : Nat → Prop} (hl : w'.lost = w.lost) : Rounds R w A w' A := by
  intro c1 c2 _ _
  rw [hl]

/-- Joint components and the set of body pairs that must not collide do not change. -/
def JN (w w' : World α) : Prop := w'.jnt = w.jnt ∧ w'.noColl = w.noColl

theorem JN.trans (h : JN w w') (h2 : JN w' w'') : JN w w'' := ⟨h2.1.trans h.1, h2.2.trans h.2⟩

/-- Joints do not change. -/
def JEq (w w' : World α) : Prop := JN w w' ∧ ∀ b, (w'.body b).map Body.joints = (w.body b).map Body.joints

theorem JEq.refl (w : World α) : JEq w w := ⟨⟨rfl, rfl⟩, fun _ => rfl⟩
theorem JEq.trans (h : JEq w w') (h2 : JEq w' w'') : JEq w w'' := ⟨h.1.trans h2.1, fun b => (h2.2 b).trans (h.2 b)⟩
theorem Frame.jeq (h : Frame w A w' A') : JEq w w' := ⟨⟨h.jnt, h.noColl⟩, h.joints⟩
theorem JEq.jinv (h : JEq w w') (hj : JInv w) : JInv w' := hj.of_eq h.1.1 h.2

theorem joints_setBody {b : Nat} {B B' : Body} (hB : w.body b = some B) (e : B'.joints = B.joints) (b' : Nat) :
    (upd w.body b (some B') b').map Body.joints = (w.body b').map Body.joints := by
  by_cases h : b' = b
  · subst h; rw [upd_same, hB]; simp [e]
  · rw [upd_ne _ _ h]

/-- A body whose list of joints or simulation flag changes. -/
theorem setBody_winv {b : Nat} {B B' : Body} (h : WInv cfg w A) (hB : w.body b = some B) (e1 : B'.type = B.type) (e2 : B'.active = B.active)
    (e3 : B'.sleeping = B.sleeping) (e4 : B'.disabled = B.disabled) (e5 : B'.cols = B.cols) : WInv cfg (w.setBody b B') A := by
  have hb : ∀ b' B1, (w.setBody b B').body b' = some B1 → ∃ B2, w.body b' = some B2 ∧ B1.type = B2.type ∧ B1.active = B2.active ∧
      B1.sleeping = B2.sleeping ∧ B1.disabled = B2.disabled ∧ B1.cols = B2.cols := by
    intro b' B1 h1
    by_cases e : b' = b
    · subst e
      rw [show (w.setBody b' B').body b' = some B' from upd_same _ _ _] at h1; cases h1
      exact ⟨B, hB, e1, e2, e3, e4, e5⟩
    · rw [show (w.setBody b B').body b' = w.body b' from upd_ne _ _ e] at h1
      exact ⟨B1, h1, rfl, rfl, rfl, rfl, rfl⟩
  have hf : ∀ b' B2, w.body b' = some B2 → ∃ B1, (w.setBody b B').body b' = some B1 ∧ B1.type = B2.type ∧ B1.active = B2.active ∧
      B1.sleeping = B2.sleeping ∧ B1.disabled = B2.disabled ∧ B1.cols = B2.cols := by
    intro b' B2 h1
    by_cases e : b' = b
    · subst e
      rw [hB] at h1; cases h1
      exact ⟨B', upd_same _ _ _, e1, e2, e3, e4, e5⟩
    · exact ⟨B2, (upd_ne _ _ e).trans h1, rfl, rfl, rfl, rfl, rfl⟩
  refine ⟨h.rep, ⟨?_, ?_, ?_, h.s.bp, h.s.bpMap, h.s.tree, h.s.flags, ?_, ?_, h.s.once, h.s.sync⟩, ⟨?_, ?_, ?_, h.d.moved, ?_⟩⟩
  · intro id k p hp
    obtain ⟨x1, x2, ho⟩ := h.s.pair id k p hp
    exact ⟨x1, x2, ⟨ho.c1, ho.c2, ho.ne, ho.b1, ho.b2, ho.id, ho.noColl, ho.cvx, ho.bits⟩⟩
  · intro c x hx
    obtain ⟨B2, h1, h2, h3⟩ := h.s.col c x hx
    obtain ⟨B1, g, _, g2, _, _, g5⟩ := hf _ _ h1
    exact ⟨B1, g, by rw [g5]; exact h2, by rw [g2]; exact h3⟩
  · intro b' B1 h1
    obtain ⟨B2, g, _, g2, _, _, g5⟩ := hb _ _ h1
    rw [g5]; exact h.s.cols b' B2 g
  · intro hl q hq
    have := h.s.lost hl q hq
    have hi : ∀ b', ((w.setBody b B').body b').isSome = (w.body b').isSome := by
      intro b'
      by_cases e : b' = b
      · subst e; rw [show (w.setBody b' B').body b' = some B' from upd_same _ _ _, hB]; rfl
      · rw [show (w.setBody b B').body b' = w.body b' from upd_ne _ _ e]
    have hc : (w.setBody b B').col = w.col := rfl
    simp only [reportable, hi, hc] at this ⊢
    exact this
  · intro hc c1 c2 n1 n2 x1 x2 t1 t2 hm
    exact h.s.cover hc c1 c2 n1 n2 x1 x2 t1 t2 ⟨hm.hc1, hm.hc2, hm.hn1, hm.hn2, hm.ht1, hm.ht2, hm.ne, hm.noColl, hm.bits, hm.cvx, hm.fat⟩
  · intro c x B1 hx h1
    obtain ⟨B2, g, _, _, _, g4, _⟩ := hb _ _ h1
    rw [g4]; exact h.d.col c x B2 hx g
  · intro b' B1 h1 hs
    obtain ⟨B2, g, g1, _, _, g4, _⟩ := hb _ _ h1
    rw [g4]; exact h.d.static b' B2 g (by rw [← g1]; exact hs)
  · intro b' B1 h1 hs
    obtain ⟨B2, g, g1, _, g3, g4, _⟩ := hb _ _ h1
    rw [g1, g3]; exact h.d.dis b' B2 g (by rw [← g4]; exact hs)
  · intro hst id k p hp hk c x B1 hc hx h1
    obtain ⟨B2, g, _, _, _, g4, _⟩ := hb _ _ h1
    rw [g4]; exact h.d.pair hst id k p hp hk c x B2 hc hx g

/-- A collider whose bits or flags change; nodes may be marked as moved. -/
theorem setCol_winv {c : Nat} {x y : Col} {m : Nat → Bool} (h : WInv cfg w A) (hx : w.col c = some x) (e1 : y.body = x.body) (e2 : y.bp = x.bp)
    (e3 : y.convex = x.convex) (e4 : y.disabled = x.disabled) (hf : ¬ (y.trigger = true ∧ y.sim = true))
    (hb : cfg.bits → (y.cat = x.cat ∧ y.mask = x.mask) ∨ ∀ id k p, A id = some (k, p) → p.c1 ≠ c ∧ p.c2 ≠ c)
    (hc : cfg.cover → (y.cat = x.cat ∧ y.mask = x.mask) ∨ ∀ n, x.bp = some n → m n = true)
    (hm1 : ∀ n, w.moved n = true → m n = true) (hm2 : ∀ n, m n = true → ∃ t, w.tree n = some t) : WInv cfg { w.setCol c y with moved := m } A := by
  have hcc : ({ w.setCol c y with moved := m } : World α).col c = some y := upd_same _ _ _
  have hcn : ∀ c', c' ≠ c → ({ w.setCol c y with moved := m } : World α).col c' = w.col c' := fun c' e => upd_ne _ _ e
  have hcb : ∀ c' y', ({ w.setCol c y with moved := m } : World α).col c' = some y' → ∃ x', w.col c' = some x' ∧ y'.body = x'.body ∧ y'.bp = x'.bp ∧
      y'.convex = x'.convex ∧ y'.disabled = x'.disabled ∧ (c' ≠ c → y' = x') ∧ (c' = c → y' = y ∧ x' = x) := by
    intro c' y' hy
    by_cases e : c' = c
    · subst e
      rw [hcc] at hy; cases hy
      exact ⟨x, hx, e1, e2, e3, e4, fun h => absurd rfl h, fun _ => ⟨rfl, rfl⟩⟩
    · rw [hcn c' e] at hy
      exact ⟨y', hy, rfl, rfl, rfl, rfl, fun _ => rfl, fun h => absurd h e⟩
  have hcf : ∀ c' x', w.col c' = some x' → ∃ y', ({ w.setCol c y with moved := m } : World α).col c' = some y' ∧ y'.body = x'.body ∧ y'.bp = x'.bp ∧
      y'.convex = x'.convex ∧ y'.disabled = x'.disabled ∧ (c' ≠ c → y' = x') ∧ (c' = c → y' = y ∧ x' = x) := by
    intro c' x' h1
    by_cases e : c' = c
    · subst e
      rw [hx] at h1; cases h1
      exact ⟨y, hcc, e1, e2, e3, e4, fun h => absurd rfl h, fun _ => ⟨rfl, rfl⟩⟩
    · exact ⟨x', by rw [hcn c' e]; exact h1, rfl, rfl, rfl, rfl, fun _ => rfl, fun h => absurd h e⟩
  refine ⟨h.rep, ⟨?_, ?_, ?_, ?_, ?_, h.s.tree, ?_, ?_, ?_, h.s.once, h.s.sync⟩, ⟨?_, h.d.static, h.d.dis, hm2, ?_⟩⟩
  · intro id k p hp
    obtain ⟨x1, x2, ho⟩ := h.s.pair id k p hp
    obtain ⟨y1, g1, a1, a2, a3, _, a5, a6⟩ := hcf _ _ ho.c1
    obtain ⟨y2, g2, b1, b2, b3, _, b5, b6⟩ := hcf _ _ ho.c2
    refine ⟨y1, y2, ⟨g1, g2, by rw [a1, b1]; exact ho.ne, by rw [a2]; exact ho.b1, by rw [b2]; exact ho.b2, ho.id, by rw [a1, b1]; exact ho.noColl,
      by rw [a3, b3]; exact ho.cvx, ?_⟩⟩
    intro hbits
    have hbm := ho.bits hbits
    rcases hb hbits with ⟨ec, em⟩ | hno
    · have f1 : y1.cat = x1.cat ∧ y1.mask = x1.mask := by
        by_cases e : p.c1 = c
        · obtain ⟨rfl, rfl⟩ := a6 e; exact ⟨ec, em⟩
        · rw [a5 e]; exact ⟨rfl, rfl⟩
      have f2 : y2.cat = x2.cat ∧ y2.mask = x2.mask := by
        by_cases e : p.c2 = c
        · obtain ⟨rfl, rfl⟩ := b6 e; exact ⟨ec, em⟩
        · rw [b5 e]; exact ⟨rfl, rfl⟩
      unfold BitsMatch at hbm ⊢
      rw [f1.1, f1.2, f2.1, f2.2]; exact hbm
    · obtain ⟨n1, n2⟩ := hno id k p hp
      rw [a5 n1, b5 n2]; exact hbm
  · intro c' y' hy
    obtain ⟨x', g, a1, a2, _⟩ := hcb c' y' hy
    rw [a1, a2]; exact h.s.col c' x' g
  · intro b B hB
    obtain ⟨h1, h2⟩ := h.s.cols b B hB
    refine ⟨h1, fun c' hc' => ?_⟩
    obtain ⟨x', hx', e⟩ := h2 c' hc'
    obtain ⟨y', g, a1, _⟩ := hcf c' x' hx'
    exact ⟨y', g, a1.trans e⟩
  · intro c' y' n hy hn
    obtain ⟨x', g, a1, a2, _⟩ := hcb c' y' hy
    exact h.s.bp c' x' n g (by rw [← a2]; exact hn)
  · intro n c' hn
    obtain ⟨⟨x', g, hb⟩, ht⟩ := h.s.bpMap n c' hn
    obtain ⟨y', g', _, a2, _⟩ := hcf c' x' g
    exact ⟨⟨y', g', a2.trans hb⟩, ht⟩
  · intro c' y' hy
    obtain ⟨x', g, _, _, _, _, a5, a6⟩ := hcb c' y' hy
    by_cases e : c' = c
    · rw [(a6 e).1]; exact hf
    · rw [a5 e]; exact h.s.flags c' x' g
  · intro hl q hq
    have := h.s.lost hl q hq
    have hi : ∀ c', (({ w.setCol c y with moved := m } : World α).col c').isSome = (w.col c').isSome := by
      intro c'
      by_cases e : c' = c
      · subst e; rw [hcc, hx]; rfl
      · rw [hcn c' e]
    have hbb : ({ w.setCol c y with moved := m } : World α).body = w.body := rfl
    simp only [reportable, hi, hbb] at this ⊢
    exact this
  · intro hcov c1 c2 n1 n2 y1 y2 t1 t2 hm
    by_cases m1 : m n1 = true
    · exact Or.inr (Or.inl m1)
    by_cases m2 : m n2 = true
    · exact Or.inr (Or.inr m2)
    obtain ⟨x1, g1, a1, a2, a3, _, a5, a6⟩ := hcb _ _ hm.hc1
    obtain ⟨x2, g2, b1, b2, b3, _, b5, b6⟩ := hcb _ _ hm.hc2
    have key : ∀ c' y' x' n', (c' ≠ c → y' = x') → (c' = c → y' = y ∧ x' = x) → y'.bp = some n' → m n' ≠ true → y'.cat = x'.cat ∧ y'.mask = x'.mask := by
      intro c' y' x' n' f1 f2 f3 f4
      by_cases e : c' = c
      · obtain ⟨rfl, rfl⟩ := f2 e
        rcases hc hcov with h1 | h1
        · exact h1
        · exact absurd (h1 n' (by rw [← e2]; exact f3)) f4
      · rw [f1 e]; exact ⟨rfl, rfl⟩
    have k1 := key c1 y1 x1 n1 a5 a6 hm.hn1 m1
    have k2 := key c2 y2 x2 n2 b5 b6 hm.hn2 m2
    rcases h.s.cover hcov c1 c2 n1 n2 x1 x2 t1 t2 ⟨g1, g2, by rw [← a2]; exact hm.hn1, by rw [← b2]; exact hm.hn2, hm.ht1, hm.ht2, by rw [← a1, ← b1]; exact hm.ne,
      by rw [← a1, ← b1]; exact hm.noColl, by have := hm.bits; unfold BitsMatch at this ⊢; rw [← k1.1, ← k1.2, ← k2.1, ← k2.2]; exact this,
      by rw [← a3, ← b3]; exact hm.cvx, hm.fat⟩ with h1 | h1 | h1
    · exact Or.inl h1
    · exact absurd (hm1 _ h1) m1
    · exact absurd (hm1 _ h1) m2
  · intro c' y' B hy hB
    obtain ⟨x', g, a1, _, _, a4, _⟩ := hcb c' y' hy
    rw [a4]; exact h.d.col c' x' B g (by rw [← a1]; exact hB)
  · intro hst id k p hp hk c' y' B hcp hy hB
    obtain ⟨x', g, a1, _⟩ := hcb c' y' hy
    rw [a1]; exact h.d.pair hst id k p hp hk c' x' B hcp g (by rw [← a1]; exact hB)

/-- A flag of a collider changes. -/
theorem setFlags_winv {c : Nat} {x y : Col} (h : WInv cfg w A) (hx : w.col c = some x) (e1 : y.body = x.body) (e2 : y.bp = x.bp)
    (e3 : y.convex = x.convex) (e4 : y.disabled = x.disabled) (e5 : y.cat = x.cat) (e6 : y.mask = x.mask) (hf : ¬ (y.trigger = true ∧ y.sim = true)) :
    WInv cfg (w.setCol c y) A := by
  have := setCol_winv (m := w.moved) h hx e1 e2 e3 e4 hf (fun _ => Or.inl ⟨e5, e6⟩) (fun _ => Or.inl ⟨e5, e6⟩) (fun _ h => h) h.d.moved
  exact this

theorem addMoved_moved (w : World α) (n c : Nat) : ({ w with moved := upd w.moved n true } : World α).addMoved n c = w.addMoved n c := by
  unfold addMoved
  cases notifyPairs w.store (w.store.own c) with
  | none => rfl
  | some s =>
    simp only [Option.some.injEq, World.mk.injEq, and_true, true_and]
    funext m
    by_cases e : m = n
    · subst e; rw [upd_same, upd_same]
    · rw [upd_ne _ _ e, upd_ne _ _ e]

/-- The bits of a collider change. -/
theorem setBits_ok {c : Nat} {x : Col} (h : WInv cfg w A) (hx : w.col c = some x) (cat mask : Nat) (he : cfg.strict → AllEnabled A c)
    (hb : cfg.bits → ∀ id k p, A id = some (k, p) → p.c1 ≠ c ∧ p.c2 ≠ c) :
    Ok cfg.strict (fun w' => ∃ A', WInv cfg w' A' ∧ JEq w w' ∧ Rounds (fun _ => False) w A w' A' ∧ w'.body = w.body ∧
      w'.col = upd w.col c (some { x with cat := cat, mask := mask }) ∧ w'.tree = w.tree) ((w.setCol c { x with cat := cat, mask := mask }).askCheck c) := by
  unfold askCheck
  have hfl := h.s.flags c _ hx
  obtain ⟨b0, o, cv, ca, ma, tr, si, qu, di, ch⟩ := x
  simp only [show ∀ y, (w.setCol c y).col c = some y from fun y => upd_same _ _ _]
  cases o with
  | none =>
    refine ⟨A, ?_, ⟨⟨rfl, rfl⟩, fun _ => rfl⟩, rounds_same rfl, rfl, rfl, rfl⟩
    exact setCol_winv (m := w.moved) h hx rfl rfl rfl rfl hfl (fun hb' => Or.inr (hb hb')) (fun _ => Or.inr (by intro n hn; cases hn)) (fun _ h => h) h.d.moved
  | some n =>
    simp only
    rw [← addMoved_moved]
    obtain ⟨t, ht, _⟩ := h.node hx rfl
    have hw := setCol_winv (m := upd w.moved n true) (y := ⟨b0, some n, cv, cat, mask, tr, si, qu, di, ch⟩) h hx rfl rfl rfl rfl hfl
      (fun hb' => Or.inr (hb hb')) (fun _ => Or.inr (by intro n hn; cases hn; exact upd_same _ _ _))
      (fun m hm => by
        by_cases e : m = n
        · subst e; exact upd_same _ _ _
        · rw [upd_ne _ _ e]; exact hm)
      (fun m hm => by
        by_cases e : m = n
        · subst e; exact ⟨t, ht⟩
        · rw [upd_ne _ _ e] at hm; exact h.d.moved m hm)
    refine (addMoved_ok (c := c) (n := n) hw ⟨t, ht⟩ he).mono ?_
    rintro w' ⟨A', g1, g2, _, _, g5, g6⟩
    refine ⟨A', g1, ⟨⟨g2.jnt, g2.toFrame.noColl⟩, fun b => ?_⟩, ?_, g2.body', g6, g5⟩
    · rw [g2.body']; rfl
    · have := g2.toFrame.rounds (fun _ => False)
      intro c1 c2 h1 h2
      exact this c1 c2 h1 h2

/-! ### Simulation and trigger flags -/

theorem updateHasSim_ok {b : Nat} {B : Body} (h : WInv cfg w A) (hB : w.body b = some B) :
    ∃ w', w.updateHasSim b = some w' ∧ WInv cfg w' A ∧ JEq w w' ∧ w'.lost = w.lost ∧ w'.col = w.col ∧ (∃ v, w' = w.setBody b { B with hasSim := v }) := by
  unfold updateHasSim
  simp only [hB]
  split
  · exact ⟨_, rfl, setBody_winv h hB rfl rfl rfl rfl rfl, ⟨⟨rfl, rfl⟩, joints_setBody hB rfl⟩, rfl, rfl, true, rfl⟩
  · refine ⟨w, rfl, h, JEq.refl w, rfl, rfl, B.hasSim, ?_⟩
    cases w
    simp only [setBody, World.mk.injEq, and_true, true_and]
    funext b'
    by_cases e : b' = b
    · subst e; rw [upd_same]; exact hB
    · rw [upd_ne _ _ e]

theorem updateHasSimIf_ok {b : Nat} {B : Body} (h : WInv cfg w A) (hB : w.body b = some B) :
    ∃ w', w.updateHasSimIf b = some w' ∧ WInv cfg w' A ∧ JEq w w' ∧ w'.lost = w.lost ∧ w'.col = w.col ∧ (∃ v, w' = w.setBody b { B with hasSim := v }) := by
  unfold updateHasSimIf
  simp only [hB]
  split
  · exact updateHasSim_ok h hB
  · refine ⟨w, rfl, h, JEq.refl w, rfl, rfl, B.hasSim, ?_⟩
    cases w
    simp only [setBody, World.mk.injEq, and_true, true_and]
    funext b'
    by_cases e : b' = b
    · subst e; rw [upd_same]; exact hB
    · rw [upd_ne _ _ e]

theorem setSimFalse_ok {c : Nat} {x : Col} (h : WInv cfg w A) (hx : w.col c = some x) :
    ∃ w', w.setSimFalse c = some w' ∧ WInv cfg w' A ∧ JEq w w' ∧ w'.lost = w.lost := by
  unfold setSimFalse
  simp only [hx]
  have hw := setFlags_winv (y := { x with sim := false }) h hx rfl rfl rfl rfl rfl rfl (by rintro ⟨_, h⟩; cases h)
  obtain ⟨B, hB, _⟩ := h.s.col c x hx
  obtain ⟨w', e, g1, g2, g3, g4, _⟩ := updateHasSim_ok (w := w.setCol c { x with sim := false }) (b := x.body) hw hB
  exact ⟨w', e, g1, g2, g3⟩

/-- The invariant after a call. -/
def Post (cfg : Cfg) (w : World α) (A : PMap) (R : Nat → Prop) (w' : World α) : Prop := ∃ A', WInv cfg w' A' ∧ Rounds R w A w' A'

abbrev nobody : Nat → Prop := fun _ => False

theorem setTrigger_ok {c : Nat} {x : Col} (h : WInv cfg w A) (hx : w.col c = some x) (v : Bool) :
    ∃ w', w.setTrigger c v = some w' ∧ Post cfg w A nobody w' ∧ JEq w w' := by
  unfold setTrigger
  simp only [hx]
  by_cases hc : (v && x.sim) = true
  · rw [if_pos hc]
    have hx1 : (w.setCol c { x with trigger := v }).col c = some { x with trigger := v } := upd_same _ _ _
    unfold setSimFalse
    simp only [hx1]
    have e : (w.setCol c { x with trigger := v }).setCol c { x with trigger := v, sim := false } = w.setCol c { x with trigger := v, sim := false } := by
      simp only [setCol, World.mk.injEq, and_true, true_and]
      funext c'
      by_cases e : c' = c
      · subst e; rw [upd_same, upd_same]
      · rw [upd_ne _ _ e, upd_ne _ _ e, upd_ne _ _ e]
    rw [e]
    have hw := setFlags_winv (y := { x with trigger := v, sim := false }) h hx rfl rfl rfl rfl rfl rfl (by rintro ⟨_, h⟩; cases h)
    obtain ⟨B, hB, _⟩ := h.s.col c x hx
    obtain ⟨w', e, g1, g2, g3, _⟩ := updateHasSim_ok (w := w.setCol c { x with trigger := v, sim := false }) (b := x.body) hw hB
    exact ⟨w', e, ⟨A, g1, rounds_same g3⟩, g2⟩
  · rw [if_neg hc]
    refine ⟨_, rfl, ⟨A, setFlags_winv (y := { x with trigger := v }) h hx rfl rfl rfl rfl rfl rfl ?_, rounds_same rfl⟩, ⟨⟨rfl, rfl⟩, fun _ => rfl⟩⟩
    rintro ⟨h1, h2⟩
    exact hc (by rw [show v = true from h1, show x.sim = true from h2]; rfl)

theorem setSim_ok {c : Nat} {x : Col} (h : WInv cfg w A) (hx : w.col c = some x) (v : Bool) :
    ∃ w', w.setSim c v = some w' ∧ Post cfg w A nobody w' ∧ JEq w w' := by
  unfold setSim
  cases v with
  | false =>
    obtain ⟨w', e, g1, g2, g3⟩ := setSimFalse_ok h hx
    exact ⟨w', e, ⟨A, g1, rounds_same g3⟩, g2⟩
  | true =>
    simp only [if_true, hx]
    obtain ⟨B, hB, _⟩ := h.s.col c x hx
    simp only [hB]
    have h1 := setBody_winv (B' := { B with hasSim := true }) h hB rfl rfl rfl rfl rfl
    have h2 := setFlags_winv (w := w.setBody x.body { B with hasSim := true }) (c := c) (x := x) (y := { x with sim := true, trigger := false }) h1 hx
      rfl rfl rfl rfl rfl rfl (by rintro ⟨h, _⟩; cases h)
    exact ⟨_, rfl, ⟨A, h2, rounds_same rfl⟩, ⟨⟨rfl, rfl⟩, joints_setBody hB rfl⟩⟩

theorem setQuery_ok {c : Nat} {x : Col} (h : WInv cfg w A) (hx : w.col c = some x) (v : Bool) :
    ∃ w', w.setQuery c v = some w' ∧ Post cfg w A nobody w' ∧ JEq w w' := by
  unfold setQuery
  rw [hx]
  exact ⟨_, rfl, ⟨A, setFlags_winv (y := { x with query := v }) h hx rfl rfl rfl rfl rfl rfl (h.s.flags c x hx), rounds_same rfl⟩, ⟨⟨rfl, rfl⟩, fun _ => rfl⟩⟩

theorem resize_ok {c : Nat} {x : Col} (h : WInv cfg w A) (hx : w.col c = some x) :
    ∃ w', w.resize c = some w' ∧ Post cfg w A nobody w' ∧ JEq w w' := by
  unfold resize
  rw [hx]
  exact ⟨_, rfl, ⟨A, setFlags_winv (y := { x with changed := true }) h hx rfl rfl rfl rfl rfl rfl (h.s.flags c x hx), rounds_same rfl⟩, ⟨⟨rfl, rfl⟩, fun _ => rfl⟩⟩

/-! ### Type and transform -/

/-- A collider of the tree belongs to an active body. -/
theorem WInv.inactive_no_pairs (h : WInv cfg w A) (hA : ∀ b, ¬ cfg.exA b) {c : Nat} {x : Col} {B : Body} (hx : w.col c = some x)
    (hB : w.body x.body = some B) (ha : B.active = false) : ∀ id k p, A id = some (k, p) → ¬ (c = p.c1 ∨ c = p.c2) := by
  intro id k p hp hc
  obtain ⟨x1, x2, ho⟩ := h.s.pair id k p hp
  obtain ⟨B', h1, _, h3⟩ := h.s.col c x hx
  rw [hB] at h1; cases h1
  have hbp : x.bp.isSome = false := by rw [← ha]; exact h3.resolve_right (hA _)
  rcases hc with rfl | rfl
  · rw [ho.c1] at hx; cases hx; rw [ho.b1] at hbp; cases hbp
  · rw [ho.c2] at hx; cases hx; rw [ho.b2] at hbp; cases hbp

theorem setType_ok {b : Nat} {B : Body} (h : WInv cfg w A) (hE : ∀ b, ¬ cfg.ex b) (hA : ∀ b, ¬ cfg.exA b) (hB : w.body b = some B) (t : BType)
    (hs : cfg.strict → B.type = .static → t ≠ .static → B.sleeping = false → ∀ c ∈ B.cols, AllEnabled A c) :
    Ok cfg.strict (fun w' => Post cfg w A nobody w' ∧ JEq w w') (w.setType b t) := by
  unfold setType
  simp only [hB]
  by_cases ht : B.type = t
  · rw [if_pos ht]; exact ⟨⟨A, h, Rounds.refl _ w A⟩, JEq.refl w⟩
  rw [if_neg ht]
  have e := setBodyDisabled_act h hB t B.sleeping (decide (t = .static))
  rw [show ({ B with type := t, sleeping := B.sleeping } : Body) = { B with type := t } from rfl] at e
  rw [e]
  simp only
  have h1 := act_winv (t := t) (sl := B.sleeping) (d := decide (t = .static)) (h.addEx b) hB (fun e => by simp [e]) (fun e => by simp at e; exact Or.inl e)
  have hj : JEq w (w.act b B t B.sleeping (decide (t = .static))) := ⟨⟨rfl, rfl⟩, joints_setBody hB rfl⟩
  have key := setSleeping_false_ok h1 act_body (by
    intro hno
    refine h1.dropEx ?_
    intro hst c y B' hy hyb hB'
    rw [act_body] at hB'; cases hB'
    simp only
    by_cases ts : t = .static
    · left; simp [ts]
    right
    obtain ⟨x, hx, rfl⟩ := act_col_bwd hy
    have hxb : x.body = b := by
      by_contra hne
      rw [if_neg hne] at hyb
      exact hne hyb
    have hB2 : w.body x.body = some B := by rw [hxb]; exact hB
    rcases hno with hno | hno | hno
    · by_cases bs : B.type = .static
      · obtain ⟨B3, g1, g2, _⟩ := h.s.col c x hx
        rw [hB2] at g1; cases g1
        exact hs hst bs ts hno c g2
      · refine h.allEnabled hst hx hB2 ?_ (hE _)
        cases hd : B.disabled with
        | false => rfl
        | true =>
          rcases h.d.dis b B hB hd with h' | h'
          · exact absurd h' bs
          · rw [show B.sleeping = false from hno] at h'; cases h'
    · exact absurd hno ts
    · intro id k p hp hc
      exact absurd hc (h.inactive_no_pairs hA hx hB2 hno id k p hp))
  cases hk : (w.act b B t B.sleeping (decide (t = .static))).setSleeping b false with
  | none => rw [hk] at key; exact key
  | some w2 =>
    rw [hk] at key
    obtain ⟨A', g1, g2, _, _, _⟩ := key
    simp only
    have hr : Rounds nobody w A w2 A' := (rounds_same (w' := w.act b B t B.sleeping (decide (t = .static))) rfl).trans (g2.rounds _)
    by_cases ts : t = .static
    · rw [if_pos ts]
      obtain ⟨s, A'', e, k1, k2, k3⟩ := checkDisabled_ok g1 B.cols
      rw [e]
      exact ⟨⟨A'', k1, hr.trans ((store_frame k3).rounds _)⟩, hj.trans (g2.jeq.trans (store_frame (A := A') k3).jeq)⟩
    · rw [if_neg ts]
      exact ⟨⟨A', g1, hr⟩, hj.trans g2.jeq⟩

/-- All colliders of a list are put at their new place in the broad phase. -/
theorem updateFold_ok {fat : AABB α → AABB α} {box : Nat → AABB α} (h : WInv cfg w A) (cs : List Nat) (hc : ∀ c ∈ cs, ∃ x, w.col c = some x)
    (he : cfg.strict → ∀ c ∈ cs, AllEnabled A c) :
    Ok cfg.strict (fun w' => ∃ A', WInv cfg w' A' ∧ QFrame w A w' A') (cs.foldlM (updateCollider fat box) w) := by
  refine Ok.foldlM (I := fun w' => ∃ A', WInv cfg w' A' ∧ QFrame w A w' A') ⟨A, h, QFrame.refl w A⟩ ?_
  rintro y c hcm ⟨A1, g1, g2⟩
  obtain ⟨x, hx⟩ := hc c hcm
  obtain ⟨x', hx', _⟩ := g2.col_fwd hx
  exact (updateCollider_ok g1 hx' (fun hs => g2.mark.allEnabled (he hs c hcm))).mono (fun w' ⟨A', k1, k2, _⟩ => ⟨A', k1, g2.trans k2⟩)

theorem setTransform_ok {fat : AABB α → AABB α} {box : Nat → AABB α} {b : Nat} {B : Body} (h : WInv cfg w A) (hE : ∀ b, ¬ cfg.ex b) (hA : ∀ b, ¬ cfg.exA b)
    (hB : w.body b = some B) (hs : cfg.strict → B.type = .static → ∀ c ∈ B.cols, AllEnabled A c) :
    Ok cfg.strict (fun w' => Post cfg w A nobody w' ∧ JEq w w') (w.setTransform fat b box) := by
  unfold setTransform
  have key := setSleeping_false_ok (h.addEx b) hB (fun _ => h)
  have hsame : B.type = .static → w.setSleeping b false = some w := by
    intro hst
    unfold World.setSleeping
    simp only [hB]
    split
    · rfl
    · simp [hst]
  cases hk : w.setSleeping b false with
  | none => rw [hk] at key; exact key
  | some w1 =>
    rw [hk] at key
    obtain ⟨A1, g1, g2, _, _, _, g5⟩ := key
    simp only [g5]
    have hcols : (if B.type = BType.static ∨ B.active = false then B
        else { B with sleeping := false, disabled := if B.sleeping = true then false else B.disabled }).cols = B.cols := by split <;> rfl
    rw [hcols]
    refine (updateFold_ok g1 B.cols ?_ ?_).mono ?_
    · intro c hc
      obtain ⟨x, hx, _⟩ := (h.s.cols b B hB).2 c hc
      obtain ⟨x', hx', _⟩ := g2.col_fwd hx
      exact ⟨x', hx'⟩
    · intro hst c hc
      obtain ⟨x, hx, hxb⟩ := (h.s.cols b B hB).2 c hc
      obtain ⟨x', hx', e'⟩ := g2.col_fwd hx
      have hxb' : x'.body = b := by rw [(Col.core_eq e').1]; exact hxb
      by_cases ht : B.type = .static
      · have hw1 : w1 = w := by have := hsame ht; rw [hk] at this; cases this; rfl
        subst hw1
        rw [PStore.Rep.unique g1.rep h.rep]
        exact hs hst ht c hc
      by_cases ha : B.active = false
      · intro id k p hp hcp
        refine absurd hcp (g1.inactive_no_pairs hA hx' (by rw [hxb']; exact g5) ?_ id k p hp)
        rw [if_pos (Or.inr ha)]; exact ha
      · refine g1.allEnabled hst hx' (by rw [hxb']; exact g5) ?_ (hE _)
        rw [if_neg (by tauto)]
        simp only
        cases hsl : B.sleeping with
        | true => simp
        | false =>
          simp only [Bool.false_eq_true, if_false]
          cases hd : B.disabled with
          | false => rfl
          | true =>
            rcases h.d.dis b B hB hd with h' | h'
            · exact absurd h' ht
            · rw [hsl] at h'; cases h'
    · rintro w' ⟨A', k1, k2⟩
      exact ⟨⟨A', k1, (g2.rounds _).trans (k2.toFrame.rounds _)⟩, g2.jeq.trans k2.toFrame.jeq⟩

end World
end RP3D
