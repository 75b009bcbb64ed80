import Verif.World.Ops

/-! Lemmas: creation and removal of bodies and colliders, activation. -/

set_option linter.unusedVariables false
set_option linter.unusedSimpArgs false
set_option linter.unusedSectionVars false

namespace RP3D
namespace World
variable {α : Type} [LinearOrder α]
variable {w w' w'' : World α} {A A' A'' : PMap} {cfg : Cfg}

theorem setLocalTransform_ok {fat : AABB α → AABB α} {box : AABB α} {c : Nat} {x : Col} {B : Body} (h : WInv cfg w A) (hE : ∀ b, ¬ cfg.ex b)
    (hA : ∀ b, ¬ cfg.exA b) (hx : w.col c = some x) (hB : w.body x.body = some B) (hs : cfg.strict → B.type = .static → AllEnabled A c) :
    Ok cfg.strict (fun w' => Post cfg w A nobody w' ∧ JEq w w') (w.setLocalTransform fat c box) := by
  unfold setLocalTransform
  simp only [hx]
  have key := setSleeping_false_ok (h.addEx x.body) hB (fun _ => h)
  have hsame : B.type = .static → w.setSleeping x.body false = some w := by
    intro hst
    unfold World.setSleeping
    simp only [hB]
    split
    · rfl
    · simp [hst]
  cases hk : w.setSleeping x.body false with
  | none => rw [hk] at key; exact key
  | some w1 =>
    rw [hk] at key
    obtain ⟨A1, g1, g2, _, _, _, g5⟩ := key
    obtain ⟨x', hx', e'⟩ := g2.col_fwd hx
    have hxb' : x'.body = x.body := (Col.core_eq e').1
    simp only
    refine (updateCollider_ok g1 hx' ?_).mono ?_
    · intro hst
      by_cases ht : B.type = .static
      · have hw1 : w1 = w := by have := hsame ht; rw [hk] at this; cases this; rfl
        subst hw1
        rw [PStore.Rep.unique g1.rep h.rep]
        exact hs hst ht
      by_cases ha : B.active = false
      · intro id k p hp hcp
        refine absurd hcp (g1.inactive_no_pairs hA hx' (by rw [hxb']; exact g5) ?_ id k p hp)
        rw [if_pos (Or.inr ha)]; exact ha
      · refine g1.allEnabled hst hx' (by rw [hxb']; exact g5) ?_ (hE _)
        rw [if_neg (by tauto)]
        simp only
        cases hsl : B.sleeping with
        | true => simp
        | false =>
          simp only [Bool.false_eq_true, if_false]
          cases hd : B.disabled with
          | false => rfl
          | true =>
            rcases h.d.dis _ B hB hd with h' | h'
            · exact absurd h' ht
            · rw [hsl] at h'; cases h'
    · rintro w' ⟨A', k1, k2, _⟩
      exact ⟨⟨A', k1, (g2.rounds _).trans (k2.toFrame.rounds _)⟩, g2.jeq.trans k2.toFrame.jeq⟩

/-! ### Creation -/

theorem createBody_ok {b : Nat} (h : WInv cfg w A) (hb : w.body b = none) : WInv cfg (w.createBody b) A := by
  have hne : ∀ b' B, w.body b' = some B → b' ≠ b := by
    intro b' B h1 e; subst e; rw [hb] at h1; cases h1
  have hf : ∀ b' B, w.body b' = some B → (w.createBody b).body b' = some B := fun b' B h1 => (upd_ne _ _ (hne b' B h1)).trans h1
  have hbk : ∀ b' B, (w.createBody b).body b' = some B → (b' = b ∧ B = ⟨.dynamic, true, false, false, [], false, []⟩) ∨ w.body b' = some B := by
    intro b' B h1
    by_cases e : b' = b
    · subst e
      rw [show (w.createBody b').body b' = some ⟨.dynamic, true, false, false, [], false, []⟩ from upd_same _ _ _] at h1
      cases h1; exact Or.inl ⟨rfl, rfl⟩
    · exact Or.inr ((upd_ne _ _ e).symm.trans h1)
  have hcb : ∀ c x B, w.col c = some x → (w.createBody b).body x.body = some B → w.body x.body = some B := by
    intro c x B hx hB
    rcases hbk _ _ hB with ⟨e, _⟩ | h1
    · obtain ⟨B', h1, _⟩ := h.s.col c x hx
      exact absurd e (hne _ _ h1)
    · exact h1
  refine ⟨h.rep, ⟨?_, ?_, ?_, h.s.bp, h.s.bpMap, h.s.tree, h.s.flags, ?_, ?_, h.s.once, h.s.sync⟩, ⟨?_, ?_, ?_, h.d.moved, ?_⟩⟩
  · intro id k p hp
    obtain ⟨x1, x2, ho⟩ := h.s.pair id k p hp
    exact ⟨x1, x2, ⟨ho.c1, ho.c2, ho.ne, ho.b1, ho.b2, ho.id, ho.noColl, ho.cvx, ho.bits⟩⟩
  · intro c x hx
    obtain ⟨B, h1, h2, h3⟩ := h.s.col c x hx
    exact ⟨B, hf _ _ h1, h2, h3⟩
  · intro b' B hB
    rcases hbk _ _ hB with ⟨rfl, rfl⟩ | h1
    · exact ⟨List.nodup_nil, by intro c hc; cases hc⟩
    · exact h.s.cols b' B h1
  · intro hl q hq
    have := h.s.lost hl q hq
    simp only [reportable, Bool.and_eq_true, Option.isSome_iff_exists] at this ⊢
    obtain ⟨⟨⟨h1, h2⟩, ⟨B1, h3⟩⟩, ⟨B2, h4⟩⟩ := this
    exact ⟨⟨⟨h1, h2⟩, ⟨B1, hf _ _ h3⟩⟩, ⟨B2, hf _ _ h4⟩⟩
  · intro hc c1 c2 n1 n2 x1 x2 t1 t2 hm
    exact h.s.cover hc c1 c2 n1 n2 x1 x2 t1 t2 ⟨hm.hc1, hm.hc2, hm.hn1, hm.hn2, hm.ht1, hm.ht2, hm.ne, hm.noColl, hm.bits, hm.cvx, hm.fat⟩
  · intro c x B hx hB
    exact h.d.col c x B hx (hcb c x B hx hB)
  · intro b' B hB hs
    rcases hbk _ _ hB with ⟨rfl, rfl⟩ | h1
    · cases hs
    · exact h.d.static b' B h1 hs
  · intro b' B hB hs
    rcases hbk _ _ hB with ⟨rfl, rfl⟩ | h1
    · cases hs
    · exact h.d.dis b' B h1 hs
  · intro hst id k p hp hk c x B hc hx hB
    exact h.d.pair hst id k p hp hk c x B hc hx (hcb c x B hx hB)

/-- A collider is put into the broad phase. -/
def onTree (w : World α) (c n : Nat) (x : Col) (f : AABB α) : World α :=
  { w with tree := upd w.tree n (some ⟨c, f⟩), col := upd w.col c (some { x with bp := some n }), moved := upd w.moved n true, bpMap := upd w.bpMap n (some c) }

theorem WInv.own_nil (h : WInv cfg w A) {c : Nat} (hc : ∀ id k p, A id = some (k, p) → p.c1 ≠ c ∧ p.c2 ≠ c) : w.store.own c = [] := by
  cases ho : w.store.own c with
  | nil => rfl
  | cons id l =>
    obtain ⟨k, p, hp, e⟩ := (h.rep.own c id).1 (by rw [ho]; simp)
    obtain ⟨h1, h2⟩ := hc id k p hp
    rcases e with e | e
    · exact absurd e h1
    · exact absurd e h2

theorem WInv.no_pair_of_bp (h : WInv cfg w A) {c : Nat} (hc : ∀ x, w.col c = some x → x.bp = none) : ∀ id k p, A id = some (k, p) → p.c1 ≠ c ∧ p.c2 ≠ c := by
  intro id k p hp
  obtain ⟨x1, x2, ho⟩ := h.s.pair id k p hp
  constructor
  · rintro rfl
    have := hc x1 ho.c1; rw [ho.b1] at this; cases this
  · rintro rfl
    have := hc x2 ho.c2; rw [ho.b2] at this; cases this

theorem cdAdd_ok {fat : AABB α → AABB α} {box : AABB α} (h : WInv cfg w A) {c n : Nat} {x : Col} (hx : w.col c = some x) (hb : x.bp = none)
    (hn : n < 2 ^ 32) (ht : w.tree n = none) :
    w.cdAdd fat c n box = some (w.onTree c n x (fat box)) ∧ WInv (cfg.addExA x.body) (w.onTree c n x (fat box)) A := by
  have hnp := h.no_pair_of_bp (c := c) (by intro y hy; rw [hx] at hy; cases hy; exact hb)
  have hbm : w.bpMap n = none := by
    cases e : w.bpMap n with
    | none => rfl
    | some c' =>
      obtain ⟨_, t, ht', _⟩ := h.s.bpMap n c' e
      rw [ht] at ht'; cases ht'
  constructor
  · unfold cdAdd
    simp only [hx]
    unfold addMoved
    have : ({ w with tree := upd w.tree n (some ⟨c, fat box⟩) }.setCol c { x with bp := some n }).store.own c = [] := h.own_nil hnp
    rw [this]
    simp only [notifyPairs, List.foldlM_nil, Option.pure_def, setCol, hbm]
    rfl
  have hcc : (w.onTree c n x (fat box)).col c = some { x with bp := some n } := upd_same _ _ _
  have hcn : ∀ c', c' ≠ c → (w.onTree c n x (fat box)).col c' = w.col c' := fun c' e => upd_ne _ _ e
  have hnn : ∀ c' y n', w.col c' = some y → y.bp = some n' → n' ≠ n := by
    intro c' y n' hy hyb e
    subst e
    have := (h.s.bp c' y n' hy hyb).2
    rw [hbm] at this; cases this
  refine ⟨h.rep, ⟨?_, ?_, ?_, ?_, ?_, ?_, ?_, ?_, ?_, h.s.once, h.s.sync⟩, ⟨?_, h.d.static, h.d.dis, ?_, ?_⟩⟩
  · intro id k p hp
    obtain ⟨x1, x2, ho⟩ := h.s.pair id k p hp
    obtain ⟨e1, e2⟩ := hnp id k p hp
    exact ⟨x1, x2, ⟨by rw [hcn _ e1]; exact ho.c1, by rw [hcn _ e2]; exact ho.c2, ho.ne, ho.b1, ho.b2, ho.id, ho.noColl, ho.cvx, ho.bits⟩⟩
  · intro c' y hy
    by_cases e : c' = c
    · subst e
      rw [hcc] at hy; cases hy
      obtain ⟨B, h1, h2, _⟩ := h.s.col c' x hx
      exact ⟨B, h1, h2, Or.inr (Or.inr rfl)⟩
    · rw [hcn c' e] at hy
      obtain ⟨B, h1, h2, h3⟩ := h.s.col c' y hy
      exact ⟨B, h1, h2, h3.imp (fun h => h) Or.inl⟩
  · intro b B hB
    obtain ⟨h1, h2⟩ := h.s.cols b B hB
    refine ⟨h1, fun c' hc' => ?_⟩
    obtain ⟨y, hy, e⟩ := h2 c' hc'
    by_cases e' : c' = c
    · subst e'
      rw [hx] at hy; cases hy
      exact ⟨_, hcc, e⟩
    · exact ⟨y, by rw [hcn c' e']; exact hy, e⟩
  · intro c' y n' hy hyb
    by_cases e : c' = c
    · subst e
      rw [hcc] at hy; cases hy
      cases hyb
      exact ⟨hn, upd_same _ _ _⟩
    · rw [hcn c' e] at hy
      obtain ⟨h1, h2⟩ := h.s.bp c' y n' hy hyb
      exact ⟨h1, (upd_ne _ _ (hnn c' y n' hy hyb)).trans h2⟩
  · intro n' c' hb'
    by_cases e : n' = n
    · subst e
      rw [show (w.onTree c n' x (fat box)).bpMap n' = some c from upd_same _ _ _] at hb'; cases hb'
      exact ⟨⟨_, hcc, rfl⟩, _, upd_same _ _ _, rfl⟩
    · rw [show (w.onTree c n x (fat box)).bpMap n' = w.bpMap n' from upd_ne _ _ e] at hb'
      obtain ⟨⟨y, hy, hyb⟩, t', ht', e'⟩ := h.s.bpMap n' c' hb'
      have hne : c' ≠ c := by
        intro e2; subst e2
        rw [hx] at hy; cases hy
        rw [hb] at hyb; cases hyb
      exact ⟨⟨y, by rw [hcn c' hne]; exact hy, hyb⟩, t', (upd_ne _ _ e).trans ht', e'⟩
  · intro n' t' ht'
    by_cases e : n' = n
    · subst e
      rw [show (w.onTree c n' x (fat box)).tree n' = some ⟨c, fat box⟩ from upd_same _ _ _] at ht'; cases ht'
      exact upd_same _ _ _
    · rw [show (w.onTree c n x (fat box)).tree n' = w.tree n' from upd_ne _ _ e] at ht'
      exact (upd_ne _ _ e).trans (h.s.tree n' t' ht')
  · intro c' y hy
    by_cases e : c' = c
    · subst e
      rw [hcc] at hy; cases hy
      exact h.s.flags c' x hx
    · rw [hcn c' e] at hy
      exact h.s.flags c' y hy
  · intro hl q hq
    have := h.s.lost hl q hq
    have hb : ∀ c', ((w.onTree c n x (fat box)).col c').isSome = (w.col c').isSome := by
      intro c'
      by_cases e : c' = c
      · subst e; rw [hcc, hx]; rfl
      · rw [hcn c' e]
    have hb' : (w.onTree c n x (fat box)).body = w.body := rfl
    simp only [reportable, hb, hb'] at this ⊢
    exact this
  · intro hcov c1 c2 n1 n2 y1 y2 t1 t2 hm
    by_cases e1 : c1 = c
    · subst e1
      have := hm.hc1
      rw [hcc] at this; cases this
      have h1 := hm.hn1; cases h1
      exact Or.inr (Or.inl (upd_same _ _ _))
    by_cases e2 : c2 = c
    · subst e2
      have := hm.hc2
      rw [hcc] at this; cases this
      have h1 := hm.hn2; cases h1
      exact Or.inr (Or.inr (upd_same _ _ _))
    have g1 := hm.hc1; rw [hcn _ e1] at g1
    have g2 := hm.hc2; rw [hcn _ e2] at g2
    have f1 := hnn _ _ _ g1 hm.hn1
    have f2 := hnn _ _ _ g2 hm.hn2
    have hm' : Meet w c1 c2 n1 n2 y1 y2 t1 t2 := by
      refine ⟨g1, g2, hm.hn1, hm.hn2, ?_, ?_, hm.ne, hm.noColl, hm.bits, hm.cvx, hm.fat⟩
      · have := hm.ht1; rwa [show (w.onTree c n x (fat box)).tree n1 = w.tree n1 from upd_ne _ _ f1] at this
      · have := hm.ht2; rwa [show (w.onTree c n x (fat box)).tree n2 = w.tree n2 from upd_ne _ _ f2] at this
    rcases h.s.cover hcov c1 c2 n1 n2 y1 y2 t1 t2 hm' with hp | hm1 | hm1
    · exact Or.inl hp
    · exact Or.inr (Or.inl ((upd_ne _ _ f1).trans hm1))
    · exact Or.inr (Or.inr ((upd_ne _ _ f2).trans hm1))
  · intro c' y B hy hB
    by_cases e : c' = c
    · subst e
      rw [hcc] at hy; cases hy
      exact h.d.col c' x B hx hB
    · rw [hcn c' e] at hy
      exact h.d.col c' y B hy hB
  · intro n' hm
    by_cases e : n' = n
    · subst e
      exact ⟨_, upd_same _ _ _⟩
    · rw [show (w.onTree c n x (fat box)).moved n' = w.moved n' from upd_ne _ _ e] at hm
      obtain ⟨t', ht'⟩ := h.d.moved n' hm
      exact ⟨t', (upd_ne _ _ e).trans ht'⟩
  · intro hst id k p hp hk c' y B hcp hy hB
    obtain ⟨e1, e2⟩ := hnp id k p hp
    have hne : c' ≠ c := by rcases hcp with rfl | rfl <;> assumption
    rw [hcn c' hne] at hy
    exact h.d.pair hst id k p hp hk c' y B hcp hy hB

/-- A new collider, not yet in the broad phase. -/
def newCol (w : World α) (b c : Nat) (B : Body) (convex : Bool) : World α :=
  { w with col := upd w.col c (some ⟨b, none, convex, 1, 0xFFFF, false, true, true, B.disabled, false⟩), body := upd w.body b (some { B with cols := B.cols ++ [c], hasSim := true }) }

theorem newCol_ok (h : WInv cfg w A) {b c : Nat} {B : Body} (hB : w.body b = some B) (hc : w.col c = none) (convex : Bool) :
    WInv (cfg.addExA b) (w.newCol b c B convex) A := by
  have hcc : (w.newCol b c B convex).col c = some ⟨b, none, convex, 1, 0xFFFF, false, true, true, B.disabled, false⟩ := upd_same _ _ _
  have hcn : ∀ c', c' ≠ c → (w.newCol b c B convex).col c' = w.col c' := fun c' e => upd_ne _ _ e
  have hbb : (w.newCol b c B convex).body b = some { B with cols := B.cols ++ [c], hasSim := true } := upd_same _ _ _
  have hbn : ∀ b', b' ≠ b → (w.newCol b c B convex).body b' = w.body b' := fun b' e => upd_ne _ _ e
  have hcne : ∀ c' x, w.col c' = some x → c' ≠ c := by
    intro c' x h1 e; subst e; rw [hc] at h1; cases h1
  have hcf : ∀ c' x, w.col c' = some x → (w.newCol b c B convex).col c' = some x := fun c' x h1 => (hcn c' (hcne c' x h1)).trans h1
  have hbk : ∀ b' B', (w.newCol b c B convex).body b' = some B' → ∃ B0, w.body b' = some B0 ∧ B'.type = B0.type ∧ B'.active = B0.active ∧
      B'.sleeping = B0.sleeping ∧ B'.disabled = B0.disabled := by
    intro b' B' h1
    by_cases e : b' = b
    · subst e; rw [hbb] at h1; cases h1; exact ⟨B, hB, rfl, rfl, rfl, rfl⟩
    · rw [hbn b' e] at h1; exact ⟨B', h1, rfl, rfl, rfl, rfl⟩
  have hbf : ∀ b' B0, w.body b' = some B0 → ∃ B', (w.newCol b c B convex).body b' = some B' ∧ B'.active = B0.active ∧ ∀ c' ∈ B0.cols, c' ∈ B'.cols := by
    intro b' B0 h1
    by_cases e : b' = b
    · subst e; rw [hB] at h1; cases h1; exact ⟨_, hbb, rfl, fun c' h => by simp [h]⟩
    · exact ⟨B0, (hbn b' e).trans h1, rfl, fun c' h => h⟩
  have hcb : ∀ c' x, (w.newCol b c B convex).col c' = some x → c' ≠ c → w.col c' = some x := fun c' x h1 e => (hcn c' e).symm.trans h1
  refine ⟨h.rep, ⟨?_, ?_, ?_, ?_, ?_, h.s.tree, ?_, ?_, ?_, h.s.once, h.s.sync⟩, ⟨?_, ?_, ?_, h.d.moved, ?_⟩⟩
  · intro id k p hp
    obtain ⟨x1, x2, ho⟩ := h.s.pair id k p hp
    exact ⟨x1, x2, ⟨hcf _ _ ho.c1, hcf _ _ ho.c2, ho.ne, ho.b1, ho.b2, ho.id, ho.noColl, ho.cvx, ho.bits⟩⟩
  · intro c' x hx
    by_cases e : c' = c
    · subst e; rw [hcc] at hx; cases hx
      exact ⟨_, hbb, by simp, Or.inr (Or.inr rfl)⟩
    · obtain ⟨B0, h1, h2, h3⟩ := h.s.col c' x (hcb c' x hx e)
      obtain ⟨B', g1, g2, g3⟩ := hbf _ _ h1
      exact ⟨B', g1, g3 c' h2, by rw [g2]; exact h3.imp (fun h => h) Or.inl⟩
  · intro b' B' hB'
    by_cases e : b' = b
    · subst e; rw [hbb] at hB'; cases hB'
      obtain ⟨h1, h2⟩ := h.s.cols b' B hB
      refine ⟨?_, ?_⟩
      · show (B.cols ++ [c]).Nodup
        rw [List.nodup_append]
        refine ⟨h1, List.nodup_singleton c, ?_⟩
        intro a ha d hd e
        rw [List.mem_singleton] at hd
        obtain ⟨x, hx, _⟩ := h2 a ha
        exact hcne a x hx (e.trans hd)
      · intro c' hc'
        rcases List.mem_append.1 hc' with h3 | h3
        · obtain ⟨x, hx, e⟩ := h2 c' h3
          exact ⟨x, hcf c' x hx, e⟩
        · rw [List.mem_singleton] at h3; subst h3
          exact ⟨_, hcc, rfl⟩
    · rw [hbn b' e] at hB'
      obtain ⟨h1, h2⟩ := h.s.cols b' B' hB'
      refine ⟨h1, fun c' hc' => ?_⟩
      obtain ⟨x, hx, e⟩ := h2 c' hc'
      exact ⟨x, hcf c' x hx, e⟩
  · intro c' x n hx hn
    by_cases e : c' = c
    · subst e; rw [hcc] at hx; cases hx; cases hn
    · exact h.s.bp c' x n (hcb c' x hx e) hn
  · intro n c' hn
    obtain ⟨⟨x, hx, hb'⟩, ht⟩ := h.s.bpMap n c' hn
    exact ⟨⟨x, hcf c' x hx, hb'⟩, ht⟩
  · intro c' x hx
    by_cases e : c' = c
    · subst e; rw [hcc] at hx; cases hx
      rintro ⟨h1, _⟩; cases h1
    · exact h.s.flags c' x (hcb c' x hx e)
  · intro hl q hq
    have := h.s.lost hl q hq
    simp only [reportable, Bool.and_eq_true, Option.isSome_iff_exists] at this ⊢
    obtain ⟨⟨⟨⟨x1, h1⟩, ⟨x2, h2⟩⟩, ⟨B1, h3⟩⟩, ⟨B2, h4⟩⟩ := this
    obtain ⟨B3, g3, _⟩ := hbf _ _ h3
    obtain ⟨B4, g4, _⟩ := hbf _ _ h4
    exact ⟨⟨⟨⟨x1, hcf _ _ h1⟩, ⟨x2, hcf _ _ h2⟩⟩, ⟨B3, g3⟩⟩, ⟨B4, g4⟩⟩
  · intro hcov c1 c2 n1 n2 x1 x2 t1 t2 hm
    have e1 : c1 ≠ c := by
      intro e; subst e
      have := hm.hc1; rw [hcc] at this; cases this; cases hm.hn1
    have e2 : c2 ≠ c := by
      intro e; subst e
      have := hm.hc2; rw [hcc] at this; cases this; cases hm.hn2
    exact h.s.cover hcov c1 c2 n1 n2 x1 x2 t1 t2 ⟨hcb _ _ hm.hc1 e1, hcb _ _ hm.hc2 e2, hm.hn1, hm.hn2, hm.ht1, hm.ht2, hm.ne, hm.noColl, hm.bits, hm.cvx, hm.fat⟩
  · intro c' x B' hx hB'
    obtain ⟨B0, g1, _, _, _, g5⟩ := hbk _ _ hB'
    by_cases e : c' = c
    · subst e; rw [hcc] at hx; cases hx
      rw [hB] at g1; cases g1
      exact g5.symm
    · rw [g5]; exact h.d.col c' x B0 (hcb c' x hx e) g1
  · intro b' B' hB' hs
    obtain ⟨B0, g1, g2, g3, g4, g5⟩ := hbk _ _ hB'
    rw [g5]; exact h.d.static b' B0 g1 (by rw [← g2]; exact hs)
  · intro b' B' hB' hs
    obtain ⟨B0, g1, g2, g3, g4, g5⟩ := hbk _ _ hB'
    rw [g2, g4]; exact h.d.dis b' B0 g1 (by rw [← g5]; exact hs)
  · intro hst id k p hp hk c' x B' hcp hx hB'
    obtain ⟨x1, x2, ho⟩ := h.s.pair id k p hp
    have hne : c' ≠ c := by
      rcases hcp with rfl | rfl
      · exact hcne _ _ ho.c1
      · exact hcne _ _ ho.c2
    obtain ⟨B0, g1, g2, g3, g4, g5⟩ := hbk _ _ hB'
    rw [g5]
    exact h.d.pair hst id k p hp hk c' x B0 hcp (hcb c' x hx hne) g1

theorem addExA_self (h : WInv ((cfg.addExA b).addExA b) w A) : WInv (cfg.addExA b) w A :=
  ⟨h.rep, h.s.weaken (fun h => h) (fun h => h) (fun h => h) (fun h => h) (fun b' h => by rcases h with h | h; exact h; exact Or.inr h), ⟨h.d.col, h.d.static, h.d.dis, h.d.moved, h.d.pair⟩⟩

theorem addCollider_ok {fat : AABB α → AABB α} {box : AABB α} (h : WInv cfg w A) {b c n : Nat} {B : Body} (hB : w.body b = some B) (hc : w.col c = none)
    (convex : Bool) (hn : n < 2 ^ 32) (ht : w.tree n = none) (hA : ∀ b, ¬ cfg.exA b) :
    ∃ w', w.addCollider fat b c convex n box = some w' ∧ WInv cfg w' A ∧ Rounds nobody w A w' A ∧ JEq w w' := by
  unfold addCollider
  simp only [hB]
  have hown := h.own_nil (h.no_pair_of_bp (c := c) (by intro y hy; rw [hc] at hy; cases hy))
  have e : ({ w with store := { w.store with own := upd w.store.own c [] } }.setCol c ⟨b, none, convex, 1, 0xFFFF, false, true, true, B.disabled, false⟩).setBody b
      { B with cols := B.cols ++ [c], hasSim := true } = w.newCol b c B convex := by
    have : ({ w.store with own := upd w.store.own c [] } : PStore) = w.store := by
      cases hs : w.store with
      | mk a o =>
        rw [hs] at hown
        simp only [PStore.mk.injEq, true_and]
        funext c'
        by_cases e : c' = c
        · subst e; rw [upd_same]; exact hown.symm
        · rw [upd_ne _ _ e]
    simp only [setCol, setBody, newCol, this]
  rw [e]
  have h1 := newCol_ok h hB hc convex
  have hj : JEq w (w.newCol b c B convex) := ⟨⟨rfl, rfl⟩, joints_setBody hB rfl⟩
  have hcc : (w.newCol b c B convex).col c = some ⟨b, none, convex, 1, 0xFFFF, false, true, true, B.disabled, false⟩ := upd_same _ _ _
  by_cases ha : B.active = true
  · rw [if_pos ha]
    obtain ⟨e2, h2⟩ := cdAdd_ok (fat := fat) (box := box) h1 hcc rfl hn ht
    refine ⟨_, e2, ?_, rounds_same rfl, hj⟩
    refine (addExA_self h2).dropExA ?_
    intro c' y B' hy hyb hB'
    left
    rw [show ((w.newCol b c B convex).onTree c n ⟨b, none, convex, 1, 0xFFFF, false, true, true, B.disabled, false⟩ (fat box)).body b =
      some { B with cols := B.cols ++ [c], hasSim := true } from upd_same _ _ _] at hB'
    cases hB'
    show y.bp.isSome = B.active
    by_cases e : c' = c
    · subst e
      rw [show ((w.newCol b c' B convex).onTree c' n ⟨b, none, convex, 1, 0xFFFF, false, true, true, B.disabled, false⟩ (fat box)).col c' =
        some ⟨b, some n, convex, 1, 0xFFFF, false, true, true, B.disabled, false⟩ from upd_same _ _ _] at hy
      cases hy; exact ha.symm
    · rw [show ((w.newCol b c B convex).onTree c n ⟨b, none, convex, 1, 0xFFFF, false, true, true, B.disabled, false⟩ (fat box)).col c' = w.col c' from
        (upd_ne _ _ e).trans (upd_ne _ _ e)] at hy
      obtain ⟨B0, g1, _, g3⟩ := h.s.col c' y hy
      rw [hyb, hB] at g1; cases g1
      exact g3.resolve_right (hA _)
  · rw [if_neg ha]
    refine ⟨_, rfl, h1.dropExA ?_, rounds_same rfl, hj⟩
    intro c' y B' hy hyb hB'
    left
    rw [show (w.newCol b c B convex).body b = some { B with cols := B.cols ++ [c], hasSim := true } from upd_same _ _ _] at hB'
    cases hB'
    show y.bp.isSome = B.active
    by_cases e : c' = c
    · subst e; rw [hcc] at hy; cases hy
      simp at ha ⊢; exact ha
    · rw [show (w.newCol b c B convex).col c' = w.col c' from upd_ne _ _ e] at hy
      obtain ⟨B0, g1, _, g3⟩ := h.s.col c' y hy
      rw [hyb, hB] at g1; cases g1
      exact g3.resolve_right (hA _)

/-! ### Removal -/

/-- A collider that is not in the broad phase is deleted. -/
def delCol (w : World α) (b c : Nat) (B : Body) : World α :=
  { w with col := upd w.col c none, body := upd w.body b (some { B with cols := B.cols.erase c }) }

theorem delCol_ok (h : WInv cfg w A) {b c : Nat} {x : Col} {B : Body} (hx : w.col c = some x) (hxb : x.body = b) (hbp : x.bp = none) (hB : w.body b = some B)
    (hl : cfg.lost → ∀ q ∈ w.lost, q.c1 ≠ c ∧ q.c2 ≠ c) : WInv cfg (w.delCol b c B) A := by
  have hnp := h.no_pair_of_bp (c := c) (by intro y hy; rw [hx] at hy; cases hy; exact hbp)
  have hcc : (w.delCol b c B).col c = none := upd_same _ _ _
  have hcn : ∀ c', c' ≠ c → (w.delCol b c B).col c' = w.col c' := fun c' e => upd_ne _ _ e
  have hbb : (w.delCol b c B).body b = some { B with cols := B.cols.erase c } := upd_same _ _ _
  have hbn : ∀ b', b' ≠ b → (w.delCol b c B).body b' = w.body b' := fun b' e => upd_ne _ _ e
  have hcb : ∀ c' y, (w.delCol b c B).col c' = some y → c' ≠ c ∧ w.col c' = some y := by
    intro c' y hy
    have : c' ≠ c := by intro e; subst e; rw [hcc] at hy; cases hy
    exact ⟨this, (hcn c' this).symm.trans hy⟩
  have hbk : ∀ b' B', (w.delCol b c B).body b' = some B' → ∃ B0, w.body b' = some B0 ∧ B'.type = B0.type ∧ B'.active = B0.active ∧
      B'.sleeping = B0.sleeping ∧ B'.disabled = B0.disabled := by
    intro b' B' h1
    by_cases e : b' = b
    · subst e; rw [hbb] at h1; cases h1; exact ⟨B, hB, rfl, rfl, rfl, rfl⟩
    · rw [hbn b' e] at h1; exact ⟨B', h1, rfl, rfl, rfl, rfl⟩
  have hbf : ∀ b' B0, w.body b' = some B0 → ∃ B', (w.delCol b c B).body b' = some B' ∧ B'.active = B0.active ∧ ∀ c' ∈ B0.cols, c' ≠ c → c' ∈ B'.cols := by
    intro b' B0 h1
    by_cases e : b' = b
    · subst e; rw [hB] at h1; cases h1
      exact ⟨_, hbb, rfl, fun c' h e => (List.mem_erase_of_ne e).2 h⟩
    · exact ⟨B0, (hbn b' e).trans h1, rfl, fun c' h _ => h⟩
  refine ⟨h.rep, ⟨?_, ?_, ?_, ?_, ?_, h.s.tree, ?_, ?_, ?_, h.s.once, h.s.sync⟩, ⟨?_, ?_, ?_, h.d.moved, ?_⟩⟩
  · intro id k p hp
    obtain ⟨x1, x2, ho⟩ := h.s.pair id k p hp
    obtain ⟨e1, e2⟩ := hnp id k p hp
    exact ⟨x1, x2, ⟨(hcn _ e1).trans ho.c1, (hcn _ e2).trans ho.c2, ho.ne, ho.b1, ho.b2, ho.id, ho.noColl, ho.cvx, ho.bits⟩⟩
  · intro c' y hy
    obtain ⟨e, hy'⟩ := hcb c' y hy
    obtain ⟨B0, h1, h2, h3⟩ := h.s.col c' y hy'
    obtain ⟨B', g1, g2, g3⟩ := hbf _ _ h1
    exact ⟨B', g1, g3 c' h2 e, by rw [g2]; exact h3⟩
  · intro b' B' hB'
    by_cases e : b' = b
    · subst e; rw [hbb] at hB'; cases hB'
      obtain ⟨h1, h2⟩ := h.s.cols b' B hB
      refine ⟨h1.erase c, ?_⟩
      intro c' hc'
      have hm := (h1.mem_erase_iff).1 hc'
      obtain ⟨y, hy, e⟩ := h2 c' hm.2
      exact ⟨y, (hcn c' hm.1).trans hy, e⟩
    · rw [hbn b' e] at hB'
      obtain ⟨h1, h2⟩ := h.s.cols b' B' hB'
      refine ⟨h1, fun c' hc' => ?_⟩
      obtain ⟨y, hy, e'⟩ := h2 c' hc'
      have : c' ≠ c := by
        intro e2; subst e2; rw [hx] at hy; cases hy
        exact e (e'.symm.trans hxb)
      exact ⟨y, (hcn c' this).trans hy, e'⟩
  · intro c' y n hy hn
    exact h.s.bp c' y n (hcb c' y hy).2 hn
  · intro n c' hn
    obtain ⟨⟨y, hy, hb'⟩, ht⟩ := h.s.bpMap n c' hn
    have : c' ≠ c := by
      intro e2; subst e2; rw [hx] at hy; cases hy; rw [hbp] at hb'; cases hb'
    exact ⟨⟨y, (hcn c' this).trans hy, hb'⟩, ht⟩
  · intro c' y hy
    exact h.s.flags c' y (hcb c' y hy).2
  · intro hl' q hq
    have := h.s.lost hl' q hq
    obtain ⟨n1, n2⟩ := hl hl' q hq
    simp only [reportable, Bool.and_eq_true, Option.isSome_iff_exists] at this ⊢
    obtain ⟨⟨⟨⟨x1, h1⟩, ⟨x2, h2⟩⟩, ⟨B1, h3⟩⟩, ⟨B2, h4⟩⟩ := this
    obtain ⟨B3, g3, _⟩ := hbf _ _ h3
    obtain ⟨B4, g4, _⟩ := hbf _ _ h4
    exact ⟨⟨⟨⟨x1, (hcn _ n1).trans h1⟩, ⟨x2, (hcn _ n2).trans h2⟩⟩, ⟨B3, g3⟩⟩, ⟨B4, g4⟩⟩
  · intro hcov c1 c2 n1 n2 x1 x2 t1 t2 hm
    exact h.s.cover hcov c1 c2 n1 n2 x1 x2 t1 t2 ⟨(hcb _ _ hm.hc1).2, (hcb _ _ hm.hc2).2, hm.hn1, hm.hn2, hm.ht1, hm.ht2, hm.ne, hm.noColl, hm.bits, hm.cvx, hm.fat⟩
  · intro c' y B' hy hB'
    obtain ⟨B0, g1, _, _, _, g5⟩ := hbk _ _ hB'
    rw [g5]; exact h.d.col c' y B0 (hcb c' y hy).2 g1
  · intro b' B' hB' hs
    obtain ⟨B0, g1, g2, g3, g4, g5⟩ := hbk _ _ hB'
    rw [g5]; exact h.d.static b' B0 g1 (by rw [← g2]; exact hs)
  · intro b' B' hB' hs
    obtain ⟨B0, g1, g2, g3, g4, g5⟩ := hbk _ _ hB'
    rw [g2, g4]; exact h.d.dis b' B0 g1 (by rw [← g5]; exact hs)
  · intro hst id k p hp hk c' y B' hcp hy hB'
    obtain ⟨B0, g1, g2, g3, g4, g5⟩ := hbk _ _ hB'
    rw [g5]
    exact h.d.pair hst id k p hp hk c' y B0 hcp (hcb c' y hy).2 g1

theorem rounds_without {c : Nat} (hl : w'.lost = w.lost) : Rounds (· = c) w A w' (without A c) := by
  intro c1 c2 h1 h2
  rw [hl]
  constructor
  · intro ho
    refine ho.mono ?_ (fun q h => h)
    intro id k p hp h3 h4
    exact Or.inl ⟨id, k, p, (without_some.1 hp).1, h3, h4⟩
  · intro ho
    refine ho.mono ?_ (fun q h => h)
    intro id k p hp h3 h4
    refine Or.inl ⟨id, k, p, without_some.2 ⟨hp, ?_⟩, h3, h4⟩
    rcases h4 with ⟨e1, e2⟩ | ⟨e1, e2⟩
    · rw [e1, e2]; exact ⟨h1, h2⟩
    · rw [e1, e2]; exact ⟨h2, h1⟩

theorem cdRemoveIf_ok (h : WInv cfg w A) {c : Nat} {x : Col} (hc : w.col c = some x) :
    ∃ w' A', w.cdRemoveIf c = some w' ∧ WInv (cfg.addExA x.body) w' A' ∧ w'.body = w.body ∧ JN w w' ∧ w'.lost = w.lost ∧
      w'.col = upd w.col c (some { x with bp := none }) ∧ Rounds (· = c) w A w' A' := by
  unfold cdRemoveIf
  simp only [hc]
  cases hb : x.bp with
  | none =>
    refine ⟨w, A, rfl, h.addExA _, rfl, ⟨rfl, rfl⟩, rfl, ?_, Rounds.refl _ w A⟩
    funext c'
    by_cases e : c' = c
    · subst e; rw [upd_same, hc]; cases x; cases hb; rfl
    · rw [upd_ne _ _ e]
  | some n =>
    obtain ⟨s, e, hw⟩ := cdRemove_ok h hc hb
    exact ⟨_, _, e, hw, rfl, ⟨rfl, rfl⟩, rfl, rfl, rounds_without rfl⟩

theorem WInv.exA_le {cfg' : Cfg} (h : WInv cfg w A) (e1 : cfg'.strict = cfg.strict) (e2 : cfg'.bits = cfg.bits) (e3 : cfg'.lost = cfg.lost)
    (e4 : cfg'.cover = cfg.cover) (e5 : cfg'.ex = cfg.ex) (e7 : cfg'.sync = cfg.sync) (e6 : ∀ b, cfg.exA b → cfg'.exA b) : WInv cfg' w A :=
  ⟨h.rep, h.s.weaken (fun h => e2 ▸ h) (fun h => e3 ▸ h) (fun h => e4 ▸ h) (fun h => e7 ▸ h) e6,
    ⟨h.d.col, h.d.static, h.d.dis, h.d.moved, fun hs => by rw [e5]; exact h.d.pair (e1 ▸ hs)⟩⟩

theorem bodyRemoveCollider_ok (h : WInv cfg w A) (hA : ∀ b, ¬ cfg.exA b) {b c : Nat} {x : Col} (hc : w.col c = some x) (hb : x.body = b)
    (hl : cfg.lost → ∀ q ∈ w.lost, q.c1 ≠ c ∧ q.c2 ≠ c) :
    ∃ w' A', w.bodyRemoveCollider b c = some w' ∧ WInv cfg w' A' ∧ Rounds (· = c) w A w' A' ∧ JEq w w' ∧ w'.lost = w.lost ∧
      w'.col = upd w.col c none ∧ ∀ B, w.body b = some B → ∃ v, w'.body = upd w.body b (some { B with cols := B.cols.erase c, hasSim := v }) := by
  unfold bodyRemoveCollider
  obtain ⟨w1, A1, e1, g1, g2, g3, g4, g5, g6⟩ := cdRemoveIf_ok h hc
  rw [e1]
  obtain ⟨B, hB, hm, _⟩ := h.s.col c x hc
  subst hb
  have hB1 : w1.body x.body = some B := by rw [g2]; exact hB
  simp only [hB1]
  have hx1 : w1.col c = some { x with bp := none } := by rw [g5]; exact upd_same _ _ _
  have hd := delCol_ok g1 hx1 rfl rfl hB1 (by intro hl'; rw [g4]; exact hl hl')
  have hcolw : (w1.delCol x.body c B).col = upd w.col c none := by
    show upd w1.col c none = _
    rw [g5]
    funext c'
    by_cases e : c' = c
    · subst e; rw [upd_same, upd_same]
    · rw [upd_ne _ _ e, upd_ne _ _ e, upd_ne _ _ e]
  have hbodyc : (w1.delCol x.body c B).body x.body = some { B with cols := B.cols.erase c } := upd_same _ _ _
  have hd' : WInv cfg (w1.delCol x.body c B) A1 := by
    refine hd.dropExA ?_
    intro c' y B' hy hyb hB'
    rw [hbodyc] at hB'; cases hB'
    rw [hcolw] at hy
    have hne : c' ≠ c := by intro e; subst e; rw [upd_same] at hy; cases hy
    rw [upd_ne _ _ hne] at hy
    obtain ⟨B0, k1, _, k3⟩ := h.s.col c' y hy
    rw [hyb, hB] at k1; cases k1
    rw [hyb] at k3
    exact k3
  obtain ⟨w2, e2, k1, k2, k3, k4, v, k5⟩ := updateHasSimIf_ok hd' hbodyc
  refine ⟨w2, A1, e2, k1, ?_, ?_, ?_, ?_, ?_⟩
  · have := g6.trans (rounds_same (R := (· = c)) (w := w1) (w' := w2) (A := A1) k3)
    exact this
  · refine JEq.trans ?_ k2
    refine ⟨g3, fun b' => ?_⟩
    show (upd w1.body x.body (some { B with cols := B.cols.erase c }) b').map Body.joints = _
    rw [g2]
    exact joints_setBody (B' := { B with cols := B.cols.erase c }) hB rfl b'
  · rw [k3]; exact g4
  · rw [k4]; exact hcolw
  · intro B' hB'
    rw [hB] at hB'; cases hB'
    refine ⟨v, ?_⟩
    rw [k5]
    show upd (upd w1.body _ _) _ _ = _
    rw [g2]
    funext b'
    by_cases e : b' = x.body
    · subst e; rw [upd_same, upd_same]
    · rw [upd_ne _ _ e, upd_ne _ _ e, upd_ne _ _ e]

theorem cdRemoveAll_ok {b : Nat} {cs : List Nat} (h : WInv (cfg.addExA b) w A) (hc : ∀ c ∈ cs, ∃ x, w.col c = some x ∧ x.body = b) :
    ∃ w' A', cs.foldlM cdRemoveIf w = some w' ∧ WInv (cfg.addExA b) w' A' ∧ w'.body = w.body ∧ JN w w' ∧ w'.lost = w.lost ∧
      Rounds (· ∈ cs) w A w' A' ∧ (∀ c ∈ cs, ∀ x, w'.col c = some x → x.bp = none) ∧
      (∀ c x, w.col c = some x → ∃ x', w'.col c = some x' ∧ (x' = x ∨ x' = { x with bp := none })) ∧ (∀ c, w.col c = none → w'.col c = none) := by
  induction cs generalizing w A with
  | nil =>
    exact ⟨w, A, rfl, h, rfl, ⟨rfl, rfl⟩, rfl, Rounds.refl _ _ _, by simp, fun c x hx => ⟨x, hx, Or.inl rfl⟩, fun _ h => h⟩
  | cons c cs ih =>
    rw [List.foldlM_cons]
    obtain ⟨x, hx, hxb⟩ := hc c (by simp)
    obtain ⟨w1, A1, e1, g1, g2, g3, g4, g5, g6⟩ := cdRemoveIf_ok h hx
    rw [hxb] at g1
    obtain ⟨w2, A2, e2, k1, k2, k3, k4, k5, k6, k7, k8⟩ := ih (addExA_self g1) (by
      intro c' hc'
      obtain ⟨y, hy, e⟩ := hc c' (by simp [hc'])
      rw [g5]
      by_cases e' : c' = c
      · subst e'; rw [upd_same]; rw [hx] at hy; cases hy; exact ⟨_, rfl, e⟩
      · rw [upd_ne _ _ e']; exact ⟨y, hy, e⟩)
    refine ⟨w2, A2, ?_, k1, k2.trans g2, g3.trans k3, k4.trans g4, ?_, ?_, ?_, ?_⟩
    · rw [e1]; exact e2
    · exact (g6.mono (by intro c' e; subst e; simp)).trans (k5.mono (by intro c' h; simp [h]))
    · intro c' hc' y hy
      rcases List.mem_cons.1 hc' with rfl | hc'
      · obtain ⟨y', hy', e'⟩ := k7 c' { x with bp := none } (by rw [g5]; exact upd_same _ _ _)
        rw [hy] at hy'; cases hy'
        rcases e' with rfl | rfl <;> rfl
      · exact k6 c' hc' y hy
    · intro c' y hy
      by_cases e' : c' = c
      · subst e'
        rw [hx] at hy; cases hy
        obtain ⟨y', hy', e'⟩ := k7 c' { x with bp := none } (by rw [g5]; exact upd_same _ _ _)
        exact ⟨y', hy', Or.inr (by rcases e' with rfl | rfl <;> rfl)⟩
      · exact k7 c' y (by rw [g5, upd_ne _ _ e']; exact hy)
    · intro c' hc'
      refine k8 c' ?_
      rw [g5, upd_ne _ _ (by intro e; subst e; rw [hx] at hc'; cases hc')]; exact hc'

theorem cdAddAll_ok {fat : AABB α → AABB α} {box : Nat → AABB α} {b : Nat} {cns : List (Nat × Nat)} (h : WInv (cfg.addExA b) w A)
    (hd1 : (cns.map Prod.fst).Nodup) (hd2 : (cns.map Prod.snd).Nodup)
    (hc : ∀ cn ∈ cns, (∃ x, w.col cn.1 = some x ∧ x.body = b ∧ x.bp = none) ∧ cn.2 < 2 ^ 32 ∧ w.tree cn.2 = none) :
    ∃ w', w.cdAddAll fat box cns = some w' ∧ WInv (cfg.addExA b) w' A ∧ w'.body = w.body ∧ JN w w' ∧ w'.lost = w.lost ∧
      (∀ c ∈ cns.map Prod.fst, ∀ x, w'.col c = some x → x.bp.isSome = true) ∧ (∀ c, c ∉ cns.map Prod.fst → w'.col c = w.col c) := by
  induction cns generalizing w with
  | nil =>
    exact ⟨w, rfl, h, rfl, ⟨rfl, rfl⟩, rfl, by simp, fun _ _ => rfl⟩
  | cons cn cns ih =>
    obtain ⟨c, n⟩ := cn
    obtain ⟨⟨x, hx, hxb, hbp⟩, hn, ht⟩ := hc (c, n) (by simp)
    simp only at hx hn ht
    obtain ⟨e1, g1⟩ := cdAdd_ok (fat := fat) (box := box c) h hx hbp hn ht
    rw [hxb] at g1
    simp only [List.map_cons, List.nodup_cons] at hd1 hd2
    obtain ⟨w2, e2, k1, k2, k3, k4, k5, k6⟩ := ih (addExA_self g1) hd1.2 hd2.2 (by
      rintro ⟨c', n'⟩ hm
      obtain ⟨⟨y, hy, q⟩, hn', ht'⟩ := hc (c', n') (by simp [hm])
      simp only at hy hn' ht'
      have hne : c' ≠ c := by intro e; subst e; exact hd1.1 (List.mem_map.2 ⟨_, hm, rfl⟩)
      have hne' : n' ≠ n := by intro e; subst e; exact hd2.1 (List.mem_map.2 ⟨_, hm, rfl⟩)
      exact ⟨⟨y, (upd_ne _ _ hne).trans hy, q⟩, hn', (upd_ne _ _ hne').trans ht'⟩)
    refine ⟨w2, ?_, k1, k2, k3, k4, ?_, ?_⟩
    · unfold cdAddAll
      rw [List.foldlM_cons]
      simp only [e1]
      exact e2
    · intro c' hc' y hy
      rw [List.map_cons] at hc'
      rcases List.mem_cons.1 hc' with rfl | hc'
      · rw [k6 c' hd1.1] at hy
        rw [show (w.onTree c' n x (fat (box c'))).col c' = some { x with bp := some n } from upd_same _ _ _] at hy
        cases hy; rfl
      · exact k5 c' hc' y hy
    · intro c' hc'
      simp only [List.map_cons, List.mem_cons, not_or] at hc'
      rw [k6 c' hc'.2]
      exact upd_ne _ _ hc'.1

end World
end RP3D
