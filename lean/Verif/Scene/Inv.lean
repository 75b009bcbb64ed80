import Verif.Scene.Model
import Verif.Props.Tree
import Verif.Props.Transform

/-! The invariant of the scenes: every operation keeps the stored poses and the boxes in the tree up to date. -/

set_option linter.unusedVariables false
set_option linter.unusedSectionVars false
set_option linter.unusedSimpArgs false

namespace RP3D
namespace Scene
open TreeSpec

variable {K : Type} [Field K] [LinearOrder K] [IsStrictOrderedRing K]

/-- The box of a shape is defined and valid for every rigid pose. -/
def Proper (f : Form K) : Prop := ∀ t : Trans K, t.ori.lengthSq = 1 → ∃ b, f.box t = some b ∧ b.Valid

/-- The invariant. The colliders of `P` need not be placed, those of `F` need not have a current box in the tree, those of `A` may be in the tree
or not. `S` are the objects of the tree. -/
structure Inv (fat : AABB K → AABB K) (w : State K) (S : Nat → Option (Obj K)) (P F A : Nat → Prop) : Prop where
  tree : Hist AABB.Valid fat w.tree S
  owner : ∀ c x, w.col c = some x → ∃ B, w.body x.body = some B ∧ c ∈ B.cols
  cols : ∀ b B, w.body b = some B → B.cols.Nodup ∧ ∀ c ∈ B.cols, ∃ x, w.col c = some x ∧ x.body = b
  rigid : ∀ b B, w.body b = some B → B.trans.ori.lengthSq = 1
  rigidLoc : ∀ c x, w.col c = some x → x.loc.ori.lengthSq = 1
  form : ∀ c x, w.col c = some x → ∃ f, w.form x.form = some f
  proper : ∀ s f, w.form s = some f → Proper f
  placed : ∀ c x B, w.col c = some x → w.body x.body = some B → ¬ P c → x.world = B.trans.mul x.loc
  node : ∀ c x n, w.col c = some x → x.bp = some n → ∃ o, S n = some o ∧ o.data = c
  obj : ∀ n o, S n = some o → ∃ x, w.col o.data = some x ∧ x.bp = some n
  active : ∀ c x B, w.col c = some x → w.body x.body = some B → ¬ A c → (x.bp.isSome = true ↔ B.active = true)
  fresh : ∀ c x n o b, w.col c = some x → ¬ F c → x.changed = false → x.bp = some n → S n = some o → w.boxOf x = some b → o.fat.contains b = true

/-- The same bodies and shapes, and the same colliders up to their stored poses and their nodes. -/
structure Same (w w' : State K) : Prop where
  body : w'.body = w.body
  form : w'.form = w.form
  col : ∀ c, (w'.col c).map (fun x => (x.body, x.loc, x.form, x.cat, x.query)) = (w.col c).map (fun x => (x.body, x.loc, x.form, x.cat, x.query))
  changed : ∀ c x x', w.col c = some x → w'.col c = some x' → x'.changed = true → x.changed = true

theorem Same.refl (w : State K) : Same w w := ⟨rfl, rfl, fun _ => rfl, fun c x x' h h' k => by rw [h] at h'; cases h'; exact k⟩

theorem Same.get {w w' : State K} (h : Same w w') {c : Nat} {x : SCol K} (hc : w.col c = some x) :
    ∃ x', w'.col c = some x' ∧ x'.body = x.body ∧ x'.loc = x.loc ∧ x'.form = x.form := by
  have := h.col c
  rw [hc] at this
  cases h' : w'.col c with
  | none => rw [h'] at this; cases this
  | some x' =>
    rw [h'] at this
    simp only [Option.map_some, Option.some.injEq, Prod.mk.injEq] at this
    exact ⟨x', rfl, this.1, this.2.1, this.2.2.1⟩

theorem Same.trans {w w' w'' : State K} (h : Same w w') (h' : Same w' w'') : Same w w'' :=
  ⟨h'.body.trans h.body, h'.form.trans h.form, fun c => (h'.col c).trans (h.col c), fun c x x' hx hx' k => by
    obtain ⟨y, hy, _⟩ := h.get hx
    exact h.changed c x y hx hy (h'.changed c y x' hy hx' k)⟩

theorem Same.setCol {w : State K} {c : Nat} {x y : SCol K} {t : Tree K} (hc : w.col c = some x)
    (h : (y.body, y.loc, y.form, y.cat, y.query) = (x.body, x.loc, x.form, x.cat, x.query)) (hch : y.changed = true → x.changed = true) :
    Same w ({ w with tree := t }.setCol c y) := by
  refine ⟨rfl, rfl, fun d => ?_, fun d z z' hz hz' k => ?_⟩
  · by_cases e : d = c
    · subst e
      simp only [State.setCol, upd_same, Option.map_some, hc, h]
    · simp only [State.setCol, upd_ne _ _ e]
  · by_cases e : d = c
    · subst e
      simp only [State.setCol, upd_same, Option.some.injEq] at hz'
      rw [hc] at hz
      cases hz
      subst hz'
      exact hch k
    · simp only [State.setCol, upd_ne _ _ e] at hz'
      rw [hz] at hz'
      cases hz'
      exact k

variable {fat : AABB K → AABB K} {w : State K} {S : Nat → Option (Obj K)} {P F A : Nat → Prop}

theorem Inv.weaken {P' F' A' : Nat → Prop} (h : Inv fat w S P F A) (hP : ∀ c, P c → P' c) (hF : ∀ c, F c → F' c) (hA : ∀ c, A c → A' c) :
    Inv fat w S P' F' A' :=
  { h with
    placed := fun c x B hc hB hp => h.placed c x B hc hB fun q => hp (hP c q)
    active := fun c x B hc hB hp => h.active c x B hc hB fun q => hp (hA c q)
    fresh := fun c x n o b hc hf => h.fresh c x n o b hc fun q => hf (hF c q) }

/-- Exceptions count only for colliders that exist. -/
theorem Inv.strengthen {P' F' A' : Nat → Prop} (h : Inv fat w S P F A) (hP : ∀ c x, w.col c = some x → P c → P' c)
    (hF : ∀ c x, w.col c = some x → F c → F' c) (hA : ∀ c x, w.col c = some x → A c → A' c) : Inv fat w S P' F' A' :=
  { h with
    placed := fun c x B hc hB hp => h.placed c x B hc hB fun q => hp (hP c x hc q)
    active := fun c x B hc hB hp => h.active c x B hc hB fun q => hp (hA c x hc q)
    fresh := fun c x n o b hc hf => h.fresh c x n o b hc fun q => hf (hF c x hc q) }

theorem Inv.box (h : Inv fat w S P F A) {c : Nat} {x : SCol K} (hc : w.col c = some x) : ∃ b, w.boxOf x = some b ∧ b.Valid := by
  obtain ⟨B, hB, _⟩ := h.owner c x hc
  obtain ⟨f, hf⟩ := h.form c x hc
  obtain ⟨b, hb, hv⟩ := h.proper _ f hf (B.trans.mul x.loc) (by
    rw [trans_mul_eq]; exact unit_mul (h.rigid _ _ hB) (h.rigidLoc _ _ hc))
  refine ⟨b, ?_, hv⟩
  simp only [State.boxOf, hB, hf, Option.bind_eq_bind, Option.bind_some, hb]

theorem boxOf_congr {w w' : State K} {x y : SCol K} (h1 : w'.body = w.body) (h2 : w'.form = w.form) (e1 : y.body = x.body) (e2 : y.form = x.form)
    (e3 : y.loc = x.loc) : w'.boxOf y = w.boxOf x := by
  simp only [State.boxOf, h1, h2, e1, e2, e3]

/-- Writing fields of a collider that no part of the invariant reads, or only the parts that are asked for. -/
theorem Inv.setCol {P' F' A' : Nat → Prop} {t : Tree K} {S' : Nat → Option (Obj K)} (h : Inv fat w S P F A) {c : Nat} {x y : SCol K}
    (hc : w.col c = some x) (eb : y.body = x.body) (ef : y.form = x.form) (hr : y.loc.ori.lengthSq = 1)
    (ht : Hist AABB.Valid fat t S')
    (hS : ∀ n, x.bp ≠ some n → y.bp ≠ some n → S' n = S n)
    (hn : ∀ n, y.bp = some n → ∃ o, S' n = some o ∧ o.data = c)
    (ho : ∀ n, x.bp = some n → y.bp ≠ some n → S' n = none)
    (hnew : ∀ n, y.bp = some n → x.bp ≠ some n → S n = none)
    (hP : ∀ d, d ≠ c → P d → P' d) (hF : ∀ d, d ≠ c → F d → F' d) (hA : ∀ d, d ≠ c → A d → A' d)
    (pc : ∀ B, w.body x.body = some B → ¬ P' c → y.world = B.trans.mul y.loc)
    (ac : ∀ B, w.body x.body = some B → ¬ A' c → (y.bp.isSome = true ↔ B.active = true))
    (fc : ∀ n o b, ¬ F' c → y.changed = false → y.bp = some n → S' n = some o → w.boxOf y = some b → o.fat.contains b = true) :
    Inv fat ({ w with tree := t }.setCol c y) S' P' F' A' := by
  have get : ∀ d z, ({ w with tree := t }.setCol c y).col d = some z → (d = c ∧ z = y) ∨ (d ≠ c ∧ w.col d = some z) := by
    intro d z hd
    by_cases e : d = c
    · subst e
      simp only [State.setCol, upd_same, Option.some.injEq] at hd
      exact Or.inl ⟨rfl, hd.symm⟩
    · simp only [State.setCol, upd_ne _ _ e] at hd
      exact Or.inr ⟨e, hd⟩
  -- the nodes of other colliders are not touched
  have other : ∀ d z n, d ≠ c → w.col d = some z → z.bp = some n → S' n = S n := by
    intro d z n e hd hz
    apply hS
    · intro hx
      obtain ⟨o, o1, o2⟩ := h.node c x n hc hx
      obtain ⟨o', o1', o2'⟩ := h.node d z n hd hz
      rw [o1] at o1'
      cases o1'
      exact e (o2'.symm.trans o2)
    · intro hy
      by_cases hx : x.bp = some n
      · obtain ⟨o, o1, o2⟩ := h.node c x n hc hx
        obtain ⟨o', o1', o2'⟩ := h.node d z n hd hz
        rw [o1] at o1'
        cases o1'
        exact e (o2'.symm.trans o2)
      · have := hnew n hy hx
        obtain ⟨o', o1', o2'⟩ := h.node d z n hd hz
        rw [this] at o1'
        cases o1'
  refine ⟨ht, ?_, ?_, h.rigid, ?_, ?_, h.proper, ?_, ?_, ?_, ?_, ?_⟩
  · intro d z hd
    rcases get d z hd with ⟨rfl, rfl⟩ | ⟨e, hd⟩
    · rw [eb]; exact h.owner _ _ hc
    · exact h.owner _ _ hd
  · intro b B hB
    refine ⟨(h.cols b B hB).1, fun d hd => ?_⟩
    obtain ⟨z, hz, ez⟩ := (h.cols b B hB).2 d hd
    by_cases e : d = c
    · subst e
      rw [hc] at hz
      cases hz
      exact ⟨y, by simp [State.setCol], by rw [eb, ez]⟩
    · exact ⟨z, by simp only [State.setCol, upd_ne _ _ e]; exact hz, ez⟩
  · intro d z hd
    rcases get d z hd with ⟨rfl, rfl⟩ | ⟨e, hd⟩
    · exact hr
    · exact h.rigidLoc _ _ hd
  · intro d z hd
    rcases get d z hd with ⟨rfl, rfl⟩ | ⟨e, hd⟩
    · rw [ef]; exact h.form _ _ hc
    · exact h.form _ _ hd
  · intro d z B hd hB hp
    rcases get d z hd with ⟨rfl, rfl⟩ | ⟨e, hd⟩
    · rw [eb] at hB; exact pc B hB hp
    · exact h.placed d z B hd hB fun q => hp (hP d e q)
  · intro d z n hd hz
    rcases get d z hd with ⟨rfl, rfl⟩ | ⟨e, hd⟩
    · exact hn n hz
    · rw [other d z n e hd hz]; exact h.node d z n hd hz
  · intro n o hno
    by_cases hy : y.bp = some n
    · obtain ⟨o', o1, o2⟩ := hn n hy
      rw [hno] at o1
      cases o1
      exact ⟨y, by rw [o2]; simp [State.setCol], hy⟩
    · by_cases hx : x.bp = some n
      · rw [ho n hx hy] at hno; cases hno
      · rw [hS n hx hy] at hno
        obtain ⟨z, hz, bz⟩ := h.obj n o hno
        have e : o.data ≠ c := by
          intro e
          rw [e, hc] at hz
          cases hz
          exact hx bz
        exact ⟨z, by simp only [State.setCol, upd_ne _ _ e]; exact hz, bz⟩
  · intro d z B hd hB hp
    rcases get d z hd with ⟨rfl, rfl⟩ | ⟨e, hd⟩
    · rw [eb] at hB; exact ac B hB hp
    · exact h.active d z B hd hB fun q => hp (hA d e q)
  · intro d z n o b hd hf hch hbp hso hbox
    have hbox' : w.boxOf z = some b := hbox
    rcases get d z hd with ⟨rfl, rfl⟩ | ⟨e, hd⟩
    · exact fc n o b hf hch hbp hso hbox'
    · rw [other d z n e hd hbp] at hso
      exact h.fresh d z n o b hd (fun q => hf (hF d e q)) hch hbp hso hbox'

/-- Writing fields without touching the tree. -/
theorem Inv.write {P' F' A' : Nat → Prop} (h : Inv fat w S P F A) {c : Nat} {x y : SCol K}
    (hc : w.col c = some x) (eb : y.body = x.body) (ef : y.form = x.form) (ep : y.bp = x.bp) (hr : y.loc.ori.lengthSq = 1)
    (hP : ∀ d, d ≠ c → P d → P' d) (hF : ∀ d, d ≠ c → F d → F' d) (hA : ∀ d, A d → A' d)
    (pc : ∀ B, w.body x.body = some B → ¬ P' c → y.world = B.trans.mul y.loc)
    (fc : ∀ n o b, ¬ F' c → y.changed = false → y.bp = some n → S n = some o → w.boxOf y = some b → o.fat.contains b = true) :
    Inv fat (w.setCol c y) S P' F' A' := by
  refine h.setCol (t := w.tree) hc eb ef hr h.tree (fun n _ _ => rfl) (fun n hn => h.node c x n hc (ep ▸ hn)) (fun n hx hy => absurd (ep ▸ hx) hy)
    (fun n hy hx => absurd (ep ▸ hy) hx) hP hF (fun d _ => hA d) pc (fun B hB ha => ?_) fc
  rw [ep]
  exact h.active c x B hc hB fun q => ha (hA c q)

/-! ### The operations on one collider -/

theorem place_inv (h : Inv fat w S P F A) {c : Nat} {x : SCol K} (hc : w.col c = some x) :
    ∃ w', w.place c = some w' ∧ Same w w' ∧ Inv fat w' S (fun d => P d ∧ d ≠ c) F A := by
  obtain ⟨B, hB, _⟩ := h.owner c x hc
  refine ⟨w.setCol c { x with world := B.trans.mul x.loc }, by simp only [State.place, hc, hB], Same.setCol (t := w.tree) hc (by rfl) (fun q => q), ?_⟩
  refine h.write hc rfl rfl rfl (h.rigidLoc c x hc) (fun d e q => ⟨q, e⟩) (fun d _ q => q) (fun d q => q) (fun B' hB' _ => ?_) ?_
  · rw [hB] at hB'; cases hB'; rfl
  · intro n o b hf h1 h2 h3 h4
    exact h.fresh c x n o b hc hf h1 h2 h3 h4

theorem updateCollider_inv (hfat : ∀ b : AABB K, b.Valid → (fat b).contains b = true) (ch : Choice K) (h : Inv fat w S P F A) {c : Nat} {x : SCol K}
    (hc : w.col c = some x) : ∃ w' S', w.updateCollider ch fat c = some w' ∧ Same w w' ∧ Inv fat w' S' P (fun d => F d ∧ d ≠ c) A := by
  cases hbp : x.bp with
  | none =>
    refine ⟨w, S, by simp only [State.updateCollider, hc, hbp], Same.refl w, ?_⟩
    refine { h with fresh := fun d z n o b hd hf h1 h2 h3 h4 => ?_ }
    by_cases e : d = c
    · subst e
      rw [hc] at hd
      cases hd
      rw [hbp] at h2
      cases h2
    · exact h.fresh d z n o b hd (fun q => hf ⟨q, e⟩) h1 h2 h3 h4
  | some n =>
    obtain ⟨b, hb, hv⟩ := h.box hc
    obtain ⟨o, ho, hod⟩ := h.node c x n hc hbp
    obtain ⟨t', m, e⟩ := ((tree_valid_defined h.tree ch b 0).2 n o ho).2 x.changed
    have ht := Hist.update h.tree ho hv e
    refine ⟨{ w with tree := t' }.setCol c { x with changed := false }, upd S n (some ⟨o.data, b, if m = true then fat b else o.fat⟩),
      by simp only [State.updateCollider, hc, hbp, hb, e], Same.setCol hc (by rfl) (fun q => by cases q), ?_⟩
    refine h.setCol hc rfl rfl (h.rigidLoc c x hc) ht ?_ ?_ ?_ ?_ (fun d _ q => q) (fun d e q => ⟨q, e⟩) (fun d _ q => q)
      (fun B hB hp => h.placed c x B hc hB hp) (fun B hB hp => h.active c x B hc hB hp) ?_
    · intro k hk _
      exact upd_ne _ _ fun ek => hk (by rw [ek, hbp])
    · intro k hk
      have : k = n := by simpa [hbp] using hk.symm
      subst this
      exact ⟨_, upd_same _ _ _, hod⟩
    · intro k hk hk'; exact absurd hk hk'
    · intro k hk hk'; exact absurd hk hk'
    · intro k o' b' _ _ hk hS' hb'
      have : k = n := by simpa [hbp] using hk.symm
      subst this
      rw [upd_same] at hS'
      cases hS'
      have hb2 : w.boxOf x = some b' := hb'
      rw [hb] at hb2
      cases hb2
      cases m with
      | true => simpa using hfat b hv
      | false =>
        have := (tree_update_false h.tree ho e).1.1 rfl
        simpa using this.2

theorem moveCollider_inv (hfat : ∀ b : AABB K, b.Valid → (fat b).contains b = true) (ch : Choice K) (h : Inv fat w S P F A) {c : Nat} {x : SCol K}
    (hc : w.col c = some x) :
    ∃ w' S', w.moveCollider ch fat c = some w' ∧ Same w w' ∧ Inv fat w' S' (fun d => P d ∧ d ≠ c) (fun d => F d ∧ d ≠ c) A := by
  obtain ⟨w1, e1, s1, i1⟩ := place_inv h hc
  obtain ⟨x1, hx1, _⟩ := s1.get hc
  obtain ⟨w2, S2, e2, s2, i2⟩ := updateCollider_inv hfat ch i1 hx1
  exact ⟨w2, S2, by simp only [State.moveCollider, e1, e2], s1.trans s2, i2⟩

theorem cdAdd_inv (hfat : ∀ b : AABB K, b.Valid → (fat b).contains b = true) (ch : Choice K) (h : Inv fat w S P F A) {c : Nat} {x : SCol K}
    (hc : w.col c = some x) (hbp : x.bp = none) {B : SBody K} (hB : w.body x.body = some B) (ha : B.active = true) :
    ∃ w' S', w.cdAdd ch fat c = some w' ∧ Same w w' ∧ (∀ d, d ≠ c → w'.col d = w.col d) ∧ Inv fat w' S' P F (fun d => A d ∧ d ≠ c) := by
  obtain ⟨b, hb, hv⟩ := h.box hc
  obtain ⟨t', n, e, hn⟩ := (tree_valid_defined h.tree ch b c).1
  have ht := Hist.add h.tree hv e
  refine ⟨{ w with tree := t' }.setCol c { x with bp := some n }, upd S n (some ⟨c, b, fat b⟩), by simp only [State.cdAdd, hc, hbp, hb, e], Same.setCol hc (by rfl) (by exact fun q => q), fun d hd => by simp only [State.setCol, upd_ne _ _ hd], ?_⟩
  refine h.setCol hc rfl rfl (h.rigidLoc c x hc) ht ?_ ?_ ?_ ?_ (fun d _ q => q) (fun d _ q => q) (fun d e q => ⟨q, e⟩)
    (fun B hB hp => h.placed c x B hc hB hp) ?_ ?_
  · intro k _ hk
    exact upd_ne _ _ fun ek => hk (by rw [ek])
  · intro k hk
    have : k = n := by simpa using hk.symm
    subst this
    exact ⟨_, upd_same _ _ _, rfl⟩
  · intro k hk; rw [hbp] at hk; cases hk
  · intro k hk _
    have : k = n := by simpa using hk.symm
    subst this
    exact hn
  · intro B' hB' _
    rw [hB] at hB'
    cases hB'
    simp [ha]
  · intro k o b' _ _ hk hS' hb'
    have : k = n := by simpa using hk.symm
    subst this
    rw [upd_same] at hS'
    cases hS'
    have hb2 : w.boxOf x = some b' := hb'
    rw [hb] at hb2
    cases hb2
    exact hfat b hv

theorem cdRemove_inv (h : Inv fat w S P F A) {c : Nat} {x : SCol K} (hc : w.col c = some x) :
    ∃ w' S', w.cdRemove c = some w' ∧ Same w w' ∧ (∀ d, d ≠ c → w'.col d = w.col d) ∧ w'.col c = some { x with bp := none } ∧
      Inv fat w' S' P F (fun d => A d ∨ d = c) := by
  cases hbp : x.bp with
  | none =>
    refine ⟨w, S, by simp only [State.cdRemove, hc, hbp], Same.refl w, fun _ _ => rfl, ?_, h.weaken (fun _ q => q) (fun _ q => q) fun _ q => Or.inl q⟩
    rw [hc, ← hbp]
  | some n =>
    obtain ⟨o, ho, hod⟩ := h.node c x n hc hbp
    obtain ⟨t', e⟩ := ((tree_valid_defined h.tree (fun _ _ _ _ _ _ => Dir.stop) ⟨0, 0⟩ 0).2 n o ho).1
    have ht := Hist.remove h.tree ho e
    refine ⟨{ w with tree := t' }.setCol c { x with bp := none }, upd S n none, by simp only [State.cdRemove, hc, hbp, e], Same.setCol hc (by rfl) (by exact fun q => q), fun d hd => by simp only [State.setCol, upd_ne _ _ hd],
      by simp [State.setCol], ?_⟩
    refine h.setCol hc rfl rfl (h.rigidLoc c x hc) ht ?_ ?_ ?_ ?_ (fun d _ q => q) (fun d _ q => q) (fun d e q => Or.inl q)
      (fun B hB hp => h.placed c x B hc hB hp) (fun B hB hp => absurd (Or.inr rfl) hp) ?_
    · intro k hk _
      exact upd_ne _ _ fun ek => hk (by rw [ek, hbp])
    · intro k hk; cases hk
    · intro k hk _
      have : k = n := by simpa [hbp] using hk.symm
      subst this
      exact upd_same _ _ _
    · intro k hk; cases hk
    · intro k o' b' _ _ hk; cases hk

/-! ### Folds -/

theorem moveAll_inv (hfat : ∀ b : AABB K, b.Valid → (fat b).contains b = true) (ch : Choice K) : ∀ (L : List Nat) {w : State K} {S : Nat → Option (Obj K)}
    {P F A : Nat → Prop}, Inv fat w S P F A → (∀ c ∈ L, ∃ x, w.col c = some x) →
    ∃ w' S', L.foldlM (State.moveCollider ch fat) w = some w' ∧ Same w w' ∧ Inv fat w' S' (fun d => P d ∧ d ∉ L) (fun d => F d ∧ d ∉ L) A
  | [], w, S, P, F, A, h, _ => ⟨w, S, rfl, Same.refl w, h.weaken (fun d q => ⟨q, by simp⟩) (fun d q => ⟨q, by simp⟩) fun _ q => q⟩
  | c :: L, w, S, P, F, A, h, hL => by
    obtain ⟨x, hx⟩ := hL c (by simp)
    obtain ⟨w1, S1, e1, s1, i1⟩ := moveCollider_inv hfat ch h hx
    obtain ⟨w2, S2, e2, s2, i2⟩ := moveAll_inv hfat ch L i1 fun d hd => by
      obtain ⟨y, hy⟩ := hL d (by simp [hd])
      obtain ⟨z, hz, _⟩ := s1.get hy
      exact ⟨z, hz⟩
    refine ⟨w2, S2, by rw [List.foldlM_cons, e1]; exact e2, s1.trans s2, i2.weaken (fun d q => ⟨q.1.1, ?_⟩) (fun d q => ⟨q.1.1, ?_⟩) fun _ q => q⟩
    · rw [List.mem_cons, not_or]; exact ⟨q.1.2, q.2⟩
    · rw [List.mem_cons, not_or]; exact ⟨q.1.2, q.2⟩

theorem placeAll_inv : ∀ (L : List Nat) {w : State K} {S : Nat → Option (Obj K)} {P F A : Nat → Prop}, Inv fat w S P F A →
    (∀ c ∈ L, ∃ x, w.col c = some x) →
    ∃ w', L.foldlM State.place w = some w' ∧ Same w w' ∧ Inv fat w' S (fun d => P d ∧ d ∉ L) F A
  | [], w, S, P, F, A, h, _ => ⟨w, rfl, Same.refl w, h.weaken (fun d q => ⟨q, by simp⟩) (fun d q => q) fun _ q => q⟩
  | c :: L, w, S, P, F, A, h, hL => by
    obtain ⟨x, hx⟩ := hL c (by simp)
    obtain ⟨w1, e1, s1, i1⟩ := place_inv h hx
    obtain ⟨w2, e2, s2, i2⟩ := placeAll_inv L i1 fun d hd => by
      obtain ⟨y, hy⟩ := hL d (by simp [hd])
      obtain ⟨z, hz, _⟩ := s1.get hy
      exact ⟨z, hz⟩
    refine ⟨w2, by rw [List.foldlM_cons, e1]; exact e2, s1.trans s2, i2.weaken (fun d q => ⟨q.1.1, ?_⟩) (fun d q => q) fun _ q => q⟩
    rw [List.mem_cons, not_or]; exact ⟨q.1.2, q.2⟩

theorem updateAll_inv (hfat : ∀ b : AABB K, b.Valid → (fat b).contains b = true) (ch : Choice K) : ∀ (L : List Nat) {w : State K}
    {S : Nat → Option (Obj K)} {P F A : Nat → Prop}, Inv fat w S P F A → (∀ c ∈ L, ∃ x, w.col c = some x) →
    ∃ w' S', L.foldlM (State.updateCollider ch fat) w = some w' ∧ Same w w' ∧ Inv fat w' S' P (fun d => F d ∧ d ∉ L) A
  | [], w, S, P, F, A, h, _ => ⟨w, S, rfl, Same.refl w, h.weaken (fun d q => q) (fun d q => ⟨q, by simp⟩) fun _ q => q⟩
  | c :: L, w, S, P, F, A, h, hL => by
    obtain ⟨x, hx⟩ := hL c (by simp)
    obtain ⟨w1, S1, e1, s1, i1⟩ := updateCollider_inv hfat ch h hx
    obtain ⟨w2, S2, e2, s2, i2⟩ := updateAll_inv hfat ch L i1 fun d hd => by
      obtain ⟨y, hy⟩ := hL d (by simp [hd])
      obtain ⟨z, hz, _⟩ := s1.get hy
      exact ⟨z, hz⟩
    refine ⟨w2, S2, by rw [List.foldlM_cons, e1]; exact e2, s1.trans s2, i2.weaken (fun d q => q) (fun d q => ⟨q.1.1, ?_⟩) fun _ q => q⟩
    rw [List.mem_cons, not_or]; exact ⟨q.1.2, q.2⟩

theorem addAll_inv (hfat : ∀ b : AABB K, b.Valid → (fat b).contains b = true) (ch : Choice K) : ∀ (L : List Nat) {w : State K}
    {S : Nat → Option (Obj K)} {P F A : Nat → Prop}, Inv fat w S P F A → L.Nodup →
    (∀ c ∈ L, ∃ x B, w.col c = some x ∧ x.bp = none ∧ w.body x.body = some B ∧ B.active = true) →
    ∃ w' S', L.foldlM (State.cdAdd ch fat) w = some w' ∧ Same w w' ∧ Inv fat w' S' P F (fun d => A d ∧ d ∉ L)
  | [], w, S, P, F, A, h, _, _ => ⟨w, S, rfl, Same.refl w, h.weaken (fun d q => q) (fun d q => q) fun d q => ⟨q, by simp⟩⟩
  | c :: L, w, S, P, F, A, h, hn, hL => by
    obtain ⟨x, B, hx, hb, hB, ha⟩ := hL c (by simp)
    rw [List.nodup_cons] at hn
    obtain ⟨w1, S1, e1, s1, o1, i1⟩ := cdAdd_inv hfat ch h hx hb hB ha
    obtain ⟨w2, S2, e2, s2, i2⟩ := addAll_inv hfat ch L i1 hn.2 fun d hd => by
      obtain ⟨y, B', hy, hb', hB', ha'⟩ := hL d (by simp [hd])
      exact ⟨y, B', by rw [o1 d (fun e => hn.1 (e ▸ hd)), hy], hb', by rw [s1.body, hB'], ha'⟩
    refine ⟨w2, S2, by rw [List.foldlM_cons, e1]; exact e2, s1.trans s2, i2.weaken (fun d q => q) (fun d q => q) fun d q => ⟨q.1.1, ?_⟩⟩
    rw [List.mem_cons, not_or]; exact ⟨q.1.2, q.2⟩

theorem removeAll_inv : ∀ (L : List Nat) {w : State K} {S : Nat → Option (Obj K)} {P F A : Nat → Prop}, Inv fat w S P F A →
    (∀ c ∈ L, ∃ x, w.col c = some x) →
    ∃ w' S', L.foldlM State.cdRemove w = some w' ∧ Same w w' ∧ (∀ d x, w.col d = some x → x.bp = none → w'.col d = some x) ∧
      (∀ d ∈ L, ∀ x, w'.col d = some x → x.bp = none) ∧ Inv fat w' S' P F (fun d => A d ∨ d ∈ L)
  | [], w, S, P, F, A, h, _ => ⟨w, S, rfl, Same.refl w, fun _ _ q _ => q, by simp, h.weaken (fun d q => q) (fun d q => q) fun d q => Or.inl q⟩
  | c :: L, w, S, P, F, A, h, hL => by
    obtain ⟨x, hx⟩ := hL c (by simp)
    obtain ⟨w1, S1, e1, s1, o1, c1, i1⟩ := cdRemove_inv h hx
    obtain ⟨w2, S2, e2, s2, k2, n2, i2⟩ := removeAll_inv L i1 fun d hd => by
      obtain ⟨y, hy⟩ := hL d (by simp [hd])
      obtain ⟨z, hz, _⟩ := s1.get hy
      exact ⟨z, hz⟩
    refine ⟨w2, S2, by rw [List.foldlM_cons, e1]; exact e2, s1.trans s2, ?_, ?_, i2.weaken (fun d q => q) (fun d q => q) fun d q => ?_⟩
    · intro d y hy hb
      by_cases e : d = c
      · subst e
        rw [hx] at hy
        cases hy
        rw [← hb] at c1
        exact k2 _ _ c1 hb
      · exact k2 _ _ (by rw [o1 d e, hy]) hb
    · intro d hd y hy
      rcases List.mem_cons.1 hd with e | hd
      · subst e
        rw [k2 _ _ c1 rfl] at hy
        cases hy
        rfl
      · exact n2 d hd y hy
    · rcases q with (q | q) | q
      · exact Or.inl q
      · exact Or.inr (by simp [q])
      · exact Or.inr (by simp [q])

/-! ### The bodies -/

theorem Inv.setBody {P' F' A' : Nat → Prop} (h : Inv fat w S P F A) {b : Nat} {B B' : SBody K} (hB : w.body b = some B) (hc : B'.cols = B.cols)
    (hr : B'.trans.ori.lengthSq = 1) (hP : ∀ d, P d → P' d) (hF : ∀ d, F d → F' d) (hA : ∀ d, A d → A' d)
    (ht : B'.trans = B.trans ∨ ∀ d ∈ B.cols, P' d ∧ F' d) (ha : B'.active = B.active ∨ ∀ d ∈ B.cols, A' d) :
    Inv fat (w.setBody b B') S P' F' A' := by
  have get : ∀ k C, (w.setBody b B').body k = some C → (k = b ∧ C = B') ∨ (k ≠ b ∧ w.body k = some C) := by
    intro k C hk
    by_cases e : k = b
    · subst e
      simp only [State.setBody, upd_same, Option.some.injEq] at hk
      exact Or.inl ⟨rfl, hk.symm⟩
    · simp only [State.setBody, upd_ne _ _ e] at hk
      exact Or.inr ⟨e, hk⟩
  have mem : ∀ d x, w.col d = some x → x.body = b → d ∈ B.cols := by
    intro d x hd e
    obtain ⟨C, hC, hm⟩ := h.owner d x hd
    rw [e, hB] at hC
    cases hC
    exact hm
  refine ⟨h.tree, ?_, ?_, ?_, h.rigidLoc, h.form, h.proper, ?_, h.node, h.obj, ?_, ?_⟩
  · intro d x hd
    obtain ⟨C, hC, hm⟩ := h.owner d x hd
    by_cases e : x.body = b
    · refine ⟨B', by rw [e]; simp [State.setBody], ?_⟩
      rw [hc]; exact mem d x hd e
    · exact ⟨C, by simp only [State.setBody, upd_ne _ _ e]; exact hC, hm⟩
  · intro k C hk
    rcases get k C hk with ⟨rfl, rfl⟩ | ⟨e, hk⟩
    · rw [hc]; exact h.cols _ _ hB
    · exact h.cols _ _ hk
  · intro k C hk
    rcases get k C hk with ⟨rfl, rfl⟩ | ⟨e, hk⟩
    · exact hr
    · exact h.rigid _ _ hk
  · intro d x C hd hC hp
    rcases get _ C hC with ⟨e, rfl⟩ | ⟨e, hC⟩
    · rcases ht with ht | ht
      · rw [ht]; exact h.placed d x B hd (by rw [e, hB]) fun q => hp (hP d q)
      · exact absurd (ht d (mem d x hd e)).1 hp
    · exact h.placed d x C hd hC fun q => hp (hP d q)
  · intro d x C hd hC hp
    rcases get _ C hC with ⟨e, rfl⟩ | ⟨e, hC⟩
    · rcases ha with ha | ha
      · rw [ha]; exact h.active d x B hd (by rw [e, hB]) fun q => hp (hA d q)
      · exact absurd (ha d (mem d x hd e)) hp
    · exact h.active d x C hd hC fun q => hp (hA d q)
  · intro d x n o k hd hf h1 h2 h3 h4
    refine h.fresh d x n o k hd (fun q => hf (hF d q)) h1 h2 h3 ?_
    by_cases e : x.body = b
    · rcases ht with ht | ht
      · rw [← h4]
        simp only [State.boxOf, State.setBody, e, upd_same, hB, ht, Option.bind_eq_bind, Option.bind_some]
      · exact absurd (ht d (mem d x hd e)).2 hf
    · rw [← h4]
      simp only [State.boxOf, State.setBody, upd_ne _ _ e]

/-- No change of the size of a shape is pending. -/
def Settled (w : State K) : Prop := ∀ c x, w.col c = some x → x.changed = false

theorem Same.settled {w w' : State K} (h : Same w w') (hs : Settled w) : Settled w' := by
  intro c x' hx'
  cases hx : w.col c with
  | none =>
    have := h.col c
    rw [hx, hx'] at this
    cases this
  | some x =>
    cases hk : x'.changed with
    | false => rfl
    | true =>
      have := h.changed c x x' hx hx' hk
      rw [hs c x hx] at this
      cases this

theorem Settled.setCol {w : State K} (h : Settled w) {c : Nat} {y : SCol K} (hy : y.changed = false) : Settled (w.setCol c y) := by
  intro d z hd
  by_cases e : d = c
  · subst e
    simp only [State.setCol, upd_same, Option.some.injEq] at hd
    rw [← hd, hy]
  · simp only [State.setCol, upd_ne _ _ e] at hd
    exact h d z hd

/-- A scene in which every stored pose and box is as it should be. -/
def Good (fat : AABB K → AABB K) (w : State K) : Prop := ∃ S, Inv fat w S (fun _ => False) (fun _ => False) (fun _ => False)

theorem setTransform_good (hfat : ∀ b : AABB K, b.Valid → (fat b).contains b = true) (ch : Choice K) (h : Good fat w) {b : Nat} {B : SBody K}
    (hB : w.body b = some B) {T : Trans K} (hT : T.ori.lengthSq = 1) : ∃ w', w.setTransform ch fat b T = some w' ∧ Good fat w' ∧ (Settled w → Settled w') := by
  obtain ⟨S, h⟩ := h
  have h1 := h.setBody (B' := { B with trans := T }) (P' := fun d => d ∈ B.cols) (F' := fun d => d ∈ B.cols) (A' := fun _ => False) hB rfl hT
    (fun _ q => q.elim) (fun _ q => q.elim) (fun _ q => q) (Or.inr fun d hd => ⟨hd, hd⟩) (Or.inl rfl)
  obtain ⟨w', S', e, s, i⟩ := moveAll_inv hfat ch B.cols h1 fun c hc => by
    obtain ⟨x, hx, _⟩ := (h.cols b B hB).2 c hc
    exact ⟨x, hx⟩
  exact ⟨w', by simp only [State.setTransform, hB]; exact e, ⟨S', i.weaken (fun d q => q.2 q.1) (fun d q => q.2 q.1) fun _ q => q⟩, fun q => s.settled q⟩

theorem setLocal_good (hfat : ∀ b : AABB K, b.Valid → (fat b).contains b = true) (ch : Choice K) (h : Good fat w) {c : Nat} {x : SCol K}
    (hc : w.col c = some x) {L : Trans K} (hL : L.ori.lengthSq = 1) : ∃ w', w.setLocal ch fat c L = some w' ∧ Good fat w' ∧ (Settled w → Settled w') := by
  obtain ⟨S, h⟩ := h
  have h1 : Inv fat (w.setCol c { x with loc := L }) S (fun d => d = c) (fun d => d = c) (fun _ => False) :=
    h.write hc rfl rfl rfl hL (fun d _ q => q.elim) (fun d _ q => q.elim) (fun d q => q) (fun B _ q => absurd rfl q)
      (fun n o b q => absurd rfl q)
  obtain ⟨w', S', e, s, i⟩ := moveCollider_inv hfat ch h1 (c := c) (x := { x with loc := L }) (by simp [State.setCol])
  exact ⟨w', by simp only [State.setLocal, hc]; exact e, ⟨S', i.weaken (fun d q => q.2 q.1) (fun d q => q.2 q.1) fun _ q => q⟩,
    fun q => s.settled (q.setCol (q c x hc))⟩

theorem setActive_good (hfat : ∀ b : AABB K, b.Valid → (fat b).contains b = true) (ch : Choice K) (h : Good fat w) {b : Nat} {B : SBody K}
    (hB : w.body b = some B) (v : Bool) : ∃ w', w.setActive ch fat b v = some w' ∧ Good fat w' ∧ (Settled w → Settled w') := by
  obtain ⟨S, h⟩ := h
  by_cases hv : B.active = v
  · exact ⟨w, by simp only [State.setActive, hB, hv, if_true], ⟨S, h⟩, fun q => q⟩
  have h1 := h.setBody (B' := { B with active := v }) (P' := fun d => False) (F' := fun d => False) (A' := fun d => d ∈ B.cols) hB rfl (h.rigid b B hB)
    (fun _ q => q.elim) (fun _ q => q.elim) (fun _ q => q.elim) (Or.inl rfl) (Or.inr fun d hd => hd)
  cases v with
  | true =>
    obtain ⟨w', S', e, s, i⟩ := addAll_inv hfat ch B.cols h1 (h.cols b B hB).1 fun c hc => by
      obtain ⟨x, hx, e⟩ := (h.cols b B hB).2 c hc
      refine ⟨x, { B with active := true }, hx, ?_, by rw [e]; simp only [State.setBody, upd_same], rfl⟩
      have := h.active c x B hx (by rw [e, hB]) (fun q => q)
      cases hb : x.bp with
      | none => rfl
      | some n => exact absurd (this.1 (by simp [hb])) hv
    exact ⟨w', by simp only [State.setActive, hB, hv, if_false, if_true]; exact e,
      ⟨S', i.weaken (fun d q => q) (fun d q => q) fun d q => q.2 q.1⟩, fun q => s.settled q⟩
  | false =>
    obtain ⟨w', S', e, s, _, n, i⟩ := removeAll_inv B.cols h1 fun c hc => by
      obtain ⟨x, hx, _⟩ := (h.cols b B hB).2 c hc
      exact ⟨x, hx⟩
    refine ⟨w', by simp only [State.setActive, hB, hv, if_false]; exact e, ⟨S', { i with active := fun c x C hc hC _ => ?_ }⟩, fun q => s.settled q⟩
    by_cases hm : c ∈ B.cols
    · have := n c hm x hc
      obtain ⟨y, hy, ey⟩ := (h.cols b B hB).2 c hm
      obtain ⟨z, hz, ez, _⟩ := s.get (w := w.setBody b { B with active := false }) hy
      rw [hc] at hz
      cases hz
      rw [ez, ey, s.body] at hC
      simp only [State.setBody, upd_same, Option.some.injEq] at hC
      rw [this, ← hC]
      simp
    · exact i.active c x C hc hC fun q => by rcases q with q | q <;> exact hm q

theorem setEnabled_good (h : Good fat w) {b : Nat} {B : SBody K} (hB : w.body b = some B) (v : Bool) :
    ∃ w', w.setEnabled b v = some w' ∧ Good fat w' ∧ (Settled w → Settled w') := by
  obtain ⟨S, h⟩ := h
  exact ⟨w.setBody b { B with enabled := v }, by simp only [State.setEnabled, hB, Option.map_some], ⟨S, h.setBody hB rfl (h.rigid b B hB) (fun _ q => q)
    (fun _ q => q) (fun _ q => q) (Or.inl rfl) (Or.inl rfl)⟩, fun q => q⟩

theorem setCategory_good (h : Good fat w) {c : Nat} {x : SCol K} (hc : w.col c = some x) (bits : Nat) :
    ∃ w', w.setCategory c bits = some w' ∧ Good fat w' ∧ (Settled w → Settled w') := by
  obtain ⟨S, h⟩ := h
  exact ⟨w.setCol c { x with cat := bits }, by simp only [State.setCategory, hc, Option.map_some], ⟨S, h.write hc rfl rfl rfl (h.rigidLoc c x hc) (fun _ _ q => q) (fun _ _ q => q)
    (fun _ q => q) (fun B hB q => h.placed c x B hc hB q) (fun n o b q h1 h2 h3 h4 => h.fresh c x n o b hc q h1 h2 h3 h4)⟩,
    fun q => q.setCol (q c x hc)⟩

theorem setQuery_good (h : Good fat w) {c : Nat} {x : SCol K} (hc : w.col c = some x) (v : Bool) :
    ∃ w', w.setQuery c v = some w' ∧ Good fat w' ∧ (Settled w → Settled w') := by
  obtain ⟨S, h⟩ := h
  exact ⟨w.setCol c { x with query := v }, by simp only [State.setQuery, hc, Option.map_some], ⟨S, h.write hc rfl rfl rfl (h.rigidLoc c x hc) (fun _ _ q => q) (fun _ _ q => q)
    (fun _ q => q) (fun B hB q => h.placed c x B hc hB q) (fun n o b q h1 h2 h3 h4 => h.fresh c x n o b hc q h1 h2 h3 h4)⟩,
    fun q => q.setCol (q c x hc)⟩

theorem createBody_good (h : Good fat w) {b : Nat} (hb : w.body b = none) {T : Trans K} (hT : T.ori.lengthSq = 1) : Good fat (w.createBody b T) := by
  obtain ⟨S, h⟩ := h
  have ne : ∀ c x, w.col c = some x → x.body ≠ b := by
    intro c x hc e
    obtain ⟨B, hB, _⟩ := h.owner c x hc
    rw [e, hb] at hB
    cases hB
  have get : ∀ c x, w.col c = some x → (w.createBody b T).body x.body = w.body x.body := by
    intro c x hc
    simp only [State.createBody, State.setBody, upd_ne _ _ (ne c x hc)]
  refine ⟨S, h.tree, ?_, ?_, ?_, h.rigidLoc, h.form, h.proper, ?_, h.node, h.obj, ?_, ?_⟩
  · intro c x hc; rw [get c x hc]; exact h.owner c x hc
  · intro k B hk
    by_cases e : k = b
    · subst e
      simp only [State.createBody, State.setBody, upd_same, Option.some.injEq] at hk
      subst hk
      simp
    · simp only [State.createBody, State.setBody, upd_ne _ _ e] at hk
      exact h.cols k B hk
  · intro k B hk
    by_cases e : k = b
    · subst e
      simp only [State.createBody, State.setBody, upd_same, Option.some.injEq] at hk
      subst hk
      exact hT
    · simp only [State.createBody, State.setBody, upd_ne _ _ e] at hk
      exact h.rigid k B hk
  · intro c x B hc hB; rw [get c x hc] at hB; exact h.placed c x B hc hB
  · intro c x B hc hB; rw [get c x hc] at hB; exact h.active c x B hc hB
  · intro c x n o k hc hf h1 h2 h3 h4
    refine h.fresh c x n o k hc hf h1 h2 h3 ?_
    rw [← h4]
    simp only [State.boxOf, get c x hc]
    rfl

theorem createForm_good (h : Good fat w) {s : Nat} (hs : w.form s = none) {f : Form K} (hf : Proper f) : Good fat (w.createForm s f) := by
  obtain ⟨S, h⟩ := h
  have ne : ∀ c x, w.col c = some x → x.form ≠ s := by
    intro c x hc e
    obtain ⟨g, hg⟩ := h.form c x hc
    rw [e, hs] at hg
    cases hg
  refine ⟨S, h.tree, h.owner, h.cols, h.rigid, h.rigidLoc, ?_, ?_, h.placed, h.node, h.obj, h.active, ?_⟩
  · intro c x hc
    simp only [State.createForm, upd_ne _ _ (ne c x hc)]
    exact h.form c x hc
  · intro k g hk
    by_cases e : k = s
    · subst e
      simp only [State.createForm, upd_same, Option.some.injEq] at hk
      subst hk
      exact hf
    · simp only [State.createForm, upd_ne _ _ e] at hk
      exact h.proper k g hk
  · intro c x n o k hc hf h1 h2 h3 h4
    refine h.fresh c x n o k hc hf h1 h2 h3 ?_
    rw [← h4]
    simp only [State.boxOf, State.createForm, upd_ne _ _ (ne c x hc)]

theorem resize_good (h : Good fat w) {s : Nat} {f : Form K} (hf : Proper f) : Good fat (w.resize s f) := by
  obtain ⟨S, h⟩ := h
  have get : ∀ c x, (w.resize s f).col c = some x → ∃ y, w.col c = some y ∧ x = if y.form = s then { y with changed := true } else y := by
    intro c x hc
    simp only [State.resize, Option.map_eq_some_iff] at hc
    obtain ⟨y, hy, e⟩ := hc
    exact ⟨y, hy, e.symm⟩
  have get' : ∀ c x, (w.resize s f).col c = some x → ∃ y, w.col c = some y ∧ x.body = y.body ∧ x.loc = y.loc ∧ x.world = y.world ∧ x.form = y.form ∧
      x.bp = y.bp := by
    intro c x hc
    obtain ⟨y, hy, e⟩ := get c x hc
    refine ⟨y, hy, ?_⟩
    rw [e]
    split_ifs <;> exact ⟨rfl, rfl, rfl, rfl, rfl⟩
  have put : ∀ c y, w.col c = some y → ∃ x, (w.resize s f).col c = some x ∧ x.body = y.body ∧ x.bp = y.bp := by
    intro c y hy
    refine ⟨if y.form = s then { y with changed := true } else y, by simp only [State.resize, hy, Option.map_some], ?_⟩
    split_ifs <;> exact ⟨rfl, rfl⟩
  refine ⟨S, h.tree, ?_, ?_, h.rigid, ?_, ?_, ?_, ?_, ?_, ?_, ?_, ?_⟩
  · intro c x hc
    obtain ⟨y, hy, e, _⟩ := get' c x hc
    rw [e]; exact h.owner c y hy
  · intro b B hB
    refine ⟨(h.cols b B hB).1, fun c hc => ?_⟩
    obtain ⟨y, hy, e⟩ := (h.cols b B hB).2 c hc
    obtain ⟨x, hx, e', _⟩ := put c y hy
    exact ⟨x, hx, e'.trans e⟩
  · intro c x hc
    obtain ⟨y, hy, _, e, _⟩ := get' c x hc
    rw [e]; exact h.rigidLoc c y hy
  · intro c x hc
    obtain ⟨y, hy, _, _, _, e, _⟩ := get' c x hc
    by_cases es : x.form = s
    · exact ⟨f, by simp only [State.resize, es, upd_same]⟩
    · simp only [State.resize, upd_ne _ _ es]
      rw [e]; exact h.form c y hy
  · intro k g hk
    by_cases e : k = s
    · subst e
      simp only [State.resize, upd_same, Option.some.injEq] at hk
      subst hk
      exact hf
    · simp only [State.resize, upd_ne _ _ e] at hk
      exact h.proper k g hk
  · intro c x B hc hB hp
    obtain ⟨y, hy, e1, e2, e3, _⟩ := get' c x hc
    rw [e3, e2]
    exact h.placed c y B hy (by rw [← e1]; exact hB) hp
  · intro c x n hc hn
    obtain ⟨y, hy, _, _, _, _, e⟩ := get' c x hc
    exact h.node c y n hy (by rw [← e, hn])
  · intro n o ho
    obtain ⟨y, hy, e⟩ := h.obj n o ho
    obtain ⟨x, hx, _, e'⟩ := put _ y hy
    exact ⟨x, hx, e'.trans e⟩
  · intro c x B hc hB hp
    obtain ⟨y, hy, e1, _, _, _, e⟩ := get' c x hc
    rw [e]
    exact h.active c y B hy (by rw [← e1]; exact hB) hp
  · intro c x n o k hc hf h1 h2 h3 h4
    obtain ⟨y, hy, e⟩ := get c x hc
    by_cases es : y.form = s
    · rw [if_pos es] at e
      rw [e] at h1
      cases h1
    · rw [if_neg es] at e
      subst e
      refine h.fresh c x n o k hy hf h1 h2 h3 ?_
      rw [← h4]
      simp only [State.boxOf, State.resize, upd_ne _ _ es]

theorem addCollider_good (hfat : ∀ b : AABB K, b.Valid → (fat b).contains b = true) (ch : Choice K) (h : Good fat w) {b c s : Nat} {B : SBody K}
    (hB : w.body b = some B) (hc : w.col c = none) {f : Form K} (hs : w.form s = some f) {L : Trans K} (hL : L.ori.lengthSq = 1) :
    ∃ w', w.addCollider ch fat b c s L = some w' ∧ Good fat w' ∧ (Settled w → Settled w') := by
  obtain ⟨S, h⟩ := h
  set x : SCol K := ⟨b, L, B.trans.mul L, s, none, false, 1, true⟩ with hx
  set w1 := (w.setCol c x).setBody b { B with cols := B.cols ++ [c] } with hw1
  have getc : ∀ d z, w1.col d = some z → (d = c ∧ z = x) ∨ (d ≠ c ∧ w.col d = some z) := by
    intro d z hd
    by_cases e : d = c
    · subst e
      simp only [hw1, State.setBody, State.setCol, upd_same, Option.some.injEq] at hd
      exact Or.inl ⟨rfl, hd.symm⟩
    · simp only [hw1, State.setBody, State.setCol, upd_ne _ _ e] at hd
      exact Or.inr ⟨e, hd⟩
  have putc : ∀ d z, w.col d = some z → w1.col d = some z := by
    intro d z hd
    have e : d ≠ c := by
      intro e
      rw [e, hc] at hd
      cases hd
    simp only [hw1, State.setBody, State.setCol, upd_ne _ _ e]
    exact hd
  have getb : ∀ k C, w1.body k = some C → ∃ C', w.body k = some C' ∧ C.trans = C'.trans ∧ C.active = C'.active ∧
      ((k = b ∧ C.cols = C'.cols ++ [c]) ∨ (k ≠ b ∧ C.cols = C'.cols)) := by
    intro k C hk
    by_cases e : k = b
    · subst e
      simp only [hw1, State.setBody, State.setCol, upd_same, Option.some.injEq] at hk
      subst hk
      exact ⟨B, hB, rfl, rfl, Or.inl ⟨rfl, rfl⟩⟩
    · simp only [hw1, State.setBody, State.setCol, upd_ne _ _ e] at hk
      exact ⟨C, hk, rfl, rfl, Or.inr ⟨e, rfl⟩⟩
  have bb : w1.body b = some { B with cols := B.cols ++ [c] } := by simp only [hw1, State.setBody, upd_same]
  have cc : w1.col c = some x := by simp only [hw1, State.setBody, State.setCol, upd_same]
  have hni : c ∉ B.cols := by
    intro hm
    obtain ⟨z, hz, _⟩ := (h.cols b B hB).2 c hm
    rw [hc] at hz
    cases hz
  have i1 : Inv fat w1 S (fun _ => False) (fun _ => False) (fun d => d = c) := by
    refine ⟨h.tree, ?_, ?_, ?_, ?_, ?_, h.proper, ?_, ?_, ?_, ?_, ?_⟩
    · intro d z hd
      rcases getc d z hd with ⟨rfl, rfl⟩ | ⟨e, hd⟩
      · exact ⟨_, bb, by simp⟩
      · obtain ⟨C, hC, hm⟩ := h.owner d z hd
        by_cases e : z.body = b
        · rw [e, hB] at hC
          cases hC
          exact ⟨_, by rw [e]; exact bb, by simp [hm]⟩
        · exact ⟨C, by simp only [hw1, State.setBody, State.setCol, upd_ne _ _ e]; exact hC, hm⟩
    · intro k C hk
      obtain ⟨C', hC', _, _, e⟩ := getb k C hk
      obtain ⟨n1, n2⟩ := h.cols k C' hC'
      rcases e with ⟨rfl, e⟩ | ⟨_, e⟩
      · rw [hB] at hC'
        cases hC'
        rw [e]
        refine ⟨?_, fun d hd => ?_⟩
        · rw [List.nodup_append]
          refine ⟨n1, by simp, ?_⟩
          intro a ha b' hb'
          rw [List.mem_singleton] at hb'
          subst hb'
          exact fun e => hni (e ▸ ha)
        · rcases List.mem_append.1 hd with hd | hd
          · obtain ⟨z, hz, ez⟩ := n2 d hd
            exact ⟨z, putc d z hz, ez⟩
          · rw [List.mem_singleton] at hd
            subst hd
            exact ⟨x, cc, rfl⟩
      · rw [e]
        refine ⟨n1, fun d hd => ?_⟩
        obtain ⟨z, hz, ez⟩ := n2 d hd
        exact ⟨z, putc d z hz, ez⟩
    · intro k C hk
      obtain ⟨C', hC', e, _⟩ := getb k C hk
      rw [e]; exact h.rigid k C' hC'
    · intro d z hd
      rcases getc d z hd with ⟨rfl, rfl⟩ | ⟨e, hd⟩
      · exact hL
      · exact h.rigidLoc d z hd
    · intro d z hd
      rcases getc d z hd with ⟨rfl, rfl⟩ | ⟨e, hd⟩
      · exact ⟨f, hs⟩
      · exact h.form d z hd
    · intro d z C hd hC hp
      obtain ⟨C', hC', e, _⟩ := getb _ C hC
      rw [e]
      rcases getc d z hd with ⟨rfl, rfl⟩ | ⟨_, hd⟩
      · have : w.body b = some C' := hC'
        rw [hB] at this
        cases this
        rfl
      · exact h.placed d z C' hd hC' hp
    · intro d z n hd hn
      rcases getc d z hd with ⟨rfl, rfl⟩ | ⟨_, hd⟩
      · cases hn
      · exact h.node d z n hd hn
    · intro n o ho
      obtain ⟨z, hz, e⟩ := h.obj n o ho
      exact ⟨z, putc _ z hz, e⟩
    · intro d z C hd hC hp
      obtain ⟨C', hC', _, e, _⟩ := getb _ C hC
      rw [e]
      rcases getc d z hd with ⟨rfl, rfl⟩ | ⟨_, hd⟩
      · exact absurd rfl hp
      · exact h.active d z C' hd hC' fun q => q
    · intro d z n o k hd hf h1 h2 h3 h4
      rcases getc d z hd with ⟨rfl, rfl⟩ | ⟨_, hd⟩
      · cases h2
      · refine h.fresh d z n o k hd hf h1 h2 h3 ?_
        rw [← h4]
        obtain ⟨C, hC, _⟩ := h.owner d z hd
        simp only [State.boxOf, hC, Option.bind_eq_bind, Option.bind_some]
        by_cases e : z.body = b
        · rw [e, hB] at hC
          cases hC
          rw [e, bb]
          rfl
        · have : w1.body z.body = some C := by simp only [hw1, State.setBody, State.setCol, upd_ne _ _ e]; exact hC
          rw [this]
          rfl
  cases ha : B.active with
  | true =>
    obtain ⟨w', S', e, s, _, i⟩ := cdAdd_inv hfat ch i1 cc rfl bb ha
    exact ⟨w', by simp only [State.addCollider, hB]; rw [if_pos ha]; exact e,
      ⟨S', i.weaken (fun _ q => q) (fun _ q => q) fun d q => q.2 q.1⟩, fun q => s.settled (q.setCol rfl)⟩
  | false =>
    refine ⟨w1, by simp only [State.addCollider, hB]; rw [if_neg (by simp [ha])], ⟨S, { i1 with active := fun d z C hd hC _ => ?_ }⟩,
      fun q => q.setCol rfl⟩
    by_cases e : d = c
    · subst e
      rw [cc] at hd
      cases hd
      have : w1.body b = some C := hC
      rw [bb] at this
      cases this
      simp [hx, ha]
    · exact i1.active d z C hd hC e

/-- Removal of a collider: the other bodies stay, its own body loses it. -/
theorem removeCollider_good (h : Good fat w) {c : Nat} {x : SCol K} {B : SBody K} (hc : w.col c = some x) (hB : w.body x.body = some B) :
    ∃ w', w.removeCollider c = some w' ∧ Good fat w' ∧ (Settled w → Settled w') ∧ w'.body x.body = some { B with cols := B.cols.erase c } := by
  obtain ⟨S, h⟩ := h
  obtain ⟨w1, S1, e, s, o1, c1, i⟩ := cdRemove_inv h hc
  have hB1 : w1.body x.body = some B := by rw [s.body, hB]
  refine ⟨{ w1.setBody x.body { B with cols := B.cols.erase c } with col := upd w1.col c none }, ?_, ?_, ?_, ?_⟩
  · simp only [State.removeCollider, e, c1, hB1]
  · have getc : ∀ d z, upd w1.col c none d = some z → d ≠ c ∧ w1.col d = some z := by
      intro d z hd
      by_cases e : d = c
      · subst e
        rw [upd_same] at hd
        cases hd
      · rw [upd_ne _ _ e] at hd
        exact ⟨e, hd⟩
    have getb : ∀ k C, upd w1.body x.body (some { B with cols := B.cols.erase c }) k = some C →
        ∃ C', w1.body k = some C' ∧ C.trans = C'.trans ∧ C.active = C'.active ∧
          ((k = x.body ∧ C.cols = C'.cols.erase c) ∨ (k ≠ x.body ∧ C.cols = C'.cols)) := by
      intro k C hk
      by_cases e : k = x.body
      · subst e
        rw [upd_same, Option.some.injEq] at hk
        subst hk
        exact ⟨B, hB1, rfl, rfl, Or.inl ⟨rfl, rfl⟩⟩
      · rw [upd_ne _ _ e] at hk
        exact ⟨C, hk, rfl, rfl, Or.inr ⟨e, rfl⟩⟩
    refine ⟨S1, i.tree, ?_, ?_, ?_, ?_, ?_, i.proper, ?_, ?_, ?_, ?_, ?_⟩
    · intro d z hd
      obtain ⟨e, hd⟩ := getc d z hd
      obtain ⟨C, hC, hm⟩ := i.owner d z hd
      by_cases eb : z.body = x.body
      · rw [eb, hB1] at hC
        cases hC
        exact ⟨_, by rw [eb]; exact upd_same _ _ _, (List.mem_erase_of_ne e).2 hm⟩
      · exact ⟨C, by simp only [State.setBody, upd_ne _ _ eb]; exact hC, hm⟩
    · intro k C hk
      obtain ⟨C', hC', _, _, e⟩ := getb k C hk
      obtain ⟨n1, n2⟩ := i.cols k C' hC'
      rcases e with ⟨rfl, e⟩ | ⟨ne, e⟩
      · rw [e]
        refine ⟨n1.erase c, fun d hd => ?_⟩
        obtain ⟨ed, hd⟩ := (List.Nodup.mem_erase_iff n1).1 hd
        obtain ⟨z, hz, ez⟩ := n2 d hd
        exact ⟨z, by show upd w1.col c none d = _; rw [upd_ne _ _ ed, hz], ez⟩
      · rw [e]
        refine ⟨n1, fun d hd => ?_⟩
        obtain ⟨z, hz, ez⟩ := n2 d hd
        have ed : d ≠ c := by
          intro ed
          subst ed
          rw [c1] at hz
          cases hz
          exact ne ez.symm
        exact ⟨z, by show upd w1.col c none d = _; rw [upd_ne _ _ ed, hz], ez⟩
    · intro k C hk
      obtain ⟨C', hC', e, _⟩ := getb k C hk
      rw [e]; exact i.rigid k C' hC'
    · intro d z hd; exact i.rigidLoc d z (getc d z hd).2
    · intro d z hd; exact i.form d z (getc d z hd).2
    · intro d z C hd hC hp
      obtain ⟨C', hC', e, _⟩ := getb _ C hC
      rw [e]; exact i.placed d z C' (getc d z hd).2 hC' hp
    · intro d z n hd; exact i.node d z n (getc d z hd).2
    · intro n o ho
      obtain ⟨z, hz, ez⟩ := i.obj n o ho
      have ed : o.data ≠ c := by
        intro ed
        rw [ed, c1] at hz
        cases hz
        cases ez
      exact ⟨z, by show upd w1.col c none _ = _; rw [upd_ne _ _ ed, hz], ez⟩
    · intro d z C hd hC hp
      obtain ⟨C', hC', _, e, _⟩ := getb _ C hC
      rw [e]
      exact i.active d z C' (getc d z hd).2 hC' fun q => by rcases q with q | q; exact q; exact (getc d z hd).1 q
    · intro d z n o k hd hf h1 h2 h3 h4
      refine i.fresh d z n o k (getc d z hd).2 hf h1 h2 h3 ?_
      rw [← h4]
      obtain ⟨C, hC, _⟩ := i.owner d z (getc d z hd).2
      by_cases eb : z.body = x.body
      · rw [eb, hB1] at hC
        cases hC
        simp only [State.boxOf, State.setBody, eb, upd_same, hB1, Option.bind_eq_bind, Option.bind_some]
      · simp only [State.boxOf, State.setBody, upd_ne _ _ eb]
  · intro q d z hd
    by_cases e : d = c
    · subst e
      have : upd w1.col d none d = some z := hd
      rw [upd_same] at this
      cases this
    · have : upd w1.col c none d = some z := hd
      rw [upd_ne _ _ e] at this
      exact s.settled q d z this
  · show upd w1.body x.body _ x.body = _
    rw [upd_same]

theorem removeColliders_good : ∀ (L : List Nat) {w : State K} {b : Nat} {B : SBody K}, Good fat w → w.body b = some B → B.cols = L →
    ∃ w' B', L.foldlM State.removeCollider w = some w' ∧ Good fat w' ∧ (Settled w → Settled w') ∧ w'.body b = some B' ∧ B'.cols = []
  | [], w, b, B, h, hB, hL => ⟨w, B, rfl, h, fun q => q, hB, hL⟩
  | c :: L, w, b, B, h, hB, hL => by
    obtain ⟨x, hx, ex⟩ : ∃ x, w.col c = some x ∧ x.body = b := by
      obtain ⟨S, h⟩ := h
      exact (h.cols b B hB).2 c (by rw [hL]; simp)
    subst ex
    obtain ⟨w1, e1, g1, t1, b1⟩ := removeCollider_good h hx hB
    obtain ⟨w2, B2, e2, g2, t2, b2, n2⟩ := removeColliders_good L g1 b1 (by rw [hL]; simp)
    exact ⟨w2, B2, by rw [List.foldlM_cons, e1]; exact e2, g2, fun q => t2 (t1 q), b2, n2⟩

theorem destroyBody_good (h : Good fat w) {b : Nat} {B : SBody K} (hB : w.body b = some B) : ∃ w', w.destroyBody b = some w' ∧ Good fat w' ∧ (Settled w → Settled w') := by
  obtain ⟨w1, B1, e, ⟨S, g⟩, t, hB1, hn⟩ := removeColliders_good B.cols h hB rfl
  refine ⟨{ w1 with body := upd w1.body b none }, by simp only [State.destroyBody, hB, e], ⟨S, ?_⟩, t⟩
  have ne : ∀ c x, w1.col c = some x → x.body ≠ b := by
    intro c x hc eb
    obtain ⟨C, hC, hm⟩ := g.owner c x hc
    rw [eb, hB1] at hC
    cases hC
    rw [hn] at hm
    simp at hm
  have getb : ∀ k C, upd w1.body b none k = some C → w1.body k = some C := by
    intro k C hk
    by_cases e : k = b
    · subst e
      rw [upd_same] at hk
      cases hk
    · rwa [upd_ne _ _ e] at hk
  refine ⟨g.tree, ?_, ?_, ?_, g.rigidLoc, g.form, g.proper, ?_, g.node, g.obj, ?_, ?_⟩
  · intro c x hc
    obtain ⟨C, hC, hm⟩ := g.owner c x hc
    exact ⟨C, by show upd w1.body b none _ = _; rw [upd_ne _ _ (ne c x hc), hC], hm⟩
  · intro k C hk; exact g.cols k C (getb k C hk)
  · intro k C hk; exact g.rigid k C (getb k C hk)
  · intro c x C hc hC; exact g.placed c x C hc (getb _ C hC)
  · intro c x C hc hC; exact g.active c x C hc (getb _ C hC)
  · intro c x n o k hc hf h1 h2 h3 h4
    refine g.fresh c x n o k hc hf h1 h2 h3 ?_
    rw [← h4]
    simp only [State.boxOf, upd_ne _ _ (ne c x hc)]

theorem update_good (hfat : ∀ b : AABB K, b.Valid → (fat b).contains b = true) (ch : Choice K) (h : Good fat w) {T : Nat → Trans K} {cs : List Nat}
    (hT : ∀ b B, w.body b = some B → B.enabled = true → (T b).ori.lengthSq = 1)
    (hcs : ∀ c, c ∈ cs ↔ ∃ x B, w.col c = some x ∧ w.body x.body = some B ∧ B.enabled = true) :
    ∃ w', w.update ch fat T cs = some w' ∧ Good fat w' ∧ (Settled w → Settled w') := by
  obtain ⟨S, h⟩ := h
  set w1 : State K := { w with body := fun b => (w.body b).map fun B => if B.enabled then { B with trans := T b } else B } with hw1
  have getb : ∀ k C, w1.body k = some C → ∃ B, w.body k = some B ∧ C.active = B.active ∧ C.cols = B.cols ∧
      ((B.enabled = true ∧ C.trans = T k) ∨ (B.enabled ≠ true ∧ C = B)) := by
    intro k C hk
    simp only [hw1, Option.map_eq_some_iff] at hk
    obtain ⟨B, hB, e⟩ := hk
    refine ⟨B, hB, ?_⟩
    by_cases en : B.enabled = true
    · rw [if_pos en] at e
      subst e
      exact ⟨rfl, rfl, Or.inl ⟨en, rfl⟩⟩
    · rw [if_neg en] at e
      subst e
      exact ⟨rfl, rfl, Or.inr ⟨en, rfl⟩⟩
  have i1 : Inv fat w1 S (fun d => d ∈ cs) (fun d => d ∈ cs) (fun _ => False) := by
    refine ⟨h.tree, ?_, ?_, ?_, h.rigidLoc, h.form, h.proper, ?_, h.node, h.obj, ?_, ?_⟩
    · intro c x hc
      obtain ⟨B, hB, hm⟩ := h.owner c x hc
      refine ⟨if B.enabled = true then { B with trans := T x.body } else B, by simp only [hw1, hB, Option.map_some], ?_⟩
      split_ifs <;> exact hm
    · intro k C hk
      obtain ⟨B, hB, _, e, _⟩ := getb k C hk
      rw [e]; exact h.cols k B hB
    · intro k C hk
      obtain ⟨B, hB, _, _, ⟨en, e⟩ | ⟨en, e⟩⟩ := getb k C hk
      · rw [e]; exact hT k B hB en
      · rw [e]; exact h.rigid k B hB
    · intro c x C hc hC hp
      obtain ⟨B, hB, _, _, ⟨en, e⟩ | ⟨en, e⟩⟩ := getb _ C hC
      · exact absurd ((hcs c).2 ⟨x, B, hc, hB, en⟩) hp
      · rw [e]; exact h.placed c x B hc hB fun q => q
    · intro c x C hc hC hp
      obtain ⟨B, hB, e, _⟩ := getb _ C hC
      rw [e]; exact h.active c x B hc hB fun q => q
    · intro c x n o k hc hf h1 h2 h3 h4
      refine h.fresh c x n o k hc (fun q => q) h1 h2 h3 ?_
      rw [← h4]
      obtain ⟨B, hB, _⟩ := h.owner c x hc
      by_cases en : B.enabled = true
      · exact absurd ((hcs c).2 ⟨x, B, hc, hB, en⟩) hf
      · simp only [State.boxOf, hw1, hB, Option.map_some, if_neg en]
  have ex : ∀ c ∈ cs, ∃ x, w1.col c = some x := by
    intro c hc
    obtain ⟨x, _, hx, _⟩ := (hcs c).1 hc
    exact ⟨x, hx⟩
  obtain ⟨w2, e2, s2, i2⟩ := placeAll_inv cs i1 ex
  obtain ⟨w3, S3, e3, s3, i3⟩ := updateAll_inv hfat ch cs i2 fun c hc => by
    obtain ⟨x, hx⟩ := ex c hc
    obtain ⟨y, hy, _⟩ := s2.get hx
    exact ⟨y, hy⟩
  refine ⟨w3, by simp only [State.update, ← hw1, e2, e3],
    ⟨S3, i3.weaken (fun d q => q.2 q.1) (fun d q => q.2 q.1) fun _ q => q⟩, fun q => s3.settled (s2.settled q)⟩

end Scene
end RP3D
