import Verif.World.BodyJoints
import Verif.Engine.ComponentsLemmas

/-! Lemmas for joints and bodies with positions. -/

namespace RP3D
namespace Comps
variable {D X : Type} {obs : D → X} {f : Nat → Option (X × Bool)}

/-- Enabled components have stayed where they were. -/
def Keep (c c' : Comps D) : Prop := ∀ b i, c.map b = some i → i < c.ds → c'.map b = some i ∧ i < c'.ds

theorem Keep.refl (c : Comps D) : Keep c c := fun _ _ h1 h2 => ⟨h1, h2⟩
theorem Keep.trans {a b c : Comps D} (h1 : Keep a b) (h2 : Keep b c) : Keep a c := fun e i k1 k2 =>
  have := h1 e i k1 k2
  h2 e i this.1 this.2

theorem destroyAt_nb {c c' : Comps D} {i : Nat} (h : c.destroyAt i = some c') : c'.nb = c.nb ∧ c'.ds = c.ds := by
  unfold destroyAt at h
  split at h
  · cases h; exact ⟨rfl, rfl⟩
  · cases h

theorem move_nb {c c' : Comps D} {i j : Nat} (h : c.move i j = some c') : c'.nb = c.nb ∧ c'.ds = c.ds := by
  unfold move at h
  split at h
  · cases h
  · split_ifs at h
    rw [Option.bind_eq_bind, Option.bind_eq_some_iff] at h
    obtain ⟨c1, h1, h2⟩ := h
    split_ifs at h2
    cases h2
    exact ⟨(destroyAt_nb h1).1, (destroyAt_nb h1).2⟩

theorem remove_nb {c c' : Comps D} {e : Nat} (h : c.remove e = some c') : c'.nb = c.nb - 1 := by
  unfold remove at h
  simp only [Option.bind_eq_bind, Option.bind_eq_some_iff, Option.pure_def] at h
  obtain ⟨i, _, c1, h1, h2⟩ := h
  have a1 := (destroyAt_nb h1).1
  split_ifs at h2
  · rw [Option.bind_eq_some_iff] at h2
    obtain ⟨c2, h3, h4⟩ := h2
    cases h4
    unfold fillDisabled at h3
    split_ifs at h3
    · have := (move_nb h3).1; show c2.nb - 1 = _; omega
    · cases h3; show c1.nb - 1 = _; omega
  · rw [Option.bind_eq_some_iff] at h2
    obtain ⟨c2, h3, h4⟩ := h2
    rw [Option.bind_eq_some_iff] at h4
    obtain ⟨c3, h5, h6⟩ := h4
    cases h6
    have a2 : c2.nb = c1.nb := by
      unfold fillEnabled at h3
      split_ifs at h3
      · exact (move_nb h3).1
      · cases h3; rfl
    have a3 : c3.nb = c2.nb := by
      unfold fillGap at h5
      split_ifs at h5
      · exact (move_nb h5).1
      · cases h5; rfl
    show c3.nb - 1 = _
    omega

theorem setData_map {c c' : Comps D} {e : Nat} {d : D} (h : c.setData e d = some c') : c'.map = c.map ∧ c'.ds = c.ds ∧ c'.nb = c.nb := by
  unfold setData at h
  simp only [Option.bind_eq_bind, Option.bind_eq_some_iff, Option.pure_def] at h
  obtain ⟨i, _, x, _, h⟩ := h
  cases h
  exact ⟨rfl, rfl, rfl⟩

theorem enable_keep {c c' : Comps D} {cp : D → D} (hr : Rep obs c f) {e : Nat} (h : c.setDisabled cp e false = some c') : Keep c c' := by
  unfold setDisabled at h
  rw [Option.bind_eq_bind, Option.bind_eq_some_iff] at h
  obtain ⟨i, hi, h⟩ := h
  by_cases hd : i ≥ c.ds
  · rw [if_pos ⟨rfl, hd⟩] at h
    by_cases hn : c.ds ≠ i
    · rw [if_pos hn] at h
      cases hs : c.swap cp i c.ds with
      | none => rw [hs] at h; cases h
      | some c1 =>
        rw [hs] at h
        cases h
        intro b k hb hk
        refine ⟨?_, ?_⟩
        · unfold swap at hs
          obtain ⟨d, hse⟩ := (hr.rep.core e i).1 hi
          have hbe : b ≠ e := by
            rintro rfl
            rw [hb] at hi
            cases hi
            omega
          rw [hse] at hs
          simp only [Option.bind_eq_bind, Option.bind_eq_some_iff] at hs
          obtain ⟨c2, h2, c3, h3, h4⟩ := hs
          unfold destroyAt at h2
          rw [hse] at h2
          cases h2
          unfold move at h3
          dsimp only at h3
          rw [upd_ne _ _ hn] at h3
          split at h3
          · cases h3
          · rename_i e2 d2 hs2
            have hm2 : c.map e2 = some c.ds := (hr.rep.core e2 c.ds).2 ⟨d2, hs2⟩
            have hbe2 : b ≠ e2 := by
              rintro rfl
              rw [hb] at hm2
              cases hm2
              omega
            split_ifs at h3
            rw [Option.bind_eq_bind, Option.bind_eq_some_iff] at h3
            obtain ⟨c4, h5, h6⟩ := h3
            split_ifs at h6
            cases h6
            unfold destroyAt at h5
            dsimp only at h5
            rw [upd_ne _ _ hn, upd_ne _ _ hn, hs2] at h5
            cases h5
            unfold place at h4
            split_ifs at h4
            cases h4
            show upd (upd (upd (upd c.map e none) e2 none) e2 (some i)) e (some c.ds) b = some k
            rw [upd_ne _ _ hbe, upd_ne _ _ hbe2, upd_ne _ _ hbe2, upd_ne _ _ hbe]
            exact hb
        · have hds : c1.ds = c.ds := by
            unfold swap at hs
            split at hs
            · cases hs
            · simp only [Option.bind_eq_bind, Option.bind_eq_some_iff] at hs
              obtain ⟨c2, h2, c3, h3, h4⟩ := hs
              unfold place at h4
              split_ifs at h4
              cases h4
              exact (move_nb h3).2.trans (destroyAt_nb h2).2
          show k < c1.ds + 1
          omega
    · rw [if_neg hn] at h
      cases h
      intro b k hb hk
      exact ⟨hb, by show k < c.ds + 1; omega⟩
  · rw [if_neg (by omega), if_neg (by simp)] at h
    cases h
    exact Keep.refl c

theorem getData_of {c : Comps D} (h : Rep obs c f) (hid : Function.Injective obs) {e : Nat} {d : D} {v : Bool}
    (hf : f e = some (obs d, v)) : c.getData e = some d := by
  obtain ⟨i, d', h1, h2, h3, _, _⟩ := map_of_f h hf
  unfold getData
  rw [h1, Option.bind_eq_bind, Option.bind_some, h2]
  simp [hid h3]

theorem none_of {c : Comps D} (h : Rep obs c f) {e : Nat} (hf : f e = none) : c.map e = none := by
  cases hm : c.map e with
  | none => rfl
  | some i =>
    obtain ⟨d, hd⟩ := (h.rep.core e i).1 hm
    have := (h.rep.spec e _ _).2 ⟨i, d, hd, rfl, rfl⟩
    rw [hf] at this
    cases this

theorem isDisabled_of {c : Comps D} (h : Rep obs c f) {e : Nat} {x : X} {v : Bool} (hf : f e = some (x, v)) : c.isDisabled e = some v := by
  obtain ⟨i, d', h1, h2, h3, h4, _⟩ := map_of_f h hf
  unfold isDisabled
  rw [h1, Option.bind_eq_bind, Option.bind_some]
  simp [h4]

end Comps

namespace JWorld
open Comps

/-- Content of the tables: bodies with their disabled flag, joints likewise. -/
abbrev Bodies := Nat → Option (JBody × Bool)
abbrev Joints := Nat → Option ((Nat × Nat) × Bool)

def fset {A : Type} (f : Nat → Option A) (b : Nat) (x : A) : Nat → Option A := fun e => if e = b then some x else f e
def fdel {A : Type} (f : Nat → Option A) (b : Nat) : Nat → Option A := fun e => if e = b then none else f e

theorem fset_same {A : Type} (f : Nat → Option A) (b : Nat) (x : A) : fset f b x b = some x := if_pos rfl
theorem fset_ne {A : Type} (f : Nat → Option A) {b c : Nat} (x : A) (h : c ≠ b) : fset f b x c = f c := if_neg h
theorem fdel_same {A : Type} (f : Nat → Option A) (b : Nat) : fdel f b b = none := if_pos rfl
theorem fdel_ne {A : Type} (f : Nat → Option A) {b c : Nat} (h : c ≠ b) : fdel f b c = f c := if_neg h

/-- How often a joint is in the list of a body. -/
def mult (o : Option ((Nat × Nat) × Bool)) (b : Nat) : Nat :=
  match o with
  | none => 0
  | some ((b1, b2), _) => (if b1 = b then 1 else 0) + (if b2 = b then 1 else 0)

/-- A call `setIsSleeping(false)` has an effect. -/
def Wakeable (d : JBody) : Prop := d.sleeping = true ∧ d.static = false ∧ d.active = true

instance (d : JBody) : Decidable (Wakeable d) := by unfold Wakeable; infer_instance

/-- A body that is neither static nor asleep is enabled. -/
def En (d : JBody) (v : Bool) : Prop := d.static = false → d.sleeping = false → v = false

structure Inv (w : JWorld) (f : Bodies) (g : Joints) : Prop where
  rb : Rep id w.rb f
  jc : Rep id w.jc g
  nodup : w.list.Nodup
  list : ∀ b, b ∈ w.list ↔ (f b).isSome
  count : ∀ b d v, f b = some (d, v) → ∀ j, d.joints.count j = mult (g j) b
  ends : ∀ j b1 b2 v, g j = some ((b1, b2), v) → (f b1).isSome ∧ (f b2).isSome
  en : ∀ b d v, f b = some (d, v) → En d v

/-- The bodies are the same, and none has become wakeable. -/
def Later (f f' : Bodies) : Prop := ∀ b, (f b = none ↔ f' b = none) ∧
  ∀ d v d' v', f b = some (d, v) → f' b = some (d', v') → (Wakeable d' → Wakeable d)

theorem Later.refl (f : Bodies) : Later f f := fun b => ⟨Iff.rfl, fun d v d' v' h h' => by rw [h] at h'; cases h'; exact id⟩

theorem Later.trans {f g h : Bodies} (h1 : Later f g) (h2 : Later g h) : Later f h := by
  intro b
  refine ⟨(h1 b).1.trans (h2 b).1, ?_⟩
  intro d v d' v' hd hd' hw
  cases hg : g b with
  | none => have := (h1 b).1.2 hg; rw [this] at hd; cases hd
  | some x =>
    obtain ⟨x, u⟩ := x
    exact (h1 b).2 d v x u hd hg ((h2 b).2 x u d' v' hg hd' hw)

theorem change_ok {w : JWorld} {f : Bodies} (hr : Rep id w.rb f) {b : Nat} {d : JBody} {v : Bool} (hf : f b = some (d, v)) (k : JBody → JBody) :
    ∃ c, w.change b k = some { w with rb := c } ∧ Rep id c (fset f b (k d, v)) ∧ c.map = w.rb.map ∧ c.ds = w.rb.ds := by
  obtain ⟨c, h1, h2⟩ := setData_rep hr (k d) hf
  refine ⟨c, ?_, h2, (setData_map h1).1, (setData_map h1).2.1⟩
  unfold change
  rw [getData_of hr Function.injective_id hf, Option.bind_eq_bind, Option.bind_some, h1]
  rfl

theorem setBodyDisabled_ok {w : JWorld} {f : Bodies} (hr : Rep id w.rb f) {b : Nat} {d : JBody} {v0 : Bool} (hf : f b = some (d, v0)) (v : Bool) :
    ∃ c, w.setBodyDisabled b v = some { w with rb := c } ∧ Rep id c (fset f b (d, v)) ∧ (v = false → Keep w.rb c) := by
  unfold setBodyDisabled
  rw [isDisabled_of hr hf, Option.bind_eq_bind, Option.bind_some]
  by_cases h : v = v0
  · rw [if_pos h]
    refine ⟨w.rb, rfl, ?_, fun _ => Keep.refl _⟩
    have : fset f b (d, v) = f := by
      funext e
      by_cases he : e = b
      · subst he; rw [fset_same, hf, h]
      · rw [fset_ne _ _ he]
    rw [this]
    exact hr
  · rw [if_neg h]
    obtain ⟨c, h1, h2⟩ := setDisabled_rep hr (cp := id) (fun _ => rfl) v hf
    rw [h1]
    refine ⟨c, rfl, h2, ?_⟩
    rintro rfl
    exact enable_keep hr h1

/-- What `setIsSleeping` does. -/
theorem setIsSleeping_ok {w : JWorld} {f : Bodies} (hr : Rep id w.rb f) {b : Nat} {d : JBody} {v0 : Bool} (hf : f b = some (d, v0)) (v : Bool) :
    ∃ c d' v1, w.setIsSleeping b v = some { w with rb := c } ∧ Rep id c (fset f b (d', v1)) ∧ (v = false → Keep w.rb c) ∧
      d'.joints = d.joints ∧ d'.static = d.static ∧ d'.active = d.active ∧
      (v = false → (Wakeable d' → False) ∧ (¬ Wakeable d → c = w.rb ∧ d' = d ∧ v1 = v0)) ∧ (En d v0 → En d' v1) := by
  unfold setIsSleeping
  rw [getData_of hr Function.injective_id hf, Option.bind_eq_bind, Option.bind_some]
  by_cases h : d.sleeping = v ∨ d.static = true ∨ d.active = false
  · rw [if_pos h]
    refine ⟨w.rb, d, v0, rfl, ?_, fun _ => Keep.refl _, rfl, rfl, rfl, ?_⟩
    · have : fset f b (d, v0) = f := by
        funext e
        by_cases he : e = b
        · subst he; rw [fset_same, hf]
        · rw [fset_ne _ _ he]
      rw [this]; exact hr
    · refine ⟨?_, id⟩
      rintro rfl
      refine ⟨?_, fun _ => ⟨rfl, rfl, rfl⟩⟩
      rintro ⟨h1, h2, h3⟩
      rw [h1, h2, h3] at h
      simp at h
  · rw [if_neg h]
    obtain ⟨c, h1, h2, h3, h4⟩ := change_ok hr hf fun d => { d with sleeping := v }
    rw [h1, Option.bind_eq_bind, Option.bind_some]
    obtain ⟨c', k1, k2, k3⟩ := setBodyDisabled_ok (w := { w with rb := c }) h2 (fset_same _ _ _) v
    rw [k1]
    have e : fset (fset f b ({ d with sleeping := v }, v0)) b ({ d with sleeping := v }, v) = fset f b ({ d with sleeping := v }, v) := by
      funext e
      by_cases he : e = b
      · subst he; rw [fset_same, fset_same]
      · rw [fset_ne _ _ he, fset_ne _ _ he, fset_ne _ _ he]
    rw [e] at k2
    refine ⟨c', { d with sleeping := v }, v, rfl, k2, ?_, rfl, rfl, rfl, ?_⟩
    · intro hv
      refine Keep.trans ?_ (k3 hv)
      intro a i ha hi
      exact ⟨by rw [h3]; exact ha, by rw [h4]; exact hi⟩
    · refine ⟨?_, fun _ _ h => h⟩
      rintro rfl
      refine ⟨fun hw => by simp [Wakeable] at hw, ?_⟩
      intro hn
      exfalso
      apply h
      unfold Wakeable at hn
      revert hn
      cases d.sleeping <;> cases d.static <;> cases d.active <;> simp

theorem removeJoint_ok {w : JWorld} {f : Bodies} (hr : Rep id w.rb f) {b j : Nat} {d : JBody} {v : Bool} (hf : f b = some (d, v))
    (hj : j ∈ d.joints) :
    ∃ c, w.removeJoint b j = some { w with rb := c } ∧ Rep id c (fset f b ({ d with joints := d.joints.erase j }, v)) ∧
      c.map = w.rb.map ∧ c.ds = w.rb.ds := by
  unfold removeJoint
  rw [getData_of hr Function.injective_id hf, Option.bind_eq_bind, Option.bind_some, if_pos hj]
  exact change_ok hr hf fun d => { d with joints := d.joints.erase j }

theorem some_of {A : Type} {o : Option A} (h : o.isSome) : ∃ x, o = some x := Option.isSome_iff_exists.1 h

theorem fset_isSome {A : Type} {f : Nat → Option A} {b : Nat} (h : (f b).isSome) (x : A) (c : Nat) : (fset f b x c).isSome = (f c).isSome := by
  by_cases hc : c = b
  · subst hc; rw [fset_same, h]; rfl
  · rw [fset_ne _ _ hc]

theorem later_fset {f : Bodies} {b : Nat} {d d' : JBody} {v v' : Bool} (hf : f b = some (d, v)) (h : Wakeable d' → Wakeable d) :
    Later f (fset f b (d', v')) := by
  intro c
  by_cases hc : c = b
  · subst hc
    rw [fset_same, hf]
    refine ⟨by simp, ?_⟩
    intro x u x' u' h1 h2
    cases h1; cases h2
    exact h
  · rw [fset_ne _ _ hc]
    exact (Later.refl f) c

/-- The count of joints in the lists after the wake-up calls and the two removals. -/
theorem mult_pos {o : (Nat × Nat) × Bool} : 0 < mult (some o) o.1.1 ∧ 0 < mult (some o) o.1.2 := by
  obtain ⟨⟨b1, b2⟩, v⟩ := o
  simp [mult]

/-- `destroyJoint` on a joint of the world. -/
theorem destroyJoint_ok {w : JWorld} {f : Bodies} {g : Joints} (hi : Inv w f g) {j b1 b2 : Nat} {v : Bool} (hj : g j = some ((b1, b2), v)) :
    ∃ w' f', w.destroyJoint j = some w' ∧ Inv w' f' (fdel g j) ∧ w'.list = w.list ∧ w'.deadJoints = w.deadJoints ++ [j] ∧
      w'.deadBodies = w.deadBodies ∧ Keep w.rb w'.rb ∧ w'.jc.nb + 1 = w.jc.nb ∧ Later f f' ∧
      ((∀ b d u, b = b1 ∨ b = b2 → f b = some (d, u) → ¬ Wakeable d) → w'.rb.map = w.rb.map ∧ w'.rb.ds = w.rb.ds) := by
  obtain ⟨e1, e2⟩ := hi.ends j b1 b2 v hj
  obtain ⟨⟨d1, v1⟩, hf1⟩ := some_of e1
  -- first body woken
  obtain ⟨c1, d1', v1', a1, a2, a3, a4, a5, a6, a7, a8⟩ := setIsSleeping_ok hi.rb hf1 false
  have l1 : Later f (fset f b1 (d1', v1')) := later_fset hf1 fun h => absurd h (a7 rfl).1
  obtain ⟨⟨d2, v2⟩, hf2⟩ := some_of (o := fset f b1 (d1', v1') b2) (by rw [fset_isSome e1]; exact e2)
  -- second body woken
  obtain ⟨c2, d2', v2', p1, p2, p3, p4, p5, p6, p7, p8⟩ := setIsSleeping_ok (w := { w with rb := c1 }) a2 hf2 false
  have l2 : Later (fset f b1 (d1', v1')) (fset (fset f b1 (d1', v1')) b2 (d2', v2')) := later_fset hf2 fun h => absurd h (p7 rfl).1
  have same : ∀ b d u, fset (fset f b1 (d1', v1')) b2 (d2', v2') b = some (d, u) → ∃ d0 u0, f b = some (d0, u0) ∧ d.joints = d0.joints := by
    intro b d u h
    by_cases hb2 : b = b2
    · subst hb2
      rw [fset_same] at h
      cases h
      by_cases hb1 : b = b1
      · subst hb1
        rw [fset_same] at hf2
        cases hf2
        exact ⟨d1, v1, hf1, p4.trans a4⟩
      · rw [fset_ne _ _ hb1] at hf2
        exact ⟨d2, v2, hf2, p4⟩
    · rw [fset_ne _ _ hb2] at h
      by_cases hb1 : b = b1
      · subst hb1
        rw [fset_same] at h
        cases h
        exact ⟨d1, v1, hf1, a4⟩
      · rw [fset_ne _ _ hb1] at h
        exact ⟨d, u, h, rfl⟩
  have nF : ∀ b d u, fset (fset f b1 (d1', v1')) b2 (d2', v2') b = some (d, u) → En d u := by
    have n1 : ∀ b d u, fset f b1 (d1', v1') b = some (d, u) → En d u := by
      intro b d u h
      by_cases hb : b = b1
      · subst hb; rw [fset_same] at h; cases h; exact a8 (hi.en _ _ _ hf1)
      · rw [fset_ne _ _ hb] at h; exact hi.en _ _ _ h
    intro b d u h
    by_cases hb : b = b2
    · subst hb; rw [fset_same] at h; cases h; exact p8 (n1 _ _ _ hf2)
    · rw [fset_ne _ _ hb] at h; exact n1 _ _ _ h
  generalize hF : fset (fset f b1 (d1', v1')) b2 (d2', v2') = F at *
  have sF : ∀ c, (F c).isSome = (f c).isSome := by
    intro c
    rw [← hF, fset_isSome (by rw [fset_isSome e1]; exact e2), fset_isSome e1]
  have cF : ∀ b d u, F b = some (d, u) → ∀ k, d.joints.count k = mult (g k) b := by
    intro b d u h k
    obtain ⟨d0, u0, k1, k2⟩ := same b d u h
    rw [k2]
    exact hi.count b d0 u0 k1 k
  -- first removal
  obtain ⟨⟨x1, u1⟩, hx1⟩ := some_of (o := F b1) (by rw [sF]; exact e1)
  have m1 : j ∈ x1.joints := by
    rw [← List.count_pos_iff, cF b1 x1 u1 hx1 j, hj]
    exact mult_pos.1
  obtain ⟨c3, q1, q2, q3, q4⟩ := removeJoint_ok (w := { w with rb := c2 }) p2 hx1 m1
  -- second removal
  have l3 : Later F (fset F b1 ({ x1 with joints := x1.joints.erase j }, u1)) := later_fset hx1 fun h => h
  generalize hG : fset F b1 ({ x1 with joints := x1.joints.erase j }, u1) = G at *
  obtain ⟨⟨x2, u2⟩, hx2⟩ := some_of (o := G b2) (by rw [← hG, fset_isSome (by rw [sF]; exact e1), sF]; exact e2)
  have cG : ∀ b d u, G b = some (d, u) → ∀ k, d.joints.count k = mult (g k) b - (if k = j ∧ b = b1 then 1 else 0) := by
    intro b d u h k
    rw [← hG] at h
    by_cases hb : b = b1
    · subst hb
      rw [fset_same] at h
      cases h
      show (x1.joints.erase j).count k = _
      rw [List.count_erase, cF b x1 _ hx1 k]
      by_cases hk : k = j
      · subst hk; simp
      · have : (j == k) = false := by simpa using (fun h => hk h.symm)
        simp [hk, Ne.symm hk]
    · rw [fset_ne _ _ hb] at h
      rw [cF b d u h k]
      simp [hb]
  have nG : ∀ b d u, G b = some (d, u) → En d u := by
    intro b d u h
    rw [← hG] at h
    by_cases hb : b = b1
    · subst hb; rw [fset_same] at h; cases h; exact fun k1 k2 => nF _ _ _ hx1 k1 k2
    · rw [fset_ne _ _ hb] at h; exact nF _ _ _ h
  have m2 : j ∈ x2.joints := by
    rw [← List.count_pos_iff, cG b2 x2 u2 hx2 j, hj]
    by_cases hb : b2 = b1
    · simp [mult, hb]
    · simp [mult, hb]
  obtain ⟨c4, r1, r2, r3, r4⟩ := removeJoint_ok (w := { w with rb := c3 }) q2 hx2 m2
  have l4 : Later G (fset G b2 ({ x2 with joints := x2.joints.erase j }, u2)) := later_fset hx2 fun h => h
  have sH : ∀ c, (fset G b2 ({ x2 with joints := x2.joints.erase j }, u2) c).isSome = (f c).isSome := by
    intro c
    rw [fset_isSome (by rw [hx2]; rfl), ← hG, fset_isSome (by rw [hx1]; rfl), sF]
  -- removal of the component
  obtain ⟨cj, s1, s2⟩ := remove_rep hi.jc hj
  have hgd := getData_of hi.jc Function.injective_id hj
  have hnb := remove_nb s1
  have hpos : 0 < w.jc.nb := by
    obtain ⟨i, _, _, _, _, _, h⟩ := map_of_f hi.jc hj
    omega
  refine ⟨{ w with rb := c4, jc := cj, deadJoints := w.deadJoints ++ [j] }, fset G b2 ({ x2 with joints := x2.joints.erase j }, u2), ?_, ?_, rfl,
    rfl, rfl, ?_, by show cj.nb + 1 = _; omega, ?_, ?_⟩
  · unfold destroyJoint
    rw [hgd]
    simp only [Option.bind_eq_bind, Option.bind_some]
    rw [a1, Option.bind_some, p1, Option.bind_some, q1, Option.bind_some, r1, Option.bind_some]
    dsimp only
    rw [s1]
    rfl
  · refine ⟨r2, s2, hi.nodup, ?_, ?_, ?_, ?_⟩
    · intro b
      rw [sH]
      exact hi.list b
    · intro b d u h k
      have base : d.joints.count k = mult (g k) b - (if k = j ∧ b = b1 then 1 else 0) - (if k = j ∧ b = b2 then 1 else 0) := by
        by_cases hb : b = b2
        · subst hb
          rw [fset_same] at h
          cases h
          show (x2.joints.erase j).count k = _
          rw [List.count_erase, cG b x2 _ hx2 k]
          by_cases hk : k = j
          · subst hk; simp
          · have : (j == k) = false := by simpa using (fun h => hk h.symm)
            simp [hk, Ne.symm hk]
        · rw [fset_ne _ _ hb] at h
          rw [cG b d u h k]
          simp [hb]
      rw [base]
      by_cases hk : k = j
      · subst hk
        rw [fdel_same, hj]
        simp only [mult, true_and]
        by_cases h1 : b = b1 <;> by_cases h2 : b = b2
        · subst h1; subst h2; simp
        · subst h1; simp [h2, Ne.symm h2]
        · subst h2; simp [h1, Ne.symm h1]
        · simp [Ne.symm h1, Ne.symm h2]
      · rw [fdel_ne _ hk]
        simp [hk]
    · intro k a b u hk
      have hk' : k ≠ j := by
        rintro rfl
        rw [fdel_same] at hk
        cases hk
      rw [fdel_ne _ hk'] at hk
      rw [sH, sH]
      exact hi.ends k a b u hk
    · intro b d u h
      by_cases hb : b = b2
      · subst hb; rw [fset_same] at h; cases h; exact fun k1 k2 => nG _ _ _ hx2 k1 k2
      · rw [fset_ne _ _ hb] at h; exact nG _ _ _ h
  · refine Keep.trans (a3 rfl) (Keep.trans (p3 rfl) ?_)
    intro a i ha hi'
    exact ⟨by rw [r3, q3]; exact ha, by show i < c4.ds; rw [r4, q4]; exact hi'⟩
  · exact l1.trans (l2.trans (l3.trans l4))
  · intro hn
    have w1 : ¬ Wakeable d1 := hn b1 d1 v1 (Or.inl rfl) hf1
    obtain ⟨z1, z2, z3⟩ := (a7 rfl).2 w1
    have w2 : ¬ Wakeable d2 := by
      by_cases hb : b2 = b1
      · subst hb
        rw [fset_same] at hf2
        cases hf2
        rw [z2]
        exact w1
      · rw [fset_ne _ _ hb] at hf2
        exact hn b2 d2 v2 (Or.inr rfl) hf2
    obtain ⟨z4, _, _⟩ := (p7 rfl).2 w2
    dsimp only at z4 r3 r4 q3 q4
    exact ⟨by show c4.map = _; rw [r3, q3, z4, z1], by show c4.ds = _; rw [r4, q4, z4, z1]⟩

/-- The joint is attached to the body. -/
def AttachedTo (g : Joints) (b j : Nat) : Prop := 0 < mult (g j) b

instance (g : Joints) (b j : Nat) : Decidable (AttachedTo g b j) := by unfold AttachedTo; infer_instance

/-- Nothing is going to move the component of the body at index `i` while its joints are destroyed. -/
def Guard (w : JWorld) (f : Bodies) (g : Joints) (b i : Nat) : Prop :=
  i < w.rb.ds ∨ ∀ j c1 c2 v c d u, g j = some ((c1, c2), v) → c1 = b ∨ c2 = b → c = c1 ∨ c = c2 → f c = some (d, u) → ¬ Wakeable d

theorem jointLoop_ok {b i : Nat} : ∀ (n : Nat) {w : JWorld} {f : Bodies} {g : Joints}, Inv w f g → w.rb.map b = some i → Guard w f g b i →
    w.jc.nb < n → ∃ w' f' l, jointLoop i n w = some w' ∧ Inv w' f' (fun j => if AttachedTo g b j then none else g j) ∧ w'.list = w.list ∧
      w'.deadJoints = w.deadJoints ++ l ∧ l.Nodup ∧ (∀ j, j ∈ l ↔ AttachedTo g b j) ∧ w'.deadBodies = w.deadBodies ∧ Later f f'
  | 0, w, f, g, _, _, _, h => by omega
  | n + 1, w, f, g, hi, hm, hg, hn => by
    obtain ⟨d, hs⟩ := (hi.rb.rep.core b i).1 hm
    have hf := (hi.rb.rep.spec b _ _).2 ⟨i, d, hs, rfl, rfl⟩
    unfold jointLoop
    rw [hs, Option.bind_eq_bind, Option.bind_some]
    dsimp only
    cases hd : d.joints with
    | nil =>
      have none' : ∀ j, ¬ AttachedTo g b j := by
        intro j hj
        unfold AttachedTo at hj
        have := hi.count b _ _ hf j
        simp only [id_eq, hd, List.count_nil] at this
        omega
      refine ⟨w, f, [], rfl, ?_, rfl, by simp, List.nodup_nil, by simp [none'], rfl, Later.refl f⟩
      have : (fun j => if AttachedTo g b j then none else g j) = g := by
        funext j; rw [if_neg (none' j)]
      rw [this]
      exact hi
    | cons j rest =>
      dsimp only
      have hatt : AttachedTo g b j := by
        unfold AttachedTo
        rw [← hi.count b _ _ hf j]
        simp [hd]
      obtain ⟨⟨⟨b1, b2⟩, v⟩, hj⟩ : ∃ x, g j = some x := by
        cases hgj : g j with
        | none => unfold AttachedTo at hatt; rw [hgj] at hatt; simp [mult] at hatt
        | some x => exact ⟨x, rfl⟩
      have hb : b1 = b ∨ b2 = b := by
        unfold AttachedTo at hatt
        rw [hj] at hatt
        by_contra hh
        rw [not_or] at hh
        simp [mult, hh.1, hh.2] at hatt
      obtain ⟨w1, f1, k1, k2, k3, k4, k5, k6, k7, k8, k9⟩ := destroyJoint_ok hi hj
      have pos : w1.rb.map b = some i ∧ Guard w1 f1 (fdel g j) b i := by
        rcases hg with hg | hg
        · have := k6 b i hm hg
          exact ⟨this.1, Or.inl this.2⟩
        · have := k9 fun c d u hc hfc => hg j b1 b2 v c d u hj hb hc hfc
          refine ⟨by rw [this.1]; exact hm, Or.inr ?_⟩
          intro k c1 c2 v' c x u hk hc hcc hx hw
          have hkj : k ≠ j := by
            rintro rfl
            rw [fdel_same] at hk
            cases hk
          rw [fdel_ne _ hkj] at hk
          cases hfc : f c with
          | none => have := (k8 c).1.1 hfc; rw [this] at hx; cases hx
          | some y =>
            obtain ⟨y, uy⟩ := y
            exact hg k c1 c2 v' c y uy hk hc hcc hfc ((k8 c).2 y uy x u hfc hx hw)
      obtain ⟨w2, f2, l, m1, m2, m3, m4, m5, m6, m7, m8⟩ := jointLoop_ok n k2 pos.1 pos.2 (by omega)
      rw [k1, Option.bind_eq_bind, Option.bind_some, m1]
      have att : ∀ k, k ≠ j → (AttachedTo (fdel g j) b k ↔ AttachedTo g b k) := by
        intro k hk
        unfold AttachedTo
        rw [fdel_ne _ hk]
      have attj : ¬ AttachedTo (fdel g j) b j := by
        unfold AttachedTo
        rw [fdel_same]
        simp [mult]
      refine ⟨w2, f2, j :: l, rfl, ?_, by rw [m3, k3], by rw [m4, k4]; simp, ?_, ?_, by rw [m7, k5], k8.trans m8⟩
      · have : (fun k => if AttachedTo (fdel g j) b k then none else fdel g j k) = fun k => if AttachedTo g b k then none else g k := by
          funext k
          by_cases hk : k = j
          · subst hk
            rw [if_neg attj, fdel_same, if_pos hatt]
          · by_cases ha : AttachedTo g b k
            · rw [if_pos ((att k hk).2 ha), if_pos ha]
            · rw [if_neg fun h => ha ((att k hk).1 h), if_neg ha, fdel_ne _ hk]
        rw [← this]
        exact m2
      · refine List.nodup_cons.2 ⟨?_, m5⟩
        rw [m6]
        exact attj
      · intro k
        rw [List.mem_cons, m6]
        by_cases hk : k = j
        · subst hk; simp [hatt]
        · simp [hk, att k hk]

/-- `destroyRigidBody` under the guard. -/
theorem destroyBody_ok {w : JWorld} {f : Bodies} {g : Joints} (hi : Inv w f g) {b i : Nat} (hm : w.rb.map b = some i) (hg : Guard w f g b i) :
    ∃ w' f' l, w.destroyBody b = some w' ∧ Inv w' (fdel f' b) (fun j => if AttachedTo g b j then none else g j) ∧ w'.list = w.list.erase b ∧
      w'.deadJoints = w.deadJoints ++ l ∧ l.Nodup ∧ (∀ j, j ∈ l ↔ AttachedTo g b j) ∧ w'.deadBodies = w.deadBodies ++ [b] ∧ Later f f' := by
  obtain ⟨w1, f1, l, h1, h2, h3, h4, h5, h6, h7, h8⟩ := jointLoop_ok (w.jc.nb + 1) hi hm hg (by omega)
  obtain ⟨d, hs⟩ := (hi.rb.rep.core b i).1 hm
  have hf := (hi.rb.rep.spec b _ _).2 ⟨i, d, hs, rfl, rfl⟩
  obtain ⟨x, hx⟩ : ∃ x, f1 b = some x := by
    cases hb : f1 b with
    | none => have := (h8 b).1.2 hb; rw [this] at hf; cases hf
    | some x => exact ⟨x, rfl⟩
  obtain ⟨c, r1, r2⟩ := remove_rep h2.rb hx
  refine ⟨{ w1 with rb := c, list := w1.list.erase b, deadBodies := w1.deadBodies ++ [b] }, f1, l, ?_, ?_, by rw [h3], h4, h5, h6, by rw [h7], h8⟩
  · unfold destroyBody
    rw [hm, Option.bind_eq_bind, Option.bind_some, h1, Option.bind_eq_bind, Option.bind_some, r1]
    rfl
  · refine ⟨r2, h2.jc, h2.nodup.erase _, ?_, ?_, ?_, ?_⟩
    · intro e
      show e ∈ w1.list.erase b ↔ _
      rw [h2.nodup.mem_erase_iff]
      by_cases he : e = b
      · subst he; simp [fdel_same]
      · rw [fdel_ne _ he, ← h2.list]
        simp [he]
    · intro e x v he k
      by_cases heb : e = b
      · subst heb; rw [fdel_same] at he; cases he
      · rw [fdel_ne _ heb] at he
        exact h2.count e x v he k
    · intro k c1 c2 v hk
      obtain ⟨s1, s2⟩ := h2.ends k c1 c2 v hk
      have hna : ¬ AttachedTo g b k := by
        intro ha
        rw [if_pos ha] at hk
        cases hk
      rw [if_neg hna] at hk
      have n1 : c1 ≠ b := by
        rintro rfl
        exact hna (by unfold AttachedTo; rw [hk]; exact mult_pos.1)
      have n2 : c2 ≠ b := by
        rintro rfl
        exact hna (by unfold AttachedTo; rw [hk]; exact mult_pos.2)
      rw [fdel_ne _ n1, fdel_ne _ n2]
      exact ⟨s1, s2⟩
    · intro e x v he
      by_cases heb : e = b
      · subst heb; rw [fdel_same] at he; cases he
      · rw [fdel_ne _ heb] at he
        exact h2.en e x v he

theorem getData_eq {A : Type} {c : Comps A} {f : Nat → Option (A × Bool)} (h : Rep id c f) (e : Nat) : c.getData e = (f e).map Prod.fst := by
  cases hf : f e with
  | none =>
    unfold getData
    rw [none_of h hf]
    rfl
  | some x => rw [getData_of h Function.injective_id hf]; rfl

/-- A change of the attributes of one body that keeps its joints. -/
theorem Inv.attr {w : JWorld} {f : Bodies} {g : Joints} (hi : Inv w f g) {b : Nat} {d d' : JBody} {v v' : Bool} (hf : f b = some (d, v))
    (hj : d'.joints = d.joints) (he : En d' v') {c : Comps JBody} (hr : Rep id c (fset f b (d', v'))) :
    Inv { w with rb := c } (fset f b (d', v')) g := by
  have hs : (f b).isSome := by rw [hf]; rfl
  refine ⟨hr, hi.jc, hi.nodup, fun e => by rw [fset_isSome hs]; exact hi.list e, ?_, fun j b1 b2 u h => by rw [fset_isSome hs, fset_isSome hs]; exact hi.ends j b1 b2 u h, ?_⟩
  · intro e x u h j
    by_cases hb : e = b
    · subst hb; rw [fset_same] at h; cases h; rw [hj]; exact hi.count _ _ _ hf j
    · rw [fset_ne _ _ hb] at h; exact hi.count _ _ _ h j
  · intro e x u h
    by_cases hb : e = b
    · subst hb; rw [fset_same] at h; cases h; exact he
    · rw [fset_ne _ _ hb] at h; exact hi.en _ _ _ h

theorem fset_fset {A : Type} (f : Nat → Option A) (b : Nat) (x y : A) : fset (fset f b x) b y = fset f b y := by
  funext e
  by_cases he : e = b
  · subst he; rw [fset_same, fset_same]
  · rw [fset_ne _ _ he, fset_ne _ _ he, fset_ne _ _ he]

theorem setSleeping_inv {w : JWorld} {f : Bodies} {g : Joints} (hi : Inv w f g) {b : Nat} {d : JBody} {v0 : Bool} (hf : f b = some (d, v0)) (v : Bool) :
    ∃ w' d' v', w.setIsSleeping b v = some w' ∧ Inv w' (fset f b (d', v')) g ∧ d'.joints = d.joints := by
  obtain ⟨c, d', v', h1, h2, _, h3, _, _, _, h4⟩ := setIsSleeping_ok hi.rb hf v
  exact ⟨_, d', v', h1, hi.attr hf h3 (h4 (hi.en _ _ _ hf)) h2, h3⟩

theorem setStatic_inv {w : JWorld} {f : Bodies} {g : Joints} (hi : Inv w f g) {b : Nat} (hb : (f b).isSome) (v : Bool) :
    ∃ w' f', w.setStatic b v = some w' ∧ Inv w' f' g := by
  obtain ⟨⟨d, v0⟩, hf⟩ := some_of hb
  unfold setStatic
  rw [getData_of hi.rb Function.injective_id hf, Option.bind_eq_bind, Option.bind_some]
  by_cases h : d.static = v
  · rw [if_pos h]; exact ⟨w, f, rfl, hi⟩
  · rw [if_neg h]
    obtain ⟨c, h1, h2, _, _⟩ := change_ok hi.rb hf fun d => { d with static := v }
    obtain ⟨c', k1, k2, _⟩ := setBodyDisabled_ok (w := { w with rb := c }) h2 (fset_same _ _ _) v
    rw [fset_fset] at k2
    have hi2 := hi.attr (d' := { d with static := v }) (v' := v) hf rfl (fun h _ => h) k2
    obtain ⟨w', d', v', m1, m2, _⟩ := setSleeping_inv hi2 (fset_same _ _ _) false
    rw [h1, Option.bind_eq_bind, Option.bind_some, k1, Option.bind_some]
    exact ⟨w', _, m1, m2⟩

theorem setActive_inv {w : JWorld} {f : Bodies} {g : Joints} (hi : Inv w f g) {b : Nat} (hb : (f b).isSome) (v : Bool) :
    ∃ w' f', w.setActive b v = some w' ∧ Inv w' f' g := by
  obtain ⟨⟨d, v0⟩, hf⟩ := some_of hb
  unfold setActive
  rw [getData_of hi.rb Function.injective_id hf, Option.bind_eq_bind, Option.bind_some]
  by_cases h : d.active = v
  · rw [if_pos h]; exact ⟨w, f, rfl, hi⟩
  · rw [if_neg h]
    obtain ⟨w', d', v', m1, m2, _⟩ := setSleeping_inv hi hf (!v)
    obtain ⟨c, h1, h2, _, _⟩ := change_ok m2.rb (fset_same _ _ _) fun d => { d with active := v }
    rw [m1, Option.bind_eq_bind, Option.bind_some, h1]
    exact ⟨_, _, rfl, m2.attr (d' := { d' with active := v }) (fset_same _ _ _) rfl (fun k1 k2 => m2.en _ _ _ (fset_same _ _ _) k1 k2) h2⟩

theorem createBody_inv {w : JWorld} {f : Bodies} {g : Joints} (hi : Inv w f g) {b : Nat} (hb : f b = none) :
    ∃ w' f', w.createBody b = some w' ∧ Inv w' f' g := by
  obtain ⟨c, h1, h2⟩ := add_rep hi.rb false ⟨false, true, false, []⟩ hb
  have old : ∀ j, mult (g j) b = 0 := by
    intro j
    cases hg : g j with
    | none => rfl
    | some x =>
      obtain ⟨⟨b1, b2⟩, u⟩ := x
      obtain ⟨s1, s2⟩ := hi.ends j b1 b2 u hg
      have n1 : b1 ≠ b := by rintro rfl; rw [hb] at s1; cases s1
      have n2 : b2 ≠ b := by rintro rfl; rw [hb] at s2; cases s2
      simp [mult, n1, n2]
  have mono : ∀ e, (f e).isSome → (fset f b (⟨false, true, false, []⟩, false) e).isSome := by
    intro e he
    have n : e ≠ b := by rintro rfl; rw [hb] at he; cases he
    rw [fset_ne _ _ n]; exact he
  refine ⟨{ w with rb := c, list := w.list ++ [b] }, fset f b (⟨false, true, false, []⟩, false), ?_, h2, hi.jc, ?_, ?_, ?_, ?_, ?_⟩
  · unfold createBody; rw [h1]; rfl
  · rw [List.nodup_append]
    refine ⟨hi.nodup, by simp, ?_⟩
    intro x hx y hy
    rw [List.mem_singleton] at hy
    subst hy
    rintro rfl
    rw [hi.list, hb] at hx
    cases hx
  · intro e
    rw [List.mem_append, List.mem_singleton, hi.list]
    by_cases he : e = b
    · subst he; simp [fset_same]
    · rw [fset_ne _ _ he]; simp [he]
  · intro e x u h j
    by_cases he : e = b
    · subst he; rw [fset_same] at h; cases h; rw [old]; rfl
    · rw [fset_ne _ _ he] at h; exact hi.count _ _ _ h j
  · intro j b1 b2 u h
    exact ⟨mono _ (hi.ends j b1 b2 u h).1, mono _ (hi.ends j b1 b2 u h).2⟩
  · intro e x u h
    by_cases he : e = b
    · subst he; rw [fset_same] at h; cases h; exact fun _ _ => rfl
    · rw [fset_ne _ _ he] at h; exact hi.en _ _ _ h

theorem createJoint_inv {w : JWorld} {f : Bodies} {g : Joints} (hi : Inv w f g) {j b1 b2 : Nat} (hj : g j = none) (e1 : (f b1).isSome)
    (e2 : (f b2).isSome) : ∃ w' f' v, w.createJoint j b1 b2 = some w' ∧ Inv w' f' (fset g j ((b1, b2), v)) := by
  obtain ⟨⟨d1, v1⟩, hf1⟩ := some_of e1
  obtain ⟨⟨d2, v2⟩, hf2⟩ := some_of e2
  obtain ⟨cj, a1, a2⟩ := add_rep hi.jc (v1 && v2) (b1, b2) hj
  obtain ⟨c, h1, h2, _, _⟩ := change_ok (w := { w with jc := cj }) hi.rb hf1 fun d => { d with joints := d.joints ++ [j] }
  obtain ⟨⟨x2, u2⟩, hx2⟩ := some_of (o := fset f b1 ({ d1 with joints := d1.joints ++ [j] }, v1) b2) (by rw [fset_isSome e1]; exact e2)
  obtain ⟨c', k1, k2, _, _⟩ := change_ok (w := { w with jc := cj, rb := c }) h2 hx2 fun d => { d with joints := d.joints ++ [j] }
  have cF : ∀ b d u, fset f b1 ({ d1 with joints := d1.joints ++ [j] }, v1) b = some (d, u) → En d u ∧
      ∀ k, d.joints.count k = mult (g k) b + if k = j ∧ b = b1 then 1 else 0 := by
    intro b d u h
    by_cases hb : b = b1
    · subst hb
      rw [fset_same] at h
      cases h
      refine ⟨fun k1 k2 => hi.en _ _ _ hf1 k1 k2, fun k => ?_⟩
      show (d1.joints ++ [j]).count k = _
      rw [List.count_append, hi.count _ _ _ hf1]
      by_cases hk : k = j
      · subst hk; simp
      · simp [hk, Ne.symm hk]
    · rw [fset_ne _ _ hb] at h
      refine ⟨hi.en _ _ _ h, fun k => ?_⟩
      rw [hi.count _ _ _ h]
      simp [hb]
  have cG : ∀ b d u, fset (fset f b1 ({ d1 with joints := d1.joints ++ [j] }, v1)) b2 ({ x2 with joints := x2.joints ++ [j] }, u2) b = some (d, u) → En d u ∧
      ∀ k, d.joints.count k = mult (g k) b + (if k = j ∧ b = b1 then 1 else 0) + if k = j ∧ b = b2 then 1 else 0 := by
    intro b d u h
    by_cases hb : b = b2
    · subst hb
      rw [fset_same] at h
      cases h
      refine ⟨fun k1 k2 => (cF _ _ _ hx2).1 k1 k2, fun k => ?_⟩
      show (x2.joints ++ [j]).count k = _
      rw [List.count_append, (cF _ _ _ hx2).2]
      by_cases hk : k = j
      · subst hk; simp
      · simp [hk, Ne.symm hk]
    · rw [fset_ne _ _ hb] at h
      refine ⟨(cF _ _ _ h).1, fun k => ?_⟩
      rw [(cF _ _ _ h).2]
      simp [hb]
  have sG : ∀ e, (fset (fset f b1 ({ d1 with joints := d1.joints ++ [j] }, v1)) b2 ({ x2 with joints := x2.joints ++ [j] }, u2) e).isSome = (f e).isSome := by
    intro e
    rw [fset_isSome (by rw [hx2]; rfl), fset_isSome e1]
  refine ⟨{ w with jc := cj, rb := c' }, _, v1 && v2, ?_, k2, a2, hi.nodup, fun e => by rw [sG]; exact hi.list e, ?_, ?_, fun b d u h => (cG b d u h).1⟩
  · unfold createJoint
    rw [isDisabled_of hi.rb hf1, Option.bind_eq_bind, Option.bind_some, isDisabled_of hi.rb hf2, Option.bind_eq_bind, Option.bind_some, a1,
      Option.bind_eq_bind, Option.bind_some, h1, Option.bind_some]
    exact k1
  · intro b d u h k
    rw [(cG b d u h).2 k]
    by_cases hk : k = j
    · subst hk
      rw [fset_same, hj]
      by_cases n1 : b = b1 <;> by_cases n2 : b = b2
      · subst n1; subst n2; simp [mult]
      · subst n1; simp [mult, n2, Ne.symm n2]
      · subst n2; simp [mult, n1, Ne.symm n1]
      · simp [mult, n1, n2, Ne.symm n1, Ne.symm n2]
    · rw [fset_ne _ _ hk]; simp [hk]
  · intro k a b u h
    rw [sG, sG]
    by_cases hk : k = j
    · subst hk; rw [fset_same] at h; cases h; exact ⟨e1, e2⟩
    · rw [fset_ne _ _ hk] at h; exact hi.ends _ _ _ _ h

theorem arrangeJoint_inv {w : JWorld} {f : Bodies} {g : Joints} (hi : Inv w f g) {j b1 b2 : Nat} {v : Bool} (hj : g j = some ((b1, b2), v)) :
    ∃ w' v', w.arrangeJoint j = some w' ∧ Inv w' f (fset g j ((b1, b2), v')) := by
  obtain ⟨e1, e2⟩ := hi.ends j b1 b2 v hj
  obtain ⟨⟨d1, v1⟩, hf1⟩ := some_of e1
  obtain ⟨⟨d2, v2⟩, hf2⟩ := some_of e2
  have mt : ∀ (u : Bool) k b, mult (fset g j ((b1, b2), u) k) b = mult (g k) b := by
    intro u k b
    by_cases hk : k = j
    · subst hk; rw [fset_same, hj]; rfl
    · rw [fset_ne _ _ hk]
  have inv : ∀ (u : Bool) (c : Comps (Nat × Nat)), Rep id c (fset g j ((b1, b2), u)) → Inv { w with jc := c } f (fset g j ((b1, b2), u)) := by
    intro u c hc
    refine ⟨hi.rb, hc, hi.nodup, hi.list, fun b d x h k => by rw [mt]; exact hi.count b d x h k, ?_, hi.en⟩
    intro k a b x h
    by_cases hk : k = j
    · subst hk; rw [fset_same] at h; cases h; exact ⟨e1, e2⟩
    · rw [fset_ne _ _ hk] at h; exact hi.ends _ _ _ _ h
  unfold arrangeJoint setJointDisabled
  rw [getData_of hi.jc Function.injective_id hj, Option.bind_eq_bind, Option.bind_some]
  dsimp only
  rw [isDisabled_of hi.rb hf1, Option.bind_eq_bind, Option.bind_some, isDisabled_of hi.rb hf2, Option.bind_eq_bind, Option.bind_some,
    isDisabled_of hi.jc hj, Option.bind_some]
  by_cases h : (v1 && v2) = v
  · rw [if_pos h]
    refine ⟨w, v, rfl, ?_⟩
    have : fset g j ((b1, b2), v) = g := by
      funext e
      by_cases he : e = j
      · subst he; rw [fset_same, hj]
      · rw [fset_ne _ _ he]
    rw [this]; exact hi
  · rw [if_neg h]
    obtain ⟨c, k1, k2⟩ := setDisabled_rep hi.jc (cp := id) (fun _ => rfl) (v1 && v2) hj
    rw [k1]
    exact ⟨_, _, rfl, inv _ c k2⟩

/-! ### The destructor of the world -/

/-- The loop over the joints: some of them are destroyed, each once. -/
theorem teardownJoints_ok : ∀ (n i : Nat) {w : JWorld} {f : Bodies} {g : Joints}, Inv w f g → w.jc.nb - i < n →
    ∃ w' f' g' l, teardownJoints n i w = some w' ∧ Inv w' f' g' ∧ w'.list = w.list ∧ w'.deadJoints = w.deadJoints ++ l ∧ l.Nodup ∧
      (∀ j, j ∈ l ↔ g j ≠ none ∧ g' j = none) ∧ (∀ j, g' j = none ∨ g' j = g j) ∧ w'.deadBodies = w.deadBodies ∧ Later f f'
  | 0, i, w, f, g, _, h => by omega
  | n + 1, i, w, f, g, hi, hn => by
    unfold teardownJoints
    by_cases h : i < w.jc.nb
    · rw [if_pos h]
      have hocc := (hi.jc.rep.occ i).1 h
      cases hs : w.jc.slots i with
      | none => exact absurd hs hocc
      | some s =>
        obtain ⟨j, b1, b2⟩ := s
        have hg := (hi.jc.rep.spec j _ _).2 ⟨i, (b1, b2), hs, rfl, rfl⟩
        obtain ⟨w1, f1, k1, k2, k3, k4, k5, _, k7, k8, _⟩ := destroyJoint_ok hi hg
        obtain ⟨w2, f2, g2, l, m1, m2, m3, m4, m5, m6, m7, m8, m9⟩ := teardownJoints_ok n (i + 1) k2 (by omega)
        rw [Option.bind_eq_bind, Option.bind_some, k1, Option.bind_eq_bind, Option.bind_some, m1]
        have gj : g2 j = none := by
          rcases m7 j with h | h
          · exact h
          · rw [h, fdel_same]
        refine ⟨w2, f2, g2, j :: l, rfl, m2, by rw [m3, k3], by rw [m4, k4]; simp, ?_, ?_, ?_, by rw [m8, k5], k8.trans m9⟩
        · refine List.nodup_cons.2 ⟨?_, m5⟩
          rw [m6, fdel_same]
          simp
        · intro k
          rw [List.mem_cons, m6]
          by_cases hk : k = j
          · subst hk; simp [gj, hg]
          · simp [hk, fdel_ne _ hk]
        · intro k
          by_cases hk : k = j
          · subst hk; exact Or.inl gj
          · rw [← fdel_ne g hk]; exact m7 k
    · rw [if_neg h]
      refine ⟨w, f, g, [], rfl, hi, rfl, by simp, List.nodup_nil, ?_, fun _ => Or.inr rfl, rfl, Later.refl f⟩
      intro j
      simp

/-- The loop over the bodies when no body can wake up. -/
theorem teardownBodies_ok : ∀ (n : Nat) {w : JWorld} {f : Bodies} {g : Joints}, Inv w f g → (∀ b d v, f b = some (d, v) → ¬ Wakeable d) →
    w.list.length = n → ∃ w' f' g' l, teardownBodies n w = some w' ∧ Inv w' f' g' ∧ w'.list = [] ∧ w'.deadJoints = w.deadJoints ++ l ∧ l.Nodup ∧
      (∀ j, j ∈ l ↔ g j ≠ none ∧ g' j = none) ∧ (∀ j, g' j = none ∨ g' j = g j) ∧ w'.deadBodies = w.deadBodies ++ w.list.reverse
  | 0, w, f, g, hi, _, hl => by
    have e := List.length_eq_zero_iff.1 hl
    exact ⟨w, f, g, [], rfl, hi, e, by simp, List.nodup_nil, by simp, fun _ => Or.inr rfl, by simp [e]⟩
  | n + 1, w, f, g, hi, hw, hl => by
    obtain ⟨xs, b, hx⟩ : ∃ xs b, w.list = xs ++ [b] := by
      refine ⟨w.list.dropLast, w.list.getLast (by intro h; rw [h] at hl; cases hl), ?_⟩
      exact (List.dropLast_concat_getLast _).symm
    have hxl : xs.length = n := by rw [hx] at hl; simpa using hl
    have hget : w.list[n]? = some b := by rw [hx, ← hxl]; simp
    have hnd := hi.nodup
    rw [hx, List.nodup_append] at hnd
    have hbx : b ∉ xs := fun h => hnd.2.2 b h b (by simp) rfl
    obtain ⟨y, hy⟩ := some_of ((hi.list b).1 (by rw [hx]; simp))
    obtain ⟨i, _, hm, _⟩ := map_of_f hi.rb hy
    obtain ⟨w1, f1, l1, h1, h2, h3, h4, h5, h6, h7, h8⟩ := destroyBody_ok hi hm (Or.inr fun j c1 c2 v c d u _ _ _ hf => hw c d u hf)
    have he : w.list.erase b = xs := by
      rw [hx, List.erase_append_right _ hbx]
      simp
    have hw1 : ∀ c d v, fdel f1 b c = some (d, v) → ¬ Wakeable d := by
      intro c d v hc
      by_cases hcb : c = b
      · subst hcb; rw [fdel_same] at hc; cases hc
      · rw [fdel_ne _ hcb] at hc
        cases hf : f c with
        | none => have := (h8 c).1.1 hf; rw [this] at hc; cases hc
        | some z => exact fun hwk => hw c z.1 z.2 hf ((h8 c).2 z.1 z.2 d v hf hc hwk)
    obtain ⟨w2, f2, g2, l2, m1, m2, m3, m4, m5, m6, m7, m8⟩ := teardownBodies_ok n h2 hw1 (by rw [h3, he, hxl])
    have att : ∀ j, AttachedTo g b j → g j ≠ none := by
      intro j ha hn
      unfold AttachedTo at ha
      rw [hn] at ha
      simp [mult] at ha
    have g2n : ∀ j, AttachedTo g b j → g2 j = none := by
      intro j ha
      rcases m7 j with h | h
      · exact h
      · rw [h, if_pos ha]
    unfold teardownBodies
    rw [hget, Option.bind_eq_bind, Option.bind_some, h1, Option.bind_eq_bind, Option.bind_some, m1]
    refine ⟨w2, f2, g2, l1 ++ l2, rfl, m2, m3, by rw [m4, h4, List.append_assoc], ?_, ?_, ?_, ?_⟩
    · rw [List.nodup_append]
      refine ⟨h5, m5, ?_⟩
      intro x hx1 y hy2
      rintro rfl
      rw [h6] at hx1
      exact ((m6 x).1 hy2).1 (if_pos hx1)
    · intro j
      rw [List.mem_append, h6, m6]
      by_cases ha : AttachedTo g b j
      · simp [ha, att j ha, g2n j ha]
      · simp [ha]
    · intro j
      by_cases ha : AttachedTo g b j
      · exact Or.inl (g2n j ha)
      · have := m7 j
        rw [if_neg ha] at this
        exact this
    · rw [m8, h7, h3, he, hx]
      simp

end JWorld
end RP3D
