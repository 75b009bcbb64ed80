import Verif.Solver.Whole
import Verif.Solver.JointLemmas
import Verif.Solver.PositionLemmas

/-! Lemmas for C135: a contact or joint between bodies of a group reads and writes only these bodies. -/

set_option linter.unusedSectionVars false

namespace RP3D
namespace Local
open Solver Joints

/-- The two states have the same values for the bodies of the group. -/
def Agree {α : Type} (G : Nat → Prop) (V W : Nat → α) : Prop := ∀ b, G b → V b = W b

theorem Agree.refl {α : Type} (G : Nat → Prop) (V : Nat → α) : Agree G V V := fun _ _ => rfl
theorem Agree.trans {α : Type} {G : Nat → Prop} {V W U : Nat → α} (h : Agree G V W) (g : Agree G W U) : Agree G V U := fun b hb => (h b hb).trans (g b hb)

theorem Agree.upd {α : Type} {G : Nat → Prop} {V W : Nat → α} (h : Agree G V W) (a : Nat) {x y : α} (e : x = y) : Agree G (RP3D.upd V a x) (RP3D.upd W a y) := fun b hb => by
  by_cases k : b = a
  · subst k; rw [upd_same, upd_same, e]
  · rw [upd_ne _ _ k, upd_ne _ _ k, h b hb]

/-- Same result and same states on the group. -/
def Pair {α β : Type} (G : Nat → Prop) (r s : (Nat → α) × β) : Prop := Agree G r.1 s.1 ∧ r.2 = s.2

variable {K : Type} [Field K] [LinearOrder K] {G : Nat → Prop}

/-- Two changes one after the other, each reads the body it writes. -/
theorem upd_twice {α : Type} {V W : Nat → α} (h : Agree G V W) {a b : Nat} (ha : G a) (hb : G b) (f g : α → α) :
    Agree G (upd (upd V a (f (V a))) b (g (upd V a (f (V a)) b))) (upd (upd W a (f (W a))) b (g (upd W a (f (W a)) b))) := by
  have h1 : Agree G (upd V a (f (V a))) (upd W a (f (W a))) := h.upd a (by rw [h a ha])
  exact h1.upd b (by rw [h1 b hb])

/-! ### Contacts -/

section contact
variable {M : Man K} {V W : Nat → Vel K}

theorem push_local (h : Agree G V W) (h1 : G M.b1) (h2 : G M.b2) (p : CPoint K) (d : K) : Agree G (push M p d V) (push M p d W) :=
  upd_twice h h1 h2 (fun x => { x with v := x.v - V3.had (V3.smul M.m1 (V3.smul d p.normal)) M.ll1, w := x.w - V3.smul d (V3.had p.i1 M.la1) })
    (fun x => { x with v := x.v + V3.had (V3.smul M.m2 (V3.smul d p.normal)) M.ll2, w := x.w + V3.smul d (V3.had p.i2 M.la2) })

theorem pushSplit_local (h : Agree G V W) (h1 : G M.b1) (h2 : G M.b2) (p : CPoint K) (d : K) : Agree G (pushSplit M p d V) (pushSplit M p d W) :=
  upd_twice h h1 h2 (fun x => { x with vs := x.vs - V3.had (V3.smul M.m1 (V3.smul d p.normal)) M.ll1, ws := x.ws - V3.smul d (V3.had p.i1 M.la1) })
    (fun x => { x with vs := x.vs + V3.had (V3.smul M.m2 (V3.smul d p.normal)) M.ll2, ws := x.ws + V3.smul d (V3.had p.i2 M.la2) })

theorem rub_local (h : Agree G V W) (h1 : G M.b1) (h2 : G M.b2) (t c1 c2 : V3 K) (d : K) : Agree G (rub M t c1 c2 d V) (rub M t c1 c2 d W) :=
  upd_twice h h1 h2 (fun x => { x with v := x.v - V3.had (V3.smul M.m1 (V3.smul d t)) M.ll1, w := x.w + V3.had M.la1 (M.I1.act (V3.smul d (-c1))) })
    (fun x => { x with v := x.v + V3.had (V3.smul M.m2 (V3.smul d t)) M.ll2, w := x.w + V3.had M.la2 (M.I2.act (V3.smul d c2)) })

theorem twist_local (h : Agree G V W) (h1 : G M.b1) (h2 : G M.b2) (d : K) : Agree G (Solver.twist M d V) (Solver.twist M d W) :=
  upd_twice h h1 h2 (fun x => { x with w := x.w - V3.had M.la1 (M.I1.act (V3.smul d M.normal)) })
    (fun x => { x with w := x.w + V3.had M.la2 (M.I2.act (V3.smul d M.normal)) })

theorem twistWarm_local (h : Agree G V W) (h1 : G M.b1) (h2 : G M.b2) (d : K) : Agree G (twistWarm M d V) (twistWarm M d W) :=
  upd_twice (upd_twice h h1 h2 (fun x => { x with w := x.w + V3.had M.la1 (M.I1.act (V3.smul d (-M.normal))) })
    (fun x => { x with w := x.w + V3.had M.la2 (M.I2.act (V3.smul d M.normal)) })) h1 h2
    (fun x => { x with w := x.w - V3.had M.la1 (M.I1.act (V3.smul d M.normal)) })
    (fun x => { x with w := x.w + V3.had M.la2 (M.I2.act (V3.smul d M.normal)) })

theorem solvePoint_local (cfg : Cfg K) (h : Agree G V W) (h1 : G M.b1) (h2 : G M.b2) (p : CPoint K) : Pair G (solvePoint cfg M V p) (solvePoint cfg M W p) := by
  unfold solvePoint
  dsimp only
  rw [h _ h1, h _ h2]
  split
  · generalize max (p.imp + -(V3.dot (rel (W M.b1) (W M.b2) p.r1 p.r2) p.normal + p.bias) * p.invMass) 0 - p.imp = k
    have g := push_local h h1 h2 p k
    rw [g _ h1, g _ h2]
    exact ⟨pushSplit_local g h1 h2 _ _, rfl⟩
  · exact ⟨push_local h h1 h2 _ _, rfl⟩

theorem solvePoints_local (cfg : Cfg K) (h1 : G M.b1) (h2 : G M.b2) : ∀ (ps : List (CPoint K)) {V W : Nat → Vel K}, Agree G V W →
    Pair G (solvePoints cfg M V ps) (solvePoints cfg M W ps)
  | [], _, _, h => ⟨h, rfl⟩
  | p :: ps, V, W, h => by
    obtain ⟨a, b⟩ := solvePoint_local cfg h h1 h2 p
    obtain ⟨c, d⟩ := solvePoints_local cfg h1 h2 ps a
    refine ⟨c, ?_⟩
    simp only [solvePoints]
    rw [b, d]

theorem solveMan_local (cfg : Cfg K) (h : Agree G V W) (h1 : G M.b1) (h2 : G M.b2) : Pair G (solveMan cfg V M) (solveMan cfg W M) := by
  obtain ⟨a, b⟩ := solvePoints_local cfg h1 h2 M.pts h
  unfold solveMan
  dsimp only
  rw [b, a _ h1, a _ h2]
  generalize clamp _ (M.f1 + _) = f1
  have c := rub_local a h1 h2 M.t1 M.c11 M.c21 (f1 - M.f1)
  rw [c _ h1, c _ h2]
  generalize clamp _ (M.f2 + _) = f2
  have d := rub_local c h1 h2 M.t2 M.c12 M.c22 (f2 - M.f2)
  rw [d _ h1, d _ h2]
  exact ⟨twist_local d h1 h2 _, rfl⟩

theorem warmPoints_local (h1 : G M.b1) (h2 : G M.b2) : ∀ (ps : List (CPoint K)) {V W : Nat → Vel K}, Agree G V W →
    Pair G (warmPoints M V ps) (warmPoints M W ps)
  | [], _, _, h => ⟨h, rfl⟩
  | p :: ps, V, W, h => by
    have k : Pair G (warmPoint M V p) (warmPoint M W p) := by
      unfold warmPoint
      split
      · exact ⟨push_local h h1 h2 _ _, rfl⟩
      · exact ⟨h, rfl⟩
    obtain ⟨a, b⟩ := k
    obtain ⟨c, d⟩ := warmPoints_local h1 h2 ps a
    refine ⟨c, ?_⟩
    simp only [warmPoints]
    rw [b, d]

theorem warmMan_local (h : Agree G V W) (h1 : G M.b1) (h2 : G M.b2) : Pair G (warmMan V M) (warmMan W M) := by
  obtain ⟨a, b⟩ := warmPoints_local h1 h2 M.pts h
  unfold warmMan
  dsimp only
  split
  · refine ⟨twistWarm_local (rub_local (rub_local a h1 h2 _ _ _ _) h1 h2 _ _ _ _) h1 h2 _, ?_⟩
    dsimp only
    rw [b]
  · refine ⟨a, ?_⟩
    dsimp only
    rw [b]

end contact

theorem initMan_local (cfg : Cfg K) (sqrt : K → K) {body body' : Nat → SBody K} (X : XMan K) (h1 : body X.b1 = body' X.b1) (h2 : body X.b2 = body' X.b2) :
    initMan cfg sqrt body X = initMan cfg sqrt body' X := by
  unfold initMan
  rw [h1, h2]

/-! ### Joints: velocities -/

section joints
variable {V W : Nat → Vel K} {body body' : Nat → JBody K}

theorem kick_local {c : Two K} (h : Agree G V W) (h1 : G c.b1) (h2 : G c.b2) (P1 A1 P2 A2 : V3 K) : Agree G (kick c P1 A1 P2 A2 V) (kick c P1 A1 P2 A2 W) :=
  upd_twice h h1 h2 (fun x => { x with v := x.v + V3.had (V3.smul c.m1 c.ll1) P1, w := x.w + V3.had c.la1 (c.I1.act A1) })
    (fun x => { x with v := x.v + V3.had (V3.smul c.m2 c.ll2) P2, w := x.w + V3.had c.la2 (c.I2.act A2) })

theorem turn_local {c : Two K} (h : Agree G V W) (h1 : G c.b1) (h2 : G c.b2) (A1 A2 : V3 K) : Agree G (turn c A1 A2 V) (turn c A1 A2 W) := by
  rw [turn_eq, turn_eq]; exact kick_local h h1 h2 _ _ _ _

theorem shove_local {c : Two K} (h : Agree G V W) (h1 : G c.b1) (h2 : G c.b2) (P1 P2 : V3 K) : Agree G (shove c P1 P2 V) (shove c P1 P2 W) := by
  rw [shove_eq, shove_eq]; exact kick_local h h1 h2 _ _ _ _

theorem two_local (hb : Agree G body body') {b1 b2 : Nat} (h1 : G b1) (h2 : G b2) : two body b1 b2 = two body' b1 b2 := by
  unfold two
  rw [hb _ h1, hb _ h2]

theorem Ball.solve_local (hb : Agree G body body') (h : Agree G V W) (J : Ball K) (h1 : G J.b1) (h2 : G J.b2) : Pair G (J.solve body V) (J.solve body' W) := by
  have j : ∀ (N : Ball K) {V W : Nat → Vel K}, Agree G V W → N.b1 = J.b1 → N.b2 = J.b2 → Pair G (N.joint body V) (N.joint body' W) := by
    intro N V W h e1 e2
    rw [← e1] at h1; rw [← e2] at h2
    unfold Ball.joint pin
    dsimp only
    rw [two_local hb h1 h2, h _ h1, h _ h2]
    exact ⟨kick_local h h1 h2 _ _ _ _, rfl⟩
  have l : Pair G (J.limit body V) (J.limit body' W) ∧ (J.limit body V).2.b1 = J.b1 ∧ (J.limit body V).2.b2 = J.b2 := by
    unfold Ball.limit
    dsimp only
    rw [two_local hb h1 h2, h _ h1, h _ h2]
    split
    · split
      · exact ⟨⟨turn_local h h1 h2 _ _, rfl⟩, rfl, rfl⟩
      · exact ⟨⟨h, rfl⟩, rfl, rfl⟩
    · exact ⟨⟨h, rfl⟩, rfl, rfl⟩
  unfold Ball.solve
  dsimp only
  rw [← l.1.2]
  exact j _ l.1.1 l.2.1 l.2.2

theorem Fixed.solve_local (hb : Agree G body body') (h : Agree G V W) (J : Fixed K) (h1 : G J.b1) (h2 : G J.b2) : Pair G (J.solve body V) (J.solve body' W) := by
  have r : ∀ (N : Fixed K) {V W : Nat → Vel K}, Agree G V W → N.b1 = J.b1 → N.b2 = J.b2 → Pair G (N.rotation body V) (N.rotation body' W) := by
    intro N V W h e1 e2
    rw [← e1] at h1; rw [← e2] at h2
    unfold Fixed.rotation
    dsimp only
    rw [two_local hb h1 h2, h _ h1, h _ h2]
    exact ⟨turn_local h h1 h2 _ _, rfl⟩
  have l : Pair G (J.joint body V) (J.joint body' W) := by
    unfold Fixed.joint pin
    dsimp only
    rw [two_local hb h1 h2, h _ h1, h _ h2]
    exact ⟨kick_local h h1 h2 _ _ _ _, rfl⟩
  unfold Fixed.solve
  dsimp only
  rw [← l.2]
  exact r _ l.1 rfl rfl

/-- A part of a solver: what it does to the bodies of the joint `J`. -/
theorem chain {β : Type} {b1 b2 : β → Nat} {f g : β → (Nat → Vel K) → (Nat → Vel K) × β} {f' g' : β → (Nat → Vel K) → (Nat → Vel K) × β}
    (hf : ∀ N V W, Agree G V W → G (b1 N) → G (b2 N) → Pair G (f N V) (f' N W) ∧ b1 (f N V).2 = b1 N ∧ b2 (f N V).2 = b2 N)
    (hg : ∀ N V W, Agree G V W → G (b1 N) → G (b2 N) → Pair G (g N V) (g' N W) ∧ b1 (g N V).2 = b1 N ∧ b2 (g N V).2 = b2 N) (N : β) (V W : Nat → Vel K)
    (h : Agree G V W) (h1 : G (b1 N)) (h2 : G (b2 N)) :
    Pair G (g (f N V).2 (f N V).1) (g' (f' N W).2 (f' N W).1) ∧ b1 (g (f N V).2 (f N V).1).2 = b1 N ∧ b2 (g (f N V).2 (f N V).1).2 = b2 N := by
  obtain ⟨⟨a, b⟩, e1, e2⟩ := hf N V W h h1 h2
  rw [← b]
  obtain ⟨c, d1, d2⟩ := hg (f N V).2 _ _ a (e1 ▸ h1) (e2 ▸ h2)
  exact ⟨c, d1.trans e1, d2.trans e2⟩

section hinge
variable (hb : Agree G body body')
include hb

theorem Hinge.limitL_local (J : Hinge K) (V W : Nat → Vel K) (h : Agree G V W) (h1 : G J.b1) (h2 : G J.b2) :
    Pair G (J.limitL body V) (J.limitL body' W) ∧ (J.limitL body V).2.b1 = J.b1 ∧ (J.limitL body V).2.b2 = J.b2 := by
  unfold Hinge.limitL; dsimp only; rw [two_local hb h1 h2, h _ h1, h _ h2]
  split
  · exact ⟨⟨turn_local h h1 h2 _ _, rfl⟩, rfl, rfl⟩
  · exact ⟨⟨h, rfl⟩, rfl, rfl⟩

theorem Hinge.limitU_local (J : Hinge K) (V W : Nat → Vel K) (h : Agree G V W) (h1 : G J.b1) (h2 : G J.b2) :
    Pair G (J.limitU body V) (J.limitU body' W) ∧ (J.limitU body V).2.b1 = J.b1 ∧ (J.limitU body V).2.b2 = J.b2 := by
  unfold Hinge.limitU; dsimp only; rw [two_local hb h1 h2, h _ h1, h _ h2]
  split
  · exact ⟨⟨turn_local h h1 h2 _ _, rfl⟩, rfl, rfl⟩
  · exact ⟨⟨h, rfl⟩, rfl, rfl⟩

theorem Hinge.motor_local (cfg : JCfg K) (J : Hinge K) (V W : Nat → Vel K) (h : Agree G V W) (h1 : G J.b1) (h2 : G J.b2) :
    Pair G (J.motor cfg body V) (J.motor cfg body' W) ∧ (J.motor cfg body V).2.b1 = J.b1 ∧ (J.motor cfg body V).2.b2 = J.b2 := by
  unfold Hinge.motor; dsimp only; rw [two_local hb h1 h2, h _ h1, h _ h2]
  split
  · exact ⟨⟨turn_local h h1 h2 _ _, rfl⟩, rfl, rfl⟩
  · exact ⟨⟨h, rfl⟩, rfl, rfl⟩

theorem Hinge.rotation_local (J : Hinge K) (V W : Nat → Vel K) (h : Agree G V W) (h1 : G J.b1) (h2 : G J.b2) :
    Pair G (J.rotation body V) (J.rotation body' W) ∧ (J.rotation body V).2.b1 = J.b1 ∧ (J.rotation body V).2.b2 = J.b2 := by
  unfold Hinge.rotation; dsimp only; rw [two_local hb h1 h2, h _ h1, h _ h2]
  exact ⟨⟨turn_local h h1 h2 _ _, rfl⟩, rfl, rfl⟩

theorem Hinge.joint_local (J : Hinge K) (V W : Nat → Vel K) (h : Agree G V W) (h1 : G J.b1) (h2 : G J.b2) :
    Pair G (J.joint body V) (J.joint body' W) ∧ (J.joint body V).2.b1 = J.b1 ∧ (J.joint body V).2.b2 = J.b2 := by
  unfold Hinge.joint pin; dsimp only; rw [two_local hb h1 h2, h _ h1, h _ h2]
  exact ⟨⟨kick_local h h1 h2 _ _ _ _, rfl⟩, rfl, rfl⟩

theorem Hinge.solve_local (cfg : JCfg K) (h : Agree G V W) (J : Hinge K) (h1 : G J.b1) (h2 : G J.b2) : Pair G (J.solve cfg body V) (J.solve cfg body' W) :=
  (chain (b1 := Hinge.b1) (b2 := Hinge.b2) (chain (chain (chain (Hinge.limitL_local hb) (Hinge.limitU_local hb)) (Hinge.motor_local hb cfg)) (Hinge.rotation_local hb))
    (Hinge.joint_local hb) J V W h h1 h2).1

theorem Slider.limitL_local (J : Slider K) (V W : Nat → Vel K) (h : Agree G V W) (h1 : G J.b1) (h2 : G J.b2) :
    Pair G (J.limitL body V) (J.limitL body' W) ∧ (J.limitL body V).2.b1 = J.b1 ∧ (J.limitL body V).2.b2 = J.b2 := by
  unfold Slider.limitL Slider.along; dsimp only; rw [two_local hb h1 h2, h _ h1, h _ h2]
  split
  · exact ⟨⟨kick_local h h1 h2 _ _ _ _, rfl⟩, rfl, rfl⟩
  · exact ⟨⟨h, rfl⟩, rfl, rfl⟩

theorem Slider.limitU_local (J : Slider K) (V W : Nat → Vel K) (h : Agree G V W) (h1 : G J.b1) (h2 : G J.b2) :
    Pair G (J.limitU body V) (J.limitU body' W) ∧ (J.limitU body V).2.b1 = J.b1 ∧ (J.limitU body V).2.b2 = J.b2 := by
  unfold Slider.limitU Slider.along; dsimp only; rw [two_local hb h1 h2, h _ h1, h _ h2]
  split
  · exact ⟨⟨kick_local h h1 h2 _ _ _ _, rfl⟩, rfl, rfl⟩
  · exact ⟨⟨h, rfl⟩, rfl, rfl⟩

theorem Slider.motor_local (cfg : JCfg K) (J : Slider K) (V W : Nat → Vel K) (h : Agree G V W) (h1 : G J.b1) (h2 : G J.b2) :
    Pair G (J.motor cfg body V) (J.motor cfg body' W) ∧ (J.motor cfg body V).2.b1 = J.b1 ∧ (J.motor cfg body V).2.b2 = J.b2 := by
  unfold Slider.motor; dsimp only; rw [two_local hb h1 h2, h _ h1, h _ h2]
  split
  · exact ⟨⟨shove_local h h1 h2 _ _, rfl⟩, rfl, rfl⟩
  · exact ⟨⟨h, rfl⟩, rfl, rfl⟩

theorem Slider.rotation_local (J : Slider K) (V W : Nat → Vel K) (h : Agree G V W) (h1 : G J.b1) (h2 : G J.b2) :
    Pair G (J.rotation body V) (J.rotation body' W) ∧ (J.rotation body V).2.b1 = J.b1 ∧ (J.rotation body V).2.b2 = J.b2 := by
  unfold Slider.rotation; dsimp only; rw [two_local hb h1 h2, h _ h1, h _ h2]
  exact ⟨⟨turn_local h h1 h2 _ _, rfl⟩, rfl, rfl⟩

theorem Slider.joint_local (J : Slider K) (V W : Nat → Vel K) (h : Agree G V W) (h1 : G J.b1) (h2 : G J.b2) :
    Pair G (J.joint body V) (J.joint body' W) ∧ (J.joint body V).2.b1 = J.b1 ∧ (J.joint body V).2.b2 = J.b2 := by
  unfold Slider.joint; dsimp only; rw [two_local hb h1 h2, h _ h1, h _ h2]
  exact ⟨⟨kick_local h h1 h2 _ _ _ _, rfl⟩, rfl, rfl⟩

theorem Slider.solve_local (cfg : JCfg K) (h : Agree G V W) (J : Slider K) (h1 : G J.b1) (h2 : G J.b2) : Pair G (J.solve cfg body V) (J.solve cfg body' W) :=
  (chain (b1 := Slider.b1) (b2 := Slider.b2) (chain (chain (chain (Slider.limitL_local hb) (Slider.limitU_local hb)) (Slider.motor_local hb cfg)) (Slider.rotation_local hb))
    (Slider.joint_local hb) J V W h h1 h2).1

end hinge

theorem Joint.solve_local (cfg : JCfg K) (hb : Agree G body body') (h : Agree G V W) (J : Joint K) (h1 : G J.b1) (h2 : G J.b2) :
    Pair G (J.solve cfg body V) (J.solve cfg body' W) := by
  cases J with
  | ball J => exact ⟨(Ball.solve_local hb h J h1 h2).1, congrArg Joint.ball (Ball.solve_local hb h J h1 h2).2⟩
  | fixed J => exact ⟨(Fixed.solve_local hb h J h1 h2).1, congrArg Joint.fixed (Fixed.solve_local hb h J h1 h2).2⟩
  | hinge J => exact ⟨(Hinge.solve_local hb cfg h J h1 h2).1, congrArg Joint.hinge (Hinge.solve_local hb cfg h J h1 h2).2⟩
  | slider J => exact ⟨(Slider.solve_local hb cfg h J h1 h2).1, congrArg Joint.slider (Slider.solve_local hb cfg h J h1 h2).2⟩

theorem Joint.warm_local (hb : Agree G body body') (h : Agree G V W) (J : Joint K) (h1 : G J.b1) (h2 : G J.b2) : Agree G (J.warm body V) (J.warm body' W) := by
  intro b g
  rw [Joint.warm_eq, Joint.warm_eq, two_local hb h1 h2, h b g]

theorem Joint.init_local (cfg : JCfg K) (hb : Agree G body body') (J : Joint K) (h1 : G J.b1) (h2 : G J.b2) : J.init cfg body = J.init cfg body' := by
  cases J with
  | ball J =>
    have e1 : body J.b1 = body' J.b1 := hb _ h1
    have e2 : body J.b2 = body' J.b2 := hb _ h2
    unfold Joint.init Ball.init; dsimp only; rw [e1, e2]
  | fixed J =>
    have e1 : body J.b1 = body' J.b1 := hb _ h1
    have e2 : body J.b2 = body' J.b2 := hb _ h2
    unfold Joint.init Fixed.init; dsimp only; rw [e1, e2]
  | hinge J =>
    have e1 : body J.b1 = body' J.b1 := hb _ h1
    have e2 : body J.b2 = body' J.b2 := hb _ h2
    unfold Joint.init Hinge.init; dsimp only; rw [e1, e2]
  | slider J =>
    have e1 : body J.b1 = body' J.b1 := hb _ h1
    have e2 : body J.b2 = body' J.b2 := hb _ h2
    unfold Joint.init Slider.init; dsimp only; rw [e1, e2]

end joints

/-! ### Joints: positions -/

section poses
variable {X Y : Nat → Pose K} {body body' : Nat → PBody K} {c : Two K} {cfg : JCfg K}

theorem place_local (h : Agree G X Y) (h1 : G c.b1) (h2 : G c.b2) (P1 A1 P2 A2 : V3 K) : Agree G (place cfg c P1 A1 P2 A2 X) (place cfg c P1 A1 P2 A2 Y) :=
  upd_twice h h1 h2 (fun x => ⟨x.x + V3.had (V3.smul c.m1 c.ll1) P1, spin cfg (V3.had c.la1 (c.I1.act A1)) x.q⟩)
    (fun x => ⟨x.x + V3.had (V3.smul c.m2 c.ll2) P2, spin cfg (V3.had c.la2 (c.I2.act A2)) x.q⟩)

theorem jtwist_local (h : Agree G X Y) (h1 : G c.b1) (h2 : G c.b2) (A1 A2 : V3 K) : Agree G (Joints.twist cfg c A1 A2 X) (Joints.twist cfg c A1 A2 Y) :=
  upd_twice h h1 h2 (fun x => ⟨x.x, spin cfg (V3.had c.la1 (c.I1.act A1)) x.q⟩) (fun x => ⟨x.x, spin cfg (V3.had c.la2 (c.I2.act A2)) x.q⟩)

theorem twoAt_local (hb : Agree G body body') (h : Agree G X Y) {b1 b2 : Nat} (h1 : G b1) (h2 : G b2) : twoAt body X b1 b2 = twoAt body' Y b1 b2 := by
  unfold twoAt
  rw [hb _ h1, hb _ h2, h _ h1, h _ h2]

theorem armAt_local (hb : Agree G body body') (h : Agree G X Y) {b : Nat} (h1 : G b) (a : V3 K) : armAt body X b a = armAt body' Y b a := by
  unfold armAt
  rw [hb _ h1, h _ h1]

theorem pull_local (h : Agree G X Y) (h1 : G c.b1) (h2 : G c.b2) (dyn : Bool) (r1 r2 : V3 K) : Pair G (pull cfg dyn c r1 r2 X) (pull cfg dyn c r1 r2 Y) := by
  unfold pull; dsimp only; rw [h _ h1, h _ h2]
  split
  · exact ⟨place_local h h1 h2 _ _ _ _, rfl⟩
  · exact ⟨h, rfl⟩

theorem align_local (h : Agree G X Y) (h1 : G c.b1) (h2 : G c.b2) (dyn : Bool) (d : Quat K) : Pair G (align cfg dyn c d X) (align cfg dyn c d Y) := by
  unfold align; dsimp only; rw [h _ h1, h _ h2]
  split
  · exact ⟨jtwist_local h h1 h2 _ _, rfl⟩
  · exact ⟨h, rfl⟩

theorem cone_local (h : Agree G X Y) (h1 : G c.b1) (h2 : G c.b2) (J : Ball K) : Pair G (J.cone' cfg c X) (J.cone' cfg c Y) := by
  unfold Ball.cone'; dsimp only
  split
  · split
    · exact ⟨jtwist_local h h1 h2 _ _, rfl⟩
    · exact ⟨h, rfl⟩
  · exact ⟨h, rfl⟩

theorem limitsH_local (h : Agree G X Y) (h1 : G c.b1) (h2 : G c.b2) (J : Hinge K) (eL eU : K) : Pair G (J.limits' cfg c eL eU X) (J.limits' cfg c eL eU Y) := by
  unfold Hinge.limits'; dsimp only
  split
  · refine ⟨?_, rfl⟩
    dsimp only
    split <;> split
    · exact jtwist_local (jtwist_local h h1 h2 _ _) h1 h2 _ _
    · exact jtwist_local h h1 h2 _ _
    · exact jtwist_local h h1 h2 _ _
    · exact h
  · exact ⟨h, rfl⟩

theorem rotateH_local (h : Agree G X Y) (h1 : G c.b1) (h2 : G c.b2) (dyn : Bool) (J : Hinge K) (b v : V3 K) : Pair G (J.rotate' cfg dyn c b v X) (J.rotate' cfg dyn c b v Y) := by
  unfold Hinge.rotate'; dsimp only
  split
  · exact ⟨jtwist_local h h1 h2 _ _, rfl⟩
  · exact ⟨h, rfl⟩

theorem limitsS_local (h : Agree G X Y) (h1 : G c.b1) (h2 : G c.b2) (J : Slider K) (e1 : G J.b1) (e2 : G J.b2) : Pair G (J.limits' cfg c X) (J.limits' cfg c Y) := by
  have bt : ∀ {X Y : Nat → Pose K}, Agree G X Y → J.between X = J.between Y := fun h => by unfold Slider.between; rw [h _ e1, h _ e2]
  unfold Slider.limits'; dsimp only
  split
  · refine ⟨?_, rfl⟩
    dsimp only
    rw [bt h]
    have k : ∀ l : K, Agree G (if J.low = true then place cfg c (V3.smul (-l) J.ax) (V3.smul (-l) J.cx) (V3.smul l J.ax) (V3.smul l J.ex) X else X)
        (if J.low = true then place cfg c (V3.smul (-l) J.ax) (V3.smul (-l) J.cx) (V3.smul l J.ax) (V3.smul l J.ex) Y else Y) := fun l => by
      split
      · exact place_local h h1 h2 _ _ _ _
      · exact h
    split
    · rw [bt (k _)]
      exact place_local (k _) h1 h2 _ _ _ _
    · exact k _
  · exact ⟨h, rfl⟩

theorem pullS_local (h : Agree G X Y) (h1 : G c.b1) (h2 : G c.b2) (dyn : Bool) (J : Slider K) (u : V3 K) : Pair G (Slider.pull' cfg dyn c J u X) (Slider.pull' cfg dyn c J u Y) := by
  unfold Slider.pull'; dsimp only
  split
  · exact ⟨place_local h h1 h2 _ _ _ _, rfl⟩
  · exact ⟨h, rfl⟩

/-- The three parts of a hinge. -/
theorem tailH_local (h : Agree G X Y) (h1 : G c.b1) (h2 : G c.b2) (N : Hinge K) (dyn : Bool) (eL eU : K) (b v r1 r2 : V3 K) :
    Pair G ((pull cfg dyn c r1 r2 ((N.limits' cfg c eL eU X).2.rotate' cfg dyn c b v (N.limits' cfg c eL eU X).1).1).1,
        { ((N.limits' cfg c eL eU X).2.rotate' cfg dyn c b v (N.limits' cfg c eL eU X).1).2 with
          k := (pull cfg dyn c r1 r2 ((N.limits' cfg c eL eU X).2.rotate' cfg dyn c b v (N.limits' cfg c eL eU X).1).1).2 })
      ((pull cfg dyn c r1 r2 ((N.limits' cfg c eL eU Y).2.rotate' cfg dyn c b v (N.limits' cfg c eL eU Y).1).1).1,
        { ((N.limits' cfg c eL eU Y).2.rotate' cfg dyn c b v (N.limits' cfg c eL eU Y).1).2 with
          k := (pull cfg dyn c r1 r2 ((N.limits' cfg c eL eU Y).2.rotate' cfg dyn c b v (N.limits' cfg c eL eU Y).1).1).2 }) := by
  obtain ⟨a, a'⟩ := limitsH_local (cfg := cfg) h h1 h2 N eL eU
  rw [← a']
  obtain ⟨d, d'⟩ := rotateH_local (cfg := cfg) a h1 h2 dyn (N.limits' cfg c eL eU X).2 b v
  rw [← d']
  obtain ⟨e, e'⟩ := pull_local (cfg := cfg) d h1 h2 dyn r1 r2
  rw [← e']
  exact ⟨e, rfl⟩

/-- The three parts of a slider. -/
theorem tailS_local (h : Agree G X Y) (h1 : G c.b1) (h2 : G c.b2) (N : Slider K) (e1 : G N.b1) (e2 : G N.b2) (dyn : Bool) (d : Quat K) (u : V3 K) :
    Pair G (Slider.pull' cfg dyn c { (N.limits' cfg c X).2 with kr := (align cfg dyn c d (N.limits' cfg c X).1).2 } u (align cfg dyn c d (N.limits' cfg c X).1).1)
      (Slider.pull' cfg dyn c { (N.limits' cfg c Y).2 with kr := (align cfg dyn c d (N.limits' cfg c Y).1).2 } u (align cfg dyn c d (N.limits' cfg c Y).1).1) := by
  obtain ⟨a, a'⟩ := limitsS_local (cfg := cfg) h h1 h2 N e1 e2
  rw [← a']
  obtain ⟨b, b'⟩ := align_local (cfg := cfg) a h1 h2 dyn d
  rw [← b']
  exact pullS_local b h1 h2 _ _ _

variable (hb : Agree G body body') (h : Agree G X Y)
include hb h

theorem Ball.position_local (J : Ball K) (h1 : G J.b1) (h2 : G J.b2) : Pair G (J.position cfg body X) (J.position cfg body' Y) := by
  unfold Ball.position
  dsimp only
  rw [twoAt_local hb h h1 h2, armAt_local hb h h1, armAt_local hb h h2, hb _ h1, hb _ h2]
  generalize hJ : ({ J with r1 := armAt body' Y J.b1 J.a1, r2 := armAt body' Y J.b2 J.a2 } : Ball K) = N
  obtain ⟨a, b⟩ := cone_local (cfg := cfg) (c := twoAt body' Y J.b1 J.b2) h h1 h2 N
  obtain ⟨c, d⟩ := pull_local (cfg := cfg) (c := twoAt body' Y J.b1 J.b2) a h1 h2 ((body' J.b1).dyn || (body' J.b2).dyn) (armAt body' Y J.b1 J.a1) (armAt body' Y J.b2 J.a2)
  refine ⟨c, ?_⟩
  dsimp only
  rw [b, d]

theorem Fixed.position_local (J : Fixed K) (h1 : G J.b1) (h2 : G J.b2) : Pair G (J.position cfg body X) (J.position cfg body' Y) := by
  unfold Fixed.position
  dsimp only
  rw [twoAt_local hb h h1 h2, armAt_local hb h h1, armAt_local hb h h2, hb _ h1, hb _ h2]
  obtain ⟨a, b⟩ := pull_local (cfg := cfg) (c := twoAt body' Y J.b1 J.b2) h h1 h2 ((body' J.b1).dyn || (body' J.b2).dyn) (armAt body' Y J.b1 J.a1) (armAt body' Y J.b2 J.a2)
  obtain ⟨c, d⟩ := align_local (cfg := cfg) (c := twoAt body' Y J.b1 J.b2) a h1 h2 ((body' J.b1).dyn || (body' J.b2).dyn) J.d
  refine ⟨c, ?_⟩
  dsimp only
  rw [b, d]

theorem Hinge.position_local (J : Hinge K) (h1 : G J.b1) (h2 : G J.b2) : Pair G (J.position cfg body X) (J.position cfg body' Y) := by
  unfold Hinge.position
  dsimp only
  rw [twoAt_local hb h h1 h2, armAt_local hb h h1, armAt_local hb h h2, hb _ h1, hb _ h2, h _ h1, h _ h2]
  exact tailH_local (c := twoAt body' Y J.b1 J.b2) h h1 h2 _ _ _ _ _ _ _ _

/-- The slider with the data of the moment. -/
def sliderReady (cfg : JCfg K) (J : Slider K) (p1 p2 : Pose K) (r1 r2 : V3 K) : Slider K :=
  let u := p2.x + r2 - p1.x - r1
  let ax := unitOf cfg (p1.q.rot J.l1)
  let n1 := orthogonal cfg.sqrt ax
  let n2 := V3.cross ax n1
  let s := V3.dot u ax
  { J with r1 := r1, r2 := r2, ax := ax, n1 := n1, n2 := n2
           low := decide (s - J.lower ≤ 0), up := decide (J.upper - s ≤ 0)
           e1 := V3.cross r2 n1, e2 := V3.cross r2 n2, ex := V3.cross r2 ax
           c1 := V3.cross (r1 + u) n1, c2 := V3.cross (r1 + u) n2, cx := V3.cross (r1 + u) ax }

def sliderTail (cfg : JCfg K) (N : Slider K) (dyn : Bool) (c : Two K) (d : Quat K) (u : V3 K) (X : Nat → Pose K) : (Nat → Pose K) × Slider K :=
  Slider.pull' cfg dyn c { (N.limits' cfg c X).2 with kr := (align cfg dyn c d (N.limits' cfg c X).1).2 } u (align cfg dyn c d (N.limits' cfg c X).1).1

omit hb h in
theorem slider_eq (J : Slider K) : J.position cfg body X =
    sliderTail cfg (sliderReady cfg J (X J.b1) (X J.b2) (armAt body X J.b1 J.a1) (armAt body X J.b2 J.a2)) ((body J.b1).dyn || (body J.b2).dyn) (twoAt body X J.b1 J.b2) J.d
      ((X J.b2).x + armAt body X J.b2 J.a2 - (X J.b1).x - armAt body X J.b1 J.a1) X := rfl

omit hb in
theorem tail_local (N : Slider K) (h1 : G c.b1) (h2 : G c.b2) (e1 : G N.b1) (e2 : G N.b2) (dyn : Bool) (d : Quat K) (u : V3 K) :
    Pair G (sliderTail cfg N dyn c d u X) (sliderTail cfg N dyn c d u Y) := tailS_local h h1 h2 N e1 e2 dyn d u

theorem Slider.position_local (J : Slider K) (h1 : G J.b1) (h2 : G J.b2) : Pair G (J.position cfg body X) (J.position cfg body' Y) := by
  have e : J.position cfg body X = sliderTail cfg (sliderReady cfg J (Y J.b1) (Y J.b2) (armAt body' Y J.b1 J.a1) (armAt body' Y J.b2 J.a2))
      ((body' J.b1).dyn || (body' J.b2).dyn) (twoAt body' Y J.b1 J.b2) J.d ((Y J.b2).x + armAt body' Y J.b2 J.a2 - (Y J.b1).x - armAt body' Y J.b1 J.a1) X := by
    rw [slider_eq, twoAt_local hb h h1 h2, armAt_local hb h h1, armAt_local hb h h2, hb _ h1, hb _ h2, h _ h1, h _ h2]
  rw [e, slider_eq]
  refine tail_local h _ ?_ ?_ ?_ ?_ _ _ _
  exacts [h1, h2, h1, h2]

end poses

end Local
end RP3D
