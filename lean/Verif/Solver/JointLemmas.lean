import Verif.Solver.Joints
import Verif.Solver.Run

/-! Lemmas for the joint solvers: every part of an iteration adds to the velocities the effect of the impulses it adds to the joint. -/

namespace RP3D
namespace Joints
open Solver
variable {K : Type} [Field K] [LinearOrder K]
set_option linter.unusedSectionVars false

/-- Linear and angular impulses on the two bodies of a joint. -/
@[ext] structure Load (K : Type) where
  P1 : V3 K
  A1 : V3 K
  P2 : V3 K
  A2 : V3 K

def Load.add (l m : Load K) : Load K := ⟨l.P1 + m.P1, l.A1 + m.A1, l.P2 + m.P2, l.A2 + m.A2⟩

/-- What a load does to the velocities of body `b`. -/
def linK (c : Two K) (l : Load K) (b : Nat) : V3 K :=
  (if c.b1 = b then V3.had (V3.smul c.m1 c.ll1) l.P1 else 0) + (if c.b2 = b then V3.had (V3.smul c.m2 c.ll2) l.P2 else 0)

def angK (c : Two K) (l : Load K) (b : Nat) : V3 K :=
  (if c.b1 = b then V3.had c.la1 (c.I1.act l.A1) else 0) + (if c.b2 = b then V3.had c.la2 (c.I2.act l.A2) else 0)

theorem linK_add (c : Two K) (l m : Load K) (b : Nat) : linK c (l.add m) b = linK c l b + linK c m b := by
  unfold linK Load.add
  split_ifs <;> ext <;> simp [V3.had] <;> ring

theorem angK_add (c : Two K) (l m : Load K) (b : Nat) : angK c (l.add m) b = angK c l b + angK c m b := by
  unfold angK Load.add M3.act
  split_ifs <;> ext <;> simp [V3.had] <;> ring

def kickL (c : Two K) (l : Load K) (V : Nat → Vel K) : Nat → Vel K := kick c l.P1 l.A1 l.P2 l.A2 V

theorem kick_eq (c : Two K) (P1 A1 P2 A2 : V3 K) (V : Nat → Vel K) (b : Nat) :
    kick c P1 A1 P2 A2 V b =
      ⟨(V b).v + linK c ⟨P1, A1, P2, A2⟩ b, (V b).w + angK c ⟨P1, A1, P2, A2⟩ b, (V b).vs, (V b).ws⟩ := by
  unfold kick linK angK
  by_cases h2 : b = c.b2 <;> by_cases h1 : b = c.b1
  · subst h2; rw [if_pos rfl, if_pos h1.symm, if_pos h1.symm, if_pos rfl]; dsimp only; rw [upd_same, ← h1, upd_same]; dsimp only
    rw [add_assoc, add_assoc]
  · subst h2; rw [if_pos rfl, if_neg (Ne.symm h1), if_neg (Ne.symm h1), if_pos rfl]; dsimp only; rw [upd_same, upd_ne _ _ h1, zero_add, zero_add]
  · subst h1; rw [if_pos rfl, if_neg (Ne.symm h2), if_neg (Ne.symm h2), if_pos rfl]; dsimp only; rw [upd_ne _ _ h2, upd_same, add_zero, add_zero]
  · rw [if_neg (Ne.symm h2), if_neg (Ne.symm h1), if_neg (Ne.symm h2), if_neg (Ne.symm h1)]; dsimp only
    rw [upd_ne _ _ h2, upd_ne _ _ h1, add_zero, add_zero, add_zero]

theorem turn_eq (c : Two K) (A1 A2 : V3 K) (V : Nat → Vel K) : turn c A1 A2 V = kick c 0 A1 0 A2 V := by
  have z : ∀ (k a : V3 K), a + V3.had k 0 = a := fun k a => by ext <;> simp [V3.had]
  unfold turn kick
  simp only [z]

theorem shove_eq (c : Two K) (P1 P2 : V3 K) (V : Nat → Vel K) : shove c P1 P2 V = kick c P1 0 P2 0 V := by
  have z : ∀ (k a : V3 K) (I : M3 K), a + V3.had k (I.act 0) = a := fun k a I => by ext <;> simp [V3.had, M3.act]
  unfold shove kick
  simp only [z]

/-- The velocities have changed by the effect of the impulses that were added. -/
def Acc (c : Two K) (V : Nat → Vel K) (l : Load K) (W : Nat → Vel K) (m : Load K) : Prop :=
  ∀ b, W b = ⟨(V b).v + (linK c m b - linK c l b), (V b).w + (angK c m b - angK c l b), (V b).vs, (V b).ws⟩

theorem Acc.refl (c : Two K) (V : Nat → Vel K) (l : Load K) : Acc c V l V l := fun b => by
  rw [sub_self, sub_self, add_zero, add_zero]

theorem Acc.trans {c : Two K} {V W U : Nat → Vel K} {l m n : Load K} (h : Acc c V l W m) (g : Acc c W m U n) : Acc c V l U n := fun b => by
  rw [g b, h b]
  ext : 1
  · dsimp only; abel
  · dsimp only; abel
  · rfl
  · rfl

theorem Acc.of_kick {c : Two K} (V : Nat → Vel K) (l : Load K) {P1 A1 P2 A2 : V3 K} {m : Load K} (h : m = l.add ⟨P1, A1, P2, A2⟩) :
    Acc c V l (kick c P1 A1 P2 A2 V) m := fun b => by
  rw [kick_eq, h, linK_add, angK_add, add_sub_cancel_left, add_sub_cancel_left]

/-! ### The impulses of a joint -/

def Ball.load (J : Ball K) : Load K :=
  ⟨-J.imp, V3.cross J.imp J.r1 + V3.smul J.coneImp J.axb, J.imp, -(V3.cross J.imp J.r2) + -(V3.smul J.coneImp J.axb)⟩

def Fixed.load (J : Fixed K) : Load K :=
  ⟨-J.imp, V3.cross J.imp J.r1 + -J.impR, J.imp, -(V3.cross J.imp J.r2) + J.impR⟩

def Hinge.load (J : Hinge K) : Load K :=
  ⟨-J.imp, V3.cross J.imp J.r1 + J.swing J.impR + V3.smul (J.impU - J.impL) J.ax + V3.smul (-J.impM) J.ax, J.imp,
   -(V3.cross J.imp J.r2) + -J.swing J.impR + -V3.smul (J.impU - J.impL) J.ax + -V3.smul (-J.impM) J.ax⟩

def Slider.load (J : Slider K) : Load K :=
  ⟨V3.smul J.imp.x (-J.n1) - V3.smul J.imp.y J.n2 + V3.smul (J.impU - J.impL) J.ax + V3.smul J.impM J.ax,
   V3.smul J.imp.x (-J.c1) - V3.smul J.imp.y J.c2 + -J.impR + V3.smul (J.impU - J.impL) J.cx,
   V3.smul J.imp.x J.n1 + V3.smul J.imp.y J.n2 + -V3.smul (J.impU - J.impL) J.ax + -V3.smul J.impM J.ax,
   V3.smul J.imp.x J.e1 + V3.smul J.imp.y J.e2 + J.impR + V3.smul (-(J.impU - J.impL)) J.ex⟩

def Joint.load : Joint K → Load K
  | .ball J => J.load
  | .fixed J => J.load
  | .hinge J => J.load
  | .slider J => J.load

/-- Everything but the impulses is the same. -/
def Ball.Same (J N : Ball K) : Prop := N = { J with imp := N.imp, coneImp := N.coneImp }
def Fixed.Same (J N : Fixed K) : Prop := N = { J with imp := N.imp, impR := N.impR }
def Hinge.Same (J N : Hinge K) : Prop := N = { J with imp := N.imp, impR := N.impR, impL := N.impL, impU := N.impU, impM := N.impM }
def Slider.Same (J N : Slider K) : Prop := N = { J with imp := N.imp, impR := N.impR, impL := N.impL, impU := N.impU, impM := N.impM }

def Joint.Same : Joint K → Joint K → Prop
  | .ball J, .ball N => J.Same N
  | .fixed J, .fixed N => J.Same N
  | .hinge J, .hinge N => J.Same N
  | .slider J, .slider N => J.Same N
  | _, _ => False

theorem Ball.Same.trans {J N M : Ball K} (h : J.Same N) (g : N.Same M) : J.Same M := by
  unfold Ball.Same at *; rw [g, h]
theorem Fixed.Same.trans {J N M : Fixed K} (h : J.Same N) (g : N.Same M) : J.Same M := by
  unfold Fixed.Same at *; rw [g, h]
theorem Hinge.Same.trans {J N M : Hinge K} (h : J.Same N) (g : N.Same M) : J.Same M := by
  unfold Hinge.Same at *; rw [g, h]
theorem Slider.Same.trans {J N M : Slider K} (h : J.Same N) (g : N.Same M) : J.Same M := by
  unfold Slider.Same at *; rw [g, h]

/-! ### Each part -/

theorem Ball.limit_ok (body : Nat → JBody K) (J : Ball K) (V : Nat → Vel K) :
    J.Same (J.limit body V).2 ∧ Acc (two body J.b1 J.b2) V J.load (J.limit body V).1 (J.limit body V).2.load := by
  unfold Ball.limit
  split_ifs
  · refine ⟨rfl, ?_⟩
    dsimp only
    rw [turn_eq]
    refine Acc.of_kick V _ ?_
    unfold Ball.load Load.add
    ext <;> simp <;> ring
  · exact ⟨rfl, Acc.refl _ _ _⟩
  · exact ⟨rfl, Acc.refl _ _ _⟩

theorem Ball.joint_ok (body : Nat → JBody K) (J : Ball K) (V : Nat → Vel K) :
    J.Same (J.joint body V).2 ∧ Acc (two body J.b1 J.b2) V J.load (J.joint body V).1 (J.joint body V).2.load := by
  refine ⟨rfl, ?_⟩
  unfold Ball.joint
  dsimp only
  generalize J.k.act (-(rel (V J.b1) (V J.b2) J.r1 J.r2) - J.bias) = d
  unfold pin
  refine Acc.of_kick V _ ?_
  unfold Ball.load Load.add
  ext <;> simp [V3.cross] <;> ring

theorem Ball.solve_ok (body : Nat → JBody K) (J : Ball K) (V : Nat → Vel K) :
    J.Same (J.solve body V).2 ∧ Acc (two body J.b1 J.b2) V J.load (J.solve body V).1 (J.solve body V).2.load := by
  have h := J.limit_ok body V
  have g := (J.limit body V).2.joint_ok body (J.limit body V).1
  have e1 : (J.limit body V).2.b1 = J.b1 := by rw [h.1]
  have e2 : (J.limit body V).2.b2 = J.b2 := by rw [h.1]
  rw [e1, e2] at g
  exact ⟨h.1.trans g.1, h.2.trans g.2⟩

theorem Fixed.joint_ok (body : Nat → JBody K) (J : Fixed K) (V : Nat → Vel K) :
    J.Same (J.joint body V).2 ∧ Acc (two body J.b1 J.b2) V J.load (J.joint body V).1 (J.joint body V).2.load := by
  refine ⟨rfl, ?_⟩
  unfold Fixed.joint
  dsimp only
  generalize J.k.act (-(rel (V J.b1) (V J.b2) J.r1 J.r2) - J.bias) = d
  unfold pin
  refine Acc.of_kick V _ ?_
  unfold Fixed.load Load.add
  ext <;> simp [V3.cross] <;> ring

theorem Fixed.rotation_ok (body : Nat → JBody K) (J : Fixed K) (V : Nat → Vel K) :
    J.Same (J.rotation body V).2 ∧ Acc (two body J.b1 J.b2) V J.load (J.rotation body V).1 (J.rotation body V).2.load := by
  refine ⟨rfl, ?_⟩
  unfold Fixed.rotation
  dsimp only
  generalize J.kr.act (-((V J.b2).w - (V J.b1).w) - J.biasR) = d
  rw [turn_eq]
  refine Acc.of_kick V _ ?_
  unfold Fixed.load Load.add
  ext <;> simp <;> ring

theorem Fixed.solve_ok (body : Nat → JBody K) (J : Fixed K) (V : Nat → Vel K) :
    J.Same (J.solve body V).2 ∧ Acc (two body J.b1 J.b2) V J.load (J.solve body V).1 (J.solve body V).2.load := by
  have h := J.joint_ok body V
  have g := (J.joint body V).2.rotation_ok body (J.joint body V).1
  exact ⟨h.1.trans g.1, h.2.trans g.2⟩

theorem Hinge.limitL_ok (body : Nat → JBody K) (J : Hinge K) (V : Nat → Vel K) :
    J.Same (J.limitL body V).2 ∧ Acc (two body J.b1 J.b2) V J.load (J.limitL body V).1 (J.limitL body V).2.load := by
  unfold Hinge.limitL
  split_ifs
  · refine ⟨rfl, ?_⟩
    dsimp only
    rw [turn_eq]
    refine Acc.of_kick V _ ?_
    unfold Hinge.load Load.add Hinge.swing
    ext <;> simp <;> ring
  · exact ⟨rfl, Acc.refl _ _ _⟩

theorem Hinge.limitU_ok (body : Nat → JBody K) (J : Hinge K) (V : Nat → Vel K) :
    J.Same (J.limitU body V).2 ∧ Acc (two body J.b1 J.b2) V J.load (J.limitU body V).1 (J.limitU body V).2.load := by
  unfold Hinge.limitU
  split_ifs
  · refine ⟨rfl, ?_⟩
    dsimp only
    rw [turn_eq]
    refine Acc.of_kick V _ ?_
    unfold Hinge.load Load.add Hinge.swing
    ext <;> simp <;> ring
  · exact ⟨rfl, Acc.refl _ _ _⟩

theorem Hinge.motor_ok (cfg : JCfg K) (body : Nat → JBody K) (J : Hinge K) (V : Nat → Vel K) :
    J.Same (J.motor cfg body V).2 ∧ Acc (two body J.b1 J.b2) V J.load (J.motor cfg body V).1 (J.motor cfg body V).2.load := by
  unfold Hinge.motor
  split_ifs
  · refine ⟨rfl, ?_⟩
    dsimp only
    generalize min (Max.max (J.impM + J.km * (-V3.dot J.ax ((V J.b1).w - (V J.b2).w) - J.speed)) (-(J.max * cfg.dt))) (J.max * cfg.dt) = n
    rw [turn_eq]
    refine Acc.of_kick V _ ?_
    unfold Hinge.load Load.add Hinge.swing
    ext <;> simp <;> ring
  · exact ⟨rfl, Acc.refl _ _ _⟩

theorem Hinge.rotation_ok (body : Nat → JBody K) (J : Hinge K) (V : Nat → Vel K) :
    J.Same (J.rotation body V).2 ∧ Acc (two body J.b1 J.b2) V J.load (J.rotation body V).1 (J.rotation body V).2.load := by
  refine ⟨rfl, ?_⟩
  unfold Hinge.rotation
  dsimp only
  generalize J.kr.act _ = d
  rw [turn_eq]
  refine Acc.of_kick V _ ?_
  unfold Hinge.load Load.add Hinge.swing Hinge.swing'
  ext <;> simp <;> ring

theorem Hinge.joint_ok (body : Nat → JBody K) (J : Hinge K) (V : Nat → Vel K) :
    J.Same (J.joint body V).2 ∧ Acc (two body J.b1 J.b2) V J.load (J.joint body V).1 (J.joint body V).2.load := by
  refine ⟨rfl, ?_⟩
  unfold Hinge.joint
  dsimp only
  generalize J.k.act (-(rel (V J.b1) (V J.b2) J.r1 J.r2) - J.bias) = d
  unfold pin
  refine Acc.of_kick V _ ?_
  unfold Hinge.load Load.add Hinge.swing
  ext <;> simp [V3.cross] <;> ring

theorem Hinge.Same.bodies {J N : Hinge K} (h : J.Same N) : N.b1 = J.b1 ∧ N.b2 = J.b2 := by
  constructor <;> rw [h]

theorem Slider.Same.bodies {J N : Slider K} (h : J.Same N) : N.b1 = J.b1 ∧ N.b2 = J.b2 := by
  constructor <;> rw [h]

theorem Hinge.next {body : Nat → JBody K} {J N M : Hinge K} {V W U : Nat → Vel K}
    (h : J.Same N ∧ Acc (two body J.b1 J.b2) V J.load W N.load) (g : N.Same M ∧ Acc (two body N.b1 N.b2) W N.load U M.load) :
    J.Same M ∧ Acc (two body J.b1 J.b2) V J.load U M.load := by
  rw [h.1.bodies.1, h.1.bodies.2] at g
  exact ⟨h.1.trans g.1, h.2.trans g.2⟩

theorem Slider.next {body : Nat → JBody K} {J N M : Slider K} {V W U : Nat → Vel K}
    (h : J.Same N ∧ Acc (two body J.b1 J.b2) V J.load W N.load) (g : N.Same M ∧ Acc (two body N.b1 N.b2) W N.load U M.load) :
    J.Same M ∧ Acc (two body J.b1 J.b2) V J.load U M.load := by
  rw [h.1.bodies.1, h.1.bodies.2] at g
  exact ⟨h.1.trans g.1, h.2.trans g.2⟩

theorem Hinge.solve_ok (cfg : JCfg K) (body : Nat → JBody K) (J : Hinge K) (V : Nat → Vel K) :
    J.Same (J.solve cfg body V).2 ∧ Acc (two body J.b1 J.b2) V J.load (J.solve cfg body V).1 (J.solve cfg body V).2.load :=
  Hinge.next (Hinge.next (Hinge.next (Hinge.next (J.limitL_ok body V) (Hinge.limitU_ok body _ _)) (Hinge.motor_ok cfg body _ _))
    (Hinge.rotation_ok body _ _)) (Hinge.joint_ok body _ _)

theorem Slider.limitL_ok (body : Nat → JBody K) (J : Slider K) (V : Nat → Vel K) :
    J.Same (J.limitL body V).2 ∧ Acc (two body J.b1 J.b2) V J.load (J.limitL body V).1 (J.limitL body V).2.load := by
  unfold Slider.limitL
  split_ifs
  · refine ⟨rfl, ?_⟩
    dsimp only
    refine Acc.of_kick V _ ?_
    unfold Slider.load Load.add
    ext <;> simp <;> ring
  · exact ⟨rfl, Acc.refl _ _ _⟩

theorem Slider.limitU_ok (body : Nat → JBody K) (J : Slider K) (V : Nat → Vel K) :
    J.Same (J.limitU body V).2 ∧ Acc (two body J.b1 J.b2) V J.load (J.limitU body V).1 (J.limitU body V).2.load := by
  unfold Slider.limitU
  split_ifs
  · refine ⟨rfl, ?_⟩
    dsimp only
    refine Acc.of_kick V _ ?_
    unfold Slider.load Load.add
    ext <;> simp <;> ring
  · exact ⟨rfl, Acc.refl _ _ _⟩

theorem Slider.motor_ok (cfg : JCfg K) (body : Nat → JBody K) (J : Slider K) (V : Nat → Vel K) :
    J.Same (J.motor cfg body V).2 ∧ Acc (two body J.b1 J.b2) V J.load (J.motor cfg body V).1 (J.motor cfg body V).2.load := by
  unfold Slider.motor
  split_ifs
  · refine ⟨rfl, ?_⟩
    dsimp only
    generalize min (Max.max (J.impM + J.km * (-(V3.dot J.ax (V J.b1).v - V3.dot J.ax (V J.b2).v) - J.speed)) (-(J.max * cfg.dt))) (J.max * cfg.dt) = n
    rw [shove_eq]
    refine Acc.of_kick V _ ?_
    unfold Slider.load Load.add
    ext <;> simp <;> ring
  · exact ⟨rfl, Acc.refl _ _ _⟩

theorem Slider.rotation_ok (body : Nat → JBody K) (J : Slider K) (V : Nat → Vel K) :
    J.Same (J.rotation body V).2 ∧ Acc (two body J.b1 J.b2) V J.load (J.rotation body V).1 (J.rotation body V).2.load := by
  refine ⟨rfl, ?_⟩
  unfold Slider.rotation
  dsimp only
  generalize J.kr.act (-((V J.b2).w - (V J.b1).w) - J.biasR) = d
  rw [turn_eq]
  refine Acc.of_kick V _ ?_
  unfold Slider.load Load.add
  ext <;> simp <;> ring

theorem Slider.joint_ok (body : Nat → JBody K) (J : Slider K) (V : Nat → Vel K) :
    J.Same (J.joint body V).2 ∧ Acc (two body J.b1 J.b2) V J.load (J.joint body V).1 (J.joint body V).2.load := by
  refine ⟨rfl, ?_⟩
  unfold Slider.joint
  dsimp only
  generalize J.k.act _ = d
  refine Acc.of_kick V _ ?_
  unfold Slider.load Load.add
  ext <;> simp <;> ring

theorem Slider.solve_ok (cfg : JCfg K) (body : Nat → JBody K) (J : Slider K) (V : Nat → Vel K) :
    J.Same (J.solve cfg body V).2 ∧ Acc (two body J.b1 J.b2) V J.load (J.solve cfg body V).1 (J.solve cfg body V).2.load :=
  Slider.next (Slider.next (Slider.next (Slider.next (J.limitL_ok body V) (Slider.limitU_ok body _ _)) (Slider.motor_ok cfg body _ _))
    (Slider.rotation_ok body _ _)) (Slider.joint_ok body _ _)

/-! ### All joints -/

theorem Joint.solve_ok (cfg : JCfg K) (body : Nat → JBody K) (J : Joint K) (V : Nat → Vel K) :
    J.Same (J.solve cfg body V).2 ∧ Acc (two body J.b1 J.b2) V J.load (J.solve cfg body V).1 (J.solve cfg body V).2.load := by
  cases J with
  | ball J => exact J.solve_ok body V
  | fixed J => exact J.solve_ok body V
  | hinge J => exact J.solve_ok cfg body V
  | slider J => exact J.solve_ok cfg body V

theorem Joint.warm_eq (body : Nat → JBody K) (J : Joint K) (V : Nat → Vel K) (b : Nat) : J.warm body V b =
    ⟨(V b).v + linK (two body J.b1 J.b2) J.load b, (V b).w + angK (two body J.b1 J.b2) J.load b, (V b).vs, (V b).ws⟩ := by
  cases J with
  | ball J => exact kick_eq _ _ _ _ _ _ _
  | fixed J => exact kick_eq _ _ _ _ _ _ _
  | hinge J => exact kick_eq _ _ _ _ _ _ _
  | slider J => exact kick_eq _ _ _ _ _ _ _

theorem Joint.Same.bodies {J N : Joint K} (h : J.Same N) : N.b1 = J.b1 ∧ N.b2 = J.b2 := by
  cases J <;> cases N <;> first | exact h.elim | skip
  · rename_i J N; change N.b1 = J.b1 ∧ N.b2 = J.b2; rw [show N = _ from h]; exact ⟨rfl, rfl⟩
  · rename_i J N; change N.b1 = J.b1 ∧ N.b2 = J.b2; rw [show N = _ from h]; exact ⟨rfl, rfl⟩
  · rename_i J N; change N.b1 = J.b1 ∧ N.b2 = J.b2; rw [show N = _ from h]; exact ⟨rfl, rfl⟩
  · rename_i J N; change N.b1 = J.b1 ∧ N.b2 = J.b2; rw [show N = _ from h]; exact ⟨rfl, rfl⟩

theorem Joint.Same.trans {J N M : Joint K} (h : J.Same N) (g : N.Same M) : J.Same M := by
  cases J <;> cases N <;> first | exact h.elim | skip
  all_goals cases M <;> first | exact g.elim | skip
  · exact Ball.Same.trans h g
  · exact Fixed.Same.trans h g
  · exact Hinge.Same.trans h g
  · exact Slider.Same.trans h g

/-- What the impulses of a list of joints do to the velocities of a body. -/
def linJ (body : Nat → JBody K) (b : Nat) : List (Joint K) → V3 K
  | [] => 0
  | J :: Js => linK (two body J.b1 J.b2) J.load b + linJ body b Js

def angJ (body : Nat → JBody K) (b : Nat) : List (Joint K) → V3 K
  | [] => 0
  | J :: Js => angK (two body J.b1 J.b2) J.load b + angJ body b Js

theorem solveAll_ok (cfg : JCfg K) (body : Nat → JBody K) : ∀ (V : Nat → Vel K) (Js : List (Joint K)),
    List.Forall₂ Joint.Same Js (solveAll cfg body V Js).2 ∧ ∀ b, (solveAll cfg body V Js).1 b =
      ⟨(V b).v + (linJ body b (solveAll cfg body V Js).2 - linJ body b Js), (V b).w + (angJ body b (solveAll cfg body V Js).2 - angJ body b Js),
        (V b).vs, (V b).ws⟩
  | V, [] => ⟨List.Forall₂.nil, fun b => by simp only [solveAll, linJ, angJ, sub_self, add_zero]⟩
  | V, J :: Js => by
    obtain ⟨h1, h2⟩ := J.solve_ok cfg body V
    obtain ⟨g1, g2⟩ := solveAll_ok cfg body (J.solve cfg body V).1 Js
    refine ⟨List.Forall₂.cons h1 g1, fun b => ?_⟩
    simp only [solveAll, linJ, angJ]
    rw [g2 b, h2 b, h1.bodies.1, h1.bodies.2]
    ext : 1
    · dsimp only; abel
    · dsimp only; abel
    · rfl
    · rfl

theorem warmAll_ok (cfg : JCfg K) (body : Nat → JBody K) (hw : cfg.warm = true) (Js : List (Joint K)) (V : Nat → Vel K) (b : Nat) :
    warmAll cfg body Js V b = ⟨(V b).v + linJ body b Js, (V b).w + angJ body b Js, (V b).vs, (V b).ws⟩ := by
  unfold warmAll
  rw [if_pos hw]
  induction Js generalizing V with
  | nil => simp only [List.foldl_nil, linJ, angJ, add_zero]
  | cons J Js ih =>
    rw [List.foldl_cons, ih, Joint.warm_eq]
    simp only [linJ, angJ]
    ext : 1
    · dsimp only; abel
    · dsimp only; abel
    · rfl
    · rfl

end Joints
end RP3D
