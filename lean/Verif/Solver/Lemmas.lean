import Verif.Solver.Contact
import Mathlib.Tactic.Abel
import Mathlib.Algebra.BigOperators.Group.Finset.Basic

/-! Lemmas for the contact solver: every step adds to the velocities the effect of the impulses it adds. -/

namespace RP3D
namespace Solver
variable {K : Type} [Field K]

instance : AddCommGroup (V3 K) where
  add_assoc a b c := by ext <;> simp [add_assoc]
  zero_add a := by ext <;> simp
  add_zero a := by ext <;> simp
  nsmul := nsmulRec
  zsmul := zsmulRec
  neg_add_cancel a := by ext <;> simp
  add_comm a b := by ext <;> simp [add_comm]
  sub_eq_add_neg a b := by ext <;> simp [sub_eq_add_neg]

theorem smul_add' (k l : K) (a : V3 K) : V3.smul (k + l) a = V3.smul k a + V3.smul l a := by ext <;> simp [add_mul]
theorem smul_sub' (k l : K) (a : V3 K) : V3.smul (k - l) a = V3.smul k a - V3.smul l a := by ext <;> simp [sub_mul]
theorem zero_smul' (a : V3 K) : V3.smul 0 a = 0 := by ext <;> simp

/-- What an impulse `P` does to the linear velocity of body `b`: `-P` acts on the first body of the manifold, `P` on the second. -/
def linOf (M : Man K) (b : Nat) (P : V3 K) : V3 K :=
  (if M.b2 = b then V3.had (V3.smul M.m2 P) M.ll2 else 0) - (if M.b1 = b then V3.had (V3.smul M.m1 P) M.ll1 else 0)

theorem linOf_add (M : Man K) (b : Nat) (P Q : V3 K) : linOf M b (P + Q) = linOf M b P + linOf M b Q := by
  unfold linOf
  split_ifs <;> ext <;> simp [V3.had] <;> ring

theorem linOf_sub (M : Man K) (b : Nat) (P Q : V3 K) : linOf M b (P - Q) = linOf M b P - linOf M b Q := by
  unfold linOf
  split_ifs <;> ext <;> simp [V3.had] <;> ring

theorem linOf_zero (M : Man K) (b : Nat) : linOf M b 0 = 0 := by
  unfold linOf
  split_ifs <;> ext <;> simp [V3.had]

/-- What the angular impulses `-A1` on the first and `A2` on the second body do to the angular velocity of body `b`. -/
def angOf (M : Man K) (b : Nat) (A1 A2 : V3 K) : V3 K :=
  (if M.b2 = b then V3.had M.la2 (M.I2.act A2) else 0) - (if M.b1 = b then V3.had M.la1 (M.I1.act A1) else 0)

theorem angOf_add (M : Man K) (b : Nat) (A B A' B' : V3 K) : angOf M b (A + A') (B + B') = angOf M b A B + angOf M b A' B' := by
  unfold angOf M3.act
  split_ifs <;> ext <;> simp [V3.had] <;> ring

theorem angOf_sub (M : Man K) (b : Nat) (A B A' B' : V3 K) : angOf M b (A - A') (B - B') = angOf M b A B - angOf M b A' B' := by
  unfold angOf M3.act
  split_ifs <;> ext <;> simp [V3.had] <;> ring

theorem angOf_zero (M : Man K) (b : Nat) : angOf M b 0 0 = 0 := by
  unfold angOf M3.act
  split_ifs <;> ext <;> simp [V3.had]

/-- The cross products stored with a point belong to its geometry (initializeForIsland, ContactSolverSystem.cpp:227-228). -/
def Good (M : Man K) (p : CPoint K) : Prop :=
  p.i1 = M.I1.act (V3.cross p.r1 p.normal) ∧ p.i2 = M.I2.act (V3.cross p.r2 p.normal)

/-! ### The four changes of velocities -/

theorem push_v (M : Man K) (p : CPoint K) (d : K) (V : Nat → Vel K) (b : Nat) :
    (push M p d V b).v = (V b).v + linOf M b (V3.smul d p.normal) := by
  unfold push linOf
  by_cases h2 : b = M.b2 <;> by_cases h1 : b = M.b1
  · subst h2; rw [if_pos rfl, if_pos h1.symm]; dsimp only; rw [upd_same, ← h1, upd_same]; dsimp only; abel
  · subst h2; rw [if_pos rfl, if_neg (Ne.symm h1)]; dsimp only; rw [upd_same, upd_ne _ _ h1]; abel
  · rw [if_neg (Ne.symm h2), if_pos h1.symm]; dsimp only; rw [upd_ne _ _ h2, h1, upd_same]; dsimp only; abel
  · rw [if_neg (Ne.symm h2), if_neg (Ne.symm h1)]; dsimp only; rw [upd_ne _ _ h2, upd_ne _ _ h1]; abel

theorem push_w (M : Man K) (p : CPoint K) (hg : Good M p) (d : K) (V : Nat → Vel K) (b : Nat) :
    (push M p d V b).w = (V b).w + angOf M b (V3.smul d (V3.cross p.r1 p.normal)) (V3.smul d (V3.cross p.r2 p.normal)) := by
  have e1 : V3.smul d (V3.had p.i1 M.la1) = V3.had M.la1 (M.I1.act (V3.smul d (V3.cross p.r1 p.normal))) := by
    rw [hg.1]; ext <;> simp [V3.had, M3.act] <;> ring
  have e2 : V3.smul d (V3.had p.i2 M.la2) = V3.had M.la2 (M.I2.act (V3.smul d (V3.cross p.r2 p.normal))) := by
    rw [hg.2]; ext <;> simp [V3.had, M3.act] <;> ring
  unfold push angOf
  rw [e1, e2]
  by_cases h2 : b = M.b2 <;> by_cases h1 : b = M.b1
  · subst h2; rw [if_pos rfl, if_pos h1.symm]; dsimp only; rw [upd_same, ← h1, upd_same]; dsimp only; abel
  · subst h2; rw [if_pos rfl, if_neg (Ne.symm h1)]; dsimp only; rw [upd_same, upd_ne _ _ h1]; abel
  · rw [if_neg (Ne.symm h2), if_pos h1.symm]; dsimp only; rw [upd_ne _ _ h2, h1, upd_same]; dsimp only; abel
  · rw [if_neg (Ne.symm h2), if_neg (Ne.symm h1)]; dsimp only; rw [upd_ne _ _ h2, upd_ne _ _ h1]; abel

theorem push_split (M : Man K) (p : CPoint K) (d : K) (V : Nat → Vel K) (b : Nat) :
    (push M p d V b).vs = (V b).vs ∧ (push M p d V b).ws = (V b).ws := by
  unfold push
  dsimp only
  by_cases h2 : b = M.b2 <;> by_cases h1 : b = M.b1
  · subst h2; rw [upd_same, ← h1, upd_same]; exact ⟨rfl, rfl⟩
  · subst h2; rw [upd_same, upd_ne _ _ h1]; exact ⟨rfl, rfl⟩
  · rw [upd_ne _ _ h2, h1, upd_same]; exact ⟨rfl, rfl⟩
  · rw [upd_ne _ _ h2, upd_ne _ _ h1]; exact ⟨rfl, rfl⟩

theorem pushSplit_same (M : Man K) (p : CPoint K) (d : K) (V : Nat → Vel K) (b : Nat) :
    (pushSplit M p d V b).v = (V b).v ∧ (pushSplit M p d V b).w = (V b).w := by
  unfold pushSplit
  dsimp only
  by_cases h2 : b = M.b2 <;> by_cases h1 : b = M.b1
  · subst h2; rw [upd_same, ← h1, upd_same]; exact ⟨rfl, rfl⟩
  · subst h2; rw [upd_same, upd_ne _ _ h1]; exact ⟨rfl, rfl⟩
  · rw [upd_ne _ _ h2, h1, upd_same]; exact ⟨rfl, rfl⟩
  · rw [upd_ne _ _ h2, upd_ne _ _ h1]; exact ⟨rfl, rfl⟩

theorem pushSplit_vs (M : Man K) (p : CPoint K) (d : K) (V : Nat → Vel K) (b : Nat) :
    (pushSplit M p d V b).vs = (V b).vs + linOf M b (V3.smul d p.normal) := by
  unfold pushSplit linOf
  by_cases h2 : b = M.b2 <;> by_cases h1 : b = M.b1
  · subst h2; rw [if_pos rfl, if_pos h1.symm]; dsimp only; rw [upd_same, ← h1, upd_same]; dsimp only; abel
  · subst h2; rw [if_pos rfl, if_neg (Ne.symm h1)]; dsimp only; rw [upd_same, upd_ne _ _ h1]; abel
  · rw [if_neg (Ne.symm h2), if_pos h1.symm]; dsimp only; rw [upd_ne _ _ h2, h1, upd_same]; dsimp only; abel
  · rw [if_neg (Ne.symm h2), if_neg (Ne.symm h1)]; dsimp only; rw [upd_ne _ _ h2, upd_ne _ _ h1]; abel

theorem pushSplit_ws (M : Man K) (p : CPoint K) (hg : Good M p) (d : K) (V : Nat → Vel K) (b : Nat) :
    (pushSplit M p d V b).ws = (V b).ws + angOf M b (V3.smul d (V3.cross p.r1 p.normal)) (V3.smul d (V3.cross p.r2 p.normal)) := by
  have e1 : V3.smul d (V3.had p.i1 M.la1) = V3.had M.la1 (M.I1.act (V3.smul d (V3.cross p.r1 p.normal))) := by
    rw [hg.1]; ext <;> simp [V3.had, M3.act] <;> ring
  have e2 : V3.smul d (V3.had p.i2 M.la2) = V3.had M.la2 (M.I2.act (V3.smul d (V3.cross p.r2 p.normal))) := by
    rw [hg.2]; ext <;> simp [V3.had, M3.act] <;> ring
  unfold pushSplit angOf
  rw [e1, e2]
  by_cases h2 : b = M.b2 <;> by_cases h1 : b = M.b1
  · subst h2; rw [if_pos rfl, if_pos h1.symm]; dsimp only; rw [upd_same, ← h1, upd_same]; dsimp only; abel
  · subst h2; rw [if_pos rfl, if_neg (Ne.symm h1)]; dsimp only; rw [upd_same, upd_ne _ _ h1]; abel
  · rw [if_neg (Ne.symm h2), if_pos h1.symm]; dsimp only; rw [upd_ne _ _ h2, h1, upd_same]; dsimp only; abel
  · rw [if_neg (Ne.symm h2), if_neg (Ne.symm h1)]; dsimp only; rw [upd_ne _ _ h2, upd_ne _ _ h1]; abel

theorem rub_v (M : Man K) (t c1 c2 : V3 K) (d : K) (V : Nat → Vel K) (b : Nat) : (rub M t c1 c2 d V b).v = (V b).v + linOf M b (V3.smul d t) := by
  unfold rub linOf
  by_cases h2 : b = M.b2 <;> by_cases h1 : b = M.b1
  · subst h2; rw [if_pos rfl, if_pos h1.symm]; dsimp only; rw [upd_same, ← h1, upd_same]; dsimp only; abel
  · subst h2; rw [if_pos rfl, if_neg (Ne.symm h1)]; dsimp only; rw [upd_same, upd_ne _ _ h1]; abel
  · rw [if_neg (Ne.symm h2), if_pos h1.symm]; dsimp only; rw [upd_ne _ _ h2, h1, upd_same]; dsimp only; abel
  · rw [if_neg (Ne.symm h2), if_neg (Ne.symm h1)]; dsimp only; rw [upd_ne _ _ h2, upd_ne _ _ h1]; abel

theorem act_neg (M : M3 K) (l : V3 K) (d : K) (c : V3 K) : V3.had l (M.act (V3.smul d (-c))) = -V3.had l (M.act (V3.smul d c)) := by
  ext <;> simp [V3.had, M3.act] <;> ring

theorem rub_w (M : Man K) (t c1 c2 : V3 K) (d : K) (V : Nat → Vel K) (b : Nat) :
    (rub M t c1 c2 d V b).w = (V b).w + angOf M b (V3.smul d c1) (V3.smul d c2) := by
  unfold rub angOf
  rw [act_neg]
  by_cases h2 : b = M.b2 <;> by_cases h1 : b = M.b1
  · subst h2; rw [if_pos rfl, if_pos h1.symm]; dsimp only; rw [upd_same, ← h1, upd_same]; dsimp only; abel
  · subst h2; rw [if_pos rfl, if_neg (Ne.symm h1)]; dsimp only; rw [upd_same, upd_ne _ _ h1]; abel
  · rw [if_neg (Ne.symm h2), if_pos h1.symm]; dsimp only; rw [upd_ne _ _ h2, h1, upd_same]; dsimp only; abel
  · rw [if_neg (Ne.symm h2), if_neg (Ne.symm h1)]; dsimp only; rw [upd_ne _ _ h2, upd_ne _ _ h1]; abel

theorem rub_split (M : Man K) (t c1 c2 : V3 K) (d : K) (V : Nat → Vel K) (b : Nat) :
    (rub M t c1 c2 d V b).vs = (V b).vs ∧ (rub M t c1 c2 d V b).ws = (V b).ws := by
  unfold rub
  dsimp only
  by_cases h2 : b = M.b2 <;> by_cases h1 : b = M.b1
  · subst h2; rw [upd_same, ← h1, upd_same]; exact ⟨rfl, rfl⟩
  · subst h2; rw [upd_same, upd_ne _ _ h1]; exact ⟨rfl, rfl⟩
  · rw [upd_ne _ _ h2, h1, upd_same]; exact ⟨rfl, rfl⟩
  · rw [upd_ne _ _ h2, upd_ne _ _ h1]; exact ⟨rfl, rfl⟩

theorem twist_same (M : Man K) (d : K) (V : Nat → Vel K) (b : Nat) :
    (twist M d V b).v = (V b).v ∧ (twist M d V b).vs = (V b).vs ∧ (twist M d V b).ws = (V b).ws := by
  unfold twist
  dsimp only
  by_cases h2 : b = M.b2 <;> by_cases h1 : b = M.b1
  · subst h2; rw [upd_same, ← h1, upd_same]; exact ⟨rfl, rfl, rfl⟩
  · subst h2; rw [upd_same, upd_ne _ _ h1]; exact ⟨rfl, rfl, rfl⟩
  · rw [upd_ne _ _ h2, h1, upd_same]; exact ⟨rfl, rfl, rfl⟩
  · rw [upd_ne _ _ h2, upd_ne _ _ h1]; exact ⟨rfl, rfl, rfl⟩

theorem twist_w (M : Man K) (d : K) (V : Nat → Vel K) (b : Nat) :
    (twist M d V b).w = (V b).w + angOf M b (V3.smul d M.normal) (V3.smul d M.normal) := by
  unfold twist angOf
  by_cases h2 : b = M.b2 <;> by_cases h1 : b = M.b1
  · subst h2; rw [if_pos rfl, if_pos h1.symm]; dsimp only; rw [upd_same, ← h1, upd_same]; dsimp only; abel
  · subst h2; rw [if_pos rfl, if_neg (Ne.symm h1)]; dsimp only; rw [upd_same, upd_ne _ _ h1]; abel
  · rw [if_neg (Ne.symm h2), if_pos h1.symm]; dsimp only; rw [upd_ne _ _ h2, h1, upd_same]; dsimp only; abel
  · rw [if_neg (Ne.symm h2), if_neg (Ne.symm h1)]; dsimp only; rw [upd_ne _ _ h2, upd_ne _ _ h1]; abel

/-- The warm start applies the twist impulse twice. -/
theorem twistWarm_eq (M : Man K) (d : K) (V : Nat → Vel K) : twistWarm M d V = twist M d (twist M d V) := by
  unfold twistWarm twist
  rw [act_neg]
  dsimp only
  rw [← sub_eq_add_neg]

end Solver
end RP3D
