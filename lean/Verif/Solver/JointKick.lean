import Verif.Solver.JointLemmas
import Verif.Props.Transform

/-! What the impulses of a joint do to the velocities its constraints speak of. -/

set_option linter.unusedSectionVars false

namespace RP3D
namespace Joints
open Solver
variable {K : Type} [Field K] [LinearOrder K]

/-- A body without locked axes. -/
def Unlocked (B : JBody K) : Prop := B.ll = ⟨1, 1, 1⟩ ∧ B.la = ⟨1, 1, 1⟩

theorem kick_free {body : Nat → JBody K} {b1 b2 : Nat} (hb : b1 ≠ b2) (h1 : Unlocked (body b1)) (h2 : Unlocked (body b2)) (P1 A1 P2 A2 : V3 K)
    (V : Nat → Vel K) :
    kick (two body b1 b2) P1 A1 P2 A2 V b1 =
      ⟨(V b1).v + V3.smul (body b1).m P1, (V b1).w + (body b1).I.act A1, (V b1).vs, (V b1).ws⟩ ∧
    kick (two body b1 b2) P1 A1 P2 A2 V b2 =
      ⟨(V b2).v + V3.smul (body b2).m P2, (V b2).w + (body b2).I.act A2, (V b2).vs, (V b2).ws⟩ ∧
    ∀ b, b ≠ b1 → b ≠ b2 → kick (two body b1 b2) P1 A1 P2 A2 V b = V b := by
  have e : ∀ (k : K) (P : V3 K), V3.had (V3.smul k ⟨1, 1, 1⟩) P = V3.smul k P := fun k P => by ext <;> simp [V3.had]
  have o : ∀ (P : V3 K), V3.had (⟨1, 1, 1⟩ : V3 K) P = P := fun P => by ext <;> simp [V3.had]
  refine ⟨?_, ?_, fun b n1 n2 => ?_⟩
  · rw [kick_eq]
    simp only [linK, angK, two, if_true, if_neg (Ne.symm hb), add_zero, h1.1, h1.2, e, o]
  · rw [kick_eq]
    simp only [linK, angK, two, if_true, if_neg hb, zero_add, h2.1, h2.2, e, o]
  · rw [kick_eq]
    have m1 : ¬ b1 = b := fun h => n1 h.symm
    have m2 : ¬ b2 = b := fun h => n2 h.symm
    simp [linK, angK, two, m1, m2]

theorem inverseOrZero_act {cfg : JCfg K} [IsStrictOrderedRing K] {dyn : Bool} {m : M3 K} (he : 0 ≤ cfg.eps) (hd : cfg.eps < |m.det|) (hy : dyn = true)
    (a : V3 K) : m.act ((inverseOrZero cfg dyn m).act a) = a := by
  have h : m.det ≠ 0 := fun h => by rw [h, abs_zero] at hd; exact absurd hd (not_lt.2 he)
  unfold inverseOrZero
  rw [if_pos hd, if_pos hy]
  have := (matrix_inverse h).1
  rw [← matrix_mul_act, show m.mul (m.inverseWith m.det) = M3.one from this]
  unfold M3.one M3.act M3.of
  ext <;> simp

theorem inverseOrSame_act {cfg : JCfg K} [IsStrictOrderedRing K] {dyn : Bool} {m : M3 K} (he : 0 ≤ cfg.eps) (hd : cfg.eps < |m.det|) (hy : dyn = true)
    (a : V3 K) : m.act ((inverseOrSame cfg dyn m).act a) = a := by
  have := inverseOrZero_act he hd hy a
  unfold inverseOrZero at this
  unfold inverseOrSame
  rw [if_pos hd, if_pos hy] at this ⊢
  exact this

theorem inverseOrZero2_act {cfg : JCfg K} [IsStrictOrderedRing K] {dyn : Bool} {m : M2 K} (he : 0 ≤ cfg.eps) (hd : cfg.eps < |m.det|) (hy : dyn = true)
    (a : V2 K) : m.act ((inverseOrZero2 cfg dyn m).act a) = a := by
  have h : m.det ≠ 0 := fun h => by rw [h, abs_zero] at hd; exact absurd hd (not_lt.2 he)
  unfold inverseOrZero2
  rw [if_pos hd, if_pos hy]
  unfold M2.inverseWith M2.act
  have h' : m.a * m.d - m.c * m.b ≠ 0 := h
  ext
  · simp only [M2.det]; field_simp; ring
  · simp only [M2.det]; field_simp; ring

theorem massMatrix_act (m1 m2 : K) (I1 I2 : M3 K) (r1 r2 d : V3 K) : (massMatrix m1 m2 I1 I2 r1 r2).act d =
    V3.smul m1 d + V3.smul m2 d - V3.cross (I1.act (V3.cross d r1)) r1 - V3.cross (I2.act (V3.cross d r2)) r2 := by
  unfold massMatrix M3.add M3.mul M3.skew M3.transpose M3.of M3.act
  ext <;> simp [V3.cross] <;> ring

/-- The impulse `d` at the anchors changes the relative velocity of the anchors by `K d`. -/
theorem pin_rel {body : Nat → JBody K} {b1 b2 : Nat} (hb : b1 ≠ b2) (h1 : Unlocked (body b1)) (h2 : Unlocked (body b2)) (r1 r2 d : V3 K)
    (V : Nat → Vel K) : rel (pin (two body b1 b2) r1 r2 d V b1) (pin (two body b1 b2) r1 r2 d V b2) r1 r2 =
      rel (V b1) (V b2) r1 r2 + (massMatrix (body b1).m (body b2).m (body b1).I (body b2).I r1 r2).act d := by
  obtain ⟨e1, e2, _⟩ := kick_free hb h1 h2 (-d) (V3.cross d r1) d (-(V3.cross d r2)) V
  unfold pin
  rw [e1, e2, massMatrix_act]
  unfold rel M3.act
  ext <;> simp [V3.cross] <;> ring

theorem turn_rel {body : Nat → JBody K} {b1 b2 : Nat} (hb : b1 ≠ b2) (h1 : Unlocked (body b1)) (h2 : Unlocked (body b2)) (d : V3 K)
    (V : Nat → Vel K) : (turn (two body b1 b2) (-d) d V b2).w - (turn (two body b1 b2) (-d) d V b1).w =
      (V b2).w - (V b1).w + (M3.add (body b1).I (body b2).I).act d := by
  rw [turn_eq]
  obtain ⟨e1, e2, _⟩ := kick_free hb h1 h2 0 (-d) 0 d V
  rw [e1, e2]
  unfold M3.add M3.act
  ext <;> simp <;> ring

theorem axis_rel {body : Nat → JBody K} {b1 b2 : Nat} (hb : b1 ≠ b2) (h1 : Unlocked (body b1)) (h2 : Unlocked (body b2)) (a : V3 K) (d : K)
    (V : Nat → Vel K) :
    V3.dot ((turn (two body b1 b2) (V3.smul (-d) a) (V3.smul d a) V b2).w - (turn (two body b1 b2) (V3.smul (-d) a) (V3.smul d a) V b1).w) a =
      V3.dot ((V b2).w - (V b1).w) a + d * (V3.dot a ((body b1).I.act a) + V3.dot a ((body b2).I.act a)) := by
  rw [turn_eq]
  obtain ⟨e1, e2, _⟩ := kick_free hb h1 h2 0 (V3.smul (-d) a) 0 (V3.smul d a) V
  rw [e1, e2]
  unfold M3.act
  simp only [V3.dot, V3.smul_x, V3.smul_y, V3.smul_z, V3.add_x, V3.add_y, V3.add_z, V3.sub_x, V3.sub_y, V3.sub_z]
  ring

/-- `invOf` of a positive mass. -/
theorem invOf_mul {k : K} (h : 0 < k) : invOf k * k = 1 := by
  unfold invOf
  rw [if_pos h, one_div, inv_mul_cancel₀ (ne_of_gt h)]

end Joints
end RP3D
