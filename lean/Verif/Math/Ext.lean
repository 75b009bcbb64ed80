import Mathlib.Algebra.Order.Field.Basic
import Mathlib.Order.WithBot
import Mathlib.Tactic.Linarith

/-!
Floating-point numbers with infinities and NaN.

`Ext K` adds the special values to the numbers of an ordered field. Comparisons are those of IEEE 754: false if an operand is NaN.
The results of operations on finite numbers go through a rounding function that may overflow to an infinity; exact arithmetic is the
special case `FloatOps.exact`. The sign of zero is not represented; where it matters (division by zero) it is a separate argument.
-/

namespace RP3D

inductive Ext (K : Type)
  | nan
  | ninf
  | fin (x : K)
  | pinf
deriving DecidableEq

namespace Ext
variable {K : Type} [LinearOrder K]

/-- `a < b` -/
def lt : Ext K → Ext K → Bool
  | nan, _ => false
  | _, nan => false
  | _, ninf => false
  | ninf, _ => true
  | pinf, _ => false
  | fin _, pinf => true
  | fin x, fin y => decide (x < y)

/-- `a >= b` -/
def ge : Ext K → Ext K → Bool
  | nan, _ => false
  | _, nan => false
  | a, b => !lt a b

/-- `std::min(a, b)` is `(b < a) ? b : a`. -/
def stdMin (a b : Ext K) : Ext K := if lt b a then b else a
/-- `std::max(a, b)` is `(a < b) ? b : a`. -/
def stdMax (a b : Ext K) : Ext K := if lt a b then b else a

/-- The position of a value that is not NaN in the order. -/
def val : Ext K → WithBot (WithTop K)
  | nan => ⊥
  | ninf => ⊥
  | fin x => ((x : WithTop K) : WithBot (WithTop K))
  | pinf => ((⊤ : WithTop K) : WithBot (WithTop K))

theorem lt_iff {a b : Ext K} (ha : a ≠ nan) (hb : b ≠ nan) : lt a b = true ↔ val a < val b := by
  cases a <;> cases b <;> simp_all [lt, val]
  exact WithBot.coe_lt_coe.2 (WithTop.coe_lt_top _)

theorem ge_iff {a b : Ext K} (ha : a ≠ nan) (hb : b ≠ nan) : ge a b = true ↔ val b ≤ val a := by
  have h : ge a b = !lt a b := by cases a <;> cases b <;> simp_all [ge]
  rw [h, ← not_lt, ← lt_iff ha hb]
  simp

theorem stdMin_val {a b : Ext K} (ha : a ≠ nan) (hb : b ≠ nan) : val (stdMin a b) = min (val a) (val b) ∧ stdMin a b ≠ nan := by
  unfold stdMin
  split_ifs with h
  · exact ⟨(min_eq_right ((lt_iff hb ha).1 h).le).symm, hb⟩
  · rw [lt_iff hb ha, not_lt] at h
    exact ⟨(min_eq_left h).symm, ha⟩

theorem stdMax_val {a b : Ext K} (ha : a ≠ nan) (hb : b ≠ nan) : val (stdMax a b) = max (val a) (val b) ∧ stdMax a b ≠ nan := by
  unfold stdMax
  split_ifs with h
  · exact ⟨(max_eq_right ((lt_iff ha hb).1 h).le).symm, hb⟩
  · rw [lt_iff ha hb, not_lt] at h
    exact ⟨(max_eq_left h).symm, ha⟩

theorem val_fin_le {x y : K} : val (fin x) ≤ val (fin y) ↔ x ≤ y := by simp [val]

end Ext

/-- Rounding to floating-point numbers: monotone, and no NaN comes out of a number. -/
structure FloatOps (K : Type) [Field K] [LinearOrder K] where
  rnd : K → Ext K
  num : ∀ x, rnd x ≠ .nan
  mono : ∀ {x y}, x ≤ y → (rnd x).val ≤ (rnd y).val

namespace FloatOps
open Ext
variable {K : Type} [Field K] [LinearOrder K]

/-- Exact arithmetic. -/
def exact (K : Type) [Field K] [LinearOrder K] : FloatOps K := ⟨fin, by simp, fun h => val_fin_le.2 h⟩

/-- Subtraction of finite numbers. -/
def sub (F : FloatOps K) (x y : K) : Ext K := F.rnd (x - y)

/-- Infinity with the sign of `x`; NaN for zero. -/
def signInf (x : K) : Ext K := if 0 < x then pinf else if x < 0 then ninf else nan

/-- Multiplication. -/
def mul (F : FloatOps K) : Ext K → Ext K → Ext K
  | nan, _ => nan
  | _, nan => nan
  | fin x, fin y => F.rnd (x * y)
  | fin x, pinf => signInf x
  | fin x, ninf => signInf (-x)
  | pinf, fin y => signInf y
  | ninf, fin y => signInf (-y)
  | pinf, pinf => pinf
  | ninf, ninf => pinf
  | pinf, ninf => ninf
  | ninf, pinf => ninf

/-- `1 / d`; `neg` is the sign of `d` in case `d` is zero. -/
def inv (F : FloatOps K) (neg : Bool) (d : K) : Ext K :=
  if d = 0 then (if neg then ninf else pinf) else F.rnd (1 / d)

variable [IsStrictOrderedRing K]

/-- Multiplication by a fixed value is monotone or antitone, as far as the results are numbers. -/
theorem mul_mono (F : FloatOps K) (c : Ext K) :
    (∀ a b : Ext K, a ≠ nan → b ≠ nan → F.mul a c ≠ nan → F.mul b c ≠ nan → a.val ≤ b.val → (F.mul a c).val ≤ (F.mul b c).val) ∨
    (∀ a b : Ext K, a ≠ nan → b ≠ nan → F.mul a c ≠ nan → F.mul b c ≠ nan → a.val ≤ b.val → (F.mul b c).val ≤ (F.mul a c).val) := by
  cases c with
  | nan => left; intro a b _ _ h; exact absurd (by cases a <;> rfl) h
  | pinf =>
    left
    intro a b ha hb h1 h2 hab
    cases a <;> cases b <;> simp_all [mul, signInf, val]
    all_goals split_ifs at * <;> simp_all
    all_goals linarith
  | ninf =>
    right
    intro a b ha hb h1 h2 hab
    cases a <;> cases b <;> simp_all [mul, signInf, val]
    all_goals split_ifs at * <;> simp_all
    all_goals linarith
  | fin y =>
    rcases lt_trichotomy y 0 with hy | hy | hy
    · right
      intro a b ha hb h1 h2 hab
      cases a <;> cases b <;> simp_all [mul, signInf, val]
      all_goals first
        | (exact F.mono (by nlinarith))
        | (split_ifs at * <;> simp_all <;> linarith)
    · subst hy
      left
      intro a b ha hb h1 h2 hab
      cases a <;> cases b <;> simp_all [mul, signInf, val]
    · left
      intro a b ha hb h1 h2 hab
      cases a <;> cases b <;> simp_all [mul, signInf, val]
      all_goals first
        | (exact F.mono (by nlinarith))
        | (split_ifs at * <;> simp_all <;> linarith)

end FloatOps
end RP3D
