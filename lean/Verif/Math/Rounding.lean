import Mathlib.Algebra.Order.Field.Basic

/-!
Rounded arithmetic. A floating-point operation on finite operands that does not overflow returns the rounding of the exact result
(IEEE 754, 4.3). The only facts used about rounding are that it is monotone and leaves representable numbers alone; both hold for each
of the rounding directions of the standard, for single and for double precision, with gradual underflow or flushing to zero.
-/

namespace RP3D

/-- A rounding function on an ordered field; the representable numbers are its fixed points. -/
structure Rounding (K : Type) [Field K] [LinearOrder K] where
  rnd : K → K
  mono : ∀ {x y}, x ≤ y → rnd x ≤ rnd y
  idem : ∀ x, rnd (rnd x) = rnd x
  zero : rnd 0 = 0

/-- Exact arithmetic. -/
def Rounding.exact (K : Type) [Field K] [LinearOrder K] : Rounding K := ⟨id, fun h => h, fun _ => rfl, rfl⟩

end RP3D
