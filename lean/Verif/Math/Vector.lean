import Verif.Math.Rigid
import Verif.Solver.Joints
import Mathlib.Analysis.Real.Sqrt

/-! Model of the functions of `Vector3` and the inverse of a matrix with their assertions (include/reactphysics3d/mathematics/Vector3.h:195-383,
src/mathematics/Vector3.cpp:33-64, Matrix3x3.cpp:33-53, Matrix2x2.cpp:32-43).  `none` is a broken assertion; `eps` is
`MACHINE_EPSILON`. Simplification: exact arithmetic on real numbers. -/

namespace RP3D
namespace Vector
open Joints (M2)

/-- `length` (Vector3.h:197-199). -/
noncomputable def length (v : V3 ℝ) : ℝ := Real.sqrt (v.x * v.x + v.y * v.y + v.z * v.z)

open Classical in
/-- `operator/(Vector3, decimal)` and `operator/=` (Vector3.h:333-336, 294-300). -/
noncomputable def div (eps : ℝ) (v : V3 ℝ) (c : ℝ) : Option (V3 ℝ) :=
  if c > eps then some ⟨v.x / c, v.y / c, v.z / c⟩ else none

open Classical in
/-- `operator/(Vector3, Vector3)` (Vector3.h:339-344). -/
noncomputable def divV (eps : ℝ) (v w : V3 ℝ) : Option (V3 ℝ) :=
  if w.x > eps ∧ w.y > eps ∧ w.z > eps then some ⟨v.x / w.x, v.y / w.y, v.z / w.z⟩ else none

open Classical in
/-- `getMinAxis` (Vector3.h:235-237). -/
noncomputable def minAxis (v : V3 ℝ) : Fin 3 :=
  if v.x < v.y then (if v.x < v.z then 0 else 2) else (if v.y < v.z then 1 else 2)

open Classical in
/-- `getMaxAxis` (Vector3.h:240-242). -/
noncomputable def maxAxis (v : V3 ℝ) : Fin 3 :=
  if v.x < v.y then (if v.y < v.z then 2 else 1) else (if v.x < v.z then 2 else 0)

/-- `getMinValue`, `getMaxValue` (Vector3.h:376-383). -/
noncomputable def minValue (v : V3 ℝ) : ℝ := min (min v.x v.y) v.z
noncomputable def maxValue (v : V3 ℝ) : ℝ := max (max v.x v.y) v.z

/-- `operator<` (Vector3.h:357-359). -/
def less (v w : V3 ℝ) : Prop := (v.x = w.x ∧ ((v.y = w.y ∧ v.z < w.z) ∨ (v.y ≠ w.y ∧ v.y < w.y))) ∨ (v.x ≠ w.x ∧ v.x < w.x)

/-- `approxEqual` (mathematics_common.h:42-44). -/
def approxEqual (eps a b : ℝ) : Prop := |a - b| < eps

/-- `isUnit`, `isZero` (Vector3.h:245-257). -/
def isUnit (eps : ℝ) (v : V3 ℝ) : Prop := approxEqual eps v.lengthSq 1
def isZero (eps : ℝ) (v : V3 ℝ) : Prop := approxEqual eps v.lengthSq 0

open Classical in
/-- `getUnit` (Vector3.cpp:33-43). -/
noncomputable def getUnit (eps : ℝ) (v : V3 ℝ) : V3 ℝ :=
  if length v < eps then v else ⟨v.x * (1 / length v), v.y * (1 / length v), v.z * (1 / length v)⟩

open Classical in
/-- `getOneUnitOrthogonalVector` (Vector3.cpp:46-64). -/
noncomputable def orth (eps : ℝ) (v : V3 ℝ) : Option (V3 ℝ) :=
  if length v > eps then
    let m := minAxis ⟨|v.x|, |v.y|, |v.z|⟩
    if m = 0 then div eps ⟨0, -v.z, v.y⟩ (Real.sqrt (v.y * v.y + v.z * v.z))
    else if m = 1 then div eps ⟨-v.z, 0, v.x⟩ (Real.sqrt (v.x * v.x + v.z * v.z))
    else div eps ⟨-v.y, v.x, 0⟩ (Real.sqrt (v.x * v.x + v.y * v.y))
  else none

open Classical in
/-- `Matrix3x3::getInverse` (Matrix3x3.h:244-246, Matrix3x3.cpp:33-53) with its assertion. -/
noncomputable def inverse3 (m : M3 ℝ) : Option (M3 ℝ) := if m.det ≠ 0 then some m.inverse else none

/-- `operator*(Matrix2x2, Matrix2x2)` and `identity` (Matrix2x2.h:277-286, 220-224). -/
noncomputable def mul2 (m n : M2 ℝ) : M2 ℝ := ⟨m.a * n.a + m.b * n.c, m.a * n.b + m.b * n.d, m.c * n.a + m.d * n.c, m.c * n.b + m.d * n.d⟩
noncomputable def one2 : M2 ℝ := ⟨1, 0, 0, 1⟩

open Classical in
/-- `Matrix2x2::getInverse` (Matrix2x2.h:232-235, Matrix2x2.cpp:32-43) with its assertion. -/
noncomputable def inverse2 (eps : ℝ) (m : M2 ℝ) : Option (M2 ℝ) := if |m.det| > eps then some (m.inverseWith m.det) else none

end Vector
end RP3D
