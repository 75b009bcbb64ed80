import Verif.Math.Vector
import Verif.Math.Geometry

/-! Model of the measuring functions of the mathematics library that stand alone (include/reactphysics3d/mathematics/mathematics_functions.h:55-93, 242-251);
those of planes and segments are in `Verif.Math.Geometry`. `none` is a broken assertion. Simplification: exact arithmetic on real numbers. -/

namespace RP3D
namespace Helpers
open RP3D.Vector

open Classical in
/-- `clamp(decimal, decimal, decimal)` (mathematics_functions.h:55-58) with its assertion. -/
noncomputable def clamp (v lo hi : ℝ) : Option ℝ := if lo ≤ hi then some (Geom.clamp v lo hi) else none

/-- `sameSign` (mathematics_functions.h:71-73). -/
def sameSign (a b : ℝ) : Prop := a * b ≥ 0

/-- `areParallelVectors` (mathematics_functions.h:76-78). -/
def parallel (v w : V3 ℝ) : Prop := (v.cross w).lengthSq < 1 / 100000

/-- `areOrthogonalVectors` (mathematics_functions.h:82-84). -/
def orthogonal (v w : V3 ℝ) : Prop := |v.dot w| < 1 / 1000

open Classical in
/-- `clamp(Vector3, decimal)` (mathematics_functions.h:88-93). -/
noncomputable def clampLength (eps : ℝ) (v : V3 ℝ) (m : ℝ) : V3 ℝ := if v.lengthSq > m * m then V3.smul m (getUnit eps v) else v

open Classical in
/-- `computePointToLineDistance` (mathematics_functions.h:242-251). -/
noncomputable def lineDistance (eps : ℝ) (a b p : V3 ℝ) : ℝ :=
  if length (b - a) < eps then length (p - a) else length ((p - a).cross (p - b)) / length (b - a)

end Helpers
end RP3D
