import Verif.Math.Vector
import Verif.Solver.Contact

/-! Model of `ContactSolverSystem::computeFrictionVectors` (src/systems/ContactSolverSystem.cpp:789-818) with its assertions and those of the vector
functions it calls: `none` is a broken assertion. The model of the solver (`Solver/Contact`) has the same function without assertions. Simplification: exact
arithmetic on real numbers. -/

namespace RP3D
namespace Friction
open RP3D.Vector

open Classical in
/-- `computeFrictionVectors` (lines 789-818): velocity difference and normal of the manifold; the two friction vectors. -/
noncomputable def frame (eps : ℝ) (dv n : V3 ℝ) : Option (V3 ℝ × V3 ℝ) :=
  if length n > 0 then
    let t := dv - V3.smul (V3.dot dv n) n
    (if length t > eps then div eps t (length t) else orth eps n).map fun t1 => (t1, V3.cross n t1)
  else none

open Classical in
/-- The test whether the normal of a contact point is similar to the one of the first point of a manifold (CollisionDetectionSystem.cpp:1349), with
`cosAngleSimilarContactManifold` (PhysicsWorld.h:117-120). -/
noncomputable def similar (c : ℝ) (n : Nat → V3 ℝ) (p q : Nat) : Bool := decide (V3.dot (n p) (n q) ≥ c)

end Friction
end RP3D
