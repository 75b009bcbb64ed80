import Verif.Solver.Contact

/-!
Model of `Material` (include/reactphysics3d/engine/Material.h, src/engine/Material.cpp) and of the values that two materials give a contact
(include/reactphysics3d/systems/ContactSolverSystem.h:412-426).

Simplification: exact arithmetic; the square root is an argument.
-/

namespace RP3D
namespace Solver
variable {K : Type} [Field K] [LinearOrder K]

/-- `mFrictionCoefficientSqrt`, `mBounciness`, `mMassDensity` (Material.h:48-55). -/
@[ext] structure Material (K : Type) where
  root : K
  bounce : K
  density : K

/-- The constructor (Material.cpp:32-35); it checks nothing. -/
def Material.make (sqrt : K → K) (f b d : K) : Material K := ⟨sqrt f, b, d⟩

/-- `getFrictionCoefficient` (Material.h:120-122). -/
def Material.friction (m : Material K) : K := m.root * m.root

/-- `setFrictionCoefficient` (Material.h:130-133), `setBounciness` (Material.h:111-114), `setMassDensity` (Material.h:149-151); `none` if the assertion fails. -/
def Material.setFriction (sqrt : K → K) (m : Material K) (f : K) : Option (Material K) := if 0 ≤ f then some { m with root := sqrt f } else none
def Material.setBounce (m : Material K) (b : K) : Option (Material K) := if 0 ≤ b ∧ b ≤ 1 then some { m with bounce := b } else none
def Material.setDensity (m : Material K) (d : K) : Material K := { m with density := d }

/-- `computeMixedFrictionCoefficient` (ContactSolverSystem.h:422-426). -/
def mixFriction (a b : Material K) : K := a.root * b.root

/-- `computeMixedRestitutionFactor` (ContactSolverSystem.h:412-419). -/
def mixBounce (a b : Material K) : K := if b.bounce < a.bounce then a.bounce else b.bounce

/-- A manifold takes both from the materials of its colliders (ContactSolverSystem.cpp:154, 246). -/
def XMan.withMaterials (a b : Material K) (X : XMan K) : XMan K := { X with mu := mixFriction a b, restitution := mixBounce a b }

end Solver
end RP3D
