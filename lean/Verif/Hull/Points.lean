import Verif.Math.Vec3

/-! Removing nearly equal points before a convex hull is made of them (QuickHull.cpp:757-804).

Simplified: coordinates are exact numbers of an ordered field, so the centre and the distances are not rounded. -/

namespace RP3D.Hull
variable {K : Type} [Field K] [LinearOrder K] [IsStrictOrderedRing K]

/-- The test of nearly equal points (QuickHull.cpp:777-782); `tol` is `distanceEpsilon`, 0.00001 (line 760). -/
def near (tol : K) (p q : V3 K) : Bool := decide (|p.x - q.x| < tol ∧ |p.y - q.y| < tol ∧ |p.z - q.z| < tol)

/-- The centre of the cloud (QuickHull.cpp:764-768). -/
def center (ps : List (V3 K)) : V3 K := V3.smul ((ps.length : K))⁻¹ (ps.foldl (· + ·) 0)

/-- The body of the loop over the input points (QuickHull.cpp:773-799): the first kept point nearly equal to `p` is replaced if `p` is farther
from the centre `c`; if there is none `p` is appended. -/
def keep (tol : K) (c p : V3 K) : List (V3 K) → List (V3 K)
  | [] => [p]
  | k :: ks => if near tol k p then (if (k - c).lengthSq < (p - c).lengthSq then p else k) :: ks else k :: keep tol c p ks

/-- `QuickHull::removeDuplicatedVertices` (QuickHull.cpp:758-804). -/
def removeDuplicates (tol : K) (ps : List (V3 K)) : List (V3 K) := ps.foldl (fun ks p => keep tol (center ps) p ks) []

end RP3D.Hull
