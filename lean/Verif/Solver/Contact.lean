import Verif.Math.Rigid
import Verif.Dynamics.Body

/-!
Model of the contact solver (src/systems/ContactSolverSystem.cpp: initializeForIsland, warmStart, solve, storeImpulses, computeFrictionVectors).

Simplifications.
* Exact arithmetic; the square root is an argument.
* `mContactPoints` holds the points of the manifolds one after the other and every loop walks through it with one index
  (ContactSolverSystem.cpp:330-376, 485-613, 767-776); here each manifold has the list of its points.
* The manifolds of all islands form one list (lines 95-102: the islands follow one another, C31).
* The contact points come with their world positions `p1`, `p2` (lines 181-183), and the materials with their mixed values
  (`computeMixedRestitutionFactor`, `computeMixedFrictionCoefficient`).
-/

namespace RP3D
namespace Solver
variable {K : Type}

/-- The velocities of a body: `mConstrainedLinearVelocities`, `mConstrainedAngularVelocities`, `mSplitLinearVelocities`,
`mSplitAngularVelocities`. -/
@[ext] structure Vel (K : Type) where
  v : V3 K
  w : V3 K
  vs : V3 K
  ws : V3 K

/-- `ContactPointSolver` (ContactSolverSystem.h:133-170). -/
structure CPoint (K : Type) where
  normal : V3 K
  r1 : V3 K
  r2 : V3 K
  /-- `i1TimesR1CrossN`, `i2TimesR2CrossN` -/
  i1 : V3 K
  i2 : V3 K
  depth : K
  /-- `restitutionBias` -/
  bias : K
  /-- `inversePenetrationMass` -/
  invMass : K
  resting : Bool
  /-- `penetrationImpulse`, `penetrationSplitImpulse` -/
  imp : K
  split : K

/-- `ContactManifoldSolver` (ContactSolverSystem.h:177-300). -/
structure Man (K : Type) where
  b1 : Nat
  b2 : Nat
  m1 : K
  m2 : K
  I1 : M3 K
  I2 : M3 K
  /-- `linearLockAxisFactorBody*`, `angularLockAxisFactorBody*` -/
  ll1 : V3 K
  ll2 : V3 K
  la1 : V3 K
  la2 : V3 K
  mu : K
  normal : V3 K
  t1 : V3 K
  t2 : V3 K
  /-- `oldFrictionVector1`, `oldFrictionVector2` -/
  o1 : V3 K
  o2 : V3 K
  r1 : V3 K
  r2 : V3 K
  /-- `r1CrossT1`, `r1CrossT2`, `r2CrossT1`, `r2CrossT2` -/
  c11 : V3 K
  c12 : V3 K
  c21 : V3 K
  c22 : V3 K
  /-- `inverseFriction1Mass`, `inverseFriction2Mass`, `inverseTwistFrictionMass` -/
  k1 : K
  k2 : K
  kt : K
  /-- `friction1Impulse`, `friction2Impulse`, `frictionTwistImpulse` -/
  f1 : K
  f2 : K
  tw : K
  pts : List (CPoint K)

/-- Settings: `mTimeStep`, `beta`, `SLOP`, `mIsSplitImpulseActive`, `mRestitutionVelocityThreshold`, `MACHINE_EPSILON`. -/
structure Cfg (K : Type) where
  dt : K
  beta : K
  slop : K
  split : Bool
  threshold : K
  eps : K

variable [Field K] [LinearOrder K]

/-- Velocity of the second body at `r2` relative to the first one at `r1` (lines 206-211, 509-514, 620-627, 676-681). -/
def rel (a b : Vel K) (r1 r2 : V3 K) : V3 K := b.v + V3.cross b.w r2 - a.v - V3.cross a.w r1

/-- The same for the split velocities (lines 573-578). -/
def relSplit (a b : Vel K) (r1 r2 : V3 K) : V3 K := b.vs + V3.cross b.ws r2 - a.vs - V3.cross a.ws r1

/-- An impulse `d` along the normal of a contact (lines 350-368, 539-560). -/
def push (M : Man K) (p : CPoint K) (d : K) (V : Nat → Vel K) : Nat → Vel K :=
  let P := V3.smul d p.normal
  let V := upd V M.b1 { V M.b1 with v := (V M.b1).v - V3.had (V3.smul M.m1 P) M.ll1, w := (V M.b1).w - V3.smul d (V3.had p.i1 M.la1) }
  upd V M.b2 { V M.b2 with v := (V M.b2).v + V3.had (V3.smul M.m2 P) M.ll2, w := (V M.b2).w + V3.smul d (V3.had p.i2 M.la2) }

/-- The same for the split velocities (lines 590-610). -/
def pushSplit (M : Man K) (p : CPoint K) (d : K) (V : Nat → Vel K) : Nat → Vel K :=
  let P := V3.smul d p.normal
  let V := upd V M.b1 { V M.b1 with vs := (V M.b1).vs - V3.had (V3.smul M.m1 P) M.ll1, ws := (V M.b1).ws - V3.smul d (V3.had p.i1 M.la1) }
  upd V M.b2 { V M.b2 with vs := (V M.b2).vs + V3.had (V3.smul M.m2 P) M.ll2, ws := (V M.b2).ws + V3.smul d (V3.had p.i2 M.la2) }

/-- An impulse `d` along a friction vector (lines 394-416, 418-443, 641-670, 692-725). -/
def rub (M : Man K) (t c1 c2 : V3 K) (d : K) (V : Nat → Vel K) : Nat → Vel K :=
  let P := V3.smul d t
  let V := upd V M.b1 { V M.b1 with v := (V M.b1).v - V3.had (V3.smul M.m1 P) M.ll1, w := (V M.b1).w + V3.had M.la1 (M.I1.act (V3.smul d (-c1))) }
  upd V M.b2 { V M.b2 with v := (V M.b2).v + V3.had (V3.smul M.m2 P) M.ll2, w := (V M.b2).w + V3.had M.la2 (M.I2.act (V3.smul d c2)) }

/-- An impulse `d` of the twist friction (lines 740-757). -/
def twist (M : Man K) (d : K) (V : Nat → Vel K) : Nat → Vel K :=
  let V := upd V M.b1 { V M.b1 with w := (V M.b1).w - V3.had M.la1 (M.I1.act (V3.smul d M.normal)) }
  upd V M.b2 { V M.b2 with w := (V M.b2).w + V3.had M.la2 (M.I2.act (V3.smul d M.normal)) }

/-- The twist friction of the warm start (lines 445-466): `angularImpulseBody1` is `-normal * frictionTwistImpulse`, then both bodies are changed
by `angularImpulseBody1`, `angularImpulseBody2` and once more by `angularImpulseBody2`. -/
def twistWarm (M : Man K) (d : K) (V : Nat → Vel K) : Nat → Vel K :=
  let V := upd V M.b1 { V M.b1 with w := (V M.b1).w + V3.had M.la1 (M.I1.act (V3.smul d (-M.normal))) }
  let V := upd V M.b2 { V M.b2 with w := (V M.b2).w + V3.had M.la2 (M.I2.act (V3.smul d M.normal)) }
  let V := upd V M.b1 { V M.b1 with w := (V M.b1).w - V3.had M.la1 (M.I1.act (V3.smul d M.normal)) }
  upd V M.b2 { V M.b2 with w := (V M.b2).w + V3.had M.la2 (M.I2.act (V3.smul d M.normal)) }

/-! ### Initialisation -/

/-- What the solver reads of a body: center of mass, `mLinearVelocities`, `mAngularVelocities`, inverse mass and inertia, lock factors. -/
structure SBody (K : Type) where
  x : V3 K
  v : V3 K
  w : V3 K
  m : K
  I : M3 K
  ll : V3 K
  la : V3 K

/-- `ContactPoint` with its positions in the world. -/
structure XPoint (K : Type) where
  normal : V3 K
  p1 : V3 K
  p2 : V3 K
  depth : K
  resting : Bool
  imp : K

/-- `ContactManifold` with the mixed material values of its colliders. -/
structure XMan (K : Type) where
  b1 : Nat
  b2 : Nat
  restitution : K
  mu : K
  f1 : K
  f2 : K
  tw : K
  t1 : V3 K
  t2 : V3 K
  pts : List (XPoint K)

/-- `mass > 0 ? 1 / mass : 0` (lines 235, 314-316). -/
def invOf (k : K) : K := if 0 < k then 1 / k else 0

/-- The loop body over contact points (lines 173-256). -/
def initPoint (cfg : Cfg K) (A B : SBody K) (restitution : K) (x : XPoint K) : CPoint K :=
  let r1 := x.p1 - A.x
  let r2 := x.p2 - B.x
  let i1 := A.I.act (V3.cross r1 x.normal)
  let i2 := B.I.act (V3.cross r2 x.normal)
  let dv := V3.dot (rel ⟨A.v, A.w, 0, 0⟩ ⟨B.v, B.w, 0, 0⟩ r1 r2) x.normal
  { normal := x.normal, r1 := r1, r2 := r2, i1 := i1, i2 := i2, depth := x.depth
    bias := if dv < -cfg.threshold then restitution * dv else 0
    invMass := invOf (A.m + B.m + V3.dot (V3.cross i1 r1) x.normal + V3.dot (V3.cross i2 r2) x.normal)
    resting := x.resting, imp := x.imp, split := 0 }

/-- `getOneUnitOrthogonalVector` (Vector3.cpp:46-64) with `getMinAxis` of the absolute values. -/
def orthogonal (sqrt : K → K) (n : V3 K) : V3 K :=
  let ax := if |n.x| < |n.y| then (if |n.x| < |n.z| then 0 else 2) else (if |n.y| < |n.z| then 1 else 2)
  if ax = 0 then V3.smul (1 / sqrt (n.y * n.y + n.z * n.z)) ⟨0, -n.z, n.y⟩
  else if ax = 1 then V3.smul (1 / sqrt (n.x * n.x + n.z * n.z)) ⟨-n.z, 0, n.x⟩
  else V3.smul (1 / sqrt (n.x * n.x + n.y * n.y)) ⟨-n.y, n.x, 0⟩

/-- `computeFrictionVectors` (lines 789-818), the first vector; the second one is `normal.cross(first)`. -/
def frictionVector (cfg : Cfg K) (sqrt : K → K) (dv n : V3 K) : V3 K :=
  let t := dv - V3.smul (V3.dot dv n) n
  if cfg.eps < sqrt t.lengthSq then V3.smul (1 / sqrt t.lengthSq) t else orthogonal sqrt n

/-- `normalize` (Vector3.h:219-227). -/
def unit (cfg : Cfg K) (sqrt : K → K) (n : V3 K) : V3 K := if sqrt n.lengthSq < cfg.eps then n else V3.smul (1 / sqrt n.lengthSq) n

def sum3 (l : List (V3 K)) : V3 K := l.foldl (· + ·) 0

/-- The loop body over manifolds (lines 125-318). -/
def initMan (cfg : Cfg K) (sqrt : K → K) (body : Nat → SBody K) (X : XMan K) : Man K :=
  let A := body X.b1
  let B := body X.b2
  let n := unit cfg sqrt (sum3 (X.pts.map XPoint.normal))
  let r1 := V3.smul (1 / (X.pts.length : K)) (sum3 (X.pts.map XPoint.p1)) - A.x
  let r2 := V3.smul (1 / (X.pts.length : K)) (sum3 (X.pts.map XPoint.p2)) - B.x
  let t1 := frictionVector cfg sqrt (rel ⟨A.v, A.w, 0, 0⟩ ⟨B.v, B.w, 0, 0⟩ r1 r2) n
  let t2 := V3.cross n t1
  let c11 := V3.cross r1 t1
  let c12 := V3.cross r1 t2
  let c21 := V3.cross r2 t1
  let c22 := V3.cross r2 t2
  { b1 := X.b1, b2 := X.b2, m1 := A.m, m2 := B.m, I1 := A.I, I2 := B.I, ll1 := A.ll, ll2 := B.ll, la1 := A.la, la2 := B.la, mu := X.mu
    normal := n, t1 := t1, t2 := t2, o1 := X.t1, o2 := X.t2, r1 := r1, r2 := r2, c11 := c11, c12 := c12, c21 := c21, c22 := c22
    k1 := invOf (A.m + B.m + V3.dot (V3.cross (A.I.act c11) r1) t1 + V3.dot (V3.cross (B.I.act c21) r2) t1)
    k2 := invOf (A.m + B.m + V3.dot (V3.cross (A.I.act c12) r1) t2 + V3.dot (V3.cross (B.I.act c22) r2) t2)
    kt := invOf (V3.dot n (A.I.act n) + V3.dot n (B.I.act n))
    f1 := X.f1, f2 := X.f2, tw := X.tw
    pts := X.pts.map (initPoint cfg A B X.restitution) }

/-! ### Warm start -/

/-- One contact point of the warm start (lines 337-377). -/
def warmPoint (M : Man K) (V : Nat → Vel K) (p : CPoint K) : (Nat → Vel K) × CPoint K :=
  if p.resting then (push M p p.imp V, p) else (V, { p with imp := 0 })

def warmPoints (M : Man K) : (Nat → Vel K) → List (CPoint K) → (Nat → Vel K) × List (CPoint K)
  | V, [] => (V, [])
  | V, p :: ps =>
    let s := warmPoint M V p
    let r := warmPoints M s.1 ps
    (r.1, s.2 :: r.2)

/-- One manifold of the warm start (lines 333-475). -/
def warmMan (V : Nat → Vel K) (M : Man K) : (Nat → Vel K) × Man K :=
  let s := warmPoints M V M.pts
  if M.pts.any CPoint.resting then
    let old := V3.smul M.f1 M.o1 + V3.smul M.f2 M.o2
    let f1 := V3.dot old M.t1
    let f2 := V3.dot old M.t2
    let V := rub M M.t1 M.c11 M.c21 f1 s.1
    let V := rub M M.t2 M.c12 M.c22 f2 V
    (twistWarm M M.tw V, { M with f1 := f1, f2 := f2, pts := s.2 })
  else (s.1, { M with f1 := 0, f2 := 0, tw := 0, pts := s.2 })

def warmStart : (Nat → Vel K) → List (Man K) → (Nat → Vel K) × List (Man K)
  | V, [] => (V, [])
  | V, M :: Ms =>
    let s := warmMan V M
    let r := warmStart s.1 Ms
    (r.1, s.2 :: r.2)

/-! ### Iterations -/

/-- `biasPenetrationDepth` (lines 519-523). -/
def depthBias (cfg : Cfg K) (p : CPoint K) : K := if cfg.slop < p.depth then -(cfg.beta / cfg.dt) * max 0 (p.depth - cfg.slop) else 0

/-- One contact point of an iteration (lines 502-613). -/
def solvePoint (cfg : Cfg K) (M : Man K) (V : Nat → Vel K) (p : CPoint K) : (Nat → Vel K) × CPoint K :=
  let Jv := V3.dot (rel (V M.b1) (V M.b2) p.r1 p.r2) p.normal
  let d := if cfg.split then -(Jv + p.bias) * p.invMass else -(Jv + (depthBias cfg p + p.bias)) * p.invMass
  let imp := max (p.imp + d) 0
  let V := push M p (imp - p.imp) V
  if cfg.split then
    let JvS := V3.dot (relSplit (V M.b1) (V M.b2) p.r1 p.r2) p.normal
    let sp := max (p.split + -(JvS + depthBias cfg p) * p.invMass) 0
    (pushSplit M p (sp - p.split) V, { p with imp := imp, split := sp })
  else (V, { p with imp := imp })

def solvePoints (cfg : Cfg K) (M : Man K) : (Nat → Vel K) → List (CPoint K) → (Nat → Vel K) × List (CPoint K)
  | V, [] => (V, [])
  | V, p :: ps =>
    let s := solvePoint cfg M V p
    let r := solvePoints cfg M s.1 ps
    (r.1, s.2 :: r.2)

/-- `sumPenetrationImpulse`. -/
def total (ps : List (CPoint K)) : K := (ps.map CPoint.imp).sum

/-- `max(-limit, min(x, limit))`. -/
def clamp (limit x : K) : K := max (-limit) (min x limit)

/-- One manifold of an iteration (lines 490-758). -/
def solveMan (cfg : Cfg K) (V : Nat → Vel K) (M : Man K) : (Nat → Vel K) × Man K :=
  let s := solvePoints cfg M V M.pts
  let limit := M.mu * total s.2
  let V := s.1
  let f1 := clamp limit (M.f1 + -(V3.dot (rel (V M.b1) (V M.b2) M.r1 M.r2) M.t1) * M.k1)
  let V := rub M M.t1 M.c11 M.c21 (f1 - M.f1) V
  let f2 := clamp limit (M.f2 + -(V3.dot (rel (V M.b1) (V M.b2) M.r1 M.r2) M.t2) * M.k2)
  let V := rub M M.t2 M.c12 M.c22 (f2 - M.f2) V
  let tw := clamp limit (M.tw + -(V3.dot ((V M.b2).w - (V M.b1).w) M.normal) * M.kt)
  (twist M (tw - M.tw) V, { M with f1 := f1, f2 := f2, tw := tw, pts := s.2 })

/-- `solve` (lines 479-760). -/
def solve (cfg : Cfg K) : (Nat → Vel K) → List (Man K) → (Nat → Vel K) × List (Man K)
  | V, [] => (V, [])
  | V, M :: Ms =>
    let s := solveMan cfg V M
    let r := solve cfg s.1 Ms
    (r.1, s.2 :: r.2)

/-- The iterations of the velocity solver (PhysicsWorld.cpp:334-339): in each one the joints are solved first; what this does to the velocities is
an argument, any function. -/
def iterate (cfg : Cfg K) : List ((Nat → Vel K) → Nat → Vel K) → (Nat → Vel K) × List (Man K) → (Nat → Vel K) × List (Man K)
  | [], s => s
  | J :: Js, s => iterate cfg Js (solve cfg (J s.1) s.2)

/-- `init` (lines 66-106) and the iterations. -/
def runSolver (cfg : Cfg K) (sqrt : K → K) (body : Nat → SBody K) (V : Nat → Vel K) (Xs : List (XMan K)) (Js : List ((Nat → Vel K) → Nat → Vel K)) :
    (Nat → Vel K) × List (Man K) :=
  iterate cfg Js (warmStart V (Xs.map (initMan cfg sqrt body)))

/-- `storeImpulses` (lines 763-785). -/
def store (M : Man K) (X : XMan K) : XMan K :=
  { X with f1 := M.f1, f2 := M.f2, tw := M.tw, t1 := M.t1, t2 := M.t2
           pts := (X.pts.zip M.pts).map fun q => { q.1 with imp := q.2.imp, resting := true } }

end Solver
end RP3D
