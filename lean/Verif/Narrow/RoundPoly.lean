import Verif.Narrow.Gjk
import Verif.Narrow.SatCapsule

/-! The whole test of a sphere or of a capsule against a convex polyhedron: GJK first, then SAT if the cores overlap, with the data of the pair that
are kept from one test to the next. -/

namespace RP3D
namespace RoundPoly
open Geom Shape Gjk
variable {K : Type} [Field K] [LinearOrder K]

/-- What these tests use of `LastFrameCollisionInfo` (OverlappingPairs.h:55-93): `isValid`, `wasUsingGJK`, `wasUsingSAT`, `gjkSeparatingAxis`. -/
structure Info (K : Type) where
  valid : Bool
  usedGjk : Bool
  usedSat : Bool
  axis : V3 K

/-- The constructor (OverlappingPairs.h:87-92): a new pair. -/
def Info.fresh : Info K := ⟨false, false, false, ⟨0, 1, 0⟩⟩

/-- The axis GJK starts with, if one is kept (GJKAlgorithm.cpp:98-106). -/
def Info.cached (i : Info K) : Option (V3 K) := if i.valid && i.usedGjk then some i.axis else none

/-- `GJKAlgorithm::testCollision` (GJKAlgorithm.cpp:49-238) of one pair: the verdict and `gjkSeparatingAxis` after it. `none` is a broken assertion, `some none`
is "not finished after `n` turns". -/
def search (c : Cfg K) (t1 t2 : Trans K) (s1 s2 : V3 K → V3 K) (m1 m2 : K) (i : Info K) (n : Nat) : Option (Option (Verdict K × V3 K)) :=
  (start c (m1 + m2) i.cached).bind fun x =>
    match loop c (supportA s1) (supportB t1 t2 s2) (m1 + m2) n x with
    | .broken => none
    | .running _ => some none
    | .done y e => (finish c t1 t2 m1 m2 y e).map fun r => some (r, nextAxis i.axis y e)

/-- The result of a test: `isColliding`, the contact points, and what is kept. -/
structure Out (K : Type) where
  colliding : Bool
  contacts : List (Round.Contact K)
  info : Info K

/-- The input of a test: the poses of the round shape and of the polyhedron, `reportContacts`, `updateLastFrameInfo` (false for the queries of the user,
CollisionDetectionSystem.cpp:1207-1218), and whether the pair is a new one. -/
structure Frame (K : Type) where
  ts : Trans K
  tp : Trans K
  report : Bool
  update : Bool
  renew : Bool

def Frame.start (f : Frame K) (i : Info K) : Info K := if f.renew then .fresh else i

/-- `first` is whether the round shape is shape 1. -/
def Frame.t1 (f : Frame K) (first : Bool) : Trans K := if first then f.ts else f.tp
def Frame.t2 (f : Frame K) (first : Bool) : Trans K := if first then f.tp else f.ts

/-- The support functions and the margins of shape 1 and shape 2: those of a core with its radius and of a polyhedron, whose margin is 0
(ConvexPolyhedronShape.cpp:33-36, ConvexShape.h:62). -/
def supp1 (s : V3 K → V3 K) (P : Sat.Poly K) (first : Bool) : V3 K → V3 K := if first then s else P.support
def supp2 (s : V3 K → V3 K) (P : Sat.Poly K) (first : Bool) : V3 K → V3 K := if first then P.support else s
def marg1 (r : K) (first : Bool) : K := if first then r else 0
def marg2 (r : K) (first : Bool) : K := if first then 0 else r

/-- GJK for a core `s` with margin `r` and the polyhedron. -/
def gjkTest (c : Cfg K) (P : Sat.Poly K) (s : V3 K → V3 K) (r : K) (first : Bool) (f : Frame K) (i : Info K) (n : Nat) : Option (Option (Verdict K × V3 K)) :=
  search c (f.t1 first) (f.t2 first) (supp1 s P first) (supp2 s P first) (marg1 r first) (marg2 r first) i n

/-- `isValid` after the test (CollisionDetectionSystem.cpp:1207-1218). -/
def Frame.valid (f : Frame K) (i : Info K) : Bool := i.valid || f.update

/-- `SphereVsConvexPolyhedronAlgorithm::testCollision` (SphereVsConvexPolyhedronAlgorithm.cpp:38-103) for one pair. -/
def sphereTest (c : Cfg K) (N : Sat.Num K) (P : Sat.Poly K) (r : K) (first : Bool) (f : Frame K) (i : Info K) (n : Nat) : Option (Option (Out K)) :=
  (gjkTest c P (fun _ => 0) r first f (f.start i) n).map fun o => o.map fun q =>
    match q.1 with
    | .separated => ⟨false, [], ⟨f.valid (f.start i), true, false, q.2⟩⟩
    | .collide ct => ⟨true, if f.report then [ct] else [], ⟨f.valid (f.start i), true, false, q.2⟩⟩
    | .interpenetrate =>
      ⟨(Sat.sphere N P f.ts f.tp r first f.report).1, (Sat.sphere N P f.ts f.tp r first f.report).2, ⟨f.valid (f.start i), false, true, q.2⟩⟩

/-- `CapsuleVsConvexPolyhedronAlgorithm::testCollision` (CapsuleVsConvexPolyhedronAlgorithm.cpp:42-180) for one pair; `hh` is half the height. -/
def capsuleTest (c : Cfg K) (N : Sat.Num K) (P : Sat.Poly K) (hh r : K) (first : Bool) (f : Frame K) (i : Info K) (n : Nat) : Option (Option (Out K)) :=
  (gjkTest c P (capsuleSupport hh) r first f (f.start i) n).bind fun o =>
    match o with
    | none => some none
    | some q =>
      match q.1 with
      | .separated => some (some ⟨false, [], ⟨f.valid (f.start i), true, false, q.2⟩⟩)
      | .collide ct => (if f.report then Sat.shallow N P f.ts f.tp hh r first ct else some []).map fun cs =>
          some ⟨true, cs, ⟨f.valid (f.start i), true, false, q.2⟩⟩
      | .interpenetrate => (Sat.capsule N P f.ts f.tp hh r first f.report).map fun s => some ⟨s.1, s.2, ⟨f.valid (f.start i), false, true, q.2⟩⟩

/-- Tests of one pair, one after the other. -/
def frames (test : Frame K → Info K → Option (Option (Out K))) : Info K → List (Frame K) → Option (Option (List (Out K)))
  | _, [] => some (some [])
  | i, f :: fs => (test f i).bind fun o =>
    match o with
    | none => some none
    | some o => (frames test o.info fs).map fun os => os.map (o :: ·)

end RoundPoly
end RP3D
