import Verif.Props.Kinematic
import Verif.Props.Bounce
import Verif.Props.JointHold
import Verif.Props.JointWarm

/-! C138: scenes in balance stay at rest. -/

set_option linter.unusedSectionVars false

namespace RP3D
namespace Balance
open Solver Joints SolverProps JointProps Whole
variable {K : Type} [Field K] [LinearOrder K] [IsStrictOrderedRing K]

/-! ### Specification -/

/-- The sum of a list of vectors. -/
def vsum {α : Type} (f : α → V3 K) : List α → V3 K
  | [] => 0
  | a :: as => f a + vsum f as

/-- The friction force of a contact (times the time step). -/
def friction (X : XMan K) : V3 K := V3.smul X.f1 X.t1 + V3.smul X.f2 X.t2

/-- The whole force of a contact on its second body. -/
def force (X : XMan K) : V3 K := vsum (fun x => V3.smul x.imp x.normal) X.pts + friction X

/-- The mean of the points of a contact. -/
def middle (p : XPoint K → V3 K) (X : XMan K) : V3 K := V3.smul (1 / (X.pts.length : K)) (sum3 (X.pts.map p))

/-- The moment of this force about `c`: the normal forces act at the points, the friction in their middle. -/
def torque (p : XPoint K → V3 K) (X : XMan K) (c : V3 K) : V3 K :=
  vsum (fun x => V3.cross (p x - c) (V3.smul x.imp x.normal)) X.pts + V3.cross (middle p X - c) (friction X)

/-- Force and moment of a contact on body `b`: action and reaction. -/
def forceOn (b : Nat) (X : XMan K) : V3 K := (if X.b2 = b then force X else 0) - (if X.b1 = b then force X else 0)
def torqueOn (b : Nat) (c : V3 K) (X : XMan K) : V3 K := (if X.b2 = b then torque XPoint.p2 X c else 0) - (if X.b1 = b then torque XPoint.p1 X c else 0)

/-- The same for a joint. -/
def forceOfJoint (b : Nat) (J : Joint K) : V3 K := (if J.b1 = b then J.load.P1 else 0) + (if J.b2 = b then J.load.P2 else 0)
def torqueOfJoint (b : Nat) (J : Joint K) : V3 K := (if J.b1 = b then J.load.A1 else 0) + (if J.b2 = b then J.load.A2 else 0)

/-- A contact that can bear its load: it has touched before, it pushes, it does not reach deeper than the solver allows, its friction is in the plane of the contact and obeys Coulomb's
law, and there is no twist friction. -/
structure Bears (cfg : Cfg K) (sqrt : K → K) (X : XMan K) : Prop where
  some : X.pts ≠ []
  resting : ∀ x ∈ X.pts, x.resting = true
  pushes : ∀ x ∈ X.pts, 0 ≤ x.imp
  shallow : ∀ x ∈ X.pts, x.depth ≤ cfg.slop
  flat : V3.dot (friction X) (sum3 (X.pts.map XPoint.normal)) = 0
  coulomb : V3.lengthSq (friction X) ≤ (X.mu * (X.pts.map XPoint.imp).sum) * (X.mu * (X.pts.map XPoint.imp).sum)
  rough : 0 ≤ X.mu
  untwisted : X.tw = 0
  normals : cfg.eps ≤ sqrt (sum3 (X.pts.map XPoint.normal)).lengthSq

/-- A joint that can bear its load: it holds at the poses `X` of the bodies, its limits do not pull, and a motor that is switched on is told to stand still and strong enough. -/
def Firm (jc : JCfg K) (P : Nat → PBody K) (X : Nat → Pose K) : Joint K → Prop
  | .ball J => J.Holds jc P X
  | .fixed J => J.Holds P X
  | .hinge J => J.Holds jc P X ∧ 0 ≤ J.impL ∧ 0 ≤ J.impU ∧ (J.motorOn = true → J.speed = 0 ∧ |J.impM| ≤ J.max * jc.dt)
  | .slider J => J.Holds jc P X ∧ 0 ≤ J.impL ∧ 0 ≤ J.impU ∧ (J.motorOn = true → J.speed = 0 ∧ |J.impM| ≤ J.max * jc.dt)

/-- The impulse that the forces of the user and gravity give to a body in a step, less what the damping takes. -/
def given (i : In K) (d : Dyn K) : V3 K :=
  if d.disabled = true then 0 else V3.smul (i.dt / (1 + d.linDamp * i.dt)) (d.force + (match i.g with | some g => if d.gravity = true then V3.smul d.mass g else 0 | none => 0))

/-- The same for the torque of the user. -/
def givenT (i : In K) (d : Dyn K) : V3 K := if d.disabled = true then 0 else V3.smul (i.dt / (1 + d.angDamp * i.dt)) d.torque

/-- Where the bodies are, and the joints with the loads of the step before. -/
def posesOf (w : DW K) (b : Nat) : Pose K := ⟨(dyn w b).comWorld, (dyn w b).tr.ori⟩
def loaded (i : In K) (w : DW K) : List (Joint K) := (joints i.pins).map (Joint.init { i.jc with dt := i.dt } fun b => jbody (dyn w b))

/-- A scene in balance: all bodies are at rest, contacts and joints can bear their loads, and on every body the impulses of forces, gravity, contacts and joints and their moments are zero,
as far as the body can be moved. -/
structure Balanced (i : In K) (w : DW K) : Prop where
  warm : i.jc.warm = true
  eps : 0 < i.cc.eps
  threshold : 0 ≤ i.cc.threshold
  rest : ∀ b d, w.body b = some d → d.vel = 0 ∧ d.ang = 0
  unit : ∀ b d, w.body b = some d → d.tr.ori.lengthSq = 1
  /-- an invariant of all bodies (C65) -/
  com : ∀ b d, w.body b = some d → d.ComOk
  /-- nothing is left from a time when a body that takes no part in the simulation still did -/
  off : ∀ b d, w.body b = some d → d.disabled = true → d.cVel = 0 ∧ d.cAng = 0 ∧ d.sVel = 0 ∧ d.sAng = 0 ∧ d.cOri = d.tr.ori
  offJ : ∀ J ∈ joints i.pins, ∀ b, b = J.b1 ∨ b = J.b2 → (dyn w b).disabled = true → (dyn w b).cPos = (dyn w b).comWorld
  awake : ∀ l ∈ i.islands, ∀ b ∈ l, (dyn w b).sleeping = false
  contacts : ∀ X ∈ i.mans, Bears i.cc i.jc.sqrt X ∧ Galileo.Ex w X.b1 ∧ Galileo.Ex w X.b2
  joints : ∀ J ∈ joints i.pins, Firm { i.jc with dt := i.dt } (fun b => PBody.ofDyn (dyn w b)) (posesOf w) J ∧ Galileo.Ex w J.b1 ∧ Galileo.Ex w J.b2
  lin : ∀ b d, w.body b = some d → V3.had (V3.smul d.invMass (given i d + (vsum (forceOn b) i.mans + vsum (forceOfJoint b) (loaded i w)))) d.linLock = 0
  ang : ∀ b d, w.body b = some d → V3.had d.angLock (d.updateInertia.invInertiaW.act (givenT i d + (vsum (torqueOn b d.comWorld) i.mans + vsum (torqueOfJoint b) (loaded i w)))) = 0

/-! ### Contacts -/

section contacts
variable {cfg : Cfg K} {sqrt : K → K} {body : Nat → SBody K} {X : XMan K}

/-- A body without velocities. -/
def still : Vel K := ⟨0, 0, 0, 0⟩

/-- The manifold as the solver has it from the warm start on. -/
def warmed (cfg : Cfg K) (sqrt : K → K) (body : Nat → SBody K) (X : XMan K) : Man K :=
  let M := initMan cfg sqrt body X
  { M with f1 := V3.dot (friction X) M.t1, f2 := V3.dot (friction X) M.t2 }

theorem warmPoints_all (M : Man K) : ∀ (ps : List (CPoint K)) (V : Nat → Vel K), (∀ p ∈ ps, p.resting = true) → (warmPoints M V ps).2 = ps
  | [], _, _ => rfl
  | p :: ps, V, h => by
    show (warmPoint M V p).2 :: (warmPoints M (warmPoint M V p).1 ps).2 = _
    rw [warmPoints_all M ps _ fun q hq => h q (List.mem_cons_of_mem _ hq), warmPoint, if_pos (h p List.mem_cons_self)]

theorem warmMan_eq (h : Bears cfg sqrt X) (V : Nat → Vel K) : (warmMan V (initMan cfg sqrt body X)).2 = warmed cfg sqrt body X := by
  have hr : ∀ p ∈ (initMan cfg sqrt body X).pts, p.resting = true := by
    intro p hp
    obtain ⟨x, hx, rfl⟩ := List.mem_map.1 hp
    exact h.resting x hx
  have ha : (initMan cfg sqrt body X).pts.any CPoint.resting = true := by
    obtain ⟨x, hx⟩ := List.exists_mem_of_ne_nil _ h.some
    rw [List.any_eq_true]
    exact ⟨_, List.mem_map_of_mem hx, h.resting x hx⟩
  unfold warmMan
  dsimp only
  rw [if_pos ha, warmPoints_all _ _ _ hr]
  rfl

theorem warmStart_eq : ∀ (Xs : List (XMan K)) (V : Nat → Vel K), (∀ X ∈ Xs, Bears cfg sqrt X) →
    (warmStart V (Xs.map (initMan cfg sqrt body))).2 = Xs.map (warmed cfg sqrt body)
  | [], _, _ => rfl
  | X :: Xs, V, h => by
    show (warmMan V (initMan cfg sqrt body X)).2 :: (warmStart (warmMan V (initMan cfg sqrt body X)).1 (Xs.map (initMan cfg sqrt body))).2 = _
    rw [warmMan_eq (h X List.mem_cons_self), warmStart_eq Xs _ fun Y hY => h Y (List.mem_cons_of_mem _ hY)]
    rfl

theorem dot_smul_r (k : K) (a b : V3 K) : V3.dot a (V3.smul k b) = k * V3.dot a b := by simp only [V3.dot, V3.smul_x, V3.smul_y, V3.smul_z]; ring

/-- A vector in the plane is the sum of its parts along the friction directions. -/
theorem parts {n t F : V3 K} (hn : V3.dot n n = 1) (ht : V3.dot t t = 1) (htn : V3.dot t n = 0) (hF : V3.dot F n = 0) :
    V3.smul (V3.dot F t) t + V3.smul (V3.dot F (V3.cross n t)) (V3.cross n t) = F := by
  simp only [V3.dot] at hn ht htn hF
  ext <;> simp only [V3.dot, V3.cross, V3.add_x, V3.add_y, V3.add_z, V3.smul_x, V3.smul_y, V3.smul_z]
  · linear_combination (F.x * (t.x * t.x + t.y * t.y + t.z * t.z) - (F.x * t.x + F.y * t.y + F.z * t.z) * t.x) * hn + F.x * ht +
      (n.x * (F.x * t.x + F.y * t.y + F.z * t.z) + t.x * (F.x * n.x + F.y * n.y + F.z * n.z) - (t.x * n.x + t.y * n.y + t.z * n.z) * F.x) * htn -
      (t.x * t.x + t.y * t.y + t.z * t.z) * n.x * hF
  · linear_combination (F.y * (t.x * t.x + t.y * t.y + t.z * t.z) - (F.x * t.x + F.y * t.y + F.z * t.z) * t.y) * hn + F.y * ht +
      (n.y * (F.x * t.x + F.y * t.y + F.z * t.z) + t.y * (F.x * n.x + F.y * n.y + F.z * n.z) - (t.x * n.x + t.y * n.y + t.z * n.z) * F.y) * htn -
      (t.x * t.x + t.y * t.y + t.z * t.z) * n.y * hF
  · linear_combination (F.z * (t.x * t.x + t.y * t.y + t.z * t.z) - (F.x * t.x + F.y * t.y + F.z * t.z) * t.z) * hn + F.z * ht +
      (n.z * (F.x * t.x + F.y * t.y + F.z * t.z) + t.z * (F.x * n.x + F.y * n.y + F.z * n.z) - (t.x * n.x + t.y * n.y + t.z * n.z) * F.z) * htn -
      (t.x * t.x + t.y * t.y + t.z * t.z) * n.z * hF

theorem Bears.frame (h : Bears cfg sqrt X) (hs : IsSqrt sqrt) (he : 0 < cfg.eps) (body : Nat → SBody K) :
    V3.dot (initMan cfg sqrt body X).t1 (initMan cfg sqrt body X).t1 = 1 ∧ V3.dot (initMan cfg sqrt body X).t2 (initMan cfg sqrt body X).t2 = 1 ∧
      V3.smul (V3.dot (friction X) (initMan cfg sqrt body X).t1) (initMan cfg sqrt body X).t1 +
        V3.smul (V3.dot (friction X) (initMan cfg sqrt body X).t2) (initMan cfg sqrt body X).t2 = friction X := by
  obtain ⟨e1, e2, e3, e4, _, _⟩ := friction_frame hs cfg he body X h.normals
  have en : (initMan cfg sqrt body X).normal = V3.smul (1 / sqrt (sum3 (X.pts.map XPoint.normal)).lengthSq) (sum3 (X.pts.map XPoint.normal)) := by
    show unit cfg sqrt _ = _
    rw [unit, if_neg (not_lt.2 h.normals)]
  have hF : V3.dot (friction X) (initMan cfg sqrt body X).normal = 0 := by rw [en, dot_smul_r, h.flat, mul_zero]
  exact ⟨e2, e3, parts e1 e2 e4 hF⟩

/-- The part of a vector along a direction is not longer than the vector. -/
theorem part_le {a t : V3 K} {l : K} (hl : 0 ≤ l) (ht : V3.dot t t = 1) (ha : V3.lengthSq a ≤ l * l) : |V3.dot a t| ≤ l := by
  refine abs_le_of_sq_le_sq ?_ hl
  have ht' : t.x * t.x + t.y * t.y + t.z * t.z = 1 := ht
  have c : V3.dot a t * V3.dot a t ≤ V3.lengthSq a := by
    have q := mul_self_nonneg (a.x * t.y - a.y * t.x)
    have r := mul_self_nonneg (a.x * t.z - a.z * t.x)
    have u := mul_self_nonneg (a.y * t.z - a.z * t.y)
    have e : V3.lengthSq a = V3.lengthSq a * (t.x * t.x + t.y * t.y + t.z * t.z) := by rw [ht', mul_one]
    rw [e]
    simp only [V3.dot, V3.lengthSq]
    nlinarith
  rw [sq, sq]
  exact c.trans ha

theorem clamp_id {l f : K} (h : |f| ≤ l) : clamp l f = f := by
  obtain ⟨h1, h2⟩ := abs_le.1 h
  unfold clamp
  rw [min_eq_left h2, max_eq_right h1]

theorem push_zero (M : Man K) (p : CPoint K) (V : Nat → Vel K) : push M p 0 V = V := by
  funext b
  have z : ∀ m : K, ∀ l : V3 K, V3.had (V3.smul m 0) l = 0 := fun m l => by ext <;> simp [V3.had]
  unfold push
  simp only [zero_smul', z, sub_zero, add_zero]
  by_cases h2 : b = M.b2 <;> by_cases h1 : b = M.b1
  · subst h2; rw [upd_same, ← h1, upd_same]
  · subst h2; rw [upd_same, upd_ne _ _ h1]
  · rw [upd_ne _ _ h2, h1, upd_same]
  · rw [upd_ne _ _ h2, upd_ne _ _ h1]

theorem pushSplit_zero (M : Man K) (p : CPoint K) (V : Nat → Vel K) : pushSplit M p 0 V = V := by
  funext b
  have z : ∀ m : K, ∀ l : V3 K, V3.had (V3.smul m 0) l = 0 := fun m l => by ext <;> simp [V3.had]
  unfold pushSplit
  simp only [zero_smul', z, sub_zero, add_zero]
  by_cases h2 : b = M.b2 <;> by_cases h1 : b = M.b1
  · subst h2; rw [upd_same, ← h1, upd_same]
  · subst h2; rw [upd_same, upd_ne _ _ h1]
  · rw [upd_ne _ _ h2, h1, upd_same]
  · rw [upd_ne _ _ h2, upd_ne _ _ h1]

theorem rub_zero (M : Man K) (t c1 c2 : V3 K) (V : Nat → Vel K) : rub M t c1 c2 0 V = V := by
  funext b
  have hv := rub_v M t c1 c2 0 V b
  have hw := rub_w M t c1 c2 0 V b
  obtain ⟨h1, h2⟩ := rub_split M t c1 c2 0 V b
  rw [zero_smul', linOf_zero, add_zero] at hv
  rw [zero_smul', zero_smul', angOf_zero, add_zero] at hw
  exact Vel.ext hv hw h1 h2

theorem twist_zero' (M : Man K) (V : Nat → Vel K) : Solver.twist M 0 V = V := by
  funext b
  obtain ⟨hv, h1, h2⟩ := twist_same M 0 V b
  have hw := twist_w M 0 V b
  rw [zero_smul', angOf_zero, add_zero] at hw
  exact Vel.ext hv hw h1 h2

theorem rel_still (r1 r2 : V3 K) : rel still still r1 r2 = 0 := by ext <;> simp [rel, still, V3.cross]
theorem relSplit_still (r1 r2 : V3 K) : relSplit still still r1 r2 = 0 := by ext <;> simp [relSplit, still, V3.cross]
theorem zero_dot (a : V3 K) : V3.dot 0 a = 0 := by simp [V3.dot]

/-- A point that pushes and is not too deep is left alone. -/
theorem solvePoint_rest (M : Man K) {W : Nat → Vel K} (h1 : W M.b1 = still) (h2 : W M.b2 = still) {p : CPoint K} (hd : p.depth ≤ cfg.slop) (hb : p.bias = 0) (hi : 0 ≤ p.imp)
    (hp : p.split = 0) : solvePoint cfg M W p = (W, p) := by
  have db : depthBias cfg p = 0 := by unfold depthBias; rw [if_neg (not_lt.2 hd)]
  unfold solvePoint
  dsimp only
  simp only [h1, h2, rel_still, zero_dot, db, hb, add_zero, neg_zero, zero_mul, ite_self, max_eq_left hi, sub_self, push_zero, relSplit_still, hp, max_self, pushSplit_zero]
  obtain ⟨n, r1, r2, i1, i2, d, b, k, r, i, sp⟩ := p
  dsimp only at hb hp
  rw [hb, hp]

theorem solvePoints_rest (M : Man K) {W : Nat → Vel K} (h1 : W M.b1 = still) (h2 : W M.b2 = still) : ∀ (ps : List (CPoint K)),
    (∀ p ∈ ps, p.depth ≤ cfg.slop ∧ p.bias = 0 ∧ 0 ≤ p.imp ∧ p.split = 0) → solvePoints cfg M W ps = (W, ps)
  | [], _ => rfl
  | p :: ps, h => by
    obtain ⟨a, b, c, d⟩ := h p List.mem_cons_self
    show ((solvePoints cfg M (solvePoint cfg M W p).1 ps).1, (solvePoint cfg M W p).2 :: (solvePoints cfg M (solvePoint cfg M W p).1 ps).2) = _
    rw [solvePoint_rest M h1 h2 a b c d, solvePoints_rest M h1 h2 ps fun q hq => h q (List.mem_cons_of_mem _ hq)]

/-- A contact that bears its load is left alone. -/
theorem solveMan_rest (h : Bears cfg sqrt X) (hs : IsSqrt sqrt) (he : 0 < cfg.eps) (ht : 0 ≤ cfg.threshold) (hv : ∀ b, (body b).v = 0 ∧ (body b).w = 0) {W : Nat → Vel K}
    (h1 : W X.b1 = still) (h2 : W X.b2 = still) : solveMan cfg W (warmed cfg sqrt body X) = (W, warmed cfg sqrt body X) := by
  obtain ⟨f1, f2, -⟩ := h.frame hs he body
  have ps : solvePoints cfg (warmed cfg sqrt body X) W (warmed cfg sqrt body X).pts = (W, (warmed cfg sqrt body X).pts) := by
    refine solvePoints_rest _ h1 h2 _ fun p hp => ?_
    obtain ⟨x, hx, rfl⟩ := List.mem_map.1 hp
    refine ⟨h.shallow x hx, ?_, h.pushes x hx, rfl⟩
    show ite _ _ _ = _
    rw [(hv X.b1).1, (hv X.b1).2, (hv X.b2).1, (hv X.b2).2]
    have : rel (⟨0, 0, 0, 0⟩ : Vel K) ⟨0, 0, 0, 0⟩ (x.p1 - (body X.b1).x) (x.p2 - (body X.b2).x) = 0 := rel_still _ _
    rw [this, zero_dot, if_neg (by linarith)]
  have tot : total (warmed cfg sqrt body X).pts = (X.pts.map XPoint.imp).sum := by
    show ((X.pts.map (initPoint cfg (body X.b1) (body X.b2) X.restitution)).map CPoint.imp).sum = _
    rw [List.map_map]; rfl
  have lim : 0 ≤ X.mu * (X.pts.map XPoint.imp).sum := by
    refine mul_nonneg h.rough (List.sum_nonneg fun a ha => ?_)
    obtain ⟨x, hx, rfl⟩ := List.mem_map.1 ha
    exact h.pushes x hx
  have c1 : clamp (X.mu * (X.pts.map XPoint.imp).sum) (warmed cfg sqrt body X).f1 = (warmed cfg sqrt body X).f1 := clamp_id (part_le lim f1 h.coulomb)
  have c2 : clamp (X.mu * (X.pts.map XPoint.imp).sum) (warmed cfg sqrt body X).f2 = (warmed cfg sqrt body X).f2 := clamp_id (part_le lim f2 h.coulomb)
  have c3 : clamp (X.mu * (X.pts.map XPoint.imp).sum) (warmed cfg sqrt body X).tw = (warmed cfg sqrt body X).tw := by
    have : (warmed cfg sqrt body X).tw = 0 := h.untwisted
    rw [this]
    exact clamp_id (by rw [abs_zero]; exact lim)
  have b1 : W (warmed cfg sqrt body X).b1 = still := h1
  have b2 : W (warmed cfg sqrt body X).b2 = still := h2
  have mu : (warmed cfg sqrt body X).mu = X.mu := rfl
  generalize warmed cfg sqrt body X = M at *
  unfold solveMan
  dsimp only
  simp only [ps, tot, mu, b1, b2, rel_still, zero_dot, neg_zero, zero_mul, add_zero, c1, c2, sub_self, rub_zero]
  rw [c3, sub_self, twist_zero', ← mu]

theorem solve_rest (hs : IsSqrt sqrt) (he : 0 < cfg.eps) (ht : 0 ≤ cfg.threshold) (hv : ∀ b, (body b).v = 0 ∧ (body b).w = 0) {W : Nat → Vel K} : ∀ (Xs : List (XMan K)),
    (∀ X ∈ Xs, Bears cfg sqrt X ∧ W X.b1 = still ∧ W X.b2 = still) → Solver.solve cfg W (Xs.map (warmed cfg sqrt body)) = (W, Xs.map (warmed cfg sqrt body))
  | [], _ => rfl
  | X :: Xs, h => by
    obtain ⟨a, b, c⟩ := h X List.mem_cons_self
    show ((Solver.solve cfg (solveMan cfg W (warmed cfg sqrt body X)).1 (Xs.map (warmed cfg sqrt body))).1, (solveMan cfg W (warmed cfg sqrt body X)).2 ::
      (Solver.solve cfg (solveMan cfg W (warmed cfg sqrt body X)).1 (Xs.map (warmed cfg sqrt body))).2) = _
    rw [solveMan_rest a hs he ht hv b c, solve_rest hs he ht hv Xs fun Y hY => h Y (List.mem_cons_of_mem _ hY)]
    rfl

/-! #### What the impulses of the step before do -/

theorem impSum_init (A B : SBody K) (r : K) : ∀ l : List (XPoint K), impSum (l.map (initPoint cfg A B r)) = vsum (fun x => V3.smul x.imp x.normal) l
  | [] => rfl
  | x :: l => by
    show V3.smul x.imp x.normal + impSum (l.map (initPoint cfg A B r)) = _
    rw [impSum_init A B r l]; rfl

theorem smul_cross (k : K) (a b : V3 K) : V3.smul k (V3.cross a b) = V3.cross a (V3.smul k b) := by
  ext <;> simp only [V3.cross, V3.smul_x, V3.smul_y, V3.smul_z] <;> ring

theorem momSum_init1 (A B : SBody K) (r : K) : ∀ l : List (XPoint K),
    momSum CPoint.r1 (l.map (initPoint cfg A B r)) = vsum (fun x => V3.cross (x.p1 - A.x) (V3.smul x.imp x.normal)) l
  | [] => rfl
  | x :: l => by
    show V3.smul x.imp (V3.cross (x.p1 - A.x) x.normal) + momSum CPoint.r1 (l.map (initPoint cfg A B r)) = _
    rw [momSum_init1 A B r l, smul_cross]; rfl

theorem momSum_init2 (A B : SBody K) (r : K) : ∀ l : List (XPoint K),
    momSum CPoint.r2 (l.map (initPoint cfg A B r)) = vsum (fun x => V3.cross (x.p2 - B.x) (V3.smul x.imp x.normal)) l
  | [] => rfl
  | x :: l => by
    show V3.smul x.imp (V3.cross (x.p2 - B.x) x.normal) + momSum CPoint.r2 (l.map (initPoint cfg A B r)) = _
    rw [momSum_init2 A B r l, smul_cross]; rfl

theorem impulse_warmed (h : Bears cfg sqrt X) (hs : IsSqrt sqrt) (he : 0 < cfg.eps) : impulse (warmed cfg sqrt body X) = force X := by
  obtain ⟨-, -, f⟩ := h.frame hs he body
  unfold impulse force
  rw [add_assoc]
  exact congrArg₂ (· + ·) (impSum_init _ _ _ _) f

theorem moment1_warmed (h : Bears cfg sqrt X) (hs : IsSqrt sqrt) (he : 0 < cfg.eps) : moment1 (warmed cfg sqrt body X) = torque XPoint.p1 X (body X.b1).x := by
  obtain ⟨-, -, f⟩ := h.frame hs he body
  unfold moment1 torque
  have t : (warmed cfg sqrt body X).tw = 0 := h.untwisted
  rw [t, zero_smul', add_zero, add_assoc]
  refine congrArg₂ (· + ·) (momSum_init1 _ _ _ _) ?_
  show V3.smul (V3.dot (friction X) (initMan cfg sqrt body X).t1) (V3.cross (middle XPoint.p1 X - (body X.b1).x) (initMan cfg sqrt body X).t1) +
    V3.smul (V3.dot (friction X) (initMan cfg sqrt body X).t2) (V3.cross (middle XPoint.p1 X - (body X.b1).x) (initMan cfg sqrt body X).t2) = _
  rw [smul_cross, smul_cross, ← cross_addv, f]

theorem moment2_warmed (h : Bears cfg sqrt X) (hs : IsSqrt sqrt) (he : 0 < cfg.eps) : moment2 (warmed cfg sqrt body X) = torque XPoint.p2 X (body X.b2).x := by
  obtain ⟨-, -, f⟩ := h.frame hs he body
  unfold moment2 torque
  have t : (warmed cfg sqrt body X).tw = 0 := h.untwisted
  rw [t, zero_smul', add_zero, add_assoc]
  refine congrArg₂ (· + ·) (momSum_init2 _ _ _ _) ?_
  show V3.smul (V3.dot (friction X) (initMan cfg sqrt body X).t1) (V3.cross (middle XPoint.p2 X - (body X.b2).x) (initMan cfg sqrt body X).t1) +
    V3.smul (V3.dot (friction X) (initMan cfg sqrt body X).t2) (V3.cross (middle XPoint.p2 X - (body X.b2).x) (initMan cfg sqrt body X).t2) = _
  rw [smul_cross, smul_cross, ← cross_addv, f]

theorem had_add (m : K) (a b l : V3 K) : V3.had (V3.smul m (a + b)) l = V3.had (V3.smul m a) l + V3.had (V3.smul m b) l := by
  ext <;> simp [V3.had] <;> ring
theorem had_zero_left (m : K) (l : V3 K) : V3.had (V3.smul m 0) l = 0 := by ext <;> simp [V3.had]
theorem had_act_add (I : M3 K) (a b l : V3 K) : V3.had l (I.act (a + b)) = V3.had l (I.act a) + V3.had l (I.act b) := by
  ext <;> simp [V3.had, M3.act] <;> ring
theorem had_act_zero (I : M3 K) (l : V3 K) : V3.had l (I.act 0) = 0 := by ext <;> simp [V3.had, M3.act]

theorem linEff_warmed (h : Bears cfg sqrt X) (hs : IsSqrt sqrt) (he : 0 < cfg.eps) (b : Nat) :
    linEff (warmed cfg sqrt body X) b = V3.had (V3.smul (body b).m (forceOn b X)) (body b).ll := by
  unfold linEff
  rw [impulse_warmed h hs he]
  show (if X.b2 = b then V3.had (V3.smul (body X.b2).m (force X)) (body X.b2).ll else 0) - (if X.b1 = b then V3.had (V3.smul (body X.b1).m (force X)) (body X.b1).ll else 0) = _
  unfold forceOn
  by_cases h2 : X.b2 = b <;> by_cases h1 : X.b1 = b
  · rw [if_pos h2, if_pos h1, if_pos h2, if_pos h1, h1, h2, sub_self, sub_self, had_zero_left]
  · rw [if_pos h2, if_neg h1, if_pos h2, if_neg h1, h2, sub_zero, sub_zero]
  · rw [if_neg h2, if_pos h1, if_neg h2, if_pos h1, h1]
    ext <;> simp [V3.had]
  · rw [if_neg h2, if_neg h1, if_neg h2, if_neg h1, sub_self, had_zero_left]

theorem angEff_warmed (h : Bears cfg sqrt X) (hs : IsSqrt sqrt) (he : 0 < cfg.eps) (b : Nat) :
    angEff (warmed cfg sqrt body X) b = V3.had (body b).la ((body b).I.act (torqueOn b (body b).x X)) := by
  unfold angEff
  rw [moment1_warmed h hs he, moment2_warmed h hs he]
  show (if X.b2 = b then V3.had (body X.b2).la ((body X.b2).I.act (torque XPoint.p2 X (body X.b2).x)) else 0) -
    (if X.b1 = b then V3.had (body X.b1).la ((body X.b1).I.act (torque XPoint.p1 X (body X.b1).x)) else 0) = _
  unfold torqueOn
  have sub : ∀ (I : M3 K) (l a c : V3 K), V3.had l (I.act (a - c)) = V3.had l (I.act a) - V3.had l (I.act c) := fun I l a c => by
    ext <;> simp [V3.had, M3.act] <;> ring
  rw [sub]
  by_cases h2 : X.b2 = b <;> by_cases h1 : X.b1 = b
  · rw [if_pos h2, if_pos h1, if_pos h2, if_pos h1, h1, h2]
  · rw [if_pos h2, if_neg h1, if_pos h2, if_neg h1, h2, had_act_zero]
  · rw [if_neg h2, if_pos h1, if_neg h2, if_pos h1, h1, had_act_zero]
  · rw [if_neg h2, if_neg h1, if_neg h2, if_neg h1, had_act_zero]

theorem linAll_warmed (hs : IsSqrt sqrt) (he : 0 < cfg.eps) (b : Nat) : ∀ (Xs : List (XMan K)), (∀ X ∈ Xs, Bears cfg sqrt X) →
    linAll b (Xs.map (warmed cfg sqrt body)) = V3.had (V3.smul (body b).m (vsum (forceOn b) Xs)) (body b).ll
  | [], _ => (had_zero_left _ _).symm
  | X :: Xs, h => by
    show linEff (warmed cfg sqrt body X) b + linAll b (Xs.map (warmed cfg sqrt body)) = _
    rw [linEff_warmed (h X List.mem_cons_self) hs he, linAll_warmed hs he b Xs fun Y hY => h Y (List.mem_cons_of_mem _ hY), ← had_add]
    rfl

theorem angAll_warmed (hs : IsSqrt sqrt) (he : 0 < cfg.eps) (b : Nat) : ∀ (Xs : List (XMan K)), (∀ X ∈ Xs, Bears cfg sqrt X) →
    angAll b (Xs.map (warmed cfg sqrt body)) = V3.had (body b).la ((body b).I.act (vsum (torqueOn b (body b).x) Xs)) ∧ twistAll b (Xs.map (warmed cfg sqrt body)) = 0
  | [], _ => ⟨(had_act_zero _ _).symm, rfl⟩
  | X :: Xs, h => by
    obtain ⟨k1, k2⟩ := angAll_warmed hs he b Xs fun Y hY => h Y (List.mem_cons_of_mem _ hY)
    have t : (warmed cfg sqrt body X).tw = 0 := (h X List.mem_cons_self).untwisted
    constructor
    · show angEff (warmed cfg sqrt body X) b + angAll b (Xs.map (warmed cfg sqrt body)) = _
      rw [angEff_warmed (h X List.mem_cons_self) hs he, k1, ← had_act_add]
      rfl
    · show angOf _ b (V3.smul (warmed cfg sqrt body X).tw _) (V3.smul (warmed cfg sqrt body X).tw _) + twistAll b (Xs.map (warmed cfg sqrt body)) = 0
      rw [t, zero_smul', angOf_zero, k2, add_zero]

/-- The next step finds the contact as this one did. -/
theorem store_warmed (h : Bears cfg sqrt X) (hs : IsSqrt sqrt) (he : 0 < cfg.eps) : ∃ f1 f2 t1 t2, store (warmed cfg sqrt body X) X = { X with f1 := f1, f2 := f2, t1 := t1, t2 := t2 } ∧
    friction (store (warmed cfg sqrt body X) X) = friction X := by
  obtain ⟨-, -, f⟩ := h.frame hs he body
  refine ⟨(warmed cfg sqrt body X).f1, (warmed cfg sqrt body X).f2, (warmed cfg sqrt body X).t1, (warmed cfg sqrt body X).t2, ?_, f⟩
  have e : (X.pts.zip (warmed cfg sqrt body X).pts).map (fun q => ({ q.1 with imp := q.2.imp, resting := true } : XPoint K)) = X.pts := by
    show (X.pts.zip (X.pts.map (initPoint cfg (body X.b1) (body X.b2) X.restitution))).map _ = _
    have hr := h.resting
    generalize X.pts = l at hr ⊢
    induction l with
    | nil => rfl
    | cons x l ih =>
      rw [List.map_cons, List.zip_cons_cons, List.map_cons, ih fun y hy => hr y (List.mem_cons_of_mem _ hy)]
      have hx := hr x List.mem_cons_self
      obtain ⟨n, p1, p2, d, r, i⟩ := x
      dsimp only at hx
      rw [hx]
      rfl
  unfold store
  rw [e]
  have t : (warmed cfg sqrt body X).tw = X.tw := rfl
  rw [t]

end contacts

/-! ### Joints -/

section jointsPart
variable {jc : JCfg K} {body : Nat → JBody K} {W : Nat → Vel K}

theorem keeps (k i : K) (hi : 0 ≤ i) : max (i + k * (-0 - 0)) 0 = i := by rw [neg_zero, sub_zero, mul_zero, add_zero, max_eq_left hi]
theorem keeps' (k i : K) (hi : 0 ≤ i) : max (i + k * (0 - 0)) 0 = i := by rw [sub_zero, mul_zero, add_zero, max_eq_left hi]
theorem keepsM (k i m : K) (hi : |i| ≤ m) : min (max (i + k * (-0 - 0)) (-m)) m = i := by
  rw [neg_zero, sub_zero, mul_zero, add_zero, max_eq_left (abs_le.1 hi).1, min_eq_left (abs_le.1 hi).2]
theorem dot_zero' (a : V3 K) : V3.dot a 0 = 0 := by simp [V3.dot]
theorem still_v : (still : Vel K).v = 0 := rfl
theorem still_w : (still : Vel K).w = 0 := rfl
theorem shove_zero (c : Two K) (a b : V3 K) (V : Nat → Vel K) : shove c (V3.smul 0 a) (V3.smul 0 b) V = V := by
  funext i
  unfold shove
  have z : ∀ (m : K) (l : V3 K), V3.had (V3.smul m l) 0 = 0 := fun m l => by ext <;> simp [V3.had]
  simp only [zero_smul', z, add_zero]
  unfold upd
  split_ifs with h1 h2 h2
  · rw [h1, h2]
  · rw [h1]
  · rw [h2]
  · rfl

theorem pinned {N : Ball K} (h1 : W N.b1 = still) (h2 : W N.b2 = still) (hb : N.bias = 0) : N.joint body W = (W, N) := by
  unfold Ball.joint
  dsimp only
  rw [h1, h2, rel_still, hb, neg_zero', sub_zero, act_zero', pin_zero, add_zero, ← hb]

theorem Ball.solve_rest {N : Ball K} (h1 : W N.b1 = still) (h2 : W N.b2 = still) (hb : N.bias = 0) (hc : N.coneOn = true → N.cone = false) : N.solve body W = (W, N) := by
  have : N.limit body W = (W, N) := by
    unfold Ball.limit
    split_ifs with a b
    · rw [hc a] at b; cases b
    · rfl
    · rfl
  unfold Ball.solve
  dsimp only
  rw [this, pinned h1 h2 hb]

theorem Fixed.solve_rest {N : Fixed K} (h1 : W N.b1 = still) (h2 : W N.b2 = still) (hb : N.bias = 0) (hr : N.biasR = 0) : N.solve body W = (W, N) := by
  have a : N.joint body W = (W, N) := by
    unfold Fixed.joint
    dsimp only
    rw [h1, h2, rel_still, hb, neg_zero', sub_zero, act_zero', pin_zero, add_zero, ← hb]
  have b : N.rotation body W = (W, N) := by
    unfold Fixed.rotation
    dsimp only
    rw [h1, h2, still_w, hr, sub_self, neg_zero', sub_zero, act_zero', neg_zero', add_zero]
    have := turn_zero (two body N.b1 N.b2) 0 0 W
    rw [zero_smul'] at this
    rw [this, ← hr]
  unfold Fixed.solve
  dsimp only
  rw [a, b]

theorem Hinge.solve_rest {N : Hinge K} (h1 : W N.b1 = still) (h2 : W N.b2 = still) (hb : N.bias = 0) (hr : N.biasR = ⟨0, 0⟩)
    (hL : N.limitOn = true → N.low = true → N.biasL = 0 ∧ 0 ≤ N.impL) (hU : N.limitOn = true → N.up = true → N.biasU = 0 ∧ 0 ≤ N.impU)
    (hM : N.motorOn = true → N.speed = 0 ∧ |N.impM| ≤ N.max * jc.dt) : N.solve jc body W = (W, N) := by
  have a : N.limitL body W = (W, N) := by
    unfold Hinge.limitL
    split_ifs with c
    · rw [Bool.and_eq_true] at c
      obtain ⟨e, f⟩ := hL c.1 c.2
      dsimp only
      rw [h1, h2, still_w, sub_self, zero_dot, e, keeps _ _ f, sub_self, neg_zero, turn_zero, ← e]
    · rfl
  have b : N.limitU body W = (W, N) := by
    unfold Hinge.limitU
    split_ifs with c
    · rw [Bool.and_eq_true] at c
      obtain ⟨e, f⟩ := hU c.1 c.2
      dsimp only
      rw [h1, h2, still_w, sub_self, zero_dot, e, neg_zero, keeps _ _ f, sub_self, neg_zero, turn_zero, ← e]
    · rfl
  have c : N.motor jc body W = (W, N) := by
    unfold Hinge.motor
    split_ifs with c
    · obtain ⟨e, f⟩ := hM c
      dsimp only
      rw [h1, h2, still_w, sub_self, dot_zero', e, keepsM _ _ _ f, sub_self, neg_zero, turn_zero, ← e]
    · rfl
  have d : N.rotation body W = (W, N) := by
    unfold Hinge.rotation
    dsimp only
    rw [h1, h2, still_w, dot_zero', dot_zero', hr, neg_zero, add_zero, neg_zero, sub_zero, act2_zero]
    have z : N.swing ⟨0, 0⟩ = V3.smul 0 0 ∧ N.swing' ⟨0, 0⟩ = V3.smul 0 0 := by
      unfold Hinge.swing Hinge.swing'
      constructor <;> ext <;> simp
    rw [z.1, z.2, turn_zero, add_zero, add_zero, ← hr]
  have e : N.joint body W = (W, N) := by
    unfold Hinge.joint
    dsimp only
    rw [h1, h2, rel_still, hb, neg_zero', sub_zero, act_zero', pin_zero, add_zero, ← hb]
  unfold Hinge.solve
  dsimp only
  rw [a, b, c, d, e]

theorem Slider.solve_rest {N : Slider K} (h1 : W N.b1 = still) (h2 : W N.b2 = still) (hb : N.bias = ⟨0, 0⟩) (hr : N.biasR = 0)
    (hL : N.limitOn = true → N.low = true → N.biasL = 0 ∧ 0 ≤ N.impL) (hU : N.limitOn = true → N.up = true → N.biasU = 0 ∧ 0 ≤ N.impU)
    (hM : N.motorOn = true → N.speed = 0 ∧ |N.impM| ≤ N.max * jc.dt) : N.solve jc body W = (W, N) := by
  have al : N.along W = 0 := by
    unfold Slider.along
    rw [h1, h2, still_w, still_v, dot_zero', dot_zero', dot_zero', add_zero, sub_zero, sub_zero]
  have a : N.limitL body W = (W, N) := by
    unfold Slider.limitL
    split_ifs with c
    · rw [Bool.and_eq_true] at c
      obtain ⟨e, f⟩ := hL c.1 c.2
      dsimp only
      rw [al, e, keeps _ _ f, sub_self, neg_zero, zero_smul', zero_smul', zero_smul', kick_zero, ← e]
    · rfl
  have b : N.limitU body W = (W, N) := by
    unfold Slider.limitU
    split_ifs with c
    · rw [Bool.and_eq_true] at c
      obtain ⟨e, f⟩ := hU c.1 c.2
      dsimp only
      rw [al, e, keeps' _ _ f, sub_self, neg_zero, zero_smul', zero_smul', zero_smul', kick_zero, ← e]
    · rfl
  have c : N.motor jc body W = (W, N) := by
    unfold Slider.motor
    split_ifs with c
    · obtain ⟨e, f⟩ := hM c
      dsimp only
      rw [h1, h2, still_v, sub_self, e, keepsM _ _ _ f, sub_self, neg_zero, shove_zero, ← e]
    · rfl
  have d : N.rotation body W = (W, N) := by
    unfold Slider.rotation
    dsimp only
    rw [h1, h2, still_w, hr, sub_self, neg_zero', sub_zero, act_zero', neg_zero', add_zero]
    have := turn_zero (two body N.b1 N.b2) 0 0 W
    rw [zero_smul'] at this
    rw [this, ← hr]
  have e : N.joint body W = (W, N) := by
    unfold Slider.joint
    dsimp only
    rw [h1, h2, still_w, still_v, dot_zero', dot_zero', zero_dot, zero_dot, zero_dot, zero_dot, hb, neg_zero, sub_zero, add_zero, add_zero, sub_zero, neg_zero, act2_zero]
    simp only [zero_smul', sub_self, neg_zero', add_zero, kick_zero]
    rw [← hb]
  unfold Slider.solve
  dsimp only
  rw [a, b, c, d, e]

variable {P : Nat → PBody K} {X : Nat → Pose K}

/-- **C138 (joints).** A joint that can bear its load changes nothing while its bodies are at rest. -/
theorem joint_rest (hs : IsSqrt jc.sqrt) (hp : ∀ b, (P b).com = (body b).com) (hx : ∀ b, X b = ⟨(body b).x, (body b).q⟩) {J : Joint K} (h : Firm jc P X J) (h1 : W J.b1 = still) (h2 : W J.b2 = still) :
    (J.init jc body).solve jc body W = (W, J.init jc body) := by
  have gap : ∀ b a, anchorAt P X b a = (body b).x + arm (body b) a := fun b a => by
    unfold anchorAt arm
    rw [hx, hp]
  have clo : ∀ b1 b2 a1 a2, anchorAt P X b1 a1 = anchorAt P X b2 a2 → (body b2).x + arm (body b2) a2 - (body b1).x - arm (body b1) a1 = 0 := by
    intro b1 b2 a1 a2 e
    rw [gap, gap] at e
    rw [← e]; abel
  have bz : ∀ (c : Bool) (k : K) (v : V3 K), v = 0 → (if c = true then V3.smul k v else 0) = 0 := by
    intro c k v e
    rw [e, smul_zero_right, ite_self]
  have tz : ∀ b1 b2 d, Aligned X b1 b2 d → turnError (body b1) (body b2) d = 0 := by
    intro b1 b2 d e
    unfold Aligned at e
    rw [hx, hx] at e
    dsimp only at e
    unfold turnError
    dsimp only
    rcases e with e | e <;> rw [e] <;> unfold Quat.mul Quat.conj
    · ext <;> simp <;> ring
    · unfold Quat.scale; ext <;> simp <;> ring
  cases J with
  | ball J =>
    obtain ⟨e1, e2⟩ := h
    have : (J.init jc body).solve body W = (W, J.init jc body) := by
      refine Ball.solve_rest h1 h2 (bz _ _ _ (clo _ _ _ _ e1)) fun c => ?_
      have o := e2 c
      unfold Ball.ConeOk at o
      rw [hx, hx, hp, hp] at o
      exact decide_eq_false (not_lt.2 (sub_nonneg.2 o))
    show (((J.init jc body).solve body W).1, Joint.ball ((J.init jc body).solve body W).2) = _
    rw [this]; rfl
  | fixed J =>
    obtain ⟨e1, e2⟩ := h
    have : (J.init jc body).solve body W = (W, J.init jc body) := Fixed.solve_rest h1 h2 (bz _ _ _ (clo _ _ _ _ e1)) (bz _ _ _ (tz _ _ _ e2))
    show (((J.init jc body).solve body W).1, Joint.fixed ((J.init jc body).solve body W).2) = _
    rw [this]; rfl
  | hinge J =>
    obtain ⟨⟨e1, e2, e3, e4⟩, i1, i2, m⟩ := h
    have : (J.init jc body).solve jc body W = (W, J.init jc body) := by
      rw [hx, hx] at e2 e4
      rw [hx] at e3
      dsimp only at e2 e3 e4
      refine Hinge.solve_rest h1 h2 (bz _ _ _ (clo _ _ _ _ e1)) ?_ ?_ ?_ ?_
      · obtain ⟨k, hk⟩ := unitOf_smul jc ((body J.b1).q.rot J.l1)
        obtain ⟨z1, z2⟩ := parallel_zero hs e2 e3
        have ds : ∀ u v : V3 K, V3.dot (V3.smul k u) v = k * V3.dot u v := fun u v => by simp only [V3.dot, V3.smul_x, V3.smul_y, V3.smul_z]; ring
        show (if J.baum = true then (⟨jc.beta / jc.dt * V3.dot (unitOf jc ((body J.b1).q.rot J.l1)) _, jc.beta / jc.dt * V3.dot (unitOf jc ((body J.b1).q.rot J.l1)) _⟩ : V2 K) else ⟨0, 0⟩) = _
        rw [hk, ds, ds, z1, z2, mul_zero, mul_zero, ite_self]
      · intro on low
        have l := of_decide_eq_true low
        obtain ⟨g, -⟩ := e4 on
        constructor
        · show ite _ (ite _ _ _) _ = _
          have e : hingeAngle jc J.d (unitOf jc ((body J.b1).q.rot J.l1)) J.lower J.upper (body J.b1).q (body J.b2).q - J.lower = 0 := le_antisymm l (sub_nonneg.2 g)
          have low' : decide (hingeAngle jc J.d (unitOf jc ((body J.b1).q.rot J.l1)) J.lower J.upper (body J.b1).q (body J.b2).q - J.lower ≤ 0) = true := low
          have on' : J.limitOn = true := on
          rw [low', on', e, mul_zero, ite_self]
          simp
        · show 0 ≤ ite _ _ (ite _ _ _)
          split_ifs <;> first | exact le_rfl | exact i1
      · intro on up
        have l := of_decide_eq_true up
        obtain ⟨-, g⟩ := e4 on
        constructor
        · show ite _ (ite _ _ _) _ = _
          have e : J.upper - hingeAngle jc J.d (unitOf jc ((body J.b1).q.rot J.l1)) J.lower J.upper (body J.b1).q (body J.b2).q = 0 := le_antisymm l (sub_nonneg.2 g)
          have up' : decide (J.upper - hingeAngle jc J.d (unitOf jc ((body J.b1).q.rot J.l1)) J.lower J.upper (body J.b1).q (body J.b2).q ≤ 0) = true := up
          have on' : J.limitOn = true := on
          rw [up', on', e, mul_zero, ite_self]
          simp
        · show 0 ≤ ite _ _ (ite _ _ _)
          split_ifs <;> first | exact le_rfl | exact i2
      · intro on
        obtain ⟨a, b⟩ := m on
        refine ⟨a, ?_⟩
        show |ite _ _ _| ≤ _
        split_ifs
        · exact b
        · rw [abs_zero]; exact le_trans (abs_nonneg _) b
    show (((J.init jc body).solve jc body W).1, Joint.hinge ((J.init jc body).solve jc body W).2) = _
    rw [this]; rfl
  | slider J =>
    obtain ⟨⟨e1, e2, e3, e4⟩, i1, i2, m⟩ := h
    have du : anchorAt P X J.b2 J.a2 - anchorAt P X J.b1 J.a1 = (body J.b2).x + arm (body J.b2) J.a2 - (body J.b1).x - arm (body J.b1) J.a1 := by
      rw [gap, gap]; abel
    have : (J.init jc body).solve jc body W = (W, J.init jc body) := by
      rw [du] at e1 e4
      rw [hx] at e1 e2 e4
      dsimp only at e1 e2 e4
      refine Slider.solve_rest h1 h2 ?_ (bz _ _ _ (tz _ _ _ e3)) ?_ ?_ ?_
      · obtain ⟨z1, z2⟩ := parallel_zero hs e1 e2
        show (if J.baum = true then (⟨jc.beta / jc.dt * _, jc.beta / jc.dt * _⟩ : V2 K) else ⟨0, 0⟩) = _
        rw [z1, z2, mul_zero, ite_self]
      · intro on low
        have l := of_decide_eq_true low
        obtain ⟨g, -⟩ := e4 on
        constructor
        · show ite _ (ite _ _ _) _ = _
          have e : V3.dot ((body J.b2).x + arm (body J.b2) J.a2 - (body J.b1).x - arm (body J.b1) J.a1) (unitOf jc ((body J.b1).q.rot J.l1)) - J.lower = 0 := le_antisymm l (sub_nonneg.2 g)
          have low' : decide (V3.dot ((body J.b2).x + arm (body J.b2) J.a2 - (body J.b1).x - arm (body J.b1) J.a1) (unitOf jc ((body J.b1).q.rot J.l1)) - J.lower ≤ 0) = true := low
          have on' : J.limitOn = true := on
          rw [low', on', e, mul_zero, ite_self]
          simp
        · show 0 ≤ ite _ _ _
          split_ifs <;> first | exact le_rfl | exact i1
      · intro on up
        have l := of_decide_eq_true up
        obtain ⟨-, g⟩ := e4 on
        constructor
        · show ite _ (ite _ _ _) _ = _
          have e : J.upper - V3.dot ((body J.b2).x + arm (body J.b2) J.a2 - (body J.b1).x - arm (body J.b1) J.a1) (unitOf jc ((body J.b1).q.rot J.l1)) = 0 := le_antisymm l (sub_nonneg.2 g)
          have up' : decide (J.upper - V3.dot ((body J.b2).x + arm (body J.b2) J.a2 - (body J.b1).x - arm (body J.b1) J.a1) (unitOf jc ((body J.b1).q.rot J.l1)) ≤ 0) = true := up
          have on' : J.limitOn = true := on
          rw [up', on', e, mul_zero, ite_self]
          simp
        · show 0 ≤ ite _ _ _
          split_ifs <;> first | exact le_rfl | exact i2
      · intro on
        obtain ⟨a, b⟩ := m on
        refine ⟨a, ?_⟩
        show |ite _ _ _| ≤ _
        split_ifs
        · exact b
        · rw [abs_zero]; exact le_trans (abs_nonneg _) b
    show (((J.init jc body).solve jc body W).1, Joint.slider ((J.init jc body).solve jc body W).2) = _
    rw [this]; rfl

/-! #### What the impulses of the step before do -/

theorem linK_force (J : Joint K) (b : Nat) : linK (two body J.b1 J.b2) J.load b = V3.had (V3.smul (body b).m (forceOfJoint b J)) (body b).ll := by
  show (if J.b1 = b then V3.had (V3.smul (body J.b1).m (body J.b1).ll) J.load.P1 else 0) + (if J.b2 = b then V3.had (V3.smul (body J.b2).m (body J.b2).ll) J.load.P2 else 0) = _
  unfold forceOfJoint
  have e : ∀ c F, V3.had (V3.smul (body c).m (body c).ll) F = V3.had (V3.smul (body c).m F) (body c).ll := fun c F => by ext <;> simp [V3.had] <;> ring
  rw [had_add]
  by_cases h2 : J.b2 = b <;> by_cases h1 : J.b1 = b
  · rw [if_pos h2, if_pos h1, if_pos h2, if_pos h1, h1, h2, e, e]
  · rw [if_pos h2, if_neg h1, if_pos h2, if_neg h1, h2, e, had_zero_left]
  · rw [if_neg h2, if_pos h1, if_neg h2, if_pos h1, h1, e, had_zero_left]
  · rw [if_neg h2, if_neg h1, if_neg h2, if_neg h1, had_zero_left]

theorem angK_torque (J : Joint K) (b : Nat) : angK (two body J.b1 J.b2) J.load b = V3.had (body b).la ((body b).I.act (torqueOfJoint b J)) := by
  show (if J.b1 = b then V3.had (body J.b1).la ((body J.b1).I.act J.load.A1) else 0) + (if J.b2 = b then V3.had (body J.b2).la ((body J.b2).I.act J.load.A2) else 0) = _
  unfold torqueOfJoint
  rw [had_act_add]
  by_cases h2 : J.b2 = b <;> by_cases h1 : J.b1 = b
  · rw [if_pos h2, if_pos h1, if_pos h2, if_pos h1, h1, h2]
  · rw [if_pos h2, if_neg h1, if_pos h2, if_neg h1, h2, had_act_zero]
  · rw [if_neg h2, if_pos h1, if_neg h2, if_pos h1, h1, had_act_zero]
  · rw [if_neg h2, if_neg h1, if_neg h2, if_neg h1, had_act_zero]

theorem linJ_force (b : Nat) : ∀ Js : List (Joint K), linJ body b Js = V3.had (V3.smul (body b).m (vsum (forceOfJoint b) Js)) (body b).ll
  | [] => (had_zero_left _ _).symm
  | J :: Js => by
    show linK (two body J.b1 J.b2) J.load b + linJ body b Js = _
    rw [linK_force, linJ_force b Js, ← had_add]; rfl

theorem angJ_torque (b : Nat) : ∀ Js : List (Joint K), angJ body b Js = V3.had (body b).la ((body b).I.act (vsum (torqueOfJoint b) Js))
  | [] => (had_act_zero _ _).symm
  | J :: Js => by
    show angK (two body J.b1 J.b2) J.load b + angJ body b Js = _
    rw [angK_torque, angJ_torque b Js, ← had_act_add]; rfl

end jointsPart

/-! ### The solvers -/

section solvers
variable {cfg : Cfg K} {jc : JCfg K} {body : Nat → JBody K} {V : Nat → Vel K} {P : Nat → PBody K} {X : Nat → Pose K} {Js : List (Joint K)} {Xs : List (XMan K)}

/-- **C138 (the solvers).** If the bodies are at rest, contacts and joints can bear their loads, and on every body these loads take away just what the other forces give, then the solvers end
with all bodies at rest, with the same impulses, for any number of iterations. -/
theorem solveStep_rest (hw : jc.warm = true) (hs : IsSqrt jc.sqrt) (he : 0 < cfg.eps) (ht : 0 ≤ cfg.threshold) (hv : ∀ b, (body b).v = 0 ∧ (body b).w = 0)
    (hp : ∀ b, (P b).com = (body b).com) (hx : ∀ b, X b = ⟨(body b).x, (body b).q⟩) (hJ : ∀ J ∈ Js, Firm jc P X J) (hX : ∀ X ∈ Xs, Bears cfg jc.sqrt X)
    (lin : ∀ b, (V b).v + V3.had (V3.smul (body b).m (vsum (forceOn b) Xs + vsum (forceOfJoint b) (Js.map (Joint.init jc body)))) (body b).ll = 0)
    (ang : ∀ b, (V b).w + V3.had (body b).la ((body b).I.act (vsum (torqueOn b (body b).x) Xs + vsum (torqueOfJoint b) (Js.map (Joint.init jc body)))) = 0)
    (split : ∀ b, (V b).vs = 0 ∧ (V b).ws = 0) (n : Nat) :
    solveStep cfg jc body V Js Xs n = (fun _ => still, Js.map (Joint.init jc body), Xs.map (warmed cfg jc.sqrt fun b => (body b).toSBody)) := by
  have hg : ∀ M ∈ Xs.map (initMan cfg jc.sqrt fun b => (body b).toSBody), GoodM M := by
    intro M hM
    obtain ⟨Y, _, rfl⟩ := List.mem_map.1 hM
    exact initMan_good _ _ _ _
  obtain ⟨-, -, ok⟩ := warmStart_ok V _ hg
  rw [warmStart_eq Xs V hX] at ok
  have e : warmAll jc body (Js.map (Joint.init jc body)) (warmStart V (Xs.map (initMan cfg jc.sqrt fun b => (body b).toSBody))).1 = fun _ => still := by
    funext b
    rw [warmAll_ok jc body hw]
    obtain ⟨o1, o2, o3, o4⟩ := ok b
    obtain ⟨a1, a2⟩ := angAll_warmed (body := fun b => (body b).toSBody) hs he b Xs hX
    rw [o1, o2, o3, o4, linAll_warmed hs he b Xs hX, a1, a2, linJ_force, angJ_torque, add_zero, add_assoc, add_assoc, ← had_add, ← had_act_add, lin, ang, (split b).1, (split b).2]
    rfl
  have l : ∀ m, loop cfg jc body m (fun _ => still, Js.map (Joint.init jc body), Xs.map (warmed cfg jc.sqrt fun b => (body b).toSBody)) =
      (fun _ => still, Js.map (Joint.init jc body), Xs.map (warmed cfg jc.sqrt fun b => (body b).toSBody)) := by
    intro m
    induction m with
    | zero => rfl
    | succ m ih =>
      have a : solveAll jc body (fun _ => still) (Js.map (Joint.init jc body)) = (fun _ => still, Js.map (Joint.init jc body)) := solveAll_rest fun N hN => by
        obtain ⟨J, hJ', rfl⟩ := List.mem_map.1 hN
        exact joint_rest hs hp hx (hJ J hJ') rfl rfl
      have b : Solver.solve cfg (fun _ => still) (Xs.map (warmed cfg jc.sqrt fun b => (body b).toSBody)) = (fun _ => still, Xs.map (warmed cfg jc.sqrt fun b => (body b).toSBody)) :=
        solve_rest hs he ht hv Xs fun Y hY => ⟨hX Y hY, rfl, rfl⟩
      rw [Joints.loop]
      dsimp only
      rw [a]
      dsimp only
      rw [b]
      exact ih
  unfold solveStep
  dsimp only
  rw [e, warmStart_eq Xs V hX]
  exact l n

end solvers

/-! ### The step -/

section step
variable {i : In K} {w : DW K}

/-- The load of a joint depends on where its bodies are. -/
theorem load_init {jc : JCfg K} {body body' : Nat → JBody K} (h : ∀ b, (body b).x = (body' b).x ∧ (body b).q = (body' b).q ∧ (body b).com = (body' b).com) (J : Joint K) :
    (J.init jc body).load = (J.init jc body').load := by
  let bare : JBody K → JBody K := fun B => ⟨⟨B.x, 0, 0, 0, M3.zero, 0, 0⟩, B.q, B.com, false⟩
  have k : ∀ body : Nat → JBody K, (J.init jc body).load = (J.init jc fun b => bare (body b)).load := fun body => by cases J <;> rfl
  have e : (fun b => bare (body b)) = fun b => bare (body' b) := funext fun b => by
    show (⟨⟨(body b).x, 0, 0, 0, M3.zero, 0, 0⟩, (body b).q, (body b).com, false⟩ : JBody K) = _
    rw [(h b).1, (h b).2.1, (h b).2.2]
  rw [k body, k body', e]

theorem init_b1 (jc : JCfg K) (body : Nat → JBody K) (J : Joint K) : (J.init jc body).b1 = J.b1 := by cases J <;> rfl
theorem init_b2 (jc : JCfg K) (body : Nat → JBody K) (J : Joint K) : (J.init jc body).b2 = J.b2 := by cases J <;> rfl

theorem forceOfJoint_init {jc : JCfg K} {body body' : Nat → JBody K} (h : ∀ b, (body b).x = (body' b).x ∧ (body b).q = (body' b).q ∧ (body b).com = (body' b).com) (b : Nat) :
    ∀ Js : List (Joint K), vsum (forceOfJoint b) (Js.map (Joint.init jc body)) = vsum (forceOfJoint b) (Js.map (Joint.init jc body')) ∧
      vsum (torqueOfJoint b) (Js.map (Joint.init jc body)) = vsum (torqueOfJoint b) (Js.map (Joint.init jc body'))
  | [] => ⟨rfl, rfl⟩
  | J :: Js => by
    obtain ⟨k1, k2⟩ := forceOfJoint_init h b Js
    constructor
    · show forceOfJoint b (J.init jc body) + vsum (forceOfJoint b) (Js.map (Joint.init jc body)) = forceOfJoint b (J.init jc body') + vsum (forceOfJoint b) (Js.map (Joint.init jc body'))
      rw [k1]
      unfold forceOfJoint
      rw [load_init h, init_b1, init_b1, init_b2, init_b2]
    · show torqueOfJoint b (J.init jc body) + vsum (torqueOfJoint b) (Js.map (Joint.init jc body)) = torqueOfJoint b (J.init jc body') + vsum (torqueOfJoint b) (Js.map (Joint.init jc body'))
      rw [k2]
      unfold torqueOfJoint
      rw [load_init h, init_b1, init_b1, init_b2, init_b2]

theorem vsum_zero {α : Type} {f : α → V3 K} : ∀ {l : List α}, (∀ a ∈ l, f a = 0) → vsum f l = 0
  | [], _ => rfl
  | a :: l, h => by
    show f a + vsum f l = 0
    rw [h a List.mem_cons_self, vsum_zero fun b hb => h b (List.mem_cons_of_mem _ hb), add_zero]

theorem dyn_some {b : Nat} {d : Dyn K} (h : w.body b = some d) : dyn w b = d := by unfold dyn; rw [h]; rfl

/-- A body of a scene in balance after the integration of velocities. -/
def before (i : In K) (d : Dyn K) : Dyn K :=
  { d with invInertiaW := d.updateInertia.invInertiaW, cVel := V3.had (V3.smul d.invMass (given i d)) d.linLock, cAng := V3.had d.angLock (d.updateInertia.invInertiaW.act (givenT i d)), sVel := 0, sAng := 0 }

theorem integrate_before (i : In K) {d : Dyn K} (h1 : d.vel = 0) (h2 : d.ang = 0) (h3 : d.disabled = true → d.cVel = 0 ∧ d.cAng = 0 ∧ d.sVel = 0 ∧ d.sAng = 0) :
    d.updateInertia.integrateVel i.dt i.g = before i d := by
  by_cases hd : d.disabled = true
  · obtain ⟨a, b, c, e⟩ := h3 hd
    have u : d.updateInertia = d := by unfold Dyn.updateInertia; rw [if_pos hd]
    unfold before given givenT
    rw [u, Dyn.integrateVel, if_pos hd, if_pos hd, if_pos hd, had_zero_left, had_act_zero]
    obtain ⟨⟩ := d
    dsimp only at a b c e
    subst a b c e
    rfl
  · have u : d.updateInertia = { d with invInertiaW := Dyn.worldInertia d.tr.ori.matrix d.invInertia } := by unfold Dyn.updateInertia; rw [if_neg hd]
    unfold before given givenT
    rw [if_neg hd, if_neg hd, u]
    unfold Dyn.integrateVel
    rw [if_neg hd]
    unfold Dyn.integrateDamping Dyn.integrateGravity Dyn.integrateForce
    have la : ∀ (I : M3 K) (l T : V3 K) (k : K), V3.smul (1 / k) (V3.had (V3.smul i.dt l) (I.act T)) = V3.had l (I.act (V3.smul (i.dt / k) T)) := fun I l T k => by
      ext <;> simp [V3.had, M3.act] <;> ring
    have ll : ∀ (m k : K) (l F : V3 K), V3.smul (1 / k) (V3.had (V3.smul (i.dt * m) l) F) = V3.had (V3.smul m (V3.smul (i.dt / k) F)) l := fun m k l F => by
      ext <;> simp [V3.had] <;> ring
    have lg : ∀ (m M k : K) (l F g : V3 K), V3.smul (1 / k) (V3.had (V3.smul (i.dt * m) l) F + V3.had (V3.smul M (V3.smul (i.dt * m) l)) g) =
        V3.had (V3.smul m (V3.smul (i.dt / k) (F + V3.smul M g))) l := fun m M k l F g => by
      ext <;> simp [V3.had] <;> ring
    cases hg : i.g with
    | none =>
      dsimp only
      rw [h1, h2, zero_add, zero_add, la, ll, add_zero]
    | some g =>
      dsimp only
      by_cases k : d.gravity = true
      · rw [if_pos k]
        dsimp only
        rw [h1, h2, zero_add, zero_add, la, lg, if_pos k]
      · rw [if_neg k]
        dsimp only
        rw [h1, h2, zero_add, zero_add, la, ll, if_neg k, add_zero]

theorem ready_before (h : Balanced i w) {b : Nat} {d : Dyn K} (hd : w.body b = some d) : dyn (ready i w) b = before i d := by
  have hs : (if i.islands.any (fun l => l.contains b) then d.setIsSleeping false else d) = d := by
    split
    · rename_i k
      rw [List.any_eq_true] at k
      obtain ⟨l, hl, hb⟩ := k
      have := h.awake l hl b (List.contains_iff_mem.1 hb)
      rw [dyn_some hd] at this
      exact Galileo.setIsSleeping_id this
    · rfl
  unfold dyn
  rw [Galileo.ready_some hd, hs]
  show d.updateInertia.integrateVel i.dt i.g = _
  exact integrate_before i (h.rest b d hd).1 (h.rest b d hd).2 fun k => ⟨(h.off b d hd k).1, (h.off b d hd k).2.1, (h.off b d hd k).2.2.1, (h.off b d hd k).2.2.2.1⟩

theorem ready_none {b : Nat} (hd : w.body b = none) : dyn (ready i w) b = Dyn.create ⟨0, ⟨0, 0, 0, 1⟩⟩ ∧ dyn w b = Dyn.create ⟨0, ⟨0, 0, 0, 1⟩⟩ := by
  have : (ready i w).body b = none := by
    show ((w.body b).map _).map _ = _
    rw [hd]; rfl
  unfold dyn
  rw [this, hd]
  exact ⟨rfl, rfl⟩

/-- What stays the same up to here. -/
theorem ready_same (h : Balanced i w) (b : Nat) : (dyn (ready i w) b).comWorld = (dyn w b).comWorld ∧ (dyn (ready i w) b).tr = (dyn w b).tr ∧ (dyn (ready i w) b).comLocal = (dyn w b).comLocal := by
  cases hd : w.body b with
  | none => rw [(ready_none (i := i) hd).1, (ready_none (i := i) hd).2]; exact ⟨rfl, rfl, rfl⟩
  | some d => rw [ready_before h hd, dyn_some hd]; exact ⟨rfl, rfl, rfl⟩

/-- The solvers end with all bodies at rest. -/
theorem solved_rest (h : Balanced i w) (hs : IsSqrt i.jc.sqrt) : solved i w = (fun _ => still, (joints i.pins).map (Joint.init { i.jc with dt := i.dt } fun b => jbody (dyn (ready i w) b)),
    i.mans.map (warmed { i.cc with dt := i.dt } i.jc.sqrt fun b => (jbody (dyn (ready i w) b)).toSBody)) := by
  have hsame : ∀ b, (jbody (dyn (ready i w) b)).x = (jbody (dyn w b)).x ∧ (jbody (dyn (ready i w) b)).q = (jbody (dyn w b)).q ∧ (jbody (dyn (ready i w) b)).com = (jbody (dyn w b)).com := fun b => by
    obtain ⟨a, c, e⟩ := ready_same h b
    refine ⟨a, ?_, e⟩
    show (dyn (ready i w) b).tr.ori = _
    rw [c]; rfl
  have hne : ∀ b, w.body b = none → ∀ c, Galileo.Ex w c → c ≠ b := by
    rintro b hb _ ⟨d, hd⟩ rfl
    rw [hb] at hd; cases hd
  refine solveStep_rest (cfg := { i.cc with dt := i.dt }) (jc := { i.jc with dt := i.dt }) (P := fun b => PBody.ofDyn (dyn w b)) (X := posesOf w) h.warm hs h.eps h.threshold ?_ ?_ ?_ (fun J hJ => (h.joints J hJ).1) ?_ ?_ ?_ ?_ i.nv
  · intro b
    show (dyn (ready i w) b).vel = 0 ∧ (dyn (ready i w) b).ang = 0
    cases hd : w.body b with
    | none => rw [(ready_none hd).1]; exact ⟨rfl, rfl⟩
    | some d => rw [ready_before h hd]; exact h.rest b d hd
  · intro b; exact (hsame b).2.2.symm
  · intro b
    show (⟨(jbody (dyn w b)).x, (jbody (dyn w b)).q⟩ : Pose K) = _
    rw [(hsame b).1, (hsame b).2.1]
  · intro X hX
    obtain ⟨⟨a1, a2, a3, a4, a5, a6, a7, a8, a9⟩, _⟩ := h.contacts X hX
    exact ⟨a1, a2, a3, a4, a5, a6, a7, a8, a9⟩
  · intro b
    rw [(forceOfJoint_init hsame b _).1]
    cases hd : w.body b with
    | none =>
      have z1 : vsum (forceOn b) i.mans = 0 := vsum_zero fun X hX => by
        obtain ⟨_, e1, e2⟩ := h.contacts X hX
        unfold forceOn
        rw [if_neg (hne b hd _ e1), if_neg (hne b hd _ e2), sub_zero]
      have z2 : vsum (forceOfJoint b) ((joints i.pins).map (Joint.init { i.jc with dt := i.dt } fun b => jbody (dyn w b))) = 0 := vsum_zero fun N hN => by
        obtain ⟨J, hJ, rfl⟩ := List.mem_map.1 hN
        obtain ⟨_, e1, e2⟩ := h.joints J hJ
        unfold forceOfJoint
        rw [init_b1, init_b2, if_neg (hne b hd _ e1), if_neg (hne b hd _ e2), add_zero]
      rw [z1, z2, add_zero, had_zero_left, add_zero, (ready_none hd).1]
      rfl
    | some d =>
      rw [ready_before h hd]
      show V3.had (V3.smul d.invMass (given i d)) d.linLock + V3.had (V3.smul d.invMass _) d.linLock = 0
      rw [← had_add]
      exact h.lin b d hd
  · intro b
    rw [(forceOfJoint_init hsame b _).2]
    cases hd : w.body b with
    | none =>
      have z1 : ∀ c, vsum (torqueOn b c) i.mans = 0 := fun c => vsum_zero fun X hX => by
        obtain ⟨_, e1, e2⟩ := h.contacts X hX
        unfold torqueOn
        rw [if_neg (hne b hd _ e1), if_neg (hne b hd _ e2), sub_zero]
      have z2 : vsum (torqueOfJoint b) ((joints i.pins).map (Joint.init { i.jc with dt := i.dt } fun b => jbody (dyn w b))) = 0 := vsum_zero fun N hN => by
        obtain ⟨J, hJ, rfl⟩ := List.mem_map.1 hN
        obtain ⟨_, e1, e2⟩ := h.joints J hJ
        unfold torqueOfJoint
        rw [init_b1, init_b2, if_neg (hne b hd _ e1), if_neg (hne b hd _ e2), add_zero]
      rw [z1, z2, add_zero, had_act_zero, add_zero, (ready_none hd).1]
      rfl
    | some d =>
      rw [ready_before h hd]
      show V3.had d.angLock (d.updateInertia.invInertiaW.act (givenT i d)) + V3.had d.angLock (d.updateInertia.invInertiaW.act _) = 0
      rw [← had_act_add]
      exact h.ang b d hd
  · intro b
    show (dyn (ready i w) b).sVel = 0 ∧ (dyn (ready i w) b).sAng = 0
    cases hd : w.body b with
    | none => rw [(ready_none hd).1]; exact ⟨rfl, rfl⟩
    | some d => rw [ready_before h hd]; exact ⟨rfl, rfl⟩

/-- The body after the integration of positions. -/
def resting (d : Dyn K) : Dyn K :=
  { d with invInertiaW := d.updateInertia.invInertiaW, cVel := 0, cAng := 0, sVel := 0, sAng := 0, cPos := if d.disabled = true then d.cPos else d.comWorld, cOri := d.tr.ori }

theorem midway_rest (h : Balanced i w) (hs : IsSqrt i.jc.sqrt) {b : Nat} {d : Dyn K} (hd : w.body b = some d) : midway i w b = resting d := by
  have e : vels i w b = ⟨0, 0, 0, 0⟩ := by
    unfold vels
    rw [solved_rest h hs]
    rfl
  unfold midway
  rw [e, ready_before h hd]
  unfold before Dyn.solveVel Dyn.integratePos resting
  dsimp only
  by_cases k : d.disabled = true
  · rw [if_pos k, if_pos k, ← (h.off b d hd k).2.2.2.2]
  · rw [if_neg k, if_neg k]
    have z : ∀ c : K, V3.smul c (0 : V3 K) = 0 := fun c => by ext <;> simp
    have q : d.tr.ori.add (((((⟨(0 : V3 K).x, (0 : V3 K).y, (0 : V3 K).z, 0⟩ : Quat K).mul d.tr.ori).scale (1 / 2)).scale i.dt)) = d.tr.ori := by
      ext <;> simp [Quat.add, Quat.mul, Quat.scale]
    rw [z, add_zero, z, add_zero, q]

theorem midway_none (h : Balanced i w) (hs : IsSqrt i.jc.sqrt) {b : Nat} (hd : w.body b = none) : (midway i w b).cOri.lengthSq = 1 := by
  have e : vels i w b = ⟨0, 0, 0, 0⟩ := by
    unfold vels
    rw [solved_rest h hs]
    rfl
  unfold midway
  rw [e, (ready_none hd).1]
  unfold Dyn.solveVel Dyn.integratePos Dyn.create
  dsimp only
  simp [Quat.lengthSq, Quat.add, Quat.mul, Quat.scale]

theorem firm_congr {jc : JCfg K} {P P' : Nat → PBody K} {X X' : Nat → Pose K} {J : Joint K} (h1 : X J.b1 = X' J.b1) (h2 : X J.b2 = X' J.b2) (c1 : (P J.b1).com = (P' J.b1).com)
    (c2 : (P J.b2).com = (P' J.b2).com) (h : Firm jc P X J) : Firm jc P' X' J := by
  have an : ∀ a, anchorAt P X J.b1 a = anchorAt P' X' J.b1 a := fun a => by unfold anchorAt; rw [h1, c1]
  have an2 : ∀ a, anchorAt P X J.b2 a = anchorAt P' X' J.b2 a := fun a => by unfold anchorAt; rw [h2, c2]
  cases J with
  | ball J =>
    change X J.b1 = X' J.b1 at h1; change X J.b2 = X' J.b2 at h2; change (P J.b1).com = _ at c1; change (P J.b2).com = _ at c2
    change ∀ a, anchorAt P X J.b1 a = _ at an; change ∀ a, anchorAt P X J.b2 a = _ at an2
    change J.Holds jc P X at h
    show J.Holds jc P' X'
    unfold Ball.Holds Ball.ConeOk at h ⊢
    rw [an, an2, h1, h2, c1, c2] at h
    exact h
  | fixed J =>
    change X J.b1 = X' J.b1 at h1; change X J.b2 = X' J.b2 at h2
    change ∀ a, anchorAt P X J.b1 a = _ at an; change ∀ a, anchorAt P X J.b2 a = _ at an2
    change J.Holds P X at h
    show J.Holds P' X'
    unfold Fixed.Holds Aligned at h ⊢
    rw [an, an2, h1, h2] at h
    exact h
  | hinge J =>
    change X J.b1 = X' J.b1 at h1; change X J.b2 = X' J.b2 at h2
    change ∀ a, anchorAt P X J.b1 a = _ at an; change ∀ a, anchorAt P X J.b2 a = _ at an2
    obtain ⟨h, g⟩ := h
    refine ⟨?_, g⟩
    unfold Hinge.Holds at h ⊢
    rw [an, an2, h1, h2] at h
    exact h
  | slider J =>
    change X J.b1 = X' J.b1 at h1; change X J.b2 = X' J.b2 at h2
    change ∀ a, anchorAt P X J.b1 a = _ at an; change ∀ a, anchorAt P X J.b2 a = _ at an2
    obtain ⟨h, g⟩ := h
    refine ⟨?_, g⟩
    unfold Slider.Holds Aligned at h ⊢
    rw [an, an2, h1, h2] at h
    exact h

theorem pins_hold {jc : JCfg K} {body : Nat → JBody K} {P : Nat → PBody K} {X : Nat → Pose K} {Js : List (Joint K)} (h : ∀ J ∈ Js, Firm jc P X J) :
    (pins (Js.map (Joint.init jc body))).Holds jc P X := by
  refine ⟨fun N hN _ => ?_, fun N hN _ => ?_, fun N hN _ => ?_, fun N hN _ => ?_⟩ <;>
    obtain ⟨A, hA, e⟩ := List.mem_filterMap.1 hN <;> obtain ⟨J, hJ, rfl⟩ := List.mem_map.1 hA <;> have f := h J hJ <;> cases J <;> simp only [Joint.init, Option.some.injEq, reduceCtorEq] at e
  · subst e; exact f
  · subst e; exact f
  · subst e; exact f.1
  · subst e; exact f.1

/-- The position solvers leave the bodies where they are. -/
theorem corrected_rest (h : Balanced i w) (hs : IsSqrt i.jc.sqrt) : (corrected i w).1 = fun b => Pose.ofDyn (midway i w b) := by
  unfold corrected
  rw [solved_rest h hs]
  refine correct_hold_partial (cfg := { i.jc with dt := i.dt }) hs _ (fun b => ?_) _ (pins_hold fun J hJ => ?_)
  · show (midway i w b).cOri.lengthSq = 1
    cases hd : w.body b with
    | none => exact midway_none h hs hd
    | some d => rw [midway_rest h hs hd]; exact h.unit b d hd
  · obtain ⟨f, e1, e2⟩ := h.joints J hJ
    have key : ∀ b, b = J.b1 ∨ b = J.b2 → Galileo.Ex w b → posesOf w b = Pose.ofDyn (midway i w b) ∧ (PBody.ofDyn (dyn w b)).com = (PBody.ofDyn (midway i w b)).com := by
      rintro b hb ⟨d, hd⟩
      have o := h.offJ J hJ b hb
      unfold posesOf
      rw [midway_rest h hs hd]
      rw [dyn_some hd] at o ⊢
      refine ⟨?_, rfl⟩
      show _ = (⟨if d.disabled = true then d.cPos else d.comWorld, d.tr.ori⟩ : Pose K)
      split
      · rename_i k; rw [o k]
      · rfl
    obtain ⟨k1, k2⟩ := key _ (Or.inl rfl) e1
    obtain ⟨k3, k4⟩ := key _ (Or.inr rfl) e2
    exact firm_congr k1 k3 k2 k4 f

theorem move_rest (h : Balanced i w) (hs : IsSqrt i.jc.sqrt) (hl : ∀ q : Quat K, q.lengthSq = 1 → i.len q = 1) {b : Nat} {d : Dyn K} (hd : w.body b = some d) :
    (DW.moved (i.args (fun b => some (vels i w b)) fun b => some (poss i w b)) w).body b = some (resting d) := by
  rw [Galileo.moved_dyn ⟨d, hd⟩]
  have e : poss i w b = ((midway i w b).cPos, (midway i w b).cOri) := by
    unfold poss
    rw [corrected_rest h hs]
    rfl
  rw [e, midway_rest h hs hd]
  refine congrArg some ?_
  unfold Dyn.solvePos Dyn.updateState
  dsimp only
  by_cases k : d.disabled = true
  · rw [if_pos (show (resting d).disabled = true from k)]
  · rw [if_neg (show ¬ (resting d).disabled = true from k)]
    have hq : (resting d).cOri = d.tr.ori := rfl
    have hx : (resting d).cPos = d.comWorld := if_neg k
    have o : d.tr.ori.divBy (i.len d.tr.ori) = d.tr.ori := by
      rw [hl _ (h.unit b d hd)]
      ext <;> simp [Quat.divBy]
    have c : d.comWorld - d.tr.ori.rot d.comLocal = d.tr.pos := by
      have := h.com b d hd
      unfold Dyn.ComOk Trans.act at this
      rw [this]
      abel
    obtain ⟨v, a⟩ := h.rest b d hd
    rw [hq, o, hx]
    show ({ resting d with vel := 0, ang := 0, cPos := d.comWorld, cOri := d.tr.ori, comWorld := d.comWorld, tr := ⟨d.comWorld - d.tr.ori.rot d.comLocal, d.tr.ori⟩ } : Dyn K) = resting d
    rw [c]
    unfold resting
    dsimp only
    rw [if_neg k, v, a]

/-- The body after the step. -/
def after (d : Dyn K) : Dyn K := { resting d with force := 0, torque := 0 }

/-- **C138, a step.** In a scene in balance no body moves, whatever the number of iterations and whether sleeping is on or off. -/
theorem rest_step (h : Balanced i w) (hs : IsSqrt i.jc.sqrt) (hl : ∀ q : Quat K, q.lengthSq = 1 → i.len q = 1) {b : Nat} {d : Dyn K} (hd : w.body b = some d) :
    ∃ e, (update i w).body b = some e ∧ e.tr = d.tr ∧ e.comWorld = d.comWorld ∧ e.vel = 0 ∧ e.ang = 0 := by
  have hm := move_rest h hs hl hd
  obtain ⟨v, a⟩ := h.rest b d hd
  unfold update DW.update
  dsimp only
  split
  · obtain ⟨e, he⟩ : ∃ e, (DW.updateSleeping i.add i.big i.dt (DW.moved (i.args (fun b => some (vels i w b)) fun b => some (poss i w b)) w) i.islands).body b = some e := by
      rw [← Option.ne_none_iff_exists']
      intro k
      rw [DW.sleep_none, hm] at k
      cases k
    have k := DW.sleep_induct (fun c e => c = b → e.tr = d.tr ∧ e.comWorld = d.comWorld ∧ e.vel = 0 ∧ e.ang = 0) (fun c e t _ h hc => h hc)
      (fun c e h hc => by
        obtain ⟨k1, k2, k3, k4⟩ := h hc
        unfold Dyn.setIsSleeping
        split_ifs
        all_goals first | exact ⟨k1, k2, k3, k4⟩ | exact ⟨k1, k2, rfl, rfl⟩) i.add i.big i.dt i.islands _
      (fun c e h hc => by
        subst hc
        rw [hm] at h
        cases h
        exact ⟨rfl, rfl, v, a⟩) b e he rfl
    refine ⟨e.resetForces, ?_, k⟩
    show Option.map _ _ = _
    exact (congrArg _ he).trans rfl
  · refine ⟨after d, ?_, rfl, rfl, v, a⟩
    show Option.map _ _ = _
    exact (congrArg _ hm).trans rfl

theorem update_awake (h : Balanced i w) (hs : IsSqrt i.jc.sqrt) (hl : ∀ q : Quat K, q.lengthSq = 1 → i.len q = 1) (ho : w.sleepOn = false) (b : Nat) : (update i w).body b = (w.body b).map after := by
  have so : (DW.moved (i.args (fun b => some (vels i w b)) fun b => some (poss i w b)) w).sleepOn = false := ho
  unfold update DW.update
  dsimp only
  rw [if_neg (by rw [so]; decide)]
  cases hd : w.body b with
  | none =>
    show Option.map _ (Option.map _ (Option.map _ (Option.map _ (w.body b)))) = _
    rw [hd]; rfl
  | some d =>
    show Option.map _ _ = _
    exact (congrArg _ (move_rest h hs hl hd)).trans rfl

end step



end Balance
end RP3D
