import Verif.Solver.Material
import Verif.Props.ContactExamples
import Verif.Props.Transform
import Verif.Props.RayExamples

/-! C148: materials mean what they say. -/

namespace RP3D
namespace MaterialProps
open Solver SolverProps

variable {K : Type} [Field K] [LinearOrder K] [IsStrictOrderedRing K]

/-! ### Specification -/

/-- What the user has set: friction coefficient, bounciness, density. -/
structure Wish (K : Type) where
  friction : K
  bounce : K
  density : K

/-- The calls that are allowed, from the constructor on, with what the user has asked for last. -/
inductive Made (sqrt : K → K) : Material K → Wish K → Prop
  | make (f b d : K) : 0 ≤ f → 0 ≤ b → b ≤ 1 → Made sqrt (Material.make sqrt f b d) ⟨f, b, d⟩
  | friction {m m' : Material K} {w : Wish K} (f : K) : Made sqrt m w → m.setFriction sqrt f = some m' → Made sqrt m' { w with friction := f }
  | bounce {m m' : Material K} {w : Wish K} (b : K) : Made sqrt m w → m.setBounce b = some m' → Made sqrt m' { w with bounce := b }
  | density {m : Material K} {w : Wish K} (d : K) : Made sqrt m w → Made sqrt (m.setDensity d) { w with density := d }

/-! ### Reading back -/

theorem made_root {sqrt : K → K} (hs : IsSqrt sqrt) {m : Material K} {w : Wish K} (h : Made sqrt m w) :
    0 ≤ m.root ∧ m.root * m.root = w.friction ∧ m.bounce = w.bounce ∧ 0 ≤ w.bounce ∧ w.bounce ≤ 1 ∧ m.density = w.density := by
  induction h with
  | make f b d hf hb hb' => exact ⟨(hs f hf).1, (hs f hf).2, rfl, hb, hb', rfl⟩
  | friction f _ e ih =>
    unfold Material.setFriction at e
    split_ifs at e with hf
    cases e
    exact ⟨(hs f hf).1, (hs f hf).2, ih.2.2⟩
  | bounce b _ e ih =>
    unfold Material.setBounce at e
    split_ifs at e with hb
    cases e
    exact ⟨ih.1, ih.2.1, rfl, hb.1, hb.2, ih.2.2.2.2.2⟩
  | density d _ ih => exact ⟨ih.1, ih.2.1, ih.2.2.1, ih.2.2.2.1, ih.2.2.2.2.1, rfl⟩

/-- **C148, reading back.** A material answers with what was set last. -/
theorem read_back {sqrt : K → K} (hs : IsSqrt sqrt) {m : Material K} {w : Wish K} (h : Made sqrt m w) :
    m.friction = w.friction ∧ m.bounce = w.bounce ∧ m.density = w.density :=
  ⟨(made_root hs h).2.1, (made_root hs h).2.2.1, (made_root hs h).2.2.2.2.2⟩

/-! ### Mixing -/

/-- **C148, friction of a pair.** It is the geometric mean of the two coefficients: the only number that is not negative and whose square is their product. It does not matter which
collider comes first, it lies between the two, and it is zero exactly if one of them is. -/
theorem mixed_friction {sqrt : K → K} (hs : IsSqrt sqrt) {a b : Material K} {u v : Wish K} (ha : Made sqrt a u) (hb : Made sqrt b v) :
    0 ≤ mixFriction a b ∧ mixFriction a b * mixFriction a b = u.friction * v.friction ∧ mixFriction a b = mixFriction b a ∧
      min u.friction v.friction ≤ mixFriction a b ∧ mixFriction a b ≤ max u.friction v.friction ∧ (mixFriction a b = 0 ↔ u.friction = 0 ∨ v.friction = 0) := by
  obtain ⟨a0, a1, -⟩ := made_root hs ha
  obtain ⟨b0, b1, -⟩ := made_root hs hb
  unfold mixFriction
  rw [← a1, ← b1]
  refine ⟨mul_nonneg a0 b0, by ring, by ring, ?_, ?_, ?_⟩
  · rcases le_total a.root b.root with h | h
    · exact le_trans (min_le_left _ _) (by nlinarith)
    · exact le_trans (min_le_right _ _) (by nlinarith)
  · rcases le_total a.root b.root with h | h
    · exact le_trans (by nlinarith) (le_max_right _ _)
    · exact le_trans (by nlinarith) (le_max_left _ _)
  · simp [mul_eq_zero]

/-- **C148, bounciness of a pair.** It is the larger one of the two, between 0 and 1. -/
theorem mixed_bounce {sqrt : K → K} (hs : IsSqrt sqrt) {a b : Material K} {u v : Wish K} (ha : Made sqrt a u) (hb : Made sqrt b v) :
    mixBounce a b = max u.bounce v.bounce ∧ mixBounce a b = mixBounce b a ∧ 0 ≤ mixBounce a b ∧ mixBounce a b ≤ 1 := by
  obtain ⟨-, -, a2, a3, a4, -⟩ := made_root hs ha
  obtain ⟨-, -, b2, b3, b4, -⟩ := made_root hs hb
  have e : ∀ c d : Material K, mixBounce c d = max c.bounce d.bounce := by
    intro c d
    unfold mixBounce
    split_ifs with h
    · exact (max_eq_left h.le).symm
    · exact (max_eq_right (not_lt.1 h)).symm
  rw [e, e, a2, b2]
  exact ⟨rfl, max_comm _ _, le_trans a3 (le_max_left _ _), max_le a4 b4⟩

/-! ### No friction -/

theorem iterate_same (cfg : Cfg K) : ∀ (Js : List ((Nat → Vel K) → Nat → Vel K)) (s : (Nat → Vel K) × List (Man K)) (P : Man K → Prop),
    (∀ M N, P M → MSame M N → P N) → (∀ M ∈ s.2, GoodM M) → (∀ M ∈ s.2, P M) → ∀ M ∈ (iterate cfg Js s).2, P M
  | [], _, _, _, _, h => h
  | J :: Js, s, P, hP, hg, h => by
    obtain ⟨h1, h2, _⟩ := solve_ok cfg (J s.1) s.2 hg
    exact iterate_same cfg Js _ P hP h2 (forall_same hP h1 h)

theorem run_same (cfg : Cfg K) (sqrt : K → K) (body : Nat → SBody K) (V : Nat → Vel K) (Xs : List (XMan K)) (Js : List ((Nat → Vel K) → Nat → Vel K)) (P : Man K → Prop)
    (hP : ∀ M N, P M → MSame M N → P N) (h : ∀ X ∈ Xs, P (initMan cfg sqrt body X)) : ∀ M ∈ (runSolver cfg sqrt body V Xs Js).2, P M := by
  obtain ⟨h1, h2, _⟩ := warmStart_ok V (Xs.map (initMan cfg sqrt body)) (init_good cfg sqrt body Xs)
  refine iterate_same cfg Js _ P hP h2 (forall_same hP h1 ?_)
  intro M hM
  obtain ⟨X, hX, rfl⟩ := List.mem_map.1 hM
  exact h X hX

/-- What stays the same of a point, for all points of a manifold. -/
theorem pts_same {Q : CPoint K → Prop} (hQ : ∀ p q, Q p → PSame p q → Q q) {ps qs : List (CPoint K)} (h : List.Forall₂ PSame ps qs) (hp : ∀ p ∈ ps, Q p) : ∀ q ∈ qs, Q q := by
  induction h with
  | nil => simp
  | cons hab _ ih =>
    intro q hq
    rcases List.mem_cons.1 hq with rfl | hq
    · exact hQ _ _ (hp _ List.mem_cons_self) hab
    · exact ih (fun p h => hp p (List.mem_cons_of_mem _ h)) q hq

/-- All manifolds that touch a body have this property. -/
def At (b : Nat) (P : Man K → Prop) (M : Man K) : Prop := M.b1 = b ∨ M.b2 = b → P M

theorem dot_add' (t a b : V3 K) : V3.dot t (a + b) = V3.dot t a + V3.dot t b := by simp only [V3.dot, V3.add_x, V3.add_y, V3.add_z]; ring

theorem impSum_flat {t : V3 K} : ∀ ps : List (CPoint K), (∀ p ∈ ps, V3.dot t p.normal = 0) → V3.dot t (impSum ps) = 0
  | [], _ => by simp [impSum, V3.dot]
  | p :: ps, h => by
    have e : V3.dot t (V3.smul p.imp p.normal) = p.imp * V3.dot t p.normal := by simp only [V3.dot, V3.smul]; ring
    rw [impSum, dot_add', impSum_flat ps fun q hq => h q (List.mem_cons_of_mem _ hq), e, h p List.mem_cons_self]
    ring

theorem momSum_flat {r : CPoint K → V3 K} : ∀ ps : List (CPoint K), (∀ p ∈ ps, V3.cross (r p) p.normal = 0) → momSum r ps = 0
  | [], _ => rfl
  | p :: ps, h => by
    rw [momSum, momSum_flat ps fun q hq => h q (List.mem_cons_of_mem _ hq), h p List.mem_cons_self]
    ext <;> simp

/-- A step leaves no friction impulse where there is no friction. -/
theorem no_friction_left {Xs : List (XMan K)} (hst : Stored Xs) (hm : ∀ X ∈ Xs, 0 ≤ X.mu) (cfg : Cfg K) (sqrt : K → K) (body : Nat → SBody K) (V : Nat → Vel K)
    (Js : List ((Nat → Vel K) → Nat → Vel K)) (hj : Js ≠ []) (b : Nat) (h0 : ∀ X ∈ Xs, X.b1 = b ∨ X.b2 = b → X.mu = 0) :
    ∀ M ∈ (runSolver cfg sqrt body V Xs Js).2, At b (fun M => M.f1 = 0 ∧ M.f2 = 0 ∧ M.tw = 0) M := by
  have hmu := run_same cfg sqrt body V Xs Js (At b fun M => M.mu = 0) (fun M N h hs => by rw [hs.eq]; exact h) h0
  intro M hM ht
  obtain ⟨h1, h2, h3⟩ := friction_limits hst hm cfg sqrt body V Js hj M hM
  rw [hmu M hM ht, zero_mul] at h1 h2 h3
  exact ⟨abs_nonpos_iff.1 h1, abs_nonpos_iff.1 h2, abs_nonpos_iff.1 h3⟩

/-- **C148, no friction.** A body all of whose contacts are with or of a material without friction keeps its velocity along every direction in which no contact points. -/
theorem slides {Xs : List (XMan K)} (hst : Stored Xs) (hm : ∀ X ∈ Xs, 0 ≤ X.mu) (cfg : Cfg K) (sqrt : K → K) (body : Nat → SBody K) (V : Nat → Vel K) (n b : Nat) (hn : 0 < n)
    (hl : (body b).ll = ⟨1, 1, 1⟩) (h0 : ∀ X ∈ Xs, X.b1 = b ∨ X.b2 = b → X.mu = 0) {t : V3 K} (ht : ∀ X ∈ Xs, X.b1 = b ∨ X.b2 = b → ∀ x ∈ X.pts, V3.dot t x.normal = 0) :
    V3.dot t ((runSolver cfg sqrt body V Xs (List.replicate n id)).1 b).v = V3.dot t (V b).v := by
  have hj : List.replicate n (id : (Nat → Vel K) → Nat → Vel K) ≠ [] := by simp [hn.ne']
  have k1 := no_friction_left hst hm cfg sqrt body V _ hj b h0
  have k2 := run_same cfg sqrt body V Xs (List.replicate n id) (At b fun M => ∀ p ∈ M.pts, V3.dot t p.normal = 0)
    (fun M N h hs hb => pts_same (fun p q hp hq => by rw [hq]; exact hp) hs.pts (h (by rw [hs.eq] at hb; exact hb)))
    (fun X hX hb p hp => by
      obtain ⟨x, hx, rfl⟩ := List.mem_map.1 hp
      exact ht X hX hb x hx)
  have k3 := run_same cfg sqrt body V Xs (List.replicate n id) (Fits body) (fun M N h hs => h.of_same hs) fun X _ => initMan_fits cfg sqrt body X
  rw [linear_accounting, dot_add']
  generalize (runSolver cfg sqrt body V Xs (List.replicate n id)).2 = Ms at *
  have : V3.dot t (linAll b Ms) = 0 := by
    induction Ms with
    | nil => simp [linAll, V3.dot]
    | cons M Ms ih =>
      rw [linAll, dot_add', ih (fun N hN => k1 N (List.mem_cons_of_mem _ hN)) (fun N hN => k2 N (List.mem_cons_of_mem _ hN)) (fun N hN => k3 N (List.mem_cons_of_mem _ hN)), add_zero]
      by_cases hb : M.b1 = b ∨ M.b2 = b
      · obtain ⟨f1, f2, -⟩ := k1 M List.mem_cons_self hb
        have hi := impSum_flat _ (k2 M List.mem_cons_self hb)
        obtain ⟨-, -, -, -, l1, l2, -, -⟩ := k3 M List.mem_cons_self
        have e : impulse M = impSum M.pts := by unfold impulse; rw [f1, f2]; ext <;> simp
        have q : ∀ m : K, V3.dot t (V3.had (V3.smul m (impSum M.pts)) ⟨1, 1, 1⟩) = m * V3.dot t (impSum M.pts) := by
          intro m; simp only [V3.dot, V3.had, V3.smul]; ring
        have z : V3.dot t (0 : V3 K) = 0 := by simp [V3.dot]
        have sub : ∀ c d : V3 K, V3.dot t (c - d) = V3.dot t c - V3.dot t d := by
          intro c d; simp only [V3.dot, V3.sub_x, V3.sub_y, V3.sub_z]; ring
        have s1 : V3.dot t (if M.b1 = b then V3.had (V3.smul M.m1 (impSum M.pts)) M.ll1 else 0) = 0 := by
          split_ifs with h
          · rw [l1, h, hl, q, hi, mul_zero]
          · exact z
        have s2 : V3.dot t (if M.b2 = b then V3.had (V3.smul M.m2 (impSum M.pts)) M.ll2 else 0) = 0 := by
          split_ifs with h
          · rw [l2, h, hl, q, hi, mul_zero]
          · exact z
        unfold linEff linOf
        rw [e, sub, s1, s2, sub_zero]
      · unfold linEff linOf
        rw [if_neg fun h => hb (Or.inr h), if_neg fun h => hb (Or.inl h)]
        simp [V3.dot]
  rw [this, add_zero]

/-- **C148, no friction, partial.** A body whose contacts are frictionless and point at its center keeps its angular velocity, if no twist impulse is stored from the step before. Missing: a
stored one, see `friction_after_all`. -/
theorem spins_partial {Xs : List (XMan K)} (hst : Stored Xs) (hm : ∀ X ∈ Xs, 0 ≤ X.mu) (cfg : Cfg K) (sqrt : K → K) (body : Nat → SBody K) (V : Nat → Vel K) (n b : Nat) (hn : 0 < n)
    (h0 : ∀ X ∈ Xs, X.b1 = b ∨ X.b2 = b → X.mu = 0) (htw : ∀ X ∈ Xs, X.tw = 0)
    (hr : ∀ X ∈ Xs, ∀ x ∈ X.pts, (X.b1 = b → V3.cross (x.p1 - (body b).x) x.normal = 0) ∧ (X.b2 = b → V3.cross (x.p2 - (body b).x) x.normal = 0)) :
    ((runSolver cfg sqrt body V Xs (List.replicate n id)).1 b).w = (V b).w := by
  have hj : List.replicate n (id : (Nat → Vel K) → Nat → Vel K) ≠ [] := by simp [hn.ne']
  have k1 := no_friction_left hst hm cfg sqrt body V _ hj b h0
  have k2 := run_same cfg sqrt body V Xs (List.replicate n id)
    (fun M => ∀ p ∈ M.pts, (M.b1 = b → V3.cross p.r1 p.normal = 0) ∧ (M.b2 = b → V3.cross p.r2 p.normal = 0))
    (fun M N h hs => by
      rw [show N.b1 = M.b1 by rw [hs.eq], show N.b2 = M.b2 by rw [hs.eq]]
      exact pts_same (fun p q hp hq => by rw [hq]; exact hp) hs.pts h)
    (fun X hX p hp => by
      obtain ⟨x, hx, rfl⟩ := List.mem_map.1 hp
      refine ⟨fun e => ?_, fun e => ?_⟩
      · have := (hr X hX x hx).1 e; rw [← show X.b1 = b from e] at this; exact this
      · have := (hr X hX x hx).2 e; rw [← show X.b2 = b from e] at this; exact this)
  rw [angular_accounting_partial cfg sqrt body V Xs n b htw]
  generalize (runSolver cfg sqrt body V Xs (List.replicate n id)).2 = Ms at *
  have : angAll b Ms = 0 := by
    induction Ms with
    | nil => rfl
    | cons M Ms ih =>
      rw [angAll, ih (fun N hN => k1 N (List.mem_cons_of_mem _ hN)) (fun N hN => k2 N (List.mem_cons_of_mem _ hN)), add_zero]
      have c : ∀ (J : M3 K) (l : V3 K), V3.had l (J.act 0) = 0 := by intro J l; ext <;> simp [V3.had, M3.act]
      have s1 : (if M.b1 = b then V3.had M.la1 (M.I1.act (moment1 M)) else 0) = 0 := by
        split_ifs with h
        · obtain ⟨f1, f2, tw⟩ := k1 M List.mem_cons_self (Or.inl h)
          have : moment1 M = 0 := by
            unfold moment1
            rw [f1, f2, tw, momSum_flat _ fun p hp => (k2 M List.mem_cons_self p hp).1 h]
            ext <;> simp
          rw [this, c]
        · rfl
      have s2 : (if M.b2 = b then V3.had M.la2 (M.I2.act (moment2 M)) else 0) = 0 := by
        split_ifs with h
        · obtain ⟨f1, f2, tw⟩ := k1 M List.mem_cons_self (Or.inr h)
          have : moment2 M = 0 := by
            unfold moment2
            rw [f1, f2, tw, momSum_flat _ fun p hp => (k2 M List.mem_cons_self p hp).2 h]
            ext <;> simp
          rw [this, c]
        · rfl
      unfold angEff angOf
      rw [s1, s2, sub_zero]
  rw [this, add_zero]

/-! ### Friction after all, and examples -/

/-- Friction 1 in the first step; then the user gives one of the colliders a material without friction. -/
def rough : Material ℚ := Material.make Ex.root 1 0 1
def icy : Material ℚ := Material.make Ex.root 0 0 1

/-- The step after that: the contact is the one the first step has stored. -/
def afterwards : (Nat → Vel ℚ) × List (Man ℚ) :=
  runSolver Ex.cfg Ex.root (Ex.spin 3) (Ex.vels (Ex.spin 3)) (Ex.kept.map (XMan.withMaterials rough icy)) (List.replicate 10 id)

/-- **C148 fails.** The ball that turns on the floor is slowed down by a contact without friction: the warm start applies the stored twist impulse twice (ContactSolverSystem.cpp:445-466), the
iterations take it back once. (The root of the example is right for 0 and 1.) -/
theorem friction_after_all : Stored (Ex.kept.map (XMan.withMaterials rough icy)) ∧ (∀ X ∈ Ex.kept.map (XMan.withMaterials rough icy), X.mu = 0) ∧ (Ex.vels (Ex.spin 3) 0).w = ⟨0, 0, 3⟩ ∧ (afterwards.1 0).w = ⟨0, 0, 2⟩ := by
  refine ⟨Stored.carry _ _ Ex.kept_stored ?_, by decide +kernel⟩
  intro Y hY y hy
  obtain ⟨X, hX, rfl⟩ := List.mem_map.1 hY
  exact Or.inr ⟨X, hX, y, hy, rfl⟩

/-- Materials of the theorems exist, with coefficients that are not trivial. -/
example : ∃ (m : Material ℝ), Made Real.sqrt m ⟨2, 1 / 2, 3⟩ ∧ m.friction = 2 :=
  ⟨_, Made.make 2 (1 / 2) 3 (by norm_num) (by norm_num) (by norm_num), (read_back RayProps.realSqrt (Made.make 2 (1 / 2) 3 (by norm_num) (by norm_num) (by norm_num))).1⟩

example : ∃ m : Material ℝ, Made Real.sqrt m ⟨1 / 4, 1 / 2, 3⟩ :=
  ⟨_, Made.friction (1 / 4) (Made.make 2 (1 / 2) 3 (by norm_num) (by norm_num) (by norm_num)) (if_pos (by norm_num))⟩

/-- A ball that falls on ice while it slides and turns: hypotheses of `slides` and `spins_partial`, and the contact does act. -/
def onIce : Nat → SBody ℚ := Ex.bodies ⟨1, 0, -1⟩ ⟨0, 0, 4⟩
def ice : List (XMan ℚ) := [(Ex.man 0 1).withMaterials rough icy]

example : (∀ X ∈ ice, 0 ≤ X.mu ∧ X.mu = 0 ∧ X.tw = 0) ∧ (onIce 0).ll = ⟨1, 1, 1⟩ ∧ (∀ X ∈ ice, ∀ x ∈ X.pts, V3.dot ⟨1, 0, 0⟩ x.normal = 0) ∧
    (∀ X ∈ ice, ∀ x ∈ X.pts, V3.cross (x.p1 - (onIce 0).x) x.normal = 0) ∧
    ((runSolver Ex.cfg Ex.root onIce (Ex.vels onIce) ice (List.replicate 10 id)).1 0).v = ⟨1, 0, 0⟩ := by decide +kernel

example : Stored ice := Stored.carry [] _ Stored.none (by
  intro Y hY y hy
  simp only [ice, List.mem_cons, List.not_mem_nil, or_false] at hY
  subst hY
  simp only [XMan.withMaterials, Ex.man, List.mem_cons, List.not_mem_nil, or_false] at hy
  subst hy
  exact Or.inl rfl)

end MaterialProps
end RP3D
