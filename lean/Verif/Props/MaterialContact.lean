import Verif.Props.Material
import Verif.Props.Bounce

/-! C148: the materials of the colliders decide how a contact rubs and bounces. -/

namespace RP3D
namespace MaterialProps
open Solver SolverProps

variable {K : Type} [Field K] [LinearOrder K] [IsStrictOrderedRing K]

/-! ### Specification -/

/-- A contact with the materials of its two colliders. -/
structure Touch (K : Type) where
  a : Material K
  b : Material K
  X : XMan K

/-- What the solver is given. -/
def Touch.man (t : Touch K) : XMan K := t.X.withMaterials t.a t.b

/-- The friction impulses along and about the normal of a manifold do not exceed the geometric mean of the two coefficients times the normal impulse. -/
def Rubs (a b : Material K) (M : Man K) : Prop :=
  M.f1 * M.f1 ≤ a.friction * b.friction * ((M.pts.map CPoint.imp).sum * (M.pts.map CPoint.imp).sum) ∧
    M.f2 * M.f2 ≤ a.friction * b.friction * ((M.pts.map CPoint.imp).sum * (M.pts.map CPoint.imp).sum) ∧
    M.tw * M.tw ≤ a.friction * b.friction * ((M.pts.map CPoint.imp).sum * (M.pts.map CPoint.imp).sum)

/-! ### Proofs -/

omit [IsStrictOrderedRing K] in
/-- The colliders' materials give the contact its two coefficients and nothing else. -/
theorem touch_values (t : Touch K) : t.man.mu = t.a.root * t.b.root ∧ t.man.restitution = max t.a.bounce t.b.bounce ∧
    t.man = { t.X with mu := t.man.mu, restitution := t.man.restitution } := by
  refine ⟨rfl, ?_, rfl⟩
  show mixBounce t.a t.b = _
  unfold mixBounce
  split_ifs with h
  · exact (max_eq_left h.le).symm
  · exact (max_eq_right (not_lt.1 h)).symm

theorem sq_within {f m s : K} (h : |f| ≤ m * s) : f * f ≤ m * m * (s * s) := by
  rw [← abs_mul_abs_self f]
  calc |f| * |f| ≤ (m * s) * (m * s) := mul_self_le_mul_self (abs_nonneg f) h
    _ = m * m * (s * s) := by ring

/-- **C148, friction in a step.** After any step every manifold is one of the contacts, between the same bodies, and its friction impulses keep to the coefficients of the materials of the two
colliders. (`made_root`: materials that are made with allowed calls have roots that are not negative.) -/
theorem materials_rub {ts : List (Touch K)} (hst : Stored (ts.map Touch.man)) (hr : ∀ t ∈ ts, 0 ≤ t.a.root ∧ 0 ≤ t.b.root) (cfg : Cfg K) (sqrt : K → K)
    (body : Nat → SBody K) (V : Nat → Vel K) (Js : List ((Nat → Vel K) → Nat → Vel K)) (hj : Js ≠ []) :
    ∀ M ∈ (runSolver cfg sqrt body V (ts.map Touch.man) Js).2, ∃ t ∈ ts, M.b1 = t.X.b1 ∧ M.b2 = t.X.b2 ∧ Rubs t.a t.b M := by
  have hm : ∀ X ∈ ts.map Touch.man, 0 ≤ X.mu := by
    intro X hX
    obtain ⟨t, ht, rfl⟩ := List.mem_map.1 hX
    rw [(touch_values t).1]
    exact mul_nonneg (hr t ht).1 (hr t ht).2
  have k := run_same cfg sqrt body V (ts.map Touch.man) Js (fun M => ∃ t ∈ ts, M.b1 = t.X.b1 ∧ M.b2 = t.X.b2 ∧ M.mu = t.a.root * t.b.root)
    (fun M N h hs => by rw [hs.eq]; exact h)
    (fun X hX => by
      obtain ⟨t, ht, rfl⟩ := List.mem_map.1 hX
      exact ⟨t, ht, rfl, rfl, (touch_values t).1⟩)
  intro M hM
  obtain ⟨t, ht, e1, e2, e3⟩ := k M hM
  obtain ⟨f1, f2, f3⟩ := friction_limits hst hm cfg sqrt body V Js hj M hM
  have e : t.a.friction * t.b.friction = M.mu * M.mu := by rw [e3]; unfold Material.friction; ring
  refine ⟨t, ht, e1, e2, ?_⟩
  unfold Rubs
  rw [e]
  exact ⟨sq_within f1, sq_within f2, sq_within f3⟩

/-- **C148, bounciness in a step, partial.** Two bodies meet at a new contact with more than the threshold speed, one of the materials is without friction: they part with the larger bounciness
of the two materials times the speed of their approach. Missing, as in `collision_partial`: locked axes, friction, several contacts. -/
theorem materials_bounce_partial (cfg : Cfg K) (sqrt : K → K) (body : Nat → SBody K) (V : Nat → Vel K) (t : Touch K) (x : XPoint K) (n : Nat)
    (hx : t.X.pts = [x]) (hnew : x.resting = false) (hmu : t.a.friction = 0 ∨ t.b.friction = 0) (hsp : cfg.split = true) (hb : t.X.b1 ≠ t.X.b2)
    (hV : ∀ b, (V b).v = (body b).v ∧ (V b).w = (body b).w) (hn : V3.dot x.normal x.normal = 1)
    (h1 : 0 ≤ (body t.X.b1).m) (h2 : 0 ≤ (body t.X.b2).m) (h12 : 0 < (body t.X.b1).m + (body t.X.b2).m)
    (hI1 : Psd (body t.X.b1).I) (hI2 : Psd (body t.X.b2).I)
    (hl : ∀ b, (body b).ll = ⟨1, 1, 1⟩ ∧ (body b).la = ⟨1, 1, 1⟩) (hth : 0 ≤ cfg.threshold) (hr : 0 ≤ t.a.bounce)
    (ha : normalSpeed body V t.X.b1 t.X.b2 x < -cfg.threshold) :
    normalSpeed body (runSolver cfg sqrt body V [t.man] (List.replicate (n + 1) id)).1 t.X.b1 t.X.b2 x =
      -(max t.a.bounce t.b.bounce * normalSpeed body V t.X.b1 t.X.b2 x) := by
  obtain ⟨e1, e2, -⟩ := touch_values t
  have z : t.man.mu = 0 := by
    rw [e1]
    rcases hmu with h | h
    · rw [mul_self_eq_zero.1 h, zero_mul]
    · rw [mul_self_eq_zero.1 h, mul_zero]
  rw [← e2]
  exact (collision_partial cfg sqrt body V t.man x n hx hnew z hsp hb hV hn h1 h2 h12 hI1 hI2 hl hth (by rw [e2]; exact le_trans hr (le_max_left _ _)) ha).1

/-! ### Examples -/

/-- A ball of a bouncy material falls on an icy floor and goes up with half of its speed. -/
def bouncy : Material ℚ := Material.make Ex.root 1 (1 / 2) 1
def fallen : Touch ℚ := ⟨bouncy, icy, Ex.man 0 1⟩

example : normalSpeed (Ex.spin 0) (Ex.vels (Ex.spin 0)) 0 1 Ex.down = -1 ∧
    normalSpeed (Ex.spin 0) (runSolver Ex.cfg Ex.root (Ex.spin 0) (Ex.vels (Ex.spin 0)) [fallen.man] (List.replicate (9 + 1) id)).1 0 1 Ex.down = 1 / 2 := by
  have h : normalSpeed (Ex.spin 0) (Ex.vels (Ex.spin 0)) 0 1 Ex.down = -1 := by decide +kernel
  refine ⟨h, ?_⟩
  have hI0 : Psd (Ex.spin 0 0).I := fun a => by
    show 0 ≤ V3.dot a (M3.one.act a)
    simp only [V3.dot, M3.act, M3.one, M3.of]
    nlinarith [mul_self_nonneg a.x, mul_self_nonneg a.y, mul_self_nonneg a.z]
  have hI1 : Psd (Ex.spin 0 1).I := fun a => by
    show 0 ≤ V3.dot a (M3.zero.act a)
    rw [zero_act]
    simp [V3.dot]
  have := materials_bounce_partial Ex.cfg Ex.root (Ex.spin 0) (Ex.vels (Ex.spin 0)) fallen Ex.down 9 rfl rfl (Or.inr (by decide +kernel)) rfl (by decide)
    (fun b => ⟨rfl, rfl⟩) (by decide +kernel) (by decide +kernel) (by decide +kernel) (by decide +kernel) hI0 hI1
    (fun b => by
      unfold Ex.spin Ex.bodies
      split_ifs <;> exact ⟨rfl, rfl⟩) (by decide +kernel) (by decide +kernel) (lt_of_eq_of_lt h (by decide +kernel))
  refine this.trans ?_
  show -(max bouncy.bounce icy.bounce * normalSpeed (Ex.spin 0) (Ex.vels (Ex.spin 0)) 0 1 Ex.down) = 1 / 2
  rw [h]
  decide +kernel

/-- Two rough colliders: the hypotheses of `materials_rub`, and friction does act. -/
def rubbed : Touch ℚ := ⟨rough, rough, Ex.man 0 0⟩

example : (0 ≤ rubbed.a.root ∧ 0 ≤ rubbed.b.root) ∧ rubbed.a.friction * rubbed.b.friction = 1 ∧
    ∃ M ∈ (runSolver Ex.cfg Ex.root onIce (Ex.vels onIce) [rubbed.man] (List.replicate 10 id)).2, M.f1 ≠ 0 ∨ M.f2 ≠ 0 := by decide +kernel

example : Stored [rubbed.man] := Stored.carry [] _ Stored.none (by
  intro Y hY y hy
  simp only [List.mem_cons, List.not_mem_nil, or_false] at hY
  subst hY
  simp only [rubbed, Touch.man, XMan.withMaterials, Ex.man, List.mem_cons, List.not_mem_nil, or_false] at hy
  subst hy
  exact Or.inl rfl)

end MaterialProps
end RP3D
