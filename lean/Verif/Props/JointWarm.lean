import Verif.Props.JointExamples

/-! C101: what joints carry over from one step to the next. -/

set_option linter.unusedSectionVars false

namespace RP3D
namespace JointProps
open Solver Joints SolverProps
variable {K : Type} [Field K] [LinearOrder K] [IsStrictOrderedRing K]

/-! ### Limits that are not reached, or switched off -/

/-- A limit that is not reached exerts no impulse. -/
def Idle : Joint K → Prop
  | .ball J => J.cone = false → J.coneImp = 0
  | .fixed _ => True
  | .hinge J => (J.low = false → J.impL = 0) ∧ (J.up = false → J.impU = 0)
  | .slider J => (J.low = false → J.impL = 0) ∧ (J.up = false → J.impU = 0)

/-- Limits that are switched off exert no impulse. -/
def Off : Joint K → Prop
  | .ball J => J.coneOn = false → J.coneImp = 0
  | .fixed _ => True
  | .hinge J => J.limitOn = false → J.impL = 0 ∧ J.impU = 0
  | .slider J => J.limitOn = false → J.impL = 0 ∧ J.impU = 0

theorem init_idle (jc : JCfg K) (body : Nat → JBody K) (J : Joint K) : Idle (J.init jc body) := by
  cases J with
  | ball J => intro h; have h : decide _ = false := h; show ite _ _ _ = _; rw [h]; rfl
  | fixed J => trivial
  | hinge J =>
    constructor
    · intro h; have h : decide _ = false := h; show ite _ _ _ = _; rw [h]; rfl
    · intro h; have h : decide _ = false := h; show ite _ _ _ = _; rw [h]; rfl
  | slider J =>
    constructor
    · intro h; have h : decide _ = false := h; show ite _ _ _ = _; rw [h]; simp
    · intro h; have h : decide _ = false := h; show ite _ _ _ = _; rw [h]; simp

theorem init_off {jc : JCfg K} {body : Nat → JBody K} {J : Joint K} (h : Off J) : Off (J.init jc body) := by
  cases J with
  | ball J => intro ho; show ite _ _ _ = _; split_ifs <;> first | rfl | exact h ho
  | fixed J => trivial
  | hinge J =>
    intro ho
    obtain ⟨h1, h2⟩ := h ho
    constructor
    · show ite _ _ (ite _ _ _) = _; rw [h1]; simp
    · show ite _ _ (ite _ _ _) = _; rw [h2]; simp
  | slider J =>
    intro ho
    obtain ⟨h1, h2⟩ := h ho
    constructor
    · show ite _ _ _ = _; rw [h1]; simp
    · show ite _ _ _ = _; rw [h2]; simp

theorem Ball.solve_idle (body : Nat → JBody K) (J : Ball K) (V : Nat → Vel K) (h : J.coneOn = false ∨ J.cone = false) :
    (J.solve body V).2.coneImp = J.coneImp := by
  show (J.limit body V).2.coneImp = _
  unfold Ball.limit
  split_ifs with h1 h2
  · simp [h1, h2] at h
  · rfl
  · rfl

theorem Hinge.solve_idle (jc : JCfg K) (body : Nat → JBody K) (J : Hinge K) (V : Nat → Vel K) :
    (J.limitOn = false ∨ J.low = false → (J.solve jc body V).2.impL = J.impL) ∧ (J.limitOn = false ∨ J.up = false → (J.solve jc body V).2.impU = J.impU) := by
  have hL : J.limitOn = false ∨ J.low = false → J.limitL body V = (V, J) := fun h => by
    unfold Hinge.limitL
    rw [if_neg (by rcases h with h | h <;> simp [h])]
  have hU : ∀ (N : Hinge K) W, N.limitOn = false ∨ N.up = false → N.limitU body W = (W, N) := fun N W h => by
    unfold Hinge.limitU
    rw [if_neg (by rcases h with h | h <;> simp [h])]
  constructor
  · intro h
    show (Hinge.motor jc body _ _).2.impL = _
    rw [(Hinge.motor_imp jc body _ _).1, (Hinge.limitU_imp body _ _).2, hL h]
  · intro h
    have e : (J.limitL body V).2.limitOn = J.limitOn ∧ (J.limitL body V).2.up = J.up := by unfold Hinge.limitL; split_ifs <;> exact ⟨rfl, rfl⟩
    show (Hinge.motor jc body _ _).2.impU = _
    rw [(Hinge.motor_imp jc body _ _).2, hU _ _ (by rw [e.1, e.2]; exact h), (Hinge.limitL_imp body _ _).2]

theorem Slider.solve_idle (jc : JCfg K) (body : Nat → JBody K) (J : Slider K) (V : Nat → Vel K) :
    (J.limitOn = false ∨ J.low = false → (J.solve jc body V).2.impL = J.impL) ∧ (J.limitOn = false ∨ J.up = false → (J.solve jc body V).2.impU = J.impU) := by
  have hL : J.limitOn = false ∨ J.low = false → J.limitL body V = (V, J) := fun h => by
    unfold Slider.limitL
    rw [if_neg (by rcases h with h | h <;> simp [h])]
  have hU : ∀ (N : Slider K) W, N.limitOn = false ∨ N.up = false → N.limitU body W = (W, N) := fun N W h => by
    unfold Slider.limitU
    rw [if_neg (by rcases h with h | h <;> simp [h])]
  constructor
  · intro h
    show (Slider.motor jc body _ _).2.impL = _
    rw [(Slider.motor_imp jc body _ _).1, (Slider.limitU_imp body _ _).2, hL h]
  · intro h
    have e : (J.limitL body V).2.limitOn = J.limitOn ∧ (J.limitL body V).2.up = J.up := by unfold Slider.limitL; split_ifs <;> exact ⟨rfl, rfl⟩
    show (Slider.motor jc body _ _).2.impU = _
    rw [(Slider.motor_imp jc body _ _).2, hU _ _ (by rw [e.1, e.2]; exact h), (Slider.limitL_imp body _ _).2]

theorem solve_keeps (jc : JCfg K) (body : Nat → JBody K) (J : Joint K) (V : Nat → Vel K) :
    (Idle J → Idle (J.solve jc body V).2) ∧ (Off J → Off (J.solve jc body V).2) := by
  cases J with
  | ball J =>
    have hs : _ = _ := (J.solve_ok body V).1
    have e : (J.solve body V).2.cone = J.cone ∧ (J.solve body V).2.coneOn = J.coneOn := by rw [hs]; exact ⟨rfl, rfl⟩
    constructor
    · intro h hc; have hc := e.1.symm.trans hc; exact (Ball.solve_idle body J V (Or.inr hc)).trans (h hc)
    · intro h hc; have hc := e.2.symm.trans hc; exact (Ball.solve_idle body J V (Or.inl hc)).trans (h hc)
  | fixed J => exact ⟨fun _ => trivial, fun _ => trivial⟩
  | hinge J =>
    have hs : _ = _ := (J.solve_ok jc body V).1
    have e : (J.solve jc body V).2.low = J.low ∧ (J.solve jc body V).2.up = J.up ∧ (J.solve jc body V).2.limitOn = J.limitOn := by
      rw [hs]; exact ⟨rfl, rfl, rfl⟩
    obtain ⟨k1, k2⟩ := Hinge.solve_idle jc body J V
    constructor
    · intro h
      refine ⟨fun hc => ?_, fun hc => ?_⟩
      · have hc := e.1.symm.trans hc; exact (k1 (Or.inr hc)).trans (h.1 hc)
      · have hc := e.2.1.symm.trans hc; exact (k2 (Or.inr hc)).trans (h.2 hc)
    · intro h hc
      have hc := e.2.2.symm.trans hc
      exact ⟨(k1 (Or.inl hc)).trans (h hc).1, (k2 (Or.inl hc)).trans (h hc).2⟩
  | slider J =>
    have hs : _ = _ := (J.solve_ok jc body V).1
    have e : (J.solve jc body V).2.low = J.low ∧ (J.solve jc body V).2.up = J.up ∧ (J.solve jc body V).2.limitOn = J.limitOn := by
      rw [hs]; exact ⟨rfl, rfl, rfl⟩
    obtain ⟨k1, k2⟩ := Slider.solve_idle jc body J V
    constructor
    · intro h
      refine ⟨fun hc => ?_, fun hc => ?_⟩
      · have hc := e.1.symm.trans hc; exact (k1 (Or.inr hc)).trans (h.1 hc)
      · have hc := e.2.1.symm.trans hc; exact (k2 (Or.inr hc)).trans (h.2 hc)
    · intro h hc
      have hc := e.2.2.symm.trans hc
      exact ⟨(k1 (Or.inl hc)).trans (h hc).1, (k2 (Or.inl hc)).trans (h hc).2⟩

/-- **C101 (limits).** After a step, the limits that were not reached in it have no impulse, whatever they had before. -/
theorem idle_limits (cfg : Cfg K) (jc : JCfg K) (body : Nat → JBody K) (V : Nat → Vel K) (Js : List (Joint K)) (Xs : List (XMan K)) (n : Nat) :
    ∀ N ∈ (solveStep cfg jc body V Js Xs n).2.1, Idle N :=
  step_each cfg jc body (fun J V => (solve_keeps jc body J V).1) V Js Xs n fun J _ => init_idle jc body J

/-- **C101 (limits).** Limits that are switched off get no impulse. -/
theorem off_limits (cfg : Cfg K) (jc : JCfg K) (body : Nat → JBody K) (V : Nat → Vel K) {Js : List (Joint K)} (h : ∀ J ∈ Js, Off J) (Xs : List (XMan K))
    (n : Nat) : ∀ N ∈ (solveStep cfg jc body V Js Xs n).2.1, Off N :=
  step_each cfg jc body (fun J V => (solve_keeps jc body J V).2) V Js Xs n fun J hJ => init_off (h J hJ)

/-! ### Impulses of the step before -/

/-- The impulses that a joint starts with: those it had, but for limits that are not reached now or were not reached in the step before. -/
def Carried : Joint K → Joint K → Prop
  | .ball J, .ball N => N.imp = J.imp ∧ N.coneImp = if N.cone = true ∧ J.cone = true then J.coneImp else 0
  | .fixed J, .fixed N => N.imp = J.imp ∧ N.impR = J.impR
  | .hinge J, .hinge N => N.imp = J.imp ∧ N.impR = J.impR ∧ N.impM = J.impM ∧ (N.impL = if N.low = true ∧ J.low = true then J.impL else 0) ∧
      N.impU = if N.up = true ∧ J.up = true then J.impU else 0
  | .slider J, .slider N => N.imp = J.imp ∧ N.impR = J.impR ∧ N.impM = J.impM ∧ (N.impL = if N.low = true ∧ J.low = true then J.impL else 0) ∧
      N.impU = if N.up = true ∧ J.up = true then J.impU else 0
  | _, _ => False

theorem keep_cases (a b : Bool) (l : K) : (if (!a || a != b) = true then 0 else l) = if a = true ∧ b = true then l else 0 := by
  cases a <;> cases b <;> rfl

/-- **C101 (warm start).** A step begins with the impulses of the step before. -/
theorem impulses_carried {jc : JCfg K} (hw : jc.warm = true) (body : Nat → JBody K) (J : Joint K) : Carried J (J.init jc body) := by
  cases J with
  | ball J => exact ⟨if_pos hw, keep_cases _ _ _⟩
  | fixed J => exact ⟨if_pos hw, if_pos hw⟩
  | hinge J =>
    refine ⟨if_pos hw, if_pos hw, if_pos hw, (keep_cases _ _ _).trans ?_, (keep_cases _ _ _).trans ?_⟩
    · rw [if_pos hw]; rfl
    · rw [if_pos hw]; rfl
  | slider J =>
    refine ⟨if_pos hw, if_pos hw, if_pos hw, ?_, ?_⟩
    · refine Eq.trans ?_ (keep_cases _ _ _)
      show ite _ _ _ = _
      rw [hw]
      rfl
    · refine Eq.trans ?_ (keep_cases _ _ _)
      show ite _ _ _ = _
      rw [hw]
      rfl

/-! ### Rest -/

theorem solveAll_rest {jc : JCfg K} {body : Nat → JBody K} {W : Nat → Vel K} : ∀ {Js : List (Joint K)}, (∀ J ∈ Js, J.solve jc body W = (W, J)) →
    solveAll jc body W Js = (W, Js)
  | [], _ => rfl
  | J :: Js, h => by
    show ((solveAll jc body (J.solve jc body W).1 Js).1, (J.solve jc body W).2 :: (solveAll jc body (J.solve jc body W).1 Js).2) = _
    rw [h J (by simp)]
    dsimp only
    rw [solveAll_rest fun N hN => h N (by simp [hN])]

/-- **C101 (rest).** If the impulses of the step before, applied to the velocities that the forces give, lead to velocities that no joint has to change,
then these are the velocities after the step, for any number of iterations, and the impulses stay as they are. -/
theorem rest_stays (cfg : Cfg K) {jc : JCfg K} (hw : jc.warm = true) (body : Nat → JBody K) (V W : Nat → Vel K) (Js : List (Joint K)) (n : Nat)
    (hW : ∀ b, W b = ⟨(V b).v + linJ body b (Js.map (Joint.init jc body)), (V b).w + angJ body b (Js.map (Joint.init jc body)), (V b).vs, (V b).ws⟩)
    (h : ∀ J ∈ Js, (J.init jc body).solve jc body W = (W, J.init jc body)) :
    solveStep cfg jc body V Js [] n = (W, Js.map (Joint.init jc body), []) := by
  have e : warmAll jc body (Js.map (Joint.init jc body)) V = W := funext fun b => by rw [warmAll_ok jc body hw, hW b]
  have l : ∀ m, loop cfg jc body m (W, Js.map (Joint.init jc body), []) = (W, Js.map (Joint.init jc body), []) := by
    intro m
    induction m with
    | zero => rfl
    | succ m ih =>
      have : solveAll jc body W (Js.map (Joint.init jc body)) = (W, Js.map (Joint.init jc body)) := solveAll_rest fun N hN => by
        obtain ⟨J, hJ, rfl⟩ := List.mem_map.1 hN
        exact h J hJ
      show loop cfg jc body m ((Solver.solve cfg (solveAll jc body W (Js.map (Joint.init jc body))).1 []).1, (solveAll jc body W (Js.map (Joint.init jc body))).2,
        (Solver.solve cfg (solveAll jc body W (Js.map (Joint.init jc body))).1 []).2) = _
      rw [this]
      exact ih
  show loop cfg jc body n (warmAll jc body (Js.map (Joint.init jc body)) V, _, []) = _
  rw [e]
  exact l n

/-- **C101 (a hanging body).** A body that hangs at a ball-and-socket joint on a body without inverse mass, is at rest, and gets from the forces just the
velocity that the impulse of the step before takes away, stays at rest, and the joint keeps its impulse. -/
theorem hanging_body (cfg : Cfg K) {jc : JCfg K} (hw : jc.warm = true) {body : Nat → JBody K} {V : Nat → Vel K} {J : Ball K} (n : Nat)
    (hm : Movable jc body J.b1 J.b2) (hd : jc.eps < |(anchorMass body J.b1 J.b2 J.a1 J.a2).det|) (hc : J.coneOn = false) (hz : J.coneImp = 0)
    (fixed : (body J.b1).m = 0 ∧ ∀ a, (body J.b1).I.act a = 0) (still : (V J.b1).v = 0 ∧ (V J.b1).w = 0)
    (closed : anchor (body J.b2) J.a2 = anchor (body J.b1) J.a1)
    (lin : (V J.b2).v = -(V3.smul (body J.b2).m J.imp)) (ang : (V J.b2).w = -((body J.b2).I.act (V3.cross (anchor (body J.b2) J.a2 - (body J.b2).x) J.imp))) :
    ∃ N : Ball K, (solveStep cfg jc body V [.ball J] [] n).2.1 = [.ball N] ∧ N.imp = J.imp ∧
      ∀ b ∈ [J.b1, J.b2], ((solveStep cfg jc body V [.ball J] [] n).1 b).v = 0 ∧ ((solveStep cfg jc body V [.ball J] [] n).1 b).w = 0 := by
  have hci : (J.init jc body).coneImp = 0 := init_off (J := .ball J) (fun _ => hz) hc
  have him : (J.init jc body).imp = J.imp := if_pos hw
  have hf := Ball.fields (jc := jc) (body := body) (J := J) (N := J.init jc body) rfl
  set N := J.init jc body with hN
  obtain ⟨f1, f2, f3, f4, f5, f6, f7, f8, f9⟩ := hf
  obtain ⟨k1, k2, -⟩ := kick_free hm.two hm.free1 hm.free2 (-N.imp) (V3.cross N.imp N.r1 + V3.smul N.coneImp N.axb) N.imp
    (-(V3.cross N.imp N.r2) + -(V3.smul N.coneImp N.axb)) V
  have w1 : N.warm body V J.b1 = ⟨0, 0, (V J.b1).vs, (V J.b1).ws⟩ := by
    show kick (two body N.b1 N.b2) _ _ _ _ V J.b1 = _
    rw [f1, f2, k1, fixed.1, fixed.2, still.1, still.2, zero_smul', add_zero]
  have w2 : N.warm body V J.b2 = ⟨0, 0, (V J.b2).vs, (V J.b2).ws⟩ := by
    have ea : -(V3.cross N.imp N.r2) + -(V3.smul N.coneImp N.axb) = V3.cross (anchor (body J.b2) J.a2 - (body J.b2).x) J.imp := by
      rw [hci, zero_smul', him, f7, anchor_eq]
      ext <;> simp only [V3.cross, V3.add_x, V3.add_y, V3.add_z, V3.neg_x, V3.neg_y, V3.neg_z, V3.sub_x, V3.sub_y, V3.sub_z, V3.zero_x, V3.zero_y, V3.zero_z] <;>
        ring
    show kick (two body N.b1 N.b2) _ _ _ _ V J.b2 = _
    rw [f1, f2, k2, ea, him, lin, ang, neg_add_cancel, neg_add_cancel]
  have hs : Ball.Solved jc body N (N.warm body V) := by
    refine ⟨?_, fun h => absurd (show N.coneOn = false from hc) (by simp [h])⟩
    have hcl : closing jc body N.baum N.b1 N.b2 N.a1 N.a2 = 0 := by
      unfold closing
      rw [f1, f2, f3, f4, closed, sub_self]
      split_ifs
      · ext <;> simp
      · rfl
    have z : ∀ a : V3 K, V3.cross 0 a = 0 := fun a => by ext <;> simp [V3.cross]
    rw [hcl, f1, f2]
    unfold pointVel
    rw [w1, w2]
    dsimp only
    rw [z, z, add_zero, sub_self]
    exact neg_zero.symm
  have hid := (ball_solved (jc := jc) (body := body) (J := J) (N := N) rfl hm hd (fun h => absurd (show N.coneOn = false from hc) (by simp [h]))
    (N.warm body V)).1 hs
  have hr := rest_stays cfg hw body V (N.warm body V) [.ball J] n (fun b => by
    have h1 := Joint.warm_eq body (.ball N) V b
    have h2 := warmAll_ok jc body hw ([Joint.ball J].map (Joint.init jc body)) V b
    rw [← h2]
    unfold warmAll
    rw [if_pos hw]
    rfl) (fun A hA => by
      rw [List.mem_singleton] at hA
      subst hA
      show ((N.solve body (N.warm body V)).1, Joint.ball (N.solve body (N.warm body V)).2) = _
      rw [hid]
      rfl)
  refine ⟨N, by rw [hr]; rfl, him, fun b hb => ?_⟩
  rw [hr]
  rcases List.mem_cons.1 hb with rfl | hb
  · dsimp only; rw [w1]; exact ⟨rfl, rfl⟩
  · dsimp only; rw [List.mem_singleton.1 hb, w2]; exact ⟨rfl, rfl⟩

/-! ### Examples -/

namespace Ex

/-- A body below a fixed one: the anchor is one meter above it. -/
def ceiling (b : Nat) : JBody ℚ := if b = 0 then ⟨⟨0, 0, 0, 0, M3.zero, ⟨1, 1, 1⟩, ⟨1, 1, 1⟩⟩, Quat.one, 0, false⟩ else unit ⟨0, -1, 0⟩
/-- It was held with impulse 10 in the step before. -/
def held : Ball ℚ := { ball 0 ⟨0, 1, 0⟩ with imp := ⟨0, 10, 0⟩, baum := true }

/-- Gravity gives the hanging body a velocity of 10; it stays where it is. -/
example : ∃ N : Ball ℚ, (solveStep cc jc ceiling (moving ⟨0, -10, 0⟩ 0) [.ball held] [] 5).2.1 = [.ball N] ∧ N.imp = ⟨0, 10, 0⟩ ∧
    ∀ b ∈ [0, 1], ((solveStep cc jc ceiling (moving ⟨0, -10, 0⟩ 0) [.ball held] [] 5).1 b).v = 0 ∧
      ((solveStep cc jc ceiling (moving ⟨0, -10, 0⟩ 0) [.ball held] [] 5).1 b).w = 0 :=
  hanging_body cc (J := held) rfl 5 ⟨by decide, ⟨rfl, rfl⟩, ⟨rfl, rfl⟩, rfl, by decide +kernel⟩ (by decide +kernel) rfl rfl
    ⟨rfl, fun a => by show M3.act M3.zero a = 0; ext <;> simp [M3.zero, M3.of, M3.act]⟩ ⟨rfl, rfl⟩ (by decide +kernel) (by decide +kernel) (by decide +kernel)

/-- A hinge that has left its lower limit starts the step without the impulse of that limit. -/
example : Idle ((Joint.hinge { hinge 0 0 with impL := 3, low := true, limitOn := true, lower := -1 }).init jc (both 0)) ∧
    ∃ N : Hinge ℚ, (Joint.hinge { hinge 0 0 with impL := 3, low := true, limitOn := true, lower := -1 }).init jc (both 0) = .hinge N ∧ N.low = false ∧
      N.impL = 0 :=
  ⟨init_idle _ _ _, _, rfl, by decide +kernel, by decide +kernel⟩

/-- The impulse that a ball-and-socket joint exerted is where the next step starts. -/
example : Carried (.ball held) ((Joint.ball held).init jc ceiling) := impulses_carried rfl _ _

example : Off (Joint.slider (slider 0 0)) := fun _ => ⟨rfl, rfl⟩

end Ex

end JointProps
end RP3D
