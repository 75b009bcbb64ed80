import Verif.Props.Galileo
import Verif.Props.Newton
import Verif.Props.JointPosition
import Verif.Dynamics.Sleep

/-! C136: kinematic bodies move exactly as told. -/

set_option linter.unusedSectionVars false

namespace RP3D
namespace Kinematic
open Solver Joints SolverProps JointProps Whole
open Apart (Ev)
open Galileo (dur total)
open Local (thread solveAll_thread solve_thread warmStart_thread Still StillJ solveMan_still warmMan_still)
variable {K : Type} [Field K] [LinearOrder K] [IsStrictOrderedRing K]

/-! ### Specification -/

/-- The orientation `q` turned with the angular velocity `ω` for the time `dt`, to first order, and normalised. -/
def turn (sqrt : K → K) (dt : K) (ω : V3 K) (q : Quat K) : Quat K :=
  let r := q.add (((⟨ω.x, ω.y, ω.z, 0⟩ : Quat K).mul q).scale (dt / 2))
  r.divBy (sqrt r.lengthSq)

/-- Body `c` is kinematic, awake and undamped; its center of mass is at `x`, its orientation is `q`, it moves with the velocities `v` and `ω`. -/
structure Moves (w : DW K) (c : Nat) (x v ω : V3 K) (q : Quat K) : Prop where
  some : ∃ d, w.body c = some d
  type : (dyn w c).type = .kinematic
  enabled : (dyn w c).disabled = false
  awake : (dyn w c).sleeping = false
  lin : (dyn w c).linDamp = 0
  angd : (dyn w c).angDamp = 0
  com : (dyn w c).comWorld = x
  vel : (dyn w c).vel = v
  ang : (dyn w c).ang = ω
  ori : (dyn w c).tr.ori = q

/-- Calls on the body that do not tell it to move in another way. -/
def Mild : Dyn.Op K → Prop
  | .force _ _ | .forceLocalPos _ _ | .localForce _ _ | .localForceLocalPos _ _ | .forceCenter _ | .localForceCenter _ | .torque _ | .localTorque _ => True
  | .resetForce | .resetTorque | .setInertia _ | .inertiaFromColliders _ | .massFromColliders _ | .setMass _ | .allowed _ | .gravity _ | .linearLock _ | .angularLock _ => True
  | _ => False

/-- A history of the world in which the body is not told to move in another way, and does not fall asleep. -/
def Steady (sqrt : K → K) (c : Nat) : DW K → List (Ev K) → Prop
  | _, [] => True
  | w, e :: es => (match e with
      | .step i => i.jc.sqrt = sqrt ∧ (∀ q, i.len q = sqrt q.lengthSq) ∧ (dyn (update i w) c).sleeping = false
      | .create b _ => b ≠ c
      | .destroy b => b ≠ c
      | .call b o => b ≠ c ∨ Mild o
      | _ => True) ∧ Steady sqrt c (e.run w) es

/-- The orientation after the steps of a history. -/
def turns (sqrt : K → K) (ω : V3 K) : Quat K → List (Ev K) → Quat K
  | q, [] => q
  | q, .step i :: es => turns sqrt ω (turn sqrt i.dt ω q) es
  | q, _ :: es => turns sqrt ω q es

/-! ### The velocity solvers -/

section vels
variable {body : Nat → JBody K} {c : Nat}

theorem thread_still {α β : Type} {f : (Nat → α) → β → (Nat → α) × β} {P : β → Prop} (h : ∀ V j, P j → (f V j).1 c = V c) (hp : ∀ V j, P j → P (f V j).2) :
    ∀ (l : List β) (V : Nat → α), (∀ j ∈ l, P j) → (thread f V l).1 c = V c ∧ ∀ j ∈ (thread f V l).2, P j
  | [], _, _ => ⟨rfl, fun _ h => by cases h⟩
  | j :: js, V, hj => by
    obtain ⟨a, b⟩ := thread_still h hp js (f V j).1 fun i hi => hj i (List.mem_cons_of_mem _ hi)
    simp only [thread]
    refine ⟨a.trans (h V j (hj j List.mem_cons_self)), fun i hi => ?_⟩
    rcases List.mem_cons.1 hi with rfl | hi
    · exact hp V j (hj j List.mem_cons_self)
    · exact b i hi

variable (hc : (body c).m = 0 ∧ (body c).I = M3.zero)
include hc

theorem fits_still {M : Man K} (h : Fits (fun b => (body b).toSBody) M) : Still M c := by
  obtain ⟨f1, f2, f3, f4, _⟩ := h
  constructor
  · rintro rfl; rw [f1, f3]; exact hc
  · rintro rfl; rw [f2, f4]; exact hc

/-- A manifold as initialised, up to the impulses. -/
def PM (body : Nat → JBody K) (M : Man K) : Prop := GoodM M ∧ Fits (fun b => (body b).toSBody) M

theorem loop_still (cfg : Cfg K) (jc : JCfg K) : ∀ (n : Nat) (s : (Nat → Vel K) × List (Joint K) × List (Man K)), (∀ M ∈ s.2.2, PM body M) →
    (Joints.loop cfg jc body n s).1 c = s.1 c
  | 0, _, _ => rfl
  | n + 1, s, hm => by
    obtain ⟨a, _⟩ := thread_still (c := c) (f := fun V J => Joint.solve jc body V J) (P := fun _ => True) (fun V J _ => Local.Joint.solve_still jc J (fun _ => hc) V) (fun _ _ _ => trivial)
      s.2.1 s.1 fun _ _ => trivial
    obtain ⟨b, k⟩ := thread_still (c := c) (f := solveMan cfg) (P := PM body) (fun V M h => solveMan_still cfg (fits_still hc h.2) h.1 V)
      (fun V M h => ⟨h.1.of_same (solveMan_ok cfg V M h.1).1, h.2.of_same (solveMan_ok cfg V M h.1).1⟩) s.2.2 (thread (fun V J => Joint.solve jc body V J) s.1 s.2.1).1 hm
    rw [Joints.loop, solveAll_thread, solve_thread]
    exact (loop_still cfg jc n _ k).trans (b.trans a)

theorem solveStep_still (cfg : Cfg K) (jc : JCfg K) (V : Nat → Vel K) (Js : List (Joint K)) (Xs : List (XMan K)) (n : Nat) : (solveStep cfg jc body V Js Xs n).1 c = V c := by
  have hm : ∀ M ∈ Xs.map (initMan cfg jc.sqrt fun b => (body b).toSBody), PM body M := by
    intro M hM
    obtain ⟨X, hX, rfl⟩ := List.mem_map.1 hM
    exact ⟨initMan_good _ _ _ _, initMan_fits _ _ _ _⟩
  obtain ⟨a, k⟩ := thread_still (c := c) (f := warmMan) (P := PM body) (fun V M h => warmMan_still (fits_still hc h.2) h.1 V)
    (fun V M h => ⟨h.1.of_same (warmMan_ok V M h.1).1, h.2.of_same (warmMan_ok V M h.1).1⟩) _ V hm
  have wj : ∀ (Js : List (Joint K)) (V : Nat → Vel K), warmAll jc body Js V c = V c := by
    unfold warmAll
    split
    · intro Js
      induction Js with
      | nil => intro V; rfl
      | cons J Js ih => intro V; rw [List.foldl_cons, ih]; exact Local.Joint.warm_still J (fun _ => hc) V
    · intro _ _; rfl
  unfold solveStep
  dsimp only
  rw [warmStart_thread]
  exact (loop_still hc cfg jc n _ k).trans ((wj _ _).trans a)

end vels

/-! ### The step -/

section step
variable {w : DW K} {c : Nat} {x v ω : V3 K} {q : Quat K} {i : In K}

theorem turn_ne (dt : K) (ω : V3 K) {q : Quat K} (hq : q.lengthSq = 1) : (q.add (((⟨ω.x, ω.y, ω.z, 0⟩ : Quat K).mul q).scale (dt / 2))).lengthSq ≠ 0 := by
  have e : (q.add (((⟨ω.x, ω.y, ω.z, 0⟩ : Quat K).mul q).scale (dt / 2))).lengthSq = (1 + (dt / 2) * (dt / 2) * (ω.x * ω.x + ω.y * ω.y + ω.z * ω.z)) * q.lengthSq := by
    simp only [Quat.add, Quat.scale, Quat.mul, Quat.lengthSq]
    ring
  rw [e, hq, mul_one]
  have := mul_nonneg (mul_self_nonneg (dt / 2)) (add_nonneg (add_nonneg (mul_self_nonneg ω.x) (mul_self_nonneg ω.y)) (mul_self_nonneg ω.z))
  linarith

theorem turn_unit {sqrt : K → K} (hs : IsSqrt sqrt) (jc : JCfg K) (hj : jc.sqrt = sqrt) (dt : K) (ω : V3 K) (hq : q.lengthSq = 1) : (turn sqrt dt ω q).lengthSq = 1 := by
  subst hj
  exact unitQ_unit (cfg := jc) hs (turn_ne dt ω hq)

theorem Moves.body (h : Moves w c x v ω q) : w.body c = Option.some (dyn w c) := by
  obtain ⟨d, hd⟩ := h.some
  unfold dyn
  rw [hd]; rfl

/-- The integration of velocities of a kinematic body. -/
theorem integrate_kinematic (d : Dyn K) (dt : K) (g : Option (V3 K)) (h1 : d.disabled = false) (h2 : d.linDamp = 0) (h3 : d.angDamp = 0) (m1 : d.invMass = 0) (m2 : d.invInertiaW = M3.zero) :
    (d.integrateVel dt g).cVel = d.vel ∧ (d.integrateVel dt g).cAng = d.ang ∧ (d.integrateVel dt g).sVel = 0 ∧ (d.integrateVel dt g).sAng = 0 ∧ (d.integrateVel dt g).comWorld = d.comWorld ∧
      (d.integrateVel dt g).tr = d.tr ∧ (d.integrateVel dt g).invMass = d.invMass ∧ (d.integrateVel dt g).invInertia = d.invInertia ∧ (d.integrateVel dt g).invInertiaW = d.invInertiaW ∧
      (d.integrateVel dt g).disabled = d.disabled := by
  have z : ∀ a b : V3 K, V3.had (V3.smul (dt * 0) a) b = 0 := fun a b => by ext <;> simp [V3.had]
  have z' : ∀ (m : K) (a b : V3 K), V3.had (V3.smul m (V3.smul (dt * 0) a)) b = 0 := fun m a b => by ext <;> simp [V3.had]
  have y : ∀ a b : V3 K, V3.had a ((M3.zero : M3 K).act b) = 0 := fun a b => by ext <;> simp [V3.had, M3.act, M3.zero, M3.of]
  have o : ∀ a : V3 K, V3.smul (1 / (1 + 0 * dt)) a = a := fun a => by ext <;> simp
  have f : ¬ d.disabled = true := by rw [h1]; decide
  unfold Dyn.integrateVel
  rw [if_neg f]
  unfold Dyn.integrateDamping Dyn.integrateGravity Dyn.integrateForce
  cases g with
  | none =>
    dsimp only
    rw [h2, h3, o, o, m1, m2, z, y, add_zero, add_zero]
    exact ⟨by trivial, by trivial, by trivial, by trivial, by trivial, by trivial, by trivial, by trivial, by trivial, by trivial⟩
  | some g =>
    dsimp only
    by_cases k : d.gravity = true
    · simp only [if_pos k]
      rw [h2, h3, o, o, m1, m2, z, y, z', add_zero, add_zero, add_zero]
      exact ⟨by trivial, by trivial, by trivial, by trivial, by trivial, by trivial, by trivial, by trivial, by trivial, by trivial⟩
    · simp only [if_neg k]
      rw [h2, h3, o, o, m1, m2, z, y, add_zero, add_zero]
      exact ⟨by trivial, by trivial, by trivial, by trivial, by trivial, by trivial, by trivial, by trivial, by trivial, by trivial⟩

/-- The kinematic body after the integration of velocities. -/
theorem ready_kinematic (hr : DW.Reach DW.Any w) (h : Moves w c x v ω q) : ∃ p, dyn (ready i w) c = p ∧
    p.cVel = v ∧ p.cAng = ω ∧ p.sVel = 0 ∧ p.sAng = 0 ∧ p.comWorld = x ∧ p.tr.ori = q ∧ p.invMass = 0 ∧ p.invInertia = 0 ∧ p.invInertiaW = M3.zero ∧ p.disabled = false := by
  have hd := h.body
  have hm := (DW.kept_mass _).reach hr c _ hd
  have hn : (dyn w c).type ≠ .dynamic := by rw [h.type]; decide
  have e : dyn (ready i w) c = (dyn w c).updateInertia.integrateVel i.dt i.g := by
    conv_lhs => unfold dyn
    rw [Galileo.ready_some hd, Galileo.setIsSleeping_id h.awake, ite_self]
    rfl
  refine ⟨_, e, ?_⟩
  have h1 := h.enabled; have h2 := h.lin; have h3 := h.angd; have h4 := h.com; have h5 := h.vel; have h6 := h.ang; have h7 := h.ori
  have m1 : (dyn w c).invMass = 0 := by rw [hm.m, if_neg hn]
  have m2 : (dyn w c).invInertia = 0 := by rw [hm.i, if_neg hn]
  clear e hd hm hn
  generalize dyn w c = d at *
  have u : d.updateInertia = { d with invInertiaW := M3.zero } := by
    unfold Dyn.updateInertia
    rw [if_neg (by rw [h1]; decide), m2, Dyn.worldInertia_zero]
  rw [u]
  obtain ⟨a1, a2, a3, a4, a5, a6, a7, a8, a9, a10⟩ := integrate_kinematic { d with invInertiaW := M3.zero } i.dt i.g h1 h2 h3 m1 rfl
  exact ⟨a1.trans h5, a2.trans h6, a3, a4, a5.trans h4, by rw [a6]; exact h7, a7.trans m1, a8.trans m2, a9, a10.trans h1⟩

/-- What a step tells the rest of the engine. -/
def told (i : In K) (w : DW K) : DW.Args K := i.args (fun b => some (vels i w b)) fun b => some (poss i w b)

/-- The body before it may fall asleep. -/
theorem move_kinematic (hr : DW.Reach DW.Any w) (hs : IsSqrt i.jc.sqrt) (hl : ∀ q, i.len q = i.jc.sqrt q.lengthSq) (h : Moves w c x v ω q) (hq : q.lengthSq = 1) :
    ((dyn w c).move (told i w) c).vel = v ∧
      ((dyn w c).move (told i w) c).ang = ω ∧
      ((dyn w c).move (told i w) c).comWorld = x + V3.smul i.dt v ∧
      ((dyn w c).move (told i w) c).tr.ori = turn i.jc.sqrt i.dt ω q := by
  obtain ⟨_, rfl, r1, r2, r3, r4, r5, r6, r7, r8, r9, r10⟩ := ready_kinematic (i := i) hr h
  have hv : (solved i w).1 c = velOf (dyn (ready i w) c) :=
    solveStep_still (c := c) (body := fun b => jbody (dyn (ready i w) b)) ⟨r7, r9⟩ _ _ _ _ _ _
  have hmid : (midway i w c).cPos = x + V3.smul i.dt v ∧ (midway i w c).cOri = q.add (((⟨ω.x, ω.y, ω.z, 0⟩ : Quat K).mul q).scale (i.dt / 2)) ∧
      (midway i w c).invMass = 0 ∧ (midway i w c).invInertia = 0 ∧ (midway i w c).disabled = false ∧ (midway i w c).cVel = v ∧ (midway i w c).cAng = ω := by
    have e : vels i w c = ⟨v, ω, 0, 0⟩ := by
      unfold vels
      rw [hv]
      show (⟨(dyn (ready i w) c).cVel, (dyn (ready i w) c).cAng, (dyn (ready i w) c).sVel, (dyn (ready i w) c).sAng⟩ : Dyn.Vels K) = _
      rw [r1, r2, r3, r4]
    unfold midway
    rw [e]
    generalize dyn (ready i w) c = p at *
    unfold Dyn.solveVel Dyn.integratePos
    dsimp only
    rw [if_neg (by rw [r10]; decide)]
    have z : ∀ k : K, V3.smul k (0 : V3 K) = 0 := fun k => by ext <;> simp
    refine ⟨?_, ?_, r7, r8, r10, rfl, rfl⟩
    · dsimp only
      rw [r5, z, add_zero]
    · dsimp only
      rw [r6, z, add_zero]
      have : ∀ p : Quat K, (p.scale (1 / 2)).scale i.dt = p.scale (i.dt / 2) := fun p => by
        ext <;> simp only [Quat.scale] <;> ring
      rw [this]
  obtain ⟨k1, k2, k3, k4, k5, k6, k7⟩ := hmid
  have hx : ((corrected i w).1 c).x = x + V3.smul i.dt v := by
    obtain ⟨a, b, d⟩ := correct_locked { i.jc with dt := i.dt } (fun b => PBody.ofDyn (midway i w b)) i.np (fun b => Pose.ofDyn (midway i w b)) (pins (solved i w).2.1) c
    have : ((corrected i w).1 c).x = (midway i w c).cPos := by
      ext
      · exact a (Or.inl k3)
      · exact b (Or.inl k3)
      · exact d (Or.inl k3)
    rw [this, k1]
  have hn := turn_ne i.dt ω hq
  have ho : ((corrected i w).1 c).q.divBy (i.len ((corrected i w).1 c).q) = turn i.jc.sqrt i.dt ω q := by
    rw [hl]
    have t := correct_locked_turn (cfg := { i.jc with dt := i.dt }) hs (fun b => PBody.ofDyn (midway i w b)) i.np (fun b => Pose.ofDyn (midway i w b)) (pins (solved i w).2.1) c (Or.inl k4)
      (by show (midway i w c).cOri.lengthSq ≠ 0; rw [k2]; exact hn)
    change ((corrected i w).1 c).q = (midway i w c).cOri ∨ ((corrected i w).1 c).q = unitQ { i.jc with dt := i.dt } (midway i w c).cOri at t
    rw [k2] at t
    rcases t with t | t
    · rw [t]; rfl
    · rw [t]
      exact unitQ_of_unit (cfg := { i.jc with dt := i.dt }) hs (unitQ_unit (cfg := { i.jc with dt := i.dt }) hs hn)
  have hd := h.body
  have hmv : (dyn w c).move (told i w) c = ((midway i w c).solvePos (some (poss i w c))).updateState i.len := by
    have a := Galileo.moved_dyn (i := i) ⟨_, hd⟩
    rw [DW.moved_body] at a
    have b : (DW.wakeIslands (told i w) w).body c = some (dyn w c) := by
      show (w.body c).map _ = _
      rw [hd, Option.map_some]
      dsimp only
      rw [Galileo.setIsSleeping_id h.awake, ite_self]
    change ((DW.wakeIslands (told i w) w).body c).map _ = _ at a
    rw [b] at a
    exact Option.some.inj a
  rw [hmv]
  unfold poss
  generalize midway i w c = m at *
  unfold Dyn.solvePos Dyn.updateState
  dsimp only
  rw [if_neg (by rw [k5]; decide)]
  exact ⟨k6, k7, hx, ho⟩

/-- **C136, a step.** A kinematic body that stays awake moves with the velocities it was given, whatever forces and gravity act, whatever it touches, and whatever joints it has. -/
theorem kinematic_step (hr : DW.Reach DW.Any w) (hs : IsSqrt i.jc.sqrt) (hl : ∀ q, i.len q = i.jc.sqrt q.lengthSq) (h : Moves w c x v ω q) (hq : q.lengthSq = 1)
    (ha : (dyn (update i w) c).sleeping = false) : Moves (update i w) c (x + V3.smul i.dt v) v ω (turn i.jc.sqrt i.dt ω q) := by
  have st := move_kinematic hr hs hl h hq
  have hd := h.body
  obtain ⟨t, hu⟩ := Newton.after (told i w) hd h.awake ha
  have s := Dyn.move_same (told i w) c (dyn w c)
  have e : dyn (update i w) c = { (dyn w c).move (told i w) c with sleepTime := t, force := 0, torque := 0 } := by
    conv_lhs => unfold dyn
    show ((w.update (told i w)).body c).getD _ = _
    rw [hu]; rfl
  refine ⟨⟨_, hu⟩, ?_, ?_, ha, ?_, ?_, ?_, ?_, ?_, ?_⟩ <;> rw [e]
  · exact s.type.trans h.type
  · exact s.disabled.trans h.enabled
  · exact s.linDamp.trans h.lin
  · exact s.angDamp.trans h.angd
  · exact st.2.2.1
  · exact st.1
  · exact st.2.1
  · exact st.2.2.2

/-- When it stays awake: sleeping is off, or the body may not sleep or is faster than the limits and the islands are those of the world (C29). -/
theorem kinematic_awake (hr : DW.Reach DW.Any w) (hs : IsSqrt i.jc.sqrt) (hl : ∀ q, i.len q = i.jc.sqrt q.lengthSq) (h : Moves w c x v ω q) (hq : q.lengthSq = 1)
    (ha : w.sleepOn = false ∨ (((dyn w c).allowed = false ∨ w.limL * w.limL < V3.lengthSq v ∨ w.limA * w.limA < V3.lengthSq ω) ∧ 0 < w.before ∧ DW.IslandsOk (DW.moved (told i w) w) i.islands)) :
    (dyn (update i w) c).sleeping = false := by
  have st := move_kinematic hr hs hl h hq
  have hd := h.body
  have s := Dyn.move_same (told i w) c (dyn w c)
  have hm : (DW.moved (told i w) w).body c = some ((dyn w c).move (told i w) c) := by
    have b : (DW.wakeIslands (told i w) w).body c = some (dyn w c) := by
      show (w.body c).map _ = _
      rw [hd, Option.map_some]
      dsimp only
      rw [Galileo.setIsSleeping_id h.awake, ite_self]
    rw [DW.moved_body, b]; rfl
  have sl : ((dyn w c).move (told i w) c).sleeping = false := s.sleeping.trans h.awake
  have key : ∃ e, (if (DW.moved (told i w) w).sleepOn then DW.updateSleeping i.add i.big i.dt (DW.moved (told i w) w) i.islands else DW.moved (told i w) w).body c = some e ∧ e.sleeping = false := by
    by_cases on : (DW.moved (told i w) w).sleepOn = true
    · rw [if_pos on]
      rcases ha with ha | ⟨ha, hb, hi⟩
      · exact absurd on (by show ¬ w.sleepOn = true; rw [ha]; decide)
      · by_cases k : ∃ l ∈ i.islands, c ∈ l
        · obtain ⟨l, hl, hc⟩ := k
          refine ⟨_, by rw [DW.updateSleeping_body i.add i.big i.dt i.islands _ hi hb l hl c hc, hm]; rfl, ?_⟩
          have nr : ¬ (DW.moved (told i w) w).IslandReady i.add i.big i.dt l := by
            intro r
            rcases r.2 c hc _ hm with r | ⟨r, _⟩
            · rw [s.type, h.type] at r; cases r
            · unfold DW.atRest at r
              have l1 : (DW.moved (told i w) w).limL = w.limL := rfl
              have l2 : (DW.moved (told i w) w).limA = w.limA := rfl
              rw [st.1, st.2.1, l1, l2, s.allowed] at r
              rcases ha with ha | ha | ha <;> simp [ha] at r
          unfold DW.slept
          rw [if_neg nr]
          unfold DW.ticked
          split_ifs <;> exact sl
        · push Not at k
          rw [DW.updateSleeping_other i.add i.big i.dt i.islands _ hi hb c fun l hl hc => absurd hc (k l hl)]
          exact ⟨_, hm, sl⟩
    · rw [if_neg on]; exact ⟨_, hm, sl⟩
  obtain ⟨e, he, hf⟩ := key
  have : (update i w).body c = some e.resetForces := by
    show Option.map _ _ = _
    exact (congrArg (Option.map Dyn.resetForces) he).trans rfl
  unfold dyn
  rw [this]
  exact hf

/-- The position of the body follows from its center of mass and its orientation. -/
theorem Moves.position (hr : DW.Reach DW.Any w) (h : Moves w c x v ω q) : (dyn w c).tr.pos = x - q.rot (dyn w c).comLocal := by
  have k := (DW.kept_com _).reach hr c _ h.body
  have e : (dyn w c).comWorld = (dyn w c).tr.ori.rot (dyn w c).comLocal + (dyn w c).tr.pos := k
  rw [h.com, h.ori] at e
  rw [e]; abel

end step

/-! ### Histories -/

section run
variable {w : DW K} {c : Nat} {x v ω : V3 K} {q : Quat K}

theorem Moves.of_eq {z : DW K} (h : Moves w c x v ω q) (e : z.body c = w.body c) : Moves z c x v ω q := by
  have k : dyn z c = dyn w c := by unfold dyn; rw [e]
  obtain ⟨⟨d, hd⟩, h1, h2, h3, h4, h5, h6, h7, h8, h9⟩ := h
  refine ⟨⟨d, e.trans hd⟩, ?_, ?_, ?_, ?_, ?_, ?_, ?_, ?_, ?_⟩ <;> rw [k] <;> assumption

theorem mild_moves {o : Dyn.Op K} (h : Moves w c x v ω q) (ho : Mild o) : Moves (w.exec (.call c o)) c x v ω q := by
  have hd := h.body
  have e : (w.exec (.call c o)).body c = some ((dyn w c).exec o) := by
    show (w.modify c fun d => d.exec o).body c = _
    rw [DW.modify_same, hd]; rfl
  have k : dyn (w.exec (.call c o)) c = (dyn w c).exec o := by
    conv_lhs => unfold dyn
    rw [e]; rfl
  obtain ⟨_, h1, h2, h3, h4, h5, h6, h7, h8, h9⟩ := h
  have hn : (dyn w c).type ≠ .dynamic := by rw [h1]; decide
  have hf : ∀ f p, (dyn w c).applyForce f p = dyn w c := fun f p => by unfold Dyn.applyForce; rw [if_pos hn]
  have hg : ∀ f, (dyn w c).applyForceCenter f = dyn w c := fun f => by unfold Dyn.applyForceCenter; rw [if_pos hn]
  have ht : ∀ f, (dyn w c).applyTorque f = dyn w c := fun f => by unfold Dyn.applyTorque; rw [if_pos hn]
  have hi : ∀ f, (dyn w c).setInertia f = { dyn w c with inertia := f } := fun f => by unfold Dyn.setInertia; rw [if_neg hn]
  have hm : ∀ f, (dyn w c).storeMass f = { dyn w c with mass := f } := fun f => by unfold Dyn.storeMass; rw [if_neg hn]
  have same : (dyn w c).exec o = dyn w c → Moves (w.exec (.call c o)) c x v ω q := fun r => by
    refine ⟨⟨_, e⟩, ?_, ?_, ?_, ?_, ?_, ?_, ?_, ?_, ?_⟩ <;> rw [k, r] <;> assumption
  cases o <;> first | exact absurd ho id | skip
  case force => exact same (hf _ _)
  case forceLocalPos => exact same (hf _ _)
  case localForce => exact same (hf _ _)
  case localForceLocalPos => exact same (hf _ _)
  case forceCenter => exact same (hg _)
  case localForceCenter => exact same (hg _)
  case torque => exact same (ht _)
  case localTorque => exact same (ht _)
  case resetForce => exact same (by show Dyn.resetForce _ = _; unfold Dyn.resetForce; rw [if_pos hn])
  case resetTorque => exact same (by show Dyn.resetTorque _ = _; unfold Dyn.resetTorque; rw [if_pos hn])
  case setInertia f => exact ⟨⟨_, e⟩, by rw [k, Dyn.exec, hi]; exact h1, by rw [k, Dyn.exec, hi]; exact h2, by rw [k, Dyn.exec, hi]; exact h3, by rw [k, Dyn.exec, hi]; exact h4, by rw [k, Dyn.exec, hi]; exact h5,
      by rw [k, Dyn.exec, hi]; exact h6, by rw [k, Dyn.exec, hi]; exact h7, by rw [k, Dyn.exec, hi]; exact h8, by rw [k, Dyn.exec, hi]; exact h9⟩
  case inertiaFromColliders f => exact ⟨⟨_, e⟩, by rw [k, Dyn.exec, hi]; exact h1, by rw [k, Dyn.exec, hi]; exact h2, by rw [k, Dyn.exec, hi]; exact h3, by rw [k, Dyn.exec, hi]; exact h4, by rw [k, Dyn.exec, hi]; exact h5,
      by rw [k, Dyn.exec, hi]; exact h6, by rw [k, Dyn.exec, hi]; exact h7, by rw [k, Dyn.exec, hi]; exact h8, by rw [k, Dyn.exec, hi]; exact h9⟩
  case massFromColliders f => exact ⟨⟨_, e⟩, by rw [k, Dyn.exec, hm]; exact h1, by rw [k, Dyn.exec, hm]; exact h2, by rw [k, Dyn.exec, hm]; exact h3, by rw [k, Dyn.exec, hm]; exact h4, by rw [k, Dyn.exec, hm]; exact h5,
      by rw [k, Dyn.exec, hm]; exact h6, by rw [k, Dyn.exec, hm]; exact h7, by rw [k, Dyn.exec, hm]; exact h8, by rw [k, Dyn.exec, hm]; exact h9⟩
  case setMass f =>
    by_cases neg : f < 0
    · exact same (by show Dyn.setMass _ _ = _; unfold Dyn.setMass; rw [if_pos neg])
    · have hm' : (dyn w c).setMass f = { dyn w c with mass := f } := by unfold Dyn.setMass; rw [if_neg neg, hm]
      exact ⟨⟨_, e⟩, by rw [k, Dyn.exec, hm']; exact h1, by rw [k, Dyn.exec, hm']; exact h2, by rw [k, Dyn.exec, hm']; exact h3, by rw [k, Dyn.exec, hm']; exact h4, by rw [k, Dyn.exec, hm']; exact h5,
        by rw [k, Dyn.exec, hm']; exact h6, by rw [k, Dyn.exec, hm']; exact h7, by rw [k, Dyn.exec, hm']; exact h8, by rw [k, Dyn.exec, hm']; exact h9⟩
  case allowed b =>
    have ha : (dyn w c).setAllowed b = { dyn w c with allowed := b } := by
      unfold Dyn.setAllowed
      dsimp only
      rw [Galileo.setIsSleeping_id (d := { dyn w c with allowed := b }) h3, ite_self]
    exact ⟨⟨_, e⟩, by rw [k, Dyn.exec, ha]; exact h1, by rw [k, Dyn.exec, ha]; exact h2, by rw [k, Dyn.exec, ha]; exact h3, by rw [k, Dyn.exec, ha]; exact h4, by rw [k, Dyn.exec, ha]; exact h5,
      by rw [k, Dyn.exec, ha]; exact h6, by rw [k, Dyn.exec, ha]; exact h7, by rw [k, Dyn.exec, ha]; exact h8, by rw [k, Dyn.exec, ha]; exact h9⟩
  case gravity => exact ⟨⟨_, e⟩, by rw [k]; exact h1, by rw [k]; exact h2, by rw [k]; exact h3, by rw [k]; exact h4, by rw [k]; exact h5, by rw [k]; exact h6, by rw [k]; exact h7, by rw [k]; exact h8, by rw [k]; exact h9⟩
  case linearLock => exact ⟨⟨_, e⟩, by rw [k]; exact h1, by rw [k]; exact h2, by rw [k]; exact h3, by rw [k]; exact h4, by rw [k]; exact h5, by rw [k]; exact h6, by rw [k]; exact h7, by rw [k]; exact h8, by rw [k]; exact h9⟩
  case angularLock => exact ⟨⟨_, e⟩, by rw [k]; exact h1, by rw [k]; exact h2, by rw [k]; exact h3, by rw [k]; exact h4, by rw [k]; exact h5, by rw [k]; exact h6, by rw [k]; exact h7, by rw [k]; exact h8, by rw [k]; exact h9⟩

/-- The orientation after an event. -/
theorem run_moves {sqrt : K → K} (hs : IsSqrt sqrt) (hr : DW.Reach DW.Any w) (h : Moves w c x v ω q) (hq : q.lengthSq = 1) (e : Ev K) (hf : Steady sqrt c w [e]) :
    Moves (e.run w) c (x + V3.smul (dur e) v) v ω (turns sqrt ω q [e]) ∧ (turns sqrt ω q [e]).lengthSq = 1 := by
  have z : x + V3.smul (0 : K) v = x := by ext <;> simp [V3.smul]
  cases e with
  | step i =>
    obtain ⟨⟨rfl, hl, ha⟩, _⟩ := hf
    exact ⟨kinematic_step hr hs hl h hq ha, turn_unit hs i.jc rfl i.dt ω hq⟩
  | create b t =>
    refine ⟨?_, hq⟩
    show Moves _ c (x + V3.smul 0 v) v ω q
    rw [z]
    exact h.of_eq (by show upd w.body b _ c = _; exact upd_ne _ _ (Ne.symm hf.1))
  | destroy b =>
    refine ⟨?_, hq⟩
    show Moves _ c (x + V3.smul 0 v) v ω q
    rw [z]
    exact h.of_eq (by show upd w.body b _ c = _; exact upd_ne _ _ (Ne.symm hf.1))
  | call b o =>
    refine ⟨?_, hq⟩
    show Moves _ c (x + V3.smul 0 v) v ω q
    rw [z]
    by_cases hb : b = c
    · subst hb
      exact mild_moves h (hf.1.resolve_left fun k => k rfl)
    · exact h.of_eq (DW.modify_ne _ _ (Ne.symm hb))
  | enableSleeping b =>
    refine ⟨?_, hq⟩
    show Moves _ c (x + V3.smul 0 v) v ω q
    rw [z]
    refine h.of_eq ?_
    show (DW.enableSleeping w b).body c = _
    unfold DW.enableSleeping
    cases b
    · show (w.body c).map _ = _
      rw [h.body, Option.map_some]
      exact congrArg some (Galileo.setIsSleeping_id h.awake)
    · rfl
  | limits l a t =>
    refine ⟨?_, hq⟩
    show Moves _ c (x + V3.smul 0 v) v ω q
    rw [z]
    exact h.of_eq rfl

/-- **C136.** Over a whole history, a kinematic body that is not told otherwise and does not fall asleep moves on a straight line with the velocity it was given, and turns with its angular velocity. -/
theorem kinematic {sqrt : K → K} (hs : IsSqrt sqrt) : ∀ (es : List (Ev K)) {w : DW K} {x : V3 K} {q : Quat K}, DW.Reach DW.Any w → Moves w c x v ω q → q.lengthSq = 1 → Steady sqrt c w es →
    Moves (es.foldl Ev.run w) c (x + V3.smul (total es) v) v ω (turns sqrt ω q es)
  | [], w, x, q, _, h, _, _ => by
    have z : x + V3.smul (total ([] : List (Ev K))) v = x := by ext <;> simp [Galileo.total, V3.smul]
    rw [z]; exact h
  | e :: es, w, x, q, hr, h, hq, hf => by
    obtain ⟨a, b⟩ := run_moves hs hr h hq e ⟨hf.1, trivial⟩
    have k := kinematic hs es (Apart.Ev.reach hr e) a b hf.2
    have z : x + V3.smul (dur e) v + V3.smul (total es) v = x + V3.smul (total (e :: es)) v := by
      ext <;> simp only [Galileo.total, List.map_cons, List.sum_cons, V3.add_x, V3.add_y, V3.add_z, V3.smul] <;> ring
    have t : turns sqrt ω (turns sqrt ω q [e]) es = turns sqrt ω q (e :: es) := by cases e <;> rfl
    rw [z, t] at k
    exact k

/-- A body that was told not to turn does not turn. -/
theorem turns_zero {sqrt : K → K} (hs : IsSqrt sqrt) (hq : q.lengthSq = 1) : ∀ es : List (Ev K), turns sqrt 0 q es = q
  | [] => rfl
  | e :: es => by
    have one : sqrt 1 = 1 := by
      obtain ⟨a, b⟩ := hs 1 zero_le_one
      nlinarith
    have t : ∀ dt : K, turn sqrt dt 0 q = q := fun dt => by
      have r : q.add (((⟨(0 : V3 K).x, (0 : V3 K).y, (0 : V3 K).z, 0⟩ : Quat K).mul q).scale (dt / 2)) = q := by
        ext <;> simp [Quat.add, Quat.scale, Quat.mul]
      unfold turn
      dsimp only
      rw [r, hq, one]
      ext <;> simp [Quat.divBy]
    cases e <;> simp only [turns, t] <;> exact turns_zero hs hq es

/-- The usual way to make such a body, in any world. -/
theorem launch (w : DW K) (c : Nat) (t : Trans K) (v ω : V3 K) :
    Moves (([.create c t, .call c (.setType .kinematic), .call c (.linearVelocity v), .call c (.angularVelocity ω)] : List (Ev K)).foldl Ev.run w) c t.pos v ω t.ori := by
  have e : ∀ (w : DW K) (d : Dyn K) (o), w.body c = some d → (w.exec (.call c o)).body c = some (d.exec o) := fun w d o h => by
    show (w.modify c fun d => d.exec o).body c = _
    rw [DW.modify_same, h]; rfl
  let d0 := (Dyn.create t).exec (.setType .kinematic)
  have e1 : (([.create c t, .call c (.setType .kinematic)] : List (Ev K)).foldl Ev.run w).body c = some d0 :=
    e _ _ _ (by show upd w.body c _ c = _; exact upd_same _ _ _)
  have l : d0.exec (.linearVelocity v) = { d0 with vel := v } := by
    show Dyn.setLinearVelocity _ _ = _
    unfold Dyn.setLinearVelocity
    rw [if_neg (by show ¬ BType.kinematic = .static; decide)]
    dsimp only
    rw [Galileo.setIsSleeping_id (d := { d0 with vel := v }) rfl, ite_self]
  have a : Dyn.exec { d0 with vel := v } (.angularVelocity ω) = { d0 with vel := v, ang := ω } := by
    show Dyn.setAngularVelocity _ _ = _
    unfold Dyn.setAngularVelocity
    rw [if_neg (by show ¬ BType.kinematic = .static; decide)]
    dsimp only
    rw [Galileo.setIsSleeping_id (d := { d0 with vel := v, ang := ω }) rfl, ite_self]
  have e2 := e _ _ (.angularVelocity ω) (e _ _ (.linearVelocity v) e1)
  rw [l, a] at e2
  have k : dyn (([.create c t, .call c (.setType .kinematic), .call c (.linearVelocity v), .call c (.angularVelocity ω)] : List (Ev K)).foldl Ev.run w) c = { d0 with vel := v, ang := ω } := by
    conv_lhs => unfold dyn
    rw [show (([.create c t, .call c (.setType .kinematic), .call c (.linearVelocity v), .call c (.angularVelocity ω)] : List (Ev K)).foldl Ev.run w).body c = _ from e2]
    rfl
  exact ⟨⟨_, e2⟩, by rw [k]; rfl, by rw [k]; rfl, by rw [k]; rfl, by rw [k]; rfl, by rw [k]; rfl, by rw [k]; rfl, by rw [k], by rw [k], by rw [k]; rfl⟩

end run

end Kinematic
end RP3D
