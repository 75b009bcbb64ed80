import Verif.Solver.Whole
import Verif.Props.JointImpulses
import Verif.Props.JointPosition

/-! C134: the center of mass of a group of bodies moves by the law of Newton. -/

set_option linter.unusedSectionVars false

namespace RP3D
namespace Newton
open Solver Joints SolverProps JointProps Whole
variable {K : Type} [Field K] [LinearOrder K] [IsStrictOrderedRing K]

/-! ### Specification -/

/-- Sums over the bodies of a group: momentum, mass times center of mass, external force. -/
def momentum (G : Finset Nat) (w : DW K) : V3 K := ∑ b ∈ G, V3.smul (dyn w b).mass (dyn w b).vel
def center (G : Finset Nat) (w : DW K) : V3 K := ∑ b ∈ G, V3.smul (dyn w b).mass (dyn w b).comWorld
def weight (g : Option (V3 K)) (d : Dyn K) : V3 K :=
  match g with
  | none => 0
  | some g => if d.gravity then V3.smul d.mass g else 0
def force (G : Finset Nat) (g : Option (V3 K)) (w : DW K) : V3 K := ∑ b ∈ G, ((dyn w b).force + weight g (dyn w b))

/-- A dynamic body with mass that is awake, without locked axes and without damping. -/
structure Moves (w : DW K) (b : Nat) : Prop where
  some : ∃ d, w.body b = some d
  dynamic : (dyn w b).type = .dynamic
  active : (dyn w b).disabled = false
  awake : (dyn w b).sleeping = false
  mass : 0 < (dyn w b).mass
  lock : (dyn w b).linLock = ⟨1, 1, 1⟩
  damp : (dyn w b).linDamp = 0

/-- No contact and no joint leads out of the group. -/
structure Closed (G : Finset Nat) (i : In K) : Prop where
  mans : ∀ X ∈ i.mans, (X.b1 ∈ G ↔ X.b2 ∈ G)
  joints : ∀ J ∈ joints i.pins, (J.b1 ∈ G ↔ J.b2 ∈ G)
  warm : i.jc.warm = true

/-! ### Split velocities -/

def splits (S : Finset Nat) (mass : Nat → K) (V : Nat → Vel K) : V3 K := ∑ b ∈ S, V3.smul (mass b) (V b).vs

theorem splits_congr {S : Finset Nat} {mass : Nat → K} {V W : Nat → Vel K} (h : ∀ b, (W b).vs = (V b).vs) : splits S mass W = splits S mass V :=
  Finset.sum_congr rfl fun b _ => by rw [h]

theorem pushSplit_vs (M : Man K) (p : CPoint K) (d : K) (V : Nat → Vel K) (b : Nat) :
    (pushSplit M p d V b).vs = (V b).vs + linOf M b (V3.smul d p.normal) := by
  have h : ∀ U : Nat → Vel K, (push M p d U b).v = (U b).v + linOf M b (V3.smul d p.normal) := fun U => push_v M p d U b
  have e : (pushSplit M p d V b).vs = (push M p d (fun b => ⟨(V b).vs, (V b).ws, 0, 0⟩) b).v := by
    unfold pushSplit push
    dsimp only
    by_cases h2 : b = M.b2 <;> by_cases h1 : b = M.b1
    · subst h2; simp only [← h1, upd_same]
    · subst h2; simp only [upd_same, upd_ne _ _ h1]
    · subst h1; simp only [upd_ne _ _ h2, upd_same]
    · simp only [upd_ne _ _ h2, upd_ne _ _ h1]
  rw [e, h]

theorem rub_vs (M : Man K) (t c1 c2 : V3 K) (d : K) (V : Nat → Vel K) (b : Nat) : (rub M t c1 c2 d V b).vs = (V b).vs := by
  unfold rub
  dsimp only
  by_cases h2 : b = M.b2 <;> by_cases h1 : b = M.b1
  · subst h2; simp only [← h1, upd_same]
  · subst h2; simp only [upd_same, upd_ne _ _ h1]
  · subst h1; simp only [upd_ne _ _ h2, upd_same]
  · simp only [upd_ne _ _ h2, upd_ne _ _ h1]

theorem twist_vs (M : Man K) (d : K) (V : Nat → Vel K) (b : Nat) : (Solver.twist M d V b).vs = (V b).vs := by
  unfold Solver.twist
  dsimp only
  by_cases h2 : b = M.b2 <;> by_cases h1 : b = M.b1
  · subst h2; simp only [← h1, upd_same]
  · subst h2; simp only [upd_same, upd_ne _ _ h1]
  · subst h1; simp only [upd_ne _ _ h2, upd_same]
  · simp only [upd_ne _ _ h2, upd_ne _ _ h1]

theorem upd_vs (V : Nat → Vel K) (a b : Nat) (w : V3 K) : (upd V a { V a with w := w } b).vs = (V b).vs := by
  by_cases h : b = a
  · subst h; rw [upd_same]
  · rw [upd_ne _ _ h]

theorem twistWarm_vs (M : Man K) (d : K) (V : Nat → Vel K) (b : Nat) : (twistWarm M d V b).vs = (V b).vs := by
  unfold twistWarm
  dsimp only
  rw [upd_vs, upd_vs, upd_vs, upd_vs]

section
variable {body : Nat → SBody K} {mass : Nat → K} {S : Finset Nat}

theorem point_splits (hf : Free body mass S) (cfg : Cfg K) {M : Man K} (hm : Fits body M) (hc : M.b1 ∈ S ↔ M.b2 ∈ S) (V : Nat → Vel K) (p : CPoint K) :
    splits S mass (solvePoint cfg M V p).1 = splits S mass V := by
  have hz : ∀ P, ∑ b ∈ S, V3.smul (mass b) (linOf M b P) = 0 := fun P => by
    rw [sum_linOf hf hm]
    by_cases h : M.b1 ∈ S
    · rw [if_pos h, if_pos (hc.1 h), sub_self]
    · rw [if_neg h, if_neg fun k => h (hc.2 k), sub_self]
  unfold solvePoint
  dsimp only
  split
  · unfold splits
    simp only [pushSplit_vs, smul_addv, Finset.sum_add_distrib, hz, add_zero, (push_split _ _ _ _ _).1]
  · exact splits_congr fun b => (push_split _ _ _ _ _).1

theorem points_splits (hf : Free body mass S) (cfg : Cfg K) {M : Man K} (hm : Fits body M) (hc : M.b1 ∈ S ↔ M.b2 ∈ S) : ∀ (ps : List (CPoint K)) (V : Nat → Vel K),
    splits S mass (solvePoints cfg M V ps).1 = splits S mass V
  | [], _ => rfl
  | p :: ps, V => by
    simp only [solvePoints]
    rw [points_splits hf cfg hm hc ps, point_splits hf cfg hm hc]

theorem man_splits (hf : Free body mass S) (cfg : Cfg K) {M : Man K} (hm : Fits body M) (hc : M.b1 ∈ S ↔ M.b2 ∈ S) (V : Nat → Vel K) :
    splits S mass (solveMan cfg V M).1 = splits S mass V := by
  rw [← points_splits hf cfg hm hc M.pts V]
  refine splits_congr fun b => ?_
  unfold solveMan
  dsimp only
  rw [twist_vs, rub_vs, rub_vs]

theorem mans_splits (hf : Free body mass S) (cfg : Cfg K) : ∀ (Ms : List (Man K)) (V : Nat → Vel K), (∀ M ∈ Ms, Fits body M ∧ (M.b1 ∈ S ↔ M.b2 ∈ S)) →
    splits S mass (Solver.solve cfg V Ms).1 = splits S mass V
  | [], _, _ => rfl
  | M :: Ms, V, h => by
    simp only [Solver.solve]
    rw [mans_splits hf cfg Ms _ fun N hN => h N (List.mem_cons_of_mem _ hN), man_splits hf cfg (h M List.mem_cons_self).1 (h M List.mem_cons_self).2]

theorem warmPoints_vs (M : Man K) : ∀ (ps : List (CPoint K)) (V : Nat → Vel K) (b : Nat), ((warmPoints M V ps).1 b).vs = (V b).vs
  | [], _, _ => rfl
  | p :: ps, V, b => by
    simp only [warmPoints]
    rw [warmPoints_vs M ps]
    unfold warmPoint
    split_ifs
    · exact (push_split _ _ _ _ _).1
    · rfl

theorem warmStart_vs : ∀ (Ms : List (Man K)) (V : Nat → Vel K) (b : Nat), ((warmStart V Ms).1 b).vs = (V b).vs
  | [], _, _ => rfl
  | M :: Ms, V, b => by
    simp only [warmStart]
    rw [warmStart_vs Ms]
    unfold warmMan
    dsimp only
    split_ifs
    · dsimp only
      rw [twistWarm_vs, rub_vs, rub_vs, warmPoints_vs]
    · exact warmPoints_vs M _ V b

theorem warmAll_vs {jc : JCfg K} {jb : Nat → JBody K} : ∀ (Js : List (Joint K)) (V : Nat → Vel K) (b : Nat), (warmAll jc jb Js V b).vs = (V b).vs := by
  intro Js
  unfold warmAll
  split_ifs
  · induction Js with
    | nil => intro V b; rfl
    | cons J Js ih =>
      intro V b
      rw [List.foldl_cons, ih, Joint.warm_eq]
  · intro V b; rfl

theorem solveAll_vs {jc : JCfg K} {jb : Nat → JBody K} : ∀ (Js : List (Joint K)) (V : Nat → Vel K) (b : Nat), ((solveAll jc jb V Js).1 b).vs = (V b).vs
  | [], _, _ => rfl
  | J :: Js, V, b => by
    simp only [solveAll]
    rw [solveAll_vs Js, (Joint.solve_ok jc jb J V).2 b]

end

theorem loop_splits (cfg : Cfg K) (jc : JCfg K) (jb : Nat → JBody K) {mass : Nat → K} {S : Finset Nat} (hf : Free (fun b => (jb b).toSBody) mass S) :
    ∀ (n : Nat) (s : (Nat → Vel K) × List (Joint K) × List (Man K)), (∀ M ∈ s.2.2, GoodM M) →
    (∀ M ∈ s.2.2, Fits (fun b => (jb b).toSBody) M ∧ (M.b1 ∈ S ↔ M.b2 ∈ S)) → splits S mass (Joints.loop cfg jc jb n s).1 = splits S mass s.1
  | 0, _, _, _ => rfl
  | n + 1, s, hg, h => by
    obtain ⟨h1, h2, _⟩ := solve_ok cfg (solveAll jc jb s.1 s.2.1).1 s.2.2 hg
    rw [Joints.loop]
    rw [loop_splits cfg jc jb hf n _ h2]
    · rw [mans_splits hf cfg _ _ h]
      exact splits_congr fun b => solveAll_vs _ _ _
    · refine forall_same (P := fun M => Fits (fun b => (jb b).toSBody) M ∧ (M.b1 ∈ S ↔ M.b2 ∈ S)) (fun M N k hs => ⟨k.1.of_same hs, ?_⟩) h1 h
      have e1 : N.b1 = M.b1 := by rw [hs.eq]
      have e2 : N.b2 = M.b2 := by rw [hs.eq]
      rw [e1, e2]; exact k.2

/-- Split impulses among the bodies of a group do not move its center of mass. -/
theorem step_splits (cfg : Cfg K) (jc : JCfg K) (jb : Nat → JBody K) (V : Nat → Vel K) (Js : List (Joint K)) (Xs : List (XMan K)) (n : Nat) {mass : Nat → K} {S : Finset Nat}
    (hf : Free (fun b => (jb b).toSBody) mass S) (hx : ∀ X ∈ Xs, (X.b1 ∈ S ↔ X.b2 ∈ S)) :
    splits S mass (solveStep cfg jc jb V Js Xs n).1 = splits S mass V := by
  obtain ⟨h1, h2, _⟩ := warmStart_ok V (Xs.map (initMan cfg jc.sqrt fun b => (jb b).toSBody)) (init_good cfg jc.sqrt _ Xs)
  unfold solveStep
  dsimp only
  rw [loop_splits cfg jc jb hf n _ h2]
  · exact splits_congr fun b => by rw [warmAll_vs, warmStart_vs]
  · refine forall_same (P := fun M => Fits (fun b => (jb b).toSBody) M ∧ (M.b1 ∈ S ↔ M.b2 ∈ S)) (fun M N k hs => ⟨k.1.of_same hs, ?_⟩) h1 ?_
    · have e1 : N.b1 = M.b1 := by rw [hs.eq]
      have e2 : N.b2 = M.b2 := by rw [hs.eq]
      rw [e1, e2]; exact k.2
    · intro M hM
      simp only [List.mem_map] at hM
      obtain ⟨X, hX, rfl⟩ := hM
      exact ⟨initMan_fits _ _ _ X, hx X hX⟩

/-! ### One step for one body -/

theorem args_vels (i : In K) (v p) : (i.args v p).vels = v := rfl

theorem ready_body (i : In K) {w : DW K} {b : Nat} (h : Moves w b) : dyn (ready i w) b = (dyn w b).updateInertia.integrateVel i.dt i.g := by
  obtain ⟨d, hd⟩ := h.some
  have e : dyn w b = d := by unfold dyn; rw [hd]; rfl
  have ha := h.awake
  rw [e] at ha
  have hs : d.setIsSleeping false = d := by unfold Dyn.setIsSleeping; rw [if_pos ha]
  rw [e]
  unfold dyn ready DW.prepared DW.wakeIslands DW.mapAll
  simp only [hd, Option.map_some, Option.getD_some, hs, ite_self]
  rfl

/-- What the movement keeps of a body besides `SameSet`. -/
theorem move_keep (a : DW.Args K) (b : Nat) (d : Dyn K) : (d.move a b).linLock = d.linLock ∧ (d.move a b).gravity = d.gravity := by
  have h1 : d.updateInertia.linLock = d.linLock ∧ d.updateInertia.gravity = d.gravity := by unfold Dyn.updateInertia; split <;> exact ⟨rfl, rfl⟩
  have h2 : ∀ e : Dyn K, (e.integrateVel a.dt a.g).linLock = e.linLock ∧ (e.integrateVel a.dt a.g).gravity = e.gravity := fun e => by
    unfold Dyn.integrateVel Dyn.integrateGravity
    split
    · exact ⟨rfl, rfl⟩
    · cases a.g with
      | none => exact ⟨rfl, rfl⟩
      | some g => dsimp only; split <;> exact ⟨rfl, rfl⟩
  have h3 : ∀ (s) (e : Dyn K), (e.solveVel s).linLock = e.linLock ∧ (e.solveVel s).gravity = e.gravity := fun s e => by cases s <;> exact ⟨rfl, rfl⟩
  have h4 : ∀ (s) (e : Dyn K), (e.solvePos s).linLock = e.linLock ∧ (e.solvePos s).gravity = e.gravity := fun s e => by cases s <;> exact ⟨rfl, rfl⟩
  have h5 : ∀ (x y : K) (e : Dyn K), (e.integratePos x y).linLock = e.linLock ∧ (e.integratePos x y).gravity = e.gravity := fun x y e => by
    unfold Dyn.integratePos; split <;> exact ⟨rfl, rfl⟩
  have h6 : ∀ (l) (e : Dyn K), (e.updateState l).linLock = e.linLock ∧ (e.updateState l).gravity = e.gravity := fun l e => by
    unfold Dyn.updateState; split <;> exact ⟨rfl, rfl⟩
  unfold Dyn.move
  exact ⟨by rw [(h6 _ _).1, (h4 _ _).1, (h5 _ _ _).1, (h3 _ _).1, (h2 _).1, h1.1], by rw [(h6 _ _).2, (h4 _ _).2, (h5 _ _ _).2, (h3 _ _).2, (h2 _).2, h1.2]⟩

/-- A body that is awake after a step is the moved body, up to the timer, with its forces reset. -/
theorem after (a : DW.Args K) {w : DW K} {b : Nat} {d : Dyn K} (hd : w.body b = some d) (ha : d.sleeping = false) (hw : (dyn (w.update a) b).sleeping = false) :
    ∃ t, (w.update a).body b = some { d.move a b with sleepTime := t, force := 0, torque := 0 } := by
  have hm : (DW.moved a w).body b = some (d.move a b) := by
    have hs : d.setIsSleeping false = d := by unfold Dyn.setIsSleeping; rw [if_pos ha]
    rw [DW.moved_body]
    unfold DW.wakeIslands DW.mapAll
    simp only [hd, Option.map_some, hs, ite_self]
  have key : ∃ e, (w.update a).body b = some e ∧ (e.sleeping = true ∨ ∃ t, e = { d.move a b with sleepTime := t, force := 0, torque := 0 }) := by
    unfold DW.update
    dsimp only
    split
    · obtain ⟨e, he⟩ : ∃ e, (DW.updateSleeping a.add a.big a.dt (DW.moved a w) a.islands).body b = some e := by
        rw [← Option.ne_none_iff_exists']
        intro k
        rw [DW.sleep_none, hm] at k
        cases k
      have := DW.sleep_induct (fun c e => c = b → e.sleeping = true ∨ ∃ t, e = { d.move a b with sleepTime := t })
        (fun c e t _ h hc => (h hc).imp id fun ⟨u, hu⟩ => ⟨t, by rw [hu]⟩)
        (fun c e h hc => by
          rcases Dyn.setIsSleeping_cases e true with k | ⟨_, _, _, _, k⟩ | ⟨k, _⟩
          · rw [k]; exact h hc
          · rw [k]; exact Or.inl rfl
          · cases k)
        a.add a.big a.dt a.islands (DW.moved a w)
        (fun c e hc hcb => by
          subst hcb
          rw [hm] at hc
          cases hc
          exact Or.inr ⟨_, rfl⟩) b e he rfl
      refine ⟨e.resetForces, by simp only [DW.mapAll, he, Option.map_some], ?_⟩
      rcases this with k | ⟨t, k⟩
      · exact Or.inl k
      · exact Or.inr ⟨t, by rw [k]; rfl⟩
    · exact ⟨(d.move a b).resetForces, by simp only [DW.mapAll, hm, Option.map_some], Or.inr ⟨_, rfl⟩⟩
  obtain ⟨e, he, k | ⟨t, k⟩⟩ := key
  · have : dyn (w.update a) b = e := by unfold dyn; rw [he]; rfl
    rw [this, k] at hw
    cases hw
  · exact ⟨t, by rw [he, k]⟩

/-- What a step leaves of a body of the group. -/
theorem step_body (i : In K) {w : DW K} {b : Nat} (h : Moves w b) (hw : (dyn (Whole.update i w) b).sleeping = false) :
    Moves (Whole.update i w) b ∧ (dyn (Whole.update i w) b).mass = (dyn w b).mass ∧ (dyn (Whole.update i w) b).vel = ((solved i w).1 b).v ∧
      (dyn (Whole.update i w) b).comWorld = ((corrected i w).1 b).x ∧ (dyn (Whole.update i w) b).force = 0 ∧
      (dyn (Whole.update i w) b).gravity = (dyn w b).gravity := by
  obtain ⟨d, hd⟩ := h.some
  have e : dyn w b = d := by unfold dyn; rw [hd]; rfl
  have h' := h
  obtain ⟨-, ht, hdis, ha, hm, hl, hk⟩ := h'
  rw [e] at ht hdis ha hm hl hk
  obtain ⟨t, hu⟩ := after _ hd ha hw
  have e' : dyn (Whole.update i w) b = { d.move (i.args (fun b => some (vels i w b)) fun b => some (poss i w b)) b with sleepTime := t, force := 0, torque := 0 } := by
    unfold dyn Whole.update; rw [hu]; rfl
  have s := Dyn.move_same (i.args (fun b => some (vels i w b)) fun b => some (poss i w b)) b d
  have k := move_keep (i.args (fun b => some (vels i w b)) fun b => some (poss i w b)) b d
  have hst : (d.move (i.args (fun b => some (vels i w b)) fun b => some (poss i w b)) b).vel = ((solved i w).1 b).v ∧
      (d.move (i.args (fun b => some (vels i w b)) fun b => some (poss i w b)) b).comWorld = ((corrected i w).1 b).x := by
    have hq : ((((d.updateInertia.integrateVel i.dt i.g).solveVel (some (vels i w b))).integratePos i.dt (if i.cc.split then 1 else 0)).solvePos
        (some (poss i w b))).disabled = false := by
      rw [Dyn.solvePos_disabled, (Dyn.integratePos_same _ _ _).disabled, Dyn.solveVel_disabled, (Dyn.integrateVel_same _ _ _).disabled,
        (Dyn.updateInertia_same d).disabled, hdis]
    have hq' : ((d.updateInertia.integrateVel i.dt i.g).solveVel (some (vels i w b))).disabled = false := by
      rw [Dyn.solveVel_disabled, (Dyn.integrateVel_same _ _ _).disabled, (Dyn.updateInertia_same d).disabled, hdis]
    have hmv : d.move (i.args (fun b => some (vels i w b)) fun b => some (poss i w b)) b = ((((d.updateInertia.integrateVel i.dt i.g).solveVel
        (some (vels i w b))).integratePos i.dt (if i.cc.split then 1 else 0)).solvePos (some (poss i w b))).updateState i.len := rfl
    rw [hmv]
    unfold Dyn.updateState
    rw [if_neg fun k => Bool.false_ne_true (hq.symm.trans k)]
    dsimp only
    refine ⟨?_, rfl⟩
    rw [Dyn.solvePos_cVel]
    unfold Dyn.integratePos
    rw [if_neg fun k => Bool.false_ne_true (hq'.symm.trans k)]
    rfl
  refine ⟨⟨⟨_, hu⟩, ?_, ?_, hw, ?_, ?_, ?_⟩, ?_, ?_, ?_, ?_, ?_⟩ <;> rw [e']
  · exact s.type.trans ht
  · exact s.disabled.trans hdis
  · exact s.mass.symm ▸ hm
  · exact k.1.trans hl
  · exact s.linDamp.trans hk
  · rw [e]; exact s.mass
  · exact hst.1
  · exact hst.2
  · rw [e]; exact k.2

theorem had_one (v : V3 K) : V3.had ⟨1, 1, 1⟩ v = v := by ext <;> simp [V3.had]

theorem invMass_of {d : Dyn K} (h : d.MassOk) (ht : d.type = .dynamic) (hm : 0 < d.mass) : d.mass * d.invMass = 1 := by
  rw [h.m, if_pos ht, Dyn.invOf, if_pos hm]
  exact mul_one_div_cancel hm.ne'

/-- The velocity integration of a body of the group. -/
theorem ready_vel (i : In K) {w : DW K} {b : Nat} (hr : DW.Reach DW.Any w) (h : Moves w b) :
    let d := dyn w b; let e := dyn (ready i w) b
    V3.smul d.mass e.cVel = V3.smul d.mass d.vel + V3.smul i.dt (d.force + weight i.g d) ∧ e.sVel = 0 ∧ e.comWorld = d.comWorld ∧ e.disabled = false ∧
      d.mass * e.invMass = 1 ∧ e.linLock = ⟨1, 1, 1⟩ := by
  intro d e
  have hmass : d.MassOk := by
    obtain ⟨d', hd⟩ := h.some
    have : d = d' := by show dyn w b = d'; unfold dyn; rw [hd]; rfl
    rw [this]
    exact (DW.kept_mass _).reach hr b d' hd
  have hi := invMass_of hmass h.dynamic h.mass
  have hdis : d.disabled = false := h.active
  have hl : d.linLock = ⟨1, 1, 1⟩ := h.lock
  have hk : d.linDamp = 0 := h.damp
  have he : e = d.updateInertia.integrateVel i.dt i.g := ready_body i h
  have hu : d.updateInertia = { d with invInertiaW := Dyn.worldInertia d.tr.ori.matrix d.invInertia } := by
    unfold Dyn.updateInertia; rw [if_neg (by rw [hdis]; exact Bool.false_ne_true)]
  rw [hu] at he
  unfold Dyn.integrateVel at he
  rw [if_neg (by show ¬ d.disabled = true; rw [hdis]; exact Bool.false_ne_true)] at he
  have hg : ∀ u v : V3 K, V3.smul d.mass (V3.had (V3.smul (i.dt * d.invMass) ⟨1, 1, 1⟩) u) = V3.smul i.dt u := fun u _ => by
    have : ∀ x : K, d.mass * (i.dt * d.invMass * x) = i.dt * x := fun x => by linear_combination i.dt * x * hi
    ext <;> simp [V3.had, this]
  have hg' : ∀ u : V3 K, V3.smul d.mass (V3.had (V3.smul d.mass (V3.smul (i.dt * d.invMass) ⟨1, 1, 1⟩)) u) = V3.smul i.dt (V3.smul d.mass u) := fun u => by
    have : ∀ x : K, d.mass * (d.mass * (i.dt * d.invMass) * x) = i.dt * (d.mass * x) := fun x => by linear_combination i.dt * d.mass * x * hi
    ext <;> simp [V3.had, this]
  have one : ∀ v : V3 K, V3.smul (1 / (1 + 0 * i.dt)) v = v := fun v => by ext <;> simp
  refine ⟨?_, ?_, ?_, ?_, ?_, ?_⟩
  · rw [he]
    show V3.smul d.mass (V3.smul (1 / (1 + (Dyn.integrateGravity i.dt i.g _).linDamp * i.dt)) _) = _
    rw [(Dyn.integrateGravity_same _ _ _).linDamp]
    show V3.smul d.mass (V3.smul (1 / (1 + d.linDamp * i.dt)) _) = _
    rw [hk, one]
    unfold Dyn.integrateGravity weight
    cases i.g with
    | none =>
      show V3.smul d.mass (d.vel + V3.had (V3.smul (i.dt * d.invMass) d.linLock) d.force) = _
      rw [hl, smul_addv, hg _ 0]
      simp
    | some g =>
      by_cases hv : d.gravity
      · dsimp only
        rw [if_pos (by exact hv), if_pos hv]
        show V3.smul d.mass ((d.vel + V3.had (V3.smul (i.dt * d.invMass) d.linLock) d.force) + V3.had (V3.smul d.mass (V3.smul (i.dt * d.invMass) d.linLock)) g) = _
        rw [hl, smul_addv, smul_addv, hg _ 0, hg', smul_addv, add_assoc]
      · dsimp only
        rw [if_neg (by exact hv), if_neg hv]
        show V3.smul d.mass (d.vel + V3.had (V3.smul (i.dt * d.invMass) d.linLock) d.force) = _
        rw [hl, smul_addv, hg _ 0, add_zero]
  · rw [he]
    exact (Dyn.integrateGravity_keep _ _ _).2.2.2.2.2.2.1
  · rw [he]
    exact (Dyn.integrateGravity_keep _ _ _).2.2.2.1
  · rw [he]
    exact (Dyn.integrateGravity_same _ _ _).disabled.trans hdis
  · rw [he]
    exact (congrArg (d.mass * ·) (Dyn.integrateGravity_same _ _ _).invMass).trans hi
  · rw [he]
    have : ∀ x : Dyn K, (Dyn.integrateGravity i.dt i.g x).linLock = x.linLock := fun x => by
      unfold Dyn.integrateGravity
      cases i.g with
      | none => rfl
      | some g => dsimp only; split <;> rfl
    exact (this _).trans hl

/-! ### One step for the group -/

theorem sum_smul (G : Finset Nat) (k : K) (f : Nat → V3 K) : ∑ b ∈ G, V3.smul k (f b) = V3.smul k (∑ b ∈ G, f b) := by
  classical
  induction G using Finset.induction_on with
  | empty => simp only [Finset.sum_empty, smul_zerov]
  | insert a G ha ih => rw [Finset.sum_insert ha, Finset.sum_insert ha, ih, smul_addv]

/-- **C134 (any group).** In a step the momentum of a group of bodies that move freely changes by the external forces times the time step, and by the
impulses of the contacts and joints with bodies outside of the group. -/
theorem momentum_update (G : Finset Nat) (i : In K) {w : DW K} (hr : DW.Reach DW.Any w) (hm : ∀ b ∈ G, Moves w b) (hwarm : i.jc.warm = true)
    (ha : ∀ b ∈ G, (dyn (Whole.update i w) b).sleeping = false) :
    momentum G (Whole.update i w) = momentum G w + V3.smul i.dt (force G i.g w) + outerJ G (solved i w).2.1 + outer G (solved i w).2.2 := by
  have hf : Free (fun b => (jbody (dyn (ready i w) b)).toSBody) (fun b => (dyn w b).mass) G := fun b hb =>
    ⟨(ready_vel i hr (hm b hb)).2.2.2.2.1, (ready_vel i hr (hm b hb)).2.2.2.2.2⟩
  have h := momentum_step { i.cc with dt := i.dt } { i.jc with dt := i.dt } (fun b => jbody (dyn (ready i w) b)) (fun b => velOf (dyn (ready i w) b))
    (Whole.joints i.pins) i.mans i.nv hwarm _ G hf
  have e1 : momentum G (Whole.update i w) = SolverProps.momentum G (fun b => (dyn w b).mass) (solved i w).1 :=
    Finset.sum_congr rfl fun b hb => by
      obtain ⟨_, k1, k2, _⟩ := step_body i (hm b hb) (ha b hb)
      rw [k1, k2]
  have e2 : SolverProps.momentum G (fun b => (dyn w b).mass) (fun b => velOf (dyn (ready i w) b)) = momentum G w + V3.smul i.dt (force G i.g w) := by
    unfold momentum force SolverProps.momentum
    rw [← sum_smul, ← Finset.sum_add_distrib]
    exact Finset.sum_congr rfl fun b hb => (ready_vel i hr (hm b hb)).1
  rw [e1]
  refine Eq.trans h ?_
  rw [e2]
  rfl

/-- The joints and contacts of the solvers lead between the bodies of the arguments. -/
theorem solved_closed {G : Finset Nat} {i : In K} (hc : Closed G i) (w : DW K) :
    (∀ J ∈ (solved i w).2.1, (J.b1 ∈ G ↔ J.b2 ∈ G)) ∧ ∀ M ∈ (solved i w).2.2, (M.b1 ∈ G ↔ M.b2 ∈ G) :=
  step_same _ _ _ _ _ _ _ (P := fun J => (J.b1 ∈ G ↔ J.b2 ∈ G)) (Q := fun M => (M.b1 ∈ G ↔ M.b2 ∈ G))
    (fun M N h hs => by rw [hs.bodies.1, hs.bodies.2]; exact h)
    (fun M N h hs => by
      have e1 : N.b1 = M.b1 := by rw [hs.eq]
      have e2 : N.b2 = M.b2 := by rw [hs.eq]
      rw [e1, e2]; exact h)
    (fun J hJ => by rw [(init_bodies _ _ J).1, (init_bodies _ _ J).2]; exact hc.joints J hJ) (fun X hX => hc.mans X hX)

theorem outerJ_closed {S : Finset Nat} {Js : List (Joint K)} (h : ∀ J ∈ Js, (J.b1 ∈ S ↔ J.b2 ∈ S)) : outerJ S Js = 0 := by
  unfold outerJ
  refine List.sum_eq_zero fun x hx => ?_
  simp only [List.mem_map] at hx
  obtain ⟨J, hJ, rfl⟩ := hx
  by_cases k : J.b1 ∈ S
  · rw [if_pos k, if_pos ((h J hJ).1 k), sub_self]
  · rw [if_neg k, if_neg fun l => k ((h J hJ).2 l), sub_self]

theorem outer_closed {S : Finset Nat} : ∀ (Ms : List (Man K)), (∀ M ∈ Ms, (M.b1 ∈ S ↔ M.b2 ∈ S)) → outer S Ms = 0
  | [], _ => rfl
  | M :: Ms, h => by
    rw [outer, outer_closed Ms fun q hq => h q (List.mem_cons_of_mem _ hq), add_zero]
    by_cases k : M.b1 ∈ S
    · rw [if_pos k, if_pos ((h M List.mem_cons_self).1 k), sub_self]
    · rw [if_neg k, if_neg fun l => k ((h M List.mem_cons_self).2 l), sub_self]

theorem pins_acts {G : Finset Nat} {Js : List (Joint K)} (h : ∀ J ∈ Js, (J.b1 ∈ G ↔ J.b2 ∈ G)) : ∀ a b, (pins Js).Acts a b → (a ∈ G ↔ b ∈ G) := by
  rintro a b (⟨j, hj, -, rfl, rfl⟩ | ⟨j, hj, -, rfl, rfl⟩ | ⟨j, hj, -, rfl, rfl⟩ | ⟨j, hj, -, rfl, rfl⟩) <;>
  · simp only [pins, List.mem_filterMap] at hj
    obtain ⟨J, hJ, hk⟩ := hj
    have := h J hJ
    cases J <;> simp only [reduceCtorEq, Option.some.injEq] at hk
    subst hk
    exact this

/-- **C134 (one step).** If no contact and no joint leads out of a group of bodies that move freely, then in a step its momentum changes by the external
force times the time step, and its center of mass moves with the new velocity. -/
theorem newton_step (G : Finset Nat) (i : In K) {w : DW K} (hr : DW.Reach DW.Any w) (hm : ∀ b ∈ G, Moves w b) (hc : Closed G i)
    (ha : ∀ b ∈ G, (dyn (Whole.update i w) b).sleeping = false) :
    momentum G (Whole.update i w) = momentum G w + V3.smul i.dt (force G i.g w) ∧
      center G (Whole.update i w) = center G w + V3.smul i.dt (momentum G (Whole.update i w)) := by
  obtain ⟨c1, c2⟩ := solved_closed hc w
  refine ⟨by rw [momentum_update G i hr hm hc.warm ha, outerJ_closed c1, outer_closed _ c2, add_zero, add_zero], ?_⟩
  have hf : Free (fun b => (jbody (dyn (ready i w) b)).toSBody) (fun b => (dyn w b).mass) G := fun b hb =>
    ⟨(ready_vel i hr (hm b hb)).2.2.2.2.1, (ready_vel i hr (hm b hb)).2.2.2.2.2⟩
  have hs : splits G (fun b => (dyn w b).mass) (solved i w).1 = 0 := by
    refine (step_splits { i.cc with dt := i.dt } { i.jc with dt := i.dt } (fun b => jbody (dyn (ready i w) b)) (fun b => velOf (dyn (ready i w) b))
      (Whole.joints i.pins) i.mans i.nv hf hc.mans).trans ?_
    refine Finset.sum_eq_zero fun b hb => ?_
    show V3.smul _ (dyn (ready i w) b).sVel = 0
    rw [(ready_vel i hr (hm b hb)).2.1, smul_zerov]
  have mid : ∀ b ∈ G, (midway i w b).cPos = (dyn w b).comWorld + V3.smul i.dt (((solved i w).1 b).v + V3.smul (if i.cc.split then 1 else 0) ((solved i w).1 b).vs) := by
    intro b hb
    obtain ⟨_, _, k1, k2, _⟩ := ready_vel i hr (hm b hb)
    unfold midway Dyn.integratePos
    rw [if_neg (by rw [Dyn.solveVel_disabled, k2]; exact Bool.false_ne_true)]
    show (dyn (ready i w) b).comWorld + _ = _
    rw [k1]
    rfl
  have hp : ∀ b ∈ G, (dyn w b).mass * (PBody.ofDyn (midway i w b)).m = 1 ∧ (PBody.ofDyn (midway i w b)).ll = ⟨1, 1, 1⟩ := by
    intro b hb
    obtain ⟨_, _, _, _, k3, k4⟩ := ready_vel i hr (hm b hb)
    refine ⟨?_, ?_⟩
    · show (dyn w b).mass * (midway i w b).invMass = 1
      rw [midway, (Dyn.integratePos_same _ _ _).invMass]
      exact k3
    · show (midway i w b).linLock = _
      have : ∀ (x y : K) (e : Dyn K), (e.integratePos x y).linLock = e.linLock := fun x y e => by unfold Dyn.integratePos; split <;> rfl
      rw [midway, this]
      exact k4
  have hx := correct_center { i.jc with dt := i.dt } (fun b => PBody.ofDyn (midway i w b)) i.np (fun b => Pose.ofDyn (midway i w b))
    (pins (solved i w).2.1) G (fun b => (dyn w b).mass) hp (pins_acts c1)
  have e1 : center G (Whole.update i w) = massCenter G (fun b => (dyn w b).mass) (corrected i w).1 :=
    Finset.sum_congr rfl fun b hb => by
      obtain ⟨_, k1, _, k2, _⟩ := step_body i (hm b hb) (ha b hb)
      rw [k1, k2]
  have e2 : momentum G (Whole.update i w) = SolverProps.momentum G (fun b => (dyn w b).mass) (solved i w).1 :=
    Finset.sum_congr rfl fun b hb => by
      obtain ⟨_, k1, k2, _⟩ := step_body i (hm b hb) (ha b hb)
      rw [k1, k2]
  rw [e1, e2]
  refine hx.trans ?_
  have e3 : massCenter G (fun b => (dyn w b).mass) (fun b => Pose.ofDyn (midway i w b)) = ∑ b ∈ G, (V3.smul (dyn w b).mass (dyn w b).comWorld +
      (V3.smul i.dt (V3.smul (dyn w b).mass ((solved i w).1 b).v) +
        V3.smul i.dt (V3.smul (if i.cc.split then 1 else 0) (V3.smul (dyn w b).mass ((solved i w).1 b).vs)))) := by
    refine Finset.sum_congr rfl fun b hb => ?_
    show V3.smul _ (midway i w b).cPos = _
    rw [mid b hb]
    generalize (if i.cc.split then (1 : K) else 0) = k
    ext <;> simp <;> ring
  rw [e3, Finset.sum_add_distrib, Finset.sum_add_distrib, sum_smul, sum_smul, sum_smul]
  have e4 : ∑ b ∈ G, V3.smul (dyn w b).mass ((solved i w).1 b).vs = 0 := hs
  rw [e4, smul_zerov, smul_zerov, add_zero]
  rfl

/-! ### Histories -/

/-- Calls on a body of the group that leave its velocity, its mass and its center of mass alone. -/
def Gentle : Dyn.Op K → Prop
  | .force _ _ | .forceLocalPos _ _ | .localForce _ _ | .localForceLocalPos _ _ | .forceCenter _ | .localForceCenter _ => True
  | .torque _ | .localTorque _ | .resetForce | .resetTorque | .setInertia _ | .inertiaFromColliders _ => True
  | .angularVelocity _ | .allowed _ | .angularDamping _ | .gravity _ | .angularLock _ => True
  | _ => False

/-- Histories of a world with a group of bodies; the list has the time step and the external force of each step, the latest first. -/
inductive Run (G : Finset Nat) : List (K × V3 K) → DW K → DW K → Prop
  | nil (w) : Run G [] w w
  | step {l w w'} (i : In K) : Run G l w w' → Closed G i → (∀ b ∈ G, (dyn (Whole.update i w') b).sleeping = false) →
      Run G ((i.dt, force G i.g w') :: l) w (Whole.update i w')
  | call {l w w'} (b : Nat) (o : Dyn.Op K) : Run G l w w' → b ∉ G ∨ Gentle o → Run G l w (w'.exec (.call b o))
  | create {l w w'} (b : Nat) (t : Trans K) : Run G l w w' → b ∉ G → Run G l w (w'.exec (.create b t))
  | destroy {l w w'} (b : Nat) : Run G l w w' → b ∉ G → Run G l w (w'.exec (.destroy b))
  | enableSleeping {l w w'} (b : Bool) : Run G l w w' → Run G l w (w'.exec (.enableSleeping b))
  | limits {l w w'} (x y z : K) : Run G l w w' → Run G l w (w'.exec (.limits x y z))

/-- The motion of one particle under the forces of a history: momentum, and mass times position. -/
def particle (s : V3 K × V3 K) : List (K × V3 K) → V3 K × V3 K
  | [] => s
  | (dt, F) :: l => let q := particle s l; let p := q.1 + V3.smul dt F; (p, q.2 + V3.smul dt p)

/-- What a call keeps of a body of the group. -/
structure Keeps (d e : Dyn K) : Prop where
  type : e.type = d.type
  disabled : e.disabled = d.disabled
  sleeping : e.sleeping = d.sleeping
  mass : e.mass = d.mass
  lock : e.linLock = d.linLock
  damp : e.linDamp = d.linDamp
  vel : e.vel = d.vel
  com : e.comWorld = d.comWorld

theorem Keeps.refl (d : Dyn K) : Keeps d d := ⟨rfl, rfl, rfl, rfl, rfl, rfl, rfl, rfl⟩

theorem gentle_keeps {d : Dyn K} (ha : d.sleeping = false) {o : Dyn.Op K} (h : Gentle o) : Keeps d (d.exec o) := by
  have hs : ∀ e : Dyn K, e.sleeping = false → e.setIsSleeping false = e := fun e he => by unfold Dyn.setIsSleeping; rw [if_pos he]
  have frc : ∀ f p, Keeps d (d.applyForce f p) := fun f p => by
    unfold Dyn.applyForce
    dsimp only
    rw [if_neg (fun k => Bool.false_ne_true (ha.symm.trans k) : ¬ d.sleeping = true)]
    split <;> constructor <;> rfl
  have frcc : ∀ f, Keeps d (d.applyForceCenter f) := fun f => by
    unfold Dyn.applyForceCenter
    dsimp only
    rw [if_neg (fun k => Bool.false_ne_true (ha.symm.trans k) : ¬ d.sleeping = true)]
    split <;> constructor <;> rfl
  have trq : ∀ f, Keeps d (d.applyTorque f) := fun f => by
    unfold Dyn.applyTorque
    dsimp only
    rw [if_neg (fun k => Bool.false_ne_true (ha.symm.trans k) : ¬ d.sleeping = true)]
    split <;> constructor <;> rfl
  have ine : ∀ f, Keeps d (d.setInertia f) := fun f => by
    unfold Dyn.setInertia
    dsimp only
    split <;> constructor <;> rfl
  cases o <;> simp only [Gentle] at h <;> simp only [Dyn.exec]
  · exact frc _ _
  · exact frc _ _
  · exact frc _ _
  · exact frc _ _
  · exact frcc _
  · exact frcc _
  · exact trq _
  · exact trq _
  · unfold Dyn.resetForce; split <;> constructor <;> rfl
  · unfold Dyn.resetTorque; split <;> constructor <;> rfl
  · exact ine _
  · exact ine _
  · unfold Dyn.setAngularVelocity
    split
    · exact Keeps.refl d
    · dsimp only
      split
      · rw [hs _ (by exact ha)]; constructor <;> rfl
      · constructor <;> rfl
  · unfold Dyn.setAllowed
    dsimp only
    split
    · rw [hs _ (by exact ha)]; constructor <;> rfl
    · constructor <;> rfl
  · unfold Dyn.setAngularDamping; split <;> constructor <;> rfl
  · constructor <;> rfl
  · constructor <;> rfl

theorem same_group {G : Finset Nat} {w v : DW K} (hm : ∀ b ∈ G, Moves w b) (h : ∀ b ∈ G, ∃ e, v.body b = some e ∧ Keeps (dyn w b) e) :
    (∀ b ∈ G, Moves v b) ∧ momentum G v = momentum G w ∧ center G v = center G w := by
  have k : ∀ b ∈ G, (∃ e, v.body b = some e) ∧ Keeps (dyn w b) (dyn v b) := fun b hb => by
    obtain ⟨e, he, k⟩ := h b hb
    have : dyn v b = e := by unfold dyn; rw [he]; rfl
    exact ⟨⟨e, he⟩, this ▸ k⟩
  refine ⟨fun b hb => ?_, Finset.sum_congr rfl fun b hb => ?_, Finset.sum_congr rfl fun b hb => ?_⟩
  · obtain ⟨he, k⟩ := k b hb
    have m := hm b hb
    exact ⟨he, k.type.trans m.dynamic, k.disabled.trans m.active, k.sleeping.trans m.awake, k.mass.symm ▸ m.mass, k.lock.trans m.lock, k.damp.trans m.damp⟩
  · rw [(k b hb).2.mass, (k b hb).2.vel]
  · rw [(k b hb).2.mass, (k b hb).2.com]

theorem body_dyn {w : DW K} {b : Nat} (h : Moves w b) : w.body b = some (dyn w b) := by
  obtain ⟨d, hd⟩ := h.some
  unfold dyn
  rw [hd]
  rfl

/-- **C134 (histories).** Over any history in which no contact and no joint leads out of a group of bodies that move freely, the center of mass of the
group moves like one particle with the mass of the group under the external forces. -/
theorem newton_history {G : Finset Nat} {l : List (K × V3 K)} {w w' : DW K} (h : Run G l w w') (hr : DW.Reach DW.Any w) (hm : ∀ b ∈ G, Moves w b) :
    (momentum G w', center G w') = particle (momentum G w, center G w) l ∧ DW.Reach DW.Any w' ∧ ∀ b ∈ G, Moves w' b := by
  have keep : ∀ {l : List (K × V3 K)} {u v : DW K}, ((momentum G u, center G u) = particle (momentum G w, center G w) l ∧ DW.Reach DW.Any u ∧ ∀ b ∈ G, Moves u b) →
      DW.Reach DW.Any v → ((∀ b ∈ G, Moves u b) → ∀ b ∈ G, ∃ e, v.body b = some e ∧ Keeps (dyn u b) e) →
      ((momentum G v, center G v) = particle (momentum G w, center G w) l ∧ DW.Reach DW.Any v ∧ ∀ b ∈ G, Moves v b) := fun ⟨a, _, c⟩ r h => by
    obtain ⟨k1, k2, k3⟩ := same_group c (h c)
    exact ⟨by rw [k2, k3]; exact a, r, k1⟩
  induction h with
  | nil w => exact ⟨rfl, hr, hm⟩
  | step i _ hc ha ih =>
    obtain ⟨a, b, c⟩ := ih hr hm keep
    obtain ⟨n1, n2⟩ := newton_step G i b c hc ha
    refine ⟨?_, .step (.update _) trivial b, fun x hx => (step_body i (c x hx) (ha x hx)).1⟩
    rw [particle, ← a, n2, n1]
  | call c o _ hc ih =>
    have ih := ih hr hm keep
    refine keep ih (.step _ trivial ih.2.1) fun m b hb => ?_
    simp only [DW.exec]
    by_cases e : b = c
    · subst e
      rw [DW.modify_same, body_dyn (m b hb)]
      rcases hc with k | k
      · exact absurd hb k
      · exact ⟨_, rfl, gentle_keeps (m b hb).awake k⟩
    · rw [DW.modify_ne _ _ e]
      exact ⟨_, body_dyn (m b hb), Keeps.refl _⟩
  | create c t _ hc ih =>
    have ih := ih hr hm keep
    refine keep ih (.step _ trivial ih.2.1) fun m b hb => ?_
    simp only [DW.exec]
    rw [upd_ne _ _ fun e : b = c => hc (e ▸ hb)]
    exact ⟨_, body_dyn (m b hb), Keeps.refl _⟩
  | destroy c _ hc ih =>
    have ih := ih hr hm keep
    refine keep ih (.step _ trivial ih.2.1) fun m b hb => ?_
    simp only [DW.exec]
    rw [upd_ne _ _ fun e : b = c => hc (e ▸ hb)]
    exact ⟨_, body_dyn (m b hb), Keeps.refl _⟩
  | @enableSleeping l w u c _ ih =>
    have ih := ih hr hm keep
    refine keep ih (.step _ trivial ih.2.1) fun m b hb => ?_
    have hs : (dyn u b).setIsSleeping false = dyn u b := by unfold Dyn.setIsSleeping; rw [if_pos (m b hb).awake]
    simp only [DW.exec, DW.enableSleeping]
    split
    · simp only [DW.mapAll, body_dyn (m b hb), Option.map_some, hs]
      exact ⟨_, rfl, Keeps.refl _⟩
    · exact ⟨dyn u b, (body_dyn (m b hb) : u.body b = _), Keeps.refl _⟩
  | @limits l w u x y z _ ih =>
    have ih := ih hr hm keep
    refine keep ih (.step _ trivial ih.2.1) fun m b hb => ?_
    exact ⟨dyn u b, (body_dyn (m b hb) : u.body b = _), Keeps.refl _⟩

/-- The time of a history. -/
def time (l : List (K × V3 K)) : K := (l.map (·.1)).sum

theorem particle_free (s : V3 K × V3 K) : ∀ l : List (K × V3 K), (∀ x ∈ l, x.2 = 0) → particle s l = (s.1, s.2 + V3.smul (time l) s.1)
  | [], _ => by
    have : V3.smul (0 : K) s.1 = 0 := by ext <;> simp
    simp [particle, time, this]
  | (dt, F) :: l, h => by
    have hF : F = 0 := h (dt, F) List.mem_cons_self
    rw [particle, particle_free s l fun x hx => h x (List.mem_cons_of_mem _ hx), hF]
    dsimp only
    rw [smul_zerov, add_zero]
    refine Prod.ext rfl ?_
    show s.2 + V3.smul (time l) s.1 + V3.smul dt s.1 = s.2 + V3.smul (time ((dt, 0) :: l)) s.1
    have : time ((dt, (0 : V3 K)) :: l) = dt + time l := by simp [time]
    rw [this]
    ext <;> simp <;> ring

/-- **C134 (isolated groups).** Without external forces the momentum of the group stays and its center of mass moves uniformly, whatever collisions and
joints there are among its bodies. -/
theorem newton_isolated {G : Finset Nat} {l : List (K × V3 K)} {w w' : DW K} (h : Run G l w w') (hr : DW.Reach DW.Any w) (hm : ∀ b ∈ G, Moves w b)
    (hF : ∀ x ∈ l, x.2 = 0) : momentum G w' = momentum G w ∧ center G w' = center G w + V3.smul (time l) (momentum G w) := by
  have k := (newton_history h hr hm).1
  rw [particle_free _ _ hF] at k
  exact Prod.ext_iff.1 k

/-- A particle under a constant force over `n` equal steps. -/
theorem particle_fall (s : V3 K × V3 K) (dt : K) (F : V3 K) : ∀ n : Nat, particle s (List.replicate n (dt, F)) =
    (s.1 + V3.smul (n * dt) F, s.2 + V3.smul (n * dt) s.1 + V3.smul ((n * dt) * ((n + 1) * dt) / 2) F)
  | 0 => by
    refine Prod.ext ?_ ?_
    · show s.1 = s.1 + _; ext <;> simp
    · show s.2 = s.2 + _ + _; ext <;> simp
  | n + 1 => by
    rw [List.replicate_succ, particle, particle_fall s dt F n]
    dsimp only
    refine Prod.ext ?_ ?_
    · ext <;> simp <;> ring
    · ext <;> simp <;> ring

/-- **C134 (free fall).** Under a constant force and with a constant time step `dt` the momentum after `n` steps is `P + tF` and the center of mass is at
`X + tP + t(t + dt)F/2`, with `t = n dt`: half a step of the velocity is the whole error against the parabola. -/
theorem newton_fall {G : Finset Nat} {n : Nat} {dt : K} {F : V3 K} {w w' : DW K} (h : Run G (List.replicate n (dt, F)) w w') (hr : DW.Reach DW.Any w)
    (hm : ∀ b ∈ G, Moves w b) : momentum G w' = momentum G w + V3.smul (n * dt) F ∧
      center G w' = center G w + V3.smul (n * dt) (momentum G w) + V3.smul ((n * dt) * ((n + 1) * dt) / 2) F := by
  have k := (newton_history h hr hm).1
  rw [particle_fall] at k
  exact Prod.ext_iff.1 k

end Newton
end RP3D
