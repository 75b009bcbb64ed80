import Verif.Solver.Flip
import Verif.Props.Apart

/-! C146: it does not matter which of two touching bodies is the first one. -/

set_option linter.unusedSectionVars false

namespace RP3D
namespace Exchange
open Solver Joints Whole Flip
open Apart (Ev)
variable {K : Type} [Field K] [LinearOrder K] [IsStrictOrderedRing K]

/-! ### Specification -/

/-- The same step, but some manifolds have their bodies exchanged. -/
structure Swapped (i j : In K) : Prop where
  rest : j = { i with mans := j.mans }
  good : ∀ X ∈ i.mans, GoodX X
  mans : List.Forall₂ Same i.mans j.mans

/-- The same event, but for exchanged bodies. -/
inductive SwappedEv : Ev K → Ev K → Prop
  | same (e : Ev K) : SwappedEv e e
  | step {i j : In K} (h : Swapped i j) : SwappedEv (.step i) (.step j)

/-- What is reported of a manifold: its impulses, and the friction force on each body. The second friction impulse refers to the second friction vector, `normal x first vector`. -/
def friction (M : Man K) (b : Nat) : V3 K := if b = M.b2 then V3.smul M.f1 M.t1 + V3.smul M.f2 M.t2 else -(V3.smul M.f1 M.t1 + V3.smul M.f2 M.t2)

/-! ### Proofs -/

section step
variable {i j : In K} {w : DW K} (h : Swapped i j)
include h

theorem ready_swap : ready j w = ready i w := by rw [h.rest]; rfl

theorem solved_swap : (solved j w).1 = (solved i w).1 ∧ (solved j w).2.1 = (solved i w).2.1 ∧ List.Forall₂ Mirror (solved i w).2.2 (solved j w).2.2 := by
  have k := solveStep_pair { i.cc with dt := i.dt } { i.jc with dt := i.dt } (fun b => jbody (dyn (ready i w) b)) (fun b => velOf (dyn (ready i w) b)) (joints i.pins) h.good h.mans i.nv
  have e : solved j w = solveStep { i.cc with dt := i.dt } { i.jc with dt := i.dt } (fun b => jbody (dyn (ready i w) b)) (fun b => velOf (dyn (ready i w) b)) (joints i.pins) j.mans i.nv := by
    unfold solved
    rw [ready_swap h, h.rest]
  rw [e]
  exact k

theorem vels_swap : vels j w = vels i w := by
  funext b; unfold vels; rw [(solved_swap h).1]

theorem midway_swap : midway j w = midway i w := by
  funext b; unfold midway; rw [vels_swap h, ready_swap h, h.rest]

theorem poss_swap : poss j w = poss i w := by
  funext b; unfold poss corrected; rw [midway_swap h, (solved_swap h).2.1, h.rest]

/-- **C146, a step.** The bodies, all of them, are the same after the step. -/
theorem exchange_step : update j w = update i w := by
  unfold update
  rw [vels_swap h, poss_swap h]
  congr 1
  rw [h.rest]
  rfl

/-- **C146, what is reported.** The impulses of the contact points are the same, the normal points from the first body to the second one, and the friction on each body is the same. -/
theorem exchange_report : List.Forall₂ (fun M N : Man K => N.pts.map CPoint.imp = M.pts.map CPoint.imp ∧ N.tw = M.tw ∧ (N.b1 = M.b1 → N.normal = M.normal) ∧ (N.b1 = M.b2 → N.normal = -M.normal) ∧
    (∀ b, b = M.b1 ∨ b = M.b2 → friction N b = friction M b)) (solved i w).2.2 (solved j w).2.2 := by
  refine (solved_swap h).2.2.imp fun M N k => ?_
  obtain ⟨⟨hb, _⟩, rfl | rfl⟩ := k
  · exact ⟨rfl, rfl, fun _ => rfl, fun e => absurd e hb, fun _ _ => rfl⟩
  · refine ⟨?_, rfl, fun e => absurd e.symm hb, fun _ => rfl, ?_⟩
    · show (M.pts.map flipP).map _ = _
      rw [List.map_map]; rfl
    · intro b hbb
      have e : V3.smul (flipM M).f1 (flipM M).t1 + V3.smul (flipM M).f2 (flipM M).t2 = -(V3.smul M.f1 M.t1 + V3.smul M.f2 M.t2) := by
        show V3.smul M.f1 (-M.t1) + V3.smul (-M.f2) M.t2 = _
        rw [smul_n, n_smul, n_add]
      unfold friction
      rw [e, show (flipM M).b2 = M.b1 from rfl, neg_neg3]
      rcases hbb with rfl | rfl
      · rw [if_pos rfl, if_neg hb]
      · rw [if_neg hb.symm, if_pos rfl]

end step

/-! ### What is kept for the next step -/

theorem solveList_b1 (cfg : Cfg K) : ∀ (Ms : List (Man K)) (V : Nat → Vel K), (solve cfg V Ms).2.map Man.b1 = Ms.map Man.b1
  | [], _ => rfl
  | _ :: Ms, _ => by
    unfold solve
    dsimp only
    rw [List.map_cons, List.map_cons, solveList_b1 cfg Ms]
    rfl

theorem warmStart_b1 : ∀ (Ms : List (Man K)) (V : Nat → Vel K), (warmStart V Ms).2.map Man.b1 = Ms.map Man.b1
  | [], _ => rfl
  | M :: Ms, V => by
    have : (warmMan V M).2.b1 = M.b1 := by unfold warmMan; dsimp only; split_ifs <;> rfl
    unfold warmStart
    dsimp only
    rw [List.map_cons, List.map_cons, warmStart_b1 Ms, this]

theorem loop_b1 (cfg : Cfg K) (jc : JCfg K) (body : Nat → JBody K) : ∀ (n : Nat) (s : (Nat → Vel K) × List (Joint K) × List (Man K)),
    (loop cfg jc body n s).2.2.map Man.b1 = s.2.2.map Man.b1
  | 0, _ => rfl
  | n + 1, s => by
    unfold loop
    dsimp only
    rw [loop_b1 cfg jc body n, solveList_b1]

theorem solved_b1 (i : In K) (w : DW K) : (solved i w).2.2.map Man.b1 = i.mans.map XMan.b1 := by
  unfold solved solveStep
  dsimp only
  rw [loop_b1, warmStart_b1, List.map_map]
  rfl

/-- The manifolds that `storeImpulses` leaves for the next step. -/
def stored (i : In K) (w : DW K) : List (XMan K) := List.zipWith store (solved i w).2.2 i.mans

theorem store_same {X Y : XMan K} {M N : Man K} (hb : X.b1 ≠ X.b2) (h : Same X Y) (k : Mirror M N) (e1 : M.b1 = X.b1) (e2 : N.b1 = Y.b1) : Same (store M X) (store N Y) := by
  rcases h with rfl | rfl
  · obtain ⟨⟨_, _⟩, rfl | rfl⟩ := k
    · exact .inl rfl
    · exact absurd (e1.trans e2.symm) (by assumption)
  · obtain ⟨⟨_, _⟩, rfl | rfl⟩ := k
    · exact absurd (e1.symm.trans e2) hb
    · exact .inr (store_flip M X)

theorem zip_same : ∀ {Xs Ys : List (XMan K)} {Ms Ns : List (Man K)}, (∀ X ∈ Xs, GoodX X) → List.Forall₂ Same Xs Ys → List.Forall₂ Mirror Ms Ns →
    Ms.map Man.b1 = Xs.map XMan.b1 → Ns.map Man.b1 = Ys.map XMan.b1 → List.Forall₂ Same (List.zipWith store Ms Xs) (List.zipWith store Ns Ys)
  | _, _, _, _, _, .nil, .nil, _, _ => .nil
  | _, _, _, _, _, .nil, .cons _ _, e, _ => by simp at e
  | _, _, _, _, _, .cons _ _, .nil, e, _ => by simp at e
  | _, _, _, _, hg, .cons h hs, .cons k ks, e, f => by
    rw [List.map_cons, List.map_cons, List.cons.injEq] at e f
    exact .cons (store_same (hg _ (List.mem_cons_self ..)).1 h k e.1 f.1) (zip_same (fun X hX => hg X (List.mem_cons_of_mem _ hX)) hs ks e.2 f.2)

/-- **C146, what is kept.** The manifolds with the impulses of this step, from which the next step starts, again differ only in which body is the first one. -/
theorem exchange_stored {i j : In K} {w : DW K} (h : Swapped i j) : List.Forall₂ Same (stored i w) (stored j w) :=
  zip_same h.good h.mans (solved_swap h).2.2 (solved_b1 i w) (solved_b1 j w)

/-- **C146.** In any history, with bodies exchanged in any contacts of any steps, the worlds are the same at every moment. -/
theorem exchange {es fs : List (Ev K)} (h : List.Forall₂ SwappedEv es fs) (w : DW K) : fs.foldl Ev.run w = es.foldl Ev.run w := by
  induction h generalizing w with
  | nil => rfl
  | cons h _ ih =>
    rw [List.foldl_cons, List.foldl_cons, ih]
    congr 1
    cases h with
    | same => rfl
    | step k => exact exchange_step k

end Exchange
end RP3D
