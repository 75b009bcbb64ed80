import Verif.Solver.Frame
import Verif.Solver.Still

/-! Lemmas for C137: whole runs of the solvers with bodies that are elsewhere by one vector and faster by one velocity. -/

set_option linter.unusedSectionVars false

namespace RP3D
namespace Frame
open Solver Joints SolverProps JointProps
open Local (thread solveAll_thread solve_thread warmStart_thread each_thread)
variable {K : Type} [Field K] [LinearOrder K] [IsStrictOrderedRing K] {G : Nat → Prop}

section loops
variable {α β : Type} {s : α → α} {f f' : (Nat → α) → β → (Nat → α) × β} {P : β → Prop}

theorem thread_frame (h : ∀ V W j, P j → Map G s V W → Pair G s (f V j) (f' W j)) (hp : ∀ V j, P j → P (f V j).2) : ∀ (l : List β) (V W : Nat → α), (∀ j ∈ l, P j) → Map G s V W →
    Map G s (thread f V l).1 (thread f' W l).1 ∧ (thread f V l).2 = (thread f' W l).2 ∧ ∀ j ∈ (thread f V l).2, P j
  | [], V, W, _, ha => ⟨ha, rfl, fun _ h => by cases h⟩
  | j :: js, V, W, hj, ha => by
    obtain ⟨a, b⟩ := h V W j (hj j List.mem_cons_self) ha
    obtain ⟨c1, c2, c3⟩ := thread_frame h hp js _ _ (fun i hi => hj i (List.mem_cons_of_mem _ hi)) a
    simp only [thread]
    refine ⟨c1, by rw [b, c2], fun i hi => ?_⟩
    rcases List.mem_cons.1 hi with rfl | hi
    · exact hp V j (hj j List.mem_cons_self)
    · exact c3 i hi

end loops

/-! ### Velocities -/

section vels
variable {body body' : Nat → JBody K} {t u : V3 K}

/-- Velocities, joints and manifolds. -/
def Alike (G : Nat → Prop) (u : V3 K) (s r : (Nat → Vel K) × List (Joint K) × List (Man K)) : Prop := Map G (boost u) s.1 r.1 ∧ s.2 = r.2

variable (hb : Map G (moveJ t u) body body')
include hb

theorem joint_keep (jc : JCfg K) (V : Nat → Vel K) (J : Joint K) (h : G J.b1 ∧ G J.b2) : G (Joint.solve jc body V J).2.b1 ∧ G (Joint.solve jc body V J).2.b2 := by
  obtain ⟨e1, e2⟩ := (Joint.solve_ok jc body J V).1.bodies
  rw [e1, e2]; exact h

theorem loop_frame (cfg : Cfg K) (jc : JCfg K) : ∀ (n : Nat) (s r : (Nat → Vel K) × List (Joint K) × List (Man K)), Alike G u s r →
    (∀ J ∈ s.2.1, G J.b1 ∧ G J.b2) → (∀ M ∈ s.2.2, G M.b1 ∧ G M.b2) → Alike G u (Joints.loop cfg jc body n s) (Joints.loop cfg jc body' n r)
  | 0, _, _, h, _, _ => h
  | n + 1, s, r, h, hj, hm => by
    obtain ⟨a1, a2, a3⟩ := thread_frame (f := fun V J => Joint.solve jc body V J) (f' := fun V J => Joint.solve jc body' V J) (P := fun J => G J.b1 ∧ G J.b2)
      (fun V W J p h => Joint.solve_frame jc hb h J p.1 p.2) (fun V J p => joint_keep hb jc V J p) s.2.1 s.1 r.1 hj h.1
    obtain ⟨b1, b2, b3⟩ := thread_frame (f := solveMan cfg) (f' := solveMan cfg) (P := fun M => G M.b1 ∧ G M.b2)
      (fun V W M p h => solveMan_frame cfg h p.1 p.2) (fun V M p => p) s.2.2 _ _ hm a1
    rw [Joints.loop, Joints.loop]
    rw [solveAll_thread, solveAll_thread, solve_thread, solve_thread, ← h.2]
    exact loop_frame cfg jc n _ _ ⟨b1, by rw [← a2, b2]⟩ a3 b3

theorem warmAll_frame (jc : JCfg K) : ∀ (Js : List (Joint K)) (V W : Nat → Vel K), (∀ J ∈ Js, G J.b1 ∧ G J.b2) → Map G (boost u) V W →
    Map G (boost u) (warmAll jc body Js V) (warmAll jc body' Js W) := by
  unfold warmAll
  split
  · intro Js
    induction Js with
    | nil => intro V W _ h; exact h
    | cons J Js ih =>
      intro V W hp h
      rw [List.foldl_cons, List.foldl_cons]
      exact ih _ _ (fun i hi => hp i (List.mem_cons_of_mem _ hi)) (Joint.warm_frame hb h J (hp J List.mem_cons_self).1 (hp J List.mem_cons_self).2)
  · intro _ _ _ _ h; exact h

theorem warm_keep (V : Nat → Vel K) (M : Man K) (h : G M.b1 ∧ G M.b2) : G (warmMan V M).2.b1 ∧ G (warmMan V M).2.b2 := by
  unfold warmMan
  dsimp only
  split <;> exact h

/-- The velocity solver: same joints and manifolds, velocities larger by `u`. -/
theorem solveStep_frame (cfg : Cfg K) (jc : JCfg K) (V W : Nat → Vel K) (Js : List (Joint K)) (Xs : List (XMan K)) (n : Nat) (h : Map G (boost u) V W)
    (hj : ∀ J ∈ Js, G J.b1 ∧ G J.b2) (hx : ∀ X ∈ Xs, (G X.b1 ∧ G X.b2) ∧ X.pts ≠ []) :
    Alike G u (solveStep cfg jc body V Js Xs n) (solveStep cfg jc body' W Js (Xs.map (moveMan t)) n) := by
  have em : (Xs.map (moveMan t)).map (initMan cfg jc.sqrt fun b => (body' b).toSBody) = Xs.map (initMan cfg jc.sqrt fun b => (body b).toSBody) := by
    rw [List.map_map]
    refine List.map_congr_left fun X hX => ?_
    obtain ⟨⟨g1, g2⟩, hp⟩ := hx X hX
    exact initMan_frame (t := t) (u := u) cfg jc.sqrt X hp (by rw [hb _ g1]; rfl) (by rw [hb _ g2]; rfl)
  have ej : Js.map (Joint.init jc body') = Js.map (Joint.init jc body) :=
    List.map_congr_left fun J hJ => Joint.init_frame jc hb J (hj J hJ).1 (hj J hJ).2
  have hj' : ∀ J ∈ Js.map (Joint.init jc body), G J.b1 ∧ G J.b2 := by
    intro J hJ
    obtain ⟨I, hI, rfl⟩ := List.mem_map.1 hJ
    rw [(init_bodies jc body I).1, (init_bodies jc body I).2]
    exact hj I hI
  have hm' : ∀ M ∈ Xs.map (initMan cfg jc.sqrt fun b => (body b).toSBody), G M.b1 ∧ G M.b2 := by
    intro M hM
    obtain ⟨X, hX, rfl⟩ := List.mem_map.1 hM
    exact (hx X hX).1
  obtain ⟨a1, a2, a3⟩ := thread_frame (f := warmMan) (f' := warmMan) (P := fun M : Man K => G M.b1 ∧ G M.b2) (fun V W M p h => warmMan_frame h p.1 p.2)
    (fun V M p => warm_keep hb V M p) _ V W hm' h
  unfold solveStep
  dsimp only
  rw [em, ej, warmStart_thread, warmStart_thread]
  exact loop_frame hb cfg jc n _ _ ⟨warmAll_frame hb jc _ _ _ hj' a1, by rw [a2]⟩ hj' a3

end vels

/-! ### Poses -/

section poses
variable {body body' : Nat → PBody K} {cfg : JCfg K} {t : V3 K}
variable (hb : Local.Agree G body body')
include hb

/-- The bodies of the joints belong to the group. -/
structure InPins (G : Nat → Prop) (S : Pins K) : Prop where
  balls : ∀ J ∈ S.balls, G J.b1 ∧ G J.b2
  fixeds : ∀ J ∈ S.fixeds, G J.b1 ∧ G J.b2
  hinges : ∀ J ∈ S.hinges, G J.b1 ∧ G J.b2
  sliders : ∀ J ∈ S.sliders, G J.b1 ∧ G J.b2

omit hb in
theorem each_frame {β : Type} {b1 b2 : β → Nat} {baum : β → Bool} {f f' : β → (Nat → Pose K) → (Nat → Pose K) × β}
    (h : ∀ J X Y, Map G (shift t) X Y → G (b1 J) → G (b2 J) → Pair G (shift t) (f J X) (f' J Y)) (hk : ∀ J X, b1 (f J X).2 = b1 J ∧ b2 (f J X).2 = b2 J) (l : List β)
    (X Y : Nat → Pose K) (hl : ∀ J ∈ l, G (b1 J) ∧ G (b2 J)) (ha : Map G (shift t) X Y) :
    Map G (shift t) (each baum f X l).1 (each baum f' Y l).1 ∧ (each baum f X l).2 = (each baum f' Y l).2 ∧ ∀ J ∈ (each baum f X l).2, G (b1 J) ∧ G (b2 J) := by
  rw [each_thread, each_thread]
  refine thread_frame (P := fun J => G (b1 J) ∧ G (b2 J)) (fun X Y J p ha => ?_) (fun X J p => ?_) l X Y hl ha
  · split
    · exact ⟨ha, rfl⟩
    · exact h J X Y ha p.1 p.2
  · split
    · exact p
    · rw [(hk J X).1, (hk J X).2]; exact p

omit hb in
theorem eachSlider_frame {β : Type} {b1 b2 : β → Nat} {baum : β → Bool} {f f' : β → (Nat → Pose K) → (Nat → Pose K) × β}
    (h : ∀ J X Y, Map G (shift t) X Y → G (b1 J) → G (b2 J) → Pair G (shift t) (f J X) (f' J Y)) (hk : ∀ J X, b1 (f J X).2 = b1 J ∧ b2 (f J X).2 = b2 J) : ∀ (l : List β)
    (X Y : Nat → Pose K), (∀ J ∈ l, G (b1 J) ∧ G (b2 J)) → Map G (shift t) X Y →
    Map G (shift t) (eachSlider baum f X l).1 (eachSlider baum f' Y l).1 ∧ (eachSlider baum f X l).2 = (eachSlider baum f' Y l).2 ∧
      ∀ J ∈ (eachSlider baum f X l).2, G (b1 J) ∧ G (b2 J)
  | [], X, Y, _, ha => ⟨ha, rfl, fun _ h => by cases h⟩
  | J :: Js, X, Y, hl, ha => by
    unfold eachSlider
    split
    · exact ⟨ha, rfl, hl⟩
    · have pj := hl J List.mem_cons_self
      obtain ⟨a, b⟩ := h J X Y ha pj.1 pj.2
      obtain ⟨c1, c2, c3⟩ := eachSlider_frame h hk Js _ _ (fun i hi => hl i (List.mem_cons_of_mem _ hi)) a
      refine ⟨c1, by dsimp only; rw [b, c2], fun i hi => ?_⟩
      rcases List.mem_cons.1 hi with rfl | hi
      · rw [(hk J X).1, (hk J X).2]; exact pj
      · exact c3 i hi

theorem positionAll_frame (X Y : Nat → Pose K) (S : Pins K) (hS : InPins G S) (ha : Map G (shift t) X Y) :
    Map G (shift t) (positionAll cfg body X S).1 (positionAll cfg body' Y S).1 ∧ (positionAll cfg body X S).2 = (positionAll cfg body' Y S).2 ∧ InPins G (positionAll cfg body X S).2 := by
  have k : ∀ {β : Type} {b1 b2 : β → Nat} {baum : β → Bool} {f : β → (Nat → Pose K) → (Nat → Pose K) × β}, (∀ (P : Nat → Nat → Prop) J X, P (b1 J) (b2 J) → Moves cfg body P X (f J X).1 ∧
      b1 (f J X).2 = b1 J ∧ b2 (f J X).2 = b2 J ∧ baum (f J X).2 = baum J) → ∀ J X, b1 (f J X).2 = b1 J ∧ b2 (f J X).2 = b2 J := fun h J X =>
    ⟨(h (fun _ _ => True) J X trivial).2.1, (h (fun _ _ => True) J X trivial).2.2.1⟩
  obtain ⟨a1, a2, a3⟩ := each_frame (b1 := Ball.b1) (b2 := Ball.b2) (baum := Ball.baum) (f := Ball.position cfg body) (f' := Ball.position cfg body') (t := t)
    (fun J X Y h h1 h2 => Ball.position_frame hb h J h1 h2) (k (baum := Ball.baum) fun P J X h => Ball.position_ok J h X) S.balls X Y hS.balls ha
  obtain ⟨b1, b2, b3⟩ := each_frame (b1 := Fixed.b1) (b2 := Fixed.b2) (baum := Fixed.baum) (f := Fixed.position cfg body) (f' := Fixed.position cfg body') (t := t)
    (fun J X Y h h1 h2 => Fixed.position_frame hb h J h1 h2) (k (baum := Fixed.baum) fun P J X h => Fixed.position_ok J h X) S.fixeds _ _ hS.fixeds a1
  obtain ⟨c1, c2, c3⟩ := each_frame (b1 := Hinge.b1) (b2 := Hinge.b2) (baum := Hinge.baum) (f := Hinge.position cfg body) (f' := Hinge.position cfg body') (t := t)
    (fun J X Y h h1 h2 => Hinge.position_frame hb h J h1 h2) (k (baum := Hinge.baum) fun P J X h => Hinge.position_ok J h X) S.hinges _ _ hS.hinges b1
  obtain ⟨d1, d2, d3⟩ := eachSlider_frame (b1 := Slider.b1) (b2 := Slider.b2) (baum := Slider.baum) (f := Slider.position cfg body) (f' := Slider.position cfg body') (t := t)
    (fun J X Y h h1 h2 => Slider.position_frame hb h J h1 h2) (k (baum := Slider.baum) fun P J X h => Slider.position_ok J h X) S.sliders _ _ hS.sliders c1
  unfold positionAll
  dsimp only
  exact ⟨d1, by rw [a2, b2, c2, d2], a3, b3, c3, d3⟩

/-- The position solver: positions larger by `t`, everything else the same. -/
theorem correct_frame : ∀ (n : Nat) (X Y : Nat → Pose K) (S : Pins K), InPins G S → Map G (shift t) X Y →
    Map G (shift t) (correct cfg body n (X, S)).1 (correct cfg body' n (Y, S)).1 ∧ (correct cfg body n (X, S)).2 = (correct cfg body' n (Y, S)).2
  | 0, _, _, _, _, ha => ⟨ha, rfl⟩
  | n + 1, X, Y, S, hS, ha => by
    obtain ⟨a, b, c⟩ := positionAll_frame (cfg := cfg) hb X Y S hS ha
    rw [correct, correct]
    have e : positionAll cfg body' Y S = ((positionAll cfg body' Y S).1, (positionAll cfg body X S).2) := Prod.ext rfl b.symm
    rw [e]
    exact correct_frame n _ _ _ c a

end poses

end Frame
end RP3D
