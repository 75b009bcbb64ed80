import Verif.Props.ContactEnergyStep
import Verif.Props.ContactExamples

/-! C133: bouncing, examples, and where contacts make energy. -/

set_option linter.unusedSectionVars false

namespace RP3D
namespace ContactEnergy
open Solver Joints SolverProps JointProps

section
variable {K : Type} [Field K] [LinearOrder K] [IsStrictOrderedRing K]
variable {body : Nat → JBody K} {mass : Nat → K} {L : Nat → M3 K} {S : Finset Nat} {V W : Nat → Vel K} {M : Man K} {p : CPoint K} {cfg : Cfg K}

theorem slippery_run (sqrt : K → K) (body : Nat → SBody K) (V : Nat → Vel K) {Xs : List (XMan K)} (hs : ∀ X ∈ Xs, Smooth X) (n : Nat) :
    ∀ M ∈ (runSolver cfg sqrt body V Xs (List.replicate n id)).2, Slippery M := by
  have h0 : ∀ M ∈ (warmStart V (Xs.map (initMan cfg sqrt body))).2, Slippery M := by
    refine warm_all (P := Slippery) (fun M V h => Smooth.warm V h) V _ fun M hM => ?_
    simp only [List.mem_map] at hM
    obtain ⟨X, hX, rfl⟩ := hM
    exact hs X hX
  have h1 : ∀ (n : Nat) (s : (Nat → Vel K) × List (Man K)), (∀ M ∈ s.2, Slippery M) → ∀ M ∈ (iterate cfg (List.replicate n id) s).2, Slippery M := by
    intro n
    induction n with
    | zero => intro s h; exact h
    | succ n ih =>
      intro s h
      rw [List.replicate_succ, iterate]
      exact ih _ (slippery_room (cfg := cfg) _ _ h).2
  exact h1 n _ h0

theorem MSame.trans {A B C : Man K} (h : MSame A B) (k : MSame B C) : MSame A C := by
  refine ⟨?_, ?_⟩
  · have e := k.eq
    rw [h.eq] at e
    exact e
  · have tr : ∀ {A B C : List (CPoint K)}, List.Forall₂ PSame A B → List.Forall₂ PSame B C → List.Forall₂ PSame A C := by
      intro A B C h
      induction h generalizing C with
      | nil => exact id
      | cons a _ ih =>
        intro k
        cases k with
        | cons c d =>
          refine .cons ?_ (ih d)
          unfold PSame at *
          rw [a] at c
          exact c
    exact tr h.pts k.pts

theorem run_forall (sqrt : K → K) (body : Nat → SBody K) (V : Nat → Vel K) (Xs : List (XMan K)) (n : Nat) :
    List.Forall₂ MSame (Xs.map (initMan cfg sqrt body)) (runSolver cfg sqrt body V Xs (List.replicate n id)).2 := by
  obtain ⟨h1, h2, _⟩ := warmStart_ok V (Xs.map (initMan cfg sqrt body)) (init_good cfg sqrt body Xs)
  have tr : ∀ {A B C : List (Man K)}, List.Forall₂ MSame A B → List.Forall₂ MSame B C → List.Forall₂ MSame A C := by
    intro A B C h
    induction h generalizing C with
    | nil => exact id
    | cons a _ ih =>
      intro k
      cases k with
      | cons c d => exact .cons (MSame.trans a c) (ih d)
  have h : ∀ (n : Nat) (s : (Nat → Vel K) × List (Man K)), (∀ M ∈ s.2, GoodM M) → ∀ {A}, List.Forall₂ MSame A s.2 →
      List.Forall₂ MSame A (iterate cfg (List.replicate n id) s).2 := by
    intro n
    induction n with
    | zero => intro s _ A h; exact h
    | succ n ih =>
      intro s hg A h
      obtain ⟨k1, k2, _⟩ := solve_ok cfg (id s.1) s.2 hg
      rw [List.replicate_succ, iterate]
      exact ih _ k2 (tr h k1)
  exact h n _ h2 h1

/-- **C133, partial (bounce).** Two bodies that meet at one new contact without friction do not gain kinetic energy if the restitution factor is at most 1. Missing: several contacts
(`bounce_gains`) and friction. -/
theorem bounce_loses_partial (sqrt : K → K) (hB : Bodies body mass L S V) (X : XMan K) (x : XPoint K) (n : Nat) (hp : JointProps.Pair S X.b1 X.b2)
    (hx : X.pts = [x]) (hnew : x.resting = false) (hmu : Smooth X) (hsp : cfg.split = true)
    (hV : ∀ b, (V b).v = (body b).v ∧ (V b).w = (body b).w) (hn : V3.dot x.normal x.normal = 1)
    (hl : ∀ b, (body b).ll = ⟨1, 1, 1⟩ ∧ (body b).la = ⟨1, 1, 1⟩) (h12 : 0 < (body X.b1).m + (body X.b2).m) (hth : 0 ≤ cfg.threshold)
    (hr : 0 ≤ X.restitution) (hr1 : X.restitution ≤ 1) (ha : normalSpeed (seen body) V X.b1 X.b2 x < -cfg.threshold) :
    energy2 S mass L (runSolver cfg sqrt (seen body) V [X] (List.replicate (n + 1) id)).1 ≤ energy2 S mass L V := by
  have hs1 := hB.solid _ hp.m1
  have hs2 := hB.solid _ hp.m2
  obtain ⟨hc, -⟩ := collision_partial cfg sqrt (seen body) V X x n hx hnew hmu.1 hsp hp.ne hV hn hs1.2.1 hs2.2.1 h12 hs1.2.2 hs2.2.2 hl hth hr ha
  set R := runSolver cfg sqrt (seen body) V [X] (List.replicate (n + 1) id) with hR
  set M := initMan cfg sqrt (seen body) X with hM
  set p := initPoint cfg (seen body X.b1) (seen body X.b2) X.restitution x with hpp
  have hpts : M.pts = [p] := by simp only [hM, initMan, hx, List.map_cons, List.map_nil, hpp]
  have hgood : GoodM M := initMan_good cfg sqrt (seen body) X
  have hg : Good M p := hgood p (by rw [hpts]; exact List.mem_cons_self)
  have hsits : Sits body S M := ⟨hp, initMan_fits cfg sqrt (seen body) X, hgood⟩
  have hsame := run_forall (cfg := cfg) sqrt (seen body) V [X] (n + 1)
  have hlist : ∃ N, R.2 = [N] ∧ MSame M N := by
    rw [← hR, List.map_cons, List.map_nil] at hsame
    generalize R.2 = l at hsame
    cases hsame with
    | cons a b => cases b with
      | nil => exact ⟨_, rfl, a⟩
  obtain ⟨N, eN, sN⟩ := hlist
  obtain ⟨-, z1, z2, z3⟩ := slippery_run (cfg := cfg) sqrt (seen body) V (Xs := [X]) (fun Y hY => by rw [List.mem_singleton.1 hY]; exact hmu) (n + 1) N
    (by rw [← hR, eN]; exact List.mem_cons_self)
  have hq : ∃ q, N.pts = [q] ∧ PSame p q := by
    have h := sN.pts
    rw [hpts] at h
    generalize N.pts = l at h
    cases h with
    | cons a b => cases b with
      | nil => exact ⟨_, rfl, a⟩
  obtain ⟨q, eq, sq⟩ := hq
  have q1 : q.normal = p.normal ∧ q.r1 = p.r1 ∧ q.r2 = p.r2 := by rw [sq]; exact ⟨rfl, rfl, rfl⟩
  have lN : ∀ b P, linOf N b P = linOf M b P := fun b P => by rw [sN.eq]; rfl
  have aN : ∀ b P Q, angOf N b P Q = angOf M b P Q := fun b P Q => by rw [sN.eq]; rfl
  have ev : ∀ b, (R.1 b).v = (V b).v + linOf M b (V3.smul q.imp p.normal) := by
    intro b
    have := linear_accounting cfg sqrt (seen body) V [X] (n + 1) b
    rw [← hR, eN] at this
    rw [this]
    simp only [linAll, linEff, impulse, eq, impSum, z1, z2, zero_smul', add_zero, lN, q1.1]
  have ew : ∀ b, (R.1 b).w = (V b).w + angOf M b (V3.smul q.imp (V3.cross p.r1 p.normal)) (V3.smul q.imp (V3.cross p.r2 p.normal)) := by
    intro b
    have := angular_accounting_partial cfg sqrt (seen body) V [X] (n + 1) b (fun Y hY => by rw [List.mem_singleton.1 hY]; exact hmu.2.2.2)
    rw [← hR, eN] at this
    rw [this]
    simp only [angAll, angEff, moment1, moment2, eq, momSum, z1, z2, z3, zero_smul', add_zero, aN, q1.1, q1.2.1, q1.2.2]
  have hsep : sep M p R.1 = sep M p V + kinv M p * q.imp := by
    rw [sep_congr (V := push M p q.imp V) fun b => ⟨by rw [ev, push_v], by rw [ew, push_w _ _ hg]⟩]
    exact push_sep ⟨(hl _).1, (hl _).1, (hl _).2, (hl _).2⟩ hp.ne hn q.imp V
  have hc' : sep M p R.1 = -(X.restitution * sep M p V) := hc
  have hneg : sep M p V < 0 := lt_of_lt_of_le ha (by linarith)
  have hk : kinv M p * q.imp = -((1 + X.restitution) * sep M p V) := by linarith
  have hq0 : 0 ≤ q.imp := by
    obtain ⟨a1, a2, a3, a4⟩ := psd_sum hB hsits (V3.cross p.r1 p.normal) (V3.cross p.r2 p.normal)
    have h0 : 0 ≤ kinv M p := by rw [kinv_eq hg hn, show V3.dot p.normal p.normal = 1 from hn]; linarith
    by_contra h
    have h1 : kinv M p * q.imp ≤ 0 := mul_nonpos_of_nonneg_of_nonpos h0 (le_of_not_ge h)
    have h2 : (1 + X.restitution) * sep M p V < 0 := mul_neg_of_pos_of_neg (by linarith) hneg
    linarith
  refine (line_loses hB hsits ev ew ?_).2
  rw [← kinv_eq hg hn, ← sep_eq]
  have e : V3.dot (rel (V M.b1) (V M.b2) p.r1 p.r2) p.normal = sep M p V := rfl
  rw [e]
  have : 2 * (q.imp * sep M p V) + q.imp * q.imp * kinv M p = q.imp * ((1 - X.restitution) * sep M p V) := by
    have : q.imp * q.imp * kinv M p = q.imp * (kinv M p * q.imp) := by ring
    rw [this, hk]; ring
  rw [this]
  exact mul_nonpos_of_nonneg_of_nonpos hq0 (mul_nonpos_of_nonneg_of_nonpos (by linarith) hneg.le)

end
end ContactEnergy
end RP3D
