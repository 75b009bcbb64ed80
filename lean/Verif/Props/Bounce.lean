import Verif.Props.ContactSolver

/-! C52, C86, C87: bodies that cannot move, the relative velocity at a solved contact, the friction directions, and what fails. -/

namespace RP3D
namespace SolverProps
open Solver
variable {K : Type} [Field K] [LinearOrder K] [IsStrictOrderedRing K]

/-! ### Components that cannot change -/

/-- No impulse changes component `i` of the linear velocity, or of the angular velocity. -/
def LinFixed (B : SBody K) (i : Fin 3) : Prop := B.m = 0 ∨ B.ll.get i = 0
def AngFixed (B : SBody K) (i : Fin 3) : Prop := B.I = M3.zero ∨ B.la.get i = 0

/-- What a step of the solver keeps of body `b`. -/
def Keep (body : Nat → SBody K) (b : Nat) (V W : Nat → Vel K) : Prop :=
  (∀ i, LinFixed (body b) i → (W b).v.get i = (V b).v.get i ∧ (W b).vs.get i = (V b).vs.get i) ∧
    ∀ i, AngFixed (body b) i → (W b).w.get i = (V b).w.get i ∧ (W b).ws.get i = (V b).ws.get i

theorem Keep.refl (body : Nat → SBody K) (b : Nat) (V : Nat → Vel K) : Keep body b V V := ⟨fun _ _ => ⟨rfl, rfl⟩, fun _ _ => ⟨rfl, rfl⟩⟩

theorem Keep.trans {body : Nat → SBody K} {b : Nat} {U V W : Nat → Vel K} (h : Keep body b U V) (k : Keep body b V W) : Keep body b U W :=
  ⟨fun i hi => ⟨(k.1 i hi).1.trans (h.1 i hi).1, (k.1 i hi).2.trans (h.1 i hi).2⟩,
   fun i hi => ⟨(k.2 i hi).1.trans (h.2 i hi).1, (k.2 i hi).2.trans (h.2 i hi).2⟩⟩

theorem get_add (a b : V3 K) (i : Fin 3) : (a + b).get i = a.get i + b.get i := by
  match i with
  | 0 => rfl
  | 1 => rfl
  | 2 => rfl

theorem get_sub (a b : V3 K) (i : Fin 3) : (a - b).get i = a.get i - b.get i := by
  match i with
  | 0 => rfl
  | 1 => rfl
  | 2 => rfl

theorem get_zero (i : Fin 3) : (0 : V3 K).get i = 0 := by
  match i with
  | 0 => rfl
  | 1 => rfl
  | 2 => rfl

theorem get_had (a b : V3 K) (i : Fin 3) : (V3.had a b).get i = a.get i * b.get i := by
  match i with
  | 0 => rfl
  | 1 => rfl
  | 2 => rfl

theorem get_smul (k : K) (a : V3 K) (i : Fin 3) : (V3.smul k a).get i = k * a.get i := by
  match i with
  | 0 => rfl
  | 1 => rfl
  | 2 => rfl

theorem zero_act (a : V3 K) : (M3.zero : M3 K).act a = 0 := by
  unfold M3.zero M3.of M3.act
  ext <;> simp

theorem linOf_fixed {body : Nat → SBody K} {M : Man K} (hm : Fits body M) {b : Nat} {i : Fin 3} (h : LinFixed (body b) i) (P : V3 K) :
    (linOf M b P).get i = 0 := by
  obtain ⟨e1, e2, _, _, e3, e4, _, _⟩ := hm
  have key : (V3.had (V3.smul (body b).m P) (body b).ll).get i = 0 := by
    rw [get_had, get_smul]
    rcases h with h | h <;> rw [h] <;> simp
  unfold linOf
  rw [get_sub]
  split_ifs with h2 h1 h1
  · rw [e2, e4, e1, e3, h2, h1, key, sub_zero]
  · rw [e2, e4, h2, key, get_zero, sub_zero]
  · rw [e1, e3, h1, key, get_zero, sub_zero]
  · rw [get_zero, sub_zero]

theorem angOf_fixed {body : Nat → SBody K} {M : Man K} (hm : Fits body M) {b : Nat} {i : Fin 3} (h : AngFixed (body b) i) (A B : V3 K) :
    (angOf M b A B).get i = 0 := by
  obtain ⟨_, _, e1, e2, _, _, e3, e4⟩ := hm
  have key : ∀ P, (V3.had (body b).la ((body b).I.act P)).get i = 0 := by
    intro P
    rw [get_had]
    rcases h with h | h
    · rw [h, zero_act, get_zero, mul_zero]
    · rw [h, zero_mul]
  unfold angOf
  rw [get_sub]
  split_ifs with h2 h1 h1
  · rw [e2, e4, e1, e3, h2, h1, key, key, sub_zero]
  · rw [e2, e4, h2, key, get_zero, sub_zero]
  · rw [e1, e3, h1, key, get_zero, sub_zero]
  · rw [get_zero, sub_zero]

theorem push_keep {body : Nat → SBody K} {M : Man K} (hm : Fits body M) {p : CPoint K} (hg : Good M p) (b : Nat) (d : K) (V : Nat → Vel K) :
    Keep body b V (push M p d V) := by
  refine ⟨fun i hi => ⟨?_, ?_⟩, fun i hi => ⟨?_, ?_⟩⟩
  · rw [push_v, get_add, linOf_fixed hm hi, add_zero]
  · rw [(push_split M p d V b).1]
  · rw [push_w M p hg, get_add, angOf_fixed hm hi, add_zero]
  · rw [(push_split M p d V b).2]

theorem pushSplit_keep {body : Nat → SBody K} {M : Man K} (hm : Fits body M) {p : CPoint K} (hg : Good M p) (b : Nat) (d : K) (V : Nat → Vel K) :
    Keep body b V (pushSplit M p d V) := by
  refine ⟨fun i hi => ⟨?_, ?_⟩, fun i hi => ⟨?_, ?_⟩⟩
  · rw [(pushSplit_same M p d V b).1]
  · rw [pushSplit_vs, get_add, linOf_fixed hm hi, add_zero]
  · rw [(pushSplit_same M p d V b).2]
  · rw [pushSplit_ws M p hg, get_add, angOf_fixed hm hi, add_zero]

theorem rub_keep {body : Nat → SBody K} {M : Man K} (hm : Fits body M) (b : Nat) (t c1 c2 : V3 K) (d : K) (V : Nat → Vel K) :
    Keep body b V (rub M t c1 c2 d V) := by
  refine ⟨fun i hi => ⟨?_, ?_⟩, fun i hi => ⟨?_, ?_⟩⟩
  · rw [rub_v, get_add, linOf_fixed hm hi, add_zero]
  · rw [(rub_split M t c1 c2 d V b).1]
  · rw [rub_w, get_add, angOf_fixed hm hi, add_zero]
  · rw [(rub_split M t c1 c2 d V b).2]

theorem twist_keep {body : Nat → SBody K} {M : Man K} (hm : Fits body M) (b : Nat) (d : K) (V : Nat → Vel K) : Keep body b V (twist M d V) := by
  refine ⟨fun i hi => ⟨?_, ?_⟩, fun i hi => ⟨?_, ?_⟩⟩
  · rw [(twist_same M d V b).1]
  · rw [(twist_same M d V b).2.1]
  · rw [twist_w, get_add, angOf_fixed hm hi, add_zero]
  · rw [(twist_same M d V b).2.2]

theorem solvePoint_keep (cfg : Cfg K) {body : Nat → SBody K} {M : Man K} (hm : Fits body M) (b : Nat) (V : Nat → Vel K) {p : CPoint K} (hg : Good M p) :
    Keep body b V (solvePoint cfg M V p).1 := by
  unfold solvePoint
  dsimp only
  by_cases hs : cfg.split = true
  · simp only [hs, if_true]
    exact (push_keep hm hg b _ V).trans (pushSplit_keep hm hg b _ _)
  · simp only [hs, if_false, Bool.false_eq_true]
    exact push_keep hm hg b _ V

theorem solvePoints_keep (cfg : Cfg K) {body : Nat → SBody K} {M : Man K} (hm : Fits body M) (b : Nat) : ∀ (V : Nat → Vel K) (ps : List (CPoint K)),
    (∀ p ∈ ps, Good M p) → Keep body b V (solvePoints cfg M V ps).1
  | V, [], _ => Keep.refl body b V
  | V, p :: ps, h => (solvePoint_keep cfg hm b V (h p List.mem_cons_self)).trans
      (solvePoints_keep cfg hm b _ ps fun q hq => h q (List.mem_cons_of_mem _ hq))

theorem solveMan_keep (cfg : Cfg K) {body : Nat → SBody K} {M : Man K} (hm : Fits body M) (hg : GoodM M) (b : Nat) (V : Nat → Vel K) :
    Keep body b V (solveMan cfg V M).1 :=
  (((solvePoints_keep cfg hm b V M.pts hg).trans (rub_keep hm b _ _ _ _ _)).trans (rub_keep hm b _ _ _ _ _)).trans (twist_keep hm b _ _)

theorem solve_keep (cfg : Cfg K) {body : Nat → SBody K} (b : Nat) : ∀ (V : Nat → Vel K) (Ms : List (Man K)), (∀ M ∈ Ms, Fits body M) →
    (∀ M ∈ Ms, GoodM M) → Keep body b V (solve cfg V Ms).1
  | V, [], _, _ => Keep.refl body b V
  | V, M :: Ms, h, hg => (solveMan_keep cfg (h M List.mem_cons_self) (hg M List.mem_cons_self) b V).trans
      (solve_keep cfg b _ Ms (fun q hq => h q (List.mem_cons_of_mem _ hq)) fun q hq => hg q (List.mem_cons_of_mem _ hq))

theorem warmPoints_keep {body : Nat → SBody K} {M : Man K} (hm : Fits body M) (b : Nat) : ∀ (V : Nat → Vel K) (ps : List (CPoint K)),
    (∀ p ∈ ps, Good M p) → Keep body b V (warmPoints M V ps).1
  | V, [], _ => Keep.refl body b V
  | V, p :: ps, h => by
    refine Keep.trans (V := (warmPoint M V p).1) ?_ (warmPoints_keep hm b _ ps fun q hq => h q (List.mem_cons_of_mem _ hq))
    unfold warmPoint
    split_ifs
    · exact push_keep hm (h p List.mem_cons_self) b _ V
    · exact Keep.refl body b V

theorem warmMan_keep {body : Nat → SBody K} {M : Man K} (hm : Fits body M) (hg : GoodM M) (b : Nat) (V : Nat → Vel K) :
    Keep body b V (warmMan V M).1 := by
  have h := warmPoints_keep hm b V M.pts hg
  unfold warmMan
  split_ifs
  · dsimp only
    rw [twistWarm_eq]
    exact (((h.trans (rub_keep hm b _ _ _ _ _)).trans (rub_keep hm b _ _ _ _ _)).trans (twist_keep hm b _ _)).trans (twist_keep hm b _ _)
  · exact h

theorem warmStart_keep {body : Nat → SBody K} (b : Nat) : ∀ (V : Nat → Vel K) (Ms : List (Man K)), (∀ M ∈ Ms, Fits body M) →
    (∀ M ∈ Ms, GoodM M) → Keep body b V (warmStart V Ms).1
  | V, [], _, _ => Keep.refl body b V
  | V, M :: Ms, h, hg => (warmMan_keep (h M List.mem_cons_self) (hg M List.mem_cons_self) b V).trans
      (warmStart_keep b _ Ms (fun q hq => h q (List.mem_cons_of_mem _ hq)) fun q hq => hg q (List.mem_cons_of_mem _ hq))

theorem iterate_keep (cfg : Cfg K) {body : Nat → SBody K} (b : Nat) : ∀ (Js : List ((Nat → Vel K) → Nat → Vel K)) (s : (Nat → Vel K) × List (Man K)),
    (∀ J ∈ Js, ∀ V, Keep body b V (J V)) → (∀ M ∈ s.2, Fits body M) → (∀ M ∈ s.2, GoodM M) → Keep body b s.1 (iterate cfg Js s).1
  | [], s, _, _, _ => Keep.refl body b s.1
  | J :: Js, s, hj, h, hg => by
    obtain ⟨h1, h2, _⟩ := solve_ok cfg (J s.1) s.2 hg
    have hfit' := forall_same (P := Fits body) (fun M N h hs => h.of_same hs) h1 h
    exact ((hj J List.mem_cons_self s.1).trans (solve_keep cfg b _ s.2 h hg)).trans
      (iterate_keep cfg b Js _ (fun J hJ => hj J (List.mem_cons_of_mem _ hJ)) hfit' h2)

/-- **C52 (locked axes).** A component of a velocity that is locked, or a velocity of a body with zero inverse mass or inertia, is never changed by
the contacts. -/
theorem locked_components_kept (cfg : Cfg K) (sqrt : K → K) (body : Nat → SBody K) (V : Nat → Vel K) (Xs : List (XMan K))
    (Js : List ((Nat → Vel K) → Nat → Vel K)) (b : Nat) (hj : ∀ J ∈ Js, ∀ V, Keep body b V (J V)) :
    Keep body b V (runSolver cfg sqrt body V Xs Js).1 := by
  have hg := init_good cfg sqrt body Xs
  obtain ⟨h1, h2, _⟩ := warmStart_ok V (Xs.map (initMan cfg sqrt body)) hg
  have hi : ∀ M ∈ Xs.map (initMan cfg sqrt body), Fits body M := by
    intro M hM
    simp only [List.mem_map] at hM
    obtain ⟨X, _, rfl⟩ := hM
    exact initMan_fits cfg sqrt body X
  have hfit := forall_same (P := Fits body) (fun M N h hs => h.of_same hs) h1 hi
  exact (warmStart_keep b V _ hi hg).trans (iterate_keep cfg b Js _ hj hfit h2)

theorem get_ext {a b : V3 K} (h : ∀ i, a.get i = b.get i) : a = b := V3.ext (h 0) (h 1) (h 2)

/-- **C52 (static bodies).** A body with zero inverse mass and inertia keeps all its velocities. -/
theorem static_kept (cfg : Cfg K) (sqrt : K → K) (body : Nat → SBody K) (V : Nat → Vel K) (Xs : List (XMan K))
    (Js : List ((Nat → Vel K) → Nat → Vel K)) (b : Nat) (hm : (body b).m = 0) (hI : (body b).I = M3.zero) (hj : ∀ J ∈ Js, ∀ V, J V b = V b) :
    (runSolver cfg sqrt body V Xs Js).1 b = V b := by
  have h := locked_components_kept cfg sqrt body V Xs Js b fun J hJ V => by
    unfold Keep
    rw [hj J hJ V]
    exact ⟨fun _ _ => ⟨rfl, rfl⟩, fun _ _ => ⟨rfl, rfl⟩⟩
  refine Vel.ext (get_ext fun i => ?_) (get_ext fun i => ?_) (get_ext fun i => ?_) (get_ext fun i => ?_)
  · exact (h.1 i (Or.inl hm)).1
  · exact (h.2 i (Or.inl hI)).1
  · exact (h.1 i (Or.inl hm)).2
  · exact (h.2 i (Or.inl hI)).2

/-! ### The relative velocity at a contact -/

/-- The speed with which the bodies separate at a contact. -/
def sep (M : Man K) (p : CPoint K) (V : Nat → Vel K) : K := V3.dot (rel (V M.b1) (V M.b2) p.r1 p.r2) p.normal
def sepSplit (M : Man K) (p : CPoint K) (V : Nat → Vel K) : K := V3.dot (relSplit (V M.b1) (V M.b2) p.r1 p.r2) p.normal

/-- The mass of a contact. -/
def kinv (M : Man K) (p : CPoint K) : K :=
  M.m1 + M.m2 + V3.dot (V3.cross p.i1 p.r1) p.normal + V3.dot (V3.cross p.i2 p.r2) p.normal

/-- Nothing of the two bodies is locked. -/
def Unlocked (M : Man K) : Prop := M.ll1 = ⟨1, 1, 1⟩ ∧ M.ll2 = ⟨1, 1, 1⟩ ∧ M.la1 = ⟨1, 1, 1⟩ ∧ M.la2 = ⟨1, 1, 1⟩

theorem had_ones (a : V3 K) : V3.had a ⟨1, 1, 1⟩ = a := by ext <;> simp [V3.had]
theorem ones_had (a : V3 K) : V3.had ⟨1, 1, 1⟩ a = a := by ext <;> simp [V3.had]

theorem push_sep {M : Man K} {p : CPoint K} (hu : Unlocked M) (hb : M.b1 ≠ M.b2) (hn : V3.dot p.normal p.normal = 1) (d : K) (V : Nat → Vel K) :
    sep M p (push M p d V) = sep M p V + kinv M p * d := by
  obtain ⟨u1, u2, u3, u4⟩ := hu
  unfold sep rel push kinv
  dsimp only
  rw [upd_same, upd_ne _ _ hb, upd_same, upd_ne _ _ hb.symm, u1, u2, u3, u4]
  simp only [had_ones]
  have e : p.normal.x * p.normal.x + p.normal.y * p.normal.y + p.normal.z * p.normal.z = 1 := hn
  simp only [V3.dot, V3.cross, V3.add_x, V3.add_y, V3.add_z, V3.sub_x, V3.sub_y, V3.sub_z, V3.smul_x, V3.smul_y, V3.smul_z]
  linear_combination (M.m1 + M.m2) * d * e

theorem pushSplit_sep {M : Man K} {p : CPoint K} (hu : Unlocked M) (hb : M.b1 ≠ M.b2) (hn : V3.dot p.normal p.normal = 1) (d : K) (V : Nat → Vel K) :
    sepSplit M p (pushSplit M p d V) = sepSplit M p V + kinv M p * d := by
  obtain ⟨u1, u2, u3, u4⟩ := hu
  unfold sepSplit relSplit pushSplit kinv
  dsimp only
  rw [upd_same, upd_ne _ _ hb, upd_same, upd_ne _ _ hb.symm, u1, u2, u3, u4]
  simp only [had_ones]
  have e : p.normal.x * p.normal.x + p.normal.y * p.normal.y + p.normal.z * p.normal.z = 1 := hn
  simp only [V3.dot, V3.cross, V3.add_x, V3.add_y, V3.add_z, V3.sub_x, V3.sub_y, V3.sub_z, V3.smul_x, V3.smul_y, V3.smul_z]
  linear_combination (M.m1 + M.m2) * d * e

theorem sep_congr {M : Man K} {p : CPoint K} {V W : Nat → Vel K} (h : ∀ b, (W b).v = (V b).v ∧ (W b).w = (V b).w) : sep M p W = sep M p V := by
  unfold sep rel
  rw [(h _).1, (h _).1, (h _).2, (h _).2]

theorem sepSplit_congr {M : Man K} {p : CPoint K} {V W : Nat → Vel K} (h : ∀ b, (W b).vs = (V b).vs ∧ (W b).ws = (V b).ws) :
    sepSplit M p W = sepSplit M p V := by
  unfold sepSplit relSplit
  rw [(h _).1, (h _).1, (h _).2, (h _).2]

/-- One clamped correction: what it leaves is not negative, and zero where the impulse pushes. -/
theorem clamped {k imp s : K} (hk : 0 < k) (hi : 0 ≤ imp) :
    0 ≤ s + k * (max (imp + -s * (1 / k)) 0 - imp) ∧ (0 < max (imp + -s * (1 / k)) 0 → s + k * (max (imp + -s * (1 / k)) 0 - imp) = 0) := by
  have e : k * (1 / k) = 1 := mul_one_div_cancel (ne_of_gt hk)
  rcases le_total (imp + -s * (1 / k)) 0 with h | h
  · rw [max_eq_right h]
    refine ⟨?_, fun h0 => absurd h0 (lt_irrefl _)⟩
    have h2 : k * (imp + -s * (1 / k)) ≤ 0 := mul_nonpos_of_nonneg_of_nonpos hk.le h
    have h3 : k * (imp + -s * (1 / k)) = k * imp - s * (k * (1 / k)) := by ring
    rw [h3, e] at h2
    linarith
  · rw [max_eq_left h]
    have h3 : s + k * (imp + -s * (1 / k) - imp) = s - s * (k * (1 / k)) := by ring
    rw [h3, e]
    simp

/-- The bias of the velocity constraint (ContactSolverSystem.cpp:524-533). -/
def biasOf (cfg : Cfg K) (p : CPoint K) : K := if cfg.split then p.bias else depthBias cfg p + p.bias

/-- **C86 (one contact).** After a contact between two bodies without locked axes has been solved, the bodies do not approach each other there faster
than the bias allows, and they have exactly the wanted speed if the contact pushes. The same holds for the velocities of the position correction. -/
theorem contact_solved (cfg : Cfg K) {M : Man K} {p : CPoint K} (V : Nat → Vel K) (hu : Unlocked M) (hb : M.b1 ≠ M.b2)
    (hn : V3.dot p.normal p.normal = 1) (hk : 0 < kinv M p) (hp : p.invMass = 1 / kinv M p) (hi : 0 ≤ p.imp) (hs : 0 ≤ p.split) :
    0 ≤ sep M p (solvePoint cfg M V p).1 + biasOf cfg p ∧
    (0 < (solvePoint cfg M V p).2.imp → sep M p (solvePoint cfg M V p).1 + biasOf cfg p = 0) ∧
    sep M p (solvePoint cfg M V p).1 = sep M p V + kinv M p * ((solvePoint cfg M V p).2.imp - p.imp) ∧
    (cfg.split = true → 0 ≤ sepSplit M p (solvePoint cfg M V p).1 + depthBias cfg p ∧
      (0 < (solvePoint cfg M V p).2.split → sepSplit M p (solvePoint cfg M V p).1 + depthBias cfg p = 0)) := by
  by_cases hsp : cfg.split = true
  · have e1 : (solvePoint cfg M V p).2.imp = max (p.imp + -(sep M p V + p.bias) * (1 / kinv M p)) 0 := by
      unfold solvePoint sep; dsimp only; simp only [hsp, if_true, hp]
    have e2 : ∀ b, ((solvePoint cfg M V p).1 b).v = (push M p ((solvePoint cfg M V p).2.imp - p.imp) V b).v ∧
        ((solvePoint cfg M V p).1 b).w = (push M p ((solvePoint cfg M V p).2.imp - p.imp) V b).w := by
      intro b
      unfold solvePoint; dsimp only; simp only [hsp, if_true]
      exact pushSplit_same _ _ _ _ b
    have e3 : sep M p (solvePoint cfg M V p).1 = sep M p V + kinv M p * ((solvePoint cfg M V p).2.imp - p.imp) := by
      rw [sep_congr e2, push_sep hu hb hn]
    have e4 : (solvePoint cfg M V p).2.split = max (p.split + -(sepSplit M p V + depthBias cfg p) * (1 / kinv M p)) 0 := by
      have : ∀ d, V3.dot (relSplit (push M p d V M.b1) (push M p d V M.b2) p.r1 p.r2) p.normal = sepSplit M p V := fun d =>
        sepSplit_congr (M := M) (p := p) fun b => push_split M p d V b
      unfold solvePoint; dsimp only; simp only [hsp, if_true, hp, this]
    have e5 : sepSplit M p (solvePoint cfg M V p).1 = sepSplit M p V + kinv M p * ((solvePoint cfg M V p).2.split - p.split) := by
      have : (solvePoint cfg M V p).1 = pushSplit M p ((solvePoint cfg M V p).2.split - p.split) (push M p ((solvePoint cfg M V p).2.imp - p.imp) V) := by
        unfold solvePoint; dsimp only; simp only [hsp, if_true]
      rw [this, pushSplit_sep hu hb hn]
      rw [sepSplit_congr fun b => push_split M p _ V b]
    have c1 := clamped (s := sep M p V + p.bias) hk hi
    have c2 := clamped (s := sepSplit M p V + depthBias cfg p) hk hs
    rw [← e1] at c1
    rw [← e4] at c2
    have b1 : biasOf cfg p = p.bias := by rw [biasOf, if_pos hsp]
    rw [b1]
    refine ⟨?_, ?_, e3, fun _ => ⟨?_, ?_⟩⟩
    · rw [e3]; linarith [c1.1]
    · intro h; rw [e3]; linarith [c1.2 h]
    · rw [e5]; linarith [c2.1]
    · intro h; rw [e5]; linarith [c2.2 h]
  · have e1 : (solvePoint cfg M V p).2.imp = max (p.imp + -(sep M p V + (depthBias cfg p + p.bias)) * (1 / kinv M p)) 0 := by
      unfold solvePoint sep; dsimp only; simp only [hsp, if_false, hp, Bool.false_eq_true]
    have e2 : (solvePoint cfg M V p).1 = push M p ((solvePoint cfg M V p).2.imp - p.imp) V := by
      unfold solvePoint; dsimp only; simp only [hsp, if_false, Bool.false_eq_true]
    have e3 : sep M p (solvePoint cfg M V p).1 = sep M p V + kinv M p * ((solvePoint cfg M V p).2.imp - p.imp) := by
      rw [e2, push_sep hu hb hn]
    have c1 := clamped (s := sep M p V + (depthBias cfg p + p.bias)) hk hi
    rw [← e1] at c1
    have b1 : biasOf cfg p = depthBias cfg p + p.bias := by rw [biasOf, if_neg hsp]
    rw [b1]
    refine ⟨?_, ?_, e3, fun h => absurd h hsp⟩
    · rw [e3]; linarith [c1.1]
    · intro h; rw [e3]; linarith [c1.2 h]

/-- The position correction asks for the fraction `beta` of the overlap beyond the slop per step. -/
theorem depthBias_eq (cfg : Cfg K) (hd : 0 < cfg.dt) (p : CPoint K) : cfg.dt * depthBias cfg p = -(cfg.beta * max 0 (p.depth - cfg.slop)) := by
  unfold depthBias
  split
  · field_simp
  · rename_i h
    rw [max_eq_left (by linarith)]
    simp

/-- **C86 (position).** After a contact has been solved, moving for a step with the velocities of the position correction (or with the velocities
themselves without split impulses) separates the contact points by the fraction `beta` of the overlap beyond the slop. -/
theorem overlap_corrected (cfg : Cfg K) {M : Man K} {p : CPoint K} (V : Nat → Vel K) (hu : Unlocked M) (hb : M.b1 ≠ M.b2)
    (hn : V3.dot p.normal p.normal = 1) (hk : 0 < kinv M p) (hp : p.invMass = 1 / kinv M p) (hi : 0 ≤ p.imp) (hs : 0 ≤ p.split) (hd : 0 < cfg.dt)
    (hr : p.bias ≤ 0) :
    (cfg.split = true → cfg.beta * max 0 (p.depth - cfg.slop) ≤ cfg.dt * sepSplit M p (solvePoint cfg M V p).1 ∧
      (0 < (solvePoint cfg M V p).2.split → cfg.dt * sepSplit M p (solvePoint cfg M V p).1 = cfg.beta * max 0 (p.depth - cfg.slop))) ∧
    (cfg.split = false → cfg.beta * max 0 (p.depth - cfg.slop) ≤ cfg.dt * sep M p (solvePoint cfg M V p).1) := by
  obtain ⟨c1, -, -, c4⟩ := contact_solved cfg V hu hb hn hk hp hi hs
  have e := depthBias_eq cfg hd p
  refine ⟨fun h => ⟨?_, fun h0 => ?_⟩, fun h => ?_⟩
  · have := mul_nonneg hd.le (c4 h).1
    rw [mul_add] at this
    linarith
  · have := congrArg (cfg.dt * ·) ((c4 h).2 h0)
    simp only [mul_add, mul_zero] at this
    linarith
  · have h1 := mul_nonneg hd.le c1
    have h2 := mul_nonpos_of_nonneg_of_nonpos hd.le hr
    rw [biasOf, if_neg (by rw [h]; simp), mul_add, mul_add] at h1
    linarith

/-! ### A collision without friction -/

theorem clamp_zero (x : K) : clamp 0 x = 0 := by
  unfold clamp
  rw [neg_zero]
  exact max_eq_left (min_le_right _ _)

theorem frictionless (cfg : Cfg K) (V : Nat → Vel K) {M : Man K} {p : CPoint K} (hp : M.pts = [p]) (hmu : M.mu = 0) (h1 : M.f1 = 0) (h2 : M.f2 = 0)
    (h3 : M.tw = 0) : (solveMan cfg V M).2 = { M with pts := [(solvePoint cfg M V p).2] } ∧
      ∀ b, ((solveMan cfg V M).1 b).v = ((solvePoint cfg M V p).1 b).v ∧ ((solveMan cfg V M).1 b).w = ((solvePoint cfg M V p).1 b).w := by
  have e : solvePoints cfg M V M.pts = ((solvePoint cfg M V p).1, [(solvePoint cfg M V p).2]) := by rw [hp]; rfl
  refine ⟨?_, fun b => ?_⟩
  · unfold solveMan
    dsimp only
    rw [e, hmu]
    simp only [zero_mul, clamp_zero]
    rw [← h1]
    congr 1
    · rw [h1, h2]
    · rw [h1, h3]
  · unfold solveMan
    dsimp only
    rw [e, hmu, h1, h2, h3]
    simp only [zero_mul, clamp_zero, sub_self]
    rw [(twist_same _ _ _ b).1, rub_v, rub_v, twist_w, rub_w, rub_w]
    simp only [zero_smul', linOf_zero, angOf_zero, add_zero, and_self]

theorem iterate_single (cfg : Cfg K) : ∀ (n : Nat) (V : Nat → Vel K) (M : Man K) (p : CPoint K), M.pts = [p] → M.mu = 0 → M.f1 = 0 → M.f2 = 0 →
    M.tw = 0 → Unlocked M → M.b1 ≠ M.b2 → V3.dot p.normal p.normal = 1 → 0 < kinv M p → p.invMass = 1 / kinv M p → 0 ≤ p.imp → 0 ≤ p.split →
    ∃ q, (iterate cfg (List.replicate (n + 1) id) (V, [M])).2 = [{ M with pts := [q] }] ∧ 0 ≤ q.imp ∧
      sep M p (iterate cfg (List.replicate (n + 1) id) (V, [M])).1 = sep M p V + kinv M p * (q.imp - p.imp) ∧
      0 ≤ sep M p (iterate cfg (List.replicate (n + 1) id) (V, [M])).1 + biasOf cfg p ∧
      (0 < q.imp → sep M p (iterate cfg (List.replicate (n + 1) id) (V, [M])).1 + biasOf cfg p = 0) := by
  intro n
  induction n with
  | zero =>
    intro V M p hp hmu h1 h2 h3 hu hb hn hk hm hi hs
    obtain ⟨e1, e2⟩ := frictionless cfg V hp hmu h1 h2 h3
    obtain ⟨c1, c2, c3, _⟩ := contact_solved cfg V hu hb hn hk hm hi hs
    refine ⟨(solvePoint cfg M V p).2, ?_, (solvePoint_nonneg cfg M V p hs).1, ?_, ?_, ?_⟩
    · simp only [List.replicate, iterate, id, solve, e1]
    · simp only [List.replicate, iterate, id, solve]
      rw [sep_congr e2, c3]
    · simp only [List.replicate, iterate, id, solve]
      rw [sep_congr e2]; exact c1
    · simp only [List.replicate, iterate, id, solve]
      rw [sep_congr e2]; exact c2
  | succ n ih =>
    intro V M p hp hmu h1 h2 h3 hu hb hn hk hm hi hs
    obtain ⟨e1, e2⟩ := frictionless cfg V hp hmu h1 h2 h3
    obtain ⟨c1, c2, c3, _⟩ := contact_solved cfg V hu hb hn hk hm hi hs
    have hq : PSame p (solvePoint cfg M V p).2 := by
      unfold solvePoint PSame
      dsimp only
      split_ifs <;> rfl
    have hsep : ∀ W, sep { M with pts := [(solvePoint cfg M V p).2] } (solvePoint cfg M V p).2 W = sep M p W := fun W => by
      rw [hq]; rfl
    have hkin : kinv { M with pts := [(solvePoint cfg M V p).2] } (solvePoint cfg M V p).2 = kinv M p := by rw [hq]; rfl
    have hbias : biasOf cfg (solvePoint cfg M V p).2 = biasOf cfg p := by rw [hq]; rfl
    obtain ⟨q, k1, k2, k3, k4, k5⟩ := ih (solveMan cfg V M).1 { M with pts := [(solvePoint cfg M V p).2] } (solvePoint cfg M V p).2 rfl hmu h1 h2 h3 hu hb
      (by rw [hq]; exact hn) (by rw [hkin]; exact hk) (by rw [hkin, hq]; exact hm) (solvePoint_nonneg cfg M V p hs).1 (solvePoint_nonneg cfg M V p hs).2
    rw [hsep] at k3 k4 k5
    rw [hbias] at k4 k5
    rw [hsep, hkin, sep_congr e2, c3] at k3
    have hstep : iterate cfg (List.replicate (n + 1 + 1) id) (V, [M]) =
        iterate cfg (List.replicate (n + 1) id) ((solveMan cfg V M).1, [{ M with pts := [(solvePoint cfg M V p).2] }]) := by
      rw [List.replicate_succ, iterate]
      simp only [id, solve, e1]
    rw [hstep]
    refine ⟨q, k1, k2, ?_, k4, k5⟩
    rw [k3]; ring

/-- A positive semidefinite matrix, as inverse inertia tensors are. -/
def Psd (I : M3 K) : Prop := ∀ a, 0 ≤ V3.dot a (I.act a)

theorem triple (I : M3 K) (r n : V3 K) : V3.dot (V3.cross (I.act (V3.cross r n)) r) n = V3.dot (V3.cross r n) (I.act (V3.cross r n)) := by
  simp only [V3.dot, V3.cross]
  ring

/-- Relative velocity of the contact points of two bodies along the normal. -/
def normalSpeed (body : Nat → SBody K) (V : Nat → Vel K) (b1 b2 : Nat) (x : XPoint K) : K :=
  V3.dot ((V b2).v + V3.cross (V b2).w (x.p2 - (body b2).x) - (V b1).v - V3.cross (V b1).w (x.p1 - (body b1).x)) x.normal

/-- **C86 (collision), partial.** Two bodies without locked axes and without other contacts, without friction, meet with more than the threshold speed
at a new contact: after any positive number of iterations they part with exactly the restitution factor times the speed of their approach, and the
contact has pushed. Missing: locked axes (`locked_wrong`), friction, several contacts. -/
theorem collision_partial (cfg : Cfg K) (sqrt : K → K) (body : Nat → SBody K) (V : Nat → Vel K) (X : XMan K) (x : XPoint K) (n : Nat)
    (hx : X.pts = [x]) (hnew : x.resting = false) (hmu : X.mu = 0) (hsp : cfg.split = true) (hb : X.b1 ≠ X.b2)
    (hV : ∀ b, (V b).v = (body b).v ∧ (V b).w = (body b).w) (hn : V3.dot x.normal x.normal = 1)
    (h1 : 0 ≤ (body X.b1).m) (h2 : 0 ≤ (body X.b2).m) (h12 : 0 < (body X.b1).m + (body X.b2).m)
    (hI1 : Psd (body X.b1).I) (hI2 : Psd (body X.b2).I)
    (hl : ∀ b, (body b).ll = ⟨1, 1, 1⟩ ∧ (body b).la = ⟨1, 1, 1⟩) (hth : 0 ≤ cfg.threshold) (hr : 0 ≤ X.restitution)
    (ha : normalSpeed body V X.b1 X.b2 x < -cfg.threshold) :
    normalSpeed body (runSolver cfg sqrt body V [X] (List.replicate (n + 1) id)).1 X.b1 X.b2 x = -(X.restitution * normalSpeed body V X.b1 X.b2 x) ∧
      ∀ M ∈ (runSolver cfg sqrt body V [X] (List.replicate (n + 1) id)).2, ∀ p ∈ M.pts, 0 < p.imp := by
  set p : CPoint K := { initPoint cfg (body X.b1) (body X.b2) X.restitution x with imp := 0 } with hp
  set M : Man K := { initMan cfg sqrt body X with f1 := 0, f2 := 0, tw := 0, pts := [p] } with hM
  have hw : warmStart V [initMan cfg sqrt body X] = (V, [M]) := by
    have e : (initMan cfg sqrt body X).pts = [initPoint cfg (body X.b1) (body X.b2) X.restitution x] := by
      simp only [initMan, hx, List.map_cons, List.map_nil]
    have er : (initPoint cfg (body X.b1) (body X.b2) X.restitution x).resting = false := hnew
    have e2 : warmMan V (initMan cfg sqrt body X) = (V, M) := by
      unfold warmMan
      simp only [e, warmPoints, warmPoint, er, List.any_cons, List.any_nil, Bool.or_false, Bool.false_eq_true, if_false]
      simp only [hM, hp, er]
    simp only [warmStart, e2]
  have hsepV : ∀ W, sep M p W = normalSpeed body W X.b1 X.b2 x := fun W => rfl
  have hkin : kinv M p = (body X.b1).m + (body X.b2).m + V3.dot (V3.cross ((body X.b1).I.act (V3.cross (x.p1 - (body X.b1).x) x.normal)) (x.p1 - (body X.b1).x)) x.normal +
      V3.dot (V3.cross ((body X.b2).I.act (V3.cross (x.p2 - (body X.b2).x) x.normal)) (x.p2 - (body X.b2).x)) x.normal := rfl
  have hk : 0 < kinv M p := by
    rw [hkin, triple, triple]
    have := hI1 (V3.cross (x.p1 - (body X.b1).x) x.normal)
    have := hI2 (V3.cross (x.p2 - (body X.b2).x) x.normal)
    linarith
  have hinv : p.invMass = 1 / kinv M p := by
    have : p.invMass = invOf (kinv M p) := rfl
    rw [this, invOf, if_pos hk]
  obtain ⟨q, k1, k2, k3, k4, k5⟩ := iterate_single cfg n V M p rfl hmu rfl rfl rfl ⟨(hl _).1, (hl _).1, (hl _).2, (hl _).2⟩ hb hn hk hinv (le_refl _) (le_refl _)
  have hb1 : biasOf cfg p = X.restitution * normalSpeed body V X.b1 X.b2 x := by
    have e : V3.dot (rel ⟨(body X.b1).v, (body X.b1).w, 0, 0⟩ ⟨(body X.b2).v, (body X.b2).w, 0, 0⟩ (x.p1 - (body X.b1).x) (x.p2 - (body X.b2).x)) x.normal =
        normalSpeed body V X.b1 X.b2 x := by
      unfold rel normalSpeed
      rw [(hV _).1, (hV _).1, (hV _).2, (hV _).2]
    rw [biasOf, if_pos hsp]
    have : p.bias = if normalSpeed body V X.b1 X.b2 x < -cfg.threshold then X.restitution * normalSpeed body V X.b1 X.b2 x else 0 := by
      rw [← e]; rfl
    rw [this, if_pos ha]
  have hrun : runSolver cfg sqrt body V [X] (List.replicate (n + 1) id) = iterate cfg (List.replicate (n + 1) id) (V, [M]) := by
    unfold runSolver
    rw [List.map_cons, List.map_nil, hw]
  rw [hrun]
  have hpos : 0 < q.imp := by
    rcases lt_or_eq_of_le k2 with h | h
    · exact h
    · exfalso
      have hp0 : p.imp = 0 := rfl
      rw [k3, ← h, hp0, hsepV, hb1] at k4
      have : X.restitution * normalSpeed body V X.b1 X.b2 x ≤ 0 := mul_nonpos_of_nonneg_of_nonpos hr (by linarith)
      simp only [sub_self, mul_zero, add_zero] at k4
      linarith
  refine ⟨?_, ?_⟩
  · have := k5 hpos
    rw [hsepV, hb1] at this
    linarith
  · intro N hN r hr
    rw [k1] at hN
    simp only [List.mem_cons, List.not_mem_nil, or_false] at hN
    subst hN
    simp only [List.mem_cons, List.not_mem_nil, or_false] at hr
    subst hr
    exact hpos

/-! ### Friction directions -/

theorem unit_of {sqrt : K → K} (hs : IsSqrt sqrt) {a : V3 K} (h : 0 < a.lengthSq) : V3.dot (V3.smul (1 / sqrt a.lengthSq) a) (V3.smul (1 / sqrt a.lengthSq) a) = 1 := by
  obtain ⟨h0, h1⟩ := sqrt_pos hs h
  have e : 1 / sqrt a.lengthSq * (1 / sqrt a.lengthSq) * a.lengthSq = 1 := by
    rw [div_mul_div_comm, one_mul, h1, one_div_mul_cancel (ne_of_gt h)]
  have : V3.dot (V3.smul (1 / sqrt a.lengthSq) a) (V3.smul (1 / sqrt a.lengthSq) a) = 1 / sqrt a.lengthSq * (1 / sqrt a.lengthSq) * a.lengthSq := by
    simp only [V3.dot, V3.lengthSq, V3.smul_x, V3.smul_y, V3.smul_z]; ring
  rw [this, e]

theorem sq_pos_of_lt {a b : K} (h : |a| < |b|) : 0 < b * b := by
  rw [← abs_mul_abs_self b]
  have : 0 < |b| := lt_of_le_of_lt (abs_nonneg a) h
  exact mul_pos this this

theorem orthogonal_ok {sqrt : K → K} (hs : IsSqrt sqrt) {n : V3 K} (hn : V3.dot n n = 1) :
    V3.dot (orthogonal sqrt n) (orthogonal sqrt n) = 1 ∧ V3.dot (orthogonal sqrt n) n = 0 := by
  have key : ∀ a : V3 K, 0 < a.lengthSq → V3.dot a n = 0 → V3.dot (V3.smul (1 / sqrt a.lengthSq) a) (V3.smul (1 / sqrt a.lengthSq) a) = 1 ∧
      V3.dot (V3.smul (1 / sqrt a.lengthSq) a) n = 0 := by
    intro a ha h
    refine ⟨unit_of hs ha, ?_⟩
    have : V3.dot (V3.smul (1 / sqrt a.lengthSq) a) n = 1 / sqrt a.lengthSq * V3.dot a n := by
      simp only [V3.dot, V3.smul_x, V3.smul_y, V3.smul_z]; ring
    rw [this, h, mul_zero]
  have hn' : n.x * n.x + n.y * n.y + n.z * n.z = 1 := hn
  have k0 := key ⟨0, -n.z, n.y⟩
  have k1 := key ⟨-n.z, 0, n.x⟩
  have k2 := key ⟨-n.y, n.x, 0⟩
  have l0 : (⟨0, -n.z, n.y⟩ : V3 K).lengthSq = n.y * n.y + n.z * n.z := by simp only [V3.lengthSq]; ring
  have l1 : (⟨-n.z, 0, n.x⟩ : V3 K).lengthSq = n.x * n.x + n.z * n.z := by simp only [V3.lengthSq]; ring
  have l2 : (⟨-n.y, n.x, 0⟩ : V3 K).lengthSq = n.x * n.x + n.y * n.y := by simp only [V3.lengthSq]; ring
  rw [l0] at k0
  rw [l1] at k1
  rw [l2] at k2
  have d0 : V3.dot (⟨0, -n.z, n.y⟩ : V3 K) n = 0 := by simp only [V3.dot]; ring
  have d1 : V3.dot (⟨-n.z, 0, n.x⟩ : V3 K) n = 0 := by simp only [V3.dot]; ring
  have d2 : V3.dot (⟨-n.y, n.x, 0⟩ : V3 K) n = 0 := by simp only [V3.dot]; ring
  have qx := mul_self_nonneg n.x
  have qy := mul_self_nonneg n.y
  have qz := mul_self_nonneg n.z
  unfold orthogonal
  dsimp only
  by_cases hxy : |n.x| < |n.y|
  · have py := sq_pos_of_lt hxy
    by_cases hxz : |n.x| < |n.z|
    · simp only [hxy, hxz, if_true]
      exact k0 (by linarith) d0
    · simp only [hxy, hxz, if_true, if_false, OfNat.ofNat_ne_zero, OfNat.ofNat_ne_one]
      exact k2 (by linarith) d2
  · by_cases hyz : |n.y| < |n.z|
    · have pz := sq_pos_of_lt hyz
      simp only [hxy, hyz, if_true, if_false, one_ne_zero]
      exact k1 (by linarith) d1
    · simp only [hxy, hyz, if_false, OfNat.ofNat_ne_zero, OfNat.ofNat_ne_one]
      have a1 : n.y * n.y ≤ n.x * n.x := by
        have := mul_self_le_mul_self (abs_nonneg _) (not_lt.1 hxy)
        rwa [abs_mul_abs_self, abs_mul_abs_self] at this
      have a2 : n.z * n.z ≤ n.y * n.y := by
        have := mul_self_le_mul_self (abs_nonneg _) (not_lt.1 hyz)
        rwa [abs_mul_abs_self, abs_mul_abs_self] at this
      exact k2 (by linarith) d2

theorem frictionVector_ok {sqrt : K → K} (hs : IsSqrt sqrt) (cfg : Cfg K) (he : 0 ≤ cfg.eps) (dv : V3 K) {n : V3 K} (hn : V3.dot n n = 1) :
    V3.dot (frictionVector cfg sqrt dv n) (frictionVector cfg sqrt dv n) = 1 ∧ V3.dot (frictionVector cfg sqrt dv n) n = 0 := by
  unfold frictionVector
  dsimp only
  set t := dv - V3.smul (V3.dot dv n) n with ht
  split_ifs with h
  · have hl : 0 < t.lengthSq := by
      have h0 : 0 ≤ t.lengthSq := by
        simp only [V3.lengthSq]; nlinarith [mul_self_nonneg t.x, mul_self_nonneg t.y, mul_self_nonneg t.z]
      rcases lt_or_eq_of_le h0 with h' | h'
      · exact h'
      · exfalso
        have := (hs 0 (le_refl _)).2
        rw [← h', mul_self_eq_zero.1 this] at h
        exact absurd h (not_lt.2 he)
    refine ⟨unit_of hs hl, ?_⟩
    have hn' : n.x * n.x + n.y * n.y + n.z * n.z = 1 := hn
    have : V3.dot t n = 0 := by
      rw [ht]
      simp only [V3.dot, V3.sub_x, V3.sub_y, V3.sub_z, V3.smul_x, V3.smul_y, V3.smul_z]
      linear_combination -(dv.x * n.x + dv.y * n.y + dv.z * n.z) * hn'
    have e : V3.dot (V3.smul (1 / sqrt t.lengthSq) t) n = 1 / sqrt t.lengthSq * V3.dot t n := by
      simp only [V3.dot, V3.smul_x, V3.smul_y, V3.smul_z]; ring
    rw [e, this, mul_zero]
  · exact orthogonal_ok hs hn

/-- **C86 (friction directions).** Unless the normals of the points of a manifold cancel out, its normal and its two friction directions are unit
vectors at right angles to one another. -/
theorem friction_frame {sqrt : K → K} (hs : IsSqrt sqrt) (cfg : Cfg K) (he : 0 < cfg.eps) (body : Nat → SBody K) (X : XMan K)
    (hn : cfg.eps ≤ sqrt (sum3 (X.pts.map XPoint.normal)).lengthSq) :
    let M := initMan cfg sqrt body X
    V3.dot M.normal M.normal = 1 ∧ V3.dot M.t1 M.t1 = 1 ∧ V3.dot M.t2 M.t2 = 1 ∧ V3.dot M.t1 M.normal = 0 ∧ V3.dot M.t2 M.normal = 0 ∧
      V3.dot M.t1 M.t2 = 0 := by
  intro M
  have hl : 0 < (sum3 (X.pts.map XPoint.normal)).lengthSq := by
    set t := sum3 (X.pts.map XPoint.normal)
    have h0 : 0 ≤ t.lengthSq := by
      simp only [V3.lengthSq]; nlinarith [mul_self_nonneg t.x, mul_self_nonneg t.y, mul_self_nonneg t.z]
    rcases lt_or_eq_of_le h0 with h' | h'
    · exact h'
    · exfalso
      have := (hs 0 (le_refl _)).2
      rw [← h', mul_self_eq_zero.1 this] at hn
      linarith
  have e1 : V3.dot M.normal M.normal = 1 := by
    have : M.normal = V3.smul (1 / sqrt (sum3 (X.pts.map XPoint.normal)).lengthSq) (sum3 (X.pts.map XPoint.normal)) := by
      show unit cfg sqrt _ = _
      rw [unit, if_neg (not_lt.2 hn)]
    rw [this]
    exact unit_of hs hl
  obtain ⟨e2, e3⟩ : V3.dot M.t1 M.t1 = 1 ∧ V3.dot M.t1 M.normal = 0 := frictionVector_ok hs cfg he.le _ e1
  have et : M.t2 = V3.cross M.normal M.t1 := rfl
  rw [et]
  generalize M.normal = a at *
  generalize M.t1 = b at *
  simp only [V3.dot, V3.cross] at *
  refine ⟨e1, e2, ?_, e3, ?_, ?_⟩
  · linear_combination (b.x * b.x + b.y * b.y + b.z * b.z) * e1 + e2 - (b.x * a.x + b.y * a.y + b.z * a.z) * e3
  · ring
  · ring

end SolverProps
end RP3D
