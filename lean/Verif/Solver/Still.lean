import Verif.Solver.Local
import Verif.Props.ContactSolver
import Verif.Props.JointImpulses

/-! Lemmas for C135: contacts and joints leave alone the bodies without inverse mass, and whole iterations over a list against iterations over the part of the list that belongs to a
group. -/

set_option linter.unusedSectionVars false

namespace RP3D
namespace Local
open Solver Joints SolverProps JointProps

variable {K : Type} [Field K] [LinearOrder K]

theorem still {α : Type} (V : Nat → α) {a b c : Nat} {f g : α → α} (hf : c = a → ∀ x, f x = x) (hg : c = b → ∀ x, g x = x) :
    upd (upd V a (f (V a))) b (g (upd V a (f (V a)) b)) c = V c := by
  have h1 : upd V a (f (V a)) c = V c := by
    by_cases h : c = a
    · subst h; rw [upd_same, hf rfl]
    · rw [upd_ne _ _ h]
  by_cases h : c = b
  · subst h; rw [upd_same, hg rfl, h1]
  · rw [upd_ne _ _ h, h1]

theorem act_zero (v : V3 K) : M3.zero.act v = (0 : V3 K) := by ext <;> simp [M3.zero, M3.act, M3.of]

/-! ### Contacts -/

section contact
variable {M : Man K} {c : Nat}

/-- A body of the manifold has no inverse mass and no inverse inertia. -/
def Still (M : Man K) (c : Nat) : Prop := (c = M.b1 → M.m1 = 0 ∧ M.I1 = M3.zero) ∧ (c = M.b2 → M.m2 = 0 ∧ M.I2 = M3.zero)

theorem push_still (h : Still M c) {p : CPoint K} (hg : Good M p) (d : K) (V : Nat → Vel K) : push M p d V c = V c :=
  still V (f := fun x => { x with v := x.v - V3.had (V3.smul M.m1 (V3.smul d p.normal)) M.ll1, w := x.w - V3.smul d (V3.had p.i1 M.la1) })
    (g := fun x => { x with v := x.v + V3.had (V3.smul M.m2 (V3.smul d p.normal)) M.ll2, w := x.w + V3.smul d (V3.had p.i2 M.la2) })
    (fun e x => by
      obtain ⟨a, b⟩ := h.1 e
      ext <;> simp [a, hg.1, b, act_zero, V3.had])
    (fun e x => by
      obtain ⟨a, b⟩ := h.2 e
      ext <;> simp [a, hg.2, b, act_zero, V3.had])

theorem pushSplit_still (h : Still M c) {p : CPoint K} (hg : Good M p) (d : K) (V : Nat → Vel K) : pushSplit M p d V c = V c :=
  still V (f := fun x => { x with vs := x.vs - V3.had (V3.smul M.m1 (V3.smul d p.normal)) M.ll1, ws := x.ws - V3.smul d (V3.had p.i1 M.la1) })
    (g := fun x => { x with vs := x.vs + V3.had (V3.smul M.m2 (V3.smul d p.normal)) M.ll2, ws := x.ws + V3.smul d (V3.had p.i2 M.la2) })
    (fun e x => by
      obtain ⟨a, b⟩ := h.1 e
      ext <;> simp [a, hg.1, b, act_zero, V3.had])
    (fun e x => by
      obtain ⟨a, b⟩ := h.2 e
      ext <;> simp [a, hg.2, b, act_zero, V3.had])

theorem rub_still (h : Still M c) (t c1 c2 : V3 K) (d : K) (V : Nat → Vel K) : rub M t c1 c2 d V c = V c :=
  still V (f := fun x => { x with v := x.v - V3.had (V3.smul M.m1 (V3.smul d t)) M.ll1, w := x.w + V3.had M.la1 (M.I1.act (V3.smul d (-c1))) })
    (g := fun x => { x with v := x.v + V3.had (V3.smul M.m2 (V3.smul d t)) M.ll2, w := x.w + V3.had M.la2 (M.I2.act (V3.smul d c2)) })
    (fun e x => by
      obtain ⟨a, b⟩ := h.1 e
      ext <;> simp [a, b, act_zero, V3.had])
    (fun e x => by
      obtain ⟨a, b⟩ := h.2 e
      ext <;> simp [a, b, act_zero, V3.had])

theorem twist_still (h : Still M c) (d : K) (V : Nat → Vel K) : Solver.twist M d V c = V c :=
  still V (f := fun x => { x with w := x.w - V3.had M.la1 (M.I1.act (V3.smul d M.normal)) }) (g := fun x => { x with w := x.w + V3.had M.la2 (M.I2.act (V3.smul d M.normal)) })
    (fun e x => by
      obtain ⟨a, b⟩ := h.1 e
      ext <;> simp [b, act_zero, V3.had])
    (fun e x => by
      obtain ⟨a, b⟩ := h.2 e
      ext <;> simp [b, act_zero, V3.had])

theorem twistWarm_still (h : Still M c) (d : K) (V : Nat → Vel K) : twistWarm M d V c = V c := by
  rw [twistWarm_eq, twist_still h, twist_still h]

theorem solvePoints_still (cfg : Cfg K) (h : Still M c) : ∀ (ps : List (CPoint K)) (V : Nat → Vel K), (∀ p ∈ ps, Good M p) → (solvePoints cfg M V ps).1 c = V c
  | [], _, _ => rfl
  | p :: ps, V, hg => by
    simp only [solvePoints]
    rw [solvePoints_still cfg h ps _ fun q hq => hg q (List.mem_cons_of_mem _ hq)]
    have g := hg p List.mem_cons_self
    unfold solvePoint
    dsimp only
    split
    · dsimp only
      rw [pushSplit_still h g, push_still h g]
    · exact push_still h g _ _

theorem solveMan_still (cfg : Cfg K) (h : Still M c) (hg : GoodM M) (V : Nat → Vel K) : (solveMan cfg V M).1 c = V c := by
  unfold solveMan
  dsimp only
  rw [twist_still h, rub_still h, rub_still h, solvePoints_still cfg h _ _ hg]

theorem warmPoints_still (h : Still M c) : ∀ (ps : List (CPoint K)) (V : Nat → Vel K), (∀ p ∈ ps, Good M p) → (warmPoints M V ps).1 c = V c
  | [], _, _ => rfl
  | p :: ps, V, hg => by
    simp only [warmPoints]
    rw [warmPoints_still h ps _ fun q hq => hg q (List.mem_cons_of_mem _ hq)]
    unfold warmPoint
    split
    · exact push_still h (hg p List.mem_cons_self) _ _
    · rfl

theorem warmMan_still (h : Still M c) (hg : GoodM M) (V : Nat → Vel K) : (warmMan V M).1 c = V c := by
  unfold warmMan
  dsimp only
  split
  · dsimp only
    rw [twistWarm_still h, rub_still h, rub_still h, warmPoints_still h _ _ hg]
  · exact warmPoints_still h _ _ hg

theorem Still.of_same {M N : Man K} (h : Still M c) (hs : MSame M N) : Still N c := by
  rw [hs.eq]; exact h

end contact

/-! ### Joints -/

/-- A body of a joint has no inverse mass and no inverse inertia. -/
def StillJ (body : Nat → JBody K) (b1 b2 c : Nat) : Prop := (c = b1 ∨ c = b2) → (body c).m = 0 ∧ (body c).I = M3.zero

theorem linK_still {body : Nat → JBody K} {b1 b2 c : Nat} (h : StillJ body b1 b2 c) (l : Load K) : linK (two body b1 b2) l c = 0 := by
  unfold linK two
  dsimp only
  split_ifs with h1 h2 h2
  · rw [h1, h2, (h (.inl h1.symm)).1]; ext <;> simp [V3.had]
  · rw [h1, (h (.inl h1.symm)).1]; ext <;> simp [V3.had]
  · rw [h2, (h (.inr h2.symm)).1]; ext <;> simp [V3.had]
  · exact add_zero _

theorem angK_still {body : Nat → JBody K} {b1 b2 c : Nat} (h : StillJ body b1 b2 c) (l : Load K) : angK (two body b1 b2) l c = 0 := by
  unfold angK two
  dsimp only
  split_ifs with h1 h2 h2
  · rw [h1, h2, (h (.inl h1.symm)).2, act_zero, act_zero]; ext <;> simp [V3.had]
  · rw [h1, (h (.inl h1.symm)).2, act_zero]; ext <;> simp [V3.had]
  · rw [h2, (h (.inr h2.symm)).2, act_zero]; ext <;> simp [V3.had]
  · exact add_zero _

theorem Joint.solve_still (cfg : JCfg K) {body : Nat → JBody K} (J : Joint K) {c : Nat} (h : StillJ body J.b1 J.b2 c) (V : Nat → Vel K) : (J.solve cfg body V).1 c = V c := by
  rw [(Joint.solve_ok cfg body J V).2 c, linK_still h, linK_still h, angK_still h, angK_still h, sub_self, add_zero, add_zero]

theorem Joint.warm_still {body : Nat → JBody K} (J : Joint K) {c : Nat} (h : StillJ body J.b1 J.b2 c) (V : Nat → Vel K) : J.warm body V c = V c := by
  rw [Joint.warm_eq, linK_still h, angK_still h, add_zero, add_zero]

/-! ### Poses -/

theorem spin_zero {cfg : JCfg K} (hs : cfg.sqrt 1 = 1) {q : Quat K} (hq : q.lengthSq = 1) : spin cfg 0 q = q := by
  have e : q.add ((((⟨(0 : V3 K).x, (0 : V3 K).y, (0 : V3 K).z, 0⟩ : Quat K)).mul q).scale (1 / 2)) = q := by
    ext <;> simp [Quat.add, Quat.scale, Quat.mul]
  unfold spin
  rw [e]
  unfold unitQ
  rw [hq, hs]
  ext <;> simp [Quat.divBy]

/-- A body that the pairs `P` do not move, or that has no inverse mass. -/
theorem moves_still {cfg : JCfg K} (hs : cfg.sqrt 1 = 1) {body : Nat → PBody K} {P : Nat → Nat → Prop} {c : Nat} {X Y : Nat → Pose K}
    (hc : ∀ a b, P a b → c = a ∨ c = b → (body c).m = 0 ∧ (body c).i = 0 ∧ (X c).q.lengthSq = 1) (h : Moves cfg body P X Y) : Y c = X c := by
  induction h with
  | refl => rfl
  | @step Y _ b1 b2 hp o1 o2 L A1 A2 ih =>
    have key : ∀ (k : V3 K) (L A la : V3 K) (o : M3 K), (body c).m = 0 → (body c).i = 0 → (X c).q.lengthSq = 1 →
        (⟨(Y c).x + V3.had (V3.smul (body c).m k) L, spin cfg (V3.had la ((Dyn.worldInertia o (body c).i).act A)) (Y c).q⟩ : Pose K) = Y c := fun k L A la o h1 h2 h3 => by
      have e1 : V3.had (V3.smul (body c).m k) L = 0 := by rw [h1]; ext <;> simp [V3.had]
      have e2 : V3.had la ((Dyn.worldInertia o (body c).i).act A) = 0 := by rw [h2, Dyn.worldInertia_zero, act_zero]; exact had_zero _
      rw [e1, e2, spin_zero hs (by rw [ih]; exact h3), add_zero]
    rw [← ih]
    unfold place twoOf
    dsimp only
    have one : ∀ (Z : Nat → Pose K) (b : Nat) (L A : V3 K) (o : M3 K), Z c = Y c → (c = b → (body c).m = 0 ∧ (body c).i = 0 ∧ (X c).q.lengthSq = 1) →
        upd Z b ⟨(Z b).x + V3.had (V3.smul (body b).m (body b).ll) L, spin cfg (V3.had (body b).la ((Dyn.worldInertia o (body b).i).act A)) (Z b).q⟩ c = Y c := fun Z b L A o hz hb => by
      by_cases e : c = b
      · subst e
        obtain ⟨h1, h2, h3⟩ := hb rfl
        rw [upd_same, hz, key _ _ _ _ _ h1 h2 h3]
      · rw [upd_ne _ _ e, hz]
    exact one _ _ _ _ _ (one _ _ _ _ _ rfl fun e => hc _ _ hp (.inl e)) fun e => hc _ _ hp (.inr e)

/-! ### Loops -/

/-- A loop that gives a state to each element and takes state and element back. -/
def thread {α β : Type} (f : (Nat → α) → β → (Nat → α) × β) : (Nat → α) → List β → (Nat → α) × List β
  | V, [] => (V, [])
  | V, j :: js => ((thread f (f V j).1 js).1, (f V j).2 :: (thread f (f V j).1 js).2)

theorem solveAll_thread (cfg : JCfg K) (body : Nat → JBody K) : ∀ (Js : List (Joint K)) (V : Nat → Vel K), solveAll cfg body V Js = thread (fun V J => J.solve cfg body V) V Js
  | [], _ => rfl
  | J :: Js, V => by simp only [solveAll, thread, solveAll_thread cfg body Js]

theorem solve_thread (cfg : Cfg K) : ∀ (Ms : List (Man K)) (V : Nat → Vel K), Solver.solve cfg V Ms = thread (solveMan cfg) V Ms
  | [], _ => rfl
  | M :: Ms, V => by simp only [Solver.solve, thread, solve_thread cfg Ms]

theorem warmStart_thread : ∀ (Ms : List (Man K)) (V : Nat → Vel K), warmStart V Ms = thread warmMan V Ms
  | [], _ => rfl
  | M :: Ms, V => by simp only [warmStart, thread, warmStart_thread Ms]

theorem each_thread {J : Type} (baum : J → Bool) (f : J → (Nat → Pose K) → (Nat → Pose K) × J) : ∀ (js : List J) (X : Nat → Pose K),
    each baum f X js = thread (fun X j => if baum j then (X, j) else f j X) X js
  | [], _ => rfl
  | j :: js, X => by simp only [each, thread, each_thread baum f js]

section loops
variable {α β : Type} {G : Nat → Prop} {f f' : (Nat → α) → β → (Nat → α) × β} {ins : β → Bool} {P : β → Prop} {S : (Nat → α) → Prop}

/-- What one run of the loop body does. -/
structure Part (G : Nat → Prop) (f f' : (Nat → α) → β → (Nat → α) × β) (ins : β → Bool) (P : β → Prop) (S : (Nat → α) → Prop) : Prop where
  inside : ∀ V W j, S V → P j → ins j = true → Agree G V W → Pair G (f V j) (f' W j)
  outside : ∀ V j, S V → P j → ins j = false → Agree G (f V j).1 V
  state : ∀ V j, S V → P j → S (f V j).1
  elem : ∀ V j, S V → P j → P (f V j).2 ∧ ins (f V j).2 = ins j

theorem thread_part (h : Part G f f' ins P S) : ∀ (l : List β) (V W : Nat → α), S V → (∀ j ∈ l, P j) → Agree G V W →
    Agree G (thread f V l).1 (thread f' W (l.filter ins)).1 ∧ (thread f V l).2.filter ins = (thread f' W (l.filter ins)).2 ∧ S (thread f V l).1 ∧
      ∀ j ∈ (thread f V l).2, P j
  | [], V, W, hs, _, ha => ⟨ha, rfl, hs, fun _ h => by cases h⟩
  | j :: js, V, W, hs, hp, ha => by
    have pj := hp j List.mem_cons_self
    have ps : ∀ i ∈ js, P i := fun i hi => hp i (List.mem_cons_of_mem _ hi)
    obtain ⟨e1, e2⟩ := h.elem V j hs pj
    have s1 := h.state V j hs pj
    cases hi : ins j with
    | true =>
      obtain ⟨a, b⟩ := h.inside V W j hs pj hi ha
      obtain ⟨c1, c2, c3, c4⟩ := thread_part h js _ _ s1 ps a
      rw [List.filter_cons_of_pos hi]
      simp only [thread]
      refine ⟨c1, ?_, c3, fun i hi => ?_⟩
      · rw [List.filter_cons_of_pos (e2.trans hi), c2, b]
      · rcases List.mem_cons.1 hi with rfl | hi
        · exact e1
        · exact c4 i hi
    | false =>
      obtain ⟨c1, c2, c3, c4⟩ := thread_part h js (f V j).1 W s1 ps ((h.outside V j hs pj hi).trans ha)
      rw [List.filter_cons_of_neg (by rw [hi]; exact Bool.false_ne_true)]
      simp only [thread]
      refine ⟨c1, ?_, c3, fun i hi => ?_⟩
      · rw [List.filter_cons_of_neg (by rw [e2, hi]; exact Bool.false_ne_true), c2]
      · rcases List.mem_cons.1 hi with rfl | hi
        · exact e1
        · exact c4 i hi

end loops

end Local
end RP3D
