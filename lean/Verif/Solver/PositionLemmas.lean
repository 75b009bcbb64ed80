import Verif.Solver.Position
import Verif.Props.Transform

/-! A pass of the position solvers is a sequence of corrections of pairs of bodies, whatever the joints are. -/

set_option linter.unusedSectionVars false

namespace RP3D
namespace Joints
open Solver
variable {K : Type} [Field K] [LinearOrder K]

/-- The two bodies with the inverse inertia tensors of any orientations. -/
def twoOf (body : Nat → PBody K) (o1 o2 : M3 K) (b1 b2 : Nat) : Two K :=
  ⟨b1, b2, (body b1).m, (body b2).m, Dyn.worldInertia o1 (body b1).i, Dyn.worldInertia o2 (body b2).i,
   (body b1).ll, (body b2).ll, (body b1).la, (body b2).la⟩

/-- Any number of corrections of pairs `P` of bodies, with opposite linear parts. -/
inductive Moves (cfg : JCfg K) (body : Nat → PBody K) (P : Nat → Nat → Prop) (X : Nat → Pose K) : (Nat → Pose K) → Prop
  | refl : Moves cfg body P X X
  | step {Y : Nat → Pose K} (h : Moves cfg body P X Y) (b1 b2 : Nat) (hp : P b1 b2) (o1 o2 : M3 K) (L A1 A2 : V3 K) :
      Moves cfg body P X (place cfg (twoOf body o1 o2 b1 b2) (-L) A1 L A2 Y)

theorem Moves.trans {cfg : JCfg K} {body : Nat → PBody K} {P : Nat → Nat → Prop} {X Y Z : Nat → Pose K} (h : Moves cfg body P X Y)
    (g : Moves cfg body P Y Z) : Moves cfg body P X Z := by
  induction g with
  | refl => exact h
  | step _ b1 b2 hp o1 o2 L A1 A2 ih => exact .step ih b1 b2 hp o1 o2 L A1 A2

theorem Moves.mono {cfg : JCfg K} {body : Nat → PBody K} {P Q : Nat → Nat → Prop} (hq : ∀ a b, P a b → Q a b) {X Y : Nat → Pose K}
    (h : Moves cfg body P X Y) : Moves cfg body Q X Y := by
  induction h with
  | refl => exact .refl
  | step _ b1 b2 hp o1 o2 L A1 A2 ih => exact .step ih b1 b2 (hq _ _ hp) o1 o2 L A1 A2

theorem had_zero (a : V3 K) : V3.had a 0 = 0 := by ext <;> simp [V3.had]

theorem twist_eq (cfg : JCfg K) (c : Two K) (A1 A2 : V3 K) (X : Nat → Pose K) : twist cfg c A1 A2 X = place cfg c (-0) A1 0 A2 X := by
  have e : (-0 : V3 K) = 0 := by ext <;> simp
  have a : ∀ v : V3 K, v + 0 = v := fun v => by ext <;> simp
  unfold twist place
  simp only [e, had_zero, a]

theorem twoAt_eq (body : Nat → PBody K) (X : Nat → Pose K) (b1 b2 : Nat) :
    twoAt body X b1 b2 = twoOf body (X b1).q.matrix (X b2).q.matrix b1 b2 := rfl

section one
variable {cfg : JCfg K} {body : Nat → PBody K} {o1 o2 : M3 K} {b1 b2 : Nat} {P : Nat → Nat → Prop}

theorem Moves.place (hp : P b1 b2) (L A1 A2 : V3 K) (X : Nat → Pose K) : Moves cfg body P X (place cfg (twoOf body o1 o2 b1 b2) (-L) A1 L A2 X) :=
  .step .refl b1 b2 hp o1 o2 L A1 A2

theorem Moves.twist (hp : P b1 b2) (A1 A2 : V3 K) (X : Nat → Pose K) : Moves cfg body P X (twist cfg (twoOf body o1 o2 b1 b2) A1 A2 X) := by
  rw [twist_eq]; exact .place hp _ _ _ _

theorem Moves.pull (hp : P b1 b2) (dyn : Bool) (r1 r2 : V3 K) (X : Nat → Pose K) :
    Moves cfg body P X (pull cfg dyn (twoOf body o1 o2 b1 b2) r1 r2 X).1 := by
  unfold Joints.pull
  dsimp only
  split
  · exact .place hp _ _ _ _
  · exact .refl

theorem Moves.align (hp : P b1 b2) (dyn : Bool) (d : Quat K) (X : Nat → Pose K) :
    Moves cfg body P X (align cfg dyn (twoOf body o1 o2 b1 b2) d X).1 := by
  unfold Joints.align
  dsimp only
  split
  · exact .twist hp _ _ _
  · exact .refl

theorem Moves.cone (hp : P b1 b2) (J : Ball K) (X : Nat → Pose K) :
    Moves cfg body P X (J.cone' cfg (twoOf body o1 o2 b1 b2) X).1 := by
  unfold Ball.cone'
  dsimp only
  split
  · split
    · exact .twist hp _ _ _
    · exact .refl
  · exact .refl

theorem Moves.limitsH (hp : P b1 b2) (J : Hinge K) (eL eU : K) (X : Nat → Pose K) :
    Moves cfg body P X (J.limits' cfg (twoOf body o1 o2 b1 b2) eL eU X).1 := by
  unfold Hinge.limits'
  split
  · dsimp only
    generalize J.low = l, J.up = u
    cases l <;> cases u <;> simp only [Bool.false_eq_true, if_true, if_false]
    · exact .refl
    · exact .twist hp _ _ _
    · exact .twist hp _ _ _
    · exact (Moves.twist hp _ _ _).trans (.twist hp _ _ _)
  · exact .refl

theorem Moves.rotateH (hp : P b1 b2) (dyn : Bool) (J : Hinge K) (b v : V3 K) (X : Nat → Pose K) :
    Moves cfg body P X (J.rotate' cfg dyn (twoOf body o1 o2 b1 b2) b v X).1 := by
  unfold Hinge.rotate'
  dsimp only
  split
  · exact .twist hp _ _ _
  · exact .refl

theorem neg_smul' (k : K) (a : V3 K) : V3.smul (-k) a = -V3.smul k a := by ext <;> simp

theorem Moves.place' (hp : P b1 b2) (k : K) (a A1 A2 : V3 K) (X : Nat → Pose K) :
    Moves cfg body P X (Joints.place cfg (twoOf body o1 o2 b1 b2) (V3.smul (-k) a) A1 (V3.smul k a) A2 X) := by
  rw [neg_smul']; exact .place hp _ _ _ _

theorem Moves.place'' (hp : P b1 b2) (k : K) (a A1 A2 : V3 K) (X : Nat → Pose K) :
    Moves cfg body P X (Joints.place cfg (twoOf body o1 o2 b1 b2) (V3.smul k a) A1 (V3.smul (-k) a) A2 X) := by
  have := Moves.place' (cfg := cfg) (body := body) (o1 := o1) (o2 := o2) hp (-k) a A1 A2 X
  rwa [neg_neg] at this

theorem Moves.limitsS (hp : P b1 b2) (J : Slider K) (X : Nat → Pose K) :
    Moves cfg body P X (J.limits' cfg (twoOf body o1 o2 b1 b2) X).1 := by
  unfold Slider.limits'
  split
  · dsimp only
    generalize J.low = l, J.up = u
    cases l <;> cases u <;> simp only [Bool.false_eq_true, if_true, if_false]
    · exact .refl
    · exact .place'' hp _ _ _ _ _
    · exact .place' hp _ _ _ _ _
    · exact (Moves.place' hp _ _ _ _ _).trans (.place'' hp _ _ _ _ _)
  · exact .refl

theorem Moves.pullS (hp : P b1 b2) (dyn : Bool) (J : Slider K) (u : V3 K) (X : Nat → Pose K) :
    Moves cfg body P X (Slider.pull' cfg dyn (twoOf body o1 o2 b1 b2) J u X).1 := by
  unfold Slider.pull'
  dsimp only
  split
  · have e : ∀ x y : K, V3.smul x (-J.n1) - V3.smul y J.n2 = -(V3.smul x J.n1 + V3.smul y J.n2) := fun x y => by ext <;> simp <;> ring
    rw [e]
    exact .place hp _ _ _ _
  · exact .refl

end one

/-! ### Joints -/

theorem Ball.cone_same (cfg : JCfg K) (c : Two K) (J : Ball K) (X : Nat → Pose K) :
    (J.cone' cfg c X).2.b1 = J.b1 ∧ (J.cone' cfg c X).2.b2 = J.b2 ∧ (J.cone' cfg c X).2.baum = J.baum := by
  unfold Ball.cone'; dsimp only; split
  · split <;> exact ⟨rfl, rfl, rfl⟩
  · exact ⟨rfl, rfl, rfl⟩

theorem Hinge.limits_same (cfg : JCfg K) (c : Two K) (J : Hinge K) (eL eU : K) (X : Nat → Pose K) :
    (J.limits' cfg c eL eU X).2.b1 = J.b1 ∧ (J.limits' cfg c eL eU X).2.b2 = J.b2 ∧ (J.limits' cfg c eL eU X).2.baum = J.baum := by
  unfold Hinge.limits'; dsimp only; split <;> exact ⟨rfl, rfl, rfl⟩

theorem Hinge.rotate_same (cfg : JCfg K) (dyn : Bool) (c : Two K) (J : Hinge K) (b v : V3 K) (X : Nat → Pose K) :
    (J.rotate' cfg dyn c b v X).2.b1 = J.b1 ∧ (J.rotate' cfg dyn c b v X).2.b2 = J.b2 ∧ (J.rotate' cfg dyn c b v X).2.baum = J.baum := by
  unfold Hinge.rotate'; dsimp only; split <;> exact ⟨rfl, rfl, rfl⟩

theorem Slider.limits_same (cfg : JCfg K) (c : Two K) (J : Slider K) (X : Nat → Pose K) :
    (J.limits' cfg c X).2.b1 = J.b1 ∧ (J.limits' cfg c X).2.b2 = J.b2 ∧ (J.limits' cfg c X).2.baum = J.baum := by
  unfold Slider.limits'; dsimp only; split <;> exact ⟨rfl, rfl, rfl⟩

theorem Slider.pull_same (cfg : JCfg K) (dyn : Bool) (c : Two K) (J : Slider K) (u : V3 K) (X : Nat → Pose K) :
    (Slider.pull' cfg dyn c J u X).2.b1 = J.b1 ∧ (Slider.pull' cfg dyn c J u X).2.b2 = J.b2 ∧ (Slider.pull' cfg dyn c J u X).2.baum = J.baum := by
  unfold Slider.pull'; dsimp only; split <;> exact ⟨rfl, rfl, rfl⟩

theorem Ball.position_ok {cfg : JCfg K} {body : Nat → PBody K} {P : Nat → Nat → Prop} (J : Ball K) (hp : P J.b1 J.b2) (X : Nat → Pose K) :
    Moves cfg body P X (J.position cfg body X).1 ∧ (J.position cfg body X).2.b1 = J.b1 ∧ (J.position cfg body X).2.b2 = J.b2 ∧
      (J.position cfg body X).2.baum = J.baum := by
  unfold Ball.position
  dsimp only
  refine ⟨?_, Ball.cone_same _ _ _ _⟩
  rw [twoAt_eq]
  exact (Moves.cone hp _ _).trans (Moves.pull hp _ _ _ _)

theorem Fixed.position_ok {cfg : JCfg K} {body : Nat → PBody K} {P : Nat → Nat → Prop} (J : Fixed K) (hp : P J.b1 J.b2) (X : Nat → Pose K) :
    Moves cfg body P X (J.position cfg body X).1 ∧ (J.position cfg body X).2.b1 = J.b1 ∧ (J.position cfg body X).2.b2 = J.b2 ∧
      (J.position cfg body X).2.baum = J.baum := by
  unfold Fixed.position
  dsimp only
  refine ⟨?_, rfl, rfl, rfl⟩
  rw [twoAt_eq]
  exact (Moves.pull hp _ _ _ _).trans (Moves.align hp _ _ _)

theorem Hinge.position_ok {cfg : JCfg K} {body : Nat → PBody K} {P : Nat → Nat → Prop} (J : Hinge K) (hp : P J.b1 J.b2) (X : Nat → Pose K) :
    Moves cfg body P X (J.position cfg body X).1 ∧ (J.position cfg body X).2.b1 = J.b1 ∧ (J.position cfg body X).2.b2 = J.b2 ∧
      (J.position cfg body X).2.baum = J.baum := by
  unfold Hinge.position
  dsimp only
  refine ⟨?_, ?_⟩
  · rw [twoAt_eq]
    exact ((Moves.limitsH hp _ _ _ _).trans (Moves.rotateH hp _ _ _ _ _)).trans (Moves.pull hp _ _ _ _)
  · have a := Hinge.rotate_same (K := K)
    have b := Hinge.limits_same (K := K)
    exact ⟨(a _ _ _ _ _ _ _).1.trans (b _ _ _ _ _ _).1, (a _ _ _ _ _ _ _).2.1.trans (b _ _ _ _ _ _).2.1,
      (a _ _ _ _ _ _ _).2.2.trans (b _ _ _ _ _ _).2.2⟩

theorem Slider.position_ok {cfg : JCfg K} {body : Nat → PBody K} {P : Nat → Nat → Prop} (J : Slider K) (hp : P J.b1 J.b2) (X : Nat → Pose K) :
    Moves cfg body P X (J.position cfg body X).1 ∧ (J.position cfg body X).2.b1 = J.b1 ∧ (J.position cfg body X).2.b2 = J.b2 ∧
      (J.position cfg body X).2.baum = J.baum := by
  unfold Slider.position
  dsimp only
  refine ⟨?_, ?_⟩
  · rw [twoAt_eq]
    exact ((Moves.limitsS hp _ _).trans (Moves.align hp _ _ _)).trans (Moves.pullS hp _ _ _ _)
  · have a := Slider.pull_same (K := K)
    have b := Slider.limits_same (K := K)
    exact ⟨(a _ _ _ _ _ _).1.trans (b _ _ _ _).1, (a _ _ _ _ _ _).2.1.trans (b _ _ _ _).2.1, (a _ _ _ _ _ _).2.2.trans (b _ _ _ _).2.2⟩

/-! ### Lists of joints -/

section lists
variable {J : Type} {baum : J → Bool} {c1 c2 : J → Nat} {f : J → (Nat → Pose K) → (Nat → Pose K) × J} {cfg : JCfg K} {body : Nat → PBody K}

/-- A joint of the list with the technique NON_LINEAR_GAUSS_SEIDEL has these bodies. -/
def Has (baum : J → Bool) (c1 c2 : J → Nat) (js : List J) (a b : Nat) : Prop := ∃ j ∈ js, baum j = false ∧ c1 j = a ∧ c2 j = b

theorem each_ok (hf : ∀ (P : Nat → Nat → Prop) j X, P (c1 j) (c2 j) → Moves cfg body P X (f j X).1 ∧ c1 (f j X).2 = c1 j ∧ c2 (f j X).2 = c2 j ∧
    baum (f j X).2 = baum j) : ∀ (js : List J) (X : Nat → Pose K), Moves cfg body (Has baum c1 c2 js) X (each baum f X js).1 ∧
      (each baum f X js).2.map (fun j => (baum j, c1 j, c2 j)) = js.map (fun j => (baum j, c1 j, c2 j))
  | [], X => ⟨.refl, rfl⟩
  | j :: js, X => by
    have m : ∀ a b, Has baum c1 c2 js a b → Has baum c1 c2 (j :: js) a b := fun a b ⟨i, hi, h⟩ => ⟨i, List.mem_cons_of_mem _ hi, h⟩
    unfold each
    dsimp only
    by_cases hb : baum j
    · rw [if_pos hb]
      obtain ⟨p, q⟩ := each_ok hf js X
      exact ⟨p.mono m, by simp only [List.map_cons, q]⟩
    · rw [if_neg hb]
      obtain ⟨p, q⟩ := each_ok hf js (f j X).1
      obtain ⟨a, b, c, d⟩ := hf (Has baum c1 c2 (j :: js)) j X ⟨j, List.mem_cons_self, by simpa using hb, rfl, rfl⟩
      exact ⟨a.trans (p.mono m), by simp only [List.map_cons, q, b, c, d]⟩

theorem eachSlider_ok (hf : ∀ (P : Nat → Nat → Prop) j X, P (c1 j) (c2 j) → Moves cfg body P X (f j X).1 ∧ c1 (f j X).2 = c1 j ∧ c2 (f j X).2 = c2 j ∧
    baum (f j X).2 = baum j) : ∀ (js : List J) (X : Nat → Pose K), Moves cfg body (Has baum c1 c2 js) X (eachSlider baum f X js).1 ∧
      (eachSlider baum f X js).2.map (fun j => (baum j, c1 j, c2 j)) = js.map (fun j => (baum j, c1 j, c2 j))
  | [], X => ⟨.refl, rfl⟩
  | j :: js, X => by
    have m : ∀ a b, Has baum c1 c2 js a b → Has baum c1 c2 (j :: js) a b := fun a b ⟨i, hi, h⟩ => ⟨i, List.mem_cons_of_mem _ hi, h⟩
    unfold eachSlider
    dsimp only
    by_cases hb : baum j
    · rw [if_pos hb]
      exact ⟨.refl, rfl⟩
    · rw [if_neg hb]
      obtain ⟨p, q⟩ := eachSlider_ok hf js (f j X).1
      obtain ⟨a, b, c, d⟩ := hf (Has baum c1 c2 (j :: js)) j X ⟨j, List.mem_cons_self, by simpa using hb, rfl, rfl⟩
      exact ⟨a.trans (p.mono m), by simp only [List.map_cons, q, b, c, d]⟩

theorem Has.of_map {js ks : List J} (h : ks.map (fun j => (baum j, c1 j, c2 j)) = js.map (fun j => (baum j, c1 j, c2 j))) {a b : Nat}
    (g : Has baum c1 c2 ks a b) : Has baum c1 c2 js a b := by
  obtain ⟨j, hj, e1, e2, e3⟩ := g
  have : (baum j, c1 j, c2 j) ∈ js.map (fun j => (baum j, c1 j, c2 j)) := h ▸ List.mem_map_of_mem hj
  obtain ⟨i, hi, e⟩ := List.mem_map.1 this
  simp only [Prod.mk.injEq] at e
  exact ⟨i, hi, e.1.trans e1, e.2.1.trans e2, e.2.2.trans e3⟩

end lists

/-- A joint with the technique NON_LINEAR_GAUSS_SEIDEL has these bodies. -/
def Pins.Acts (S : Pins K) (a b : Nat) : Prop :=
  Has Ball.baum Ball.b1 Ball.b2 S.balls a b ∨ Has Fixed.baum Fixed.b1 Fixed.b2 S.fixeds a b ∨
    Has Hinge.baum Hinge.b1 Hinge.b2 S.hinges a b ∨ Has Slider.baum Slider.b1 Slider.b2 S.sliders a b

theorem positionAll_ok (cfg : JCfg K) (body : Nat → PBody K) (X : Nat → Pose K) (S : Pins K) :
    Moves cfg body S.Acts X (positionAll cfg body X S).1 ∧ ∀ a b, (positionAll cfg body X S).2.Acts a b → S.Acts a b := by
  unfold positionAll
  dsimp only
  obtain ⟨a1, a2⟩ := each_ok (c1 := Ball.b1) (c2 := Ball.b2) (baum := Ball.baum) (cfg := cfg) (body := body) (f := Ball.position cfg body)
    (fun P j X h => Ball.position_ok j h X) S.balls X
  obtain ⟨b1, b2⟩ := each_ok (c1 := Fixed.b1) (c2 := Fixed.b2) (baum := Fixed.baum) (cfg := cfg) (body := body) (f := Fixed.position cfg body)
    (fun P j X h => Fixed.position_ok j h X) S.fixeds (each Ball.baum (Ball.position cfg body) X S.balls).1
  obtain ⟨c1, c2⟩ := each_ok (c1 := Hinge.b1) (c2 := Hinge.b2) (baum := Hinge.baum) (cfg := cfg) (body := body) (f := Hinge.position cfg body)
    (fun P j X h => Hinge.position_ok j h X) S.hinges
      (each Fixed.baum (Fixed.position cfg body) (each Ball.baum (Ball.position cfg body) X S.balls).1 S.fixeds).1
  obtain ⟨d1, d2⟩ := eachSlider_ok (c1 := Slider.b1) (c2 := Slider.b2) (baum := Slider.baum) (cfg := cfg) (body := body)
    (f := Slider.position cfg body) (fun P j X h => Slider.position_ok j h X) S.sliders
      (each Hinge.baum (Hinge.position cfg body)
        (each Fixed.baum (Fixed.position cfg body) (each Ball.baum (Ball.position cfg body) X S.balls).1 S.fixeds).1 S.hinges).1
  refine ⟨?_, fun a b h => ?_⟩
  · exact (((a1.mono fun _ _ h => .inl h).trans (b1.mono fun _ _ h => .inr (.inl h))).trans (c1.mono fun _ _ h => .inr (.inr (.inl h)))).trans
      (d1.mono fun _ _ h => .inr (.inr (.inr h)))
  · rcases h with h | h | h | h
    · exact .inl (Has.of_map a2 h)
    · exact .inr (.inl (Has.of_map b2 h))
    · exact .inr (.inr (.inl (Has.of_map c2 h)))
    · exact .inr (.inr (.inr (Has.of_map d2 h)))

theorem correct_moves (cfg : JCfg K) (body : Nat → PBody K) : ∀ (n : Nat) (X : Nat → Pose K) (S : Pins K),
    Moves cfg body S.Acts X (correct cfg body n (X, S)).1
  | 0, X, S => .refl
  | n + 1, X, S => by
    obtain ⟨a, b⟩ := positionAll_ok cfg body X S
    exact a.trans ((correct_moves cfg body n _ _).mono b)

end Joints
end RP3D
