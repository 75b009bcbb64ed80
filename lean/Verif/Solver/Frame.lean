import Verif.Solver.Local

/-! Lemmas for C137: the solvers do the same with bodies that are elsewhere by one vector and faster by one velocity. -/

set_option linter.unusedSectionVars false

namespace RP3D
namespace Frame
open Solver Joints

/-- The values of the bodies of the group go from one state to the other by `s`. -/
def Map {α : Type} (G : Nat → Prop) (s : α → α) (V W : Nat → α) : Prop := ∀ b, G b → W b = s (V b)

/-- The same for states with a result, which is the same. -/
def Pair {α β : Type} (G : Nat → Prop) (s : α → α) (r t : (Nat → α) × β) : Prop := Map G s r.1 t.1 ∧ r.2 = t.2

variable {K : Type} [Field K] [LinearOrder K] {G : Nat → Prop}

theorem Map.upd {α : Type} {s : α → α} {V W : Nat → α} (h : Map G s V W) (a : Nat) {x y : α} (e : y = s x) : Map G s (RP3D.upd V a x) (RP3D.upd W a y) := fun b hb => by
  by_cases k : b = a
  · subst k; rw [upd_same, upd_same, e]
  · rw [upd_ne _ _ k, upd_ne _ _ k, h b hb]

/-- Two changes one after the other that do not care about `s`. -/
theorem upd_twice {α : Type} {s : α → α} {V W : Nat → α} (h : Map G s V W) {a b : Nat} (ha : G a) (hb : G b) (f g : α → α) (hf : ∀ x, f (s x) = s (f x)) (hg : ∀ x, g (s x) = s (g x)) :
    Map G s (RP3D.upd (RP3D.upd V a (f (V a))) b (g (RP3D.upd V a (f (V a)) b))) (RP3D.upd (RP3D.upd W a (f (W a))) b (g (RP3D.upd W a (f (W a)) b))) := by
  have h1 : Map G s (RP3D.upd V a (f (V a))) (RP3D.upd W a (f (W a))) := h.upd a (by rw [h a ha, hf])
  exact h1.upd b (by rw [h1 b hb, hg])

/-- The linear velocity is larger by `u`. -/
def boost (u : V3 K) (x : Vel K) : Vel K := { x with v := x.v + u }

/-- The position is larger by `t`. -/
def shift (t : V3 K) (p : Pose K) : Pose K := { p with x := p.x + t }

/-- Both, of what the solvers read of a body. -/
def moveS (t u : V3 K) (B : SBody K) : SBody K := { B with x := B.x + t, v := B.v + u }
def moveJ (t u : V3 K) (B : JBody K) : JBody K := { B with toSBody := moveS t u B.toSBody }

/-- A manifold somewhere else. -/
def movePoint (t : V3 K) (x : XPoint K) : XPoint K := { x with p1 := x.p1 + t, p2 := x.p2 + t }
def moveMan (t : V3 K) (X : XMan K) : XMan K := { X with pts := X.pts.map (movePoint t) }

theorem add3 (a b c : V3 K) : a + c + b = a + b + c := by rw [add_assoc, add_comm c, add_assoc]
theorem sub3 (a b c : V3 K) : a + c - b = a - b + c := by abel

/-! ### Contacts -/

section contact
variable {M : Man K} {V W : Nat → Vel K} {u : V3 K}

theorem rel_boost (a b : Vel K) (r1 r2 : V3 K) : rel (boost u a) (boost u b) r1 r2 = rel a b r1 r2 := by
  unfold rel boost
  dsimp only
  abel

theorem relSplit_boost (a b : Vel K) (r1 r2 : V3 K) : relSplit (boost u a) (boost u b) r1 r2 = relSplit a b r1 r2 := rfl

theorem push_frame (h : Map G (boost u) V W) (h1 : G M.b1) (h2 : G M.b2) (p : CPoint K) (d : K) : Map G (boost u) (push M p d V) (push M p d W) :=
  upd_twice h h1 h2 (fun x => { x with v := x.v - V3.had (V3.smul M.m1 (V3.smul d p.normal)) M.ll1, w := x.w - V3.smul d (V3.had p.i1 M.la1) })
    (fun x => { x with v := x.v + V3.had (V3.smul M.m2 (V3.smul d p.normal)) M.ll2, w := x.w + V3.smul d (V3.had p.i2 M.la2) })
    (fun x => by simp only [boost, sub3]) (fun x => by simp only [boost]; rw [add3])

theorem pushSplit_frame (h : Map G (boost u) V W) (h1 : G M.b1) (h2 : G M.b2) (p : CPoint K) (d : K) : Map G (boost u) (pushSplit M p d V) (pushSplit M p d W) :=
  upd_twice h h1 h2 (fun x => { x with vs := x.vs - V3.had (V3.smul M.m1 (V3.smul d p.normal)) M.ll1, ws := x.ws - V3.smul d (V3.had p.i1 M.la1) })
    (fun x => { x with vs := x.vs + V3.had (V3.smul M.m2 (V3.smul d p.normal)) M.ll2, ws := x.ws + V3.smul d (V3.had p.i2 M.la2) })
    (fun _ => rfl) (fun _ => rfl)

theorem rub_frame (h : Map G (boost u) V W) (h1 : G M.b1) (h2 : G M.b2) (t c1 c2 : V3 K) (d : K) : Map G (boost u) (rub M t c1 c2 d V) (rub M t c1 c2 d W) :=
  upd_twice h h1 h2 (fun x => { x with v := x.v - V3.had (V3.smul M.m1 (V3.smul d t)) M.ll1, w := x.w + V3.had M.la1 (M.I1.act (V3.smul d (-c1))) })
    (fun x => { x with v := x.v + V3.had (V3.smul M.m2 (V3.smul d t)) M.ll2, w := x.w + V3.had M.la2 (M.I2.act (V3.smul d c2)) })
    (fun x => by simp only [boost, sub3]) (fun x => by simp only [boost]; rw [add3])

theorem twist_frame (h : Map G (boost u) V W) (h1 : G M.b1) (h2 : G M.b2) (d : K) : Map G (boost u) (Solver.twist M d V) (Solver.twist M d W) :=
  upd_twice h h1 h2 (fun x => { x with w := x.w - V3.had M.la1 (M.I1.act (V3.smul d M.normal)) })
    (fun x => { x with w := x.w + V3.had M.la2 (M.I2.act (V3.smul d M.normal)) }) (fun _ => rfl) (fun _ => rfl)

theorem twistWarm_frame (h : Map G (boost u) V W) (h1 : G M.b1) (h2 : G M.b2) (d : K) : Map G (boost u) (twistWarm M d V) (twistWarm M d W) :=
  upd_twice (upd_twice h h1 h2 (fun x => { x with w := x.w + V3.had M.la1 (M.I1.act (V3.smul d (-M.normal))) })
    (fun x => { x with w := x.w + V3.had M.la2 (M.I2.act (V3.smul d M.normal)) }) (fun _ => rfl) (fun _ => rfl)) h1 h2
    (fun x => { x with w := x.w - V3.had M.la1 (M.I1.act (V3.smul d M.normal)) })
    (fun x => { x with w := x.w + V3.had M.la2 (M.I2.act (V3.smul d M.normal)) }) (fun _ => rfl) (fun _ => rfl)

theorem solvePoint_frame (cfg : Cfg K) (h : Map G (boost u) V W) (h1 : G M.b1) (h2 : G M.b2) (p : CPoint K) : Pair G (boost u) (solvePoint cfg M V p) (solvePoint cfg M W p) := by
  unfold solvePoint
  dsimp only
  rw [h _ h1, h _ h2, rel_boost]
  split
  · generalize max (p.imp + -(V3.dot (rel (V M.b1) (V M.b2) p.r1 p.r2) p.normal + p.bias) * p.invMass) 0 - p.imp = k
    have g := push_frame h h1 h2 p k
    rw [g _ h1, g _ h2, relSplit_boost]
    exact ⟨pushSplit_frame g h1 h2 _ _, rfl⟩
  · exact ⟨push_frame h h1 h2 _ _, rfl⟩

theorem solvePoints_frame (cfg : Cfg K) (h1 : G M.b1) (h2 : G M.b2) : ∀ (ps : List (CPoint K)) {V W : Nat → Vel K}, Map G (boost u) V W →
    Pair G (boost u) (solvePoints cfg M V ps) (solvePoints cfg M W ps)
  | [], _, _, h => ⟨h, rfl⟩
  | p :: ps, V, W, h => by
    obtain ⟨a, b⟩ := solvePoint_frame cfg h h1 h2 p
    obtain ⟨c, d⟩ := solvePoints_frame cfg h1 h2 ps a
    refine ⟨c, ?_⟩
    simp only [solvePoints]
    rw [b, d]

theorem solveMan_frame (cfg : Cfg K) (h : Map G (boost u) V W) (h1 : G M.b1) (h2 : G M.b2) : Pair G (boost u) (solveMan cfg V M) (solveMan cfg W M) := by
  obtain ⟨a, b⟩ := solvePoints_frame cfg h1 h2 M.pts h
  unfold solveMan
  dsimp only
  rw [b, a _ h1, a _ h2, rel_boost]
  generalize clamp _ (M.f1 + _) = f1
  have c := rub_frame a h1 h2 M.t1 M.c11 M.c21 (f1 - M.f1)
  rw [c _ h1, c _ h2, rel_boost]
  generalize clamp _ (M.f2 + _) = f2
  have d := rub_frame c h1 h2 M.t2 M.c12 M.c22 (f2 - M.f2)
  rw [d _ h1, d _ h2]
  exact ⟨twist_frame d h1 h2 _, rfl⟩

theorem warmPoints_frame (h1 : G M.b1) (h2 : G M.b2) : ∀ (ps : List (CPoint K)) {V W : Nat → Vel K}, Map G (boost u) V W →
    Pair G (boost u) (warmPoints M V ps) (warmPoints M W ps)
  | [], _, _, h => ⟨h, rfl⟩
  | p :: ps, V, W, h => by
    have k : Pair G (boost u) (warmPoint M V p) (warmPoint M W p) := by
      unfold warmPoint
      split
      · exact ⟨push_frame h h1 h2 _ _, rfl⟩
      · exact ⟨h, rfl⟩
    obtain ⟨a, b⟩ := k
    obtain ⟨c, d⟩ := warmPoints_frame h1 h2 ps a
    refine ⟨c, ?_⟩
    simp only [warmPoints]
    rw [b, d]

theorem warmMan_frame (h : Map G (boost u) V W) (h1 : G M.b1) (h2 : G M.b2) : Pair G (boost u) (warmMan V M) (warmMan W M) := by
  obtain ⟨a, b⟩ := warmPoints_frame h1 h2 M.pts h
  unfold warmMan
  dsimp only
  split
  · refine ⟨twistWarm_frame (rub_frame (rub_frame a h1 h2 _ _ _ _) h1 h2 _ _ _ _) h1 h2 _, ?_⟩
    dsimp only
    rw [b]
  · refine ⟨a, ?_⟩
    dsimp only
    rw [b]

theorem init_rel (t u : V3 K) (A B : SBody K) (r1 r2 : V3 K) :
    rel ⟨(moveS t u A).v, (moveS t u A).w, 0, 0⟩ ⟨(moveS t u B).v, (moveS t u B).w, 0, 0⟩ r1 r2 = rel ⟨A.v, A.w, 0, 0⟩ ⟨B.v, B.w, 0, 0⟩ r1 r2 :=
  rel_boost (u := u) ⟨A.v, A.w, 0, 0⟩ ⟨B.v, B.w, 0, 0⟩ r1 r2

theorem initPoint_frame (cfg : Cfg K) (t u : V3 K) (A B : SBody K) (e : K) (x : XPoint K) : initPoint cfg (moveS t u A) (moveS t u B) e (movePoint t x) = initPoint cfg A B e x := by
  have e1 : (movePoint t x).p1 - (moveS t u A).x = x.p1 - A.x := add_sub_add_right_eq_sub _ _ _
  have e2 : (movePoint t x).p2 - (moveS t u B).x = x.p2 - B.x := add_sub_add_right_eq_sub _ _ _
  unfold initPoint
  dsimp only
  rw [e1, e2, init_rel]
  rfl

theorem sum3_aux (t : V3 K) : ∀ (l : List (V3 K)) (a : V3 K) (b : V3 K), (l.map (· + t)).foldl (· + ·) (a + b) = l.foldl (· + ·) a + (b + V3.smul (l.length : K) t)
  | [], a, b => by
    simp only [List.map_nil, List.foldl_nil, List.length_nil, Nat.cast_zero]
    ext <;> simp
  | x :: l, a, b => by
    simp only [List.map_cons, List.foldl_cons, List.length_cons]
    have : a + b + (x + t) = (a + x) + (b + t) := by abel
    rw [this, sum3_aux t l]
    congr 1
    ext <;> simp only [V3.add_x, V3.add_y, V3.add_z, V3.smul_x, V3.smul_y, V3.smul_z, Nat.cast_add, Nat.cast_one] <;> ring

/-- The mean of moved points. -/
theorem mean_move [CharZero K] (t : V3 K) {l : List (V3 K)} (h : l ≠ []) : V3.smul (1 / (l.length : K)) (sum3 (l.map (· + t))) = V3.smul (1 / (l.length : K)) (sum3 l) + t := by
  have hl : (l.length : K) ≠ 0 := by
    have := List.length_pos_iff.2 h
    exact_mod_cast this.ne'
  have e := sum3_aux t l 0 0
  unfold sum3
  rw [add_zero, zero_add] at e
  rw [e]
  ext <;> simp <;> field_simp

theorem initMan_frame [CharZero K] (cfg : Cfg K) (sqrt : K → K) {body body' : Nat → SBody K} {t u : V3 K} (X : XMan K) (hp : X.pts ≠ []) (h1 : body' X.b1 = moveS t u (body X.b1))
    (h2 : body' X.b2 = moveS t u (body X.b2)) : initMan cfg sqrt body' (moveMan t X) = initMan cfg sqrt body X := by
  have en : (moveMan t X).pts.map XPoint.normal = X.pts.map XPoint.normal := by simp [moveMan, movePoint, Function.comp_def]
  have el : ((moveMan t X).pts.length : K) = (X.pts.length : K) := by simp [moveMan]
  have ep1 : (moveMan t X).pts.map XPoint.p1 = (X.pts.map XPoint.p1).map (· + t) := by simp [moveMan, movePoint, Function.comp_def]
  have ep2 : (moveMan t X).pts.map XPoint.p2 = (X.pts.map XPoint.p2).map (· + t) := by simp [moveMan, movePoint, Function.comp_def]
  have m1 : V3.smul (1 / (X.pts.length : K)) (sum3 ((X.pts.map XPoint.p1).map (· + t))) = V3.smul (1 / (X.pts.length : K)) (sum3 (X.pts.map XPoint.p1)) + t := by
    have := mean_move t (l := X.pts.map XPoint.p1) (by simpa using hp)
    rwa [List.length_map] at this
  have m2 : V3.smul (1 / (X.pts.length : K)) (sum3 ((X.pts.map XPoint.p2).map (· + t))) = V3.smul (1 / (X.pts.length : K)) (sum3 (X.pts.map XPoint.p2)) + t := by
    have := mean_move t (l := X.pts.map XPoint.p2) (by simpa using hp)
    rwa [List.length_map] at this
  have k1 : V3.smul (1 / (X.pts.length : K)) (sum3 (X.pts.map XPoint.p1)) + t - (moveS t u (body X.b1)).x = V3.smul (1 / (X.pts.length : K)) (sum3 (X.pts.map XPoint.p1)) - (body X.b1).x :=
    add_sub_add_right_eq_sub _ _ _
  have k2 : V3.smul (1 / (X.pts.length : K)) (sum3 (X.pts.map XPoint.p2)) + t - (moveS t u (body X.b2)).x = V3.smul (1 / (X.pts.length : K)) (sum3 (X.pts.map XPoint.p2)) - (body X.b2).x :=
    add_sub_add_right_eq_sub _ _ _
  have eb1 : (moveMan t X).b1 = X.b1 := rfl
  have eb2 : (moveMan t X).b2 = X.b2 := rfl
  have pts : (moveMan t X).pts.map (initPoint cfg (moveS t u (body X.b1)) (moveS t u (body X.b2)) X.restitution) = X.pts.map (initPoint cfg (body X.b1) (body X.b2) X.restitution) := by
    show (X.pts.map (movePoint t)).map _ = _
    rw [List.map_map]
    exact List.map_congr_left fun x _ => initPoint_frame cfg t u _ _ _ x
  unfold initMan
  dsimp only
  rw [eb1, eb2, h1, h2, en, el, ep1, ep2, m1, m2, k1, k2, init_rel]
  have er : (moveMan t X).restitution = X.restitution := rfl
  rw [er, pts]
  rfl

end contact
/-! ### Joints: velocities -/

section joints
variable {V W : Nat → Vel K} {body body' : Nat → JBody K} {t u : V3 K}

theorem kick_frame {c : Two K} (h : Map G (boost u) V W) (h1 : G c.b1) (h2 : G c.b2) (P1 A1 P2 A2 : V3 K) : Map G (boost u) (kick c P1 A1 P2 A2 V) (kick c P1 A1 P2 A2 W) :=
  upd_twice h h1 h2 (fun x => { x with v := x.v + V3.had (V3.smul c.m1 c.ll1) P1, w := x.w + V3.had c.la1 (c.I1.act A1) })
    (fun x => { x with v := x.v + V3.had (V3.smul c.m2 c.ll2) P2, w := x.w + V3.had c.la2 (c.I2.act A2) })
    (fun x => by simp only [boost]; rw [add3]) (fun x => by simp only [boost]; rw [add3])

theorem turn_frame {c : Two K} (h : Map G (boost u) V W) (h1 : G c.b1) (h2 : G c.b2) (A1 A2 : V3 K) : Map G (boost u) (turn c A1 A2 V) (turn c A1 A2 W) := by
  rw [turn_eq, turn_eq]; exact kick_frame h h1 h2 _ _ _ _

theorem shove_frame {c : Two K} (h : Map G (boost u) V W) (h1 : G c.b1) (h2 : G c.b2) (P1 P2 : V3 K) : Map G (boost u) (shove c P1 P2 V) (shove c P1 P2 W) := by
  rw [shove_eq, shove_eq]; exact kick_frame h h1 h2 _ _ _ _

theorem two_frame (hb : Map G (moveJ t u) body body') {b1 b2 : Nat} (h1 : G b1) (h2 : G b2) : two body b1 b2 = two body' b1 b2 := by
  unfold two
  rw [hb _ h1, hb _ h2]
  rfl

theorem Ball.solve_frame (hb : Map G (moveJ t u) body body') (h : Map G (boost u) V W) (J : Ball K) (h1 : G J.b1) (h2 : G J.b2) : Pair G (boost u) (J.solve body V) (J.solve body' W) := by
  have j : ∀ (N : Ball K) {V W : Nat → Vel K}, Map G (boost u) V W → N.b1 = J.b1 → N.b2 = J.b2 → Pair G (boost u) (N.joint body V) (N.joint body' W) := by
    intro N V W h e1 e2
    rw [← e1] at h1; rw [← e2] at h2
    unfold Ball.joint pin
    dsimp only
    rw [two_frame hb h1 h2, h _ h1, h _ h2, rel_boost]
    exact ⟨kick_frame h h1 h2 _ _ _ _, rfl⟩
  have l : Pair G (boost u) (J.limit body V) (J.limit body' W) ∧ (J.limit body V).2.b1 = J.b1 ∧ (J.limit body V).2.b2 = J.b2 := by
    unfold Ball.limit
    dsimp only
    rw [two_frame hb h1 h2, h _ h1, h _ h2]
    split
    · split
      · exact ⟨⟨turn_frame h h1 h2 _ _, rfl⟩, rfl, rfl⟩
      · exact ⟨⟨h, rfl⟩, rfl, rfl⟩
    · exact ⟨⟨h, rfl⟩, rfl, rfl⟩
  unfold Ball.solve
  dsimp only
  rw [← l.1.2]
  exact j _ l.1.1 l.2.1 l.2.2

theorem Fixed.solve_frame (hb : Map G (moveJ t u) body body') (h : Map G (boost u) V W) (J : Fixed K) (h1 : G J.b1) (h2 : G J.b2) : Pair G (boost u) (J.solve body V) (J.solve body' W) := by
  have r : ∀ (N : Fixed K) {V W : Nat → Vel K}, Map G (boost u) V W → N.b1 = J.b1 → N.b2 = J.b2 → Pair G (boost u) (N.rotation body V) (N.rotation body' W) := by
    intro N V W h e1 e2
    rw [← e1] at h1; rw [← e2] at h2
    unfold Fixed.rotation
    dsimp only
    rw [two_frame hb h1 h2, h _ h1, h _ h2]
    exact ⟨turn_frame h h1 h2 _ _, rfl⟩
  have l : Pair G (boost u) (J.joint body V) (J.joint body' W) := by
    unfold Fixed.joint pin
    dsimp only
    rw [two_frame hb h1 h2, h _ h1, h _ h2, rel_boost]
    exact ⟨kick_frame h h1 h2 _ _ _ _, rfl⟩
  unfold Fixed.solve
  dsimp only
  rw [← l.2]
  exact r _ l.1 rfl rfl

/-- A part of a solver: what it does to the bodies of the joint `J`. -/
theorem chain {β : Type} {b1 b2 : β → Nat} {f g : β → (Nat → Vel K) → (Nat → Vel K) × β} {f' g' : β → (Nat → Vel K) → (Nat → Vel K) × β}
    (hf : ∀ N V W, Map G (boost u) V W → G (b1 N) → G (b2 N) → Pair G (boost u) (f N V) (f' N W) ∧ b1 (f N V).2 = b1 N ∧ b2 (f N V).2 = b2 N)
    (hg : ∀ N V W, Map G (boost u) V W → G (b1 N) → G (b2 N) → Pair G (boost u) (g N V) (g' N W) ∧ b1 (g N V).2 = b1 N ∧ b2 (g N V).2 = b2 N) (N : β) (V W : Nat → Vel K)
    (h : Map G (boost u) V W) (h1 : G (b1 N)) (h2 : G (b2 N)) :
    Pair G (boost u) (g (f N V).2 (f N V).1) (g' (f' N W).2 (f' N W).1) ∧ b1 (g (f N V).2 (f N V).1).2 = b1 N ∧ b2 (g (f N V).2 (f N V).1).2 = b2 N := by
  obtain ⟨⟨a, b⟩, e1, e2⟩ := hf N V W h h1 h2
  rw [← b]
  obtain ⟨c, d1, d2⟩ := hg (f N V).2 _ _ a (e1 ▸ h1) (e2 ▸ h2)
  exact ⟨c, d1.trans e1, d2.trans e2⟩

section hinge
variable (hb : Map G (moveJ t u) body body')
include hb

theorem Hinge.limitL_frame (J : Hinge K) (V W : Nat → Vel K) (h : Map G (boost u) V W) (h1 : G J.b1) (h2 : G J.b2) :
    Pair G (boost u) (J.limitL body V) (J.limitL body' W) ∧ (J.limitL body V).2.b1 = J.b1 ∧ (J.limitL body V).2.b2 = J.b2 := by
  unfold Hinge.limitL; dsimp only; rw [two_frame hb h1 h2, h _ h1, h _ h2]
  split
  · exact ⟨⟨turn_frame h h1 h2 _ _, rfl⟩, rfl, rfl⟩
  · exact ⟨⟨h, rfl⟩, rfl, rfl⟩

theorem Hinge.limitU_frame (J : Hinge K) (V W : Nat → Vel K) (h : Map G (boost u) V W) (h1 : G J.b1) (h2 : G J.b2) :
    Pair G (boost u) (J.limitU body V) (J.limitU body' W) ∧ (J.limitU body V).2.b1 = J.b1 ∧ (J.limitU body V).2.b2 = J.b2 := by
  unfold Hinge.limitU; dsimp only; rw [two_frame hb h1 h2, h _ h1, h _ h2]
  split
  · exact ⟨⟨turn_frame h h1 h2 _ _, rfl⟩, rfl, rfl⟩
  · exact ⟨⟨h, rfl⟩, rfl, rfl⟩

theorem Hinge.motor_frame (cfg : JCfg K) (J : Hinge K) (V W : Nat → Vel K) (h : Map G (boost u) V W) (h1 : G J.b1) (h2 : G J.b2) :
    Pair G (boost u) (J.motor cfg body V) (J.motor cfg body' W) ∧ (J.motor cfg body V).2.b1 = J.b1 ∧ (J.motor cfg body V).2.b2 = J.b2 := by
  unfold Hinge.motor; dsimp only; rw [two_frame hb h1 h2, h _ h1, h _ h2]
  split
  · exact ⟨⟨turn_frame h h1 h2 _ _, rfl⟩, rfl, rfl⟩
  · exact ⟨⟨h, rfl⟩, rfl, rfl⟩

theorem Hinge.rotation_frame (J : Hinge K) (V W : Nat → Vel K) (h : Map G (boost u) V W) (h1 : G J.b1) (h2 : G J.b2) :
    Pair G (boost u) (J.rotation body V) (J.rotation body' W) ∧ (J.rotation body V).2.b1 = J.b1 ∧ (J.rotation body V).2.b2 = J.b2 := by
  unfold Hinge.rotation; dsimp only; rw [two_frame hb h1 h2, h _ h1, h _ h2]
  exact ⟨⟨turn_frame h h1 h2 _ _, rfl⟩, rfl, rfl⟩

theorem Hinge.joint_frame (J : Hinge K) (V W : Nat → Vel K) (h : Map G (boost u) V W) (h1 : G J.b1) (h2 : G J.b2) :
    Pair G (boost u) (J.joint body V) (J.joint body' W) ∧ (J.joint body V).2.b1 = J.b1 ∧ (J.joint body V).2.b2 = J.b2 := by
  unfold Hinge.joint pin; dsimp only; rw [two_frame hb h1 h2, h _ h1, h _ h2, rel_boost]
  exact ⟨⟨kick_frame h h1 h2 _ _ _ _, rfl⟩, rfl, rfl⟩

theorem Hinge.solve_frame (cfg : JCfg K) (h : Map G (boost u) V W) (J : Hinge K) (h1 : G J.b1) (h2 : G J.b2) : Pair G (boost u) (J.solve cfg body V) (J.solve cfg body' W) :=
  (chain (b1 := Hinge.b1) (b2 := Hinge.b2) (chain (chain (chain (Hinge.limitL_frame hb) (Hinge.limitU_frame hb)) (Hinge.motor_frame hb cfg)) (Hinge.rotation_frame hb))
    (Hinge.joint_frame hb) J V W h h1 h2).1

omit hb in
theorem dots (n : V3 K) (x y : Vel K) : V3.dot n (boost u x).v - V3.dot n (boost u y).v = V3.dot n x.v - V3.dot n y.v := by
  simp only [boost, V3.dot, V3.add_x, V3.add_y, V3.add_z]; ring

omit hb in
theorem dots4 (n c e : V3 K) (x y : Vel K) : -(V3.dot n (boost u x).v) - V3.dot (boost u x).w c + V3.dot n (boost u y).v + V3.dot (boost u y).w e =
    -(V3.dot n x.v) - V3.dot x.w c + V3.dot n y.v + V3.dot y.w e := by
  simp only [boost, V3.dot, V3.add_x, V3.add_y, V3.add_z]; ring

omit hb in
theorem along_frame (J : Slider K) {V W : Nat → Vel K} (h : Map G (boost u) V W) (h1 : G J.b1) (h2 : G J.b2) : J.along W = J.along V := by
  unfold Slider.along
  rw [h _ h1, h _ h2]
  simp only [boost, V3.dot, V3.add_x, V3.add_y, V3.add_z]; ring

theorem Slider.limitL_frame (J : Slider K) (V W : Nat → Vel K) (h : Map G (boost u) V W) (h1 : G J.b1) (h2 : G J.b2) :
    Pair G (boost u) (J.limitL body V) (J.limitL body' W) ∧ (J.limitL body V).2.b1 = J.b1 ∧ (J.limitL body V).2.b2 = J.b2 := by
  unfold Slider.limitL; dsimp only; rw [two_frame hb h1 h2, along_frame J h h1 h2]
  split
  · exact ⟨⟨kick_frame h h1 h2 _ _ _ _, rfl⟩, rfl, rfl⟩
  · exact ⟨⟨h, rfl⟩, rfl, rfl⟩

theorem Slider.limitU_frame (J : Slider K) (V W : Nat → Vel K) (h : Map G (boost u) V W) (h1 : G J.b1) (h2 : G J.b2) :
    Pair G (boost u) (J.limitU body V) (J.limitU body' W) ∧ (J.limitU body V).2.b1 = J.b1 ∧ (J.limitU body V).2.b2 = J.b2 := by
  unfold Slider.limitU; dsimp only; rw [two_frame hb h1 h2, along_frame J h h1 h2]
  split
  · exact ⟨⟨kick_frame h h1 h2 _ _ _ _, rfl⟩, rfl, rfl⟩
  · exact ⟨⟨h, rfl⟩, rfl, rfl⟩

theorem Slider.motor_frame (cfg : JCfg K) (J : Slider K) (V W : Nat → Vel K) (h : Map G (boost u) V W) (h1 : G J.b1) (h2 : G J.b2) :
    Pair G (boost u) (J.motor cfg body V) (J.motor cfg body' W) ∧ (J.motor cfg body V).2.b1 = J.b1 ∧ (J.motor cfg body V).2.b2 = J.b2 := by
  unfold Slider.motor; dsimp only; rw [two_frame hb h1 h2, h _ h1, h _ h2, dots]
  split
  · exact ⟨⟨shove_frame h h1 h2 _ _, rfl⟩, rfl, rfl⟩
  · exact ⟨⟨h, rfl⟩, rfl, rfl⟩

theorem Slider.rotation_frame (J : Slider K) (V W : Nat → Vel K) (h : Map G (boost u) V W) (h1 : G J.b1) (h2 : G J.b2) :
    Pair G (boost u) (J.rotation body V) (J.rotation body' W) ∧ (J.rotation body V).2.b1 = J.b1 ∧ (J.rotation body V).2.b2 = J.b2 := by
  unfold Slider.rotation; dsimp only; rw [two_frame hb h1 h2, h _ h1, h _ h2]
  exact ⟨⟨turn_frame h h1 h2 _ _, rfl⟩, rfl, rfl⟩

theorem Slider.joint_frame (J : Slider K) (V W : Nat → Vel K) (h : Map G (boost u) V W) (h1 : G J.b1) (h2 : G J.b2) :
    Pair G (boost u) (J.joint body V) (J.joint body' W) ∧ (J.joint body V).2.b1 = J.b1 ∧ (J.joint body V).2.b2 = J.b2 := by
  unfold Slider.joint; dsimp only; rw [two_frame hb h1 h2, h _ h1, h _ h2, dots4, dots4]
  exact ⟨⟨kick_frame h h1 h2 _ _ _ _, rfl⟩, rfl, rfl⟩

theorem Slider.solve_frame (cfg : JCfg K) (h : Map G (boost u) V W) (J : Slider K) (h1 : G J.b1) (h2 : G J.b2) : Pair G (boost u) (J.solve cfg body V) (J.solve cfg body' W) :=
  (chain (b1 := Slider.b1) (b2 := Slider.b2) (chain (chain (chain (Slider.limitL_frame hb) (Slider.limitU_frame hb)) (Slider.motor_frame hb cfg)) (Slider.rotation_frame hb))
    (Slider.joint_frame hb) J V W h h1 h2).1

end hinge

theorem Joint.solve_frame (cfg : JCfg K) (hb : Map G (moveJ t u) body body') (h : Map G (boost u) V W) (J : Joint K) (h1 : G J.b1) (h2 : G J.b2) :
    Pair G (boost u) (J.solve cfg body V) (J.solve cfg body' W) := by
  cases J with
  | ball J => exact ⟨(Ball.solve_frame hb h J h1 h2).1, congrArg Joint.ball (Ball.solve_frame hb h J h1 h2).2⟩
  | fixed J => exact ⟨(Fixed.solve_frame hb h J h1 h2).1, congrArg Joint.fixed (Fixed.solve_frame hb h J h1 h2).2⟩
  | hinge J => exact ⟨(Hinge.solve_frame hb cfg h J h1 h2).1, congrArg Joint.hinge (Hinge.solve_frame hb cfg h J h1 h2).2⟩
  | slider J => exact ⟨(Slider.solve_frame hb cfg h J h1 h2).1, congrArg Joint.slider (Slider.solve_frame hb cfg h J h1 h2).2⟩

theorem Joint.warm_frame (hb : Map G (moveJ t u) body body') (h : Map G (boost u) V W) (J : Joint K) (h1 : G J.b1) (h2 : G J.b2) : Map G (boost u) (J.warm body V) (J.warm body' W) := by
  intro b g
  rw [Joint.warm_eq, Joint.warm_eq, two_frame hb h1 h2, h b g]
  simp only [boost]
  rw [add3]

theorem reach_frame (A B : JBody K) (r1 r2 : V3 K) : (moveJ t u B).x + r2 - (moveJ t u A).x - r1 = B.x + r2 - A.x - r1 := by
  show B.x + t + r2 - (A.x + t) - r1 = _
  abel

theorem Joint.init_frame (cfg : JCfg K) (hb : Map G (moveJ t u) body body') (J : Joint K) (h1 : G J.b1) (h2 : G J.b2) : J.init cfg body' = J.init cfg body := by
  cases J with
  | ball J =>
    have e1 : body' J.b1 = moveJ t u (body J.b1) := hb _ h1
    have e2 : body' J.b2 = moveJ t u (body J.b2) := hb _ h2
    unfold Joint.init Ball.init; dsimp only; rw [e1, e2, reach_frame]; rfl
  | fixed J =>
    have e1 : body' J.b1 = moveJ t u (body J.b1) := hb _ h1
    have e2 : body' J.b2 = moveJ t u (body J.b2) := hb _ h2
    unfold Joint.init Fixed.init; dsimp only; rw [e1, e2, reach_frame]; rfl
  | hinge J =>
    have e1 : body' J.b1 = moveJ t u (body J.b1) := hb _ h1
    have e2 : body' J.b2 = moveJ t u (body J.b2) := hb _ h2
    unfold Joint.init Hinge.init; dsimp only; rw [e1, e2, reach_frame]; rfl
  | slider J =>
    have e1 : body' J.b1 = moveJ t u (body J.b1) := hb _ h1
    have e2 : body' J.b2 = moveJ t u (body J.b2) := hb _ h2
    unfold Joint.init Slider.init; dsimp only; rw [e1, e2, reach_frame]; rfl

end joints

/-! ### Joints: positions -/

section poses
variable {X Y : Nat → Pose K} {body body' : Nat → PBody K} {c : Two K} {cfg : JCfg K} {t : V3 K}

theorem place_frame (h : Map G (shift t) X Y) (h1 : G c.b1) (h2 : G c.b2) (P1 A1 P2 A2 : V3 K) : Map G (shift t) (place cfg c P1 A1 P2 A2 X) (place cfg c P1 A1 P2 A2 Y) :=
  upd_twice h h1 h2 (fun x => ⟨x.x + V3.had (V3.smul c.m1 c.ll1) P1, spin cfg (V3.had c.la1 (c.I1.act A1)) x.q⟩)
    (fun x => ⟨x.x + V3.had (V3.smul c.m2 c.ll2) P2, spin cfg (V3.had c.la2 (c.I2.act A2)) x.q⟩)
    (fun x => by simp only [shift]; rw [add3]) (fun x => by simp only [shift]; rw [add3])

/-- The vector from one anchor to the other. -/
theorem gap (p p' : Pose K) (r1 r2 : V3 K) : (shift t p').x + r2 - (shift t p).x - r1 = p'.x + r2 - p.x - r1 := by
  show p'.x + t + r2 - (p.x + t) - r1 = _
  abel

theorem jtwist_frame (h : Map G (shift t) X Y) (h1 : G c.b1) (h2 : G c.b2) (A1 A2 : V3 K) : Map G (shift t) (Joints.twist cfg c A1 A2 X) (Joints.twist cfg c A1 A2 Y) :=
  upd_twice h h1 h2 (fun x => ⟨x.x, spin cfg (V3.had c.la1 (c.I1.act A1)) x.q⟩) (fun x => ⟨x.x, spin cfg (V3.had c.la2 (c.I2.act A2)) x.q⟩)
    (fun _ => rfl) (fun _ => rfl)

theorem twoAt_frame (hb : Local.Agree G body body') (h : Map G (shift t) X Y) {b1 b2 : Nat} (h1 : G b1) (h2 : G b2) : twoAt body X b1 b2 = twoAt body' Y b1 b2 := by
  unfold twoAt
  rw [hb _ h1, hb _ h2, h _ h1, h _ h2]
  rfl

theorem armAt_frame (hb : Local.Agree G body body') (h : Map G (shift t) X Y) {b : Nat} (h1 : G b) (a : V3 K) : armAt body X b a = armAt body' Y b a := by
  unfold armAt
  rw [hb _ h1, h _ h1]
  rfl

theorem pull_frame (h : Map G (shift t) X Y) (h1 : G c.b1) (h2 : G c.b2) (dyn : Bool) (r1 r2 : V3 K) : Pair G (shift t) (pull cfg dyn c r1 r2 X) (pull cfg dyn c r1 r2 Y) := by
  unfold pull; dsimp only; rw [h _ h1, h _ h2, gap]
  split
  · exact ⟨place_frame h h1 h2 _ _ _ _, rfl⟩
  · exact ⟨h, rfl⟩

theorem align_frame (h : Map G (shift t) X Y) (h1 : G c.b1) (h2 : G c.b2) (dyn : Bool) (d : Quat K) : Pair G (shift t) (align cfg dyn c d X) (align cfg dyn c d Y) := by
  unfold align; dsimp only; rw [h _ h1, h _ h2]
  split
  · exact ⟨jtwist_frame h h1 h2 _ _, rfl⟩
  · exact ⟨h, rfl⟩

theorem cone_frame (h : Map G (shift t) X Y) (h1 : G c.b1) (h2 : G c.b2) (J : Ball K) : Pair G (shift t) (J.cone' cfg c X) (J.cone' cfg c Y) := by
  unfold Ball.cone'; dsimp only
  split
  · split
    · exact ⟨jtwist_frame h h1 h2 _ _, rfl⟩
    · exact ⟨h, rfl⟩
  · exact ⟨h, rfl⟩

theorem limitsH_frame (h : Map G (shift t) X Y) (h1 : G c.b1) (h2 : G c.b2) (J : Hinge K) (eL eU : K) : Pair G (shift t) (J.limits' cfg c eL eU X) (J.limits' cfg c eL eU Y) := by
  unfold Hinge.limits'; dsimp only
  split
  · refine ⟨?_, rfl⟩
    dsimp only
    split <;> split
    · exact jtwist_frame (jtwist_frame h h1 h2 _ _) h1 h2 _ _
    · exact jtwist_frame h h1 h2 _ _
    · exact jtwist_frame h h1 h2 _ _
    · exact h
  · exact ⟨h, rfl⟩

theorem rotateH_frame (h : Map G (shift t) X Y) (h1 : G c.b1) (h2 : G c.b2) (dyn : Bool) (J : Hinge K) (b v : V3 K) : Pair G (shift t) (J.rotate' cfg dyn c b v X) (J.rotate' cfg dyn c b v Y) := by
  unfold Hinge.rotate'; dsimp only
  split
  · exact ⟨jtwist_frame h h1 h2 _ _, rfl⟩
  · exact ⟨h, rfl⟩

theorem limitsS_frame (h : Map G (shift t) X Y) (h1 : G c.b1) (h2 : G c.b2) (J : Slider K) (e1 : G J.b1) (e2 : G J.b2) : Pair G (shift t) (J.limits' cfg c X) (J.limits' cfg c Y) := by
  have bt : ∀ {X Y : Nat → Pose K}, Map G (shift t) X Y → J.between X = J.between Y := fun h => by unfold Slider.between; rw [h _ e1, h _ e2, gap]
  unfold Slider.limits'; dsimp only
  split
  · refine ⟨?_, rfl⟩
    dsimp only
    rw [bt h]
    have k : ∀ l : K, Map G (shift t) (if J.low = true then place cfg c (V3.smul (-l) J.ax) (V3.smul (-l) J.cx) (V3.smul l J.ax) (V3.smul l J.ex) X else X)
        (if J.low = true then place cfg c (V3.smul (-l) J.ax) (V3.smul (-l) J.cx) (V3.smul l J.ax) (V3.smul l J.ex) Y else Y) := fun l => by
      split
      · exact place_frame h h1 h2 _ _ _ _
      · exact h
    split
    · rw [bt (k _)]
      exact place_frame (k _) h1 h2 _ _ _ _
    · exact k _
  · exact ⟨h, rfl⟩

theorem pullS_frame (h : Map G (shift t) X Y) (h1 : G c.b1) (h2 : G c.b2) (dyn : Bool) (J : Slider K) (u : V3 K) : Pair G (shift t) (Slider.pull' cfg dyn c J u X) (Slider.pull' cfg dyn c J u Y) := by
  unfold Slider.pull'; dsimp only
  split
  · exact ⟨place_frame h h1 h2 _ _ _ _, rfl⟩
  · exact ⟨h, rfl⟩

/-- The three parts of a hinge. -/
theorem tailH_frame (h : Map G (shift t) X Y) (h1 : G c.b1) (h2 : G c.b2) (N : Hinge K) (dyn : Bool) (eL eU : K) (b v r1 r2 : V3 K) :
    Pair G (shift t) ((pull cfg dyn c r1 r2 ((N.limits' cfg c eL eU X).2.rotate' cfg dyn c b v (N.limits' cfg c eL eU X).1).1).1,
        { ((N.limits' cfg c eL eU X).2.rotate' cfg dyn c b v (N.limits' cfg c eL eU X).1).2 with
          k := (pull cfg dyn c r1 r2 ((N.limits' cfg c eL eU X).2.rotate' cfg dyn c b v (N.limits' cfg c eL eU X).1).1).2 })
      ((pull cfg dyn c r1 r2 ((N.limits' cfg c eL eU Y).2.rotate' cfg dyn c b v (N.limits' cfg c eL eU Y).1).1).1,
        { ((N.limits' cfg c eL eU Y).2.rotate' cfg dyn c b v (N.limits' cfg c eL eU Y).1).2 with
          k := (pull cfg dyn c r1 r2 ((N.limits' cfg c eL eU Y).2.rotate' cfg dyn c b v (N.limits' cfg c eL eU Y).1).1).2 }) := by
  obtain ⟨a, a'⟩ := limitsH_frame (cfg := cfg) h h1 h2 N eL eU
  rw [← a']
  obtain ⟨d, d'⟩ := rotateH_frame (cfg := cfg) a h1 h2 dyn (N.limits' cfg c eL eU X).2 b v
  rw [← d']
  obtain ⟨e, e'⟩ := pull_frame (cfg := cfg) d h1 h2 dyn r1 r2
  rw [← e']
  exact ⟨e, rfl⟩

/-- The three parts of a slider. -/
theorem tailS_frame (h : Map G (shift t) X Y) (h1 : G c.b1) (h2 : G c.b2) (N : Slider K) (e1 : G N.b1) (e2 : G N.b2) (dyn : Bool) (d : Quat K) (u : V3 K) :
    Pair G (shift t) (Slider.pull' cfg dyn c { (N.limits' cfg c X).2 with kr := (align cfg dyn c d (N.limits' cfg c X).1).2 } u (align cfg dyn c d (N.limits' cfg c X).1).1)
      (Slider.pull' cfg dyn c { (N.limits' cfg c Y).2 with kr := (align cfg dyn c d (N.limits' cfg c Y).1).2 } u (align cfg dyn c d (N.limits' cfg c Y).1).1) := by
  obtain ⟨a, a'⟩ := limitsS_frame (cfg := cfg) h h1 h2 N e1 e2
  rw [← a']
  obtain ⟨b, b'⟩ := align_frame (cfg := cfg) a h1 h2 dyn d
  rw [← b']
  exact pullS_frame b h1 h2 _ _ _

variable (hb : Local.Agree G body body') (h : Map G (shift t) X Y)
include hb h

theorem Ball.position_frame (J : Ball K) (h1 : G J.b1) (h2 : G J.b2) : Pair G (shift t) (J.position cfg body X) (J.position cfg body' Y) := by
  unfold Ball.position
  dsimp only
  rw [twoAt_frame hb h h1 h2, armAt_frame hb h h1, armAt_frame hb h h2, hb _ h1, hb _ h2]
  generalize hJ : ({ J with r1 := armAt body' Y J.b1 J.a1, r2 := armAt body' Y J.b2 J.a2 } : Ball K) = N
  obtain ⟨a, b⟩ := cone_frame (cfg := cfg) (c := twoAt body' Y J.b1 J.b2) h h1 h2 N
  obtain ⟨c, d⟩ := pull_frame (cfg := cfg) (c := twoAt body' Y J.b1 J.b2) a h1 h2 ((body' J.b1).dyn || (body' J.b2).dyn) (armAt body' Y J.b1 J.a1) (armAt body' Y J.b2 J.a2)
  refine ⟨c, ?_⟩
  dsimp only
  rw [b, d]

theorem Fixed.position_frame (J : Fixed K) (h1 : G J.b1) (h2 : G J.b2) : Pair G (shift t) (J.position cfg body X) (J.position cfg body' Y) := by
  unfold Fixed.position
  dsimp only
  rw [twoAt_frame hb h h1 h2, armAt_frame hb h h1, armAt_frame hb h h2, hb _ h1, hb _ h2]
  obtain ⟨a, b⟩ := pull_frame (cfg := cfg) (c := twoAt body' Y J.b1 J.b2) h h1 h2 ((body' J.b1).dyn || (body' J.b2).dyn) (armAt body' Y J.b1 J.a1) (armAt body' Y J.b2 J.a2)
  obtain ⟨c, d⟩ := align_frame (cfg := cfg) (c := twoAt body' Y J.b1 J.b2) a h1 h2 ((body' J.b1).dyn || (body' J.b2).dyn) J.d
  refine ⟨c, ?_⟩
  dsimp only
  rw [b, d]

theorem Hinge.position_frame (J : Hinge K) (h1 : G J.b1) (h2 : G J.b2) : Pair G (shift t) (J.position cfg body X) (J.position cfg body' Y) := by
  unfold Hinge.position
  dsimp only
  rw [twoAt_frame hb h h1 h2, armAt_frame hb h h1, armAt_frame hb h h2, hb _ h1, hb _ h2, h _ h1, h _ h2]
  exact tailH_frame (c := twoAt body' Y J.b1 J.b2) h h1 h2 _ _ _ _ _ _ _ _

open Local (sliderReady sliderTail slider_eq)

omit hb h in
theorem ready_frame (J : Slider K) (p1 p2 : Pose K) (r1 r2 : V3 K) : sliderReady cfg J (shift t p1) (shift t p2) r1 r2 = sliderReady cfg J p1 p2 r1 r2 := by
  unfold sliderReady
  rw [gap]
  rfl

omit hb in
theorem tail_frame (N : Slider K) (h1 : G c.b1) (h2 : G c.b2) (e1 : G N.b1) (e2 : G N.b2) (dyn : Bool) (d : Quat K) (u : V3 K) :
    Pair G (shift t) (sliderTail cfg N dyn c d u X) (sliderTail cfg N dyn c d u Y) := tailS_frame h h1 h2 N e1 e2 dyn d u

theorem Slider.position_frame (J : Slider K) (h1 : G J.b1) (h2 : G J.b2) : Pair G (shift t) (J.position cfg body X) (J.position cfg body' Y) := by
  have e : J.position cfg body' Y = sliderTail cfg (sliderReady cfg J (X J.b1) (X J.b2) (armAt body X J.b1 J.a1) (armAt body X J.b2 J.a2))
      ((body J.b1).dyn || (body J.b2).dyn) (twoAt body X J.b1 J.b2) J.d ((X J.b2).x + armAt body X J.b2 J.a2 - (X J.b1).x - armAt body X J.b1 J.a1) Y := by
    rw [slider_eq, ← twoAt_frame hb h h1 h2, ← armAt_frame hb h h1, ← armAt_frame hb h h2, ← hb _ h1, ← hb _ h2, h _ h1, h _ h2, gap, ready_frame]
  rw [e, slider_eq]
  refine tail_frame h _ ?_ ?_ ?_ ?_ _ _ _
  exacts [h1, h2, h1, h2]

end poses

end Frame
end RP3D
