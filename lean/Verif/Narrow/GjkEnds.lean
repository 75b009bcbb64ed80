import Verif.Narrow.GjkStep
import Mathlib.Algebra.Order.Archimedean.Basic

/-! The loop of GJK: no assertion is broken, it ends, and how far its distance is from the true one. -/

namespace RP3D
namespace Gjk
variable {K : Type} [Field K] [LinearOrder K] [IsStrictOrderedRing K]
variable {c : Cfg K} {A B : V3 K → Prop} {suppA suppB : V3 K → V3 K}

theorem foldl_max_ge (l : List (Pt K)) : ∀ m : K, m ≤ l.foldl (fun m p => if m < p.w.lengthSq then p.w.lengthSq else m) m ∧
    ∀ p ∈ l, p.w.lengthSq ≤ l.foldl (fun m p => if m < p.w.lengthSq then p.w.lengthSq else m) m := by
  induction l with
  | nil => intro m; simp
  | cons q l ih =>
    intro m
    simp only [List.foldl_cons, List.mem_cons, forall_eq_or_imp]
    obtain ⟨h1, h2⟩ := ih (if m < q.w.lengthSq then q.w.lengthSq else m)
    refine ⟨le_trans ?_ h1, le_trans ?_ h1, h2⟩ <;> split_ifs with h
    · exact h.le
    · exact le_refl _
    · exact le_refl _
    · exact not_lt.1 h

theorem foldl_max_le (l : List (Pt K)) {M : K} : ∀ m : K, m ≤ M → (∀ p ∈ l, p.w.lengthSq ≤ M) →
    l.foldl (fun m p => if m < p.w.lengthSq then p.w.lengthSq else m) m ≤ M := by
  induction l with
  | nil => intro m h _; simpa using h
  | cons q l ih =>
    intro m h hl
    simp only [List.foldl_cons]
    refine ih _ ?_ fun p hp => hl p (List.mem_cons_of_mem _ hp)
    split_ifs
    · exact hl q (List.mem_cons_self ..)
    · exact h

theorem maxLength_ge (s : Simplex K) : 0 ≤ maxLength s ∧ ∀ p ∈ s.pts, p.w.lengthSq ≤ maxLength s := foldl_max_ge _ 0
theorem maxLength_le {s : Simplex K} {M : K} (h0 : 0 ≤ M) (h : ∀ p ∈ s.pts, p.w.lengthSq ≤ M) : maxLength s ≤ M := foldl_max_le _ 0 h0 h

theorem after_none (h : Supports c A B suppA suppB) {margin : K} {x y : St K} (ha : After c A B suppA suppB margin x y none) :
    Head c A B suppA suppB y :=
  Or.inr ⟨ha.1, lt_of_le_of_lt (mul_nonneg h.cfg.eps.le (maxLength_ge _).1) ha.2.1⟩

/-- Whatever the number of turns: no assertion is broken, and the end of the loop comes from one turn at a state of the loop. -/
theorem loop_spec (h : Supports c A B suppA suppB) (margin : K) : ∀ (n : Nat) {x : St K}, Head c A B suppA suppB x →
    (∃ y, loop c suppA suppB margin n x = .running y ∧ Head c A B suppA suppB y) ∨
    ∃ x' y e, loop c suppA suppB margin n x = .done y e ∧ Head c A B suppA suppB x' ∧ After c A B suppA suppB margin x' y (some e) := by
  intro n
  induction n with
  | zero => intro x hx; exact Or.inl ⟨x, rfl, hx⟩
  | succ n ih =>
    intro x hx
    obtain ⟨y, r, hs, ha⟩ := step_spec h margin hx
    rw [loop, hs]
    cases r with
    | none => exact ih (after_none h ha)
    | some e => exact Or.inr ⟨x, y, e, rfl, hx, ha⟩

theorem loop_more (margin : K) : ∀ {n : Nat} {x y : St K} {e : Exit}, loop c suppA suppB margin n x = .done y e →
    ∀ m, n ≤ m → loop c suppA suppB margin m x = .done y e := by
  intro n
  induction n with
  | zero => intro x y e h; simp [loop] at h
  | succ n ih =>
    intro x y e h m hm
    obtain ⟨m, rfl⟩ : ∃ k, m = k + 1 := ⟨m - 1, by omega⟩
    rw [loop] at h ⊢
    split at h
    · simp at h
    · exact ih h m (by omega)
    · exact h

/-! ### The end -/

/-- Close to the origin only one point is left. -/
theorem one_point {x : St K} (hc : c.Ok) (ht : Tip c A B x) (hm : c.eps * maxLength x.s < x.dist) (hs : x.dist ≤ c.eps * c.veps / 4) :
    ∃ p, x.s.pts = [p] ∧ x.v = p.w := by
  rcases hp : x.s.pts with _ | ⟨p, _ | ⟨q, l⟩⟩
  · exact absurd hp ht.kept.ne
  · refine ⟨p, rfl, ?_⟩
    have e : ∀ u : V3 K, u.dot p.w ≤ u.dot x.s.cp := fun u => ht.kept.hull u _ (by rw [hp]; simp)
    have e1 := e ⟨1, 0, 0⟩
    have e2 := e ⟨-1, 0, 0⟩
    have e3 := e ⟨0, 1, 0⟩
    have e4 := e ⟨0, -1, 0⟩
    have e5 := e ⟨0, 0, 1⟩
    have e6 := e ⟨0, 0, -1⟩
    simp only [V3.dot, one_mul, zero_mul, add_zero, zero_add, neg_mul, neg_le_neg_iff] at e1 e2 e3 e4 e5 e6
    rw [ht.v]
    ext
    · exact le_antisymm e2 e1
    · exact le_antisymm e4 e3
    · exact le_antisymm e6 e5
  · exfalso
    have hap := ht.kept.apart
    rw [hp] at hap
    have h1 : c.veps < (q.w - p.w).lengthSq := (List.pairwise_cons.1 hap).1 q (List.mem_cons_self ..)
    have h2 := (maxLength_ge x.s).2 p (by rw [hp]; simp)
    have h3 := (maxLength_ge x.s).2 q (by rw [hp]; simp)
    have h4 : (q.w - p.w).lengthSq ≤ 2 * q.w.lengthSq + 2 * p.w.lengthSq := by
      simp only [V3.lengthSq, V3.sub_x, V3.sub_y, V3.sub_z]
      nlinarith [mul_self_nonneg (q.w.x + p.w.x), mul_self_nonneg (q.w.y + p.w.y), mul_self_nonneg (q.w.z + p.w.z)]
    have h5 : c.veps < 4 * maxLength x.s := by linarith
    nlinarith [hc.eps]

/-- No turn goes on from there. -/
theorem small_stops (h : Supports c A B suppA suppB) {margin : K} {x y : St K} (ht : Tip c A B x) (hm : c.eps * maxLength x.s < x.dist)
    (hs : x.dist ≤ c.eps * c.veps / 4) : ¬ After c A B suppA suppB margin x y none := by
  rintro ⟨hy, hmy, hdec, p, hpw, hfar, hsub⟩
  have hc := h.cfg
  have hx0 : 0 < x.dist := lt_of_le_of_lt (mul_nonneg hc.eps.le (maxLength_ge _).1) hm
  have hlt : y.dist < x.dist := by nlinarith [mul_pos hc.eps hx0]
  obtain ⟨r, hr, hrv⟩ := one_point hc ht hm hs
  obtain ⟨z, hz, hzv⟩ := one_point hc hy hmy (hlt.le.trans hs)
  have hzm := hsub z (by rw [hz]; simp)
  have hyd := hy.dist
  have hxd := ht.dist
  rw [hzv] at hyd
  rw [hrv] at hxd
  rw [hr] at hzm
  simp only [List.cons_append, List.nil_append, List.mem_cons, List.not_mem_nil, or_false] at hzm
  rcases hzm with rfl | rfl
  · rw [hyd, hxd] at hlt
    exact lt_irrefl _ hlt
  · have h1 := hfar r (by rw [hr]; simp)
    have h4 : (r.w - z.w).lengthSq ≤ 2 * r.w.lengthSq + 2 * z.w.lengthSq := by
      simp only [V3.lengthSq, V3.sub_x, V3.sub_y, V3.sub_z]
      nlinarith [mul_self_nonneg (r.w.x + z.w.x), mul_self_nonneg (r.w.y + z.w.y), mul_self_nonneg (r.w.z + z.w.z)]
    have hv : 0 < c.veps := lt_of_lt_of_le hc.eps hc.veps
    nlinarith [hc.eps1, hc.eps]

/-- While the loop goes on the square of the distance shrinks by a factor; it stays above a bound, except at the last turn. -/
theorem running_small (h : Supports c A B suppA suppB) (margin : K) : ∀ (n : Nat) {x y : St K}, Head c A B suppA suppB x →
    loop c suppA suppB margin (n + 1) x = .running y →
    Tip c A B y ∧ c.eps * maxLength y.s < y.dist ∧ y.dist ≤ (1 - c.eps) ^ (n + 1) * x.dist := by
  intro n
  induction n with
  | zero =>
    intro x y hx hr
    obtain ⟨z, r, hs, ha⟩ := step_spec h margin hx
    rw [loop, hs] at hr
    cases r with
    | some e => simp at hr
    | none =>
      simp only [loop, Loop.running.injEq] at hr
      subst hr
      refine ⟨ha.1, ha.2.1, ?_⟩
      have := ha.2.2.1
      rw [pow_succ, pow_zero]
      linarith
  | succ n ih =>
    intro x y hx hr
    obtain ⟨z, r, hs, ha⟩ := step_spec h margin hx
    rw [loop, hs] at hr
    cases r with
    | some e => simp at hr
    | none =>
      obtain ⟨h1, h2, h3⟩ := ih (after_none h ha) hr
      refine ⟨h1, h2, h3.trans ?_⟩
      have hp : 0 ≤ (1 - c.eps) ^ (n + 1) := pow_nonneg (by linarith [h.cfg.eps1]) _
      have hz : z.dist ≤ (1 - c.eps) * x.dist := by linarith [ha.2.2.1]
      calc _ ≤ (1 - c.eps) ^ (n + 1) * ((1 - c.eps) * x.dist) := mul_le_mul_of_nonneg_left hz hp
        _ = _ := by ring

theorem loop_add (margin : K) : ∀ (n m : Nat) (x : St K), loop c suppA suppB margin (n + m) x =
    match loop c suppA suppB margin n x with
    | .running y => loop c suppA suppB margin m y
    | r => r := by
  intro n
  induction n with
  | zero => intro m x; simp [loop]
  | succ n ih =>
    intro m x
    rw [Nat.add_right_comm, loop, loop]
    split
    · rfl
    · exact ih m _
    · rfl

/-- The number of turns has a bound that depends on the constants only. -/
theorem loop_ends [Archimedean K] (hc : c.Ok) : ∃ N : Nat, ∀ (A B : V3 K → Prop) (suppA suppB : V3 K → V3 K), Supports c A B suppA suppB →
    ∀ (margin : K) (x : St K), Head c A B suppA suppB x → x.dist ≤ c.large →
      ∃ y e, loop c suppA suppB margin N x = .done y e := by
  have hv : 0 < c.veps := lt_of_lt_of_le hc.eps hc.veps
  obtain ⟨n, hn⟩ := exists_pow_lt_of_lt_one (show 0 < c.eps * c.veps / 4 / c.large from by have := mul_pos hc.eps hv; have := hc.large; positivity)
    (show 1 - c.eps < 1 by linarith [hc.eps])
  have hn' : (1 - c.eps) ^ (n + 1) * c.large ≤ c.eps * c.veps / 4 := by
    rw [lt_div_iff₀ hc.large] at hn
    have h1 : 0 ≤ (1 - c.eps) ^ n * c.large := mul_nonneg (pow_nonneg (by linarith [hc.eps1]) _) hc.large.le
    rw [pow_succ]
    nlinarith [hc.eps]
  refine ⟨(n + 1) + 1, fun A B suppA suppB h margin x hx hd => ?_⟩
  rcases loop_spec h margin ((n + 1) + 1) hx with ⟨y, hr, -⟩ | ⟨x', y, e, hr, -⟩
  · exfalso
    rw [loop_add] at hr
    rcases loop_spec h margin (n + 1) hx with ⟨z, hz, hzh⟩ | ⟨x', z, e, hz, -⟩
    · rw [hz] at hr
      simp only at hr
      obtain ⟨h1, h2, h3⟩ := running_small h margin n hx hz
      have h4 : z.dist ≤ c.eps * c.veps / 4 :=
        h3.trans ((mul_le_mul_of_nonneg_left hd (pow_nonneg (by linarith [hc.eps1]) _)).trans hn')
      obtain ⟨u, r, hs, ha⟩ := step_spec h margin hzh
      rw [loop, hs] at hr
      cases r with
      | some e => simp at hr
      | none => exact small_stops h h1 h2 h4 ha
    · rw [hz] at hr
      simp at hr
  · exact ⟨y, e, hr⟩

/-! ### The plane through the closest point -/

theorem le_of_sq {a b : K} (hb : 0 ≤ b) (h : a * a ≤ b * b) : a ≤ b := by
  by_contra hn
  nlinarith [not_le.1 hn]

theorem dot_le_of {u v : V3 K} {k l m : K} (hk : 0 ≤ k) (hl : 0 ≤ l) (hu : u.lengthSq ≤ l * l) (hv : v.lengthSq ≤ m) (hm : m ≤ k * k) :
    u.dot v ≤ k * l := by
  refine le_of_sq (mul_nonneg hk hl) ((cauchy u v).trans ?_)
  have h1 := mul_le_mul hu (hv.trans hm) (lengthSq_nonneg v) (mul_nonneg hl hl)
  calc _ ≤ _ := h1
    _ = _ := by ring

theorem dot_sub' (u v w : V3 K) : u.dot (v - w) = u.dot v - u.dot w := by
  simp only [V3.dot, V3.sub_x, V3.sub_y, V3.sub_z]; ring

/-- All differences of points of the two sets are below a bound. -/
def Extent (A B : V3 K → Prop) (M : K) : Prop := ∀ a b, A a → B b → (a - b).lengthSq ≤ M

theorem Tip.extent {M : K} (hM : Extent A B M) {x : St K} (ht : Tip c A B x) : x.v.lengthSq ≤ M := by
  rw [ht.v, ht.kept.cp]
  exact hM _ _ ht.kept.ca ht.kept.cb

theorem plane_inSimplex (h : Supports c A B suppA suppB) {margin k L : K} (hk : 0 ≤ k) (hkv : c.veps ≤ k * k) {x y : St K}
    (ha : After c A B suppA suppB margin x y (some .inSimplex)) (hL : 0 ≤ L) (hLL : L * L = y.dist) {a b : V3 K} (hA : A a) (hB : B b) :
    y.dist - k * L ≤ y.v.dot (a - b) := by
  obtain ⟨rfl, ht, h0, p, hp, hle⟩ := ha
  have h1 := supp_le h y.v hA hB
  have h2 := ht.kept.used p hp
  rw [← ht.v, ← ht.dist] at h2
  have h3 := dot_le_of hk hL (u := y.v) (by rw [hLL]; exact le_of_eq ht.dist.symm) hle hkv
  rw [dot_sub'] at h3
  linarith

theorem plane_converged (h : Supports c A B suppA suppB) {margin k L M : K} (hk : 0 ≤ k) (hM : Extent A B M) (hkr : c.rel * c.rel * M ≤ k * k)
    {x y : St K} (ha : After c A B suppA suppB margin x y (some .converged)) (hL : 0 ≤ L) (hLL : L * L = y.dist) {a b : V3 K} (hA : A a)
    (hB : B b) : y.dist - k * L ≤ y.v.dot (a - b) := by
  obtain ⟨rfl, ht, h0, hle⟩ := ha
  have h1 := supp_le h y.v hA hB
  have h2 := ht.extent hM
  rw [← ht.dist] at h2
  have h3 : c.rel * L ≤ k := by
    refine le_of_sq hk (le_trans ?_ hkr)
    have := mul_le_mul_of_nonneg_left h2 (mul_nonneg h.cfg.rel h.cfg.rel)
    rw [← hLL] at this
    linarith
  have h4 := mul_le_mul_of_nonneg_right h3 hL
  rw [← hLL] at *
  linarith

theorem plane_noProgress (h : Supports c A B suppA suppB) (he : c.eps ≤ 7 / 16) {margin k L M : K} (hk : 0 ≤ k) (hM : Extent A B M)
    (hke : 16 * c.eps * M ≤ k * k)
    {x y : St K} (ha : After c A B suppA suppB margin x y (some .noProgress)) (hL : 0 ≤ L) (hLL : L * L = y.dist) {a b : V3 K} (hA : A a)
    (hB : B b) {X : K} (hX : 0 ≤ X) (hXX : X * X = x.dist) : y.dist - k * L ≤ y.v.dot (a - b) := by
  obtain ⟨ht, h0, hty, hdec, -, hyw, hyx⟩ := ha
  have h1 := supp_le h x.v hA hB
  set w := supp suppA suppB x.v with hw
  have hxM := ht.extent hM
  have hwM : w.lengthSq ≤ M := hM _ _ (h.a _).1 (h.b _).1
  have hM0 : 0 ≤ M := (lengthSq_nonneg _).trans hxM
  have hX0 : 0 < X := by
    rcases hX.lt_or_eq with h | h
    · exact h
    · rw [← h] at hXX; rw [← hXX] at h0; simp at h0
  have hD : (w - x.v).lengthSq ≤ 4 * M := by
    have h4 : (w - x.v).lengthSq ≤ 2 * w.lengthSq + 2 * x.v.lengthSq := by
      simp only [V3.lengthSq, V3.sub_x, V3.sub_y, V3.sub_z]
      nlinarith [mul_self_nonneg (w.x + x.v.x), mul_self_nonneg (w.y + x.v.y), mul_self_nonneg (w.z + x.v.z)]
    linarith
  set g := x.dist - x.v.dot w with hg
  set D := (w - x.v).lengthSq with hDdef
  have hseg : ∀ s, 0 ≤ s → s ≤ 1 → 2 * s * g - s * s * D ≤ c.eps * x.dist := by
    intro s s0 s1
    have e1 : y.v.lengthSq ≤ y.v.dot (V3.smul (1 - s) x.v + V3.smul s w) := by
      have e : y.v.dot (V3.smul (1 - s) x.v + V3.smul s w) = (1 - s) * y.v.dot x.v + s * y.v.dot w := by
        simp only [V3.dot, V3.add_x, V3.add_y, V3.add_z, V3.smul_x, V3.smul_y, V3.smul_z]; ring
      rw [e]
      nlinarith
    have e2 := le_of_opt e1
    have e3 : (V3.smul (1 - s) x.v + V3.smul s w).lengthSq = x.dist - 2 * s * g + s * s * D := by
      rw [hg, hDdef, ht.dist]
      simp only [V3.lengthSq, V3.dot, V3.add_x, V3.add_y, V3.add_z, V3.smul_x, V3.smul_y, V3.smul_z, V3.sub_x, V3.sub_y, V3.sub_z]; ring
    rw [e3, ← hty.dist] at e2
    linarith
  have hD0 : 0 ≤ D := lengthSq_nonneg _
  have heps := h.cfg.eps
  have hkX : k * X * (k * X) = k * k * x.dist := by rw [← hXX]; ring
  have hg2 : 2 * g ≤ k * X := by
    rcases le_or_gt g 0 with hg0 | hg0
    · have := mul_nonneg hk hX; linarith
    · refine le_of_sq (mul_nonneg hk hX) ?_
      rcases le_or_gt g D with hgD | hgD
      · have hDp : 0 < D := lt_of_lt_of_le hg0 hgD
        have h5 := hseg (g / D) (by positivity) ((div_le_one hDp).2 hgD)
        have e : 2 * (g / D) * g - g / D * (g / D) * D = g * g / D := by field_simp; ring
        rw [e, div_le_iff₀ hDp] at h5
        have h6 : c.eps * x.dist * D ≤ c.eps * x.dist * (4 * M) := mul_le_mul_of_nonneg_left hD (mul_nonneg heps.le h0.le)
        have h7 := mul_le_mul_of_nonneg_right hke h0.le
        rw [hkX]
        linarith
      · have h5 := hseg 1 zero_le_one le_rfl
        have h6 : g ≤ c.eps * x.dist := by linarith
        have h7 : g * g ≤ (c.eps * x.dist) * (c.eps * x.dist) := mul_self_le_mul_self hg0.le h6
        have h8 : x.dist ≤ M := by rw [ht.dist]; exact hxM
        have h9 : c.eps * x.dist * (c.eps * x.dist) ≤ c.eps * x.dist * (1 * M) := by
          refine mul_le_mul_of_nonneg_left ?_ (mul_nonneg heps.le h0.le)
          exact mul_le_mul (by linarith) h8 h0.le zero_le_one
        have h10 := mul_le_mul_of_nonneg_right hke h0.le
        have h11 : 0 ≤ c.eps * M * x.dist := mul_nonneg (mul_nonneg heps.le hM0) h0.le
        rw [hkX]
        linarith
  have hxy : (x.v - y.v).lengthSq ≤ c.eps * x.dist := by
    have e : (x.v - y.v).lengthSq = x.v.lengthSq - 2 * y.v.dot x.v + y.v.lengthSq := by
      simp only [V3.lengthSq, V3.dot, V3.sub_x, V3.sub_y, V3.sub_z]; ring
    rw [e, ← ht.dist, ← hty.dist]
    rw [← hty.dist] at hyx
    linarith
  have hcross : 4 * (x.v - y.v).dot (a - b) ≤ k * X := by
    refine le_of_sq (mul_nonneg hk hX) ?_
    have h5 := cauchy (x.v - y.v) (a - b)
    have h6 := mul_le_mul hxy (hM a b hA hB) (lengthSq_nonneg _) (mul_nonneg heps.le h0.le)
    have h7 := mul_le_mul_of_nonneg_right hke h0.le
    rw [hkX]
    linarith
  have e : (x.v - y.v).dot (a - b) = x.v.dot (a - b) - y.v.dot (a - b) := by
    simp only [V3.dot, V3.sub_x, V3.sub_y, V3.sub_z]; ring
  have hYX : y.dist ≤ x.dist := by
    have := le_of_opt hyx
    rw [ht.dist, hty.dist]; exact this
  have h34 : 3 * X ≤ 4 * L := by
    refine le_of_sq (by linarith) ?_
    have h36 := mul_le_mul_of_nonneg_right he h0.le
    have e1 : 3 * X * (3 * X) = 9 * x.dist := by rw [← hXX]; ring
    have e2 : 4 * L * (4 * L) = 16 * y.dist := by rw [← hLL]; ring
    rw [e1, e2]
    linarith
  have h35 := mul_le_mul_of_nonneg_left h34 hk
  rw [e] at hcross
  linarith

theorem plane_dependent (h : Supports c A B suppA suppB) {margin k L : K} (hk : 0 ≤ k) {x y : St K}
    (ha : After c A B suppA suppB margin x y (some .dependent)) (hL : 0 ≤ L) (hLL : L * L = y.dist)
    (h3 : ∀ p q r, y.s.pts = [p, q, r] → c.veps ≤ k * k * (q.w - p.w).lengthSq)
    (h4 : ∀ p q r o, y.s.pts = [p, q, r, o] → c.veps * c.veps ≤ k * k * ((q.w - p.w).cross (r.w - p.w)).lengthSq) {a b : V3 K} (hA : A a)
    (hB : B b) : y.dist - k * L ≤ y.v.dot (a - b) := by
  obtain ⟨ht, h0, hv, hd, -, -, w, hw, hfar, hpts, hdep⟩ := ha
  have h1 := supp_le h x.v hA hB
  rw [← hw] at h1
  have hv0 : 0 < c.veps := lt_of_lt_of_le h.cfg.eps h.cfg.veps
  have key : ∀ p ∈ x.s.pts, x.v.dot (p.w - w.w) ≤ k * L → y.dist - k * L ≤ y.v.dot (a - b) := by
    intro p hp hle
    have h2 := ht.kept.used p hp
    rw [← ht.v, ← ht.dist] at h2
    rw [dot_sub'] at hle
    rw [hv, hd]
    linarith
  have hx2 : x.v.lengthSq = L * L := by rw [hLL, hd, ht.dist]
  have perp : ∀ p q, p ∈ x.s.pts → q ∈ x.s.pts → x.v.dot (q.w - p.w) = 0 := by
    intro p q hp hq
    rw [dot_sub', ht.v, ht.kept.used p hp, ht.kept.used q hq, sub_self]
  rcases hq : x.s.pts with _ | ⟨p, _ | ⟨q, _ | ⟨r, _ | ⟨o, l⟩⟩⟩⟩
  · exact absurd hq ht.kept.ne
  · have h5 := hfar p (by rw [hq]; simp)
    unfold dependent at hdep
    rw [hpts, hq] at hdep
    simp only [List.cons_append, List.nil_append, Option.some.injEq, decide_eq_true_eq] at hdep
    rw [lengthSq_sub_comm] at hdep
    linarith
  · have hp : p ∈ x.s.pts := by rw [hq]; simp
    have h5 := h3 p q w (by rw [hpts, hq]; rfl)
    unfold dependent at hdep
    rw [hpts, hq] at hdep
    simp only [List.cons_append, List.nil_append, Option.some.injEq, decide_eq_true_eq] at hdep
    refine key p hp (le_of_sq (mul_nonneg hk hL) ?_)
    have hpe := perp p q hp (by rw [hq]; simp)
    generalize q.w - p.w = e at *
    have hfe : p.w - w.w = -(w.w - p.w) := by ext <;> simp
    rw [hfe]
    generalize w.w - p.w = f at *
    have hep : 0 < e.lengthSq := by
      rcases (lengthSq_nonneg e).lt_or_eq with h | h
      · exact h
      · rw [← h] at h5; linarith [mul_zero (k * k)]
    have e1 : x.v.dot (-f) * x.v.dot (-f) * e.lengthSq * e.lengthSq = (e.cross f).dot (e.cross x.v) * (e.cross f).dot (e.cross x.v) := by
      have : (e.cross f).dot (e.cross x.v) = x.v.dot f * e.lengthSq - x.v.dot e * e.dot f := by
        simp only [V3.dot, V3.cross, V3.lengthSq]; ring
      rw [this, hpe]
      simp only [V3.dot, V3.neg_x, V3.neg_y, V3.neg_z, V3.lengthSq]; ring
    have e2 : (e.cross x.v).lengthSq = e.lengthSq * x.v.lengthSq := by
      rw [lagrange]
      have : e.dot x.v = 0 := by rw [← hpe]; simp only [V3.dot]; ring
      rw [this]; ring
    have e3 := cauchy (e.cross f) (e.cross x.v)
    rw [← e1, e2] at e3
    have e4 : (e.cross f).lengthSq * (e.lengthSq * x.v.lengthSq) ≤ k * k * e.lengthSq * (e.lengthSq * x.v.lengthSq) :=
      mul_le_mul_of_nonneg_right (hdep.trans h5) (mul_nonneg hep.le (lengthSq_nonneg _))
    have e5 : (x.v.dot (-f) * x.v.dot (-f)) * (e.lengthSq * e.lengthSq) ≤ (k * L * (k * L)) * (e.lengthSq * e.lengthSq) := by
      rw [hx2] at e3 e4
      nlinarith
    exact le_of_mul_le_mul_right e5 (mul_pos hep hep)
  · have hp : p ∈ x.s.pts := by rw [hq]; simp
    have h5 := h4 p q r w (by rw [hpts, hq]; rfl)
    unfold dependent at hdep
    rw [hpts, hq] at hdep
    simp only [List.cons_append, List.nil_append, Option.some.injEq, decide_eq_true_eq] at hdep
    refine key p hp (le_of_sq (mul_nonneg hk hL) ?_)
    have p1 := perp p q hp (by rw [hq]; simp)
    have p2 := perp p r hp (by rw [hq]; simp)
    generalize q.w - p.w = e at *
    generalize r.w - p.w = e' at *
    have hfe : p.w - w.w = -(w.w - p.w) := by ext <;> simp
    rw [hfe]
    generalize w.w - p.w = f at *
    have hvol : e.dot (e'.cross f) = (e.cross e').dot f := by simp only [V3.dot, V3.cross]; ring
    rw [hvol] at hdep
    have hpar : ((e.cross e').cross x.v).lengthSq = 0 := by
      have e0 : (e.cross e').cross x.v = V3.smul (x.v.dot e) e' - V3.smul (x.v.dot e') e := by
        ext <;> simp only [V3.cross, V3.dot, V3.smul_x, V3.smul_y, V3.smul_z, V3.sub_x, V3.sub_y, V3.sub_z] <;> ring
      rw [e0, p1, p2]; simp [V3.lengthSq]
    generalize e.cross e' = n at *
    have hnp : 0 < n.lengthSq := by
      rcases (lengthSq_nonneg n).lt_or_eq with h | h
      · exact h
      · rw [← h] at h5; nlinarith [mul_pos hv0 hv0]
    have hdd : n.dot f * n.dot f ≤ c.veps * c.veps := by
      have := mul_self_le_mul_self (abs_nonneg _) hdep
      rwa [abs_mul_abs_self] at this
    have e1 : x.v.dot (-f) * x.v.dot (-f) * n.lengthSq * n.lengthSq = (x.v.dot n * n.dot f) * (x.v.dot n * n.dot f) := by
      have hz : n.cross x.v = 0 := by
        have hh := hpar
        simp only [V3.lengthSq] at hh
        have z1 := mul_self_nonneg (n.cross x.v).x
        have z2 := mul_self_nonneg (n.cross x.v).y
        have z3 := mul_self_nonneg (n.cross x.v).z
        ext
        · exact mul_self_eq_zero.1 (by linarith)
        · exact mul_self_eq_zero.1 (by linarith)
        · exact mul_self_eq_zero.1 (by linarith)
      have e0 : x.v.dot f * n.lengthSq = x.v.dot n * n.dot f + (n.cross x.v).dot (n.cross f) := by
        simp only [V3.dot, V3.cross, V3.lengthSq]; ring
      rw [hz] at e0
      have e00 : (0 : V3 K).dot (n.cross f) = 0 := by simp [V3.dot]
      rw [e00, add_zero] at e0
      rw [← e0]
      simp only [V3.dot, V3.neg_x, V3.neg_y, V3.neg_z, V3.lengthSq]; ring
    have e3 := cauchy x.v n
    have e4 : (x.v.dot n * n.dot f) * (x.v.dot n * n.dot f) ≤ (x.v.lengthSq * n.lengthSq) * (k * k * n.lengthSq) := by
      have := mul_le_mul e3 (hdd.trans h5) (mul_self_nonneg _) (mul_nonneg (lengthSq_nonneg _) (lengthSq_nonneg _))
      nlinarith
    have e5 : (x.v.dot (-f) * x.v.dot (-f)) * (n.lengthSq * n.lengthSq) ≤ (k * L * (k * L)) * (n.lengthSq * n.lengthSq) := by
      rw [hx2] at e4
      nlinarith
    exact le_of_mul_le_mul_right e5 (mul_pos hnp hnp)
  · have := ht.kept.len
    rw [hq] at this
    simp at this

end Gjk
end RP3D
