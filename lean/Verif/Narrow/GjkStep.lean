import Verif.Narrow.GjkLoop

/-! One turn of the loop of GJK. -/

namespace RP3D
namespace Gjk
variable {K : Type} [Field K] [LinearOrder K] [IsStrictOrderedRing K]

/-- The supports are those of two convex sets, whose difference stays below the largest number. -/
structure Supports (c : Cfg K) (A B : V3 K → Prop) (suppA suppB : V3 K → V3 K) : Prop where
  cfg : c.Ok
  ca : IsConvex A
  cb : IsConvex B
  a : ∀ v, A (suppA v) ∧ ∀ x, A x → v.dot (suppA v) ≤ v.dot x
  b : ∀ v, B (suppB v) ∧ ∀ y, B y → v.dot y ≤ v.dot (suppB v)
  bound : ∀ v, (suppA v - suppB v).lengthSq < c.large * (1 - c.eps)

/-- The variables describe a point of the difference. -/
structure Tip (c : Cfg K) (A B : V3 K → Prop) (x : St K) : Prop where
  kept : Kept c A B x.s
  v : x.v = x.s.cp
  dist : x.dist = x.v.lengthSq

/-- The state before the first turn. -/
structure First (c : Cfg K) (suppA suppB : V3 K → V3 K) (x : St K) : Prop where
  pts : x.s.pts = []
  dist : x.dist = c.large
  v : x.v.lengthSq ≤ c.large
  small : x.v.dot (suppA x.v - suppB x.v) < c.large * (1 - c.rel)

/-- A state at the head of the loop. -/
def Head (c : Cfg K) (A B : V3 K → Prop) (suppA suppB : V3 K → V3 K) (x : St K) : Prop :=
  First c suppA suppB x ∨ (Tip c A B x ∧ 0 < x.dist)

/-- The support point of the difference. -/
def supp (suppA suppB : V3 K → V3 K) (v : V3 K) : V3 K := suppA v - suppB v

/-- What a turn of the loop does. -/
def After (c : Cfg K) (A B : V3 K → Prop) (suppA suppB : V3 K → V3 K) (margin : K) (x y : St K) : Option Exit → Prop
  | none => Tip c A B y ∧ c.eps * maxLength y.s < y.dist ∧ c.eps * x.dist < x.dist - y.dist ∧
      ∃ p : Pt K, p.w = supp suppA suppB x.v ∧ (∀ q ∈ x.s.pts, c.veps < (q.w - p.w).lengthSq) ∧ ∀ q ∈ y.s.pts, q ∈ x.s.pts ++ [p]
  | some .separated => y = x ∧ ∀ a b, A a → B b → margin * margin < (a - b).lengthSq
  | some .inSimplex => y = x ∧ Tip c A B x ∧ 0 < x.dist ∧ ∃ p ∈ x.s.pts, (p.w - supp suppA suppB x.v).lengthSq ≤ c.veps
  | some .converged => y = x ∧ Tip c A B x ∧ 0 < x.dist ∧ x.dist - x.v.dot (supp suppA suppB x.v) ≤ x.dist * c.rel
  | some .dependent => Tip c A B x ∧ 0 < x.dist ∧ y.v = x.v ∧ y.dist = x.dist ∧ y.s.ca = x.s.ca ∧ y.s.cb = x.s.cb ∧
      ∃ p : Pt K, p.w = supp suppA suppB x.v ∧ (∀ q ∈ x.s.pts, c.veps < (q.w - p.w).lengthSq) ∧ y.s.pts = x.s.pts ++ [p] ∧
        dependent c y.s = some true
  | some .failed => False
  | some .noProgress => Tip c A B x ∧ 0 < x.dist ∧ Tip c A B y ∧ x.dist - y.dist ≤ c.eps * x.dist ∧
      (∀ p ∈ x.s.pts, y.v.lengthSq ≤ y.v.dot p.w) ∧ y.v.lengthSq ≤ y.v.dot (supp suppA suppB x.v) ∧
      y.v.lengthSq ≤ y.v.dot x.v
  | some .full => ∃ z, A z ∧ B z
  | some .near => Tip c A B y ∧ y.dist ≤ c.eps * maxLength y.s

theorem dot_self (a : V3 K) : a.dot a = a.lengthSq := rfl

theorem cauchy (a b : V3 K) : a.dot b * a.dot b ≤ a.lengthSq * b.lengthSq := by
  have h := lengthSq_nonneg (a.cross b)
  rw [lagrange] at h
  linarith

theorem supp_le {c : Cfg K} {A B : V3 K → Prop} {suppA suppB : V3 K → V3 K} (h : Supports c A B suppA suppB) (v : V3 K) {a b : V3 K} (ha : A a)
    (hb : B b) : v.dot (supp suppA suppB v) ≤ v.dot (a - b) := by
  have h1 := (h.a v).2 a ha
  have h2 := (h.b v).2 b hb
  have e : ∀ p q : V3 K, v.dot (p - q) = v.dot p - v.dot q := by
    intro p q
    simp only [V3.dot, V3.sub_x, V3.sub_y, V3.sub_z]; ring
  rw [supp, e, e]
  linarith

theorem head_dist {c : Cfg K} {A B : V3 K → Prop} {suppA suppB : V3 K → V3 K} (h : Supports c A B suppA suppB) {x : St K}
    (hx : Head c A B suppA suppB x) : 0 < x.dist ∧ x.v.lengthSq ≤ x.dist := by
  rcases hx with hf | ⟨ht, hp⟩
  · exact ⟨by rw [hf.dist]; exact h.cfg.large, by rw [hf.dist]; exact hf.v⟩
  · exact ⟨hp, le_of_eq ht.dist.symm⟩

theorem separated_sound {c : Cfg K} {A B : V3 K → Prop} {suppA suppB : V3 K → V3 K} (h : Supports c A B suppA suppB) {v : V3 K} {dist margin : K}
    (hd : v.lengthSq ≤ dist) (h0 : 0 < v.dot (supp suppA suppB v))
    (h1 : dist * (margin * margin) < v.dot (supp suppA suppB v) * v.dot (supp suppA suppB v)) {a b : V3 K} (ha : A a) (hb : B b) :
    margin * margin < (a - b).lengthSq := by
  have h2 := supp_le h v ha hb
  have h3 := cauchy v (a - b)
  have h4 := mul_self_le_mul_self h0.le h2
  have h5 : v.lengthSq * (margin * margin) ≤ dist * (margin * margin) := mul_le_mul_of_nonneg_right hd (mul_self_nonneg margin)
  have h6 : v.lengthSq * (margin * margin) < v.lengthSq * (a - b).lengthSq := by linarith
  exact lt_of_mul_lt_mul_left h6 (lengthSq_nonneg v)

theorem step_spec {c : Cfg K} {A B : V3 K → Prop} {suppA suppB : V3 K → V3 K} (h : Supports c A B suppA suppB) (margin : K) {x : St K}
    (hx : Head c A B suppA suppB x) : ∃ y r, step c suppA suppB margin x = some (y, r) ∧ After c A B suppA suppB margin x y r := by
  obtain ⟨hd0, hd1⟩ := head_dist h hx
  have hc := h.cfg
  have hlen : x.s.pts.length ≤ 3 := by
    rcases hx with hf | ⟨ht, -⟩
    · simp [hf.pts]
    · exact ht.kept.len
  have hnil : x.s.pts = [] → First c suppA suppB x := by
    intro e
    rcases hx with hf | ⟨ht, -⟩
    · exact hf
    · exact absurd e ht.kept.ne
  have htip : x.s.pts ≠ [] → Tip c A B x := by
    intro e
    rcases hx with hf | ⟨ht, -⟩
    · exact absurd hf.pts e
    · exact ht
  unfold step
  simp only []
  change ∃ y r, (if 0 < x.v.dot (supp suppA suppB x.v) ∧ x.dist * (margin * margin) < x.v.dot (supp suppA suppB x.v) * x.v.dot (supp suppA suppB x.v) then _
    else if inSimplex c x.s (supp suppA suppB x.v) = true then _ else if x.dist - x.v.dot (supp suppA suppB x.v) ≤ x.dist * c.rel then _ else _) = some (y, r) ∧ _
  split_ifs with h1 h2 h3
  · exact ⟨_, _, rfl, rfl, fun a b ha hb => separated_sound h hd1 h1.1 h1.2 ha hb⟩
  · simp only [inSimplex, List.any_eq_true, decide_eq_true_eq] at h2
    obtain ⟨p, hp, hle⟩ := h2
    exact ⟨_, _, rfl, rfl, htip (List.ne_nil_of_mem hp), hd0, p, hp, hle⟩
  · refine ⟨_, _, rfl, rfl, htip fun e => ?_, hd0, h3⟩
    have hf := hnil e
    have := hf.small
    rw [hf.dist] at h3
    change x.v.dot (supp suppA suppB x.v) < _ at this
    linarith
  · have hadd : addPoint x.s ⟨suppA x.v - suppB x.v, suppA x.v, suppB x.v⟩ = some { x.s with pts := x.s.pts ++ [⟨suppA x.v - suppB x.v, suppA x.v, suppB x.v⟩] } := by
      unfold addPoint
      rw [if_neg (by omega)]
    rw [hadd]
    set np : Pt K := ⟨suppA x.v - suppB x.v, suppA x.v, suppB x.v⟩ with hnp
    have hnl : np.w.lengthSq < c.large := by
      have := h.bound x.v
      have h5 : c.large * (1 - c.eps) ≤ c.large := by nlinarith [hc.large, hc.eps]
      exact lt_of_lt_of_le this h5
    have hno : OfSets c A B np := ⟨(h.a x.v).1, (h.b x.v).1, rfl, hnl⟩
    have hpts : ∀ p ∈ x.s.pts ++ [np], OfSets c A B p := by
      intro p hp
      rw [List.mem_append] at hp
      rcases hp with hp | hp
      · exact (htip (List.ne_nil_of_mem hp)).kept.pts p hp
      · rw [List.mem_singleton] at hp; subst hp; exact hno
    have hap : (x.s.pts ++ [np]).Pairwise (Apart c) := by
      rw [List.pairwise_append]
      refine ⟨?_, by simp, ?_⟩
      · by_cases e : x.s.pts = []
        · rw [e]; simp
        · exact (htip e).kept.apart
      · intro p hp q hq
        rw [List.mem_singleton] at hq
        subst hq
        simp only [inSimplex, List.any_eq_true, decide_eq_true_eq, not_exists, not_and, not_le] at h2
        unfold Apart
        rw [lengthSq_sub_comm]
        exact h2 p hp
    have hfar : ∀ q ∈ x.s.pts, c.veps < (q.w - np.w).lengthSq := by
      intro q hq
      simp only [inSimplex, List.any_eq_true, decide_eq_true_eq, not_exists, not_and, not_le] at h2
      exact h2 q hq
    have hl4 : (x.s.pts ++ [np]).length ≤ 4 := by simp; omega
    obtain ⟨dep, hdep⟩ : ∃ dep, dependent c { x.s with pts := x.s.pts ++ [np] } = some dep := by
      unfold dependent
      simp only []
      rcases hq : x.s.pts ++ [np] with _ | ⟨p, _ | ⟨q, _ | ⟨r, _ | ⟨o, _ | ⟨z, l⟩⟩⟩⟩⟩
      · exact ⟨_, rfl⟩
      · exact ⟨_, rfl⟩
      · exact ⟨_, rfl⟩
      · exact ⟨_, rfl⟩
      · exact ⟨_, rfl⟩
      · rw [hq] at hl4; simp at hl4
    simp only [Option.bind_eq_bind, Option.bind_some]
    rw [hdep]
    simp only [Option.bind_some]
    cases dep with
    | true =>
      have hne : x.s.pts ≠ [] := by
        intro e
        rw [e] at hdep
        simp [dependent] at hdep
      exact ⟨_, _, rfl, htip hne, hd0, rfl, rfl, rfl, rfl, np, rfl, hfar, rfl, hdep⟩
    | false =>
      obtain ⟨s', hs', hval, hcase⟩ := recompute_spec hc h.ca h.cb (s := { x.s with pts := x.s.pts ++ [np] }) (by simp) hl4 hpts hap hdep
      rw [hs']
      simp only [Option.bind_some, hval]
      rcases hcase with ⟨hlen4, hcp, hz⟩ | ⟨hk, hsub, hopt⟩
      · have hz0 : s'.cp.lengthSq = 0 := by rw [hcp]; simp [V3.lengthSq]
        have hnp2 : ¬ x.dist - s'.cp.lengthSq ≤ c.eps * x.dist := by
          rw [hz0]
          nlinarith [hc.eps1]
        refine ⟨⟨s', s'.cp, s'.cp.lengthSq⟩, some .full, ?_, hz⟩
        rw [if_neg (by simp), if_neg (by simp), if_neg hnp2, if_pos hlen4]
      · have hcpo : ∀ p ∈ x.s.pts, s'.cp.lengthSq ≤ s'.cp.dot p.w := fun p hp => hopt p (by simp [hp])
        have hnpo : s'.cp.lengthSq ≤ s'.cp.dot (supp suppA suppB x.v) := hopt np (by simp)
        have ht' : Tip c A B ⟨s', s'.cp, s'.cp.lengthSq⟩ := ⟨hk, rfl, rfl⟩
        have hl3 : ¬ s'.pts.length = 4 := by have := hk.len; omega
        rw [if_neg (by simp), if_neg (by simp)]
        by_cases g1 : x.dist - s'.cp.lengthSq ≤ c.eps * x.dist
        · have hne : x.s.pts ≠ [] := by
            intro e
            have hf := hnil e
            have hle : s'.cp.lengthSq ≤ np.w.lengthSq := le_of_opt hnpo
            have hb := h.bound x.v
            rw [hf.dist] at g1
            change np.w.lengthSq < _ at hb
            nlinarith
          refine ⟨⟨s', s'.cp, s'.cp.lengthSq⟩, some .noProgress, by rw [if_pos g1], htip hne, hd0, ht', g1, hcpo, hnpo, ?_⟩
          simp only
          rw [(htip hne).v]
          exact (htip hne).kept.hull _ _ hcpo
        · rw [if_neg g1, if_neg hl3]
          by_cases g2 : c.eps * maxLength s' < s'.cp.lengthSq
          · exact ⟨⟨s', s'.cp, s'.cp.lengthSq⟩, none, by rw [if_pos g2], ht', g2, not_le.1 g1, np, rfl, hfar, hsub⟩
          · exact ⟨⟨s', s'.cp, s'.cp.lengthSq⟩, some .near, by rw [if_neg g2], ht', not_lt.1 g2⟩

end Gjk
end RP3D
