import Verif.Narrow.GjkTetra

/-! The simplex kept by the loop of GJK. -/

namespace RP3D
namespace Gjk
variable {K : Type} [Field K] [LinearOrder K] [IsStrictOrderedRing K]

/-- A convex set. -/
def IsConvex (S : V3 K → Prop) : Prop := ∀ x y s, S x → S y → 0 ≤ s → s ≤ 1 → S (V3.smul (1 - s) x + V3.smul s y)

theorem IsConvex.three {S : V3 K → Prop} (h : IsConvex S) {x y z : V3 K} {u v w : K} (hx : S x) (hy : S y) (hz : S z) (hu : 0 ≤ u) (hv : 0 ≤ v)
    (hw : 0 ≤ w) (hs : u + v + w = 1) : S (V3.smul u x + V3.smul v y + V3.smul w z) := by
  by_cases h1 : w = 1
  · have hu0 : u = 0 := by linarith
    have hv0 : v = 0 := by linarith
    have e : V3.smul u x + V3.smul v y + V3.smul w z = z := by
      subst h1 hu0 hv0
      ext <;> simp
    rw [e]; exact hz
  · have hw1 : 0 < 1 - w := by
      have : w ≤ 1 := by linarith
      exact sub_pos.2 (lt_of_le_of_ne this h1)
    have hq := h x y (v / (1 - w)) hx hy (by positivity) (by rw [div_le_one hw1]; linarith)
    have hr := h _ z w hq hz hw (by linarith)
    have e1 : (1 - w) * (v / (1 - w)) = v := mul_div_cancel₀ _ hw1.ne'
    have e2 : (1 - w) * (1 - v / (1 - w)) = u := by rw [mul_sub, e1]; linarith
    have e : V3.smul u x + V3.smul v y + V3.smul w z = V3.smul (1 - w) (V3.smul (1 - v / (1 - w)) x + V3.smul (v / (1 - w)) y) + V3.smul w z := by
      rw [← e2]
      ext <;> simp only [V3.add_x, V3.add_y, V3.add_z, V3.smul_x, V3.smul_y, V3.smul_z]
      · linear_combination (-y.x) * e1
      · linear_combination (-y.y) * e1
      · linear_combination (-y.z) * e1
    rw [e]; exact hr

theorem IsConvex.four {S : V3 K → Prop} (h : IsConvex S) {a b c d : V3 K} {l0 l1 l2 l3 : K} (ha : S a) (hb : S b) (hc : S c) (hd : S d)
    (h0 : 0 ≤ l0) (h1 : 0 ≤ l1) (h2 : 0 ≤ l2) (h3 : 0 ≤ l3) (hs : l0 + l1 + l2 + l3 = 1) : S (mix l0 l1 l2 l3 a b c d) := by
  by_cases h4 : l3 = 1
  · have z0 : l0 = 0 := by linarith
    have z1 : l1 = 0 := by linarith
    have z2 : l2 = 0 := by linarith
    have e : mix l0 l1 l2 l3 a b c d = d := by
      subst h4 z0 z1 z2
      ext <;> simp [mix]
    rw [e]; exact hd
  · have hw1 : 0 < 1 - l3 := by
      have : l3 ≤ 1 := by linarith
      exact sub_pos.2 (lt_of_le_of_ne this h4)
    have e0 : (1 - l3) * (l0 / (1 - l3)) = l0 := mul_div_cancel₀ _ hw1.ne'
    have e1 : (1 - l3) * (l1 / (1 - l3)) = l1 := mul_div_cancel₀ _ hw1.ne'
    have e2 : (1 - l3) * (l2 / (1 - l3)) = l2 := mul_div_cancel₀ _ hw1.ne'
    have hq := h.three (u := l0 / (1 - l3)) (v := l1 / (1 - l3)) (w := l2 / (1 - l3)) ha hb hc (by positivity) (by positivity) (by positivity)
      (by rw [← add_div, ← add_div, div_eq_one_iff_eq hw1.ne']; linarith)
    have hr := h _ d l3 hq hd h3 (by linarith)
    have e : mix l0 l1 l2 l3 a b c d = V3.smul (1 - l3) (V3.smul (l0 / (1 - l3)) a + V3.smul (l1 / (1 - l3)) b + V3.smul (l2 / (1 - l3)) c) +
        V3.smul l3 d := by
      ext <;> simp only [mix, V3.add_x, V3.add_y, V3.add_z, V3.smul_x, V3.smul_y, V3.smul_z]
      · linear_combination (-a.x) * e0 - b.x * e1 - c.x * e2
      · linear_combination (-a.y) * e0 - b.y * e1 - c.y * e2
      · linear_combination (-a.z) * e0 - b.z * e1 - c.z * e2
    rw [e]; exact hr

/-! `reduceSimplex` keeps the used points. -/

theorem reduce_two {bits : Nat} (h0 : bits ≠ 0) (h1 : bits ≤ 3) (p q : Pt K) :
    reduce bits [p, q] ≠ [] ∧ (reduce bits [p, q]).length ≤ 2 ∧
    (∀ x ∈ reduce bits [p, q], (1 &&& bits ≠ 0 ∧ x = p) ∨ (2 &&& bits ≠ 0 ∧ x = q)) ∧
    ((1 &&& bits ≠ 0 → p ∈ reduce bits [p, q]) ∧ (2 &&& bits ≠ 0 → q ∈ reduce bits [p, q])) ∧
    ∀ R : Pt K → Pt K → Prop, (∀ x y, R x y → R y x) → [p, q].Pairwise R → (reduce bits [p, q]).Pairwise R := by
  interval_cases bits <;> simp [reduce, removePoint] at h0 ⊢

theorem reduce_three {bits : Nat} (h0 : bits ≠ 0) (h1 : bits ≤ 7) (p q r : Pt K) :
    reduce bits [p, q, r] ≠ [] ∧ (reduce bits [p, q, r]).length ≤ 3 ∧
    (∀ x ∈ reduce bits [p, q, r], (1 &&& bits ≠ 0 ∧ x = p) ∨ (2 &&& bits ≠ 0 ∧ x = q) ∨ (4 &&& bits ≠ 0 ∧ x = r)) ∧
    ((1 &&& bits ≠ 0 → p ∈ reduce bits [p, q, r]) ∧ (2 &&& bits ≠ 0 → q ∈ reduce bits [p, q, r]) ∧ (4 &&& bits ≠ 0 → r ∈ reduce bits [p, q, r])) ∧
    ∀ R : Pt K → Pt K → Prop, (∀ x y, R x y → R y x) → [p, q, r].Pairwise R → (reduce bits [p, q, r]).Pairwise R := by
  interval_cases bits <;> simp [reduce, removePoint] at h0 ⊢ <;> grind

theorem reduce_four {bits : Nat} (h0 : bits ≠ 0) (h1 : bits ≤ 14) (p q r o : Pt K) :
    reduce bits [p, q, r, o] ≠ [] ∧ (reduce bits [p, q, r, o]).length ≤ 3 ∧
    (∀ x ∈ reduce bits [p, q, r, o], (1 &&& bits ≠ 0 ∧ x = p) ∨ (2 &&& bits ≠ 0 ∧ x = q) ∨ (4 &&& bits ≠ 0 ∧ x = r) ∨ (8 &&& bits ≠ 0 ∧ x = o)) ∧
    ((1 &&& bits ≠ 0 → p ∈ reduce bits [p, q, r, o]) ∧ (2 &&& bits ≠ 0 → q ∈ reduce bits [p, q, r, o]) ∧
      (4 &&& bits ≠ 0 → r ∈ reduce bits [p, q, r, o]) ∧ (8 &&& bits ≠ 0 → o ∈ reduce bits [p, q, r, o])) ∧
    ∀ R : Pt K → Pt K → Prop, (∀ x y, R x y → R y x) → [p, q, r, o].Pairwise R → (reduce bits [p, q, r, o]).Pairwise R := by
  interval_cases bits <;> simp [reduce, removePoint] at h0 ⊢ <;> grind

theorem reduce_all (p q r o : Pt K) : reduce 15 [p, q, r, o] = [p, q, r, o] := by
  simp [reduce]

/-- `computeClosestPointOnSegment`: the point found is the closest one, and the used points are those with which it is computed. -/
theorem segment_ok (a b : V3 K) : let r := segment a b
    0 ≤ r.1 ∧ r.1 ≤ 1 ∧ r.2 ≠ 0 ∧ r.2 ≤ 3 ∧
    let p := V3.smul (1 - r.1) a + V3.smul r.1 b
    p.lengthSq ≤ p.dot a ∧ p.lengthSq ≤ p.dot b ∧ (1 &&& r.2 = 0 → r.1 = 1) ∧ (2 &&& r.2 = 0 → r.1 = 0) ∧
    (1 &&& r.2 ≠ 0 → p.dot a = p.lengthSq) ∧ (2 &&& r.2 ≠ 0 → p.dot b = p.lengthSq) := by
  have e : ∀ t : K, (V3.smul (1 - t) a + V3.smul t b).dot a - (V3.smul (1 - t) a + V3.smul t b).lengthSq =
      -(t * (-((-a).dot (b - a)) + t * (b - a).lengthSq)) ∧
      (V3.smul (1 - t) a + V3.smul t b).dot b - (V3.smul (1 - t) a + V3.smul t b).lengthSq =
      (1 - t) * (-((-a).dot (b - a)) + t * (b - a).lengthSq) := by
    intro t
    constructor <;> simp only [V3.dot, V3.lengthSq, V3.sub_x, V3.sub_y, V3.sub_z, V3.add_x, V3.add_y, V3.add_z, V3.smul_x, V3.smul_y, V3.smul_z,
      V3.neg_x, V3.neg_y, V3.neg_z] <;> ring
  simp only [segment]
  generalize (-a).dot (b - a) = d at *
  generalize (b - a).lengthSq = l at *
  split_ifs with h1 h2
  · have hl : 0 < l := h1.trans h2
    obtain ⟨e1, e2⟩ := e (d / l)
    rw [div_mul_cancel₀ _ hl.ne'] at e1 e2
    simp only [neg_add_cancel, mul_zero, neg_zero] at e1 e2
    refine ⟨by positivity, by rw [div_le_one hl]; exact h2.le, by simp, by simp, by linarith, by linarith, fun h => by simp at h,
      fun h => by simp at h, fun _ => by linarith, fun _ => by linarith⟩
  · obtain ⟨e1, e2⟩ := e 1
    refine ⟨zero_le_one, le_rfl, by simp, by simp, by linarith, by linarith, fun _ => rfl, fun h => by simp at h,
      fun h => by simp at h, fun _ => by linarith⟩
  · obtain ⟨e1, e2⟩ := e 0
    refine ⟨le_rfl, zero_le_one, by simp, by simp, by linarith, by linarith, fun h => by simp at h, fun _ => rfl, fun _ => by linarith,
      fun h => by simp at h⟩

/-- The numbers of the algorithm are as in the code: `0 < MACHINE_EPSILON ≤ VoronoiSimplex::epsilon`. -/
structure Cfg.Ok (c : Cfg K) : Prop where
  eps : 0 < c.eps
  eps1 : c.eps < 1
  veps : c.eps ≤ c.veps
  rel : 0 ≤ c.rel
  rel1 : c.rel < 1
  large : 0 < c.large

/-- A point of the difference of two sets, as the simplex stores it. -/
structure OfSets (c : Cfg K) (A B : V3 K → Prop) (p : Pt K) : Prop where
  a : A p.a
  b : B p.b
  w : p.w = p.a - p.b
  lt : p.w.lengthSq < c.large

/-- Two points of a simplex are not close to each other. -/
def Apart (c : Cfg K) (p q : Pt K) : Prop := c.veps < (q.w - p.w).lengthSq

/-- The closest point kept in the simplex is the difference of a point of A and a point of B; all points of the simplex are needed for it. -/
structure Kept (c : Cfg K) (A B : V3 K → Prop) (s : Simplex K) : Prop where
  ne : s.pts ≠ []
  len : s.pts.length ≤ 3
  pts : ∀ p ∈ s.pts, OfSets c A B p
  apart : s.pts.Pairwise (Apart c)
  ca : A s.ca
  cb : B s.cb
  cp : s.cp = s.ca - s.cb
  used : ∀ p ∈ s.pts, s.cp.dot p.w = s.cp.lengthSq
  valid : s.valid = true
  hull : ∀ (u : V3 K) (m : K), (∀ p ∈ s.pts, m ≤ u.dot p.w) → m ≤ u.dot s.cp

theorem weigh {l m k : K} {P : Prop} (hl : 0 ≤ l) (hz : ¬ P → l = 0) (h : P → m ≤ k) : l * m ≤ l * k := by
  by_cases hp : P
  · exact mul_le_mul_of_nonneg_left (h hp) hl
  · rw [hz hp]; simp

theorem tri_sub (t : Tri K) (a b c a' b' c' : V3 K) : t.point a b c - t.point a' b' c' = t.point (a - a') (b - b') (c - c') := by
  ext <;> simp only [Tri.point, V3.sub_x, V3.sub_y, V3.sub_z, V3.add_x, V3.add_y, V3.add_z, V3.smul_x, V3.smul_y, V3.smul_z] <;> ring

theorem mix_sub (l0 l1 l2 l3 : K) (a b c d a' b' c' d' : V3 K) :
    mix l0 l1 l2 l3 a b c d - mix l0 l1 l2 l3 a' b' c' d' = mix l0 l1 l2 l3 (a - a') (b - b') (c - c') (d - d') := by
  ext <;> simp only [mix, V3.sub_x, V3.sub_y, V3.sub_z, V3.add_x, V3.add_y, V3.add_z, V3.smul_x, V3.smul_y, V3.smul_z] <;> ring

set_option maxHeartbeats 1000000 in
/-- The closest point of a simplex that is not degenerate. -/
theorem recompute_spec {c : Cfg K} (hc : c.Ok) {A B : V3 K → Prop} (hA : IsConvex A) (hB : IsConvex B) {s : Simplex K} (hne : s.pts ≠ [])
    (hlen : s.pts.length ≤ 4) (hp : ∀ p ∈ s.pts, OfSets c A B p) (ha : s.pts.Pairwise (Apart c)) (hd : dependent c s = some false) :
    ∃ s', recompute c s = some s' ∧ s'.valid = true ∧
      ((s'.pts.length = 4 ∧ s'.cp = 0 ∧ ∃ x, A x ∧ B x) ∨
       (Kept c A B s' ∧ (∀ p ∈ s'.pts, p ∈ s.pts) ∧ ∀ p ∈ s.pts, s'.cp.lengthSq ≤ s'.cp.dot p.w)) := by
  obtain ⟨pts, cp0, ca0, cb0, v0⟩ := s
  have hsym : ∀ x y : Pt K, Apart c x y → Apart c y x := by
    intro x y h
    unfold Apart at *
    rw [lengthSq_sub_comm]; exact h
  have hle : ∀ x y : Pt K, Apart c x y → c.eps < (y.w - x.w).lengthSq := fun x y h => lt_of_le_of_lt hc.veps h
  have hv0 : 0 ≤ c.veps := hc.eps.le.trans hc.veps
  match pts with
  | [] => exact absurd rfl hne
  | [p] =>
    have hpo := hp p (by simp)
    refine ⟨_, rfl, by simp [validCoords], Or.inr ⟨⟨by simp, by simp, hp, by simp, hpo.a, hpo.b, hpo.w, ?_, by simp [validCoords], ?_⟩, fun q h => h, ?_⟩⟩
    · intro q hq
      have : q = p := by simpa using hq
      subst this; rfl
    · exact fun u m hm => hm p (by simp)
    · intro q hq
      have : q = p := by simpa using hq
      subst this; exact le_of_eq rfl
  | [p, q] =>
    have hpo := hp p (by simp)
    have hqo := hp q (by simp)
    obtain ⟨g0, g1, gn, g3, oa, ob, za, zb, ua, ub⟩ := segment_ok p.w q.w
    obtain ⟨r0, r1, r2, rm, r3⟩ := reduce_two gn g3 p q
    have hval : validCoords (1 - (segment p.w q.w).1) (segment p.w q.w).1 0 0 = true := by
      simp [validCoords, g0, g1]
    have eA : p.a + V3.smul (segment p.w q.w).1 (q.a - p.a) = V3.smul (1 - (segment p.w q.w).1) p.a + V3.smul (segment p.w q.w).1 q.a := by
      ext <;> simp only [V3.sub_x, V3.sub_y, V3.sub_z, V3.add_x, V3.add_y, V3.add_z, V3.smul_x, V3.smul_y, V3.smul_z] <;> ring
    have eB : p.b + V3.smul (segment p.w q.w).1 (q.b - p.b) = V3.smul (1 - (segment p.w q.w).1) p.b + V3.smul (segment p.w q.w).1 q.b := by
      ext <;> simp only [V3.sub_x, V3.sub_y, V3.sub_z, V3.add_x, V3.add_y, V3.add_z, V3.smul_x, V3.smul_y, V3.smul_z] <;> ring
    have eP : (p.a + V3.smul (segment p.w q.w).1 (q.a - p.a)) - (p.b + V3.smul (segment p.w q.w).1 (q.b - p.b)) =
        V3.smul (1 - (segment p.w q.w).1) p.w + V3.smul (segment p.w q.w).1 q.w := by
      generalize (segment p.w q.w).1 = t
      rw [hpo.w, hqo.w]
      ext <;> simp only [V3.sub_x, V3.sub_y, V3.sub_z, V3.add_x, V3.add_y, V3.add_z, V3.smul_x, V3.smul_y, V3.smul_z] <;> ring
    refine ⟨_, rfl, hval, Or.inr ⟨⟨r0, by simp only; omega, ?_, r3 (Apart c) hsym ha, ?_, ?_, rfl, ?_, hval, ?_⟩, ?_, ?_⟩⟩
    · intro x hx
      rcases r2 x hx with ⟨-, rfl⟩ | ⟨-, rfl⟩ <;> assumption
    · simp only; rw [eA]; exact hA _ _ _ hpo.a hqo.a g0 g1
    · simp only; rw [eB]; exact hB _ _ _ hpo.b hqo.b g0 g1
    · intro x hx
      simp only
      rw [eP]
      rcases r2 x hx with ⟨h, rfl⟩ | ⟨h, rfl⟩
      · exact ua h
      · exact ub h
    · intro u m hm
      simp only
      rw [eP]
      have e : u.dot (V3.smul (1 - (segment p.w q.w).1) p.w + V3.smul (segment p.w q.w).1 q.w) =
          (1 - (segment p.w q.w).1) * u.dot p.w + (segment p.w q.w).1 * u.dot q.w := by
        simp only [V3.dot, V3.add_x, V3.add_y, V3.add_z, V3.smul_x, V3.smul_y, V3.smul_z]; ring
      rw [e]
      have k1 := weigh (sub_nonneg.2 g1) (fun hh => by rw [za (not_not.1 hh), sub_self]) (fun hh => hm p (rm.1 hh))
      have k2 := weigh g0 (fun hh => zb (not_not.1 hh)) (fun hh => hm q (rm.2 hh))
      linarith
    · intro x hx
      rcases r2 x hx with ⟨-, rfl⟩ | ⟨-, rfl⟩ <;> simp
    · intro x hx
      simp only
      rw [eP]
      simp only [List.mem_cons, List.not_mem_nil, or_false] at hx
      rcases hx with rfl | rfl
      · exact oa
      · exact ob
  | [p, q, r] =>
    have hpo := hp p (by simp)
    have hqo := hp q (by simp)
    have hro := hp r (by simp)
    simp only [List.pairwise_cons, List.mem_cons, List.not_mem_nil, or_false, forall_eq_or_imp, forall_eq] at ha
    have hn : 0 < ((q.w - p.w).cross (r.w - p.w)).lengthSq := by
      simp only [dependent, Option.some.injEq, decide_eq_false_iff_not, not_le] at hd
      exact lt_of_le_of_lt hv0 hd
    obtain ⟨t, ht⟩ := triangle_some (cf := c) (hle _ _ ha.1.1) (hle _ _ ha.1.2) (hle _ _ ha.2.1)
    have ok := triangle_ok hn ht
    obtain ⟨r0, r1, r2, rm, r3⟩ := reduce_three ok.lo ok.hi p q r
    have hval : validCoords t.u t.v t.w 0 = true := by simp [validCoords, ok.u, ok.v, ok.w]
    have eP : t.point p.a q.a r.a - t.point p.b q.b r.b = t.point p.w q.w r.w := by rw [tri_sub, ← hpo.w, ← hqo.w, ← hro.w]
    refine ⟨⟨reduce t.bits [p, q, r], t.point p.a q.a r.a - t.point p.b q.b r.b, t.point p.a q.a r.a, t.point p.b q.b r.b,
      validCoords t.u t.v t.w 0⟩, by simp [recompute, ht], hval, Or.inr ⟨⟨r0, r1, ?_, r3 (Apart c) hsym ?_, hA.three hpo.a hqo.a hro.a ok.u ok.v ok.w ok.sum,
        hB.three hpo.b hqo.b hro.b ok.u ok.v ok.w ok.sum, rfl, ?_, hval, ?_⟩, ?_, ?_⟩⟩
    · intro x hx
      rcases r2 x hx with ⟨-, rfl⟩ | ⟨-, rfl⟩ | ⟨-, rfl⟩ <;> assumption
    · simpa using ha
    · intro x hx
      simp only
      rw [eP]
      rcases r2 x hx with ⟨h, rfl⟩ | ⟨h, rfl⟩ | ⟨h, rfl⟩
      · exact ok.ua h
      · exact ok.ub h
      · exact ok.uc h
    · intro u m hm
      simp only
      rw [eP]
      have e : u.dot (t.point p.w q.w r.w) = t.u * u.dot p.w + t.v * u.dot q.w + t.w * u.dot r.w := by
        simp only [Tri.point, V3.dot, V3.add_x, V3.add_y, V3.add_z, V3.smul_x, V3.smul_y, V3.smul_z]; ring
      rw [e]
      have k1 := weigh ok.u (fun hh => ok.za (not_not.1 hh)) (fun hh => hm p (rm.1 hh))
      have k2 := weigh ok.v (fun hh => ok.zb (not_not.1 hh)) (fun hh => hm q (rm.2.1 hh))
      have k3 := weigh ok.w (fun hh => ok.zc (not_not.1 hh)) (fun hh => hm r (rm.2.2 hh))
      have k4 : m = t.u * m + t.v * m + t.w * m := by rw [← add_mul, ← add_mul, ok.sum, one_mul]
      linarith
    · intro x hx
      rcases r2 x hx with ⟨-, rfl⟩ | ⟨-, rfl⟩ | ⟨-, rfl⟩ <;> simp
    · intro x hx
      simp only
      rw [eP]
      simp only [List.mem_cons, List.not_mem_nil, or_false] at hx
      rcases hx with rfl | rfl | rfl
      · exact ok.oa
      · exact ok.ob
      · exact ok.oc
  | [p, q, r, o] =>
    have hpo := hp p (by simp)
    have hqo := hp q (by simp)
    have hro := hp r (by simp)
    have hoo := hp o (by simp)
    simp only [List.pairwise_cons, List.mem_cons, List.not_mem_nil, or_false, forall_eq_or_imp, forall_eq] at ha
    have hD : c.veps < |vol p.w q.w r.w o.w| := by
      simp only [dependent, Option.some.injEq, decide_eq_false_iff_not, not_le] at hd
      exact hd
    rcases tetrahedron_spec hv0 hD (hle _ _ ha.1.1) (hle _ _ ha.1.2.1) (hle _ _ ha.1.2.2) (hle _ _ ha.2.1.1) (hle _ _ ha.2.1.2) (hle _ _ ha.2.2.1)
      hpo.lt hqo.lt with ⟨ht, l0, l1, l2, l3, h0, h1, h2, h3, hs, hz⟩ | ⟨t, ht, ok⟩
    · refine ⟨_, by simp only [recompute, ht, Option.bind_eq_bind, Option.bind_some]; rfl, by simp [validCoords], Or.inl ⟨?_, ?_, ?_⟩⟩
      · simp only; rw [reduce_all]; rfl
      · ext <;> simp
      · refine ⟨mix l0 l1 l2 l3 p.a q.a r.a o.a, hA.four hpo.a hqo.a hro.a hoo.a h0 h1 h2 h3 hs, ?_⟩
        have e : mix l0 l1 l2 l3 p.a q.a r.a o.a = mix l0 l1 l2 l3 p.b q.b r.b o.b := by
          have h : mix l0 l1 l2 l3 p.a q.a r.a o.a - mix l0 l1 l2 l3 p.b q.b r.b o.b = 0 := by
            rw [mix_sub, ← hpo.w, ← hqo.w, ← hro.w, ← hoo.w]; exact hz
          have hx := congrArg V3.x h; have hy := congrArg V3.y h; have hz := congrArg V3.z h
          simp only [V3.sub_x, V3.sub_y, V3.sub_z, V3.zero_x, V3.zero_y, V3.zero_z] at hx hy hz
          ext
          · linarith
          · linarith
          · linarith
        rw [e]; exact hB.four hpo.b hqo.b hro.b hoo.b h0 h1 h2 h3 hs
    · obtain ⟨r0, r1, r2, rm, r3⟩ := reduce_four ok.lo ok.hi p q r o
      have hval : validCoords t.l0 t.l1 t.l2 t.l3 = true := by simp [validCoords, ok.h0, ok.h1, ok.h2, ok.h3]
      have eP : mix t.l0 t.l1 t.l2 t.l3 p.a q.a r.a o.a - mix t.l0 t.l1 t.l2 t.l3 p.b q.b r.b o.b = t.point p.w q.w r.w o.w := by
        rw [mix_sub, ← hpo.w, ← hqo.w, ← hro.w, ← hoo.w]; rfl
      refine ⟨⟨reduce t.bits [p, q, r, o], mix t.l0 t.l1 t.l2 t.l3 p.a q.a r.a o.a - mix t.l0 t.l1 t.l2 t.l3 p.b q.b r.b o.b,
        mix t.l0 t.l1 t.l2 t.l3 p.a q.a r.a o.a, mix t.l0 t.l1 t.l2 t.l3 p.b q.b r.b o.b, validCoords t.l0 t.l1 t.l2 t.l3⟩,
        by simp only [recompute, ht, Option.bind_eq_bind, Option.bind_some, mix], hval,
        Or.inr ⟨⟨r0, r1, ?_, r3 (Apart c) hsym ?_, hA.four hpo.a hqo.a hro.a hoo.a ok.h0 ok.h1 ok.h2 ok.h3 ok.sum,
          hB.four hpo.b hqo.b hro.b hoo.b ok.h0 ok.h1 ok.h2 ok.h3 ok.sum, rfl, ?_, hval, ?_⟩, ?_, ?_⟩⟩
      · intro x hx
        rcases r2 x hx with ⟨-, rfl⟩ | ⟨-, rfl⟩ | ⟨-, rfl⟩ | ⟨-, rfl⟩ <;> assumption
      · simpa using ha
      · intro x hx
        simp only
        rw [eP]
        rcases r2 x hx with ⟨h, rfl⟩ | ⟨h, rfl⟩ | ⟨h, rfl⟩ | ⟨h, rfl⟩
        · exact ok.u0 h
        · exact ok.u1 h
        · exact ok.u2 h
        · exact ok.u3 h
      · intro u m hm
        simp only
        rw [eP, Tet.point, dot_mix]
        have k1 := weigh ok.h0 (fun hh => ok.z0 (not_not.1 hh)) (fun hh => hm p (rm.1 hh))
        have k2 := weigh ok.h1 (fun hh => ok.z1 (not_not.1 hh)) (fun hh => hm q (rm.2.1 hh))
        have k3 := weigh ok.h2 (fun hh => ok.z2 (not_not.1 hh)) (fun hh => hm r (rm.2.2.1 hh))
        have k4 := weigh ok.h3 (fun hh => ok.z3 (not_not.1 hh)) (fun hh => hm o (rm.2.2.2 hh))
        have k5 : m = t.l0 * m + t.l1 * m + t.l2 * m + t.l3 * m := by rw [← add_mul, ← add_mul, ← add_mul, ok.sum, one_mul]
        linarith
      · intro x hx
        rcases r2 x hx with ⟨-, rfl⟩ | ⟨-, rfl⟩ | ⟨-, rfl⟩ | ⟨-, rfl⟩ <;> simp
      · intro x hx
        simp only
        rw [eP]
        simp only [List.mem_cons, List.not_mem_nil, or_false] at hx
        rcases hx with rfl | rfl | rfl | rfl
        · exact ok.oa
        · exact ok.ob
        · exact ok.oc
        · exact ok.od
  | _ :: _ :: _ :: _ :: _ :: _ => simp at hlen

end Gjk
end RP3D
