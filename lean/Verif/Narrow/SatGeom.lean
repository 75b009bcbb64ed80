import Verif.Props.Round

/-!
Geometry of the separating axis test, apart from the model: two convex polyhedra given by their vertices, face normals and edges. If the depth of
the overlap is at least `δ` along all face normals and along the axes of the pairs of edges whose arcs cross on the Gauss map, it is at least `δ`
along all directions.
-/

namespace RP3D
namespace SatGeom
open Ray RayProps PointProps RoundProps

set_option linter.unusedSectionVars false
variable {K : Type} [Field K] [LinearOrder K] [IsStrictOrderedRing K]

/-! ### Vectors -/

theorem dot_comb (s t : K) (u v w : V3 K) : (V3.smul s u + V3.smul t v).dot w = s * u.dot w + t * v.dot w := by
  simp only [V3.dot, V3.add_x, V3.add_y, V3.add_z, V3.smul_x, V3.smul_y, V3.smul_z]; ring

theorem dot_step (t : K) (m d w : V3 K) : (m + V3.smul t d).dot w = m.dot w + t * d.dot w := by
  simp only [V3.dot, V3.add_x, V3.add_y, V3.add_z, V3.smul_x, V3.smul_y, V3.smul_z]; ring

theorem dot_smul_left (t : K) (m w : V3 K) : (V3.smul t m).dot w = t * m.dot w := by
  simp only [V3.dot, V3.smul_x, V3.smul_y, V3.smul_z]; ring

theorem dot_sub_right (m a b : V3 K) : m.dot (a - b) = m.dot a - m.dot b := by
  simp only [V3.dot, V3.sub_x, V3.sub_y, V3.sub_z]; ring

theorem neg_dot (m a : V3 K) : (-m).dot a = -(m.dot a) := by
  simp only [V3.dot, V3.neg_x, V3.neg_y, V3.neg_z]; ring

theorem neg_neg' (m : V3 K) : - -m = m := by ext <;> simp

theorem neg_len (m : V3 K) : (-m).lengthSq = m.lengthSq := by
  simp only [V3.lengthSq, V3.neg_x, V3.neg_y, V3.neg_z]; ring

theorem len_nonneg (m : V3 K) : 0 ≤ m.lengthSq := by
  simp only [V3.lengthSq]; nlinarith [mul_self_nonneg m.x, mul_self_nonneg m.y, mul_self_nonneg m.z]

theorem len_pos {m : V3 K} (h : m ≠ 0) : 0 < m.lengthSq := by
  rcases lt_or_eq_of_le (len_nonneg m) with h' | h'
  · exact h'
  · exfalso; apply h
    simp only [V3.lengthSq] at h'
    have hx := mul_self_nonneg m.x; have hy := mul_self_nonneg m.y; have hz := mul_self_nonneg m.z
    ext
    · exact mul_self_eq_zero.1 (by linarith)
    · exact mul_self_eq_zero.1 (by linarith)
    · exact mul_self_eq_zero.1 (by linarith)

/-- A direction orthogonal to a vector. -/
theorem exists_perp (u : V3 K) : ∃ d : V3 K, d ≠ 0 ∧ d.dot u = 0 := by
  by_cases h : u.x = 0 ∧ u.y = 0
  · refine ⟨⟨1, 0, 0⟩, ?_, ?_⟩
    · intro e; have := congrArg V3.x e; simp at this
    · simp [V3.dot, h.1]
  · refine ⟨⟨-u.y, u.x, 0⟩, ?_, ?_⟩
    · intro e
      have h1 := congrArg V3.x e; have h2 := congrArg V3.y e
      simp at h1 h2
      exact h ⟨h2, h1⟩
    · simp only [V3.dot]; ring

/-! ### The ratio test -/

/-- Finitely many functions `a + t b` that are not negative at 0, one of them decreasing: the first zero. -/
theorem ratio : ∀ (L : List (K × K)), (∀ g ∈ L, 0 ≤ g.1) → (∃ g ∈ L, g.2 < 0) →
    ∃ t, 0 ≤ t ∧ (∀ g ∈ L, 0 ≤ g.1 + t * g.2) ∧ ∃ g ∈ L, g.2 < 0 ∧ g.1 + t * g.2 = 0
  | [], _, h => by obtain ⟨g, hg, _⟩ := h; simp at hg
  | g :: L, hp, hn => by
    have hg0 := hp g (by simp)
    have hpL : ∀ g ∈ L, 0 ≤ g.1 := fun g' h => hp g' (by simp [h])
    -- the zero of `g` serves if no other function is negative before it
    have take : g.2 < 0 → (∀ g' ∈ L, 0 ≤ g'.1 + (g.1 / -g.2) * g'.2) →
        ∃ t, 0 ≤ t ∧ (∀ g' ∈ g :: L, 0 ≤ g'.1 + t * g'.2) ∧ ∃ g' ∈ g :: L, g'.2 < 0 ∧ g'.1 + t * g'.2 = 0 := by
      intro hneg hall
      have hz : g.1 + (g.1 / -g.2) * g.2 = 0 := by have h0 := hneg.ne; field_simp; ring
      refine ⟨g.1 / -g.2, div_nonneg hg0 (by linarith), ?_, g, by simp, hneg, hz⟩
      intro g' h'
      rcases List.mem_cons.1 h' with rfl | h'
      · exact hz.ge
      · exact hall g' h'
    by_cases hL : ∃ g' ∈ L, g'.2 < 0
    · obtain ⟨t, ht, hall, g1, hg1, hd1, hz1⟩ := ratio L hpL hL
      by_cases hg : 0 ≤ g.1 + t * g.2
      · refine ⟨t, ht, ?_, g1, by simp [hg1], hd1, hz1⟩
        intro g' h'
        rcases List.mem_cons.1 h' with rfl | h'
        · exact hg
        · exact hall g' h'
      · have hneg : g.2 < 0 := by
          by_contra h
          exact hg (add_nonneg hg0 (mul_nonneg ht (not_lt.1 h)))
        refine take hneg ?_
        intro g' h'
        have hle : g.1 / -g.2 ≤ t := by
          rw [div_le_iff₀ (by linarith)]; linarith
        have ht0 : 0 ≤ g.1 / -g.2 := div_nonneg hg0 (by linarith)
        rcases le_or_gt 0 g'.2 with h2 | h2
        · exact add_nonneg (hpL g' h') (mul_nonneg ht0 h2)
        · have := hall g' h'
          nlinarith
    · push Not at hL
      obtain ⟨g', hg', hd'⟩ := hn
      rcases List.mem_cons.1 hg' with rfl | hg'
      · refine take hd' ?_
        intro g2 h2
        exact add_nonneg (hpL g2 h2) (mul_nonneg (div_nonneg hg0 (by linarith)) (hL g2 h2))
      · exact absurd hd' (not_lt.2 (hL g' hg'))

/-! ### Polyhedra -/

/-- A convex polyhedron: its vertices, the normals of its faces, its edges (`edge p q a b`: from `p` to `q`, between the faces with normals `a` and
`b`) and a point inside. -/
structure Body (K : Type) where
  pts : List (V3 K)
  face : V3 K → Prop
  edge : V3 K → V3 K → V3 K → V3 K → Prop
  center : V3 K

/-- A point of the polyhedron that is farthest along a direction. -/
def Top (B : Body K) (m x : V3 K) : Prop := x ∈ B.pts ∧ ∀ z ∈ B.pts, m.dot z ≤ m.dot x

/-- The faces and edges are those of the convex hull of the vertices. -/
structure Body.Ok (B : Body K) : Prop where
  unit : ∀ n, B.face n → n.lengthSq = 1
  faces : ∀ p q a b, B.edge p q a b → B.face a ∧ B.face b
  mem : ∀ p q a b, B.edge p q a b → q ∈ B.pts
  top : ∀ p q a b, B.edge p q a b → Top B a p ∧ Top B b p
  flat : ∀ p q a b, B.edge p q a b → a.dot (p - q) = 0 ∧ b.dot (p - q) = 0
  turn : ∀ p q a b, B.edge p q a b → 0 < (p - q).dot (b.cross a)
  inner : ∀ m : V3 K, m ≠ 0 → ∃ x ∈ B.pts, 0 < m.dot (x - B.center)
  arc : ∀ m : V3 K, m ≠ 0 → ∀ x y, Top B m x → Top B m y → x ≠ y →
    ∃ p q a b, B.edge p q a b ∧ ∃ α β, 0 ≤ α ∧ 0 ≤ β ∧ m = V3.smul α a + V3.smul β b

theorem exists_max (m : V3 K) : ∀ L : List (V3 K), L ≠ [] → ∃ x ∈ L, ∀ z ∈ L, m.dot z ≤ m.dot x
  | [], h => absurd rfl h
  | [a], _ => ⟨a, by simp, by simp⟩
  | a :: b :: L, _ => by
    obtain ⟨x, hx, h⟩ := exists_max m (b :: L) (by simp)
    rcases le_total (m.dot a) (m.dot x) with hle | hle
    · refine ⟨x, List.mem_cons_of_mem _ hx, ?_⟩
      intro z hz
      rcases List.mem_cons.1 hz with rfl | hz
      · exact hle
      · exact h z hz
    · refine ⟨a, by simp, ?_⟩
      intro z hz
      rcases List.mem_cons.1 hz with rfl | hz
      · exact le_rfl
      · exact le_trans (h z hz) hle

theorem Body.Ok.exists_top {B : Body K} (h : B.Ok) (m : V3 K) : ∃ x, Top B m x := by
  obtain ⟨x, hx, _⟩ := h.inner ⟨1, 0, 0⟩ (by intro e; have := congrArg V3.x e; simp at this)
  obtain ⟨y, hy, hm⟩ := exists_max m B.pts (List.ne_nil_of_mem hx)
  exact ⟨y, hy, hm⟩

theorem Body.Ok.top_center {B : Body K} (h : B.Ok) {m x : V3 K} (hm : m ≠ 0) (hx : Top B m x) : 0 < m.dot (x - B.center) := by
  obtain ⟨y, hy, hp⟩ := h.inner m hm
  have := hx.2 y hy
  rw [dot_sub_right] at hp ⊢
  linarith

theorem top_comb {B : Body K} {m n x : V3 K} {s t : K} (hs : 0 ≤ s) (ht : 0 ≤ t) (h1 : Top B m x) (h2 : Top B n x) :
    Top B (V3.smul s m + V3.smul t n) x := by
  refine ⟨h1.1, fun z hz => ?_⟩
  rw [dot_comb, dot_comb]
  exact add_le_add (mul_le_mul_of_nonneg_left (h1.2 z hz) hs) (mul_le_mul_of_nonneg_left (h2.2 z hz) ht)

theorem top_smul {B : Body K} {m x : V3 K} {s : K} (hs : 0 ≤ s) (h : Top B m x) : Top B (V3.smul s m) x := by
  refine ⟨h.1, fun z hz => ?_⟩
  rw [dot_smul_left, dot_smul_left]
  exact mul_le_mul_of_nonneg_left (h.2 z hz) hs

theorem smul_neg (s : K) (m : V3 K) : V3.smul s (-m) = -V3.smul s m := by ext <;> simp

theorem comb_neg (s t : K) (m n : V3 K) : V3.smul s (-m) + V3.smul t (-n) = -(V3.smul s m + V3.smul t n) := by ext <;> simp <;> ring

/-- The overlap of two polyhedra along a direction is at least `δ` times its length. -/
def Deep (A B : Body K) (δ : K) (m : V3 K) : Prop :=
  ∃ k, 0 ≤ k ∧ m.lengthSq ≤ k * k ∧ ∀ x y, Top A m x → Top B (-m) y → δ * k ≤ m.dot (x - y)

variable {A B : Body K} {δ : K}

theorem deep_swap {m : V3 K} (h : Deep B A δ (-m)) : Deep A B δ m := by
  obtain ⟨k, hk, hl, h⟩ := h
  refine ⟨k, hk, by rwa [neg_len] at hl, fun x y hx hy => ?_⟩
  have := h y x hy (by rwa [neg_neg'])
  rw [neg_dot, dot_sub_right] at this
  rw [dot_sub_right]; linarith

theorem deep_smul {m : V3 K} {s : K} (hs : 0 ≤ s) (h : Deep A B δ m) : Deep A B δ (V3.smul s m) := by
  obtain ⟨k, hk, hl, h⟩ := h
  refine ⟨s * k, mul_nonneg hs hk, ?_, fun x y hx hy => ?_⟩
  · have e : (V3.smul s m).lengthSq = (s * s) * m.lengthSq := by simp only [V3.lengthSq, V3.smul_x, V3.smul_y, V3.smul_z]; ring
    rw [e]
    have := mul_le_mul_of_nonneg_left hl (mul_self_nonneg s)
    linarith
  · rcases lt_or_eq_of_le hs with hs' | rfl
    · have hx' : Top A m x := ⟨hx.1, fun z hz => by
        have := hx.2 z hz
        rw [dot_smul_left, dot_smul_left] at this
        exact le_of_mul_le_mul_left this hs'⟩
      have hy' : Top B (-m) y := ⟨hy.1, fun z hz => by
        have := hy.2 z hz
        rw [← smul_neg, dot_smul_left, dot_smul_left] at this
        exact le_of_mul_le_mul_left this hs'⟩
      have := mul_le_mul_of_nonneg_left (h x y hx' hy') hs
      rw [dot_smul_left]; linarith
    · rw [dot_smul_left]; simp

theorem deep_comb {m n x y : V3 K} {s t : K} (hs : 0 ≤ s) (ht : 0 ≤ t) (x1 : Top A m x) (x2 : Top A n x) (y1 : Top B (-m) y)
    (y2 : Top B (-n) y) (h1 : Deep A B δ m) (h2 : Deep A B δ n) : Deep A B δ (V3.smul s m + V3.smul t n) := by
  obtain ⟨k1, hk1, hl1, h1⟩ := h1
  obtain ⟨k2, hk2, hl2, h2⟩ := h2
  refine ⟨s * k1 + t * k2, by positivity, ?_, fun x' y' hx' hy' => ?_⟩
  · have hc := dot_le hk1 hk2 hl1 hl2
    have e : (V3.smul s m + V3.smul t n).lengthSq = (s * s) * m.lengthSq + (t * t) * n.lengthSq + 2 * (s * t) * m.dot n := by
      simp only [V3.lengthSq, V3.dot, V3.add_x, V3.add_y, V3.add_z, V3.smul_x, V3.smul_y, V3.smul_z]; ring
    rw [e]
    have a1 := mul_le_mul_of_nonneg_left hl1 (mul_self_nonneg s)
    have a2 := mul_le_mul_of_nonneg_left hl2 (mul_self_nonneg t)
    have a3 := mul_le_mul_of_nonneg_left hc (mul_nonneg hs ht)
    nlinarith
  · have hx := top_comb hs ht x1 x2
    have hy := top_comb hs ht y1 y2
    rw [comb_neg] at hy
    have ex := hx'.2 x hx.1
    have ey := hy'.2 y hy.1
    rw [neg_dot, neg_dot] at ey
    have a1 := mul_le_mul_of_nonneg_left (h1 x y x1 y1) hs
    have a2 := mul_le_mul_of_nonneg_left (h2 x y x2 y2) ht
    have e : (V3.smul s m + V3.smul t n).dot (x - y) = s * m.dot (x - y) + t * n.dot (x - y) := dot_comb ..
    rw [dot_sub_right]
    rw [dot_sub_right] at e
    linarith

/-- From a direction `n`, going along `d` until another point is farthest as well: it cannot go on for ever if `d` is orthogonal to the ray from the
center to the farthest point. -/
theorem slide (hA : A.Ok) {n d x y : V3 K} (hn : n ≠ 0) (hd : d ≠ 0) (hp : d.dot (x - A.center) = 0) (hx : Top A n x) (hy : Top B (-n) y) :
    ∃ t, 0 ≤ t ∧ Top A (n + V3.smul t d) x ∧ Top B (-(n + V3.smul t d)) y ∧ n + V3.smul t d ≠ 0 ∧
      ((∃ x', Top A (n + V3.smul t d) x' ∧ x' ≠ x) ∨ ∃ y', Top B (-(n + V3.smul t d)) y' ∧ y' ≠ y) := by
  let L : List (K × K) := A.pts.map (fun z => (n.dot (x - z), d.dot (x - z))) ++ B.pts.map (fun z => (n.dot (z - y), d.dot (z - y)))
  have hpos : ∀ g ∈ L, 0 ≤ g.1 := by
    intro g hg
    rcases List.mem_append.1 hg with h | h
    · obtain ⟨z, hz, rfl⟩ := List.mem_map.1 h
      have := hx.2 z hz
      show 0 ≤ n.dot (x - z)
      rw [dot_sub_right]; linarith
    · obtain ⟨z, hz, rfl⟩ := List.mem_map.1 h
      have := hy.2 z hz
      rw [neg_dot, neg_dot] at this
      show 0 ≤ n.dot (z - y)
      rw [dot_sub_right]; linarith
  have hneg : ∃ g ∈ L, g.2 < 0 := by
    obtain ⟨z, hz, hz'⟩ := hA.inner d hd
    refine ⟨(n.dot (x - z), d.dot (x - z)), List.mem_append_left _ (List.mem_map.2 ⟨z, hz, rfl⟩), ?_⟩
    show d.dot (x - z) < 0
    rw [dot_sub_right] at hz' hp ⊢
    linarith
  obtain ⟨t, ht, hall, g, hg, hgd, hgz⟩ := ratio L hpos hneg
  have key : ∀ w : V3 K, (n + V3.smul t d).dot w = n.dot w + t * d.dot w := fun w => dot_step ..
  have h1 : Top A (n + V3.smul t d) x := by
    refine ⟨hx.1, fun z hz => ?_⟩
    have := hall _ (List.mem_append_left _ (List.mem_map.2 ⟨z, hz, rfl⟩))
    have e := key (x - z)
    rw [dot_sub_right] at e
    linarith
  have h2 : Top B (-(n + V3.smul t d)) y := by
    refine ⟨hy.1, fun z hz => ?_⟩
    have := hall _ (List.mem_append_right _ (List.mem_map.2 ⟨z, hz, rfl⟩))
    have e := key (z - y)
    rw [dot_sub_right] at e
    rw [neg_dot, neg_dot]
    linarith
  refine ⟨t, ht, h1, h2, ?_, ?_⟩
  · intro e
    have h0 := hA.top_center hn hx
    have := key (x - A.center)
    rw [e, hp] at this
    have z0 : (0 : V3 K).dot (x - A.center) = 0 := by simp [V3.dot]
    linarith
  · rcases List.mem_append.1 hg with h | h
    · obtain ⟨z, hz, rfl⟩ := List.mem_map.1 h
      left
      refine ⟨z, ⟨hz, fun w hw => ?_⟩, ?_⟩
      · have := h1.2 w hw
        have e := key (x - z)
        rw [dot_sub_right] at e
        dsimp only at hgz
        linarith
      · rintro rfl
        have : d.dot (z - z) = 0 := by rw [dot_sub_right]; ring
        dsimp only at hgd
        linarith
    · obtain ⟨z, hz, rfl⟩ := List.mem_map.1 h
      right
      refine ⟨z, ⟨hz, fun w hw => ?_⟩, ?_⟩
      · have := h2.2 w hw
        have e := key (z - y)
        rw [dot_sub_right] at e
        rw [neg_dot, neg_dot] at this ⊢
        dsimp only at hgz
        linarith
      · rintro rfl
        have : d.dot (z - z) = 0 := by rw [dot_sub_right]; ring
        dsimp only at hgd
        linarith

/-- It is enough to know the directions along which two points of one of the polyhedra are farthest. -/
theorem reduce_arcs (hA : A.Ok) (hB : ∀ m, ∃ y, Top B m y)
    (h1 : ∀ m : V3 K, m ≠ 0 → ∀ x x', Top A m x → Top A m x' → x ≠ x' → Deep A B δ m)
    (h2 : ∀ m : V3 K, m ≠ 0 → ∀ y y', Top B (-m) y → Top B (-m) y' → y ≠ y' → Deep A B δ m) {n : V3 K} (hn : n ≠ 0) : Deep A B δ n := by
  obtain ⟨x, hx⟩ := hA.exists_top n
  obtain ⟨y, hy⟩ := hB (-n)
  obtain ⟨d, hd, hp⟩ := exists_perp (x - A.center)
  have hd' : -d ≠ 0 := by intro e; apply hd; rw [← neg_neg' d, e]; ext <;> simp
  obtain ⟨s, hs, ax, ay, an, ae⟩ := slide hA hn hd hp hx hy
  obtain ⟨t, ht, bx, by', bn, be⟩ := slide hA hn hd' (by rw [neg_dot, hp]; simp) hx hy
  have da : Deep A B δ (n + V3.smul s d) := by
    rcases ae with ⟨x', hx', hne⟩ | ⟨y', hy', hne⟩
    · exact h1 _ an x' x hx' ax hne
    · exact h2 _ an y' y hy' ay hne
  have db : Deep A B δ (n + V3.smul t (-d)) := by
    rcases be with ⟨x', hx', hne⟩ | ⟨y', hy', hne⟩
    · exact h1 _ bn x' x hx' bx hne
    · exact h2 _ bn y' y hy' by' hne
  rcases lt_or_eq_of_le (add_nonneg hs ht) with hst | hst
  · have := deep_comb (div_nonneg ht hst.le) (div_nonneg hs hst.le) ax bx ay by' da db
    have e : V3.smul (t / (s + t)) (n + V3.smul s d) + V3.smul (s / (s + t)) (n + V3.smul t (-d)) = n := by
      ext <;> simp <;> field_simp <;> ring
    rwa [e] at this
  · have : s = 0 := by linarith
    subst this
    have e : n + V3.smul 0 d = n := by ext <;> simp
    rwa [e] at da

/-- From `α a + β b` towards `α a`: up to the end, or up to a direction along which two points of the second polyhedron are farthest. -/
theorem slide_to {a b x y : V3 K} {α β : K} (hβ : 0 < β) (ha : Top A a x) (hb : Top A b x) (hα : 0 ≤ α)
    (hy : Top B (-(V3.smul α a + V3.smul β b)) y) :
    ∃ s, 0 ≤ s ∧ s ≤ 1 ∧ Top A (V3.smul α a + V3.smul ((1 - s) * β) b) x ∧ Top B (-(V3.smul α a + V3.smul ((1 - s) * β) b)) y ∧
      (s = 1 ∨ ∃ y', Top B (-(V3.smul α a + V3.smul ((1 - s) * β) b)) y' ∧ y' ≠ y) := by
  let m := V3.smul α a + V3.smul β b
  let L : List (K × K) := B.pts.map (fun z => (m.dot (z - y), -(β * b.dot (z - y))))
  have hpos : ∀ g ∈ L, 0 ≤ g.1 := by
    intro g h
    obtain ⟨z, hz, rfl⟩ := List.mem_map.1 h
    have := hy.2 z hz
    rw [neg_dot, neg_dot] at this
    show 0 ≤ m.dot (z - y)
    rw [dot_sub_right]; linarith
  have key : ∀ (s : K) (w : V3 K), (V3.smul α a + V3.smul ((1 - s) * β) b).dot w = m.dot w + s * -(β * b.dot w) := by
    intro s w
    show _ = (V3.smul α a + V3.smul β b).dot w + _
    rw [dot_comb, dot_comb]; ring
  have topB : ∀ s, (∀ g ∈ L, 0 ≤ g.1 + s * g.2) → Top B (-(V3.smul α a + V3.smul ((1 - s) * β) b)) y := by
    intro s hall
    refine ⟨hy.1, fun z hz => ?_⟩
    have := hall _ (List.mem_map.2 ⟨z, hz, rfl⟩)
    have e := key s (z - y)
    rw [dot_sub_right] at e
    rw [neg_dot, neg_dot]
    linarith
  have topA : ∀ s, s ≤ 1 → Top A (V3.smul α a + V3.smul ((1 - s) * β) b) x := fun s hs =>
    top_comb hα (mul_nonneg (by linarith) hβ.le) ha hb
  by_cases hone : ∀ g ∈ L, 0 ≤ g.1 + 1 * g.2
  · exact ⟨1, zero_le_one, le_rfl, topA 1 le_rfl, topB 1 hone, .inl rfl⟩
  · push Not at hone
    obtain ⟨g0, hg0, hlt⟩ := hone
    have hneg : ∃ g ∈ L, g.2 < 0 := ⟨g0, hg0, by have := hpos g0 hg0; linarith⟩
    obtain ⟨t, ht, hall, g, hg, hgd, hgz⟩ := ratio L hpos hneg
    have ht1 : t ≤ 1 := by
      by_contra h
      have h1 := hall g0 hg0
      have h2 := hpos g0 hg0
      have h3 : g0.2 < 0 := by linarith
      nlinarith [not_le.1 h]
    obtain ⟨z, hz, rfl⟩ := List.mem_map.1 hg
    have h2 := topB t hall
    refine ⟨t, ht, ht1, topA t ht1, h2, .inr ⟨z, ⟨hz, fun w hw => ?_⟩, ?_⟩⟩
    · have := h2.2 w hw
      have e := key t (z - y)
      rw [dot_sub_right] at e
      rw [neg_dot, neg_dot] at this ⊢
      dsimp only at hgz
      linarith
    · rintro rfl
      have : b.dot (z - z) = 0 := by rw [dot_sub_right]; ring
      dsimp only at hgd
      rw [this] at hgd
      simp at hgd

theorem comb_swap (s t : K) (m n : V3 K) : V3.smul s m + V3.smul t n = V3.smul t n + V3.smul s m := by ext <;> simp <;> ring

/-- A direction between two others that are spanned by the same two normals. -/
theorem corner {a b x y : V3 K} {α β s t : K} (hs0 : 0 ≤ s) (hs1 : s ≤ 1) (ht0 : 0 ≤ t)
    (s1 : Top A (V3.smul α a + V3.smul ((1 - s) * β) b) x) (t1 : Top A (V3.smul ((1 - t) * α) a + V3.smul β b) x)
    (s2 : Top B (-(V3.smul α a + V3.smul ((1 - s) * β) b)) y) (t2 : Top B (-(V3.smul ((1 - t) * α) a + V3.smul β b)) y)
    (d1 : Deep A B δ (V3.smul α a + V3.smul ((1 - s) * β) b)) (d2 : Deep A B δ (V3.smul ((1 - t) * α) a + V3.smul β b)) :
    Deep A B δ (V3.smul α a + V3.smul β b) := by
  have hden : 0 ≤ s + t * (1 - s) := add_nonneg hs0 (mul_nonneg ht0 (by linarith))
  rcases lt_or_eq_of_le hden with hd | hd
  · have := deep_comb (div_nonneg ht0 hden) (div_nonneg hs0 hden) s1 t1 s2 t2 d1 d2
    have e : V3.smul (t / (s + t * (1 - s))) (V3.smul α a + V3.smul ((1 - s) * β) b) +
        V3.smul (s / (s + t * (1 - s))) (V3.smul ((1 - t) * α) a + V3.smul β b) = V3.smul α a + V3.smul β b := by
      have hne := hd.ne'
      ext <;> simp only [V3.add_x, V3.add_y, V3.add_z, V3.smul_x, V3.smul_y, V3.smul_z] <;> field_simp <;> ring
    rwa [e] at this
  · have : s = 0 := by
      have h1 : 0 ≤ t * (1 - s) := mul_nonneg ht0 (by linarith)
      linarith
    subst this
    rw [sub_zero, one_mul] at d1
    exact d1

/-- A direction between two face normals of the first polyhedron: enough to know the two, and the directions in between along which two points of
the second polyhedron are farthest. -/
theorem reduce_cross {a b x : V3 K} (hax : Top A a x) (hbx : Top A b x) (hB : ∀ m, ∃ y, Top B m y) (da : Deep A B δ a) (db : Deep A B δ b)
    (hc : ∀ α β, 0 < α → 0 < β → ∀ y y', Top B (-(V3.smul α a + V3.smul β b)) y → Top B (-(V3.smul α a + V3.smul β b)) y' → y ≠ y' →
      Deep A B δ (V3.smul α a + V3.smul β b)) {α β : K} (hα : 0 ≤ α) (hβ : 0 ≤ β) : Deep A B δ (V3.smul α a + V3.smul β b) := by
  have right : ∀ s : K, V3.smul s a + V3.smul 0 b = V3.smul s a := fun s => by ext <;> simp
  have left : ∀ s : K, V3.smul 0 a + V3.smul s b = V3.smul s b := fun s => by ext <;> simp
  rcases lt_or_eq_of_le hα with hα | rfl
  swap
  · rw [left]; exact deep_smul hβ db
  rcases lt_or_eq_of_le hβ with hβ | rfl
  swap
  · rw [right]; exact deep_smul hα.le da
  obtain ⟨y, hy⟩ := hB (-(V3.smul α a + V3.smul β b))
  obtain ⟨s, hs0, hs1, s1, s2, s3⟩ := slide_to hβ hax hbx hα.le hy
  obtain ⟨t, ht0, ht1, t1, t2, t3⟩ := slide_to (a := b) (b := a) hα hbx hax hβ.le (by rwa [comb_swap] at hy)
  rw [comb_swap] at t1 t2 t3
  have d1 : Deep A B δ (V3.smul α a + V3.smul ((1 - s) * β) b) := by
    rcases lt_or_eq_of_le hs1 with hs1 | rfl
    · rcases s3 with rfl | ⟨y', hy', hne⟩
      · exact absurd hs1 (lt_irrefl _)
      · exact hc _ _ hα (mul_pos (by linarith) hβ) y' y hy' s2 hne
    · rw [sub_self, zero_mul, right]; exact deep_smul hα.le da
  have d2 : Deep A B δ (V3.smul ((1 - t) * α) a + V3.smul β b) := by
    rcases lt_or_eq_of_le ht1 with ht1 | rfl
    · rcases t3 with rfl | ⟨y', hy', hne⟩
      · exact absurd ht1 (lt_irrefl _)
      · exact hc _ _ (mul_pos (by linarith) hα) hβ y' y hy' t2 hne
    · rw [sub_self, zero_mul, left]; exact deep_smul hβ.le db
  exact corner hs0 hs1 ht0 s1 t1 s2 t2 d1 d2

/-! ### Arcs on the Gauss map -/

/-- A vector orthogonal to two others is a multiple of their product. -/
theorem turn_eq {a b X : V3 K} (ha : a.dot X = 0) (hb : b.dot X = 0) (h : 0 < X.dot (b.cross a)) : ∃ κ, 0 < κ ∧ X = V3.smul κ (b.cross a) := by
  have hw : b.cross a ≠ 0 := by
    intro e; rw [e] at h; simp [V3.dot] at h
  have hl := len_pos hw
  refine ⟨X.dot (b.cross a) / (b.cross a).lengthSq, div_pos h hl, ?_⟩
  have hl' := hl.ne'
  simp only [V3.dot] at ha hb
  have e1 : (b.cross a).lengthSq * X.x = X.dot (b.cross a) * (b.cross a).x := by
    simp only [V3.dot, V3.cross, V3.lengthSq]
    linear_combination -((b.x * a.y - b.y * a.x) * b.y - (b.z * a.x - b.x * a.z) * b.z) * ha +
      ((b.x * a.y - b.y * a.x) * a.y - (b.z * a.x - b.x * a.z) * a.z) * hb
  have e2 : (b.cross a).lengthSq * X.y = X.dot (b.cross a) * (b.cross a).y := by
    simp only [V3.dot, V3.cross, V3.lengthSq]
    linear_combination -((b.y * a.z - b.z * a.y) * b.z - (b.x * a.y - b.y * a.x) * b.x) * ha +
      ((b.y * a.z - b.z * a.y) * a.z - (b.x * a.y - b.y * a.x) * a.x) * hb
  have e3 : (b.cross a).lengthSq * X.z = X.dot (b.cross a) * (b.cross a).z := by
    simp only [V3.dot, V3.cross, V3.lengthSq]
    linear_combination -((b.z * a.x - b.x * a.z) * b.x - (b.y * a.z - b.z * a.y) * b.y) * ha +
      ((b.z * a.x - b.x * a.z) * a.x - (b.y * a.z - b.z * a.y) * a.y) * hb
  ext
  · rw [V3.smul_x, div_mul_eq_mul_div, eq_div_iff hl']; linarith
  · rw [V3.smul_y, div_mul_eq_mul_div, eq_div_iff hl']; linarith
  · rw [V3.smul_z, div_mul_eq_mul_div, eq_div_iff hl']; linarith

/-- The arcs from `a` to `b` and from `c` to `d` cross (`X` and `Y` are the vectors of the two edges). -/
def Gauss (a b c d X Y : V3 K) : Prop := c.dot X * d.dot X < 0 ∧ a.dot Y * b.dot Y < 0 ∧ 0 < c.dot X * b.dot Y

theorem cross_left {a b Y : V3 K} (κ : K) : (V3.smul κ (b.cross a)).cross Y = V3.smul (κ * b.dot Y) a + V3.smul (κ * -(a.dot Y)) b := by
  ext <;> simp only [V3.cross, V3.dot, V3.add_x, V3.add_y, V3.add_z, V3.smul_x, V3.smul_y, V3.smul_z] <;> ring

theorem cross_right {c d X : V3 K} (κ : K) : X.cross (V3.smul κ (d.cross c)) = V3.smul (κ * -(d.dot X)) c + V3.smul (κ * c.dot X) d := by
  ext <;> simp only [V3.cross, V3.dot, V3.add_x, V3.add_y, V3.add_z, V3.smul_x, V3.smul_y, V3.smul_z] <;> ring

/-- If the arcs cross, the product of the edges or its opposite lies on both. -/
theorem gauss_cone {a b c d X Y : V3 K} (ha : a.dot X = 0) (hb : b.dot X = 0) (hX : 0 < X.dot (b.cross a)) (hc : c.dot Y = 0) (hd : d.dot Y = 0)
    (hY : 0 < Y.dot (d.cross c)) (h : Gauss a b c d X Y) :
    ∃ Z, (Z = X.cross Y ∨ Z = -(X.cross Y)) ∧ (∃ α β, 0 < α ∧ 0 < β ∧ Z = V3.smul α a + V3.smul β b) ∧
      ∃ γ η, 0 < γ ∧ 0 < η ∧ Z = V3.smul γ c + V3.smul η d := by
  obtain ⟨κ, hκ, eX⟩ := turn_eq ha hb hX
  obtain ⟨κ', hκ', eY⟩ := turn_eq hc hd hY
  have e1 : X.cross Y = V3.smul (κ * b.dot Y) a + V3.smul (κ * -(a.dot Y)) b := by
    conv_lhs => rw [eX]
    exact cross_left κ
  have e2 : X.cross Y = V3.smul (κ' * -(d.dot X)) c + V3.smul (κ' * c.dot X) d := by
    conv_lhs => rw [eY]
    exact cross_right κ'
  obtain ⟨h1, h2, h3⟩ := h
  have flip : ∀ (s t : K) (u v : V3 K), -(V3.smul s u + V3.smul t v) = V3.smul (-s) u + V3.smul (-t) v := fun s t u v => by
    ext <;> simp <;> ring
  rcases lt_or_ge 0 (b.dot Y) with hp | hp
  · have hcx : 0 < c.dot X := by
      by_contra hh; nlinarith [not_lt.1 hh]
    have hdx : d.dot X < 0 := by
      by_contra hh; nlinarith [not_lt.1 hh]
    have hay : a.dot Y < 0 := by
      by_contra hh; nlinarith [not_lt.1 hh]
    exact ⟨X.cross Y, .inl rfl, ⟨_, _, mul_pos hκ hp, mul_pos hκ (by linarith), e1⟩, ⟨_, _, mul_pos hκ' (by linarith), mul_pos hκ' hcx, e2⟩⟩
  · have hbn : b.dot Y < 0 := by
      rcases lt_or_eq_of_le hp with h | h
      · exact h
      · rw [h] at h3; simp at h3
    have hcx : c.dot X < 0 := by
      by_contra hh; nlinarith [not_lt.1 hh]
    have hdx : 0 < d.dot X := by
      by_contra hh; nlinarith [not_lt.1 hh]
    have hay : 0 < a.dot Y := by
      by_contra hh; nlinarith [not_lt.1 hh]
    refine ⟨-(X.cross Y), .inr rfl, ⟨-(κ * b.dot Y), -(κ * -(a.dot Y)), ?_, ?_, ?_⟩, ⟨-(κ' * -(d.dot X)), -(κ' * c.dot X), ?_, ?_, ?_⟩⟩
    · have := mul_pos_of_neg_of_neg (neg_neg_of_pos hκ) hbn; linarith
    · have := mul_pos hκ hay; linarith
    · rw [e1]; exact flip ..
    · have := mul_pos hκ' hdx; linarith
    · have := mul_pos_of_neg_of_neg (neg_neg_of_pos hκ') hcx; linarith
    · rw [e2]; exact flip ..

/-- A direction on both arcs: they cross, unless all four normals lie in a plane. -/
theorem cone_gauss {a b c d X Y : V3 K} {α β γ η : K} (ha : a.dot X = 0) (hb : b.dot X = 0) (hX : 0 < X.dot (b.cross a)) (hc : c.dot Y = 0)
    (hd : d.dot Y = 0) (hY : 0 < Y.dot (d.cross c)) (hα : 0 < α) (hβ : 0 < β) (hγ : 0 < γ) (hη : 0 < η)
    (e : V3.smul α a + V3.smul β b = V3.smul γ c + V3.smul η d) (hne : c.dot X ≠ 0) :
    Gauss a b c d X Y ∧ ∃ ρ, ρ ≠ 0 ∧ V3.smul α a + V3.smul β b = V3.smul ρ (X.cross Y) := by
  obtain ⟨κ, hκ, eX⟩ := turn_eq ha hb hX
  obtain ⟨κ', hκ', eY⟩ := turn_eq hc hd hY
  have q1 : γ * c.dot X + η * d.dot X = 0 := by
    rw [← dot_comb, ← e, dot_comb, ha, hb]; ring
  have q2 : α * a.dot Y + β * b.dot Y = 0 := by
    rw [← dot_comb, e, dot_comb, hc, hd]; ring
  -- `η (b · (d × c)) = α (c · (b × a))`
  have q3 : η * b.dot (d.cross c) = α * c.dot (b.cross a) := by
    have ex := congrArg V3.x e; have ey := congrArg V3.y e; have ez := congrArg V3.z e
    simp only [V3.add_x, V3.add_y, V3.add_z, V3.smul_x, V3.smul_y, V3.smul_z] at ex ey ez
    simp only [V3.dot, V3.cross]
    linear_combination (-(b.y * c.z) + b.z * c.y) * -ex + (-(b.z * c.x) + b.x * c.z) * -ey + (-(b.x * c.y) + b.y * c.x) * -ez
  have cX : c.dot X = κ * c.dot (b.cross a) := by
    conv_lhs => rw [eX]
    simp only [V3.dot, V3.smul_x, V3.smul_y, V3.smul_z]; ring
  have bY : b.dot Y = κ' * b.dot (d.cross c) := by
    conv_lhs => rw [eY]
    simp only [V3.dot, V3.smul_x, V3.smul_y, V3.smul_z]; ring
  have hsq : 0 < c.dot X * c.dot X := mul_self_pos.2 hne
  have r : (κ * η) * b.dot Y = (κ' * α) * c.dot X := by
    rw [cX, bY]; linear_combination κ * κ' * q3
  have hκη := mul_pos hκ hη
  have hκα := mul_pos hκ' hα
  have g3 : 0 < c.dot X * b.dot Y := by
    have : (κ * η) * (c.dot X * b.dot Y) = (κ' * α) * (c.dot X * c.dot X) := by linear_combination c.dot X * r
    have h0 : 0 < (κ * η) * (c.dot X * b.dot Y) := by rw [this]; exact mul_pos hκα hsq
    exact (mul_pos_iff_of_pos_left hκη).1 h0
  have hb0 : b.dot Y ≠ 0 := fun h0 => by rw [h0] at g3; simp at g3
  refine ⟨⟨?_, ?_, g3⟩, α / (κ * b.dot Y), ?_, ?_⟩
  · have : η * (c.dot X * d.dot X) = -(γ * (c.dot X * c.dot X)) := by linear_combination c.dot X * q1
    have h0 : 0 < η * -(c.dot X * d.dot X) := by have := mul_pos hγ hsq; linarith
    have := (mul_pos_iff_of_pos_left hη).1 h0
    linarith
  · have hsb : 0 < b.dot Y * b.dot Y := mul_self_pos.2 hb0
    have : α * (a.dot Y * b.dot Y) = -(β * (b.dot Y * b.dot Y)) := by linear_combination b.dot Y * q2
    have h0 : 0 < α * -(a.dot Y * b.dot Y) := by have := mul_pos hβ hsb; linarith
    have := (mul_pos_iff_of_pos_left hα).1 h0
    linarith
  · exact div_ne_zero hα.ne' (mul_ne_zero hκ.ne' hb0)
  · have e1 : X.cross Y = V3.smul (κ * b.dot Y) a + V3.smul (κ * -(a.dot Y)) b := by
      conv_lhs => rw [eX]
      exact cross_left κ
    have eβ : β = α / (κ * b.dot Y) * (κ * -(a.dot Y)) := by
      field_simp
      linear_combination q2
    have eα : α = α / (κ * b.dot Y) * (κ * b.dot Y) := by
      rw [div_mul_cancel₀]; exact mul_ne_zero hκ.ne' hb0
    rw [e1]
    conv_lhs => rw [eβ, eα]
    ext <;> simp only [V3.add_x, V3.add_y, V3.add_z, V3.smul_x, V3.smul_y, V3.smul_z] <;> field_simp

/-- A vector in the plane of two others that are not parallel. -/
theorem in_plane {b c d X : V3 K} (hX : X ≠ 0) (hw : d.cross c ≠ 0) (hb : b.dot X = 0) (hc : c.dot X = 0) (hd : d.dot X = 0) :
    ∃ s t, b = V3.smul s c + V3.smul t d := by
  have hl := len_pos hX
  have hlw := (len_pos hw).ne'
  have hbw : b.dot (d.cross c) = 0 := by
    have : X.lengthSq * b.dot (d.cross c) = 0 := by
      simp only [V3.dot] at hb hc hd
      simp only [V3.dot, V3.cross, V3.lengthSq]
      linear_combination (X.x * (d.y * c.z - d.z * c.y) + X.y * (d.z * c.x - d.x * c.z) + X.z * (d.x * c.y - d.y * c.x)) * hb +
        (b.x * (X.y * d.z - X.z * d.y) + b.y * (X.z * d.x - X.x * d.z) + b.z * (X.x * d.y - X.y * d.x)) * -hc +
        (b.x * (X.y * c.z - X.z * c.y) + b.y * (X.z * c.x - X.x * c.z) + b.z * (X.x * c.y - X.y * c.x)) * hd
    rcases mul_eq_zero.1 this with h | h
    · exact absurd h hl.ne'
    · exact h
  refine ⟨(b.dot c * d.dot d - b.dot d * c.dot d) / (d.cross c).lengthSq, (b.dot d * c.dot c - b.dot c * c.dot d) / (d.cross c).lengthSq, ?_⟩
  ext
  · simp only [V3.add_x, V3.smul_x]
    field_simp
    simp only [V3.dot, V3.cross, V3.lengthSq] at hbw ⊢
    linear_combination (d.y * c.z - d.z * c.y) * hbw
  · simp only [V3.add_y, V3.smul_y]
    field_simp
    simp only [V3.dot, V3.cross, V3.lengthSq] at hbw ⊢
    linear_combination (d.z * c.x - d.x * c.z) * hbw
  · simp only [V3.add_z, V3.smul_z]
    field_simp
    simp only [V3.dot, V3.cross, V3.lengthSq] at hbw ⊢
    linear_combination (d.x * c.y - d.y * c.x) * hbw

/-- Two arcs in one plane with a common direction: it lies between two of the four normals, each of them on both arcs. -/
theorem planar {a b c d x y X : V3 K} {α β γ η : K} (hX : X ≠ 0) (hw : d.cross c ≠ 0) (ha : a.dot X = 0) (hb : b.dot X = 0) (hc : c.dot X = 0)
    (hd : d.dot X = 0) (hα : 0 < α) (hβ : 0 < β) (hγ : 0 < γ) (hη : 0 < η) (e : V3.smul α a + V3.smul β b = V3.smul γ c + V3.smul η d)
    (ax : Top A a x) (bx : Top A b x) (cy : Top B (-c) y) (dy : Top B (-d) y) (Da : Deep A B δ a) (Db : Deep A B δ b) (Dc : Deep A B δ c)
    (Dd : Deep A B δ d) : Deep A B δ (V3.smul α a + V3.smul β b) := by
  have go : ∀ (a b : V3 K) (α β : K), 0 < α → 0 < β → b.dot X = 0 → V3.smul α a + V3.smul β b = V3.smul γ c + V3.smul η d → Top A a x →
      Top A b x → Deep A B δ a → ∃ s, 0 ≤ s ∧ s ≤ 1 ∧ Top A (V3.smul α a + V3.smul ((1 - s) * β) b) x ∧
        Top B (-(V3.smul α a + V3.smul ((1 - s) * β) b)) y ∧ Deep A B δ (V3.smul α a + V3.smul ((1 - s) * β) b) := by
    intro a b α β hα hβ hb e ax bx Da
    obtain ⟨u, v, eb⟩ := in_plane hX hw hb hc hd
    obtain ⟨s, hs, hall, g, hg, _, hz⟩ := ratio [(γ, -(β * u)), (η, -(β * v)), (1, -1)]
      (by simp [hγ.le, hη.le]) ⟨(1, -1), by simp, by simp⟩
    have h1 := hall (γ, -(β * u)) (by simp)
    have h2 := hall (η, -(β * v)) (by simp)
    have h3 := hall (1, -1) (by simp)
    dsimp only at h1 h2 h3
    have em : V3.smul α a + V3.smul ((1 - s) * β) b = V3.smul (γ + s * -(β * u)) c + V3.smul (η + s * -(β * v)) d := by
      have ex := congrArg V3.x e; have ey := congrArg V3.y e; have ez := congrArg V3.z e
      have bx := congrArg V3.x eb; have by' := congrArg V3.y eb; have bz := congrArg V3.z eb
      simp only [V3.add_x, V3.add_y, V3.add_z, V3.smul_x, V3.smul_y, V3.smul_z] at ex ey ez bx by' bz
      ext <;> simp only [V3.add_x, V3.add_y, V3.add_z, V3.smul_x, V3.smul_y, V3.smul_z]
      · linear_combination ex - s * β * bx
      · linear_combination ey - s * β * by'
      · linear_combination ez - s * β * bz
    refine ⟨s, hs, by linarith, top_comb hα.le (mul_nonneg (by linarith) hβ.le) ax bx, ?_, ?_⟩
    · rw [em, ← comb_neg]; exact top_comb h1 h2 cy dy
    · simp only [List.mem_cons, List.not_mem_nil, or_false] at hg
      rcases hg with rfl | rfl | rfl
      · dsimp only at hz
        rw [em, hz]
        have : V3.smul 0 c + V3.smul (η + s * -(β * v)) d = V3.smul (η + s * -(β * v)) d := by ext <;> simp
        rw [this]; exact deep_smul h2 Dd
      · dsimp only at hz
        rw [em, hz]
        have : V3.smul (γ + s * -(β * u)) c + V3.smul 0 d = V3.smul (γ + s * -(β * u)) c := by ext <;> simp
        rw [this]; exact deep_smul h1 Dc
      · dsimp only at hz
        have : (1 - s) * β = 0 := by rw [show 1 - s = 0 by linarith]; ring
        rw [this]
        have : V3.smul α a + V3.smul 0 b = V3.smul α a := by ext <;> simp
        rw [this]; exact deep_smul hα.le Da
  obtain ⟨s, hs0, hs1, s1, s2, d1⟩ := go a b α β hα hβ hb e ax bx Da
  obtain ⟨t, ht0, ht1, t1, t2, d2⟩ := go b a β α hβ hα ha (by rw [comb_swap]; exact e) bx ax Db
  rw [comb_swap] at t1 t2 d2
  exact corner hs0 hs1 ht0 s1 t1 s2 t2 d1 d2

/-- The directions whose depth has to be known: the normals of both polyhedra and, for each pair of edges whose arcs cross, their product pointing
away from the center of the first polyhedron. -/
structure Axes (A B : Body K) (δ : K) : Prop where
  face1 : ∀ n, A.face n → Deep A B δ n
  face2 : ∀ n, B.face n → Deep A B δ (-n)
  cross : ∀ p q a b r s c d, A.edge p q a b → B.edge r s c d → Gauss a b (-c) (-d) (p - q) (r - s) →
    ∀ Z, (Z = (p - q).cross (r - s) ∨ Z = -((p - q).cross (r - s))) → 0 < Z.dot (p - A.center) → Deep A B δ Z

theorem cross_neg_neg (c d : V3 K) : (-d).cross (-c) = d.cross c := by
  ext <;> simp only [V3.cross, V3.neg_x, V3.neg_y, V3.neg_z] <;> ring

/-- A direction on an arc of each polyhedron. -/
theorem both_arcs (hA : A.Ok) (hB : B.Ok) (h : Axes A B δ) {p q a b r s c d : V3 K} (h1 : A.edge p q a b) (h2 : B.edge r s c d) {α β γ η : K}
    (hα : 0 ≤ α) (hβ : 0 ≤ β) (hγ : 0 ≤ γ) (hη : 0 ≤ η) (hne : V3.smul α a + V3.smul β b ≠ 0)
    (e : -(V3.smul α a + V3.smul β b) = V3.smul γ c + V3.smul η d) : Deep A B δ (V3.smul α a + V3.smul β b) := by
  have right : ∀ (s : K) (a b : V3 K), V3.smul s a + V3.smul 0 b = V3.smul s a := fun s a b => by ext <;> simp
  have left : ∀ (s : K) (a b : V3 K), V3.smul 0 a + V3.smul s b = V3.smul s b := fun s a b => by ext <;> simp
  have Da := h.face1 a (hA.faces _ _ _ _ h1).1
  have Db := h.face1 b (hA.faces _ _ _ _ h1).2
  have Dc := h.face2 c (hB.faces _ _ _ _ h2).1
  have Dd := h.face2 d (hB.faces _ _ _ _ h2).2
  have e' : V3.smul α a + V3.smul β b = V3.smul γ (-c) + V3.smul η (-d) := by
    rw [comb_neg, ← e, neg_neg']
  rcases lt_or_eq_of_le hα with hα | rfl
  swap
  · rw [left]; exact deep_smul hβ Db
  rcases lt_or_eq_of_le hβ with hβ | rfl
  swap
  · rw [right]; exact deep_smul hα.le Da
  rcases lt_or_eq_of_le hγ with hγ | rfl
  swap
  · rw [e', left]; exact deep_smul hη Dd
  rcases lt_or_eq_of_le hη with hη | rfl
  swap
  · rw [e', right]; exact deep_smul hγ.le Dc
  obtain ⟨fa, fb⟩ := hA.flat _ _ _ _ h1
  obtain ⟨fc, fd⟩ := hB.flat _ _ _ _ h2
  have tA := hA.turn _ _ _ _ h1
  have tB := hB.turn _ _ _ _ h2
  have fc' : (-c).dot (r - s) = 0 := by rw [neg_dot, fc]; simp
  have fd' : (-d).dot (r - s) = 0 := by rw [neg_dot, fd]; simp
  have tB' : 0 < (r - s).dot ((-d).cross (-c)) := by rwa [cross_neg_neg]
  obtain ⟨ta, tb⟩ := hA.top _ _ _ _ h1
  obtain ⟨tc, td⟩ := hB.top _ _ _ _ h2
  by_cases hcX : (-c).dot (p - q) = 0
  · have hdX : (-d).dot (p - q) = 0 := by
      have : γ * (-c).dot (p - q) + η * (-d).dot (p - q) = 0 := by
        rw [← dot_comb, ← e', dot_comb, fa, fb]; ring
      rw [hcX] at this
      have h0 : η * (-d).dot (p - q) = 0 := by linarith
      rcases mul_eq_zero.1 h0 with h0 | h0
      · exact absurd h0 hη.ne'
      · exact h0
    have hX : p - q ≠ 0 := by intro h0; rw [h0] at tA; simp [V3.dot] at tA
    have hw : (-d).cross (-c) ≠ 0 := by intro h0; rw [h0] at tB'; simp [V3.dot] at tB'
    exact planar hX hw fa fb hcX hdX hα hβ hγ hη e' ta tb (by rwa [neg_neg']) (by rwa [neg_neg']) Da Db Dc Dd
  · obtain ⟨hg, ρ, hρ, eρ⟩ := cone_gauss fa fb tA fc' fd' tB' hα hβ hγ hη e' hcX
    have hpos := hA.top_center hne (top_comb hα.le hβ.le ta tb)
    rw [eρ] at hpos ⊢
    rw [dot_smul_left] at hpos
    rcases lt_or_gt_of_ne hρ with hρ | hρ
    · have e2 : V3.smul ρ ((p - q).cross (r - s)) = V3.smul (-ρ) (-((p - q).cross (r - s))) := by ext <;> simp
      rw [e2]
      refine deep_smul (by linarith) (h.cross _ _ _ _ _ _ _ _ h1 h2 hg _ (.inr rfl) ?_)
      rw [neg_dot]
      by_contra hh
      nlinarith [not_lt.1 hh]
    · refine deep_smul hρ.le (h.cross _ _ _ _ _ _ _ _ h1 h2 hg _ (.inl rfl) ?_)
      by_contra hh
      nlinarith [not_lt.1 hh]

/-- **Completeness of the axes.** If the overlap along all of them is at least `δ`, it is along every direction. -/
theorem deep_all (hA : A.Ok) (hB : B.Ok) (h : Axes A B δ) {n : V3 K} (hn : n ≠ 0) : Deep A B δ n := by
  refine reduce_arcs hA hB.exists_top ?_ ?_ hn
  · intro m hm x x' hx hx' hne
    obtain ⟨p, q, a, b, he, α, β, hα, hβ, rfl⟩ := hA.arc m hm x x' hx hx' hne
    obtain ⟨ta, tb⟩ := hA.top _ _ _ _ he
    refine reduce_cross ta tb hB.exists_top (h.face1 a (hA.faces _ _ _ _ he).1) (h.face1 b (hA.faces _ _ _ _ he).2) ?_ hα hβ
    intro α β hα hβ y y' hy hy' hne
    by_cases h0 : V3.smul α a + V3.smul β b = 0
    · rw [h0]
      refine ⟨0, le_rfl, by simp [V3.lengthSq], fun x y _ _ => by simp [V3.dot]⟩
    · obtain ⟨r, s, c, d, hf, γ, η, hγ, hη, e⟩ := hB.arc _ (fun hh => h0 (by rw [← neg_neg' (V3.smul α a + V3.smul β b), hh]; ext <;> simp)) y y' hy hy' hne
      exact both_arcs hA hB h he hf hα.le hβ.le hγ hη h0 e
  · intro m hm y y' hy hy' hne
    obtain ⟨r, s, c, d, hf, γ, η, hγ, hη, e⟩ := hB.arc _ (fun hh => hm (by rw [← neg_neg' m, hh]; ext <;> simp)) y y' hy hy' hne
    apply deep_swap
    rw [e]
    obtain ⟨tc, td⟩ := hB.top _ _ _ _ hf
    have back : ∀ n, B.face n → Deep B A δ n := fun n hn => deep_swap (h.face2 n hn)
    refine reduce_cross tc td hA.exists_top (back c (hB.faces _ _ _ _ hf).1) (back d (hB.faces _ _ _ _ hf).2) ?_ hγ hη
    intro γ η hγ hη x x' hx hx' hne
    by_cases h0 : V3.smul γ c + V3.smul η d = 0
    · rw [h0]
      refine ⟨0, le_rfl, by simp [V3.lengthSq], fun x y _ _ => by simp [V3.dot]⟩
    · obtain ⟨p, q, a, b, he, α, β, hα, hβ, e⟩ := hA.arc _ (fun hh => h0 (by rw [← neg_neg' (V3.smul γ c + V3.smul η d), hh]; ext <;> simp)) x x' hx hx' hne
      apply deep_swap
      rw [e]
      refine both_arcs hA hB h he hf hα hβ hγ.le hη.le ?_ ?_
      · rw [← e]; intro hh; exact h0 (by rw [← neg_neg' (V3.smul γ c + V3.smul η d), hh]; ext <;> simp)
      · rw [← e, neg_neg']

/-- **Soundness of the axes of edges.** If the arcs cross, the product that points away from the center of the first polyhedron has the starts of the
edges as farthest points. -/
theorem cross_tops (hA : A.Ok) {p q a b r s c d : V3 K} (h1 : A.edge p q a b) (hB : B.Ok) (h2 : B.edge r s c d)
    (hg : Gauss a b (-c) (-d) (p - q) (r - s)) {Z : V3 K} (hZ : Z = (p - q).cross (r - s) ∨ Z = -((p - q).cross (r - s)))
    (hs : 0 ≤ Z.dot (p - A.center) ∨ 0 ≤ (-Z).dot (r - B.center)) : Top A Z p ∧ Top B (-Z) r ∧ Z ≠ 0 ∧ 0 < Z.dot (p - A.center) := by
  obtain ⟨fa, fb⟩ := hA.flat _ _ _ _ h1
  obtain ⟨fc, fd⟩ := hB.flat _ _ _ _ h2
  have fc' : (-c).dot (r - s) = 0 := by rw [neg_dot, fc]; simp
  have fd' : (-d).dot (r - s) = 0 := by rw [neg_dot, fd]; simp
  obtain ⟨ta, tb⟩ := hA.top _ _ _ _ h1
  obtain ⟨tc, td⟩ := hB.top _ _ _ _ h2
  obtain ⟨W, hW, ⟨α, β, hα, hβ, e1⟩, γ, η, hγ, hη, e2⟩ := gauss_cone fa fb (hA.turn _ _ _ _ h1) fc' fd'
    (by rw [cross_neg_neg]; exact hB.turn _ _ _ _ h2) hg
  have t1 : Top A W p := by rw [e1]; exact top_comb hα.le hβ.le ta tb
  have t2 : Top B (-W) r := by rw [e2, comb_neg, neg_neg']; exact top_comb hγ.le hη.le tc td
  have hW0 : W ≠ 0 := by
    intro h0
    have q1 : a.dot (r - s) * α + b.dot (r - s) * β = W.dot (r - s) := by rw [e1, dot_comb]; ring
    have hcr : b.cross a ≠ 0 := by
      intro h0; have := hA.turn _ _ _ _ h1; rw [h0] at this; simp [V3.dot] at this
    apply hcr
    have ex := congrArg V3.x e1; have ey := congrArg V3.y e1; have ez := congrArg V3.z e1
    rw [h0] at ex ey ez
    simp only [V3.zero_x, V3.zero_y, V3.zero_z, V3.add_x, V3.add_y, V3.add_z, V3.smul_x, V3.smul_y, V3.smul_z] at ex ey ez
    have hz : ∀ u v u' v' : K, 0 = α * u + β * v → 0 = α * u' + β * v' → v * u' - v' * u = 0 := by
      intro u v u' v' h1 h2
      have : α * (v * u' - v' * u) = 0 := by linear_combination v' * h1 - v * h2
      rcases mul_eq_zero.1 this with h | h
      · exact absurd h hα.ne'
      · exact h
    ext
    · exact hz a.y b.y a.z b.z ey ez
    · exact hz a.z b.z a.x b.x ez ex
    · exact hz a.x b.x a.y b.y ex ey
  have p1 := hA.top_center hW0 t1
  have p2 := hB.top_center (fun hh => hW0 (by rw [← neg_neg' W, hh]; ext <;> simp)) t2
  have hZW : Z = W := by
    by_contra hne
    have hop : Z = -W := by
      rcases hZ with rfl | rfl <;> rcases hW with hW | hW
      · exact absurd hW.symm hne
      · rw [hW, neg_neg']
      · rw [hW]
      · exact absurd hW.symm hne
    subst hop
    rcases hs with hs | hs
    · rw [neg_dot] at hs; linarith
    · rw [neg_neg'] at hs; rw [neg_dot] at p2; linarith
  subst hZW
  exact ⟨t1, t2, hW0, p1⟩

end SatGeom
end RP3D
