import Verif.Props.Round
import Verif.Narrow.GjkEnds

/-! C98: the GJK test always ends. C99: its verdicts. C100: its contacts. -/

namespace RP3D
namespace GjkProps
open Ray Shape RayProps PointProps RoundProps Geom GeomProps Round Gjk

variable {K : Type} [Field K] [LinearOrder K] [IsStrictOrderedRing K]

/-! ### Specification -/

/-- A convex set of points. -/
def Convex (S : V3 K → Prop) : Prop := ∀ x y s, S x → S y → 0 ≤ s → s ≤ 1 → S (V3.smul (1 - s) x + V3.smul s y)

/-- The points at distance at most `m` from a set: a shape is its core (a center, a segment, a polyhedron) enlarged by its margin. -/
def Within (S : V3 K → Prop) (m : K) (x : V3 K) : Prop := ∃ a, S a ∧ dist2 a x ≤ m * m

/-- Two shapes as the test sees them: convex cores, each with its support function, placed in the world, and no farther apart than some bound below the
largest number. -/
structure Pair (c : Cfg K) (S1 S2 : V3 K → Prop) (s1 s2 : V3 K → V3 K) (t1 t2 : Trans K) (M : K) : Prop where
  cfg : c.Ok
  eps : c.eps ≤ 7 / 16
  root : IsSqrt c.sqrt
  conv1 : Convex S1
  conv2 : Convex S2
  sup1 : ∀ d, IsSupport S1 d (s1 d)
  sup2 : ∀ d, IsSupport S2 d (s2 d)
  unit1 : t1.ori.lengthSq = 1
  unit2 : t2.ori.lengthSq = 1
  extent : ∀ a b, Placed t1 S1 a → Placed t2 S2 b → dist2 a b ≤ M
  one : 1 ≤ M
  large1 : M < c.large * (1 - c.eps)
  large2 : M < c.large * (1 - c.rel)

/-- The axis kept from the last frame, if any, passes the assertion at the start of the test and is not longer than the bound. -/
def AxisOk (c : Cfg K) (M : K) (cached : Option (V3 K)) : Prop := ∀ v, cached = some v → c.axis < v.lengthSq ∧ v.lengthSq ≤ M

/-- A contact of two enlarged shapes: the normal is a unit vector; the contact points are in the two shapes and are separated by the depth along the
normal; no motion of shape 2 that is shorter than the depth ends the overlap; a motion of shape 2 along the normal by the depth and `k` does. -/
structure Touch (k : K) (t1 t2 : Trans K) (S1 S2 : V3 K → Prop) (m1 m2 : K) (ct : Contact K) : Prop where
  unit : ct.normal.lengthSq = 1
  pos : 0 < ct.depth
  in1 : Within (Placed t1 S1) m1 (t1.act ct.p1)
  in2 : Within (Placed t2 S2) m2 (t2.act ct.p2)
  diff : t1.act ct.p1 = t2.act ct.p2 + V3.smul ct.depth ct.normal
  deep : ∀ w : V3 K, w.lengthSq ≤ ct.depth * ct.depth → Meet (Within (Placed t1 S1) m1) (Within (Moved (Placed t2 S2) w) m2)
  apart : ∀ j, ct.depth + k ≤ j → ∀ a b, Placed t1 S1 a → Placed t2 S2 b → (m1 + m2) * (m1 + m2) ≤ dist2 a (b + V3.smul j ct.normal)

/-- How much the distance found may be too large: 1 cm (the root of `veps`) for shapes of a few meters. -/
structure Tol (c : Cfg K) (M k : K) : Prop where
  nonneg : 0 ≤ k
  veps : c.veps ≤ k * k
  rel : c.rel * c.rel * M ≤ k * k
  eps : 16 * c.eps * M ≤ k * k

/-- The loop has not stopped at a simplex that it takes for degenerate though it is large: an edge, or a triangle, with a fourth point. -/
def Resolved (c : Cfg K) (k : K) (r : Loop K) : Prop := ∀ y, r = .done y .dependent →
  (∀ p q r, y.s.pts = [p, q, r] → c.veps ≤ k * k * (q.w - p.w).lengthSq) ∧
  ∀ p q r o, y.s.pts = [p, q, r, o] → c.veps * c.veps ≤ k * k * ((q.w - p.w).cross (r.w - p.w)).lengthSq

/-- The cores of the shapes of the library are convex and their support functions are right: a point (sphere), a segment (capsule), a box, a triangle (for meshes see
`mesh_support_partial`). -/
theorem cores (hh : K) (h0 : 0 ≤ hh) (h p q r : V3 K) (hx : 0 ≤ h.x) (hy : 0 ≤ h.y) (hz : 0 ≤ h.z) (d : V3 K) :
    (Convex (fun x : V3 K => x = 0) ∧ IsSupport (fun x : V3 K => x = 0) d 0) ∧
    (Convex (fun x : V3 K => x.x = 0 ∧ -hh ≤ x.y ∧ x.y ≤ hh ∧ x.z = 0) ∧
      IsSupport (fun x : V3 K => x.x = 0 ∧ -hh ≤ x.y ∧ x.y ≤ hh ∧ x.z = 0) d (capsuleSupport hh d)) ∧
    (Convex (Box h) ∧ IsSupport (Box h) d (boxSupport h d)) ∧
    (Convex (Hull [p, q, r]) ∧ IsSupport (Hull [p, q, r]) d (triangleSupport p q r d)) := by
  refine ⟨⟨?_, rfl, ?_⟩, ⟨?_, ?_⟩, ⟨?_, box_support hx hy hz d⟩, fun x y s h1 h2 h3 h4 => .mix h1 h2 h3 h4, triangle_support p q r d⟩
  · rintro x y s rfl rfl _ _
    ext <;> simp
  · rintro x rfl
    exact le_refl _
  · rintro x y s ⟨a1, a2, a3, a4⟩ ⟨b1, b2, b3, b4⟩ s0 s1
    refine ⟨?_, ?_, ?_, ?_⟩ <;> simp only [V3.add_x, V3.add_y, V3.add_z, V3.smul_x, V3.smul_y, V3.smul_z]
    · rw [a1, b1]; simp
    · nlinarith
    · nlinarith
    · rw [a4, b4]; simp
  · unfold capsuleSupport
    split_ifs with hc
    · refine ⟨⟨rfl, by simp only; linarith, le_refl _, rfl⟩, ?_⟩
      rintro x ⟨a1, a2, a3, a4⟩
      simp only [V3.dot, a1, a4]
      rcases le_or_gt 0 d.y with hd | hd
      · nlinarith
      · nlinarith
    · refine ⟨⟨rfl, le_refl _, by simp only; linarith, rfl⟩, ?_⟩
      rintro x ⟨a1, a2, a3, a4⟩
      simp only [V3.dot, a1, a4]
      rcases le_or_gt d.y 0 with hd | hd
      · nlinarith
      · have : hh = 0 := by
          by_contra hne
          have := lt_of_le_of_ne h0 (Ne.symm hne)
          nlinarith
        subst this
        have : x.y = 0 := by linarith
        simp [this]
  · rintro x y s ⟨⟨a1, a2⟩, ⟨a3, a4⟩, a5, a6⟩ ⟨⟨b1, b2⟩, ⟨b3, b4⟩, b5, b6⟩ s0 s1
    refine ⟨⟨?_, ?_⟩, ⟨?_, ?_⟩, ?_, ?_⟩ <;>
      simp only [V3.add_x, V3.add_y, V3.add_z, V3.smul_x, V3.smul_y, V3.smul_z] <;> nlinarith

/-! ### The space of body 1 -/

variable {c : Cfg K} {S1 S2 : V3 K → Prop} {s1 s2 : V3 K → V3 K} {t1 t2 : Trans K} {M : K}

/-- Core 2 in the space of body 1. -/
def Seen (t1 t2 : Trans K) (S2 : V3 K → Prop) : V3 K → Prop := Placed (t1.inverse.mul t2) S2

theorem seen_act (u1 : t1.ori.lengthSq = 1) {y : V3 K} (h : Seen t1 t2 S2 y) : Placed t2 S2 (t1.act y) := by
  obtain ⟨q, hq, rfl⟩ := h
  exact ⟨q, hq, frame_act u1 q⟩

theorem seen_of (u1 : t1.ori.lengthSq = 1) {b : V3 K} (h : Placed t2 S2 b) : ∃ y, Seen t1 t2 S2 y ∧ b = t1.act y := by
  obtain ⟨q, hq, rfl⟩ := h
  exact ⟨_, ⟨q, hq, rfl⟩, (frame_act u1 q).symm⟩

theorem placed_convex (t : Trans K) {S : V3 K → Prop} (h : Convex S) : Convex (Placed t S) := by
  rintro x y s ⟨p, hp, rfl⟩ ⟨q, hq, rfl⟩ h0 h1
  refine ⟨_, h p q s hp hq h0 h1, ?_⟩
  have e : V3.smul (1 - s) p + V3.smul s q = p + V3.smul s (q - p) := by ext <;> simp <;> ring
  rw [e, act_add, ← act_sub]
  ext <;> simp <;> ring

theorem dist2_eq (a b : V3 K) : dist2 a b = (a - b).lengthSq := by
  simp only [dist2, V3.lengthSq, V3.sub_x, V3.sub_y, V3.sub_z]

theorem Pair.sight (h : Pair c S1 S2 s1 s2 t1 t2 M) : Extent S1 (Seen t1 t2 S2) M := by
  intro a b ha hb
  have := h.extent _ _ ⟨a, ha, rfl⟩ (seen_act h.unit1 hb)
  rw [act_dist h.unit1] at this
  rwa [← dist2_eq]

theorem Pair.supports (h : Pair c S1 S2 s1 s2 t1 t2 M) : Supports c S1 (Seen t1 t2 S2) (supportA s1) (supportB t1 t2 s2) := by
  have hb : ∀ v, Seen t1 t2 S2 (supportB t1 t2 s2 v) := fun v => ⟨_, (h.sup2 _).1, rfl⟩
  refine ⟨h.cfg, h.conv1, placed_convex _ h.conv2, fun v => ⟨(h.sup1 _).1, fun x hx => ?_⟩, fun v => ⟨hb v, ?_⟩, fun v => ?_⟩
  · have := (h.sup1 (-v)).2 x hx
    unfold supportA
    simp only [V3.dot, V3.neg_x, V3.neg_y, V3.neg_z] at *
    linarith
  · rintro y ⟨q, hq, rfl⟩
    have hs := (h.sup2 ((t2.ori.conj.mul t1.ori).rot v)).2 q hq
    have e : ∀ z, v.dot ((t1.inverse.mul t2).act z) = ((t2.ori.conj.mul t1.ori).rot v).dot z + v.dot (t1.inverse.mul t2).pos := by
      intro z
      have e1 : v.dot ((t1.inverse.mul t2).ori.rot z) = ((t2.ori.conj.mul t1.ori).rot v).dot z := by
        have e2 : (t1.inverse.mul t2).ori.rot z = t1.ori.conj.rot (t2.ori.rot z) := by
          rw [trans_mul_eq]; exact rot_mul _ _ _
        rw [e2, rot_mul]
        have r1 := rot_dot h.unit1 v (t1.ori.conj.rot (t2.ori.rot z))
        rw [rot_conj' h.unit1] at r1
        have r2 := rot_dot (unit_inverse h.unit2) (t1.ori.rot v) (t2.ori.rot z)
        rw [rot_conj h.unit2] at r2
        rw [← r1, r2]
      rw [← e1]
      simp only [Trans.act, V3.dot, V3.add_x, V3.add_y, V3.add_z]; ring
    unfold supportB
    rw [e, e]
    linarith
  · exact lt_of_le_of_lt (h.sight _ _ (h.sup1 _).1 (hb v)) h.large1

theorem Pair.pos (h : Pair c S1 S2 s1 s2 t1 t2 M) : 0 < M := lt_of_lt_of_le one_pos h.one

theorem Pair.start (h : Pair c S1 S2 s1 s2 t1 t2 M) {m : K} (hm : 0 < m) {cached : Option (V3 K)} (ha : AxisOk c M cached) :
    ∃ x, Gjk.start c m cached = some x ∧ Head c S1 (Seen t1 t2 S2) (supportA s1) (supportB t1 t2 s2) x ∧ x.dist = c.large := by
  have hb : ∀ v, v.lengthSq ≤ M → Head c S1 (Seen t1 t2 S2) (supportA s1) (supportB t1 t2 s2) ⟨.empty, v, c.large⟩ := by
    intro v hv
    have hw : (supportA s1 v - supportB t1 t2 s2 v).lengthSq ≤ M := h.sight _ _ (h.sup1 _).1 ⟨_, (h.sup2 _).1, rfl⟩
    have hML : M < c.large := lt_of_lt_of_le h.large1 (by nlinarith [h.cfg.eps, h.cfg.large])
    refine Or.inl ⟨rfl, rfl, hv.trans hML.le, lt_of_le_of_lt ?_ h.large2⟩
    have hc := Gjk.cauchy v (supportA s1 v - supportB t1 t2 s2 v)
    have := mul_le_mul hv hw (Gjk.lengthSq_nonneg _) h.pos.le
    exact le_of_sq h.pos.le (hc.trans this)
  unfold Gjk.start
  rw [if_pos hm]
  cases cached with
  | none => exact ⟨_, rfl, hb _ (by simpa [V3.lengthSq] using h.one), rfl⟩
  | some v =>
    obtain ⟨h1, h2⟩ := ha v rfl
    exact ⟨_, by simp only [if_pos h1], hb v h2, rfl⟩

/-! ### The state after the loop -/

/-- The closest points, when the loop has not found the shapes separated, or the origin. -/
structure Ended (c : Cfg K) (A B : V3 K → Prop) (y : St K) : Prop where
  ca : A y.s.ca
  cb : B y.s.cb
  v : y.v = y.s.ca - y.s.cb
  dist : y.dist = y.v.lengthSq

theorem ended_of_tip {A B : V3 K → Prop} {y : St K} (h : Tip c A B y) : Ended c A B y :=
  ⟨h.kept.ca, h.kept.cb, h.v.trans h.kept.cp, h.dist⟩

theorem ended {A B : V3 K → Prop} {sA sB : V3 K → V3 K} {margin : K} {x y : St K} {e : Exit} (ha : After c A B sA sB margin x y (some e))
    (he : e.contactFound = true ∨ e = .near) : Ended c A B y := by
  cases e with
  | separated => simp [Exit.contactFound] at he
  | inSimplex => obtain ⟨rfl, ht, -⟩ := ha; exact ended_of_tip ht
  | converged => obtain ⟨rfl, ht, -⟩ := ha; exact ended_of_tip ht
  | dependent =>
    obtain ⟨ht, -, hv, hd, hca, hcb, -⟩ := ha
    exact ⟨by rw [hca]; exact ht.kept.ca, by rw [hcb]; exact ht.kept.cb, by rw [hv, hca, hcb]; exact ht.v.trans ht.kept.cp, by rw [hd, hv]; exact ht.dist⟩
  | failed => exact absurd ha id
  | noProgress => exact ended_of_tip ha.2.2.1
  | full => simp [Exit.contactFound] at he
  | near => exact ended_of_tip ha.1

theorem plane (h : Pair c S1 S2 s1 s2 t1 t2 M) {k : K} (hk : Tol c M k) {margin : K} {x y : St K} {e : Exit}
    (hx : Head c S1 (Seen t1 t2 S2) (supportA s1) (supportB t1 t2 s2) x)
    (ha : After c S1 (Seen t1 t2 S2) (supportA s1) (supportB t1 t2 s2) margin x y (some e)) (he : e.contactFound = true)
    (hr : Resolved c k (.done y e)) {a b : V3 K} (hA : S1 a) (hB : Seen t1 t2 S2 b) : y.dist - k * c.sqrt y.dist ≤ y.v.dot (a - b) := by
  have hE := ended ha (Or.inl he)
  have hy0 : 0 ≤ y.dist := by rw [hE.dist]; exact Gjk.lengthSq_nonneg _
  obtain ⟨hL, hLL⟩ := h.root _ hy0
  have hs := h.supports
  cases e with
  | separated => simp [Exit.contactFound] at he
  | inSimplex => exact plane_inSimplex hs hk.nonneg hk.veps ha hL hLL hA hB
  | converged => exact plane_converged hs hk.nonneg h.sight hk.rel ha hL hLL hA hB
  | dependent =>
    obtain ⟨h3, h4⟩ := hr y rfl
    exact plane_dependent hs hk.nonneg ha hL hLL h3 h4 hA hB
  | failed => exact absurd ha id
  | noProgress =>
    obtain ⟨hX, hXX⟩ := h.root _ (head_dist hs hx).1.le
    exact plane_noProgress hs h.eps hk.nonneg h.sight hk.eps ha hL hLL hA hB hX hXX
  | full => simp [Exit.contactFound] at he
  | near => simp [Exit.contactFound] at he

/-! ### The verdicts -/

/-- The loop of the test of two shapes. -/
def run (c : Cfg K) (t1 t2 : Trans K) (s1 s2 : V3 K → V3 K) (m1 m2 : K) (cached : Option (V3 K)) (n : Nat) : Option (Loop K) :=
  (Gjk.start c (m1 + m2) cached).map fun x => loop c (supportA s1) (supportB t1 t2 s2) (m1 + m2) n x

/-- What the verdict is taken from. -/
theorem gjk_done (h : Pair c S1 S2 s1 s2 t1 t2 M) {m1 m2 : K} (hm : 0 < m1 + m2) {cached : Option (V3 K)} (ha : AxisOk c M cached) {n : Nat}
    {r : Verdict K} (hg : gjk c t1 t2 s1 s2 m1 m2 cached n = some (some r)) :
    ∃ x y e, run c t1 t2 s1 s2 m1 m2 cached n = some (.done y e) ∧ Head c S1 (Seen t1 t2 S2) (supportA s1) (supportB t1 t2 s2) x ∧
      After c S1 (Seen t1 t2 S2) (supportA s1) (supportB t1 t2 s2) (m1 + m2) x y (some e) ∧ finish c t1 t2 m1 m2 y e = some r := by
  obtain ⟨x0, hs, hh, -⟩ := h.start hm ha
  unfold gjk at hg
  unfold run
  rw [hs] at hg ⊢
  simp only [Option.bind_eq_bind, Option.bind_some] at hg
  rcases loop_spec h.supports (m1 + m2) n hh with ⟨y, hl, -⟩ | ⟨x, y, e, hl, hx, hA⟩
  · rw [hl] at hg; simp at hg
  · rw [hl] at hg
    simp only [Option.map_eq_some_iff, Option.some.injEq, exists_eq_right] at hg
    exact ⟨x, y, e, by simp [hl], hx, hA, hg⟩

/-- The end of the test. -/
theorem finish_spec (h : Pair c S1 S2 s1 s2 t1 t2 M) {m1 m2 margin : K} {x y : St K} {e : Exit}
    (hA : After c S1 (Seen t1 t2 S2) (supportA s1) (supportB t1 t2 s2) margin x y (some e)) :
    (e = .separated ∧ finish c t1 t2 m1 m2 y e = some .separated) ∨
    (e.contactFound = true ∧ c.eps < y.dist ∧ m1 + m2 ≤ c.sqrt y.dist ∧ finish c t1 t2 m1 m2 y e = some .separated) ∨
    (e.contactFound = true ∧ c.eps < y.dist ∧ c.sqrt y.dist < m1 + m2 ∧ finish c t1 t2 m1 m2 y e = some (.collide
      ⟨t1.ori.rot (-(V3.smul (1 / c.sqrt y.dist) y.v)), (m1 + m2) - c.sqrt y.dist, y.s.ca - V3.smul (m1 / c.sqrt y.dist) y.v,
        (t1.inverse.mul t2).inverse.act (y.s.cb + V3.smul (m2 / c.sqrt y.dist) y.v)⟩)) ∨
    (finish c t1 t2 m1 m2 y e = some .interpenetrate ∧ ((e.contactFound = true ∧ y.dist ≤ c.eps) ∨ e = .near ∨ e = .full)) := by
  by_cases he : e = .separated
  · left; exact ⟨he, by unfold finish; simp [he]⟩
  · by_cases hf : e.contactFound = true ∧ c.eps < y.dist
    · obtain ⟨hcf, hd⟩ := hf
      have hE := ended hA (Or.inl hcf)
      have hd0 : 0 < y.dist := h.cfg.eps.trans hd
      obtain ⟨l0, l1⟩ := sqrt_pos h.root hd0
      have hee : c.eps * c.eps < y.v.lengthSq := by rw [← hE.dist]; nlinarith [h.cfg.eps, h.cfg.eps1]
      have hu := (unit_spec h.root h.cfg.eps hee).2
      have hue : unit c.eps c.sqrt y.v = V3.smul (1 / c.sqrt y.dist) y.v := by
        unfold unit
        rw [← hE.dist]
        have : ¬ c.sqrt y.dist < c.eps := by
          intro hlt
          rw [← hE.dist, ← l1] at hee
          nlinarith [h.cfg.eps]
        simp only [if_neg this]
        ext <;> simp [V3.smul] <;> ring
      have hnl : ¬ (t1.ori.rot (-(V3.smul (1 / c.sqrt y.dist) y.v))).lengthSq < c.eps := by
        rw [rot_len h.unit1, ← hue]
        have : (-(unit c.eps c.sqrt y.v)).lengthSq = (unit c.eps c.sqrt y.v).lengthSq := by
          simp only [V3.lengthSq, V3.neg_x, V3.neg_y, V3.neg_z]; ring
        rw [this, hu]
        exact not_lt.2 h.cfg.eps1.le
      by_cases hdep : (m1 + m2) - c.sqrt y.dist ≤ 0
      · right; left
        refine ⟨hcf, hd, by linarith, ?_⟩
        unfold finish
        simp only [if_neg he, hcf, true_and, if_pos hd, if_pos l0, if_pos hdep]
      · right; right; left
        refine ⟨hcf, hd, by linarith [not_le.1 hdep], ?_⟩
        unfold finish
        simp only [if_neg he, hcf, true_and, if_pos hd, if_pos l0, if_neg hdep, hue, if_neg hnl]
    · right; right; right
      constructor
      · unfold finish
        simp only [if_neg he, if_neg hf]
      · by_cases hcf : e.contactFound = true
        · exact Or.inl ⟨hcf, not_lt.1 fun hd => hf ⟨hcf, hd⟩⟩
        · cases e <;> simp_all [Exit.contactFound]

/-- C98: the test ends, whatever the shapes, the poses, the margins and the kept axis: there is a number of turns, which depends on the constants of the
program only, after which it has a verdict; no assertion is broken. -/
theorem gjk_ends [Archimedean K] (hc : c.Ok) : ∃ N : Nat, ∀ (S1 S2 : V3 K → Prop) (s1 s2 : V3 K → V3 K) (t1 t2 : Trans K) (M m1 m2 : K)
    (cached : Option (V3 K)), Pair c S1 S2 s1 s2 t1 t2 M → 0 < m1 + m2 → AxisOk c M cached →
      ∃ r, ∀ n, N ≤ n → gjk c t1 t2 s1 s2 m1 m2 cached n = some (some r) := by
  obtain ⟨N, hN⟩ := loop_ends hc
  refine ⟨N, fun S1 S2 s1 s2 t1 t2 M m1 m2 cached h hm ha => ?_⟩
  obtain ⟨x, hs, hh, hd⟩ := h.start hm ha
  obtain ⟨y, e, hl⟩ := hN _ _ _ _ h.supports (m1 + m2) x hh hd.le
  have hfin : ∃ r, finish c t1 t2 m1 m2 y e = some r := by
    rcases loop_spec h.supports (m1 + m2) N hh with ⟨z, hz, -⟩ | ⟨x', y', e', hz, -, hA⟩
    · rw [hl] at hz; simp at hz
    · rw [hl] at hz
      simp only [Loop.done.injEq] at hz
      obtain ⟨rfl, rfl⟩ := hz
      rcases finish_spec (m1 := m1) (m2 := m2) h hA with ⟨-, hf⟩ | ⟨-, -, -, hf⟩ | ⟨-, -, -, hf⟩ | ⟨hf, -⟩ <;> exact ⟨_, hf⟩
  obtain ⟨r, hr⟩ := hfin
  refine ⟨r, fun n hn => ?_⟩
  unfold gjk
  rw [hs]
  simp only [Option.bind_eq_bind, Option.bind_some]
  rw [loop_more _ hl n hn]
  simp only [hr, Option.map_some]

/-- C99: "separated" means that the distance of the cores is not below the sum of the margins by more than the tolerance. Missing: the case of a loop
that stops at a large simplex taken for degenerate. -/
theorem separated_partial (h : Pair c S1 S2 s1 s2 t1 t2 M) {k : K} (hk : Tol c M k) {m1 m2 : K} (hm : 0 < m1 + m2) {cached : Option (V3 K)}
    (ha : AxisOk c M cached) {n : Nat} (hg : gjk c t1 t2 s1 s2 m1 m2 cached n = some (some .separated))
    (hr : ∀ r, run c t1 t2 s1 s2 m1 m2 cached n = some r → Resolved c k r) {a b : V3 K} (hA : Placed t1 S1 a) (hB : Placed t2 S2 b) {d : K}
    (hd : 0 ≤ d) (hdd : d * d = dist2 a b) : m1 + m2 ≤ d + k := by
  obtain ⟨x, y, e, hrun, hx, haft, hf⟩ := gjk_done h hm ha hg
  obtain ⟨a', hA', rfl⟩ := hA
  obtain ⟨b', hB', rfl⟩ := seen_of h.unit1 hB
  rw [act_dist h.unit1, dist2_eq] at hdd
  rcases finish_spec (m1 := m1) (m2 := m2) h haft with ⟨rfl, -⟩ | ⟨hc, he, hL, -⟩ | ⟨-, -, -, hf'⟩ | ⟨hf', -⟩
  · have := haft.2 a' b' hA' hB'
    rw [← hdd] at this
    have : m1 + m2 ≤ d := le_of_sq hd this.le
    linarith [hk.nonneg]
  · have hE := ended haft (Or.inl hc)
    have h0 : 0 < y.dist := h.cfg.eps.trans he
    obtain ⟨l0, l1⟩ := sqrt_pos h.root h0
    have hp := plane h hk hx haft hc (hr _ hrun) hA' hB'
    have h1 := dot_le_of hd l0.le (u := y.v) (v := a' - b') (by rw [l1, hE.dist]) hdd.symm.le (le_refl _)
    have h2 : c.sqrt y.dist * c.sqrt y.dist ≤ (d + k) * c.sqrt y.dist := by
      rw [l1]; linarith
    have h3 := le_of_mul_le_mul_right h2 l0
    linarith
  · rw [hf] at hf'; simp at hf'
  · rw [hf] at hf'; simp at hf'

/-- C99: "interpenetrate" means that the cores intersect, up to the rounding tolerance. -/
theorem interpenetrate_sound (h : Pair c S1 S2 s1 s2 t1 t2 M) {m1 m2 : K} (hm : 0 < m1 + m2) {cached : Option (V3 K)} (ha : AxisOk c M cached)
    {n : Nat} (hg : gjk c t1 t2 s1 s2 m1 m2 cached n = some (some .interpenetrate)) :
    ∃ a b, Placed t1 S1 a ∧ Placed t2 S2 b ∧ dist2 a b ≤ c.eps * M := by
  obtain ⟨x, y, e, -, -, haft, hf⟩ := gjk_done h hm ha hg
  have conv : ∀ a b, S1 a → Seen t1 t2 S2 b → (a - b).lengthSq ≤ c.eps * M → ∃ a b, Placed t1 S1 a ∧ Placed t2 S2 b ∧ dist2 a b ≤ c.eps * M := by
    intro a b ha hb hab
    exact ⟨_, _, ⟨a, ha, rfl⟩, seen_act h.unit1 hb, by rw [act_dist h.unit1, dist2_eq]; exact hab⟩
  rcases finish_spec (m1 := m1) (m2 := m2) h haft with ⟨-, hf'⟩ | ⟨-, -, -, hf'⟩ | ⟨-, -, -, hf'⟩ | ⟨-, ⟨hc, hd⟩ | rfl | rfl⟩
  · rw [hf] at hf'; simp at hf'
  · rw [hf] at hf'; simp at hf'
  · rw [hf] at hf'; simp at hf'
  · have hE := ended haft (Or.inl hc)
    refine conv _ _ hE.ca hE.cb ?_
    rw [← hE.v, ← hE.dist]
    nlinarith [h.one, h.cfg.eps]
  · have hE := ended haft (Or.inr rfl)
    refine conv _ _ hE.ca hE.cb ?_
    rw [← hE.v, ← hE.dist]
    refine haft.2.trans (mul_le_mul_of_nonneg_left (maxLength_le h.pos.le fun p hp => ?_) h.cfg.eps.le)
    have := haft.1.kept.pts p hp
    rw [this.w]
    exact h.sight _ _ this.a this.b
  · obtain ⟨z, hz1, hz2⟩ := haft
    refine conv z z hz1 hz2 ?_
    have : (z - z).lengthSq = 0 := by simp [V3.lengthSq]
    rw [this]
    exact mul_nonneg h.cfg.eps.le h.pos.le

theorem within_meet {A B : V3 K → Prop} {m1 m2 : K} (h1 : 0 ≤ m1) (h2 : 0 ≤ m2) (h : 0 < m1 + m2) {a b : V3 K} (ha : A a) (hb : B b)
    (hd : dist2 a b ≤ (m1 + m2) * (m1 + m2)) : Meet (Within A m1) (Within B m2) := by
  refine ⟨at' a b (m1 / (m1 + m2)), ⟨a, ha, ?_⟩, b, hb, ?_⟩
  · have e : dist2 a (at' a b (m1 / (m1 + m2))) = dist2 a b / ((m1 + m2) * (m1 + m2)) * (m1 * m1) := by
      simp only [at', dist2]; field_simp; ring
    rw [e]
    have : dist2 a b / ((m1 + m2) * (m1 + m2)) ≤ 1 := (div_le_one (mul_pos h h)).2 hd
    nlinarith [mul_self_nonneg m1]
  · have e : dist2 b (at' a b (m1 / (m1 + m2))) = dist2 a b / ((m1 + m2) * (m1 + m2)) * (m2 * m2) := by
      simp only [at', dist2]; field_simp; ring
    rw [e]
    have : dist2 a b / ((m1 + m2) * (m1 + m2)) ≤ 1 := (div_le_one (mul_pos h h)).2 hd
    nlinarith [mul_self_nonneg m2]

/-- C100: a contact is that of two shapes that overlap; the part of `Touch` that holds without any condition on the way the loop has ended. -/
theorem contact_sound (h : Pair c S1 S2 s1 s2 t1 t2 M) {m1 m2 : K} (h1 : 0 ≤ m1) (h2 : 0 ≤ m2) (hm : 0 < m1 + m2) {cached : Option (V3 K)}
    (ha : AxisOk c M cached) {n : Nat} {ct : Contact K} (hg : gjk c t1 t2 s1 s2 m1 m2 cached n = some (some (.collide ct))) :
    ct.normal.lengthSq = 1 ∧ 0 < ct.depth ∧ ct.depth < m1 + m2 ∧ Within (Placed t1 S1) m1 (t1.act ct.p1) ∧ Within (Placed t2 S2) m2 (t2.act ct.p2) ∧
      t1.act ct.p1 = t2.act ct.p2 + V3.smul ct.depth ct.normal ∧
      ∀ w : V3 K, w.lengthSq ≤ ct.depth * ct.depth → Meet (Within (Placed t1 S1) m1) (Within (Moved (Placed t2 S2) w) m2) := by
  obtain ⟨x, y, e, -, -, haft, hf⟩ := gjk_done h hm ha hg
  rcases finish_spec (m1 := m1) (m2 := m2) h haft with ⟨-, hf'⟩ | ⟨-, -, -, hf'⟩ | ⟨hc, hd, hl, hf'⟩ | ⟨hf', -⟩
  · rw [hf] at hf'; simp at hf'
  · rw [hf] at hf'; simp at hf'
  · rw [hf] at hf'
    simp only [Option.some.injEq, Verdict.collide.injEq] at hf'
    have hE := ended haft (Or.inl hc)
    obtain ⟨l0, l1⟩ := sqrt_pos h.root (h.cfg.eps.trans hd)
    have hvv := hE.dist
    have hv := hE.v
    generalize c.sqrt y.dist = l at *
    have hab : y.v.lengthSq = l * l := by rw [l1, hvv]
    have hnn : (t1.ori.rot (-(V3.smul (1 / l) y.v))).lengthSq = 1 := by
      rw [rot_len h.unit1]
      have : (-(V3.smul (1 / l) y.v)).lengthSq = y.v.lengthSq / (l * l) := by
        simp only [V3.lengthSq, V3.neg_x, V3.neg_y, V3.neg_z, V3.smul_x, V3.smul_y, V3.smul_z]; field_simp
      rw [this, hab, div_self (mul_pos l0 l0).ne']
    have hp2 : t2.act ((t1.inverse.mul t2).inverse.act (y.s.cb + V3.smul (m2 / l) y.v)) = t1.act (y.s.cb + V3.smul (m2 / l) y.v) :=
      frame_back h.unit2 h.unit1 _
    have hpa : ∀ j : K, dist2 (t1.act y.s.ca) (t1.act (y.s.ca - V3.smul (j / l) y.v)) = j * j := by
      intro j
      rw [act_dist h.unit1]
      have : dist2 y.s.ca (y.s.ca - V3.smul (j / l) y.v) = j * j * y.v.lengthSq / (l * l) := by
        simp only [dist2, V3.lengthSq, V3.sub_x, V3.sub_y, V3.sub_z, V3.smul_x, V3.smul_y, V3.smul_z]; field_simp; ring
      rw [this, hab, mul_div_assoc, div_self (mul_pos l0 l0).ne', mul_one]
    have hpb : ∀ j : K, dist2 (t1.act y.s.cb) (t1.act (y.s.cb + V3.smul (j / l) y.v)) = j * j := by
      intro j
      rw [act_dist h.unit1]
      have : dist2 y.s.cb (y.s.cb + V3.smul (j / l) y.v) = j * j * y.v.lengthSq / (l * l) := by
        simp only [dist2, V3.lengthSq, V3.add_x, V3.add_y, V3.add_z, V3.smul_x, V3.smul_y, V3.smul_z]; field_simp; ring
      rw [this, hab, mul_div_assoc, div_self (mul_pos l0 l0).ne', mul_one]
    have hsb := seen_act h.unit1 hE.cb
    subst hf'
    refine ⟨hnn, by simp only; linarith, by simp only; linarith, ⟨_, ⟨_, hE.ca, rfl⟩, (hpa m1).le⟩, ⟨_, hsb, ?_⟩, ?_, fun w hw => ?_⟩
    · simp only [hp2]; exact (hpb m2).le
    · simp only [hp2]
      have hcb : y.s.cb = y.s.ca - y.v := by rw [hv]; ext <;> simp
      rw [hcb, act_minus, rot_neg, rot_smul]
      have e2 : y.s.ca - y.v + V3.smul (m2 / l) y.v = y.s.ca - V3.smul (1 - m2 / l) y.v := by ext <;> simp <;> ring
      rw [e2, act_minus]
      ext <;> simp <;> field_simp <;> ring
    · refine within_meet h1 h2 hm ⟨_, hE.ca, rfl⟩ (b := t1.act y.s.cb + w) ⟨_, hsb, rfl⟩ ?_
      rw [dist2_eq]
      have e3 : t1.act y.s.ca - (t1.act y.s.cb + w) = t1.ori.rot y.v - w := by
        rw [hv, ← act_sub]; ext <;> simp <;> ring
      rw [e3]
      have e4 : (t1.ori.rot y.v - w).lengthSq = (t1.ori.rot y.v).lengthSq + 2 * (-(t1.ori.rot y.v)).dot w + w.lengthSq := by
        simp only [V3.lengthSq, V3.dot, V3.sub_x, V3.sub_y, V3.sub_z, V3.neg_x, V3.neg_y, V3.neg_z]; ring
      have hdp : 0 ≤ m1 + m2 - l := by linarith
      have e5 : (-(t1.ori.rot y.v)).dot w ≤ l * (m1 + m2 - l) := by
        refine dot_le l0.le hdp ?_ hw
        have : (-(t1.ori.rot y.v)).lengthSq = (t1.ori.rot y.v).lengthSq := by simp only [V3.lengthSq, V3.neg_x, V3.neg_y, V3.neg_z]; ring
        rw [this, rot_len h.unit1, hab]
      rw [e4, rot_len h.unit1, hab]
      simp only at hw
      nlinarith
  · rw [hf] at hf'; simp at hf'

/-- C100: the whole of `Touch`, with the tolerance, when the loop has not stopped at a large simplex taken for degenerate. -/
theorem contact_partial (h : Pair c S1 S2 s1 s2 t1 t2 M) {k : K} (hk : Tol c M k) {m1 m2 : K} (h1 : 0 ≤ m1) (h2 : 0 ≤ m2) (hm : 0 < m1 + m2)
    {cached : Option (V3 K)} (ha : AxisOk c M cached) {n : Nat} {ct : Contact K} (hg : gjk c t1 t2 s1 s2 m1 m2 cached n = some (some (.collide ct)))
    (hr : ∀ r, run c t1 t2 s1 s2 m1 m2 cached n = some r → Resolved c k r) : Touch k t1 t2 S1 S2 m1 m2 ct := by
  obtain ⟨g1, g2, -, g3, g4, g5, g6⟩ := contact_sound h h1 h2 hm ha hg
  refine ⟨g1, g2, g3, g4, g5, g6, fun j hj a b hA hB => ?_⟩
  obtain ⟨x, y, e, hrun, hx, haft, hf⟩ := gjk_done h hm ha hg
  obtain ⟨a', hA', rfl⟩ := hA
  obtain ⟨b', hB', rfl⟩ := seen_of h.unit1 hB
  rcases finish_spec (m1 := m1) (m2 := m2) h haft with ⟨-, hf'⟩ | ⟨-, -, -, hf'⟩ | ⟨hc, hd, hl, hf'⟩ | ⟨hf', -⟩
  · rw [hf] at hf'; simp at hf'
  · rw [hf] at hf'; simp at hf'
  · rw [hf] at hf'
    simp only [Option.some.injEq, Verdict.collide.injEq] at hf'
    have hE := ended haft (Or.inl hc)
    have hp := plane h hk hx haft hc (hr _ hrun) hA' hB'
    obtain ⟨l0, l1⟩ := sqrt_pos h.root (h.cfg.eps.trans hd)
    have hvv := hE.dist
    generalize c.sqrt y.dist = l at *
    have hn : ct.normal = t1.ori.rot (-(V3.smul (1 / l) y.v)) := by rw [hf']
    have hdep : ct.depth = m1 + m2 - l := by rw [hf']
    have e1 : ct.normal.dot ((t1.act b' + V3.smul j ct.normal) - t1.act a') = j + (y.v.dot (a' - b')) / l := by
      have e2 : ct.normal.dot ((t1.act b' + V3.smul j ct.normal) - t1.act a') = j * ct.normal.lengthSq - ct.normal.dot (t1.ori.rot (a' - b')) := by
        rw [← act_sub]
        simp only [V3.dot, V3.lengthSq, V3.sub_x, V3.sub_y, V3.sub_z, V3.add_x, V3.add_y, V3.add_z, V3.smul_x, V3.smul_y, V3.smul_z]; ring
      rw [e2, g1, hn, rot_dot h.unit1]
      simp only [V3.dot, V3.neg_x, V3.neg_y, V3.neg_z, V3.smul_x, V3.smul_y, V3.smul_z]
      field_simp; ring
    have e3 : m1 + m2 ≤ ct.normal.dot ((t1.act b' + V3.smul j ct.normal) - t1.act a') := by
      rw [e1]
      have : l - k ≤ (y.v.dot (a' - b')) / l := by rw [le_div_iff₀ l0]; nlinarith
      linarith
    have e4 := Gjk.cauchy ct.normal ((t1.act b' + V3.smul j ct.normal) - t1.act a')
    rw [g1, one_mul] at e4
    rw [dist2_eq, Gjk.lengthSq_sub_comm]
    exact (mul_self_le_mul_self hm.le e3).trans e4
  · rw [hf] at hf'; simp at hf'

end GjkProps
end RP3D
