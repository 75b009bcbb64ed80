import Verif.Props.Gjk
import Verif.Props.SatSphere
import Verif.Props.SatCapsule
import Verif.Narrow.RoundPoly

/-! C132: the tests of spheres and capsules against convex polyhedra, frame after frame. The part of GJK. -/

namespace RP3D
namespace RoundPolyProps
open Shape PointProps RoundProps Geom GeomProps Sat SatGeom Gjk GjkProps SatProps RoundPoly
set_option linter.unusedSectionVars false

variable {K : Type} [Field K] [LinearOrder K] [IsStrictOrderedRing K]

/-! ### Specification -/

/-- A round shape with the core `S` and the radius `r`, and a polyhedron: the numbers of the program are sound, the radius is not below 1 mm (the root of the bound of the
assertion on kept axes). -/
structure Setting (c : Cfg K) (P : Poly K) (S : V3 K → Prop) (s : V3 K → V3 K) (r M : K) : Prop where
  cfg : c.Ok
  eps : c.eps ≤ 7 / 16
  root : IsSqrt c.sqrt
  solid : Solid P
  conv : Convex S
  sup : ∀ d, IsSupport S d (s d)
  one : 1 ≤ M
  large1 : M < c.large * (1 - c.eps)
  large2 : M < c.large * (1 - c.rel)
  axis1 : c.axis < 1
  axis : c.axis ≤ r * r
  pos : 0 < r

/-- The poses of a frame: rotations are unit quaternions, and the core and the polyhedron are not farther apart than some bound. -/
structure Near (P : Poly K) (S : V3 K → Prop) (M : K) (f : Frame K) : Prop where
  us : f.ts.ori.lengthSq = 1
  up : f.tp.ori.lengthSq = 1
  extent : ∀ a b, Placed f.ts S a → Placed f.tp (Hulled P) b → dist2 a b ≤ M

/-- What is kept from frame to frame: the axis passes the assertion at the start of GJK. -/
def Kept (c : Cfg K) (M : K) (i : Info K) : Prop := c.axis < i.axis.lengthSq ∧ i.axis.lengthSq ≤ M

/-- A contact: the normal is a unit vector; the points are in the two shapes and apart by the depth along the normal; the round shape moved by a vector not longer than
the depth still meets the polyhedron. -/
structure Sound (P : Poly K) (S : V3 K → Prop) (r : K) (first : Bool) (f : Frame K) (ct : Round.Contact K) : Prop where
  unit : ct.normal.lengthSq = 1
  pos : 0 < ct.depth
  round : Placed f.ts (Within S r) (f.ts.act (if first then ct.p1 else ct.p2))
  poly : Placed f.tp (Hulled P) (f.tp.act (if first then ct.p2 else ct.p1))
  diff : (f.t1 first).act ct.p1 = (f.t2 first).act ct.p2 + V3.smul ct.depth ct.normal
  deep : ∀ w : V3 K, w.lengthSq ≤ ct.depth * ct.depth → Meet (Placed f.tp (Hulled P)) (Moved (Placed f.ts (Within S r)) w)

/-! ### Sets -/

theorem within_placed {t : Trans K} (ht : t.ori.lengthSq = 1) (S : V3 K → Prop) (r : K) (x : V3 K) : Within (Placed t S) r x ↔ Placed t (Within S r) x := by
  constructor
  · rintro ⟨_, ⟨a, ha, rfl⟩, hd⟩
    refine ⟨t.inverse.act x, ⟨a, ha, ?_⟩, ?_⟩
    · rw [← act_dist ht, trans_act_inverse ht]; exact hd
    · rw [trans_act_inverse ht]
  · rintro ⟨_, ⟨a, ha, hd⟩, rfl⟩
    exact ⟨_, ⟨a, ha, rfl⟩, by rw [act_dist ht]; exact hd⟩

theorem eq_of_dist2 {a x : V3 K} (h : dist2 a x ≤ 0) : a = x := by
  unfold dist2 at h
  have h1 := mul_self_nonneg (a.x - x.x)
  have h2 := mul_self_nonneg (a.y - x.y)
  have h3 := mul_self_nonneg (a.z - x.z)
  refine V3.ext ?_ ?_ ?_
  · exact sub_eq_zero.1 (mul_self_eq_zero.1 (le_antisymm (by linarith) h1))
  · exact sub_eq_zero.1 (mul_self_eq_zero.1 (le_antisymm (by linarith) h2))
  · exact sub_eq_zero.1 (mul_self_eq_zero.1 (le_antisymm (by linarith) h3))

theorem within_zero {A : V3 K → Prop} {x : V3 K} (h : Within A 0 x) : A x := by
  obtain ⟨a, ha, hd⟩ := h
  rw [mul_zero] at hd
  exact eq_of_dist2 hd ▸ ha

theorem within_moved {A : V3 K → Prop} {m : K} {w x : V3 K} (h : Within (Moved A w) m x) : Moved (Within A m) w x := by
  obtain ⟨_, ⟨a, ha, rfl⟩, hd⟩ := h
  refine ⟨x - w, ⟨a, ha, ?_⟩, by ext <;> simp⟩
  refine le_of_eq_of_le ?_ hd
  simp only [dist2, V3.add_x, V3.add_y, V3.add_z, V3.sub_x, V3.sub_y, V3.sub_z]; ring

theorem meet_swap {A B : V3 K → Prop} {w : V3 K} (h : Meet A (Moved B (-w))) : Meet B (Moved A w) := by
  obtain ⟨x, hx, b, hb, rfl⟩ := h
  exact ⟨b, hb, _, hx, by ext <;> simp⟩

theorem hulled_convex (P : Poly K) : Convex (Hulled P) := fun _ _ _ h1 h2 h3 h4 => .mix h1 h2 h3 h4

theorem dist2_comm (a b : V3 K) : dist2 a b = dist2 b a := by unfold dist2; ring

variable {c : Cfg K} {N : Sat.Num K} {P : Poly K} {S : V3 K → Prop} {s : V3 K → V3 K} {r M : K} {f : Frame K} {i : Info K} {first : Bool} {n : Nat}

def set1 (S : V3 K → Prop) (P : Poly K) (first : Bool) : V3 K → Prop := if first then S else Hulled P
def set2 (S : V3 K → Prop) (P : Poly K) (first : Bool) : V3 K → Prop := if first then Hulled P else S

theorem Setting.pair (h : Setting c P S s r M) (hf : Near P S M f) (first : Bool) :
    Pair c (set1 S P first) (set2 S P first) (supp1 s P first) (supp2 s P first) (f.t1 first) (f.t2 first) M := by
  cases first with
  | true => exact ⟨h.cfg, h.eps, h.root, h.conv, hulled_convex P, h.sup, h.solid.support, hf.us, hf.up, hf.extent, h.one, h.large1, h.large2⟩
  | false => exact ⟨h.cfg, h.eps, h.root, hulled_convex P, h.conv, h.solid.support, h.sup, hf.up, hf.us,
      fun a b ha hb => by rw [dist2_comm]; exact hf.extent b a hb ha, h.one, h.large1, h.large2⟩

theorem margins (r : K) (first : Bool) : marg1 r first + marg2 r first = r := by cases first <;> simp [marg1, marg2]

theorem kept_axis (h : Kept c M i) : AxisOk c M i.cached := by
  intro v hv
  unfold Info.cached at hv
  split_ifs at hv
  cases hv
  exact h

theorem kept_fresh (h : Setting c P S s r M) : Kept c M (Info.fresh : Info K) := by
  have : (⟨0, 1, 0⟩ : V3 K).lengthSq = 1 := by simp [V3.lengthSq]
  exact ⟨by rw [Info.fresh, this]; exact h.axis1, by rw [Info.fresh, this]; exact h.one⟩

theorem kept_start (h : Setting c P S s r M) (hi : Kept c M i) : Kept c M (f.start i) := by
  unfold Frame.start
  split_ifs
  · exact kept_fresh h
  · exact hi

/-! ### The kept axis -/

/-- An axis with which GJK finds the shapes separated is the one it has started with or a vector between two points of the cores. -/
theorem loop_last {A B : V3 K → Prop} {sA sB : V3 K → V3 K} {margin : K} (h : Supports c A B sA sB) : ∀ (n : Nat) {x y : St K}, Head c A B sA sB x →
    loop c sA sB margin n x = .done y .separated → (y = x ∨ Tip c A B y) ∧ ∀ a b, A a → B b → margin * margin < (a - b).lengthSq := by
  intro n
  induction n with
  | zero => intro x y _ hl; simp [loop] at hl
  | succ n ih =>
    intro x y hx hl
    obtain ⟨z, q, hs, ha⟩ := step_spec h margin hx
    rw [loop, hs] at hl
    cases q with
    | none =>
      obtain ⟨h1, h2⟩ := ih (after_none h ha) hl
      refine ⟨Or.inr ?_, h2⟩
      rcases h1 with rfl | h1
      · exact ha.1
      · exact h1
    | some e =>
      simp only [Loop.done.injEq] at hl
      obtain ⟨rfl, rfl⟩ := hl
      exact ⟨Or.inl ha.1, ha.2⟩

/-- The axis that is kept is again one with which GJK can start. -/
theorem search_axis {S1 S2 : V3 K → Prop} {s1 s2 : V3 K → V3 K} {t1 t2 : Trans K} {m1 m2 : K} (h : Pair c S1 S2 s1 s2 t1 t2 M) (hm : 0 < m1 + m2)
    (h1 : c.axis < 1) (h2 : c.axis ≤ (m1 + m2) * (m1 + m2)) (hi : Kept c M i) {v : Verdict K} {ax : V3 K} (hg : RoundPoly.search c t1 t2 s1 s2 m1 m2 i n = some (some (v, ax))) :
    gjk c t1 t2 s1 s2 m1 m2 i.cached n = some (some v) ∧ c.axis < ax.lengthSq ∧ ax.lengthSq ≤ M := by
  obtain ⟨x0, hs, hh, -⟩ := h.start hm (kept_axis hi)
  have hx0 : c.axis < x0.v.lengthSq ∧ x0.v.lengthSq ≤ M := by
    have hk := kept_axis hi
    unfold Gjk.start at hs
    rw [if_pos hm] at hs
    cases hc : i.cached with
    | none =>
      rw [hc] at hs
      cases hs
      have : (⟨0, 1, 0⟩ : V3 K).lengthSq = 1 := by simp [V3.lengthSq]
      dsimp only
      rw [this]
      exact ⟨h1, h.one⟩
    | some w =>
      rw [hc] at hs
      dsimp only at hs
      split_ifs at hs
      cases hs
      exact hk w hc
  unfold RoundPoly.search at hg
  unfold gjk
  rw [hs] at hg ⊢
  simp only [Option.bind_eq_bind, Option.bind_some] at hg ⊢
  rcases hl : loop c (supportA s1) (supportB t1 t2 s2) (m1 + m2) n x0 with _ | y | ⟨y, e⟩
  · rw [hl] at hg; simp at hg
  · rw [hl] at hg; simp at hg
  · rw [hl] at hg
    simp only [Option.map_eq_some_iff, Option.some.injEq, Prod.mk.injEq] at hg
    obtain ⟨r, hr, rfl, rfl⟩ := hg
    refine ⟨by simp [hr], ?_⟩
    unfold nextAxis
    split_ifs with he
    · subst he
      obtain ⟨h3, h4⟩ := loop_last h.supports n hh hl
      rcases h3 with rfl | h3
      · exact hx0
      · have hE := ended_of_tip h3
        rw [hE.v]
        exact ⟨lt_of_le_of_lt h2 (h4 _ _ hE.ca hE.cb), h.sight _ _ hE.ca hE.cb⟩
    · exact hi

theorem search_of_gjk {s1 s2 : V3 K → V3 K} {t1 t2 : Trans K} {m1 m2 : K} {v : Verdict K} (hg : gjk c t1 t2 s1 s2 m1 m2 i.cached n = some (some v)) :
    ∃ ax, RoundPoly.search c t1 t2 s1 s2 m1 m2 i n = some (some (v, ax)) := by
  unfold gjk at hg
  unfold RoundPoly.search
  cases hs : Gjk.start c (m1 + m2) i.cached with
  | none => rw [hs] at hg; simp at hg
  | some x =>
    rw [hs] at hg
    simp only [Option.bind_eq_bind, Option.bind_some] at hg ⊢
    rcases hl : loop c (supportA s1) (supportB t1 t2 s2) (m1 + m2) n x with _ | y | ⟨y, e⟩
    · rw [hl] at hg; simp at hg
    · rw [hl] at hg; simp at hg
    · rw [hl] at hg
      simp only [Option.map_eq_some_iff, Option.some.injEq, exists_eq_right] at hg
      exact ⟨nextAxis i.axis y e, by simp only [hg, Option.map_some]⟩

/-! ### GJK -/

/-- What a verdict of GJK says. -/
def Means (c : Cfg K) (P : Poly K) (S : V3 K → Prop) (r M : K) (first : Bool) (f : Frame K) : Verdict K → Prop
  | .separated => True
  | .collide ct => Sound P S r first f ct
  | .interpenetrate => ∃ a b, Placed f.ts S a ∧ Placed f.tp (Hulled P) b ∧ dist2 a b ≤ c.eps * M

theorem gjk_means (h : Setting c P S s r M) (hf : Near P S M f) (hi : Kept c M i) {v : Verdict K} {ax : V3 K}
    (hg : gjkTest c P s r first f i n = some (some (v, ax))) : c.axis < ax.lengthSq ∧ ax.lengthSq ≤ M ∧ Means c P S r M first f v := by
  have hp := h.pair hf first
  have hm : 0 < marg1 r first + marg2 r first := by rw [margins]; exact h.pos
  obtain ⟨hg, a1, a2⟩ := search_axis hp hm h.axis1 (by rw [margins]; exact h.axis) hi hg
  refine ⟨a1, a2, ?_⟩
  cases v with
  | separated => trivial
  | interpenetrate =>
    obtain ⟨a, b, ha, hb, hd⟩ := interpenetrate_sound hp hm (kept_axis hi) hg
    cases first with
    | true => exact ⟨a, b, ha, hb, hd⟩
    | false => exact ⟨b, a, hb, ha, by rw [dist2_comm]; exact hd⟩
  | collide ct =>
    have hm1 : 0 ≤ marg1 r first := by cases first <;> simp [marg1, h.pos.le]
    have hm2 : 0 ≤ marg2 r first := by cases first <;> simp [marg2, h.pos.le]
    obtain ⟨g1, g2, -, g3, g4, g5, g6⟩ := contact_sound hp hm1 hm2 hm (kept_axis hi) hg
    cases first with
    | true =>
      refine ⟨g1, g2, (within_placed hf.us _ _ _).1 g3, within_zero g4, g5, fun w hw => ?_⟩
      obtain ⟨x, hx, hy⟩ := g6 (-w) (by rw [neg_len]; exact hw)
      exact meet_swap ⟨x, (within_placed hf.us _ _ _).1 hx, within_zero hy⟩
    | false =>
      refine ⟨g1, g2, (within_placed hf.us _ _ _).1 g4, within_zero g3, g5, fun w hw => ?_⟩
      obtain ⟨x, hx, hy⟩ := g6 w hw
      obtain ⟨z, hz, e⟩ := within_moved hy
      exact ⟨x, within_zero hx, z, (within_placed hf.us _ _ _).1 hz, e⟩

/-- GJK ends, after a number of turns that depends on nothing but the numbers of the program, and breaks no assertion. -/
theorem gjk_always [Archimedean K] (hc : c.Ok) : ∃ L : Nat, ∀ (P : Poly K) (S : V3 K → Prop) (s : V3 K → V3 K) (r M : K) (f : Frame K) (i : Info K) (first : Bool),
    Setting c P S s r M → Near P S M f → Kept c M i → ∀ n, L ≤ n → ∃ v ax, gjkTest c P s r first f i n = some (some (v, ax)) := by
  obtain ⟨L, hL⟩ := gjk_ends hc
  refine ⟨L, fun P S s r M f i first h hf hi n hn => ?_⟩
  obtain ⟨v, hv⟩ := hL _ _ _ _ _ _ _ (marg1 r first) (marg2 r first) i.cached (h.pair hf first) (by rw [margins]; exact h.pos) (kept_axis hi)
  exact ⟨v, search_of_gjk (hv n hn)⟩

end RoundPolyProps
end RP3D
