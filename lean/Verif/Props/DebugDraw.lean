import Verif.Scene.DebugDraw
import Verif.Props.Transform
import Mathlib.Tactic.LinearCombination
import Mathlib.Tactic.Positivity

/-!
C131: what the debug renderer draws is what it says, where it is.

Spec: a line shows the points between its ends, a triangle the convex combinations of its vertices. A point is on an edge of a box of axis-aligned
sides if it is in the box and at least two of its coordinates are extreme; it is on the surface of a box if it is in the
box and at least one of its coordinates is extreme. A polygon is the set of the convex combinations of its vertices.
-/

namespace RP3D
namespace Debug
open V3

/-! ### Flags -/

/-- C131: the items displayed are a set: setting an item changes this item alone. -/
theorem setDisplayed_spec (flags : BitVec 32) (i j : Item) (on : Bool) :
    displayed (setDisplayed flags i on) j = if j = i then on else displayed flags j := by
  have key : ∀ k : Nat, ∀ m : Nat, k < 32 → m < 32 → ∀ f : BitVec 32, ((f &&& (1#32 <<< k)) != 0) = f.getLsbD k := by
    intro k m hk _ f
    rw [Bool.eq_iff_iff, bne_iff_ne]
    constructor
    · intro h
      by_contra hn
      apply h
      ext l hl
      simp only [BitVec.getElem_and, BitVec.getElem_shiftLeft, BitVec.getElem_zero]
      by_cases e : l = k
      · subst e
        have : f[l] = false := by simpa [BitVec.getLsbD_eq_getElem hl] using hn
        rw [this, Bool.false_and]
        simp
      · by_cases h2 : l < k
        · simp [h2]
        · have : ¬ (l - k = 0) := by omega
          simp [h2, BitVec.getLsbD_one, this]
    · intro h e
      have h3 := congrArg (fun b => b.getLsbD k) e
      simp only [BitVec.getLsbD_and, h, BitVec.getLsbD_shiftLeft, BitVec.getLsbD_zero] at h3
      simp [hk] at h3
  have fl : ∀ i : Item, ∃ k, k < 32 ∧ i.flag = 1#32 <<< k ∧ ∀ j : Item, j.flag = 1#32 <<< k → j = i := by
    intro i
    cases i
    · exact ⟨0, by decide, by decide, fun j => by cases j <;> decide⟩
    · exact ⟨1, by decide, by decide, fun j => by cases j <;> decide⟩
    · exact ⟨2, by decide, by decide, fun j => by cases j <;> decide⟩
    · exact ⟨3, by decide, by decide, fun j => by cases j <;> decide⟩
    · exact ⟨4, by decide, by decide, fun j => by cases j <;> decide⟩
    · exact ⟨5, by decide, by decide, fun j => by cases j <;> decide⟩
  obtain ⟨k, hk, ek, uk⟩ := fl i
  obtain ⟨m, hm, em, um⟩ := fl j
  have hd : ∀ f : BitVec 32, displayed f j = f.getLsbD m := fun f => by
    unfold displayed
    rw [em, key m m hm hm]
  rw [hd, hd]
  have hki : (j = i) ↔ m = k := by
    constructor
    · rintro rfl
      by_contra hne
      have := congrArg (fun b => b.getLsbD k) (ek.symm.trans em)
      simp [hk] at this
      omega
    · rintro rfl
      exact uk j em
  unfold setDisplayed
  simp only [hki, ek]
  cases on
  · simp only [Bool.false_eq_true, if_false, BitVec.getLsbD_and, BitVec.getLsbD_not, BitVec.getLsbD_shiftLeft, BitVec.getLsbD_one]
    by_cases e : m = k
    · simp [e, hk]
    · simp only [e, if_false]
      by_cases h2 : m < k
      · simp [h2, hm]
      · have : ¬ m - k = 0 := by omega
        simp [h2, hm, this]
  · simp only [if_true, BitVec.getLsbD_or, BitVec.getLsbD_and, BitVec.getLsbD_not, BitVec.getLsbD_shiftLeft, BitVec.getLsbD_one]
    by_cases e : m = k
    · simp [e, hk]
    · simp only [e, if_false]
      by_cases h2 : m < k
      · simp [h2, hm]
      · have : ¬ m - k = 0 := by omega
        simp [h2, hm, this]

/-- Different items have different colours. -/
theorem colour_injective (i j : Item) (h : i.colour = j.colour) : i = j := by
  cases i <;> cases j <;> first | rfl | (simp [Item.colour] at h)

variable {K : Type} [Field K] [LinearOrder K] [IsStrictOrderedRing K]

/-- Spec: the points of a line. -/
def OnLine (l : Line K) (x : V3 K) : Prop := ∃ s, 0 ≤ s ∧ s ≤ 1 ∧ x = smul (1 - s) l.a + smul s l.b

/-- Spec: the points of a triangle. -/
def InTri (a b c x : V3 K) : Prop := ∃ u v w : K, 0 ≤ u ∧ 0 ≤ v ∧ 0 ≤ w ∧ u + v + w = 1 ∧ x = smul u a + smul v b + smul w c

/-! ### Boxes of axis-aligned sides -/

/-- Spec: the points of the edges of a box. -/
def OnEdge (b : AABB K) (p : V3 K) : Prop :=
  (b.mn.x ≤ p.x ∧ p.x ≤ b.mx.x ∧ b.mn.y ≤ p.y ∧ p.y ≤ b.mx.y ∧ b.mn.z ≤ p.z ∧ p.z ≤ b.mx.z) ∧
  (((p.x = b.mn.x ∨ p.x = b.mx.x) ∧ (p.y = b.mn.y ∨ p.y = b.mx.y)) ∨ ((p.x = b.mn.x ∨ p.x = b.mx.x) ∧ (p.z = b.mn.z ∨ p.z = b.mx.z)) ∨
    ((p.y = b.mn.y ∨ p.y = b.mx.y) ∧ (p.z = b.mn.z ∨ p.z = b.mx.z)))

/-- A number between two others is a combination of them. -/
theorem between {a b x : K} (h1 : a ≤ x) (h2 : x ≤ b) : ∃ s, 0 ≤ s ∧ s ≤ 1 ∧ x = (1 - s) * a + s * b := by
  rcases eq_or_lt_of_le (h1.trans h2) with e | h
  · refine ⟨0, le_refl _, zero_le_one, ?_⟩
    have : x = a := le_antisymm (h2.trans e.symm.le) h1
    linarith
  · have hp : 0 < b - a := sub_pos.2 h
    refine ⟨(x - a) / (b - a), div_nonneg (sub_nonneg.2 h1) hp.le, (div_le_one hp).2 (by linarith), ?_⟩
    field_simp
    ring

theorem between_rev {a b x : K} (h1 : a ≤ x) (h2 : x ≤ b) : ∃ s, 0 ≤ s ∧ s ≤ 1 ∧ x = (1 - s) * b + s * a := by
  obtain ⟨s, h0, h3, e⟩ := between h1 h2
  exact ⟨1 - s, by linarith, by linarith, by rw [e]; ring⟩

/-- C131: the lines drawn for a box are its twelve edges: they show exactly the points of the edges, in the colour of the item. -/
theorem aabb_drawn (b : AABB K) (hx : b.mn.x ≤ b.mx.x) (hy : b.mn.y ≤ b.mx.y) (hz : b.mn.z ≤ b.mx.z) (c : Nat) :
    (drawAABB b c).length = 12 ∧ (∀ l ∈ drawAABB b c, l.colour = c) ∧ ∀ p, (∃ l ∈ drawAABB b c, OnLine l p) ↔ OnEdge b p := by
  refine ⟨rfl, by simp [drawAABB], fun p => ⟨?_, ?_⟩⟩
  · rintro ⟨l, hl, s, h0, h1, rfl⟩
    have hc : ∀ u v : K, u ≤ v → u ≤ (1 - s) * u + s * v ∧ (1 - s) * u + s * v ≤ v ∧ u ≤ (1 - s) * v + s * u ∧ (1 - s) * v + s * u ≤ v := fun u v h =>
      ⟨by nlinarith, by nlinarith, by nlinarith, by nlinarith⟩
    have he : ∀ u : K, (1 - s) * u + s * u = u := fun u => by ring
    obtain ⟨x1, x2, x3, x4⟩ := hc _ _ hx
    obtain ⟨y1, y2, y3, y4⟩ := hc _ _ hy
    obtain ⟨z1, z2, z3, z4⟩ := hc _ _ hz
    simp only [drawAABB, List.mem_cons, List.not_mem_nil, or_false] at hl
    rcases hl with rfl | rfl | rfl | rfl | rfl | rfl | rfl | rfl | rfl | rfl | rfl | rfl <;>
      simp only [OnEdge, add_x, add_y, add_z, smul_x, smul_y, smul_z, he, x1, x2, x3, x4, y1, y2, y3, y4, z1, z2, z3, z4, hx, hy, hz, le_refl, true_or, or_true, and_self]
  · rintro ⟨⟨x1, x2, y1, y2, z1, z2⟩, h⟩
    have he : ∀ s u : K, u = (1 - s) * u + s * u := fun s u => by ring
    have mk : ∀ l ∈ drawAABB b c, ∀ s : K, 0 ≤ s → s ≤ 1 → p.x = (1 - s) * l.a.x + s * l.b.x → p.y = (1 - s) * l.a.y + s * l.b.y →
        p.z = (1 - s) * l.a.z + s * l.b.z → ∃ l ∈ drawAABB b c, OnLine l p := fun l hl s h0 h1 a1 a2 a3 => ⟨l, hl, s, h0, h1, V3.ext a1 a2 a3⟩
    obtain ⟨sx, sx0, sx1, ex⟩ := between x1 x2
    obtain ⟨tx, tx0, tx1, fx⟩ := between_rev x1 x2
    obtain ⟨sy, sy0, sy1, ey⟩ := between y1 y2
    obtain ⟨sz, sz0, sz1, ez⟩ := between z1 z2
    obtain ⟨tz, tz0, tz1, fz⟩ := between_rev z1 z2
    have mem : ∀ k, (h : k < 12) → (drawAABB b c)[k]'h ∈ drawAABB b c := fun k h => List.getElem_mem h
    rcases h with ⟨hx', hy'⟩ | ⟨hx', hz'⟩ | ⟨hy', hz'⟩
    · rcases hx' with e1 | e1 <;> rcases hy' with e2 | e2
      · exact mk _ (mem 3 (by omega)) sz sz0 sz1 (e1.trans (he _ _)) (e2.trans (he _ _)) ez
      · exact mk _ (mem 7 (by omega)) sz sz0 sz1 (e1.trans (he _ _)) (e2.trans (he _ _)) ez
      · exact mk _ (mem 1 (by omega)) tz tz0 tz1 (e1.trans (he _ _)) (e2.trans (he _ _)) fz
      · exact mk _ (mem 5 (by omega)) tz tz0 tz1 (e1.trans (he _ _)) (e2.trans (he _ _)) fz
    · rcases hx' with e1 | e1 <;> rcases hz' with e2 | e2
      · exact mk _ (mem 11 (by omega)) sy sy0 sy1 (e1.trans (he _ _)) ey (e2.trans (he _ _))
      · exact mk _ (mem 8 (by omega)) sy sy0 sy1 (e1.trans (he _ _)) ey (e2.trans (he _ _))
      · exact mk _ (mem 10 (by omega)) sy sy0 sy1 (e1.trans (he _ _)) ey (e2.trans (he _ _))
      · exact mk _ (mem 9 (by omega)) sy sy0 sy1 (e1.trans (he _ _)) ey (e2.trans (he _ _))
    · rcases hy' with e1 | e1 <;> rcases hz' with e2 | e2
      · exact mk _ (mem 2 (by omega)) tx tx0 tx1 fx (e1.trans (he _ _)) (e2.trans (he _ _))
      · exact mk _ (mem 0 (by omega)) sx sx0 sx1 ex (e1.trans (he _ _)) (e2.trans (he _ _))
      · exact mk _ (mem 6 (by omega)) tx tx0 tx1 fx (e1.trans (he _ _)) (e2.trans (he _ _))
      · exact mk _ (mem 4 (by omega)) sx sx0 sx1 ex (e1.trans (he _ _)) (e2.trans (he _ _))

/-! ### Box shapes -/

/-- Spec: the points of the surface of a box with half extents `h`, in its own frame. -/
def OnBox (h p : V3 K) : Prop :=
  (-h.x ≤ p.x ∧ p.x ≤ h.x ∧ -h.y ≤ p.y ∧ p.y ≤ h.y ∧ -h.z ≤ p.z ∧ p.z ≤ h.z) ∧
  (p.x = -h.x ∨ p.x = h.x ∨ p.y = -h.y ∨ p.y = h.y ∨ p.z = -h.z ∨ p.z = h.z)

/-- A transform maps a triangle to the triangle of the images. -/
theorem inTri_moved (t : Trans K) {a b c x : V3 K} (h : InTri a b c x) : InTri (t.act a) (t.act b) (t.act c) (t.act x) := by
  obtain ⟨u, v, w, hu, hv, hw, e, rfl⟩ := h
  refine ⟨u, v, w, hu, hv, hw, e, ?_⟩
  have e' : u = 1 - v - w := by linarith
  subst e'
  ext <;> simp only [Trans.act, Quat.rot, add_x, add_y, add_z, smul_x, smul_y, smul_z] <;> ring

theorem inTri_rot {a b c x : V3 K} (h : InTri a b c x) : InTri b c a x := by
  obtain ⟨u, v, w, hu, hv, hw, e, rfl⟩ := h
  exact ⟨v, w, u, hv, hw, hu, by linarith, by ext <;> simp only [add_x, add_y, add_z, smul_x, smul_y, smul_z] <;> ring⟩

/-- A parallelogram is covered by the two triangles at a diagonal. -/
theorem parallelogram {a b c d x : V3 K} (hc : c = b + d - a) {s t : K} (hs : 0 ≤ s) (hs1 : s ≤ 1) (ht : 0 ≤ t) (ht1 : t ≤ 1)
    (hx : x = a + smul s (b - a) + smul t (d - a)) : InTri a b c x ∨ InTri a c d x := by
  subst hc hx
  rcases le_total t s with h | h
  · exact .inl ⟨1 - s, s - t, t, by linarith, by linarith, ht, by ring, by ext <;> simp only [add_x, add_y, add_z, sub_x, sub_y, sub_z, smul_x, smul_y, smul_z] <;> ring⟩
  · exact .inr ⟨1 - t, s, t - s, by linarith, hs, by linarith, by ring, by ext <;> simp only [add_x, add_y, add_z, sub_x, sub_y, sub_z, smul_x, smul_y, smul_z] <;> ring⟩

theorem comb_le {v w lo hi a b c : K} (hu : 0 ≤ 1 - v - w) (hv : 0 ≤ v) (hw : 0 ≤ w) (a1 : lo ≤ a) (b1 : lo ≤ b) (c1 : lo ≤ c) (a2 : a ≤ hi) (b2 : b ≤ hi)
    (c2 : c ≤ hi) : lo ≤ (1 - v - w) * a + v * b + w * c ∧ (1 - v - w) * a + v * b + w * c ≤ hi := by
  have x1 := mul_nonneg hu (sub_nonneg.2 a1)
  have x2 := mul_nonneg hv (sub_nonneg.2 b1)
  have x3 := mul_nonneg hw (sub_nonneg.2 c1)
  have y1 := mul_nonneg hu (sub_nonneg.2 a2)
  have y2 := mul_nonneg hv (sub_nonneg.2 b2)
  have y3 := mul_nonneg hw (sub_nonneg.2 c2)
  constructor
  · linarith
  · linarith

set_option maxHeartbeats 1000000 in
/-- C131: the triangles drawn for a box show exactly the points of its surface, and their fronts are outside. -/
theorem box_drawn (flags : BitVec 32) (len : K) (t : Trans K) (ht : t.ori.lengthSq = 1) (h : V3 K) (hx : 0 < h.x) (hy : 0 < h.y) (hz : 0 < h.z)
    (hd : displayed flags .shape = true) :
    (∀ x, (∃ T ∈ (drawBox flags len t h).tris, InTri T.a T.b T.c x) ↔ ∃ p, OnBox h p ∧ x = t.act p) ∧
    ∀ T ∈ (drawBox flags len t h).tris, T.colour = Item.shape.colour ∧ 0 < ((T.b - T.a).cross (T.c - T.a)).dot (T.a - t.pos) := by
  have htris : (drawBox flags len t h).tris = indexed (fun k => t.act (boxVertex h k)) Item.shape.colour boxFaces := by
    simp [drawBox, hd]
  rw [htris]
  refine ⟨fun x => ⟨?_, ?_⟩, ?_⟩
  · rintro ⟨T, hT, hx'⟩
    obtain ⟨f, hf, rfl⟩ := List.mem_map.1 hT
    obtain ⟨u, v, w, hu, hv, hw, e, rfl⟩ := hx'
    refine ⟨smul u (boxVertex h f.1) + smul v (boxVertex h f.2.1) + smul w (boxVertex h f.2.2), ?_, ?_⟩
    · have e' : u = 1 - v - w := by linarith
      subst e'
      have hb : ∀ i, -h.x ≤ (boxVertex h i).x ∧ (boxVertex h i).x ≤ h.x ∧ -h.y ≤ (boxVertex h i).y ∧ (boxVertex h i).y ≤ h.y ∧
          -h.z ≤ (boxVertex h i).z ∧ (boxVertex h i).z ≤ h.z := by
        intro i
        unfold boxVertex
        split <;> refine ⟨?_, ?_, ?_, ?_, ?_, ?_⟩ <;> simp only <;> linarith
      obtain ⟨i1, i2, i3, i4, i5, i6⟩ := hb f.1
      obtain ⟨j1, j2, j3, j4, j5, j6⟩ := hb f.2.1
      obtain ⟨k1, k2, k3, k4, k5, k6⟩ := hb f.2.2
      refine ⟨⟨(comb_le hu hv hw i1 j1 k1 i2 j2 k2).1, (comb_le hu hv hw i1 j1 k1 i2 j2 k2).2, (comb_le hu hv hw i3 j3 k3 i4 j4 k4).1,
        (comb_le hu hv hw i3 j3 k3 i4 j4 k4).2, (comb_le hu hv hw i5 j5 k5 i6 j6 k6).1, (comb_le hu hv hw i5 j5 k5 i6 j6 k6).2⟩, ?_⟩
      clear i1 i2 i3 i4 i5 i6 j1 j2 j3 j4 j5 j6 k1 k2 k3 k4 k5 k6 hb
      simp only [boxFaces, List.mem_cons, List.not_mem_nil, or_false] at hf
      rcases hf with rfl | rfl | rfl | rfl | rfl | rfl | rfl | rfl | rfl | rfl | rfl | rfl <;>
        simp only [boxVertex, add_x, add_y, add_z, smul_x, smul_y, smul_z]
      · exact .inr (.inr (.inr (.inr (.inr (by ring)))))
      · exact .inr (.inr (.inr (.inr (.inr (by ring)))))
      · exact .inr (.inl (by ring))
      · exact .inr (.inl (by ring))
      · exact .inr (.inr (.inr (.inr (.inl (by ring)))))
      · exact .inr (.inr (.inr (.inr (.inl (by ring)))))
      · exact .inl (by ring)
      · exact .inl (by ring)
      · exact .inr (.inr (.inl (by ring)))
      · exact .inr (.inr (.inl (by ring)))
      · exact .inr (.inr (.inr (.inl (by ring))))
      · exact .inr (.inr (.inr (.inl (by ring))))
    · have e' : u = 1 - v - w := by linarith
      subst e'
      ext <;> simp only [Trans.act, Quat.rot, add_x, add_y, add_z, smul_x, smul_y, smul_z] <;> ring
  · rintro ⟨p, ⟨⟨x1, x2, y1, y2, z1, z2⟩, hp⟩, rfl⟩
    have mk : ∀ i j k, (i, j, k) ∈ boxFaces → InTri (boxVertex h i) (boxVertex h j) (boxVertex h k) p →
        ∃ T ∈ indexed (fun k => t.act (boxVertex h k)) Item.shape.colour boxFaces, InTri T.a T.b T.c (t.act p) := fun i j k hm hi =>
      ⟨_, List.mem_map.2 ⟨(i, j, k), hm, rfl⟩, inTri_moved t hi⟩
    have par : ∀ {b x : K}, 0 < b → -b ≤ x → x ≤ b → 0 ≤ (x + b) / (2 * b) ∧ (x + b) / (2 * b) ≤ 1 ∧ 0 ≤ (b - x) / (2 * b) ∧ (b - x) / (2 * b) ≤ 1 ∧
        x = -b + (x + b) / (2 * b) * (2 * b) ∧ x = b - (b - x) / (2 * b) * (2 * b) := fun {b x} hb h1 h2 =>
      ⟨div_nonneg (by linarith) (by linarith), (div_le_one (by linarith)).2 (by linarith), div_nonneg (by linarith) (by linarith),
        (div_le_one (by linarith)).2 (by linarith), by field_simp; ring, by field_simp; ring⟩
    obtain ⟨sx0, sx1, tx0, tx1, ex, fx⟩ := par hx x1 x2
    obtain ⟨sy0, sy1, ty0, ty1, ey, fy⟩ := par hy y1 y2
    obtain ⟨sz0, sz1, tz0, tz1, ez, fz⟩ := par hz z1 z2
    rcases hp with e | e | e | e | e | e
    · refine (parallelogram (a := boxVertex h 0) (b := boxVertex h 4) (c := boxVertex h 7) (d := boxVertex h 3) ?_ sy0 sy1 tz0 tz1 ?_).elim
        (mk 0 4 7 (by decide)) (mk 0 7 3 (by decide))
      · ext <;> simp only [boxVertex, add_x, add_y, add_z, sub_x, sub_y, sub_z] <;> ring
      · ext <;> simp only [boxVertex, add_x, add_y, add_z, sub_x, sub_y, sub_z, smul_x, smul_y, smul_z]
        · linear_combination e
        · linear_combination ey
        · linear_combination fz
    · refine (parallelogram (a := boxVertex h 1) (b := boxVertex h 2) (c := boxVertex h 6) (d := boxVertex h 5) ?_ tz0 tz1 sy0 sy1 ?_).elim
        (mk 1 2 6 (by decide)) (mk 1 6 5 (by decide))
      · ext <;> simp only [boxVertex, add_x, add_y, add_z, sub_x, sub_y, sub_z] <;> ring
      · ext <;> simp only [boxVertex, add_x, add_y, add_z, sub_x, sub_y, sub_z, smul_x, smul_y, smul_z]
        · linear_combination e
        · linear_combination ey
        · linear_combination fz
    · refine (parallelogram (a := boxVertex h 0) (b := boxVertex h 3) (c := boxVertex h 2) (d := boxVertex h 1) ?_ tz0 tz1 sx0 sx1 ?_).elim
        (mk 0 3 2 (by decide)) (mk 0 2 1 (by decide))
      · ext <;> simp only [boxVertex, add_x, add_y, add_z, sub_x, sub_y, sub_z] <;> ring
      · ext <;> simp only [boxVertex, add_x, add_y, add_z, sub_x, sub_y, sub_z, smul_x, smul_y, smul_z]
        · linear_combination ex
        · linear_combination e
        · linear_combination fz
    · refine (parallelogram (a := boxVertex h 4) (b := boxVertex h 5) (c := boxVertex h 6) (d := boxVertex h 7) ?_ sx0 sx1 tz0 tz1 ?_).elim
        (fun q => mk 5 6 4 (by decide) (inTri_rot q)) (mk 4 6 7 (by decide))
      · ext <;> simp only [boxVertex, add_x, add_y, add_z, sub_x, sub_y, sub_z] <;> ring
      · ext <;> simp only [boxVertex, add_x, add_y, add_z, sub_x, sub_y, sub_z, smul_x, smul_y, smul_z]
        · linear_combination ex
        · linear_combination e
        · linear_combination fz
    · refine (parallelogram (a := boxVertex h 3) (b := boxVertex h 7) (c := boxVertex h 6) (d := boxVertex h 2) ?_ sy0 sy1 sx0 sx1 ?_).elim
        (mk 3 7 6 (by decide)) (fun q => mk 2 3 6 (by decide) (inTri_rot (inTri_rot q)))
      · ext <;> simp only [boxVertex, add_x, add_y, add_z, sub_x, sub_y, sub_z] <;> ring
      · ext <;> simp only [boxVertex, add_x, add_y, add_z, sub_x, sub_y, sub_z, smul_x, smul_y, smul_z]
        · linear_combination ex
        · linear_combination ey
        · linear_combination e
    · refine (parallelogram (a := boxVertex h 0) (b := boxVertex h 1) (c := boxVertex h 5) (d := boxVertex h 4) ?_ sx0 sx1 sy0 sy1 ?_).elim
        (mk 0 1 5 (by decide)) (mk 0 5 4 (by decide))
      · ext <;> simp only [boxVertex, add_x, add_y, add_z, sub_x, sub_y, sub_z] <;> ring
      · ext <;> simp only [boxVertex, add_x, add_y, add_z, sub_x, sub_y, sub_z, smul_x, smul_y, smul_z]
        · linear_combination ex
        · linear_combination ey
        · linear_combination e
  · intro T hT
    obtain ⟨f, hf, rfl⟩ := List.mem_map.1 hT
    refine ⟨rfl, ?_⟩
    have e1 : ∀ p q : V3 K, t.act p - t.act q = t.ori.rot (p - q) := fun p q => by
      ext <;> simp only [Trans.act, Quat.rot, sub_x, sub_y, sub_z, add_x, add_y, add_z] <;> ring
    have e2 : ∀ p, t.act p - t.pos = t.ori.rot p := fun p => by
      ext <;> simp only [Trans.act, sub_x, sub_y, sub_z, add_x, add_y, add_z] <;> ring
    simp only [e1, e2, rot_cross ht, rot_dot ht]
    have hp : 0 < 4 * (h.x * h.y * h.z) := by positivity
    simp only [boxFaces, List.mem_cons, List.not_mem_nil, or_false] at hf
    rcases hf with rfl | rfl | rfl | rfl | rfl | rfl | rfl | rfl | rfl | rfl | rfl | rfl <;>
      simp only [boxVertex, dot, cross, sub_x, sub_y, sub_z] <;> ring_nf <;> linarith

end Debug
end RP3D
