import Verif.Props.HeightRay

/-! C79 (height fields): ray casts report the closest triangle. -/

namespace RP3D
namespace HeightProps
open Ray Height RayProps

variable {K : Type} [Field K] [LinearOrder K]

/-! ### The cells visited -/

/-- The cells visited by the loop. -/
def walkCells (add : Ext K → Ext K → Ext K) (w : Walk K) : Nat → Pos K → Option (List (Int × Int))
  | 0, _ => none
  | n + 1, p =>
    if p.i ≥ 0 ∧ p.i < w.nI ∧ p.j ≥ 0 ∧ p.j < w.nJ then
      if w.stepI = 0 ∧ w.stepJ = 0 then some [(p.i, p.j)]
      else if p.tI.lt p.tJ then (walkCells add w n { p with tI := add p.tI w.dI, i := p.i + w.stepI }).map ((p.i, p.j) :: ·)
      else (walkCells add w n { p with tJ := add p.tJ w.dJ, j := p.j + w.stepJ }).map ((p.i, p.j) :: ·)
    else some []

theorem walkLoop_eq {σ : Type} (add : Ext K → Ext K → Ext K) (w : Walk K) (visit : σ → Int → Int → σ) : ∀ (n : Nat) (p : Pos K) (s : σ),
    walkLoop add w visit n p s = (walkCells add w n p).map fun l => l.foldl (fun s c => visit s c.1 c.2) s := by
  intro n
  induction n with
  | zero => intro p s; rfl
  | succ n ih =>
    intro p s
    unfold walkLoop walkCells
    split_ifs with h1 h2 h3
    · rfl
    · rw [ih, Option.map_map]; rfl
    · rw [ih, Option.map_map]; rfl
    · rfl

theorem walkCells_inGrid (add : Ext K → Ext K → Ext K) (w : Walk K) : ∀ (n : Nat) (p : Pos K) (l : List (Int × Int)),
    walkCells add w n p = some l → ∀ c ∈ l, 0 ≤ c.1 ∧ c.1 < w.nI ∧ 0 ≤ c.2 ∧ c.2 < w.nJ := by
  intro n
  induction n with
  | zero => intro p l h; simp [walkCells] at h
  | succ n ih =>
    intro p l h c hc
    unfold walkCells at h
    split_ifs at h with h1 h2 h3
    · simp only [Option.some.injEq] at h
      subst h
      rw [List.mem_singleton.1 hc]
      exact h1
    · obtain ⟨l', hl', rfl⟩ := Option.map_eq_some_iff.1 h
      rcases List.mem_cons.1 hc with rfl | hc
      · exact h1
      · exact ih _ _ hl' c hc
    · obtain ⟨l', hl', rfl⟩ := Option.map_eq_some_iff.1 h
      rcases List.mem_cons.1 hc with rfl | hc
      · exact h1
      · exact ih _ _ hl' c hc
    · simp only [Option.some.injEq] at h
      subst h
      simp at hc

section Cover
variable [IsStrictOrderedRing K]

/-- The fraction (from the entering point) at which the ray leaves the row or column `i`. -/
def crossT (g d : K) (i : Int) : K := if 0 < d then ((i : K) + 1 - g) / d else ((i : K) - g) / d

/-- `tMax` is the fraction at which the ray leaves the current row or column. -/
def Track (g d : K) (i : Int) (t : Ext K) : Prop := d ≠ 0 → t = .fin (crossT g d i)

/-- The loop has not gone past `a`. -/
def NotPast (d : K) (i a : Int) : Prop := (0 < d → i ≤ a) ∧ (d < 0 → a ≤ i) ∧ (d = 0 → i = a)

omit [IsStrictOrderedRing K] in
theorem stepOf_pos {d : K} (h : 0 < d) : stepOf d = 1 := by unfold stepOf; rw [if_pos h]

theorem stepOf_neg {d : K} (h : d < 0) : stepOf d = -1 := by unfold stepOf; rw [if_neg (not_lt.2 h.le), if_pos h]

omit [IsStrictOrderedRing K] in
theorem stepOf_zero : stepOf (0 : K) = 0 := by simp [stepOf]

theorem track_step {g d : K} {i : Int} {t : Ext K} (h : Track g d i t) : Track g d (i + stepOf d) (extAdd t (deltaT 1 d)) := by
  intro hd
  rw [h hd]
  unfold deltaT extDiv
  rw [if_neg (by simpa using hd)]
  simp only [extAdd, Ext.fin.injEq, crossT]
  rcases lt_or_gt_of_ne hd with hh | hh
  · rw [stepOf_neg hh, abs_of_neg hh, if_neg (not_lt.2 hh.le), if_neg (not_lt.2 hh.le)]
    push_cast
    field_simp
    ring
  · rw [stepOf_pos hh, abs_of_pos hh, if_pos hh, if_pos hh]
    push_cast
    field_simp
    ring

theorem cross_at {g d s : K} {a : Int} (hd : d ≠ 0) (h1 : (a : K) < g + s * d) (h2 : g + s * d < (a : K) + 1) : s < crossT g d a := by
  unfold crossT
  rcases lt_or_gt_of_ne hd with hh | hh
  · rw [if_neg (not_lt.2 hh.le), lt_div_iff_of_neg hh]; linarith
  · rw [if_pos hh, lt_div_iff₀ hh]; linarith

theorem cross_before {g d s : K} {i a : Int} (hd : d ≠ 0) (hp : NotPast d i a) (hne : i ≠ a) (h1 : (a : K) < g + s * d)
    (h2 : g + s * d < (a : K) + 1) : crossT g d i < s := by
  unfold crossT
  rcases lt_or_gt_of_ne hd with hh | hh
  · have : a + 1 ≤ i := by have := hp.2.1 hh; omega
    have : (a : K) + 1 ≤ i := by exact_mod_cast this
    rw [if_neg (not_lt.2 hh.le), div_lt_iff_of_neg hh]; linarith
  · have : i + 1 ≤ a := by have := hp.1 hh; omega
    have : (i : K) + 1 ≤ a := by exact_mod_cast this
    rw [if_pos hh, div_lt_iff₀ hh]; linarith

theorem notPast_step {d : K} {i a n : Int} (hp : NotPast d i a) (h : d = 0 ∨ i ≠ a) (ha : 0 ≤ a ∧ a < n) (hi : 0 ≤ i ∧ i < n) :
    NotPast d (i + stepOf d) a ∧ 0 ≤ i + stepOf d ∧ i + stepOf d < n := by
  rcases lt_trichotomy d 0 with hd | hd | hd
  · rw [stepOf_neg hd]
    have := hp.2.1 hd
    have hne : i ≠ a := h.resolve_left hd.ne
    exact ⟨⟨fun hh => absurd hh (not_lt.2 hd.le), fun _ => by omega, fun hh => absurd hh hd.ne⟩, by omega, by omega⟩
  · subst hd
    rw [stepOf_zero, add_zero]
    exact ⟨hp, hi⟩
  · rw [stepOf_pos hd]
    have := hp.1 hd
    have hne : i ≠ a := h.resolve_left hd.ne'
    exact ⟨⟨fun _ => by omega, fun hh => absurd hh (not_lt.2 hd.le), fun hh => absurd hh hd.ne'⟩, by omega, by omega⟩

/-- Every cell that contains, in its interior, a point of the ray after the entering point is visited. -/
theorem walk_covers {w : Walk K} {gx gz dx dz s : K} {a b : Int} (hI : w.stepI = stepOf dx) (hJ : w.stepJ = stepOf dz)
    (hdI : w.dI = deltaT 1 dx) (hdJ : w.dJ = deltaT 1 dz) (ha : 0 ≤ a ∧ a < w.nI) (hb : 0 ≤ b ∧ b < w.nJ)
    (x1 : (a : K) < gx + s * dx) (x2 : gx + s * dx < (a : K) + 1) (z1 : (b : K) < gz + s * dz) (z2 : gz + s * dz < (b : K) + 1) :
    ∀ (n : Nat) (p : Pos K) (l : List (Int × Int)), walkCells extAdd w n p = some l → (0 ≤ p.i ∧ p.i < w.nI) → (0 ≤ p.j ∧ p.j < w.nJ) →
      Track gx dx p.i p.tI → Track gz dz p.j p.tJ → NotPast dx p.i a → NotPast dz p.j b → (a, b) ∈ l := by
  intro n
  induction n with
  | zero => intro p l h; simp [walkCells] at h
  | succ n ih =>
    intro p l h gi gj ti tj ni nj
    unfold walkCells at h
    rw [if_pos ⟨gi.1, gi.2, gj.1, gj.2⟩] at h
    by_cases hz : w.stepI = 0 ∧ w.stepJ = 0
    · rw [if_pos hz] at h
      simp only [Option.some.injEq] at h
      subst h
      have zero : ∀ d : K, stepOf d = 0 → d = 0 := by
        intro d hd
        by_contra hne
        rcases lt_or_gt_of_ne hne with hh | hh
        · rw [stepOf_neg hh] at hd; exact absurd hd (by decide)
        · rw [stepOf_pos hh] at hd; exact absurd hd (by decide)
      rw [ni.2.2 (zero dx (hI ▸ hz.1)), nj.2.2 (zero dz (hJ ▸ hz.2))]
      exact List.mem_singleton.2 rfl
    · rw [if_neg hz] at h
      by_cases hc : p.i = a ∧ p.j = b
      · split_ifs at h
        all_goals
          obtain ⟨l', _, rfl⟩ := Option.map_eq_some_iff.1 h
          rw [hc.1, hc.2]
          exact List.mem_cons_self ..
      · by_cases hlt : p.tI.lt p.tJ = true
        · rw [if_pos hlt] at h
          obtain ⟨l', hl', rfl⟩ := Option.map_eq_some_iff.1 h
          have hstep : dx = 0 ∨ p.i ≠ a := by
            by_contra hn
            rw [not_or, not_not] at hn
            obtain ⟨hdx, hia⟩ := hn
            have hjb : p.j ≠ b := fun e => hc ⟨hia, e⟩
            have hdz : dz ≠ 0 := fun e => hjb (nj.2.2 e)
            rw [ti hdx, tj hdz, hia] at hlt
            have k1 := cross_at hdx x1 x2
            have k2 := cross_before hdz nj hjb z1 z2
            simp only [Ext.lt, decide_eq_true_eq] at hlt
            linarith
          obtain ⟨n1, n2⟩ := notPast_step ni hstep ha gi
          refine List.mem_cons_of_mem _ (ih _ l' hl' ?_ gj ?_ tj ?_ nj)
          · rw [hI]; exact n2
          · simp only [hI, hdI]; exact track_step ti
          · simp only [hI]; exact n1
        · rw [if_neg hlt] at h
          obtain ⟨l', hl', rfl⟩ := Option.map_eq_some_iff.1 h
          have hstep : dz = 0 ∨ p.j ≠ b := by
            by_contra hn
            rw [not_or, not_not] at hn
            obtain ⟨hdz, hjb⟩ := hn
            have hia : p.i ≠ a := fun e => hc ⟨e, hjb⟩
            have hdx : dx ≠ 0 := fun e => hia (ni.2.2 e)
            apply hlt
            rw [ti hdx, tj hdz, hjb]
            have k1 := cross_at hdz z1 z2
            have k2 := cross_before hdx ni hia x1 x2
            simp only [Ext.lt, decide_eq_true_eq]
            linarith
          obtain ⟨n1, n2⟩ := notPast_step nj hstep hb gj
          refine List.mem_cons_of_mem _ (ih _ l' hl' gi ?_ ti ?_ ni ?_)
          · rw [hJ]; exact n2
          · simp only [hJ, hdJ]; exact track_step tj
          · simp only [hJ]; exact n1

variable [FloorRing K]

theorem Begin.track {neg : Bool} {n : Int} {g d : K} {step : Int} {δ : Ext K} {i : Int} {t : Ext K} (h : Begin neg n g d step δ i t) :
    Track g d i t := by
  intro hd
  rw [h.first]
  unfold firstT extDiv crossT
  rw [if_neg hd]
  rcases lt_or_gt_of_ne hd with hh | hh
  · rw [stepOf_neg hh, if_neg (by decide), if_neg (not_lt.2 hh.le), mul_one]
  · rw [stepOf_pos hh, if_pos (by decide), if_pos hh, mul_one]
    push_cast
    rfl

theorem Begin.notPast {neg : Bool} {n : Int} {g d s : K} {step : Int} {δ : Ext K} {i : Int} {t : Ext K} (h : Begin neg n g d step δ i t)
    {a : Int} (ha : 0 ≤ a ∧ a < n) (hs : 0 ≤ s) (h1 : (a : K) < g + s * d) (h2 : g + s * d < (a : K) + 1) : NotPast d i a := by
  have h0 : 0 ≤ ⌊g⌋ := Int.floor_nonneg.2 h.g0
  have hi : i = min ⌊g⌋ (n - 1) := by
    rw [h.cell]; unfold enterCell clampInt
    rw [div_one, max_eq_left h0]
  have le : g < (a : K) + 1 → i ≤ a := by
    intro hg
    have : ⌊g⌋ < a + 1 := Int.floor_lt.2 (by push_cast; exact hg)
    omega
  have ge : (a : K) ≤ g → a ≤ i := by
    intro hg
    have : a ≤ ⌊g⌋ := Int.le_floor.2 hg
    omega
  refine ⟨fun hd => le ?_, fun hd => ge ?_, fun hd => ?_⟩
  · have := mul_nonneg hs hd.le; linarith
  · have := mul_nonneg hs (neg_nonneg.2 hd.le); linarith
  · subst hd
    rw [mul_zero, add_zero] at h1 h2
    exact le_antisymm (le h2) (ge h1.le)

end Cover

/-! ### The closest of the triangles -/

section Closest
variable [IsStrictOrderedRing K]

/-- What the code has found after the triangles `l`: the closest hit, if there is one. -/
structure BestOf (eps : K) (side : Side) (r : Ray K) (l : List (V3 K × V3 K × V3 K)) (b : Best K) : Prop where
  closest : ∀ t ∈ l, ∀ h, triangle eps side t.1 t.2.1 t.2.2 r = .hit h → b.hit ≠ none ∧ b.smallest ≤ h.fraction
  found : ∀ h, b.hit = some h → h.fraction = b.smallest ∧ ∃ t ∈ l, triangle eps side t.1 t.2.1 t.2.2 r = .hit h
  range : b.smallest ≤ r.maxF
  none : b.hit = none → b.smallest = r.maxF

theorem rayTriangle_spec {eps : K} {side : Side} {r : Ray K} {l : List (V3 K × V3 K × V3 K)} {b : Best K} (he : 0 < eps)
    (hb : BestOf eps side r l b) (t : V3 K × V3 K × V3 K) : BestOf eps side r (l ++ [t]) (rayTriangle eps side r b t) := by
  have miss : (∀ h, triangle eps side t.1 t.2.1 t.2.2 r ≠ .hit h) → BestOf eps side r (l ++ [t]) b := by
    intro hm
    refine ⟨?_, ?_, hb.range, hb.none⟩
    · intro t' ht' h hh
      rcases List.mem_append.1 ht' with ht' | ht'
      · exact hb.closest t' ht' h hh
      · rw [List.mem_singleton.1 ht'] at hh; exact absurd hh (hm h)
    · intro h hh
      obtain ⟨e, t', ht', hh'⟩ := hb.found h hh
      exact ⟨e, t', List.mem_append_left _ ht', hh'⟩
  unfold rayTriangle
  cases ht : triangle eps side t.1 t.2.1 t.2.2 r with
  | miss => exact miss (by rw [ht]; simp)
  | nan => exact miss (by rw [ht]; simp)
  | hit h =>
    have hr := (triangle_hit he ht).2.2.1
    simp only
    by_cases hc : h.fraction ≤ b.smallest
    · rw [if_pos hc]
      refine ⟨?_, ?_, hr, by simp⟩
      · intro t' ht' h' hh
        refine ⟨by simp, ?_⟩
        rcases List.mem_append.1 ht' with ht' | ht'
        · exact hc.trans (hb.closest t' ht' h' hh).2
        · rw [List.mem_singleton.1 ht', ht] at hh
          cases hh
          exact le_refl _
      · intro h' hh
        simp only [Option.some.injEq] at hh
        subst hh
        exact ⟨rfl, t, by simp, ht⟩
    · rw [if_neg hc]
      refine ⟨?_, ?_, hb.range, hb.none⟩
      · intro t' ht' h' hh
        rcases List.mem_append.1 ht' with ht' | ht'
        · exact hb.closest t' ht' h' hh
        · rw [List.mem_singleton.1 ht', ht] at hh
          cases hh
          exact ⟨fun e => hc (by rw [hb.none e]; exact hr), (not_le.1 hc).le⟩
      · intro h' hh
        obtain ⟨e, t', ht', hh'⟩ := hb.found h' hh
        exact ⟨e, t', List.mem_append_left _ ht', hh'⟩

theorem rayTriangles_spec {eps : K} {side : Side} {r : Ray K} (he : 0 < eps) : ∀ (l' l : List (V3 K × V3 K × V3 K)) (b : Best K),
    BestOf eps side r l b → BestOf eps side r (l ++ l') (l'.foldl (rayTriangle eps side r) b)
  | [], l, b, hb => by simpa using hb
  | t :: l', l, b, hb => by
    have := rayTriangles_spec he l' (l ++ [t]) _ (rayTriangle_spec he hb t)
    simpa using this

theorem bestOf_nil (eps : K) (side : Side) (r : Ray K) : BestOf eps side r [] ⟨none, r.maxF⟩ :=
  ⟨by simp, by simp, le_refl _, fun _ => rfl⟩

theorem visits_spec {f : HField K} {eps : K} {side : Side} {r : Ray K} (he : 0 < eps) (cells : List (Int × Int)) :
    BestOf eps side r (cells.flatMap fun c => f.tris c.1.toNat c.2.toNat)
      (cells.foldl (fun s c => f.visit eps side r s c.1 c.2) ⟨none, r.maxF⟩) := by
  have e : cells.foldl (fun s c => f.visit eps side r s c.1 c.2) ⟨none, r.maxF⟩ =
      (cells.flatMap fun c => f.tris c.1.toNat c.2.toNat).foldl (rayTriangle eps side r) ⟨none, r.maxF⟩ := by
    rw [List.foldl_flatMap]; rfl
  rw [e]
  simpa using rayTriangles_spec he _ [] _ (bestOf_nil eps side r)

end Closest

/-! ### Scaling -/

section Scale
variable [IsStrictOrderedRing K]

def inverse (s : V3 K) : V3 K := ⟨1 / s.x, 1 / s.y, 1 / s.z⟩

omit [LinearOrder K] [IsStrictOrderedRing K] in
theorem scale_inverse {s : V3 K} (hx : s.x ≠ 0) (hy : s.y ≠ 0) (hz : s.z ≠ 0) (v : V3 K) : scaleBy s (scaleBy (inverse s) v) = v := by
  unfold scaleBy inverse
  ext <;> simp only <;> field_simp

omit [LinearOrder K] [IsStrictOrderedRing K] in
theorem scaled_at (s : V3 K) (r : Ray K) (t : K) :
    Ray.at ⟨scaleBy s r.p1, scaleBy s r.p2, r.maxF⟩ t = scaleBy s (r.at t) := by
  unfold Ray.at Ray.dir scaleBy
  ext <;> simp only [V3.add_x, V3.add_y, V3.add_z, V3.smul_x, V3.smul_y, V3.smul_z, V3.sub_x, V3.sub_y, V3.sub_z] <;> ring

omit [IsStrictOrderedRing K] in
theorem tri_scale (s : V3 K) {a b c x : V3 K} (h : Tri a b c x) : Tri (scaleBy s a) (scaleBy s b) (scaleBy s c) (scaleBy s x) := by
  obtain ⟨i, j, k, i0, j0, k0, e, rfl⟩ := h
  refine ⟨i, j, k, i0, j0, k0, e, ?_⟩
  unfold scaleBy
  ext <;> simp only [V3.add_x, V3.add_y, V3.add_z, V3.smul_x, V3.smul_y, V3.smul_z] <;> ring

theorem convex3 {lo hi a b c i j k : K} (i0 : 0 ≤ i) (j0 : 0 ≤ j) (k0 : 0 ≤ k) (e : i + j + k = 1) (a1 : lo ≤ a) (a2 : a ≤ hi)
    (b1 : lo ≤ b) (b2 : b ≤ hi) (c1 : lo ≤ c) (c2 : c ≤ hi) : lo ≤ i * a + j * b + k * c ∧ i * a + j * b + k * c ≤ hi := by
  have el : lo = (i + j + k) * lo := by rw [e, one_mul]
  have eh : hi = (i + j + k) * hi := by rw [e, one_mul]
  constructor
  · nlinarith [mul_le_mul_of_nonneg_left a1 i0, mul_le_mul_of_nonneg_left b1 j0, mul_le_mul_of_nonneg_left c1 k0]
  · nlinarith [mul_le_mul_of_nonneg_left a2 i0, mul_le_mul_of_nonneg_left b2 j0, mul_le_mul_of_nonneg_left c2 k0]

theorem tri_in_box {a b c x : V3 K} {bx : AABB K} (h : Tri a b c x) (ha : AABB.Mem a bx) (hb : AABB.Mem b bx) (hc : AABB.Mem c bx) :
    AABB.Mem x bx := by
  obtain ⟨i, j, k, i0, j0, k0, e, rfl⟩ := h
  unfold AABB.Mem at *
  simp only [V3.add_x, V3.add_y, V3.add_z, V3.smul_x, V3.smul_y, V3.smul_z]
  obtain ⟨a1, a2, a3, a4, a5, a6⟩ := ha
  obtain ⟨b1, b2, b3, b4, b5, b6⟩ := hb
  obtain ⟨c1, c2, c3, c4, c5, c6⟩ := hc
  exact ⟨(convex3 i0 j0 k0 e a1 a2 b1 b2 c1 c2).1, (convex3 i0 j0 k0 e a1 a2 b1 b2 c1 c2).2, (convex3 i0 j0 k0 e a3 a4 b3 b4 c3 c4).1,
    (convex3 i0 j0 k0 e a3 a4 b3 b4 c3 c4).2, (convex3 i0 j0 k0 e a5 a6 b5 b6 c5 c6).1, (convex3 i0 j0 k0 e a5 a6 b5 b6 c5 c6).2⟩

end Scale

section Main
variable [IsStrictOrderedRing K] [FloorRing K]

/-- Specification: the triangle is seen by the ray from a side that is tested, and clearly so. -/
def Seen (eps : K) (side : Side) (t : V3 K × V3 K × V3 K) (r : Ray K) : Prop :=
  (side ≠ .back ∧ 3 * eps ≤ -((triNormal t.1 t.2.1 t.2.2).dot r.dir)) ∨ (side ≠ .front ∧ 3 * eps ≤ (triNormal t.1 t.2.1 t.2.2).dot r.dir)

theorem tris_eq {src : Source K} {f : HField K} (h : Made src f) {i j : Nat} (hi : i + 1 < f.cols) (hj : j + 1 < f.rows) :
    f.tris i j = [cellTriangle src f ⟨1, 1, 1⟩ i j false, cellTriangle src f ⟨1, 1, 1⟩ i j true] := by
  unfold HField.tris cellTriangle corner
  rw [vertex_eq h (by omega) (by omega), vertex_eq h (by omega) (by omega), vertex_eq h (by omega) (by omega), vertex_eq h (by omega) (by omega)]
  simp [scaleBy]

theorem cellTriangle_in_bounds {src : Source K} {f : HField K} (h : Made src f) {i j : Nat} (hi : i + 1 < f.cols) (hj : j + 1 < f.rows)
    (s : Bool) {x : V3 K} (hx : Tri (cellTriangle src f ⟨1, 1, 1⟩ i j s).1 (cellTriangle src f ⟨1, 1, 1⟩ i j s).2.1
      (cellTriangle src f ⟨1, 1, 1⟩ i j s).2.2 x) : AABB.Mem x f.bounds := by
  have c : ∀ a b, a < f.cols → b < f.rows → AABB.Mem (corner src f ⟨1, 1, 1⟩ a b) f.bounds := by
    intro a b ha hb
    have := vertex_in_bounds h ha hb
    rw [vertex_eq h ha hb] at this
    simpa [corner, scaleBy] using this
  cases s
  · exact tri_in_box hx (c _ _ (by omega) (by omega)) (c _ _ (by omega) (by omega)) (c _ _ (by omega) (by omega))
  · exact tri_in_box hx (c _ _ (by omega) (by omega)) (c _ _ (by omega) (by omega)) (c _ _ (by omega) (by omega))

/-- The ray cast in the space of the height field. -/
theorem raycast_closest {src : Source K} {f : HField K} (hm : Made src f) {eps epsA large : K} {side : Side} {negX negZ : Bool} {r : Ray K}
    {n : Nat} {res : Option (Hit K)} (he : 0 < eps) (heA : 0 < epsA) (hl : 0 ≤ large) (hml : r.maxF ≤ large) (dx : ClearOf epsA r.dir.x)
    (dy : ClearOf epsA r.dir.y) (dz : ClearOf epsA r.dir.z) (hres : f.raycast eps epsA large negX negZ side r n = some res) :
    (∀ h, res = some h → ∃ i j s, i + 1 < f.cols ∧ j + 1 < f.rows ∧ triangle eps side (cellTriangle src f ⟨1, 1, 1⟩ i j s).1
      (cellTriangle src f ⟨1, 1, 1⟩ i j s).2.1 (cellTriangle src f ⟨1, 1, 1⟩ i j s).2.2 r = .hit h) ∧
    ∀ i j s t, i + 1 < f.cols → j + 1 < f.rows → 0 ≤ t → t ≤ r.maxF → Tri (cellTriangle src f ⟨1, 1, 1⟩ i j s).1
      (cellTriangle src f ⟨1, 1, 1⟩ i j s).2.1 (cellTriangle src f ⟨1, 1, 1⟩ i j s).2.2 (r.at t) →
      Seen eps side (cellTriangle src f ⟨1, 1, 1⟩ i j s) r →
      (i : K) < (r.at t).x - f.bounds.mn.x → (r.at t).x - f.bounds.mn.x < (i : K) + 1 →
      (j : K) < (r.at t).z - f.bounds.mn.z → (r.at t).z - f.bounds.mn.z < (j : K) + 1 →
      ∃ h, res = some h ∧ h.fraction ≤ t := by
  unfold HField.raycast at hres
  cases hs : f.start epsA large negX negZ r with
  | none =>
    rw [hs] at hres
    simp only [Option.some.injEq] at hres
    subst hres
    refine ⟨by simp, ?_⟩
    intro i j s t hi hj t0 t1 ht _ _ _ _ _
    exfalso
    unfold HField.start at hs
    cases ha : aabbRaycast epsA large f.bounds r with
    | none => exact (aabbRaycast_spec heA hl (made_bounds_valid hm) dx dy dz).2 ha t t0 (t1.trans hml) (cellTriangle_in_bounds hm hi hj s ht)
    | some q => rw [ha] at hs; simp at hs
  | some wp =>
    obtain ⟨w, p⟩ := wp
    rw [hs] at hres
    simp only [walkLoop_eq, Option.map_map] at hres
    obtain ⟨cells, hc, rfl⟩ := Option.map_eq_some_iff.1 hres
    obtain ⟨t0, g, ht0, hg, hfirst, hnI, hnJ, bx, bz⟩ := start_spec hm heA hl dx dy dz hs
    have best := visits_spec (f := f) (side := side) (r := r) he cells
    have hin := walkCells_inGrid _ _ _ _ _ hc
    simp only [Function.comp_apply]
    refine ⟨?_, ?_⟩
    · intro h hh
      obtain ⟨_, t, ht, hit⟩ := best.found h hh
      obtain ⟨c, hcm, htc⟩ := List.mem_flatMap.1 ht
      have hg := hin c hcm
      have h1 : c.1.toNat + 1 < f.cols := by omega
      have h2 : c.2.toNat + 1 < f.rows := by omega
      rw [tris_eq hm h1 h2] at htc
      simp only [List.mem_cons, List.not_mem_nil, or_false] at htc
      rcases htc with rfl | rfl
      · exact ⟨_, _, false, h1, h2, hit⟩
      · exact ⟨_, _, true, h1, h2, hit⟩
    · intro i j s t hi hj tp tm ht hseen x1 x2 z1 z2
      have hle := hfirst t tp (tm.trans hml) (cellTriangle_in_bounds hm hi hj s ht)
      have ex : (r.at t).x - f.bounds.mn.x = g.x + (t - t0) * r.dir.x := by
        rw [hg]; simp only [Ray.at, V3.sub_x, V3.add_x, V3.smul_x]; ring
      have ez : (r.at t).z - f.bounds.mn.z = g.z + (t - t0) * r.dir.z := by
        rw [hg]; simp only [Ray.at, V3.sub_z, V3.add_z, V3.smul_z]; ring
      rw [ex] at x1 x2
      rw [ez] at z1 z2
      have hs0 : 0 ≤ t - t0 := sub_nonneg.2 hle
      have ha : 0 ≤ (i : Int) ∧ (i : Int) < w.nI := by omega
      have hb : 0 ≤ (j : Int) ∧ (j : Int) < w.nJ := by omega
      have hmem : ((i : Int), (j : Int)) ∈ cells :=
        walk_covers (a := i) (b := j) (s := t - t0) bx.step bz.step bx.delta bz.delta ha hb (by exact_mod_cast x1) (by exact_mod_cast x2)
          (by exact_mod_cast z1) (by exact_mod_cast z2) n p cells hc bx.inGrid bz.inGrid bx.track bz.track
          (bx.notPast ha hs0 (by exact_mod_cast x1) (by exact_mod_cast x2)) (bz.notPast hb hs0 (by exact_mod_cast z1) (by exact_mod_cast z2))
      have htm : cellTriangle src f ⟨1, 1, 1⟩ i j s ∈ cells.flatMap fun c => f.tris c.1.toNat c.2.toNat := by
        refine List.mem_flatMap.2 ⟨_, hmem, ?_⟩
        simp only [Int.toNat_natCast]
        rw [tris_eq hm hi hj]
        cases s <;> simp
      obtain ⟨h', hh', hf'⟩ := triangle_complete hseen he tp tm ht
      obtain ⟨hne, hsm⟩ := best.closest _ htm h' hh'
      obtain ⟨h, hh⟩ := Option.ne_none_iff_exists'.1 hne
      exact ⟨h, hh, by rw [(best.found h hh).1, ← hf']; exact hsm⟩

/-- The ray in the space of the height field. -/
def localRay (scale : V3 K) (r : Ray K) : Ray K := ⟨scaleBy (inverse scale) r.p1, scaleBy (inverse scale) r.p2, r.maxF⟩

omit [LinearOrder K] [IsStrictOrderedRing K] [FloorRing K] in
theorem corner_scale (src : Source K) (f : HField K) (scale : V3 K) (i j : Nat) (s : Bool) :
    cellTriangle src f scale i j s = (scaleBy scale (cellTriangle src f ⟨1, 1, 1⟩ i j s).1,
      scaleBy scale (cellTriangle src f ⟨1, 1, 1⟩ i j s).2.1, scaleBy scale (cellTriangle src f ⟨1, 1, 1⟩ i j s).2.2) := by
  cases s <;> simp [cellTriangle, corner, scaleBy]

omit [IsStrictOrderedRing K] [FloorRing K] in
theorem tri_unscale {scale : V3 K} (hx : scale.x ≠ 0) (hy : scale.y ≠ 0) (hz : scale.z ≠ 0) {a b c x : V3 K}
    (h : Tri (scaleBy scale a) (scaleBy scale b) (scaleBy scale c) x) : Tri a b c (scaleBy (inverse scale) x) := by
  have inv : ∀ v : V3 K, scaleBy (inverse scale) (scaleBy scale v) = v := by
    intro v
    unfold scaleBy inverse
    ext <;> simp only <;> field_simp
  have := tri_scale (inverse scale) h
  rwa [inv, inv, inv] at this

/-- C79: a ray cast against a height field, with a positive scale, for the front or the back sides, that reports a hit reports a point of
the ray within its range that lies on one of the triangles, and no triangle that is met from a tested side is closer: each of them
that is met at an inner point of its cell is reported, or a closer one.
Partial: triangles seen at a grazing angle (`Seen`) and points above the border of a cell are left out; both sides at once, where
the test of a single triangle is wrong (C77), only have the second half; the normal is only right if the scale is the same in all
directions (`height_normal_wrong`). -/
theorem height_raycast_closest_partial {cols rows : Nat} {src : Source K} {d : Data K} {f : HField K} (h : init cols rows src d = some f)
    {scale : V3 K} (sx : 0 < scale.x) (sy : 0 < scale.y) (sz : 0 < scale.z) {eps epsA large : K} {side : Side} {negX negZ : Bool} {r : Ray K}
    {n : Nat} {res : Option (Hit K)} (he : 0 < eps) (heA : 0 < epsA) (hl : 0 ≤ large) (hml : r.maxF ≤ large)
    (dx : ClearOf epsA (localRay scale r).dir.x) (dy : ClearOf epsA (localRay scale r).dir.y) (dz : ClearOf epsA (localRay scale r).dir.z)
    (hres : shapeRaycast f scale eps epsA large negX negZ side r n = some res) :
    (side ≠ .frontAndBack → ∀ hit, res = some hit → 0 ≤ hit.fraction ∧ hit.fraction ≤ r.maxF ∧ hit.point = r.at hit.fraction ∧
      ∃ i j s, i + 1 < cols ∧ j + 1 < rows ∧ Tri (cellTriangle src f scale i j s).1 (cellTriangle src f scale i j s).2.1
        (cellTriangle src f scale i j s).2.2 (r.at hit.fraction) ∧
        (scale.x = scale.y → scale.y = scale.z → Outward (Tri (cellTriangle src f scale i j s).1 (cellTriangle src f scale i j s).2.1
          (cellTriangle src f scale i j s).2.2) r hit.fraction hit.normal)) ∧
    ∀ i j s t, i + 1 < cols → j + 1 < rows → 0 ≤ t → t ≤ r.maxF → Tri (cellTriangle src f scale i j s).1
      (cellTriangle src f scale i j s).2.1 (cellTriangle src f scale i j s).2.2 (r.at t) →
      Seen eps side (cellTriangle src f ⟨1, 1, 1⟩ i j s) (localRay scale r) →
      (corner src f scale i j).x < (r.at t).x → (r.at t).x < (corner src f scale (i + 1) j).x →
      (corner src f scale i j).z < (r.at t).z → (r.at t).z < (corner src f scale i (j + 1)).z →
      ∃ hit, res = some hit ∧ hit.fraction ≤ t := by
  obtain ⟨hm, rfl, rfl⟩ := init_made h
  unfold shapeRaycast at hres
  obtain ⟨res', hr', rfl⟩ := Option.map_eq_some_iff.1 hres
  obtain ⟨k1, k2⟩ := raycast_closest (r := localRay scale r) hm he heA hl hml dx dy dz hr'
  have hat : ∀ t, (localRay scale r).at t = scaleBy (inverse scale) (r.at t) := fun t => scaled_at _ r t
  have back : ∀ v, scaleBy scale (scaleBy (inverse scale) v) = v := scale_inverse sx.ne' sy.ne' sz.ne'
  refine ⟨?_, ?_⟩
  · intro hside hit hh
    obtain ⟨h', e', rfl⟩ := Option.map_eq_some_iff.1 hh
    obtain ⟨i, j, s, hi, hj, ht⟩ := k1 h' e'
    have key : IsFirst (Tri (cellTriangle src f ⟨1, 1, 1⟩ i j s).1 (cellTriangle src f ⟨1, 1, 1⟩ i j s).2.1
        (cellTriangle src f ⟨1, 1, 1⟩ i j s).2.2) (localRay scale r) h'.fraction ∧ h'.fraction ≤ r.maxF ∧
        h'.point = (localRay scale r).at h'.fraction ∧ Outward (Tri (cellTriangle src f ⟨1, 1, 1⟩ i j s).1
          (cellTriangle src f ⟨1, 1, 1⟩ i j s).2.1 (cellTriangle src f ⟨1, 1, 1⟩ i j s).2.2) (localRay scale r) h'.fraction h'.normal := by
      have tp := triangle_raycast_partial (a := (cellTriangle src f ⟨1, 1, 1⟩ i j s).1) (b := (cellTriangle src f ⟨1, 1, 1⟩ i j s).2.1)
        (c := (cellTriangle src f ⟨1, 1, 1⟩ i j s).2.2) (r := localRay scale r) he
      cases side with
      | front => obtain ⟨_, _, q1, q2, q3, q4⟩ := tp.1 h' ht; exact ⟨q1, q2, q3, q4⟩
      | back => obtain ⟨_, _, q1, q2, q3, q4⟩ := tp.2.1 h' ht; exact ⟨q1, q2, q3, q4⟩
      | frontAndBack => exact absurd rfl hside
    obtain ⟨⟨q0, q1, _⟩, q2, q3, q4, q5, q6⟩ := key
    refine ⟨q0, q2, ?_, i, j, s, hi, hj, ?_, ?_⟩
    · simp only
      rw [q3, hat, back]
    · have := tri_scale scale q1
      rw [hat, back] at this
      rw [corner_scale]
      exact this
    · intro e1 e2
      have hk : ∀ v : V3 K, h'.normal.dot v = scale.x * h'.normal.dot (scaleBy (inverse scale) v) := by
        intro v
        simp only [V3.dot, scaleBy, inverse, ← e2, ← e1]
        field_simp
      refine ⟨q4, ?_, ?_⟩
      · have hd : (localRay scale r).dir = scaleBy (inverse scale) r.dir := by
          unfold localRay Ray.dir scaleBy
          ext <;> simp only [V3.sub_x, V3.sub_y, V3.sub_z] <;> ring
        rw [hd] at q5
        simp only
        rw [hk]
        exact mul_nonpos_of_nonneg_of_nonpos sx.le q5
      · intro x hx
        rw [corner_scale] at hx
        have hx' := q6 _ (tri_unscale sx.ne' sy.ne' sz.ne' hx)
        rw [hat] at hx'
        simp only
        rw [hk x, hk (r.at h'.fraction)]
        exact mul_le_mul_of_nonneg_left hx' sx.le
  · intro i j s t hi hj t0 t1 ht hseen x1 x2 z1 z2
    rw [corner_scale] at ht
    have ht' := tri_unscale sx.ne' sy.ne' sz.ne' ht
    rw [← hat] at ht'
    have wc : f.width = (f.cols : K) - 1 := by have := hm.cols; unfold HField.width; rw [Nat.cast_sub (by omega), Nat.cast_one]
    have lc : f.length = (f.rows : K) - 1 := by have := hm.rows; unfold HField.length; rw [Nat.cast_sub (by omega), Nat.cast_one]
    have bx : f.bounds.mn.x = -(((f.cols : K) - 1) / 2) := by rw [hm.bounds, wc]; ring
    have bz : f.bounds.mn.z = -(((f.rows : K) - 1) / 2) := by rw [hm.bounds, lc]; ring
    have ax : ((localRay scale r).at t).x = (r.at t).x / scale.x := by rw [hat]; simp only [scaleBy, inverse]; ring
    have az : ((localRay scale r).at t).z = (r.at t).z / scale.z := by rw [hat]; simp only [scaleBy, inverse]; ring
    simp only [corner, scaleBy, Placed, Nat.cast_add, Nat.cast_one] at x1 x2 z1 z2
    rw [mul_comm, ← lt_div_iff₀ sx] at x1
    rw [mul_comm, ← div_lt_iff₀ sx] at x2
    rw [mul_comm, ← lt_div_iff₀ sz] at z1
    rw [mul_comm, ← div_lt_iff₀ sz] at z2
    obtain ⟨h', e', l'⟩ := k2 i j s t hi hj t0 t1 ht' hseen (by rw [ax, bx]; linarith) (by rw [ax, bx]; linarith)
      (by rw [az, bz]; linarith) (by rw [az, bz]; linarith)
    exact ⟨{ h' with point := scaleBy scale h'.point }, by rw [e']; rfl, l'⟩

end Main

/-! ### Examples -/

/-- A slope: two by two grid points, the height grows with `x`. -/
def slope : Source ℚ := .real fun k => if k % 2 = 1 then 1 else 0

def slopeField : HField ℚ := ⟨2, 2, copyData 2 2 slope ⟨fun _ => 0, 0, 0⟩, -1/2, ⟨⟨-1/2, -1/2, -1/2⟩, ⟨1/2, 1/2, 1/2⟩⟩⟩

theorem slopeField_made : init 2 2 slope ⟨fun _ => 0, 0, 0⟩ = some slopeField := by
  have h1 : (copyData 2 2 slope ⟨fun _ => 0, 0, 0⟩).minH = 0 := by decide +kernel
  have h2 : (copyData 2 2 slope ⟨fun _ => 0, 0, 0⟩).maxH = 1 := by decide +kernel
  unfold init slopeField
  rw [if_neg (by decide)]
  simp only [h1, h2]
  norm_num

/-- A ray straight down onto the slope, scaled in `x`. -/
def down : Ray ℚ := ⟨⟨-1/2, 3, -1/4⟩, ⟨-1/2, -3, -1/4⟩, 1⟩

deriving instance DecidableEq for Hit

theorem down_hit : shapeRaycast slopeField ⟨2, 1, 1⟩ (1/1000) (1/100000) 1000 false false .front down 5 =
    some (some ⟨13/24, ⟨-1/2, -1/4, -1/4⟩, ⟨-1, 1, 0⟩⟩) := by decide +kernel

/-- C79 fails for the normal if the scale differs between the directions: the normal is that of the triangle before scaling. -/
theorem height_normal_wrong : ∃ hit, shapeRaycast slopeField ⟨2, 1, 1⟩ (1/1000) (1/100000) 1000 false false .front down 5 = some (some hit) ∧
    ∀ i j s, i + 1 < 2 → j + 1 < 2 → ¬ Outward (Tri (cellTriangle slope slopeField ⟨2, 1, 1⟩ i j s).1
      (cellTriangle slope slopeField ⟨2, 1, 1⟩ i j s).2.1 (cellTriangle slope slopeField ⟨2, 1, 1⟩ i j s).2.2) down hit.fraction hit.normal := by
  refine ⟨_, down_hit, ?_⟩
  intro i j s hi hj ho
  obtain rfl : i = 0 := by omega
  obtain rfl : j = 0 := by omega
  have vert : ∀ a b c : V3 ℚ, Tri a b c a ∧ Tri a b c b ∧ Tri a b c c := by
    intro a b c
    refine ⟨⟨1, 0, 0, ?_⟩, ⟨0, 1, 0, ?_⟩, ⟨0, 0, 1, ?_⟩⟩ <;> refine ⟨by norm_num, by norm_num, by norm_num, by norm_num, ?_⟩ <;>
      ext <;> simp
  cases s
  · have := ho.2.2 _ (vert _ _ _).1
    revert this
    decide +kernel
  · have := ho.2.2 _ (vert _ _ _).2.1
    revert this
    decide +kernel

/-- The hypotheses of `height_raycast_closest_partial` are met by this ray: the first triangle is met in the interior of the cell. -/
example : ∃ hit, shapeRaycast slopeField ⟨2, 1, 1⟩ (1/1000) (1/100000) 1000 false false .front down 5 = some (some hit) ∧
    hit.fraction ≤ 13/24 := by
  obtain ⟨hit, h1, h2⟩ := (height_raycast_closest_partial slopeField_made (by decide +kernel) (by decide +kernel) (by decide +kernel)
    (by decide +kernel) (by decide +kernel) (by decide +kernel) (by decide +kernel) (by unfold ClearOf; decide +kernel)
    (by unfold ClearOf; decide +kernel) (by unfold ClearOf; decide +kernel) down_hit).2 0 0 false (13/24) (by decide) (by decide) (by decide +kernel) (by decide +kernel)
    ⟨1/2, 1/4, 1/4, by norm_num, by norm_num, by norm_num, by norm_num, by ext <;> decide +kernel⟩
    (Or.inl ⟨by decide, by decide +kernel⟩) (by decide +kernel) (by decide +kernel) (by decide +kernel) (by decide +kernel)
  exact ⟨hit, by rw [down_hit, h1], h2⟩

/-- The hypotheses of `height_raycast_returns_partial` and of `height_raycast_forever` are met by rays over the slope. -/
example : ∃ n, (slopeField.raycast (1/1000) (1/100000) 1000 false false .front ⟨⟨-10, 0, 1/4⟩, ⟨10, 0, 1/4⟩, 1⟩ n).isSome :=
  height_raycast_returns_partial slopeField_made .front (by norm_num) (by norm_num) (by unfold ClearOf; decide +kernel)
    (by unfold ClearOf; decide +kernel) (by unfold ClearOf; decide +kernel) (by decide +kernel)

example (n : Nat) : slopeField.raycast (1/1000) (1/100000) 1000 false false .front ⟨⟨-10, 0, 1/2⟩, ⟨10, 0, 1/2⟩, 1⟩ n = none :=
  height_raycast_forever slopeField_made .front (by norm_num) (by norm_num) (by unfold ClearOf; decide +kernel)
    (by unfold ClearOf; decide +kernel) (by decide +kernel) (by decide +kernel) (Or.inl (by decide +kernel)) (t := 1/2) (by norm_num) (by norm_num)
    (by unfold AABB.Mem; decide +kernel) n

end HeightProps
end RP3D
