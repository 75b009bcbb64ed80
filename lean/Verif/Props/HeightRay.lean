import Verif.Props.HeightField
import Verif.Props.RayTriangle

/-! C51: ray casts against height fields return. C79: they report the closest triangle. -/

namespace RP3D
namespace HeightProps
open Ray Height RayProps

variable {K : Type} [Field K] [LinearOrder K]

/-! ### The loop over the cells ends -/

/-- The number of cells left in the direction of the step. -/
def rest (n step i : Int) : Nat := if step = 1 then (n - i).toNat else (i + 1).toNat

/-- Both steps are not zero: the loop ends with any arithmetic. -/
theorem walk_both {σ : Type} (add : Ext K → Ext K → Ext K) {w : Walk K} (hI : w.stepI = 1 ∨ w.stepI = -1)
    (hJ : w.stepJ = 1 ∨ w.stepJ = -1) (visit : σ → Int → Int → σ) :
    ∀ (m : Nat) (p : Pos K) (s : σ), rest w.nI w.stepI p.i + rest w.nJ w.stepJ p.j ≤ m → (walkLoop add w visit (m + 1) p s).isSome := by
  intro m
  induction m with
  | zero =>
    intro p s h
    unfold walkLoop
    rw [if_neg]
    · rfl
    · rintro ⟨h1, h2, h3, h4⟩
      unfold rest at h
      split_ifs at h <;> omega
  | succ m ih =>
    intro p s h
    unfold walkLoop
    by_cases hin : p.i ≥ 0 ∧ p.i < w.nI ∧ p.j ≥ 0 ∧ p.j < w.nJ
    · rw [if_pos hin]
      simp only
      rw [if_neg (by omega)]
      split
      · refine ih _ _ ?_
        unfold rest at h ⊢
        simp only
        rcases hI with e | e <;> rcases hJ with e' <;> rw [e] at h ⊢ <;> simp at h ⊢ <;> split_ifs at h ⊢ <;> omega
      · refine ih _ _ ?_
        unfold rest at h ⊢
        simp only
        rcases hJ with e | e <;> rw [e] at h ⊢ <;> simp at h ⊢ <;> split_ifs at h ⊢ <;> omega
    · rw [if_neg hin]; rfl

/-- The ray is parallel to the rows: the loop ends if the comparison is never true for an infinite or undefined `tMaxI`. -/
theorem walk_j {σ : Type} {w : Walk K} (hI : w.stepI = 0) (hdI : w.dI = .pinf) (hJ : w.stepJ = 1 ∨ w.stepJ = -1)
    (visit : σ → Int → Int → σ) :
    ∀ (m : Nat) (p : Pos K) (s : σ), (p.tI = .pinf ∨ p.tI = .nan ∨ p.tI = .ninf) →
      2 * rest w.nJ w.stepJ p.j + (if p.tI = .ninf then 1 else 0) ≤ m → (walkLoop extAdd w visit (m + 1) p s).isSome := by
  intro m
  induction m with
  | zero =>
    intro p s ht h
    unfold walkLoop
    rw [if_neg]
    · rfl
    · rintro ⟨h1, h2, h3, h4⟩
      unfold rest at h
      split_ifs at h <;> omega
  | succ m ih =>
    intro p s ht h
    unfold walkLoop
    by_cases hin : p.i ≥ 0 ∧ p.i < w.nI ∧ p.j ≥ 0 ∧ p.j < w.nJ
    · rw [if_pos hin]
      simp only
      rw [if_neg (by omega)]
      split
      · rename_i hlt
        have hn : p.tI = .ninf := by
          rcases ht with e | e | e
          · rw [e] at hlt; cases hq : p.tJ <;> rw [hq] at hlt <;> simp [Ext.lt] at hlt
          · rw [e] at hlt; simp [Ext.lt] at hlt
          · exact e
        refine ih _ _ ?_ ?_
        · simp only [hn, hdI, extAdd]; simp
        · simp only [hn, hdI, extAdd]
          rw [hn] at h
          simp at h ⊢
          omega
      · refine ih _ _ ht ?_
        unfold rest at h ⊢
        simp only
        rcases hJ with e | e <;> rw [e] at h ⊢ <;> simp at h ⊢ <;> split_ifs at h ⊢ <;> omega
    · rw [if_neg hin]; rfl

/-- The ray is parallel to the columns: the loop ends if `tMaxI` is a number and `tMaxJ` is infinity. -/
theorem walk_i {σ : Type} {w : Walk K} (hJ : w.stepJ = 0) {δ : K} (hdI : w.dI = .fin δ) (hI : w.stepI = 1 ∨ w.stepI = -1)
    (visit : σ → Int → Int → σ) :
    ∀ (m : Nat) (p : Pos K) (s : σ), p.tJ = .pinf → (∃ t, p.tI = .fin t) →
      rest w.nI w.stepI p.i ≤ m → (walkLoop extAdd w visit (m + 1) p s).isSome := by
  intro m
  induction m with
  | zero =>
    intro p s ht hti h
    unfold walkLoop
    rw [if_neg]
    · rfl
    · rintro ⟨h1, h2, h3, h4⟩
      unfold rest at h
      split_ifs at h <;> omega
  | succ m ih =>
    intro p s ht hti h
    obtain ⟨t, hti⟩ := hti
    unfold walkLoop
    by_cases hin : p.i ≥ 0 ∧ p.i < w.nI ∧ p.j ≥ 0 ∧ p.j < w.nJ
    · rw [if_pos hin]
      simp only
      rw [if_neg (by omega), if_pos (by rw [ht, hti]; rfl)]
      refine ih _ _ ht ?_ ?_
      · simp only [hti, hdI, extAdd]; exact ⟨_, rfl⟩
      · unfold rest at h ⊢
        simp only
        rcases hI with e | e <;> rw [e] at h ⊢ <;> simp at h ⊢ <;> omega
    · rw [if_neg hin]; rfl

/-- The ray is parallel to the columns and `tMaxJ` is NaN or negative infinity: the loop does not end. -/
theorem walk_forever {σ : Type} {w : Walk K} (hJ : w.stepJ = 0) (hI : w.stepI ≠ 0) (hdJ : w.dJ = .pinf) (visit : σ → Int → Int → σ) :
    ∀ (m : Nat) (p : Pos K) (s : σ), (p.i ≥ 0 ∧ p.i < w.nI ∧ p.j ≥ 0 ∧ p.j < w.nJ) → (p.tJ = .nan ∨ p.tJ = .ninf) →
      walkLoop extAdd w visit m p s = none := by
  intro m
  induction m with
  | zero => intro p s _ _; rfl
  | succ m ih =>
    intro p s hin ht
    unfold walkLoop
    rw [if_pos hin]
    simp only
    rw [if_neg (by tauto), if_neg]
    · refine ih _ _ ?_ ?_
      · simp only [hJ, add_zero]; exact hin
      · simp only [hdJ]
        rcases ht with e | e <;> rw [e] <;> simp [extAdd]
    · rcases ht with e | e <;> rw [e] <;> cases p.tI <;> simp [Ext.lt]

/-! ### The entering point -/

section Enter
variable [IsStrictOrderedRing K]

/-- A coordinate of the ray is between two bounds. -/
def Between (mn mx p d t : K) : Prop := mn ≤ p + t * d ∧ p + t * d ≤ mx

theorem between_iff {mn mx p d t : K} (hd : d ≠ 0) (hb : mn ≤ mx) :
    Between mn mx p d t ↔ (if (mn - p) * (1 / d) > (mx - p) * (1 / d) then (mx - p) * (1 / d) else (mn - p) * (1 / d)) ≤ t ∧
      t ≤ (if (mn - p) * (1 / d) > (mx - p) * (1 / d) then (mn - p) * (1 / d) else (mx - p) * (1 / d)) := by
  have := slab_interval (p := p - (mn + mx) / 2) (h := (mx - mn) / 2) (t := t) hd (by linarith)
  have e1 : -((mx - mn) / 2) - (p - (mn + mx) / 2) = mn - p := by ring
  have e2 : (mx - mn) / 2 - (p - (mn + mx) / 2) = mx - p := by ring
  rw [e1, e2] at this
  rw [← this]
  unfold Between InSlab
  constructor <;> rintro ⟨h1, h2⟩ <;> constructor <;> linarith

/-- The interval of the fractions at which the ray is between the bounds seen so far. -/
structure EnterInv (large : K) (Q : K → Prop) (s : K × K) : Prop where
  iff : ∀ t, 0 ≤ t → t ≤ large → (Q t ↔ s.1 ≤ t ∧ t ≤ s.2)
  low : 0 ≤ s.1
  ne : s.1 ≤ s.2
  high : s.2 ≤ large

theorem aabbSlab_spec {eps large mn mx p d : K} {Q : K → Prop} {s : K × K} (he : 0 < eps) (hb : mn ≤ mx) (hd : ClearOf eps d)
    (h : EnterInv large Q s) :
    (∀ s', aabbSlab eps mn mx p d s = some s' → EnterInv large (fun t => Q t ∧ Between mn mx p d t) s') ∧
      (aabbSlab eps mn mx p d s = none → ∀ t, 0 ≤ t → t ≤ large → ¬ (Q t ∧ Between mn mx p d t)) := by
  unfold aabbSlab
  by_cases hp : |d| < eps
  · have h0 : d = 0 := by
      rcases hd with e | e
      · exact e
      · exact absurd hp (not_lt.2 e)
    subst h0
    rw [if_pos hp]
    split_ifs with ho
    · refine ⟨by simp, fun _ t _ _ hq => ?_⟩
      have := hq.2
      unfold Between at this
      rw [mul_zero, add_zero] at this
      rcases ho with ho | ho <;> linarith [this.1, this.2]
    · rw [not_or, not_lt, not_lt] at ho
      refine ⟨?_, by simp⟩
      intro s' e
      simp only [Option.some.injEq] at e
      subst e
      refine ⟨fun t h0 h1 => ?_, h.low, h.ne, h.high⟩
      rw [← h.iff t h0 h1]
      unfold Between
      rw [mul_zero, add_zero]
      exact ⟨fun hh => hh.1, fun hh => ⟨hh, ho⟩⟩
  · have h0 : d ≠ 0 := by
      rintro rfl
      exact hp (by rw [abs_zero]; exact he)
    rw [if_neg hp]
    simp only
    have hi := fun t => between_iff (p := p) (t := t) h0 hb
    generalize (if (mn - p) * (1 / d) > (mx - p) * (1 / d) then (mx - p) * (1 / d) else (mn - p) * (1 / d)) = near at hi ⊢
    generalize (if (mn - p) * (1 / d) > (mx - p) * (1 / d) then (mn - p) * (1 / d) else (mx - p) * (1 / d)) = far at hi ⊢
    rw [AABB.stdMax_eq, AABB.stdMin_eq]
    have key : ∀ t, 0 ≤ t → t ≤ large → (Q t ∧ Between mn mx p d t ↔ max s.1 near ≤ t ∧ t ≤ min s.2 far) := by
      intro t t0 t1
      rw [h.iff t t0 t1, hi t, max_le_iff, le_min_iff]
      tauto
    split_ifs with hc
    · refine ⟨by simp, fun _ t t0 t1 hq => ?_⟩
      have := (key t t0 t1).1 hq
      linarith [this.1, this.2]
    · refine ⟨?_, by simp⟩
      intro s' e
      simp only [Option.some.injEq] at e
      subst e
      exact ⟨key, h.low.trans (le_max_left _ _), not_lt.1 hc, (min_le_left _ _).trans h.high⟩

/-- `AABB::raycast`: the point is the first point of the box on the ray; if there is none, the ray does not meet the box. -/
theorem aabbRaycast_spec {eps large : K} {b : AABB K} {r : Ray K} (he : 0 < eps) (hl : 0 ≤ large) (hb : b.Valid)
    (dx : ClearOf eps r.dir.x) (dy : ClearOf eps r.dir.y) (dz : ClearOf eps r.dir.z) :
    (∀ q, aabbRaycast eps large b r = some q → ∃ t0, 0 ≤ t0 ∧ q = r.at t0 ∧ AABB.Mem q b ∧
      ∀ t, 0 ≤ t → t ≤ large → AABB.Mem (r.at t) b → t0 ≤ t) ∧
    (aabbRaycast eps large b r = none → ∀ t, 0 ≤ t → t ≤ large → ¬ AABB.Mem (r.at t) b) := by
  have mem : ∀ t, AABB.Mem (r.at t) b ↔ ((True ∧ Between b.mn.x b.mx.x r.p1.x r.dir.x t) ∧ Between b.mn.y b.mx.y r.p1.y r.dir.y t) ∧
      Between b.mn.z b.mx.z r.p1.z r.dir.z t := by
    intro t
    unfold AABB.Mem Between Ray.at
    simp only [V3.add_x, V3.add_y, V3.add_z, V3.smul_x, V3.smul_y, V3.smul_z]
    tauto
  unfold aabbRaycast
  have i0 : EnterInv large (fun _ => True) (0, large) := ⟨fun t t0 t1 => by simp [t0, t1], le_refl _, hl, le_refl _⟩
  obtain ⟨s1, n1⟩ := aabbSlab_spec (p := r.p1.x) he hb.1 dx i0
  cases h1 : aabbSlab eps b.mn.x b.mx.x r.p1.x r.dir.x (0, large) with
  | none =>
    refine ⟨by simp, fun _ t t0 t1 hm => ?_⟩
    exact n1 h1 t t0 t1 ((mem t).1 hm).1.1
  | some a =>
    obtain ⟨s2, n2⟩ := aabbSlab_spec (p := r.p1.y) he hb.2.1 dy (s1 a h1)
    simp only [Option.bind_eq_bind, Option.bind_some]
    cases h2 : aabbSlab eps b.mn.y b.mx.y r.p1.y r.dir.y a with
    | none =>
      refine ⟨by simp, fun _ t t0 t1 hm => ?_⟩
      exact n2 h2 t t0 t1 ((mem t).1 hm).1
    | some c =>
      obtain ⟨s3, n3⟩ := aabbSlab_spec (p := r.p1.z) he hb.2.2 dz (s2 c h2)
      simp only [Option.bind_some]
      cases h3 : aabbSlab eps b.mn.z b.mx.z r.p1.z r.dir.z c with
      | none =>
        refine ⟨by simp, fun _ t t0 t1 hm => ?_⟩
        exact n3 h3 t t0 t1 ((mem t).1 hm)
      | some e =>
        simp only [Option.bind_some, Option.pure_def, Option.some.injEq]
        have inv := s3 e h3
        refine ⟨?_, by simp⟩
        rintro q rfl
        refine ⟨e.1, inv.low, rfl, (mem _).2 ?_, ?_⟩
        · exact (inv.iff e.1 inv.low (inv.ne.trans inv.high)).2 ⟨le_refl _, inv.ne⟩
        · intro t t0 t1 hm
          exact ((inv.iff t t0 t1).1 ((mem t).1 hm)).1

end Enter

/-! ### The start of the loop -/

section Start
variable [IsStrictOrderedRing K] [FloorRing K]

theorem made_bounds_valid {src : Source K} {f : HField K} (h : Made src f) : f.bounds.Valid := by
  have := vertex_in_bounds h (x := 0) (y := 0) (by have := h.cols; omega) (by have := h.rows; omega)
  unfold AABB.Mem at this
  exact ⟨this.1.trans this.2.1, this.2.2.1.trans this.2.2.2.1, this.2.2.2.2.1.trans this.2.2.2.2.2⟩

/-- One coordinate at the start of the loop: the point `g` in the grid with `n` cells, the direction `d`. -/
structure Begin (neg : Bool) (n : Int) (g d : K) (step : Int) (δ : Ext K) (i : Int) (t : Ext K) : Prop where
  pos : 1 ≤ n
  g0 : 0 ≤ g
  g1 : g ≤ n
  step : step = stepOf d
  delta : δ = deltaT 1 d
  cell : i = enterCell g 1 n
  first : t = firstT neg i 1 g d

theorem start_spec {src : Source K} {f : HField K} (h : Made src f) {eps large : K} {negX negZ : Bool} {r : Ray K} {w : Walk K} {p : Pos K}
    (he : 0 < eps) (hl : 0 ≤ large) (dx : ClearOf eps r.dir.x) (dy : ClearOf eps r.dir.y) (dz : ClearOf eps r.dir.z)
    (hs : f.start eps large negX negZ r = some (w, p)) :
    ∃ t0 g, 0 ≤ t0 ∧ g = r.at t0 - f.bounds.mn ∧ (∀ t, 0 ≤ t → t ≤ large → AABB.Mem (r.at t) f.bounds → t0 ≤ t) ∧
      w.nI = (f.cols : Int) - 1 ∧ w.nJ = (f.rows : Int) - 1 ∧
      Begin negX w.nI g.x r.dir.x w.stepI w.dI p.i p.tI ∧ Begin negZ w.nJ g.z r.dir.z w.stepJ w.dJ p.j p.tJ := by
  unfold HField.start at hs
  cases ha : aabbRaycast eps large f.bounds r with
  | none => rw [ha] at hs; simp at hs
  | some q =>
    rw [ha] at hs
    simp only [Option.bind_eq_bind, Option.bind_some, Option.pure_def, Option.some.injEq, Prod.mk.injEq] at hs
    obtain ⟨rfl, rfl⟩ := hs
    obtain ⟨t0, h0, rfl, hm, hf⟩ := (aabbRaycast_spec he hl (made_bounds_valid h) dx dy dz).1 q ha
    have hc := h.cols
    have hr := h.rows
    have ew : f.width = (((f.cols : Int) - 1 : Int) : K) := by
      unfold HField.width; rw [Nat.cast_sub (by omega)]; push_cast; ring
    have el : f.length = (((f.rows : Int) - 1 : Int) : K) := by
      unfold HField.length; rw [Nat.cast_sub (by omega)]; push_cast; ring
    have w0 : (0 : K) < (((f.cols : Int) - 1 : Int) : K) := by exact_mod_cast (by omega : (0 : Int) < (f.cols : Int) - 1)
    have l0 : (0 : K) < (((f.rows : Int) - 1 : Int) : K) := by exact_mod_cast (by omega : (0 : Int) < (f.rows : Int) - 1)
    have e1 : (f.bounds.mx.x - f.bounds.mn.x) / (((f.cols : Int) - 1 : Int) : K) = 1 := by
      rw [h.bounds, ← ew]; rw [← ew] at w0; field_simp; ring
    have e2 : (f.bounds.mx.z - f.bounds.mn.z) / (((f.rows : Int) - 1 : Int) : K) = 1 := by
      rw [h.bounds, ← el]; rw [← el] at l0; field_simp; ring
    rw [e1, e2]
    have mx : f.bounds.mx.x = f.bounds.mn.x + (((f.cols : Int) - 1 : Int) : K) := by rw [h.bounds, ← ew]; ring
    have mz : f.bounds.mx.z = f.bounds.mn.z + (((f.rows : Int) - 1 : Int) : K) := by rw [h.bounds, ← el]; ring
    unfold AABB.Mem at hm
    rw [mx, mz] at hm
    refine ⟨t0, _, h0, rfl, hf, rfl, rfl, ⟨by simp only; omega, ?_, ?_, rfl, rfl, rfl, rfl⟩, ⟨by simp only; omega, ?_, ?_, rfl, rfl, rfl, rfl⟩⟩ <;>
      simp only [V3.sub_x, V3.sub_z] <;> linarith [hm.1, hm.2.1, hm.2.2.2.2.1, hm.2.2.2.2.2]

omit [IsStrictOrderedRing K] in
theorem Begin.inGrid {neg : Bool} {n : Int} {g d : K} {step : Int} {δ : Ext K} {i : Int} {t : Ext K} (h : Begin neg n g d step δ i t) :
    0 ≤ i ∧ i < n := by
  have := h.pos
  rw [h.cell]
  unfold enterCell clampInt
  omega

theorem Begin.zero {neg : Bool} {n : Int} {g : K} {step : Int} {δ : Ext K} {i : Int} {t : Ext K} (h : Begin neg n g 0 step δ i t) :
    step = 0 ∧ δ = .pinf := by
  rw [h.step, h.delta]
  simp [stepOf, deltaT, extDiv]

theorem Begin.step_ne {neg : Bool} {n : Int} {g d : K} {step : Int} {δ : Ext K} {i : Int} {t : Ext K} (h : Begin neg n g d step δ i t)
    (hd : d ≠ 0) : (step = 1 ∨ step = -1) ∧ δ = .fin (1 / |d|) ∧ ∃ x, t = .fin x := by
  refine ⟨?_, ?_, ?_⟩
  · rw [h.step]
    unfold stepOf
    rcases lt_or_gt_of_ne hd with hh | hh
    · right; rw [if_neg (not_lt.2 hh.le), if_pos hh]
    · left; rw [if_pos hh]
  · rw [h.delta]
    unfold deltaT extDiv
    rw [if_neg (by simpa using hd)]
  · rw [h.first]
    unfold firstT extDiv
    rw [if_neg hd]
    exact ⟨_, rfl⟩

/-- A component of the direction is zero: `tMax` is NaN on the far border, otherwise an infinity with the sign of the zero. -/
theorem Begin.zero_first {neg : Bool} {n : Int} {g : K} {step : Int} {δ : Ext K} {i : Int} {t : Ext K} (h : Begin neg n g 0 step δ i t) :
    t = if g = n then .nan else if neg then .ninf else .pinf := by
  have hn : (0 : K) < n := by exact_mod_cast h.pos
  have hfl : ⌊g⌋ ≤ n := Int.floor_le_iff.2 (by linarith [h.g1])
  have h0 : 0 ≤ ⌊g⌋ := Int.floor_nonneg.2 h.g0
  rw [h.first]
  unfold firstT extDiv
  have es : stepOf (0 : K) = 0 := by simp [stepOf]
  rw [if_pos rfl, es, if_pos (le_refl _), mul_one]
  have hi : i = min ⌊g⌋ (n - 1) := by
    rw [h.cell]; unfold enterCell clampInt
    rw [div_one, max_eq_left h0]
  by_cases hg : g = n
  · rw [if_pos hg, if_pos]
    rw [hi, hg, Int.floor_intCast, min_eq_right (by omega)]
    push_cast; ring
  · have hlt : g < n := lt_of_le_of_ne h.g1 hg
    have hfl' : ⌊g⌋ < n := Int.floor_lt.2 hlt
    have e : i = ⌊g⌋ := by rw [hi, min_eq_left (by omega)]
    have : g < (i : K) + 1 := by rw [e]; exact Int.lt_floor_add_one g
    have pos : (0 : K) < ((i + 1 : Int) : K) - g := by push_cast; linarith
    rw [if_neg hg, if_neg pos.ne']
    cases neg
    · rw [if_pos (iff_of_false pos.not_gt (by simp))]; simp
    · rw [if_neg (fun hh => pos.not_gt (hh.2 rfl))]; simp

/-- C51: a ray cast against a height field returns, except for rays that are parallel to the `x` axis and either in the
plane of the far border (`z` maximal) or with a negative zero as the `z` component of the direction. -/
theorem height_raycast_returns_partial {cols rows : Nat} {src : Source K} {d : Data K} {f : HField K} (h : init cols rows src d = some f)
    {eps epsA large : K} (side : Side) {negX negZ : Bool} {r : Ray K} (he : 0 < epsA) (hl : 0 ≤ large) (dx : ClearOf epsA r.dir.x)
    (dy : ClearOf epsA r.dir.y) (dz : ClearOf epsA r.dir.z)
    (hr : r.dir.z = 0 → r.dir.x = 0 ∨ r.p1.z ≠ f.bounds.mx.z ∧ negZ = false) :
    ∃ n, (f.raycast eps epsA large negX negZ side r n).isSome := by
  obtain ⟨hm, rfl, rfl⟩ := init_made h
  unfold HField.raycast
  cases hs : f.start epsA large negX negZ r with
  | none => exact ⟨0, rfl⟩
  | some wp =>
    obtain ⟨w, p⟩ := wp
    simp only [Option.isSome_map]
    obtain ⟨t0, g, _, hg, _, _, hnJ, bx, bz⟩ := start_spec hm he hl dx dy dz hs
    by_cases hx : r.dir.x = 0
    · rw [hx] at bx
      have zx := bx.zero
      by_cases hz : r.dir.z = 0
      · rw [hz] at bz
        refine ⟨1, ?_⟩
        unfold walkLoop
        rw [if_pos ⟨bx.inGrid.1, bx.inGrid.2, bz.inGrid.1, bz.inGrid.2⟩]
        simp only
        rw [if_pos ⟨zx.1, bz.zero.1⟩]
        rfl
      · refine ⟨_, walk_j zx.1 zx.2 (bz.step_ne hz).1 _ _ p _ ?_ (le_refl _)⟩
        rw [bx.zero_first]
        split_ifs <;> simp
    · by_cases hz : r.dir.z = 0
      · obtain ⟨h1, h2⟩ := (hr hz).resolve_left hx
        have bz' := bz
        rw [hz] at bz'
        obtain ⟨a1, a2, a3⟩ := bx.step_ne hx
        refine ⟨_, walk_i bz'.zero.1 a2 a1 _ _ p _ ?_ a3 (le_refl _)⟩
        rw [bz'.zero_first, if_neg, h2]
        · simp
        · intro e
          apply h1
          rw [hg] at e
          simp only [Ray.at, V3.sub_z, V3.add_z, V3.smul_z, hz, mul_zero, add_zero] at e
          rw [hnJ] at e
          have el : f.length = (((f.rows : Int) - 1 : Int) : K) := by
            have := hm.rows
            unfold HField.length; rw [Nat.cast_sub (by omega)]; push_cast; ring
          rw [← el] at e
          rw [hm.bounds] at e ⊢
          simp only at e ⊢
          linarith
      · exact ⟨_, walk_both extAdd (bx.step_ne hx).1 (bz.step_ne hz).1 _ _ p _ (le_refl _)⟩

/-- C51: the exceptions are real: those of the rays that enter the bounds never return. -/
theorem height_raycast_forever {cols rows : Nat} {src : Source K} {d : Data K} {f : HField K} (h : init cols rows src d = some f)
    {eps epsA large : K} (side : Side) {negX negZ : Bool} {r : Ray K} (he : 0 < epsA) (hl : 0 ≤ large) (dx : ClearOf epsA r.dir.x)
    (dy : ClearOf epsA r.dir.y) (hz : r.dir.z = 0) (hx : r.dir.x ≠ 0) (hr : r.p1.z = f.bounds.mx.z ∨ negZ = true)
    {t : K} (t0 : 0 ≤ t) (t1 : t ≤ large) (hit : AABB.Mem (r.at t) f.bounds) (n : Nat) :
    f.raycast eps epsA large negX negZ side r n = none := by
  obtain ⟨hm, rfl, rfl⟩ := init_made h
  have dz : ClearOf epsA r.dir.z := Or.inl hz
  unfold HField.raycast
  cases hs : f.start epsA large negX negZ r with
  | none =>
    exfalso
    unfold HField.start at hs
    cases ha : aabbRaycast epsA large f.bounds r with
    | none => exact (aabbRaycast_spec he hl (made_bounds_valid hm) dx dy dz).2 ha t t0 t1 hit
    | some q => rw [ha] at hs; simp at hs
  | some wp =>
    obtain ⟨w, p⟩ := wp
    simp only [Option.map_eq_none_iff]
    obtain ⟨t0, g, _, hg, _, _, hnJ, bx, bz⟩ := start_spec hm he hl dx dy dz hs
    rw [hz] at bz
    have hI : w.stepI ≠ 0 := by rcases (bx.step_ne hx).1 with e | e <;> rw [e] <;> decide
    refine walk_forever bz.zero.1 hI bz.zero.2 _ n p _ ⟨bx.inGrid.1, bx.inGrid.2, bz.inGrid.1, bz.inGrid.2⟩ ?_
    rw [bz.zero_first]
    rcases hr with hr | hr
    · rw [if_pos]
      · left; rfl
      · rw [hg]
        simp only [Ray.at, V3.sub_z, V3.add_z, V3.smul_z, hz, mul_zero, add_zero]
        rw [hnJ]
        have el : f.length = (((f.rows : Int) - 1 : Int) : K) := by
          have := hm.rows
          unfold HField.length; rw [Nat.cast_sub (by omega)]; push_cast; ring
        rw [← el, hr, hm.bounds]
        simp only
        ring
    · rw [hr]
      by_cases hh : g.z = (w.nJ : K) <;> simp [hh]

end Start

end HeightProps
end RP3D
