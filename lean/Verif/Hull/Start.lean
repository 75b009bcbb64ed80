import Verif.Hull.Quick
import Verif.Props.Transform
import Mathlib.Tactic.LinearCombination
import Mathlib.Algebra.BigOperators.Group.List.Basic

/-! Lemmas about the first tetrahedron of the QuickHull algorithm. -/

namespace RP3D.Hull
variable {K : Type} [Field K] [LinearOrder K] [IsStrictOrderedRing K]

theorem foldl_range_inv {β : Type} (n : Nat) (g : β → Nat → β) (b : β) (P : Nat → β → Prop) (h0 : P 0 b)
    (hs : ∀ k b, k < n → P k b → P (k + 1) (g b k)) : P n ((List.range n).foldl g b) := by
  have : ∀ k ≤ n, P k ((List.range k).foldl g b) := by
    intro k
    induction k with
    | zero => intro _; exact h0
    | succ k ih =>
      intro hk
      rw [List.range_succ, List.foldl_append]
      exact hs k _ hk (ih (by omega))
  exact this n le_rfl

theorem extreme_spec (g : V3 K → K) {ps : List (V3 K)} (hp : ps ≠ []) :
    (extreme g ps).1 < ps.length ∧ (extreme g ps).2 < ps.length ∧
    (∀ j < ps.length, g (ps.getD (extreme g ps).1 0) ≤ g (ps.getD j 0) ∧ g (ps.getD j 0) ≤ g (ps.getD (extreme g ps).2 0)) := by
  have hn : 0 < ps.length := List.length_pos_iff.mpr hp
  have := foldl_range_inv ps.length (fun b i =>
    if g (ps.getD i 0) < g (ps.getD b.1 0) then (i, b.2) else if g (ps.getD b.2 0) < g (ps.getD i 0) then (b.1, i) else b) ((0, 0) : Nat × Nat)
    (fun k b => b.1 < ps.length ∧ b.2 < ps.length ∧ g (ps.getD b.1 0) ≤ g (ps.getD b.2 0) ∧ ∀ j < k, g (ps.getD b.1 0) ≤ g (ps.getD j 0) ∧ g (ps.getD j 0) ≤ g (ps.getD b.2 0))
    ⟨hn, hn, le_rfl, fun j hj => absurd hj (by omega)⟩ (by
      rintro k ⟨lo, hi⟩ hk ⟨h1, h2, h3, h4⟩
      dsimp only at h1 h2 h3 h4
      show _ ∧ _ ∧ _ ∧ _
      dsimp only
      by_cases c1 : g (ps.getD k 0) < g (ps.getD lo 0)
      · rw [if_pos c1]
        refine ⟨hk, h2, (c1.trans_le h3).le, fun j hj => ?_⟩
        rcases Nat.lt_succ_iff_lt_or_eq.mp hj with hj | rfl
        · exact ⟨c1.le.trans (h4 j hj).1, (h4 j hj).2⟩
        · exact ⟨le_rfl, (c1.trans_le h3).le⟩
      · rw [if_neg c1]
        by_cases c2 : g (ps.getD hi 0) < g (ps.getD k 0)
        · rw [if_pos c2]
          refine ⟨h1, hk, not_lt.mp c1, fun j hj => ?_⟩
          rcases Nat.lt_succ_iff_lt_or_eq.mp hj with hj | rfl
          · exact ⟨(h4 j hj).1, (h4 j hj).2.trans c2.le⟩
          · exact ⟨not_lt.mp c1, le_rfl⟩
        · rw [if_neg c2]
          refine ⟨h1, h2, h3, fun j hj => ?_⟩
          rcases Nat.lt_succ_iff_lt_or_eq.mp hj with hj | rfl
          · exact h4 j hj
          · exact ⟨not_lt.mp c1, not_lt.mp c2⟩)
  exact ⟨this.1, this.2.1, this.2.2.2⟩

theorem farthest_spec (g : V3 K → K) {ps : List (V3 K)} (hp : ps ≠ []) :
    (farthest g ps).1 < ps.length ∧ 0 ≤ (farthest g ps).2 ∧ ((farthest g ps).2 = 0 ∨ (farthest g ps).2 = g (ps.getD (farthest g ps).1 0)) ∧
    (∀ j < ps.length, g (ps.getD j 0) ≤ (farthest g ps).2) := by
  have hn : 0 < ps.length := List.length_pos_iff.mpr hp
  have := foldl_range_inv ps.length (fun (b : Nat × K) i => if b.2 < g (ps.getD i 0) then (i, g (ps.getD i 0)) else b) ((0, 0) : Nat × K)
    (fun k b => b.1 < ps.length ∧ 0 ≤ b.2 ∧ (b.2 = 0 ∨ b.2 = g (ps.getD b.1 0)) ∧ ∀ j < k, g (ps.getD j 0) ≤ b.2)
    ⟨hn, le_rfl, Or.inl rfl, fun j hj => absurd hj (by omega)⟩ (by
      rintro k ⟨i, m⟩ hk ⟨h1, h2, h3, h4⟩
      dsimp only at h1 h2 h3 h4
      show _ ∧ _ ∧ _ ∧ _
      dsimp only
      by_cases c1 : m < g (ps.getD k 0)
      · rw [if_pos c1]
        refine ⟨hk, (h2.trans_lt c1).le, Or.inr rfl, fun j hj => ?_⟩
        rcases Nat.lt_succ_iff_lt_or_eq.mp hj with hj | rfl
        · exact (h4 j hj).trans c1.le
        · exact le_rfl
      · rw [if_neg c1]
        refine ⟨h1, h2, h3, fun j hj => ?_⟩
        rcases Nat.lt_succ_iff_lt_or_eq.mp hj with hj | rfl
        · exact h4 j hj
        · exact not_lt.mp c1)
  exact this

/-- The square of the distance of two points of the list. -/
def gap (ps : List (V3 K)) (e : Nat × Nat) : K := (ps.getD e.1 0 - ps.getD e.2 0).lengthSq

theorem lengthSq_nonneg (v : V3 K) : 0 ≤ v.lengthSq := by
  unfold V3.lengthSq
  nlinarith [mul_self_nonneg v.x, mul_self_nonneg v.y, mul_self_nonneg v.z]

theorem widest_spec (ps : List (V3 K)) :
    ((widest ps).1 = extreme (·.x) ps ∨ (widest ps).1 = extreme (·.y) ps ∨ (widest ps).1 = extreme (·.z) ps) ∧
    (widest ps).2 = gap ps (widest ps).1 ∧ gap ps (extreme (·.x) ps) ≤ (widest ps).2 ∧ gap ps (extreme (·.y) ps) ≤ (widest ps).2 ∧ gap ps (extreme (·.z) ps) ≤ (widest ps).2 := by
  have e : widest ps = [extreme (·.x) ps, extreme (·.y) ps, extreme (·.z) ps].foldl (fun b e => if b.2 < gap ps e then (e, gap ps e) else b) (extreme (·.x) ps, 0) := rfl
  have hx : 0 ≤ gap ps (extreme (·.x) ps) := lengthSq_nonneg _
  rw [e]
  simp only [List.foldl_cons, List.foldl_nil]
  have first : (if (0 : K) < gap ps (extreme (·.x) ps) then (extreme (·.x) ps, gap ps (extreme (·.x) ps)) else (extreme (·.x) ps, 0)) = (extreme (·.x) ps, gap ps (extreme (·.x) ps)) := by
    split_ifs with h
    · rfl
    · rw [le_antisymm (not_lt.mp h) hx]
  rw [first]
  dsimp only
  by_cases h1 : gap ps (extreme (·.x) ps) < gap ps (extreme (·.y) ps)
  · rw [if_pos h1]
    dsimp only
    by_cases h2 : gap ps (extreme (·.y) ps) < gap ps (extreme (·.z) ps)
    · rw [if_pos h2]; exact ⟨Or.inr (Or.inr rfl), rfl, (h1.trans h2).le, h2.le, le_rfl⟩
    · rw [if_neg h2]; exact ⟨Or.inr (Or.inl rfl), rfl, h1.le, le_rfl, not_lt.mp h2⟩
  · rw [if_neg h1]
    dsimp only
    by_cases h2 : gap ps (extreme (·.x) ps) < gap ps (extreme (·.z) ps)
    · rw [if_pos h2]; exact ⟨Or.inr (Or.inr rfl), rfl, h2.le, (not_lt.mp h1).trans h2.le, le_rfl⟩
    · rw [if_neg h2]; exact ⟨Or.inl rfl, rfl, le_rfl, not_lt.mp h1, not_lt.mp h2⟩

theorem widest_lt {ps : List (V3 K)} (hp : ps ≠ []) : (widest ps).1.1 < ps.length ∧ (widest ps).1.2 < ps.length := by
  rcases (widest_spec ps).1 with h | h | h <;> rw [h]
  · exact ⟨(extreme_spec _ hp).1, (extreme_spec _ hp).2.1⟩
  · exact ⟨(extreme_spec _ hp).1, (extreme_spec _ hp).2.1⟩
  · exact ⟨(extreme_spec _ hp).1, (extreme_spec _ hp).2.1⟩

/-- No two points are farther apart on an axis than the chosen pair is. -/
theorem widest_axis {ps : List (V3 K)} (hp : ps ≠ []) {i j : Nat} (hi : i < ps.length) (hj : j < ps.length) :
    ((ps.getD i 0).x - (ps.getD j 0).x) * ((ps.getD i 0).x - (ps.getD j 0).x) ≤ (widest ps).2 ∧
    ((ps.getD i 0).y - (ps.getD j 0).y) * ((ps.getD i 0).y - (ps.getD j 0).y) ≤ (widest ps).2 ∧
    ((ps.getD i 0).z - (ps.getD j 0).z) * ((ps.getD i 0).z - (ps.getD j 0).z) ≤ (widest ps).2 := by
  obtain ⟨-, -, wx, wy, wz⟩ := widest_spec ps
  have key : ∀ (g : V3 K → K), (g (ps.getD i 0) - g (ps.getD j 0)) * (g (ps.getD i 0) - g (ps.getD j 0)) ≤
      (g (ps.getD (extreme g ps).1 0) - g (ps.getD (extreme g ps).2 0)) * (g (ps.getD (extreme g ps).1 0) - g (ps.getD (extreme g ps).2 0)) := by
    intro g
    obtain ⟨-, -, h⟩ := extreme_spec g hp
    obtain ⟨a, b⟩ := h i hi
    obtain ⟨c, d⟩ := h j hj
    nlinarith
  refine ⟨(key (·.x)).trans (le_trans ?_ wx), (key (·.y)).trans (le_trans ?_ wy), (key (·.z)).trans (le_trans ?_ wz)⟩ <;>
  · simp only [gap, V3.lengthSq, V3.sub_x, V3.sub_y, V3.sub_z]
    nlinarith [mul_self_nonneg ((ps.getD (extreme (·.x) ps).1 0).x - (ps.getD (extreme (·.x) ps).2 0).x),
      mul_self_nonneg ((ps.getD (extreme (·.x) ps).1 0).y - (ps.getD (extreme (·.x) ps).2 0).y),
      mul_self_nonneg ((ps.getD (extreme (·.x) ps).1 0).z - (ps.getD (extreme (·.x) ps).2 0).z),
      mul_self_nonneg ((ps.getD (extreme (·.y) ps).1 0).x - (ps.getD (extreme (·.y) ps).2 0).x),
      mul_self_nonneg ((ps.getD (extreme (·.y) ps).1 0).y - (ps.getD (extreme (·.y) ps).2 0).y),
      mul_self_nonneg ((ps.getD (extreme (·.y) ps).1 0).z - (ps.getD (extreme (·.y) ps).2 0).z),
      mul_self_nonneg ((ps.getD (extreme (·.z) ps).1 0).x - (ps.getD (extreme (·.z) ps).2 0).x),
      mul_self_nonneg ((ps.getD (extreme (·.z) ps).1 0).y - (ps.getD (extreme (·.z) ps).2 0).y),
      mul_self_nonneg ((ps.getD (extreme (·.z) ps).1 0).z - (ps.getD (extreme (·.z) ps).2 0).z)]

/-! ## Faces -/

/-- Six times the signed volume of a tetrahedron. -/
def det (a b c d : V3 K) : K := ((b - a).cross (c - a)).dot (d - a)

theorem newell3 (a b c : V3 K) : newell [(a, b), (b, c), (c, a)] = (b - a).cross (c - a) := by
  ext <;> simp [newell, V3.cross] <;> ring

/-- What is computed for a triangle. -/
theorem plane3 {C : Cst K} (hs : IsSqrt C.sqrt) {a b c : V3 K} {F : Plane K} (h : planeOf C [(a, b), (b, c), (c, a)] = some F) {d : V3 K} (hd : det a b c d ≠ 0) :
    F.normal.lengthSq = 1 ∧ 0 < F.area ∧ 4 * (F.area * F.area) = ((b - a).cross (c - a)).lengthSq ∧
    (∀ p, F.dist p * (2 * F.area) = det a b c p) := by
  have hpos : 0 < ((b - a).cross (c - a)).lengthSq := by
    rcases (lengthSq_nonneg ((b - a).cross (c - a))).lt_or_eq with h | h
    · exact h
    · exfalso
      apply hd
      have hx : ((b - a).cross (c - a)).x = 0 ∧ ((b - a).cross (c - a)).y = 0 ∧ ((b - a).cross (c - a)).z = 0 := by
        unfold V3.lengthSq at h
        refine ⟨?_, ?_, ?_⟩ <;> nlinarith [mul_self_nonneg ((b - a).cross (c - a)).x, mul_self_nonneg ((b - a).cross (c - a)).y, mul_self_nonneg ((b - a).cross (c - a)).z]
      simp only [det, V3.dot, hx.1, hx.2.1, hx.2.2, zero_mul, add_zero]
  obtain ⟨h0, h1⟩ := sqrt_pos hs hpos
  unfold planeOf at h
  simp only [newell3] at h
  split_ifs at h
  · simp only [Option.some.injEq] at h
    subst h
    set n := (b - a).cross (c - a) with hn
    set l := C.sqrt n.lengthSq with hl
    have hl0 : l ≠ 0 := h0.ne'
    refine ⟨?_, ?_, ?_, fun p => ?_⟩
    · have : (V3.smul l⁻¹ n).lengthSq = l⁻¹ * l⁻¹ * n.lengthSq := by simp only [V3.lengthSq, V3.smul_x, V3.smul_y, V3.smul_z]; ring
      rw [this, ← h1]
      field_simp
    · simp only; positivity
    · simp only; rw [← h1]; ring
    · simp only [Plane.dist, det, ← hn, V3.dot, V3.smul_x, V3.smul_y, V3.smul_z, V3.sub_x, V3.sub_y, V3.sub_z, V3.add_x, V3.add_y, V3.add_z,
        List.foldr_cons, List.foldr_nil, V3.zero_x, V3.zero_y, V3.zero_z, List.length_cons, List.length_nil]
      have e : ∀ u : K, l⁻¹ * u * (2 * (l * (1 / 2))) = u := fun u => by field_simp
      push_cast
      have : n.x * (b.x - a.x) + n.y * (b.y - a.y) + n.z * (b.z - a.z) = 0 := by simp only [hn, V3.cross, V3.sub_x, V3.sub_y, V3.sub_z]; ring
      have : n.x * (c.x - a.x) + n.y * (c.y - a.y) + n.z * (c.z - a.z) = 0 := by simp only [hn, V3.cross, V3.sub_x, V3.sub_y, V3.sub_z]; ring
      field_simp
      linarith

/-- `recalculateFace` succeeds for a triangle with a large enough normal. -/
theorem plane3_some {C : Cst K} (he : 0 ≤ C.eps) {a b c : V3 K} (h : C.dbg = true → C.eps < C.sqrt ((b - a).cross (c - a)).lengthSq) :
    ∃ F, planeOf C [(a, b), (b, c), (c, a)] = some F := by
  unfold planeOf
  simp only [newell3]
  rw [if_pos]
  · exact ⟨_, rfl⟩
  · cases hd : C.dbg with
    | false => rfl
    | true => simp [h hd, he.trans_lt (h hd)]

end RP3D.Hull
