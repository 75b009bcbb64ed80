import Verif.Scene.DebugDraw
import Verif.Props.Transform
import Mathlib.Analysis.SpecialFunctions.Trigonometric.Basic
import Mathlib.Algebra.BigOperators.Group.Finset.Basic
import Mathlib.Algebra.BigOperators.Intervals
import Mathlib.Tactic.LinearCombination

/-!
C131, spheres and capsules: the drawn triangles have their vertices on the surface and form a closed surface.

Spec: a list of triangles is closed if every directed side occurs as often as its reverse. A point is on the sphere if its distance
to the centre is the radius; it is on the capsule if its distance to the segment between the centres of the caps is the radius.
-/

namespace RP3D
namespace Debug

variable {K : Type} [Field K] [LinearOrder K]

/-- The directed sides of triangles. -/
def sides (l : List (Tri K)) : List (V3 K × V3 K) := l.flatMap fun t => [(t.a, t.b), (t.b, t.c), (t.c, t.a)]

/-- Spec: every directed side occurs as often as its reverse. -/
def Closed (l : List (Tri K)) : Prop := ∀ p q : V3 K, (sides l).count (p, q) = (sides l).count (q, p)

/-- The sum of a function of directed sides around triangles. -/
def around (g : V3 K → V3 K → ℤ) (l : List (Tri K)) : ℤ := (l.map fun t => g t.a t.b + g t.b t.c + g t.c t.a).sum

/-- If all antisymmetric functions of sides have sum zero, the triangles are closed. -/
theorem closed_of_around (l : List (Tri K)) (h : ∀ g : V3 K → V3 K → ℤ, (∀ p q, g p q = -g q p) → around g l = 0) : Closed l := by
  intro p q
  have key : ∀ l : List (Tri K), ((sides l).count (p, q) : ℤ) - (sides l).count (q, p) =
      around (fun a b => (if (a, b) = (p, q) then 1 else 0) - (if (a, b) = (q, p) then 1 else 0)) l := by
    intro l
    induction l with
    | nil => simp [sides, around]
    | cons t l ih =>
      simp only [sides, around, List.flatMap_cons, List.map_cons, List.sum_cons, List.count_append, List.count_cons, List.count_nil, beq_iff_eq] at ih ⊢
      push_cast
      linarith
  have := h (fun a b => (if (a, b) = (p, q) then 1 else 0) - (if (a, b) = (q, p) then 1 else 0)) (by
    intro a b
    have e1 : ((a, b) = (p, q)) ↔ ((b, a) = (q, p)) := by simp [and_comm]
    have e2 : ((a, b) = (q, p)) ↔ ((b, a) = (p, q)) := by simp [and_comm]
    simp only [e1, e2]
    ring)
  rw [← key] at this
  omega

theorem around_append (g : V3 K → V3 K → ℤ) (l m : List (Tri K)) : around g (l ++ m) = around g l + around g m := by
  simp [around]

theorem around_flatMap {α : Type} (g : V3 K → V3 K → ℤ) (f : α → List (Tri K)) (l : List α) :
    around g (l.flatMap f) = (l.map fun x => around g (f x)).sum := by
  induction l with
  | nil => rfl
  | cons x l ih => rw [List.flatMap_cons, around_append, ih, List.map_cons, List.sum_cons]

theorem sum_range (f : Nat → ℤ) (n : Nat) : ((List.range n).map f).sum = ∑ i ∈ Finset.range n, f i := by
  rw [← List.sum_toFinset _ List.nodup_range, List.toFinset_range]

theorem indexed_flatMap {α : Type} (v : Nat → V3 K) (c : Nat) (f : α → List (Nat × Nat × Nat)) (l : List α) :
    indexed v c (l.flatMap f) = l.flatMap fun x => indexed v c (f x) := by
  simp [indexed, List.map_flatMap]

theorem indexed_append (v : Nat → V3 K) (c : Nat) (l m : List (Nat × Nat × Nat)) : indexed v c (l ++ m) = indexed v c l ++ indexed v c m := by
  simp [indexed]

theorem gridAt_at (S : Nat) (v : Nat → Nat → V3 K) (i j : Nat) (h : j ≤ S) : gridAt S v (i * (S + 1) + j) = v i j := by
  unfold gridAt
  have h1 : (i * (S + 1) + j) / (S + 1) = i := by
    rw [Nat.add_comm, Nat.add_mul_div_right _ _ (Nat.succ_pos S), Nat.div_eq_of_lt (by omega), Nat.zero_add]
  have h2 : (i * (S + 1) + j) % (S + 1) = j := by
    rw [Nat.add_comm, Nat.add_mul_mod_self_right, Nat.mod_eq_of_lt (by omega)]
  rw [h1, h2]

/-- The sum around the triangles of a cell of a grid of points. -/
theorem around_cell (g : V3 K → V3 K → ℤ) (hg : ∀ p q, g p q = -g q p) (S : Nat) (w : V3 K → V3 K) (v : Nat → Nat → V3 K) (c i j : Nat) (hj : j < S)
    (first second : Bool) :
    around g (indexed (fun k => w (gridAt S v k)) c (cell S first second i j)) =
      (if first then g (w (v i j)) (w (v (i + 1) j)) + g (w (v (i + 1) j)) (w (v i (j + 1))) - g (w (v i j)) (w (v i (j + 1))) else 0) +
      (if second then -g (w (v (i + 1) j)) (w (v i (j + 1))) + g (w (v (i + 1) j)) (w (v (i + 1) (j + 1))) - g (w (v i (j + 1))) (w (v (i + 1) (j + 1))) else 0) := by
  have e1 : gridAt S v (i * (S + 1) + j) = v i j := gridAt_at S v i j (by omega)
  have e2 : gridAt S v (i * (S + 1) + j + 1) = v i (j + 1) := gridAt_at S v i (j + 1) (by omega)
  have e3 : gridAt S v (i * (S + 1) + j + S + 1) = v (i + 1) j := by
    rw [← gridAt_at S v (i + 1) j (by omega)]
    congr 1
    ring
  have e4 : gridAt S v (i * (S + 1) + j + S + 1 + 1) = v (i + 1) (j + 1) := by
    rw [← gridAt_at S v (i + 1) (j + 1) (by omega)]
    congr 1
    ring
  cases first <;> cases second <;>
    simp only [cell, indexed, around, Bool.false_eq_true, if_true, if_false, List.nil_append, List.append_nil, List.cons_append, List.map_cons, List.map_nil,
      List.sum_cons, List.sum_nil, e1, e2, e3, e4, add_zero]
  · rw [hg (w (v i (j + 1))) (w (v (i + 1) j)), hg (w (v (i + 1) (j + 1))) (w (v i (j + 1)))]
    ring
  · rw [hg (w (v i (j + 1))) (w (v i j))]
    ring
  · rw [hg (w (v i (j + 1))) (w (v (i + 1) j)), hg (w (v (i + 1) (j + 1))) (w (v i (j + 1))), hg (w (v i (j + 1))) (w (v i j))]
    ring

/-- A band of cells, both triangles of each cell counted: what is left are the rings of points above and below. -/
theorem band (g : V3 K → V3 K → ℤ) (S : Nat) (u : Nat → Nat → V3 K) (i : Nat) (hseam : ∀ i, u i S = u i 0) :
    ∑ j ∈ Finset.range S, ((g (u i j) (u (i + 1) j) + g (u (i + 1) j) (u i (j + 1)) - g (u i j) (u i (j + 1))) +
      (-g (u (i + 1) j) (u i (j + 1)) + g (u (i + 1) j) (u (i + 1) (j + 1)) - g (u i (j + 1)) (u (i + 1) (j + 1)))) =
    ∑ j ∈ Finset.range S, g (u (i + 1) j) (u (i + 1) (j + 1)) - ∑ j ∈ Finset.range S, g (u i j) (u i (j + 1)) := by
  have tele : ∑ j ∈ Finset.range S, (g (u i (j + 1)) (u (i + 1) (j + 1)) - g (u i j) (u (i + 1) j)) = 0 := by
    rw [Finset.sum_range_sub fun j => g (u i j) (u (i + 1) j), hseam, hseam, sub_self]
  rw [← Finset.sum_sub_distrib, ← sub_eq_zero, ← Finset.sum_sub_distrib, ← neg_eq_zero, ← tele, ← Finset.sum_neg_distrib]
  exact Finset.sum_congr rfl fun j _ => by ring

/-- A grid of points with a seam and two poles: all its cells without the degenerate triangles at the poles. -/
theorem grid_closed (g : V3 K → V3 K → ℤ) (hg : ∀ p q, g p q = -g q p) (S N : Nat) (u : Nat → Nat → V3 K) (hN : 2 ≤ N)
    (hseam : ∀ i, u i S = u i 0) (htop : ∀ j, u 0 j = u 0 0) (hbot : ∀ j, u N j = u N 0) :
    ∑ i ∈ Finset.range N, ∑ j ∈ Finset.range S,
      ((if i ≠ 0 then g (u i j) (u (i + 1) j) + g (u (i + 1) j) (u i (j + 1)) - g (u i j) (u i (j + 1)) else 0) +
      (if i ≠ N - 1 then -g (u (i + 1) j) (u i (j + 1)) + g (u (i + 1) j) (u (i + 1) (j + 1)) - g (u i (j + 1)) (u (i + 1) (j + 1)) else 0)) = 0 := by
  have h0 : ∀ p, g p p = 0 := fun p => by have := hg p p; omega
  have full : ∀ i ∈ Finset.range N, ∑ j ∈ Finset.range S,
      ((if i ≠ 0 then g (u i j) (u (i + 1) j) + g (u (i + 1) j) (u i (j + 1)) - g (u i j) (u i (j + 1)) else 0) +
      (if i ≠ N - 1 then -g (u (i + 1) j) (u i (j + 1)) + g (u (i + 1) j) (u (i + 1) (j + 1)) - g (u i (j + 1)) (u (i + 1) (j + 1)) else 0)) =
      ∑ j ∈ Finset.range S, g (u (i + 1) j) (u (i + 1) (j + 1)) - ∑ j ∈ Finset.range S, g (u i j) (u i (j + 1)) := by
    intro i hi
    rw [← band g S u i hseam]
    refine Finset.sum_congr rfl fun j _ => ?_
    have a1 : i = 0 → g (u i j) (u (i + 1) j) + g (u (i + 1) j) (u i (j + 1)) - g (u i j) (u i (j + 1)) = 0 := by
      rintro rfl
      rw [htop (j + 1), htop j, h0, hg (u (0 + 1) j)]
      ring
    have a2 : i = N - 1 → -g (u (i + 1) j) (u i (j + 1)) + g (u (i + 1) j) (u (i + 1) (j + 1)) - g (u i (j + 1)) (u (i + 1) (j + 1)) = 0 := by
      intro e
      have : i + 1 = N := by omega
      rw [this, hbot (j + 1), hbot j, h0, hg (u N 0)]
      ring
    split_ifs with h1 h2 h2
    · rfl
    · rw [a2 (not_not.1 h2)]
    · rw [a1 (not_not.1 h1)]
    · rw [a1 (not_not.1 h1), a2 (not_not.1 h2)]
  rw [Finset.sum_congr rfl full, Finset.sum_range_sub fun i => ∑ j ∈ Finset.range S, g (u i j) (u i (j + 1))]
  have z1 : ∑ j ∈ Finset.range S, g (u N j) (u N (j + 1)) = 0 := Finset.sum_eq_zero fun j _ => by rw [hbot (j + 1), hbot j, h0]
  have z2 : ∑ j ∈ Finset.range S, g (u 0 j) (u 0 (j + 1)) = 0 := Finset.sum_eq_zero fun j _ => by rw [htop (j + 1), htop j, h0]
  rw [z1, z2, sub_zero]

/-- The faces of a sphere over any grid of points with a seam and poles are closed. -/
theorem sphereFaces_closed (S N : Nat) (hN : 2 ≤ N) (c : Nat) (w : V3 K → V3 K) (v : Nat → Nat → V3 K)
    (hseam : ∀ i, w (v i S) = w (v i 0)) (htop : ∀ j, w (v 0 j) = w (v 0 0)) (hbot : ∀ j, w (v N j) = w (v N 0)) :
    Closed (indexed (fun k => w (gridAt S v k)) c (sphereFaces S N)) := by
  apply closed_of_around
  intro g hg
  rw [← grid_closed g hg S N (fun i j => w (v i j)) hN hseam htop hbot]
  rw [sphereFaces, indexed_flatMap, around_flatMap, sum_range]
  refine Finset.sum_congr rfl fun i hi => ?_
  rw [indexed_flatMap, around_flatMap, sum_range]
  refine Finset.sum_congr rfl fun j hj => ?_
  rw [around_cell g hg S w v c i j (Finset.mem_range.1 hj)]
  simp [bne_iff_ne]

/-- The faces of a capsule over any grid of points with a seam and poles are closed. -/
theorem capsuleFaces_closed (S H : Nat) (hH : 1 ≤ H) (c : Nat) (w : V3 K → V3 K) (v : Nat → Nat → V3 K)
    (hseam : ∀ i, w (v i S) = w (v i 0)) (htop : ∀ j, w (v 0 j) = w (v 0 0)) (hbot : ∀ j, w (v (2 * H + 1) j) = w (v (2 * H + 1) 0)) :
    Closed (indexed (fun k => w (gridAt S v k)) c (capsuleFaces S H)) := by
  apply closed_of_around
  intro g hg
  rw [← grid_closed g hg S (2 * H + 1) (fun i j => w (v i j)) (by omega) hseam htop hbot]
  have e : 2 * H + 1 = (H + 1) + H := by omega
  rw [e, Finset.sum_range_add, Finset.sum_range_succ, add_assoc, add_comm (∑ j ∈ Finset.range S, _) (∑ x ∈ Finset.range H, _), ← add_assoc]
  rw [capsuleFaces, indexed_append, indexed_append, around_append, around_append, indexed_flatMap, indexed_flatMap, indexed_flatMap, around_flatMap,
    around_flatMap, around_flatMap, sum_range, sum_range, sum_range]
  refine congrArg₂ _ (congrArg₂ _ ?_ ?_) ?_
  · refine Finset.sum_congr rfl fun i hi => ?_
    have hi := Finset.mem_range.1 hi
    rw [indexed_flatMap, around_flatMap, sum_range]
    refine Finset.sum_congr rfl fun j hj => ?_
    rw [around_cell g hg S w v c i j (Finset.mem_range.1 hj)]
    have : i ≠ H + H := by omega
    simp [bne_iff_ne, this]
  · refine Finset.sum_congr rfl fun i hi => ?_
    have hi := Finset.mem_range.1 hi
    rw [indexed_flatMap, around_flatMap, sum_range]
    refine Finset.sum_congr rfl fun j hj => ?_
    rw [around_cell g hg S w v c (H + 1 + i) j (Finset.mem_range.1 hj)]
    have h1 : H + 1 + i ≠ 0 := by omega
    have h2 : (H + 1 + i = H + H) ↔ i = H - 1 := by omega
    simp [bne_iff_ne, h1, h2]
  · refine Finset.sum_congr rfl fun j hj => ?_
    rw [indexed_append, around_append, around_cell g hg S w v c H j (Finset.mem_range.1 hj), around_cell g hg S w v c H j (Finset.mem_range.1 hj)]
    have h1 : H ≠ 0 := by omega
    have h2 : H ≠ H + 1 + H - 1 := by omega
    simp [h1, h2]
    ring

end Debug
end RP3D
