import Verif.Hull.Points
import Mathlib.Logic.Relation
import Mathlib.Data.List.Induction
import Mathlib.Algebra.Order.Ring.Rat

/-! C120: the points that are left when nearly equal points are removed before a convex hull is made. -/

namespace RP3D.HullPoints
open RP3D.Hull
variable {K : Type} [Field K] [LinearOrder K] [IsStrictOrderedRing K]

/-! ## What a user expects, said without the model -/

/-- Two points are nearly the same: every coordinate differs by less than `tol`. -/
def Near (tol : K) (p q : V3 K) : Prop := |p.x - q.x| < tol ∧ |p.y - q.y| < tol ∧ |p.z - q.z| < tol

/-- The square of the distance. -/
def Dist2 (p q : V3 K) : K := (p.x - q.x) * (p.x - q.x) + (p.y - q.y) * (p.y - q.y) + (p.z - q.z) * (p.z - q.z)

/-- The mean of the points. -/
def IsMean (ps : List (V3 K)) (c : V3 K) : Prop :=
  (ps.length : K) * c.x = (ps.map (·.x)).sum ∧ (ps.length : K) * c.y = (ps.map (·.y)).sum ∧ (ps.length : K) * c.z = (ps.map (·.z)).sum

/-- From `p` one gets to `q` over points of the list, each nearly the same as the one before. -/
def Linked (tol : K) (ps : List (V3 K)) : V3 K → V3 K → Prop := Relation.ReflTransGen (fun a b => a ∈ ps ∧ b ∈ ps ∧ Near tol a b)

/-! ## Lemmas -/

theorem near_iff {tol : K} {p q : V3 K} : near tol p q = true ↔ Near tol p q := by simp [near, Near]

theorem Near.symm {tol : K} {p q : V3 K} (h : Near tol p q) : Near tol q p := by
  obtain ⟨a, b, c⟩ := h
  exact ⟨by rwa [abs_sub_comm], by rwa [abs_sub_comm], by rwa [abs_sub_comm]⟩

theorem dist_eq (p c : V3 K) : (p - c).lengthSq = Dist2 p c := rfl

theorem foldl_add (ps : List (V3 K)) (s : V3 K) :
    (ps.foldl (· + ·) s).x = s.x + (ps.map (·.x)).sum ∧ (ps.foldl (· + ·) s).y = s.y + (ps.map (·.y)).sum ∧ (ps.foldl (· + ·) s).z = s.z + (ps.map (·.z)).sum := by
  induction ps generalizing s with
  | nil => simp
  | cons p ps ih =>
    obtain ⟨a, b, c⟩ := ih (s + p)
    simp only [List.foldl_cons, List.map_cons, List.sum_cons]
    refine ⟨?_, ?_, ?_⟩
    · rw [a, V3.add_x]; ring
    · rw [b, V3.add_y]; ring
    · rw [c, V3.add_z]; ring

theorem center_mean {ps : List (V3 K)} (h : ps ≠ []) : IsMean ps (center ps) := by
  have hl : (ps.length : K) ≠ 0 := by
    rw [Nat.cast_ne_zero]
    exact fun e => h (List.length_eq_zero_iff.mp e)
  obtain ⟨a, b, c⟩ := foldl_add ps 0
  refine ⟨?_, ?_, ?_⟩
  · simp only [center, V3.smul_x]; rw [a, mul_inv_cancel_left₀ hl]; simp
  · simp only [center, V3.smul_y]; rw [b, mul_inv_cancel_left₀ hl]; simp
  · simp only [center, V3.smul_z]; rw [c, mul_inv_cancel_left₀ hl]; simp

theorem mean_unique {ps : List (V3 K)} (h : ps ≠ []) {c d : V3 K} (hc : IsMean ps c) (hd : IsMean ps d) : c = d := by
  have hl : (ps.length : K) ≠ 0 := by
    rw [Nat.cast_ne_zero]
    exact fun e => h (List.length_eq_zero_iff.mp e)
  obtain ⟨a, b, e⟩ := hc
  obtain ⟨a', b', e'⟩ := hd
  exact V3.ext (mul_left_cancel₀ hl (a.trans a'.symm)) (mul_left_cancel₀ hl (b.trans b'.symm)) (mul_left_cancel₀ hl (e.trans e'.symm))

theorem keep_mem {tol : K} {c p q : V3 K} {ks : List (V3 K)} (h : q ∈ keep tol c p ks) : q = p ∨ q ∈ ks := by
  induction ks with
  | nil => simp only [keep, List.mem_singleton] at h; exact Or.inl h
  | cons k ks ih =>
    unfold keep at h
    split_ifs at h with h1 h2
    · rcases List.mem_cons.mp h with h | h
      · exact Or.inl h
      · exact Or.inr (List.mem_cons_of_mem _ h)
    · exact Or.inr h
    · rcases List.mem_cons.mp h with h | h
      · exact Or.inr (h ▸ List.mem_cons_self)
      · rcases ih h with h | h
        · exact Or.inl h
        · exact Or.inr (List.mem_cons_of_mem _ h)

/-- Each kept point stays or gives way to the new one, which is then near and farther from the centre. -/
theorem keep_old {tol : K} {c p k : V3 K} {ks : List (V3 K)} (h : k ∈ ks) :
    k ∈ keep tol c p ks ∨ (p ∈ keep tol c p ks ∧ Near tol k p ∧ Dist2 k c < Dist2 p c) := by
  induction ks with
  | nil => simp at h
  | cons a ks ih =>
    unfold keep
    split_ifs with h1 h2
    · rcases List.mem_cons.mp h with h | h
      · subst h
        exact Or.inr ⟨List.mem_cons_self, near_iff.mp h1, h2⟩
      · exact Or.inl (List.mem_cons_of_mem _ h)
    · exact Or.inl h
    · rcases List.mem_cons.mp h with h | h
      · exact Or.inl (h ▸ List.mem_cons_self)
      · rcases ih h with h | h
        · exact Or.inl (List.mem_cons_of_mem _ h)
        · exact Or.inr ⟨List.mem_cons_of_mem _ h.1, h.2⟩

/-- The new point is kept or there is a kept one near it that is as far from the centre. -/
theorem keep_new (tol : K) (c p : V3 K) (ks : List (V3 K)) :
    p ∈ keep tol c p ks ∨ ∃ k ∈ ks, k ∈ keep tol c p ks ∧ Near tol p k ∧ Dist2 p c ≤ Dist2 k c := by
  induction ks with
  | nil => simp [keep]
  | cons a ks ih =>
    unfold keep
    split_ifs with h1 h2
    · exact Or.inl List.mem_cons_self
    · exact Or.inr ⟨a, List.mem_cons_self, List.mem_cons_self, (near_iff.mp h1).symm, not_lt.mp h2⟩
    · rcases ih with h | ⟨k, h⟩
      · exact Or.inl (List.mem_cons_of_mem _ h)
      · exact Or.inr ⟨k, List.mem_cons_of_mem _ h.1, List.mem_cons_of_mem _ h.2.1, h.2.2⟩

theorem keep_apart {tol : K} {c p : V3 K} {ks : List (V3 K)} (h : ∀ k ∈ ks, ¬ Near tol k p) : keep tol c p ks = ks ++ [p] := by
  induction ks with
  | nil => rfl
  | cons a ks ih =>
    unfold keep
    rw [if_neg (by rw [near_iff]; exact h a List.mem_cons_self), ih (fun k hk => h k (List.mem_cons_of_mem _ hk))]
    rfl

theorem keep_pairwise {tol : K} {c p : V3 K} {ks : List (V3 K)} (R : V3 K → V3 K → Prop)
    (hR : ∀ k ∈ ks, ∀ a ∈ ks, Near tol a p → R k a → R k p) (hR' : ∀ k ∈ ks, ∀ a ∈ ks, Near tol a p → R a k → R p k)
    (hnew : ∀ k ∈ ks, ¬ Near tol k p → R k p)
    (h : ks.Pairwise R) : (keep tol c p ks).Pairwise R := by
  induction ks with
  | nil => simp [keep]
  | cons a ks ih =>
    rw [List.pairwise_cons] at h
    unfold keep
    split_ifs with h1 h2
    · refine List.pairwise_cons.mpr ⟨fun k hk => ?_, h.2⟩
      exact hR' k (List.mem_cons_of_mem _ hk) a List.mem_cons_self (near_iff.mp h1) (h.1 k hk)
    · exact List.pairwise_cons.mpr h
    · refine List.pairwise_cons.mpr ⟨fun k hk => ?_, ?_⟩
      · rcases keep_mem hk with rfl | hk
        · exact hnew a List.mem_cons_self (by rwa [← near_iff])
        · exact h.1 k hk
      · exact ih (fun k hk b hb => hR k (List.mem_cons_of_mem _ hk) b (List.mem_cons_of_mem _ hb)) (fun k hk b hb => hR' k (List.mem_cons_of_mem _ hk) b (List.mem_cons_of_mem _ hb))
          (fun k hk => hnew k (List.mem_cons_of_mem _ hk)) h.2

/-- The points kept after the points of a list. -/
theorem foldl_concat (tol : K) (c : V3 K) (ps : List (V3 K)) (p : V3 K) :
    (ps ++ [p]).foldl (fun ks p => keep tol c p ks) [] = keep tol c p (ps.foldl (fun ks p => keep tol c p ks) []) := by
  rw [List.foldl_append]; rfl

theorem fold_mem (tol : K) (c : V3 K) (ps : List (V3 K)) {q : V3 K} (h : q ∈ ps.foldl (fun ks p => keep tol c p ks) []) : q ∈ ps := by
  induction ps using List.reverseRecOn generalizing q with
  | nil => exact h
  | append_singleton ps p ih =>
    rw [foldl_concat] at h
    rcases keep_mem h with rfl | h
    · simp
    · exact List.mem_append_left _ (ih h)

theorem Linked.mono {tol : K} {ps qs : List (V3 K)} (h : ∀ p ∈ ps, p ∈ qs) {p q : V3 K} (hl : Linked tol ps p q) : Linked tol qs p q :=
  Relation.ReflTransGen.mono (fun _ _ h' => ⟨h _ h'.1, h _ h'.2.1, h'.2.2⟩) _ _ hl

theorem fold_linked (tol : K) (c : V3 K) (ps : List (V3 K)) :
    ∀ p ∈ ps, ∃ k ∈ ps.foldl (fun ks p => keep tol c p ks) [], Linked tol ps p k ∧ Dist2 p c ≤ Dist2 k c := by
  induction ps using List.reverseRecOn with
  | nil => simp
  | append_singleton ps q ih =>
    intro p hp
    rw [foldl_concat]
    set ks := ps.foldl (fun ks p => keep tol c p ks) [] with hks
    have hmem : ∀ a ∈ ks, a ∈ ps ++ [q] := fun a ha => List.mem_append_left _ (fold_mem tol c ps ha)
    have hq : q ∈ ps ++ [q] := by simp
    rcases List.mem_append.mp hp with hp | hp
    · obtain ⟨k, hk, hl, hd⟩ := ih p hp
      have hl' : Linked tol (ps ++ [q]) p k := hl.mono (fun a ha => List.mem_append_left _ ha)
      rcases keep_old (tol := tol) (c := c) (p := q) hk with h | ⟨h1, h2, h3⟩
      · exact ⟨k, h, hl', hd⟩
      · exact ⟨q, h1, hl'.tail ⟨hmem k hk, hq, h2⟩, hd.trans h3.le⟩
    · obtain rfl : p = q := by simpa using hp
      rcases keep_new tol c p ks with h | ⟨k, h1, h2, h3, h4⟩
      · exact ⟨p, h, Relation.ReflTransGen.refl, le_rfl⟩
      · exact ⟨k, h2, Relation.ReflTransGen.single ⟨hq, hmem k h1, h3⟩, h4⟩

/-! ## The theorems -/

/-- No point is invented: what is left are input points. -/
theorem merge_inputs (tol : K) (ps : List (V3 K)) : ∀ q ∈ removeDuplicates tol ps, q ∈ ps := fun _ h => fold_mem tol _ ps h

/-- Every input point is linked, over input points each nearly the same as the one before, to a point that is left and that is at least as far
from the mean of all input points. In particular a point farthest from the mean stays in distance, and points are left if there are any. -/
theorem merge_linked (tol : K) (ps : List (V3 K)) {c : V3 K} (hc : IsMean ps c) :
    ∀ p ∈ ps, ∃ k ∈ removeDuplicates tol ps, Linked tol ps p k ∧ Dist2 p c ≤ Dist2 k c := by
  intro p hp
  have hne : ps ≠ [] := fun e => by rw [e] at hp; simp at hp
  rw [mean_unique hne hc (center_mean hne)]
  exact fold_linked tol _ ps p hp

/-- Points no two of which are nearly the same are all left, in their order. -/
theorem merge_apart (tol : K) (ps : List (V3 K)) (h : ps.Pairwise (fun p q => ¬ Near tol p q)) : removeDuplicates tol ps = ps := by
  have gen : ∀ c : V3 K, ps.foldl (fun ks p => keep tol c p ks) [] = ps := by
    intro c
    induction ps using List.reverseRecOn with
    | nil => rfl
    | append_singleton ps q ih =>
      rw [List.pairwise_append] at h
      rw [foldl_concat, ih h.1]
      exact keep_apart (fun k hk => h.2.2 k hk q (by simp))
  exact gen _

/-- If being nearly the same is transitive among the input points (they come in clusters) then every input point is nearly the same as one that is
left, and no two that are left are nearly the same. Missing: without clusters both fail (`merge_drift`, `merge_twins`). -/
theorem merge_clusters_partial {tol : K} (ht : 0 < tol) (ps : List (V3 K))
    (htr : ∀ a ∈ ps, ∀ b ∈ ps, ∀ d ∈ ps, Near tol a b → Near tol b d → Near tol a d) :
    (∀ p ∈ ps, ∃ k ∈ removeDuplicates tol ps, Near tol p k) ∧ (removeDuplicates tol ps).Pairwise (fun p q => ¬ Near tol p q) := by
  have hrefl : ∀ p : V3 K, Near tol p p := fun p => by simp [Near, ht]
  refine ⟨fun p hp => ?_, ?_⟩
  · obtain ⟨k, hk, hl, -⟩ := merge_linked tol ps (center_mean (fun e => by rw [e] at hp; simp at hp)) p hp
    refine ⟨k, hk, ?_⟩
    unfold Linked at hl
    clear hk
    induction hl with
    | refl => exact hrefl p
    | tail _ hbc ih => exact htr p hp _ hbc.1 _ hbc.2.1 ih hbc.2.2
  · have gen : ∀ (c : V3 K) (qs : List (V3 K)), (∀ q ∈ qs, q ∈ ps) → (qs.foldl (fun ks p => keep tol c p ks) []).Pairwise (fun p q => ¬ Near tol p q) := by
      intro c qs
      induction qs using List.reverseRecOn with
      | nil => simp
      | append_singleton qs q ih =>
        intro hq
        rw [foldl_concat]
        have hin : ∀ k ∈ qs.foldl (fun ks p => keep tol c p ks) [], k ∈ ps := fun k hk => hq k (List.mem_append_left _ (fold_mem tol c qs hk))
        have hqp : q ∈ ps := hq q (by simp)
        refine keep_pairwise _ (fun k hk a ha han hka hkq => hka ?_) (fun k hk a ha han hka hkq => hka ?_) (fun k _ h => h) (ih (fun k hk => hq k (List.mem_append_left _ hk)))
        · exact htr k (hin k hk) q hqp a (hin a ha) hkq han.symm
        · exact htr a (hin a ha) q hqp k (hin k hk) han hkq
    exact gen _ ps (fun _ h => h)

/-- A row of points at steps of half the tolerance: `0`, `tol / 2`, ..., `n * tol / 2` on the first axis. -/
def row (tol : K) (n : Nat) : List (V3 K) := (List.range (n + 1)).map (fun i : Nat => ⟨(i : K) * (tol / 2), 0, 0⟩)

/-- One point far on the other side, before the row. -/
def rowInput (tol : K) (n : Nat) : List (V3 K) := ⟨-(tol * ((n : K) + 1) * ((n : K) + 1)), 0, 0⟩ :: row tol n

theorem row_succ (tol : K) (n : Nat) : row tol (n + 1) = row tol n ++ [⟨((n + 1 : Nat) : K) * (tol / 2), 0, 0⟩] := by
  unfold row
  rw [List.range_succ, List.map_append]
  rfl

theorem row_sum (tol : K) (n : Nat) : ((row tol n).map (·.x)).sum = tol / 2 * ((n : K) * ((n : K) + 1) / 2) ∧ ((row tol n).map (·.y)).sum = 0 ∧ ((row tol n).map (·.z)).sum = 0 := by
  induction n with
  | zero => simp [row]
  | succ n ih =>
    obtain ⟨a, b, c⟩ := ih
    rw [row_succ]
    refine ⟨?_, ?_, ?_⟩
    · rw [List.map_append, List.sum_append, a]
      simp only [List.map_cons, List.map_nil, List.sum_cons, List.sum_nil]
      push_cast; ring
    · rw [List.map_append, List.sum_append, b]; simp
    · rw [List.map_append, List.sum_append, c]; simp

theorem row_fold {tol : K} (ht : 0 < tol) {M : K} (hM : tol ≤ M) {c : V3 K} (hc : c.x < 0) (hy : c.y = 0) (hz : c.z = 0) (n : Nat) :
    ((⟨-M, 0, 0⟩ :: row tol n : List (V3 K))).foldl (fun ks p => keep tol c p ks) [] = [⟨-M, 0, 0⟩, ⟨(n : K) * (tol / 2), 0, 0⟩] := by
  induction n with
  | zero =>
    have h : ¬ near tol (⟨-M, 0, 0⟩ : V3 K) ⟨0, 0, 0⟩ = true := by
      rw [near_iff]
      rintro ⟨h, -, -⟩
      simp only [sub_zero, abs_neg] at h
      rw [abs_of_pos (by linarith)] at h
      linarith
    simp [row, keep, h]
  | succ n ih =>
    rw [row_succ, ← List.cons_append, foldl_concat, ih]
    have hn : (0 : K) ≤ (n : K) := Nat.cast_nonneg n
    have hp : 0 ≤ (n : K) * (tol / 2) := by positivity
    have h1 : ¬ near tol (⟨-M, 0, 0⟩ : V3 K) ⟨((n + 1 : Nat) : K) * (tol / 2), 0, 0⟩ = true := by
      rw [near_iff]
      rintro ⟨h, -, -⟩
      simp only at h
      push_cast at h
      rw [abs_lt] at h
      nlinarith [h.1, h.2]
    have h2 : near tol (⟨(n : K) * (tol / 2), 0, 0⟩ : V3 K) ⟨((n + 1 : Nat) : K) * (tol / 2), 0, 0⟩ = true := by
      rw [near_iff]
      refine ⟨?_, by simpa using ht, by simpa using ht⟩
      simp only
      push_cast
      rw [abs_lt]
      constructor <;> nlinarith
    have h3 : ((⟨(n : K) * (tol / 2), 0, 0⟩ : V3 K) - c).lengthSq < ((⟨((n + 1 : Nat) : K) * (tol / 2), 0, 0⟩ : V3 K) - c).lengthSq := by
      simp only [V3.lengthSq, V3.sub_x, V3.sub_y, V3.sub_z]
      push_cast
      nlinarith [mul_pos ht (neg_pos.mpr hc), mul_nonneg hp ht.le]
    rw [keep, if_neg h1, keep, if_pos h2, if_pos h3]

/-- Points drift: for every `n` there are input points one of which is farther than `n / 2` times the tolerance from every point that is left. -/
theorem merge_drift {tol : K} (ht : 0 < tol) (n : Nat) :
    ∃ ps : List (V3 K), ∃ p ∈ ps, ∀ k ∈ removeDuplicates tol ps, (n : K) * (tol / 2) ≤ |k.x - p.x| := by
  have hn : (0 : K) ≤ (n : K) := Nat.cast_nonneg n
  refine ⟨rowInput tol n, ⟨0, 0, 0⟩, ?_, ?_⟩
  · refine List.mem_cons_of_mem _ (List.mem_map.mpr ⟨0, by simp, by simp⟩)
  · have hmean := center_mean (ps := rowInput tol n) (by simp [rowInput])
    obtain ⟨hx, hy, hz⟩ := hmean
    obtain ⟨sx, sy, sz⟩ := row_sum tol n
    have hl : (0 : K) < ((rowInput tol n).length : K) := by
      rw [Nat.cast_pos]; simp [rowInput]
    have hcx : (center (rowInput tol n)).x < 0 := by
      have : ((rowInput tol n).length : K) * (center (rowInput tol n)).x < 0 := by
        rw [hx]
        show (-(tol * ((n : K) + 1) * ((n : K) + 1)) + ((row tol n).map (·.x)).sum) < 0
        rw [sx]
        nlinarith [mul_nonneg ht.le hn, mul_nonneg ht.le (mul_nonneg hn hn)]
      by_contra hcon
      exact absurd this (not_lt.mpr (mul_nonneg hl.le (not_lt.mp hcon)))
    have hcy : (center (rowInput tol n)).y = 0 := by
      have : ((rowInput tol n).length : K) * (center (rowInput tol n)).y = 0 := by
        rw [hy]
        show (0 + ((row tol n).map (·.y)).sum) = 0
        rw [sy, add_zero]
      exact (mul_eq_zero.mp this).resolve_left hl.ne'
    have hcz : (center (rowInput tol n)).z = 0 := by
      have : ((rowInput tol n).length : K) * (center (rowInput tol n)).z = 0 := by
        rw [hz]
        show (0 + ((row tol n).map (·.z)).sum) = 0
        rw [sz, add_zero]
      exact (mul_eq_zero.mp this).resolve_left hl.ne'
    have hM : tol ≤ tol * ((n : K) + 1) * ((n : K) + 1) := by nlinarith [mul_nonneg ht.le hn, mul_nonneg ht.le (mul_nonneg hn hn)]
    intro k hk
    unfold removeDuplicates at hk
    rw [show rowInput tol n = ⟨-(tol * ((n : K) + 1) * ((n : K) + 1)), 0, 0⟩ :: row tol n from rfl] at hk hcx hcy hcz
    rw [row_fold ht hM hcx hcy hcz n] at hk
    simp only [List.mem_cons, List.not_mem_nil, or_false] at hk
    rcases hk with rfl | rfl
    · simp only [sub_zero, abs_neg]
      rw [abs_of_nonneg (by positivity)]
      nlinarith [mul_nonneg ht.le hn, mul_nonneg ht.le (mul_nonneg hn hn)]
    · simp only [sub_zero]
      exact le_abs_self _

/-- Two points that are left can be nearly the same: one of them took the place of a third after both were compared. -/
theorem merge_twins : ∃ ps : List (V3 ℚ), ∃ p q rest, removeDuplicates (1 / 100000) ps = p :: q :: rest ∧ Near (1 / 100000) p q :=
  ⟨[⟨0, 0, 0⟩, ⟨11 / 1000000, 0, 0⟩, ⟨6 / 1000000, 0, 9 / 1000000⟩, ⟨0, 0, -1⟩], ⟨6 / 1000000, 0, 9 / 1000000⟩, ⟨11 / 1000000, 0, 0⟩, [⟨0, 0, -1⟩], by decide +kernel, by unfold Near; decide +kernel⟩

/-! ## Cases that meet the hypotheses -/

example : removeDuplicates (1 / 100000 : ℚ) [⟨0, 0, 0⟩, ⟨1, 0, 0⟩, ⟨1, 0, 9 / 1000000⟩, ⟨0, 1, 0⟩, ⟨0, 0, 0⟩] = [⟨0, 0, 0⟩, ⟨1, 0, 9 / 1000000⟩, ⟨0, 1, 0⟩] := by decide +kernel

example : IsMean ([⟨0, 0, 0⟩, ⟨1, 0, 2⟩] : List (V3 ℚ)) ⟨1 / 2, 0, 1⟩ := by norm_num [IsMean]

example : ([⟨0, 0, 0⟩, ⟨1, 0, 0⟩] : List (V3 ℚ)).Pairwise (fun p q => ¬ Near (1 / 100000) p q) := by
  norm_num [Near]

example : ∀ a ∈ ([⟨0, 0, 0⟩, ⟨1, 0, 0⟩, ⟨1, 0, 1 / 1000000⟩] : List (V3 ℚ)), ∀ b ∈ ([⟨0, 0, 0⟩, ⟨1, 0, 0⟩, ⟨1, 0, 1 / 1000000⟩] : List (V3 ℚ)),
    ∀ d ∈ ([⟨0, 0, 0⟩, ⟨1, 0, 0⟩, ⟨1, 0, 1 / 1000000⟩] : List (V3 ℚ)), Near (1 / 100000) a b → Near (1 / 100000) b d → Near (1 / 100000) a d := by
  unfold Near
  decide +kernel

end RP3D.HullPoints
