import Verif.Contacts.More
import Mathlib.Data.List.Pairwise
import Mathlib.Data.List.Induction
import Mathlib.Data.List.GetD
import Mathlib.Algebra.Order.Ring.Rat

/-!
C40, C41, C42, C70: contact reduction.

The statements only speak of lists of contact points (by index), their depths and the compared values.
-/

namespace RP3D
namespace ContactProps
open Contacts

variable {K : Type} [LinearOrder K]

/-! ### Specification -/

/-- `m` is as deep as `m'`: every point of `m'` is at most as deep as some point of `m`, points at depth zero or less apart. -/
def AsDeep (zero : K) (depth : Nat → K) (m m' : List Nat) : Prop := ∀ p ∈ m', depth p ≤ zero ∨ ∃ q ∈ m, depth p ≤ depth q

/-- The opposite of a number, as computed with floating-point numbers. -/
structure IsNeg (zero : K) (neg : K → K) : Prop where
  anti : ∀ a b, a ≤ b → neg b ≤ neg a
  inv : ∀ a, neg (neg a) = a
  zero : neg zero = zero

/-! ### C40 -/

/-- **C40.** A pair keeps at most four of its manifolds, no more are dropped than necessary, and every manifold kept is as deep as every manifold
dropped. The depths must be smaller than the largest number. -/
theorem manifolds_reduced (big zero : K) (depth : Nat → K) (mans : Nat → List Nat) (idx : List Nat) (hz : zero < big)
    (hbig : ∀ i ∈ idx, ∀ p ∈ mans i, depth p < big) :
    ∃ kept dropped, reduceManifolds big (fun i => largestDepth zero depth (mans i)) 4 idx.length idx = some kept ∧
      idx.Perm (dropped ++ kept) ∧ kept.length = min idx.length 4 ∧
      ∀ k ∈ kept, ∀ d ∈ dropped, AsDeep zero depth (mans k) (mans d) := by
  have hb : ∀ i ∈ idx, largestDepth zero depth (mans i) < big := by
    intro i hi
    obtain ⟨-, -, h | ⟨p, hp, h⟩⟩ := largestDepth_spec zero depth (mans i)
    · rw [h]; exact hz
    · rw [h]; exact hbig i hi p hp
  obtain ⟨kept, dropped, h1, h2, h3, h4⟩ := reduceManifolds_spec big (fun i => largestDepth zero depth (mans i)) 4 idx.length idx
    (le_refl _) hb
  refine ⟨kept, dropped, h1, h2, h3, ?_⟩
  intro k hk d hd p hp
  have hpd : depth p ≤ largestDepth zero depth (mans k) := le_trans ((largestDepth_spec zero depth (mans d)).2.1 p hp) (h4 d hd k hk)
  obtain ⟨-, -, h | ⟨q, hq, h⟩⟩ := largestDepth_spec zero depth (mans k)
  · exact Or.inl (h ▸ hpd)
  · exact Or.inr ⟨q, hq, h ▸ hpd⟩

/-- The deepest point of a pair is in a manifold that is kept, or one as deep is. -/
theorem deepest_kept (big zero : K) (depth : Nat → K) (mans : Nat → List Nat) (idx : List Nat) (hz : zero < big)
    (hbig : ∀ i ∈ idx, ∀ p ∈ mans i, depth p < big) (i : Nat) (hi : i ∈ idx) (p : Nat) (hp : p ∈ mans i) (hpos : zero < depth p) :
    ∃ kept, reduceManifolds big (fun i => largestDepth zero depth (mans i)) 4 idx.length idx = some kept ∧
      ∃ k ∈ kept, ∃ q ∈ mans k, depth p ≤ depth q := by
  obtain ⟨kept, dropped, h1, h2, h3, h4⟩ := manifolds_reduced big zero depth mans idx hz hbig
  refine ⟨kept, h1, ?_⟩
  rcases List.mem_append.1 (h2.mem_iff.1 hi) with h | h
  · have hne : kept ≠ [] := by
      intro he
      rw [he] at h3
      have := List.length_pos_of_mem hi
      simp only [List.length_nil] at h3
      omega
    obtain ⟨k, hk⟩ := List.exists_mem_of_ne_nil _ hne
    rcases h4 k hk i h p hp with h' | ⟨q, hq, h'⟩
    · exact absurd hpos (not_lt.2 h')
    · exact ⟨k, hk, q, hq, h'⟩
  · exact ⟨i, h, p, hp, le_refl _⟩

/-- Six manifolds of one point each, with depths 3, 1, 4, 1, 5, 9 : the manifolds 1 and 3 are dropped. -/
example : reduceManifolds 1000 (fun i => largestDepth 0 (fun p => [3, 1, 4, 1, 5, 9].getD p 0) [i]) 4 6 [0, 1, 2, 3, 4, 5] = some [0, 5, 2, 4] := by
  decide +kernel
example : ∀ i ∈ [0, 1, 2, 3, 4, 5], ∀ p ∈ [i], [3, 1, 4, 1, 5, 9].getD p 0 < 1000 := by decide +kernel

/-! ### C41 -/

/-- **C41.** Of more than four points exactly four are kept, at different positions of the manifold. -/
theorem four_points (k : Keys K) (ps : List Nat) (h : 4 < ps.length) :
    ∃ p0 p1 p2 p3 rest, reducePoints k ps = some [p0, p1, p2, p3] ∧ ps.Perm (p0 :: p1 :: p2 :: p3 :: rest) := by
  obtain ⟨p0, p1, p2, p3, c1, c2, c3, c4, h1, -, hp0, -, hp1, -, hp2, -, hp3⟩ := reducePoints_steps k ps (by omega)
  exact ⟨p0, p1, p2, p3, c4, h1, hp0.trans (List.Perm.cons _ (hp1.trans (List.Perm.cons _ (hp2.trans (List.Perm.cons _ hp3)))))⟩

/-- **C41.** They are different points. -/
theorem four_distinct (k : Keys K) (ps : List Nat) (h : 4 < ps.length) (hnd : ps.Nodup) :
    ∃ kept, reducePoints k ps = some kept ∧ kept.length = 4 ∧ kept.Nodup ∧ ∀ p ∈ kept, p ∈ ps := by
  obtain ⟨p0, p1, p2, p3, rest, h1, h2⟩ := four_points k ps h
  have hs : [p0, p1, p2, p3].Sublist (p0 :: p1 :: p2 :: p3 :: rest) := List.sublist_append_left [p0, p1, p2, p3] rest
  exact ⟨_, h1, rfl, (h2.nodup_iff.1 hnd).sublist hs, fun p hp => h2.mem_iff.2 (hs.subset hp)⟩

/-- **C41.** The first point is extreme in the search direction, the second is farthest from the first, the third spans a triangle of the largest
area with them. -/
theorem extreme_points (k : Keys K) (ps : List Nat) (h : 4 < ps.length) (hsm : ∀ p ∈ ps, k.smallest ≤ k.dir p)
    (hd : ∀ p ∈ ps, ∀ q ∈ ps, k.zero ≤ k.dist p q) (hneg : IsNeg k.zero k.neg) :
    ∃ p0 p1 p2 p3 rest, reducePoints k ps = some [p0, p1, p2, p3] ∧ ps.Perm (p0 :: p1 :: p2 :: p3 :: rest) ∧
      (∀ q ∈ ps, k.dir q ≤ k.dir p0) ∧
      (∀ q ∈ p1 :: p2 :: p3 :: rest, k.dist p0 q ≤ k.dist p0 p1) ∧
      (∀ q ∈ p2 :: p3 :: rest, max (k.area q p0 p1) (k.neg (k.area q p0 p1)) ≤ max (k.area p2 p0 p1) (k.neg (k.area p2 p0 p1))) := by
  obtain ⟨p0, p1, p2, p3, c1, c2, c3, c4, h1, hi0, hp0, hi1, hp1, hi2, hp2, hi3, hp3⟩ := reducePoints_steps k ps (by omega)
  have hc2 : c2.Perm (p2 :: p3 :: c4) := hp2.trans (List.Perm.cons _ hp3)
  have hc1 : c1.Perm (p1 :: p2 :: p3 :: c4) := hp1.trans (List.Perm.cons _ hc2)
  have hps : ps.Perm (p0 :: p1 :: p2 :: p3 :: c4) := hp0.trans (List.Perm.cons _ hc1)
  have m0 : p0 ∈ ps := hps.mem_iff.2 List.mem_cons_self
  have mc1 : ∀ q ∈ c1, q ∈ ps := fun q hq => hp0.mem_iff.2 (List.mem_cons_of_mem _ hq)
  refine ⟨p0, p1, p2, p3, c4, h1, hps, ?_, ?_, ?_⟩
  · -- first point
    intro q hq
    obtain ⟨-, hs⟩ := scan_gt k.dir ps 0 (k.smallest, 0)
    refine le_trans (hs q hq) ?_
    rcases scan_pos (fun v b => decide (v > b)) k.dir ps 0 (k.smallest, 0) with he | ⟨j, c, hj, he⟩
    · rw [he]; exact hsm p0 m0
    · rw [he] at hi0 ⊢
      simp only [Nat.zero_add] at hi0
      rw [hj] at hi0
      cases hi0
      exact le_refl _
  · intro q hq
    have hq : q ∈ c1 := hc1.mem_iff.2 hq
    obtain ⟨-, hs⟩ := scan_ge (k.dist p0) c1 0 (k.zero, 0)
    refine le_trans (hs q hq) ?_
    obtain ⟨j, c, hj, he⟩ := scan_ge_at (k.dist p0) c1 0 (k.zero, 0) ⟨q, hq, hd p0 m0 q (mc1 q hq)⟩
    rw [he] at hi1 ⊢
    simp only [Nat.zero_add] at hi1
    rw [hj] at hi1
    cases hi1
    exact le_refl _
  · intro q hq
    have hq : q ∈ c2 := hc2.mem_iff.2 hq
    obtain ⟨hx0, hx⟩ := scan_ge (fun p => k.area p p0 p1) c2 0 (k.zero, 0)
    obtain ⟨hn0, hn⟩ := scan_le (fun p => k.area p p0 p1) c2 0 (k.zero, 0)
    have hxa := scan_ge_at (fun p => k.area p p0 p1) c2 0 (k.zero, 0)
    have hna := scan_le_at (fun p => k.area p p0 p1) c2 0 (k.zero, 0)
    generalize hX : scan (fun v b => decide (v ≥ b)) (fun p => k.area p p0 p1) c2 0 (k.zero, 0) = X at *
    generalize hN : scan (fun v b => decide (v ≤ b)) (fun p => k.area p p0 p1) c2 0 (k.zero, 0) = N at *
    dsimp only at hx0 hn0 hi2
    by_cases hpos : X.1 > k.neg N.1
    · simp only [hpos, decide_true, if_true] at hi2
      have hN0 : k.zero ≤ k.neg N.1 := by rw [← hneg.zero]; exact hneg.anti _ _ hn0
      have hX0 : k.zero < X.1 := lt_of_le_of_lt hN0 hpos
      have hXp : X.1 = k.area p2 p0 p1 := by
        rcases scan_pos (fun v b => decide (v ≥ b)) (fun p => k.area p p0 p1) c2 0 (k.zero, 0) with he | ⟨j, c, hj, he⟩
        · rw [hX] at he; rw [he] at hX0; exact absurd hX0 (lt_irrefl _)
        · rw [hX] at he
          rw [he] at hi2 ⊢
          simp only [Nat.zero_add] at hi2
          rw [hj] at hi2
          cases hi2
          rfl
      refine le_trans (max_le (hx q hq) ?_) (hXp ▸ le_max_left _ _)
      exact le_trans (hneg.anti _ _ (hn q hq)) (le_of_lt hpos)
    · simp only [hpos, decide_false, Bool.false_eq_true, if_false] at hi2
      have hle : X.1 ≤ k.neg N.1 := not_lt.1 hpos
      have hex : ∃ c ∈ c2, k.area c p0 p1 ≤ k.zero := by
        by_contra hall
        have hall' : ∀ c ∈ c2, k.zero < k.area c p0 p1 := fun c hc => by
          by_contra hh
          exact hall ⟨c, hc, not_lt.1 hh⟩
        have hN0 : N.1 = k.zero := by
          rcases scan_pos (fun v b => decide (v ≤ b)) (fun p => k.area p p0 p1) c2 0 (k.zero, 0) with he | ⟨j, c, hj, he⟩
          · rw [hN] at he; rw [he]
          · rw [hN] at he
            have := hall' c (List.mem_of_getElem? hj)
            rw [he] at hn0 ⊢
            exact absurd this (not_lt.2 hn0)
        rw [hN0, hneg.zero] at hle
        exact absurd (hall' q hq) (not_lt.2 (le_trans (hx q hq) hle))
      obtain ⟨j, c, hj, he⟩ := hna hex
      have hNp : N.1 = k.area p2 p0 p1 := by
        rw [he] at hi2 ⊢
        simp only [Nat.zero_add] at hi2
        rw [hj] at hi2
        cases hi2
        rfl
      refine le_trans (max_le (le_trans (hx q hq) hle) (hneg.anti _ _ (hn q hq))) (hNp ▸ le_max_right _ _)

/-- **C41.** The fourth point is farthest outside of the triangle of the first three: if some remaining point lies on the other side of an edge than
the triangle does (or on the edge), the fourth point spans with an edge an area on that side that is at least as large. -/
theorem fourth_outside (k : Keys K) (ps : List Nat) (h : 4 < ps.length) :
    ∃ p0 p1 p2 p3 rest, reducePoints k ps = some [p0, p1, p2, p3] ∧ ps.Perm (p0 :: p1 :: p2 :: p3 :: rest) ∧
      ((∀ q ∈ p3 :: rest, ∀ e ∈ [(p0, p1), (p1, p2), (p2, p0)], k.area q e.1 e.2 ≤ k.zero →
          ∃ e' ∈ [(p0, p1), (p1, p2), (p2, p0)], k.area p3 e'.1 e'.2 ≤ k.area q e.1 e.2) ∨
       (∀ q ∈ p3 :: rest, ∀ e ∈ [(p0, p1), (p1, p2), (p2, p0)], k.zero ≤ k.area q e.1 e.2 →
          ∃ e' ∈ [(p0, p1), (p1, p2), (p2, p0)], k.area q e.1 e.2 ≤ k.area p3 e'.1 e'.2)) := by
  obtain ⟨p0, p1, p2, p3, c1, c2, c3, c4, h1, hi0, hp0, hi1, hp1, hi2, hp2, hi3, hp3⟩ := reducePoints_steps k ps (by omega)
  have hc2 : c2.Perm (p2 :: p3 :: c4) := hp2.trans (List.Perm.cons _ hp3)
  have hc1 : c1.Perm (p1 :: p2 :: p3 :: c4) := hp1.trans (List.Perm.cons _ hc2)
  refine ⟨p0, p1, p2, p3, c4, h1, hp0.trans (List.Perm.cons _ hc1), ?_⟩
  generalize decide ((scan (fun v b => decide (v ≥ b)) (fun p => k.area p p0 p1) c2 0 (k.zero, 0)).1 >
    k.neg (scan (fun v b => decide (v ≤ b)) (fun p => k.area p p0 p1) c2 0 (k.zero, 0)).1) = pos at hi3
  obtain ⟨-, hall, hat⟩ := fourth_spec k pos p0 p1 p2 c3 0 (k.zero, 0)
  have key : ∀ q ∈ p3 :: c4, ∀ e ∈ [(p0, p1), (p1, p2), (p2, p0)], Better pos (k.area q e.1 e.2) k.zero →
      ∃ e' ∈ [(p0, p1), (p1, p2), (p2, p0)], Better pos (k.area p3 e'.1 e'.2) (k.area q e.1 e.2) := by
    intro q hq e he hb
    have hq : q ∈ c3 := hp3.mem_iff.2 hq
    rcases hat with ⟨-, hno⟩ | ⟨n, p, e', hn, he', heq⟩
    · exact absurd hb (hno q hq e he)
    · refine ⟨e', he', ?_⟩
      have := hall q hq e he
      rw [heq] at this hi3
      simp only [Nat.zero_add] at hi3
      rw [hn] at hi3
      cases hi3
      exact this
  cases pos with
  | true => exact Or.inl fun q hq e he hz => by simpa [Better] using key q hq e he (by simpa [Better] using hz)
  | false => exact Or.inr fun q hq e he hz => by simpa [Better] using key q hq e he (by simpa [Better] using hz)

/-- The corners of a square, one of its edges' middle and its centre. -/
def square (p : Nat) : Pt Rat := ⟨⟨0, 1, 0⟩, 1, [⟨0, 0, 0⟩, ⟨1, 0, 0⟩, ⟨2, 0, 0⟩, ⟨2, 0, 2⟩, ⟨0, 0, 2⟩, ⟨1, 0, 1⟩].getD p ⟨0, 0, 0⟩⟩
/-- The four corners are kept. -/
example : reducePoints (keysOf (-1000) square id 0) [0, 1, 2, 3, 4, 5] = some [3, 0, 2, 4] := by decide +kernel
example : (∀ p ∈ [0, 1, 2, 3, 4, 5], (keysOf (-1000) square id 0).smallest ≤ (keysOf (-1000) square id 0).dir p) ∧
    (∀ p ∈ [0, 1, 2, 3, 4, 5], ∀ q ∈ [0, 1, 2, 3, 4, 5], (keysOf (-1000) square id 0).zero ≤ (keysOf (-1000) square id 0).dist p q) := by
  decide +kernel
example : IsNeg (keysOf (-1000) square id 0).zero (keysOf (-1000) square id 0).neg :=
  ⟨fun _ _ h => neg_le_neg h, fun a => neg_neg a, neg_zero⟩

/-- Points at depth 1, and at depth 5 in the centre: the deepest point of a manifold is not kept by `reduceContactPoints` in general. -/
theorem deepest_point_dropped : ∃ pts : Nat → Pt Rat, ∃ kept, reducePoints (keysOf (-1000) pts id 0) [0, 1, 2, 3, 4, 5] = some kept ∧
    ∀ q ∈ kept, (pts q).depth < (pts 5).depth :=
  ⟨fun p => { square p with depth := if p = 5 then 5 else 1 }, [3, 0, 2, 4], by decide +kernel, by decide +kernel⟩

/-- **C71** for manifolds of at most four points: every point is kept or a point nearer than the threshold is. Missing: manifolds with more points, for which
it does not hold. -/
theorem point_kept_partial (d : Data K) (m : List Nat) (h : m.length ≤ 4) (p : Nat) (hp : p ∈ m) :
    ∃ m', reduceOne d m = some m' ∧ (p ∈ m' ∨ ∃ q ∈ m', d.near q p = true) := by
  cases m with
  | nil => simp at hp
  | cons a tl =>
    obtain ⟨t, ht, -, -, hcov, -⟩ := dedup_spec d.near (a :: tl) [] (a :: tl).length (le_refl _)
    refine ⟨t, ?_, hcov p hp⟩
    unfold reduceOne
    simp only [if_neg (not_lt.2 h)]
    simpa using ht

example : [0, 1, 2].length ≤ 4 ∧ 2 ∈ [0, 1, 2] := by decide

/-! ### C42 -/

/-- **C42.** Removing duplicates never fails; no two points kept are nearer than the threshold, each point removed is near a point kept, the points kept are
among the points of the manifold, and the first point is kept. -/
theorem duplicates_removed (near : Nat → Nat → Bool) (ps : List Nat) :
    ∃ kept, dedup near ps.length 0 ps = some kept ∧ kept.Pairwise (fun p q => near p q = false) ∧ kept.Subperm ps ∧
      (∀ q ∈ ps, q ∈ kept ∨ ∃ p ∈ kept, near p q = true) ∧ kept.head? = ps.head? := by
  simpa using dedup_spec near ps [] ps.length (le_refl _)

/-- **C42.** With distances over an ordered field. -/
theorem duplicates_removed_dist {F : Type} [Field F] [LinearOrder F] [IsStrictOrderedRing F] (big smallest thr : F) (pts : Nat → Pt F)
    (toShape1 : V3 F → V3 F) (ps : List Nat) (hnd : ps.Nodup) :
    ∃ kept, dedup (dataOf big smallest thr pts toShape1).near ps.length 0 ps = some kept ∧
      (∀ p ∈ kept, ∀ q ∈ kept, p ≠ q → thr * thr ≤ ((pts p).local1 - (pts q).local1).lengthSq) ∧ (∀ p ∈ kept, p ∈ ps) ∧
      (∀ q ∈ ps, q ∉ kept → ∃ p ∈ kept, ((pts p).local1 - (pts q).local1).lengthSq < thr * thr) := by
  have hsymm : ∀ p q : Nat, ((pts p).local1 - (pts q).local1).lengthSq = ((pts q).local1 - (pts p).local1).lengthSq := by
    intro p q; simp only [V3.lengthSq, V3.sub_x, V3.sub_y, V3.sub_z]; ring
  obtain ⟨kept, h1, h2, h3, h4, -⟩ := duplicates_removed (dataOf big smallest thr pts toShape1).near ps
  refine ⟨kept, h1, ?_, fun p hp => h3.subset hp, ?_⟩
  · intro p hp q hq hne
    have hh : kept.Pairwise fun p q => thr * thr ≤ ((pts p).local1 - (pts q).local1).lengthSq := by
      refine h2.imp ?_
      intro a b hab
      rw [hsymm]
      exact not_lt.1 (of_decide_eq_false hab)
    haveI : Std.Symm fun p q : Nat => p ≠ q → thr * thr ≤ ((pts p).local1 - (pts q).local1).lengthSq :=
      ⟨fun a b h hne' => by rw [hsymm]; exact h hne'.symm⟩
    have hh' : kept.Pairwise fun p q => p ≠ q → thr * thr ≤ ((pts p).local1 - (pts q).local1).lengthSq := by
      refine hh.imp ?_
      intro a b h _
      exact h
    exact List.Pairwise.forall_of_forall (fun a _ hne' => absurd rfl hne') hh' hp hq hne
  · intro q hq hn
    rcases h4 q hq with h | ⟨p, hp, h⟩
    · exact absurd h hn
    · exact ⟨p, hp, by rw [hsymm]; exact of_decide_eq_true h⟩

/-- Of points at 0, 1/1000, 1, 1, 2 the points at 0, 2, 1 are kept. -/
example : dedup (dataOf 1000 (-1000) (1/100) (fun p => ⟨⟨0, 1, 0⟩, 1, ⟨[0, 1/1000, 1, 1, 2].getD p 0, 0, 0⟩⟩ : Nat → Pt Rat) id).near 5 0 [0, 1, 2, 3, 4]
    = some [0, 4, 2] := by decide +kernel

/-! ### The whole reduction -/

/-- **C40, C41, C42** together: after the reduction of a pair it has at most four manifolds. They come from different manifolds of the pair; each has
between one and four points, all from its original manifold and no two nearer than the threshold. -/
theorem pair_reduced (d : Data K) (mans : List (List Nat)) (idx : List Nat) (hidx : ∀ i ∈ idx, i < mans.length) (hne : ∀ m ∈ mans, m ≠ [])
    (hz : d.zero < d.big) (hbig : ∀ m ∈ mans, ∀ p ∈ m, d.depth p < d.big) :
    ∃ out kept, reducePair d mans idx = some out ∧ kept.Subperm idx ∧ out.length = min idx.length 4 ∧
      List.Forall₂ (fun m i => m.Subperm (mans.getD i []) ∧ 0 < m.length ∧ m.length ≤ 4 ∧ m.Pairwise (fun p q => d.near p q = false)) out kept := by
  have hget : ∀ i ∈ idx, mans.getD i [] ∈ mans := by
    intro i hi
    rw [List.getD_eq_getElem _ _ (hidx i hi)]
    exact List.getElem_mem _
  obtain ⟨kept, dropped, h1, h2, h3, -⟩ := manifolds_reduced d.big d.zero d.depth (fun i => mans.getD i []) idx hz
    (fun i hi p hp => hbig _ (hget i hi) p hp)
  have hk : ∀ i ∈ kept, i ∈ idx := fun i hi => h2.mem_iff.2 (List.mem_append_right _ hi)
  have hm : ∀ m ∈ kept.map fun i => mans.getD i [], m ≠ [] := by
    intro m hm
    obtain ⟨i, hi, rfl⟩ := List.mem_map.1 hm
    exact hne _ (hget i (hk i hi))
  obtain ⟨out, ho, hf⟩ := reduceAll_spec d (kept.map fun i => mans.getD i []) hm
  refine ⟨out, kept, ?_, ?_, ?_, ?_⟩
  · unfold reducePair
    simp only [h1, ho]
  · exact (List.sublist_append_right dropped kept).subperm.trans h2.symm.subperm
  · rw [hf.length_eq, List.length_map, h3]
  · rw [List.forall₂_map_right_iff] at hf
    have hall : ∀ i ∈ kept, mans.getD i [] ≠ [] := fun i hi => hne _ (hget i (hk i hi))
    clear h1 h2 h3 hk hm ho
    induction hf with
    | nil => exact List.Forall₂.nil
    | cons h hf ih =>
      refine List.Forall₂.cons ?_ (ih fun i hi => hall i (List.mem_cons_of_mem _ hi))
      obtain ⟨m', hm', hs⟩ := reduceOne_spec d _ (hall _ List.mem_cons_self)
      rw [h] at hm'
      cases hm'
      exact hs

/-- A pair of five manifolds, one of them with the six points of the square. -/
example : reducePair (dataOf 1000 (-1000) (1/100) square id) [[0, 1, 2, 3, 4, 5], [0], [1, 1], [2, 5], [3]] [0, 1, 2, 3, 4]
    = some [[3], [0], [1], [2, 5]] := by decide +kernel
example : (∀ m ∈ [[0, 1, 2, 3, 4, 5], [0], [1, 1], [2, 5], [3]], m ≠ []) ∧
    ∀ m ∈ [[0, 1, 2, 3, 4, 5], [0], [1, 1], [2, 5], [3]], ∀ p ∈ m, (dataOf 1000 (-1000) (1/100) square id).depth p < 1000 := by
  decide +kernel

/-! ### C70 -/

/-- **C70.** The grouping of the contact points of a pair with a concave shape: at most `maxM` manifolds with at most `cap` points each, all points of a
manifold have a normal similar to the one of its first point and keep their order, no point is in two manifolds; no point is lost as long as there are fewer than
`maxM` manifolds; the first points of two manifolds are not similar unless the earlier manifold is full. -/
theorem points_grouped (sim : Nat → Nat → Bool) (cap maxM : Nat) (hcap : 0 < cap) (ps : List Nat) :
    let ms := group sim cap maxM ps
    ms.length ≤ maxM ∧
    (∀ m ∈ ms, ∃ q tl, m = q :: tl ∧ m.length ≤ cap ∧ (∀ r ∈ tl, sim q r = true) ∧ m.Sublist ps) ∧
    ms.flatten.Subperm ps ∧
    (ms.length < maxM → ms.flatten.Perm ps) ∧
    ms.Pairwise (fun m m' => m.length = cap ∨ ∀ q q', m.head? = some q → m'.head? = some q' → sim q q' = false) := by
  have h : Grouped sim cap maxM ps (group sim cap maxM ps) := by
    induction ps using List.reverseRecOn with
    | nil => exact ⟨by simp [group], by simp [group], by simp [group], by simp [group], by simp [group]⟩
    | append_singleton ps p ih =>
      have := addPoint_grouped hcap p ih
      rwa [show addPoint sim cap maxM (group sim cap maxM ps) p = group sim cap maxM (ps ++ [p]) by simp [group]] at this
  exact ⟨h.count, h.manifold, h.once, h.all, h.apart⟩

/-- Points with normals alternating between two directions. -/
example : group (fun p q => p % 2 == q % 2) 255 64 [0, 1, 2, 3, 4] = [[0, 2, 4], [1, 3]] := by decide +kernel

/-- With 65 normals that are pairwise not similar the 65th contact point is in no manifold, however deep it is. -/
theorem point_lost : ∃ p ∈ List.range 65, p ∉ (group (fun p q => p == q) 255 64 (List.range 65)).flatten := ⟨64, by decide +kernel, by decide +kernel⟩

end ContactProps
end RP3D
