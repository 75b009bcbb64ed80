import Verif.Props.Segments

/-!
C46, C47: clipping of polygons and segments (exact arithmetic; `eps` is the threshold of `computePlaneSegmentIntersection`).
-/

namespace RP3D
namespace GeomProps
open Geom

variable {K : Type} [Field K] [LinearOrder K] [IsStrictOrderedRing K]

/-! ### Specification -/

/-- The signed distance (times the length of the normal) to the plane through `p` with normal `n`. -/
def side (p n x : V3 K) : K := (x.x - p.x) * n.x + (x.y - p.y) * n.y + (x.z - p.z) * n.z

/-- In front of the plane, or on it. -/
def Front (p n x : V3 K) : Prop := 0 ≤ side p n x

/-- Two consecutive vertices of a polygon. -/
def IsEdge (poly : List (V3 K)) (s e : V3 K) : Prop :=
  (∃ l r, poly = l ++ s :: e :: r) ∨ (poly.getLast? = some s ∧ poly.head? = some e)

/-! ### Lemmas -/

theorem side_eq (p n x : V3 K) : (x - p).dot n = side p n x := by simp only [V3.dot, side, V3.sub_x, V3.sub_y, V3.sub_z]

theorem side_at (p n a b : V3 K) (t : K) : side p n (at' a b t) = side p n a + t * (side p n b - side p n a) := by
  simp only [side, at']; ring

theorem at_at (a b : V3 K) (s t u : K) : at' (at' a b s) (at' a b t) u = at' a b (s + u * (t - s)) := by
  ext <;> simp only [at'] <;> ring

theorem onSeg_left (a b : V3 K) : OnSeg a b a := ⟨0, le_refl _, zero_le_one, by ext <;> simp [at']⟩
theorem onSeg_right (a b : V3 K) : OnSeg a b b := ⟨1, zero_le_one, le_refl _, by ext <;> simp [at']⟩

theorem onSeg_sub (a b : V3 K) {s u t : K} (h1 : s ≤ u) (h2 : u ≤ t) : OnSeg (at' a b s) (at' a b t) (at' a b u) := by
  rcases lt_or_eq_of_le (le_trans h1 h2) with h | h
  · have hp : 0 < t - s := by linarith
    refine ⟨(u - s) / (t - s), div_nonneg (by linarith) (le_of_lt hp), by rw [div_le_one hp]; linarith, ?_⟩
    rw [at_at, div_mul_cancel₀ _ (ne_of_gt hp)]
    congr 1
    ring
  · have : u = s := le_antisymm (by linarith) h1
    rw [this]
    exact onSeg_left _ _

theorem at_one (a b : V3 K) : at' a b 1 = b := by ext <;> simp [at']
theorem at_zero (a b : V3 K) : at' a b 0 = a := by ext <;> simp [at']

/-- A crossing from behind to the front. -/
theorem cross_in (eps : K) (p n s e : V3 K) (hs : side p n s < 0) (he : 0 ≤ side p n e) :
    (side p n e - side p n s > eps ∧ ∃ t, planeSegment eps s e (n.dot p) n = t ∧ 0 ≤ t ∧ t ≤ 1 ∧ side p n (at' s e t) = 0) ∨
    (side p n e - side p n s ≤ eps ∧ planeSegment eps s e (n.dot p) n = -1) := by
  have hd : n.dot (e - s) = side p n e - side p n s := by simp only [V3.dot, side, V3.sub_x, V3.sub_y, V3.sub_z]; ring
  have hnum : n.dot p - n.dot s = -side p n s := by simp only [V3.dot, side]; ring
  have hpos : 0 < side p n e - side p n s := by linarith
  unfold planeSegment
  dsimp only
  rw [hd, hnum, abs_of_pos hpos]
  by_cases h : side p n e - side p n s > eps
  · refine Or.inl ⟨h, _, if_pos h, div_nonneg (by linarith) (le_of_lt hpos), by rw [div_le_one hpos]; linarith, ?_⟩
    rw [side_at, div_mul_cancel₀ _ (ne_of_gt hpos)]
    ring
  · exact Or.inr ⟨not_lt.1 h, if_neg h⟩

/-- A crossing from the front to behind. -/
theorem cross_out (eps : K) (p n s e : V3 K) (hs : 0 ≤ side p n s) (he : side p n e < 0) :
    (side p n s - side p n e > eps ∧ ∃ t, planeSegment eps s e (-n.dot p) (-n) = t ∧ 0 ≤ t ∧ t ≤ 1 ∧ side p n (at' s e t) = 0) ∨
    (side p n s - side p n e ≤ eps ∧ planeSegment eps s e (-n.dot p) (-n) = -1) := by
  have hd : (-n).dot (e - s) = side p n s - side p n e := by
    simp only [V3.dot, side, V3.sub_x, V3.sub_y, V3.sub_z, V3.neg_x, V3.neg_y, V3.neg_z]; ring
  have hnum : -n.dot p - (-n).dot s = side p n s := by simp only [V3.dot, side, V3.neg_x, V3.neg_y, V3.neg_z]; ring
  have hpos : 0 < side p n s - side p n e := by linarith
  unfold planeSegment
  dsimp only
  rw [hd, hnum, abs_of_pos hpos]
  by_cases h : side p n s - side p n e > eps
  · refine Or.inl ⟨h, _, if_pos h, div_nonneg hs (le_of_lt hpos), by rw [div_le_one hpos]; linarith, ?_⟩
    rw [side_at]
    have : side p n s / (side p n s - side p n e) * (side p n e - side p n s) = -side p n s := by field_simp; ring
    rw [this]
    ring
  · exact Or.inr ⟨not_lt.1 h, if_neg h⟩

theorem neg_one_bad : ¬ ((-1 : K) ≥ 0 ∧ (-1 : K) ≤ 1) := by
  rintro ⟨h, -⟩
  linarith

/-- The four cases of one edge. -/
theorem clipEdge_cases (eps : K) (p n s e : V3 K) :
    (0 ≤ side p n s ∧ 0 ≤ side p n e ∧ clipEdge eps p n s e = [e]) ∨
    (side p n s < 0 ∧ side p n e < 0 ∧ clipEdge eps p n s e = []) ∨
    (side p n s < 0 ∧ 0 ≤ side p n e ∧ ((∃ t, 0 ≤ t ∧ t ≤ 1 ∧ side p n (at' s e t) = 0 ∧ clipEdge eps p n s e = [at' s e t, e]) ∨
      (side p n e ≤ eps ∧ clipEdge eps p n s e = [e, e]))) ∨
    (0 ≤ side p n s ∧ side p n e < 0 ∧ ((∃ t, 0 ≤ t ∧ t ≤ 1 ∧ side p n (at' s e t) = 0 ∧ clipEdge eps p n s e = [at' s e t]) ∨
      (side p n s ≤ eps ∧ clipEdge eps p n s e = [s]))) := by
  unfold clipEdge
  dsimp only
  simp only [side_eq, at'_eq]
  by_cases he : side p n e ≥ 0
  · rw [if_pos he]
    by_cases hs : side p n s < 0
    · refine Or.inr (Or.inr (Or.inl ⟨hs, he, ?_⟩))
      rw [if_pos hs]
      rcases cross_in eps p n s e hs he with ⟨-, t, ht, h0, h1, hz⟩ | ⟨hle, ht⟩
      · rw [ht, if_pos ⟨h0, h1⟩]
        exact Or.inl ⟨t, h0, h1, hz, rfl⟩
      · rw [ht, if_neg neg_one_bad]
        exact Or.inr ⟨by linarith, rfl⟩
    · rw [if_neg hs]
      exact Or.inl ⟨not_lt.1 hs, he, rfl⟩
  · rw [if_neg he]
    by_cases hs : side p n s ≥ 0
    · refine Or.inr (Or.inr (Or.inr ⟨hs, not_le.1 he, ?_⟩))
      rw [if_pos hs]
      rcases cross_out eps p n s e hs (not_le.1 he) with ⟨-, t, ht, h0, h1, hz⟩ | ⟨hle, ht⟩
      · rw [ht, if_pos ⟨h0, h1⟩]
        exact Or.inl ⟨t, h0, h1, hz, rfl⟩
      · rw [ht, if_neg neg_one_bad]
        exact Or.inr ⟨by linarith [not_le.1 he], rfl⟩
    · rw [if_neg hs]
      exact Or.inr (Or.inl ⟨not_le.1 hs, not_le.1 he, rfl⟩)

/-- The edges in the order of the loop. -/
def edges : V3 K → List (V3 K) → List (V3 K × V3 K)
  | _, [] => []
  | s, e :: vs => (s, e) :: edges e vs

theorem clipPolygonLoop_mem (eps : K) (p n : V3 K) (s : V3 K) (vs : List (V3 K)) (x : V3 K) :
    x ∈ clipPolygonLoop eps p n s vs ↔ ∃ se ∈ edges s vs, x ∈ clipEdge eps p n se.1 se.2 := by
  induction vs generalizing s with
  | nil => simp [clipPolygonLoop, edges]
  | cons e vs ih => simp [clipPolygonLoop, edges, ih]

theorem edges_spec (s : V3 K) (vs : List (V3 K)) (se : V3 K × V3 K) (h : se ∈ edges s vs) :
    (se.1 = s ∧ vs.head? = some se.2) ∨ ∃ l r, vs = l ++ se.1 :: se.2 :: r := by
  induction vs generalizing s with
  | nil => simp [edges] at h
  | cons e vs ih =>
    rcases List.mem_cons.1 h with rfl | h
    · exact Or.inl ⟨rfl, rfl⟩
    · rcases ih e h with ⟨h1, h2⟩ | ⟨l, r, rfl⟩
      · cases vs with
        | nil => simp at h2
        | cons v vs =>
          simp only [List.head?_cons, Option.some.injEq] at h2
          exact Or.inr ⟨[], vs, by rw [h1, h2]; rfl⟩
      · exact Or.inr ⟨e :: l, r, rfl⟩

theorem edges_of (s : V3 K) (vs : List (V3 K)) (a b : V3 K) (h : (a = s ∧ vs.head? = some b) ∨ ∃ l r, vs = l ++ a :: b :: r) :
    (a, b) ∈ edges s vs := by
  induction vs generalizing s with
  | nil =>
    rcases h with ⟨-, h⟩ | ⟨l, r, h⟩
    · simp at h
    · simp at h
  | cons e vs ih =>
    unfold edges
    rcases h with ⟨rfl, h⟩ | ⟨l, r, h⟩
    · simp only [List.head?_cons, Option.some.injEq] at h
      rw [h]
      exact List.mem_cons_self
    · refine List.mem_cons_of_mem _ (ih e ?_)
      cases l with
      | nil =>
        simp only [List.nil_append, List.cons.injEq] at h
        exact Or.inl ⟨h.1.symm, by rw [h.2]; rfl⟩
      | cons c l =>
        simp only [List.cons_append, List.cons.injEq] at h
        exact Or.inr ⟨l, r, h.2⟩

/-- Every vertex ends an edge. -/
theorem edges_end (s : V3 K) (vs : List (V3 K)) (v : V3 K) (h : v ∈ vs) : ∃ a, (a, v) ∈ edges s vs := by
  induction vs generalizing s with
  | nil => simp at h
  | cons e vs ih =>
    rcases List.mem_cons.1 h with rfl | h
    · exact ⟨s, List.mem_cons_self⟩
    · obtain ⟨a, ha⟩ := ih e h
      exact ⟨a, List.mem_cons_of_mem _ ha⟩

/-! ### C46 -/

/-- **C46.** Every vertex of the clipped polygon is in front of the plane and on an edge of the polygon. -/
theorem polygon_clipped (eps : K) (poly : List (V3 K)) (p n : V3 K) (hne : poly ≠ []) :
    ∃ out, clipPolygon eps poly p n = some out ∧ ∀ x ∈ out, Front p n x ∧ ∃ s e, IsEdge poly s e ∧ OnSeg s e x := by
  unfold clipPolygon
  cases hl : poly.getLast? with
  | none => exact absurd (List.getLast?_eq_none_iff.1 hl) hne
  | some last =>
    refine ⟨_, rfl, ?_⟩
    intro x hx
    obtain ⟨⟨s, e⟩, hse, hx⟩ := (clipPolygonLoop_mem _ _ _ _ _ _).1 hx
    have hedge : IsEdge poly s e := by
      rcases edges_spec _ _ _ hse with ⟨h1, h2⟩ | h
      · exact Or.inr ⟨by rw [hl]; simp only at h1; rw [h1], h2⟩
      · exact Or.inl h
    simp only at hx
    rcases clipEdge_cases eps p n s e with ⟨h1, h2, h⟩ | ⟨h1, h2, h⟩ | ⟨h1, h2, ⟨t, h0, h1', hz, h⟩ | ⟨-, h⟩⟩ | ⟨h1, h2, ⟨t, h0, h1', hz, h⟩ | ⟨-, h⟩⟩
    · rw [h, List.mem_singleton] at hx
      subst hx
      exact ⟨h2, s, x, hedge, onSeg_right _ _⟩
    · rw [h] at hx; simp at hx
    · rw [h] at hx
      rcases List.mem_cons.1 hx with rfl | hx
      · exact ⟨le_of_eq hz.symm, s, e, hedge, t, h0, h1', rfl⟩
      · rw [List.mem_singleton] at hx
        subst hx
        exact ⟨h2, s, x, hedge, onSeg_right _ _⟩
    · rw [h] at hx
      have : x = e := by simpa using hx
      subst this
      exact ⟨h2, s, x, hedge, onSeg_right _ _⟩
    · rw [h, List.mem_singleton] at hx
      subst hx
      exact ⟨le_of_eq hz.symm, s, e, hedge, t, h0, h1', rfl⟩
    · rw [h, List.mem_singleton] at hx
      subst hx
      exact ⟨h1, x, e, hedge, onSeg_left _ _⟩

theorem clip_keeps (eps : K) (p n s : V3 K) (vs : List (V3 K)) (v : V3 K) (hv : v ∈ vs) (hf : Front p n v) :
    v ∈ clipPolygonLoop eps p n s vs := by
  obtain ⟨a, ha⟩ := edges_end s vs v hv
  refine (clipPolygonLoop_mem _ _ _ _ _ _).2 ⟨_, ha, ?_⟩
  have hf' : 0 ≤ side p n v := hf
  rcases clipEdge_cases eps p n a v with ⟨h1, h2, h⟩ | ⟨h1, h2, h⟩ | ⟨h1, h2, ⟨t, h0, h1', hz, h⟩ | ⟨-, h⟩⟩ | ⟨h1, h2, -⟩
  · rw [h]; simp
  · exact absurd h2 (not_lt.2 hf')
  · rw [h]; simp
  · rw [h]; simp
  · exact absurd h2 (not_lt.2 hf')

/-- **C46.** Nothing in front of the plane is lost: all vertices in front are kept, and every point of an edge that is in front lies between two vertices of the
result, unless it is within the threshold of the plane. -/
theorem polygon_front_kept (eps : K) (poly : List (V3 K)) (p n : V3 K) (hne : poly ≠ []) :
    ∃ out, clipPolygon eps poly p n = some out ∧ (∀ v ∈ poly, Front p n v → v ∈ out) ∧
      ∀ s e x, IsEdge poly s e → OnSeg s e x → Front p n x → (∃ a ∈ out, ∃ b ∈ out, OnSeg a b x) ∨ side p n x ≤ eps := by
  unfold clipPolygon
  cases hl : poly.getLast? with
  | none => exact absurd (List.getLast?_eq_none_iff.1 hl) hne
  | some last =>
    have hkeep : ∀ v ∈ poly, Front p n v → v ∈ clipPolygonLoop eps p n last poly := fun v hv hf => clip_keeps eps p n last poly v hv hf
    refine ⟨_, rfl, hkeep, ?_⟩
    rintro s e x hedge ⟨u, hu0, hu1, rfl⟩ hfx
    have hfx : 0 ≤ side p n (at' s e u) := hfx
    have hmem : (s, e) ∈ edges last poly := by
      refine edges_of _ _ _ _ ?_
      rcases hedge with h | ⟨h1, h2⟩
      · exact Or.inr h
      · rw [hl] at h1
        exact Or.inl ⟨(Option.some.inj h1).symm, h2⟩
    have hsm : s ∈ poly := by
      rcases hedge with ⟨l, r, rfl⟩ | ⟨h1, -⟩
      · simp
      · exact List.mem_of_getLast? h1
    have hem : e ∈ poly := by
      rcases hedge with ⟨l, r, rfl⟩ | ⟨-, h2⟩
      · simp
      · exact List.mem_of_mem_head? h2
    have hin : ∀ y ∈ clipEdge eps p n s e, y ∈ clipPolygonLoop eps p n last poly := fun y hy => (clipPolygonLoop_mem _ _ _ _ _ _).2 ⟨_, hmem, hy⟩
    have hsx := side_at p n s e u
    rcases clipEdge_cases eps p n s e with ⟨h1, h2, h⟩ | ⟨h1, h2, h⟩ | ⟨h1, h2, ⟨t, h0, h1', hz, h⟩ | ⟨hle, h⟩⟩ | ⟨h1, h2, ⟨t, h0, h1', hz, h⟩ | ⟨hle, h⟩⟩
    · exact Or.inl ⟨s, hkeep s hsm h1, e, hkeep e hem h2, u, hu0, hu1, rfl⟩
    · exfalso
      have : side p n (at' s e u) = (1 - u) * side p n s + u * side p n e := by rw [hsx]; ring
      rcases lt_or_eq_of_le hu1 with hlt | heq
      · have h3 : (1 - u) * side p n s < 0 := mul_neg_of_pos_of_neg (by linarith) h1
        have h4 : u * side p n e ≤ 0 := mul_nonpos_of_nonneg_of_nonpos hu0 (le_of_lt h2)
        linarith
      · subst heq
        linarith
    · refine Or.inl ⟨at' s e t, hin _ (by rw [h]; simp), e, hkeep e hem h2, ?_⟩
      have hst := side_at p n s e t
      have hd : 0 < side p n e - side p n s := by linarith
      have hle : t ≤ u := by
        have : t * (side p n e - side p n s) ≤ u * (side p n e - side p n s) := by linarith
        exact le_of_mul_le_mul_right this hd
      have := onSeg_sub s e hle hu1
      rwa [at_one] at this
    · refine Or.inr ?_
      rw [hsx]
      have : u * (side p n e - side p n s) ≤ 1 * (side p n e - side p n s) := mul_le_mul_of_nonneg_right hu1 (by linarith)
      linarith
    · refine Or.inl ⟨s, hkeep s hsm h1, at' s e t, hin _ (by rw [h]; simp), ?_⟩
      have hst := side_at p n s e t
      have hd : 0 < side p n s - side p n e := by linarith
      have hle : u ≤ t := by
        have : u * (side p n s - side p n e) ≤ t * (side p n s - side p n e) := by linarith
        exact le_of_mul_le_mul_right this hd
      have := onSeg_sub s e hu0 hle
      rwa [at_zero] at this
    · refine Or.inr ?_
      rw [hsx]
      have : u * (side p n s - side p n e) ≥ 0 := mul_nonneg hu0 (by linarith)
      linarith

/-- **C46.** A polygon in front of the plane is not changed; nothing is left of a polygon behind it. -/
theorem polygon_all_front (eps : K) (poly : List (V3 K)) (p n : V3 K) (hne : poly ≠ []) :
    ((∀ v ∈ poly, Front p n v) → clipPolygon eps poly p n = some poly) ∧
    ((∀ v ∈ poly, ¬ Front p n v) → clipPolygon eps poly p n = some []) := by
  unfold clipPolygon
  cases hl : poly.getLast? with
  | none => exact absurd (List.getLast?_eq_none_iff.1 hl) hne
  | some last =>
    simp only [Option.some.injEq]
    constructor
    · intro h
      have key : ∀ (s : V3 K) (vs : List (V3 K)), Front p n s → (∀ v ∈ vs, Front p n v) → clipPolygonLoop eps p n s vs = vs := by
        intro s vs
        induction vs generalizing s with
        | nil => intros; rfl
        | cons e vs ih =>
          intro hs hv
          have hs : 0 ≤ side p n s := hs
          have he : 0 ≤ side p n e := hv e List.mem_cons_self
          unfold clipPolygonLoop
          rw [ih e (hv e List.mem_cons_self) fun v hv' => hv v (List.mem_cons_of_mem _ hv')]
          rcases clipEdge_cases eps p n s e with ⟨-, -, h⟩ | ⟨h1, -⟩ | ⟨h1, -⟩ | ⟨-, h1, -⟩
          · rw [h]; rfl
          · exact absurd h1 (not_lt.2 hs)
          · exact absurd h1 (not_lt.2 hs)
          · exact absurd h1 (not_lt.2 he)
      exact key last poly (h last (List.mem_of_getLast? hl)) h
    · intro h
      have key : ∀ (s : V3 K) (vs : List (V3 K)), ¬ Front p n s → (∀ v ∈ vs, ¬ Front p n v) → clipPolygonLoop eps p n s vs = [] := by
        intro s vs
        induction vs generalizing s with
        | nil => intros; rfl
        | cons e vs ih =>
          intro hs hv
          have hs : side p n s < 0 := not_le.1 hs
          have he : side p n e < 0 := not_le.1 (hv e List.mem_cons_self)
          unfold clipPolygonLoop
          rw [ih e (hv e List.mem_cons_self) fun v hv' => hv v (List.mem_cons_of_mem _ hv')]
          rcases clipEdge_cases eps p n s e with ⟨h1, -⟩ | ⟨-, -, h⟩ | ⟨-, h1, -⟩ | ⟨h1, -⟩
          · exact absurd hs (not_lt.2 h1)
          · rw [h]; rfl
          · exact absurd he (not_lt.2 h1)
          · exact absurd hs (not_lt.2 h1)
      exact key last poly (h last (List.mem_of_getLast? hl)) h

/-- A square clipped through the middle. -/
example : clipPolygon (1/10000 : Rat) [⟨0, 0, 0⟩, ⟨2, 0, 0⟩, ⟨2, 2, 0⟩, ⟨0, 2, 0⟩] ⟨1, 0, 0⟩ ⟨1, 0, 0⟩ =
    some [⟨1, 0, 0⟩, ⟨2, 0, 0⟩, ⟨2, 2, 0⟩, ⟨1, 2, 0⟩] := by decide +kernel

/-! ### C47 -/

/-- One plane keeps points of the segment that are in front of the plane. -/
theorem clipSegmentPlane_spec (eps : K) (v1 v2 p n : V3 K) :
    ∀ x ∈ clipSegmentPlane eps v1 v2 p n, OnSeg v1 v2 x ∧ Front p n x := by
  unfold clipSegmentPlane
  dsimp only
  simp only [side_eq, at'_eq]
  by_cases he : side p n v2 ≥ 0
  · rw [if_pos he]
    by_cases hs : side p n v1 < 0
    · rw [if_pos hs]
      rcases cross_in eps p n v1 v2 hs he with ⟨-, t, ht, h0, h1, hz⟩ | ⟨hle, ht⟩
      · rw [ht, if_pos ⟨h0, h1⟩]
        intro x hx
        rcases List.mem_cons.1 hx with rfl | hx
        · exact ⟨⟨t, h0, h1, rfl⟩, le_of_eq hz.symm⟩
        · rw [List.mem_singleton.1 hx]
          exact ⟨onSeg_right _ _, he⟩
      · rw [ht, if_neg neg_one_bad]
        intro x hx
        have : x = v2 := by simpa using hx
        rw [this]
        exact ⟨onSeg_right _ _, he⟩
    · rw [if_neg hs]
      intro x hx
      rcases List.mem_cons.1 hx with rfl | hx
      · exact ⟨onSeg_left _ _, not_lt.1 hs⟩
      · rw [List.mem_singleton.1 hx]
        exact ⟨onSeg_right _ _, he⟩
  · rw [if_neg he]
    by_cases hs : side p n v1 ≥ 0
    · rw [if_pos hs]
      rcases cross_out eps p n v1 v2 hs (not_le.1 he) with ⟨-, t, ht, h0, h1, hz⟩ | ⟨hle, ht⟩
      · rw [ht, if_pos ⟨h0, h1⟩]
        intro x hx
        rcases List.mem_cons.1 hx with rfl | hx
        · exact ⟨onSeg_left _ _, hs⟩
        · rw [List.mem_singleton.1 hx]
          exact ⟨⟨t, h0, h1, rfl⟩, le_of_eq hz.symm⟩
      · rw [ht, if_neg neg_one_bad]
        intro x hx
        rw [List.mem_singleton.1 hx]
        exact ⟨onSeg_left _ _, hs⟩
    · rw [if_neg hs]
      intro x hx
      simp at hx

theorem onSeg_onSeg {a b x y z : V3 K} (hx : OnSeg a b x) (hy : OnSeg a b y) (hz : OnSeg x y z) : OnSeg a b z := by
  obtain ⟨s, hs0, hs1, rfl⟩ := hx
  obtain ⟨t, ht0, ht1, rfl⟩ := hy
  obtain ⟨u, hu0, hu1, rfl⟩ := hz
  refine ⟨s + u * (t - s), ?_, ?_, at_at _ _ _ _ _⟩
  · nlinarith
  · nlinarith

theorem front_onSeg {p n x y z : V3 K} (hx : Front p n x) (hy : Front p n y) (hz : OnSeg x y z) : Front p n z := by
  obtain ⟨u, hu0, hu1, rfl⟩ := hz
  unfold Front at *
  rw [side_at]
  nlinarith

theorem clipLoop_spec (eps : K) (a b : V3 K) (front : V3 K → Prop) (hf : ∀ x y z, front x → front y → OnSeg x y z → front z) (planes : List (V3 K × V3 K)) :
    ∀ input out, (∀ x ∈ input, OnSeg a b x ∧ front x) → clipSegmentLoop eps input planes = some out →
      ∀ x ∈ out, OnSeg a b x ∧ front x ∧ ∀ pl ∈ planes, Front pl.1 pl.2 x := by
  induction planes generalizing front with
  | nil =>
    intro input out hin h x hx
    simp only [clipSegmentLoop, Option.some.injEq] at h
    subst h
    exact ⟨(hin x hx).1, (hin x hx).2, by simp⟩
  | cons pl planes ih =>
    intro input out hin h x hx
    obtain ⟨p, n⟩ := pl
    match input, h with
    | [], h =>
      simp only [clipSegmentLoop, Option.some.injEq] at h
      subst h
      simp at hx
    | v1 :: v2 :: rest, h =>
      have h1 := hin v1 (by simp)
      have h2 := hin v2 (by simp)
      have hstep : ∀ y ∈ clipSegmentPlane eps v1 v2 p n, OnSeg a b y ∧ (front y ∧ Front p n y) := by
        intro y hy
        obtain ⟨hy1, hy2⟩ := clipSegmentPlane_spec eps v1 v2 p n y hy
        exact ⟨onSeg_onSeg h1.1 h2.1 hy1, hf _ _ _ h1.2 h2.2 hy1, hy2⟩
      obtain ⟨r1, ⟨r2, r3⟩, r4⟩ := ih (fun y => front y ∧ Front p n y)
        (fun x y z hx hy hz => ⟨hf x y z hx.1 hy.1 hz, front_onSeg hx.2 hy.2 hz⟩) _ out hstep h x hx
      refine ⟨r1, r2, ?_⟩
      intro pl hpl
      rcases List.mem_cons.1 hpl with rfl | hpl
      · exact r3
      · exact r4 pl hpl

/-- **C47.** Whatever is left of a segment lies on the segment and in front of all planes. -/
theorem segment_clipped (eps : K) (a b : V3 K) (planes : List (V3 K × V3 K)) (out : List (V3 K)) (h : clipSegment eps a b planes = some out) :
    ∀ x ∈ out, OnSeg a b x ∧ ∀ pl ∈ planes, Front pl.1 pl.2 x := by
  cases planes with
  | nil =>
    simp only [clipSegment, Option.some.injEq] at h
    subst h
    simp
  | cons pl planes =>
    intro x hx
    have := clipLoop_spec eps a b (fun _ => True) (fun _ _ _ _ _ _ => trivial) (pl :: planes) [a, b] out
      (by
        intro y hy
        rcases List.mem_cons.1 hy with rfl | hy
        · exact ⟨onSeg_left _ _, trivial⟩
        · rw [List.mem_singleton.1 hy]; exact ⟨onSeg_right _ _, trivial⟩) h x hx
    exact ⟨this.1, this.2.2⟩

example : clipSegment (1/10000 : Rat) ⟨0, 0, 0⟩ ⟨4, 0, 0⟩ [(⟨1, 0, 0⟩, ⟨1, 0, 0⟩), (⟨3, 0, 0⟩, ⟨-1, 0, 0⟩)] = some [⟨1, 0, 0⟩, ⟨3, 0, 0⟩] := by decide +kernel

/-- The code violates **C47**: a segment that crosses a plane from its front to its back, but nearly parallel to it, is clipped to one point. -/
theorem segment_clipped_to_point : ∃ (a b : V3 Rat) (planes : List (V3 Rat × V3 Rat)) (x : V3 Rat), clipSegment (1/10000) a b planes = some [x] :=
  ⟨⟨0, 0, 0⟩, ⟨1, -1/20000, 0⟩, [(⟨0, 0, 0⟩, ⟨0, 1, 0⟩)], ⟨0, 0, 0⟩, by decide +kernel⟩

/-- And the next plane reads the missing second vertex. -/
theorem segment_clip_undefined : ∃ (a b : V3 Rat) (planes : List (V3 Rat × V3 Rat)), clipSegment (1/10000) a b planes = none :=
  ⟨⟨0, 0, 0⟩, ⟨1, -1/20000, 0⟩, [(⟨0, 0, 0⟩, ⟨0, 1, 0⟩), (⟨0, 0, 0⟩, ⟨1, 0, 0⟩)], by decide +kernel⟩

/-- Clipping without planes loses the segment. -/
theorem segment_clip_no_planes (eps : K) (a b : V3 K) : clipSegment eps a b [] = some [] := rfl

/-- One plane keeps the part of the segment between two points in front that are not nearly parallel to the plane. -/
theorem clipSegmentPlane_keeps (eps : K) (a b p n : V3 K) {t1 t2 x y : K} (h1 : t1 ≤ x) (hxy : x ≤ y) (h2 : y ≤ t2)
    (hx : Front p n (at' a b x)) (hy : Front p n (at' a b y))
    (hsteep : side p n b - side p n a = 0 ∨ eps < |side p n (at' a b y) - side p n (at' a b x)|) :
    ∃ t1' t2', clipSegmentPlane eps (at' a b t1) (at' a b t2) p n = [at' a b t1', at' a b t2'] ∧ t1 ≤ t1' ∧ t1' ≤ x ∧ y ≤ t2' ∧ t2' ≤ t2 := by
  have hx : 0 ≤ side p n (at' a b x) := hx
  have hy : 0 ≤ side p n (at' a b y) := hy
  have e1 := side_at p n a b t1
  have e2 := side_at p n a b t2
  have ex := side_at p n a b x
  have ey := side_at p n a b y
  generalize hm : side p n b - side p n a = m at *
  generalize side p n a = c at *
  unfold clipSegmentPlane
  dsimp only
  simp only [side_eq, at'_eq]
  have hroot : ∀ t, side p n (at' (at' a b t1) (at' a b t2) t) = 0 → c + (t1 + t * (t2 - t1)) * m = 0 := by
    intro t ht
    rw [side_at, e1, e2] at ht
    linear_combination ht
  by_cases he : side p n (at' a b t2) ≥ 0
  · rw [if_pos he]
    by_cases hs : side p n (at' a b t1) < 0
    · rw [if_pos hs]
      have hlt : t1 < t2 := by
        rcases lt_or_eq_of_le (le_trans h1 (le_trans hxy h2)) with h | h
        · exact h
        · rw [h] at hs; exact absurd hs (not_lt.2 he)
      have hm0 : 0 < m := by
        by_contra hcon
        have : (t2 - t1) * m ≤ 0 := mul_nonpos_of_nonneg_of_nonpos (by linarith) (not_lt.1 hcon)
        linarith
      have hst : eps < (y - x) * m := by
        rcases hsteep with h | h
        · exact absurd h (ne_of_gt hm0)
        · rw [ex, ey, show c + y * m - (c + x * m) = (y - x) * m by ring, abs_of_nonneg (mul_nonneg (by linarith) (le_of_lt hm0))] at h
          exact h
      have hbig : (y - x) * m ≤ (t2 - t1) * m := mul_le_mul_of_nonneg_right (by linarith) (le_of_lt hm0)
      rcases cross_in eps p n _ _ hs he with ⟨-, t, ht, h0, h1', hz⟩ | ⟨hle, ht⟩
      · rw [ht, if_pos ⟨h0, h1'⟩, at_at]
        refine ⟨_, t2, rfl, ?_, ?_, h2, le_refl _⟩
        · nlinarith
        · have hr := hroot t hz
          have : (t1 + t * (t2 - t1)) * m ≤ x * m := by linarith
          exact le_of_mul_le_mul_right this hm0
      · exfalso
        rw [e1, e2] at hle
        linarith
    · rw [if_neg hs]
      exact ⟨t1, t2, rfl, le_refl _, h1, h2, le_refl _⟩
  · rw [if_neg he]
    have he := not_le.1 he
    have hlt : y < t2 := by
      rcases lt_or_eq_of_le h2 with h | h
      · exact h
      · rw [← h] at he; exact absurd he (not_lt.2 hy)
    have hm0 : m < 0 := by
      by_contra hcon
      have : 0 ≤ (t2 - y) * m := mul_nonneg (by linarith) (not_lt.1 hcon)
      linarith
    have hs : side p n (at' a b t1) ≥ 0 := by
      rw [e1]
      have : 0 ≤ (t1 - x) * m := mul_nonneg_of_nonpos_of_nonpos (by linarith) (le_of_lt hm0)
      linarith
    rw [if_pos hs]
    have hst : eps < (x - y) * m := by
      rcases hsteep with h | h
      · exact absurd h (ne_of_lt hm0)
      · rw [ex, ey, show c + y * m - (c + x * m) = (y - x) * m by ring, abs_of_nonpos (mul_nonpos_of_nonneg_of_nonpos (by linarith) (le_of_lt hm0))] at h
        linarith
    have hbig : (x - y) * m ≤ (t1 - t2) * m := mul_le_mul_of_nonpos_right (by linarith) (le_of_lt hm0)
    rcases cross_out eps p n _ _ hs he with ⟨-, t, ht, h0, h1', hz⟩ | ⟨hle, ht⟩
    · rw [ht, if_pos ⟨h0, h1'⟩, at_at]
      refine ⟨t1, _, rfl, le_refl _, h1, ?_, ?_⟩
      · have hr := hroot t hz
        have : (t1 + t * (t2 - t1)) * m ≤ y * m := by linarith
        by_contra hc
        have := mul_pos_of_neg_of_neg (show t1 + t * (t2 - t1) - y < 0 by linarith [not_le.1 hc]) hm0
        linarith
      · nlinarith
    · exfalso
      rw [e1, e2] at hle
      linarith

theorem clipLoop_keeps (eps : K) (a b : V3 K) (x y : K) (hxy : x ≤ y) (planes : List (V3 K × V3 K))
    (hx : ∀ pl ∈ planes, Front pl.1 pl.2 (at' a b x)) (hy : ∀ pl ∈ planes, Front pl.1 pl.2 (at' a b y))
    (hsteep : ∀ pl ∈ planes, side pl.1 pl.2 b - side pl.1 pl.2 a = 0 ∨ eps < |side pl.1 pl.2 (at' a b y) - side pl.1 pl.2 (at' a b x)|) :
    ∀ t1 t2, t1 ≤ x → y ≤ t2 → ∃ t1' t2', clipSegmentLoop eps [at' a b t1, at' a b t2] planes = some [at' a b t1', at' a b t2'] ∧ t1' ≤ x ∧ y ≤ t2' := by
  induction planes with
  | nil => exact fun t1 t2 h1 h2 => ⟨t1, t2, rfl, h1, h2⟩
  | cons pl planes ih =>
    intro t1 t2 h1 h2
    obtain ⟨p, n⟩ := pl
    obtain ⟨t1', t2', h, -, h3, h4, -⟩ := clipSegmentPlane_keeps eps a b p n h1 hxy h2 (hx (p, n) List.mem_cons_self) (hy (p, n) List.mem_cons_self)
      (hsteep (p, n) List.mem_cons_self)
    obtain ⟨u1, u2, hu, h5, h6⟩ := ih (fun pl hpl => hx pl (List.mem_cons_of_mem _ hpl)) (fun pl hpl => hy pl (List.mem_cons_of_mem _ hpl))
      (fun pl hpl => hsteep pl (List.mem_cons_of_mem _ hpl)) t1' t2' h3 h4
    refine ⟨u1, u2, ?_, h5, h6⟩
    unfold clipSegmentLoop
    rw [h, hu]

/-- **C47** for segments with a part, from `x` to `y`, in front of all planes that is not nearly parallel to any plane the segment crosses: the result is a segment that
contains this part. Missing: segments without such a part, for which it does not hold. -/
theorem segment_clipped_partial (eps : K) (a b : V3 K) (planes : List (V3 K × V3 K)) (hne : planes ≠ []) (x y : K) (hx0 : 0 ≤ x) (hxy : x ≤ y) (hy1 : y ≤ 1)
    (hx : ∀ pl ∈ planes, Front pl.1 pl.2 (at' a b x)) (hy : ∀ pl ∈ planes, Front pl.1 pl.2 (at' a b y))
    (hsteep : ∀ pl ∈ planes, side pl.1 pl.2 b = side pl.1 pl.2 a ∨ eps < |side pl.1 pl.2 (at' a b y) - side pl.1 pl.2 (at' a b x)|) :
    ∃ u v, clipSegment eps a b planes = some [u, v] ∧ OnSeg u v (at' a b x) ∧ OnSeg u v (at' a b y) := by
  obtain ⟨t1, t2, h, h1, h2⟩ := clipLoop_keeps eps a b x y hxy planes hx hy
    (fun pl hpl => (hsteep pl hpl).imp (fun h => by rw [h]; ring) id) 0 1 hx0 hy1
  rw [at_zero, at_one] at h
  refine ⟨_, _, ?_, onSeg_sub a b h1 (le_trans hxy h2), onSeg_sub a b (le_trans h1 hxy) h2⟩
  cases planes with
  | nil => exact absurd rfl hne
  | cons pl planes => exact h

example : (∀ pl ∈ [((⟨1, 0, 0⟩ : V3 Rat), (⟨1, 0, 0⟩ : V3 Rat)), (⟨3, 0, 0⟩, ⟨-1, 0, 0⟩)], Front pl.1 pl.2 (at' ⟨0, 0, 0⟩ ⟨4, 0, 0⟩ (1/4))) ∧
    (∀ pl ∈ [((⟨1, 0, 0⟩ : V3 Rat), (⟨1, 0, 0⟩ : V3 Rat)), (⟨3, 0, 0⟩, ⟨-1, 0, 0⟩)],
      1/10000 < |side pl.1 pl.2 (at' (⟨0, 0, 0⟩ : V3 Rat) ⟨4, 0, 0⟩ (3/4)) - side pl.1 pl.2 (at' ⟨0, 0, 0⟩ ⟨4, 0, 0⟩ (1/4))|) := by
  unfold Front
  decide +kernel

end GeomProps
end RP3D
