import Verif.Height.Field
import Mathlib.Tactic.FieldSimp
import Mathlib.Tactic.Ring
import Mathlib.Tactic.Positivity

/-! C50: the triangles of a height field. -/

namespace RP3D
namespace HeightProps
open Ray Height

variable {K : Type} [Field K] [LinearOrder K]

/-! ### The heights -/

/-- What the loop of `copyData` has done after the grid points `l`. -/
structure Copied (cols : Nat) (src : Source K) (l : List (Nat × Nat)) (d : Data K) : Prop where
  data : ∀ p ∈ l, d.data (p.2 * cols + p.1) = src.get (p.2 * cols + p.1)
  min : ∀ p ∈ l, d.minH ≤ src.get (p.2 * cols + p.1)
  max : ∀ p ∈ l, src.get (p.2 * cols + p.1) ≤ d.maxH
  low : ∃ p ∈ l, d.minH = src.get (p.2 * cols + p.1)
  high : ∃ p ∈ l, d.maxH = src.get (p.2 * cols + p.1)

theorem copyStep_spec {cols : Nat} {src : Source K} {l : List (Nat × Nat)} {d : Data K} (h : Copied cols src l d) (p : Nat × Nat)
    (hp : ¬ (p.1 = 0 ∧ p.2 = 0)) : Copied cols src (l ++ [p]) (copyStep cols src d p) := by
  obtain ⟨x, y⟩ := p
  unfold copyStep
  simp only at hp
  simp only [if_neg hp]
  refine ⟨?_, ?_, ?_, ?_, ?_⟩
  · intro q hq
    simp only
    by_cases e : q.2 * cols + q.1 = y * cols + x
    · rw [e, Function.update_self]
    · rw [Function.update_of_ne e]
      rcases List.mem_append.1 hq with hq | hq
      · exact h.data q hq
      · exact absurd (by rw [List.mem_singleton.1 hq]) e
  · intro q hq
    simp only
    rcases List.mem_append.1 hq with hq | hq
    · have := h.min q hq
      split_ifs with hc
      · exact hc.le.trans this
      · exact this
    · rw [List.mem_singleton.1 hq]
      split_ifs with hc
      · exact le_refl _
      · exact not_lt.1 hc
  · intro q hq
    simp only
    rcases List.mem_append.1 hq with hq | hq
    · have := h.max q hq
      split_ifs with hc
      · exact this.trans (le_of_lt hc)
      · exact this
    · rw [List.mem_singleton.1 hq]
      split_ifs with hc
      · exact le_refl _
      · exact not_lt.1 hc
  · simp only
    split_ifs with hc
    · exact ⟨(x, y), by simp, rfl⟩
    · obtain ⟨q, hq, e⟩ := h.low
      exact ⟨q, List.mem_append_left _ hq, e⟩
  · simp only
    split_ifs with hc
    · exact ⟨(x, y), by simp, rfl⟩
    · obtain ⟨q, hq, e⟩ := h.high
      exact ⟨q, List.mem_append_left _ hq, e⟩

theorem copyFold_spec {cols : Nat} {src : Source K} : ∀ (l' l : List (Nat × Nat)) (d : Data K), Copied cols src l d →
    (∀ p ∈ l', ¬ (p.1 = 0 ∧ p.2 = 0)) → Copied cols src (l ++ l') (l'.foldl (copyStep cols src) d)
  | [], l, d, h, _ => by simpa using h
  | p :: l', l, d, h, hp => by
    have := copyFold_spec l' (l ++ [p]) _ (copyStep_spec h p (hp p (List.mem_cons_self ..))) fun q hq => hp q (List.mem_cons_of_mem _ hq)
    simpa using this

/-- The grid points in the order of the loops. -/
def gridPoints (cols rows : Nat) : List (Nat × Nat) := (List.range cols).flatMap fun x => (List.range rows).map fun y => (x, y)

theorem mem_gridPoints {cols rows : Nat} {p : Nat × Nat} : p ∈ gridPoints cols rows ↔ p.1 < cols ∧ p.2 < rows := by
  obtain ⟨x, y⟩ := p
  unfold gridPoints
  simp

theorem gridPoints_cons {cols rows : Nat} (hc : 0 < cols) (hr : 0 < rows) :
    ∃ l, gridPoints cols rows = (0, 0) :: l ∧ ∀ p ∈ l, ¬ (p.1 = 0 ∧ p.2 = 0) := by
  obtain ⟨c, rfl⟩ : ∃ c, cols = c + 1 := ⟨cols - 1, by omega⟩
  obtain ⟨r, rfl⟩ : ∃ r, rows = r + 1 := ⟨rows - 1, by omega⟩
  unfold gridPoints
  rw [List.range_succ_eq_map, List.range_succ_eq_map]
  simp only [List.flatMap_cons, List.map_cons, List.cons_append]
  refine ⟨_, rfl, ?_⟩
  rintro ⟨x, y⟩ hp
  simp only [List.mem_append, List.mem_map, List.mem_flatMap, Prod.mk.injEq, List.mem_cons] at hp
  rintro ⟨e1, e2⟩
  simp only at e1 e2
  subst e1 e2
  rcases hp with hp | hp
  · simp at hp
  · simp at hp

/-- `copyData` copies all heights and finds their least and their greatest value. -/
theorem copyData_spec {cols rows : Nat} (hc : 0 < cols) (hr : 0 < rows) (src : Source K) (d : Data K) :
    Copied cols src (gridPoints cols rows) (copyData cols rows src d) := by
  obtain ⟨l, e, hl⟩ := gridPoints_cons hc hr
  unfold copyData
  change Copied cols src (gridPoints cols rows) ((gridPoints cols rows).foldl (copyStep cols src) d)
  rw [e, List.foldl_cons]
  refine copyFold_spec l [(0, 0)] _ ?_ hl
  unfold copyStep
  simp only [and_self, if_true, lt_self_iff_false, if_false, gt_iff_lt]
  refine ⟨?_, ?_, ?_, ?_, ?_⟩ <;> simp

variable [IsStrictOrderedRing K]

/-- A height field made by `init`. -/
structure Made (src : Source K) (f : HField K) : Prop where
  cols : 2 ≤ f.cols
  rows : 2 ≤ f.rows
  copied : Copied f.cols src (gridPoints f.cols f.rows) f.dat
  origin : f.origin = -(f.dat.maxH - f.dat.minH) * (1/2) - f.dat.minH
  bounds : f.bounds = ⟨⟨-f.width * (1/2), -((f.dat.maxH - f.dat.minH) * (1/2)), -f.length * (1/2)⟩,
    ⟨f.width * (1/2), (f.dat.maxH - f.dat.minH) * (1/2), f.length * (1/2)⟩⟩

omit [IsStrictOrderedRing K] in
theorem init_made {cols rows : Nat} {src : Source K} {d : Data K} {f : HField K} (h : init cols rows src d = some f) :
    Made src f ∧ f.cols = cols ∧ f.rows = rows := by
  unfold init at h
  split_ifs at h with hc
  simp only [Option.some.injEq] at h
  subst h
  rw [not_or, not_lt, not_lt] at hc
  have c0 : 0 < cols := by omega
  have r0 : 0 < rows := by omega
  exact ⟨⟨hc.1, hc.2, copyData_spec c0 r0 src d, rfl, rfl⟩, rfl, rfl⟩

/-- Specification: where the user's data puts the vertex of a grid point. The grid is centred in the horizontal plane; the heights are
centred around the middle of the least and the greatest height. -/
def Placed (src : Source K) (cols rows : Nat) (lo hi : K) (x y : Nat) : V3 K :=
  ⟨(x : K) - ((cols : K) - 1) / 2, src.get (y * cols + x) - (lo + hi) / 2, (y : K) - ((rows : K) - 1) / 2⟩

theorem vertex_eq {src : Source K} {f : HField K} (h : Made src f) {x y : Nat} (hx : x < f.cols) (hy : y < f.rows) :
    f.vertex x y = Placed src f.cols f.rows f.dat.minH f.dat.maxH x y := by
  have hd := h.copied.data (x, y) (mem_gridPoints.2 ⟨hx, hy⟩)
  have hc := h.cols
  have hr := h.rows
  unfold HField.vertex Placed HField.width HField.length
  simp only at hd
  rw [hd, h.origin, Nat.cast_sub (by omega), Nat.cast_sub (by omega)]
  ext <;> simp only [Nat.cast_one] <;> ring

theorem vertex_in_bounds {src : Source K} {f : HField K} (h : Made src f) {x y : Nat} (hx : x < f.cols) (hy : y < f.rows) :
    AABB.Mem (f.vertex x y) f.bounds := by
  rw [vertex_eq h hx hy]
  have h1 := h.copied.min (x, y) (mem_gridPoints.2 ⟨hx, hy⟩)
  have h2 := h.copied.max (x, y) (mem_gridPoints.2 ⟨hx, hy⟩)
  have hc := h.cols
  have hr := h.rows
  have x0 : (0 : K) ≤ x := Nat.cast_nonneg x
  have y0 : (0 : K) ≤ y := Nat.cast_nonneg y
  have x1 : (x : K) + 1 ≤ f.cols := by exact_mod_cast hx
  have y1 : (y : K) + 1 ≤ f.rows := by exact_mod_cast hy
  rw [h.bounds]
  unfold AABB.Mem Placed HField.width HField.length
  rw [Nat.cast_sub (by omega), Nat.cast_sub (by omega)]
  simp only [Nat.cast_one]
  simp only at h1 h2
  refine ⟨?_, ?_, ?_, ?_, ?_, ?_⟩ <;> linarith

/-- The assertions of `getVertexAt` hold for all grid points. -/
theorem vertex_defined {src : Source K} {f : HField K} (h : Made src f) {x y : Nat} (hx : x < f.cols) (hy : y < f.rows) :
    f.vertexAt x y = some (f.vertex x y) := by
  unfold HField.vertexAt HField.heightAt
  rw [if_pos ⟨hx, hy⟩]
  have hm := vertex_in_bounds h hx hy
  unfold AABB.Mem at hm
  have : f.bounds.containsPoint (f.vertex x y) (1/10000) = true := by
    unfold AABB.containsPoint
    simp only [Bool.and_eq_true, decide_eq_true_eq, ge_iff_le]
    have : (0 : K) < 1/10000 := by norm_num
    refine ⟨⟨⟨⟨⟨?_, ?_⟩, ?_⟩, ?_⟩, ?_⟩, ?_⟩ <;> linarith
  change (if f.bounds.containsPoint (f.vertex x y) (1/10000) = true then some (f.vertex x y) else none) = _
  rw [if_pos this]

/-! ### Triangles in a box -/

theorem mapM_some {α β : Type} {g : α → Option β} {h : α → β} : ∀ (l : List α), (∀ a ∈ l, g a = some (h a)) → l.mapM g = some (l.map h)
  | [], _ => rfl
  | a :: l, hl => by
    rw [List.mapM_cons, hl a (List.mem_cons_self ..), mapM_some l fun b hb => hl b (List.mem_cons_of_mem _ hb)]
    rfl

/-- Specification: a corner of the grid, scaled. -/
def corner (src : Source K) (f : HField K) (scale : V3 K) (x y : Nat) : V3 K :=
  scaleBy scale (Placed src f.cols f.rows f.dat.minH f.dat.maxH x y)

/-- Specification: the two triangles of a cell, with the numbers `0` and `1`. -/
def cellTriangle (src : Source K) (f : HField K) (scale : V3 K) (i j : Nat) (second : Bool) : V3 K × V3 K × V3 K :=
  let c := corner src f scale
  if second then (c (i + 1) j, c i (j + 1), c (i + 1) (j + 1)) else (c i j, c i (j + 1), c (i + 1) j)

/-- A triangle with its id. -/
def itemOf (src : Source K) (f : HField K) (scale : V3 K) (c : Nat × Nat) (s : Bool) : Item K :=
  let t := cellTriangle src f scale c.1 c.2 s
  ⟨t.1, t.2.1, t.2.2, f.shapeId c.1 c.2 (if s then 1 else 0)⟩

theorem quad_eq [FloorRing K] {src : Source K} {f : HField K} (h : Made src f) {i j : Nat} (hi : i + 1 < f.cols) (hj : j + 1 < f.rows)
    (scale : V3 K) : f.quad scale i j = some [itemOf src f scale (i, j) false, itemOf src f scale (i, j) true] := by
  unfold HField.quad
  rw [vertex_defined h (by omega) (by omega), vertex_defined h (by omega) (by omega), vertex_defined h (by omega) (by omega),
    vertex_defined h (by omega) (by omega)]
  simp only [Option.bind_eq_bind, Option.bind_some, Option.pure_def, itemOf, cellTriangle, corner]
  rw [vertex_eq h (by omega) (by omega), vertex_eq h (by omega) (by omega), vertex_eq h (by omega) (by omega), vertex_eq h (by omega) (by omega)]
  rfl

/-- The ids of the triangles of the grid are different. -/
theorem shapeId_inj {f : HField K} {i j i' j' a a' : Nat} (hi : i + 1 < f.cols) (hi' : i' + 1 < f.cols) (ha : a < 2) (ha' : a' < 2)
    (h : f.shapeId i j a = f.shapeId i' j' a') : i = i' ∧ j = j' ∧ a = a' := by
  unfold HField.shapeId at h
  have e1 : a = a' := by omega
  have e2 : j * (f.cols - 1) + i = j' * (f.cols - 1) + i' := by omega
  have k : i < f.cols - 1 := by omega
  have k' : i' < f.cols - 1 := by omega
  have hm : i = i' := by
    have := congrArg (· % (f.cols - 1)) e2
    simpa [Nat.mul_add_mod', Nat.mod_eq_of_lt k, Nat.mod_eq_of_lt k'] using this
  subst hm
  have e3 : j * (f.cols - 1) = j' * (f.cols - 1) := by omega
  exact ⟨rfl, Nat.eq_of_mul_eq_mul_right (by omega) e3, e1⟩

theorem minGrid_le [FloorRing K] {w amin : K} {i n : Nat} (hw : w = n) (hi : i < n) (h : amin ≤ (i : K) + 1 - w / 2) :
    (clampInt (minGrid (-w * (1/2)) (w * (1/2)) amin) 0 n).toNat ≤ i := by
  have i0 : (0 : K) ≤ i := Nat.cast_nonneg i
  have : minGrid (-w * (1/2)) (w * (1/2)) amin ≤ i := by
    unfold minGrid
    rw [AABB.stdMin_eq, AABB.stdMax_eq]
    have h1 : min (max amin (-w * (1/2))) (w * (1/2)) ≤ (i : K) + 1 - w / 2 :=
      (min_le_left _ _).trans (max_le h (by linarith))
    have : ⌊min (max amin (-w * (1/2))) (w * (1/2)) + (w * (1/2) - -w * (1/2)) * (1/2) + 1/2⌋ < (i : Int) + 2 := by
      rw [Int.floor_lt]
      push_cast
      linarith
    omega
  unfold clampInt
  omega

theorem lt_maxGrid [FloorRing K] {w amax : K} {i n : Nat} (hw : w = n) (hi : i < n) (h : (i : K) - w / 2 ≤ amax) :
    i < (clampInt (maxGrid (-w * (1/2)) (w * (1/2)) amax) 0 n).toNat := by
  have i1 : (i : K) + 1 ≤ n := by exact_mod_cast hi
  have : (i : Int) + 1 ≤ maxGrid (-w * (1/2)) (w * (1/2)) amax := by
    unfold maxGrid
    rw [AABB.stdMin_eq, AABB.stdMax_eq]
    have h1 : (i : K) - w / 2 ≤ max (min amax (w * (1/2))) (-w * (1/2)) :=
      (le_min h (by linarith)).trans (le_max_left _ _)
    have : (i : Int) ≤ ⌊max (min amax (w * (1/2))) (-w * (1/2)) + (w * (1/2) - -w * (1/2)) * (1/2) + 1/2⌋ := by
      rw [Int.le_floor]
      push_cast
      linarith
    omega
  unfold clampInt
  omega

theorem clamp_le (v : Int) (n : Nat) : (clampInt v 0 n).toNat ≤ n := by unfold clampInt; omega

/-- The cells that the loops visit. -/
def cellsOf (iMin iMax jMin jMax : Nat) : List (Nat × Nat) :=
  (List.range' iMin (iMax - iMin)).flatMap fun i => (List.range' jMin (jMax - jMin)).map fun j => (i, j)

theorem mem_cellsOf {iMin iMax jMin jMax : Nat} {c : Nat × Nat} :
    c ∈ cellsOf iMin iMax jMin jMax ↔ (iMin ≤ c.1 ∧ c.1 < iMax) ∧ jMin ≤ c.2 ∧ c.2 < jMax := by
  obtain ⟨i, j⟩ := c
  unfold cellsOf
  simp only [List.mem_flatMap, List.mem_range'_1, List.mem_map, Prod.mk.injEq]
  constructor
  · rintro ⟨a, ha, b, hb, rfl, rfl⟩
    omega
  · rintro ⟨h1, h2⟩
    exact ⟨i, by omega, j, by omega, rfl, rfl⟩

theorem cellsOf_nodup (iMin iMax jMin jMax : Nat) : (cellsOf iMin iMax jMin jMax).Nodup := by
  unfold cellsOf
  rw [List.nodup_flatMap]
  refine ⟨fun i _ => (List.nodup_range' (step := 1)).map fun a b e => by simpa using e, ?_⟩
  refine (List.nodup_range' (step := 1)).pairwise_of_forall_ne ?_
  intro a _ b _ hab c hc hc'
  simp only [List.mem_map] at hc hc'
  obtain ⟨_, _, rfl⟩ := hc
  obtain ⟨_, _, e⟩ := hc'
  simp only [Prod.mk.injEq] at e
  exact hab e.1.symm

/-- C50: the triangles handed to the collision test for a box. They are triangles of the grid, placed as the user's data says and
scaled; they have different ids; all triangles of all cells whose horizontal extent meets the box are among them; and all corners
of the grid are in the bounds. -/
theorem height_triangles [FloorRing K] {cols rows : Nat} {src : Source K} {d : Data K} {f : HField K}
    (h : init cols rows src d = some f) {scale : V3 K} (sx : 0 < scale.x) (sz : 0 < scale.z) (box : AABB K) :
    ∃ items, shapeOverlapping f scale box = some items ∧ (items.map (·.id)).Nodup ∧
      (∀ it ∈ items, ∃ i j s, i + 1 < cols ∧ j + 1 < rows ∧ (it.a, it.b, it.c) = cellTriangle src f scale i j s ∧
        it.id = f.shapeId i j (if s then 1 else 0)) ∧
      (∀ i j, i + 1 < cols → j + 1 < rows →
        (corner src f scale i j).x ≤ box.mx.x → box.mn.x ≤ (corner src f scale (i + 1) j).x →
        (corner src f scale i j).z ≤ box.mx.z → box.mn.z ≤ (corner src f scale i (j + 1)).z →
        ∀ s, ∃ it ∈ items, (it.a, it.b, it.c) = cellTriangle src f scale i j s ∧ it.id = f.shapeId i j (if s then 1 else 0)) := by
  obtain ⟨hm, rfl, rfl⟩ := init_made h
  have hc := hm.cols
  have hr := hm.rows
  unfold shapeOverlapping HField.overlapping
  simp only
  obtain ⟨n, hn⟩ : ∃ n, f.cols = n + 1 := ⟨f.cols - 1, by omega⟩
  obtain ⟨m, hmm⟩ : ∃ m, f.rows = m + 1 := ⟨f.rows - 1, by omega⟩
  have en : ((f.cols : Int) - 1) = (n : Int) := by rw [hn]; push_cast; ring
  have em : ((f.rows : Int) - 1) = (m : Int) := by rw [hmm]; push_cast; ring
  have ew : f.width = (n : K) := by unfold HField.width; rw [hn]; simp
  have el : f.length = (m : K) := by unfold HField.length; rw [hmm]; simp
  rw [en, em, hm.bounds]
  simp only
  generalize hiMin : (clampInt (minGrid (-f.width * (1/2)) (f.width * (1/2)) (scaleBy ⟨1 / scale.x, 1 / scale.y, 1 / scale.z⟩ box.mn).x) 0 n).toNat = iMin
  generalize hiMax : (clampInt (maxGrid (-f.width * (1/2)) (f.width * (1/2)) (scaleBy ⟨1 / scale.x, 1 / scale.y, 1 / scale.z⟩ box.mx).x) 0 n).toNat = iMax
  generalize hjMin : (clampInt (minGrid (-f.length * (1/2)) (f.length * (1/2)) (scaleBy ⟨1 / scale.x, 1 / scale.y, 1 / scale.z⟩ box.mn).z) 0 m).toNat = jMin
  generalize hjMax : (clampInt (maxGrid (-f.length * (1/2)) (f.length * (1/2)) (scaleBy ⟨1 / scale.x, 1 / scale.y, 1 / scale.z⟩ box.mx).z) 0 m).toNat = jMax
  have bi : iMax ≤ n := by rw [← hiMax]; exact clamp_le _ _
  have bj : jMax ≤ m := by rw [← hjMax]; exact clamp_le _ _
  change ∃ items, ((cellsOf iMin iMax jMin jMax).mapM fun c => f.quad scale c.1 c.2).map List.flatten = some items ∧ _
  have hin : ∀ c ∈ cellsOf iMin iMax jMin jMax, c.1 + 1 < f.cols ∧ c.2 + 1 < f.rows := by
    intro c hc
    have := mem_cellsOf.1 hc
    omega
  rw [mapM_some _ fun c hc => quad_eq hm (hin c hc).1 (hin c hc).2 scale]
  have e : ∀ c : Nat × Nat, (c.1, c.2) = c := fun _ => rfl
  simp only [e, Option.map_some, ← List.flatMap_def]
  have mem : ∀ it, it ∈ (cellsOf iMin iMax jMin jMax).flatMap (fun c => [itemOf src f scale c false, itemOf src f scale c true]) ↔
      ∃ c ∈ cellsOf iMin iMax jMin jMax, ∃ s, it = itemOf src f scale c s := by
    intro it
    simp only [List.mem_flatMap, List.mem_cons, List.not_mem_nil, or_false]
    constructor
    · rintro ⟨c, hc, hh | hh⟩
      exacts [⟨c, hc, _, hh⟩, ⟨c, hc, _, hh⟩]
    · rintro ⟨c, hc, s, hh⟩
      cases s
      exacts [⟨c, hc, Or.inl hh⟩, ⟨c, hc, Or.inr hh⟩]
  refine ⟨_, rfl, ?_, ?_, ?_⟩
  · rw [List.map_flatMap, List.nodup_flatMap]
    constructor
    · intro c hc
      simp only [List.map_cons, List.map_nil, List.nodup_cons, List.mem_singleton, List.not_mem_nil, not_false_eq_true, List.nodup_nil, and_self,
        and_true]
      intro hh
      exact absurd (shapeId_inj (hin c hc).1 (hin c hc).1 (by simp) (by simp) hh).2.2 (by simp)
    · refine (cellsOf_nodup iMin iMax jMin jMax).pairwise_of_forall_ne ?_
      intro c hc c' hc' hne k hk hk'
      have key : ∀ s s', f.shapeId c.1 c.2 (if s = true then 1 else 0) = f.shapeId c'.1 c'.2 (if s' = true then 1 else 0) → False := by
        intro s s' hh
        have := shapeId_inj (hin c hc).1 (hin c' hc').1 (by split_ifs <;> omega) (by split_ifs <;> omega) hh
        exact hne (Prod.ext this.1 this.2.1)
      simp only [List.map_cons, List.map_nil, List.mem_cons, List.not_mem_nil, or_false] at hk hk'
      rcases hk with hk | hk <;> rcases hk' with hk' | hk' <;> exact key _ _ (hk.symm.trans hk')
  · intro it hit
    obtain ⟨c, hc, s, rfl⟩ := (mem it).1 hit
    exact ⟨c.1, c.2, s, (hin c hc).1, (hin c hc).2, rfl, rfl⟩
  · intro i j hi hj x1 x2 z1 z2 s
    refine ⟨itemOf src f scale (i, j) s, (mem _).2 ⟨(i, j), mem_cellsOf.2 ?_, s, rfl⟩, rfl, rfl⟩
    unfold corner Placed scaleBy at x1 x2 z1 z2
    simp only at x1 x2 z1 z2
    have ec : (f.cols : K) - 1 = f.width := by rw [ew, hn]; push_cast; ring
    have er : (f.rows : K) - 1 = f.length := by rw [el, hmm]; push_cast; ring
    rw [ec] at x1 x2
    rw [er] at z1 z2
    push_cast at x2 z2
    refine ⟨⟨?_, ?_⟩, ?_, ?_⟩
    · rw [← hiMin]
      refine minGrid_le ew (by omega) ?_
      simp only [scaleBy]
      rw [one_div, inv_mul_le_iff₀ sx]
      linarith
    · rw [← hiMax]
      refine lt_maxGrid ew (by omega) ?_
      simp only [scaleBy]
      rw [one_div, le_inv_mul_iff₀ sx]
      linarith
    · rw [← hjMin]
      refine minGrid_le el (by omega) ?_
      simp only [scaleBy]
      rw [one_div, inv_mul_le_iff₀ sz]
      linarith
    · rw [← hjMax]
      refine lt_maxGrid el (by omega) ?_
      simp only [scaleBy]
      rw [one_div, le_inv_mul_iff₀ sz]
      linarith

/-- C50: creation fails exactly for less than two rows or columns; otherwise `getMinHeight` and `getMaxHeight` are the least and
the greatest of the user's heights, every vertex is defined, where the data says, and in the bounds. -/
theorem height_bounds (cols rows : Nat) (src : Source K) (d : Data K) :
    (init cols rows src d = none ↔ cols < 2 ∨ rows < 2) ∧
      ∀ f, init cols rows src d = some f →
        (∀ x y, x < cols → y < rows → f.dat.minH ≤ src.get (y * cols + x) ∧ src.get (y * cols + x) ≤ f.dat.maxH) ∧
        (∃ x y, x < cols ∧ y < rows ∧ f.dat.minH = src.get (y * cols + x)) ∧
        (∃ x y, x < cols ∧ y < rows ∧ f.dat.maxH = src.get (y * cols + x)) ∧
        (∀ x y, x < cols → y < rows → f.heightAt x y = some (src.get (y * cols + x)) ∧
          f.vertexAt x y = some (Placed src cols rows f.dat.minH f.dat.maxH x y) ∧
          AABB.Mem (Placed src cols rows f.dat.minH f.dat.maxH x y) f.bounds) := by
  constructor
  · unfold init
    split_ifs with hc <;> simp [hc]
  · intro f h
    obtain ⟨hm, rfl, rfl⟩ := init_made h
    refine ⟨fun x y hx hy => ⟨hm.copied.min (x, y) (mem_gridPoints.2 ⟨hx, hy⟩), hm.copied.max (x, y) (mem_gridPoints.2 ⟨hx, hy⟩)⟩, ?_, ?_, ?_⟩
    · obtain ⟨p, hp, e⟩ := hm.copied.low
      exact ⟨p.1, p.2, (mem_gridPoints.1 hp).1, (mem_gridPoints.1 hp).2, e⟩
    · obtain ⟨p, hp, e⟩ := hm.copied.high
      exact ⟨p.1, p.2, (mem_gridPoints.1 hp).1, (mem_gridPoints.1 hp).2, e⟩
    · intro x y hx hy
      refine ⟨?_, by rw [vertex_defined hm hx hy, vertex_eq hm hx hy], by rw [← vertex_eq hm hx hy]; exact vertex_in_bounds hm hx hy⟩
      unfold HField.heightAt
      rw [if_pos ⟨hx, hy⟩]
      exact congrArg some (hm.copied.data (x, y) (mem_gridPoints.2 ⟨hx, hy⟩))

/-- A grid with 11 columns and 3 rows. -/
def hills : Source ℚ := .int (fun k => (k * k % 7 : Nat)) (1/2)

def hillField : Option (HField ℚ) := init 11 3 hills ⟨fun _ => 0, 0, 0⟩

theorem hillField_some : hillField.isSome := by decide +kernel

/-- The hypotheses of `height_triangles` are met by a grid with a box over some of its cells, and there are triangles. -/
example : ∃ f items, hillField = some f ∧ shapeOverlapping f ⟨2, 1, 3⟩ ⟨⟨-4, 0, 0⟩, ⟨-2, 1, 1⟩⟩ = some items ∧ items ≠ [] := by
  obtain ⟨f, hf⟩ := Option.isSome_iff_exists.1 hillField_some
  obtain ⟨items, h, _, _, h4⟩ := height_triangles hf (scale := ⟨2, 1, 3⟩) (by decide +kernel) (by decide +kernel) ⟨⟨-4, 0, 0⟩, ⟨-2, 1, 1⟩⟩
  obtain ⟨_, rfl', rfl''⟩ := init_made hf
  obtain ⟨it, hit, _⟩ := h4 3 1 (by decide) (by decide)
    (by unfold corner Placed scaleBy; rw [rfl']; norm_num) (by unfold corner Placed scaleBy; rw [rfl']; norm_num)
    (by unfold corner Placed scaleBy; rw [rfl'']; norm_num) (by unfold corner Placed scaleBy; rw [rfl'']; norm_num) true
  exact ⟨f, items, hf, h, List.ne_nil_of_mem hit⟩

/-- With a negative scale the box is turned inside out: a box around a corner of the grid gives no triangle. -/
theorem negative_scale_misses :
    ∃ f, hillField = some f ∧ shapeOverlapping f ⟨-1, 1, 1⟩ ⟨⟨1, -10, -10⟩, ⟨4, 10, 10⟩⟩ = some [] ∧
      AABB.Mem (corner hills f ⟨-1, 1, 1⟩ 3 1) ⟨⟨1, -10, -10⟩, ⟨4, 10, 10⟩⟩ := by
  have h : hillField.map (fun f => (shapeOverlapping f ⟨-1, 1, 1⟩ ⟨⟨1, -10, -10⟩, ⟨4, 10, 10⟩⟩, corner hills f ⟨-1, 1, 1⟩ 3 1)) =
    some (some [], ⟨2, -1, 0⟩) := by decide +kernel
  cases hf : hillField with
  | none => rw [hf] at h; simp at h
  | some f =>
    rw [hf] at h
    simp only [Option.map_some, Option.some.injEq, Prod.mk.injEq] at h
    exact ⟨f, rfl, h.1, by rw [h.2]; unfold AABB.Mem; norm_num⟩

end HeightProps
end RP3D
