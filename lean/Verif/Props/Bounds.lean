import Verif.Shapes.Bounds
import Verif.Props.Transform
import Verif.Props.ConcaveMesh

/-! C61: the boxes of shapes in world space contain the shapes. -/

namespace RP3D
namespace BoundsProps
open Bounds Ray TriMesh TriProps Height HeightProps RayProps TreeSpec ConcaveProps

variable {K : Type} [Field K] [LinearOrder K] [IsStrictOrderedRing K]

/-- Specification: a number between two others, in whichever order these are. -/
def Btw (a b x : K) : Prop := (a ≤ x ∧ x ≤ b) ∨ (b ≤ x ∧ x ≤ a)

/-- Specification: a point between two corners. -/
def Inside (b : AABB K) (p : V3 K) : Prop := Btw b.mn.x b.mx.x p.x ∧ Btw b.mn.y b.mx.y p.y ∧ Btw b.mn.z b.mx.z p.z

/-- Specification: the points of the convex hull. -/
inductive Hull (vs : List (V3 K)) : V3 K → Prop
  | vertex {v : V3 K} : v ∈ vs → Hull vs v
  | mix {a b : V3 K} {t : K} : Hull vs a → Hull vs b → 0 ≤ t → t ≤ 1 → Hull vs (V3.smul (1 - t) a + V3.smul t b)

/-- Specification: the points of a shape in its own space. A concave mesh consists of the scaled triangles of the user that were kept
when its tree was made; a height field of the two triangles of each cell. -/
inductive Points : Shape K → V3 K → Prop
  | sphere {r : K} {p : V3 K} : 0 ≤ r → p.lengthSq ≤ r * r → Points (.sphere r) p
  | capsule {r h y : K} {p : V3 K} : 0 ≤ r → -h ≤ y → y ≤ h → (p - ⟨0, y, 0⟩).lengthSq ≤ r * r → Points (.capsule r h) p
  | box {h p : V3 K} : -h.x ≤ p.x → p.x ≤ h.x → -h.y ≤ p.y → p.y ≤ h.y → -h.z ≤ p.z → p.z ≤ h.z → Points (.box h) p
  | triangle {a b c p : V3 K} : Tri a b c p → Points (.triangle a b c) p
  | convex {s : V3 K} {vs : List (V3 K)} {p : V3 K} : Hull (vs.map (scaleBy s)) p → Points (.convex s vs) p
  | concave {s : V3 K} {sqrt acos : K → K} {me : K} {ch : Nat → Choice K} {fat : AABB K → AABB K} {f : Nat → TNode K} {u : User K}
      {m : TMesh K} {valid : Bool} {t : Tree K} {tri : Nat × Nat × Nat} {p : V3 K} : 0 < me → (∀ b, b.Valid → (fat b).contains b = true) →
      TriMesh.init sqrt acos me ch fat f u = some (m, valid, t) → tri ∈ trianglesOf me u →
      Tri (userTriangle u s tri).1 (userTriangle u s tri).2.1 (userTriangle u s tri).2.2 p → Points (.concave s t) p
  | height {s : V3 K} {cols rows : Nat} {src : Source K} {d : Data K} {f : HField K} {i j : Nat} {second : Bool} {p : V3 K} :
      Height.init cols rows src d = some f → i + 1 < cols → j + 1 < rows →
      Tri (cellTriangle src f s i j second).1 (cellTriangle src f s i j second).2.1 (cellTriangle src f s i j second).2.2 p →
      Points (.height s f) p

omit [IsStrictOrderedRing K] in
theorem term_eq (a mn mx : K) (s : K × K) : term a mn mx s = (s.1 + min (a * mn) (a * mx), s.2 + max (a * mn) (a * mx)) := by
  unfold term
  dsimp only
  split_ifs with h
  · rw [min_eq_left h.le, max_eq_right h.le]
  · rw [min_eq_right (not_lt.1 h), max_eq_left (not_lt.1 h)]

theorem mul_btw {a mn mx x : K} (h : Btw mn mx x) : min (a * mn) (a * mx) ≤ a * x ∧ a * x ≤ max (a * mn) (a * mx) := by
  rcases le_total 0 a with ha | ha <;> rcases h with ⟨h1, h2⟩ | ⟨h1, h2⟩
  · exact ⟨(min_le_left _ _).trans (mul_le_mul_of_nonneg_left h1 ha), (mul_le_mul_of_nonneg_left h2 ha).trans (le_max_right _ _)⟩
  · exact ⟨(min_le_right _ _).trans (mul_le_mul_of_nonneg_left h1 ha), (mul_le_mul_of_nonneg_left h2 ha).trans (le_max_left _ _)⟩
  · exact ⟨(min_le_right _ _).trans (mul_le_mul_of_nonpos_left h2 ha), (mul_le_mul_of_nonpos_left h1 ha).trans (le_max_left _ _)⟩
  · exact ⟨(min_le_left _ _).trans (mul_le_mul_of_nonpos_left h2 ha), (mul_le_mul_of_nonpos_left h1 ha).trans (le_max_right _ _)⟩

theorem axis_contains (p : K) (row : V3 K) {b : AABB K} {v : V3 K} (h : Inside b v) :
    (axis p row b).1 ≤ row.x * v.x + row.y * v.y + row.z * v.z + p ∧ row.x * v.x + row.y * v.y + row.z * v.z + p ≤ (axis p row b).2 := by
  unfold axis
  simp only [term_eq]
  have h1 := mul_btw (a := row.x) h.1
  have h2 := mul_btw (a := row.y) h.2.1
  have h3 := mul_btw (a := row.z) h.2.2
  constructor <;> linarith [h1.1, h1.2, h2.1, h2.2, h3.1, h3.2]

theorem act_eq {t : Trans K} (ht : t.ori.lengthSq = 1) (v : V3 K) : t.act v = t.ori.matrix.act v + t.pos := by
  unfold Trans.act
  rw [matrix_act ht]

/-- The transformed box contains the points between the corners, also if the corners are not in order. -/
theorem transformed_contains {t : Trans K} (ht : t.ori.lengthSq = 1) {b : AABB K} {v : V3 K} (h : Inside b v) :
    AABB.Mem (t.act v) (transformed t b) := by
  rw [act_eq ht]
  unfold AABB.Mem transformed M3.act
  simp only [V3.add_x, V3.add_y, V3.add_z]
  exact ⟨(axis_contains _ _ h).1, (axis_contains _ _ h).2, (axis_contains _ _ h).1, (axis_contains _ _ h).2,
    (axis_contains _ _ h).1, (axis_contains _ _ h).2⟩

omit [IsStrictOrderedRing K] in
theorem btw_left (a b : K) : Btw a b a := by
  rcases le_total a b with h | h
  · exact .inl ⟨le_refl _, h⟩
  · exact .inr ⟨h, le_refl _⟩

omit [IsStrictOrderedRing K] in
theorem btw_right (a b : K) : Btw a b b := by
  rcases le_total a b with h | h
  · exact .inl ⟨h, le_refl _⟩
  · exact .inr ⟨le_refl _, h⟩

omit [IsStrictOrderedRing K] in
theorem min_attained (a mn mx : K) : ∃ x, Btw mn mx x ∧ a * x = min (a * mn) (a * mx) := by
  rcases min_choice (a * mn) (a * mx) with h | h
  · exact ⟨mn, btw_left _ _, h.symm⟩
  · exact ⟨mx, btw_right _ _, h.symm⟩

omit [IsStrictOrderedRing K] in
theorem max_attained (a mn mx : K) : ∃ x, Btw mn mx x ∧ a * x = max (a * mn) (a * mx) := by
  rcases max_choice (a * mn) (a * mx) with h | h
  · exact ⟨mn, btw_left _ _, h.symm⟩
  · exact ⟨mx, btw_right _ _, h.symm⟩

omit [IsStrictOrderedRing K] in
theorem axis_attained (p : K) (row : V3 K) (b : AABB K) :
    (∃ v, Inside b v ∧ row.x * v.x + row.y * v.y + row.z * v.z + p = (axis p row b).1) ∧
    ∃ v, Inside b v ∧ row.x * v.x + row.y * v.y + row.z * v.z + p = (axis p row b).2 := by
  unfold axis
  simp only [term_eq]
  constructor
  · obtain ⟨x, x1, x2⟩ := min_attained row.x b.mn.x b.mx.x
    obtain ⟨y, y1, y2⟩ := min_attained row.y b.mn.y b.mx.y
    obtain ⟨z, z1, z2⟩ := min_attained row.z b.mn.z b.mx.z
    exact ⟨⟨x, y, z⟩, ⟨x1, y1, z1⟩, by simp only [x2, y2, z2]; ring⟩
  · obtain ⟨x, x1, x2⟩ := max_attained row.x b.mn.x b.mx.x
    obtain ⟨y, y1, y2⟩ := max_attained row.y b.mn.y b.mx.y
    obtain ⟨z, z1, z2⟩ := max_attained row.z b.mn.z b.mx.z
    exact ⟨⟨x, y, z⟩, ⟨x1, y1, z1⟩, by simp only [x2, y2, z2]; ring⟩

/-- The transformed box is the least one that contains the points. -/
theorem transformed_least {t : Trans K} (ht : t.ori.lengthSq = 1) {b c : AABB K} (h : ∀ v, Inside b v → AABB.Mem (t.act v) c) :
    c.contains (transformed t b) = true := by
  rw [AABB.contains_iff]
  have key : ∀ v, Inside b v → AABB.Mem (t.ori.matrix.act v + t.pos) c := fun v hv => by rw [← act_eq ht]; exact h v hv
  unfold AABB.Mem M3.act at key
  simp only [V3.add_x, V3.add_y, V3.add_z] at key
  unfold transformed
  dsimp only
  obtain ⟨⟨v1, i1, e1⟩, ⟨v2, i2, e2⟩⟩ := axis_attained t.pos.x t.ori.matrix.r0 b
  obtain ⟨⟨v3, i3, e3⟩, ⟨v4, i4, e4⟩⟩ := axis_attained t.pos.y t.ori.matrix.r1 b
  obtain ⟨⟨v5, i5, e5⟩, ⟨v6, i6, e6⟩⟩ := axis_attained t.pos.z t.ori.matrix.r2 b
  rw [← e1, ← e2, ← e3, ← e4, ← e5, ← e6]
  exact ⟨(key v1 i1).1, (key v3 i3).2.2.1, (key v5 i5).2.2.2.2.1, (key v2 i2).2.1, (key v4 i4).2.2.2.1, (key v6 i6).2.2.2.2.2⟩

omit [IsStrictOrderedRing K] in
theorem inside_of_mem {b : AABB K} {p : V3 K} (h : AABB.Mem p b) : Inside b p := by
  obtain ⟨h1, h2, h3, h4, h5, h6⟩ := h
  exact ⟨.inl ⟨h1, h2⟩, .inl ⟨h3, h4⟩, .inl ⟨h5, h6⟩⟩

theorem btw_mul {a b x : K} (s : K) (h1 : a ≤ x) (h2 : x ≤ b) : Btw (s * a) (s * b) (s * x) := by
  rcases le_total 0 s with hs | hs
  · exact .inl ⟨mul_le_mul_of_nonneg_left h1 hs, mul_le_mul_of_nonneg_left h2 hs⟩
  · exact .inr ⟨mul_le_mul_of_nonpos_left h2 hs, mul_le_mul_of_nonpos_left h1 hs⟩

/-- Scaled points are between the scaled corners, which are exchanged if the scale is negative. -/
theorem inside_scaled (s : V3 K) {b : AABB K} {p : V3 K} (h : AABB.Mem p b) : Inside (applyScale s b) (scaleBy s p) := by
  obtain ⟨h1, h2, h3, h4, h5, h6⟩ := h
  unfold Inside applyScale scaleBy
  simp only
  refine ⟨?_, ?_, ?_⟩
  · simpa [mul_comm] using btw_mul s.x h1 h2
  · simpa [mul_comm] using btw_mul s.y h3 h4
  · simpa [mul_comm] using btw_mul s.z h5 h6

theorem Tri.inside {a b c p : V3 K} {bx : AABB K} (h : Tri a b c p) (ha : Inside bx a) (hb : Inside bx b) (hc : Inside bx c) :
    Inside bx p := by
  have key : ∀ x : V3 K, Inside bx x ↔ AABB.Mem x ⟨⟨min bx.mn.x bx.mx.x, min bx.mn.y bx.mx.y, min bx.mn.z bx.mx.z⟩,
      ⟨max bx.mn.x bx.mx.x, max bx.mn.y bx.mx.y, max bx.mn.z bx.mx.z⟩⟩ := by
    intro x
    have one : ∀ a b x : K, Btw a b x ↔ min a b ≤ x ∧ x ≤ max a b := by
      intro a b x
      unfold Btw
      rcases le_total a b with h | h
      · rw [min_eq_left h, max_eq_right h]
        constructor
        · rintro (⟨h1, h2⟩ | ⟨h1, h2⟩)
          · exact ⟨h1, h2⟩
          · exact ⟨h.trans h1, h2.trans h⟩
        · exact .inl
      · rw [min_eq_right h, max_eq_left h]
        constructor
        · rintro (⟨h1, h2⟩ | ⟨h1, h2⟩)
          · exact ⟨h.trans h1, h2.trans h⟩
          · exact ⟨h1, h2⟩
        · exact .inr
    unfold Inside AABB.Mem
    rw [one, one, one]
    tauto
  rw [key] at *
  exact tri_in_box h ha hb hc

theorem Hull.mem {vs : List (V3 K)} {p : V3 K} {b : AABB K} (h : Hull vs p) (hv : ∀ v ∈ vs, AABB.Mem v b) : AABB.Mem p b := by
  induction h with
  | vertex hm => exact hv _ hm
  | @mix x y t _ _ t0 t1 hx hy =>
    refine tri_in_box (a := x) (b := y) (c := y) ⟨1 - t, t, 0, by linarith, t0, le_refl _, by ring, ?_⟩ hx hy hy
    ext <;> simp

omit [IsStrictOrderedRing K] in
theorem inflate_contains (b : AABB K) (p : V3 K) : (b.inflateWithPoint p).contains b = true := by
  rw [AABB.contains_iff]
  unfold AABB.inflateWithPoint
  dsimp only
  refine ⟨?_, ?_, ?_, ?_, ?_, ?_⟩ <;> split_ifs with h <;> first | exact le_refl _ | exact le_of_lt h

omit [IsStrictOrderedRing K] in
theorem inflate_mem (b : AABB K) (p : V3 K) : AABB.Mem p (b.inflateWithPoint p) := by
  unfold AABB.Mem AABB.inflateWithPoint
  dsimp only
  refine ⟨?_, ?_, ?_, ?_, ?_, ?_⟩ <;> split_ifs with h <;> first | exact le_refl _ | exact not_lt.1 h

omit [IsStrictOrderedRing K] in
theorem foldl_inflate (vs : List (V3 K)) (b : AABB K) :
    (vs.foldl AABB.inflateWithPoint b).contains b = true ∧ ∀ v ∈ vs, AABB.Mem v (vs.foldl AABB.inflateWithPoint b) := by
  induction vs generalizing b with
  | nil => exact ⟨AABB.contains_refl _, fun v hv => by cases hv⟩
  | cons w vs ih =>
    obtain ⟨h1, h2⟩ := ih (b.inflateWithPoint w)
    rw [List.foldl_cons]
    refine ⟨AABB.contains_trans h1 (inflate_contains b w), fun v hv => ?_⟩
    rcases List.mem_cons.1 hv with rfl | hv
    · exact mem_of_contains h1 (inflate_mem b v)
    · exact h2 v hv

omit [IsStrictOrderedRing K] in
/-- The bounds of a convex mesh contain its vertices. -/
theorem meshBounds_contains {vs : List (V3 K)} {b : AABB K} (h : meshBounds vs = some b) : ∀ v ∈ vs, AABB.Mem v b := by
  cases vs with
  | nil => cases h
  | cons w vs =>
    cases h
    exact (foldl_inflate (w :: vs) ⟨w, w⟩).2

omit [IsStrictOrderedRing K] in
/-- The bounds of a convex mesh are the least box with its vertices. -/
theorem meshBounds_least {vs : List (V3 K)} {b c : AABB K} (h : meshBounds vs = some b) (hc : ∀ v ∈ vs, AABB.Mem v c) : c.contains b = true := by
  cases vs with
  | nil => cases h
  | cons w vs =>
    cases h
    have key : ∀ (l : List (V3 K)) (b : AABB K), c.contains b = true → (∀ v ∈ l, AABB.Mem v c) →
        c.contains (l.foldl AABB.inflateWithPoint b) = true := by
      intro l
      induction l with
      | nil => intro b h _; exact h
      | cons x l ih =>
        intro b hb hl
        rw [List.foldl_cons]
        refine ih _ ?_ fun v hv => hl v (List.mem_cons_of_mem _ hv)
        obtain ⟨m1, m2, m3, m4, m5, m6⟩ := hl x List.mem_cons_self
        rw [AABB.contains_iff] at hb ⊢
        obtain ⟨b1, b2, b3, b4, b5, b6⟩ := hb
        unfold AABB.inflateWithPoint
        dsimp only
        refine ⟨?_, ?_, ?_, ?_, ?_, ?_⟩ <;> split_ifs <;> assumption
    refine key _ _ ?_ hc
    obtain ⟨m1, m2, m3, m4, m5, m6⟩ := hc w List.mem_cons_self
    rw [AABB.contains_iff]
    exact ⟨m1, m3, m5, m2, m4, m6⟩

theorem Hull.scaled_inside {s : V3 K} {vs : List (V3 K)} {b : AABB K} {p : V3 K} (hv : ∀ v ∈ vs, AABB.Mem v b)
    (h : Hull (vs.map (scaleBy s)) p) : Inside (applyScale s b) p := by
  induction h with
  | vertex hm =>
    obtain ⟨w, hw, rfl⟩ := List.mem_map.1 hm
    exact inside_scaled s (hv w hw)
  | @mix x y t _ _ t0 t1 hx hy =>
    refine Tri.inside (a := x) (b := y) (c := y) ⟨1 - t, t, 0, by linarith, t0, le_refl _, by ring, ?_⟩ hx hy hy
    ext <;> simp

omit [Field K] [IsStrictOrderedRing K] in
theorem Stored.root_contains {f : Nat → TNode K} {p : Option Nat} {i : Nat} {ids ls : List Nat} (h : Stored f p i ids ls) :
    ∀ k ∈ ls, (f i).box.contains (f k).box = true := by
  induction h with
  | leaf _ _ => intro k hk; rw [List.mem_singleton] at hk; subst hk; exact AABB.contains_refl _
  | @node p i l r is js ls ms h1 h2 h3 h4 _ _ h5 h6 =>
    intro k hk
    rw [h4]
    rcases List.mem_append.1 hk with hk | hk
    · exact AABB.contains_trans (AABB.contains_merge_left _ _) (h5 k hk)
    · exact AABB.contains_trans (AABB.contains_merge_right _ _) (h6 k hk)

omit [IsStrictOrderedRing K] in
/-- The box of the root contains the fat boxes of all objects. -/
theorem treeBounds_contains {P : AABB K → Prop} {fat : AABB K → AABB K} {t : Tree K} {S : Nat → Option (Obj K)} (h : Hist P fat t S)
    {i : Nat} {o : Obj K} (hi : S i = some o) : ∃ b, treeBounds t = some b ∧ b.contains o.fat = true := by
  obtain ⟨ids, ls, fr, w⟩ := tree_well_formed h
  have hm : i ∈ ls := (w.objects i).2 (by rw [hi]; rfl)
  rcases w.tree with ⟨_, _, e⟩ | ⟨r, e, hs⟩
  · rw [e] at hm; cases hm
  have hr : r < t.cap := by
    have : r ∈ ids := by cases hs <;> simp
    exact List.mem_range.1 (w.cover.subset (List.mem_append_left _ this))
  have hf := (w.data i o hi).2
  unfold Tree.fatOf Tree.rd at hf
  split_ifs at hf with hil
  swap
  · cases hf
  simp only [Option.map_some, Option.some.injEq] at hf
  refine ⟨(t.node r).box, ?_, ?_⟩
  · unfold treeBounds Tree.fatOf Tree.rd
    rw [e, Option.bind_some, if_pos hr, Option.map_some]
  · rw [← hf]
    exact Stored.root_contains hs i hm

theorem abs_coord {x y z r : K} (hr : 0 ≤ r) (h : x * x + y * y + z * z ≤ r * r) : -r ≤ x ∧ x ≤ r :=
  abs_le.1 (abs_le_of_sq_le_sq (by nlinarith [mul_self_nonneg y, mul_self_nonneg z]) hr)

theorem length_bound {p : V3 K} {r : K} (hr : 0 ≤ r) (h : p.lengthSq ≤ r * r) :
    (-r ≤ p.x ∧ p.x ≤ r) ∧ (-r ≤ p.y ∧ p.y ≤ r) ∧ (-r ≤ p.z ∧ p.z ≤ r) := by
  unfold V3.lengthSq at h
  refine ⟨abs_coord hr h, abs_coord (x := p.y) (y := p.x) (z := p.z) hr (by linarith), abs_coord (x := p.z) (y := p.x) (z := p.y) hr (by linarith)⟩

omit [IsStrictOrderedRing K] in
theorem rot_lengthSq {q : Quat K} (h : q.lengthSq = 1) (v : V3 K) : (q.rot v).lengthSq = v.lengthSq := rot_dot h v v

/-- **C61.** The box of a shape for a rigid transform exists and contains every point of the placed shape, for all kinds of shapes and
all scales, negative ones included. -/
theorem world_box_contains {s : Shape K} {p : V3 K} (hp : Points s p) {t : Trans K} (ht : t.ori.lengthSq = 1) :
    ∃ b, s.worldBox t = some b ∧ AABB.Mem (t.act p) b := by
  cases hp with
  | sphere hr h =>
    refine ⟨_, rfl, ?_⟩
    have := length_bound hr (by rw [rot_lengthSq ht]; exact h : (t.ori.rot p).lengthSq ≤ _)
    unfold AABB.Mem Bounds.sphere Trans.act
    simp only [V3.add_x, V3.add_y, V3.add_z, V3.sub_x, V3.sub_y, V3.sub_z]
    obtain ⟨⟨a1, a2⟩, ⟨a3, a4⟩, a5, a6⟩ := this
    exact ⟨by linarith, by linarith, by linarith, by linarith, by linarith, by linarith⟩
  | @capsule r h y p hr y1 y2 hl =>
    refine ⟨_, rfl, transformed_contains ht (inside_of_mem ?_)⟩
    have := length_bound hr hl
    simp only [V3.sub_x, V3.sub_y, V3.sub_z, sub_zero] at this
    obtain ⟨⟨a1, a2⟩, ⟨a3, a4⟩, a5, a6⟩ := this
    exact ⟨a1, a2, by show -h - r ≤ p.y; linarith, by show p.y ≤ h + r; linarith, a5, a6⟩
  | box a1 a2 a3 a4 a5 a6 => exact ⟨_, rfl, transformed_contains ht (inside_of_mem ⟨a1, a2, a3, a4, a5, a6⟩)⟩
  | @triangle a b c p h =>
    refine ⟨_, rfl, ?_⟩
    have e : AABB.Mem (t.act a) (Bounds.triangle a b c t) ∧ AABB.Mem (t.act b) (Bounds.triangle a b c t) ∧
        AABB.Mem (t.act c) (Bounds.triangle a b c t) := by
      unfold AABB.Mem Bounds.triangle min3 max3
      simp only [AABB.stdMin_eq, AABB.stdMax_eq, min_le_iff, le_max_iff, le_refl, true_or, or_true, and_self]
    refine tri_in_box ?_ e.1 e.2.1 e.2.2
    obtain ⟨i, j, k, i0, j0, k0, e, rfl⟩ := h
    refine ⟨i, j, k, i0, j0, k0, e, ?_⟩
    have lin : ∀ (k : K) (v : V3 K), t.ori.rot (V3.smul k v) = V3.smul k (t.ori.rot v) := by
      intro k v; ext <;> simp only [Quat.rot, V3.smul_x, V3.smul_y, V3.smul_z] <;> ring
    have add : ∀ a b : V3 K, t.ori.rot (a + b) = t.ori.rot a + t.ori.rot b := by
      intro a b; ext <;> simp only [Quat.rot, V3.add_x, V3.add_y, V3.add_z] <;> ring
    unfold Trans.act
    rw [add, add, lin, lin, lin]
    have : i = 1 - j - k := by linarith
    subst this
    ext <;> simp only [V3.add_x, V3.add_y, V3.add_z, V3.smul_x, V3.smul_y, V3.smul_z] <;> ring
  | @convex s vs p h =>
    cases vs with
    | nil =>
      exfalso
      have : ∀ q, ¬ Hull (K := K) [] q := by
        intro q hq
        induction hq with
        | vertex h => cases h
        | mix _ _ _ _ h _ => exact h
      exact this p h
    | cons v vs =>
      exact ⟨_, rfl, transformed_contains ht (Hull.scaled_inside (meshBounds_contains rfl) h)⟩
  | @concave s sqrt acos me ch fat f u m valid tr tri p hme hfat hi hm hp =>
    obtain ⟨S, ids, hr⟩ := init_ready hme hi
    obtain ⟨k, hk, rfl⟩ := List.getElem_of_mem hm
    obtain ⟨b, hb, hc⟩ := treeBounds_contains hr.hist (hr.obj k hk)
    have hc := AABB.contains_trans hc (hfat _ (forTriangle_valid _ _ _))
    obtain ⟨q1, q2, q3⟩ := forTriangle_mem (u.vert (trianglesOf me u)[k].1) (u.vert (trianglesOf me u)[k].2.1)
      (u.vert (trianglesOf me u)[k].2.2)
    refine ⟨transformed t (applyScale s b), ?_, transformed_contains ht ?_⟩
    · simp only [Shape.worldBox, concaveLocal, hb, Option.map_some]
    · exact Tri.inside hp (inside_scaled s (mem_of_contains hc q1)) (inside_scaled s (mem_of_contains hc q2))
        (inside_scaled s (mem_of_contains hc q3))
  | @height s cols rows src d f i j second p hi h1 h2 hp =>
    obtain ⟨hm, rfl, rfl⟩ := init_made hi
    refine ⟨_, rfl, transformed_contains ht ?_⟩
    have c : ∀ a b, a < f.cols → b < f.rows → Inside (heightLocal s f) (corner src f s a b) := by
      intro a b ha hb
      have := vertex_in_bounds hm ha hb
      rw [vertex_eq hm ha hb] at this
      exact inside_scaled s this
    cases second
    · exact Tri.inside hp (c _ _ (by omega) (by omega)) (c _ _ (by omega) (by omega)) (c _ _ (by omega) (by omega))
    · exact Tri.inside hp (c _ _ (by omega) (by omega)) (c _ _ (by omega) (by omega)) (c _ _ (by omega) (by omega))

omit [IsStrictOrderedRing K] in
theorem merge_fold {body : Trans K} {cs : List (Shape K × Trans K)} {b0 b : AABB K} (h : cs.foldlM (mergeCollider body) b0 = some b) :
    b.contains b0 = true ∧ ∀ c ∈ cs, ∃ x, c.1.worldBox (body.mul c.2) = some x ∧ b.contains x = true := by
  induction cs generalizing b0 with
  | nil => cases h; exact ⟨AABB.contains_refl _, fun c hc => by cases hc⟩
  | cons c cs ih =>
    rw [List.foldlM_cons, Option.bind_eq_bind, Option.bind_eq_some_iff] at h
    obtain ⟨b1, h1, h2⟩ := h
    unfold mergeCollider at h1
    rw [Option.map_eq_some_iff] at h1
    obtain ⟨x, hx, rfl⟩ := h1
    obtain ⟨i1, i2⟩ := ih h2
    refine ⟨AABB.contains_trans i1 (AABB.contains_merge_left _ _), fun d hd => ?_⟩
    rcases List.mem_cons.1 hd with rfl | hd
    · exact ⟨x, hx, AABB.contains_trans i1 (AABB.contains_merge_right _ _)⟩
    · exact i2 d hd

/-- **C61.** The box of a body contains every point of every collider of the body. -/
theorem body_box_contains {body : Trans K} {cs : List (Shape K × Trans K)} {b : AABB K} (hb : bodyBox body cs = some b)
    (hu : body.ori.lengthSq = 1) {s : Shape K} {t : Trans K} (hc : (s, t) ∈ cs) (ht : t.ori.lengthSq = 1) {p : V3 K} (hp : Points s p) :
    AABB.Mem (body.act (t.act p)) b := by
  have key : ∃ x, s.worldBox (body.mul t) = some x ∧ b.contains x = true := by
    cases cs with
    | nil => cases hc
    | cons c cs =>
      unfold bodyBox at hb
      rw [Option.bind_eq_bind, Option.bind_eq_some_iff] at hb
      obtain ⟨b0, h0, h1⟩ := hb
      obtain ⟨i1, i2⟩ := merge_fold h1
      rcases List.mem_cons.1 hc with rfl | hc
      · exact ⟨b0, h0, i1⟩
      · exact i2 _ hc
  obtain ⟨x, hx, hbx⟩ := key
  have hmul : (body.mul t).ori.lengthSq = 1 := by rw [trans_mul_eq]; exact unit_mul hu ht
  obtain ⟨y, hy, hm⟩ := world_box_contains hp hmul
  rw [hx] at hy
  cases hy
  rw [trans_mul_act] at hm
  exact mem_of_contains hbx hm

/-- **C61.** Nothing is wasted for spheres: every box with all the points of the ball contains the computed one. -/
theorem sphere_box_least {r : K} (hr : 0 ≤ r) {t : Trans K} (ht : t.ori.lengthSq = 1) {c : AABB K}
    (h : ∀ p : V3 K, p.lengthSq ≤ r * r → AABB.Mem (t.act p) c) : c.contains (Bounds.sphere r t) = true := by
  have key : ∀ q : V3 K, q.lengthSq ≤ r * r → AABB.Mem (q + t.pos) c := by
    intro q hq
    have := h (t.ori.conj.rot q) (by rw [rot_lengthSq (unit_inverse ht)]; exact hq)
    unfold Trans.act at this
    rwa [rot_conj' ht] at this
  have l : ∀ x y z : K, x * x + y * y + z * z = r * r → (⟨x, y, z⟩ : V3 K).lengthSq ≤ r * r := fun x y z e => le_of_eq e
  have x1 := (key ⟨-r, 0, 0⟩ (l _ _ _ (by ring))).1
  have x2 := (key ⟨r, 0, 0⟩ (l _ _ _ (by ring))).2.1
  have y1 := (key ⟨0, -r, 0⟩ (l _ _ _ (by ring))).2.2.1
  have y2 := (key ⟨0, r, 0⟩ (l _ _ _ (by ring))).2.2.2.1
  have z1 := (key ⟨0, 0, -r⟩ (l _ _ _ (by ring))).2.2.2.2.1
  have z2 := (key ⟨0, 0, r⟩ (l _ _ _ (by ring))).2.2.2.2.2
  rw [AABB.contains_iff]
  simp only [V3.add_x, V3.add_y, V3.add_z] at x1 x2 y1 y2 z1 z2
  unfold Bounds.sphere
  simp only [V3.add_x, V3.add_y, V3.add_z, V3.sub_x, V3.sub_y, V3.sub_z]
  exact ⟨by linarith, by linarith, by linarith, by linarith, by linarith, by linarith⟩

/-- **C61.** The box of a box shape is the least one with all its points. -/
theorem box_box_least {h : V3 K} (h0 : 0 ≤ h.x ∧ 0 ≤ h.y ∧ 0 ≤ h.z) {t : Trans K} (ht : t.ori.lengthSq = 1) {c : AABB K}
    (hc : ∀ p, Points (.box h) p → AABB.Mem (t.act p) c) : ∃ b, (Shape.box h).worldBox t = some b ∧ c.contains b = true := by
  refine ⟨_, rfl, transformed_least ht fun v hv => hc v ?_⟩
  obtain ⟨x, y, z⟩ := hv
  have one : ∀ {a x : K}, 0 ≤ a → Btw (-a) a x → -a ≤ x ∧ x ≤ a := by
    intro a x ha hx
    rcases hx with ⟨h1, h2⟩ | ⟨h1, h2⟩ <;> constructor <;> linarith
  exact .box (one h0.1 x).1 (one h0.1 x).2 (one h0.2.1 y).1 (one h0.2.1 y).2 (one h0.2.2 z).1 (one h0.2.2 z).2

/-! Examples. -/

/-- A turn about the z-axis with a translation. -/
def turn : Trans ℚ := ⟨⟨1, 2, 3⟩, ⟨0, 0, 3 / 5, 4 / 5⟩⟩

example : turn.ori.lengthSq = 1 := by decide +kernel

/-- A tetrahedron, mirrored and stretched: the corners of its local bounds are exchanged. -/
def tetra : Shape ℚ := .convex ⟨-2, 1, 1⟩ [⟨0, 0, 0⟩, ⟨1, 0, 0⟩, ⟨0, 1, 0⟩, ⟨0, 0, 1⟩]

example : Points tetra ⟨-1, 1 / 2, 0⟩ := by
  have h1 : Hull (K := ℚ) [scaleBy ⟨-2, 1, 1⟩ ⟨0, 0, 0⟩, scaleBy ⟨-2, 1, 1⟩ ⟨1, 0, 0⟩, scaleBy ⟨-2, 1, 1⟩ ⟨0, 1, 0⟩, scaleBy ⟨-2, 1, 1⟩ ⟨0, 0, 1⟩]
      (scaleBy ⟨-2, 1, 1⟩ ⟨1, 0, 0⟩) := .vertex (by decide +kernel)
  have h2 : Hull (K := ℚ) [scaleBy ⟨-2, 1, 1⟩ ⟨0, 0, 0⟩, scaleBy ⟨-2, 1, 1⟩ ⟨1, 0, 0⟩, scaleBy ⟨-2, 1, 1⟩ ⟨0, 1, 0⟩, scaleBy ⟨-2, 1, 1⟩ ⟨0, 0, 1⟩]
      (scaleBy ⟨-2, 1, 1⟩ ⟨0, 1, 0⟩) := .vertex (by decide +kernel)
  have := Hull.mix h1 h2 (by norm_num : (0 : ℚ) ≤ 1 / 2) (by norm_num)
  have e : V3.smul (1 - 1 / 2) (scaleBy ⟨-2, 1, 1⟩ ⟨1, 0, 0⟩) + V3.smul (1 / 2) (scaleBy ⟨-2, 1, 1⟩ ⟨0, 1, 0⟩) =
      (⟨-1, 1 / 2, 0⟩ : V3 ℚ) := by ext <;> decide +kernel
  rw [e] at this
  exact .convex this

example : (meshLocal ⟨-2, 1, 1⟩ [⟨0, 0, 0⟩, ⟨1, 0, 0⟩, ⟨0, 1, 0⟩, ⟨0, 0, 1⟩] : Option (AABB ℚ)) = some ⟨⟨0, 0, 0⟩, ⟨-2, 1, 1⟩⟩ := by
  decide +kernel

example : Points (.capsule 1 2 : Shape ℚ) ⟨3 / 5, 2, 4 / 5⟩ := .capsule (y := 2) (by norm_num) (by norm_num) (by norm_num) (by decide +kernel)

example : ∃ b, bodyBox turn [(.sphere 1, Trans.one), (.box ⟨1, 2, 3⟩, turn), (tetra, Trans.one)] = some b := ⟨_, rfl⟩

/-- A corner of the mirrored ground. -/
example : ∃ t, Points (.concave ⟨-1, 1, 1⟩ t : Shape ℚ) ⟨1, 0, -1⟩ := by
  obtain ⟨m, t, h⟩ := ground_made
  refine ⟨t, .concave (tri := (0, 2, 1)) (by norm_num [me]) (fun b _ => AABB.contains_refl b) h (by rw [ground_triangles]; simp) ?_⟩
  refine ⟨1, 0, 0, by norm_num, by norm_num, by norm_num, by norm_num, ?_⟩
  ext <;> decide +kernel

end BoundsProps
end RP3D
