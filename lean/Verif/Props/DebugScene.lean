import Verif.Props.DebugDraw

/-! C131: convex meshes, meshes of triangles, height fields, contacts and the whole world. -/

namespace RP3D
namespace Debug
open V3

variable {K : Type} [Field K] [LinearOrder K]

/-! ### Loops -/

theorem mem_each_tris {α : Type} {f : α → Canvas K} {l : List α} {t : Tri K} : t ∈ (Canvas.each f l).tris ↔ ∃ x ∈ l, t ∈ (f x).tris := by
  simp [Canvas.each]

theorem mem_each_lines {α : Type} {f : α → Canvas K} {l : List α} {t : Line K} : t ∈ (Canvas.each f l).lines ↔ ∃ x ∈ l, t ∈ (f x).lines := by
  simp [Canvas.each]

theorem append_lines (a b : Canvas K) : (a ++ b).lines = a.lines ++ b.lines := rfl
theorem append_tris (a b : Canvas K) : (a ++ b).tris = a.tris ++ b.tris := rfl

theorem mem_mapM {α β : Type} {f : α → Option β} : ∀ {l : List α} {ys : List β}, l.mapM f = some ys → ∀ y, y ∈ ys ↔ ∃ x ∈ l, f x = some y := by
  intro l
  induction l with
  | nil =>
    intro ys h y
    simp only [List.mapM_nil] at h
    cases h
    simp
  | cons a l ih =>
    intro ys h y
    simp only [List.mapM_cons, Option.pure_def, Option.bind_eq_bind, Option.bind_eq_some_iff] at h
    obtain ⟨b, hb, bs, hbs, e⟩ := h
    cases e
    rw [List.mem_cons, ih hbs y]
    constructor
    · rintro (rfl | ⟨x, hx, e⟩)
      · exact ⟨a, List.mem_cons_self, hb⟩
      · exact ⟨x, List.mem_cons_of_mem _ hx, e⟩
    · rintro ⟨x, hx, e⟩
      rcases List.mem_cons.1 hx with rfl | hx
      · exact .inl (Option.some.inj (e.symm.trans hb))
      · exact .inr ⟨x, hx, e⟩

/-! ### Face normals of boxes -/

/-- Spec: the six directions of the faces of a box. -/
def directions : List (V3 K) := [⟨0, 0, 1⟩, ⟨1, 0, 0⟩, ⟨0, 0, -1⟩, ⟨-1, 0, 0⟩, ⟨0, -1, 0⟩, ⟨0, 1, 0⟩]

/-- C131: the normals of a box are six lines from the centres of its faces, of the chosen length, at right angles to the faces. -/
theorem box_normals [IsStrictOrderedRing K] (flags : BitVec 32) (len : K) (t : Trans K) (h : V3 K) (hd : displayed flags .shapeNormal = true) :
    (drawBox flags len t h).lines = directions.map fun n =>
      ⟨t.act ⟨h.x * n.x, h.y * n.y, h.z * n.z⟩, t.act ⟨h.x * n.x, h.y * n.y, h.z * n.z⟩ + smul len (t.ori.rot n), Item.shapeNormal.colour⟩ := by
  have e : ∀ a b : V3 K, t.act (a + smul len b) = t.act a + smul len (t.ori.rot b) := fun a b => by
    ext <;> simp only [Trans.act, Quat.rot, add_x, add_y, add_z, smul_x, smul_y, smul_z] <;> ring
  have h4 : (4 : K) ≠ 0 := four_ne_zero
  simp only [drawBox, hd, if_true, boxNormals, e]
  have hr : List.range 6 = [0, 1, 2, 3, 4, 5] := rfl
  rw [hr]
  simp only [List.map_cons, List.map_nil, directions, Sat.boxFaces, List.getD_cons_zero, List.getD_cons_succ, Sat.boxVert, Sat.boxNormal]
  have c : ∀ p q : V3 K, p = q → ∀ n k, (⟨t.act p, t.act p + smul len n, k⟩ : Line K) = ⟨t.act q, t.act q + smul len n, k⟩ := by
    rintro p q rfl n k
    rfl
  refine congrArg₂ _ (c _ _ ?_ _ _) (congrArg₂ _ (c _ _ ?_ _ _) (congrArg₂ _ (c _ _ ?_ _ _) (congrArg₂ _ (c _ _ ?_ _ _) (congrArg₂ _ (c _ _ ?_ _ _)
    (congrArg₂ _ (c _ _ ?_ _ _) rfl))))) <;>
    ext <;> simp only [smul_x, smul_y, smul_z, add_x, add_y, add_z] <;> ring

/-! ### Convex meshes -/

theorem triples_mem {α : Type} : ∀ {l : List α} {T : α × α × α}, T ∈ triples l → T.1 ∈ l ∧ T.2.1 ∈ l ∧ T.2.2 ∈ l
  | [], _, h => by simp [triples] at h
  | [_], _, h => by simp [triples] at h
  | [_, _], _, h => by simp [triples] at h
  | a :: b :: c :: l, T, h => by
    rcases List.mem_cons.1 h with rfl | h
    · simp
    · obtain ⟨h1, h2, h3⟩ := triples_mem h
      exact ⟨List.mem_cons_of_mem _ h1, List.mem_cons_of_mem _ h2, List.mem_cons_of_mem _ h3⟩

section Order
variable [IsStrictOrderedRing K]

/-- C131, what holds of convex meshes (partial): the vertices of the triangles are vertices of a face, in the pose of the collider, and a
face with three vertices is drawn as one triangle. -/
theorem convex_drawn_partial (flags : BitVec 32) (len : K) (t : Trans K) (faces : List (List (V3 K) × V3 K)) :
    (∀ T ∈ (drawConvex flags len t faces).tris, ∃ f ∈ faces, T.colour = Item.shape.colour ∧ (∃ p ∈ f.1, T.a = t.act p) ∧ (∃ p ∈ f.1, T.b = t.act p) ∧
      ∃ p ∈ f.1, T.c = t.act p) ∧
    (displayed flags .shape = true → ∀ a b c n, ([a, b, c], n) ∈ faces →
      (⟨t.act a, t.act b, t.act c, Item.shape.colour⟩ : Tri K) ∈ (drawConvex flags len t faces).tris) := by
  constructor
  · intro T hT
    obtain ⟨f, hf, hT⟩ := mem_each_tris.1 hT
    refine ⟨f, hf, ?_⟩
    dsimp only at hT
    split at hT
    · obtain ⟨P, hP, rfl⟩ := List.mem_map.1 hT
      obtain ⟨h1, h2, h3⟩ := triples_mem hP
      obtain ⟨p1, hp1, e1⟩ := List.mem_map.1 h1
      obtain ⟨p2, hp2, e2⟩ := List.mem_map.1 h2
      obtain ⟨p3, hp3, e3⟩ := List.mem_map.1 h3
      exact ⟨rfl, ⟨p1, hp1, e1.symm⟩, ⟨p2, hp2, e2.symm⟩, ⟨p3, hp3, e3.symm⟩⟩
    · simp at hT
  · intro hd a b c n hf
    refine mem_each_tris.2 ⟨_, hf, ?_⟩
    simp [hd, triples]

theorem foldl_act (t : Trans K) : ∀ (l : List (V3 K)) (a : V3 K), (l.map t.act).foldl (· + ·) a = a + smul (l.length : K) t.pos + t.ori.rot (l.foldl (· + ·) 0)
  | [], a => by ext <;> simp [Quat.rot]
  | p :: l, a => by
    have h0 : ∀ (l : List (V3 K)) (a : V3 K), l.foldl (· + ·) a = a + l.foldl (· + ·) 0 := by
      intro l
      induction l with
      | nil => intro a; ext <;> simp
      | cons q l ih =>
        intro a
        rw [List.foldl_cons, List.foldl_cons, ih, ih (0 + q)]
        ext <;> simp [add_assoc]
    rw [List.map_cons, List.foldl_cons, foldl_act t l, List.foldl_cons, h0 l (0 + p)]
    ext <;> simp only [Trans.act, Quat.rot, add_x, add_y, add_z, smul_x, smul_y, smul_z, zero_x, zero_y, zero_z, List.length_cons] <;> push_cast <;> ring

/-- C131: the normal of a face of a convex mesh starts at the mean of its vertices, in the pose of the collider; that of a vertex of a mesh starts at the vertex. -/
theorem mesh_normals (flags : BitVec 32) (len : K) (t : Trans K) (faces : List (List (V3 K) × V3 K)) (hf : ∀ f ∈ faces, f.1 ≠ [])
    (tris : List (V3 K × V3 K × V3 K)) (vs : List (V3 K × V3 K)) (hd : displayed flags .shapeNormal = true) :
    (drawConvex flags len t faces).lines = faces.map (fun f => ⟨t.act (smul (1 / (f.1.length : K)) (f.1.foldl (· + ·) 0)),
      t.act (smul (1 / (f.1.length : K)) (f.1.foldl (· + ·) 0)) + smul len (t.ori.rot f.2), Item.shapeNormal.colour⟩) ∧
    (drawConcave flags len t tris vs).lines = vs.map fun v => ⟨t.act v.1, t.act v.1 + smul len (t.ori.rot v.2), Item.shapeNormal.colour⟩ := by
  constructor
  · have key : ∀ f ∈ faces, centroid (f.1.map t.act) = t.act (smul (1 / (f.1.length : K)) (f.1.foldl (· + ·) 0)) := by
      intro f h
      have hn : (f.1.length : K) ≠ 0 := Nat.cast_ne_zero.2 (fun e => hf f h (List.length_eq_zero_iff.1 e))
      rw [centroid, foldl_act, List.length_map]
      ext <;> simp only [Trans.act, Quat.rot, add_x, add_y, add_z, smul_x, smul_y, smul_z, zero_x, zero_y, zero_z] <;> field_simp <;> ring
    simp only [drawConvex, Canvas.each, hd, if_true]
    rw [← List.flatMap_singleton' (faces.map _)] 
    rw [List.flatMap_map]
    refine List.flatMap_congr fun f h => ?_
    rw [key f h]
  · simp [drawConcave, hd]

/-- A point of a triangle that is extreme in a direction, when one vertex at most is extreme. -/
theorem extreme_vertex {d : V3 K} {m : K} {a x y w p : V3 K} (hx : x = a ∨ d.dot x < m) (hy : y = a ∨ d.dot y < m) (hw : w = a ∨ d.dot w < m) (ha : d.dot a = m)
    (hp : d.dot p = m) (h : InTri x y w p) : p = a := by
  obtain ⟨u, v, s, hu, hv, hs, e, rfl⟩ := h
  have hle : ∀ {z : V3 K}, z = a ∨ d.dot z < m → d.dot z ≤ m := fun h => h.elim (fun e => by rw [e, ha]) le_of_lt
  have hs' : u * (m - d.dot x) + v * (m - d.dot y) + s * (m - d.dot w) = 0 := by
    have : d.dot (smul u x + smul v y + smul s w) = u * d.dot x + v * d.dot y + s * d.dot w := by
      simp only [dot, add_x, add_y, add_z, smul_x, smul_y, smul_z]
      ring
    rw [this] at hp
    linear_combination m * e - hp
  have n1 := mul_nonneg hu (sub_nonneg.2 (hle hx))
  have n2 := mul_nonneg hv (sub_nonneg.2 (hle hy))
  have n3 := mul_nonneg hs (sub_nonneg.2 (hle hw))
  have z : ∀ {k : K} {z : V3 K}, k * (m - d.dot z) = 0 → (z = a ∨ d.dot z < m) → smul k z = smul k a := fun {k z} h0 h => by
    rcases h with rfl | h
    · rfl
    · rcases mul_eq_zero.1 h0 with rfl | h1
      · ext <;> simp
      · exact absurd (sub_eq_zero.1 h1) (ne_of_gt h)
  rw [z (by linarith) hx, z (by linarith) hy, z (by linarith) hw]
  ext <;> simp only [add_x, add_y, add_z, smul_x, smul_y, smul_z]
  · linear_combination a.x * e
  · linear_combination a.y * e
  · linear_combination a.z * e

/-- C131 fails: a face with more than three vertices is drawn with a gap. In the direction `d` of the side from the last vertex to the first one, the
other vertices are below this side; the middle of the side is a point of the face, and no triangle of the face shows it. -/
theorem face_gap (t : Trans K) (a z : V3 K) (rest : List (V3 K)) (hrest : 2 ≤ rest.length) (haz : a ≠ z) (d : V3 K) (m : K) (ha : d.dot (t.act a) = m)
    (hz : d.dot (t.act z) = m) (hr : ∀ v ∈ rest, d.dot (t.act v) < m) (hinj : t.act a ≠ t.act z) :
    ∀ T ∈ triples ((a :: (rest ++ [z])).map t.act), ¬ InTri T.1 T.2.1 T.2.2 (t.act (smul (1 / 2) (a + z))) := by
  intro T hT hin
  have hmid : t.act (smul (1 / 2) (a + z)) = smul (1 / 2) (t.act a + t.act z) := by
    have h2 : (2 : K) ≠ 0 := two_ne_zero
    ext <;> simp only [Trans.act, Quat.rot, add_x, add_y, add_z, smul_x, smul_y, smul_z] <;> field_simp <;> ring
  rw [hmid] at hin
  have hdot : d.dot (smul (1 / 2) (t.act a + t.act z)) = m := by
    have : d.dot (smul (1 / 2) (t.act a + t.act z)) = 1 / 2 * (d.dot (t.act a) + d.dot (t.act z)) := by
      simp only [dot, add_x, add_y, add_z, smul_x, smul_y, smul_z]
      ring
    rw [this, ha, hz]
    ring
  have hne : ∀ {p q : V3 K}, smul (1 / 2) (p + q) = p → q = p := fun {p q} h => by
    have hx := congrArg V3.x h
    have hy := congrArg V3.y h
    have hz := congrArg V3.z h
    simp only [smul_x, smul_y, smul_z, add_x, add_y, add_z] at hx hy hz
    ext <;> linarith
  obtain ⟨b, c, l, rfl⟩ : ∃ b c l, rest = b :: c :: l := by
    match rest, hrest with
    | b :: c :: l, _ => exact ⟨b, c, l, rfl⟩
  simp only [List.map_cons, List.map_append, List.map_nil, List.cons_append, triples] at hT
  rcases List.mem_cons.1 hT with rfl | hT
  · have hb := hr b (by simp)
    have hc := hr c (by simp)
    have := extreme_vertex (.inl rfl) (.inr hb) (.inr hc) ha hdot hin
    exact hinj (hne this).symm
  · have hlow : ∀ v ∈ t.act b :: t.act c :: (l.map t.act ++ [t.act z]), v = t.act z ∨ d.dot v < m := by
      intro v hv
      simp only [List.mem_cons, List.mem_append, List.mem_map, List.not_mem_nil, or_false] at hv
      rcases hv with rfl | rfl | ⟨x, hx, rfl⟩ | rfl
      · exact .inr (hr b (by simp))
      · exact .inr (hr c (by simp))
      · exact .inr (hr x (by simp [hx]))
      · exact .inl rfl
    have hT' : T ∈ triples (t.act b :: t.act c :: (l.map t.act ++ [t.act z])) := hT
    obtain ⟨h1, h2, h3⟩ := triples_mem hT'
    have := extreme_vertex (hlow _ h1) (hlow _ h2) (hlow _ h3) hz hdot hin
    refine hinj (hne (p := t.act z) (q := t.act a) (Eq.trans ?_ this))
    ext <;> simp only [smul_x, smul_y, smul_z, add_x, add_y, add_z] <;> ring

end Order

/-! ### Meshes of triangles and height fields -/

/-- C131: the triangles drawn for a mesh are exactly its triangles, and every triangle handed to the collision tests is drawn. -/
theorem mesh_drawn (flags : BitVec 32) (len : K) (t : Trans K) (m : TriMesh.TMesh K) (scale : V3 K) (tris : List (V3 K × V3 K × V3 K))
    (vs : List (V3 K × V3 K)) (hd : displayed flags .shape = true) (hm : meshTris m scale = some tris) :
    (∀ T, T ∈ (drawConcave flags len t tris vs).tris ↔ ∃ k a b c, k < m.tris.length / 3 ∧ Concave.triangleAt m scale k = some (a, b, c) ∧
      T = ⟨t.act a, t.act b, t.act c, Item.shape.colour⟩) ∧
    ∀ (tree : Tree K) (box : AABB K) items, Concave.overlapping m tree scale box = some items → ∀ i ∈ items,
      (⟨t.act i.a, t.act i.b, t.act i.c, Item.shape.colour⟩ : Tri K) ∈ (drawConcave flags len t tris vs).tris := by
  have key : ∀ T, T ∈ (drawConcave flags len t tris vs).tris ↔ ∃ k a b c, k < m.tris.length / 3 ∧ Concave.triangleAt m scale k = some (a, b, c) ∧
      T = ⟨t.act a, t.act b, t.act c, Item.shape.colour⟩ := by
    intro T
    simp only [drawConcave, hd, if_true, List.mem_map]
    constructor
    · rintro ⟨p, hp, rfl⟩
      obtain ⟨k, hk, e⟩ := (mem_mapM hm p).1 hp
      exact ⟨k, p.1, p.2.1, p.2.2, List.mem_range.1 hk, e, rfl⟩
    · rintro ⟨k, a, b, c, hk, e, rfl⟩
      exact ⟨(a, b, c), (mem_mapM hm _).2 ⟨k, List.mem_range.2 hk, e⟩, rfl⟩
  refine ⟨key, fun tree box items h i hi => (key _).2 ?_⟩
  simp only [Concave.overlapping, Option.bind_eq_bind, Option.bind_eq_some_iff] at h
  obtain ⟨nodes, _, h⟩ := h
  obtain ⟨node, _, h⟩ := (mem_mapM h i).1 hi
  simp only [Concave.itemAt, Option.bind_eq_bind, Option.bind_eq_some_iff] at h
  obtain ⟨k, _, ⟨a, b, c⟩, ht, e⟩ := h
  have e := Option.some.inj e
  subst e
  refine ⟨k, a, b, c, ?_, ht, rfl⟩
  simp only [Concave.triangleAt, Option.map_eq_some_iff, TriMesh.TMesh.triangle, Option.bind_eq_bind, Option.bind_eq_some_iff] at ht
  obtain ⟨_, ⟨_, _, _, _, z, hz, _⟩, _⟩ := ht
  have := (List.getElem?_eq_some_iff.1 hz).1
  omega

theorem mem_cells {f : Height.HField K} {c : Nat × Nat} : c ∈ cells f ↔ c.1 < f.cols - 1 ∧ c.2 < f.rows - 1 := by
  obtain ⟨i, j⟩ := c
  simp [cells]

/-- C131: the triangles drawn for a height field are exactly the two triangles of its cells, and every triangle handed to the collision tests is drawn. -/
theorem height_drawn [FloorRing K] (unit : V3 K → V3 K) (flags : BitVec 32) (len : K) (t : Trans K) (f : Height.HField K) (scale : V3 K) (cv : Canvas K)
    (hd : displayed flags .shape = true) (hc : drawHeight unit flags len t f scale = some cv) :
    (∀ T, T ∈ cv.tris ↔ ∃ i j items, i < f.cols - 1 ∧ j < f.rows - 1 ∧ f.quad scale i j = some items ∧ ∃ it ∈ items,
      T = ⟨t.act it.a, t.act it.b, t.act it.c, Item.shape.colour⟩) ∧
    ∀ (box : AABB K) items, Height.shapeOverlapping f scale box = some items → ∀ it ∈ items,
      (⟨t.act it.a, t.act it.b, t.act it.c, Item.shape.colour⟩ : Tri K) ∈ cv.tris := by
  simp only [drawHeight, Option.map_eq_some_iff] at hc
  obtain ⟨qs, hqs, rfl⟩ := hc
  have hq : ∀ i j q, quadAt f scale i j = some q ↔ ∃ items, f.quad scale i j = some items ∧
      items = [⟨q.1, q.2.1, q.2.2.1, f.shapeId i j 0⟩, ⟨q.2.2.1, q.2.1, q.2.2.2, f.shapeId i j 1⟩] := by
    rintro i j ⟨q1, q2, q3, q4⟩
    simp only [quadAt, Height.HField.quad, Option.bind_eq_bind, Option.bind_eq_some_iff, Option.pure_def, Option.some.injEq]
    constructor
    · rintro ⟨p1, h1, p2, h2, p3, h3, p4, h4, e⟩
      cases e
      exact ⟨_, ⟨p1, h1, p2, h2, p3, h3, p4, h4, rfl⟩, rfl⟩
    · rintro ⟨items, ⟨p1, h1, p2, h2, p3, h3, p4, h4, e⟩, rfl⟩
      injection e with e1 e2
      injection e2 with e2 e3
      injection e1 with a1 a2 a3 a4
      injection e2 with b1 b2 b3 b4
      exact ⟨p1, h1, p2, h2, p3, h3, p4, h4, by rw [a1, a2, a3, b3]⟩
  have key : ∀ T, T ∈ (Canvas.each (drawQuad unit flags len t) qs).tris ↔ ∃ i j items, i < f.cols - 1 ∧ j < f.rows - 1 ∧
      f.quad scale i j = some items ∧ ∃ it ∈ items, T = ⟨t.act it.a, t.act it.b, t.act it.c, Item.shape.colour⟩ := by
    intro T
    rw [mem_each_tris]
    constructor
    · rintro ⟨q, hqm, hT⟩
      obtain ⟨⟨i, j⟩, hij, e⟩ := (mem_mapM hqs q).1 hqm
      obtain ⟨hi, hj⟩ := mem_cells.1 hij
      obtain ⟨items, h1, h2⟩ := (hq i j q).1 e
      refine ⟨i, j, items, hi, hj, h1, ?_⟩
      simp only [drawQuad, hd, if_true, List.mem_cons, List.not_mem_nil, or_false] at hT
      rw [h2]
      rcases hT with rfl | rfl
      · exact ⟨_, List.mem_cons_self, rfl⟩
      · exact ⟨_, List.mem_cons_of_mem _ List.mem_cons_self, rfl⟩
    · rintro ⟨i, j, items, hi, hj, h1, it, hit, rfl⟩
      obtain ⟨q, e⟩ : ∃ q, quadAt f scale i j = some q := by
        simp only [Height.HField.quad, Option.bind_eq_bind, Option.bind_eq_some_iff] at h1
        obtain ⟨p1, g1, p2, g2, p3, g3, p4, g4, _⟩ := h1
        exact ⟨_, by simp [quadAt, g1, g2, g3, g4]; rfl⟩
      obtain ⟨items', g1, g2⟩ := (hq i j q).1 e
      have := Option.some.inj (h1.symm.trans g1)
      subst this
      refine ⟨q, (mem_mapM hqs q).2 ⟨(i, j), mem_cells.2 ⟨hi, hj⟩, e⟩, ?_⟩
      rw [g2] at hit
      simp only [List.mem_cons, List.not_mem_nil, or_false] at hit
      rcases hit with rfl | rfl <;> simp [drawQuad, hd]
  refine ⟨key, fun box items h it hit => (key _).2 ?_⟩
  simp only [Height.shapeOverlapping, Height.HField.overlapping, Option.map_eq_some_iff] at h
  obtain ⟨ls, hls, rfl⟩ := h
  obtain ⟨l, hl, hit⟩ := List.mem_flatten.1 hit
  obtain ⟨⟨i, j⟩, hij, e⟩ := (mem_mapM hls l).1 hl
  refine ⟨i, j, l, ?_, ?_, e, it, hit, rfl⟩
  all_goals
    simp only [Height.HField.quad, Option.bind_eq_bind, Option.bind_eq_some_iff, Height.HField.vertexAt] at e
    obtain ⟨_, _, _, _, _, _, p4, ⟨h4, hh, _⟩, _⟩ := e
    simp only [Height.HField.heightAt] at hh
    split at hh
    · rename_i hlt
      omega
    · cases hh

/-! ### Contacts -/

/-- C131: the contact points that are drawn are those of the pairs in contact, at the place of the point on the first collider. -/
theorem contacts_drawn (g : Cfg K) (ps : List (Pair K)) :
    (∀ l, l ∈ (drawContacts g ps).lines ↔ displayed g.flags .normal = true ∧ ∃ p ∈ ps, p.lost = false ∧ ∃ q ∈ p.points,
      l = ⟨p.pose.act q.1, p.pose.act q.1 + smul g.normalLength q.2, Item.normal.colour⟩) ∧
    ∀ T, T ∈ (drawContacts g ps).tris ↔ displayed g.flags .point = true ∧ ∃ p ∈ ps, p.lost = false ∧ ∃ q ∈ p.points,
      T ∈ drawSphere g.trig (p.pose.act q.1) g.pointRadius Item.point.colour := by
  constructor
  · intro l
    unfold drawContacts
    cases h1 : displayed g.flags .normal <;> cases h2 : displayed g.flags .point <;>
      simp only [Bool.or_self, Bool.or_true, Bool.true_or, Bool.or_false, Bool.false_eq_true, if_true, if_false, false_and, true_and, Canvas.empty, List.not_mem_nil, iff_false]
    · rw [mem_each_lines]
      rintro ⟨p, _, h⟩
      split at h
      · simp at h
      · obtain ⟨q, _, h⟩ := mem_each_lines.1 h
        simp [drawPoint, h1] at h
    all_goals
      rw [mem_each_lines]
      constructor
      · rintro ⟨p, hp, h⟩
        split at h
        · simp at h
        · rename_i hl
          obtain ⟨q, hq, h⟩ := mem_each_lines.1 h
          exact ⟨p, hp, by simpa using hl, q, hq, by simpa [drawPoint, h1] using h⟩
      · rintro ⟨p, hp, hl, q, hq, rfl⟩
        refine ⟨p, hp, ?_⟩
        rw [hl]
        exact mem_each_lines.2 ⟨q, hq, by simp [drawPoint, h1]⟩
  · intro T
    unfold drawContacts
    cases h1 : displayed g.flags .normal <;> cases h2 : displayed g.flags .point <;>
      simp only [Bool.or_self, Bool.or_true, Bool.true_or, Bool.or_false, Bool.false_eq_true, if_true, if_false, false_and, true_and, Canvas.empty, List.not_mem_nil, iff_false]
    · rw [mem_each_tris]
      constructor
      · rintro ⟨p, hp, h⟩
        split at h
        · simp at h
        · rename_i hl
          obtain ⟨q, hq, h⟩ := mem_each_tris.1 h
          exact ⟨p, hp, by simpa using hl, q, hq, by simpa [drawPoint, h2] using h⟩
      · rintro ⟨p, hp, hl, q, hq, h⟩
        refine ⟨p, hp, ?_⟩
        rw [hl]
        exact mem_each_tris.2 ⟨q, hq, by simpa [drawPoint, h2] using h⟩
    · rw [mem_each_tris]
      rintro ⟨p, _, h⟩
      split at h
      · simp at h
      · obtain ⟨q, _, h⟩ := mem_each_tris.1 h
        simp [drawPoint, h2] at h
    · rw [mem_each_tris]
      constructor
      · rintro ⟨p, hp, h⟩
        split at h
        · simp at h
        · rename_i hl
          obtain ⟨q, hq, h⟩ := mem_each_tris.1 h
          exact ⟨p, hp, by simpa using hl, q, hq, by simpa [drawPoint, h2] using h⟩
      · rintro ⟨p, hp, hl, q, hq, h⟩
        refine ⟨p, hp, ?_⟩
        rw [hl]
        exact mem_each_tris.2 ⟨q, hq, by simpa [drawPoint, h2] using h⟩

/-! ### The world -/

/-- What is drawn for the world is what is drawn for the colliders of its active bodies that have debug rendering enabled. -/
theorem world_drawn (g : Cfg K) : ∀ (bodies : List (Body K)) (cv : Canvas K), drawWorld g bodies = some cv →
    (∀ l, l ∈ cv.lines ↔ ∃ b ∈ bodies, b.active = true ∧ b.debug = true ∧ ∃ c ∈ b.colliders, ∃ d, drawCollider g c = some d ∧ l ∈ d.lines) ∧
    ∀ T, T ∈ cv.tris ↔ ∃ b ∈ bodies, b.active = true ∧ b.debug = true ∧ ∃ c ∈ b.colliders, ∃ d, drawCollider g c = some d ∧ T ∈ d.tris := by
  intro bodies
  induction bodies with
  | nil =>
    intro cv h
    cases h
    simp [Canvas.empty]
  | cons b bs ih =>
    intro cv h
    simp only [drawWorld, Option.bind_eq_some_iff, Option.map_eq_some_iff (f := fun rest => _ ++ rest)] at h
    obtain ⟨here, hh, rest, hr, rfl⟩ := h
    obtain ⟨i1, i2⟩ := ih rest hr
    have hb : (∀ l, l ∈ here.lines ↔ b.active = true ∧ b.debug = true ∧ ∃ c ∈ b.colliders, ∃ d, drawCollider g c = some d ∧ l ∈ d.lines) ∧
        ∀ T, T ∈ here.tris ↔ b.active = true ∧ b.debug = true ∧ ∃ c ∈ b.colliders, ∃ d, drawCollider g c = some d ∧ T ∈ d.tris := by
      split at hh
      · rename_i hab
        obtain ⟨ha, hd⟩ := Bool.and_eq_true_iff.1 hab
        obtain ⟨ds, hds, rfl⟩ := Option.map_eq_some_iff.1 hh
        constructor
        · intro l
          rw [mem_each_lines]
          constructor
          · rintro ⟨d, hd', hl⟩
            obtain ⟨c, hc, e⟩ := (mem_mapM hds d).1 hd'
            exact ⟨ha, hd, c, hc, d, e, hl⟩
          · rintro ⟨_, _, c, hc, d, e, hl⟩
            exact ⟨d, (mem_mapM hds d).2 ⟨c, hc, e⟩, hl⟩
        · intro l
          rw [mem_each_tris]
          constructor
          · rintro ⟨d, hd', hl⟩
            obtain ⟨c, hc, e⟩ := (mem_mapM hds d).1 hd'
            exact ⟨ha, hd, c, hc, d, e, hl⟩
          · rintro ⟨_, _, c, hc, d, e, hl⟩
            exact ⟨d, (mem_mapM hds d).2 ⟨c, hc, e⟩, hl⟩
      · rename_i hab
        cases hh
        simp only [Canvas.empty, List.not_mem_nil, false_iff]
        constructor <;>
        · rintro l ⟨ha, hd, _⟩
          exact hab (by rw [ha, hd]; rfl)
    constructor
    · intro l
      rw [append_lines, List.mem_append, hb.1, i1]
      simp only [List.mem_cons, exists_eq_or_imp]
    · intro T
      rw [append_tris, List.mem_append, hb.2, i2]
      simp only [List.mem_cons, exists_eq_or_imp]

/-- C131: for each collider the box, the fat box and the shape are drawn when they are displayed; lines of a box have the colour of the item. -/
theorem collider_drawn (g : Cfg K) (c : Collider K) (d : Canvas K) (h : drawCollider g c = some d) :
    (displayed g.flags .box = true → ∀ l ∈ drawAABB c.box Item.box.colour, l ∈ d.lines) ∧
    (displayed g.flags .fatBox = true → ∀ b, c.fat = some b → ∀ l ∈ drawAABB b Item.fatBox.colour, l ∈ d.lines) ∧
    (displayed g.flags .shape = true ∨ displayed g.flags .shapeNormal = true → ∃ s, drawShape g c.pose c.shape = some s ∧ (∀ l ∈ s.lines, l ∈ d.lines) ∧ d.tris = s.tris) ∧
    (displayed g.flags .shape = false → displayed g.flags .shapeNormal = false → d.tris = []) := by
  simp only [drawCollider, Option.map_eq_some_iff] at h
  obtain ⟨s, hs, rfl⟩ := h
  refine ⟨fun hd l hl => ?_, fun hd b hb l hl => ?_, fun hd => ?_, fun h1 h2 => ?_⟩
  · simp [append_lines, hd, hl]
  · simp [append_lines, hd, hb, hl]
  · have : (displayed g.flags .shape || displayed g.flags .shapeNormal) = true := by simpa using hd
    rw [this] at hs
    exact ⟨s, hs, fun l hl => by simp [append_lines, hl], by simp [append_tris]⟩
  · rw [h1, h2] at hs
    cases hs
    simp [append_tris, Canvas.empty]

/-- Spec: the shape is drawn by a function that takes the items displayed into account. -/
def Shape.Asks : Shape K → Prop
  | .sphere _ => False
  | .capsule _ _ => False
  | _ => True

theorem mem_drawAABB {b : AABB K} {c : Nat} {l : Line K} (h : l ∈ drawAABB b c) : l.colour = c := by
  simp only [drawAABB, List.mem_cons, List.not_mem_nil, or_false] at h
  rcases h with rfl | rfl | rfl | rfl | rfl | rfl | rfl | rfl | rfl | rfl | rfl | rfl <;> rfl

/-- C131, the items displayed (partial): without spheres and capsules, or if shapes are displayed, everything drawn for a world has the colour of an
item that is displayed. -/
theorem items_respected_partial (g : Cfg K) (bodies : List (Body K)) (cv : Canvas K) (h : drawWorld g bodies = some cv)
    (hs : displayed g.flags .shape = true ∨ ∀ b ∈ bodies, ∀ c ∈ b.colliders, c.shape.Asks) :
    (∀ l ∈ cv.lines, ∃ i, displayed g.flags i = true ∧ l.colour = i.colour) ∧ ∀ T ∈ cv.tris, ∃ i, displayed g.flags i = true ∧ T.colour = i.colour := by
  obtain ⟨w1, w2⟩ := world_drawn g bodies cv h
  have shape : ∀ c : Collider K, (displayed g.flags .shape = true ∨ c.shape.Asks) → ∀ s, drawShape g c.pose c.shape = some s →
      (∀ l ∈ s.lines, ∃ i, displayed g.flags i = true ∧ l.colour = i.colour) ∧ ∀ T ∈ s.tris, ∃ i, displayed g.flags i = true ∧ T.colour = i.colour := by
    intro c hc s he
    have sn : ∀ {l : List (Line K)} {x : Line K}, x ∈ (if displayed g.flags .shapeNormal = true then l else []) →
        (∀ y ∈ l, y.colour = Item.shapeNormal.colour) → ∃ i, displayed g.flags i = true ∧ x.colour = i.colour := fun {l x} hx hl => by
      split at hx
      · exact ⟨_, ‹_›, hl x hx⟩
      · simp at hx
    have st : ∀ {l : List (Tri K)} {x : Tri K}, x ∈ (if displayed g.flags .shape = true then l else []) →
        (∀ y ∈ l, y.colour = Item.shape.colour) → ∃ i, displayed g.flags i = true ∧ x.colour = i.colour := fun {l x} hx hl => by
      split at hx
      · exact ⟨_, ‹_›, hl x hx⟩
      · simp at hx
    obtain ⟨sh, pose, box, fat⟩ := c
    cases sh with
    | box h =>
      cases he
      refine ⟨fun l hl => sn hl ?_, fun T hT => st hT ?_⟩
      · intro y hy
        obtain ⟨_, _, rfl⟩ := List.mem_map.1 hy
        rfl
      · intro y hy
        obtain ⟨_, _, rfl⟩ := List.mem_map.1 hy
        rfl
    | sphere r =>
      cases he
      refine ⟨by simp, fun T hT => ?_⟩
      rcases hc with hc | hc
      · obtain ⟨_, _, rfl⟩ := List.mem_map.1 hT
        exact ⟨_, hc, rfl⟩
      · exact hc.elim
    | capsule r h =>
      cases he
      refine ⟨by simp, fun T hT => ?_⟩
      rcases hc with hc | hc
      · obtain ⟨_, _, rfl⟩ := List.mem_map.1 hT
        exact ⟨_, hc, rfl⟩
      · exact hc.elim
    | convex faces =>
      cases he
      refine ⟨fun l hl => ?_, fun T hT => ?_⟩
      · obtain ⟨f, _, hl⟩ := mem_each_lines.1 hl
        exact sn hl (by simp)
      · obtain ⟨f, _, hT⟩ := mem_each_tris.1 hT
        refine st hT fun y hy => ?_
        obtain ⟨_, _, rfl⟩ := List.mem_map.1 hy
        rfl
    | concave tris vs =>
      cases he
      refine ⟨fun l hl => sn hl ?_, fun T hT => st hT ?_⟩
      · intro y hy
        obtain ⟨_, _, rfl⟩ := List.mem_map.1 hy
        rfl
      · intro y hy
        obtain ⟨_, _, rfl⟩ := List.mem_map.1 hy
        rfl
    | height f sc =>
      obtain ⟨qs, _, rfl⟩ := Option.map_eq_some_iff.1 he
      refine ⟨fun l hl => ?_, fun T hT => ?_⟩
      · obtain ⟨q, _, hl⟩ := mem_each_lines.1 hl
        refine sn hl fun y hy => ?_
        obtain ⟨_, _, rfl⟩ := List.mem_map.1 hy
        rfl
      · obtain ⟨q, _, hT⟩ := mem_each_tris.1 hT
        refine st hT fun y hy => ?_
        simp only [List.mem_cons, List.not_mem_nil, or_false] at hy
        rcases hy with rfl | rfl <;> rfl
  have coll : ∀ c : Collider K, (displayed g.flags .shape = true ∨ c.shape.Asks) → ∀ d, drawCollider g c = some d →
      (∀ l ∈ d.lines, ∃ i, displayed g.flags i = true ∧ l.colour = i.colour) ∧ ∀ T ∈ d.tris, ∃ i, displayed g.flags i = true ∧ T.colour = i.colour := by
    intro c hc d he
    simp only [drawCollider, Option.map_eq_some_iff] at he
    obtain ⟨s, hs, rfl⟩ := he
    have hs' : (∀ l ∈ s.lines, ∃ i, displayed g.flags i = true ∧ l.colour = i.colour) ∧ ∀ T ∈ s.tris, ∃ i, displayed g.flags i = true ∧ T.colour = i.colour := by
      split at hs
      · exact shape c hc s hs
      · cases hs
        simp [Canvas.empty]
    refine ⟨fun l hl => ?_, fun T hT => ?_⟩
    · rw [append_lines, append_lines, List.mem_append, List.mem_append] at hl
      rcases hl with (hl | hl) | hl
      · dsimp only at hl
        split at hl
        · exact ⟨_, ‹_›, mem_drawAABB hl⟩
        · simp at hl
      · dsimp only at hl
        split at hl
        · refine ⟨.fatBox, ‹_›, ?_⟩
          split at hl
          · exact mem_drawAABB hl
          · simp at hl
        · simp at hl
      · exact hs'.1 l hl
    · exact hs'.2 T (by simpa [append_tris] using hT)
  refine ⟨fun l hl => ?_, fun T hT => ?_⟩
  · obtain ⟨b, hb, _, _, c, hc, d, he, hl⟩ := (w1 l).1 hl
    exact (coll c (hs.imp id fun h => h b hb c hc) d he).1 l hl
  · obtain ⟨b, hb, _, _, c, hc, d, he, hT⟩ := (w2 T).1 hT
    exact (coll c (hs.imp id fun h => h b hb c hc) d he).2 T hT

/-- C131 fails: the shape of every sphere is drawn when only normals are displayed. -/
theorem sphere_unasked (g : Cfg K) (_hs : displayed g.flags .shape = false) (hn : displayed g.flags .shapeNormal = true) (b : Body K) (ha : b.active = true)
    (hd : b.debug = true) (c : Collider K) (hc : c ∈ b.colliders) (r : K) (hr : c.shape = .sphere r) (bodies : List (Body K)) (hb : b ∈ bodies)
    (cv : Canvas K) (h : drawWorld g bodies = some cv) : ∃ T ∈ cv.tris, T.colour = Item.shape.colour := by
  have e : ∃ d, drawCollider g c = some d ∧ d.tris = drawSphere g.trig c.pose.pos r Item.shape.colour := by
    refine ⟨_, by simp [drawCollider, hr, drawShape, hn]; rfl, ?_⟩
    simp [append_tris]
  obtain ⟨d, e1, e2⟩ := e
  have ne : d.tris ≠ [] := by
    rw [e2]
    simp only [drawSphere, indexed, ne_eq, List.map_eq_nil_iff]
    decide +kernel
  obtain ⟨T, hT⟩ := List.exists_mem_of_ne_nil _ ne
  refine ⟨T, ((world_drawn g bodies cv h).2 _).2 ⟨b, hb, ha, hd, c, hc, d, e1, hT⟩, ?_⟩
  rw [e2] at hT
  obtain ⟨_, _, rfl⟩ := List.mem_map.1 hT
  rfl

/-! ### Updates and arrays -/

/-- C131: after a step with debug rendering the renderer holds what belongs to this step, whatever it held before; without debug rendering it
keeps what it held. -/
theorem update_spec (g : Cfg K) (old old' : Canvas K) (ps : List (Pair K)) (bodies : List (Body K)) :
    update g true old ps bodies = update g true old' ps bodies ∧ update g false old ps bodies = some old ∧
    ∀ w, drawWorld g bodies = some w → update g true old ps bodies = some (drawContacts g ps ++ w) := by
  refine ⟨rfl, rfl, fun w hw => ?_⟩
  simp only [update, if_true, hw, Option.map_some]
  rfl

/-- C131 fails: the pointers to the arrays can be asked for only if there is something to draw. -/
theorem arrays_defined_iff (c : Canvas K) : (c.linesArray.isSome ↔ c.lines ≠ []) ∧ (c.trisArray.isSome ↔ c.tris ≠ []) := by
  obtain ⟨l, t⟩ := c
  constructor
  · cases l <;> simp [Canvas.linesArray]
  · cases t <;> simp [Canvas.trisArray]

end Debug
end RP3D
