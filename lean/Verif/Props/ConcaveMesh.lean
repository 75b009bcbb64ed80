import Verif.Shapes.ConcaveMesh
import Verif.Props.TriMesh
import Verif.Props.HeightClosest
import Verif.Props.Raycast
import Verif.Props.AABB

/-! C84, C85: triangles and ray casts of concave meshes. -/

namespace RP3D
namespace ConcaveProps
open Ray TriMesh TriProps Concave Height HeightProps RayProps TreeSpec

variable {K : Type} [Field K] [LinearOrder K] [IsStrictOrderedRing K]

theorem forTriangle_mem (p q r : V3 K) : AABB.Mem p (AABB.forTriangle p q r) ∧ AABB.Mem q (AABB.forTriangle p q r) ∧
    AABB.Mem r (AABB.forTriangle p q r) := (aabb_forTriangle_least p q r _).1 (AABB.contains_refl _)

theorem forTriangle_valid (p q r : V3 K) : (AABB.forTriangle p q r).Valid := by
  have := (forTriangle_mem p q r).1
  unfold AABB.Mem at this
  exact ⟨this.1.trans this.2.1, this.2.2.1.trans this.2.2.2.1, this.2.2.2.2.1.trans this.2.2.2.2.2⟩

omit [IsStrictOrderedRing K] in
theorem mem_of_contains {a b : AABB K} {x : V3 K} (h : a.contains b = true) (hx : AABB.Mem x b) : AABB.Mem x a := by
  rw [AABB.contains_iff] at h
  unfold AABB.Mem at *
  obtain ⟨a1, a2, a3, a4, a5, a6⟩ := h
  obtain ⟨b1, b2, b3, b4, b5, b6⟩ := hx
  exact ⟨a1.trans b1, b2.trans a4, a2.trans b3, b4.trans a5, a3.trans b5, b6.trans a6⟩

omit [IsStrictOrderedRing K] in
theorem verticesNormals_same {sqrt acos : K → K} {me e : K} {m m' : TMesh K} (h : verticesNormals sqrt acos me e m = some m') :
    m'.verts = m.verts ∧ m'.tris = m.tris := by
  unfold verticesNormals at h
  rw [Option.bind_eq_bind, Option.bind_eq_some_iff] at h
  obtain ⟨l, _, h⟩ := h
  split_ifs at h
  simp only [Option.pure_def, Option.some.injEq] at h
  subst h
  exact ⟨rfl, rfl⟩

/-- The triangles that the mesh has: the good ones of the user. -/
def trianglesOf (me : K) (u : User K) : List (Nat × Nat × Nat) := good u (computeEpsilon me u * computeEpsilon me u)

/-- Specification: a user's triangle, scaled. -/
def userTriangle (u : User K) (scale : V3 K) (t : Nat × Nat × Nat) : V3 K × V3 K × V3 K :=
  (scaleBy scale (u.vert t.1), scaleBy scale (u.vert t.2.1), scaleBy scale (u.vert t.2.2))

/-- A mesh made by `init`: its triangles and its tree. -/
structure Ready (u : User K) (l : List (Nat × Nat × Nat)) (fat : AABB K → AABB K) (m : TMesh K) (t : Tree K) (S : Nat → Option (Obj K))
    (ids : Nat → Nat) : Prop where
  tris : HasTriangles u m l
  hist : Hist (TriBox m) fat t S
  obj : ∀ k (h : k < l.length), S (ids k) = some ⟨k, AABB.forTriangle (u.vert l[k].1) (u.vert l[k].2.1) (u.vert l[k].2.2),
    fat (AABB.forTriangle (u.vert l[k].1) (u.vert l[k].2.1) (u.vert l[k].2.2))⟩
  only : ∀ i o, S i = some o → o.data < l.length ∧ ids o.data = i

theorem init_ready {sqrt acos : K → K} {me : K} (hme : 0 < me) {ch : Nat → Choice K} {fat : AABB K → AABB K} {f : Nat → TNode K} {u : User K}
    {m : TMesh K} {valid : Bool} {t : Tree K} (h : TriMesh.init sqrt acos me ch fat f u = some (m, valid, t)) :
    ∃ S ids, Ready u (trianglesOf me u) fat m t S ids := by
  unfold TriMesh.init at h
  simp only [Option.bind_eq_bind, Option.bind_eq_some_iff, Option.pure_def, Option.some.injEq, Prod.mk.injEq] at h
  obtain ⟨⟨m0, v0⟩, h1, m1, h2, t1, h3, e1, e2, e3⟩ := h
  subst e1 e2 e3
  have he : 0 < computeEpsilon me u := by
    unfold TriMesh.copyData at h1
    split_ifs at h1 with hh
    exact hh
  obtain ⟨i, hi, _⟩ := (epsilon_pos hme u).1 he
  obtain ⟨m', v', c1, c2, _⟩ := mesh_triangles (u := u) he (by omega : 0 < u.nv)
  rw [h1] at c1
  cases c1
  have same : m1.verts = m0.verts ∧ m1.tris = m0.tris := by
    simp only at h2
    split_ifs at h2 with hh
    · exact verticesNormals_same h2
    · cases h2; exact ⟨rfl, rfl⟩
  have ht : HasTriangles u m1 (trianglesOf me u) := by
    obtain ⟨q1, q2⟩ := c2
    refine ⟨by rw [same.2]; exact q1, fun k hk => ?_⟩
    have := q2 k hk
    unfold TMesh.triangle at this ⊢
    rw [same.1, same.2]
    exact this
  have hlen : m1.tris.length / 3 = (trianglesOf me u).length := by rw [ht.1]; omega
  obtain ⟨t', S, ids, i1, i2, i3⟩ := initTree_spec ch fat f (m := m1) (by intro k hk; rw [hlen] at hk; rw [ht.2 k hk]; rfl)
  rw [h3] at i1
  cases i1
  refine ⟨S, ids, ht, i2, ?_, ?_⟩
  · intro k hk
    obtain ⟨a, b, c, e1, e2⟩ := i3.obj k (by rw [hlen]; exact hk)
    rw [ht.2 k hk] at e1
    cases e1
    exact e2
  · intro i o ho
    rw [← hlen]
    exact i3.only i o ho

omit [IsStrictOrderedRing K] in
theorem Ready.data {u : User K} {l : List (Nat × Nat × Nat)} {fat : AABB K → AABB K} {m : TMesh K} {t : Tree K} {S : Nat → Option (Obj K)}
    {ids : Nat → Nat} (h : Ready u l fat m t S ids) {k : Nat} (hk : k < l.length) : t.dataOf (ids k) = some k := by
  obtain ⟨_, _, _, w⟩ := tree_well_formed h.hist
  exact (w.data _ _ (h.obj k hk)).1

/-- The item handed out for a triangle. -/
def itemOf (u : User K) (scale : V3 K) (l : List (Nat × Nat × Nat)) (k : Nat) : Item K :=
  let t := userTriangle u scale (l.getD k (0, 0, 0))
  ⟨t.1, t.2.1, t.2.2, l.length + k⟩

omit [IsStrictOrderedRing K] in
theorem Ready.item {u : User K} {l : List (Nat × Nat × Nat)} {fat : AABB K → AABB K} {m : TMesh K} {t : Tree K} {S : Nat → Option (Obj K)}
    {ids : Nat → Nat} (h : Ready u l fat m t S ids) {i : Nat} {o : Obj K} (hi : S i = some o) (scale : V3 K) :
    itemAt m t scale i = some (itemOf u scale l o.data) := by
  obtain ⟨hk, e⟩ := h.only i o hi
  unfold itemAt triangleAt
  have hd : t.dataOf i = some o.data := by rw [← e]; exact h.data hk
  rw [hd, Option.bind_eq_bind, Option.bind_some, h.tris.2 _ hk, h.tris.1]
  simp only [Option.map_some, Option.bind_eq_bind, Option.bind_some, Option.pure_def, itemOf, userTriangle,
    List.getD_eq_getElem?_getD, List.getElem?_eq_getElem hk, Option.getD_some]
  congr 2
  omega

/-- The data of a node. -/
def dataAt (S : Nat → Option (Obj K)) (i : Nat) : Nat := ((S i).map (·.data)).getD 0

omit [IsStrictOrderedRing K] in
theorem Ready.items {u : User K} {l : List (Nat × Nat × Nat)} {fat : AABB K → AABB K} {m : TMesh K} {t : Tree K} {S : Nat → Option (Obj K)}
    {ids : Nat → Nat} (h : Ready u l fat m t S ids) (scale : V3 K) (nodes : List Nat) (hn : ∀ i ∈ nodes, (S i).isSome) :
    nodes.mapM (itemAt m t scale) = some (nodes.map fun i => itemOf u scale l (dataAt S i)) := by
  apply mapM_some
  intro i hi
  obtain ⟨o, ho⟩ := Option.isSome_iff_exists.1 (hn i hi)
  rw [h.item ho scale]
  simp [dataAt, ho]

omit [IsStrictOrderedRing K] in
theorem Ready.dataAt_inj {u : User K} {l : List (Nat × Nat × Nat)} {fat : AABB K → AABB K} {m : TMesh K} {t : Tree K} {S : Nat → Option (Obj K)}
    {ids : Nat → Nat} (h : Ready u l fat m t S ids) {i j : Nat} (hi : (S i).isSome) (hj : (S j).isSome) (e : dataAt S i = dataAt S j) : i = j := by
  obtain ⟨o, ho⟩ := Option.isSome_iff_exists.1 hi
  obtain ⟨p, hp⟩ := Option.isSome_iff_exists.1 hj
  have : o.data = p.data := by simpa [dataAt, ho, hp] using e
  rw [← (h.only i o ho).2, ← (h.only j p hp).2, this]

/-- Scaling with positive factors keeps the order of boxes. -/
theorem scaled_test {scale : V3 K} (sx : 0 < scale.x) (sy : 0 < scale.y) (sz : 0 < scale.z) {box : AABB K} {a b c : V3 K}
    (h : box.testCollision (AABB.forTriangle (scaleBy scale a) (scaleBy scale b) (scaleBy scale c)) = true) :
    (⟨scaleBy (inverse scale) box.mn, scaleBy (inverse scale) box.mx⟩ : AABB K).testCollision (AABB.forTriangle a b c) = true := by
  have hc : (⟨scaleBy scale (AABB.forTriangle a b c).mn, scaleBy scale (AABB.forTriangle a b c).mx⟩ : AABB K).contains
      (AABB.forTriangle (scaleBy scale a) (scaleBy scale b) (scaleBy scale c)) = true := by
    have up : ∀ x, AABB.Mem x (AABB.forTriangle a b c) →
        AABB.Mem (scaleBy scale x) (⟨scaleBy scale (AABB.forTriangle a b c).mn, scaleBy scale (AABB.forTriangle a b c).mx⟩ : AABB K) := by
      intro x hx
      unfold AABB.Mem scaleBy at *
      obtain ⟨b1, b2, b3, b4, b5, b6⟩ := hx
      exact ⟨mul_le_mul_of_nonneg_left b1 sx.le, mul_le_mul_of_nonneg_left b2 sx.le, mul_le_mul_of_nonneg_left b3 sy.le,
        mul_le_mul_of_nonneg_left b4 sy.le, mul_le_mul_of_nonneg_left b5 sz.le, mul_le_mul_of_nonneg_left b6 sz.le⟩
    obtain ⟨m1, m2, m3⟩ := forTriangle_mem a b c
    exact (aabb_forTriangle_least _ _ _ _).2 ⟨up _ m1, up _ m2, up _ m3⟩
  have ht := AABB.testCollision_of_contains hc h
  rw [AABB.testCollision_iff] at ht ⊢
  simp only [scaleBy, inverse] at ht ⊢
  have ix : 0 < 1 / scale.x := one_div_pos.2 sx
  have iy : 0 < 1 / scale.y := one_div_pos.2 sy
  have iz : 0 < 1 / scale.z := one_div_pos.2 sz
  have key : ∀ {s p q : K}, 0 < s → p ≤ s * q → 1 / s * p ≤ q := by
    intro s p q hs hh
    rw [one_div, inv_mul_le_iff₀ hs]; exact hh
  have key' : ∀ {s p q : K}, 0 < s → s * p ≤ q → p ≤ 1 / s * q := by
    intro s p q hs hh
    rw [one_div, le_inv_mul_iff₀ hs]; exact hh
  obtain ⟨⟨b1, b2⟩, ⟨b3, b4⟩, ⟨b5, b6⟩⟩ := ht
  refine ⟨⟨?_, ?_⟩, ⟨?_, ?_⟩, ⟨?_, ?_⟩⟩ <;> first | exact key sx ‹_› | exact key sy ‹_› | exact key sz ‹_› | exact key' sx ‹_› | exact key' sy ‹_› | exact key' sz ‹_›

/-- C84: for a mesh made from the user's arrays and a shape with a positive scale, every triangle whose box meets the query box is handed out with
its scaled vertices; only triangles of the mesh are handed out, none twice, with ids unique to the triangle. -/
theorem concave_triangles {sqrt acos : K → K} {me : K} (hme : 0 < me) {ch : Nat → Choice K} {fat : AABB K → AABB K}
    (hfat : ∀ b : AABB K, b.Valid → (fat b).contains b = true) {f : Nat → TNode K} {u : User K}
    {m : TMesh K} {valid : Bool} {t : Tree K} (h : TriMesh.init sqrt acos me ch fat f u = some (m, valid, t)) {scale : V3 K}
    (sx : 0 < scale.x) (sy : 0 < scale.y) (sz : 0 < scale.z) (box : AABB K) :
    ∃ items, Concave.overlapping m t scale box = some items ∧ (items.map (·.id)).Nodup ∧
      (∀ it ∈ items, ∃ k, ∃ hk : k < (trianglesOf me u).length, it.id = (trianglesOf me u).length + k ∧
        (it.a, it.b, it.c) = userTriangle u scale (trianglesOf me u)[k]) ∧
      ∀ k (hk : k < (trianglesOf me u).length), box.testCollision (AABB.forTriangle (userTriangle u scale (trianglesOf me u)[k]).1
        (userTriangle u scale (trianglesOf me u)[k]).2.1 (userTriangle u scale (trianglesOf me u)[k]).2.2) = true →
        ∃ it ∈ items, it.id = (trianglesOf me u).length + k := by
  obtain ⟨S, ids, hr⟩ := init_ready hme h
  generalize trianglesOf me u = l at hr
  obtain ⟨nodes, n1, n2, n3⟩ := tree_overlap_exact hr.hist ⟨scaleBy (inverse scale) box.mn, scaleBy (inverse scale) box.mx⟩
  have hsome : ∀ i ∈ nodes, (S i).isSome := by
    intro i hi
    obtain ⟨o, ho, _⟩ := (n3 i).1 hi
    rw [ho]; rfl
  refine ⟨nodes.map fun i => RP3D.ConcaveProps.itemOf u scale l (dataAt S i), ?_, ?_, ?_, ?_⟩
  · unfold Concave.overlapping
    change (t.overlapping ⟨scaleBy (inverse scale) box.mn, scaleBy (inverse scale) box.mx⟩).bind _ = _
    rw [n1, Option.bind_some]
    exact hr.items scale nodes hsome
  · rw [List.map_map]
    refine List.Nodup.map_on ?_ n2
    intro i hi j hj e
    have e' : l.length + dataAt S i = l.length + dataAt S j := e
    exact hr.dataAt_inj (hsome i hi) (hsome j hj) (by omega)
  · intro it hit
    obtain ⟨i, hi, rfl⟩ := List.mem_map.1 hit
    obtain ⟨o, ho⟩ := Option.isSome_iff_exists.1 (hsome i hi)
    have hk := (hr.only i o ho).1
    have hd : dataAt S i = o.data := by simp [dataAt, ho]
    refine ⟨o.data, hk, by rw [hd]; rfl, ?_⟩
    rw [hd]
    simp [RP3D.ConcaveProps.itemOf, List.getElem?_eq_getElem hk]
  · intro k hk ht
    have ho := hr.obj k hk
    have hb : ∀ b, TriBox m b → (fat b).contains b = true := by
      rintro b ⟨_, p, q, r, _, rfl⟩
      exact hfat _ (forTriangle_valid p q r)
    have hmem : ids k ∈ nodes := (n3 _).2 ⟨_, ho, AABB.testCollision_of_contains (tree_box_enclosed hb hr.hist _ _ ho).2 (scaled_test sx sy sz ht)⟩
    refine ⟨_, List.mem_map.2 ⟨ids k, hmem, rfl⟩, ?_⟩
    have hd : dataAt S (ids k) = k := by simp [dataAt, ho]
    rw [hd]
    rfl

/-! ### Ray casts -/

omit [IsStrictOrderedRing K] in
/-- The callback that collects nodes gets all of those met by the ray. -/
theorem scan_collect (hit : Nat → K → Prop) [∀ i m, Decidable (hit i m)] {m : K} (hm : m ≠ 0) : ∀ (L s : List Nat),
    RaySpec.scan hit collect L m s = (s ++ L.filter (fun i => decide (hit i m)), m, false)
  | [], s => by simp [RaySpec.scan]
  | i :: L, s => by
    unfold RaySpec.scan
    have hne : ¬ ((collect s i m).2 = Ext.fin 0) := by simp [collect, hm]
    have hsh : RaySpec.shorten m (collect s i m).2 = m := by simp [collect, RaySpec.shorten]
    by_cases hh : hit i m
    · rw [if_pos hh, if_neg hne, hsh, scan_collect hit hm L]
      simp [collect, hh]
    · rw [if_neg hh, scan_collect hit hm L]
      simp [hh]

/-- C85: a ray cast against a concave mesh with a positive scale, for the front or the back sides, that reports a hit reports a point of the ray
within its range on one of the triangles of the mesh and a normal of that triangle; and every triangle that is met from a tested side is
reported, or a closer one.
Partial: rays that lie in the plane of a side of the box of a triangle are left out (`ground_missed`), and so are triangles seen at a
grazing angle; both sides at once, where the test of a single triangle is wrong (C77), only have the second half. -/
theorem concave_raycast_partial {sqrt acos : K → K} {me : K} (hme : 0 < me) {ch : Nat → Choice K} {fat : AABB K → AABB K}
    (hfat : ∀ b : AABB K, b.Valid → (fat b).contains b = true) {f : Nat → TNode K} {u : User K}
    {m : TMesh K} {valid : Bool} {t : Tree K} (h : TriMesh.init sqrt acos me ch fat f u = some (m, valid, t)) {scale : V3 K}
    (sx : 0 < scale.x) (sy : 0 < scale.y) (sz : 0 < scale.z) {eps : K} (he : 0 < eps) (side : Side) (neg : V3 Bool) {r : Ray K} (hr0 : 0 < r.maxF)
    (hclear : ∀ tr ∈ trianglesOf me u, (fat (AABB.forTriangle (u.vert tr.1) (u.vert tr.2.1) (u.vert tr.2.2))).Clear
      (localRay scale r).p1 (localRay scale r).dir) :
    ∃ res, Concave.raycast (FloatOps.exact K) m t scale eps side neg r = some res ∧
      (side ≠ .frontAndBack → ∀ hit, res = some hit → 0 ≤ hit.fraction ∧ hit.fraction ≤ r.maxF ∧ hit.point = r.at hit.fraction ∧
        ∃ tr ∈ trianglesOf me u, Tri (userTriangle u scale tr).1 (userTriangle u scale tr).2.1 (userTriangle u scale tr).2.2 (r.at hit.fraction) ∧
          Outward (Tri (userTriangle u scale tr).1 (userTriangle u scale tr).2.1 (userTriangle u scale tr).2.2) r hit.fraction hit.normal) ∧
      ∀ tr ∈ trianglesOf me u, ∀ s, 0 ≤ s → s ≤ r.maxF →
        Tri (userTriangle u scale tr).1 (userTriangle u scale tr).2.1 (userTriangle u scale tr).2.2 (r.at s) →
        Seen eps side (userTriangle u scale tr) r → ∃ hit, res = some hit ∧ hit.fraction ≤ s := by
  classical
  obtain ⟨S, ids, hr⟩ := init_ready hme h
  generalize trianglesOf me u = l at hr hclear ⊢
  have hb : ∀ b, TriBox m b → (fat b).contains b = true := by
    rintro b ⟨_, p, q, r, _, rfl⟩
    exact hfat _ (forTriangle_valid p q r)
  have hS : ∀ i ob, S i = some ob → ob.fat.Valid ∧ ob.fat.Clear (localRay scale r).p1 (localRay scale r).dir := by
    intro i ob ho
    obtain ⟨hk, e⟩ := hr.only i ob ho
    have := hr.obj ob.data hk
    rw [e, ho] at this
    simp only [Option.some.injEq] at this
    rw [this]
    refine ⟨?_, hclear _ (List.getElem_mem hk)⟩
    have := mem_of_contains (hfat _ (forTriangle_valid _ _ _)) (forTriangle_mem (u.vert l[ob.data].1) (u.vert l[ob.data].2.1) (u.vert l[ob.data].2.2)).1
    unfold AABB.Mem at this
    exact ⟨this.1.trans this.2.1, this.2.2.1.trans this.2.2.2.1, this.2.2.2.2.1.trans this.2.2.2.2.2⟩
  obtain ⟨L, _, L2, L3⟩ := tree_raycast_exact_partial hr.hist (localRay scale r).p1 (localRay scale r).dir neg hS
  have hcast := L3 (List Nat) collect r.maxF []
  rw [scan_collect _ hr0.ne', List.nil_append] at hcast
  generalize hnodes : (L.filter fun i => decide (∃ ob ∈ S i, RaySpec.Hits (localRay scale r).p1 (localRay scale r).dir ob.fat r.maxF)) = nodes at hcast
  have hsome : ∀ i ∈ nodes, (S i).isSome := by
    intro i hi
    rw [← hnodes] at hi
    exact (L2 i).1 (List.mem_filter.1 hi).1
  have best := rayTriangles_spec (side := side) (r := r) he
    ((nodes.map fun i => RP3D.ConcaveProps.itemOf u scale l (dataAt S i)).map fun i => (i.a, i.b, i.c)) [] _ (bestOf_nil eps side r)
  rw [List.nil_append] at best
  refine ⟨(((nodes.map fun i => RP3D.ConcaveProps.itemOf u scale l (dataAt S i)).map fun i => (i.a, i.b, i.c)).foldl
    (rayTriangle eps side r) ⟨none, r.maxF⟩).hit, ?_, ?_, ?_⟩
  · unfold Concave.raycast
    change (t.raycast (FloatOps.exact K) (localRay scale r).p1 (localRay scale r).dir neg collect r.maxF []).bind _ = _
    rw [hcast, Option.bind_some]
    simp only [Option.bind_eq_bind]
    rw [hr.items scale nodes hsome, Option.bind_some]
    rfl
  · intro hside hit hh
    obtain ⟨_, tr, htr, ht⟩ := best.found hit hh
    obtain ⟨it, hit', rfl⟩ := List.mem_map.1 htr
    obtain ⟨i, hi, rfl⟩ := List.mem_map.1 hit'
    obtain ⟨o, ho⟩ := Option.isSome_iff_exists.1 (hsome i hi)
    have hk := (hr.only i o ho).1
    have hd : dataAt S i = o.data := by simp [dataAt, ho]
    rw [hd] at ht
    have e : ((RP3D.ConcaveProps.itemOf u scale l o.data).a, (RP3D.ConcaveProps.itemOf u scale l o.data).b, (RP3D.ConcaveProps.itemOf u scale l o.data).c) =
        userTriangle u scale l[o.data] := by
      simp [RP3D.ConcaveProps.itemOf, List.getElem?_eq_getElem hk]
    rw [e] at ht
    have tp := triangle_raycast_partial (a := (userTriangle u scale l[o.data]).1) (b := (userTriangle u scale l[o.data]).2.1)
      (c := (userTriangle u scale l[o.data]).2.2) (r := r) he
    have key : IsFirst (Tri (userTriangle u scale l[o.data]).1 (userTriangle u scale l[o.data]).2.1 (userTriangle u scale l[o.data]).2.2) r hit.fraction ∧
        hit.fraction ≤ r.maxF ∧ hit.point = r.at hit.fraction ∧
        Outward (Tri (userTriangle u scale l[o.data]).1 (userTriangle u scale l[o.data]).2.1 (userTriangle u scale l[o.data]).2.2) r hit.fraction hit.normal := by
      cases side with
      | front => exact (tp.1 hit ht).2.2
      | back => exact (tp.2.1 hit ht).2.2
      | frontAndBack => exact absurd rfl hside
    exact ⟨key.1.1, key.2.1, key.2.2.1, l[o.data], List.getElem_mem hk, key.1.2.1, key.2.2.2⟩
  · intro tr htr s s0 s1 hT hseen
    obtain ⟨k, hk, rfl⟩ := List.getElem_of_mem htr
    have ho := hr.obj k hk
    have hd : dataAt S (ids k) = k := by simp [dataAt, ho]
    have hmem : ids k ∈ nodes := by
      rw [← hnodes, List.mem_filter]
      refine ⟨(L2 _).2 (by rw [ho]; rfl), ?_⟩
      simp only [decide_eq_true_eq]
      refine ⟨_, ho, s, s0, s1, ?_⟩
      have hT' := tri_unscale sx.ne' sy.ne' sz.ne' hT
      obtain ⟨m1, m2, m3⟩ := forTriangle_mem (u.vert l[k].1) (u.vert l[k].2.1) (u.vert l[k].2.2)
      have hm := mem_of_contains (hfat _ (forTriangle_valid _ _ _)) (tri_in_box hT' m1 m2 m3)
      have hat := scaled_at (inverse scale) r s
      rw [← hat] at hm
      exact hm
    have htm : userTriangle u scale l[k] ∈ (nodes.map fun i => RP3D.ConcaveProps.itemOf u scale l (dataAt S i)).map fun i => (i.a, i.b, i.c) := by
      rw [List.map_map]
      refine List.mem_map.2 ⟨ids k, hmem, ?_⟩
      simp [RP3D.ConcaveProps.itemOf, hd, List.getElem?_eq_getElem hk]
    obtain ⟨h', hh', hf'⟩ := triangle_complete hseen he s0 s1 hT
    obtain ⟨hne, hsm⟩ := best.closest _ htm h' hh'
    obtain ⟨hit, hit'⟩ := Option.ne_none_iff_exists'.1 hne
    exact ⟨hit, hit', by rw [(best.found hit hit').1, ← hf']; exact hsm⟩

/-! ### A flat ground -/

/-- A square of side 2 at height 0, made of four triangles. -/
def ground : User ℚ := ⟨6, fun i => [⟨-1, 0, -1⟩, ⟨0, 0, -1⟩, ⟨0, 0, 1⟩, ⟨1, 0, -1⟩, ⟨1, 0, 1⟩, ⟨-1, 0, 1⟩].getD i ⟨0, 0, 0⟩,
  some fun _ => ⟨0, 1, 0⟩, [(0, 2, 1), (0, 5, 2), (1, 2, 4), (1, 4, 3)]⟩

/-- The memory of the tree before anything is stored. -/
def fresh : Nat → TNode ℚ := fun _ => ⟨none, .raw, 0, ⟨⟨0, 0, 0⟩, ⟨0, 0, 0⟩⟩⟩

/-- The ground after `init`; the square root and the arc cosine do not matter, since the normals are given. The tree of a mesh does not
enlarge boxes. -/
def MadeGround (m : TMesh ℚ) (t : Tree ℚ) : Prop := TriMesh.init id id me (fun _ => costChoice) (fun b => b) fresh ground = some (m, true, t)

theorem ground_triangles : trianglesOf me ground = [(0, 2, 1), (0, 5, 2), (1, 2, 4), (1, 4, 3)] := by decide +kernel

theorem ground_made : ∃ m t, MadeGround m t := by
  have he : 0 < computeEpsilon me ground := (epsilon_pos (by norm_num [me]) ground).2 ⟨0, by decide +kernel, by decide +kernel⟩
  obtain ⟨m, v, h1, h2, _⟩ := mesh_triangles (u := ground) he (by decide +kernel)
  have hv : v = true := by
    have h3 : (TriMesh.copyData (computeEpsilon me ground) ground).map (·.2) = some true := by decide +kernel
    rw [h1] at h3
    simpa using h3
  have hlen : m.tris.length / 3 = (trianglesOf me ground).length := by
    rw [h2.1]; unfold trianglesOf; exact Nat.mul_div_cancel_left _ (by norm_num)
  obtain ⟨t, _, _, h3, _⟩ := initTree_spec (fun _ => costChoice) (fun b => b) fresh (m := m)
    (by intro k hk; rw [hlen] at hk; rw [h2.2 k hk]; rfl)
  refine ⟨m, t, ?_⟩
  unfold MadeGround TriMesh.init
  subst hv
  have hn : ¬ (ground.normal.isNone = true ∧ true = true) := by simp [ground]
  dsimp only
  rw [h1, Option.bind_eq_bind, Option.bind_some]
  dsimp only
  rw [if_neg hn, Option.bind_eq_bind, Option.bind_some, h3]
  rfl

/-- The hypotheses of `concave_triangles` are met, and it hands out one of the triangles. -/
example : ∃ m t items, MadeGround m t ∧ Concave.overlapping m t ⟨2, 1, 3⟩ ⟨⟨1, -1, -3⟩, ⟨2, 1, -2⟩⟩ = some items ∧
    ∃ it ∈ items, it.id = 7 := by
  obtain ⟨m, t, h⟩ := ground_made
  obtain ⟨items, h1, _, _, h2⟩ := concave_triangles (me := me) (by norm_num [me]) (fun b _ => AABB.contains_refl b) h (scale := ⟨2, 1, 3⟩) (by norm_num) (by norm_num)
    (by norm_num) ⟨⟨1, -1, -3⟩, ⟨2, 1, -2⟩⟩
  have h3 := h2 3 (by rw [ground_triangles]; decide) (by decide +kernel)
  rw [ground_triangles] at h3
  exact ⟨m, t, items, h, h1, h3⟩

/-- C84 needs the scale to be positive: with a mirrored mesh no triangle is handed out for a box around all of it. -/
theorem mirrored_triangle_lost : (∃ m t, MadeGround m t) ∧
    (∀ m t, MadeGround m t → Concave.overlapping m t ⟨-1, 1, 1⟩ ⟨⟨-2, -1, -2⟩, ⟨2, 1, 2⟩⟩ = some []) ∧
    (⟨⟨-2, -1, -2⟩, ⟨2, 1, 2⟩⟩ : AABB ℚ).testCollision (AABB.forTriangle (userTriangle ground ⟨-1, 1, 1⟩ (0, 2, 1)).1
      (userTriangle ground ⟨-1, 1, 1⟩ (0, 2, 1)).2.1 (userTriangle ground ⟨-1, 1, 1⟩ (0, 2, 1)).2.2) = true := by
  refine ⟨ground_made, ?_, by decide +kernel⟩
  intro m t h
  obtain ⟨S, ids, hr⟩ := init_ready (by norm_num [me]) h
  obtain ⟨nodes, n1, _, n3⟩ := tree_overlap_exact hr.hist ⟨scaleBy (inverse ⟨-1, 1, 1⟩) ⟨-2, -1, -2⟩, scaleBy (inverse ⟨-1, 1, 1⟩) ⟨2, 1, 2⟩⟩
  have hnil : nodes = [] := by
    rw [List.eq_nil_iff_forall_not_mem]
    intro i hi
    obtain ⟨o, ho, ht⟩ := (n3 i).1 hi
    obtain ⟨hk, e⟩ := hr.only i o ho
    have h2 := hr.obj o.data hk
    rw [e, ho] at h2
    simp only [Option.some.injEq] at h2
    rw [h2] at ht
    have all : ∀ tr ∈ trianglesOf me ground, (⟨scaleBy (inverse ⟨-1, 1, 1⟩) ⟨-2, -1, -2⟩, scaleBy (inverse ⟨-1, 1, 1⟩) ⟨2, 1, 2⟩⟩ : AABB ℚ).testCollision
        (AABB.forTriangle (ground.vert tr.1) (ground.vert tr.2.1) (ground.vert tr.2.2)) = false := by rw [ground_triangles]; decide +kernel
    rw [all _ (List.getElem_mem hk)] at ht
    cases ht
  unfold Concave.overlapping
  change (t.overlapping ⟨scaleBy (inverse ⟨-1, 1, 1⟩) ⟨-2, -1, -2⟩, scaleBy (inverse ⟨-1, 1, 1⟩) ⟨2, 1, 2⟩⟩).bind _ = _
  rw [n1, hnil]
  rfl

/-- The hypotheses of `concave_raycast_partial` are met by a ray down on the scaled ground, and the hit is found. -/
example : ∃ m t hit, MadeGround m t ∧
    Concave.raycast (FloatOps.exact ℚ) m t ⟨2, 1, 3⟩ me .front ⟨false, false, false⟩ ⟨⟨1, 5, 3 / 4⟩, ⟨1, -5, 3 / 4⟩, 1⟩ = some (some hit) ∧
    hit.fraction ≤ 1 / 2 := by
  obtain ⟨m, t, h⟩ := ground_made
  obtain ⟨res, h1, _, h2⟩ := concave_raycast_partial (me := me) (by norm_num [me]) (fun b _ => AABB.contains_refl b) h (scale := ⟨2, 1, 3⟩) (by norm_num)
    (by norm_num) (by norm_num) (eps := me) (by norm_num [me]) .front ⟨false, false, false⟩ (r := ⟨⟨1, 5, 3 / 4⟩, ⟨1, -5, 3 / 4⟩, 1⟩) (by norm_num)
    (by rw [ground_triangles]; unfold AABB.Clear; decide +kernel)
  obtain ⟨hit, rfl, hf⟩ := h2 (1, 2, 4) (by rw [ground_triangles]; decide) (1 / 2) (by norm_num) (by norm_num)
    ⟨3 / 8, 1 / 8, 1 / 2, by norm_num, by norm_num, by norm_num, by norm_num, by ext <;> decide +kernel⟩ (Or.inl ⟨by decide, by decide +kernel⟩)
  exact ⟨m, t, hit, h, h1, hf⟩

section None
variable {σ : Type}

omit [IsStrictOrderedRing K] in
/-- If no leaf passes the slab test, the callback is not called, whatever the inner nodes. -/
theorem raycastLoop_none {F : FloatOps K} {o : V3 K} {inv : V3 (Ext K)} {t : Tree K} {cb : σ → Nat → K → σ × Ext K} {m : K} {sub : Tree.T} :
    ∀ {p : Option Nat}, Tree.Rep t.node p sub → (∀ x ∈ sub.addrs, x < t.cap) →
    (∀ x ∈ sub.leaves, (t.node x).box.testRay F o inv m = false) → ∀ st s,
    t.raycastLoop F o inv cb (some sub.addr :: st) m s = t.raycastLoop F o inv cb st m s := by
  induction sub with
  | leaf a =>
    intro p h hc hn st s
    have ha : t.rd a = some (t.node a) := if_pos (hc a (by simp [Tree.T.addrs]))
    rw [Tree.raycastLoop, Tree.addr_leaf]
    simp only [ha, hn a (by simp [Tree.T.leaves]), Bool.false_eq_true, if_false]
  | node a l r h1 h2 =>
    intro p h hc hn st s
    have hh := h
    obtain ⟨k1, k2, k3, k4, k5, k6⟩ := h
    have hac : a < t.cap := hc a (by simp [Tree.T.addrs])
    have ha : t.rd a = some (t.node a) := if_pos hac
    have hk : t.kids a = some (l.addr, r.addr) := by simp only [Tree.kids, if_pos hac, k2]
    have hne : (t.node a).height ≠ 0 := by
      have := hh.node_height
      omega
    rw [Tree.raycastLoop, Tree.addr_node]
    simp only [ha, hk, if_neg hne]
    by_cases ho : (t.node a).box.testRay F o inv m = true
    · rw [if_pos ho, h2 k6 (fun x hx => hc x (by simp [Tree.T.addrs, hx])) (fun x hx => hn x (by simp [Tree.T.leaves, hx])),
        h1 k5 (fun x hx => hc x (by simp [Tree.T.addrs, hx])) (fun x hx => hn x (by simp [Tree.T.leaves, hx]))]
    · rw [if_neg ho]

omit [IsStrictOrderedRing K] in
theorem tree_raycast_none {P : AABB K → Prop} {fat : AABB K → AABB K} {t : Tree K} {S : Nat → Option (Obj K)} (F : FloatOps K) (h : Hist P fat t S)
    (o d : V3 K) (neg : V3 Bool) (cb : σ → Nat → K → σ × Ext K) (m : K) (s : σ)
    (hn : ∀ i ob, S i = some ob → ob.fat.testRay F o (rayInv F neg d) m = false) : t.raycast F o d neg cb m s = some (s, m, false) := by
  obtain ⟨tr, fl, h⟩ := Tree.hist_abs h
  unfold Tree.raycast
  rw [h.inv.root]
  cases tr with
  | none => rw [Option.map_none, Tree.raycastLoop, Tree.raycastLoop]
  | some T0 =>
    rw [Option.map_some, raycastLoop_none (h.inv.rep T0 rfl) (fun x hx => h.inv.lt (Or.inl hx)), Tree.raycastLoop]
    intro x hx
    obtain ⟨ob, hob⟩ := Option.isSome_iff_exists.1 ((h.mem x).1 hx)
    rw [(h.obj x ob hob).2]
    exact hn x ob hob

end None

/-- C85 fails: a ray straight down on the middle of the flat ground, within the ground and not at its rim, reports no hit. The ray lies in the plane
`x = 0`, which is a side of the boxes of all four triangles; the test of the ray against each box computes `0 · ∞`. -/
theorem ground_missed : (∃ m t, MadeGround m t) ∧
    (∃ tr ∈ trianglesOf me ground, Tri (userTriangle ground ⟨1, 1, 1⟩ tr).1 (userTriangle ground ⟨1, 1, 1⟩ tr).2.1 (userTriangle ground ⟨1, 1, 1⟩ tr).2.2
      ((⟨⟨0, 5, 1 / 4⟩, ⟨0, -5, 1 / 4⟩, 1⟩ : Ray ℚ).at (1 / 2)) ∧ Seen me .front (userTriangle ground ⟨1, 1, 1⟩ tr) ⟨⟨0, 5, 1 / 4⟩, ⟨0, -5, 1 / 4⟩, 1⟩) ∧
    ∀ m t, MadeGround m t → ∀ neg : V3 Bool,
      Concave.raycast (FloatOps.exact ℚ) m t ⟨1, 1, 1⟩ me .front neg ⟨⟨0, 5, 1 / 4⟩, ⟨0, -5, 1 / 4⟩, 1⟩ = some none := by
  refine ⟨ground_made, ⟨(1, 2, 4), by rw [ground_triangles]; decide, ⟨3 / 8, 5 / 8, 0, by norm_num, by norm_num, by norm_num, by norm_num,
    by ext <;> decide +kernel⟩, Or.inl ⟨by decide, by decide +kernel⟩⟩, ?_⟩
  intro m t h neg
  obtain ⟨S, ids, hr⟩ := init_ready (by norm_num [me]) h
  have all : ∀ tr ∈ trianglesOf me ground, (AABB.forTriangle (ground.vert tr.1) (ground.vert tr.2.1) (ground.vert tr.2.2)).testRay (FloatOps.exact ℚ)
      (localRay ⟨1, 1, 1⟩ ⟨⟨0, 5, 1 / 4⟩, ⟨0, -5, 1 / 4⟩, 1⟩).p1
      (rayInv (FloatOps.exact ℚ) neg (localRay ⟨1, 1, 1⟩ ⟨⟨0, 5, 1 / 4⟩, ⟨0, -5, 1 / 4⟩, 1⟩).dir) 1 = false := by
    rw [ground_triangles]
    obtain ⟨a, b, c⟩ := neg
    cases a <;> cases b <;> cases c <;> decide +kernel
  unfold Concave.raycast
  change (t.raycast (FloatOps.exact ℚ) (localRay ⟨1, 1, 1⟩ ⟨⟨0, 5, 1 / 4⟩, ⟨0, -5, 1 / 4⟩, 1⟩).p1
    (localRay ⟨1, 1, 1⟩ ⟨⟨0, 5, 1 / 4⟩, ⟨0, -5, 1 / 4⟩, 1⟩).dir neg collect 1 []).bind _ = _
  rw [tree_raycast_none _ hr.hist]
  · rfl
  · intro i o ho
    obtain ⟨hk, e⟩ := hr.only i o ho
    have h2 := hr.obj o.data hk
    rw [e, ho] at h2
    simp only [Option.some.injEq] at h2
    rw [h2]
    exact all _ (List.getElem_mem hk)

end ConcaveProps
end RP3D
