import Verif.Props.Mass

/-! C123, convex and concave meshes: the volume of a convex mesh is that of the convex hull of its vertices; its inertia tensor is that of the box
around it. -/

namespace RP3D
namespace MassProps
open MeasureTheory PointProps Facets Solids Mass

/-! ### The vector of a face -/

/-- What Newell's summand has too much at one end and too little at the other. -/
def spare (v : V3 ℝ) : V3 ℝ := ⟨v.y * v.z, v.z * v.x, v.x * v.y⟩

theorem newell_dot (w a b : V3 ℝ) : w.dot (newell a b) = w.dot (a.cross b) + w.dot (spare a) - w.dot (spare b) := by
  simp [newell, spare, V3.dot, V3.cross]; ring

theorem newellLoop_dot (w : V3 ℝ) : ∀ (ws : List (V3 ℝ)) (n v : V3 ℝ), w.dot (newellLoop n v ws) =
    w.dot n + ((chain v ws).map fun e => w.dot (e.1.cross e.2)).sum + w.dot (spare v) - w.dot (spare (ws.getLastD v))
  | [], n, v => by simp [newellLoop, chain]
  | x :: ws, n, v => by
    rw [newellLoop, newellLoop_dot w ws (n + newell v x) x]
    have e : w.dot (n + newell v x) = w.dot n + w.dot (newell v x) := by simp [V3.dot]; ring
    rw [e, newell_dot]
    simp only [chain, List.map_cons, List.sum_cons, List.getLastD_cons]
    ring

/-- Newell's method adds up the products of the successive corners. -/
theorem faceNormal_spec {F : List (V3 ℝ)} (h3 : 3 ≤ F.length) : ∃ N, faceNormal F = some N ∧ ∀ w, N.dot w = faceSum F w := by
  have hne : F ≠ [] := by rintro rfl; simp at h3
  obtain ⟨l, hl⟩ : ∃ l, F.getLast? = some l := by rw [List.getLast?_eq_some_getLast hne]; exact ⟨_, rfl⟩
  refine ⟨newellLoop 0 l F, by simp [faceNormal, h3, hl], fun w => ?_⟩
  have hlD : F.getLastD l = l := by
    rw [List.getLastD_eq_getLast?, hl]; rfl
  rw [Facets.dot_comm, newellLoop_dot w F 0 l, hlD]
  have : edges F = chain l F := by simp [edges, hl]
  rw [faceSum, this]
  simp [V3.dot]

/-- The faces are accepted by `computeFacesNormals` (ConvexMesh.cpp:186-214): three corners and a normal that is longer than the tolerance. -/
def Accepted (eps : ℝ) (fs : List (List (V3 ℝ))) : Prop := ∀ F ∈ fs, ∃ N, faceNormal F = some N ∧ eps < len Real.sqrt N

theorem faceTerm_spec {eps : ℝ} (heps : 0 ≤ eps) {F : List (V3 ℝ)} (h : ∃ N, faceNormal F = some N ∧ eps < len Real.sqrt N) :
    faceTerm eps Real.sqrt F = some (faceSum F (F.headD 0) / 2) := by
  obtain ⟨N, hN, hlen⟩ := h
  have h3 : 3 ≤ F.length := by
    by_contra h3
    simp [faceNormal, h3] at hN
  obtain ⟨N', hN', hw⟩ := faceNormal_spec h3
  obtain rfl : N' = N := by rw [hN'] at hN; simpa using hN
  have hne : F ≠ [] := by rintro rfl; simp at h3
  obtain ⟨v, F', rfl⟩ := List.exists_cons_of_ne_nil hne
  have hpos : len Real.sqrt N' ≠ 0 := by
    intro h0; rw [h0] at hlen; linarith
  simp only [faceTerm, hN', List.head?_cons, Option.bind_eq_bind, Option.bind_some, unitNormal, hlen, if_true, List.headD_cons]
  rw [← hw]
  congr 1
  have : v.dot (V3.smul (1 / len Real.sqrt N') N') = 1 / len Real.sqrt N' * N'.dot v := by
    generalize 1 / len Real.sqrt N' = k
    simp [V3.dot]; ring
  rw [this]
  field_simp

theorem volumeSum_spec {eps : ℝ} (heps : 0 ≤ eps) : ∀ (fs : List (List (V3 ℝ))) (s : ℝ), Accepted eps fs →
    volumeSum eps Real.sqrt fs s = some (s + (fs.map fun F => faceSum F (F.headD 0)).sum / 2)
  | [], s, _ => by simp [volumeSum]
  | F :: fs, s, h => by
    rw [volumeSum, faceTerm_spec heps (h F (by simp))]
    simp only [Option.bind_eq_bind, Option.bind_some]
    rw [volumeSum_spec heps fs _ fun G hG => h G (List.mem_cons_of_mem _ hG)]
    simp only [List.map_cons, List.sum_cons]
    congr 1
    ring

/-! ### The volume of a convex mesh -/

/-- The volume that is computed for a convex mesh is the volume of the convex hull of its vertices. -/
theorem mesh_volume {eps : ℝ} (heps : 0 ≤ eps) {vs : List (V3 ℝ)} {fs : List (List (V3 ℝ))} (S : Surface vs fs) (ha : Accepted eps fs) :
    ∃ V, 0 < V ∧ meshVolume eps Real.sqrt fs = some V ∧ volume (region (Hull vs)) = ENNReal.ofReal V := by
  have hfirst : ∀ F ∈ fs, (fun F : List (V3 ℝ) => F.headD 0) F ∈ F := by
    intro F hF
    have := S.three F hF
    cases F with
    | nil => simp at this
    | cons v F => simp
  obtain ⟨hpos, hvol⟩ := hull_volume S (fun F => F.headD 0) hfirst
  refine ⟨_, by positivity, ?_, hvol⟩
  rw [meshVolume, volumeSum_spec heps fs 0 ha]
  simp only [Option.map_some, zero_add]
  rw [abs_of_pos (by positivity)]
  congr 1
  ring

/-- The image of a solid under a scaling of the axes. -/
def Scaled (scale : V3 ℝ) (S : V3 ℝ → Prop) (x : V3 ℝ) : Prop := ∃ y, S y ∧ x = Ray.scaleBy scale y

theorem scaled_volume (scale : V3 ℝ) (S : V3 ℝ → Prop) :
    volume (region (Scaled scale S)) = ENNReal.ofReal |scale.x * scale.y * scale.z| * volume (region S) := by
  have h1 : region (Scaled scale S) = columns ⟨scale.x, 0, 0⟩ ⟨0, scale.y, 0⟩ ⟨0, 0, scale.z⟩ '' region S := by
    ext p
    simp only [region, Scaled, Set.mem_ofPred_eq, Set.mem_image]
    constructor
    · rintro ⟨y, hy, hp⟩
      refine ⟨co y, by simpa using hy, ?_⟩
      rw [← co_pt p, hp]
      simp [columns, co, Ray.scaleBy, mul_comm]
    · rintro ⟨q, hq, rfl⟩
      refine ⟨pt q, hq, ?_⟩
      simp [columns, pt, Ray.scaleBy, mul_comm]
  rw [h1, Measure.addHaar_image_linearMap, columns_det]
  congr 2
  simp [V3.dot, V3.cross, mul_assoc]

/-- The volume of a scaled convex mesh: up to its sign it is that of the scaled solid, and the sign is that of the product of the factors. -/
theorem mesh_shape_volume_partial {eps : ℝ} (heps : 0 ≤ eps) {vs : List (V3 ℝ)} {fs : List (List (V3 ℝ))} (S : Surface vs fs) (ha : Accepted eps fs)
    (scale : V3 ℝ) : ∃ V, meshShapeVolume eps Real.sqrt scale fs = some V ∧ volume (region (Scaled scale (Hull vs))) = ENNReal.ofReal |V| ∧
      (0 < V ↔ 0 < scale.x * scale.y * scale.z) ∧ (V < 0 ↔ scale.x * scale.y * scale.z < 0) := by
  obtain ⟨V, hpos, hV, hvol⟩ := mesh_volume heps S ha
  refine ⟨V * scale.x * scale.y * scale.z, by simp [meshShapeVolume, hV], ?_, ?_, ?_⟩
  · rw [scaled_volume, hvol, ← ENNReal.ofReal_mul (abs_nonneg _)]
    congr 1
    rw [show V * scale.x * scale.y * scale.z = V * (scale.x * scale.y * scale.z) by ring, abs_mul V, abs_of_pos hpos]
    ring
  · rw [show V * scale.x * scale.y * scale.z = V * (scale.x * scale.y * scale.z) by ring]
    exact ⟨fun h => (pos_iff_pos_of_mul_pos h).1 hpos, fun h => mul_pos hpos h⟩
  · rw [show V * scale.x * scale.y * scale.z = V * (scale.x * scale.y * scale.z) by ring]
    exact ⟨fun h => by
      by_contra h0
      have := mul_nonneg hpos.le (not_lt.1 h0)
      linarith, fun h => mul_neg_of_pos_of_neg hpos h⟩

/-- With factors whose product is positive, the volume is that of the scaled solid. -/
theorem mesh_shape_volume {eps : ℝ} (heps : 0 ≤ eps) {vs : List (V3 ℝ)} {fs : List (List (V3 ℝ))} (S : Surface vs fs) (ha : Accepted eps fs)
    {scale : V3 ℝ} (hs : 0 < scale.x * scale.y * scale.z) : ∃ V, 0 < V ∧ meshShapeVolume eps Real.sqrt scale fs = some V ∧
      volume (region (Scaled scale (Hull vs))) = ENNReal.ofReal V := by
  obtain ⟨V, h1, h2, h3, -⟩ := mesh_shape_volume_partial heps S ha scale
  have hpos := h3.2 hs
  exact ⟨V, hpos, h1, by rw [h2, abs_of_pos hpos]⟩

/-! ### A tetrahedron -/

/-- The corners of a tetrahedron, and its faces, seen from outside against the clock. -/
def tetraVerts : List (V3 ℝ) := [⟨0, 0, 0⟩, ⟨1, 0, 0⟩, ⟨0, 1, 0⟩, ⟨0, 0, 1⟩]
def tetraFaces : List (List (V3 ℝ)) :=
  [[⟨0, 0, 0⟩, ⟨0, 1, 0⟩, ⟨1, 0, 0⟩], [⟨0, 0, 0⟩, ⟨1, 0, 0⟩, ⟨0, 0, 1⟩], [⟨0, 0, 0⟩, ⟨0, 0, 1⟩, ⟨0, 1, 0⟩], [⟨1, 0, 0⟩, ⟨0, 1, 0⟩, ⟨0, 0, 1⟩]]

theorem tetra_surface : Surface tetraVerts tetraFaces where
  some := by simp [tetraFaces]
  vertex := by
    intro F hF v hv
    simp only [tetraFaces, List.mem_cons, List.not_mem_nil, or_false] at hF
    rcases hF with rfl | rfl | rfl | rfl <;> simp only [List.mem_cons, List.not_mem_nil, or_false] at hv <;>
      rcases hv with rfl | rfl | rfl <;> simp [tetraVerts]
  three := by
    intro F hF
    simp only [tetraFaces, List.mem_cons, List.not_mem_nil, or_false] at hF
    rcases hF with rfl | rfl | rfl | rfl <;> simp
  nodup := by
    intro F hF
    simp only [tetraFaces, List.mem_cons, List.not_mem_nil, or_false] at hF
    rcases hF with rfl | rfl | rfl | rfl <;> simp [V3.ext_iff]
  once := by simp [tetraFaces, edges, chain, V3.ext_iff]
  twin := by
    intro F hF a b h
    simp only [tetraFaces, List.mem_cons, List.not_mem_nil, or_false] at hF
    rcases hF with rfl | rfl | rfl | rfl <;>
      simp only [edges, chain, List.getLast?_cons_cons, List.getLast?_singleton, List.mem_cons, List.not_mem_nil, or_false, Prod.mk.injEq] at h <;>
      rcases h with ⟨rfl, rfl⟩ | ⟨rfl, rfl⟩ | ⟨rfl, rfl⟩ <;> simp [tetraFaces, edges, chain, V3.ext_iff]
  plane := by
    intro F hF
    simp only [tetraFaces, List.mem_cons, List.not_mem_nil, or_false] at hF
    rcases hF with rfl | rfl | rfl | rfl
    · refine ⟨⟨0, 0, -1⟩, 0, by simp [V3.dot], ?_, ⟨⟨0, 0, 1⟩, by simp [tetraVerts], by simp [V3.ext_iff]⟩, ?_⟩
      · intro v hv hvF
        simp only [tetraVerts, List.mem_cons, List.not_mem_nil, or_false] at hv
        rcases hv with rfl | rfl | rfl | rfl <;> simp [V3.dot, V3.ext_iff] at hvF ⊢
      · intro a b h v hv h1 h2
        simp only [edges, chain, List.getLast?_cons_cons, List.getLast?_singleton, List.mem_cons, List.not_mem_nil, or_false, Prod.mk.injEq] at h hv
        rcases h with ⟨rfl, rfl⟩ | ⟨rfl, rfl⟩ | ⟨rfl, rfl⟩ <;> rcases hv with rfl | rfl | rfl <;> simp [V3.dot, V3.cross] at h1 h2 ⊢
    · refine ⟨⟨0, -1, 0⟩, 0, by simp [V3.dot], ?_, ⟨⟨0, 1, 0⟩, by simp [tetraVerts], by simp [V3.ext_iff]⟩, ?_⟩
      · intro v hv hvF
        simp only [tetraVerts, List.mem_cons, List.not_mem_nil, or_false] at hv
        rcases hv with rfl | rfl | rfl | rfl <;> simp [V3.dot, V3.ext_iff] at hvF ⊢
      · intro a b h v hv h1 h2
        simp only [edges, chain, List.getLast?_cons_cons, List.getLast?_singleton, List.mem_cons, List.not_mem_nil, or_false, Prod.mk.injEq] at h hv
        rcases h with ⟨rfl, rfl⟩ | ⟨rfl, rfl⟩ | ⟨rfl, rfl⟩ <;> rcases hv with rfl | rfl | rfl <;> simp [V3.dot, V3.cross] at h1 h2 ⊢
    · refine ⟨⟨-1, 0, 0⟩, 0, by simp [V3.dot], ?_, ⟨⟨1, 0, 0⟩, by simp [tetraVerts], by simp [V3.ext_iff]⟩, ?_⟩
      · intro v hv hvF
        simp only [tetraVerts, List.mem_cons, List.not_mem_nil, or_false] at hv
        rcases hv with rfl | rfl | rfl | rfl <;> simp [V3.dot, V3.ext_iff] at hvF ⊢
      · intro a b h v hv h1 h2
        simp only [edges, chain, List.getLast?_cons_cons, List.getLast?_singleton, List.mem_cons, List.not_mem_nil, or_false, Prod.mk.injEq] at h hv
        rcases h with ⟨rfl, rfl⟩ | ⟨rfl, rfl⟩ | ⟨rfl, rfl⟩ <;> rcases hv with rfl | rfl | rfl <;> simp [V3.dot, V3.cross] at h1 h2 ⊢
    · refine ⟨⟨1, 1, 1⟩, 1, by simp [V3.dot], ?_, ⟨⟨0, 0, 0⟩, by simp [tetraVerts], by simp [V3.ext_iff]⟩, ?_⟩
      · intro v hv hvF
        simp only [tetraVerts, List.mem_cons, List.not_mem_nil, or_false] at hv
        rcases hv with rfl | rfl | rfl | rfl <;> simp [V3.dot, V3.ext_iff] at hvF ⊢
      · intro a b h v hv h1 h2
        simp only [edges, chain, List.getLast?_cons_cons, List.getLast?_singleton, List.mem_cons, List.not_mem_nil, or_false, Prod.mk.injEq] at h hv
        rcases h with ⟨rfl, rfl⟩ | ⟨rfl, rfl⟩ | ⟨rfl, rfl⟩ <;> rcases hv with rfl | rfl | rfl <;> first | exact absurd rfl h1 | exact absurd rfl h2 | norm_num [V3.dot, V3.cross]

theorem tetra_accepted : Accepted (1 / 1000) tetraFaces := by
  have key : ∀ N : V3 ℝ, 1 ≤ N.lengthSq → (1 / 1000 : ℝ) < len Real.sqrt N := by
    intro N hN
    rw [len]
    exact lt_of_lt_of_le (by norm_num) (Real.one_le_sqrt.2 hN)
  intro F hF
  simp only [tetraFaces, List.mem_cons, List.not_mem_nil, or_false] at hF
  rcases hF with rfl | rfl | rfl | rfl
  · exact ⟨_, rfl, key _ (by norm_num [newellLoop, newell, V3.lengthSq])⟩
  · exact ⟨_, rfl, key _ (by norm_num [newellLoop, newell, V3.lengthSq])⟩
  · exact ⟨_, rfl, key _ (by norm_num [newellLoop, newell, V3.lengthSq])⟩
  · exact ⟨_, rfl, key _ (by norm_num [newellLoop, newell, V3.lengthSq])⟩

theorem tetra_hull : region (Hull tetraVerts) = unitTetra := by
  ext p
  constructor
  · intro h
    have h1 := hull_le (d := ⟨-1, 0, 0⟩) (m := 0) (by simp [tetraVerts, V3.dot]) h
    have h2 := hull_le (d := ⟨0, -1, 0⟩) (m := 0) (by simp [tetraVerts, V3.dot]) h
    have h3 := hull_le (d := ⟨0, 0, -1⟩) (m := 0) (by simp [tetraVerts, V3.dot]) h
    have h4 := hull_le (d := ⟨1, 1, 1⟩) (m := 1) (by simp [tetraVerts, V3.dot]) h
    simp only [V3.dot, pt] at h1 h2 h3 h4
    exact ⟨by linarith, by linarith, by linarith, by linarith⟩
  · rintro ⟨h1, h2, h3, h4⟩
    refine hull_cell (c := ⟨0, 0, 0⟩) (m := ⟨1, 0, 0⟩) (e := (⟨0, 1, 0⟩, ⟨0, 0, 1⟩)) (.vertex (by simp [tetraVerts])) (.vertex (by simp [tetraVerts]))
      (.vertex (by simp [tetraVerts])) (.vertex (by simp [tetraVerts])) ⟨p.1, p.2.1, p.2.2, h1, h2, h3, h4, ?_⟩
    ext <;> simp [pt]

theorem tetra_volume : meshVolume (1 / 1000) Real.sqrt tetraFaces = some (1 / 6) := by
  obtain ⟨V, hpos, hV, hvol⟩ := mesh_volume (by norm_num) tetra_surface tetra_accepted
  rw [tetra_hull, unitTetra_volume] at hvol
  have := (ENNReal.ofReal_eq_ofReal_iff (by norm_num) hpos.le).1 hvol
  rw [hV, ← this]

/-- The tetrahedron meets the hypotheses, and its volume is the known one. -/
example : ∃ V, 0 < V ∧ meshVolume (1 / 1000) Real.sqrt tetraFaces = some V ∧ volume (region (Hull tetraVerts)) = ENNReal.ofReal V :=
  mesh_volume (by norm_num) tetra_surface tetra_accepted

example : ∃ V, 0 < V ∧ meshShapeVolume (1 / 1000) Real.sqrt ⟨2, 3, 1⟩ tetraFaces = some V ∧
    volume (region (Scaled ⟨2, 3, 1⟩ (Hull tetraVerts))) = ENNReal.ofReal V :=
  mesh_shape_volume (by norm_num) tetra_surface tetra_accepted (by norm_num)

/-- A mirrored convex mesh has a negative volume: the tetrahedron with the factors -1, 1, 1, whose volume is 1/6. -/
theorem mesh_mirrored_volume : meshShapeVolume (1 / 1000) Real.sqrt ⟨-1, 1, 1⟩ tetraFaces = some (-(1 / 6)) ∧
    volume (region (Scaled ⟨-1, 1, 1⟩ (Hull tetraVerts))) = ENNReal.ofReal (1 / 6) := by
  constructor
  · rw [meshShapeVolume, tetra_volume]
    norm_num
  · rw [scaled_volume, tetra_hull, unitTetra_volume]
    norm_num

/-! ### Inertia tensors of meshes -/

/-- The inertia tensor of a convex mesh is that of the box around it, about the centre of that box. -/
theorem mesh_inertia_box {scale : V3 ℝ} {vs : List (V3 ℝ)} {b : AABB ℝ} (hb : Bounds.meshBounds vs = some b) (mass : ℝ) (i : V3 ℝ) :
    meshInertia scale vs mass = some i ↔ i = boxInertia (Ray.scaleBy (V3.smul (1 / 2) scale) (b.mx - b.mn)) mass ∧
      0 < scale.x * (b.mx.x - b.mn.x) ∧ 0 < scale.y * (b.mx.y - b.mn.y) ∧ 0 < scale.z * (b.mx.z - b.mn.z) := by
  have e : ∀ a d : ℝ, 0 < 1 / 2 * a * d ↔ 0 < a * d := by
    intro a d
    constructor <;> intro h <;> nlinarith
  have hx : 0 < (Ray.scaleBy (V3.smul (1 / 2) scale) (b.mx - b.mn)).x ↔ 0 < scale.x * (b.mx.x - b.mn.x) := e _ _
  have hy : 0 < (Ray.scaleBy (V3.smul (1 / 2) scale) (b.mx - b.mn)).y ↔ 0 < scale.y * (b.mx.y - b.mn.y) := e _ _
  have hz : 0 < (Ray.scaleBy (V3.smul (1 / 2) scale) (b.mx - b.mn)).z ↔ 0 < scale.z * (b.mx.z - b.mn.z) := e _ _
  rw [← hx, ← hy, ← hz, meshInertia, hb, Option.bind_some, boundsInertia]
  split_ifs with h
  · rw [Option.some.injEq]
    exact ⟨fun h0 => ⟨h0.symm, h⟩, fun h0 => h0.1.symm⟩
  · exact ⟨fun h0 => (by cases h0), fun h0 => absurd h0.2 h⟩

/-- A mirrored convex mesh breaks the assertion of `getLocalInertiaTensor`, whatever its vertices. -/
theorem mesh_mirrored_inertia {scale : V3 ℝ} {vs : List (V3 ℝ)} {b : AABB ℝ} (hb : Bounds.meshBounds vs = some b) (hx : b.mn.x ≤ b.mx.x)
    (hs : scale.x < 0) (mass : ℝ) : meshInertia scale vs mass = none := by
  cases h : meshInertia scale vs mass with
  | none => rfl
  | some i =>
    have := ((mesh_inertia_box hb mass i).1 h).2.1
    nlinarith

theorem tetra_bounds : Bounds.meshBounds tetraVerts = some ⟨⟨0, 0, 0⟩, ⟨1, 1, 1⟩⟩ := by
  norm_num [Bounds.meshBounds, tetraVerts, AABB.inflateWithPoint]

example (i : V3 ℝ) (h : meshInertia ⟨2, 3, 1⟩ tetraVerts 6 = some i) : i = boxInertia ⟨1, 3 / 2, 1 / 2⟩ 6 := by
  rw [((mesh_inertia_box tetra_bounds 6 i).1 h).1]
  norm_num [Ray.scaleBy]

example : meshInertia ⟨-1, 1, 1⟩ tetraVerts 1 = none := mesh_mirrored_inertia tetra_bounds (by norm_num) (by norm_num) 1

theorem tetra_moment (g : ℝ → ℝ) (hg : Continuous g) :
    total (Hull tetraVerts) (fun v => g v.x) = ∫ x in (0 : ℝ)..1, g x * ((1 - x) ^ 2 / 2) := by
  have hK : IsCompact unitTetra := by
    have h1 := cell_closed ⟨0, 0, 0⟩ ⟨1, 0, 0⟩ (⟨0, 1, 0⟩, ⟨0, 0, 1⟩)
    have h2 : region (Cell ⟨0, 0, 0⟩ ⟨1, 0, 0⟩ (⟨0, 1, 0⟩, ⟨0, 0, 1⟩)) = unitTetra := by
      ext p
      simp only [region, Set.mem_ofPred_eq, Cell, unitTetra]
      constructor
      · rintro ⟨α, β, γ, ha, hb, hc, hs, h⟩
        have hp : p = (α, β, γ) := by rw [← co_pt p, h]; simp [co]
        subst hp
        exact ⟨ha, hb, hc, hs⟩
      · rintro ⟨h1, h2, h3, h4⟩
        exact ⟨p.1, p.2.1, p.2.2, h1, h2, h3, h4, by ext <;> simp [pt]⟩
    rwa [h2] at h1
  rw [total, tetra_hull]
  simp only [pt]
  have hint : IntegrableOn (fun p : ℝ × ℝ × ℝ => g p.1) unitTetra := (hg.comp continuous_fst).continuousOn.integrableOn_compact hK
  rw [← integral_indicator hK.measurableSet, Measure.volume_eq_prod, integral_prod _ (by
    have := hint.integrable_indicator hK.measurableSet
    rwa [Measure.volume_eq_prod] at this)]
  have hin : ∀ x : ℝ, ∫ q : ℝ × ℝ, unitTetra.indicator (fun p => g p.1) (x, q) = (Set.Icc 0 1).indicator (fun x => g x * ((1 - x) ^ 2 / 2)) x := by
    intro x
    by_cases hx : x ∈ Set.Icc (0 : ℝ) 1
    · rw [Set.indicator_of_mem hx]
      have hm : MeasurableSet {q : ℝ × ℝ | 0 ≤ q.1 ∧ 0 ≤ q.2 ∧ q.1 + q.2 ≤ 1 - x} := by
        apply IsClosed.measurableSet
        exact (isClosed_le continuous_const continuous_fst).inter ((isClosed_le continuous_const continuous_snd).inter
          (isClosed_le (continuous_fst.add continuous_snd) continuous_const))
      have h1 : ∀ q : ℝ × ℝ, unitTetra.indicator (fun p => g p.1) (x, q) =
          {q : ℝ × ℝ | 0 ≤ q.1 ∧ 0 ≤ q.2 ∧ q.1 + q.2 ≤ 1 - x}.indicator (fun _ => g x) q := by
        intro q
        have hiff : (x, q) ∈ unitTetra ↔ q ∈ {q : ℝ × ℝ | 0 ≤ q.1 ∧ 0 ≤ q.2 ∧ q.1 + q.2 ≤ 1 - x} := by
          simp only [unitTetra, Set.mem_ofPred_eq]
          exact ⟨fun h => ⟨h.2.1, h.2.2.1, by linarith [h.2.2.2]⟩, fun h => ⟨hx.1, h.1, h.2.1, by linarith [h.2.2]⟩⟩
        by_cases hq : (x, q) ∈ unitTetra
        · rw [Set.indicator_of_mem hq, Set.indicator_of_mem (hiff.1 hq)]
        · rw [Set.indicator_of_notMem hq, Set.indicator_of_notMem (fun h => hq (hiff.2 h))]
      simp only [h1]
      rw [integral_indicator hm, setIntegral_const, Measure.real, triangle_volume (by linarith [hx.2]), ENNReal.toReal_ofReal (by positivity),
        smul_eq_mul, mul_comm]
    · rw [Set.indicator_of_notMem hx]
      have h1 : ∀ q : ℝ × ℝ, unitTetra.indicator (fun p => g p.1) (x, q) = 0 := by
        intro q
        rw [Set.indicator_of_notMem]
        rintro ⟨h1, h2, h3, h4⟩
        exact hx ⟨h1, by simp only at h2 h3 h4; linarith⟩
      simp [h1]
  rw [integral_congr_ae (Filter.Eventually.of_forall hin), integral_indicator measurableSet_Icc, integral_Icc_eq_integral_Ioc,
    intervalIntegral.integral_of_le (by norm_num)]

/-- A convex mesh need not balance at the origin of its collider, which the program takes for its centre of mass. -/
theorem mesh_centre_wrong : total (Hull tetraVerts) (fun v => v.x) = 1 / 24 := by
  rw [tetra_moment (fun x => x) continuous_id, poly_congr 0 (1 / 2) (-1) (1 / 2) 0 _ _ (fun y => by ring)]
  norm_num

theorem tetra_moment_y (g : ℝ → ℝ) (hg : Continuous g) :
    total (Hull tetraVerts) (fun v => g v.y) = ∫ x in (0 : ℝ)..1, g x * ((1 - x) ^ 2 / 2) := by
  rw [← tetra_moment g hg, total, total, tetra_hull, ← exchange_preserving.setIntegral_preimage_emb exchange.measurableEmbedding]
  have : exchange ⁻¹' unitTetra = unitTetra := by
    ext p
    simp only [Set.mem_preimage, exchange_apply, unitTetra, Set.mem_ofPred_eq]
    constructor <;> rintro ⟨h1, h2, h3, h4⟩ <;> exact ⟨h2, h1, h3, by linarith⟩
  rw [this]
  rfl

/-- The inertia tensor of a convex mesh is not that of the solid, neither about the origin nor about the centre of mass of the solid: a tetrahedron
of mass 1 has the moment 1/5 about an axis through the origin and 3/40 about an axis through its centre of mass; the program says 1/6. -/
theorem mesh_inertia_wrong :
    meshInertia ⟨1, 1, 1⟩ tetraVerts 1 = some ⟨1 / 6, 1 / 6, 1 / 6⟩ ∧
      1 / (1 / 6) * total (Hull tetraVerts) (fun v => v.x ^ 2 + v.y ^ 2) = 1 / 5 ∧
      1 / (1 / 6) * total (Hull tetraVerts) (fun v => (v.x - 1 / 4) ^ 2 + (v.y - 1 / 4) ^ 2) = 3 / 40 := by
  have hK : IsCompact (region (Hull tetraVerts)) := by
    rw [tetra_hull]
    have h1 := cell_closed ⟨0, 0, 0⟩ ⟨1, 0, 0⟩ (⟨0, 1, 0⟩, ⟨0, 0, 1⟩)
    have h2 : region (Cell ⟨0, 0, 0⟩ ⟨1, 0, 0⟩ (⟨0, 1, 0⟩, ⟨0, 0, 1⟩)) = unitTetra := by
      ext p
      simp only [region, Set.mem_ofPred_eq, Cell, unitTetra]
      constructor
      · rintro ⟨α, β, γ, ha, hb, hc, hs, h⟩
        have hp : p = (α, β, γ) := by rw [← co_pt p, h]; simp [co]
        subst hp
        exact ⟨ha, hb, hc, hs⟩
      · rintro ⟨h1, h2, h3, h4⟩
        exact ⟨p.1, p.2.1, p.2.2, h1, h2, h3, h4, by ext <;> simp [pt]⟩
    rwa [h2] at h1
  refine ⟨?_, ?_, ?_⟩
  · rw [mesh_inertia_box tetra_bounds]
    norm_num [boxInertia, Ray.scaleBy]
  · rw [total_add hK (f := fun v => v.x ^ 2) (g := fun v => v.y ^ 2) (by simp only [pt]; fun_prop) (by simp only [pt]; fun_prop),
      tetra_moment (fun x => x ^ 2) (by fun_prop), tetra_moment_y (fun x => x ^ 2) (by fun_prop),
      poly_congr 0 0 (1 / 2) (-1) (1 / 2) _ _ (fun y => by ring)]
    norm_num
  · rw [total_add hK (f := fun v => (v.x - 1 / 4) ^ 2) (g := fun v => (v.y - 1 / 4) ^ 2) (by simp only [pt]; fun_prop)
        (by simp only [pt]; fun_prop),
      tetra_moment (fun x => (x - 1 / 4) ^ 2) (by fun_prop), tetra_moment_y (fun x => (x - 1 / 4) ^ 2) (by fun_prop),
      poly_congr (1 / 32) (-(5 / 16)) (1 / 32 + 1 / 2 + 1 / 2) (-(5 / 4)) (1 / 2) _ _ (fun y => by ring)]
    norm_num

/-! ### Concave shapes -/

/-- The volume of a concave shape is that of the box of its bounds, if these are in order. -/
theorem concave_volume {b : AABB ℝ} (hx : b.mn.x ≤ b.mx.x) (hy : b.mn.y ≤ b.mx.y) (_hz : b.mn.z ≤ b.mx.z) :
    volume (region fun v => (b.mn.x ≤ v.x ∧ v.x ≤ b.mx.x) ∧ (b.mn.y ≤ v.y ∧ v.y ≤ b.mx.y) ∧ (b.mn.z ≤ v.z ∧ v.z ≤ b.mx.z)) =
      ENNReal.ofReal (concaveVolume b) := by
  have : (region fun v => (b.mn.x ≤ v.x ∧ v.x ≤ b.mx.x) ∧ (b.mn.y ≤ v.y ∧ v.y ≤ b.mx.y) ∧ (b.mn.z ≤ v.z ∧ v.z ≤ b.mx.z)) =
      Set.Icc b.mn.x b.mx.x ×ˢ (Set.Icc b.mn.y b.mx.y ×ˢ Set.Icc b.mn.z b.mx.z) := by
    ext p
    simp only [region, pt, Set.mem_ofPred_eq, Set.mem_prod, Set.mem_Icc]
  rw [this, Measure.volume_eq_prod, Measure.prod_prod, Measure.volume_eq_prod, Measure.prod_prod, Real.volume_Icc, Real.volume_Icc, Real.volume_Icc,
    ← ENNReal.ofReal_mul (by linarith), ← ENNReal.ofReal_mul (by linarith), concaveVolume, mul_assoc]

example : concaveVolume (⟨⟨0, 0, 0⟩, ⟨1, 2, 3⟩⟩ : AABB ℝ) = 6 := by norm_num [concaveVolume]

/-- The inertia tensor of a concave shape does not depend on its size: for a box of bounds with half extents 2 it is not even that of the box. -/
theorem concave_inertia_wrong : concaveInertia (1 : ℝ) ≠ boxInertia ⟨2, 2, 2⟩ 1 := by
  intro h
  have := congrArg V3.x h
  norm_num [concaveInertia, boxInertia] at this

end MassProps
end RP3D
