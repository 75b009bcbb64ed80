import Verif.Props.SatTest
import Verif.Props.RayExamples

/-! C102: overlapping polyhedra that the separating axis test takes for apart. -/

namespace RP3D
namespace SatProps
open Shape RayProps PointProps RoundProps Geom GeomProps Sat SatGeom

set_option linter.unusedSectionVars false

section Field
variable {K : Type} [Field K] [LinearOrder K] [IsStrictOrderedRing K] {P1 P2 : Poly K} {w1 w2 : Trans K} {N : Num K}

/-- The search ends with the normal of a face of the first polyhedron if the overlap along it is smallest. -/
theorem search_first (hN : NumOk N) (ha : 0 < N.abs) (h1 : Solid P1) (h2 : Solid P2) (u1 : w1.ori.lengthSq = 1) (u2 : w2.ori.lengthSq = 1) {δ : K} (h0 : 0 < δ)
    (hl : δ < N.large) (ho : Overlap δ (Placed w1 (Hulled P1)) (Placed w2 (Hulled P2))) {f0 : Nat} (hf0 : f0 < P1.nf)
    (he : faceDepth P1 P2 (w2.inverse.mul w1) f0 = δ) (hother : ∀ f < P1.nf, f ≠ f0 → δ < faceDepth P1 P2 (w2.inverse.mul w1) f) :
    search N P1 P2 (w2.inverse.mul w1) (w2.inverse.mul w1).inverse = .best ⟨δ, .face1 f0, 0⟩ := by
  have ht := frame_unit u1 u2
  have deep : ∀ a, Tested N P1 P2 (w2.inverse.mul w1) a → δ ≤ axisDepth N P1 P2 (w2.inverse.mul w1) a := by
    intro a ha
    obtain ⟨n, x, y, hn, hx, hy, e⟩ := tested_exact hN h1 h2 ht ha
    obtain ⟨x', y', hx', hy', hd⟩ := ho (w2.ori.rot n) (by rw [rot_len u2, hn])
    rw [← e]
    exact le_trans hd (bound_world u1 u2 hx hy hx' hy')
  have edges : ∀ p ∈ pairs P1.ne P2.ne, minkowski P1 P2 (w2.inverse.mul w1) p.1 p.2 = true → δ ≤ (edgeDepth N P1 P2 (w2.inverse.mul w1) p.1 p.2).1 := by
    intro p hp hm
    obtain ⟨p1, p2⟩ := mem_pairs.1 hp
    by_cases hpar : parallel N ((w2.inverse.mul w1).act (P1.endOf p.1) - (w2.inverse.mul w1).act (P1.startOf p.1)) (P2.endOf p.2 - P2.startOf p.2) = true
    · unfold edgeDepth edgeDistance
      rw [if_pos hpar]
      exact hl.le
    · exact deep (.edges p.1 p.2) ⟨p1, p2, hm, by simpa using hpar⟩
  have hr1 : scan (faceDepth P1 P2 (w2.inverse.mul w1)) (List.range P1.nf) (N.large, 0) = (δ, f0) := by
    obtain ⟨s1, s2⟩ := scan_spec (faceDepth P1 P2 (w2.inverse.mul w1)) (List.range P1.nf) (N.large, 0) hN.large
    have hd := fun f (hf : f < P1.nf) => deep (.face1 f) hf
    generalize scan (faceDepth P1 P2 (w2.inverse.mul w1)) (List.range P1.nf) (N.large, 0) = r1 at *
    rcases le_or_gt r1.1 0 with c | c
    · obtain ⟨a, b⟩ := s1 c
      have := hd _ (List.mem_range.1 a)
      have b' : axisDepth N P1 P2 (w2.inverse.mul w1) (.face1 r1.2) = r1.1 := b
      linarith
    · obtain ⟨a, b, c'⟩ := s2 c
      have k := a f0 (List.mem_range.2 hf0)
      rw [he] at k
      rcases c' with e | ⟨e1, e2⟩
      · rw [e] at k; exact absurd hl (not_lt.2 k)
      · by_cases hh : r1.2 = f0
        · rw [hh, he] at e2
          exact Prod.ext e2.symm hh
        · have := hother _ (List.mem_range.1 e1) hh
          rw [e2] at this
          linarith
  have hr2 : δ ≤ (scan (faceDepth P2 P1 (w2.inverse.mul w1).inverse) (List.range P2.nf) (N.large, 0)).1 := by
    obtain ⟨s1, s2⟩ := scan_spec (faceDepth P2 P1 (w2.inverse.mul w1).inverse) (List.range P2.nf) (N.large, 0) hN.large
    have hd := fun f (hf : f < P2.nf) => deep (.face2 f) hf
    generalize scan (faceDepth P2 P1 (w2.inverse.mul w1).inverse) (List.range P2.nf) (N.large, 0) = r2 at *
    rcases le_or_gt r2.1 0 with c | c
    · obtain ⟨a, b⟩ := s1 c
      have := hd _ (List.mem_range.1 a)
      have b' : axisDepth N P1 P2 (w2.inverse.mul w1) (.face2 r2.2) = r2.1 := b
      linarith
    · obtain ⟨-, -, c'⟩ := s2 c
      rcases c' with e | ⟨e1, e2⟩
      · rw [e]; exact hl.le
      · have := hd _ (List.mem_range.1 e1)
        have b' : axisDepth N P1 P2 (w2.inverse.mul w1) (.face2 r2.2) = r2.1 := e2
        linarith
  unfold search facesDepth
  rw [hr1]
  dsimp only
  rw [if_neg (not_le.2 h0), if_neg (not_le.2 (lt_of_lt_of_le h0 hr2))]
  generalize scan (faceDepth P2 P1 (w2.inverse.mul w1).inverse) (List.range P2.nf) (N.large, 0) = r2 at *
  rw [if_pos (by nlinarith [hN.rel]), min_eq_left hr2]
  obtain ⟨i1, i2⟩ := edgeScan_spec hN P1 P2 (w2.inverse.mul w1) δ (pairs P1.ne P2.ne) ⟨δ, .face1 f0, 0⟩ (fun _ => False)
    (fun _ => ⟨rfl, fun _ hh => hh.elim⟩) (fun hF => by simp [Axis.isFace] at hF) (fun _ hh => hh.elim)
  cases hs : edgeScan N P1 P2 (w2.inverse.mul w1) (pairs P1.ne P2.ne) ⟨δ, .face1 f0, 0⟩ with
  | separated a =>
    obtain ⟨p, hp, -, hm, hd⟩ := i1 a hs
    have := edges p hp hm
    linarith
  | best b =>
    obtain ⟨-, j2, j3⟩ := i2 b hs
    by_cases hF : b.axis.isFace = true
    · rw [(j2 hF).1]
    · obtain ⟨⟨i, j, e1, e2, hm, e3⟩, hlt, -⟩ := j3 (by simpa using hF)
      rcases e2 with e2 | e2
      · exact e2.elim
      · have := edges _ e2 hm
        rw [e3] at this
        have : b.depth ≤ b.depth * N.rel := by nlinarith [hN.rel]
        dsimp only at *
        linarith

end Field

/-! ### A tetrahedron with a sharp tip -/

def tetFaces : List (List Nat) := [[0, 2, 1], [0, 1, 3], [1, 2, 3], [0, 3, 2]]
def tetEdges : List Mesh.HEdge := [⟨1, 1, 0, 10⟩, ⟨0, 0, 1, 4⟩, ⟨2, 3, 0, 0⟩, ⟨1, 2, 2, 8⟩, ⟨1, 5, 1, 6⟩, ⟨3, 4, 2, 3⟩, ⟨3, 7, 1, 1⟩, ⟨0, 6, 3, 9⟩, ⟨2, 9, 2, 5⟩,
  ⟨3, 8, 3, 11⟩, ⟨0, 11, 0, 2⟩, ⟨2, 10, 3, 7⟩]
def tetFaceEdge : List Nat := [0, 6, 5, 11]

example : (Mesh.computeHalfEdges 4 tetFaces).map (fun m => (m.arr, m.faceEdge)) = some (tetEdges, tetFaceEdge) := by decide +kernel

/-- The vertices: a ridge that climbs slowly from the tip at the origin, and a wide end. -/
noncomputable def tetVerts : List (V3 ℝ) := [⟨0, 0, 0⟩, ⟨1, 0, 1/12⟩, ⟨8/3, 5/9, 7/9⟩, ⟨8/3, -5/9, 7/9⟩]
noncomputable def tetNormals : List (V3 ℝ) := [⟨1/17, 12/17, -12/17⟩, ⟨1/17, -12/17, -12/17⟩, ⟨5/13, 0, -12/13⟩, ⟨-7/25, 0, 24/25⟩]

/-- The constants of the program. -/
noncomputable def std : Num ℝ := ⟨1 / 8388608, 1 / 100000, 1 / 10000, 340282346638528859811704183484516925440, 1002 / 1000, 5 / 10000, Real.sqrt⟩

theorem std_ok : NumOk std := ⟨by norm_num [std], by norm_num [std], by norm_num [std], by norm_num [std], by norm_num [std], realSqrt⟩

noncomputable def tet : Poly ℝ := mesh std.large tetVerts tetFaces tetNormals ⟨19/12, 0, 59/144⟩ tetEdges tetFaceEdge

/-- Unfolds the data of the tetrahedron. -/
macro "tet" : tactic => `(tactic| simp [SatProps.tet, mesh, tetFaces, tetEdges, tetFaceEdge, tetVerts, tetNormals, Poly.faceN, Poly.twinN, Poly.startOf, Poly.endOf,
  Poly.first, V3.dot, V3.cross, V3.lengthSq, V3.smul])

theorem tet_verts : verts tet = tetVerts := rfl

set_option maxHeartbeats 2000000 in
theorem tet_solid : Solid tet where
  support := fun d => by
    obtain ⟨a, b⟩ := mesh_support_partial (K := ℝ) (large := std.large) (k := 1) one_pos (by norm_num [std]) (vs := tetVerts) (by simp [tetVerts]) d
    have hs := b (.vertex (by simp [tetVerts]; left; ext <;> simp))
    obtain ⟨p, hp⟩ := Option.isSome_iff_exists.1 hs
    have e : tet.support d = p := by
      show (meshSupport std.large ⟨1, 1, 1⟩ tetVerts d).getD 0 = p
      rw [hp]; rfl
    have := a p hp
    have hv : tetVerts.map (Ray.scaleBy ⟨1, 1, 1⟩) = tetVerts := by simp [tetVerts, Ray.scaleBy]
    rw [hv] at this
    rw [e]
    exact this
  unit := by
    intro f hf
    have hf : f < 4 := hf
    interval_cases f <;> tet <;> norm_num
  corner := by
    intro f hf
    have hf : f < 4 := hf
    interval_cases f <;> refine ⟨by tet, ?_⟩ <;> intro v hv <;> simp [SatProps.tet, mesh, tetFaces] at hv <;> rcases hv with rfl | rfl | rfl <;> tet <;> norm_num
  behind := by
    intro f hf v hv
    have hf : f < 4 := hf
    have hv : v < 4 := hv
    interval_cases f <;> interval_cases v <;> tet <;> norm_num
  ends := by
    intro e he
    have he : e < 12 := he
    interval_cases e <;> tet
  twin := by
    intro e he
    have he : e < 12 := he
    interval_cases e <;> tet
  start := by
    intro e he
    have he : e < 12 := he
    interval_cases e <;> tet <;> norm_num
  flat := by
    intro e he
    have he : e < 12 := he
    interval_cases e <;> tet <;> norm_num
  turn := by
    intro e he
    have he : e < 12 := he
    interval_cases e <;> tet <;> norm_num
  inner := by
    intro m hm
    by_contra hc
    push Not at hc
    have c0 := hc 0 (show 0 < 4 by norm_num)
    have c1 := hc 1 (show 1 < 4 by norm_num)
    have c2 := hc 2 (show 2 < 4 by norm_num)
    have c3 := hc 3 (show 3 < 4 by norm_num)
    simp [SatProps.tet, mesh, tetVerts, V3.dot] at c0 c1 c2 c3
    exact hm (V3.ext (by simp; linarith) (by simp; linarith) (by simp; linarith))
  arc := by
    intro m hm v hv w hw hne tv tw
    have hv : v < 4 := hv
    have hw : w < 4 := hw
    have edge : ∀ e < 12, e % 2 = 0 → ∀ α β : ℝ, 0 ≤ α → 0 ≤ β → m = V3.smul α (SatProps.tet.faceN e) + V3.smul β (SatProps.tet.twinN e) →
        ∃ e < SatProps.tet.ne, e % 2 = 0 ∧ ∃ α β : ℝ, 0 ≤ α ∧ 0 ≤ β ∧ m = V3.smul α (SatProps.tet.faceN e) + V3.smul β (SatProps.tet.twinN e) :=
      fun e he h2 α β hα hβ hmm => ⟨e, he, h2, α, β, hα, hβ, hmm⟩
    have v0 := tv 0 (show 0 < 4 by norm_num)
    have v1 := tv 1 (show 1 < 4 by norm_num)
    have v2 := tv 2 (show 2 < 4 by norm_num)
    have v3 := tv 3 (show 3 < 4 by norm_num)
    have w0 := tw 0 (show 0 < 4 by norm_num)
    have w1 := tw 1 (show 1 < 4 by norm_num)
    have w2 := tw 2 (show 2 < 4 by norm_num)
    have w3 := tw 3 (show 3 < 4 by norm_num)
    clear tv tw
    interval_cases v <;> interval_cases w <;> simp [SatProps.tet, mesh, tetVerts, V3.dot] at v0 v1 v2 v3 w0 w1 w2 w3
    · exact absurd rfl hne
    · exact edge 0 (by norm_num) rfl ((-17/5) * m.x + (17/24) * m.y + (-119/120) * m.z) ((-17/5) * m.x + (-17/24) * m.y + (-119/120) * m.z) (by linarith) (by linarith) (by ext <;> tet <;> linarith)
    · exact edge 10 (by norm_num) rfl ((-17/5) * m.x + (17/24) * m.y + (-119/120) * m.z) ((-5) * m.x + (0) * m.y + (-5/12) * m.z) (by linarith) (by linarith) (by ext <;> tet <;> linarith)
    · exact edge 6 (by norm_num) rfl ((-17/5) * m.x + (-17/24) * m.y + (-119/120) * m.z) ((-5) * m.x + (0) * m.y + (-5/12) * m.z) (by linarith) (by linarith) (by ext <;> tet <;> linarith)
    · exact edge 0 (by norm_num) rfl ((-17/8) * m.x + (17/24) * m.y + (-85/96) * m.z) ((-17/8) * m.x + (-17/24) * m.y + (-85/96) * m.z) (by linarith) (by linarith) (by ext <;> tet <;> linarith)
    · exact absurd rfl hne
    · exact edge 2 (by norm_num) rfl ((-17/8) * m.x + (17/24) * m.y + (-85/96) * m.z) ((13/4) * m.x + (0) * m.y + (13/48) * m.z) (by linarith) (by linarith) (by ext <;> tet <;> linarith)
    · exact edge 4 (by norm_num) rfl ((-17/8) * m.x + (-17/24) * m.y + (-85/96) * m.z) ((13/4) * m.x + (0) * m.y + (13/48) * m.z) (by linarith) (by linarith) (by ext <;> tet <;> linarith)
    · exact edge 10 (by norm_num) rfl ((0) * m.x + (17/12) * m.y + (0) * m.z) ((25/3) * m.x + (25/9) * m.y + (125/36) * m.z) (by linarith) (by linarith) (by ext <;> tet <;> linarith)
    · exact edge 2 (by norm_num) rfl ((0) * m.x + (17/12) * m.y + (0) * m.z) ((26/3) * m.x + (65/36) * m.y + (91/36) * m.z) (by linarith) (by linarith) (by ext <;> tet <;> linarith)
    · exact absurd rfl hne
    · exact edge 8 (by norm_num) rfl ((26/3) * m.x + (65/36) * m.y + (91/36) * m.z) ((25/3) * m.x + (25/9) * m.y + (125/36) * m.z) (by linarith) (by linarith) (by ext <;> tet <;> linarith)
    · exact edge 6 (by norm_num) rfl ((0) * m.x + (-17/12) * m.y + (0) * m.z) ((25/3) * m.x + (-25/9) * m.y + (125/36) * m.z) (by linarith) (by linarith) (by ext <;> tet <;> linarith)
    · exact edge 4 (by norm_num) rfl ((0) * m.x + (-17/12) * m.y + (0) * m.z) ((26/3) * m.x + (-65/36) * m.y + (91/36) * m.z) (by linarith) (by linarith) (by ext <;> tet <;> linarith)
    · exact edge 8 (by norm_num) rfl ((26/3) * m.x + (-65/36) * m.y + (91/36) * m.z) ((25/3) * m.x + (-25/9) * m.y + (125/36) * m.z) (by linarith) (by linarith) (by ext <;> tet <;> linarith)
    · exact absurd rfl hne

theorem tet_rings : Rings tet := by
  intro f hf
  have hf : f < 4 := hf
  have all : ∀ f < 4, tetFaceEdge.getD f 0 < 12 ∧ (tetEdges.getD (tetFaceEdge.getD f 0) ⟨0, 0, 0, 0⟩).face = f ∧
      (fun e => (tetEdges.getD e ⟨0, 0, 0, 0⟩).next)^[3] (tetFaceEdge.getD f 0) = tetFaceEdge.getD f 0 := by decide
  obtain ⟨a, b, c⟩ := all f hf
  exact ⟨a, b, 3, by norm_num, show 3 ≤ 12 by norm_num, c⟩

/-! ### The tip in a box -/

/-- The pose of something that is not turned. -/
def put (x y z : ℝ) : Trans ℝ := ⟨⟨x, y, z⟩, ⟨0, 0, 0, 1⟩⟩

theorem put_unit (x y z : ℝ) : (put x y z).ori.lengthSq = 1 := by simp [put, Quat.lengthSq]
theorem put_act (x y z : ℝ) (v : V3 ℝ) : (put x y z).act v = ⟨v.x + x, v.y + y, v.z + z⟩ := by
  ext <;> simp [put, Trans.act, Quat.rot]
theorem put_put (x y z : ℝ) : (put 0 0 0).inverse.mul (put x y z) = put x y z := by
  simp only [put, Trans.inverse, Trans.mul]
  congr 1
  · ext <;> simp [Quat.rot, Quat.conj]
  · simp [Quat.mul, Quat.conj]
theorem put_rot (x y z : ℝ) (v : V3 ℝ) : (put x y z).ori.rot v = v := by ext <;> simp [put, Quat.rot]

theorem faceDepth_ge {P1 P2 : Poly ℝ} (h2 : Solid P2) (t : Trans ℝ) (f : Nat) {v : Nat} (hv : v < P2.nv) :
    (t.ori.rot (P1.normal f)).dot (t.act (P1.first f) - P2.vert v) ≤ faceDepth P1 P2 t f := by
  have := (h2.support (-(t.ori.rot (P1.normal f)))).2 _ (.vertex (List.mem_map.2 ⟨v, List.mem_range.2 hv, rfl⟩))
  unfold faceDepth
  simp only [V3.dot, V3.sub_x, V3.sub_y, V3.sub_z, V3.neg_x, V3.neg_y, V3.neg_z] at this ⊢
  linarith

theorem faceDepth_le {P1 P2 : Poly ℝ} (h2 : Solid P2) (t : Trans ℝ) (f : Nat) {c : ℝ}
    (hv : ∀ v < P2.nv, (t.ori.rot (P1.normal f)).dot (t.act (P1.first f) - P2.vert v) ≤ c) : faceDepth P1 P2 t f ≤ c := by
  have := (h2.support (-(t.ori.rot (P1.normal f)))).1
  have := hull_le (vs := verts P2) (d := -(t.ori.rot (P1.normal f))) (m := c - (t.ori.rot (P1.normal f)).dot (t.act (P1.first f))) (fun w hw => by
    obtain ⟨u, hu, rfl⟩ := List.mem_map.1 hw
    have := hv u (List.mem_range.1 hu)
    simp only [V3.dot, V3.sub_x, V3.sub_y, V3.sub_z, V3.neg_x, V3.neg_y, V3.neg_z] at this ⊢
    linarith) this
  unfold faceDepth
  simp only [V3.dot, V3.sub_x, V3.sub_y, V3.sub_z, V3.neg_x, V3.neg_y, V3.neg_z] at this ⊢
  linarith

noncomputable def boxPose : Trans ℝ := put (-1/2) 0 (-3/5)
noncomputable def cube : Poly ℝ := Sat.box ⟨1, 1, 1⟩

theorem cube_solid : Solid cube := box_solid one_pos one_pos one_pos

/-- They overlap by 2/5 in each direction. -/
theorem tip_overlap : Overlap (2/5) (Placed boxPose (Hulled cube)) (Placed (put 0 0 0) (Hulled tet)) := by
  intro n hn
  have tip : Placed (put 0 0 0) (Hulled tet) 0 := ⟨0, .vertex (by rw [tet_verts]; simp [tetVerts]; left; ext <;> simp), by rw [put_act]; ext <;> simp⟩
  have inbox : ∀ x y z : ℝ, -1 ≤ x → x ≤ 1 → -1 ≤ y → y ≤ 1 → -1 ≤ z → z ≤ 1 → Placed boxPose (Hulled cube) ⟨x + -1/2, y, z + -3/5⟩ := by
    intro x y z a1 a2 a3 a4 a5 a6
    exact ⟨⟨x, y, z⟩, (box_hull one_pos one_pos one_pos _).2 ⟨⟨a1, a2⟩, ⟨a3, a4⟩, a5, a6⟩, by unfold boxPose; rw [put_act]; ext <;> simp⟩
  have sum : 1 ≤ |n.x| + |n.y| + |n.z| := by
    simp only [V3.lengthSq] at hn
    have := abs_nonneg n.x
    have := abs_nonneg n.y
    have := abs_nonneg n.z
    by_contra hh
    have e1 := abs_mul_abs_self n.x
    have e2 := abs_mul_abs_self n.y
    have e3 := abs_mul_abs_self n.z
    nlinarith
  obtain ⟨x, x1, x2, hx⟩ : ∃ x : ℝ, -1 ≤ x ∧ x ≤ 1 ∧ 2/5 * |n.x| ≤ n.x * (x + -1/2) := by
    rcases abs_cases n.x with ⟨e, h⟩ | ⟨e, h⟩
    · exact ⟨1, by norm_num, by norm_num, by rw [e]; linarith⟩
    · exact ⟨-1, by norm_num, by norm_num, by rw [e]; linarith⟩
  obtain ⟨y, y1, y2, hy⟩ : ∃ y : ℝ, -1 ≤ y ∧ y ≤ 1 ∧ 2/5 * |n.y| ≤ n.y * y := by
    rcases abs_cases n.y with ⟨e, h⟩ | ⟨e, h⟩
    · exact ⟨1, by norm_num, by norm_num, by rw [e]; linarith⟩
    · exact ⟨-1, by norm_num, by norm_num, by rw [e]; linarith⟩
  obtain ⟨z, z1, z2, hz⟩ : ∃ z : ℝ, -1 ≤ z ∧ z ≤ 1 ∧ 2/5 * |n.z| ≤ n.z * (z + -3/5) := by
    rcases abs_cases n.z with ⟨e, h⟩ | ⟨e, h⟩
    · exact ⟨1, by norm_num, by norm_num, by rw [e]; linarith⟩
    · exact ⟨-1, by norm_num, by norm_num, by rw [e]; linarith⟩
  refine ⟨_, _, inbox x y z x1 x2 y1 y2 z1 z2, tip, ?_⟩
  simp only [V3.dot, V3.sub_x, V3.sub_y, V3.sub_z, V3.zero_x, V3.zero_y, V3.zero_z]
  linarith

theorem tip_search : search std cube tet ((put 0 0 0).inverse.mul boxPose) ((put 0 0 0).inverse.mul boxPose).inverse = .best ⟨2/5, .face1 0, 0⟩ := by
  refine search_first std_ok (by norm_num [std]) cube_solid tet_solid (put_unit ..) (put_unit ..) (by norm_num) (by norm_num [std]) tip_overlap (show 0 < 6 by norm_num) ?_ ?_
  · rw [put_put]
    apply le_antisymm
    · apply faceDepth_le tet_solid
      intro v hv
      have hv : v < 4 := hv
      rw [put_act, put_rot]
      interval_cases v <;> simp [cube, Sat.box, boxFaces, boxNormal, boxVert, tet, mesh, tetVerts, Poly.first, V3.dot] <;> norm_num
    · refine le_trans ?_ (faceDepth_ge tet_solid _ _ (v := 0) (show 0 < 4 by norm_num))
      rw [put_act, put_rot]
      simp [cube, Sat.box, boxFaces, boxNormal, boxVert, tet, mesh, tetVerts, Poly.first, V3.dot]
      norm_num
  · intro f hf hne
    have hf : f < 6 := hf
    rw [put_put]
    refine lt_of_lt_of_le ?_ (faceDepth_ge tet_solid _ _ (v := 0) (show 0 < 4 by norm_num))
    rw [put_act, put_rot]
    interval_cases f
    · exact absurd rfl hne
    all_goals (simp [cube, Sat.box, boxFaces, boxNormal, boxVert, tet, mesh, tetVerts, Poly.first, V3.dot] <;> norm_num)

/-- The face of the tetrahedron that is clipped is the one at the wide end. -/
theorem tip_incident : tet.antiParallel std ⟨0, 0, 1⟩ = 2 := by
  have e : List.range tet.nf = [0, 1, 2, 3] := rfl
  unfold Poly.antiParallel
  rw [e]
  simp only [Poly.antiParallelLoop]
  simp [tet, mesh, tetNormals, V3.dot, std]
  norm_num

/-- Nothing of it is above the box. -/
theorem tip_clipped : clipped std cube tet (put (-1/2) 0 (-3/5)) (put (-1/2) 0 (-3/5)).inverse 0 = some [] := by
  obtain ⟨pts, hp, hk⟩ := clipped_spec (N := std) (f := 0) (box_rings ⟨1, 1, 1⟩) tet_solid (show 0 < 4 by norm_num)
    (frames1 (w1 := put (-1/2) 0 (-3/5)) (w2 := put 0 0 0) (put_unit ..) (put_unit ..)) (show 0 < 6 by norm_num)
  rw [put_put] at hp hk
  suffices pts = [] by rw [this] at hp; exact hp
  by_contra hne
  obtain ⟨x, hx⟩ := List.exists_mem_of_ne_nil _ hne
  -- the points of the clipped face are points of the face
  have hc : clipped std cube tet (put (-1/2) 0 (-3/5)) (put (-1/2) 0 (-3/5)).inverse 0 = some pts := hp
  unfold clipped at hc
  dsimp only at hc
  rw [show cube.normal 0 = ⟨0, 0, 1⟩ from rfl, put_rot, tip_incident] at hc
  obtain ⟨s1, -⟩ := clipLoop_spec _ _ _ _ _ _ _ _ hc (by simp [tet, mesh, tetFaces])
  have far := hull_le (d := ⟨-1, 0, 0⟩) (m := -3/2) (fun v hv => by
    obtain ⟨u, hu, rfl⟩ := List.mem_map.1 hv
    have inv : ∀ y : V3 ℝ, (put (-1/2) 0 (-3/5)).inverse.act y = ⟨y.x + 1/2, y.y, y.z + 3/5⟩ := fun y => by
      ext <;> simp [put, Trans.inverse, Trans.act, Quat.rot, Quat.conj] <;> ring
    rw [inv]
    simp [tet, mesh, tetFaces] at hu
    rcases hu with rfl | rfl | rfl <;> simp [tet, mesh, tetVerts, V3.dot] <;> norm_num) (s1 x hx)
  have k0 := (hk x hx).2 0
  have k1 := (hk x hx).2 1
  have k2 := (hk x hx).2 2
  have k3 := (hk x hx).2 3
  have e : ∀ f k, along (Sat.box (K := ℝ) ⟨1, 1, 1⟩) ((Sat.box (K := ℝ) ⟨1, 1, 1⟩).faceEdge f) k = (fun e => (boxEdges.getD e ⟨0, 0, 0, 0⟩).next)^[k] (boxFaceEdge.getD f 0) := fun f k => rfl
  rw [e] at k0 k1 k2 k3
  simp only [V3.dot] at far
  simp [Front, side, sideNormal, Sat.box, boxFaceEdge, boxEdges, boxNormal, boxVert, Poly.startOf, Poly.endOf, V3.dot, V3.cross] at k0 k1 k2 k3
  linarith

/-- **C105, negation.** The tip of a tetrahedron is in a cube, 0.4 m below its top, and no motion shorter than that parts them. The face of the
tetrahedron that is turned most against the normal of the top is not at the tip: clipping leaves nothing of it, and the test of the pair says that they do not collide. -/
theorem overlap_missed : (∃ r, polyhedra std cube tet boxPose (put 0 0 0) true true none = some r ∧ r.colliding = false ∧ r.contacts = []) ∧
    ∀ w : V3 ℝ, w.lengthSq ≤ 2/5 * (2/5) → Meet (Placed boxPose (Hulled cube)) (Moved (Placed (put 0 0 0) (Hulled tet)) w) := by
  constructor
  · refine ⟨⟨false, [], .face1 0⟩, ?_, rfl, rfl⟩
    have hs := tip_search
    unfold polyhedra full
    dsimp only
    rw [hs]
    have hc := tip_clipped
    unfold boxPose
    rw [put_put]
    simp only [finish, faceContacts, hc]
    simp [Axis.stored]
  · refine (overlap_depth (by norm_num) tip_overlap (n := ⟨0, 0, 1⟩) (by simp [V3.lengthSq]) ?_).1
    rintro x y ⟨u, hu, rfl⟩ ⟨v, hv, rfl⟩
    obtain ⟨-, -, -, a6⟩ := (box_hull one_pos one_pos one_pos _).1 hu
    have := hull_le (vs := verts tet) (d := ⟨0, 0, -1⟩) (m := 0) (fun w hw => by
      rw [tet_verts] at hw
      simp [tetVerts] at hw
      rcases hw with rfl | rfl | rfl | rfl <;> simp [V3.dot] <;> norm_num) hv
    unfold boxPose
    rw [put_act, put_act]
    simp only [V3.dot, V3.sub_x, V3.sub_y, V3.sub_z] at this ⊢
    linarith

end SatProps
end RP3D
