import Verif.Props.Smooth
import Verif.Props.GjkExamples

/-! C128: cases that meet the hypotheses. -/

namespace RP3D
namespace SmoothProps
open Ray Shape RayProps PointProps RoundProps Geom GeomProps Round Gjk GjkProps Smooth

/-- Three points, or three normals. -/
def three (a b c : V3 ℝ) : Fin 3 → V3 ℝ := fun i => if i = 0 then a else if i = 1 then b else c

theorem three_0 (a b c : V3 ℝ) : three a b c 0 = a := rfl
theorem three_1 (a b c : V3 ℝ) : three a b c 1 = b := rfl
theorem three_2 (a b c : V3 ℝ) : three a b c 2 = c := rfl

theorem make_some {p n : Fin 3 → V3 ℝ} {x : ℝ} (hx : 1 / 8388608 < x)
    (h : ((p 1 - p 0).cross (p 2 - p 0)).lengthSq = x ^ 2) : ∃ T, TriShape.make std.eps std.sqrt p n = some T := by
  have hs : std.sqrt (x ^ 2) = x := Real.sqrt_sq (by linarith)
  unfold TriShape.make
  dsimp only
  rw [h, hs, if_pos (by simpa [std] using hx)]
  exact ⟨_, rfl⟩

/-- Two triangles at a right angle, like the ridge of a roof, with a common normal at the two ends of the ridge. -/
def roofA : Fin 3 → V3 ℝ := three ⟨0, 1, 0⟩ ⟨0, 1, 1⟩ ⟨1, 0, 0⟩
def roofB : Fin 3 → V3 ℝ := three ⟨-1, 0, 0⟩ ⟨0, 1, 1⟩ ⟨0, 1, 0⟩
def roofNA : Fin 3 → V3 ℝ := three ⟨0, 1, 0⟩ ⟨0, 1, 0⟩ ⟨1, 0, 0⟩
def roofNB : Fin 3 → V3 ℝ := three ⟨-1, 0, 0⟩ ⟨0, 1, 0⟩ ⟨0, 1, 0⟩

/-- The planes of the two triangles are different, but both give the same contact at the middle of the ridge. -/
example : ∃ T T', TriShape.make std.eps std.sqrt roofA roofNA = some T ∧ TriShape.make std.eps std.sqrt roofB roofNB = some T' ∧
    T.normal.dot (roofB 0 - roofB 2) ≠ 0 ∧
    ∀ (t1 t2 : Trans ℝ) (c : Contact ℝ), c.p1 = ⟨0, 1, 1 / 2⟩ →
      smooth std.eps std.sqrt (some T) none t1 t2 c = smooth std.eps std.sqrt (some T') none t1 t2 c := by
  have e0 : 0 < std.eps := std_ok.eps
  obtain ⟨T, hT⟩ : ∃ T, TriShape.make std.eps std.sqrt roofA roofNA = some T := by
    refine make_some (x := Real.sqrt 2) ?_ ?_
    · have : (1 : ℝ) < Real.sqrt 2 := by rw [Real.lt_sqrt (by norm_num)]; norm_num
      linarith
    · rw [Real.sq_sqrt (by norm_num)]; norm_num [roofA, three_0, three_1, three_2, V3.cross, V3.lengthSq]
  obtain ⟨T', hT'⟩ : ∃ T, TriShape.make std.eps std.sqrt roofB roofNB = some T := by
    refine make_some (x := Real.sqrt 2) ?_ ?_
    · have : (1 : ℝ) < Real.sqrt 2 := by rw [Real.lt_sqrt (by norm_num)]; norm_num
      linarith
    · rw [Real.sq_sqrt (by norm_num)]; norm_num [roofB, three_0, three_1, three_2, V3.cross, V3.lengthSq]
  refine ⟨T, T', hT, hT', ?_, fun t1 t2 c hc => ?_⟩
  · obtain ⟨-, -, -, -, k, k0, k1⟩ := make_spec realSqrt e0 hT
    rw [k1]
    norm_num [roofA, roofB, three_0, three_1, three_2, V3.cross, V3.dot, V3.smul]
    exact k0.ne'
  · refine (edge_agrees realSqrt e0 hT hT' (i := 0) (j := 1) (i' := 2) (j' := 1) (by decide) (by decide) ⟨rfl, rfl⟩ ⟨rfl, rfl⟩
      (x := 1 / 2) (y := 1 / 2) (by norm_num) ?_ t1 t2 c).1 ?_
    · norm_num [roofNA, three_0, three_1, three_2, V3.lengthSq, std]
    · rw [hc]; ext <;> norm_num [roofA, three_0, three_1, three_2]

/-- A triangle standing on one of its corners upon a ball of radius 1. -/
def tip : Fin 3 → V3 ℝ := three 0 ⟨1, 1, 0⟩ ⟨-1, 1, 0⟩
noncomputable def tipN : Fin 3 → V3 ℝ := three ⟨3 / 5, -4 / 5, 0⟩ ⟨0, 0, 1⟩ ⟨0, 0, 1⟩

theorem tip_pair : Pair std (Hull (corners tip)) Dot (triangleSupport (tip 0) (tip 1) (tip 2)) dot0 (put 0 0 0) (put 0 (-1 / 2) 0) 48 := by
  refine ⟨std_ok, by norm_num [std], realSqrt, ?_, ?_, fun d => triangle_support _ _ _ d, ?_, ?_, ?_, ?_, by norm_num, by norm_num [std],
    by norm_num [std]⟩
  · exact fun x y s hx hy h0 h1 => .mix hx hy h0 h1
  · rintro a b s rfl rfl _ _
    simp [Dot]; ext <;> simp
  · rintro d
    refine ⟨rfl, ?_⟩
    rintro a rfl
    exact le_refl _
  · norm_num [put, Quat.lengthSq]
  · norm_num [put, Quat.lengthSq]
  · rintro a b ⟨a, ha, rfl⟩ ⟨b, rfl, rfl⟩
    obtain ⟨u, v, w, u0, v0, w0, hs, rfl⟩ := hull_mix ha
    rw [put_act, put_act]
    simp only [dist2, mix, tip, three_0, three_1, three_2, V3.zero_x, V3.zero_y, V3.zero_z, V3.add_x, V3.add_y, V3.add_z, V3.smul_x, V3.smul_y,
      V3.smul_z]
    nlinarith

theorem tip_support (v : V3 ℝ) (h1 : 0 < v.x + v.y) (h2 : 0 < -v.x + v.y) : triangleSupport (tip 0) (tip 1) (tip 2) (-v) = 0 := by
  have k1 : ¬ (-v).dot (tip 0) < (-v).dot (tip 1) := by
    simp only [tip, three_0, three_1, V3.dot, V3.neg_x, V3.neg_y, V3.neg_z, V3.zero_x, V3.zero_y, V3.zero_z]; linarith
  have k2 : ¬ (-v).dot (tip 0) < (-v).dot (tip 2) := by
    simp only [tip, three_0, three_2, V3.dot, V3.neg_x, V3.neg_y, V3.neg_z, V3.zero_x, V3.zero_y, V3.zero_z]; linarith
  simp only [triangleSupport, maxAxis, if_neg k1, if_neg k2]
  rfl

theorem seen_dot (v : V3 ℝ) : supportB (put 0 0 0) (put 0 (-1 / 2) 0) dot0 v = ⟨0, -1 / 2, 0⟩ := by
  unfold supportB
  simp only [put, Trans.inverse, dot0]
  rw [trans_mul_act]
  ext <;> norm_num [Trans.act, Quat.rot, Quat.conj]

theorem tip_run : run std (put 0 0 0) (put 0 (-1 / 2) 0) (triangleSupport (tip 0) (tip 1) (tip 2)) dot0 0 1 none 2 =
    some (.done ⟨⟨[⟨⟨0, 1 / 2, 0⟩, 0, ⟨0, -1 / 2, 0⟩⟩], ⟨0, 1 / 2, 0⟩, 0, ⟨0, -1 / 2, 0⟩, true⟩, ⟨0, 1 / 2, 0⟩, 1 / 4⟩ .inSimplex) := by
  unfold run
  rw [start_none (by norm_num)]
  simp only [Option.map_some, loop]
  have a1 : supportA (triangleSupport (tip 0) (tip 1) (tip 2)) ⟨0, 1, 0⟩ = 0 := tip_support _ (by norm_num) (by norm_num)
  have a2 : supportA (triangleSupport (tip 0) (tip 1) (tip 2)) ⟨0, 1 / 2, 0⟩ = 0 := tip_support _ (by norm_num) (by norm_num)
  have s1 : step std (supportA (triangleSupport (tip 0) (tip 1) (tip 2))) (supportB (put 0 0 0) (put 0 (-1 / 2) 0) dot0) (0 + 1)
      ⟨.empty, ⟨0, 1, 0⟩, std.large⟩ =
      some (⟨⟨[⟨⟨0, 1 / 2, 0⟩, 0, ⟨0, -1 / 2, 0⟩⟩], ⟨0, 1 / 2, 0⟩, 0, ⟨0, -1 / 2, 0⟩, true⟩, ⟨0, 1 / 2, 0⟩, 1 / 4⟩, none) := by
    unfold step
    rw [a1, seen_dot]
    norm_num [V3.dot, V3.lengthSq, inSimplex, std, Simplex.empty, addPoint, dependent, recompute, validCoords, maxLength]
    norm_num [V3.ext_iff]
  have s2 : step std (supportA (triangleSupport (tip 0) (tip 1) (tip 2))) (supportB (put 0 0 0) (put 0 (-1 / 2) 0) dot0) (0 + 1)
      ⟨⟨[⟨⟨0, 1 / 2, 0⟩, 0, ⟨0, -1 / 2, 0⟩⟩], ⟨0, 1 / 2, 0⟩, 0, ⟨0, -1 / 2, 0⟩, true⟩, ⟨0, 1 / 2, 0⟩, 1 / 4⟩ =
      some (⟨⟨[⟨⟨0, 1 / 2, 0⟩, 0, ⟨0, -1 / 2, 0⟩⟩], ⟨0, 1 / 2, 0⟩, 0, ⟨0, -1 / 2, 0⟩, true⟩, ⟨0, 1 / 2, 0⟩, 1 / 4⟩, some .inSimplex) := by
    unfold step
    rw [a2, seen_dot]
    norm_num [V3.dot, V3.lengthSq, inSimplex, std]
  rw [s1]
  simp only
  rw [s2]

theorem tip_verdict : ∃ ct, Gjk.gjk std (put 0 0 0) (put 0 (-1 / 2) 0) (triangleSupport (tip 0) (tip 1) (tip 2)) dot0 0 1 none 2 =
    some (some (.collide ct)) := by
  have hq : Real.sqrt (1 / 4) = 1 / 2 := by
    rw [show (1 / 4 : ℝ) = (1 / 2) ^ 2 by norm_num]; exact Real.sqrt_sq (by norm_num)
  have hs : std.sqrt (1 / 4) = 1 / 2 := hq
  have hn : (put 0 0 0).ori.rot (-(Shape.unit std.eps std.sqrt (⟨0, 1 / 2, 0⟩ : V3 ℝ))) = ⟨0, -1, 0⟩ := by
    have hl : (⟨0, 1 / 2, 0⟩ : V3 ℝ).lengthSq = 1 / 4 := by norm_num [V3.lengthSq]
    have hu : Shape.unit std.eps std.sqrt (⟨0, 1 / 2, 0⟩ : V3 ℝ) = ⟨0, 1, 0⟩ := by
      unfold Shape.unit
      rw [hl]
      norm_num [std, hq]
    rw [hu]
    ext <;> norm_num [put, Quat.rot]
  rw [gjk_of_run tip_run]
  unfold finish
  simp only [hn, hs]
  have e0 : std.eps < 1 / 4 := by norm_num [std]
  have e1 : ¬ (0 + 1 - 1 / 2 : ℝ) ≤ 0 := by norm_num
  have e2 : ¬ (⟨0, -1, 0⟩ : V3 ℝ).lengthSq < std.eps := by norm_num [std, V3.lengthSq]
  rw [if_neg (by decide), if_pos ⟨rfl, e0⟩, if_pos (by norm_num), if_neg e1, if_neg e2]
  exact ⟨_, rfl⟩

/-- `gjk_triangle`: the contact of the corner with the ball. -/
example : ∃ (T : TriShape ℝ) (ct : Contact ℝ), Smooth.gjk std (some T) none (put 0 0 0) (put 0 (-1 / 2) 0)
      (triangleSupport (tip 0) (tip 1) (tip 2)) dot0 0 1 none 2 = some (some (.collide ct)) ∧ Hull (corners tip) ct.p1 ∧ ct.normal.lengthSq = 1 := by
  obtain ⟨T, hT⟩ : ∃ T, TriShape.make std.eps std.sqrt tip tipN = some T := by
    refine make_some (x := 2) (by norm_num) ?_
    norm_num [tip, three_0, three_1, three_2, V3.cross, V3.lengthSq]
  obtain ⟨ct, hct⟩ := tip_verdict
  obtain ⟨ct', h1, -, -, -, h2, -, -, h3, -⟩ := gjk_triangle hT tip_pair (by norm_num) (by intro v hv; simp at hv) hct
  exact ⟨T, ct', h1, h3, h2⟩

/-- `flat_surface`, `vertexNormal_spec`: a flat square of a mesh, stretched. -/
example : ∃ m, vertexNormal std.eps std.sqrt ⟨2, 3, -4⟩ ⟨0, 1, 0⟩ = some m ∧
    FaceNormal (fun i => scaled ⟨2, 3, -4⟩ (three ⟨0, 0, 0⟩ ⟨0, 0, 1⟩ ⟨1, 0, 0⟩ i)) m := by
  apply scaled_flat realSqrt std_ok.eps
  · refine ⟨?_, ?_, ?_⟩ <;> norm_num [three_0, three_1, three_2, V3.lengthSq, V3.dot]
  · norm_num [std]
  · norm_num [std]
  · norm_num [std]

end SmoothProps
end RP3D
