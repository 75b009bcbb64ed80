import Verif.Props.DebugScene
import Verif.Props.DebugSphere
import Verif.Props.ConcaveMesh
import Verif.Props.HeightField

/-! C131: witnesses and examples. -/

namespace RP3D
namespace Debug
open V3

/-! ### Witnesses -/

/-- The cube of half side 1 as a convex mesh. -/
def cubeMesh : List (List (V3 ℚ) × V3 ℚ) :=
  Sat.boxFaces.zipIdx.map fun f => (f.1.map (Sat.boxVert ⟨1, 1, 1⟩), Sat.boxNormal f.2)

/-- C131 fails: a cube that is a convex mesh is drawn with holes; its point (-1/2, 0, 1) is in no triangle. -/
theorem cube_hole : OnBox (⟨1, 1, 1⟩ : V3 ℚ) ⟨-1/2, 0, 1⟩ ∧
    ∀ flags len, ∀ T ∈ (drawConvex flags len Trans.one cubeMesh).tris, ¬ InTri T.a T.b T.c ⟨-1/2, 0, 1⟩ := by
  refine ⟨by norm_num [OnBox], fun flags len T hT h => ?_⟩
  have hT' : T ∈ (drawConvex 4 0 Trans.one cubeMesh).tris := by
    obtain ⟨f, hf, hT⟩ := mem_each_tris.1 hT
    refine mem_each_tris.2 ⟨f, hf, ?_⟩
    dsimp only at hT ⊢
    split at hT
    · exact hT
    · simp at hT
  have e : (drawConvex 4 0 Trans.one cubeMesh).tris = ([⟨⟨-1, -1, 1⟩, ⟨1, -1, 1⟩, ⟨1, 1, 1⟩, 0xff00⟩, ⟨⟨1, -1, 1⟩, ⟨1, 1, 1⟩, ⟨-1, 1, 1⟩, 0xff00⟩,
      ⟨⟨1, -1, 1⟩, ⟨1, -1, -1⟩, ⟨1, 1, -1⟩, 0xff00⟩, ⟨⟨1, -1, -1⟩, ⟨1, 1, -1⟩, ⟨1, 1, 1⟩, 0xff00⟩,
      ⟨⟨-1, -1, -1⟩, ⟨-1, 1, -1⟩, ⟨1, 1, -1⟩, 0xff00⟩, ⟨⟨-1, 1, -1⟩, ⟨1, 1, -1⟩, ⟨1, -1, -1⟩, 0xff00⟩,
      ⟨⟨-1, -1, -1⟩, ⟨-1, -1, 1⟩, ⟨-1, 1, 1⟩, 0xff00⟩, ⟨⟨-1, -1, 1⟩, ⟨-1, 1, 1⟩, ⟨-1, 1, -1⟩, 0xff00⟩,
      ⟨⟨-1, -1, -1⟩, ⟨1, -1, -1⟩, ⟨1, -1, 1⟩, 0xff00⟩, ⟨⟨1, -1, -1⟩, ⟨1, -1, 1⟩, ⟨-1, -1, 1⟩, 0xff00⟩,
      ⟨⟨1, 1, 1⟩, ⟨1, 1, -1⟩, ⟨-1, 1, -1⟩, 0xff00⟩, ⟨⟨1, 1, -1⟩, ⟨-1, 1, -1⟩, ⟨-1, 1, 1⟩, 0xff00⟩] : List (Tri ℚ)) := by decide +kernel
  rw [e] at hT'
  obtain ⟨u, v, w, hu, hv, hw, hs, hp⟩ := h
  have hx := congrArg V3.x hp
  have hy := congrArg V3.y hp
  have hz := congrArg V3.z hp
  simp only [List.mem_cons, List.not_mem_nil, or_false] at hT'
  rcases hT' with rfl | rfl | rfl | rfl | rfl | rfl | rfl | rfl | rfl | rfl | rfl | rfl <;>
    simp only [add_x, add_y, add_z, smul_x, smul_y, smul_z] at hx hy hz <;> linarith

/-- C131 fails: at the fourth corner of a quad of a height field, which belongs to the second triangle only, the line drawn is the normal of the
first one. Here `unit` is the identity, so that the length of the normal is not 1. -/
theorem height_normal : let q : V3 ℚ × V3 ℚ × V3 ℚ × V3 ℚ := (⟨0, 0, 0⟩, ⟨0, 0, 1⟩, ⟨1, 0, 0⟩, ⟨1, 1, 1⟩)
    (⟨⟨1, 1, 1⟩, ⟨1, 2, 1⟩, Item.shapeNormal.colour⟩ : Line ℚ) ∈ (drawQuad id Item.shapeNormal.flag 1 Trans.one q).lines ∧
    (q.2.1 - q.2.2.1).cross (q.2.2.2 - q.2.2.1) = ⟨-1, 1, -1⟩ ∧
    ∀ l ∈ (drawQuad id Item.shapeNormal.flag 1 Trans.one q).lines, l.b - l.a ≠ ⟨-1, 1, -1⟩ := by decide +kernel

/-! ### Examples -/

/-- The flags after switching on two items and switching off one. -/
example : (displayed (setDisplayed (setDisplayed (setDisplayed 0 .shape true) .normal true) .shape false) .normal = true) ∧
    displayed (setDisplayed (setDisplayed (setDisplayed 0 .shape true) .normal true) .shape false) .shape = false := by decide +kernel

/-- A turn about z. -/
noncomputable def turned : Quat ℝ := ⟨0, 0, 3 / 5, 4 / 5⟩

example : (⟨⟨1, 2, 3⟩, ⟨0, 0, 3 / 5, 4 / 5⟩⟩ : Trans ℚ).ori.lengthSq = 1 := by decide +kernel

/-- A box in a turned pose: a vertex is shown by its triangles. -/
example : ∃ T ∈ (drawBox 4 1 (⟨⟨1, 2, 3⟩, ⟨0, 0, 3 / 5, 4 / 5⟩⟩ : Trans ℚ) ⟨1, 2, 3⟩).tris, InTri T.a T.b T.c ((⟨⟨1, 2, 3⟩, ⟨0, 0, 3 / 5, 4 / 5⟩⟩ : Trans ℚ).act ⟨1, 1/2, -1/3⟩) :=
  ((box_drawn 4 1 ⟨⟨1, 2, 3⟩, ⟨0, 0, 3 / 5, 4 / 5⟩⟩ (by decide +kernel) ⟨1, 2, 3⟩ (by norm_num) (by norm_num) (by norm_num) (by decide +kernel)).1 _).2
    ⟨⟨1, 1/2, -1/3⟩, by norm_num [OnBox], rfl⟩

/-- Normals of this box. -/
example : (drawBox 32 2 (⟨⟨1, 2, 3⟩, Quat.one⟩ : Trans ℚ) ⟨1, 2, 3⟩).lines.head? = some ⟨⟨1, 2, 6⟩, ⟨1, 2, 8⟩, 0x0000ff⟩ := by
  rw [box_normals _ _ _ _ (by decide +kernel)]
  decide +kernel

/-- The box of a collider. -/
example : ∃ l ∈ drawAABB (⟨⟨0, 0, 0⟩, ⟨1, 2, 3⟩⟩ : AABB ℚ) 7, OnLine l ⟨1/2, 2, 0⟩ :=
  ((aabb_drawn ⟨⟨0, 0, 0⟩, ⟨1, 2, 3⟩⟩ (by norm_num) (by norm_num) (by norm_num) 7).2.2 _).2 (by norm_num [OnEdge])

/-- The poles of a sphere of radius 2 are drawn. -/
example : Shown (drawSphere realTrig ⟨1, 1, 1⟩ 2 7) (⟨1, 1, 1⟩ + Spec.atAngles 2 (Real.pi / 2) 0) := by
  simpa using (sphere_drawn ⟨1, 1, 1⟩ 2 (by norm_num) 7).2.2 0 (by norm_num) 0 (by norm_num)

/-- A capsule in a turned pose. -/
example : Closed (drawCapsule realTrig ⟨⟨1, 1, 1⟩, turned⟩ 1 2 7) :=
  (capsule_drawn ⟨⟨1, 1, 1⟩, turned⟩ (by norm_num [turned, Quat.lengthSq]) 1 2 (by norm_num) (by norm_num) 7).1

/-- A square face meets the hypotheses of `face_gap`. -/
example : ∀ T ∈ triples (([⟨0, 0, 0⟩, ⟨1, 0, 0⟩, ⟨1, 1, 0⟩, ⟨0, 1, 0⟩] : List (V3 ℚ)).map Trans.one.act), ¬ InTri T.1 T.2.1 T.2.2 (Trans.one.act (smul (1 / 2) ((⟨0, 0, 0⟩ : V3 ℚ) + ⟨0, 1, 0⟩))) :=
  face_gap Trans.one ⟨0, 0, 0⟩ ⟨0, 1, 0⟩ [⟨1, 0, 0⟩, ⟨1, 1, 0⟩] (by decide) (by decide) ⟨-1, 0, 0⟩ 0 (by decide +kernel) (by decide +kernel) (by decide +kernel) (by decide +kernel)

/-- A tetrahedron is drawn with its four triangles. -/
example : (drawConvex 4 1 Trans.one ([([⟨0, 0, 0⟩, ⟨0, 1, 0⟩, ⟨1, 0, 0⟩], ⟨0, 0, -1⟩), ([⟨0, 0, 0⟩, ⟨1, 0, 0⟩, ⟨0, 0, 1⟩], ⟨0, -1, 0⟩)] : List (List (V3 ℚ) × V3 ℚ))).tris =
    [⟨⟨0, 0, 0⟩, ⟨0, 1, 0⟩, ⟨1, 0, 0⟩, 0xff00⟩, ⟨⟨0, 0, 0⟩, ⟨1, 0, 0⟩, ⟨0, 0, 1⟩, 0xff00⟩] := by decide +kernel

/-- The normal of a square face. -/
example : (drawConvex 32 1 (⟨⟨1, 2, 3⟩, Quat.one⟩ : Trans ℚ) [([⟨0, 0, 0⟩, ⟨2, 0, 0⟩, ⟨2, 2, 0⟩, ⟨0, 2, 0⟩], ⟨0, 0, 1⟩)]).lines = [⟨⟨2, 3, 3⟩, ⟨2, 3, 4⟩, 0x0000ff⟩] := by
  rw [(mesh_normals 32 1 _ _ (by simp) [] [] (by decide +kernel)).1]
  decide +kernel

/-- A mesh of two triangles: the hypotheses of `mesh_drawn` are met. -/
example : ∃ tris, meshTris (⟨[⟨0, 0, 0⟩, ⟨1, 0, 0⟩, ⟨0, 1, 0⟩, ⟨1, 1, 0⟩], [], [0, 1, 2, 2, 1, 3]⟩ : TriMesh.TMesh ℚ) ⟨2, 1, 1⟩ = some tris ∧
    (⟨⟨0, 1, 0⟩, ⟨2, 0, 0⟩, ⟨2, 1, 0⟩, 0xff00⟩ : Tri ℚ) ∈ (drawConcave 4 1 Trans.one tris []).tris := by
  refine ⟨[(⟨0, 0, 0⟩, ⟨2, 0, 0⟩, ⟨0, 1, 0⟩), (⟨0, 1, 0⟩, ⟨2, 0, 0⟩, ⟨2, 1, 0⟩)], by decide +kernel, ?_⟩
  refine ((mesh_drawn 4 1 Trans.one ⟨[⟨0, 0, 0⟩, ⟨1, 0, 0⟩, ⟨0, 1, 0⟩, ⟨1, 1, 0⟩], [], [0, 1, 2, 2, 1, 3]⟩ ⟨2, 1, 1⟩ _ [] (by decide +kernel) (by decide +kernel)).1 _).2
    ⟨1, ⟨0, 1, 0⟩, ⟨2, 0, 0⟩, ⟨2, 1, 0⟩, by decide, by decide +kernel, by decide +kernel⟩

/-- The height field of `hills` is drawn with all its triangles. -/
example : ∃ f cv, HeightProps.hillField = some f ∧ drawHeight id 4 (1 : ℚ) Trans.one f ⟨1, 1, 1⟩ = some cv ∧ cv.tris.length = 40 := by
  obtain ⟨f, hf⟩ := Option.isSome_iff_exists.1 HeightProps.hillField_some
  have h : ∀ g, HeightProps.hillField = some g → ∃ cv, drawHeight id 4 (1 : ℚ) Trans.one g ⟨1, 1, 1⟩ = some cv ∧ cv.tris.length = 40 := by
    have : (HeightProps.hillField.bind fun g => (drawHeight id 4 (1 : ℚ) Trans.one g ⟨1, 1, 1⟩).map fun c => c.tris.length) = some 40 := by decide +kernel
    intro g hg
    rw [hg, Option.bind_some, Option.map_eq_some_iff] at this
    exact this
  obtain ⟨cv, h1, h2⟩ := h f hf
  exact ⟨f, cv, hf, h1, h2⟩

/-- A configuration over the rationals; the trigonometry does not matter here. -/
def plain (flags : BitVec 32) : Cfg ℚ := ⟨⟨fun _ => 0, fun _ => 1, 3⟩, id, flags, 1, 1, 1⟩

/-- A world of a box and a sphere; the third body is asleep and the fourth one has no debug rendering. -/
def someBodies : List (Body ℚ) :=
  [⟨true, true, [⟨.box ⟨1, 1, 1⟩, Trans.one, ⟨⟨-1, -1, -1⟩, ⟨1, 1, 1⟩⟩, some ⟨⟨-2, -2, -2⟩, ⟨2, 2, 2⟩⟩⟩]⟩,
   ⟨true, true, [⟨.sphere 1, ⟨⟨5, 0, 0⟩, Quat.one⟩, ⟨⟨4, -1, -1⟩, ⟨6, 1, 1⟩⟩, none⟩]⟩,
   ⟨false, true, [⟨.sphere 1, Trans.one, ⟨⟨-1, -1, -1⟩, ⟨1, 1, 1⟩⟩, none⟩]⟩,
   ⟨true, false, [⟨.sphere 1, Trans.one, ⟨⟨-1, -1, -1⟩, ⟨1, 1, 1⟩⟩, none⟩]⟩]

/-- With boxes, fat boxes and shapes displayed: 12 lines for each box and fat box, 12 triangles for the box, 324 for the sphere. -/
example : (drawWorld (plain 7) someBodies).map (fun c => (c.lines.length, c.tris.length)) = some (36, 336) := by decide +kernel

/-- With the normals of the shapes only: six normals, and the sphere all the same. -/
example : (drawWorld (plain 32) someBodies).map (fun c => (c.lines.length, c.tris.length)) = some (6, 324) := by decide +kernel

/-- The hypotheses of `items_respected_partial` in this world. -/
example : ∃ cv, drawWorld (plain 7) someBodies = some cv ∧ ∀ l ∈ cv.lines, ∃ i, displayed 7 i = true ∧ l.colour = i.colour := by
  have h : (drawWorld (plain 7) someBodies).isSome := by decide +kernel
  obtain ⟨cv, hcv⟩ := Option.isSome_iff_exists.1 h
  exact ⟨cv, hcv, (items_respected_partial (plain 7) someBodies cv hcv (.inl (by decide +kernel))).1⟩

/-- Contacts of two pairs, the second one lost. -/
example : (drawContacts (plain 24) [⟨false, Trans.one, [(⟨1, 0, 0⟩, ⟨0, 1, 0⟩), (⟨2, 0, 0⟩, ⟨0, 1, 0⟩)]⟩, ⟨true, Trans.one, [(⟨3, 0, 0⟩, ⟨0, 1, 0⟩)]⟩]).lines =
    [⟨⟨1, 0, 0⟩, ⟨1, 1, 0⟩, 0xffffff⟩, ⟨⟨2, 0, 0⟩, ⟨2, 1, 0⟩, 0xffffff⟩] := by decide +kernel

/-- C131 fails: in a world with nothing to draw the arrays cannot be asked for. -/
theorem arrays_undefined : ∃ c, update (plain 7) true Canvas.empty [] [] = some c ∧ c.linesArray = none ∧ c.trisArray = none :=
  ⟨Canvas.empty, by decide +kernel, rfl, rfl⟩

end Debug
end RP3D
