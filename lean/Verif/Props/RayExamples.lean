import Verif.Props.BodyRay
import Mathlib.Analysis.Real.Sqrt
import Mathlib.Tactic.NormNum

/-! Concrete rays that meet the hypotheses of the theorems on ray casts. -/

namespace RP3D
namespace RayProps
open Ray

theorem realSqrt : IsSqrt Real.sqrt := fun x hx => ⟨Real.sqrt_nonneg x, Real.mul_self_sqrt hx⟩

/-- A ray along the first axis, through the origin. -/
noncomputable def across : Ray ℝ := ⟨⟨-10, 0, 0⟩, ⟨10, 0, 0⟩, 1⟩

theorem across_at (t : ℝ) : across.at t = ⟨-10 + t * 20, 0, 0⟩ := by
  simp only [across, Ray.at, Ray.dir]
  ext <;> simp only [V3.add_x, V3.add_y, V3.add_z, V3.smul_x, V3.smul_y, V3.smul_z, V3.sub_x, V3.sub_y, V3.sub_z] <;> ring

/-- C74: a sphere of radius 1 at the origin is hit after 9/20 of the way. -/
example : ∃ h, sphere (1/1000000) Real.sqrt 1 across = some h ∧ h.fraction = 9/20 ∧ h.point = ⟨-1, 0, 0⟩ := by
  obtain ⟨h1, h2, _⟩ := sphere_raycast realSqrt (eps := 1/1000000) (radius := 1) (r := across) (by norm_num) (by norm_num)
    (by norm_num [across, Ray.dir, V3.lengthSq])
  have hs := (h2 (by norm_num [across, Ball, V3.lengthSq])).2 ⟨1/2, by norm_num, by norm_num [across],
    by rw [across_at]; norm_num [Ball, V3.lengthSq]⟩
  obtain ⟨h, hh⟩ := Option.isSome_iff_exists.1 hs
  obtain ⟨a1, _, a3, _⟩ := h1 h hh
  have : h.fraction = 9/20 := by
    refine a1.unique ⟨by norm_num, by rw [across_at]; norm_num [Ball, V3.lengthSq], fun s s0 s1 hB => ?_⟩
    rw [across_at] at hB
    simp only [Ball, V3.lengthSq, V3.sub_x, V3.sub_y, V3.sub_z, V3.zero_x, V3.zero_y, V3.zero_z] at hB
    nlinarith
  refine ⟨h, hh, this, ?_⟩
  rw [a3, this, across_at]
  ext <;> norm_num

/-- C75: a box with half extents 1, 2, 3. -/
example : ∃ h, box (1/1000000) 1000000 ⟨1, 2, 3⟩ across = some h ∧ h.fraction = 9/20 ∧ h.point = ⟨-1, 0, 0⟩ := by
  obtain ⟨h1, h2⟩ := box_raycast (eps := 1/1000000) (large := 1000000) (h := ⟨1, 2, 3⟩) (r := across) (by norm_num)
    (by norm_num) (by norm_num [across]) (by norm_num) (by norm_num) (by norm_num)
    (Or.inr (by norm_num [across, Ray.dir])) (Or.inl (by simp [across, Ray.dir])) (Or.inl (by simp [across, Ray.dir]))
  cases hh : box (1/1000000) 1000000 ⟨1, 2, 3⟩ across with
  | none =>
    rcases h2 hh with h | h
    · norm_num [across, Box] at h
    · exact absurd (by rw [across_at]; norm_num [Box]) (h (1/2) (by norm_num) (by norm_num [across]))
  | some h =>
    obtain ⟨a1, _, a3, _⟩ := h1 h hh
    have : h.fraction = 9/20 := by
      refine a1.unique ⟨by norm_num, by rw [across_at]; norm_num [Box], fun s s0 s1 hB => ?_⟩
      rw [across_at] at hB
      simp only [Box] at hB
      linarith [hB.1]
    refine ⟨h, rfl, this, ?_⟩
    rw [a3, this, across_at]
    ext <;> norm_num

/-- C76: a capsule of radius 1 and height 2, across its axis. -/
example : ∃ h, capsule (1/1000000) (1/100) Real.sqrt 1 1 across = some h ∧ h.fraction = 9/20 ∧ h.point = ⟨-1, 0, 0⟩ := by
  obtain ⟨h1, h2⟩ := capsule_raycast realSqrt (eps := 1/1000000) (epsA := 1/100) (radius := 1) (hh := 1) (r := across)
    (by norm_num) (by norm_num) (by norm_num) (by norm_num) (by norm_num [across, Ray.dir, V3.lengthSq])
    (by norm_num [across]) (Or.inr (by norm_num [across, Ray.dir]))
  cases hh : capsule (1/1000000) (1/100) Real.sqrt 1 1 across with
  | none =>
    refine absurd ?_ (h2 hh ?_ (1/2) (by norm_num) (by norm_num [across]))
    · rw [across_at]
      exact ⟨0, by norm_num, by norm_num, by norm_num [Ball, V3.lengthSq]⟩
    · intro h
      have := capsule_cyl h
      norm_num [InCyl, across] at this
  | some h =>
    obtain ⟨a1, _, a3, _⟩ := h1 h hh
    have : h.fraction = 9/20 := by
      refine a1.unique ⟨by norm_num, by rw [across_at]; exact ⟨0, by norm_num, by norm_num, by norm_num [Ball, V3.lengthSq]⟩,
        fun s s0 s1 hB => ?_⟩
      rw [across_at] at hB
      have := capsule_cyl hB
      simp only [InCyl] at this
      nlinarith
    refine ⟨h, rfl, this, ?_⟩
    rw [a3, this, across_at]
    ext <;> norm_num

/-- The length of real vectors. -/
noncomputable def realLen (v : V3 ℝ) : ℝ := Real.sqrt v.lengthSq

theorem realLen_ok : IsLen realLen := fun v => ⟨Real.sqrt_nonneg _, Real.mul_self_sqrt (lengthSq_nonneg v)⟩

/-- The cube with sides of length 2. -/
noncomputable def realCube : List (V3 ℝ × V3 ℝ) := [(⟨1, 0, 0⟩, ⟨1, 1, 1⟩), (⟨-1, 0, 0⟩, ⟨-1, -1, -1⟩), (⟨0, 1, 0⟩, ⟨1, 1, 1⟩),
  (⟨0, -1, 0⟩, ⟨-1, -1, -1⟩), (⟨0, 0, 1⟩, ⟨1, 1, 1⟩), (⟨0, 0, -1⟩, ⟨-1, -1, -1⟩)]

/-- C78: a cube given as a mesh. -/
example : ∃ h, convexMesh realLen ⟨1, 1, 1⟩ realCube across = some h ∧ h.fraction = 9/20 := by
  have hn : ∀ f ∈ realCube, f.1 ≠ 0 := by
    intro f hf
    simp only [realCube, List.mem_cons, List.not_mem_nil, or_false] at hf
    rcases hf with rfl | rfl | rfl | rfl | rfl | rfl <;> simp [V3.ext_iff]
  have hP : ∀ s, Poly realCube (across.at s) ↔ 9/20 ≤ s ∧ s ≤ 11/20 := by
    intro s
    rw [across_at]
    unfold Poly realCube
    simp only [List.mem_cons, List.not_mem_nil, or_false, forall_eq_or_imp, forall_eq, V3.dot]
    constructor
    · rintro ⟨h1, h2, _⟩
      constructor <;> linarith
    · rintro ⟨h1, h2⟩
      refine ⟨?_, ?_, ?_, ?_, ?_, ?_⟩ <;> linarith
  obtain ⟨h1, h2, _⟩ := mesh_raycast_partial realLen_ok hn (r := across) (by norm_num [across])
  cases hh : convexMesh realLen ⟨1, 1, 1⟩ realCube across with
  | none =>
    rcases h2 hh with h | h
    · rw [← at_zero, hP] at h; norm_num at h
    · exact absurd ((hP (1/2)).2 (by norm_num)) (h (1/2) (by norm_num) (by norm_num [across]))
  | some h =>
    obtain ⟨a1, _⟩ := h1 h hh
    refine ⟨h, rfl, a1.unique ⟨by norm_num, (hP _).2 (by norm_num), fun s s0 s1 hB => ?_⟩⟩
    linarith [((hP s).1 hB).1]

/-- C49: a body with a sphere and a box, in the way of the ray. -/
noncomputable def realBody : List (BodyRay.Part ℝ) :=
  [⟨⟨1, ⟨⟨5, 0, 0⟩, Quat.one⟩, sphere (1/1000000) Real.sqrt 1⟩, Ball 0 1⟩,
    ⟨⟨2, Trans.one, box (1/1000000) 1000000 ⟨1, 2, 3⟩⟩, Box ⟨1, 2, 3⟩⟩]

theorem realBody_ok : ∀ p ∈ realBody, p.Ok across := by
  intro p hp
  simp only [realBody, List.mem_cons, List.not_mem_nil, or_false] at hp
  rcases hp with rfl | rfl
  · refine ⟨by norm_num [Quat.one, Quat.lengthSq], BodyRay.sphere_exact realSqrt (by norm_num) (by norm_num) ?_ _⟩
    norm_num [BodyRay.localRay, Trans.inverse, Trans.act, Quat.rot, Quat.conj, Quat.one, across, Ray.dir, V3.lengthSq]
  · refine ⟨by norm_num [Quat.one, Quat.lengthSq, Trans.one], BodyRay.box_exact (by norm_num) (by norm_num)
      (by norm_num [across]) (by norm_num) (by norm_num) (by norm_num) (Or.inr ?_) (Or.inl ?_) (Or.inl ?_)⟩
    all_goals norm_num [BodyRay.localRay, Trans.inverse, Trans.act, Trans.one, Quat.rot, Quat.conj, Quat.one, across, Ray.dir]

example : (bodyRaycast (1/1000000) realLen true (realBody.map (·.c)) across ⟨0, 0, 0, 0⟩).1 = true := by
  obtain ⟨_, _, h3⟩ := BodyRay.body_raycast_closest (1/1000000) realLen realBody across ⟨0, 0, 0, 0⟩ realBody_ok
    (by norm_num [across])
  by_contra hn
  have := h3 (by simpa using hn) ⟨⟨2, Trans.one, box (1/1000000) 1000000 ⟨1, 2, 3⟩⟩, Box ⟨1, 2, 3⟩⟩ (by simp [realBody])
    (by
      rintro ⟨y, hy, e⟩
      rw [trans_one_act] at e
      rw [← e] at hy
      norm_num [across, Box] at hy)
    (1/2) (by norm_num) (by norm_num [across])
  apply this
  refine ⟨across.at (1/2), ?_, (trans_one_act _).symm⟩
  rw [across_at]
  norm_num [Box]

end RayProps
end RP3D
