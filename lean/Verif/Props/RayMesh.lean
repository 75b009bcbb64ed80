import Verif.Props.RayCapsule
import Verif.Shapes.Points

/-! C78: ray casts and point tests of convex meshes. -/

namespace RP3D
namespace RayProps
open Ray Shape

variable {K : Type} [Field K] [LinearOrder K] [IsStrictOrderedRing K]

/-- Specification: the solid bounded by the planes of the faces, each given by its normal and a point of it. -/
def Poly (faces : List (V3 K × V3 K)) (x : V3 K) : Prop := ∀ f ∈ faces, f.1.dot x ≤ f.1.dot f.2

/-- Specification: the solid of the scaled mesh, the image of the solid under the scaling. -/
def Scaled (scale : V3 K) (S : V3 K → Prop) (x : V3 K) : Prop := ∃ y, S y ∧ x = scaleBy scale y

/-- What the loop over the faces knows after the faces for which `Q` holds at the fractions of the ray inside of them. -/
structure MeshInv (r : Ray K) (faces : List (V3 K × V3 K)) (s : Clip K) : Prop where
  iff : ∀ t, 0 ≤ t → t ≤ r.maxF → (Poly faces (r.at t) ↔ s.tMin ≤ t ∧ t ≤ s.tMax)
  lo : 0 ≤ s.tMin
  hi : s.tMax ≤ r.maxF
  ne : s.tMin ≤ s.tMax
  start : s.normal = none → s.tMin = 0
  enter : ∀ n, s.normal = some n → ∃ f ∈ faces, n = f.1 ∧ n.dot r.dir < 0 ∧ n.dot (r.at s.tMin) = n.dot f.2

theorem poly_append (l : List (V3 K × V3 K)) (f : V3 K × V3 K) (x : V3 K) :
    Poly (l ++ [f]) x ↔ Poly l x ∧ f.1.dot x ≤ f.1.dot f.2 := by
  unfold Poly
  simp only [List.mem_append, List.mem_singleton]
  constructor
  · intro h; exact ⟨fun g hg => h g (Or.inl hg), h f (Or.inr rfl)⟩
  · rintro ⟨h1, h2⟩ g (hg | rfl)
    · exact h1 g hg
    · exact h2

theorem dot_ray (n : V3 K) (r : Ray K) (t : K) : n.dot (r.at t) = n.dot r.p1 + t * n.dot r.dir := by
  simp only [V3.dot, Ray.at, V3.add_x, V3.add_y, V3.add_z, V3.smul_x, V3.smul_y, V3.smul_z]
  ring

theorem face_inv {r : Ray K} {l : List (V3 K × V3 K)} {f : V3 K × V3 K} {s : Clip K} (h : MeshInv r l s) :
    (∀ s', face r.p1 r.dir f s = some s' → MeshInv r (l ++ [f]) s') ∧
      (face r.p1 r.dir f s = none → ∀ t, 0 ≤ t → t ≤ r.maxF → ¬ Poly (l ++ [f]) (r.at t)) := by
  have key : ∀ t, f.1.dot (r.at t) ≤ f.1.dot f.2 ↔ t * f.1.dot r.dir ≤ f.1.dot f.2 - f.1.dot r.p1 := by
    intro t; rw [dot_ray]; constructor <;> intro hh <;> linarith
  have old : ∀ n, s.normal = some n → ∃ g ∈ l ++ [f], n = g.1 ∧ n.dot r.dir < 0 ∧ n.dot (r.at s.tMin) = n.dot g.2 := by
    intro n hn
    obtain ⟨g, hg, e⟩ := h.enter n hn
    exact ⟨g, List.mem_append_left _ hg, e⟩
  unfold face
  dsimp only
  by_cases h0 : f.1.dot r.dir = 0
  · rw [if_pos h0]
    have key' : ∀ t, f.1.dot (r.at t) ≤ f.1.dot f.2 ↔ 0 ≤ f.1.dot f.2 - f.1.dot r.p1 := by
      intro t; rw [key, h0, mul_zero]
    by_cases h1 : f.1.dot f.2 - f.1.dot r.p1 < 0
    · rw [if_pos h1]
      refine ⟨by simp, fun _ t _ _ hp => ?_⟩
      have := (key' t).1 ((poly_append _ _ _).1 hp).2
      linarith
    · rw [if_neg h1]
      refine ⟨?_, by simp⟩
      rintro _ ⟨⟩
      refine ⟨fun t t0 t1 => ?_, h.lo, h.hi, h.ne, h.start, old⟩
      rw [poly_append, h.iff t t0 t1, key']
      exact ⟨fun hh => hh.1, fun hh => ⟨hh, not_lt.1 h1⟩⟩
  · rw [if_neg h0]
    generalize hq : (f.1.dot f.2 - f.1.dot r.p1) / f.1.dot r.dir = q
    have hqm : q * f.1.dot r.dir = f.1.dot f.2 - f.1.dot r.p1 := by rw [← hq]; exact div_mul_cancel₀ _ h0
    have at_q : f.1.dot (r.at q) = f.1.dot f.2 := by rw [dot_ray]; linarith
    by_cases h1 : f.1.dot r.dir < 0
    · have key' : ∀ t, f.1.dot (r.at t) ≤ f.1.dot f.2 ↔ q ≤ t := by
        intro t
        rw [key, ← hqm]
        constructor
        · intro hh; by_contra hn; nlinarith [not_le.1 hn]
        · intro hh; nlinarith
      rw [if_pos h1]
      by_cases h2 : q > s.tMin
      · rw [if_pos h2]
        have hi : ∀ t, 0 ≤ t → t ≤ r.maxF → (Poly (l ++ [f]) (r.at t) ↔ q ≤ t ∧ t ≤ s.tMax) := by
          intro t t0 t1
          rw [poly_append, h.iff t t0 t1, key']
          constructor
          · rintro ⟨⟨_, b⟩, c⟩; exact ⟨c, b⟩
          · rintro ⟨c, b⟩; exact ⟨⟨by linarith, b⟩, c⟩
        dsimp only
        by_cases h3 : q > s.tMax
        · rw [if_pos h3]
          refine ⟨by simp, fun _ t t0 t1 hp => ?_⟩
          obtain ⟨c, b⟩ := (hi t t0 t1).1 hp
          linarith
        · rw [if_neg h3]
          refine ⟨?_, by simp⟩
          rintro _ ⟨⟩
          refine ⟨hi, ?_, h.hi, not_lt.1 h3, by simp, ?_⟩
          · simp only; linarith [h.lo]
          · rintro n ⟨⟩
            exact ⟨f, List.mem_append_right _ (List.mem_singleton_self _), rfl, h1, at_q⟩
      · rw [if_neg h2, if_neg (not_lt.2 h.ne)]
        refine ⟨?_, by simp⟩
        rintro _ ⟨⟩
        refine ⟨fun t t0 t1 => ?_, h.lo, h.hi, h.ne, h.start, old⟩
        rw [poly_append, h.iff t t0 t1, key']
        exact ⟨fun hh => hh.1, fun hh => ⟨hh, by linarith [not_lt.1 h2, hh.1]⟩⟩
    · have h1' : 0 < f.1.dot r.dir := lt_of_le_of_ne (not_lt.1 h1) (Ne.symm h0)
      have key' : ∀ t, f.1.dot (r.at t) ≤ f.1.dot f.2 ↔ t ≤ q := by
        intro t
        rw [key, ← hqm]
        constructor
        · intro hh; by_contra hn; nlinarith [not_le.1 hn]
        · intro hh; nlinarith
      rw [if_neg h1]
      by_cases h2 : q < s.tMax
      · rw [if_pos h2]
        have hi : ∀ t, 0 ≤ t → t ≤ r.maxF → (Poly (l ++ [f]) (r.at t) ↔ s.tMin ≤ t ∧ t ≤ q) := by
          intro t t0 t1
          rw [poly_append, h.iff t t0 t1, key']
          constructor
          · rintro ⟨⟨a, _⟩, c⟩; exact ⟨a, c⟩
          · rintro ⟨a, c⟩; exact ⟨⟨a, by linarith⟩, c⟩
        dsimp only
        by_cases h3 : s.tMin > q
        · rw [if_pos h3]
          refine ⟨by simp, fun _ t t0 t1 hp => ?_⟩
          obtain ⟨c, b⟩ := (hi t t0 t1).1 hp
          linarith
        · rw [if_neg h3]
          refine ⟨?_, by simp⟩
          rintro _ ⟨⟩
          refine ⟨hi, h.lo, ?_, not_lt.1 h3, h.start, old⟩
          simp only; linarith [h.hi]
      · rw [if_neg h2, if_neg (not_lt.2 h.ne)]
        refine ⟨?_, by simp⟩
        rintro _ ⟨⟩
        refine ⟨fun t t0 t1 => ?_, h.lo, h.hi, h.ne, h.start, old⟩
        rw [poly_append, h.iff t t0 t1, key']
        exact ⟨fun hh => hh.1, fun hh => ⟨hh, by linarith [not_lt.1 h2, hh.2]⟩⟩

theorem faces_inv {r : Ray K} (fs : List (V3 K × V3 K)) : ∀ {l : List (V3 K × V3 K)} {s : Clip K}, MeshInv r l s →
    (∀ s', fs.foldlM (fun s f => face r.p1 r.dir f s) s = some s' → MeshInv r (l ++ fs) s') ∧
      (fs.foldlM (fun s f => face r.p1 r.dir f s) s = none → ∀ t, 0 ≤ t → t ≤ r.maxF → ¬ Poly (l ++ fs) (r.at t)) := by
  induction fs with
  | nil =>
    intro l s h
    refine ⟨?_, by simp⟩
    rintro s' hs
    simp only [List.foldlM_nil, Option.pure_def, Option.some.injEq] at hs
    subst hs
    rwa [List.append_nil]
  | cons f fs ih =>
    intro l s h
    obtain ⟨h1, h2⟩ := face_inv (f := f) h
    rw [List.foldlM_cons]
    cases hf : face r.p1 r.dir f s with
    | none =>
      refine ⟨by simp, fun _ t t0 t1 hp => h2 hf t t0 t1 ?_⟩
      intro g hg
      refine hp g ?_
      simp only [List.mem_append, List.mem_cons, List.not_mem_nil, or_false] at hg ⊢
      tauto
    | some s' =>
      have := ih (h1 s' hf)
      simpa using this

/-- The polyhedron that the code works with: scaled normals, unscaled vertices. -/
def codeFaces (len : V3 K → K) (scale : V3 K) (faces : List (V3 K × V3 K)) : List (V3 K × V3 K) :=
  faces.map fun f => (scaledNormal len scale f.1, f.2)

theorem convexMesh_eq (len : V3 K → K) (scale : V3 K) (faces : List (V3 K × V3 K)) (r : Ray K) :
    convexMesh len scale faces r =
      ((codeFaces len scale faces).foldlM (fun s f => face r.p1 r.dir f s) (⟨0, r.maxF, none⟩ : Clip K)).bind fun s =>
        s.normal.bind fun n => some ⟨s.tMin, r.at s.tMin, n⟩ := by
  unfold convexMesh codeFaces
  rw [List.foldlM_map]
  rfl

/-- Ray casts are exact for the polyhedron that the code works with. -/
theorem convexMesh_spec {len : V3 K → K} {scale : V3 K} {faces : List (V3 K × V3 K)} {r : Ray K} (hm : 0 ≤ r.maxF) :
    (∀ h, convexMesh len scale faces r = some h → IsFirst (Poly (codeFaces len scale faces)) r h.fraction ∧
      h.fraction ≤ r.maxF ∧ h.point = r.at h.fraction ∧ Outward (Poly (codeFaces len scale faces)) r h.fraction h.normal) ∧
    (convexMesh len scale faces r = none → Poly (codeFaces len scale faces) r.p1 ∨
      ∀ t, 0 ≤ t → t ≤ r.maxF → ¬ Poly (codeFaces len scale faces) (r.at t)) := by
  rw [convexMesh_eq]
  generalize codeFaces len scale faces = fs
  have i0 : MeshInv r [] (⟨0, r.maxF, none⟩ : Clip K) :=
    ⟨fun t t0 t1 => ⟨fun _ => ⟨t0, t1⟩, fun _ g hg => absurd hg (List.not_mem_nil)⟩, le_refl _, le_refl _, hm, fun _ => rfl,
      by simp⟩
  obtain ⟨h1, h2⟩ := faces_inv fs i0
  rw [List.nil_append] at h1 h2
  cases hf : fs.foldlM (fun s f => face r.p1 r.dir f s) (⟨0, r.maxF, none⟩ : Clip K) with
  | none => exact ⟨by simp, fun _ => Or.inr (h2 hf)⟩
  | some s =>
    have i := h1 s hf
    have hp : Poly fs (r.at s.tMin) := (i.iff _ i.lo (le_trans i.ne i.hi)).2 ⟨le_refl _, i.ne⟩
    simp only [Option.bind_some]
    cases hn : s.normal with
    | none =>
      refine ⟨by simp, fun _ => Or.inl ?_⟩
      rw [i.start hn, at_zero] at hp
      exact hp
    | some n =>
      refine ⟨?_, by simp⟩
      rintro _ ⟨⟩
      obtain ⟨f, hf, rfl, e2, e3⟩ := i.enter n hn
      refine ⟨⟨i.lo, hp, fun t t0 t1 ht => ?_⟩, le_trans i.ne i.hi, rfl, ?_, e2.le, fun x hx => ?_⟩
      · have := (i.iff t t0 (by linarith [i.ne, i.hi])).1 ht
        linarith [this.1]
      · intro hz
        simp only at hz
        rw [hz] at e2
        simp [V3.dot] at e2
      · simp only
        rw [e3]
        exact hx f hf

/-- Point tests are exact for the polyhedron that the code works with. -/
theorem meshInside_spec {len : V3 K → K} {scale : V3 K} {faces : List (V3 K × V3 K)} {x : V3 K} :
    meshInside len scale faces x ↔ Poly (codeFaces len scale faces) x := by
  unfold meshInside Poly codeFaces
  have e : ∀ n v : V3 K, n.dot (x - v) = n.dot x - n.dot v := by
    intro n v; simp only [V3.dot, V3.sub_x, V3.sub_y, V3.sub_z]; ring
  constructor
  · intro h f hf
    obtain ⟨g, hg, rfl⟩ := List.mem_map.1 hf
    have := h g hg
    rw [e] at this
    linarith
  · intro h f hf
    have := h _ (List.mem_map.2 ⟨f, hf, rfl⟩)
    rw [e]
    simp only at this
    linarith

/-- Specification of the length of a vector. -/
def IsLen (len : V3 K → K) : Prop := ∀ v, 0 ≤ len v ∧ len v * len v = v.lengthSq

theorem len_pos {len : V3 K → K} (hl : IsLen len) {v : V3 K} (hv : v ≠ 0) : 0 < len v := by
  obtain ⟨h1, h2⟩ := hl v
  refine lt_of_le_of_ne h1 fun e => hv ?_
  rw [← e, mul_zero] at h2
  unfold V3.lengthSq at h2
  ext
  · exact mul_self_eq_zero.1 (by nlinarith [mul_self_nonneg v.x, mul_self_nonneg v.y, mul_self_nonneg v.z])
  · exact mul_self_eq_zero.1 (by nlinarith [mul_self_nonneg v.x, mul_self_nonneg v.y, mul_self_nonneg v.z])
  · exact mul_self_eq_zero.1 (by nlinarith [mul_self_nonneg v.x, mul_self_nonneg v.y, mul_self_nonneg v.z])

/-- Without scaling, the polyhedron of the code is the mesh. -/
theorem codeFaces_one {len : V3 K → K} (hl : IsLen len) {faces : List (V3 K × V3 K)} (hn : ∀ f ∈ faces, f.1 ≠ 0) (x : V3 K) :
    Poly (codeFaces len ⟨1, 1, 1⟩ faces) x ↔ Poly faces x := by
  have e : ∀ n : V3 K, scaledNormal len ⟨1, 1, 1⟩ n = V3.smul (1 / len n) n := by
    intro n; unfold scaledNormal scaleBy; simp
  have k : ∀ f ∈ faces, ((scaledNormal len ⟨1, 1, 1⟩ f.1).dot x ≤ (scaledNormal len ⟨1, 1, 1⟩ f.1).dot f.2 ↔
      f.1.dot x ≤ f.1.dot f.2) := by
    intro f hf
    rw [e]
    have hp : 0 < 1 / len f.1 := one_div_pos.2 (len_pos hl (hn f hf))
    have d : ∀ v, (V3.smul (1 / len f.1) f.1).dot v = 1 / len f.1 * f.1.dot v := by
      intro v; simp only [V3.dot, V3.smul_x, V3.smul_y, V3.smul_z]; ring
    rw [d, d]
    exact mul_le_mul_iff_right₀ hp
  unfold Poly codeFaces
  constructor
  · intro h f hf
    exact (k f hf).1 (h _ (List.mem_map.2 ⟨f, hf, rfl⟩))
  · intro h g hg
    obtain ⟨f, hf, rfl⟩ := List.mem_map.1 hg
    exact (k f hf).2 (h f hf)

theorem isFirst_congr {S T : V3 K → Prop} (h : ∀ x, S x ↔ T x) : S = T := funext fun x => propext (h x)

/-- Ray casts and point tests of convex meshes that are not scaled: exact. Missing: scaled meshes (`mesh_raycast_scaled_wrong`). -/
theorem mesh_raycast_partial {len : V3 K → K} (hl : IsLen len) {faces : List (V3 K × V3 K)} (hn : ∀ f ∈ faces, f.1 ≠ 0)
    {r : Ray K} (hm : 0 ≤ r.maxF) :
    (∀ h, convexMesh len ⟨1, 1, 1⟩ faces r = some h → IsFirst (Poly faces) r h.fraction ∧
      h.fraction ≤ r.maxF ∧ h.point = r.at h.fraction ∧ Outward (Poly faces) r h.fraction h.normal) ∧
    (convexMesh len ⟨1, 1, 1⟩ faces r = none → Poly faces r.p1 ∨ ∀ t, 0 ≤ t → t ≤ r.maxF → ¬ Poly faces (r.at t)) ∧
    (∀ x, meshInside len ⟨1, 1, 1⟩ faces x ↔ Poly faces x) := by
  have e : Poly (codeFaces len ⟨1, 1, 1⟩ faces) = Poly faces := isFirst_congr (codeFaces_one hl hn)
  have := convexMesh_spec (len := len) (scale := ⟨1, 1, 1⟩) (faces := faces) hm
  rw [e] at this
  refine ⟨this.1, this.2, fun x => ?_⟩
  rw [meshInside_spec, e]

/-- The cube with sides of length 2. -/
def cube : List (V3 ℚ × V3 ℚ) := [(⟨1, 0, 0⟩, ⟨1, 1, 1⟩), (⟨-1, 0, 0⟩, ⟨-1, -1, -1⟩), (⟨0, 1, 0⟩, ⟨1, 1, 1⟩),
  (⟨0, -1, 0⟩, ⟨-1, -1, -1⟩), (⟨0, 0, 1⟩, ⟨1, 1, 1⟩), (⟨0, 0, -1⟩, ⟨-1, -1, -1⟩)]

/-- A function that is the length on multiples of the axes. -/
def axisLen (v : V3 ℚ) : ℚ := |v.x| + |v.y| + |v.z|

theorem axisLen_ok : ∀ a ∈ cube.map (·.1), ∀ s : ℚ, axisLen (V3.smul s a) * axisLen (V3.smul s a) = (V3.smul s a).lengthSq := by
  intro a ha s
  simp only [cube, List.map_cons, List.map_nil, List.mem_cons, List.not_mem_nil, or_false] at ha
  rcases ha with rfl | rfl | rfl | rfl | rfl | rfl <;> simp [axisLen, V3.smul, V3.lengthSq]

theorem cube_poly (x : V3 ℚ) : Poly cube x ↔ -1 ≤ x.x ∧ x.x ≤ 1 ∧ -1 ≤ x.y ∧ x.y ≤ 1 ∧ -1 ≤ x.z ∧ x.z ≤ 1 := by
  unfold Poly cube
  simp only [List.mem_cons, List.not_mem_nil, or_false, forall_eq_or_imp, forall_eq, V3.dot]
  constructor
  · rintro ⟨h1, h2, h3, h4, h5, h6⟩
    refine ⟨?_, ?_, ?_, ?_, ?_, ?_⟩ <;> linarith
  · rintro ⟨h1, h2, h3, h4, h5, h6⟩
    refine ⟨?_, ?_, ?_, ?_, ?_, ?_⟩ <;> linarith

/-- The cube scaled with a factor 2 has its sides at distance 2 from the centre; the code still reports the sides of the
unscaled cube: the ray cast reports an inner point and not the first point, and the point test denies a point inside. With the
factor 1/2 it reports points outside. -/
theorem mesh_raycast_scaled_wrong :
    let r : Ray ℚ := ⟨⟨-10, 0, 0⟩, ⟨10, 0, 0⟩, 1⟩
    (∃ h, convexMesh axisLen ⟨2, 2, 2⟩ cube r = some h ∧ h.fraction = 9/20 ∧ ¬ IsFirst (Scaled ⟨2, 2, 2⟩ (Poly cube)) r h.fraction) ∧
      (¬ meshInside axisLen ⟨2, 2, 2⟩ cube ⟨3/2, 0, 0⟩ ∧ Scaled ⟨2, 2, 2⟩ (Poly cube) ⟨3/2, 0, 0⟩) ∧
      (meshInside axisLen ⟨1/2, 1/2, 1/2⟩ cube ⟨3/4, 0, 0⟩ ∧ ¬ Scaled ⟨1/2, 1/2, 1/2⟩ (Poly cube) ⟨3/4, 0, 0⟩) := by
  intro r
  refine ⟨?_, ⟨?_, ?_⟩, ?_, ?_⟩
  · have hs : (convexMesh axisLen ⟨2, 2, 2⟩ cube r).map (·.fraction) = some (9/20) := by decide +kernel
    cases hc : convexMesh axisLen ⟨2, 2, 2⟩ cube r with
    | none => rw [hc] at hs; simp at hs
    | some h =>
      rw [hc] at hs
      simp only [Option.map_some, Option.some.injEq] at hs
      refine ⟨h, rfl, hs, fun hf => ?_⟩
      rw [hs] at hf
      refine hf.2.2 (2/5) (by norm_num) (by norm_num) ⟨⟨-1, 0, 0⟩, (cube_poly _).2 (by norm_num), ?_⟩
      ext <;> decide +kernel
  · rw [meshInside_spec]
    intro h
    have := h (scaledNormal axisLen ⟨2, 2, 2⟩ ⟨1, 0, 0⟩, ⟨1, 1, 1⟩) (by simp [codeFaces, cube])
    exact absurd this (by decide +kernel)
  · exact ⟨⟨3/4, 0, 0⟩, (cube_poly _).2 (by norm_num), by ext <;> decide +kernel⟩
  · intro f hf
    simp only [cube, List.mem_cons, List.not_mem_nil, or_false] at hf
    rcases hf with rfl | rfl | rfl | rfl | rfl | rfl <;> decide +kernel
  · rintro ⟨y, hy, e⟩
    have hx := congrArg V3.x e
    simp only [scaleBy] at hx
    have := (cube_poly y).1 hy
    linarith [this.2.1]

end RayProps
end RP3D
