import Verif.Props.RayMesh

/-! C80: support points. C81: point tests. -/

namespace RP3D
namespace PointProps
open Ray Shape RayProps

variable {K : Type} [Field K] [LinearOrder K] [IsStrictOrderedRing K]

/-! ### Point tests -/

/-- Specification: the points at distance less than `radius` from a point. -/
def OpenBall (center : V3 K) (radius : K) (x : V3 K) : Prop := V3.lengthSq (x - center) < radius * radius

/-- Specification: the interior of a capsule, the points at distance less than `radius` from its axis. -/
def OpenCapsule (radius hh : K) (x : V3 K) : Prop := ∃ y, -hh ≤ y ∧ y ≤ hh ∧ OpenBall ⟨0, y, 0⟩ radius x

/-- Specification: the interior of a box. -/
def OpenBox (h x : V3 K) : Prop := |x.x| < h.x ∧ |x.y| < h.y ∧ |x.z| < h.z

/-- Specification: the points of the world covered by a shape at a pose. -/
def Placed (t : Trans K) (S : V3 K → Prop) (x : V3 K) : Prop := ∃ y, S y ∧ x = t.act y

theorem sphere_inside (radius : K) (x : V3 K) : sphereInside radius x ↔ OpenBall 0 radius x := by
  unfold sphereInside OpenBall
  simp [V3.lengthSq]

theorem box_inside (h x : V3 K) : boxInside h x ↔ OpenBox h x := by
  unfold boxInside OpenBox
  simp only [abs_lt]
  tauto

theorem capsule_inside {radius hh : K} (hp : 0 ≤ hh) (x : V3 K) : capsuleInside radius hh x ↔ OpenCapsule radius hh x := by
  unfold capsuleInside OpenCapsule OpenBall
  simp only [V3.lengthSq, V3.sub_x, V3.sub_y, V3.sub_z, sub_zero]
  constructor
  · rintro (⟨h1, h2, h3⟩ | h | h)
    · exact ⟨x.y, h3.le, h2.le, by nlinarith⟩
    · exact ⟨hh, by linarith, le_refl _, by linarith⟩
    · exact ⟨-hh, le_refl _, by linarith, by nlinarith⟩
  · rintro ⟨y, l, u, h⟩
    rcases le_or_gt hh x.y with h1 | h1
    · exact Or.inr (Or.inl (by nlinarith))
    · rcases le_or_gt x.y (-hh) with h2 | h2
      · exact Or.inr (Or.inr (by nlinarith))
      · exact Or.inl ⟨by nlinarith [mul_self_nonneg (x.y - y)], h1, h2⟩

theorem collider_inside {t : Trans K} (ht : t.ori.lengthSq = 1) {shape S : V3 K → Prop} (hs : ∀ x, shape x ↔ S x) (x : V3 K) :
    colliderInside t shape x ↔ Placed t S x := by
  unfold colliderInside Placed
  rw [hs]
  constructor
  · intro h
    exact ⟨_, h, (trans_act_inverse ht x).symm⟩
  · rintro ⟨y, hy, rfl⟩
    rwa [trans_inverse_act ht]

/-- `testPointInside` of a body: true for exactly the points that are in one of its colliders, each placed with its pose in
the world. -/
theorem point_in_body {cs : List (Trans K × (V3 K → Prop))} (hu : ∀ c ∈ cs, c.1.ori.lengthSq = 1) (x : V3 K) :
    bodyInside cs x ↔ ∃ c ∈ cs, Placed c.1 c.2 x := by
  induction cs with
  | nil => simp [bodyInside]
  | cons c cs ih =>
    unfold bodyInside
    rw [collider_inside (hu c (List.mem_cons_self ..)) (fun _ => Iff.rfl), ih fun d hd => hu d (List.mem_cons_of_mem _ hd)]
    simp

/-- The shapes: the test of a sphere, a box and a capsule is true for exactly the inner points. -/
theorem point_in_shape (radius hh : K) (h x : V3 K) (hp : 0 ≤ hh) :
    (sphereInside radius x ↔ OpenBall 0 radius x) ∧ (boxInside h x ↔ OpenBox h x) ∧
      (capsuleInside radius hh x ↔ OpenCapsule radius hh x) :=
  ⟨sphere_inside radius x, box_inside h x, capsule_inside hp x⟩

/-- A turned body with a sphere and a capsule, and a point of the capsule. -/
example : bodyInside [(⟨⟨0, 0, 10⟩, ⟨3/5, 0, 0, 4/5⟩⟩, sphereInside 1), (⟨⟨1, 0, 0⟩, ⟨0, 0, 1, 0⟩⟩, capsuleInside (1 : ℚ) 2)] ⟨1, 5/2, 0⟩ := by
  refine (point_in_body ?_ _).2 ⟨_, List.mem_cons_of_mem _ (List.mem_singleton_self _), ⟨0, -5/2, 0⟩, ?_, ?_⟩
  · simp only [List.mem_cons, List.not_mem_nil, or_false]
    rintro c (rfl | rfl) <;> decide +kernel
  · unfold capsuleInside; decide +kernel
  · ext <;> decide +kernel

/-! ### Support points -/

/-- Specification: `p` is a point of the solid `S` that is farthest in the direction `d`. -/
def IsSupport (S : V3 K → Prop) (d p : V3 K) : Prop := S p ∧ ∀ x, S x → d.dot x ≤ d.dot p

/-- Specification: the convex hull of points. -/
inductive Hull (vs : List (V3 K)) : V3 K → Prop
  | vertex {v} : v ∈ vs → Hull vs v
  | mix {x y : V3 K} {w : K} : Hull vs x → Hull vs y → 0 ≤ w → w ≤ 1 → Hull vs (V3.smul (1 - w) x + V3.smul w y)

theorem hull_le {vs : List (V3 K)} {d : V3 K} {m : K} (h : ∀ v ∈ vs, d.dot v ≤ m) {x : V3 K} (hx : Hull vs x) : d.dot x ≤ m := by
  induction hx with
  | vertex hv => exact h _ hv
  | @mix x y w _ _ w0 w1 ih1 ih2 =>
    have : d.dot (V3.smul (1 - w) x + V3.smul w y) = (1 - w) * d.dot x + w * d.dot y := by
      simp only [V3.dot, V3.add_x, V3.add_y, V3.add_z, V3.smul_x, V3.smul_y, V3.smul_z]; ring
    rw [this]
    nlinarith

theorem box_support {h : V3 K} (hx : 0 ≤ h.x) (hy : 0 ≤ h.y) (hz : 0 ≤ h.z) (d : V3 K) : IsSupport (Box h) d (boxSupport h d) := by
  have one : ∀ e k : K, 0 ≤ k → -k ≤ (if e < 0 then -k else k) ∧ (if e < 0 then -k else k) ≤ k ∧
      ∀ a, -k ≤ a → a ≤ k → e * a ≤ e * (if e < 0 then -k else k) := by
    intro e k hk
    split_ifs with h
    · exact ⟨le_refl _, by linarith, fun a h1 h2 => by nlinarith⟩
    · exact ⟨by linarith, le_refl _, fun a h1 h2 => by nlinarith [not_lt.1 h]⟩
  obtain ⟨x1, x2, x3⟩ := one d.x h.x hx
  obtain ⟨y1, y2, y3⟩ := one d.y h.y hy
  obtain ⟨z1, z2, z3⟩ := one d.z h.z hz
  refine ⟨⟨⟨x1, x2⟩, ⟨y1, y2⟩, ⟨z1, z2⟩⟩, ?_⟩
  rintro x ⟨⟨a1, a2⟩, ⟨a3, a4⟩, ⟨a5, a6⟩⟩
  simp only [V3.dot, boxSupport]
  linarith [x3 _ a1 a2, y3 _ a3 a4, z3 _ a5 a6]

theorem triangle_support (a b c d : V3 K) : IsSupport (Hull [a, b, c]) d (triangleSupport a b c d) := by
  have mem : triangleSupport a b c d ∈ [a, b, c] := by
    unfold triangleSupport; split <;> simp
  refine ⟨.vertex mem, fun x hx => hull_le (fun v hv => ?_) hx⟩
  simp only [List.mem_cons, List.not_mem_nil, or_false] at hv
  unfold triangleSupport maxAxis
  rcases hv with rfl | rfl | rfl <;> dsimp only <;> split_ifs <;> simp_all <;> linarith

/-- The farthest point of a sphere around a point. -/
theorem ball_dot {sqrt : K → K} (hq : IsSqrt sqrt) {center x d : V3 K} {radius : K} (hr : 0 < radius) (hd : 0 < d.lengthSq)
    (hx : Ball center radius x) : d.dot x ≤ d.dot center + radius * sqrt d.lengthSq := by
  obtain ⟨l0, l1⟩ := sqrt_pos hq hd
  generalize sqrt d.lengthSq = l at *
  have hB : _ ≤ _ := hx
  simp only [V3.lengthSq, V3.dot, V3.sub_x, V3.sub_y, V3.sub_z] at *
  by_contra hn
  have h1 := mul_self_nonneg (l * (x.x - center.x) - radius * d.x)
  have h2 := mul_self_nonneg (l * (x.y - center.y) - radius * d.y)
  have h3 := mul_self_nonneg (l * (x.z - center.z) - radius * d.z)
  have e : (l * (x.x - center.x) - radius * d.x) * (l * (x.x - center.x) - radius * d.x) +
      (l * (x.y - center.y) - radius * d.y) * (l * (x.y - center.y) - radius * d.y) +
      (l * (x.z - center.z) - radius * d.z) * (l * (x.z - center.z) - radius * d.z) =
      (l * l) * ((x.x - center.x) * (x.x - center.x) + (x.y - center.y) * (x.y - center.y) + (x.z - center.z) * (x.z - center.z)) -
      2 * (l * radius) * (d.x * x.x + d.y * x.y + d.z * x.z - (d.x * center.x + d.y * center.y + d.z * center.z)) +
      radius * radius * (d.x * d.x + d.y * d.y + d.z * d.z) := by ring
  rw [← l1] at e
  have hl : 0 < l * l := mul_pos l0 l0
  have h4 := mul_le_mul_of_nonneg_left hB hl.le
  have h5 : 0 < (l * radius) * (d.x * x.x + d.y * x.y + d.z * x.z - (d.x * center.x + d.y * center.y + d.z * center.z) - radius * l) :=
    mul_pos (mul_pos l0 hr) (by linarith)
  nlinarith

theorem unit_spec {sqrt : K → K} (hq : IsSqrt sqrt) {eps : K} (he : 0 < eps) {d : V3 K} (hd : eps * eps < d.lengthSq) :
    d.dot (unit eps sqrt d) = sqrt d.lengthSq ∧ (unit eps sqrt d).lengthSq = 1 := by
  have hd0 : 0 < d.lengthSq := lt_trans (mul_pos he he) hd
  obtain ⟨l0, l1⟩ := sqrt_pos hq hd0
  have hl : ¬ sqrt d.lengthSq < eps := by
    intro h
    nlinarith
  unfold unit
  dsimp only
  rw [if_neg hl]
  have e : d.lengthSq = d.x * d.x + d.y * d.y + d.z * d.z := rfl
  generalize hs : sqrt d.lengthSq = l at *
  constructor
  · simp only [V3.dot]
    field_simp
    rw [← sub_eq_zero]
    have : d.x ^ 2 + d.y ^ 2 + d.z ^ 2 = l * l := by rw [l1, e]; ring
    linear_combination this
  · simp only [V3.lengthSq]
    field_simp
    have : d.x ^ 2 + d.y ^ 2 + d.z ^ 2 = l * l := by rw [l1, e]; ring
    linear_combination this

/-- Adding the margin in the direction of the unit vector to a point of the axis gives the farthest point of the solid. -/
theorem margin_ball {sqrt : K → K} (hq : IsSqrt sqrt) {eps radius : K} (he : 0 < eps) {d : V3 K}
    (hd : eps * eps < d.lengthSq) (c : V3 K) :
    Ball c radius (c + V3.smul radius (unit eps sqrt d)) ∧
      d.dot (c + V3.smul radius (unit eps sqrt d)) = d.dot c + radius * sqrt d.lengthSq := by
  obtain ⟨u1, u2⟩ := unit_spec hq he hd
  generalize unit eps sqrt d = u at *
  constructor
  · unfold Ball
    have : (c + V3.smul radius u - c).lengthSq = radius * radius * u.lengthSq := by
      simp only [V3.lengthSq, V3.sub_x, V3.sub_y, V3.sub_z, V3.add_x, V3.add_y, V3.add_z, V3.smul_x, V3.smul_y, V3.smul_z]; ring
    rw [this, u2, mul_one]
  · rw [← u1]
    simp only [V3.dot, V3.add_x, V3.add_y, V3.add_z, V3.smul_x, V3.smul_y, V3.smul_z]; ring

theorem sphere_support {sqrt : K → K} (hq : IsSqrt sqrt) {eps radius : K} (he : 0 < eps) (hr : 0 < radius) {d : V3 K}
    (hd : eps * eps < d.lengthSq) : IsSupport (Ball 0 radius) d (withMargin eps sqrt radius (fun _ => 0) d) := by
  unfold withMargin
  dsimp only
  rw [if_pos hr.ne', if_pos hd]
  obtain ⟨h1, h2⟩ := margin_ball (radius := radius) hq he hd 0
  refine ⟨h1, fun x hx => ?_⟩
  rw [h2]
  exact ball_dot hq hr (lt_trans (mul_pos he he) hd) hx

theorem capsule_support {sqrt : K → K} (hq : IsSqrt sqrt) {eps radius hh : K} (he : 0 < eps) (hr : 0 < radius) (hp : 0 < hh)
    {d : V3 K} (hd : eps * eps < d.lengthSq) :
    IsSupport (Capsule radius hh) d (withMargin eps sqrt radius (capsuleSupport hh) d) := by
  unfold withMargin
  dsimp only
  rw [if_pos hr.ne', if_pos hd]
  have hc : ∃ s, capsuleSupport hh d = ⟨0, s, 0⟩ ∧ -hh ≤ s ∧ s ≤ hh ∧ ∀ y, -hh ≤ y → y ≤ hh → d.y * y ≤ d.y * s := by
    unfold capsuleSupport
    split_ifs with h
    · exact ⟨hh, rfl, by linarith, le_refl _, fun y y1 y2 => by
        have : 0 < d.y := by by_contra hn; nlinarith [not_lt.1 hn]
        nlinarith⟩
    · exact ⟨-hh, rfl, le_refl _, by linarith, fun y y1 y2 => by
        have : d.y ≤ 0 := by by_contra hn; nlinarith [not_le.1 hn]
        nlinarith⟩
  obtain ⟨s, e, s1, s2, s3⟩ := hc
  rw [e]
  obtain ⟨h1, h2⟩ := margin_ball (radius := radius) hq he hd (⟨0, s, 0⟩ : V3 K)
  refine ⟨⟨s, s1, s2, h1⟩, ?_⟩
  rintro x ⟨y, y1, y2, hx⟩
  rw [h2]
  refine le_trans (ball_dot hq hr (lt_trans (mul_pos he he) hd) hx) ?_
  simp only [V3.dot, mul_zero, zero_add, add_zero]
  linarith [s3 y y1 y2]

theorem meshLoop_spec (d : V3 K) (all : List (V3 K)) : ∀ (vs : List (V3 K)) (best : V3 K) (m : K), (∀ v ∈ vs, v ∈ all) → best ∈ all →
    (meshLoop d vs best m).1 ∈ all ∧ m ≤ (meshLoop d vs best m).2 ∧ (∀ v ∈ vs, d.dot v ≤ (meshLoop d vs best m).2) ∧
      ((meshLoop d vs best m) = (best, m) ∨ (meshLoop d vs best m).2 = d.dot (meshLoop d vs best m).1) := by
  intro vs
  induction vs with
  | nil =>
    intro best m _ hb
    exact ⟨hb, le_refl _, by simp, Or.inl rfl⟩
  | cons v vs ih =>
    intro best m hs hb
    have hs' : ∀ w ∈ vs, w ∈ all := fun w hw => hs w (List.mem_cons_of_mem _ hw)
    unfold meshLoop
    split_ifs with h
    · obtain ⟨h1, h2, h3, h4⟩ := ih v (d.dot v) hs' (hs v (List.mem_cons_self ..))
      refine ⟨h1, by linarith, ?_, Or.inr ?_⟩
      · intro w hw
        rcases List.mem_cons.1 hw with rfl | hw
        · exact h2
        · exact h3 w hw
      · rcases h4 with e | e
        · rw [e]
        · exact e
    · obtain ⟨h1, h2, h3, h4⟩ := ih best m hs' hb
      refine ⟨h1, h2, ?_, h4⟩
      intro w hw
      rcases List.mem_cons.1 hw with rfl | hw
      · linarith [not_lt.1 h]
      · exact h3 w hw

/-- Support points of convex meshes: right if the mesh is scaled by the same factor in all directions, and defined if the mesh
contains its origin. Missing: other scalings (`mesh_support_scaled_wrong`) and meshes apart from their origin
(`mesh_support_undefined`). -/
theorem mesh_support_partial {large k : K} (hk : 0 < k) (hl : 0 < large) {vs : List (V3 K)} (hne : vs ≠ []) (d : V3 K) :
    (∀ p, meshSupport large ⟨k, k, k⟩ vs d = some p → IsSupport (Hull (vs.map (scaleBy ⟨k, k, k⟩))) d p) ∧
      (Hull vs 0 → (meshSupport large ⟨k, k, k⟩ vs d).isSome) := by
  unfold meshSupport
  cases hv : vs with
  | nil => exact absurd hv hne
  | cons v0 vs0 =>
    rw [hv] at hne
    dsimp only
    rw [← hv]
    obtain ⟨h1, h2, h3, h4⟩ := meshLoop_spec d vs vs v0 (-large) (fun _ h => h) (by rw [hv]; exact List.mem_cons_self ..)
    generalize meshLoop d vs v0 (-large) = r at *
    constructor
    · intro p hp
      split_ifs at hp with h0
      simp only [Option.some.injEq] at hp
      subst hp
      have hr : r.2 = d.dot r.1 := by
        rcases h4 with e | e
        · rw [e] at h0; simp only at h0; linarith
        · exact e
      have sc : ∀ v : V3 K, scaleBy v ⟨k, k, k⟩ = scaleBy ⟨k, k, k⟩ v := by
        intro v; unfold scaleBy; ext <;> simp only <;> ring
      refine ⟨.vertex (List.mem_map.2 ⟨r.1, h1, (sc _).symm⟩), fun x hx => hull_le (fun w hw => ?_) hx⟩
      obtain ⟨v, hv', rfl⟩ := List.mem_map.1 hw
      have := h3 v hv'
      rw [hr] at this
      have e : ∀ v : V3 K, d.dot (scaleBy ⟨k, k, k⟩ v) = k * d.dot v := by
        intro v; simp only [V3.dot, scaleBy]; ring
      rw [sc, e, e]
      exact mul_le_mul_of_nonneg_left this hk.le
    · intro h0
      have : d.dot 0 ≤ r.2 := hull_le h3 h0
      have hz : d.dot (0 : V3 K) = 0 := by simp [V3.dot]
      rw [hz] at this
      rw [if_pos this]
      rfl

/-- The octahedron. -/
def octahedron : List (V3 ℚ) := [⟨1, 0, 0⟩, ⟨-1, 0, 0⟩, ⟨0, 1, 0⟩, ⟨0, -1, 0⟩, ⟨0, 0, 1⟩, ⟨0, 0, -1⟩]

/-- Stretched ten times in the direction `y`, the octahedron has its farthest point in the direction (2, 1, 0) at (0, 10, 0);
the code returns (1, 0, 0). -/
theorem mesh_support_scaled_wrong :
    meshSupport 1000000 ⟨1, 10, 1⟩ octahedron ⟨2, 1, 0⟩ = some ⟨1, 0, 0⟩ ∧
      ¬ IsSupport (Hull (octahedron.map (scaleBy ⟨1, 10, 1⟩))) ⟨2, 1, 0⟩ ⟨1, 0, 0⟩ := by
  refine ⟨by decide +kernel, fun h => ?_⟩
  have := h.2 ⟨0, 10, 0⟩ (.vertex (List.mem_map.2 ⟨⟨0, 1, 0⟩, by decide +kernel, by decide +kernel⟩))
  exact absurd this (by decide +kernel)

/-- The assertion fails for a tetrahedron that does not contain the origin of its coordinates. -/
theorem mesh_support_undefined :
    meshSupport 1000000 ⟨1, 1, 1⟩ [⟨1, 0, 0⟩, ⟨2, 0, 0⟩, ⟨1, 1, 0⟩, ⟨1, 0, 1⟩] (⟨-1, 0, 0⟩ : V3 ℚ) = none := by decide +kernel

/-- Support points of the other convex shapes: farthest points of the solids. -/
theorem support_points {sqrt : K → K} (hq : IsSqrt sqrt) {eps radius hh : K} {h d : V3 K} (a b c : V3 K) (he : 0 < eps)
    (hr : 0 < radius) (hp : 0 < hh) (hx : 0 ≤ h.x) (hy : 0 ≤ h.y) (hz : 0 ≤ h.z) :
    IsSupport (Box h) d (withMargin eps sqrt 0 (boxSupport h) d) ∧
      IsSupport (Hull [a, b, c]) d (withMargin eps sqrt 0 (triangleSupport a b c) d) ∧
      (eps * eps < d.lengthSq → IsSupport (Ball 0 radius) d (withMargin eps sqrt radius (fun _ => 0) d) ∧
        IsSupport (Capsule radius hh) d (withMargin eps sqrt radius (capsuleSupport hh) d)) := by
  refine ⟨?_, ?_, fun hd => ⟨sphere_support hq he hr hd, capsule_support hq he hr hp hd⟩⟩
  · unfold withMargin; simpa using box_support hx hy hz d
  · unfold withMargin; simpa using triangle_support a b c d

/-- The octahedron contains its origin: hypotheses of `mesh_support_partial`. -/
example : (meshSupport 1000000 ⟨3, 3, 3⟩ octahedron ⟨2, 1, 0⟩).isSome := by
  refine (mesh_support_partial (by decide +kernel) (by decide +kernel) (by decide) _).2 ?_
  have : (0 : V3 ℚ) = V3.smul (1 - 1/2) ⟨1, 0, 0⟩ + V3.smul (1/2) ⟨-1, 0, 0⟩ := by ext <;> decide +kernel
  rw [this]
  exact .mix (.vertex (by decide +kernel)) (.vertex (by decide +kernel)) (by decide +kernel) (by decide +kernel)

end PointProps
end RP3D
