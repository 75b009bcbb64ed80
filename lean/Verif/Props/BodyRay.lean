import Verif.Props.Points
import Verif.Props.RayTriangle

/-! C49: ray casts against a body. -/

namespace RP3D
namespace BodyRay
open Ray RayProps PointProps

variable {K : Type} [Field K] [LinearOrder K] [IsStrictOrderedRing K]

/-- The ray in the coordinates of a collider (Collider.cpp:179). -/
def localRay (t : Trans K) (r : Ray K) : Ray K := ⟨t.inverse.act r.p1, t.inverse.act r.p2, r.maxF⟩

/-- Specification of a shape with the solid `S` for one ray and all its ranges up to `M`: what the theorems about the shapes
prove (`sphere_raycast`, `box_raycast`, `capsule_raycast`, `mesh_raycast_partial`). -/
def Exact (S : V3 K → Prop) (shape : Ray K → Option (Hit K)) (r : Ray K) (M : K) : Prop :=
  ∀ m, 0 ≤ m → m ≤ M → (∀ h, shape { r with maxF := m } = some h → IsFirst S r h.fraction ∧ h.fraction ≤ m ∧
      h.point = r.at h.fraction ∧ Outward S r h.fraction h.normal) ∧
    (shape { r with maxF := m } = none → ¬ S r.p1 → ∀ s, 0 ≤ s → s < m → ¬ S (r.at s))

theorem rot_neg (q : Quat K) (v : V3 K) : q.rot (-v) = -(q.rot v) := by
  unfold Quat.rot; ext <;> simp <;> ring

/-- Rigid motions preserve fractions. -/
theorem local_at {t : Trans K} (h : t.ori.lengthSq = 1) (r : Ray K) (s : K) : t.act ((localRay t r).at s) = r.at s := by
  have e : (localRay t r).at s = t.inverse.act (r.at s) := by
    have l : ∀ (a b : V3 K), t.inverse.act (a + V3.smul s (b - a)) =
        t.inverse.act a + V3.smul s (t.inverse.act b - t.inverse.act a) := by
      intro a b
      unfold Trans.act
      rw [rot_linear]
      have : t.inverse.ori.rot (b - a) = t.inverse.ori.rot b - t.inverse.ori.rot a := by
        have e1 : b - a = b + V3.smul (-1) a := by ext <;> simp <;> ring
        rw [e1, rot_linear]; ext <;> simp <;> ring
      rw [this]
      ext <;> simp <;> ring
    unfold Ray.at Ray.dir localRay
    exact (l r.p1 r.p2).symm
  rw [e, trans_act_inverse h]

theorem local_dir {t : Trans K} (h : t.ori.lengthSq = 1) (r : Ray K) : t.ori.rot (localRay t r).dir = r.dir := by
  have h0 := local_at h r 0
  have h1 := local_at h r 1
  have e : ∀ q : Ray K, q.dir = q.at 1 - q.at 0 := by
    intro q; unfold Ray.at; ext <;> simp
  have f : ∀ a b : V3 K, t.ori.rot (a - b) = t.act a - t.act b := by
    intro a b
    have e1 : a - b = a + V3.smul (-1) b := by ext <;> simp <;> ring
    rw [e1, rot_linear]
    unfold Trans.act; ext <;> simp <;> ring
  rw [e, f, h0, h1, ← e]

theorem placed_at {t : Trans K} (h : t.ori.lengthSq = 1) (S : V3 K → Prop) (r : Ray K) (s : K) :
    Placed t S (r.at s) ↔ S ((localRay t r).at s) := by
  constructor
  · rintro ⟨y, hy, e⟩
    rw [← local_at h] at e
    have := congrArg t.inverse.act e
    rw [trans_inverse_act h, trans_inverse_act h] at this
    rwa [this]
  · intro hS
    exact ⟨_, hS, (local_at h r s).symm⟩

theorem placed_p1 {t : Trans K} (h : t.ori.lengthSq = 1) (S : V3 K → Prop) (r : Ray K) :
    Placed t S r.p1 ↔ S (localRay t r).p1 := by
  have := placed_at h S r 0
  rwa [at_zero, at_zero] at this

theorem placed_first {t : Trans K} (h : t.ori.lengthSq = 1) (S : V3 K → Prop) (r : Ray K) (f : K) :
    IsFirst (Placed t S) r f ↔ IsFirst S (localRay t r) f := by
  unfold IsFirst
  rw [placed_at h]
  simp only [placed_at h]

/-- A collider with the solid of its shape. -/
structure Part (K : Type) where
  c : Collider K
  S : V3 K → Prop

/-- Specification: the points of the world covered by a collider. -/
def Part.solid (p : Part K) : V3 K → Prop := Placed p.c.toWorld p.S

/-- The hypotheses on a collider for a ray: its pose is rigid and the ray cast of its shape is exact. -/
structure Part.Ok (p : Part K) (r : Ray K) : Prop where
  rigid : p.c.toWorld.ori.lengthSq = 1
  exact : Exact p.S p.c.shape (localRay p.c.toWorld r) r.maxF

theorem ok_range {p : Part K} {r : Ray K} {m : K} (h : p.Ok r) (hm : m ≤ r.maxF) : p.Ok { r with maxF := m } :=
  ⟨h.rigid, fun m' h0 h1 => h.exact m' h0 (le_trans h1 hm)⟩

/-- One collider. -/
theorem collider_hit {p : Part K} {r : Ray K} (hp : p.Ok r) (hm : 0 ≤ r.maxF) (eps : K) (len : V3 K → K) (info : Info K) :
    ((p.c.raycast eps len r info).1 = true →
      IsFirst p.solid r (p.c.raycast eps len r info).2.fraction ∧ (p.c.raycast eps len r info).2.fraction ≤ r.maxF ∧
      (p.c.raycast eps len r info).2.collider = p.c.id) ∧
    ((p.c.raycast eps len r info).1 = false →
      (p.c.raycast eps len r info).2.fraction = info.fraction ∧ (p.c.raycast eps len r info).2.collider = info.collider ∧
      (¬ p.solid r.p1 → ∀ s, 0 ≤ s → s < r.maxF → ¬ p.solid (r.at s))) := by
  obtain ⟨e1, e2⟩ := hp.exact r.maxF hm (le_refl _)
  unfold Collider.raycast
  dsimp only
  have el : ({ localRay p.c.toWorld r with maxF := r.maxF } : Ray K) =
    ⟨p.c.toWorld.inverse.act r.p1, p.c.toWorld.inverse.act r.p2, r.maxF⟩ := rfl
  rw [el] at e1 e2
  cases hs : p.c.shape ⟨p.c.toWorld.inverse.act r.p1, p.c.toWorld.inverse.act r.p2, r.maxF⟩ with
  | none =>
    refine ⟨by simp, fun _ => ⟨rfl, rfl, fun ho s s0 s1 hp' => ?_⟩⟩
    unfold Part.solid at ho hp'
    rw [placed_p1 hp.rigid] at ho
    rw [placed_at hp.rigid] at hp'
    exact e2 hs ho s s0 s1 hp'
  | some h =>
    refine ⟨fun _ => ?_, by simp⟩
    obtain ⟨a1, a2, _, _⟩ := e1 h hs
    exact ⟨(placed_first hp.rigid _ _ _).2 a1, a2, rfl⟩

theorem loop_spec (eps : K) (len : V3 K → K) : ∀ (ps : List (Part K)) (r : Ray K) (isHit : Bool) (info : Info K),
    (∀ p ∈ ps, p.Ok r) → 0 ≤ r.maxF →
    ((bodyLoop eps len (ps.map (·.c)) r isHit info).1 = isHit ∧
      (bodyLoop eps len (ps.map (·.c)) r isHit info).2.fraction = info.fraction ∧
      (bodyLoop eps len (ps.map (·.c)) r isHit info).2.collider = info.collider ∧
      ∀ p ∈ ps, ¬ p.solid r.p1 → ∀ s, 0 ≤ s → s < r.maxF → ¬ p.solid (r.at s)) ∨
    ((bodyLoop eps len (ps.map (·.c)) r isHit info).1 = true ∧
      ∃ p ∈ ps, (bodyLoop eps len (ps.map (·.c)) r isHit info).2.collider = p.c.id ∧
        IsFirst p.solid r (bodyLoop eps len (ps.map (·.c)) r isHit info).2.fraction ∧
        (bodyLoop eps len (ps.map (·.c)) r isHit info).2.fraction ≤ r.maxF ∧
        ∀ p ∈ ps, ¬ p.solid r.p1 → ∀ s, 0 ≤ s → s < (bodyLoop eps len (ps.map (·.c)) r isHit info).2.fraction →
          ¬ p.solid (r.at s)) := by
  intro ps
  induction ps with
  | nil =>
    intro r isHit info _ _
    exact Or.inl ⟨rfl, rfl, rfl, by simp⟩
  | cons p ps ih =>
    intro r isHit info hok hm
    obtain ⟨c1, c2⟩ := collider_hit (hok p (List.mem_cons_self ..)) hm eps len info
    rw [List.map_cons]
    unfold bodyLoop
    have hok' : ∀ q ∈ ps, q.Ok r := fun q hq => hok q (List.mem_cons_of_mem _ hq)
    cases hr : p.c.raycast eps len r info with
    | mk b i =>
      rw [hr] at c1 c2
      dsimp only
      cases b with
      | true =>
        obtain ⟨f1, f2, f3⟩ := c1 rfl
        simp only [if_true]
        have f1' : IsFirst p.solid r i.fraction := f1
        rcases ih { r with maxF := i.fraction } true i (fun q hq => ok_range (hok' q hq) f2) f1.1 with
          ⟨g1, g2, g3, g4⟩ | ⟨g1, q, hq, g2, g3, g4, g5⟩
        · refine Or.inr ⟨g1, p, List.mem_cons_self .., by rw [g3]; exact f3, by rw [g2]; exact f1', by rw [g2]; exact f2, ?_⟩
          rw [g2]
          intro q hq ho s s0 s1
          rcases List.mem_cons.1 hq with rfl | hq
          · exact f1.2.2 s s0 s1
          · exact g4 q hq ho s s0 s1
        · refine Or.inr ⟨g1, q, List.mem_cons_of_mem _ hq, g2, g3, le_trans g4 f2, ?_⟩
          intro q' hq' ho s s0 s1
          rcases List.mem_cons.1 hq' with rfl | hq'
          · exact f1.2.2 s s0 (lt_of_lt_of_le s1 g4)
          · exact g5 q' hq' ho s s0 s1
      | false =>
        obtain ⟨f1, f2, f3⟩ := c2 rfl
        simp only [Bool.false_eq_true, if_false]
        rcases ih r isHit i hok' hm with ⟨g1, g2, g3, g4⟩ | ⟨g1, q, hq, g2, g3, g4, g5⟩
        · refine Or.inl ⟨g1, by rw [g2]; exact f1, by rw [g3]; exact f2, ?_⟩
          intro q hq
          rcases List.mem_cons.1 hq with rfl | hq
          · exact f3
          · exact g4 q hq
        · refine Or.inr ⟨g1, q, List.mem_cons_of_mem _ hq, g2, g3, g4, ?_⟩
          intro q' hq' ho s s0 s1
          rcases List.mem_cons.1 hq' with rfl | hq'
          · exact f3 ho s s0 (lt_of_lt_of_le s1 g4)
          · exact g5 q' hq' ho s s0 s1

/-- `Body::raycast` reports whether a ray hits the body, and the collider and the fraction of the closest hit. (The point and
the normal: `body_raycast_point_partial`, `body_raycast_point_wrong`.) -/
theorem body_raycast_closest (eps : K) (len : V3 K → K) (ps : List (Part K)) (r : Ray K) (info : Info K)
    (hok : ∀ p ∈ ps, p.Ok r) (hm : 0 ≤ r.maxF) :
    (bodyRaycast eps len false (ps.map (·.c)) r info).1 = false ∧
    ((bodyRaycast eps len true (ps.map (·.c)) r info).1 = true →
      ∃ p ∈ ps, (bodyRaycast eps len true (ps.map (·.c)) r info).2.collider = p.c.id ∧
        IsFirst p.solid r (bodyRaycast eps len true (ps.map (·.c)) r info).2.fraction ∧
        (bodyRaycast eps len true (ps.map (·.c)) r info).2.fraction ≤ r.maxF ∧
        ∀ p ∈ ps, ¬ p.solid r.p1 → ∀ s, 0 ≤ s → s < (bodyRaycast eps len true (ps.map (·.c)) r info).2.fraction →
          ¬ p.solid (r.at s)) ∧
    ((bodyRaycast eps len true (ps.map (·.c)) r info).1 = false →
      ∀ p ∈ ps, ¬ p.solid r.p1 → ∀ s, 0 ≤ s → s < r.maxF → ¬ p.solid (r.at s)) := by
  unfold bodyRaycast
  simp only [Bool.false_eq_true, if_false, if_true, true_and]
  rcases loop_spec eps len ps r false info hok hm with ⟨g1, g2, g3, g4⟩ | ⟨g1, g2⟩
  · rw [g1]
    exact ⟨by simp, fun _ => g4⟩
  · rw [g1]
    exact ⟨fun _ => g2, by simp⟩

/-- The point and the normal after a hit of one collider. -/
theorem collider_point {p : Part K} {r : Ray K} (hp : p.Ok r) (hm : 0 ≤ r.maxF) {eps : K} (he : 0 < eps) (len : V3 K → K)
    (info : Info K) (h : (p.c.raycast eps len r info).1 = true) :
    (p.c.raycast eps len r info).2.point = r.at (p.c.raycast eps len r info).2.fraction ∧
      Outward p.solid r (p.c.raycast eps len r info).2.fraction (p.c.raycast eps len r info).2.normal := by
  obtain ⟨e1, _⟩ := hp.exact r.maxF hm (le_refl _)
  have el : ({ localRay p.c.toWorld r with maxF := r.maxF } : Ray K) =
    ⟨p.c.toWorld.inverse.act r.p1, p.c.toWorld.inverse.act r.p2, r.maxF⟩ := rfl
  rw [el] at e1
  unfold Collider.raycast at h ⊢
  dsimp only at h ⊢
  cases hs : p.c.shape ⟨p.c.toWorld.inverse.act r.p1, p.c.toWorld.inverse.act r.p2, r.maxF⟩ with
  | none => rw [hs] at h; simp at h
  | some hit =>
    obtain ⟨_, _, a3, n0, n1, n2⟩ := e1 hit hs
    dsimp only
    have hat : p.c.toWorld.act hit.point = r.at hit.fraction := by rw [a3]; exact local_at hp.rigid r _
    refine ⟨hat, ?_⟩
    -- the normal is a positive multiple of the turned normal
    have hk : ∃ k : K, 0 < k ∧ normalize eps len (p.c.toWorld.ori.rot hit.normal) = V3.smul k (p.c.toWorld.ori.rot hit.normal) := by
      unfold normalize
      dsimp only
      split_ifs with hl
      · exact ⟨1, zero_lt_one, by ext <;> simp⟩
      · refine ⟨1 / len (p.c.toWorld.ori.rot hit.normal), one_div_pos.2 (lt_of_lt_of_le he (not_lt.1 hl)), ?_⟩
        ext <;> simp only [V3.smul_x, V3.smul_y, V3.smul_z] <;> rw [one_div_mul_eq_div]
    obtain ⟨k, k0, ek⟩ := hk
    rw [ek]
    have dk : ∀ u v : V3 K, (V3.smul k u).dot v = k * u.dot v := by
      intro u v; simp only [V3.dot, V3.smul_x, V3.smul_y, V3.smul_z]; ring
    refine ⟨?_, ?_, ?_⟩
    · intro hz
      apply n0
      have hr : p.c.toWorld.ori.rot hit.normal = 0 := by
        have hx := congrArg V3.x hz
        have hy := congrArg V3.y hz
        have hzz := congrArg V3.z hz
        simp only [V3.smul_x, V3.smul_y, V3.smul_z] at hx hy hzz
        ext
        · exact (mul_eq_zero.1 hx).resolve_left k0.ne'
        · exact (mul_eq_zero.1 hy).resolve_left k0.ne'
        · exact (mul_eq_zero.1 hzz).resolve_left k0.ne'
      have := rot_conj hp.rigid hit.normal
      rw [hr] at this
      rw [← this]
      unfold Quat.rot; ext <;> simp
    · rw [dk, ← local_dir hp.rigid r, rot_dot hp.rigid]
      exact mul_nonpos_of_nonneg_of_nonpos k0.le n1
    · rintro x ⟨y, hy, rfl⟩
      rw [dk, dk]
      refine mul_le_mul_of_nonneg_left ?_ k0.le
      rw [← local_at hp.rigid r hit.fraction]
      have dd : ∀ u v : V3 K, (p.c.toWorld.ori.rot u).dot (p.c.toWorld.act v) = u.dot v + (p.c.toWorld.ori.rot u).dot p.c.toWorld.pos := by
        intro u v
        have := rot_dot hp.rigid u v
        rw [← this]
        simp only [Trans.act, V3.dot, V3.add_x, V3.add_y, V3.add_z]
        ring
      rw [dd, dd]
      have := n2 y hy
      linarith

theorem loop_point {eps : K} (he : 0 < eps) (len : V3 K → K) (last : Part K) : ∀ (ps : List (Part K)) (r : Ray K)
    (isHit : Bool) (info : Info K), (∀ p ∈ ps, p.Ok r) → last.Ok r → 0 ≤ r.maxF → (∀ p ∈ ps, p.c.id ≠ last.c.id) →
    info.collider ≠ last.c.id →
    (bodyLoop eps len ((ps ++ [last]).map (·.c)) r isHit info).2.collider = last.c.id →
    (bodyLoop eps len ((ps ++ [last]).map (·.c)) r isHit info).2.point =
        r.at (bodyLoop eps len ((ps ++ [last]).map (·.c)) r isHit info).2.fraction ∧
      Outward last.solid r (bodyLoop eps len ((ps ++ [last]).map (·.c)) r isHit info).2.fraction
        (bodyLoop eps len ((ps ++ [last]).map (·.c)) r isHit info).2.normal := by
  intro ps
  induction ps with
  | nil =>
    intro r isHit info _ hl hm _ hi hc
    simp only [List.nil_append, List.map_cons, List.map_nil] at hc ⊢
    unfold bodyLoop at hc ⊢
    obtain ⟨_, c2⟩ := collider_hit hl hm eps len info
    have cp := collider_point hl hm he len info
    cases hr : last.c.raycast eps len r info with
    | mk b i =>
      rw [hr] at hc c2 cp
      cases b with
      | true =>
        simp only [if_true, bodyLoop] at hc ⊢
        exact cp rfl
      | false =>
        simp only [Bool.false_eq_true, if_false, bodyLoop] at hc
        exact absurd ((c2 rfl).2.1 ▸ hc) hi
  | cons q ps ih =>
    intro r isHit info hok hl hm hid hi hc
    rw [List.cons_append, List.map_cons] at hc ⊢
    unfold bodyLoop at hc ⊢
    obtain ⟨c1, c2⟩ := collider_hit (hok q (List.mem_cons_self ..)) hm eps len info
    have hok' : ∀ p ∈ ps, p.Ok r := fun p hp => hok p (List.mem_cons_of_mem _ hp)
    have hid' : ∀ p ∈ ps, p.c.id ≠ last.c.id := fun p hp => hid p (List.mem_cons_of_mem _ hp)
    cases hr : q.c.raycast eps len r info with
    | mk b i =>
      rw [hr] at hc c1 c2
      cases b with
      | true =>
        obtain ⟨f1, f2, f3⟩ := c1 rfl
        simp only [if_true] at hc ⊢
        exact ih { r with maxF := i.fraction } true i (fun p hp => ok_range (hok' p hp) f2) (ok_range hl f2) f1.1 hid'
          (by
            have f3' : i.collider = q.c.id := f3
            rw [f3']; exact hid q (List.mem_cons_self ..)) hc
      | false =>
        obtain ⟨_, f2, _⟩ := c2 rfl
        simp only [Bool.false_eq_true, if_false] at hc ⊢
        exact ih r isHit i hok' hl hm hid' (by
          have f2' : i.collider = info.collider := f2
          rw [f2']; exact hi) hc

/-- The point reported is the point of the ray at the fraction reported, and the normal is an outward normal there, if the
collider reported is the last one of the body; in particular for bodies with one collider. Missing: other bodies
(`body_raycast_point_wrong`). -/
theorem body_raycast_point_partial {eps : K} (he : 0 < eps) (len : V3 K → K) (ps : List (Part K)) (last : Part K) (r : Ray K)
    (info : Info K) (hok : ∀ p ∈ ps, p.Ok r) (hl : last.Ok r) (hm : 0 ≤ r.maxF) (hid : ∀ p ∈ ps, p.c.id ≠ last.c.id)
    (hi : info.collider ≠ last.c.id)
    (hc : (bodyRaycast eps len true ((ps ++ [last]).map (·.c)) r info).2.collider = last.c.id) :
    (bodyRaycast eps len true ((ps ++ [last]).map (·.c)) r info).2.point =
        r.at (bodyRaycast eps len true ((ps ++ [last]).map (·.c)) r info).2.fraction ∧
      Outward last.solid r (bodyRaycast eps len true ((ps ++ [last]).map (·.c)) r info).2.fraction
        (bodyRaycast eps len true ((ps ++ [last]).map (·.c)) r info).2.normal := by
  unfold bodyRaycast at hc ⊢
  simp only [if_true] at hc ⊢
  exact loop_point he len last ps r false info hok hl hm hid hi hc

/-- The square root of the one number it is asked for below. -/
def sqrt400 (x : ℚ) : ℚ := if x = 400 then 20 else 0

/-- Two spheres of radius 1, at the origin and at (0, 5, 0). -/
def twoSpheres : List (Collider ℚ) :=
  [⟨1, Trans.one, sphere (1/1000000) sqrt400 1⟩, ⟨2, ⟨⟨0, 5, 0⟩, Quat.one⟩, sphere (1/1000000) sqrt400 1⟩]

/-- The ray hits the first sphere at (-1, 0, 0) and misses the second one; the point reported is (-1, 5, 0). -/
theorem body_raycast_point_wrong :
    let r : Ray ℚ := ⟨⟨-10, 0, 0⟩, ⟨10, 0, 0⟩, 1⟩
    let res := bodyRaycast (1/1000000) axisLen true twoSpheres r ⟨0, 0, 0, 0⟩
    res.1 = true ∧ res.2.collider = 1 ∧ res.2.fraction = 9/20 ∧ res.2.point = ⟨-1, 5, 0⟩ ∧
      r.at res.2.fraction = ⟨-1, 0, 0⟩ := by
  refine ⟨by decide +kernel, by decide +kernel, by decide +kernel, by ext <;> decide +kernel, by ext <;> decide +kernel⟩

/-! The shapes meet the specification. -/

theorem sphere_exact {sqrt : K → K} (hq : IsSqrt sqrt) {eps radius : K} {r : Ray K} (he : 0 < eps) (hr : 0 < radius)
    (hd : eps ≤ r.dir.lengthSq) (M : K) : Exact (Ball 0 radius) (sphere eps sqrt radius) r M := by
  intro m _ _
  obtain ⟨h1, h2, _⟩ := sphere_raycast hq he hr (r := { r with maxF := m }) hd
  refine ⟨fun h hh => ?_, fun hn ho s s0 s1 hB => ?_⟩
  · obtain ⟨a1, a2, a3, _, a5⟩ := h1 h hh
    exact ⟨a1, a2.le, a3, a5⟩
  · have := (h2 ho).2 ⟨s, s0, s1, hB⟩
    rw [hn] at this
    cases this

theorem box_exact {eps large : K} {h : V3 K} {r : Ray K} (he : 0 < eps) (hl : 0 < large) {M : K} (hm : M ≤ large)
    (hx : 0 < h.x) (hy : 0 < h.y) (hz : 0 < h.z) (dx : ClearOf eps r.dir.x) (dy : ClearOf eps r.dir.y)
    (dz : ClearOf eps r.dir.z) : Exact (Box h) (box eps large h) r M := by
  intro m _ h1
  obtain ⟨a, b⟩ := box_raycast (r := { r with maxF := m }) he hl (le_trans h1 hm) hx hy hz dx dy dz
  refine ⟨a, fun hn ho s s0 s1 hB => ?_⟩
  rcases b hn with hb | hb
  · exact ho hb
  · exact hb s s0 s1.le hB

theorem capsule_exact {sqrt : K → K} (hq : IsSqrt sqrt) {eps epsA radius hh : K} {r : Ray K} (he : 0 < eps)
    (heA : 0 < epsA) (hr : 0 < radius) (hp : 0 < hh) (hd : eps ≤ r.dir.lengthSq) {M : K} (hm : M ≤ 1)
    (hcl : ClearOf epsA (4 * hh * hh * (r.dir.x * r.dir.x + r.dir.z * r.dir.z))) :
    Exact (Capsule radius hh) (capsule eps epsA sqrt radius hh) r M := by
  intro m _ h1
  exact capsule_raycast (r := { r with maxF := m }) hq he heA hr hp hd (le_trans h1 hm) hcl

theorem mesh_exact {len : V3 K → K} (hl : IsLen len) {faces : List (V3 K × V3 K)} (hn : ∀ f ∈ faces, f.1 ≠ 0) {r : Ray K} (M : K) :
    Exact (Poly faces) (convexMesh len ⟨1, 1, 1⟩ faces) r M := by
  intro m h0 _
  obtain ⟨a, b, _⟩ := mesh_raycast_partial hl hn (r := { r with maxF := m }) h0
  refine ⟨a, fun hnn ho s s0 s1 hB => ?_⟩
  rcases b hnn with hb | hb
  · exact ho hb
  · exact hb s s0 s1.le hB

end BodyRay
end RP3D
