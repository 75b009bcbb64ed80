import Verif.Props.Gjk
import Verif.Narrow.Smooth

/-! C128: contacts with the triangles of a mesh follow the surface of the mesh. -/

set_option linter.unusedSectionVars false

namespace RP3D
namespace SmoothProps
open Ray Shape RayProps PointProps RoundProps Geom GeomProps Round Gjk GjkProps Smooth

variable {K : Type} [Field K] [LinearOrder K] [IsStrictOrderedRing K]

/-! ### Specification -/

/-- The point of the plane of a triangle with the given coordinates. -/
def mix (u v w : K) (a : Fin 3 → V3 K) : V3 K := V3.smul u (a 0) + V3.smul v (a 1) + V3.smul w (a 2)

/-- A unit vector orthogonal to a triangle. -/
def FaceNormal (a : Fin 3 → V3 K) (n : V3 K) : Prop := n.lengthSq = 1 ∧ n.dot (a 1 - a 0) = 0 ∧ n.dot (a 2 - a 0) = 0

/-- The normal of the surface at the point with coordinates `u`, `v`, `w`: that of the triangle for a point inside, the interpolated one, made a unit
vector, for a point of an edge, unless the interpolated one nearly vanishes. `eps` is the tolerance. -/
def Surface (eps : K) (T : TriShape K) (u v w : K) (n : V3 K) : Prop :=
  n.lengthSq = 1 ∧
  ((eps < u ∧ eps < v ∧ eps < w) → FaceNormal T.pts n) ∧
  (¬(eps < u ∧ eps < v ∧ eps < w) → eps ≤ (mix u v w T.nor).lengthSq → ∃ k, 0 < k ∧ n = V3.smul k (mix u v w T.nor)) ∧
  (¬(eps < u ∧ eps < v ∧ eps < w) → (mix u v w T.nor).lengthSq < eps → FaceNormal T.pts n)

/-- `n` or the opposite vector. -/
def PlusMinus (n m : V3 K) : Prop := m = n ∨ m = -n

/-! ### Lemmas -/

theorem unit_spec {eps : K} {sqrt : K → K} (hs : IsSqrt sqrt) (he : 0 < eps) {v : V3 K} (hv : eps ≤ sqrt v.lengthSq) :
    ∃ k, 0 < k ∧ unit eps sqrt v = V3.smul k v ∧ (unit eps sqrt v).lengthSq = 1 := by
  have hp : 0 < sqrt v.lengthSq := he.trans_le hv
  have h0 : 0 ≤ v.lengthSq := by simp only [V3.lengthSq]; nlinarith [mul_self_nonneg v.x, mul_self_nonneg v.y, mul_self_nonneg v.z]
  have h1 := (hs _ h0).2
  generalize hl : sqrt v.lengthSq = l at *
  refine ⟨1 / l, by positivity, ?_, ?_⟩
  · simp only [unit, hl, not_lt.2 hv, if_false]
    ext <;> simp [mul_comm]
  · simp only [unit, hl, not_lt.2 hv, if_false]
    have : (v.x * (1 / l)) * (v.x * (1 / l)) + (v.y * (1 / l)) * (v.y * (1 / l)) + (v.z * (1 / l)) * (v.z * (1 / l)) = v.lengthSq / (l * l) := by
      simp only [V3.lengthSq]; field_simp
    simp only [V3.lengthSq]
    rw [this, h1, div_self]
    rw [← h1]; exact (mul_pos hp hp).ne'

theorem make_spec {eps : K} {sqrt : K → K} (hs : IsSqrt sqrt) (he : 0 < eps) {p n : Fin 3 → V3 K} {T : TriShape K}
    (h : TriShape.make eps sqrt p n = some T) :
    T.pts = p ∧ T.nor = n ∧ FaceNormal p T.normal ∧ ((p 1 - p 0).cross (p 2 - p 0)).lengthSq ≠ 0 ∧
      ∃ k, 0 < k ∧ T.normal = V3.smul k ((p 1 - p 0).cross (p 2 - p 0)) := by
  unfold TriShape.make at h
  dsimp only at h
  split_ifs at h with hl
  cases h
  obtain ⟨k, k0, k1, k2⟩ := unit_spec hs he hl.le
  refine ⟨rfl, rfl, ⟨k2, ?_, ?_⟩, ?_, k, k0, k1⟩
  · dsimp only; rw [k1]; simp only [V3.dot, V3.smul_x, V3.smul_y, V3.smul_z, V3.cross, V3.sub_x, V3.sub_y, V3.sub_z]; ring
  · dsimp only; rw [k1]; simp only [V3.dot, V3.smul_x, V3.smul_y, V3.smul_z, V3.cross, V3.sub_x, V3.sub_y, V3.sub_z]; ring
  · intro e
    rw [e] at hl
    have := hs 0 le_rfl
    have : sqrt 0 = 0 := mul_self_eq_zero.1 this.2
    rw [this] at hl
    exact absurd hl (not_lt.2 he.le)

theorem sqrt_ge {eps : K} {sqrt : K → K} (hs : IsSqrt sqrt) (he : 0 < eps) (he1 : eps ≤ 1) {x : K} (hx : eps ≤ x) : eps ≤ sqrt x := by
  obtain ⟨h0, h1⟩ := hs x (he.le.trans hx)
  by_contra h
  rw [not_le] at h
  nlinarith

/-- The normal of the surface at a point of the plane of the triangle. -/
theorem localNormal_spec {eps : K} {sqrt : K → K} (hs : IsSqrt sqrt) (he : 0 < eps) (he1 : eps ≤ 1) {p n : Fin 3 → V3 K} {T : TriShape K}
    (h : TriShape.make eps sqrt p n = some T) {u v w : K} (huvw : u + v + w = 1) :
    ∃ m, T.localNormal eps sqrt (mix u v w p) = some m ∧ Surface eps T u v w m := by
  obtain ⟨rfl, rfl, hf, hnd, -⟩ := make_spec hs he h
  have hpos : 0 < sqrt T.normal.lengthSq := by rw [hf.1]; exact (sqrt_pos hs one_pos).1
  unfold TriShape.localNormal
  rw [if_pos hpos, mix, barycentric_unique _ _ _ hnd u v w huvw]
  dsimp only
  by_cases hin : eps < u ∧ eps < v ∧ eps < w
  · rw [if_pos hin]
    exact ⟨_, rfl, hf.1, fun _ => hf, fun h => absurd hin h, fun h => absurd hin h⟩
  · rw [if_neg hin]
    by_cases hm : (mix u v w T.nor).lengthSq < eps
    · rw [if_pos (by exact hm)]
      exact ⟨_, rfl, hf.1, fun h => absurd h hin, fun _ h => absurd hm (not_lt.2 h), fun _ _ => hf⟩
    · rw [if_neg (by exact hm)]
      rw [not_lt] at hm
      obtain ⟨k, k0, k1, k2⟩ := unit_spec hs he (sqrt_ge hs he he1 hm)
      exact ⟨_, rfl, k2, fun h => absurd h hin, fun _ _ => ⟨k, k0, k1⟩, fun _ h => absurd hm (not_le.2 h)⟩

/-- Outside of the plane of the triangle, too, the normal exists and is a unit vector. -/
theorem localNormal_unit {eps : K} {sqrt : K → K} (hs : IsSqrt sqrt) (he : 0 < eps) (he1 : eps ≤ 1) {p n : Fin 3 → V3 K} {T : TriShape K}
    (h : TriShape.make eps sqrt p n = some T) (x : V3 K) : ∃ m, T.localNormal eps sqrt x = some m ∧ m.lengthSq = 1 := by
  obtain ⟨rfl, rfl, hf, hnd, -⟩ := make_spec hs he h
  obtain ⟨u, v, w, hb, hsum, -, -⟩ := barycentric_projection (T.pts 0) (T.pts 1) (T.pts 2) x hnd
  have e : T.localNormal eps sqrt x = T.localNormal eps sqrt (mix u v w T.pts) := by
    unfold TriShape.localNormal
    rw [mix, barycentric_unique _ _ _ hnd u v w hsum, hb]
  obtain ⟨m, hm, hsf⟩ := localNormal_spec hs he he1 h hsum
  exact ⟨m, e.trans hm, hsf.1⟩

theorem neg_lengthSq (v : V3 K) : (-v).lengthSq = v.lengthSq := by simp [V3.lengthSq]
theorem rot_neg' (q : Quat K) (v : V3 K) : q.rot (-v) = -(q.rot v) := by
  ext <;> simp only [Quat.rot, V3.neg_x, V3.neg_y, V3.neg_z] <;> ring
theorem act_sub_smul (t : Trans K) (p n : V3 K) (d : K) : t.act (p - V3.smul d n) = t.act p - V3.smul d (t.ori.rot n) := by
  simp only [Trans.act]
  ext <;> simp only [Quat.rot, V3.add_x, V3.add_y, V3.add_z, V3.sub_x, V3.sub_y, V3.sub_z, V3.smul_x, V3.smul_y, V3.smul_z] <;> ring
theorem dot_neg' (a b : V3 K) : a.dot (-b) = -(a.dot b) := by simp only [V3.dot, V3.neg_x, V3.neg_y, V3.neg_z]; ring
theorem neg_dot' (a b : V3 K) : (-a).dot b = -(a.dot b) := by simp only [V3.dot, V3.neg_x, V3.neg_y, V3.neg_z]; ring
theorem dot_comm' (a b : V3 K) : a.dot b = b.dot a := by simp only [V3.dot]; ring

/-- What the smoothing makes of a local normal. -/
theorem smooth_spec {eps : K} {sqrt : K → K} {T : TriShape K} {p : V3 K} {t o : Trans K} (ht : t.ori.lengthSq = 1) (ho : o.ori.lengthSq = 1) {depth : K}
    {normal m : V3 K} (first : Bool) (hm : T.localNormal eps sqrt p = some m) (hm1 : m.lengthSq = 1) :
    ∃ q n, T.smooth eps sqrt p t o.inverse depth first normal = some (q, n) ∧ n.lengthSq = 1 ∧ 0 ≤ normal.dot n ∧ PlusMinus (t.ori.rot m) n ∧
      (if first then t.act p = o.act q + V3.smul depth n else o.act q = t.act p + V3.smul depth n) := by
  unfold TriShape.smooth
  rw [hm]
  dsimp only
  refine ⟨_, _, rfl, ?_, ?_, ?_, ?_⟩
  · split_ifs <;> simp only [neg_lengthSq, rot_len ht, hm1]
  · cases first
    · simp only [Bool.false_eq_true, if_false]
      split_ifs with hd
      · rw [dot_neg', dot_neg', neg_neg, dot_comm']; rw [dot_neg'] at hd; linarith
      · rw [dot_neg', dot_comm']; rw [dot_neg', not_lt] at hd; exact hd
    · simp only [if_true]
      split_ifs with hd
      · rw [dot_neg', dot_comm']; linarith
      · rw [dot_comm']; exact not_lt.1 hd
  · unfold PlusMinus
    split_ifs
    · exact Or.inr rfl
    · exact Or.inl rfl
    · exact Or.inl (by ext <;> simp)
    · exact Or.inr rfl
  · have key : ∀ x, o.act ((o.inverse.mul t).act x) = t.act x := fun x => by rw [trans_mul_act, trans_act_inverse ho]
    cases first
    · simp only [Bool.false_eq_true, if_false]
      rw [key, act_sub_smul]
      split_ifs
      · rw [rot_neg']; ext <;> simp
      · ext <;> simp; ring_nf; ring_nf; ring_nf
    · simp only [if_true]
      rw [key, act_sub_smul]
      split_ifs
      · rw [rot_neg']; ext <;> simp
      · ext <;> simp

/-! ### C128 -/

/-- **C128.** A contact of a triangle with another shape is smoothed as follows: point on the triangle and depth stay, the new normal is a unit vector
on the same side as the old one, and along it the contact points are apart by the depth. If the contact point is in the plane of the triangle the
normal is that of the surface there. -/
theorem smooth_first {eps : K} {sqrt : K → K} (hs : IsSqrt sqrt) (he : 0 < eps) (he1 : eps ≤ 1) {p n : Fin 3 → V3 K} {T : TriShape K}
    (h : TriShape.make eps sqrt p n = some T) {t1 t2 : Trans K} (h1 : t1.ori.lengthSq = 1) (h2 : t2.ori.lengthSq = 1) (c : Contact K) :
    ∃ c', smooth eps sqrt (some T) none t1 t2 c = some c' ∧ c'.depth = c.depth ∧ c'.p1 = c.p1 ∧ c'.normal.lengthSq = 1 ∧
      0 ≤ c.normal.dot c'.normal ∧ t1.act c'.p1 = t2.act c'.p2 + V3.smul c'.depth c'.normal ∧
      ∀ u v w, u + v + w = 1 → c.p1 = mix u v w p → ∃ m, Surface eps T u v w m ∧ PlusMinus (t1.ori.rot m) c'.normal := by
  obtain ⟨m, hm, hm1⟩ := localNormal_unit hs he he1 h c.p1
  obtain ⟨q, n', e, a1, a2, a3, a4⟩ := smooth_spec (o := t2) (depth := c.depth) (normal := c.normal) h1 h2 true hm hm1
  refine ⟨⟨n', c.depth, c.p1, q⟩, by simp only [smooth, e, Option.map_some], rfl, rfl, a1, a2, by simpa using a4, fun u v w hu hp => ?_⟩
  obtain ⟨m', hm', hsf⟩ := localNormal_spec hs he he1 h hu
  rw [← hp, hm] at hm'
  cases hm'
  exact ⟨m, hsf, a3⟩

/-- **C128**, for the triangle as the second shape. -/
theorem smooth_second {eps : K} {sqrt : K → K} (hs : IsSqrt sqrt) (he : 0 < eps) (he1 : eps ≤ 1) {p n : Fin 3 → V3 K} {T : TriShape K}
    (h : TriShape.make eps sqrt p n = some T) {t1 t2 : Trans K} (h1 : t1.ori.lengthSq = 1) (h2 : t2.ori.lengthSq = 1) (c : Contact K) :
    ∃ c', smooth eps sqrt none (some T) t1 t2 c = some c' ∧ c'.depth = c.depth ∧ c'.p2 = c.p2 ∧ c'.normal.lengthSq = 1 ∧
      0 ≤ c.normal.dot c'.normal ∧ t1.act c'.p1 = t2.act c'.p2 + V3.smul c'.depth c'.normal ∧
      ∀ u v w, u + v + w = 1 → c.p2 = mix u v w p → ∃ m, Surface eps T u v w m ∧ PlusMinus (t2.ori.rot m) c'.normal := by
  obtain ⟨m, hm, hm1⟩ := localNormal_unit hs he he1 h c.p2
  obtain ⟨q, n', e, a1, a2, a3, a4⟩ := smooth_spec (o := t1) (depth := c.depth) (normal := c.normal) h2 h1 false hm hm1
  refine ⟨⟨n', c.depth, q, c.p2⟩, by simp only [smooth, e, Option.map_some], rfl, rfl, a1, a2, by simpa using a4, fun u v w hu hp => ?_⟩
  obtain ⟨m', hm', hsf⟩ := localNormal_spec hs he he1 h hu
  rw [← hp, hm] at hm'
  cases hm'
  exact ⟨m, hsf, a3⟩

/-- Contacts of other shapes stay as they are. -/
theorem smooth_none (eps : K) (sqrt : K → K) (t1 t2 : Trans K) (c : Contact K) : smooth eps sqrt none none t1 t2 c = some c := rfl

/-- The local normal at a point of an edge depends on the ends of the edge only. -/
theorem localNormal_edge {eps : K} {sqrt : K → K} (hs : IsSqrt sqrt) (he : 0 < eps) {p n : Fin 3 → V3 K} {T : TriShape K}
    (h : TriShape.make eps sqrt p n = some T) {i j : Fin 3} (hij : i ≠ j) {x y : K} (hxy : x + y = 1)
    (hm : eps ≤ (V3.smul x (n i) + V3.smul y (n j)).lengthSq) :
    T.localNormal eps sqrt (V3.smul x (p i) + V3.smul y (p j)) = some (unit eps sqrt (V3.smul x (n i) + V3.smul y (n j))) := by
  obtain ⟨rfl, rfl, hf, hnd, -⟩ := make_spec hs he h
  have hpos : 0 < sqrt T.normal.lengthSq := by rw [hf.1]; exact (sqrt_pos hs one_pos).1
  have key : ∀ u v w : K, u + v + w = 1 → ¬(eps < u ∧ eps < v ∧ eps < w) →
      V3.smul x (T.pts i) + V3.smul y (T.pts j) = V3.smul u (T.pts 0) + V3.smul v (T.pts 1) + V3.smul w (T.pts 2) →
      V3.smul x (T.nor i) + V3.smul y (T.nor j) = V3.smul u (T.nor 0) + V3.smul v (T.nor 1) + V3.smul w (T.nor 2) →
      T.localNormal eps sqrt (V3.smul x (T.pts i) + V3.smul y (T.pts j)) = some (unit eps sqrt (V3.smul x (T.nor i) + V3.smul y (T.nor j))) := by
    intro u v w hu hin hp hn
    unfold TriShape.localNormal
    rw [if_pos hpos, hp, barycentric_unique _ _ _ hnd u v w hu]
    dsimp only
    rw [if_neg hin, ← hn, if_neg (not_lt.2 hm)]
  have n0 : ¬ eps < (0 : K) := not_lt.2 he.le
  fin_cases i <;> fin_cases j <;> first | exact absurd rfl hij | skip
  · exact key x y 0 (by linear_combination hxy) (fun h => n0 h.2.2) (by ext <;> simp) (by ext <;> simp)
  · exact key x 0 y (by linear_combination hxy) (fun h => n0 h.2.1) (by ext <;> simp) (by ext <;> simp)
  · exact key y x 0 (by linear_combination hxy) (fun h => n0 h.2.2) (by ext <;> simp <;> ring) (by ext <;> simp <;> ring)
  · exact key 0 x y (by linear_combination hxy) (fun h => n0 h.1) (by ext <;> simp) (by ext <;> simp)
  · exact key y 0 x (by linear_combination hxy) (fun h => n0 h.2.1) (by ext <;> simp <;> ring) (by ext <;> simp <;> ring)
  · exact key 0 y x (by linear_combination hxy) (fun h => n0 h.1) (by ext <;> simp <;> ring) (by ext <;> simp <;> ring)

/-- **C128 (no bumps at inner edges).** Two triangles that share an edge and the normals at its ends give the same contact at a point of the edge,
whatever their own normals are. -/
theorem edge_agrees {eps : K} {sqrt : K → K} (hs : IsSqrt sqrt) (he : 0 < eps) {p n p' n' : Fin 3 → V3 K} {T T' : TriShape K}
    (h : TriShape.make eps sqrt p n = some T) (h' : TriShape.make eps sqrt p' n' = some T') {i j i' j' : Fin 3} (hij : i ≠ j) (hij' : i' ≠ j')
    (ep : p i = p' i' ∧ p j = p' j') (en : n i = n' i' ∧ n j = n' j') {x y : K} (hxy : x + y = 1)
    (hm : eps ≤ (V3.smul x (n i) + V3.smul y (n j)).lengthSq) (t1 t2 : Trans K) (c : Contact K) :
    (c.p1 = V3.smul x (p i) + V3.smul y (p j) → smooth eps sqrt (some T) none t1 t2 c = smooth eps sqrt (some T') none t1 t2 c) ∧
    (c.p2 = V3.smul x (p i) + V3.smul y (p j) → smooth eps sqrt none (some T) t1 t2 c = smooth eps sqrt none (some T') t1 t2 c) := by
  have a := localNormal_edge hs he h hij hxy hm
  have b := localNormal_edge (x := x) (y := y) hs he h' hij' hxy (by rw [← en.1, ← en.2]; exact hm)
  rw [← ep.1, ← ep.2, ← en.1, ← en.2] at b
  constructor <;> intro e <;> simp only [smooth, TriShape.smooth, e, a, b]

/-- Two unit vectors orthogonal to the same triangle agree up to the sign. -/
theorem faceNormal_unique {p : Fin 3 → V3 K} (hnd : ((p 1 - p 0).cross (p 2 - p 0)).lengthSq ≠ 0) {a b : V3 K} (ha : FaceNormal p a)
    (hb : FaceNormal p b) : PlusMinus a b := by
  obtain ⟨a1, a2, a3⟩ := ha
  obtain ⟨b1, b2, b3⟩ := hb
  generalize p 1 - p 0 = d at *
  generalize p 2 - p 0 = e at *
  -- both are multiples of the cross product
  have mul : ∀ v : V3 K, v.dot d = 0 → v.dot e = 0 → V3.smul ((d.cross e).lengthSq) v = V3.smul (v.dot (d.cross e)) (d.cross e) := by
    intro v hd he
    simp only [V3.dot] at hd he
    ext <;> simp only [V3.smul_x, V3.smul_y, V3.smul_z, V3.lengthSq, V3.dot, V3.cross]
    · linear_combination (d.x * (e.x*e.x+e.y*e.y+e.z*e.z) - e.x * (d.x*e.x+d.y*e.y+d.z*e.z)) * hd + (e.x * (d.x*d.x+d.y*d.y+d.z*d.z) - d.x * (d.x*e.x+d.y*e.y+d.z*e.z)) * he
    · linear_combination (d.y * (e.x*e.x+e.y*e.y+e.z*e.z) - e.y * (d.x*e.x+d.y*e.y+d.z*e.z)) * hd + (e.y * (d.x*d.x+d.y*d.y+d.z*d.z) - d.y * (d.x*e.x+d.y*e.y+d.z*e.z)) * he
    · linear_combination (d.z * (e.x*e.x+e.y*e.y+e.z*e.z) - e.z * (d.x*e.x+d.y*e.y+d.z*e.z)) * hd + (e.z * (d.x*d.x+d.y*d.y+d.z*d.z) - d.z * (d.x*e.x+d.y*e.y+d.z*e.z)) * he
  have ma := mul a a2 a3
  have mb := mul b b2 b3
  generalize d.cross e = c at *
  have ax := congrArg V3.x ma; have ay := congrArg V3.y ma; have az := congrArg V3.z ma
  have bx := congrArg V3.x mb; have by' := congrArg V3.y mb; have bz := congrArg V3.z mb
  simp only [V3.smul_x, V3.smul_y, V3.smul_z] at ax ay az bx by' bz
  have sqa : a.dot c * a.dot c = c.lengthSq := by
    have : c.lengthSq * (a.dot c * a.dot c) = c.lengthSq * c.lengthSq := by
      have e1 : c.lengthSq * c.lengthSq * a.lengthSq = a.dot c * a.dot c * c.lengthSq := by
        have h1 : c.lengthSq = c.x * c.x + c.y * c.y + c.z * c.z := rfl
        have h2 : a.lengthSq = a.x * a.x + a.y * a.y + a.z * a.z := rfl
        linear_combination (c.lengthSq * a.x + a.dot c * c.x) * ax + (c.lengthSq * a.y + a.dot c * c.y) * ay + (c.lengthSq * a.z + a.dot c * c.z) * az + c.lengthSq * c.lengthSq * h2 - a.dot c * a.dot c * h1
      rw [a1] at e1; linear_combination -e1
    exact mul_left_cancel₀ hnd this
  have sqb : b.dot c * b.dot c = c.lengthSq := by
    have : c.lengthSq * (b.dot c * b.dot c) = c.lengthSq * c.lengthSq := by
      have e1 : c.lengthSq * c.lengthSq * b.lengthSq = b.dot c * b.dot c * c.lengthSq := by
        have h1 : c.lengthSq = c.x * c.x + c.y * c.y + c.z * c.z := rfl
        have h2 : b.lengthSq = b.x * b.x + b.y * b.y + b.z * b.z := rfl
        linear_combination (c.lengthSq * b.x + b.dot c * c.x) * bx + (c.lengthSq * b.y + b.dot c * c.y) * by' + (c.lengthSq * b.z + b.dot c * c.z) * bz + c.lengthSq * c.lengthSq * h2 - b.dot c * b.dot c * h1
      rw [b1] at e1; linear_combination -e1
    exact mul_left_cancel₀ hnd this
  have hpm : b.dot c = a.dot c ∨ b.dot c = -(a.dot c) := mul_self_eq_mul_self_iff.1 (sqb.trans sqa.symm)
  rcases hpm with e | e
  · left
    rw [e] at bx by' bz
    ext
    · exact mul_left_cancel₀ hnd (bx.trans ax.symm)
    · exact mul_left_cancel₀ hnd (by'.trans ay.symm)
    · exact mul_left_cancel₀ hnd (bz.trans az.symm)
  · right
    rw [e] at bx by' bz
    ext
    · simp only [V3.neg_x]; exact mul_left_cancel₀ hnd (by linear_combination bx + ax)
    · simp only [V3.neg_y]; exact mul_left_cancel₀ hnd (by linear_combination by' + ay)
    · simp only [V3.neg_z]; exact mul_left_cancel₀ hnd (by linear_combination bz + az)

/-- **C128 (flat surfaces).** If the normals at the vertices are all the same and orthogonal to the triangle, as in a flat part of a mesh and in every
triangle of a height field (HeightField.cpp:176-210), the normal of the smoothed contact is orthogonal to the triangle wherever the contact is. -/
theorem flat_surface {eps : K} {sqrt : K → K} (hs : IsSqrt sqrt) (he : 0 < eps) (he1 : eps ≤ 1) {p n : Fin 3 → V3 K} {T : TriShape K}
    (h : TriShape.make eps sqrt p n = some T) {m : V3 K} (hm : FaceNormal p m) (hn : ∀ i, n i = m) {t1 t2 : Trans K} (h1 : t1.ori.lengthSq = 1)
    (h2 : t2.ori.lengthSq = 1) (c : Contact K) :
    (∃ c', smooth eps sqrt (some T) none t1 t2 c = some c' ∧ PlusMinus (t1.ori.rot m) c'.normal) ∧
    (∃ c', smooth eps sqrt none (some T) t1 t2 c = some c' ∧ PlusMinus (t2.ori.rot m) c'.normal) := by
  obtain ⟨e1, e2, hf, hnd, -⟩ := make_spec hs he h
  have hloc : ∀ x, ∃ k, T.localNormal eps sqrt x = some k ∧ k.lengthSq = 1 ∧ PlusMinus m k := by
    intro x
    obtain ⟨u, v, w, hb, hsum, -, -⟩ := barycentric_projection (T.pts 0) (T.pts 1) (T.pts 2) x (by rw [e1]; exact hnd)
    have e : T.localNormal eps sqrt x = T.localNormal eps sqrt (mix u v w p) := by
      unfold TriShape.localNormal
      rw [mix, ← e1, barycentric_unique _ _ _ (by rw [e1]; exact hnd) u v w hsum, hb]
    obtain ⟨k, hk, k1, k2, k3, k4⟩ := localNormal_spec hs he he1 h hsum
    refine ⟨k, e.trans hk, k1, ?_⟩
    have hmix : mix u v w T.nor = m := by
      rw [e2, mix, hn, hn, hn]
      ext <;> simp only [V3.add_x, V3.add_y, V3.add_z, V3.smul_x, V3.smul_y, V3.smul_z]
      · linear_combination m.x * hsum
      · linear_combination m.y * hsum
      · linear_combination m.z * hsum
    rw [e1] at k2 k4
    by_cases hin : eps < u ∧ eps < v ∧ eps < w
    · exact faceNormal_unique hnd hm (k2 hin)
    · obtain ⟨l, l0, l1⟩ := k3 hin (by rw [hmix, hm.1]; exact he1)
      rw [hmix] at l1
      have : l * l = 1 := by
        have hk1 := k1
        rw [l1] at hk1
        have e3 : (V3.smul l m).lengthSq = l * l * m.lengthSq := by simp only [V3.lengthSq, V3.smul_x, V3.smul_y, V3.smul_z]; ring
        rw [e3, hm.1, mul_one] at hk1
        exact hk1
      have l1' : l = 1 := by nlinarith
      left
      rw [l1, l1']
      ext <;> simp
  have rotpm : ∀ (q : Quat K) {a b : V3 K}, PlusMinus a b → ∀ {d}, PlusMinus (q.rot b) d → PlusMinus (q.rot a) d := by
    rintro q a b (rfl | rfl) d hd
    · exact hd
    · rw [rot_neg'] at hd
      rcases hd with rfl | rfl
      · right; rfl
      · left; ext <;> simp
  constructor
  · obtain ⟨k, hk, k1, k2⟩ := hloc c.p1
    obtain ⟨q, n', e, -, -, a3, -⟩ := smooth_spec (o := t2) (depth := c.depth) (normal := c.normal) h1 h2 true hk k1
    exact ⟨⟨n', c.depth, c.p1, q⟩, by simp only [smooth, e, Option.map_some], rotpm _ k2 a3⟩
  · obtain ⟨k, hk, k1, k2⟩ := hloc c.p2
    obtain ⟨q, n', e, -, -, a3, -⟩ := smooth_spec (o := t1) (depth := c.depth) (normal := c.normal) h2 h1 false hk k1
    exact ⟨⟨n', c.depth, q, c.p2⟩, by simp only [smooth, e, Option.map_some], rotpm _ k2 a3⟩

/-! ### Scaled meshes -/

/-- A point or a vector of a mesh, scaled. -/
def scaled (s v : V3 K) : V3 K := ⟨s.x * v.x, s.y * v.y, s.z * v.z⟩

/-- **C128 (scaled meshes).** The normal at a vertex of a scaled mesh is a unit vector, and it is orthogonal to what becomes of the directions that the
normal of the mesh is orthogonal to; on the others it keeps the side. It is defined unless the scale is too large. -/
theorem vertexNormal_spec {eps : K} {sqrt : K → K} (hs : IsSqrt sqrt) (he : 0 < eps) {s n : V3 K} (hn : n.lengthSq = 1)
    (hx : s.x ≠ 0 ∧ |s.x| * eps < 1) (hy : s.y ≠ 0 ∧ |s.y| * eps < 1) (hz : s.z ≠ 0 ∧ |s.z| * eps < 1) :
    ∃ m, vertexNormal eps sqrt s n = some m ∧ m.lengthSq = 1 ∧ ∃ k, 0 < k ∧ ∀ d : V3 K, m.dot (scaled s d) = k * n.dot d := by
  have one : ∀ a : K, a ≠ 0 ∧ |a| * eps < 1 → ∀ b : K, eps * eps * (b * b) ≤ (1 / a * b) * (1 / a * b) ∧
      (b ≠ 0 → eps * eps * (b * b) < (1 / a * b) * (1 / a * b)) := by
    intro a ha b
    have a2 : 0 < a * a := mul_self_pos.2 ha.1
    have hlt : (a * a) * (eps * eps) < 1 := by
      have h0 : 0 ≤ |a| * eps := mul_nonneg (abs_nonneg a) he.le
      have : (|a| * eps) * (|a| * eps) < 1 := by nlinarith [ha.2]
      have e : (|a| * eps) * (|a| * eps) = (a * a) * (eps * eps) := by rw [← abs_mul_abs_self a]; ring
      rwa [e] at this
    have e : (1 / a * b) * (1 / a * b) = (b * b) / (a * a) := by field_simp
    rw [e]
    refine ⟨?_, fun hb => ?_⟩
    · rw [le_div_iff₀ a2]; nlinarith [mul_self_nonneg b]
    · rw [lt_div_iff₀ a2]; nlinarith [mul_self_pos.2 hb]
  set m : V3 K := ⟨1 / s.x * n.x, 1 / s.y * n.y, 1 / s.z * n.z⟩ with hmdef
  have hlt : eps * eps < m.lengthSq := by
    have h1 := one s.x hx n.x; have h2 := one s.y hy n.y; have h3 := one s.z hz n.z
    simp only [V3.lengthSq] at hn
    have hlen : m.lengthSq = (1 / s.x * n.x) * (1 / s.x * n.x) + (1 / s.y * n.y) * (1 / s.y * n.y) + (1 / s.z * n.z) * (1 / s.z * n.z) := rfl
    have hsum : eps * eps = eps * eps * (n.x * n.x) + eps * eps * (n.y * n.y) + eps * eps * (n.z * n.z) := by linear_combination (-(eps * eps)) * hn
    rw [hlen, hsum]
    by_cases ex : n.x = 0
    · by_cases ey : n.y = 0
      · have ez : n.z ≠ 0 := by rintro ez; rw [ex, ey, ez] at hn; norm_num at hn
        linarith [h1.1, h2.1, h3.2 ez]
      · linarith [h1.1, h2.2 ey, h3.1]
    · linarith [h1.2 ex, h2.1, h3.1]
  obtain ⟨l0, l1⟩ := hs m.lengthSq ((mul_self_nonneg eps).trans hlt.le)
  have hl : eps < sqrt m.lengthSq := by
    by_contra hc
    rw [not_lt] at hc
    nlinarith
  have lp : 0 < sqrt m.lengthSq := he.trans hl
  refine ⟨⟨m.x / sqrt m.lengthSq, m.y / sqrt m.lengthSq, m.z / sqrt m.lengthSq⟩, ?_, ?_, 1 / sqrt m.lengthSq, by positivity, ?_⟩
  · simp only [vertexNormal]; rw [if_pos (by exact hl)]
  · have : m.x / sqrt m.lengthSq * (m.x / sqrt m.lengthSq) + m.y / sqrt m.lengthSq * (m.y / sqrt m.lengthSq) +
        m.z / sqrt m.lengthSq * (m.z / sqrt m.lengthSq) = m.lengthSq / (sqrt m.lengthSq * sqrt m.lengthSq) := by
      generalize sqrt m.lengthSq = l at *
      simp only [V3.lengthSq]; field_simp
    simp only [V3.lengthSq] at this ⊢
    rw [this]
    have := l1
    simp only [V3.lengthSq] at this lp
    rw [this, div_self]
    rw [← this]; exact (mul_pos lp lp).ne'
  · intro d
    generalize sqrt m.lengthSq = l at *
    have hx0 := hx.1; have hy0 := hy.1; have hz0 := hz.1
    simp only [V3.dot, scaled, hmdef]
    field_simp

/-- A flat mesh stays flat: normals orthogonal to a triangle become normals orthogonal to the scaled triangle. -/
theorem scaled_flat {eps : K} {sqrt : K → K} (hs : IsSqrt sqrt) (he : 0 < eps) {s n : V3 K} {p : Fin 3 → V3 K} (hn : FaceNormal p n)
    (hx : s.x ≠ 0 ∧ |s.x| * eps < 1) (hy : s.y ≠ 0 ∧ |s.y| * eps < 1) (hz : s.z ≠ 0 ∧ |s.z| * eps < 1) :
    ∃ m, vertexNormal eps sqrt s n = some m ∧ FaceNormal (fun i => scaled s (p i)) m := by
  obtain ⟨m, h, h1, k, -, hk⟩ := vertexNormal_spec hs he hn.1 hx hy hz
  have e : ∀ a b : V3 K, scaled s a - scaled s b = scaled s (a - b) := by intro a b; ext <;> simp [scaled] <;> ring
  exact ⟨m, h, h1, by simp only [e]; rw [hk, hn.2.1, mul_zero], by simp only [e]; rw [hk, hn.2.2, mul_zero]⟩

/-! ### The GJK test -/

/-- The corners of a triangle. -/
def corners (p : Fin 3 → V3 K) : List (V3 K) := [p 0, p 1, p 2]

/-- A point of the hull of three points has coordinates that are not negative. -/
theorem hull_mix {p : Fin 3 → V3 K} {x : V3 K} (h : Hull (corners p) x) : ∃ u v w, 0 ≤ u ∧ 0 ≤ v ∧ 0 ≤ w ∧ u + v + w = 1 ∧ x = mix u v w p := by
  induction h with
  | vertex hv =>
    simp only [corners, List.mem_cons, List.not_mem_nil, or_false] at hv
    rcases hv with rfl | rfl | rfl
    · exact ⟨1, 0, 0, by norm_num, by norm_num, by norm_num, by norm_num, by ext <;> simp [mix]⟩
    · exact ⟨0, 1, 0, by norm_num, by norm_num, by norm_num, by norm_num, by ext <;> simp [mix]⟩
    · exact ⟨0, 0, 1, by norm_num, by norm_num, by norm_num, by norm_num, by ext <;> simp [mix]⟩
  | mix _ _ h0 h1 ih1 ih2 =>
    rename_i x y s _ _
    obtain ⟨u, v, w, a1, a2, a3, a4, rfl⟩ := ih1
    obtain ⟨u', v', w', b1, b2, b3, b4, rfl⟩ := ih2
    have s1 : 0 ≤ 1 - s := by linarith
    refine ⟨(1 - s) * u + s * u', (1 - s) * v + s * v', (1 - s) * w + s * w', ?_, ?_, ?_, ?_, ?_⟩
    · exact add_nonneg (mul_nonneg s1 a1) (mul_nonneg h0 b1)
    · exact add_nonneg (mul_nonneg s1 a2) (mul_nonneg h0 b2)
    · exact add_nonneg (mul_nonneg s1 a3) (mul_nonneg h0 b3)
    · linear_combination (1 - s) * a4 + s * b4
    · ext <;> simp [mix] <;> ring

/-- **C128 (GJK).** A contact of a triangle of a mesh with a sphere or a capsule, found by the GJK test: there is one, it is at a point of the
triangle, its normal is a unit vector and that of the surface of the mesh at this point, with the overlap found as depth. -/
theorem gjk_triangle {c : Cfg K} {S2 : V3 K → Prop} {s2 : V3 K → V3 K} {t1 t2 : Trans K} {M : K} {p n : Fin 3 → V3 K} {T : TriShape K}
    (hT : TriShape.make c.eps c.sqrt p n = some T)
    (h : Pair c (Hull (corners p)) S2 (triangleSupport (p 0) (p 1) (p 2)) s2 t1 t2 M) {m2 : K} (hm : 0 < m2)
    {cached : Option (V3 K)} (ha : AxisOk c M cached) {k : Nat} {ct : Contact K}
    (hg : Gjk.gjk c t1 t2 (triangleSupport (p 0) (p 1) (p 2)) s2 0 m2 cached k = some (some (.collide ct))) :
    ∃ ct', Smooth.gjk c (some T) none t1 t2 (triangleSupport (p 0) (p 1) (p 2)) s2 0 m2 cached k = some (some (.collide ct')) ∧
      ct'.depth = ct.depth ∧ 0 < ct'.depth ∧ ct'.depth < m2 ∧ ct'.normal.lengthSq = 1 ∧ 0 ≤ ct.normal.dot ct'.normal ∧
      t1.act ct'.p1 = t2.act ct'.p2 + V3.smul ct'.depth ct'.normal ∧ Hull (corners p) ct'.p1 ∧
      ∃ u v w m, 0 ≤ u ∧ 0 ≤ v ∧ 0 ≤ w ∧ u + v + w = 1 ∧ ct'.p1 = mix u v w p ∧ Surface c.eps T u v w m ∧
        PlusMinus (t1.ori.rot m) ct'.normal := by
  obtain ⟨b1, b2, b3, ⟨x, ⟨y, hy, rfl⟩, hd⟩, -, -, -⟩ := contact_sound h le_rfl hm.le (by linarith) ha hg
  have he : 0 < c.eps := h.cfg.eps
  have he1 : c.eps ≤ 1 := h.eps.trans (by norm_num)
  obtain ⟨ct', e, d1, d2, d3, d4, d5, d6⟩ := smooth_first h.root he he1 hT h.unit1 h.unit2 ct
  have hp : ct.p1 = y := by
    rw [act_dist h.unit1, mul_zero] at hd
    simp only [dist2] at hd
    have q1 := mul_self_nonneg (y.x - ct.p1.x); have q2 := mul_self_nonneg (y.y - ct.p1.y); have q3 := mul_self_nonneg (y.z - ct.p1.z)
    ext
    · exact (sub_eq_zero.1 (mul_self_eq_zero.1 (by linarith))).symm
    · exact (sub_eq_zero.1 (mul_self_eq_zero.1 (by linarith))).symm
    · exact (sub_eq_zero.1 (mul_self_eq_zero.1 (by linarith))).symm
  obtain ⟨u, v, w, u0, v0, w0, hsum, hmix⟩ := hull_mix hy
  obtain ⟨m, m1, m2'⟩ := d6 u v w hsum (hp.trans hmix)
  refine ⟨ct', ?_, d1, d1 ▸ b2, by rw [d1]; simpa using b3, d3, d4, d5, by rw [d2, hp]; exact hy, u, v, w, m, u0, v0, w0, hsum, ?_, m1, m2'⟩
  · simp only [Smooth.gjk, hg, e, Option.map_some]
  · rw [d2, hp, hmix]

end SmoothProps
end RP3D
