import Verif.Solver.Friction
import Verif.Props.Vector
import Verif.Props.Bounce
import Verif.Props.Contacts

/-! C157: the normal and the friction directions of every manifold are a frame. -/

namespace RP3D
namespace Friction
open RP3D.Vector

/-! ### Specification -/

/-- Three unit vectors at right angles; the first two turn into the third by the right hand. -/
structure IsFrame (t1 t2 n : V3 ℝ) : Prop where
  unit1 : t1.lengthSq = 1
  unit2 : t2.lengthSq = 1
  unitN : n.lengthSq = 1
  right12 : V3.dot t1 t2 = 0
  right1 : V3.dot t1 n = 0
  right2 : V3.dot t2 n = 0
  hand : V3.cross t1 t2 = n

/-! ### Proofs -/

theorem sqrt_ok : IsSqrt Real.sqrt := fun x hx => ⟨Real.sqrt_nonneg x, Real.mul_self_sqrt hx⟩

theorem length_eq (v : V3 ℝ) : length v = Real.sqrt v.lengthSq := rfl

theorem cauchy (q v : V3 ℝ) (hq : q.lengthSq = 1) : V3.dot q v * V3.dot q v ≤ v.lengthSq := by
  have e : q.lengthSq * v.lengthSq - V3.dot q v * V3.dot q v = (V3.cross q v).lengthSq := by
    simp only [V3.lengthSq, V3.dot, V3.cross]; ring
  have p : 0 ≤ (V3.cross q v).lengthSq := by
    unfold V3.lengthSq
    nlinarith [mul_self_nonneg (V3.cross q v).x, mul_self_nonneg (V3.cross q v).y, mul_self_nonneg (V3.cross q v).z]
  rw [hq] at e
  linarith

theorem dot_add (q a b : V3 ℝ) : V3.dot q (a + b) = V3.dot q a + V3.dot q b := by
  simp only [V3.dot, V3.add_x, V3.add_y, V3.add_z]; ring

theorem dot_foldl (q : V3 ℝ) (l : List (V3 ℝ)) (a : V3 ℝ) : V3.dot q (l.foldl (· + ·) a) = V3.dot q a + (l.map (V3.dot q)).sum := by
  induction l generalizing a with
  | nil => simp
  | cons b l ih => simp only [List.foldl_cons, ih, dot_add, List.map_cons, List.sum_cons]; ring

theorem dot_sum (q : V3 ℝ) (l : List (V3 ℝ)) : V3.dot q (Solver.sum3 l) = (l.map (V3.dot q)).sum := by
  unfold Solver.sum3
  rw [dot_foldl]
  simp [V3.dot]

theorem sum_ge {c : ℝ} (hc : 0 ≤ c) (f : V3 ℝ → ℝ) {l : List (V3 ℝ)} (hl : l ≠ []) (h : ∀ a ∈ l, c ≤ f a) : c ≤ (l.map f).sum := by
  induction l with
  | nil => exact absurd rfl hl
  | cons a l ih =>
    rw [List.map_cons, List.sum_cons]
    have h1 := h a (by simp)
    by_cases hn : l = []
    · subst hn; simpa using h1
    · have := ih hn fun b hb => h b (by simp [hb])
      linarith

/-- The sum of vectors that point the same way is at least as long as one of them does. -/
theorem sum_long {c : ℝ} (hc : 0 ≤ c) {q : V3 ℝ} (hq : q.lengthSq = 1) {l : List (V3 ℝ)} (hl : l ≠ []) (h : ∀ a ∈ l, c ≤ V3.dot q a) :
    c ≤ length (Solver.sum3 l) := by
  have h1 := sum_ge hc (V3.dot q) hl h
  rw [← dot_sum] at h1
  refine Real.le_sqrt_of_sq_le ?_
  have := cauchy q (Solver.sum3 l) hq
  unfold V3.lengthSq at this
  nlinarith

theorem dot_comm (a b : V3 ℝ) : V3.dot a b = V3.dot b a := by simp only [V3.dot]; ring

/-- Two vectors within an angle of a third are within twice the angle of one another. -/
theorem double_angle {c : ℝ} (hc : 0 ≤ c) {q a b : V3 ℝ} (hq : q.lengthSq = 1) (ha : a.lengthSq = 1) (hb : b.lengthSq = 1)
    (h1 : c ≤ V3.dot q a) (h2 : c ≤ V3.dot q b) : 2 * c * c - 1 ≤ V3.dot a b := by
  have k := cauchy q (a + b) hq
  rw [dot_add] at k
  have e : (a + b).lengthSq = a.lengthSq + b.lengthSq + 2 * V3.dot a b := by
    simp only [V3.lengthSq, V3.dot, V3.add_x, V3.add_y, V3.add_z]; ring
  rw [e, ha, hb] at k
  nlinarith

/-- With a unit normal no assertion breaks, and the result is a frame, the one of the model of the solver. -/
theorem frame_unit {eps : ℝ} (he : 0 < eps) (he' : eps < 4 / 5) (cfg : Solver.Cfg ℝ) (hcfg : cfg.eps = eps) (dv : V3 ℝ) {n : V3 ℝ} (hn : n.lengthSq = 1) :
    ∃ t1 t2, frame eps dv n = some (t1, t2) ∧ IsFrame t1 t2 n ∧
      (let t := dv - V3.smul (V3.dot dv n) n; eps < length t → V3.smul (length t) t1 = t ∧ t1 = Solver.frictionVector cfg Real.sqrt dv n) := by
  have ln : length n = 1 := by rw [length_eq, hn, Real.sqrt_one]
  have fin : ∀ t1 : V3 ℝ, t1.lengthSq = 1 → V3.dot t1 n = 0 → IsFrame t1 (V3.cross n t1) n := by
    intro t1 u r
    have u' : t1.x * t1.x + t1.y * t1.y + t1.z * t1.z = 1 := u
    have r' : t1.x * n.x + t1.y * n.y + t1.z * n.z = 0 := r
    have n' : n.x * n.x + n.y * n.y + n.z * n.z = 1 := hn
    refine ⟨u, ?_, hn, ?_, r, ?_, ?_⟩
    · have e : (V3.cross n t1).lengthSq = n.lengthSq * t1.lengthSq - V3.dot t1 n * V3.dot t1 n := by
        simp only [V3.lengthSq, V3.dot, V3.cross]; ring
      rw [e, hn, u, r]; norm_num
    · simp only [V3.dot, V3.cross]; ring
    · simp only [V3.dot, V3.cross]; ring
    · ext <;> simp only [V3.cross]
      · linear_combination n.x * u' - t1.x * r'
      · linear_combination n.y * u' - t1.y * r'
      · linear_combination n.z * u' - t1.z * r'
  unfold frame
  rw [if_pos (by rw [ln]; norm_num)]
  dsimp only
  set t := dv - V3.smul (V3.dot dv n) n with ht
  by_cases hl : length t > eps
  · have lp : length t ≠ 0 := ne_of_gt (lt_trans he hl)
    have hs : V3.smul (1 / length t) t = ⟨t.x / length t, t.y / length t, t.z / length t⟩ := by
      ext <;> simp only [V3.smul] <;> ring
    have fv : Solver.frictionVector cfg Real.sqrt dv n = ⟨t.x / length t, t.y / length t, t.z / length t⟩ := by
      rw [← hs]
      unfold Solver.frictionVector
      dsimp only
      rw [← ht, ← length_eq, if_pos (by rw [hcfg]; exact hl)]
    obtain ⟨o1, o2⟩ := SolverProps.frictionVector_ok sqrt_ok cfg (by rw [hcfg]; exact he.le) dv (n := n) hn
    rw [fv] at o1 o2
    refine ⟨_, _, by rw [if_pos hl, div, if_pos hl]; rfl, fin _ o1 o2, fun _ => ⟨?_, fv.symm⟩⟩
    ext <;> simp only [V3.smul] <;> field_simp
  · obtain ⟨u, hu, u1, u2⟩ := orth_partial he n (by rw [ln]; linarith)
    exact ⟨u, _, by rw [if_neg hl, hu]; rfl, fin u u1 u2, fun h => absurd h hl⟩

/-- The normal of a manifold: the sum of the normals of its points, made a unit vector. -/
noncomputable def manifoldNormal (cfg : Solver.Cfg ℝ) (l : List (V3 ℝ)) : V3 ℝ := Solver.unit cfg Real.sqrt (Solver.sum3 l)

theorem manifoldNormal_unit {cfg : Solver.Cfg ℝ} (he : 0 < cfg.eps) {l : List (V3 ℝ)} (h : cfg.eps ≤ length (Solver.sum3 l)) :
    manifoldNormal cfg l = V3.smul (1 / length (Solver.sum3 l)) (Solver.sum3 l) ∧ (manifoldNormal cfg l).lengthSq = 1 := by
  have e : manifoldNormal cfg l = V3.smul (1 / length (Solver.sum3 l)) (Solver.sum3 l) := by
    unfold manifoldNormal Solver.unit
    rw [← length_eq, if_neg (not_lt.2 h)]
  refine ⟨e, ?_⟩
  have p := lt_of_lt_of_le he h
  have hl : 0 < (Solver.sum3 l).lengthSq := by rw [← length_sq]; exact mul_pos p p
  rw [e]
  exact SolverProps.unit_of sqrt_ok hl

/-- **C157.** Let contact points with unit normals be grouped into manifolds by the cosine `c` of the similar angle, and some of the points of a manifold be kept.
Then the normal of the manifold is a unit vector, no assertion of the friction vectors breaks, they form a frame with the normal, and the first one
points in the direction in which the bodies slide if they do. If the angle is at most 45 degrees the normal is on the side of the normal of every point. -/
theorem frame_defined {cfg : Solver.Cfg ℝ} (he : 0 < cfg.eps) (he' : cfg.eps < 4 / 5) {c : ℝ} (hc : cfg.eps ≤ c) (n : Nat → V3 ℝ)
    (cap maxM : Nat) (hcap : 0 < cap) (ps : List Nat) (hn : ∀ p ∈ ps, (n p).lengthSq = 1) (hc1 : c ≤ 1) {m : List Nat}
    (hm : m ∈ Contacts.group (similar c n) cap maxM ps) {s : List Nat} (hs : s ⊆ m) (h0 : s ≠ []) (dv : V3 ℝ) :
    let N := manifoldNormal cfg (s.map n)
    let t := dv - V3.smul (V3.dot dv N) N
    (∃ t1 t2, frame cfg.eps dv N = some (t1, t2) ∧ IsFrame t1 t2 N ∧ (cfg.eps < length t → V3.smul (length t) t1 = t)) ∧
      (1 ≤ 2 * c * c → ∀ p ∈ s, 0 < V3.dot N (n p)) := by
  intro N t
  obtain ⟨q, tl, rfl, -, hsim, hsub⟩ := (ContactProps.points_grouped (similar c n) cap maxM hcap ps).2.1 m hm
  have cpos : 0 < c := lt_of_lt_of_le he hc
  have mem : ∀ p ∈ s, (n p).lengthSq = 1 := fun p hp => hn p (hsub.subset (hs hp))
  have hq : (n q).lengthSq = 1 := hn q (hsub.subset (by simp))
  have near : ∀ p ∈ s, c ≤ V3.dot (n q) (n p) := by
    intro p hp
    rcases List.mem_cons.1 (hs hp) with rfl | h
    · exact hc1.trans hq.ge
    · simpa [similar] using hsim p h
  have hne : s.map n ≠ [] := by simpa using h0
  have long : c ≤ length (Solver.sum3 (s.map n)) := sum_long cpos.le hq hne (by simpa using near)
  obtain ⟨e, u⟩ := manifoldNormal_unit he (hc.trans long)
  constructor
  · obtain ⟨t1, t2, h1, h2, h3⟩ := frame_unit he he' cfg rfl dv u
    exact ⟨t1, t2, h1, h2, fun h => (h3 h).1⟩
  · intro h2 p hp
    have lp : 0 < length (Solver.sum3 (s.map n)) := lt_of_lt_of_le cpos long
    have all : ∀ a ∈ s.map n, 0 ≤ V3.dot (n p) a := by
      intro a ha
      obtain ⟨r, hr, rfl⟩ := List.mem_map.1 ha
      have := double_angle cpos.le hq (mem p hp) (mem r hr) (near p hp) (near r hr)
      linarith
    have one : 1 ≤ ((s.map n).map (V3.dot (n p))).sum := by
      refine le_trans (mem p hp).ge ?_
      refine List.single_le_sum ?_ _ ?_
      · intro x hx
        obtain ⟨a, ha, rfl⟩ := List.mem_map.1 hx
        exact all a ha
      · exact List.mem_map.2 ⟨n p, List.mem_map.2 ⟨p, hp, rfl⟩, rfl⟩
    rw [← dot_sum] at one
    have : V3.dot N (n p) = 1 / length (Solver.sum3 (s.map n)) * V3.dot (n p) (Solver.sum3 (s.map n)) := by
      show V3.dot (manifoldNormal cfg (s.map n)) (n p) = _
      rw [e]; simp only [V3.dot, V3.smul]; ring
    rw [this]
    exact mul_pos (by positivity) (by linarith)

/-- The same for the manifold of two convex shapes, all points of which have the same normal. -/
theorem frame_same {cfg : Solver.Cfg ℝ} (he : 0 < cfg.eps) (he' : cfg.eps < 4 / 5) {q : V3 ℝ} (hq : q.lengthSq = 1) (k : Nat) (dv : V3 ℝ) :
    ∃ t1 t2, frame cfg.eps dv (manifoldNormal cfg (List.replicate (k + 1) q)) = some (t1, t2) ∧
      IsFrame t1 t2 (manifoldNormal cfg (List.replicate (k + 1) q)) := by
  have long : 1 ≤ length (Solver.sum3 (List.replicate (k + 1) q)) :=
    sum_long zero_le_one hq (by simp) fun a ha => by rw [List.eq_of_mem_replicate ha]; exact hq.ge
  obtain ⟨t1, t2, h1, h2, -⟩ := frame_unit he he' cfg rfl dv (manifoldNormal_unit he (by linarith)).2
  exact ⟨t1, t2, h1, h2⟩

/-- But a user who sets the cosine to minus one, so that all points are similar, breaks the assertion with two opposite normals. -/
theorem opposite_fails {cfg : Solver.Cfg ℝ} (he : 0 < cfg.eps) (dv : V3 ℝ) : ∃ n : Nat → V3 ℝ, (∀ p ∈ [0, 1], (n p).lengthSq = 1) ∧
    [0, 1] ∈ Contacts.group (similar (-1) n) 256 64 [0, 1] ∧ frame cfg.eps dv (manifoldNormal cfg ([0, 1].map n)) = none := by
  refine ⟨fun p => if p = 0 then ⟨1, 0, 0⟩ else ⟨-1, 0, 0⟩, ?_, ?_, ?_⟩
  · intro p hp
    rcases List.mem_cons.1 hp with rfl | hp
    · simp [V3.lengthSq]
    · obtain rfl : p = 1 := by simpa using hp
      simp [V3.lengthSq]
  · simp [Contacts.group, Contacts.addPoint, Contacts.addSimilar, similar, V3.dot]
  · have z : Solver.sum3 ([0, 1].map fun p : Nat => if p = 0 then (⟨1, 0, 0⟩ : V3 ℝ) else ⟨-1, 0, 0⟩) = 0 := by
      ext <;> simp [Solver.sum3]
    unfold manifoldNormal
    rw [z]
    have : Solver.unit cfg Real.sqrt (0 : V3 ℝ) = 0 := by
      unfold Solver.unit
      rw [if_pos (by simpa [V3.lengthSq] using he)]
    rw [this]
    unfold frame
    rw [if_neg (by simp [length])]

/-! ### Example -/

/-- Two points with the same normal are grouped and slide. -/
example : [0, 1] ∈ Contacts.group (similar (95 / 100) fun _ => ⟨0, 1, 0⟩) 256 64 [0, 1] := by
  simp [Contacts.group, Contacts.addPoint, Contacts.addSimilar, similar, V3.dot]
  norm_num

end Friction
end RP3D
