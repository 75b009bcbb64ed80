import Verif.Math.Angles
import Verif.Props.Transform
import Mathlib.Analysis.SpecialFunctions.Trigonometric.Inverse
import Mathlib.Tactic.NormNum
import Mathlib.Tactic.LinearCombination

/-! Orientations given by Euler angles, the angle and the axis of an orientation, and interpolated transforms (C113, C114). -/

namespace RP3D
namespace Angles

/-- The functions of the real numbers. -/
noncomputable def real (me : ℝ) : Trig ℝ := ⟨Real.sin, Real.cos, Real.arccos, Real.sqrt, me⟩

/-- Specification: turning about the three axes of the world by the right-hand rule. -/
noncomputable def turnX (a : ℝ) (v : V3 ℝ) : V3 ℝ := ⟨v.x, Real.cos a * v.y - Real.sin a * v.z, Real.sin a * v.y + Real.cos a * v.z⟩
noncomputable def turnY (a : ℝ) (v : V3 ℝ) : V3 ℝ := ⟨Real.cos a * v.x + Real.sin a * v.z, v.y, -Real.sin a * v.x + Real.cos a * v.z⟩
noncomputable def turnZ (a : ℝ) (v : V3 ℝ) : V3 ℝ := ⟨Real.cos a * v.x - Real.sin a * v.y, Real.sin a * v.x + Real.cos a * v.y, v.z⟩

/-- Specification: turning about a unit axis (the formula of Rodrigues). -/
noncomputable def turn (a : ℝ) (k v : V3 ℝ) : V3 ℝ :=
  V3.smul (Real.cos a) v + V3.smul (Real.sin a) (V3.cross k v) + V3.smul ((1 - Real.cos a) * V3.dot k v) k

theorem length_eq (me : ℝ) (q : Quat ℝ) : q.length (real me) = Real.sqrt q.lengthSq := rfl

theorem length_unit {q : Quat ℝ} (me : ℝ) (h : q.lengthSq = 1) : q.length (real me) = 1 := by
  rw [length_eq, h, Real.sqrt_one]

theorem normalize_unit {q : Quat ℝ} {me : ℝ} (hm : me < 1) (h : q.lengthSq = 1) : q.normalize (real me) = some q := by
  have e : (real me).me = me := rfl
  unfold Quat.normalize
  simp only [length_unit me h, e, gt_iff_lt, if_pos hm, div_one]

/-- A quaternion that turns about a unit axis by `2 a`. -/
theorem half_turn {k : V3 ℝ} (hk : V3.dot k k = 1) (a : ℝ) (v : V3 ℝ) :
    (⟨Real.sin a * k.x, Real.sin a * k.y, Real.sin a * k.z, Real.cos a⟩ : Quat ℝ).rot v = turn (2 * a) k v := by
  have s := Real.sin_sq_add_cos_sq a
  rw [turn, Real.cos_two_mul, Real.sin_two_mul]
  set S := Real.sin a
  set C := Real.cos a
  unfold V3.dot at hk
  ext <;> simp [Quat.rot, V3.dot, V3.cross]
  · linear_combination (-(S * S) * v.x) * hk - (v.x - 2 * (k.x * v.x + k.y * v.y + k.z * v.z) * k.x) * s
  · linear_combination (-(S * S) * v.y) * hk - (v.y - 2 * (k.x * v.x + k.y * v.y + k.z * v.z) * k.y) * s
  · linear_combination (-(S * S) * v.z) * hk - (v.z - 2 * (k.x * v.x + k.y * v.y + k.z * v.z) * k.z) * s

theorem turn_x (a : ℝ) (v : V3 ℝ) : turn a ⟨1, 0, 0⟩ v = turnX a v := by
  ext <;> simp [turn, turnX, V3.dot, V3.cross] <;> ring
theorem turn_y (a : ℝ) (v : V3 ℝ) : turn a ⟨0, 1, 0⟩ v = turnY a v := by
  ext <;> simp [turn, turnY, V3.dot, V3.cross] <;> ring
theorem turn_z (a : ℝ) (v : V3 ℝ) : turn a ⟨0, 0, 1⟩ v = turnZ a v := by
  ext <;> simp [turn, turnZ, V3.dot, V3.cross] <;> ring

/-- **C114.** `fromEulerAngles` never fails its assertion; the orientation is of length one, and it turns every vector about the world axes x, y and
then z by the three angles. -/
theorem euler_angles {me : ℝ} (hm : me < 1) (a b c : ℝ) : ∃ q, Quat.ofEuler (real me) a b c = some q ∧ q.lengthSq = 1 ∧
    ∀ v, q.rot v = turnZ c (turnY b (turnX a v)) := by
  have sa := Real.sin_sq_add_cos_sq (a * (1 / 2))
  have sb := Real.sin_sq_add_cos_sq (b * (1 / 2))
  have sc := Real.sin_sq_add_cos_sq (c * (1 / 2))
  have prod : (⟨Real.sin (a * (1 / 2)) * (Real.cos (b * (1 / 2)) * Real.cos (c * (1 / 2))) - Real.cos (a * (1 / 2)) * (Real.sin (b * (1 / 2)) * Real.sin (c * (1 / 2))),
      Real.cos (a * (1 / 2)) * (Real.sin (b * (1 / 2)) * Real.cos (c * (1 / 2))) + Real.sin (a * (1 / 2)) * (Real.cos (b * (1 / 2)) * Real.sin (c * (1 / 2))),
      Real.cos (a * (1 / 2)) * (Real.cos (b * (1 / 2)) * Real.sin (c * (1 / 2))) - Real.sin (a * (1 / 2)) * (Real.sin (b * (1 / 2)) * Real.cos (c * (1 / 2))),
      Real.cos (a * (1 / 2)) * (Real.cos (b * (1 / 2)) * Real.cos (c * (1 / 2))) + Real.sin (a * (1 / 2)) * (Real.sin (b * (1 / 2)) * Real.sin (c * (1 / 2)))⟩ : Quat ℝ) =
      Quat.mul ⟨0, 0, Real.sin (c * (1 / 2)), Real.cos (c * (1 / 2))⟩
        (Quat.mul ⟨0, Real.sin (b * (1 / 2)), 0, Real.cos (b * (1 / 2))⟩ ⟨Real.sin (a * (1 / 2)), 0, 0, Real.cos (a * (1 / 2))⟩) := by
    ext <;> simp [Quat.mul] <;> ring
  have hx : (⟨Real.sin (a * (1 / 2)), 0, 0, Real.cos (a * (1 / 2))⟩ : Quat ℝ).lengthSq = 1 := by
    simp [Quat.lengthSq]
    simp only [one_div] at sa
    linarith
  have hy : (⟨0, Real.sin (b * (1 / 2)), 0, Real.cos (b * (1 / 2))⟩ : Quat ℝ).lengthSq = 1 := by
    simp [Quat.lengthSq]
    simp only [one_div] at sb
    linarith
  have hz : (⟨0, 0, Real.sin (c * (1 / 2)), Real.cos (c * (1 / 2))⟩ : Quat ℝ).lengthSq = 1 := by
    simp [Quat.lengthSq]
    simp only [one_div] at sc
    linarith
  have rx : ∀ v, (⟨Real.sin (a * (1 / 2)), 0, 0, Real.cos (a * (1 / 2))⟩ : Quat ℝ).rot v = turnX a v := by
    intro v
    have := half_turn (k := ⟨1, 0, 0⟩) (by simp [V3.dot]) (a * (1 / 2)) v
    rw [show 2 * (a * (1 / 2)) = a by ring, turn_x] at this
    rw [← this]
    simp
  have ry : ∀ v, (⟨0, Real.sin (b * (1 / 2)), 0, Real.cos (b * (1 / 2))⟩ : Quat ℝ).rot v = turnY b v := by
    intro v
    have := half_turn (k := ⟨0, 1, 0⟩) (by simp [V3.dot]) (b * (1 / 2)) v
    rw [show 2 * (b * (1 / 2)) = b by ring, turn_y] at this
    rw [← this]
    simp
  have rz : ∀ v, (⟨0, 0, Real.sin (c * (1 / 2)), Real.cos (c * (1 / 2))⟩ : Quat ℝ).rot v = turnZ c v := by
    intro v
    have := half_turn (k := ⟨0, 0, 1⟩) (by simp [V3.dot]) (c * (1 / 2)) v
    rw [show 2 * (c * (1 / 2)) = c by ring, turn_z] at this
    rw [← this]
    simp
  have u := unit_mul hz (unit_mul hy hx)
  refine ⟨_, ?_, u, fun v => ?_⟩
  · rw [← normalize_unit hm u, ← prod]
    rfl
  · rw [rot_mul, rot_mul, rx, ry, rz]

/-- **C114.** The angle of an orientation lies between zero and a full turn. -/
theorem angle_range (me : ℝ) (q : Quat ℝ) : 0 ≤ (q.angleAxis (real me)).1 ∧ (q.angleAxis (real me)).1 ≤ 2 * Real.pi := by
  have e : (q.angleAxis (real me)).1 = Real.arccos q.w * 2 := rfl
  have := Real.arccos_nonneg q.w
  have := Real.arccos_le_pi q.w
  rw [e]
  constructor <;> linarith

/-- **C114** (partial). If the vector part of an orientation is not shorter than `MACHINE_EPSILON`, the axis is of length one and turning about the axis
by the angle is the orientation.  Missing: the orientations that turn by less (`identity_axis`). -/
theorem angle_axis_partial {me : ℝ} (hm : 0 < me) {q : Quat ℝ} (h : q.lengthSq = 1)
    (hv : me ≤ Real.sqrt (q.x * q.x + q.y * q.y + q.z * q.z)) :
    V3.dot (q.angleAxis (real me)).2 (q.angleAxis (real me)).2 = 1 ∧
    ∀ v, q.rot v = turn (q.angleAxis (real me)).1 (q.angleAxis (real me)).2 v := by
  set l := Real.sqrt (q.x * q.x + q.y * q.y + q.z * q.z) with hl
  have l0 : 0 < l := lt_of_lt_of_le hm hv
  have ll : l * l = q.x * q.x + q.y * q.y + q.z * q.z :=
    Real.mul_self_sqrt (by nlinarith [mul_self_nonneg q.x, mul_self_nonneg q.y, mul_self_nonneg q.z])
  have e1 : (q.angleAxis (real me)).1 = 2 * Real.arccos q.w := mul_comm _ _
  have e2 : (q.angleAxis (real me)).2 = ⟨q.x * (1 / l), q.y * (1 / l), q.z * (1 / l)⟩ := by
    show (⟨(V3.getUnit (real me) ⟨q.x, q.y, q.z⟩).x, (V3.getUnit (real me) ⟨q.x, q.y, q.z⟩).y, (V3.getUnit (real me) ⟨q.x, q.y, q.z⟩).z⟩ : V3 ℝ) = _
    have : V3.getUnit (real me) ⟨q.x, q.y, q.z⟩ = ⟨q.x * (1 / l), q.y * (1 / l), q.z * (1 / l)⟩ := by
      unfold V3.getUnit
      exact if_neg (not_lt.2 hv)
    rw [this]
  have w : q.w * q.w = 1 - l * l := by
    unfold Quat.lengthSq at h
    linarith
  have hk : V3.dot (q.angleAxis (real me)).2 (q.angleAxis (real me)).2 = 1 := by
    rw [e2]
    unfold V3.dot
    field_simp
    linarith
  refine ⟨hk, fun v => ?_⟩
  rw [e1, ← half_turn hk, e2]
  have hs : Real.sin (Real.arccos q.w) = l := by
    rw [Real.sin_arccos, show 1 - q.w ^ 2 = l * l by nlinarith, Real.sqrt_mul_self l0.le]
  have hc : Real.cos (Real.arccos q.w) = q.w := by
    apply Real.cos_arccos <;> nlinarith [mul_self_nonneg l]
  rw [hs, hc]
  congr 1
  ext <;> simp <;> field_simp

/-- **C114 fails.** The axis of the identity is the zero vector, not a unit vector. -/
theorem identity_axis {me : ℝ} (hm : 0 < me) : ((Quat.one : Quat ℝ).angleAxis (real me)).2 = 0 := by
  have : V3.getUnit (real me) ⟨0, 0, 0⟩ = (⟨0, 0, 0⟩ : V3 ℝ) := by
    unfold V3.getUnit
    simp [real, hm]
  show (⟨(V3.getUnit (real me) ⟨0, 0, 0⟩).x, (V3.getUnit (real me) ⟨0, 0, 0⟩).y, (V3.getUnit (real me) ⟨0, 0, 0⟩).z⟩ : V3 ℝ) = 0
  rw [this]
  rfl

/-! Interpolation. -/

theorem dot_bounds {p q : Quat ℝ} (hp : p.lengthSq = 1) (hq : q.lengthSq = 1) : -1 ≤ p.dot q ∧ p.dot q ≤ 1 := by
  unfold Quat.lengthSq at hp hq
  unfold Quat.dot
  constructor
  · nlinarith [sq_nonneg (p.x + q.x), sq_nonneg (p.y + q.y), sq_nonneg (p.z + q.z), sq_nonneg (p.w + q.w)]
  · nlinarith [sq_nonneg (p.x - q.x), sq_nonneg (p.y - q.y), sq_nonneg (p.z - q.z), sq_nonneg (p.w - q.w)]

theorem mix_lengthSq {p q : Quat ℝ} (hp : p.lengthSq = 1) (hq : q.lengthSq = 1) (a b : ℝ) :
    ((p.scale a).add (q.scale b)).lengthSq = a ^ 2 + b ^ 2 + 2 * a * b * p.dot q := by
  unfold Quat.lengthSq at hp hq
  simp only [Quat.lengthSq, Quat.add, Quat.scale, Quat.dot]
  linear_combination a ^ 2 * hp + b ^ 2 * hq

theorem mix_dot {p q : Quat ℝ} (hp : p.lengthSq = 1) (hq : q.lengthSq = 1) (a b : ℝ) :
    p.dot ((p.scale a).add (q.scale b)) = a + b * p.dot q ∧ q.dot ((p.scale a).add (q.scale b)) = a * p.dot q + b := by
  unfold Quat.lengthSq at hp hq
  simp only [Quat.add, Quat.scale, Quat.dot]
  constructor
  · linear_combination a * hp
  · linear_combination b * hq

/-- The sign with which `slerp` takes the second orientation; the orientation itself is the same for both signs. -/
noncomputable def near (p q : Quat ℝ) : Quat ℝ := if p.dot q < 0 then q.scale (-1) else q

theorem scale_neg_rot (q : Quat ℝ) (v : V3 ℝ) : (q.scale (-1)).rot v = q.rot v := by
  ext <;> simp [Quat.rot, Quat.scale] <;> ring

theorem near_rot (p q : Quat ℝ) (v : V3 ℝ) : (near p q).rot v = q.rot v := by
  unfold near
  split
  · exact scale_neg_rot q v
  · rfl

theorem near_unit {p q : Quat ℝ} (hq : q.lengthSq = 1) : (near p q).lengthSq = 1 := by
  unfold near
  split
  · unfold Quat.lengthSq at hq
    simp only [Quat.lengthSq, Quat.scale]
    linarith
  · exact hq

theorem near_dot (p q : Quat ℝ) : p.dot (near p q) = |p.dot q| := by
  unfold near
  split
  · rename_i h
    rw [abs_of_neg h]
    simp only [Quat.scale, Quat.dot]
    ring
  · rename_i h
    rw [abs_of_nonneg (not_lt.1 h)]

/-- `slerp` with the signed second orientation. -/
theorem slerp_eq (me : ℝ) (p q : Quat ℝ) {t : ℝ} (t0 : 0 ≤ t) (t1 : t ≤ 1) : Quat.slerp (real me) p q t = some
    (if 1 - |p.dot q| < 1 / 100000 then (p.scale (1 - t)).add ((near p q).scale t)
     else (p.scale (Real.sin ((1 - t) * Real.arccos |p.dot q|) / Real.sin (Real.arccos |p.dot q|))).add
       ((near p q).scale (Real.sin (t * Real.arccos |p.dot q|) / Real.sin (Real.arccos |p.dot q|)))) := by
  have hc : (if p.dot q < 0 then -p.dot q else p.dot q) = |p.dot q| := by
    split
    · rename_i h
      rw [abs_of_neg h]
    · rename_i h
      rw [abs_of_nonneg (not_lt.1 h)]
  have hi : ∀ k : ℝ, q.scale (k * (if p.dot q < 0 then -1 else 1)) = (near p q).scale k := by
    intro k
    unfold near
    split
    · ext <;> simp [Quat.scale]
    · rw [mul_one]
  unfold Quat.slerp
  rw [if_pos ⟨t0, t1⟩]
  simp only [hc, hi]
  split <;> rfl

/-- Specification: `r` lies on the arc from `p` to `q` and divides the angle between them in the ratio `t`. -/
structure OnArc (p q r : Quat ℝ) (t : ℝ) : Prop where
  unit : r.lengthSq = 1
  first : p.dot r = Real.cos (t * Real.arccos (p.dot q))
  second : q.dot r = Real.cos ((1 - t) * Real.arccos (p.dot q))
  between : ∃ a b : ℝ, 0 ≤ a ∧ 0 ≤ b ∧ r = (p.scale a).add (q.scale b)

theorem sin_arc {a t : ℝ} (a0 : 0 ≤ a) (a1 : a ≤ Real.pi) (t0 : 0 ≤ t) (t1 : t ≤ 1) : 0 ≤ Real.sin (t * a) :=
  Real.sin_nonneg_of_nonneg_of_le_pi (by positivity) (le_trans (by nlinarith) a1)

theorem slerp_on_arc {p q : Quat ℝ} (hp : p.lengthSq = 1) (hq : q.lengthSq = 1) {t : ℝ} (t0 : 0 ≤ t) (t1 : t ≤ 1) (hn : p.dot q < 1) (hm : -1 < p.dot q) :
    OnArc p q ((p.scale (Real.sin ((1 - t) * Real.arccos (p.dot q)) / Real.sin (Real.arccos (p.dot q)))).add
       (q.scale (Real.sin (t * Real.arccos (p.dot q)) / Real.sin (Real.arccos (p.dot q))))) t := by
  set c := p.dot q with hc
  set a := Real.arccos c with ha
  have s0 : 0 < Real.sin a := by
    rw [ha, Real.sin_arccos]
    exact Real.sqrt_pos.2 (by nlinarith)
  have ca : Real.cos a = c := Real.cos_arccos hm.le hn.le
  have a0 : 0 ≤ a := Real.arccos_nonneg c
  have a1 : a ≤ Real.pi := Real.arccos_le_pi c
  have e : Real.sin ((1 - t) * a) = Real.sin a * Real.cos (t * a) - Real.cos a * Real.sin (t * a) := by
    rw [show (1 - t) * a = a - t * a by ring, Real.sin_sub]
  have e' : Real.cos ((1 - t) * a) = Real.cos a * Real.cos (t * a) + Real.sin a * Real.sin (t * a) := by
    rw [show (1 - t) * a = a - t * a by ring, Real.cos_sub]
  have p1 := Real.sin_sq_add_cos_sq a
  have p2 := Real.sin_sq_add_cos_sq (t * a)
  refine ⟨?_, ?_, ?_, ⟨_, _, ?_, ?_, rfl⟩⟩
  · rw [mix_lengthSq hp hq, ← hc, e, ← ca]
    field_simp
    linear_combination (Real.sin (t * a) ^ 2) * (-p1) + Real.sin a ^ 2 * p2 + (2 * Real.sin (t * a) ^ 2) * 0
  · rw [(mix_dot hp hq _ _).1, ← hc, ← ha, e, ← ca]
    field_simp
    ring
  · rw [(mix_dot hp hq _ _).2, ← hc, ← ha, e, e', ← ca]
    field_simp
    linear_combination (-Real.sin (t * a)) * p1
  · exact div_nonneg (sin_arc a0 a1 (by linarith) (by linarith)) s0.le
  · exact div_nonneg (sin_arc a0 a1 t0 t1) s0.le

/-- **C113.** For orientations of length one and `0 ≤ t ≤ 1`, `slerp` fails no assertion; its result passes `isUnit`; and away from equal orientations the
result is of length one and divides the shorter of the two arcs between the orientations in the ratio `t`. -/
theorem slerp_arc {me : ℝ} {p q : Quat ℝ} (hp : p.lengthSq = 1) (hq : q.lengthSq = 1) {t : ℝ} (t0 : 0 ≤ t) (t1 : t ≤ 1) :
    ∃ r q', Quat.slerp (real me) p q t = some r ∧ r.isUnit (real me) = true ∧
      q'.lengthSq = 1 ∧ (∀ v, q'.rot v = q.rot v) ∧ 0 ≤ p.dot q' ∧
      (1 / 100000 ≤ 1 - p.dot q' → OnArc p q' r t) ∧
      (1 - p.dot q' < 1 / 100000 → r = (p.scale (1 - t)).add (q'.scale t)) := by
  have b := dot_bounds hp (near_unit (p := p) hq)
  have d := near_dot p q
  refine ⟨_, near p q, slerp_eq me p q t0 t1, ?_, near_unit hq, near_rot p q, by rw [d]; exact abs_nonneg _, fun h => ?_, fun h => ?_⟩
  · unfold Quat.isUnit
    rw [decide_eq_true_iff]
    rw [d] at b
    by_cases h : 1 - |p.dot q| < 1 / 100000
    · rw [if_pos h, length_eq, mix_lengthSq hp (near_unit hq), d]
      set c := |p.dot q|
      set L := (1 - t) ^ 2 + t ^ 2 + 2 * (1 - t) * t * c with hL
      have k : L = 1 - 2 * (t * (1 - t)) * (1 - c) := by rw [hL]; ring
      have tt : 0 ≤ t * (1 - t) := mul_nonneg t0 (by linarith)
      have t4 : t * (1 - t) ≤ 1 / 4 := by nlinarith [sq_nonneg (t - 1 / 2)]
      have l1 : L ≤ 1 := by rw [k]; nlinarith [mul_nonneg tt (show 0 ≤ 1 - c by linarith [b.2])]
      have l2 : 1 - 1 / 200000 ≤ L := by rw [k]; nlinarith [mul_nonneg (show 0 ≤ 1 / 4 - t * (1 - t) by linarith) (show 0 ≤ 1 - c by linarith [b.2])]
      have s1 : Real.sqrt L ≤ 1 := Real.sqrt_le_one.2 l1
      have s2 : 1 - 1 / 200000 ≤ Real.sqrt L := Real.le_sqrt_of_sq_le (by nlinarith)
      rw [abs_lt]
      constructor <;> linarith
    · rw [if_neg h]
      have u := (slerp_on_arc hp (near_unit (p := p) hq) t0 t1 (by rw [d]; linarith) (by rw [d]; linarith [abs_nonneg (p.dot q)])).unit
      rw [d] at u
      rw [length_unit me u]
      norm_num
  · rw [d] at h
    rw [if_neg (by linarith)]
    have u := slerp_on_arc hp (near_unit (p := p) hq) t0 t1 (by rw [d]; linarith) (by rw [d]; linarith [abs_nonneg (p.dot q)])
    rw [d] at u
    exact u
  · rw [d] at h
    rw [if_pos h]

/-- **C113.** At the ends, the interpolated transform moves every point exactly as the old and the new transform. -/
theorem interpolate_ends {me : ℝ} {s u : Trans ℝ} (hs : s.ori.lengthSq = 1) (hu : u.ori.lengthSq = 1) :
    (∃ r, Trans.interpolate (real me) s u 0 = some r ∧ ∀ v, r.act v = s.act v) ∧
    (∃ r, Trans.interpolate (real me) s u 1 = some r ∧ ∀ v, r.act v = u.act v) := by
  have b := dot_bounds hs (near_unit (p := s.ori) hu)
  have d := near_dot s.ori u.ori
  rw [d] at b
  have s0 : ¬ 1 - |s.ori.dot u.ori| < 1 / 100000 → Real.sin (Real.arccos |s.ori.dot u.ori|) ≠ 0 := by
    intro h
    rw [Real.sin_arccos]
    exact (Real.sqrt_pos.2 (by nlinarith [abs_nonneg (s.ori.dot u.ori)])).ne'
  have one : ∀ q : Quat ℝ, ∀ k, (q.scale 1).add (k) = q.add k := by
    intro q k
    ext <;> simp [Quat.scale, Quat.add]
  have zero : ∀ p q : Quat ℝ, p.add (q.scale 0) = p ∧ (q.scale 0).add (p.scale 1) = p := by
    intro p q
    constructor <;> ext <;> simp [Quat.scale, Quat.add]
  constructor
  · refine ⟨_, by unfold Trans.interpolate; rw [slerp_eq me s.ori u.ori le_rfl zero_le_one]; rfl, fun v => ?_⟩
    have : (if 1 - |s.ori.dot u.ori| < 1 / 100000 then (s.ori.scale (1 - 0)).add ((near s.ori u.ori).scale 0)
        else (s.ori.scale (Real.sin ((1 - 0) * Real.arccos |s.ori.dot u.ori|) / Real.sin (Real.arccos |s.ori.dot u.ori|))).add
          ((near s.ori u.ori).scale (Real.sin (0 * Real.arccos |s.ori.dot u.ori|) / Real.sin (Real.arccos |s.ori.dot u.ori|)))) = s.ori := by
      split
      · rw [sub_zero, one, (zero _ _).1]
      · rename_i h
        rw [sub_zero, one_mul, div_self (s0 h), zero_mul, Real.sin_zero, zero_div, one, (zero _ _).1]
    unfold Trans.act
    dsimp only
    rw [this]
    congr 1
    ext <;> simp
  · refine ⟨_, by unfold Trans.interpolate; rw [slerp_eq me s.ori u.ori zero_le_one le_rfl]; rfl, fun v => ?_⟩
    have : (if 1 - |s.ori.dot u.ori| < 1 / 100000 then (s.ori.scale (1 - 1)).add ((near s.ori u.ori).scale 1)
        else (s.ori.scale (Real.sin ((1 - 1) * Real.arccos |s.ori.dot u.ori|) / Real.sin (Real.arccos |s.ori.dot u.ori|))).add
          ((near s.ori u.ori).scale (Real.sin (1 * Real.arccos |s.ori.dot u.ori|) / Real.sin (Real.arccos |s.ori.dot u.ori|)))) = near s.ori u.ori := by
      split
      · rw [sub_self, (zero _ _).2]
      · rename_i h
        rw [sub_self, one_mul, div_self (s0 h), zero_mul, Real.sin_zero, zero_div, (zero _ _).2]
    unfold Trans.act
    dsimp only
    rw [this, near_rot]
    congr 1
    ext <;> simp

/-- **C113.** Between the ends no assertion fails, the position runs along the segment at constant speed and the orientation is the one of `slerp`. -/
theorem interpolate_between {me : ℝ} {s u : Trans ℝ} (hs : s.ori.lengthSq = 1) (hu : u.ori.lengthSq = 1) {t : ℝ} (t0 : 0 ≤ t) (t1 : t ≤ 1) :
    ∃ r, Trans.interpolate (real me) s u t = some r ∧ r.pos = s.pos + V3.smul t (u.pos - s.pos) ∧ r.ori.isUnit (real me) = true ∧
      Quat.slerp (real me) s.ori u.ori t = some r.ori := by
  obtain ⟨r, -, e, h, -⟩ := slerp_arc (me := me) hs hu t0 t1
  refine ⟨⟨_, r⟩, by unfold Trans.interpolate; rw [e]; rfl, ?_, h, e⟩
  ext <;> simp <;> ring

/-- **C113 fails.** Interpolated orientations need not be of length one: halfway between two close orientations of length one the result is shorter. -/
theorem slerp_short {me : ℝ} : ∃ p q r : Quat ℝ, p.lengthSq = 1 ∧ q.lengthSq = 1 ∧ Quat.slerp (real me) p q (1 / 2) = some r ∧ r.lengthSq < 1 := by
  have hp : (⟨0, 0, 0, 1⟩ : Quat ℝ).lengthSq = 1 := by norm_num [Quat.lengthSq]
  have hq : (⟨0, 0, 2 * 1000 / 1000001, 999999 / 1000001⟩ : Quat ℝ).lengthSq = 1 := by norm_num [Quat.lengthSq]
  have hd : (⟨0, 0, 0, 1⟩ : Quat ℝ).dot ⟨0, 0, 2 * 1000 / 1000001, 999999 / 1000001⟩ = 999999 / 1000001 := by norm_num [Quat.dot]
  have ha : |(999999 / 1000001 : ℝ)| = 999999 / 1000001 := abs_of_nonneg (by norm_num)
  refine ⟨_, _, _, hp, hq, slerp_eq me _ _ (by norm_num) (by norm_num), ?_⟩
  rw [if_pos (by rw [hd, ha]; norm_num), mix_lengthSq hp (near_unit hq), near_dot, hd, ha]
  norm_num

/-! The hypotheses hold. -/

example : ∃ q, Quat.ofEuler (real (1 / 8388608)) (Real.pi / 2) 0 (Real.pi / 2) = some q ∧ q.rot ⟨0, 1, 0⟩ = ⟨0, 0, 1⟩ := by
  obtain ⟨q, e, -, h⟩ := euler_angles (me := 1 / 8388608) (by norm_num) (Real.pi / 2) 0 (Real.pi / 2)
  refine ⟨q, e, ?_⟩
  rw [h]
  simp [turnX, turnY, turnZ]

/-- A quarter turn about the x axis. -/
example : ∃ q : Quat ℝ, q.lengthSq = 1 ∧ (1 / 8388608 : ℝ) ≤ Real.sqrt (q.x * q.x + q.y * q.y + q.z * q.z) ∧ q.w ≠ 0 ∧ q.x ≠ 0 := by
  refine ⟨⟨3 / 5, 0, 0, 4 / 5⟩, by norm_num [Quat.lengthSq], ?_, by norm_num, by norm_num⟩
  apply Real.le_sqrt_of_sq_le
  norm_num

/-- Two orientations away from each other, and the arc between them. -/
example : ∃ p q : Quat ℝ, p.lengthSq = 1 ∧ q.lengthSq = 1 ∧ p.dot q < 0 ∧ 1 / 100000 ≤ 1 - |p.dot q| := by
  refine ⟨⟨0, 0, 0, 1⟩, ⟨3 / 5, 0, 0, -4 / 5⟩, ?_, ?_, ?_, ?_⟩ <;> norm_num [Quat.lengthSq, Quat.dot, abs_div]

end Angles
end RP3D
