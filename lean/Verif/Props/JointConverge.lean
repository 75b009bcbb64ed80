import Verif.Props.JointHold
import Verif.Props.Dynamics
import Verif.Solver.JointKick

/-! The position solver of ball-and-socket joints closes the gap between the anchors, quadratically (C110). -/

set_option linter.unusedSectionVars false

namespace RP3D
namespace Joints
open Solver
variable {K : Type} [Field K] [LinearOrder K] [IsStrictOrderedRing K]

/-! ### Vectors -/

theorem dot_self_nonneg (a : V3 K) : 0 ≤ V3.dot a a := by
  unfold V3.dot; nlinarith [mul_self_nonneg a.x, mul_self_nonneg a.y, mul_self_nonneg a.z]

theorem cauchy (a b : V3 K) : V3.dot a b * V3.dot a b ≤ V3.dot a a * V3.dot b b := by
  have := dot_self_nonneg (V3.cross a b)
  have e : V3.dot (V3.cross a b) (V3.cross a b) = V3.dot a a * V3.dot b b - V3.dot a b * V3.dot a b := by unfold V3.dot V3.cross; ring
  linarith

theorem cross_le (a b : V3 K) : V3.dot (V3.cross a b) (V3.cross a b) ≤ V3.dot a a * V3.dot b b := by
  have e : V3.dot (V3.cross a b) (V3.cross a b) = V3.dot a a * V3.dot b b - V3.dot a b * V3.dot a b := by unfold V3.dot V3.cross; ring
  nlinarith [mul_self_nonneg (V3.dot a b)]

theorem norm_sub_le {a b : V3 K} {s t : K} (hs : 0 ≤ s) (ht : 0 ≤ t) (ha : V3.dot a a ≤ s * s) (hb : V3.dot b b ≤ t * t) :
    V3.dot (a - b) (a - b) ≤ (s + t) * (s + t) := by
  have h1 : V3.dot a b * V3.dot a b ≤ (s * t) * (s * t) := by
    calc _ ≤ V3.dot a a * V3.dot b b := cauchy a b
      _ ≤ (s * s) * (t * t) := mul_le_mul ha hb (dot_self_nonneg b) (mul_self_nonneg s)
      _ = _ := by ring
  have h2 : -V3.dot a b ≤ s * t := by
    by_contra hn
    have hn' : s * t < -V3.dot a b := not_le.mp hn
    have := mul_self_lt_mul_self (mul_nonneg hs ht) hn'
    nlinarith
  have e : V3.dot (a - b) (a - b) = V3.dot a a - 2 * V3.dot a b + V3.dot b b := by
    unfold V3.dot; simp only [V3.sub_x, V3.sub_y, V3.sub_z]; ring
  rw [e]
  nlinarith

/-- The point turns by the cross product, up to an error of second order. -/
theorem spin_error {cfg : JCfg K} (hs : IsSqrt cfg.sqrt) (w : V3 K) {q : Quat K} (hq : q.lengthSq = 1) (a : V3 K) {ρ : K} (hρ : V3.dot a a ≤ ρ * ρ) :
    let D := (spin cfg w q).rot a - q.rot a - V3.cross w (q.rot a)
    V3.dot D D ≤ (V3.dot w w * ρ / 2) * (V3.dot w w * ρ / 2) := by
  dsimp only
  rw [spin_rot hs w hq]
  have hu : V3.dot (q.rot a) (q.rot a) ≤ ρ * ρ := by rw [rot_dot hq]; exact hρ
  generalize q.rot a = u at *
  have hp := half_pos w
  have hw := dot_self_nonneg w
  have hc := cross_le w u
  have e : V3.dot (V3.smul (1 / (1 + V3.dot w w / 4)) (V3.smul (1 - V3.dot w w / 4) u + V3.cross w u + V3.smul (V3.dot w u / 2) w) - u - V3.cross w u)
      (V3.smul (1 / (1 + V3.dot w w / 4)) (V3.smul (1 - V3.dot w w / 4) u + V3.cross w u + V3.smul (V3.dot w u / 2) w) - u - V3.cross w u) =
      V3.dot w w / 4 * V3.dot (V3.cross w u) (V3.cross w u) / (1 + V3.dot w w / 4) := by
    have hne : 1 + V3.dot w w / 4 ≠ 0 := ne_of_gt hp
    have key : V3.smul (1 / (1 + V3.dot w w / 4)) (V3.smul (1 - V3.dot w w / 4) u + V3.cross w u + V3.smul (V3.dot w u / 2) w) - u - V3.cross w u =
        V3.smul (1 / (1 + V3.dot w w / 4)) (V3.smul (1 / 2) (V3.cross w (V3.cross w u)) - V3.smul (V3.dot w w / 4) (V3.cross w u)) := by
      have : ∀ x y z : V3 K, V3.smul (1 + V3.dot w w / 4) (x - y - z) = V3.smul (1 + V3.dot w w / 4) x - V3.smul (1 + V3.dot w w / 4) y -
          V3.smul (1 + V3.dot w w / 4) z := fun x y z => by ext <;> simp [mul_sub]
      have inj : ∀ x y : V3 K, V3.smul (1 + V3.dot w w / 4) x = V3.smul (1 + V3.dot w w / 4) y → x = y := by
        intro x y h
        have hx := congrArg V3.x h
        have hy := congrArg V3.y h
        have hz := congrArg V3.z h
        simp only [V3.smul_x, V3.smul_y, V3.smul_z] at hx hy hz
        ext
        · exact mul_left_cancel₀ hne hx
        · exact mul_left_cancel₀ hne hy
        · exact mul_left_cancel₀ hne hz
      have can : ∀ x : V3 K, V3.smul (1 + V3.dot w w / 4) (V3.smul (1 / (1 + V3.dot w w / 4)) x) = x := fun x => by
        ext <;> simp only [V3.smul_x, V3.smul_y, V3.smul_z] <;> field_simp
      apply inj
      rw [this, can, can]
      unfold V3.dot V3.cross
      ext <;> simp <;> ring
    rw [key]
    generalize hk : 1 + V3.dot w w / 4 = k at *
    have e2 : V3.dot (V3.smul (1 / k) (V3.smul (1 / 2) (V3.cross w (V3.cross w u)) - V3.smul (V3.dot w w / 4) (V3.cross w u)))
        (V3.smul (1 / k) (V3.smul (1 / 2) (V3.cross w (V3.cross w u)) - V3.smul (V3.dot w w / 4) (V3.cross w u))) =
        (1 / k) * (1 / k) * (V3.dot w w / 4 * V3.dot (V3.cross w u) (V3.cross w u) * (1 + V3.dot w w / 4)) := by
      unfold V3.dot V3.cross
      simp only [V3.smul_x, V3.smul_y, V3.smul_z, V3.sub_x, V3.sub_y, V3.sub_z]
      ring
    rw [e2, hk]
    field_simp
  rw [e]
  generalize V3.dot w w = W at *
  generalize V3.dot (V3.cross w u) (V3.cross w u) = C at *
  generalize V3.dot u u = U at *
  rw [div_le_iff₀ hp]
  have hC : C ≤ W * (ρ * ρ) := le_trans hc (mul_le_mul_of_nonneg_left hu hw)
  have h1 : W / 4 * C ≤ W / 4 * (W * (ρ * ρ)) := mul_le_mul_of_nonneg_left hC (by linarith)
  have h2 : 0 ≤ (W * ρ / 2 * (W * ρ / 2)) * (W / 4) := mul_nonneg (mul_self_nonneg _) (by linarith)
  nlinarith

/-! ### The inverse inertia tensor -/

theorem transpose_dot (o : M3 K) (y z : V3 K) : V3.dot y (o.act z) = V3.dot (o.transpose.act y) z := by
  unfold V3.dot M3.act M3.transpose M3.of; ring

theorem inertia_dot (o : M3 K) (i y : V3 K) : V3.dot y ((Dyn.worldInertia o i).act y) =
    V3.dot (o.transpose.act y) (V3.had i (o.transpose.act y)) := by
  rw [worldInertia_act, transpose_dot]

/-- Principal inverse moments between 0 and `Λ`. -/
def Inertial (Λ : K) (i : V3 K) : Prop := (0 ≤ i.x ∧ i.x ≤ Λ) ∧ (0 ≤ i.y ∧ i.y ≤ Λ) ∧ (0 ≤ i.z ∧ i.z ≤ Λ)

theorem inertia_le {q : Quat K} (hq : q.lengthSq = 1) {Λ : K} {i : V3 K} (hi : Inertial Λ i) (y : V3 K) :
    V3.dot ((Dyn.worldInertia q.matrix i).act y) ((Dyn.worldInertia q.matrix i).act y) ≤ Λ * V3.dot y ((Dyn.worldInertia q.matrix i).act y) := by
  rw [inertia_dot, worldInertia_act, matrix_act hq, rot_dot hq]
  generalize q.matrix.transpose.act y = z
  obtain ⟨⟨a1, a2⟩, ⟨b1, b2⟩, ⟨c1, c2⟩⟩ := hi
  simp only [V3.dot, (had_at _ _).1, (had_at _ _).2.1, (had_at _ _).2.2]
  have k : ∀ {c t : K}, 0 ≤ c → c ≤ Λ → c * t * (c * t) ≤ Λ * (t * (c * t)) := fun {c t} h1 h2 => by
    have h3 : 0 ≤ c * (t * t) := mul_nonneg h1 (mul_self_nonneg t)
    nlinarith [mul_le_mul_of_nonneg_right h2 h3]
  nlinarith [k a1 a2 (t := z.x), k b1 b2 (t := z.y), k c1 c2 (t := z.z)]

theorem inertia_nonneg (o : M3 K) {Λ : K} {i : V3 K} (hi : Inertial Λ i) (y : V3 K) : 0 ≤ V3.dot y ((Dyn.worldInertia o i).act y) := by
  rw [inertia_dot]
  generalize o.transpose.act y = z
  obtain ⟨⟨a1, a2⟩, ⟨b1, b2⟩, ⟨c1, c2⟩⟩ := hi
  simp only [V3.dot, (had_at _ _).1, (had_at _ _).2.1, (had_at _ _).2.2]
  nlinarith [mul_nonneg a1 (mul_self_nonneg z.x), mul_nonneg b1 (mul_self_nonneg z.y), mul_nonneg c1 (mul_self_nonneg z.z)]

/-! ### The mass matrix -/

/-- Symmetric, not negative, determinant at least `M^3`. -/
structure Definite (M : K) (A : M3 K) : Prop where
  sym : A.r0.y = A.r1.x ∧ A.r0.z = A.r2.x ∧ A.r1.z = A.r2.y
  pos : ∀ x, 0 ≤ V3.dot x (A.act x)
  det : M * M * M ≤ A.det

/-- `A + k v v^t`. -/
def outerAdd (A : M3 K) (k : K) (v : V3 K) : M3 K :=
  M3.add A (M3.of (k * v.x * v.x) (k * v.x * v.y) (k * v.x * v.z) (k * v.y * v.x) (k * v.y * v.y) (k * v.y * v.z)
    (k * v.z * v.x) (k * v.z * v.y) (k * v.z * v.z))

theorem Definite.outerAdd {M : K} (hM : 0 < M) {A : M3 K} (h : Definite M A) {k : K} (hk : 0 ≤ k) (v : V3 K) : Definite M (outerAdd A k v) := by
  obtain ⟨⟨s1, s2, s3⟩, hp, hd⟩ := h
  have hdet : 0 < A.det := lt_of_lt_of_le (mul_pos (mul_pos hM hM) hM) hd
  refine ⟨?_, fun x => ?_, ?_⟩
  · unfold Joints.outerAdd M3.add M3.of
    simp only [V3.add_x, V3.add_y, V3.add_z, s1, s2, s3]
    refine ⟨?_, ?_, ?_⟩ <;> ring
  · have e : V3.dot x ((Joints.outerAdd A k v).act x) = V3.dot x (A.act x) + k * (V3.dot v x * V3.dot v x) := by
      unfold Joints.outerAdd M3.add M3.of M3.act V3.dot
      simp only [V3.add_x, V3.add_y, V3.add_z]
      ring
    rw [e]
    exact add_nonneg (hp x) (mul_nonneg hk (mul_self_nonneg _))
  · set y : V3 K := (M3.inverseWith 1 A).act v with hy
    have e1 : V3.dot y (A.act y) = A.det * V3.dot v y := by
      rw [hy]
      unfold M3.inverseWith M3.scale M3.of M3.act M3.det V3.dot
      ring
    have e2 : (Joints.outerAdd A k v).det = A.det + k * V3.dot v y := by
      rw [hy]
      unfold Joints.outerAdd M3.inverseWith M3.scale M3.add M3.of M3.act M3.det V3.dot
      simp only [V3.add_x, V3.add_y, V3.add_z, V3.smul_x, V3.smul_y, V3.smul_z]
      ring
    have h3 : 0 ≤ V3.dot v y := by
      have := hp y
      rw [e1] at this
      exact nonneg_of_mul_nonneg_right this hdet
    rw [e2]
    nlinarith [mul_nonneg hk h3]

/-- The part of the mass matrix of one body, as a sum over its three axes of inertia. -/
theorem skew_inertia (A o : M3 K) (i r : V3 K) : M3.add A (M3.mul (M3.mul (M3.skew r) (Dyn.worldInertia o i)) (M3.skew r).transpose) =
    outerAdd (outerAdd (outerAdd A i.x (V3.cross r ⟨o.r0.x, o.r1.x, o.r2.x⟩)) i.y (V3.cross r ⟨o.r0.y, o.r1.y, o.r2.y⟩)) i.z
      (V3.cross r ⟨o.r0.z, o.r1.z, o.r2.z⟩) := by
  unfold outerAdd Dyn.worldInertia M3.add M3.mul M3.skew M3.transpose M3.of V3.cross
  ext <;> simp <;> ring

theorem massMatrix_definite {m1 m2 Λ : K} (hM : 0 < m1 + m2) {o1 o2 : M3 K} {i1 i2 : V3 K} (h1 : Inertial Λ i1) (h2 : Inertial Λ i2) (r1 r2 : V3 K) :
    Definite (m1 + m2) (massMatrix m1 m2 (Dyn.worldInertia o1 i1) (Dyn.worldInertia o2 i2) r1 r2) := by
  unfold massMatrix
  dsimp only
  rw [skew_inertia, skew_inertia]
  have h0 : Definite (m1 + m2) (M3.of (m1 + m2) 0 0 0 (m1 + m2) 0 0 0 (m1 + m2)) := by
    refine ⟨⟨rfl, rfl, rfl⟩, fun x => ?_, ?_⟩
    · have e : V3.dot x ((M3.of (m1 + m2) 0 0 0 (m1 + m2) 0 0 0 (m1 + m2)).act x) = (m1 + m2) * V3.dot x x := by
        unfold M3.of M3.act V3.dot; ring
      rw [e]
      exact mul_nonneg hM.le (dot_self_nonneg x)
    · unfold M3.of M3.det
      apply le_of_eq
      ring
  exact (((((h0.outerAdd hM h1.1.1 _).outerAdd hM h1.2.1.1 _).outerAdd hM h1.2.2.1 _).outerAdd hM h2.1.1 _).outerAdd hM h2.2.1.1 _).outerAdd hM h2.2.2.1 _

/-! ### One correction of the anchors -/

/-- A body without locked axes and with principal inverse moments between 0 and `Λ`. -/
structure Loose (Λ : K) (B : PBody K) : Prop where
  ll : B.ll = ⟨1, 1, 1⟩
  la : B.la = ⟨1, 1, 1⟩
  i : Inertial Λ B.i

/-- The square of the distance of the anchors. -/
def gapSq (body : Nat → PBody K) (X : Nat → Pose K) (b1 b2 : Nat) (a1 a2 : V3 K) : K :=
  V3.dot (anchorAt body X b2 a2 - anchorAt body X b1 a1) (anchorAt body X b2 a2 - anchorAt body X b1 a1)

theorem gapSq_nonneg (body : Nat → PBody K) (X : Nat → Pose K) (b1 b2 : Nat) (a1 a2 : V3 K) : 0 ≤ gapSq body X b1 b2 a1 a2 := dot_self_nonneg _

theorem pull_gap {cfg : JCfg K} (hs : IsSqrt cfg.sqrt) (he : 0 ≤ cfg.eps) {body : Nat → PBody K} {X : Nat → Pose K} {b1 b2 : Nat} (hb : b1 ≠ b2)
    {Λ ρ : K} (hΛ : 0 ≤ Λ) (hρ : 0 ≤ ρ) (l1 : Loose Λ (body b1)) (l2 : Loose Λ (body b2)) (hM : 0 < (body b1).m + (body b2).m)
    (hd : ((body b1).dyn || (body b2).dyn) = true)
    (hM3 : cfg.eps < ((body b1).m + (body b2).m) * ((body b1).m + (body b2).m) * ((body b1).m + (body b2).m))
    (q1 : (X b1).q.lengthSq = 1) (q2 : (X b2).q.lengthSq = 1) {a1 a2 : V3 K} (ha1 : V3.dot (a1 - (body b1).com) (a1 - (body b1).com) ≤ ρ * ρ)
    (ha2 : V3.dot (a2 - (body b2).com) (a2 - (body b2).com) ≤ ρ * ρ) :
    let Y := (pull cfg ((body b1).dyn || (body b2).dyn) (twoAt body X b1 b2) (armAt body X b1 a1) (armAt body X b2 a2) X).1
    let c := Λ * ρ / (8 * ((body b1).m + (body b2).m))
    gapSq body Y b1 b2 a1 a2 ≤ (c * gapSq body X b1 b2 a1 a2) * (c * gapSq body X b1 b2 a1 a2) := by
  dsimp only
  have hdef := massMatrix_definite (o1 := (X b1).q.matrix) (o2 := (X b2).q.matrix) hM l1.i l2.i (armAt body X b1 a1) (armAt body X b2 a2)
  have hdet : cfg.eps < |(massMatrix (body b1).m (body b2).m (Dyn.worldInertia (X b1).q.matrix (body b1).i) (Dyn.worldInertia (X b2).q.matrix (body b2).i)
      (armAt body X b1 a1) (armAt body X b2 a2)).det| := lt_of_lt_of_le (lt_of_lt_of_le hM3 hdef.det) (le_abs_self _)
  unfold pull twoAt
  dsimp only
  rw [if_pos hdet]
  dsimp only
  set M := massMatrix (body b1).m (body b2).m (Dyn.worldInertia (X b1).q.matrix (body b1).i) (Dyn.worldInertia (X b2).q.matrix (body b2).i)
      (armAt body X b1 a1) (armAt body X b2 a2) with hMdef
  set e := (X b2).x + armAt body X b2 a2 - (X b1).x - armAt body X b1 a1 with hedef
  set l := (inverseOrZero cfg ((body b1).dyn || (body b2).dyn) M).act (-e) with hldef
  have hl : M.act l = -e := inverseOrZero_act he hdet hd _
  set r1 := armAt body X b1 a1 with hr1
  set r2 := armAt body X b2 a2 with hr2
  set I1 := Dyn.worldInertia (X b1).q.matrix (body b1).i with hI1
  set I2 := Dyn.worldInertia (X b2).q.matrix (body b2).i with hI2
  have hg : anchorAt body X b2 a2 - anchorAt body X b1 a1 = e := by rw [hedef, hr1, hr2]; unfold anchorAt armAt; abel
  have hG : gapSq body X b1 b2 a1 a2 = V3.dot e e := by unfold gapSq; rw [hg]
  -- the two bodies afterwards
  have o : ∀ (P : V3 K), V3.had (⟨1, 1, 1⟩ : V3 K) P = P := fun P => by ext <;> simp [V3.had]
  have om : ∀ (k : K) (P : V3 K), V3.had (V3.smul k ⟨1, 1, 1⟩) P = V3.smul k P := fun k P => by ext <;> simp [V3.had]
  set w1 := I1.act (V3.cross l r1) with hw1
  set w2 := I2.act (-(V3.cross l r2)) with hw2
  set Y := place cfg ⟨b1, b2, (body b1).m, (body b2).m, I1, I2, (body b1).ll, (body b2).ll, (body b1).la, (body b2).la⟩ (-l) (V3.cross l r1) l
    (-(V3.cross l r2)) X with hY
  have y1 : Y b1 = ⟨(X b1).x + V3.smul (body b1).m (-l), spin cfg w1 (X b1).q⟩ := by
    rw [hY, place_at]
    dsimp only
    rw [if_neg hb, if_pos rfl, l1.ll, l1.la, o, om]
  have y2 : Y b2 = ⟨(X b2).x + V3.smul (body b2).m l, spin cfg w2 (X b2).q⟩ := by
    rw [hY, place_at]
    dsimp only
    rw [if_pos rfl, if_neg (Ne.symm hb), l2.ll, l2.la, o, om]
  -- the new gap
  set D1 := (spin cfg w1 (X b1).q).rot (a1 - (body b1).com) - (X b1).q.rot (a1 - (body b1).com) - V3.cross w1 ((X b1).q.rot (a1 - (body b1).com)) with hD1
  set D2 := (spin cfg w2 (X b2).q).rot (a2 - (body b2).com) - (X b2).q.rot (a2 - (body b2).com) - V3.cross w2 ((X b2).q.rot (a2 - (body b2).com)) with hD2
  have hgap : anchorAt body Y b2 a2 - anchorAt body Y b1 a1 = D2 - D1 := by
    unfold anchorAt
    rw [y1, y2]
    dsimp only
    have hk := massMatrix_act (body b1).m (body b2).m I1 I2 r1 r2 l
    rw [← hMdef, hl] at hk
    have hr1' : (X b1).q.rot (a1 - (body b1).com) = r1 := rfl
    have hr2' : (X b2).q.rot (a2 - (body b2).com) = r2 := rfl
    have hw2' : V3.cross w2 r2 = -V3.cross (I2.act (V3.cross l r2)) r2 := by
      rw [hw2]; unfold M3.act V3.cross; ext <;> simp <;> ring
    rw [hD1, hD2, hr1', hr2', hw2']
    have : -e = V3.smul (body b1).m l + V3.smul (body b2).m l - V3.cross w1 r1 - V3.cross (I2.act (V3.cross l r2)) r2 := hk
    rw [hedef] at this
    have nn : V3.smul (body b1).m (-l) = -V3.smul (body b1).m l := by ext <;> simp
    rw [nn]
    have hx := congrArg V3.x this
    have hy := congrArg V3.y this
    have hz := congrArg V3.z this
    simp only [V3.neg_x, V3.neg_y, V3.neg_z, V3.add_x, V3.add_y, V3.add_z, V3.sub_x, V3.sub_y, V3.sub_z] at hx hy hz
    ext
    · simp only [V3.neg_x, V3.add_x, V3.sub_x]; linear_combination -hx
    · simp only [V3.neg_y, V3.add_y, V3.sub_y]; linear_combination -hy
    · simp only [V3.neg_z, V3.add_z, V3.sub_z]; linear_combination -hz
  have hDb1 := spin_error hs w1 q1 (a1 - (body b1).com) ha1
  have hDb2 := spin_error hs w2 q2 (a2 - (body b2).com) ha2
  -- the turns are small
  have hen : V3.dot w1 w1 + V3.dot w2 w2 ≤ Λ * (V3.dot e e / (4 * ((body b1).m + (body b2).m))) := by
    have k1 := inertia_le q1 l1.i (V3.cross l r1)
    have k2 := inertia_le q2 l2.i (-(V3.cross l r2))
    rw [← hI1, ← hw1] at k1
    rw [← hI2, ← hw2] at k2
    have hk := massMatrix_act (body b1).m (body b2).m I1 I2 r1 r2 l
    rw [← hMdef, hl] at hk
    have hdot : V3.dot l (-e) = ((body b1).m + (body b2).m) * V3.dot l l + V3.dot (V3.cross l r1) w1 + V3.dot (-(V3.cross l r2)) w2 := by
      rw [hk, hw1, hw2]
      have n2 : I2.act (-(V3.cross l r2)) = -I2.act (V3.cross l r2) := by unfold M3.act; ext <;> simp <;> ring
      rw [n2]
      generalize I1.act (V3.cross l r1) = p
      generalize I2.act (V3.cross l r2) = s
      unfold V3.dot V3.cross
      simp only [V3.neg_x, V3.neg_y, V3.neg_z, V3.add_x, V3.add_y, V3.add_z, V3.sub_x, V3.sub_y, V3.sub_z, V3.smul_x, V3.smul_y, V3.smul_z]
      ring
    have hE : V3.dot (V3.cross l r1) w1 + V3.dot (-(V3.cross l r2)) w2 ≤ V3.dot e e / (4 * ((body b1).m + (body b2).m)) := by
      rw [le_div_iff₀ (by linarith)]
      generalize (body b1).m + (body b2).m = m at *
      have hsq : 0 ≤ V3.dot (V3.smul (2 * m) l + e) (V3.smul (2 * m) l + e) := dot_self_nonneg _
      have ex : V3.dot (V3.smul (2 * m) l + e) (V3.smul (2 * m) l + e) = 4 * m * (m * V3.dot l l) - 4 * m * V3.dot l (-e) + V3.dot e e := by
        unfold V3.dot
        simp only [V3.neg_x, V3.neg_y, V3.neg_z, V3.add_x, V3.add_y, V3.add_z, V3.smul_x, V3.smul_y, V3.smul_z]
        ring
      rw [ex, hdot] at hsq
      nlinarith
    calc _ ≤ Λ * V3.dot (V3.cross l r1) w1 + Λ * V3.dot (-(V3.cross l r2)) w2 := add_le_add k1 k2
      _ = Λ * (V3.dot (V3.cross l r1) w1 + V3.dot (-(V3.cross l r2)) w2) := by ring
      _ ≤ _ := mul_le_mul_of_nonneg_left hE hΛ
  have n1 := dot_self_nonneg w1
  have n2 := dot_self_nonneg w2
  have hfin := norm_sub_le (s := V3.dot w2 w2 * ρ / 2) (t := V3.dot w1 w1 * ρ / 2) (by positivity) (by positivity) hDb2 hDb1
  unfold gapSq
  rw [hgap, hg]
  refine le_trans hfin ?_
  have hsum : V3.dot w2 w2 * ρ / 2 + V3.dot w1 w1 * ρ / 2 ≤ Λ * ρ / (8 * ((body b1).m + (body b2).m)) * V3.dot e e := by
    have : V3.dot w2 w2 * ρ / 2 + V3.dot w1 w1 * ρ / 2 = (V3.dot w1 w1 + V3.dot w2 w2) * (ρ / 2) := by ring
    rw [this]
    refine le_trans (mul_le_mul_of_nonneg_right hen (by linarith)) (le_of_eq ?_)
    field_simp
    ring
  exact mul_self_le_mul_self (by positivity) hsum

/-! ### A joint among others -/

/-- A body that the corrections of pairs `P` do not touch, or that cannot be moved, stays. -/
theorem Moves.same {cfg : JCfg K} (hs : IsSqrt cfg.sqrt) {body : Nat → PBody K} {P : Nat → Nat → Prop} {X Y : Nat → Pose K} (h : Moves cfg body P X Y)
    (c : Nat) (hc : (∀ a b, P a b → a ≠ c ∧ b ≠ c) ∨ ((body c).m = 0 ∧ (body c).i = 0)) (hq : (X c).q.lengthSq = 1) : Y c = X c := by
  rcases hc with hc | ⟨hm, hi⟩
  · induction h with
    | refl => rfl
    | step _ b1 b2 hp o1 o2 L A1 A2 ih =>
      obtain ⟨n1, n2⟩ := hc b1 b2 hp
      rw [place_at]
      unfold twoOf
      dsimp only
      rw [if_neg (Ne.symm n2), if_neg (Ne.symm n1)]
      exact ih
  · refine h.body c (fun p => p = X c) rfl fun p o L A hp => ?_
    subst hp
    rw [hm, hi, inertia_zero, had_zero, spin_zero, unitQ_of_unit hs hq]
    have : V3.smul (0 : K) (body c).ll = 0 := by ext <;> simp
    rw [this]
    ext <;> simp [V3.had]

theorem Moves.unit {cfg : JCfg K} (hs : IsSqrt cfg.sqrt) {body : Nat → PBody K} {P : Nat → Nat → Prop} {X Y : Nat → Pose K} (h : Moves cfg body P X Y)
    (c : Nat) (hq : (X c).q.lengthSq = 1) : (Y c).q.lengthSq = 1 :=
  h.body c (fun p => p.q.lengthSq = 1) hq fun p _ _ _ hp => spin_unit hs _ (by rw [hp]; exact one_ne_zero)

theorem Moves.ne {cfg : JCfg K} (hs : IsSqrt cfg.sqrt) {body : Nat → PBody K} {P : Nat → Nat → Prop} {X Y : Nat → Pose K} (h : Moves cfg body P X Y)
    (c : Nat) (hq : (X c).q.lengthSq ≠ 0) : (Y c).q.lengthSq ≠ 0 :=
  h.body c (fun p => p.q.lengthSq ≠ 0) hq fun p _ _ _ hp => by rw [spin_unit hs _ hp]; exact one_ne_zero

theorem each_append {J : Type} (baum : J → Bool) (f : J → (Nat → Pose K) → (Nat → Pose K) × J) : ∀ (l r : List J) (X : Nat → Pose K),
    each baum f X (l ++ r) = ((each baum f (each baum f X l).1 r).1, (each baum f X l).2 ++ (each baum f (each baum f X l).1 r).2)
  | [], r, X => rfl
  | j :: l, r, X => by
    have c : ∀ ks : List J, each baum f X (j :: ks) = ((each baum f (if baum j then (X, j) else f j X).1 ks).1,
        (if baum j then (X, j) else f j X).2 :: (each baum f (if baum j then (X, j) else f j X).1 ks).2) := fun _ => rfl
    rw [List.cons_append, c, c l, each_append baum f l r]
    rfl

/-- The bodies of the corrected joint `J` of the list are loose from the other corrected joints, except that these may be fastened to the same
immovable bodies. -/
structure Alone (body : Nat → PBody K) (S : Pins K) (J : Ball K) : Prop where
  baum : J.baum = false
  free : ∃ l r, S.balls = l ++ J :: r ∧ ∀ c, c = J.b1 ∨ c = J.b2 → ((body c).m = 0 ∧ (body c).i = 0) ∨
    ((∀ j ∈ l ++ r, j.baum = false → j.b1 ≠ c ∧ j.b2 ≠ c) ∧ (∀ j ∈ S.fixeds, j.baum = false → j.b1 ≠ c ∧ j.b2 ≠ c) ∧
     (∀ j ∈ S.hinges, j.baum = false → j.b1 ≠ c ∧ j.b2 ≠ c) ∧ ∀ j ∈ S.sliders, j.baum = false → j.b1 ≠ c ∧ j.b2 ≠ c)

theorem Has.far {J : Type} {baum : J → Bool} {c1 c2 : J → Nat} {js : List J} {c : Nat} (h : ∀ j ∈ js, baum j = false → c1 j ≠ c ∧ c2 j ≠ c) :
    ∀ a b, Has baum c1 c2 js a b → a ≠ c ∧ b ≠ c := fun a b ⟨j, hj, e1, e2, e3⟩ => by rw [← e2, ← e3]; exact h j hj e1

theorem far_after {J : Type} {baum : J → Bool} {c1 c2 : J → Nat} {js ks : List J} {c : Nat}
    (e : ks.map (fun j => (baum j, c1 j, c2 j)) = js.map (fun j => (baum j, c1 j, c2 j)))
    (h : ∀ j ∈ js, baum j = false → c1 j ≠ c ∧ c2 j ≠ c) : ∀ j ∈ ks, baum j = false → c1 j ≠ c ∧ c2 j ≠ c := fun j hj hb =>
  Has.far h _ _ (Has.of_map e ⟨j, hj, hb, rfl, rfl⟩)

theorem Ball.position_same (cfg : JCfg K) (body : Nat → PBody K) (J : Ball K) (X : Nat → Pose K) :
    (J.position cfg body X).2.a1 = J.a1 ∧ (J.position cfg body X).2.a2 = J.a2 ∧ (J.position cfg body X).2.coneOn = J.coneOn := by
  unfold Ball.position Ball.cone'
  dsimp only
  split
  · split <;> exact ⟨rfl, rfl, rfl⟩
  · exact ⟨rfl, rfl, rfl⟩

/-- A pass does to the bodies of a joint that is alone what the joint does. -/
theorem positionAll_alone {cfg : JCfg K} (hs : IsSqrt cfg.sqrt) (body : Nat → PBody K) (X : Nat → Pose K) (S : Pins K) (J : Ball K) (h : Alone body S J) :
    ∃ Z J', ((∀ c, c = J.b1 ∨ c = J.b2 → (X c).q.lengthSq = 1) → (∀ c, c = J.b1 ∨ c = J.b2 → Z c = X c) ∧
        ∀ c, c = J.b1 ∨ c = J.b2 → (positionAll cfg body X S).1 c = (J.position cfg body Z).1 c) ∧
      (∃ P, Moves cfg body P X Z) ∧ (∃ P, Moves cfg body P (J.position cfg body Z).1 (positionAll cfg body X S).1) ∧
      J' = (J.position cfg body Z).2 ∧ Alone body (positionAll cfg body X S).2 J' := by
  obtain ⟨hb, l, r, hS, hf⟩ := h
  have okB : ∀ (P : Nat → Nat → Prop) (j : Ball K) (X : Nat → Pose K), P j.b1 j.b2 → Moves cfg body P X (j.position cfg body X).1 ∧
      (j.position cfg body X).2.b1 = j.b1 ∧ (j.position cfg body X).2.b2 = j.b2 ∧ (j.position cfg body X).2.baum = j.baum :=
    fun P j X h => Ball.position_ok j h X
  obtain ⟨l1, l2⟩ := each_ok (c1 := Ball.b1) (c2 := Ball.b2) (baum := Ball.baum) (cfg := cfg) (body := body) okB l X
  set Z := (each Ball.baum (Ball.position cfg body) X l).1 with hZ
  obtain ⟨j1, j2, j3, j4⟩ := okB (fun _ _ => True) J Z trivial
  set Z1 := (J.position cfg body Z).1 with hZ1
  obtain ⟨r1, r2⟩ := each_ok (c1 := Ball.b1) (c2 := Ball.b2) (baum := Ball.baum) (cfg := cfg) (body := body) okB r Z1
  set A := (each Ball.baum (Ball.position cfg body) Z1 r).1 with hA
  obtain ⟨b1, b2⟩ := each_ok (c1 := Fixed.b1) (c2 := Fixed.b2) (baum := Fixed.baum) (cfg := cfg) (body := body) (f := Fixed.position cfg body)
    (fun P j X h => Fixed.position_ok j h X) S.fixeds A
  set B := (each Fixed.baum (Fixed.position cfg body) A S.fixeds).1 with hB
  obtain ⟨c1, c2⟩ := each_ok (c1 := Hinge.b1) (c2 := Hinge.b2) (baum := Hinge.baum) (cfg := cfg) (body := body) (f := Hinge.position cfg body)
    (fun P j X h => Hinge.position_ok j h X) S.hinges B
  set C := (each Hinge.baum (Hinge.position cfg body) B S.hinges).1 with hC
  obtain ⟨d1, d2⟩ := eachSlider_ok (c1 := Slider.b1) (c2 := Slider.b2) (baum := Slider.baum) (cfg := cfg) (body := body)
    (f := Slider.position cfg body) (fun P j X h => Slider.position_ok j h X) S.sliders C
  have hballs : each Ball.baum (Ball.position cfg body) X S.balls =
      (A, (each Ball.baum (Ball.position cfg body) X l).2 ++ (J.position cfg body Z).2 :: (each Ball.baum (Ball.position cfg body) Z1 r).2) := by
    have c : each Ball.baum (Ball.position cfg body) Z (J :: r) = (A, (J.position cfg body Z).2 :: (each Ball.baum (Ball.position cfg body) Z1 r).2) := by
      rw [hA, hZ1]
      show (let s := if J.baum then (Z, J) else J.position cfg body Z
        ((each Ball.baum (Ball.position cfg body) s.1 r).1, s.2 :: (each Ball.baum (Ball.position cfg body) s.1 r).2)) = _
      rw [hb]
      rfl
    rw [hS, each_append, ← hZ, c]
  have hall : positionAll cfg body X S = ((eachSlider Slider.baum (Slider.position cfg body) C S.sliders).1,
      ⟨(each Ball.baum (Ball.position cfg body) X l).2 ++ (J.position cfg body Z).2 :: (each Ball.baum (Ball.position cfg body) Z1 r).2,
       (each Fixed.baum (Fixed.position cfg body) A S.fixeds).2, (each Hinge.baum (Hinge.position cfg body) B S.hinges).2,
       (eachSlider Slider.baum (Slider.position cfg body) C S.sliders).2⟩) := by
    unfold positionAll
    rw [hballs]
  have all : ∀ {P : Nat → Nat → Prop} {A B : Nat → Pose K}, Moves cfg body P A B → Moves cfg body (fun _ _ => True) A B := fun h => h.mono fun _ _ _ => trivial
  refine ⟨Z, _, fun hq => ?_, ⟨_, l1⟩, ⟨fun _ _ => True, ?_⟩, rfl, ?_, ?_⟩
  · have sZ : ∀ c, c = J.b1 ∨ c = J.b2 → Z c = X c := fun c hc => by
      refine l1.same hs c ?_ (hq c hc)
      rcases hf c hc with g | ⟨g, -⟩
      · exact .inr g
      · exact .inl (Has.far fun j hj => g j (List.mem_append_left _ hj))
    refine ⟨sZ, fun c hc => ?_⟩
    have uZ : (Z c).q.lengthSq = 1 := by rw [sZ c hc]; exact hq c hc
    have uZ1 := j1.unit hs c uZ
    have uA := r1.unit hs c uZ1
    have uB := b1.unit hs c uA
    have uC := c1.unit hs c uB
    rw [hall]
    dsimp only
    rcases hf c hc with g | ⟨g, g1, g2, g3⟩
    · rw [d1.same hs c (.inr g) uC, c1.same hs c (.inr g) uB, b1.same hs c (.inr g) uA, r1.same hs c (.inr g) uZ1]
    · rw [d1.same hs c (.inl (Has.far g3)) uC, c1.same hs c (.inl (Has.far g2)) uB, b1.same hs c (.inl (Has.far g1)) uA,
        r1.same hs c (.inl (Has.far fun j hj => g j (List.mem_append_right _ hj))) uZ1]
  · rw [hall]
    exact (((all r1).trans (all b1)).trans (all c1)).trans (all d1)
  · rw [j4]; exact hb
  · rw [hall]
    refine ⟨_, _, rfl, fun c hc => ?_⟩
    rw [j2, j3] at hc
    rcases hf c hc with g | ⟨g, g1, g2, g3⟩
    · exact .inl g
    · refine .inr ⟨?_, far_after b2 g1, far_after c2 g2, far_after d2 g3⟩
      refine far_after (js := l ++ r) ?_ g
      rw [List.map_append, List.map_append, l2, r2]

/-- The two bodies of a ball-and-socket joint can be moved: none of their axes is locked, the sum of the inverse masses is positive and not tiny, the
principal inverse moments are at most `Λ`, and the anchors are no farther than `ρ` from the centers of mass. -/
structure Movable (cfg : JCfg K) (body : Nat → PBody K) (Λ ρ : K) (J : Ball K) : Prop where
  two : J.b1 ≠ J.b2
  l1 : Loose Λ (body J.b1)
  l2 : Loose Λ (body J.b2)
  pos : 0 < (body J.b1).m + (body J.b2).m
  large : cfg.eps < ((body J.b1).m + (body J.b2).m) * ((body J.b1).m + (body J.b2).m) * ((body J.b1).m + (body J.b2).m)
  dyn : ((body J.b1).dyn || (body J.b2).dyn) = true
  a1 : V3.dot (J.a1 - (body J.b1).com) (J.a1 - (body J.b1).com) ≤ ρ * ρ
  a2 : V3.dot (J.a2 - (body J.b2).com) (J.a2 - (body J.b2).com) ≤ ρ * ρ
  cone : J.coneOn = false

/-- `Λ ρ / (8 (m1 + m2))`: one over the length below which a gap shrinks. -/
def rate (body : Nat → PBody K) (Λ ρ : K) (J : Ball K) : K := Λ * ρ / (8 * ((body J.b1).m + (body J.b2).m))

/-- The bodies of the joint have unit orientations. -/
def UnitAt (X : Nat → Pose K) (J : Ball K) : Prop := ∀ c, c = J.b1 ∨ c = J.b2 → (X c).q.lengthSq = 1

theorem Ball.position_pull {cfg : JCfg K} {body : Nat → PBody K} {J : Ball K} (h : J.coneOn = false) (Z : Nat → Pose K) :
    (J.position cfg body Z).1 = (pull cfg ((body J.b1).dyn || (body J.b2).dyn) (twoAt body Z J.b1 J.b2) (armAt body Z J.b1 J.a1)
      (armAt body Z J.b2 J.a2) Z).1 := by
  unfold Ball.position Ball.cone'
  dsimp only
  rw [h]
  simp only [Bool.false_eq_true, if_false]

theorem positionAll_gap {cfg : JCfg K} (hs : IsSqrt cfg.sqrt) (he : 0 ≤ cfg.eps) {body : Nat → PBody K} {Λ ρ : K} (hΛ : 0 ≤ Λ) (hρ : 0 ≤ ρ)
    {X : Nat → Pose K} {S : Pins K} {J : Ball K} (hJ : Movable cfg body Λ ρ J) (h : Alone body S J) :
    ∃ J', (J'.b1 = J.b1 ∧ J'.b2 = J.b2 ∧ J'.a1 = J.a1 ∧ J'.a2 = J.a2 ∧ J'.coneOn = J.coneOn) ∧ Alone body (positionAll cfg body X S).2 J' ∧
      (UnitAt X J → gapSq body (positionAll cfg body X S).1 J.b1 J.b2 J.a1 J.a2 ≤
        (rate body Λ ρ J * gapSq body X J.b1 J.b2 J.a1 J.a2) * (rate body Λ ρ J * gapSq body X J.b1 J.b2 J.a1 J.a2)) ∧
      ((∀ c, c = J.b1 ∨ c = J.b2 → (X c).q.lengthSq ≠ 0) → UnitAt (positionAll cfg body X S).1 J) := by
  obtain ⟨Z, J', hun, ⟨P1, m1⟩, ⟨P2, m2⟩, hJ', hal⟩ := positionAll_alone hs body X S J h
  have s := Ball.position_same cfg body J Z
  have t := (Ball.position_ok (cfg := cfg) (body := body) (P := fun _ _ => True) J trivial Z).2
  rw [← hJ'] at s t
  refine ⟨J', ⟨t.1, t.2.1, s.1, s.2.1, s.2.2⟩, hal, fun hq => ?_, fun hq c hc => ?_⟩
  · obtain ⟨hZ, hY⟩ := hun hq
    have eq1 : ∀ {A B : Nat → Pose K}, (∀ c, c = J.b1 ∨ c = J.b2 → A c = B c) →
        gapSq body A J.b1 J.b2 J.a1 J.a2 = gapSq body B J.b1 J.b2 J.a1 J.a2 := by
      intro A B hAB
      unfold gapSq anchorAt
      rw [hAB _ (.inl rfl), hAB _ (.inr rfl)]
    rw [eq1 hY, ← eq1 hZ, Ball.position_pull hJ.cone]
    refine pull_gap hs he hJ.two hΛ hρ hJ.l1 hJ.l2 hJ.pos hJ.dyn hJ.large ?_ ?_ hJ.a1 hJ.a2
    · rw [hZ _ (.inl rfl)]; exact hq _ (.inl rfl)
    · rw [hZ _ (.inr rfl)]; exact hq _ (.inr rfl)
  · refine m2.unit hs c ?_
    have hne := m1.ne hs c (hq c hc)
    have hdef := massMatrix_definite (o1 := (Z J.b1).q.matrix) (o2 := (Z J.b2).q.matrix) hJ.pos hJ.l1.i hJ.l2.i (armAt body Z J.b1 J.a1)
      (armAt body Z J.b2 J.a2)
    have hdet := lt_of_lt_of_le (lt_of_lt_of_le hJ.large hdef.det) (le_abs_self _)
    rw [Ball.position_pull hJ.cone]
    unfold pull twoAt
    dsimp only
    rw [if_pos hdet]
    dsimp only
    rw [place_at]
    dsimp only
    rcases hc with rfl | rfl
    · rw [if_neg hJ.two, if_pos rfl]
      exact spin_unit hs _ hne
    · rw [if_pos rfl, if_neg (Ne.symm hJ.two)]
      exact spin_unit hs _ hne

/-- **C110 (one pass).** The gap after a pass is at most `rate` times the square of the gap before. With anchors at the centers of mass, or without
rotations, the pass closes the gap. What is missing in this and the following theorems: heavy bodies, see `heavy_gap_stays`. -/
theorem ball_pass_partial {cfg : JCfg K} (hs : IsSqrt cfg.sqrt) (he : 0 ≤ cfg.eps) {body : Nat → PBody K} {Λ ρ : K} (hΛ : 0 ≤ Λ) (hρ : 0 ≤ ρ)
    {X : Nat → Pose K} {S : Pins K} {J : Ball K} (hq : UnitAt X J) (hJ : Movable cfg body Λ ρ J) (h : Alone body S J) :
    gapSq body (correct cfg body 1 (X, S)).1 J.b1 J.b2 J.a1 J.a2 ≤
      (rate body Λ ρ J * gapSq body X J.b1 J.b2 J.a1 J.a2) * (rate body Λ ρ J * gapSq body X J.b1 J.b2 J.a1 J.a2) := by
  obtain ⟨J', -, -, g, -⟩ := positionAll_gap hs he hΛ hρ (X := X) hJ h
  exact g hq

/-- **C110 (all passes).** In units of one over `rate`, the gap after `n` passes is at most the gap before to the power of `2^n`. -/
theorem ball_converges_partial {cfg : JCfg K} (hs : IsSqrt cfg.sqrt) (he : 0 ≤ cfg.eps) {body : Nat → PBody K} {Λ ρ : K} (hΛ : 0 ≤ Λ) (hρ : 0 ≤ ρ) :
    ∀ (n : Nat) {X : Nat → Pose K} {S : Pins K} {J : Ball K} (_ : UnitAt X J) (_ : Movable cfg body Λ ρ J) (_ : Alone body S J),
    rate body Λ ρ J * rate body Λ ρ J * gapSq body (correct cfg body n (X, S)).1 J.b1 J.b2 J.a1 J.a2 ≤
      (rate body Λ ρ J * rate body Λ ρ J * gapSq body X J.b1 J.b2 J.a1 J.a2) ^ 2 ^ n
  | 0, X, S, J, hq, hJ, h => by simp [correct]
  | n + 1, X, S, J, hq, hJ, h => by
    obtain ⟨J', ⟨e1, e2, e3, e4, e5⟩, hal, hg, hu⟩ := positionAll_gap hs he hΛ hρ (X := X) hJ h
    have hg := hg hq
    have hJ' : Movable cfg body Λ ρ J' := by
      obtain ⟨m1, m2, m3, m4, m5, m6, m7, m8, m9⟩ := hJ
      constructor <;> simpa only [e1, e2, e3, e4, e5]
    have hr : rate body Λ ρ J' = rate body Λ ρ J := by unfold rate; rw [e1, e2]
    have hq' : UnitAt (positionAll cfg body X S).1 J' := fun c hc =>
      hu (fun c hc => by rw [hq c hc]; exact one_ne_zero) c (by rw [← e1, ← e2]; exact hc)
    have ih := ball_converges_partial hs he hΛ hρ n hq' hJ' hal
    rw [hr, e1, e2, e3, e4] at ih
    show rate body Λ ρ J * rate body Λ ρ J * gapSq body (correct cfg body n (positionAll cfg body X S)).1 J.b1 J.b2 J.a1 J.a2 ≤ _
    refine le_trans ih ?_
    rw [pow_succ' 2 n, pow_mul]
    refine pow_le_pow_left₀ (mul_nonneg (mul_self_nonneg _) (gapSq_nonneg _ _ _ _ _ _)) ?_ _
    generalize rate body Λ ρ J = c at *
    generalize gapSq body X J.b1 J.b2 J.a1 J.a2 = G at *
    calc _ ≤ c * c * (c * G * (c * G)) := mul_le_mul_of_nonneg_left hg (mul_self_nonneg c)
      _ = _ := by ring

/-- **C110 (orientations of the integration).** The first pass makes the orientations of the two bodies unit quaternions, whatever the integration made
of them, and from then on the passes converge. -/
theorem ball_converges_later_partial {cfg : JCfg K} (hs : IsSqrt cfg.sqrt) (he : 0 ≤ cfg.eps) {body : Nat → PBody K} {Λ ρ : K} (hΛ : 0 ≤ Λ) (hρ : 0 ≤ ρ) (n : Nat)
    {X : Nat → Pose K} {S : Pins K} {J : Ball K} (hq : ∀ c, c = J.b1 ∨ c = J.b2 → (X c).q.lengthSq ≠ 0) (hJ : Movable cfg body Λ ρ J) (h : Alone body S J) :
    UnitAt (correct cfg body 1 (X, S)).1 J ∧
    rate body Λ ρ J * rate body Λ ρ J * gapSq body (correct cfg body (n + 1) (X, S)).1 J.b1 J.b2 J.a1 J.a2 ≤
      (rate body Λ ρ J * rate body Λ ρ J * gapSq body (correct cfg body 1 (X, S)).1 J.b1 J.b2 J.a1 J.a2) ^ 2 ^ n := by
  obtain ⟨J', ⟨e1, e2, e3, e4, e5⟩, hal, -, hu⟩ := positionAll_gap hs he hΛ hρ (X := X) hJ h
  have hu := hu hq
  have hJ' : Movable cfg body Λ ρ J' := by
    obtain ⟨m1, m2, m3, m4, m5, m6, m7, m8, m9⟩ := hJ
    constructor <;> simpa only [e1, e2, e3, e4, e5]
  have hr : rate body Λ ρ J' = rate body Λ ρ J := by unfold rate; rw [e1, e2]
  have ih := ball_converges_partial hs he hΛ hρ n (X := (positionAll cfg body X S).1) (S := (positionAll cfg body X S).2) (J := J')
    (fun c hc => hu c (by rw [← e1, ← e2]; exact hc)) hJ' hal
  rw [hr, e1, e2, e3, e4] at ih
  exact ⟨hu, ih⟩

/-- **C110 (limit).** If the gap at the beginning is less than one over `rate`, it becomes smaller than any positive number. -/
theorem ball_closes_partial [Archimedean K] {cfg : JCfg K} (hs : IsSqrt cfg.sqrt) (he : 0 ≤ cfg.eps) {body : Nat → PBody K} {Λ ρ : K} (hΛ : 0 < Λ) (hρ : 0 < ρ)
    {X : Nat → Pose K} {S : Pins K} {J : Ball K} (hq : UnitAt X J) (hJ : Movable cfg body Λ ρ J) (h : Alone body S J)
    (hg : rate body Λ ρ J * rate body Λ ρ J * gapSq body X J.b1 J.b2 J.a1 J.a2 < 1) {δ : K} (hδ : 0 < δ) :
    ∃ N, ∀ n, N ≤ n → gapSq body (correct cfg body n (X, S)).1 J.b1 J.b2 J.a1 J.a2 < δ := by
  have hc : 0 < rate body Λ ρ J := div_pos (mul_pos hΛ hρ) (mul_pos (by norm_num) hJ.pos)
  have hcc := mul_pos hc hc
  have h0 : 0 ≤ rate body Λ ρ J * rate body Λ ρ J * gapSq body X J.b1 J.b2 J.a1 J.a2 := mul_nonneg hcc.le (gapSq_nonneg _ _ _ _ _ _)
  obtain ⟨N, hN⟩ := exists_pow_lt_of_lt_one (mul_pos hcc hδ) hg
  refine ⟨N, fun n hn => ?_⟩
  have k := ball_converges_partial hs he hΛ.le hρ.le n hq hJ h
  have hle : N ≤ 2 ^ n := le_trans hn (Nat.lt_two_pow_self).le
  have := lt_of_le_of_lt (le_trans k (pow_le_pow_of_le_one h0 hg.le hle)) hN
  exact lt_of_mul_lt_mul_left this hcc.le

end Joints
end RP3D
