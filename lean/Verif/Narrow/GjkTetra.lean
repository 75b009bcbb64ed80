import Verif.Narrow.GjkSimplex
import Mathlib.Data.Finset.Max
import Mathlib.Data.Fintype.Basic
import Mathlib.Tactic.IntervalCases
import Mathlib.Tactic.FinCases
import Mathlib.Data.Fin.VecNotation

/-! The closest point of a tetrahedron. -/

namespace RP3D
namespace Gjk
variable {K : Type} [Field K] [LinearOrder K] [IsStrictOrderedRing K]

/-- No assertion of `computeClosestPointOnTriangle` fails if the edges are longer than `MACHINE_EPSILON`. -/
theorem triangle_some {cf : Cfg K} {a b c : V3 K} (h1 : cf.eps < (b - a).lengthSq) (h2 : cf.eps < (c - a).lengthSq)
    (h3 : cf.eps < (c - b).lengthSq) : ∃ t, triangle cf a b c = some t := by
  obtain ⟨e3, e4, e5, e6⟩ := dot_neg_sub a b c
  have e : (c - b).lengthSq = (b - a).lengthSq + (c - a).lengthSq - 2 * (b - a).dot (c - a) := by
    simp only [V3.dot, V3.lengthSq, V3.sub_x, V3.sub_y, V3.sub_z]; ring
  have q1 : cf.eps < |(b - a).dot (-a) - (b - a).dot (-b)| := by
    rw [e3]; exact lt_of_lt_of_le h1 (le_trans (by ring_nf; exact le_rfl) (le_abs_self _))
  have q2 : cf.eps < |(c - a).dot (-a) - (c - a).dot (-c)| := by
    rw [e6]; exact lt_of_lt_of_le h2 (le_trans (by ring_nf; exact le_rfl) (le_abs_self _))
  have q3 : cf.eps < |((c - a).dot (-b) - (b - a).dot (-b)) + ((b - a).dot (-c) - (c - a).dot (-c))| := by
    rw [e3, e4, e5, e6]; rw [e] at h3
    exact lt_of_lt_of_le h3 (le_trans (by ring_nf; exact le_rfl) (le_abs_self _))
  simp only [triangle]
  split_ifs <;> exact ⟨_, rfl⟩

/-- Going from a point of a tetrahedron (coordinates `m`) to a point outside of it (coordinates `l`), a face is crossed which the latter is
outside of. -/
theorem crossing (m l : Fin 4 → K) (hm : ∀ i, 0 ≤ m i) (hl : ∃ i, l i < 0) :
    ∃ s i, 0 ≤ s ∧ s ≤ 1 ∧ l i < 0 ∧ (1 - s) * m i + s * l i = 0 ∧ ∀ j, 0 ≤ (1 - s) * m j + s * l j := by
  classical
  obtain ⟨i0, h0⟩ := hl
  obtain ⟨i, hi, hmin⟩ := Finset.exists_min_image (Finset.univ.filter fun i => l i < 0) (fun i => m i / (m i - l i)) ⟨i0, by simp [h0]⟩
  have hli : l i < 0 := by simpa using hi
  have hd : 0 < m i - l i := by linarith [hm i]
  refine ⟨m i / (m i - l i), i, div_nonneg (hm i) hd.le, ?_, hli, ?_, fun j => ?_⟩
  · rw [div_le_one hd]; linarith
  · field_simp; ring
  · have hs0 : 0 ≤ m i / (m i - l i) := div_nonneg (hm i) hd.le
    have hs1 : m i / (m i - l i) ≤ 1 := by rw [div_le_one hd]; linarith
    rcases lt_or_ge (l j) 0 with hj | hj
    · have hdj : 0 < m j - l j := by linarith [hm j]
      have h := hmin j (by simp [hj])
      rw [le_div_iff₀ hdj] at h
      linarith
    · have := mul_nonneg (sub_nonneg.2 hs1) (hm j)
      have := mul_nonneg hs0 hj
      linarith

/-- The point with the given coordinates. -/
def mix (l0 l1 l2 l3 : K) (a b c d : V3 K) : V3 K := V3.smul l0 a + V3.smul l1 b + V3.smul l2 c + V3.smul l3 d

def Tet.point (t : Tet K) (a b c d : V3 K) : V3 K := mix t.l0 t.l1 t.l2 t.l3 a b c d

theorem dot_mix (v a b c d : V3 K) (l0 l1 l2 l3 : K) :
    v.dot (mix l0 l1 l2 l3 a b c d) = l0 * v.dot a + l1 * v.dot b + l2 * v.dot c + l3 * v.dot d := by
  simp only [mix, V3.dot, V3.add_x, V3.add_y, V3.add_z, V3.smul_x, V3.smul_y, V3.smul_z]; ring

/-- Coordinates of a point on the boundary of the tetrahedron, with the used points. -/
structure Cand (a b c d : V3 K) (t : Tet K) : Prop where
  h0 : 0 ≤ t.l0
  h1 : 0 ≤ t.l1
  h2 : 0 ≤ t.l2
  h3 : 0 ≤ t.l3
  sum : t.l0 + t.l1 + t.l2 + t.l3 = 1
  z0 : 1 &&& t.bits = 0 → t.l0 = 0
  z1 : 2 &&& t.bits = 0 → t.l1 = 0
  z2 : 4 &&& t.bits = 0 → t.l2 = 0
  z3 : 8 &&& t.bits = 0 → t.l3 = 0
  u0 : 1 &&& t.bits ≠ 0 → (t.point a b c d).dot a = (t.point a b c d).lengthSq
  u1 : 2 &&& t.bits ≠ 0 → (t.point a b c d).dot b = (t.point a b c d).lengthSq
  u2 : 4 &&& t.bits ≠ 0 → (t.point a b c d).dot c = (t.point a b c d).lengthSq
  u3 : 8 &&& t.bits ≠ 0 → (t.point a b c d).dot d = (t.point a b c d).lengthSq
  lo : t.bits ≠ 0
  hi : t.bits ≤ 14

/-- `m` is at most the squared length of every point of the triangle. -/
def Below (m : K) (p q r : V3 K) : Prop :=
  ∀ u v w, 0 ≤ u → 0 ≤ v → 0 ≤ w → u + v + w = 1 → m ≤ (V3.smul u p + V3.smul v q + V3.smul w r).lengthSq

theorem Below.mono {m m' : K} {p q r : V3 K} (h : Below m p q r) (hm : m' ≤ m) : Below m' p q r :=
  fun u v w hu hv hw hs => hm.trans (h u v w hu hv hw hs)

theorem le_of_opt {p y : V3 K} (h : p.lengthSq ≤ p.dot y) : p.lengthSq ≤ y.lengthSq := by
  have := lengthSq_nonneg (y - p)
  have e : (y - p).lengthSq = y.lengthSq - 2 * p.dot y + p.lengthSq := by
    simp only [V3.dot, V3.lengthSq, V3.sub_x, V3.sub_y, V3.sub_z]; ring
  linarith

theorem TriOk.below {a b c : V3 K} {t : Tri K} (h : TriOk a b c t) : Below (t.point a b c).lengthSq a b c := by
  intro u v w hu hv hw hs
  apply le_of_opt
  have e : (t.point a b c).dot (V3.smul u a + V3.smul v b + V3.smul w c) =
      u * (t.point a b c).dot a + v * (t.point a b c).dot b + w * (t.point a b c).dot c := by
    simp only [V3.dot, V3.add_x, V3.add_y, V3.add_z, V3.smul_x, V3.smul_y, V3.smul_z]; ring
  rw [e]
  have e2 : (t.point a b c).lengthSq = u * (t.point a b c).lengthSq + v * (t.point a b c).lengthSq + w * (t.point a b c).lengthSq := by
    rw [← add_mul, ← add_mul, hs, one_mul]
  rw [e2]
  linarith [mul_le_mul_of_nonneg_left h.oa hu, mul_le_mul_of_nonneg_left h.ob hv, mul_le_mul_of_nonneg_left h.oc hw]

theorem mapUsed_bits : ∀ n < 8, n ≠ 0 →
    ((1 &&& mapUsed n 0 2 3 = 0 ↔ 1 &&& n = 0) ∧ 2 &&& mapUsed n 0 2 3 = 0 ∧ (4 &&& mapUsed n 0 2 3 = 0 ↔ 2 &&& n = 0) ∧
      (8 &&& mapUsed n 0 2 3 = 0 ↔ 4 &&& n = 0) ∧ mapUsed n 0 2 3 ≠ 0 ∧ mapUsed n 0 2 3 ≤ 14) ∧
    ((1 &&& mapUsed n 0 3 1 = 0 ↔ 1 &&& n = 0) ∧ (2 &&& mapUsed n 0 3 1 = 0 ↔ 4 &&& n = 0) ∧ 4 &&& mapUsed n 0 3 1 = 0 ∧
      (8 &&& mapUsed n 0 3 1 = 0 ↔ 2 &&& n = 0) ∧ mapUsed n 0 3 1 ≠ 0 ∧ mapUsed n 0 3 1 ≤ 14) ∧
    (1 &&& mapUsed n 1 3 2 = 0 ∧ (2 &&& mapUsed n 1 3 2 = 0 ↔ 1 &&& n = 0) ∧ (4 &&& mapUsed n 1 3 2 = 0 ↔ 4 &&& n = 0) ∧
      (8 &&& mapUsed n 1 3 2 = 0 ↔ 2 &&& n = 0) ∧ mapUsed n 1 3 2 ≠ 0 ∧ mapUsed n 1 3 2 ≤ 14) ∧ 8 &&& n = 0 := by
  intro n hn h0
  interval_cases n <;> first | exact absurd rfl h0 | decide

theorem cand_abc {a b c : V3 K} (d : V3 K) {t : Tri K} (h : TriOk a b c t) (m : K) :
    Cand a b c d ⟨t.u, t.v, t.w, 0, t.bits, m⟩ ∧ Tet.point ⟨t.u, t.v, t.w, 0, t.bits, m⟩ a b c d = t.point a b c := by
  have e : Tet.point ⟨t.u, t.v, t.w, 0, t.bits, m⟩ a b c d = t.point a b c := by
    ext <;> simp [Tet.point, mix, Tri.point]
  obtain ⟨-, -, -, hb⟩ := mapUsed_bits t.bits (by have := h.hi; omega) h.lo
  refine ⟨⟨h.u, h.v, h.w, le_rfl, by simpa using h.sum, h.za, h.zb, h.zc, fun _ => rfl, ?_, ?_, ?_, ?_, h.lo, by have := h.hi; simp only; omega⟩, e⟩ <;>
    rw [e]
  · exact h.ua
  · exact h.ub
  · exact h.uc
  · intro hh; exact absurd hb hh

theorem cand_acd {a c d : V3 K} (b : V3 K) {t : Tri K} (h : TriOk a c d t) (m : K) :
    Cand a b c d ⟨t.u, 0, t.v, t.w, mapUsed t.bits 0 2 3, m⟩ ∧
      Tet.point ⟨t.u, 0, t.v, t.w, mapUsed t.bits 0 2 3, m⟩ a b c d = t.point a c d := by
  have e : Tet.point ⟨t.u, 0, t.v, t.w, mapUsed t.bits 0 2 3, m⟩ a b c d = t.point a c d := by
    ext <;> simp [Tet.point, mix, Tri.point]
  obtain ⟨⟨b0, b1, b2, b3, b4, b5⟩, -, -, -⟩ := mapUsed_bits t.bits (by have := h.hi; omega) h.lo
  refine ⟨⟨h.u, le_rfl, h.v, h.w, by simpa using h.sum, fun hh => h.za (b0.1 hh), fun _ => rfl, fun hh => h.zb (b2.1 hh), fun hh => h.zc (b3.1 hh),
    ?_, ?_, ?_, ?_, b4, b5⟩, e⟩ <;> rw [e]
  · exact fun hh => h.ua (fun q => hh (b0.2 q))
  · exact fun hh => absurd b1 hh
  · exact fun hh => h.ub (fun q => hh (b2.2 q))
  · exact fun hh => h.uc (fun q => hh (b3.2 q))

theorem cand_adb {a d b : V3 K} (c : V3 K) {t : Tri K} (h : TriOk a d b t) (m : K) :
    Cand a b c d ⟨t.u, t.w, 0, t.v, mapUsed t.bits 0 3 1, m⟩ ∧
      Tet.point ⟨t.u, t.w, 0, t.v, mapUsed t.bits 0 3 1, m⟩ a b c d = t.point a d b := by
  have e : Tet.point ⟨t.u, t.w, 0, t.v, mapUsed t.bits 0 3 1, m⟩ a b c d = t.point a d b := by
    ext <;> simp [Tet.point, mix, Tri.point] <;> ring
  obtain ⟨-, ⟨b0, b1, b2, b3, b4, b5⟩, -, -⟩ := mapUsed_bits t.bits (by have := h.hi; omega) h.lo
  refine ⟨⟨h.u, h.w, le_rfl, h.v, by have := h.sum; simp only; linarith, fun hh => h.za (b0.1 hh), fun hh => h.zc (b1.1 hh), fun _ => rfl,
    fun hh => h.zb (b3.1 hh), ?_, ?_, ?_, ?_, b4, b5⟩, e⟩ <;> rw [e]
  · exact fun hh => h.ua (fun q => hh (b0.2 q))
  · exact fun hh => h.uc (fun q => hh (b1.2 q))
  · exact fun hh => absurd b2 hh
  · exact fun hh => h.ub (fun q => hh (b3.2 q))

theorem cand_bdc {b d c : V3 K} (a : V3 K) {t : Tri K} (h : TriOk b d c t) (m : K) :
    Cand a b c d ⟨0, t.u, t.w, t.v, mapUsed t.bits 1 3 2, m⟩ ∧
      Tet.point ⟨0, t.u, t.w, t.v, mapUsed t.bits 1 3 2, m⟩ a b c d = t.point b d c := by
  have e : Tet.point ⟨0, t.u, t.w, t.v, mapUsed t.bits 1 3 2, m⟩ a b c d = t.point b d c := by
    ext <;> simp [Tet.point, mix, Tri.point] <;> ring
  obtain ⟨-, -, ⟨b0, b1, b2, b3, b4, b5⟩, -⟩ := mapUsed_bits t.bits (by have := h.hi; omega) h.lo
  refine ⟨⟨le_rfl, h.u, h.w, h.v, by have := h.sum; simp only; linarith, fun _ => rfl, fun hh => h.za (b1.1 hh), fun hh => h.zc (b2.1 hh),
    fun hh => h.zb (b3.1 hh), ?_, ?_, ?_, ?_, b4, b5⟩, e⟩ <;> rw [e]
  · exact fun hh => absurd b0 hh
  · exact fun hh => h.ua (fun q => hh (b1.2 q))
  · exact fun hh => h.uc (fun q => hh (b2.2 q))
  · exact fun hh => h.ub (fun q => hh (b3.2 q))

/-- The volume of the tetrahedron (six times, with sign). -/
def vol (a b c d : V3 K) : K := (b - a).dot ((c - a).cross (d - a))

/-- The products of `testOriginOutsideOfPlane` for the four faces: coordinates of the origin times the volume. -/
def qd (a b c _d : V3 K) : K := (-a).dot ((b - a).cross (c - a))
def qb (a _b c d : V3 K) : K := (-a).dot ((c - a).cross (d - a))
def qc (a b _c d : V3 K) : K := (-a).dot ((d - a).cross (b - a))
def qa (_a b c d : V3 K) : K := (-b).dot ((d - b).cross (c - b))

theorem vol_faces (a b c d : V3 K) : (d - a).dot ((b - a).cross (c - a)) = vol a b c d ∧ (c - a).dot ((d - a).cross (b - a)) = vol a b c d ∧
    (a - b).dot ((d - b).cross (c - b)) = vol a b c d := by
  refine ⟨?_, ?_, ?_⟩ <;> simp only [vol, V3.dot, V3.cross, V3.sub_x, V3.sub_y, V3.sub_z] <;> ring

theorem origin_coords (a b c d : V3 K) : qa a b c d + qb a b c d + qc a b c d + qd a b c d = vol a b c d ∧
    mix (qa a b c d) (qb a b c d) (qc a b c d) (qd a b c d) a b c d = 0 := by
  refine ⟨?_, ?_⟩
  · simp only [qa, qb, qc, qd, vol, V3.dot, V3.cross, V3.sub_x, V3.sub_y, V3.sub_z, V3.neg_x, V3.neg_y, V3.neg_z]; ring
  · ext <;> simp only [mix, qa, qb, qc, qd, V3.dot, V3.cross, V3.sub_x, V3.sub_y, V3.sub_z, V3.neg_x, V3.neg_y, V3.neg_z, V3.add_x, V3.add_y,
      V3.add_z, V3.smul_x, V3.smul_y, V3.smul_z, V3.zero_x, V3.zero_y, V3.zero_z] <;> ring

theorem outside_eq {cf : Cfg K} {p q D : K} (hv : 0 ≤ cf.veps) (hD : cf.veps < |D|) (hq : q = D) :
    (if q * q < cf.veps * cf.veps then (-1 : Int) else if p * q < 0 then 1 else 0) = if p / D < 0 then 1 else 0 := by
  subst hq
  have h0 : q ≠ 0 := by
    rintro rfl
    simp at hD
    exact absurd hD (not_lt.2 hv)
  have h1 : ¬ q * q < cf.veps * cf.veps := by
    rw [not_lt, ← abs_mul_abs_self q]
    exact mul_self_le_mul_self hv hD.le
  rw [if_neg h1]
  have h2 : p * q < 0 ↔ p / q < 0 := by
    rw [mul_neg_iff, div_neg_iff]
  simp only [h2]

/-- The four tests of `computeClosestPointOnTetrahedron` find the sign of the coordinates of the origin. -/
theorem outside_planes {cf : Cfg K} {a b c d : V3 K} (hv : 0 ≤ cf.veps) (hD : cf.veps < |vol a b c d|) :
    outsidePlane cf a b c d = (if qd a b c d / vol a b c d < 0 then 1 else 0) ∧
    outsidePlane cf a c d b = (if qb a b c d / vol a b c d < 0 then 1 else 0) ∧
    outsidePlane cf a d b c = (if qc a b c d / vol a b c d < 0 then 1 else 0) ∧
    outsidePlane cf b d c a = (if qa a b c d / vol a b c d < 0 then 1 else 0) := by
  obtain ⟨e1, e2, e3⟩ := vol_faces a b c d
  exact ⟨outside_eq hv hD e1, outside_eq hv hD rfl, outside_eq hv hD e2, outside_eq hv hD e3⟩

theorem tryFace_cases {cf : Cfg K} {out : Int} {p q r : V3 K} {place : Tri K → K → Tet K} {cur : Tet K} (hs : ∃ t, triangle cf p q r = some t) :
    (out = 0 ∧ tryFace cf out p q r place cur = some cur) ∨
    (out ≠ 0 ∧ ∃ t, triangle cf p q r = some t ∧
      (((t.point p q r).lengthSq < cur.best ∧ tryFace cf out p q r place cur = some (place t (t.point p q r).lengthSq)) ∨
        (cur.best ≤ (t.point p q r).lengthSq ∧ tryFace cf out p q r place cur = some cur))) := by
  obtain ⟨t, ht⟩ := hs
  by_cases h : out = 0
  · left; exact ⟨h, by simp [tryFace, h]⟩
  · right
    refine ⟨h, t, ht, ?_⟩
    by_cases hb : (t.point p q r).lengthSq < cur.best
    · left; exact ⟨hb, by simp [tryFace, h, ht, hb]⟩
    · right; exact ⟨not_lt.1 hb, by simp [tryFace, h, ht, hb]⟩

/-- What is known after some of the faces: nothing found yet, or a point of the boundary whose squared length is `best`. -/
def Found (cf : Cfg K) (a b c d : V3 K) (t : Tet K) : Prop :=
  t = ⟨0, 0, 0, 0, 15, cf.large⟩ ∨ (Cand a b c d t ∧ t.best = (t.point a b c d).lengthSq)

/-- One face: the state after it is at least as near, and as near as the face if the origin is outside of it. -/
theorem face_step {cf : Cfg K} {a b c d : V3 K} {out : Int} {p q r : V3 K} {place : Tri K → K → Tet K} {cur : Tet K}
    (hs : ∃ t, triangle cf p q r = some t) (hn : 0 < ((q - p).cross (r - p)).lengthSq) (hl : p.lengthSq < cf.large)
    (hp : ∀ t m, TriOk p q r t → Cand a b c d (place t m) ∧ (place t m).point a b c d = t.point p q r ∧ (place t m).best = m)
    (hf : Found cf a b c d cur) :
    ∃ nxt, tryFace cf out p q r place cur = some nxt ∧ Found cf a b c d nxt ∧ nxt.best ≤ cur.best ∧
      (out ≠ 0 → Below nxt.best p q r ∧ nxt.best < cf.large) ∧ (out = 0 → nxt = cur) := by
  rcases tryFace_cases (out := out) (place := place) (cur := cur) hs with ⟨h0, h⟩ | ⟨h0, t, ht, ⟨hb, h⟩ | ⟨hb, h⟩⟩
  · exact ⟨cur, h, hf, le_rfl, fun h => absurd h0 h, fun _ => rfl⟩
  · have hok := triangle_ok hn ht
    obtain ⟨hc, he, hbest⟩ := hp t (t.point p q r).lengthSq hok
    refine ⟨_, h, Or.inr ⟨hc, by rw [hbest, he]⟩, by rw [hbest]; exact hb.le, fun _ => ⟨by rw [hbest]; exact hok.below, ?_⟩, fun h => absurd h h0⟩
    rw [hbest]
    exact lt_of_le_of_lt (le_of_opt hok.oa) hl
  · have hok := triangle_ok hn ht
    exact ⟨cur, h, hf, le_rfl, fun _ => ⟨hok.below.mono hb, lt_of_le_of_lt hb (lt_of_le_of_lt (le_of_opt hok.oa) hl)⟩, fun h => absurd h h0⟩

/-- The coordinates `t` describe the point of the tetrahedron closest to the origin. -/
structure TetOk (a b c d : V3 K) (t : Tet K) : Prop extends Cand a b c d t where
  oa : (t.point a b c d).lengthSq ≤ (t.point a b c d).dot a
  ob : (t.point a b c d).lengthSq ≤ (t.point a b c d).dot b
  oc : (t.point a b c d).lengthSq ≤ (t.point a b c d).dot c
  od : (t.point a b c d).lengthSq ≤ (t.point a b c d).dot d

/-- A nearest point of a segment satisfies the condition of optimality. -/
theorem opt_of_nearest {p x : V3 K} (h : ∀ s : K, 0 ≤ s → s ≤ 1 → p.lengthSq ≤ (V3.smul (1 - s) p + V3.smul s x).lengthSq) :
    p.lengthSq ≤ p.dot x := by
  by_contra hc
  rw [not_le] at hc
  have e : ∀ s : K, (V3.smul (1 - s) p + V3.smul s x).lengthSq = p.lengthSq - 2 * s * (p.lengthSq - p.dot x) + s * s * (x - p).lengthSq := by
    intro s
    simp only [V3.dot, V3.lengthSq, V3.sub_x, V3.sub_y, V3.sub_z, V3.add_x, V3.add_y, V3.add_z, V3.smul_x, V3.smul_y, V3.smul_z]; ring
  have hL := lengthSq_nonneg (x - p)
  set g := p.lengthSq - p.dot x with hg
  have hg0 : 0 < g := by rw [hg]; linarith
  set L := (x - p).lengthSq
  by_cases h1 : g < L
  · have hL0 : 0 < L := hg0.trans h1
    have := h (g / L) (by positivity) (by rw [div_le_one hL0]; exact h1.le)
    rw [e] at this
    have e2 : g / L * (g / L) * L = g / L * g := by field_simp
    rw [e2] at this
    have : 0 < g / L * g := by positivity
    linarith
  · have := h 1 (by simp) le_rfl
    rw [e] at this
    linarith

theorem cross_pos {x n : V3 K} (h : x.dot n ≠ 0) : 0 < n.lengthSq := by
  rcases (lengthSq_nonneg n).eq_or_lt with h0 | h0
  · have hx := lagrange x n
    rw [← h0] at hx
    have := lengthSq_nonneg (x.cross n)
    have h2 := mul_self_pos.2 h
    linarith
  · exact h0

/-- `computeClosestPointOnTetrahedron` for a tetrahedron which is not flat: the origin is inside, or the closest point is found. -/
theorem tetrahedron_spec {cf : Cfg K} {a b c d : V3 K} (hv : 0 ≤ cf.veps) (hD : cf.veps < |vol a b c d|)
    (hab : cf.eps < (b - a).lengthSq) (hac : cf.eps < (c - a).lengthSq) (had : cf.eps < (d - a).lengthSq) (hbc : cf.eps < (c - b).lengthSq)
    (hbd : cf.eps < (d - b).lengthSq) (hcd : cf.eps < (d - c).lengthSq) (hla : a.lengthSq < cf.large) (hlb : b.lengthSq < cf.large) :
    (tetrahedron cf a b c d = some (.outside ⟨0, 0, 0, 0, 15, cf.large⟩) ∧
      ∃ l0 l1 l2 l3 : K, 0 ≤ l0 ∧ 0 ≤ l1 ∧ 0 ≤ l2 ∧ 0 ≤ l3 ∧ l0 + l1 + l2 + l3 = 1 ∧ mix l0 l1 l2 l3 a b c d = 0) ∨
    ∃ t, tetrahedron cf a b c d = some (.outside t) ∧ TetOk a b c d t := by
  obtain ⟨o1, o2, o3, o4⟩ := outside_planes hv hD
  obtain ⟨hsum, hzero⟩ := origin_coords a b c d
  have hV : vol a b c d ≠ 0 := by
    intro h
    rw [h, abs_zero] at hD
    exact absurd hD (not_lt.2 hv)
  obtain ⟨v1, v2, v3⟩ := vol_faces a b c d
  have n1 : 0 < ((b - a).cross (c - a)).lengthSq := cross_pos (x := d - a) (by rw [v1]; exact hV)
  have n2 : 0 < ((c - a).cross (d - a)).lengthSq := cross_pos (x := b - a) (by exact hV)
  have n3 : 0 < ((d - a).cross (b - a)).lengthSq := cross_pos (x := c - a) (by rw [v2]; exact hV)
  have n4 : 0 < ((d - b).cross (c - b)).lengthSq := cross_pos (x := a - b) (by rw [v3]; exact hV)
  have t1 := triangle_some (cf := cf) hab hac hbc
  have t2 := triangle_some (cf := cf) hac had hcd
  have t3 := triangle_some (cf := cf) had hab (by rw [lengthSq_sub_comm]; exact hbd)
  have t4 := triangle_some (cf := cf) hbd hbc (by rw [lengthSq_sub_comm]; exact hcd)
  set D := vol a b c d
  have s1 : qa a b c d / D + qb a b c d / D + qc a b c d / D + qd a b c d / D = 1 := by
    rw [← add_div, ← add_div, ← add_div, hsum, div_self hV]
  have s2 : mix (qa a b c d / D) (qb a b c d / D) (qc a b c d / D) (qd a b c d / D) a b c d = 0 := by
    have hx := congrArg V3.x hzero; have hy := congrArg V3.y hzero; have hz := congrArg V3.z hzero
    simp only [mix, V3.add_x, V3.add_y, V3.add_z, V3.smul_x, V3.smul_y, V3.smul_z, V3.zero_x, V3.zero_y, V3.zero_z] at hx hy hz
    ext <;> simp only [mix, V3.add_x, V3.add_y, V3.add_z, V3.smul_x, V3.smul_y, V3.smul_z, V3.zero_x, V3.zero_y, V3.zero_z] <;> field_simp
    · linarith
    · linarith
    · linarith
  generalize qa a b c d / D = ra at *
  generalize qb a b c d / D = rb at *
  generalize qc a b c d / D = rc at *
  generalize qd a b c d / D = rd at *
  by_cases hin : 0 ≤ ra ∧ 0 ≤ rb ∧ 0 ≤ rc ∧ 0 ≤ rd
  · left
    refine ⟨?_, ra, rb, rc, rd, hin.1, hin.2.1, hin.2.2.1, hin.2.2.2, s1, s2⟩
    simp [tetrahedron, o1, o2, o3, o4, not_lt.2 hin.1, not_lt.2 hin.2.1, not_lt.2 hin.2.2.1, not_lt.2 hin.2.2.2]
  · right
    have f0 : Found cf a b c d ⟨0, 0, 0, 0, 15, cf.large⟩ := Or.inl rfl
    obtain ⟨w1, r1, f1, l1, g1, -⟩ := face_step (out := outsidePlane cf a b c d) (place := fun t m => ⟨t.u, t.v, t.w, 0, t.bits, m⟩) t1 n1 hla
      (fun t m ht => ⟨(cand_abc d ht m).1, (cand_abc d ht m).2, rfl⟩) f0
    obtain ⟨w2, r2, f2, l2, g2, -⟩ := face_step (out := outsidePlane cf a c d b) (place := fun t m => ⟨t.u, 0, t.v, t.w, mapUsed t.bits 0 2 3, m⟩) t2 n2 hla
      (fun t m ht => ⟨(cand_acd b ht m).1, (cand_acd b ht m).2, rfl⟩) f1
    obtain ⟨w3, r3, f3, l3, g3, -⟩ := face_step (out := outsidePlane cf a d b c) (place := fun t m => ⟨t.u, t.w, 0, t.v, mapUsed t.bits 0 3 1, m⟩) t3 n3 hla
      (fun t m ht => ⟨(cand_adb c ht m).1, (cand_adb c ht m).2, rfl⟩) f2
    obtain ⟨w4, r4, f4, l4, g4, -⟩ := face_step (out := outsidePlane cf b d c a) (place := fun t m => ⟨0, t.u, t.w, t.v, mapUsed t.bits 1 3 2, m⟩) t4 n4 hlb
      (fun t m ht => ⟨(cand_bdc a ht m).1, (cand_bdc a ht m).2, rfl⟩) f3
    refine ⟨w4, ?_, ?_⟩
    · have hneg : ¬ (outsidePlane cf a b c d < 0 ∨ outsidePlane cf a c d b < 0 ∨ outsidePlane cf a d b c < 0 ∨ outsidePlane cf b d c a < 0) := by
        rw [o1, o2, o3, o4]
        rintro (h | h | h | h) <;> split_ifs at h <;> simp at h
      have hnz : ¬ (outsidePlane cf a b c d = 0 ∧ outsidePlane cf a c d b = 0 ∧ outsidePlane cf a d b c = 0 ∧ outsidePlane cf b d c a = 0) := by
        rw [o1, o2, o3, o4]
        simp only [ite_eq_right_iff, one_ne_zero, imp_false, not_lt]
        exact fun h => hin ⟨h.2.2.2, h.2.1, h.2.2.1, h.1⟩
      unfold tetrahedron
      simp only []
      rw [if_neg hneg, if_neg hnz, r1]
      simp only [Option.bind_eq_bind, Option.bind_some]
      rw [r2]
      simp only [Option.bind_some]
      rw [r3]
      simp only [Option.bind_some]
      rw [r4]
      rfl
    · have near : ∀ m : Fin 4 → K, (∀ i, 0 ≤ m i) → m 0 + m 1 + m 2 + m 3 = 1 → w4.best ≤ (mix (m 0) (m 1) (m 2) (m 3) a b c d).lengthSq ∧ w4.best < cf.large := by
        intro m hm hms
        obtain ⟨s, i, hs0, hs1, hli, hz, hj⟩ := crossing m ![ra, rb, rc, rd] hm (by
          by_contra hcon
          push Not at hcon
          exact hin ⟨hcon 0, hcon 1, hcon 2, hcon 3⟩)
        have j0 := hj 0; have j1 := hj 1; have j2 := hj 2; have j3 := hj 3
        simp only [Matrix.cons_val_zero, Matrix.cons_val_one, Matrix.cons_val] at j0 j1 j2 j3
        have hsm : ((1 - s) * m 0 + s * ra) + ((1 - s) * m 1 + s * rb) + ((1 - s) * m 2 + s * rc) + ((1 - s) * m 3 + s * rd) = 1 := by
          linear_combination (1 - s) * hms + s * s1
        have hpt : mix ((1 - s) * m 0 + s * ra) ((1 - s) * m 1 + s * rb) ((1 - s) * m 2 + s * rc) ((1 - s) * m 3 + s * rd) a b c d =
            V3.smul (1 - s) (mix (m 0) (m 1) (m 2) (m 3) a b c d) := by
          have hx := congrArg V3.x s2; have hy := congrArg V3.y s2; have hz := congrArg V3.z s2
          simp only [mix, V3.add_x, V3.add_y, V3.add_z, V3.smul_x, V3.smul_y, V3.smul_z, V3.zero_x, V3.zero_y, V3.zero_z] at hx hy hz
          ext <;> simp only [mix, V3.add_x, V3.add_y, V3.add_z, V3.smul_x, V3.smul_y, V3.smul_z]
          · linear_combination s * hx
          · linear_combination s * hy
          · linear_combination s * hz
        have hle : (V3.smul (1 - s) (mix (m 0) (m 1) (m 2) (m 3) a b c d)).lengthSq ≤ (mix (m 0) (m 1) (m 2) (m 3) a b c d).lengthSq := by
          have hn := lengthSq_nonneg (mix (m 0) (m 1) (m 2) (m 3) a b c d)
          have e : (V3.smul (1 - s) (mix (m 0) (m 1) (m 2) (m 3) a b c d)).lengthSq = (1 - s) * (1 - s) * (mix (m 0) (m 1) (m 2) (m 3) a b c d).lengthSq := by
            simp only [V3.lengthSq, V3.smul_x, V3.smul_y, V3.smul_z]; ring
          rw [e]
          have h1 : (1 - s) * (1 - s) ≤ 1 := by nlinarith
          exact mul_le_of_le_one_left hn h1
        rw [← hpt] at hle
        fin_cases i
        · simp at hli hz
          have hg := g4 (by rw [o4, if_pos hli]; exact one_ne_zero)
          refine ⟨(le_trans (hg.1 _ _ _ j1 j3 j2 (by linarith)) (le_of_eq ?_)).trans hle, hg.2⟩
          rw [hz]
          congr 1
          ext <;> simp only [mix, V3.add_x, V3.add_y, V3.add_z, V3.smul_x, V3.smul_y, V3.smul_z] <;> ring
        · simp at hli hz
          have hg := g2 (by rw [o2, if_pos hli]; exact one_ne_zero)
          refine ⟨(le_trans ((hg.1.mono (l4.trans l3)) _ _ _ j0 j2 j3 (by linarith)) (le_of_eq ?_)).trans hle, lt_of_le_of_lt (l4.trans l3) hg.2⟩
          rw [hz]
          congr 1
          ext <;> simp only [mix, V3.add_x, V3.add_y, V3.add_z, V3.smul_x, V3.smul_y, V3.smul_z] <;> ring
        · simp at hli hz
          have hg := g3 (by rw [o3, if_pos hli]; exact one_ne_zero)
          refine ⟨(le_trans ((hg.1.mono l4) _ _ _ j0 j3 j1 (by linarith)) (le_of_eq ?_)).trans hle, lt_of_le_of_lt l4 hg.2⟩
          rw [hz]
          congr 1
          ext <;> simp only [mix, V3.add_x, V3.add_y, V3.add_z, V3.smul_x, V3.smul_y, V3.smul_z] <;> ring
        · simp at hli hz
          have hg := g1 (by rw [o1, if_pos hli]; exact one_ne_zero)
          refine ⟨(le_trans ((hg.1.mono (l4.trans (l3.trans l2))) _ _ _ j0 j1 j2 (by linarith)) (le_of_eq ?_)).trans hle,
            lt_of_le_of_lt (l4.trans (l3.trans l2)) hg.2⟩
          rw [hz]
          congr 1
          ext <;> simp only [mix, V3.add_x, V3.add_y, V3.add_z, V3.smul_x, V3.smul_y, V3.smul_z] <;> ring
      rcases f4 with h | ⟨hc, hb⟩
      · have := (near ![1, 0, 0, 0] (by intro i; fin_cases i <;> simp) (by simp)).2
        rw [h] at this
        exact absurd this (lt_irrefl _)
      · rw [hb] at near
        have hopt : ∀ e : Fin 4 → K, (∀ i, 0 ≤ e i) → e 0 + e 1 + e 2 + e 3 = 1 →
            (w4.point a b c d).lengthSq ≤ (w4.point a b c d).dot (mix (e 0) (e 1) (e 2) (e 3) a b c d) := by
          intro e he hes
          apply opt_of_nearest
          intro s hs0 hs1
          have h := (near ![(1 - s) * w4.l0 + s * e 0, (1 - s) * w4.l1 + s * e 1, (1 - s) * w4.l2 + s * e 2, (1 - s) * w4.l3 + s * e 3] (by
            have q := sub_nonneg.2 hs1
            intro i
            fin_cases i
            · exact add_nonneg (mul_nonneg q hc.h0) (mul_nonneg hs0 (he 0))
            · exact add_nonneg (mul_nonneg q hc.h1) (mul_nonneg hs0 (he 1))
            · exact add_nonneg (mul_nonneg q hc.h2) (mul_nonneg hs0 (he 2))
            · exact add_nonneg (mul_nonneg q hc.h3) (mul_nonneg hs0 (he 3))) (by
            simp only [Matrix.cons_val_zero, Matrix.cons_val_one, Matrix.cons_val]
            linear_combination (1 - s) * hc.sum + s * hes)).1
          refine h.trans (le_of_eq ?_)
          congr 1
          ext <;> simp only [Tet.point, mix, V3.add_x, V3.add_y, V3.add_z, V3.smul_x, V3.smul_y, V3.smul_z, Matrix.cons_val_zero, Matrix.cons_val_one,
            Matrix.cons_val] <;> ring
        refine ⟨hc, ?_, ?_, ?_, ?_⟩
        · have := hopt ![1, 0, 0, 0] (by intro i; fin_cases i <;> simp) (by simp)
          rw [dot_mix] at this
          simpa using this
        · have := hopt ![0, 1, 0, 0] (by intro i; fin_cases i <;> simp) (by simp)
          rw [dot_mix] at this
          simpa using this
        · have := hopt ![0, 0, 1, 0] (by intro i; fin_cases i <;> simp) (by simp)
          rw [dot_mix] at this
          simpa using this
        · have := hopt ![0, 0, 0, 1] (by intro i; fin_cases i <;> simp) (by simp)
          rw [dot_mix] at this
          simpa using this

end Gjk
end RP3D
