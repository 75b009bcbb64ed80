import Verif.Narrow.Scaled
import Verif.Props.SatBox
import Verif.Props.SatTest
import Verif.Props.SatExamples
import Mathlib.Tactic.Positivity
import Mathlib.Tactic.LinearCombination

/-! C158: a scaled convex mesh is tested as the scaled solid. -/

namespace RP3D
namespace Scaled
open Ray Shape RayProps PointProps RoundProps Geom Sat SatGeom SatProps

set_option linter.unusedSectionVars false
variable {K : Type} [Field K] [LinearOrder K] [IsStrictOrderedRing K]

/-! ### Specification -/

/-- The points of a solid, each coordinate multiplied by a factor. -/
def Stretched (s : V3 K) (S : V3 K → Prop) (x : V3 K) : Prop := ∃ y, S y ∧ x = ⟨s.x * y.x, s.y * y.y, s.z * y.z⟩

/-! ### Proofs -/

theorem verts_shape (sqrt : K → K) (s : V3 K) (sup : V3 K → V3 K) (P : Poly K) : verts (shape sqrt s sup P) = (verts P).map (scaleBy s) := by
  unfold verts shape
  rw [List.map_map]
  refine List.map_congr_left fun v _ => ?_
  simp only [Function.comp, scaleBy]
  ext <;> simp only <;> ring

theorem scale_mix (s a b : V3 K) (w : K) : scaleBy s (V3.smul (1 - w) a + V3.smul w b) = V3.smul (1 - w) (scaleBy s a) + V3.smul w (scaleBy s b) := by
  ext <;> simp only [scaleBy, V3.smul, V3.add_x, V3.add_y, V3.add_z] <;> ring

/-- **C158.** The solid that the vertices of the shape span is the solid of the mesh, stretched. -/
theorem hulled (sqrt : K → K) (s : V3 K) (sup : V3 K → V3 K) (P : Poly K) (x : V3 K) :
    Hulled (shape sqrt s sup P) x ↔ Stretched s (Hulled P) x := by
  unfold Hulled
  rw [verts_shape]
  constructor
  · intro h
    induction h with
    | vertex hv =>
      obtain ⟨y, hy, rfl⟩ := List.mem_map.1 hv
      exact ⟨y, .vertex hy, rfl⟩
    | mix _ _ h0 h1 iha ihb =>
      obtain ⟨a, ha, rfl⟩ := iha
      obtain ⟨b, hb, rfl⟩ := ihb
      exact ⟨_, .mix ha hb h0 h1, (scale_mix s a b _).symm⟩
  · rintro ⟨y, hy, rfl⟩
    show Hull _ (scaleBy s y)
    induction hy with
    | vertex hv => exact .vertex (List.mem_map.2 ⟨_, hv, rfl⟩)
    | mix _ _ h0 h1 iha ihb => rw [scale_mix]; exact .mix iha ihb h0 h1

/-- The normal before it is made a unit vector. -/
def raw (s n : V3 K) : V3 K := scaleBy ⟨1 / s.x, 1 / s.y, 1 / s.z⟩ n

theorem len_pos {v : V3 K} (h : v ≠ 0) : 0 < v.lengthSq := by
  unfold V3.lengthSq
  by_contra hc
  apply h
  have a := mul_self_nonneg v.x
  have b := mul_self_nonneg v.y
  have c := mul_self_nonneg v.z
  ext
  · exact mul_self_eq_zero.1 (by linarith)
  · exact mul_self_eq_zero.1 (by linarith)
  · exact mul_self_eq_zero.1 (by linarith)

section
variable {sqrt : K → K} (hq : IsSqrt sqrt) {s : V3 K} (sx : s.x ≠ 0) (sy : s.y ≠ 0) (sz : s.z ≠ 0)
include hq sx sy sz

/-- The normal of a face is a positive multiple of the raw normal and a unit vector. -/
theorem normal_spec {n : V3 K} (hn : n.lengthSq = 1) : ∃ k, 0 < k ∧ scaledNormal (fun v => sqrt v.lengthSq) s n = V3.smul k (raw s n) ∧
    (scaledNormal (fun v => sqrt v.lengthSq) s n).lengthSq = 1 := by
  have hr : raw s n ≠ 0 := by
    intro h
    have e : n = scaleBy s (raw s n) := by
      ext <;> simp only [raw, scaleBy] <;> field_simp
    rw [h] at e
    rw [e] at hn
    simp [scaleBy, V3.lengthSq] at hn
  have hl := len_pos hr
  obtain ⟨p, e⟩ := sqrt_pos hq hl
  refine ⟨1 / sqrt (raw s n).lengthSq, by positivity, rfl, ?_⟩
  show (V3.smul (1 / sqrt (raw s n).lengthSq) (raw s n)).lengthSq = 1
  have : (V3.smul (1 / sqrt (raw s n).lengthSq) (raw s n)).lengthSq = (raw s n).lengthSq / (sqrt (raw s n).lengthSq * sqrt (raw s n).lengthSq) := by
    generalize sqrt (raw s n).lengthSq = q at *
    have : q ≠ 0 := ne_of_gt p
    simp only [V3.lengthSq, V3.smul]
    field_simp
  rw [this, e, div_self (ne_of_gt hl)]

omit hq in
theorem raw_dot (n v : V3 K) : (raw s n).dot (scaleBy v s) = n.dot v := by
  simp only [raw, scaleBy, V3.dot]
  field_simp

theorem turn_scaled {d a b : V3 K} (ha : a.dot d = 0) (hb : b.dot d = 0) {k l : K} :
    (scaleBy d s).dot ((V3.smul k (raw s b)).cross (V3.smul l (raw s a))) * (s.x * s.y * s.z) * (b.cross a).lengthSq =
      k * l * d.dot (b.cross a) * (scaleBy (b.cross a) s).lengthSq := by
  have dx : (b.cross a).lengthSq * d.x = d.dot (b.cross a) * (b.cross a).x := by
    simp only [V3.dot, V3.cross, V3.lengthSq] at *
    linear_combination (b.y * (a.x * b.y - a.y * b.x) + b.z * (a.x * b.z - a.z * b.x)) * ha + (-(a.y * (a.x * b.y - a.y * b.x)) - a.z * (a.x * b.z - a.z * b.x)) * hb
  have dy : (b.cross a).lengthSq * d.y = d.dot (b.cross a) * (b.cross a).y := by
    simp only [V3.dot, V3.cross, V3.lengthSq] at *
    linear_combination (b.x * (a.y * b.x - a.x * b.y) + b.z * (a.y * b.z - a.z * b.y)) * ha + (-(a.x * (a.y * b.x - a.x * b.y)) - a.z * (a.y * b.z - a.z * b.y)) * hb
  have dz : (b.cross a).lengthSq * d.z = d.dot (b.cross a) * (b.cross a).z := by
    simp only [V3.dot, V3.cross, V3.lengthSq] at *
    linear_combination (b.x * (a.z * b.x - a.x * b.z) + b.y * (a.z * b.y - a.y * b.z)) * ha + (-(a.x * (a.z * b.x - a.x * b.z)) - a.y * (a.z * b.y - a.y * b.z)) * hb
  have e : (scaleBy d s).dot ((V3.smul k (raw s b)).cross (V3.smul l (raw s a))) * (s.x * s.y * s.z) =
      k * l * (s.x * s.x * d.x * (b.cross a).x + s.y * s.y * d.y * (b.cross a).y + s.z * s.z * d.z * (b.cross a).z) := by
    simp only [raw, scaleBy, V3.dot, V3.cross, V3.smul]
    field_simp
  rw [e]
  generalize b.cross a = w at *
  have : (scaleBy w s).lengthSq = s.x * s.x * w.x * w.x + s.y * s.y * w.y * w.y + s.z * s.z * w.z * w.z := by
    simp only [scaleBy, V3.lengthSq]; ring
  rw [this]
  linear_combination k * l * (s.x * s.x * w.x * dx + s.y * s.y * w.y * dy + s.z * s.z * w.z * dz)

theorem first_shape (sup : V3 K → V3 K) (P : Poly K) (f : Nat) : (shape sqrt s sup P).first f = scaleBy (P.first f) s := rfl

theorem shape_dot (sup : V3 K → V3 K) {P : Poly K} (h : Solid P) {f : Nat} (hf : f < P.nf) :
    ∃ k, 0 < k ∧ (shape sqrt s sup P).normal f = V3.smul k (raw s (P.normal f)) ∧
      ∀ v, ((shape sqrt s sup P).normal f).dot (scaleBy v s) = k * (P.normal f).dot v := by
  obtain ⟨k, hk, e, -⟩ := normal_spec hq sx sy sz (h.unit f hf)
  refine ⟨k, hk, e, fun v => ?_⟩
  show (scaledNormal (fun v => sqrt v.lengthSq) s (P.normal f)).dot (scaleBy v s) = _
  rw [e, ← raw_dot sx sy sz (P.normal f) v]
  simp only [V3.dot, V3.smul]; ring

theorem scale_sub (a b : V3 K) : scaleBy a s - scaleBy b s = scaleBy (a - b) s := by
  ext <;> simp only [scaleBy, V3.sub_x, V3.sub_y, V3.sub_z] <;> ring

theorem dot_scale (m v : V3 K) : m.dot (scaleBy v s) = (scaleBy m s).dot v := by simp only [V3.dot, scaleBy]; ring

/-- How the faces beside an edge of the shape turn: as those of the mesh, or the other way if the scale mirrors. -/
theorem turn_sign (sup : V3 K → V3 K) {P : Poly K} (h : Solid P) {e : Nat} (he : e < P.ne) :
    0 < ((shape sqrt s sup P).startOf e - (shape sqrt s sup P).endOf e).dot (((shape sqrt s sup P).twinN e).cross ((shape sqrt s sup P).faceN e)) *
      (s.x * s.y * s.z) := by
  obtain ⟨-, -, h3, h4⟩ := h.ends e he
  obtain ⟨k, hk, ek, -⟩ := shape_dot hq sx sy sz sup h h4
  obtain ⟨l, hl, el, -⟩ := shape_dot hq sx sy sz sup h (h.ends _ h3).2.2.2
  obtain ⟨f1, f2⟩ := h.flat e he
  have ht := h.turn e he
  have key := turn_scaled hq sx sy sz f1 f2 (k := l) (l := k)
  have e1 : (shape sqrt s sup P).startOf e - (shape sqrt s sup P).endOf e = scaleBy (P.startOf e - P.endOf e) s := scale_sub hq sx sy sz _ _
  have e2 : (shape sqrt s sup P).faceN e = V3.smul k (raw s (P.faceN e)) := ek
  have e3 : (shape sqrt s sup P).twinN e = V3.smul l (raw s (P.twinN e)) := el
  rw [e1, e2, e3]
  have w0 : (P.twinN e).cross (P.faceN e) ≠ 0 := by
    intro hw
    rw [hw] at ht
    simp [V3.dot] at ht
  have wp := len_pos w0
  have sp : 0 < (scaleBy ((P.twinN e).cross (P.faceN e)) s).lengthSq := by
    refine len_pos fun hz => w0 ?_
    have a := congrArg V3.x hz
    have b := congrArg V3.y hz
    have c := congrArg V3.z hz
    ext
    · exact (mul_eq_zero.1 a).resolve_right sx
    · exact (mul_eq_zero.1 b).resolve_right sy
    · exact (mul_eq_zero.1 c).resolve_right sz
  refine (mul_pos_iff_of_pos_right wp).1 ?_
  rw [key]
  exact mul_pos (mul_pos (mul_pos hl hk) ht) sp

/-- **C158.** The shape of a mesh with a scale that does not mirror has all that the separating axis test needs, if its support function is right. -/
theorem scaled_solid (hs : 0 < s.x * s.y * s.z) {sup : V3 K → V3 K} {P : Poly K} (h : Solid P)
    (hsup : ∀ d, IsSupport (Stretched s (Hulled P)) d (sup d)) : Solid (shape sqrt s sup P) where
  support := fun d => by
    rw [show Hulled (shape sqrt s sup P) = Stretched s (Hulled P) from funext fun x => propext (hulled sqrt s sup P x)]
    exact hsup d
  unit := fun f hf => (normal_spec hq sx sy sz (h.unit f hf)).choose_spec.2.2
  corner := fun f hf => by
    obtain ⟨k, -, -, e⟩ := shape_dot hq sx sy sz sup h hf
    obtain ⟨c1, c2⟩ := h.corner f hf
    refine ⟨c1, fun v hv => ⟨(c2 v hv).1, ?_⟩⟩
    show ((shape sqrt s sup P).normal f).dot (scaleBy (P.vert v) s) = ((shape sqrt s sup P).normal f).dot (scaleBy (P.first f) s)
    rw [e, e, (c2 v hv).2]
  behind := fun f hf v hv => by
    obtain ⟨k, hk, -, e⟩ := shape_dot hq sx sy sz sup h hf
    show ((shape sqrt s sup P).normal f).dot (scaleBy (P.vert v) s) ≤ ((shape sqrt s sup P).normal f).dot (scaleBy (P.first f) s)
    rw [e, e]
    exact mul_le_mul_of_nonneg_left (h.behind f hf v hv) hk.le
  ends := h.ends
  twin := h.twin
  start := fun i hi => by
    obtain ⟨-, -, h3, h4⟩ := h.ends i hi
    obtain ⟨k, -, -, ek⟩ := shape_dot hq sx sy sz sup h h4
    obtain ⟨l, -, -, el⟩ := shape_dot hq sx sy sz sup h (h.ends _ h3).2.2.2
    obtain ⟨s1, s2⟩ := h.start i hi
    constructor
    · exact (ek _).trans ((congrArg (k * ·) s1).trans (ek _).symm)
    · exact (el _).trans ((congrArg (l * ·) s2).trans (el _).symm)
  flat := fun i hi => by
    obtain ⟨-, -, h3, h4⟩ := h.ends i hi
    obtain ⟨k, -, -, ek⟩ := shape_dot hq sx sy sz sup h h4
    obtain ⟨l, -, -, el⟩ := shape_dot hq sx sy sz sup h (h.ends _ h3).2.2.2
    obtain ⟨f1, f2⟩ := h.flat i hi
    have e1 : (shape sqrt s sup P).startOf i - (shape sqrt s sup P).endOf i = scaleBy (P.startOf i - P.endOf i) s := scale_sub hq sx sy sz _ _
    rw [e1]
    constructor
    · exact (ek _).trans ((congrArg (k * ·) f1).trans (mul_zero k))
    · exact (el _).trans ((congrArg (l * ·) f2).trans (mul_zero l))
  turn := fun i hi => (mul_pos_iff_of_pos_right hs).1 (turn_sign hq sx sy sz sup h hi)
  inner := fun m hm => by
    have hm' : scaleBy m s ≠ 0 := fun hz => hm <| by
      have a := congrArg V3.x hz
      have b := congrArg V3.y hz
      have c := congrArg V3.z hz
      ext
      · exact (mul_eq_zero.1 a).resolve_right sx
      · exact (mul_eq_zero.1 b).resolve_right sy
      · exact (mul_eq_zero.1 c).resolve_right sz
    obtain ⟨v, hv, p⟩ := h.inner _ hm'
    refine ⟨v, hv, ?_⟩
    show 0 < m.dot (scaleBy (P.vert v) s - scaleBy P.centroid s)
    rw [scale_sub hq sx sy sz, dot_scale hq sx sy sz]
    exact p
  arc := fun m hm v hv w hw hne h1 h2 => by
    have hm' : scaleBy m s ≠ 0 := fun hz => hm <| by
      have a := congrArg V3.x hz
      have b := congrArg V3.y hz
      have c := congrArg V3.z hz
      ext
      · exact (mul_eq_zero.1 a).resolve_right sx
      · exact (mul_eq_zero.1 b).resolve_right sy
      · exact (mul_eq_zero.1 c).resolve_right sz
    have d : ∀ u, m.dot ((shape sqrt s sup P).vert u) = (scaleBy m s).dot (P.vert u) := fun u => dot_scale hq sx sy sz m _
    simp only [d] at h1 h2
    obtain ⟨e, he, he2, α, β, ha, hb, em⟩ := h.arc _ hm' v hv w hw (fun c => hne (congrArg (scaleBy · s) c)) h1 h2
    obtain ⟨-, -, h3, h4⟩ := h.ends e he
    obtain ⟨k, hk, ek, -⟩ := shape_dot hq sx sy sz sup h h4
    obtain ⟨l, hl, el, -⟩ := shape_dot hq sx sy sz sup h (h.ends _ h3).2.2.2
    refine ⟨e, he, he2, α / k, β / l, by positivity, by positivity, ?_⟩
    have e2 : (shape sqrt s sup P).faceN e = V3.smul k (raw s (P.faceN e)) := ek
    have e3 : (shape sqrt s sup P).twinN e = V3.smul l (raw s (P.twinN e)) := el
    rw [e2, e3]
    have a := congrArg V3.x em
    have b := congrArg V3.y em
    have c := congrArg V3.z em
    simp only [scaleBy, V3.smul, V3.add_x, V3.add_y, V3.add_z] at a b c
    ext <;> simp only [raw, scaleBy, V3.smul, V3.add_x, V3.add_y, V3.add_z] <;> field_simp
    · linear_combination a
    · linear_combination b
    · linear_combination c

/-- A scale that mirrors turns every edge inside out, so that the test of edges against edges of the shape works with the wrong sign. -/
theorem mirrored_inside_out (hs : s.x * s.y * s.z < 0) {sup : V3 K → V3 K} {P : Poly K} (h : Solid P) (e : Nat) (he : e < P.ne) :
    ((shape sqrt s sup P).startOf e - (shape sqrt s sup P).endOf e).dot (((shape sqrt s sup P).twinN e).cross ((shape sqrt s sup P).faceN e)) < 0 := by
  have := turn_sign hq sx sy sz sup h he
  by_contra hc
  exact absurd this (not_lt.2 (mul_nonpos_of_nonneg_of_nonpos (not_lt.1 hc) hs.le))

end

/-! ### Uniform scales -/

/-- **C158.** With the same positive factor in all directions and a mesh that contains its origin the shape, with the support function of the program, has
all that the separating axis test needs, and spans the stretched mesh. -/
theorem uniform_solid {sqrt : K → K} (hq : IsSqrt sqrt) {large k : K} (hl : 0 < large) (hk : 0 < k) {P : Poly K} (h : Solid P) (h0 : Hulled P 0) :
    Solid (shape sqrt ⟨k, k, k⟩ (support large ⟨k, k, k⟩ P) P) ∧
      ∀ x, Hulled (shape sqrt ⟨k, k, k⟩ (support large ⟨k, k, k⟩ P) P) x ↔ Stretched ⟨k, k, k⟩ (Hulled P) x := by
  refine ⟨scaled_solid hq hk.ne' hk.ne' hk.ne' (by simp only; positivity) h fun d => ?_, hulled _ _ _ _⟩
  have hne : verts P ≠ [] := by
    intro e
    unfold Hulled at h0
    rw [e] at h0
    have : ∀ x : V3 K, ¬ Hull [] x := fun x hx => by
      induction hx with
      | vertex hv => exact absurd hv (List.not_mem_nil)
      | mix _ _ _ _ ih _ => exact ih
    exact this 0 h0
  obtain ⟨m1, m2⟩ := mesh_support_partial hk hl hne d
  obtain ⟨p, hp⟩ := Option.isSome_iff_exists.1 (m2 h0)
  have e : support large ⟨k, k, k⟩ P d = p := by
    show (meshSupport large ⟨k, k, k⟩ (verts P) d).getD 0 = p
    rw [hp]; rfl
  rw [e, ← show Hulled (shape sqrt ⟨k, k, k⟩ (support large ⟨k, k, k⟩ P) P) = Stretched ⟨k, k, k⟩ (Hulled P) from funext fun x => propext (hulled _ _ _ P x)]
  unfold Hulled
  rw [verts_shape]
  exact m1 p hp

section
variable {N : Num K} (hN : NumOk N) {P1 P2 : Poly K} (h1 : Solid P1) (h2 : Solid P2) (o1 : Hulled P1 0) (o2 : Hulled P2 0) {k1 k2 : K} (hk1 : 0 < k1)
  (hk2 : 0 < k2) {w1 w2 : Trans K} (u1 : w1.ori.lengthSq = 1) (u2 : w2.ori.lengthSq = 1)

/-- The shape of the program with a uniform scale. -/
def uniform (N : Num K) (k : K) (P : Poly K) : Poly K := shape N.sqrt ⟨k, k, k⟩ (support N.large ⟨k, k, k⟩ P) P

include hN h1 h2 o1 o2 hk1 hk2 u1 u2

/-- **C158.** If the search says that two uniformly scaled meshes are apart, a plane lies between the stretched solids. -/
theorem scaled_apart {a : Axis} (h : search N (uniform N k1 P1) (uniform N k2 P2) (w2.inverse.mul w1) (w2.inverse.mul w1).inverse = .separated a) :
    Apart (Placed w1 (Stretched ⟨k1, k1, k1⟩ (Hulled P1))) (Placed w2 (Stretched ⟨k2, k2, k2⟩ (Hulled P2))) := by
  obtain ⟨s1, e1⟩ := uniform_solid hN.root hN.large hk1 h1 o1
  obtain ⟨s2, e2⟩ := uniform_solid hN.root hN.large hk2 h2 o2
  have := (search_apart hN s1 s2 u1 u2 h).2.2
  rwa [show Hulled _ = _ from funext fun x => propext (e1 x), show Hulled _ = _ from funext fun x => propext (e2 x)] at this

/-- **C158.** If it finds an axis of least depth, the stretched solids overlap by the depth measured, up to the tolerances that prefer faces. -/
theorem scaled_overlap {b : Best K} (h : search N (uniform N k1 P1) (uniform N k2 P2) (w2.inverse.mul w1) (w2.inverse.mul w1).inverse = .best b)
    (hpar : NoParallel N (uniform N k1 P1) (uniform N k2 P2) (w2.inverse.mul w1))
    (hb1 : ∃ f < P1.nf, faceDepth (uniform N k1 P1) (uniform N k2 P2) (w2.inverse.mul w1) f < N.large)
    (hb2 : ∃ f < P2.nf, faceDepth (uniform N k2 P2) (uniform N k1 P1) (w2.inverse.mul w1).inverse f < N.large) :
    ∃ δ, 0 < δ ∧ Overlap δ (Placed w1 (Stretched ⟨k1, k1, k1⟩ (Hulled P1))) (Placed w2 (Stretched ⟨k2, k2, k2⟩ (Hulled P2))) ∧
      (∃ n : V3 K, n.lengthSq = 1 ∧ ∀ x y, Placed w1 (Stretched ⟨k1, k1, k1⟩ (Hulled P1)) x → Placed w2 (Stretched ⟨k2, k2, k2⟩ (Hulled P2)) y →
        n.dot (x - y) ≤ δ) ∧ (b.axis.isFace = false → b.depth = δ) ∧ (b.axis.isFace = true → b.depth ≤ δ * N.rel + N.abs) := by
  obtain ⟨s1, e1⟩ := uniform_solid hN.root hN.large hk1 h1 o1
  obtain ⟨s2, e2⟩ := uniform_solid hN.root hN.large hk2 h2 o2
  obtain ⟨δ, d1, d2, d3, -, d5, d6, -⟩ := search_overlap hN s1 s2 u1 u2 h hpar hb1 hb2
  rw [show Hulled _ = _ from funext fun x => propext (e1 x), show Hulled _ = _ from funext fun x => propext (e2 x)] at d2 d3
  exact ⟨δ, d1, d2, d3, fun h => (d5 h).1, fun h => (d6 h).1⟩

end

/-! ### Contacts -/

theorem along_shape (sqrt : K → K) (s : V3 K) (sup : V3 K → V3 K) (P : Poly K) (e k : Nat) : along (shape sqrt s sup P) e k = along P e k := rfl

theorem rings_shape (sqrt : K → K) (s : V3 K) (sup : V3 K → V3 K) {P : Poly K} (h : Rings P) : Rings (shape sqrt s sup P) := h

theorem strict_shape {sqrt : K → K} (hq : IsSqrt sqrt) {s : V3 K} (sx : s.x ≠ 0) (sy : s.y ≠ 0) (sz : s.z ≠ 0) (sup : V3 K → V3 K) {P : Poly K} (h : Solid P)
    (hP : Strict P) : Strict (shape sqrt s sup P) := by
  intro e he h2 v hv a b
  obtain ⟨-, -, h3, h4⟩ := h.ends e he
  obtain ⟨k, hk, -, ek⟩ := shape_dot hq sx sy sz sup h h4
  obtain ⟨l, hl, -, el⟩ := shape_dot hq sx sy sz sup h (h.ends _ h3).2.2.2
  have d : (shape sqrt s sup P).vert v - (shape sqrt s sup P).startOf e = scaleBy (P.vert v - P.startOf e) s := scale_sub hq sx sy sz _ _
  rw [d] at a b
  have a' := (mul_eq_zero.1 ((ek _).symm.trans a)).resolve_left hk.ne'
  have b' := (mul_eq_zero.1 ((el _).symm.trans b)).resolve_left hl.ne'
  rcases hP e he h2 v hv a' b' with c | c
  · exact .inl (congrArg (scaleBy · s) c)
  · exact .inr (congrArg (scaleBy · s) c)

/-- **C158.** Every contact reported for two uniformly scaled meshes is sound, as in C103: the points are those of the stretched solids. -/
theorem scaled_contacts {P1 P2 : Poly ℝ} {w1 w2 : Trans ℝ} {N : Num ℝ} (hN : NumOk N) (h1 : Solid P1) (h2 : Solid P2) (o1 : Hulled P1 0) (o2 : Hulled P2 0)
    {k1 k2 : ℝ} (hk1 : 0 < k1) (hk2 : 0 < k2) (r1 : Rings P1) (r2 : Rings P2) (s1 : Strict P1) (s2 : Strict P2) (n1 : 0 < P1.nf) (n2 : 0 < P2.nf)
    (u1 : w1.ori.lengthSq = 1) (u2 : w2.ori.lengthSq = 1) (hpar : NoParallel N (uniform N k1 P1) (uniform N k2 P2) (w2.inverse.mul w1))
    (hb1 : ∃ f < P1.nf, faceDepth (uniform N k1 P1) (uniform N k2 P2) (w2.inverse.mul w1) f < N.large)
    (hb2 : ∃ f < P2.nf, faceDepth (uniform N k2 P2) (uniform N k1 P1) (w2.inverse.mul w1).inverse f < N.large)
    (l1 : ∀ i < P1.ne, N.eps < k1 * k1 * GeomProps.dist2 (P1.startOf i) (P1.endOf i)) (l2 : ∀ j < P2.ne, N.eps < k2 * k2 * GeomProps.dist2 (P2.startOf j) (P2.endOf j))
    (report clip : Bool) {last : Option (Axis × Bool)} (hl : ∀ a was, last = some (a, was) → InRange P1 P2 a) {r : Res ℝ}
    (h : polyhedra N (uniform N k1 P1) (uniform N k2 P2) w1 w2 report clip last = some r) :
    ∀ c ∈ r.contacts, SatProps.Sound (uniform N k1 P1) (uniform N k2 P2) w1 w2 c := by
  have dist : ∀ (k : ℝ) (P : Poly ℝ) (i : Nat), GeomProps.dist2 ((uniform N k P).startOf i) ((uniform N k P).endOf i) = k * k * GeomProps.dist2 (P.startOf i) (P.endOf i) := by
    intro k P i
    show GeomProps.dist2 (scaleBy (P.startOf i) ⟨k, k, k⟩) (scaleBy (P.endOf i) ⟨k, k, k⟩) = _
    simp only [GeomProps.dist2, scaleBy]; ring
  exact test_contacts hN (uniform_solid hN.root hN.large hk1 h1 o1).1 (uniform_solid hN.root hN.large hk2 h2 o2).1 (rings_shape _ _ _ r1) (rings_shape _ _ _ r2)
    (strict_shape hN.root hk1.ne' hk1.ne' hk1.ne' _ h1 s1) (strict_shape hN.root hk2.ne' hk2.ne' hk2.ne' _ h2 s2) n1 n2 u1 u2 hpar hb1 hb2
    (fun i hi => (l1 i hi).trans_eq (dist k1 P1 i).symm) (fun i hi => (l2 i hi).trans_eq (dist k2 P2 i).symm) report clip hl h

/-! ### The assertion -/

/-- The assertion holds for factors smaller than the inverse of the tolerance. -/
theorem normal_checked_partial {sqrt : K → K} (hq : IsSqrt sqrt) {eps : K} (he : 0 < eps) {s n : V3 K} (hn : n.lengthSq = 1) (sx : s.x ≠ 0) (sy : s.y ≠ 0)
    (sz : s.z ≠ 0) (hx : |s.x| * eps < 1) (hy : |s.y| * eps < 1) (hz : |s.z| * eps < 1) :
    ∃ u, checkedNormal eps sqrt s n = some u ∧ u.lengthSq = 1 ∧ ∃ k, 0 < k ∧ u = V3.smul k ⟨n.x / s.x, n.y / s.y, n.z / s.z⟩ := by
  obtain ⟨k, hk, e, one⟩ := normal_spec hq sx sy sz hn
  have part : ∀ a b : K, b ≠ 0 → |b| * eps < 1 → eps * eps * (a * a) ≤ 1 / b * a * (1 / b * a) ∧ (a ≠ 0 → eps * eps * (a * a) < 1 / b * a * (1 / b * a)) := by
    intro a b hb h
    have hb' : 0 < b * b := mul_self_pos.2 hb
    have h1 : b * b * (eps * eps) < 1 := by
      have p : 0 ≤ |b| * eps := by positivity
      have := mul_self_lt_mul_self p h
      have q : |b| * eps * (|b| * eps) = |b| * |b| * (eps * eps) := by ring
      rw [q, abs_mul_abs_self] at this
      linarith
    have e1 : 1 / b * a * (1 / b * a) = a * a / (b * b) := by field_simp
    rw [e1]
    constructor
    · rw [le_div_iff₀ hb']
      nlinarith [mul_self_nonneg a]
    · intro ha
      rw [lt_div_iff₀ hb']
      nlinarith [mul_self_pos.2 ha]
  have big : eps * eps < (raw s n).lengthSq := by
    obtain ⟨a1, a2⟩ := part n.x s.x sx hx
    obtain ⟨b1, b2⟩ := part n.y s.y sy hy
    obtain ⟨c1, c2⟩ := part n.z s.z sz hz
    have hn' : n.x * n.x + n.y * n.y + n.z * n.z = 1 := hn
    have e1 : eps * eps = eps * eps * (n.x * n.x) + eps * eps * (n.y * n.y) + eps * eps * (n.z * n.z) := by linear_combination -(eps * eps) * hn'
    rw [e1]
    simp only [raw, scaleBy, V3.lengthSq]
    by_cases h1 : n.x = 0
    · by_cases h2 : n.y = 0
      · have h3 : n.z ≠ 0 := by
          intro h3
          rw [h1, h2, h3] at hn'
          simp at hn'
        linarith [c2 h3]
      · linarith [b2 h2]
    · linarith [a2 h1]
  obtain ⟨p, q⟩ := sqrt_pos hq (lt_trans (mul_pos he he) big)
  have gt : sqrt (raw s n).lengthSq > eps := by
    by_contra hc
    have := mul_self_le_mul_self p.le (not_lt.1 hc)
    linarith
  refine ⟨_, if_pos gt, one, k, hk, ?_⟩
  rw [e]
  ext <;> simp only [raw, scaleBy, V3.smul] <;> ring

/-- But with a large factor, such as the inverse of the tolerance, it breaks for every face. -/
theorem large_scale_fails {sqrt : K → K} (hq : IsSqrt sqrt) {eps : K} (he : 0 < eps) {n : V3 K} (hn : n.lengthSq = 1) :
    checkedNormal eps sqrt ⟨1 / eps, 1 / eps, 1 / eps⟩ n = none := by
  refine if_neg (not_lt.2 ?_)
  have e : (scaleBy ⟨1 / (1 / eps), 1 / (1 / eps), 1 / (1 / eps)⟩ n).lengthSq = eps * eps := by
    have hn' : n.x * n.x + n.y * n.y + n.z * n.z = 1 := hn
    simp only [scaleBy, V3.lengthSq, one_div_one_div]
    linear_combination eps * eps * hn'
  simp only
  rw [e]
  obtain ⟨p, q⟩ := hq (eps * eps) (mul_self_nonneg eps)
  exact le_of_eq ((mul_self_inj p he.le).1 q)

/-! ### Example -/

/-- A cube contains its origin. -/
example : Solid (Sat.box (⟨1, 1, 1⟩ : V3 K)) ∧ Hulled (Sat.box (⟨1, 1, 1⟩ : V3 K)) 0 :=
  ⟨box_solid one_pos one_pos one_pos, (box_hull one_pos one_pos one_pos 0).2 (by simp [Box])⟩

/-- A cube of half the size, scaled by two. -/
noncomputable def half : Poly ℝ := Sat.box ⟨1/2, 1/2, 1/2⟩

theorem half_solid : Solid half := box_solid (by norm_num) (by norm_num) (by norm_num)

theorem half_zero : Hulled half 0 := (box_hull (by norm_num) (by norm_num) (by norm_num) 0).2 (by simp [Box])

theorem normal_two (n : V3 ℝ) (h : n.lengthSq = 1 ∨ n = 0) : scaledNormal (fun v => std.sqrt v.lengthSq) ⟨2, 2, 2⟩ n = n := by
  rcases h with h | rfl
  · have e : (scaleBy ⟨1 / 2, 1 / 2, 1 / 2⟩ n).lengthSq = (1/2) * (1/2) := by
      have h' : n.x * n.x + n.y * n.y + n.z * n.z = 1 := h
      simp only [scaleBy, V3.lengthSq]
      linear_combination 1/4 * h'
    show V3.smul (1 / Real.sqrt (scaleBy ⟨1 / 2, 1 / 2, 1 / 2⟩ n).lengthSq) (scaleBy ⟨1 / 2, 1 / 2, 1 / 2⟩ n) = n
    rw [e, Real.sqrt_mul_self (by norm_num)]
    ext <;> simp only [scaleBy, V3.smul] <;> ring
  · ext <;> simp [scaledNormal, scaleBy, V3.smul]

theorem doubled : uniform std 2 half = { SatProps.cube with support := support std.large ⟨2, 2, 2⟩ half } := by
  have v : (fun v => scaleBy (half.vert v) ⟨2, 2, 2⟩) = SatProps.cube.vert := by
    funext v
    rcases v with _ | _ | _ | _ | _ | _ | _ | _ | v
    iterate 8 · ext <;> norm_num [half, SatProps.cube, Sat.box, boxVert, scaleBy]
    show scaleBy (0 : V3 ℝ) _ = 0
    ext <;> simp [scaleBy]
  have n : (fun f => scaledNormal (fun v => std.sqrt v.lengthSq) ⟨2, 2, 2⟩ (half.normal f)) = SatProps.cube.normal := by
    funext f
    show _ = boxNormal f
    exact normal_two _ (by rcases f with _ | _ | _ | _ | _ | _ | f <;> first | exact .inr rfl | exact .inl (by norm_num [half, Sat.box, boxNormal, V3.lengthSq]))
  have c : scaleBy half.centroid ⟨2, 2, 2⟩ = SatProps.cube.centroid := by ext <;> simp [half, SatProps.cube, Sat.box, scaleBy]
  unfold uniform shape
  rw [show (fun v => scaleBy (half.vert v) (⟨2, 2, 2⟩ : V3 ℝ)) = SatProps.cube.vert from v, n, c]
  rfl

theorem doubled_small : (∃ f < half.nf, faceDepth (uniform std 2 half) (uniform std 2 half) rel f < std.large) ∧
    ∃ f < half.nf, faceDepth (uniform std 2 half) (uniform std 2 half) rel.inverse f < std.large := by
  have s := (uniform_solid (large := std.large) std_ok.root std_ok.large (show (0 : ℝ) < 2 by norm_num) half_solid half_zero).1
  have s : Solid (uniform std 2 half) := s
  rw [doubled] at *
  constructor
  · refine ⟨0, show 0 < 6 by norm_num, lt_of_le_of_lt (faceDepth_le s _ _ (c := 100) ?_) (by norm_num [std])⟩
    intro v hv
    have hv : v < 8 := hv
    interval_cases v <;> cubes
  · refine ⟨0, show 0 < 6 by norm_num, lt_of_le_of_lt (faceDepth_le s _ _ (c := 100) ?_) (by norm_num [std])⟩
    intro v hv
    have hv : v < 8 := hv
    interval_cases v <;> cubes

/-- The hypotheses of `scaled_contacts` are met by two such cubes that cross at an edge of each. -/
example {r : Res ℝ} (h : polyhedra std (uniform std 2 half) (uniform std 2 half) lower upper true true none = some r) :
    ∀ c ∈ r.contacts, SatProps.Sound (uniform std 2 half) (uniform std 2 half) lower upper c := by
  have long : ∀ i < half.ne, std.eps < 2 * 2 * GeomProps.dist2 (half.startOf i) (half.endOf i) := by
    intro i hi
    have := cube_long i hi
    have d : GeomProps.dist2 (SatProps.cube.startOf i) (SatProps.cube.endOf i) = 2 * 2 * GeomProps.dist2 (half.startOf i) (half.endOf i) := by
      have hi : i < 24 := hi
      interval_cases i <;> norm_num [half, SatProps.cube, Sat.box, boxVert, boxEdges, Poly.startOf, Poly.endOf, GeomProps.dist2]
    rwa [d] at this
  have hh : (0 : ℝ) < 1/2 := by norm_num
  refine scaled_contacts std_ok half_solid half_solid half_zero half_zero two_pos two_pos (box_rings _) (box_rings _) (box_strict hh hh hh) (box_strict hh hh hh)
    (show 0 < 6 by norm_num) (show 0 < 6 by norm_num) lower_unit upper_unit ?_ ?_ ?_ long long true true (by simp) h
  · rw [rel_eq, doubled]; exact cross_noparallel
  · rw [rel_eq]; exact doubled_small.1
  · rw [rel_eq]; exact doubled_small.2

end Scaled
end RP3D
