import Verif.Props.SatCapsule
import Verif.Props.SatExamples

/-! C106, C107: the contacts of a capsule and a convex polyhedron. -/

namespace RP3D
namespace SatProps
open Shape PointProps RoundProps Geom GeomProps Sat SatGeom
open RayProps (Capsule)

set_option linter.unusedSectionVars false

section Field
variable {K : Type} [Field K] [LinearOrder K] [IsStrictOrderedRing K] {P : Poly K} {wc wp t : Trans K} {N : Num K} {hh r : K}

/-! ### Specification -/

/-- The point of a contact on the capsule, and that on the polyhedron. -/
def onCap (first : Bool) (c : Round.Contact K) : V3 K := if first then c.p1 else c.p2
def onPoly (first : Bool) (c : Round.Contact K) : V3 K := if first then c.p2 else c.p1

/-- The points of a contact are apart by the depth along the normal, which points from the first body to the second; the point on the capsule is at the distance of the
radius from the inner segment, against the direction `n`. -/
def CapSound (wc wp : Trans K) (hh r : K) (n : V3 K) (first : Bool) (c : Round.Contact K) : Prop :=
  c.normal = (if first then -n else n) ∧ wp.act (onPoly first c) - wc.act (onCap first c) = V3.smul c.depth n ∧
  ∃ y, Inner hh y ∧ wc.act (onCap first c) = wc.act y - V3.smul r n

/-- Over a face: on the inner side of the planes through its edges that are orthogonal to it. -/
def Over (P : Poly K) (f : Nat) (y : V3 K) : Prop :=
  ∀ k, 0 ≤ ((P.normal f).cross (P.endOf (along P (P.faceEdge f) k) - P.startOf (along P (P.faceEdge f) k))).dot (y - P.startOf (along P (P.faceEdge f) k))

/-! ### Planes -/

theorem capPlanes_spec (hT : ∀ e < P.ne, P.twinStart e = P.endOf e) (hE : ∀ e < P.ne, (P.edge e).next < P.ne) (n : V3 K) (e0 : Nat) : ∀ fuel i out,
    capPlanes P n e0 fuel (along P e0 i) = some out → along P e0 i < P.ne →
    ∃ p, i < p ∧ along P e0 p = e0 ∧ out ≠ [] ∧ (∀ k, i ≤ k → k < p → (P.startOf (along P e0 k), n.cross (P.endOf (along P e0 k) - P.startOf (along P e0 k))) ∈ out) ∧
      ∀ pl ∈ out, ∃ k, pl = (P.startOf (along P e0 k), n.cross (P.endOf (along P e0 k) - P.startOf (along P e0 k)))
  | 0, i, out, h, _ => by simp [capPlanes] at h
  | fuel + 1, i, out, h, hlt => by
    have hnext : (P.edge (along P e0 i)).next = along P e0 (i + 1) := by unfold along; rw [Function.iterate_succ_apply']
    unfold capPlanes at h
    dsimp only at h
    rw [hT _ hlt] at h
    by_cases hc : (P.edge (along P e0 i)).next = e0
    · rw [if_pos hc, Option.some.injEq] at h
      subst h
      refine ⟨i + 1, by omega, by rw [← hnext]; exact hc, by simp, fun k h1 h2 => ?_, fun pl hpl => ⟨i, List.mem_singleton.1 hpl⟩⟩
      obtain rfl : k = i := by omega
      simp
    · rw [if_neg hc] at h
      obtain ⟨o, ho, rfl⟩ := Option.map_eq_some_iff.1 h
      rw [hnext] at ho
      obtain ⟨p, p1, p2, p3, p4, p5⟩ := capPlanes_spec hT hE n e0 fuel (i + 1) o ho (by rw [← hnext]; exact hE _ hlt)
      refine ⟨p, by omega, p2, by simp, fun k h1 h2 => ?_, fun pl hpl => (List.mem_cons.1 hpl).elim (fun h => ⟨i, h⟩) (p5 pl)⟩
      rcases Nat.lt_or_ge i k with hk | hk
      · exact List.mem_cons_of_mem _ (p4 k hk h2)
      · obtain rfl : k = i := by omega
        simp

theorem capPlanes_some (n : V3 K) (e0 : Nat) {p : Nat} (hp : along P e0 p = e0) : ∀ fuel i, i < p → p ≤ i + fuel → ∃ out, capPlanes P n e0 fuel (along P e0 i) = some out
  | 0, i, h1, h2 => by omega
  | fuel + 1, i, h1, h2 => by
    have hnext : (P.edge (along P e0 i)).next = along P e0 (i + 1) := by unfold along; rw [Function.iterate_succ_apply']
    unfold capPlanes
    dsimp only
    by_cases hc : (P.edge (along P e0 i)).next = e0
    · exact ⟨_, if_pos hc⟩
    · rw [if_neg hc, hnext]
      have : i + 1 < p := by
        rcases Nat.lt_or_ge (i + 1) p with h | h
        · exact h
        · exfalso
          apply hc
          have e : i + 1 = p := by omega
          rw [hnext, e, hp]
      obtain ⟨o, ho⟩ := capPlanes_some n e0 hp fuel (i + 1) this (by omega)
      exact ⟨_, by rw [ho]; rfl⟩

/-- The clipping planes of a face of a polyhedron. -/
theorem planes_spec (hP : Solid P) (hR : Rings P) {f : Nat} (hf : f < P.nf) :
    ∃ planes, capPlanes P (P.normal f) (P.faceEdge f) P.ne (P.faceEdge f) = some planes ∧ planes ≠ [] ∧
      ∀ y, (∀ pl ∈ planes, Front pl.1 pl.2 y) ↔ Over P f y := by
  obtain ⟨r1, r2, q, q0, q1, q2⟩ := hR f hf
  obtain ⟨out, ho⟩ := capPlanes_some (P.normal f) (P.faceEdge f) q2 P.ne 0 q0 (by omega)
  have ho : capPlanes P (P.normal f) (P.faceEdge f) P.ne (P.faceEdge f) = some out := ho
  obtain ⟨p, p1, p2, p3, p4, p5⟩ := capPlanes_spec (fun e he => by unfold Poly.twinStart Poly.endOf; rw [hP.twin e he]) (fun e he => (hP.ends e he).2.1)
    (P.normal f) (P.faceEdge f) P.ne 0 out ho r1
  refine ⟨out, ho, p3, fun y => ⟨fun hy k => ?_, fun hy pl hpl => ?_⟩⟩
  rotate_left
  · obtain ⟨k, rfl⟩ := p5 pl hpl
    have := hy k
    unfold Front side
    simp only [V3.dot, V3.sub_x, V3.sub_y, V3.sub_z] at this ⊢
    linarith
  obtain ⟨m, rfl⟩ : ∃ m, p = m + 1 := ⟨p - 1, by omega⟩
  rw [along_mod p2 k]
  have := hy _ (p4 (k % (m + 1)) (Nat.zero_le _) (Nat.mod_lt _ (by omega)))
  unfold Front side at this
  simp only [V3.dot, V3.sub_x, V3.sub_y, V3.sub_z] at this ⊢
  linarith

theorem inner_seg (hp : 0 < hh) {x : V3 K} (hx : OnSeg (segA hh) (segB hh) x) : Inner hh x := by
  obtain ⟨w, w0, w1, rfl⟩ := hx
  refine ⟨-hh + w * (hh - -hh), by nlinarith, by nlinarith, ?_⟩
  ext <;> simp [at', segA, segB]

theorem act_minus (t : Trans K) (x w : V3 K) : t.act (x - w) = t.act x - t.ori.rot w := by
  have := act_sub t (x - w) x
  have e : x - w - x = V3.smul (-1) w := by ext <;> simp
  rw [e, rot_smul] at this
  have key : ∀ q p w : V3 K, q - p = V3.smul (-1) w → q = p - w := by
    intro q p w h
    have hx := congrArg V3.x h; have hy := congrArg V3.y h; have hz := congrArg V3.z h
    simp only [V3.sub_x, V3.sub_y, V3.sub_z, V3.smul_x, V3.smul_y, V3.smul_z] at hx hy hz
    ext <;> simp only [V3.sub_x, V3.sub_y, V3.sub_z] <;> linarith
  exact key _ _ _ this

theorem act_plus (t : Trans K) (x w : V3 K) : t.act (x + w) = t.act x + t.ori.rot w := by
  have := act_minus t (x + w) w
  have e : x + w - w = x := by ext <;> simp
  rw [e] at this
  rw [this]; ext <;> simp

/-- The pose of the polyhedron in the space of the capsule turns like the two poses. -/
theorem frame_rot (uc : wc.ori.lengthSq = 1) (v : V3 K) : wc.ori.rot ((wc.inverse.mul wp).ori.rot v) = wp.ori.rot v := by
  have h1 := frame_act (t1 := wp) uc v
  have h2 := frame_act (t1 := wp) uc (0 : V3 K)
  have e : ∀ t : Trans K, t.ori.rot v = t.act v - t.act 0 := fun t => by
    rw [act_sub]; congr 1; ext <;> simp
  rw [e (wc.inverse.mul wp), ← act_sub, h1, h2, ← e wp]

/-- **C106, faces.** All contacts over a face are sound: their points are apart by the depth along the normal of the face, the one is on the capsule, the other is over the
face. If the depth is that of the face, it is on the face or above it by less than 1 mm. -/
theorem capsule_face_contacts (hp : 0 < hh) (hP : Solid P) (hR : Rings P) (uc : wc.ori.lengthSq = 1) (up : wp.ori.lengthSq = 1)
    {f : Nat} (hf : f < P.nf) {depth : K} {first found : Bool} {nw : V3 K} {cs : List (Round.Contact K)}
    (hnw : nw = if first then -(wp.ori.rot (P.normal f)) else wp.ori.rot (P.normal f))
    (h : capContacts N P f r depth (wc.inverse.mul wp) nw ((wc.inverse.mul wp).ori.rot (P.normal f)) ((wc.inverse.mul wp).inverse.act (segA hh))
      ((wc.inverse.mul wp).inverse.act (segB hh)) first = some (found, cs)) :
    (found = true ↔ cs ≠ []) ∧ ∀ c ∈ cs, c.depth = depth ∧ CapSound wc wp hh r (wp.ori.rot (P.normal f)) first c ∧ Over P f (onPoly first c) ∧
      (P.normal f).dot (onPoly first c) - (P.normal f).dot (P.first f) < 1 / 1000 ∧
      ((∀ y, Inner hh y → depth - r ≥ ((wc.inverse.mul wp).ori.rot (P.normal f)).dot ((wc.inverse.mul wp).act (P.first f) - y)) →
        (P.normal f).dot (P.first f) ≤ (P.normal f).dot (onPoly first c)) := by
  have ht := frame_unit up uc
  obtain ⟨r1, r2, -⟩ := hR f hf
  have hst : (P.normal f).dot (P.startOf (P.faceEdge f)) = (P.normal f).dot (P.first f) := by
    have := (hP.start _ r1).1
    unfold Poly.faceN at this
    rwa [r2] at this
  obtain ⟨planes, e1, e2, e3⟩ := planes_spec hP hR hf
  unfold capContacts at h
  rw [e1] at h
  dsimp only at h
  cases hc : clipSegment N.plane ((wc.inverse.mul wp).inverse.act (segA hh)) ((wc.inverse.mul wp).inverse.act (segB hh)) planes with
  | none => rw [hc] at h; simp at h
  | some pts =>
    rw [hc] at h
    dsimp only at h
    simp only [Option.some.injEq, Prod.mk.injEq] at h
    obtain ⟨rfl, rfl⟩ := h
    refine ⟨by simp, fun c hcm => ?_⟩
    obtain ⟨x, hx, rfl⟩ := List.mem_map.1 hcm
    obtain ⟨hx, hd⟩ := List.mem_filter.1 hx
    have hd := of_decide_eq_true hd
    obtain ⟨s1, s2⟩ := segment_clipped N.plane _ _ planes pts hc x hx
    have over := (e3 x).1 s2
    have hs := onSeg_act (wc.inverse.mul wp) s1
    rw [trans_act_inverse ht, trans_act_inverse ht] at hs
    have hin := inner_seg hp hs
    have hpoly : onPoly first (⟨nw, depth, if first then (wc.inverse.mul wp).act x - V3.smul r ((wc.inverse.mul wp).ori.rot (P.normal f)) else x + V3.smul (depth - r) (P.normal f),
        if first then x + V3.smul (depth - r) (P.normal f) else (wc.inverse.mul wp).act x - V3.smul r ((wc.inverse.mul wp).ori.rot (P.normal f))⟩ : Round.Contact K) =
        x + V3.smul (depth - r) (P.normal f) := by cases first <;> rfl
    have hcap : onCap first (⟨nw, depth, if first then (wc.inverse.mul wp).act x - V3.smul r ((wc.inverse.mul wp).ori.rot (P.normal f)) else x + V3.smul (depth - r) (P.normal f),
        if first then x + V3.smul (depth - r) (P.normal f) else (wc.inverse.mul wp).act x - V3.smul r ((wc.inverse.mul wp).ori.rot (P.normal f))⟩ : Round.Contact K) =
        (wc.inverse.mul wp).act x - V3.smul r ((wc.inverse.mul wp).ori.rot (P.normal f)) := by cases first <;> rfl
    have hu := hP.unit f hf
    have up1 : (P.normal f).dot (x + V3.smul (depth - r) (P.normal f)) = (P.normal f).dot x + (depth - r) := by
      have : (P.normal f).dot (x + V3.smul (depth - r) (P.normal f)) = (P.normal f).dot x + (depth - r) * (P.normal f).lengthSq := by
        simp only [V3.dot, V3.lengthSq, V3.add_x, V3.add_y, V3.add_z, V3.smul_x, V3.smul_y, V3.smul_z]; ring
      rw [this, hu, mul_one]
    have flip : (P.startOf (P.faceEdge f) - x).dot (P.normal f) = (P.normal f).dot (P.first f) - (P.normal f).dot x := by
      rw [← hst]; simp only [V3.dot, V3.sub_x, V3.sub_y, V3.sub_z]; ring
    rw [flip] at hd
    unfold CapSound
    dsimp only at hpoly hcap ⊢
    rw [hpoly, hcap, up1]
    have wcap : wc.act ((wc.inverse.mul wp).act x - V3.smul r ((wc.inverse.mul wp).ori.rot (P.normal f))) = wp.act x - V3.smul r (wp.ori.rot (P.normal f)) := by
      rw [act_minus, rot_smul, frame_rot uc, frame_act uc]
    refine ⟨rfl, ⟨hnw, ?_, _, hin, by rw [wcap, frame_act uc]⟩, ?_, by linarith, ?_⟩
    · rw [wcap, act_plus, rot_smul]
      ext <;> simp <;> ring
    · intro k
      have := over k
      generalize P.endOf (along P (P.faceEdge f) k) - P.startOf (along P (P.faceEdge f) k) = v at *
      have e : ((P.normal f).cross v).dot (x + V3.smul (depth - r) (P.normal f) - P.startOf (along P (P.faceEdge f) k)) =
          ((P.normal f).cross v).dot (x - P.startOf (along P (P.faceEdge f) k)) := by
        simp only [V3.dot, V3.cross, V3.sub_x, V3.sub_y, V3.sub_z, V3.add_x, V3.add_y, V3.add_z, V3.smul_x, V3.smul_y, V3.smul_z]; ring
      rw [e]; exact this
    · intro hall
      have := hall _ hin
      rw [act_sub, rot_dot ht, dot_sub_right] at this
      linarith

/-- Both ends of the inner segment are over the face: clipping leaves the segment as it is, and the deepest end gives a contact. -/
theorem capsule_found_partial (hP : Solid P) (hR : Rings P) (ht : t.ori.lengthSq = 1) {f : Nat} (hf : f < P.nf) {depth : K} {nw axis a b : V3 K} {first : Bool}
    (ha : Over P f a) (hb : Over P f b)
    (hd : depth - r - 1 / 1000 < (P.normal f).dot (P.first f - a) ∨ depth - r - 1 / 1000 < (P.normal f).dot (P.first f - b)) :
    ∃ cs, capContacts N P f r depth t nw axis a b first = some (true, cs) ∧ cs ≠ [] := by
  obtain ⟨r1, r2, -⟩ := hR f hf
  have hst : (P.normal f).dot (P.startOf (P.faceEdge f)) = (P.normal f).dot (P.first f) := by
    have := (hP.start _ r1).1
    unfold Poly.faceN at this
    rwa [r2] at this
  obtain ⟨planes, e1, e2, e3⟩ := planes_spec hP hR hf
  have keep : ∀ ps : List (V3 K × V3 K), (∀ pl ∈ ps, Front pl.1 pl.2 a) → (∀ pl ∈ ps, Front pl.1 pl.2 b) → clipSegmentLoop N.plane [a, b] ps = some [a, b] := by
    intro ps
    induction ps with
    | nil => intros; rfl
    | cons pl ps ih =>
      intro h1 h2
      have f1 : 0 ≤ (a - pl.1).dot pl.2 := h1 pl (by simp)
      have f2 : 0 ≤ (b - pl.1).dot pl.2 := h2 pl (by simp)
      have : clipSegmentPlane N.plane a b pl.1 pl.2 = [a, b] := by
        unfold clipSegmentPlane
        dsimp only
        rw [if_pos f2, if_neg (not_lt.2 f1)]
      show clipSegmentLoop N.plane (clipSegmentPlane N.plane a b pl.1 pl.2) ps = some [a, b]
      rw [this]
      exact ih (fun q hq => h1 q (List.mem_cons_of_mem _ hq)) (fun q hq => h2 q (List.mem_cons_of_mem _ hq))
  have hclip : clipSegment N.plane a b planes = some [a, b] := by
    cases planes with
    | nil => exact absurd rfl e2
    | cons pl ps => exact keep _ ((e3 a).2 ha) ((e3 b).2 hb)
  have flip : ∀ x, (P.startOf (P.faceEdge f) - x).dot (P.normal f) = (P.normal f).dot (P.first f - x) := fun x => by
    rw [dot_sub_right, ← hst]; simp only [V3.dot, V3.sub_x, V3.sub_y, V3.sub_z]; ring
  have hlow : [a, b].filter (fun x => decide (depth - r - 1 / 1000 < (P.startOf (P.faceEdge f) - x).dot (P.normal f))) ≠ [] := by
    rcases hd with h | h
    · exact List.ne_nil_of_mem (List.mem_filter.2 ⟨by simp, decide_eq_true (by rw [flip]; exact h)⟩ : a ∈ _)
    · exact List.ne_nil_of_mem (List.mem_filter.2 ⟨by simp, decide_eq_true (by rw [flip]; exact h)⟩ : b ∈ _)
  unfold capContacts
  rw [e1]
  dsimp only
  rw [hclip]
  dsimp only
  refine ⟨_, by rw [decide_eq_true hlow], ?_⟩
  intro h
  exact hlow (List.map_eq_nil_iff.1 h)

end Field

/-! ### The depth over the reals -/

variable {P : Poly ℝ} {wc wp : Trans ℝ} {N : Num ℝ} {hh r : ℝ}

theorem placed_inner (hp : 0 < hh) (t : Trans ℝ) (x : V3 ℝ) : Placed t (Inner hh) x ↔ Hull ([segA hh, segB hh].map t.act) x := by
  constructor
  · rintro ⟨y, ⟨s, s1, s2, rfl⟩, rfl⟩
    refine hull_act t (vs := [segA hh, segB hh]) (fun v hv => .vertex (List.mem_map.2 ⟨v, hv, rfl⟩)) ?_
    refine hull_seg (s := segA hh) (e := segB hh) (by simp) (by simp) ⟨(s + hh) / (2 * hh), by apply div_nonneg <;> linarith, by rw [div_le_one (by linarith)]; linarith, ?_⟩
    ext <;> simp [at', segA, segB]
    field_simp; ring
  · intro h
    induction h with
    | vertex hv =>
      obtain ⟨v, hv', rfl⟩ := List.mem_map.1 hv
      have : v = segA hh ∨ v = segB hh := by simpa using hv'
      rcases this with rfl | rfl
      · exact ⟨_, inner_seg hp (onSeg_left _ _), rfl⟩
      · exact ⟨_, inner_seg hp (onSeg_right _ _), rfl⟩
    | @mix x y w _ _ w0 w1 ih1 ih2 =>
      obtain ⟨a, ⟨s, s1, s2, rfl⟩, rfl⟩ := ih1
      obtain ⟨b, ⟨u, u1, u2, rfl⟩, rfl⟩ := ih2
      refine ⟨V3.smul (1 - w) ⟨0, s, 0⟩ + V3.smul w ⟨0, u, 0⟩, ⟨(1 - w) * s + w * u, by nlinarith, by nlinarith, ?_⟩, (act_mix t _ _ _).symm⟩
      ext <;> simp

/-- Polyhedron and inner segment that overlap by `δ` still meet after a motion not longer than that. -/
theorem inner_meet (hp : 0 < hh) {δ : ℝ} (hδ : 0 ≤ δ) (h : Overlap δ (Placed wp (Hulled P)) (Placed wc (Inner hh))) {w : V3 ℝ} (hw : w.lengthSq ≤ δ * δ) :
    Meet (Placed wp (Hulled P)) (Moved (Placed wc (Inner hh)) w) := by
  have e1 : Placed wp (Hulled P) = Hull ((verts P).map wp.act) := funext fun x => propext (placed_hull P wp x)
  have e2 : Placed wc (Inner hh) = Hull ([segA hh, segB hh].map wc.act) := funext fun x => propext (placed_inner hp wc x)
  rw [e1, e2] at h ⊢
  exact overlap_meet hδ h hw

/-- **C106 over the reals.** The depth is how far the capsule has to be moved: moved by any vector not longer it still meets the polyhedron, moved farther along the
direction of the axis it does not. -/
theorem capsule_depth (hr : 0 < r) (hp : 0 < hh) (uc : wc.ori.lengthSq = 1) {d : ℝ} {n : V3 ℝ} (hn : n.lengthSq = 1) (hd : r ≤ d)
    (ho : Overlap (d - r) (Placed wp (Hulled P)) (Placed wc (Inner hh)))
    (hb : ∀ x y, Placed wp (Hulled P) x → Placed wc (Capsule r hh) y → n.dot (x - y) ≤ d) :
    (∀ w : V3 ℝ, w.lengthSq ≤ d * d → Meet (Placed wp (Hulled P)) (Moved (Placed wc (Capsule r hh)) w)) ∧
    ∀ s, d < s → ¬ Meet (Placed wp (Hulled P)) (Moved (Placed wc (Capsule r hh)) (V3.smul s n)) := by
  constructor
  · intro w hw
    have hd0 : 0 < d := by linarith
    have hk : ∀ k : ℝ, (V3.smul (k / d) w).lengthSq ≤ k * k := fun k => by
      have e : (V3.smul (k / d) w).lengthSq = (k / d) * (k / d) * w.lengthSq := by simp only [V3.lengthSq, V3.smul_x, V3.smul_y, V3.smul_z]; ring
      rw [e]
      have h1 : (k / d) * (k / d) * w.lengthSq ≤ (k / d) * (k / d) * (d * d) := mul_le_mul_of_nonneg_left hw (mul_self_nonneg _)
      have e : (k / d) * (k / d) * (d * d) = k * k := by field_simp
      linarith
    obtain ⟨x, hx, y, ⟨_, ⟨s, s1, s2, rfl⟩, rfl⟩, e⟩ := inner_meet hp (by linarith) ho (hk (d - r))
    have hw' : (wc.ori.conj.rot (V3.smul (-r / d) w)).lengthSq ≤ r * r := by
      rw [rot_len (conj_unit uc)]
      have := hk (-r)
      linarith
    refine ⟨x, hx, wc.act (⟨0, s, 0⟩ + wc.ori.conj.rot (V3.smul (-r / d) w)), ⟨_, cap_inner (s := s) (w := wc.ori.conj.rot (V3.smul (-r / d) w)) s1 s2 hw', rfl⟩, ?_⟩
    rw [act_plus, rot_conj' uc, e]
    ext <;> simp <;> field_simp <;> ring
  · rintro s hs ⟨x, hx, y, hy, rfl⟩
    have := hb _ _ hx hy
    simp only [V3.lengthSq] at hn
    simp only [V3.dot, V3.sub_x, V3.sub_y, V3.sub_z, V3.add_x, V3.add_y, V3.add_z, V3.smul_x, V3.smul_y, V3.smul_z] at this
    nlinarith

/-- **C106, edges.** If the search ends with an edge, the contact is sound, and its point on the polyhedron is on that edge. -/
theorem capsule_edge_contact (hN : NumOk N) (he : N.eps < 1) (hr : 0 < r) (hp : 0 < hh) (hP : Solid P) (hS : Strict P) (uc : wc.ori.lengthSq = 1) (up : wp.ori.lengthSq = 1)
    {b : CapBest ℝ} (hrb : r ≤ b.depth) (ho : Overlap (b.depth - r) (Placed wp (Hulled P)) (Placed wc (Inner hh))) {e : Nat} (hT : CapTested N P hh (wc.inverse.mul wp) (.edge e))
    (hax : capEdge N P hh r (wc.inverse.mul wp) e = (b.depth, b.dir)) (l1 : N.eps < 4 * (hh * hh)) (l2 : N.eps < dist2 (P.startOf e) (P.endOf e)) {first : Bool} :
    let c := capEdgeContact N P e r b.depth (wc.inverse.mul wp) (if first then -(wc.ori.rot b.dir) else wc.ori.rot b.dir) b.dir ((wc.inverse.mul wp).inverse.act (segA hh))
      ((wc.inverse.mul wp).inverse.act (segB hh)) first
    c.depth = b.depth ∧ CapSound wc wp hh r (wc.ori.rot b.dir) first c ∧ OnSeg (P.startOf e) (P.endOf e) (onPoly first c) := by
  have ht := frame_unit up uc
  obtain ⟨c1, c2, c3, c4, c5, ⟨α, β, hα, hβ, c6⟩, -⟩ := capEdge_axis hN he hr hp hP ht hT
  rw [hax] at c1 c2 c3 c4 c5 c6
  dsimp only at c1 c2 c3 c4 c5 c6
  -- points at the distance of the depth
  obtain ⟨x, ⟨u, hu, rfl⟩, y, ⟨v, hv, rfl⟩, exy⟩ := inner_meet hp (by linarith) ho (w := V3.smul (b.depth - r) (wc.ori.rot b.dir)) (by
    have : (V3.smul (b.depth - r) (wc.ori.rot b.dir)).lengthSq = (b.depth - r) * (b.depth - r) * (wc.ori.rot b.dir).lengthSq := by
      simp only [V3.lengthSq, V3.smul_x, V3.smul_y, V3.smul_z]; ring
    rw [this, rot_len uc, c1, mul_one])
  have eloc : (wc.inverse.mul wp).act u - v = V3.smul (b.depth - r) b.dir := by
    have : wc.ori.rot ((wc.inverse.mul wp).act u - v) = wc.ori.rot (V3.smul (b.depth - r) b.dir) := by
      rw [← act_sub, frame_act uc u, exy, rot_smul]
      ext <;> simp
    have e := congrArg wc.ori.conj.rot this
    rwa [rot_conj uc, rot_conj uc] at e
  have hlev : b.dir.dot ((wc.inverse.mul wp).act u - v) = b.depth - r := by
    rw [eloc]
    simp only [V3.lengthSq] at c1
    simp only [V3.dot, V3.smul_x, V3.smul_y, V3.smul_z]
    linear_combination (b.depth - r) * c1
  obtain ⟨s, s1, s2, rfl⟩ := hv
  have vA : b.dir.dot (⟨0, s, 0⟩ : V3 ℝ) = b.dir.dot (segA hh) := by
    simp only [V3.dot, segA, segB, V3.sub_x, V3.sub_y, V3.sub_z] at c3 ⊢
    have : b.dir.y * (hh - -hh) = 0 := by linarith
    have : b.dir.y = 0 := by
      rcases mul_eq_zero.1 this with h | h
      · exact h
      · linarith
    rw [this]; ring
  have g1 : OnSeg (P.startOf e) (P.endOf e) u := by
    refine cone_seg hP hS ht hT.1.1 hT.1.2 hα hβ hu ?_
    rw [← c6, dot_sub_right]
    rw [dot_sub_right] at hlev c5
    linarith
  -- the closest points
  have sl : OnSeg ((wc.inverse.mul wp).inverse.act (segA hh)) ((wc.inverse.mul wp).inverse.act (segB hh)) ((wc.inverse.mul wp).inverse.act ⟨0, s, 0⟩) := by
    refine onSeg_act _ ⟨(s + hh) / (2 * hh), by apply div_nonneg <;> linarith, by rw [div_le_one (by linarith)]; linarith, ?_⟩
    ext <;> simp [at', segA, segB]
    field_simp; ring
  have uti : (wc.inverse.mul wp).inverse.ori.lengthSq = 1 := conj_unit ht
  have hlen : dist2 ((wc.inverse.mul wp).inverse.act (segA hh)) ((wc.inverse.mul wp).inverse.act (segB hh)) = 4 * (hh * hh) := by
    rw [act_dist uti]; simp [dist2, segA, segB]; ring
  obtain ⟨k1, k2, k3⟩ := closest_of_segments N.eps hN.eps.le ((wc.inverse.mul wp).inverse.act (segA hh)) ((wc.inverse.mul wp).inverse.act (segB hh)) (P.startOf e) (P.endOf e)
    (by rw [hlen]; exact l1) l2
  have near := k3 _ _ sl g1
  have hd2 : dist2 ((wc.inverse.mul wp).inverse.act ⟨0, s, 0⟩) u = (b.depth - r) * (b.depth - r) := by
    have q := act_dist ht ((wc.inverse.mul wp).inverse.act ⟨0, s, 0⟩) u
    rw [trans_act_inverse ht] at q
    rw [← q]
    have ex := congrArg V3.x eloc
    have ey := congrArg V3.y eloc
    have ez := congrArg V3.z eloc
    simp only [V3.sub_x, V3.sub_y, V3.sub_z, V3.smul_x, V3.smul_y, V3.smul_z] at ex ey ez
    simp only [V3.lengthSq] at c1
    unfold dist2
    dsimp only
    have f1 : (0 : ℝ) - ((wc.inverse.mul wp).act u).x = -((b.depth - r) * b.dir.x) := by linarith
    have f2 : s - ((wc.inverse.mul wp).act u).y = -((b.depth - r) * b.dir.y) := by linarith
    have f3 : (0 : ℝ) - ((wc.inverse.mul wp).act u).z = -((b.depth - r) * b.dir.z) := by linarith
    rw [f1, f2, f3]
    linear_combination (b.depth - r) * (b.depth - r) * c1
  rw [hd2] at near
  -- their difference in the space of the capsule
  have m1 := onSeg_act (wc.inverse.mul wp) k1
  rw [trans_act_inverse ht, trans_act_inverse ht] at m1
  have m2 := onSeg_act (wc.inverse.mul wp) k2
  have near' : dist2 ((wc.inverse.mul wp).act (closestSegments N.eps ((wc.inverse.mul wp).inverse.act (segA hh)) ((wc.inverse.mul wp).inverse.act (segB hh)) (P.startOf e) (P.endOf e)).1)
      ((wc.inverse.mul wp).act (closestSegments N.eps ((wc.inverse.mul wp).inverse.act (segA hh)) ((wc.inverse.mul wp).inverse.act (segB hh)) (P.startOf e) (P.endOf e)).2) ≤
      (b.depth - r) * (b.depth - r) := by rw [act_dist ht]; exact near
  unfold capEdgeContact
  dsimp only
  generalize (closestSegments N.eps ((wc.inverse.mul wp).inverse.act (segA hh)) ((wc.inverse.mul wp).inverse.act (segB hh)) (P.startOf e) (P.endOf e)).1 = p at *
  generalize (closestSegments N.eps ((wc.inverse.mul wp).inverse.act (segA hh)) ((wc.inverse.mul wp).inverse.act (segB hh)) (P.startOf e) (P.endOf e)).2 = q at *
  have lev : b.dir.dot ((wc.inverse.mul wp).act q - (wc.inverse.mul wp).act p) = b.depth - r := by
    obtain ⟨a1, _, _, e1⟩ := m1
    obtain ⟨a2, _, _, e2⟩ := m2
    rw [e1, e2, ← at'_eq, ← at'_eq]
    generalize (wc.inverse.mul wp).act (P.startOf e) = A at *
    generalize (wc.inverse.mul wp).act (P.endOf e) = B at *
    generalize segA hh = C at *
    generalize segB hh = D at *
    simp only [V3.dot, V3.sub_x, V3.sub_y, V3.sub_z, V3.add_x, V3.add_y, V3.add_z, V3.smul_x, V3.smul_y, V3.smul_z] at c3 c4 c5 ⊢
    linear_combination a2 * c4 - a1 * c3 - c5
  have diff : (wc.inverse.mul wp).act q - (wc.inverse.mul wp).act p = V3.smul (b.depth - r) b.dir := by
    generalize (wc.inverse.mul wp).act q = Q at *
    generalize (wc.inverse.mul wp).act p = R at *
    generalize b.dir = S at *
    generalize b.depth - r = δ at *
    have hz : (Q - R - V3.smul δ S).lengthSq ≤ 0 := by
      have key : (Q - R - V3.smul δ S).lengthSq = dist2 R Q - 2 * δ * S.dot (Q - R) + δ * δ * S.lengthSq := by
        simp only [V3.lengthSq, V3.dot, dist2, V3.sub_x, V3.sub_y, V3.sub_z, V3.smul_x, V3.smul_y, V3.smul_z]; ring
      rw [key, lev, c1]
      nlinarith
    by_contra hne
    have : Q - R - V3.smul δ S ≠ 0 := by
      intro e0
      apply hne
      have ex := congrArg V3.x e0
      have ey := congrArg V3.y e0
      have ez := congrArg V3.z e0
      simp only [V3.sub_x, V3.sub_y, V3.sub_z, V3.smul_x, V3.smul_y, V3.smul_z, V3.zero_x, V3.zero_y, V3.zero_z] at ex ey ez
      ext <;> simp only [V3.sub_x, V3.sub_y, V3.sub_z, V3.smul_x, V3.smul_y, V3.smul_z] <;> linarith
    exact absurd hz (not_le.2 (len_pos this))
  have hq : onPoly first (⟨if first then -(wc.ori.rot b.dir) else wc.ori.rot b.dir, b.depth, if first then (wc.inverse.mul wp).act p - V3.smul r b.dir else q,
      if first then q else (wc.inverse.mul wp).act p - V3.smul r b.dir⟩ : Round.Contact ℝ) = q := by cases first <;> rfl
  have hc : onCap first (⟨if first then -(wc.ori.rot b.dir) else wc.ori.rot b.dir, b.depth, if first then (wc.inverse.mul wp).act p - V3.smul r b.dir else q,
      if first then q else (wc.inverse.mul wp).act p - V3.smul r b.dir⟩ : Round.Contact ℝ) = (wc.inverse.mul wp).act p - V3.smul r b.dir := by cases first <;> rfl
  unfold CapSound
  rw [hq, hc]
  refine ⟨rfl, ⟨rfl, ?_, _, inner_seg hp m1, by rw [act_minus, rot_smul]⟩, k2⟩
  rw [act_minus, rot_smul, ← frame_act uc q]
  have w := congrArg wc.ori.rot diff
  rw [← act_sub, rot_smul] at w
  have ex := congrArg V3.x w
  have ey := congrArg V3.y w
  have ez := congrArg V3.z w
  simp only [V3.sub_x, V3.sub_y, V3.sub_z, V3.smul_x, V3.smul_y, V3.smul_z] at ex ey ez
  ext <;> simp only [V3.sub_x, V3.sub_y, V3.sub_z, V3.smul_x, V3.smul_y, V3.smul_z] <;> linarith

end SatProps
end RP3D
