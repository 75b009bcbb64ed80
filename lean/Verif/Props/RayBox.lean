import Verif.Props.RaySphere

/-! C75: ray casts against boxes report the first point of the box on the ray. -/

namespace RP3D
namespace RayProps
open Ray

variable {K : Type} [Field K] [LinearOrder K] [IsStrictOrderedRing K]

/-- Specification: the solid box with the given half extents. -/
def Box (h : V3 K) (x : V3 K) : Prop := (-h.x ≤ x.x ∧ x.x ≤ h.x) ∧ (-h.y ≤ x.y ∧ x.y ≤ h.y) ∧ (-h.z ≤ x.z ∧ x.z ≤ h.z)

/-- One coordinate of the ray is between the two planes of a slab. -/
def InSlab (p d h t : K) : Prop := -h ≤ p + t * d ∧ p + t * d ≤ h

/-- The normal of a slab which the ray enters. -/
def Facing (S : V3 K → Prop) (r : Ray K) (t : K) (n : V3 K) : Prop := n.dot r.dir < 0 ∧ ∀ x, S x → n.dot x ≤ n.dot (r.at t)

theorem Facing.outward {S : V3 K → Prop} {r : Ray K} {t : K} {n : V3 K} (h : Facing S r t n) : Outward S r t n := by
  refine ⟨?_, h.1.le, h.2⟩
  rintro rfl
  have := h.1
  simp [V3.dot] at this

/-- A number is either zero or far enough from zero for the test of parallelism. -/
def ClearOf (eps d : K) : Prop := d = 0 ∨ eps ≤ |d|

/-- What the loop knows: `Q` is the set of fractions which are in all slabs seen so far. -/
structure SlabInv (hv : V3 K) (r : Ray K) (large maxF : K) (Q : K → Prop) (s : Slabs K) : Prop where
  iff : ∀ t, 0 ≤ t → t ≤ maxF → (Q t ↔ s.tMin ≤ t ∧ t ≤ s.tMax)
  before : ∀ t, t < s.tMin → -large < s.tMin → ¬ Q t
  low : -large ≤ s.tMin
  high : s.tMax ≤ large
  ne : s.tMin ≤ s.tMax
  nrm : -large < s.tMin → Facing (Box hv) r s.tMin s.normal

theorem slab_interval {p d h t : K} (hd : d ≠ 0) (hh : 0 ≤ h) :
    InSlab p d h t ↔ (if (-h - p) * (1 / d) > (h - p) * (1 / d) then (h - p) * (1 / d) else (-h - p) * (1 / d)) ≤ t ∧
      t ≤ (if (-h - p) * (1 / d) > (h - p) * (1 / d) then (-h - p) * (1 / d) else (h - p) * (1 / d)) := by
  unfold InSlab
  rcases lt_or_gt_of_ne hd with hd | hd
  · have e1 : ∀ x, x * (1 / d) ≤ t ↔ t * d ≤ x := by
      intro x; rw [mul_one_div, div_le_iff_of_neg hd]
    have e2 : ∀ x, t ≤ x * (1 / d) ↔ x ≤ t * d := by
      intro x; rw [mul_one_div, le_div_iff_of_neg hd]
    split_ifs with hg
    · rw [e1, e2]; constructor <;> rintro ⟨h1, h2⟩ <;> constructor <;> linarith
    · rw [e1, e2]
      have : h = 0 := by
        have : (-h - p) * (1 / d) ≤ (h - p) * (1 / d) := not_lt.1 hg
        rw [mul_one_div, mul_one_div, div_le_div_right_of_neg hd] at this
        linarith
      subst this
      constructor <;> rintro ⟨h1, h2⟩ <;> constructor <;> linarith
  · have hd : 0 < d := hd
    have e1 : ∀ x, x * (1 / d) ≤ t ↔ x ≤ t * d := by
      intro x; rw [mul_one_div, div_le_iff₀ hd]
    have e2 : ∀ x, t ≤ x * (1 / d) ↔ t * d ≤ x := by
      intro x; rw [mul_one_div, le_div_iff₀ hd]
    have hg : ¬ (-h - p) * (1 / d) > (h - p) * (1 / d) := by
      rw [gt_iff_lt, mul_one_div, mul_one_div, div_lt_div_iff_of_pos_right hd]; linarith
    rw [if_neg hg, if_neg hg, e1, e2]
    constructor <;> rintro ⟨h1, h2⟩ <;> constructor <;> linarith

theorem slab_inv {eps large maxF p d h : K} {axis : K → V3 K} {coord : V3 K → K} {hv : V3 K} {r : Ray K}
    (ha : ∀ a v, (axis a).dot v = a * coord v) (hneg : ∀ a, -axis a = axis (-a)) (hc : ∀ t, coord (r.at t) = p + t * d)
    (hcd : coord r.dir = d) (hb : ∀ x, Box hv x → -h ≤ coord x ∧ coord x ≤ h)
    (he : 0 < eps) (hh : 0 < h) (hd : ClearOf eps d) {Q : K → Prop} {s : Slabs K} (hi : SlabInv hv r large maxF Q s) :
    (∀ s', slab eps maxF p d h axis s = some s' → SlabInv hv r large maxF (fun t => Q t ∧ InSlab p d h t) s') ∧
      (slab eps maxF p d h axis s = none → ∀ t, 0 ≤ t → t ≤ maxF → ¬ (Q t ∧ InSlab p d h t)) := by
  unfold slab
  rcases hd with hd | hd
  · have h1 : |d| < eps := by rw [hd, abs_zero]; exact he
    rw [if_pos h1]
    have e : ∀ t, InSlab p d h t ↔ -h ≤ p ∧ p ≤ h := by
      intro t; unfold InSlab; rw [hd]; simp
    split_ifs with h2
    · refine ⟨by simp, fun _ t _ _ hq => ?_⟩
      have := (e t).1 hq.2
      rcases h2 with h2 | h2 <;> linarith [this.1, this.2]
    · simp only [not_or, not_lt] at h2
      refine ⟨?_, by simp⟩
      rintro s' ⟨⟩
      refine ⟨fun t t0 t1 => ?_, fun t ht hlt hq => hi.before t ht hlt hq.1, hi.low, hi.high, hi.ne, hi.nrm⟩
      rw [← hi.iff t t0 t1]
      exact ⟨fun hq => hq.1, fun hq => ⟨hq, (e t).2 ⟨h2.2, h2.1⟩⟩⟩
  · have h1 : ¬ |d| < eps := not_lt.2 hd
    have hd0 : d ≠ 0 := by rintro rfl; rw [abs_zero] at hd; exact absurd he (not_lt.2 hd)
    rw [if_neg h1]
    dsimp only
    have ei := fun t => slab_interval (p := p) (t := t) hd0 hh.le
    -- the normal of the near plane
    have hnear : Facing (Box hv) r
        (if (-h - p) * (1 / d) > (h - p) * (1 / d) then (h - p) * (1 / d) else (-h - p) * (1 / d))
        (if (-h - p) * (1 / d) > (h - p) * (1 / d) then -axis (-h) else axis (-h)) := by
      have hlt : (-h - p) * (1 / d) > (h - p) * (1 / d) ↔ d < 0 := by
        rcases lt_or_gt_of_ne hd0 with hd | hd
        · rw [gt_iff_lt, mul_one_div, mul_one_div, div_lt_div_right_of_neg hd]
          exact ⟨fun _ => hd, fun _ => by linarith⟩
        · have hd : 0 < d := hd
          rw [gt_iff_lt, mul_one_div, mul_one_div, div_lt_div_iff_of_pos_right hd]
          exact ⟨fun _ => by linarith, fun hn => absurd hd (not_lt.2 hn.le)⟩
      have e1 : ∀ x, x * (1 / d) * d = x := by intro x; field_simp
      by_cases hneg' : d < 0
      · rw [if_pos (hlt.2 hneg'), if_pos (hlt.2 hneg'), hneg, neg_neg]
        refine ⟨by rw [ha, hcd]; exact mul_neg_of_pos_of_neg hh hneg', fun x hx => ?_⟩
        rw [ha, ha, hc, e1]
        nlinarith [(hb x hx).2]
      · have hpos : 0 < d := lt_of_le_of_ne (not_lt.1 hneg') (Ne.symm hd0)
        rw [if_neg (fun hn => hneg' (hlt.1 hn)), if_neg (fun hn => hneg' (hlt.1 hn))]
        refine ⟨by rw [ha, hcd]; nlinarith, fun x hx => ?_⟩
        rw [ha, ha, hc, e1]
        nlinarith [(hb x hx).1]
    generalize (if (-h - p) * (1 / d) > (h - p) * (1 / d) then -axis (-h) else axis (-h)) = nn at *
    generalize (if (-h - p) * (1 / d) > (h - p) * (1 / d) then (h - p) * (1 / d) else (-h - p) * (1 / d)) = near at *
    generalize (if (-h - p) * (1 / d) > (h - p) * (1 / d) then (-h - p) * (1 / d) else (h - p) * (1 / d)) = far at *
    have hmin : (if near > s.tMin then near else s.tMin) = max s.tMin near := by
      split_ifs with hg
      · exact (max_eq_right (le_of_lt hg)).symm
      · exact (max_eq_left (not_lt.1 hg)).symm
    rw [hmin]
    have key : ∀ t, 0 ≤ t → t ≤ maxF → ((Q t ∧ InSlab p d h t) ↔ max s.tMin near ≤ t ∧ t ≤ min s.tMax far) := by
      intro t t0 t1
      rw [hi.iff t t0 t1, ei t, max_le_iff, le_min_iff]
      tauto
    by_cases h2 : max s.tMin near > maxF
    · rw [if_pos h2]
      refine ⟨by simp, fun _ t t0 t1 hq => ?_⟩
      have := (key t t0 t1).1 hq
      linarith [this.1]
    rw [if_neg h2]
    by_cases h3 : max s.tMin near > min s.tMax far
    · rw [if_pos h3]
      refine ⟨by simp, fun _ t t0 t1 hq => ?_⟩
      have := (key t t0 t1).1 hq
      linarith [this.1, this.2]
    rw [if_neg h3]
    refine ⟨?_, by simp⟩
    rintro s' ⟨⟩
    refine ⟨key, ?_, le_trans hi.low (le_max_left ..), le_trans (min_le_left ..) hi.high, not_lt.1 h3, ?_⟩
    · intro t ht hlt hq
      simp only at ht hlt
      rcases le_total near s.tMin with hle | hle
      · rw [max_eq_left hle] at ht hlt
        exact hi.before t ht hlt hq.1
      · rw [max_eq_right hle] at ht
        have := ((ei t).1 hq.2).1
        linarith
    · intro hlt
      simp only at hlt ⊢
      by_cases hg : near > s.tMin
      · rw [if_pos hg, max_eq_right hg.le]; exact hnear
      · rw [if_neg hg, max_eq_left (not_lt.1 hg)]
        rw [max_eq_left (not_lt.1 hg)] at hlt
        exact hi.nrm hlt

/-- The set of fractions at which the ray is in the box, as the loop builds it. -/
theorem box_slabs (h : V3 K) (r : Ray K) (t : K) : Box h (r.at t) ↔
    ((True ∧ InSlab r.p1.x r.dir.x h.x t) ∧ InSlab r.p1.y r.dir.y h.y t) ∧ InSlab r.p1.z r.dir.z h.z t := by
  unfold Box InSlab Ray.at
  simp only [V3.add_x, V3.add_y, V3.add_z, V3.smul_x, V3.smul_y, V3.smul_z]
  tauto

/-- Ray casts against a box: a hit is the first point of the box on the ray, within the range of the ray; if there is no hit,
the ray does not meet the box within its range, or the origin is in the box. The directions are exactly parallel to a
side of the box or clearly not (`MACHINE_EPSILON`). -/
theorem box_raycast {eps large : K} {h : V3 K} {r : Ray K} (he : 0 < eps) (hl : 0 < large) (hm : r.maxF ≤ large)
    (hx : 0 < h.x) (hy : 0 < h.y) (hz : 0 < h.z) (dx : ClearOf eps r.dir.x) (dy : ClearOf eps r.dir.y)
    (dz : ClearOf eps r.dir.z) :
    (∀ a, box eps large h r = some a → IsFirst (Box h) r a.fraction ∧ a.fraction ≤ r.maxF ∧ a.point = r.at a.fraction ∧
        Outward (Box h) r a.fraction a.normal) ∧
      (box eps large h r = none → Box h r.p1 ∨ ∀ s, 0 ≤ s → s ≤ r.maxF → ¬ Box h (r.at s)) := by
  have i0 : SlabInv h r large r.maxF (fun _ => True) (⟨-large, large, 0⟩ : Slabs K) :=
    ⟨fun t t0 t1 => ⟨fun _ => ⟨by linarith, by linarith⟩, fun _ => trivial⟩, fun t _ hh => absurd hh (lt_irrefl _),
      le_refl _, le_refl _, by simp only; linarith, fun hh => absurd hh (lt_irrefl _)⟩
  unfold box
  obtain ⟨s1, n1⟩ := slab_inv (axis := fun a => (⟨a, 0, 0⟩ : V3 K)) (coord := fun v => v.x) (hv := h) (r := r) (p := r.p1.x)
            (fun a v => by simp [V3.dot]) (fun a => by ext <;> simp) (fun t => by simp [Ray.at]) rfl (fun x hx => by unfold Box at hx; tauto) he hx dx i0
  cases hs1 : slab eps r.maxF r.p1.x r.dir.x h.x (fun a => ⟨a, 0, 0⟩) (⟨-large, large, 0⟩ : Slabs K) with
  | none =>
    refine ⟨by simp, fun _ => Or.inr fun s s0 s1 hb => n1 hs1 s s0 s1 ?_⟩
    exact ((box_slabs h r s).1 hb).1.1
  | some a =>
    have i1 := s1 a hs1
    obtain ⟨s2, n2⟩ := slab_inv (axis := fun a => (⟨0, a, 0⟩ : V3 K)) (coord := fun v => v.y) (hv := h) (r := r) (p := r.p1.y)
            (fun a v => by simp [V3.dot]) (fun a => by ext <;> simp) (fun t => by simp [Ray.at]) rfl (fun x hx => by unfold Box at hx; tauto) he hy dy i1
    simp only [Option.bind_eq_bind, Option.bind_some]
    cases hs2 : slab eps r.maxF r.p1.y r.dir.y h.y (fun a => ⟨0, a, 0⟩) a with
    | none =>
      refine ⟨by simp, fun _ => Or.inr fun s s0 s1 hb => n2 hs2 s s0 s1 ?_⟩
      exact ((box_slabs h r s).1 hb).1
    | some b =>
      have i2 := s2 b hs2
      obtain ⟨s3, n3⟩ := slab_inv (axis := fun a => (⟨0, 0, a⟩ : V3 K)) (coord := fun v => v.z) (hv := h) (r := r) (p := r.p1.z)
            (fun a v => by simp [V3.dot]) (fun a => by ext <;> simp) (fun t => by simp [Ray.at]) rfl (fun x hx => by unfold Box at hx; tauto) he hz dz i2
      simp only [Option.bind_some]
      cases hs3 : slab eps r.maxF r.p1.z r.dir.z h.z (fun a => ⟨0, 0, a⟩) b with
      | none =>
        refine ⟨by simp, fun _ => Or.inr fun s s0 s1 hb => n3 hs3 s s0 s1 ?_⟩
        exact (box_slabs h r s).1 hb
      | some c =>
        have i3 := s3 c hs3
        simp only [Option.bind_some]
        have hp : r.at 0 = r.p1 := by unfold Ray.at; ext <;> simp
        split_ifs with hc
        · refine ⟨by simp, fun _ => ?_⟩
          by_cases h0 : Box h r.p1
          · exact Or.inl h0
          · refine Or.inr fun s s0 s1 hb => ?_
            have hb' := (i3.iff s s0 s1).1 ((box_slabs h r s).1 hb)
            rcases hc with hc | hc
            · refine h0 ?_
              rw [← hp]
              refine (box_slabs h r 0).2 ((i3.iff 0 (le_refl _) (by linarith)).2 ⟨hc.le, by linarith [hb'.2]⟩)
            · linarith [hb'.1]
        · simp only [not_or, not_lt] at hc
          refine ⟨?_, by simp⟩
          rintro _ ⟨⟩
          refine ⟨⟨hc.1, ?_, ?_⟩, hc.2, rfl, (i3.nrm (by linarith [hc.1])).outward⟩
          · refine (box_slabs h r _).2 ((i3.iff _ hc.1 hc.2).2 ⟨le_refl _, i3.ne⟩)
          · intro s _ hs hb
            exact i3.before s hs (by linarith [hc.1]) ((box_slabs h r s).1 hb)

end RayProps
end RP3D
