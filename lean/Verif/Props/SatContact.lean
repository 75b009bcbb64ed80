import Verif.Props.SatBox
import Verif.Props.Clipping
import Mathlib.Dynamics.PeriodicPts.Defs

/-! C103: the contact points of a face of a polyhedron with another polyhedron. -/

namespace RP3D
namespace SatProps
open Shape RayProps PointProps RoundProps Geom GeomProps Sat SatGeom

set_option linter.unusedSectionVars false
variable {K : Type} [Field K] [LinearOrder K] [IsStrictOrderedRing K]

/-! ### Specification -/

/-- The half-edge `k` steps after `e`. -/
def along (P : Poly K) (e k : Nat) : Nat := (fun e => (P.edge e).next)^[k] e

/-- A point of the plane of a face, on the inner side of the planes through its edges that are orthogonal to it. -/
def OnFace (P : Poly K) (f : Nat) (y : V3 K) : Prop :=
  (P.normal f).dot y = (P.normal f).dot (P.first f) ∧
  ∀ k, 0 ≤ ((P.normal f).cross (P.endOf (along P (P.faceEdge f) k) - P.startOf (along P (P.faceEdge f) k))).dot (y - P.startOf (along P (P.faceEdge f) k))

/-- The half-edges of a face form a ring. -/
def Rings (P : Poly K) : Prop :=
  ∀ f < P.nf, P.faceEdge f < P.ne ∧ (P.edge (P.faceEdge f)).face = f ∧ ∃ k, 0 < k ∧ k ≤ P.ne ∧ along P (P.faceEdge f) k = P.faceEdge f

/-- Poses of two shapes in the world and the maps between their spaces. -/
structure Frames (wR wI tRI tIR : Trans K) : Prop where
  unitR : wR.ori.lengthSq = 1
  unit : tRI.ori.lengthSq = 1
  world : ∀ x, wI.act (tRI.act x) = wR.act x
  back : ∀ x, tRI.act (tIR.act x) = x

/-! ### Hulls -/

theorem hull_trans {vs ws : List (V3 K)} (h : ∀ v ∈ vs, Hull ws v) {x : V3 K} (hx : Hull vs x) : Hull ws x := by
  induction hx with
  | vertex hv => exact h _ hv
  | mix _ _ w0 w1 ih1 ih2 => exact .mix ih1 ih2 w0 w1

theorem hull_seg {vs : List (V3 K)} {s e x : V3 K} (hs : s ∈ vs) (he : e ∈ vs) (hx : OnSeg s e x) : Hull vs x := by
  obtain ⟨t, t0, t1, rfl⟩ := hx
  have := Hull.mix (.vertex hs) (.vertex he) t0 t1
  convert this using 1
  ext <;> simp [at'] <;> ring

theorem edge_mem {poly : List (V3 K)} {s e : V3 K} (h : IsEdge poly s e) : s ∈ poly ∧ e ∈ poly := by
  rcases h with ⟨l, r, rfl⟩ | ⟨h1, h2⟩
  · simp
  · exact ⟨List.mem_of_getLast? h1, List.mem_of_head? h2⟩

theorem act_mix (t : Trans K) (w : K) (x y : V3 K) : t.act (V3.smul (1 - w) x + V3.smul w y) = V3.smul (1 - w) (t.act x) + V3.smul w (t.act y) := by
  unfold Trans.act
  rw [rot_add2]
  ext <;> simp <;> ring

theorem hull_act {vs ws : List (V3 K)} (t : Trans K) (h : ∀ v ∈ vs, Hull ws (t.act v)) {x : V3 K} (hx : Hull vs x) : Hull ws (t.act x) := by
  induction hx with
  | vertex hv => exact h _ hv
  | mix _ _ w0 w1 ih1 ih2 => rw [act_mix]; exact .mix ih1 ih2 w0 w1

theorem front_hull {vs : List (V3 K)} {p n : V3 K} (h : ∀ v ∈ vs, Front p n v) {x : V3 K} (hx : Hull vs x) : Front p n x := by
  have := hull_le (vs := vs) (d := -n) (m := -(n.dot p)) (fun v hv => by
    have := h v hv
    unfold Front side at this
    simp only [V3.dot, V3.neg_x, V3.neg_y, V3.neg_z]; linarith) hx
  unfold Front side
  simp only [V3.dot, V3.neg_x, V3.neg_y, V3.neg_z] at this
  linarith

/-! ### Clipping -/

/-- The planes used by the clipping. -/
def sideNormal (R : Poly K) (n : V3 K) (e : Nat) : V3 K := n.cross (R.endOf e - R.startOf e)

theorem clipLoop_spec (N : Num K) (R : Poly K) (n : V3 K) (e0 : Nat) : ∀ fuel cur poly out, clipLoop N R n e0 fuel cur poly = some out → poly ≠ [] →
    (∀ x ∈ out, Hull poly x) ∧
    (out ≠ [] → ∃ m, along R cur (m + 1) = e0 ∧ ∀ k ≤ m, ∀ x ∈ out, Front (R.startOf (along R cur k)) (sideNormal R n (along R cur k)) x)
  | 0, _, _, _, h, _ => by simp [clipLoop] at h
  | fuel + 1, cur, poly, out, h, hne => by
    unfold clipLoop at h
    obtain ⟨mid, e, hmid⟩ := polygon_clipped N.plane poly (R.startOf cur) (n.cross (R.endOf cur - R.startOf cur)) hne
    rw [e] at h
    dsimp only at h
    have inmid : ∀ x ∈ mid, Hull poly x := fun x hx => by
      obtain ⟨_, s, e, he, hs⟩ := hmid x hx
      exact hull_seg (edge_mem he).1 (edge_mem he).2 hs
    by_cases hc : (R.edge cur).next ≠ e0 ∧ mid ≠ []
    · rw [if_pos hc] at h
      obtain ⟨i1, i2⟩ := clipLoop_spec N R n e0 fuel _ _ _ h hc.2
      refine ⟨fun x hx => hull_trans inmid (i1 x hx), fun hout => ?_⟩
      obtain ⟨m, hm, hk⟩ := i2 hout
      refine ⟨m + 1, ?_, ?_⟩
      · rw [← hm]; rfl
      · intro k hkm x hx
        cases k with
        | zero => exact front_hull (fun v hv => (hmid v hv).1) (i1 x hx)
        | succ k => exact hk k (by omega) x hx
    · rw [if_neg hc] at h
      simp only [Option.some.injEq] at h
      subst h
      refine ⟨inmid, fun hout => ⟨0, ?_, ?_⟩⟩
      · push Not at hc
        by_contra hh
        exact hout (hc hh)
      · intro k hk x hx
        obtain rfl : k = 0 := by omega
        exact (hmid x hx).1

theorem along_mod {P : Poly K} {e m : Nat} (h : along P e (m + 1) = e) (k : Nat) : along P e k = along P e (k % (m + 1)) := by
  have h' : (fun e => (P.edge e).next)^[m + 1] e = e := h
  have := Function.IsPeriodicPt.iterate_mod_apply (show Function.IsPeriodicPt (fun e => (P.edge e).next) (m + 1) e from h') k
  exact this.symm

theorem clipLoop_some (N : Num K) (R : Poly K) (n : V3 K) (e0 : Nat) {p : Nat} : ∀ fuel i poly, i < p → p ≤ i + fuel → along R e0 p = e0 → poly ≠ [] →
    ∃ out, clipLoop N R n e0 fuel (along R e0 i) poly = some out
  | 0, _, _, hi, hp, _, _ => by omega
  | fuel + 1, i, poly, hi, hp, he, hne => by
    unfold clipLoop
    obtain ⟨mid, e, hmid⟩ := polygon_clipped N.plane poly (R.startOf (along R e0 i)) (n.cross (R.endOf (along R e0 i) - R.startOf (along R e0 i))) hne
    rw [e]
    dsimp only
    have hn : (R.edge (along R e0 i)).next = along R e0 (i + 1) := by
      unfold along; rw [Function.iterate_succ_apply']
    rw [hn]
    by_cases hc : along R e0 (i + 1) ≠ e0 ∧ mid ≠ []
    · rw [if_pos hc]
      have : i + 1 < p := by
        rcases Nat.lt_or_ge (i + 1) p with h | h
        · exact h
        · have : i + 1 = p := by omega
          exact absurd (this ▸ he) hc.1
      exact clipLoop_some N R n e0 fuel (i + 1) mid this (by omega) he hc.2
    · rw [if_neg hc]; exact ⟨_, rfl⟩

theorem antiParallelLoop_lt (P : Poly K) (d : V3 K) (n : Nat) : ∀ (L : List Nat) (s : K × Nat), (∀ f ∈ L, f < n) → s.2 < n →
    (P.antiParallelLoop d L s).2 < n
  | [], s, _, h => h
  | f :: L, s, hL, h => by
    unfold Poly.antiParallelLoop
    refine antiParallelLoop_lt P d n L _ (fun g hg => hL g (List.mem_cons_of_mem _ hg)) ?_
    split_ifs
    · exact hL f List.mem_cons_self
    · exact h

theorem antiParallel_lt (N : Num K) {P : Poly K} (h : 0 < P.nf) (d : V3 K) : P.antiParallel N d < P.nf :=
  antiParallelLoop_lt P d P.nf _ _ (fun f hf => List.mem_range.1 hf) h

theorem dot_cross_self (n v w : V3 K) (s : K) : (n.cross v).dot (w - V3.smul s n) = (n.cross v).dot w := by
  simp only [V3.dot, V3.cross, V3.sub_x, V3.sub_y, V3.sub_z, V3.smul_x, V3.smul_y, V3.smul_z]; ring

section Contacts
variable {N : Num K} {R I : Poly K} {wR wI tRI tIR : Trans K} {f : Nat} {one report : Bool}

/-- The points that the clipping leaves. -/
theorem clipped_spec (hR : Rings R) (hI : Solid I) (h0 : 0 < I.nf) (hF : Frames wR wI tRI tIR) (hf : f < R.nf) :
    ∃ pts, clipped N R I tRI tIR f = some pts ∧
      ∀ x ∈ pts, Hulled I (tRI.act x) ∧
        ∀ k, Front (R.startOf (along R (R.faceEdge f) k)) (sideNormal R (R.normal f) (along R (R.faceEdge f) k)) x := by
  obtain ⟨e1, e2, p, hp0, hp1, hp2⟩ := hR f hf
  unfold clipped
  dsimp only
  have hinc := antiParallel_lt N h0 (tRI.ori.rot (R.normal f))
  obtain ⟨c1, c2⟩ := hI.corner _ hinc
  generalize I.antiParallel N (tRI.ori.rot (R.normal f)) = inc at *
  have hne : ((I.faceVerts inc).map fun v => tIR.act (I.vert v)) ≠ [] := by simpa using c1
  obtain ⟨out, ho⟩ := clipLoop_some N R (R.normal f) (R.faceEdge f) R.ne 0 _ hp0 (by omega) hp2 hne
  have ho : clipLoop N R (R.normal f) (R.faceEdge f) R.ne (R.faceEdge f) ((I.faceVerts inc).map fun v => tIR.act (I.vert v)) = some out := ho
  refine ⟨out, ho, ?_⟩
  obtain ⟨s1, s2⟩ := clipLoop_spec N R (R.normal f) (R.faceEdge f) _ _ _ _ ho hne
  intro x hx
  refine ⟨hull_act tRI (fun v hv => ?_) (s1 x hx), fun k => ?_⟩
  · obtain ⟨u, hu, rfl⟩ := List.mem_map.1 hv
    rw [hF.back]
    exact .vertex (List.mem_map.2 ⟨u, List.mem_range.2 (c2 u hu).1, rfl⟩)
  · obtain ⟨m, hm, hk⟩ := s2 (List.ne_nil_of_mem hx)
    rw [along_mod hm k]
    exact hk _ (by have := Nat.mod_lt k (show 0 < m + 1 by omega); omega) x hx

/-- **C103.** The contacts of a face: each joins a point of the other polyhedron with a point of the face, right above it at the distance reported as the
depth, which is positive and not larger than the depth of the axis; the normal is that of the face, from the first body to the second. The test always
ends, says that contacts are found when there are any, and reports at most 16. -/
theorem face_contacts (hRS : Solid R) (hR : Rings R) (hI : Solid I) (h0 : 0 < I.nf) (hF : Frames wR wI tRI tIR) (hf : f < R.nf) :
    ∃ found cs, faceContacts N R I tRI tIR wR f one report = some (found, cs) ∧ cs.length ≤ 16 ∧ (report = true → (found = true ↔ cs ≠ [])) ∧
      (report = false → cs = []) ∧
      (found = true → ∃ x y d, 0 < d ∧ Hulled I x ∧ OnFace R f y ∧ wR.act y - wI.act x = V3.smul d (wR.ori.rot (R.normal f))) ∧
      ∀ c ∈ cs, ∃ x y, c.normal = (if one then wR.ori.rot (R.normal f) else -(wR.ori.rot (R.normal f))) ∧
        (c.p1, c.p2) = (if one then (y, x) else (x, y)) ∧ 0 < c.depth ∧ c.depth ≤ faceDepth R I tRI f ∧ Hulled I x ∧ OnFace R f y ∧
        wR.act y - wI.act x = V3.smul c.depth (wR.ori.rot (R.normal f)) := by
  obtain ⟨e1, e2, -⟩ := hR f hf
  obtain ⟨pts, hp, hpts⟩ := clipped_spec (N := N) hR hI h0 hF hf
  unfold faceContacts
  rw [hp]
  dsimp only
  have hn := hRS.unit f hf
  have hrv : (R.normal f).dot (R.startOf (R.faceEdge f)) = (R.normal f).dot (R.first f) := by
    have := (hRS.start _ e1).1
    unfold Poly.faceN at this
    rwa [e2] at this
  -- one point
  have point : ∀ x ∈ pts, 0 < (R.startOf (R.faceEdge f) - x).dot (R.normal f) → Hulled I (tRI.act x) ∧
      OnFace R f (projectOnPlane x (R.normal f) (R.startOf (R.faceEdge f))) ∧ (R.startOf (R.faceEdge f) - x).dot (R.normal f) ≤ faceDepth R I tRI f ∧
      wR.act (projectOnPlane x (R.normal f) (R.startOf (R.faceEdge f))) - wI.act (tRI.act x) =
        V3.smul ((R.startOf (R.faceEdge f) - x).dot (R.normal f)) (wR.ori.rot (R.normal f)) := by
    intro x hx hd
    obtain ⟨a1, a2⟩ := hpts x hx
    refine ⟨a1, ⟨?_, fun k => ?_⟩, ?_, ?_⟩
    · rw [← hrv]
      generalize R.normal f = n at *
      generalize R.startOf (R.faceEdge f) = r
      simp only [projectOnPlane, V3.lengthSq, V3.dot, V3.sub_x, V3.sub_y, V3.sub_z, V3.smul_x, V3.smul_y, V3.smul_z] at hn ⊢
      linear_combination (-(n.x * (x.x - r.x) + n.y * (x.y - r.y) + n.z * (x.z - r.z))) * hn
    · have := a2 k
      unfold Front at this
      rw [← side_eq] at this
      unfold sideNormal at this
      generalize R.startOf (along R (R.faceEdge f) k) = s at *
      generalize R.endOf (along R (R.faceEdge f) k) = q at *
      unfold projectOnPlane
      simp only [V3.dot, V3.cross, V3.sub_x, V3.sub_y, V3.sub_z, V3.smul_x, V3.smul_y, V3.smul_z] at this ⊢
      linarith
    · unfold faceDepth
      dsimp only
      have := (hI.support (-(tRI.ori.rot (R.normal f)))).2 _ a1
      generalize I.support (-(tRI.ori.rot (R.normal f))) = q at *
      have e : (R.startOf (R.faceEdge f) - x).dot (R.normal f) = (tRI.act (R.first f) - tRI.act x).dot (tRI.ori.rot (R.normal f)) := by
        rw [act_sub, rot_dot hF.unit]
        simp only [V3.dot, V3.sub_x, V3.sub_y, V3.sub_z] at hrv ⊢
        linarith
      rw [e]
      simp only [V3.dot, V3.sub_x, V3.sub_y, V3.sub_z, V3.neg_x, V3.neg_y, V3.neg_z] at this ⊢
      linarith
    · rw [hF.world, act_sub, ← rot_smul]
      congr 1
      ext <;> simp [projectOnPlane, V3.dot] <;> ring
  refine ⟨_, _, rfl, ?_, ?_, ?_, ?_, ?_⟩
  · by_cases hr : report = true
    · rw [if_pos hr, List.length_take]; exact min_le_left _ _
    · rw [if_neg hr]; simp
  · intro hr
    rw [if_pos hr]
    rw [decide_eq_true_iff]
    constructor
    · intro h1 h2
      rw [List.take_eq_nil_iff] at h2
      rcases h2 with h2 | h2
      · simp [maxContacts] at h2
      · exact h1 (by simpa using h2)
    · intro h1 h2
      rw [h2] at h1
      simp at h1
  · intro hr
    rw [if_neg (by rw [hr]; simp)]
  · intro hfd
    have hfd := of_decide_eq_true hfd
    obtain ⟨x, hx⟩ := List.exists_mem_of_ne_nil _ hfd
    rw [List.mem_filter, decide_eq_true_iff] at hx
    obtain ⟨b1, b2, b3, b4⟩ := point x hx.1 hx.2
    exact ⟨_, _, _, hx.2, b1, b2, b4⟩
  · intro c hc
    by_cases hr : report = true
    · rw [if_pos hr] at hc
      obtain ⟨x, hx, rfl⟩ := List.mem_map.1 (List.mem_of_mem_take hc)
      rw [List.mem_filter, decide_eq_true_iff] at hx
      obtain ⟨b1, b2, b3, b4⟩ := point x hx.1 hx.2
      refine ⟨tRI.act x, projectOnPlane x (R.normal f) (R.startOf (R.faceEdge f)), rfl, ?_, hx.2, b3, b1, b2, b4⟩
      cases one <;> rfl
    · rw [if_neg hr] at hc; simp at hc

end Contacts

/-- The rings of a box. -/
theorem box_rings (h : V3 K) : Rings (box h) := by
  intro f hf
  have hf : f < 6 := hf
  have all : ∀ f < 6, boxFaceEdge.getD f 0 < 24 ∧ (boxEdges.getD (boxFaceEdge.getD f 0) ⟨0, 0, 0, 0⟩).face = f ∧
      (fun e => (boxEdges.getD e ⟨0, 0, 0, 0⟩).next)^[4] (boxFaceEdge.getD f 0) = boxFaceEdge.getD f 0 := by decide
  obtain ⟨a, b, c⟩ := all f hf
  exact ⟨a, b, 4, by norm_num, show 4 ≤ 24 by norm_num, c⟩

/-- A point of a face of a box is a point of the box. -/
theorem box_face {h : V3 K} (hx : 0 < h.x) (hy : 0 < h.y) (hz : 0 < h.z) {f : Nat} (hf : f < 6) {y : V3 K} (hy' : OnFace (box h) f y) : Box h y := by
  obtain ⟨h1, h2⟩ := hy'
  have e : ∀ f k, along (box h) ((box h).faceEdge f) k = (fun e => (boxEdges.getD e ⟨0, 0, 0, 0⟩).next)^[k] (boxFaceEdge.getD f 0) := fun f k => rfl
  have k0 := h2 0
  have k1 := h2 1
  have k2 := h2 2
  have k3 := h2 3
  clear h2
  rw [e] at k0 k1 k2 k3
  unfold Box
  interval_cases f <;>
    simp [Sat.box, boxFaceEdge, boxEdges, boxNormal, boxVert, boxFaces, Poly.startOf, Poly.endOf, Poly.first, V3.dot, V3.cross] at k0 k1 k2 k3 h1 <;>
    refine ⟨⟨?_, ?_⟩, ⟨?_, ?_⟩, ⟨?_, ?_⟩⟩ <;> nlinarith

end SatProps
end RP3D
