import Verif.Props.SatEdges

/-! C102, C103: the whole test of two polyhedra, with the axis remembered from the last frame. -/

namespace RP3D
namespace SatProps
open Shape RayProps PointProps RoundProps Geom GeomProps Sat SatGeom

set_option linter.unusedSectionVars false

section Field
variable {K : Type} [Field K] [LinearOrder K] [IsStrictOrderedRing K] {P1 P2 : Poly K} {w1 w2 : Trans K} {N : Num K}

/-! ### Specification -/

/-- An axis whose indices are those of faces or of even half-edges. -/
def InRange (P1 P2 : Poly K) : Axis → Prop
  | .face1 f => f < P1.nf
  | .face2 f => f < P2.nf
  | .edges i j => (i < P1.ne ∧ i % 2 = 0) ∧ (j < P2.ne ∧ j % 2 = 0)

/-- A contact of a face of the first body: a point of the second body, below the face by the depth, and the point of the face right above it. -/
def OnFirst (P1 P2 : Poly K) (w1 w2 : Trans K) (c : Round.Contact K) : Prop :=
  ∃ f < P1.nf, c.normal = w1.ori.rot (P1.normal f) ∧ OnFace P1 f c.p1 ∧ Hulled P2 c.p2 ∧ w1.act c.p1 - w2.act c.p2 = V3.smul c.depth c.normal

/-- A contact of a face of the second body. -/
def OnSecond (P1 P2 : Poly K) (w1 w2 : Trans K) (c : Round.Contact K) : Prop :=
  ∃ f < P2.nf, c.normal = -(w2.ori.rot (P2.normal f)) ∧ Hulled P1 c.p1 ∧ OnFace P2 f c.p2 ∧ w1.act c.p1 - w2.act c.p2 = V3.smul c.depth c.normal

/-- A contact of two edges: points of the two bodies. -/
def OnBoth (P1 P2 : Poly K) (w1 w2 : Trans K) (c : Round.Contact K) : Prop :=
  Hulled P1 c.p1 ∧ Hulled P2 c.p2 ∧ w1.act c.p1 - w2.act c.p2 = V3.smul c.depth c.normal

/-- A sound contact. -/
def Sound (P1 P2 : Poly K) (w1 w2 : Trans K) (c : Round.Contact K) : Prop :=
  c.normal.lengthSq = 1 ∧ 0 < c.depth ∧ (OnFirst P1 P2 w1 w2 c ∨ OnSecond P1 P2 w1 w2 c ∨ OnBoth P1 P2 w1 w2 c)

/-- Contacts come with the verdict. -/
def Told (report : Bool) (r : Res K) : Prop := (report = true → (r.colliding = true ↔ r.contacts ≠ [])) ∧ (report = false → r.contacts = []) ∧ r.contacts.length ≤ 16

/-! ### Lemmas -/

theorem stored_range {a : Axis} (h : InRange P1 P2 a) : InRange P1 P2 a.stored := by
  cases a with
  | face1 f => exact lt_of_le_of_lt (Nat.mod_le f 256) h
  | face2 f => exact lt_of_le_of_lt (Nat.mod_le f 256) h
  | edges i j =>
    obtain ⟨⟨a, b⟩, c, d⟩ := h
    exact ⟨⟨lt_of_le_of_lt (Nat.mod_le i 256) a, by omega⟩, lt_of_le_of_lt (Nat.mod_le j 256) c, by omega⟩

theorem tested_range {t : Trans K} {a : Axis} (h : Tested N P1 P2 t a) : InRange P1 P2 a := by
  cases a with
  | face1 f => exact h
  | face2 f => exact h
  | edges i j => exact ⟨h.1, h.2.1⟩

/-- Whatever the search finds is in range. -/
theorem search_range (hN : NumOk N) {t : Trans K} (n1 : 0 < P1.nf) (n2 : 0 < P2.nf) :
    (∀ a, search N P1 P2 t t.inverse = .separated a → InRange P1 P2 a) ∧ ∀ b, search N P1 P2 t t.inverse = .best b → InRange P1 P2 b.axis := by
  have range : ∀ (d : Nat → K) (n : Nat), 0 < n → (scan d (List.range n) (N.large, 0)).2 < n := by
    intro d n hn
    obtain ⟨s1, s2⟩ := scan_spec d (List.range n) (N.large, 0) hN.large
    rcases le_or_gt (scan d (List.range n) (N.large, 0)).1 0 with h | h
    · exact List.mem_range.1 (s1 h).1
    · rcases (s2 h).2.2 with e | e
      · rw [e]; exact hn
      · exact List.mem_range.1 e.1
  have hs : search N P1 P2 t t.inverse = (if (scan (faceDepth P1 P2 t) (List.range P1.nf) (N.large, 0)).1 ≤ 0 then
      .separated (.face1 (scan (faceDepth P1 P2 t) (List.range P1.nf) (N.large, 0)).2) else
      if (scan (faceDepth P2 P1 t.inverse) (List.range P2.nf) (N.large, 0)).1 ≤ 0 then
        .separated (.face2 (scan (faceDepth P2 P1 t.inverse) (List.range P2.nf) (N.large, 0)).2) else
        edgeScan N P1 P2 t (pairs P1.ne P2.ne)
          (if (scan (faceDepth P1 P2 t) (List.range P1.nf) (N.large, 0)).1 < (scan (faceDepth P2 P1 t.inverse) (List.range P2.nf) (N.large, 0)).1 * N.rel + N.abs then
            ⟨min (scan (faceDepth P1 P2 t) (List.range P1.nf) (N.large, 0)).1 (scan (faceDepth P2 P1 t.inverse) (List.range P2.nf) (N.large, 0)).1,
              .face1 (scan (faceDepth P1 P2 t) (List.range P1.nf) (N.large, 0)).2, 0⟩ else
            ⟨min (scan (faceDepth P1 P2 t) (List.range P1.nf) (N.large, 0)).1 (scan (faceDepth P2 P1 t.inverse) (List.range P2.nf) (N.large, 0)).1,
              .face2 (scan (faceDepth P2 P1 t.inverse) (List.range P2.nf) (N.large, 0)).2, 0⟩)) := rfl
  have g1 := range (faceDepth P1 P2 t) P1.nf n1
  have g2 := range (faceDepth P2 P1 t.inverse) P2.nf n2
  rw [hs]
  generalize scan (faceDepth P1 P2 t) (List.range P1.nf) (N.large, 0) = r1 at *
  generalize scan (faceDepth P2 P1 t.inverse) (List.range P2.nf) (N.large, 0) = r2 at *
  by_cases c1 : r1.1 ≤ 0
  · rw [if_pos c1]
    refine ⟨fun a h => ?_, fun b h => by simp at h⟩
    simp only [Found.separated.injEq] at h
    subst h; exact g1
  rw [if_neg c1]
  by_cases c2 : r2.1 ≤ 0
  · rw [if_pos c2]
    refine ⟨fun a h => ?_, fun b h => by simp at h⟩
    simp only [Found.separated.injEq] at h
    subst h; exact g2
  rw [if_neg c2]
  generalize hbb : (if r1.1 < r2.1 * N.rel + N.abs then (⟨min r1.1 r2.1, .face1 r1.2, 0⟩ : Best K) else ⟨min r1.1 r2.1, .face2 r2.2, 0⟩) = bb
  have hb : bb.axis.isFace = true ∧ bb.depth = min r1.1 r2.1 ∧ InRange P1 P2 bb.axis := by
    rw [← hbb]
    split_ifs
    · exact ⟨rfl, rfl, g1⟩
    · exact ⟨rfl, rfl, g2⟩
  obtain ⟨i1, i2⟩ := edgeScan_spec hN P1 P2 t (min r1.1 r2.1) (pairs P1.ne P2.ne) bb (fun _ => False)
    (fun _ => ⟨hb.2.1, fun _ hh => hh.elim⟩) (fun hF => by rw [hb.1] at hF; simp at hF) (fun _ hh => hh.elim)
  constructor
  · intro a h
    obtain ⟨p, hp, rfl, -⟩ := i1 a h
    exact mem_pairs.1 hp
  · intro b h
    obtain ⟨-, j2, j3⟩ := i2 b h
    by_cases hF : b.axis.isFace = true
    · rw [(j2 hF).1]; exact hb.2.2
    · obtain ⟨⟨i, j, e1, e2, -⟩, -⟩ := j3 (by simpa using hF)
      rw [e1]
      rcases e2 with e2 | e2
      · exact e2.elim
      · exact mem_pairs.1 e2

theorem frames1 (u1 : w1.ori.lengthSq = 1) (u2 : w2.ori.lengthSq = 1) : Frames w1 w2 (w2.inverse.mul w1) (w2.inverse.mul w1).inverse where
  unitR := u1
  unit := frame_unit u1 u2
  world := fun x => frame_act u2 x
  back := fun x => trans_act_inverse (frame_unit u1 u2) x

theorem frames2 (u1 : w1.ori.lengthSq = 1) (u2 : w2.ori.lengthSq = 1) : Frames w2 w1 (w2.inverse.mul w1).inverse (w2.inverse.mul w1) where
  unitR := u2
  unit := by
    have := frame_unit u1 u2
    show ((w2.inverse.mul w1).ori.conj).lengthSq = 1
    exact conj_unit this
  world := fun x => by
    have := frame_act u2 ((w2.inverse.mul w1).inverse.act x) (t1 := w1)
    rw [trans_act_inverse (frame_unit u1 u2)] at this
    exact this.symm
  back := fun x => trans_inverse_act (frame_unit u1 u2) x

/-- The contacts of a face of the first body are sound. -/
theorem first_contacts (h1 : Solid P1) (r1 : Rings P1) (h2 : Solid P2) (n2 : 0 < P2.nf) (u1 : w1.ori.lengthSq = 1) (u2 : w2.ori.lengthSq = 1) {f : Nat}
    (hf : f < P1.nf) (report : Bool) (a : Axis) :
    ∃ found cs, faceContacts N P1 P2 (w2.inverse.mul w1) (w2.inverse.mul w1).inverse w1 f true report = some (found, cs) ∧
      Told report ⟨found, cs, a⟩ ∧ ∀ c ∈ cs, Sound P1 P2 w1 w2 c := by
  obtain ⟨found, cs, e, k1, k2, k3, -, k5⟩ := face_contacts (N := N) (one := true) (report := report) h1 r1 h2 n2 (frames1 u1 u2) hf
  refine ⟨found, cs, e, ⟨k2, k3, k1⟩, fun c hc => ?_⟩
  obtain ⟨x, y, e1, e2, e3, -, e5, e6, e7⟩ := k5 c hc
  simp only [if_true, Prod.mk.injEq] at e1 e2
  obtain ⟨e2, e2'⟩ := e2
  subst e2 e2'
  rw [← e1] at e7
  exact ⟨by rw [e1, rot_len u1]; exact h1.unit f hf, e3, .inl ⟨f, hf, e1, e6, e5, e7⟩⟩

theorem second_contacts (h2 : Solid P2) (r2 : Rings P2) (h1 : Solid P1) (n1 : 0 < P1.nf) (u1 : w1.ori.lengthSq = 1) (u2 : w2.ori.lengthSq = 1) {f : Nat}
    (hf : f < P2.nf) (report : Bool) (a : Axis) :
    ∃ found cs, faceContacts N P2 P1 (w2.inverse.mul w1).inverse (w2.inverse.mul w1) w2 f false report = some (found, cs) ∧
      Told report ⟨found, cs, a⟩ ∧ ∀ c ∈ cs, Sound P1 P2 w1 w2 c := by
  obtain ⟨found, cs, e, k1, k2, k3, -, k5⟩ := face_contacts (N := N) (one := false) (report := report) h2 r2 h1 n1 (frames2 u1 u2) hf
  refine ⟨found, cs, e, ⟨k2, k3, k1⟩, fun c hc => ?_⟩
  obtain ⟨x, y, e1, e2, e3, -, e5, e6, e7⟩ := k5 c hc
  simp only [Bool.false_eq_true, if_false, Prod.mk.injEq] at e1 e2
  obtain ⟨e2, e2'⟩ := e2
  subst e2 e2'
  have : w1.act c.p1 - w2.act c.p2 = V3.smul c.depth c.normal := by
    rw [e1, SatGeom.smul_neg, ← e7]; ext <;> simp
  exact ⟨by rw [e1, neg_len, rot_len u2]; exact h2.unit f hf, e3, .inr (.inl ⟨f, hf, e1, e5, e6, this⟩)⟩

/-- A vector that is orthogonal to two edges is a multiple of their product. -/
theorem along_axis {a b S v : V3 K} {l : K} (hl : l ≠ 0) (hS : S.lengthSq = 1) (e : V3.smul l S = a.cross b) (ha : v.dot a = 0) (hb : v.dot b = 0) :
    v = V3.smul (S.dot v) S := by
  have ex := congrArg V3.x e
  have ey := congrArg V3.y e
  have ez := congrArg V3.z e
  simp only [V3.cross, V3.smul_x, V3.smul_y, V3.smul_z] at ex ey ez
  simp only [V3.dot] at ha hb
  simp only [V3.lengthSq] at hS
  -- `v × (a × b) = 0`
  have z1 : l * (v.y * S.z - v.z * S.y) = 0 := by linear_combination v.y * ez - v.z * ey + a.x * hb - b.x * ha
  have z2 : l * (v.z * S.x - v.x * S.z) = 0 := by linear_combination v.z * ex - v.x * ez + a.y * hb - b.y * ha
  have z3 : l * (v.x * S.y - v.y * S.x) = 0 := by linear_combination v.x * ey - v.y * ex + a.z * hb - b.z * ha
  have z1 := (mul_eq_zero.1 z1).resolve_left hl
  have z2 := (mul_eq_zero.1 z2).resolve_left hl
  have z3 := (mul_eq_zero.1 z3).resolve_left hl
  ext <;> simp only [V3.dot, V3.smul_x, V3.smul_y, V3.smul_z]
  · linear_combination (-v.x) * hS - S.z * z2 + S.y * z3
  · linear_combination (-v.y) * hS + S.z * z1 - S.x * z3
  · linear_combination (-v.z) * hS - S.y * z1 + S.x * z2

/-- The nearest point of a segment, when the foot of the perpendicular is on it. -/
theorem foot {p q c x : V3 K} (hd : 0 < (q - p).lengthSq) (h0 : 0 ≤ (c - p).dot (q - p) / (q - p).lengthSq) (h1 : (c - p).dot (q - p) / (q - p).lengthSq ≤ 1)
    (hx : OnSeg p q x) (hn : ∀ y, OnSeg p q y → dist2 c x ≤ dist2 c y) : (c - x).dot (q - p) = 0 := by
  obtain ⟨s, s0, s1, rfl⟩ := hx
  have := hn _ ⟨_, h0, h1, rfl⟩
  generalize hr : (c - p).dot (q - p) / (q - p).lengthSq = r at *
  have hr : (c - p).dot (q - p) = r * (q - p).lengthSq := by rw [← hr, div_mul_cancel₀ _ hd.ne']
  have key : dist2 c (at' p q s) - dist2 c (at' p q r) = (s - r) * (s - r) * (q - p).lengthSq := by
    unfold dist2 at'
    simp only [V3.dot, V3.lengthSq, V3.sub_x, V3.sub_y, V3.sub_z] at hr ⊢
    linear_combination (2 * (r - s)) * hr
  have z : (s - r) * (s - r) * (q - p).lengthSq = 0 := le_antisymm (by linarith) (mul_nonneg (mul_self_nonneg _) hd.le)
  have z : s = r := by
    have := (mul_eq_zero.1 z).resolve_right hd.ne'
    have := mul_self_eq_zero.1 this
    linarith
  subst z
  unfold at'
  simp only [V3.dot, V3.lengthSq, V3.sub_x, V3.sub_y, V3.sub_z] at hr ⊢
  linear_combination hr

/-- The contact of two edges whose closest points face each other. -/
theorem facing_contact (hN : NumOk N) (h1 : Solid P1) (h2 : Solid P2) (u1 : w1.ori.lengthSq = 1) (u2 : w2.ori.lengthSq = 1) {i j : Nat} (hi : i < P1.ne)
    (hi2 : i % 2 = 0) (hj : j < P2.ne) (hj2 : j % 2 = 0) (hm : minkowski P1 P2 (w2.inverse.mul w1) i j = true)
    (hlt : (edgeDepth N P1 P2 (w2.inverse.mul w1) i j).1 < N.large) (hpos : 0 < (edgeDepth N P1 P2 (w2.inverse.mul w1) i j).1)
    (hf : edgesFace N P1 P2 (w2.inverse.mul w1) i j = true) (l1 : N.eps < dist2 (P1.startOf i) (P1.endOf i)) (l2 : N.eps < dist2 (P2.startOf j) (P2.endOf j)) :
    ∀ c ∈ edgeContact N P1 P2 (w2.inverse.mul w1) (w2.inverse.mul w1).inverse w2 i j (edgeDepth N P1 P2 (w2.inverse.mul w1) i j).1
      (edgeDepth N P1 P2 (w2.inverse.mul w1) i j).2 true, Sound P1 P2 w1 w2 c := by
  have ht := frame_unit u1 u2
  have hp : parallel N ((w2.inverse.mul w1).act (P1.endOf i) - (w2.inverse.mul w1).act (P1.startOf i)) (P2.endOf j - P2.startOf j) = false := by
    by_contra hh
    have hh : parallel N ((w2.inverse.mul w1).act (P1.endOf i) - (w2.inverse.mul w1).act (P1.startOf i)) (P2.endOf j - P2.startOf j) = true := by simpa using hh
    unfold edgeDepth edgeDistance at hlt
    rw [if_pos hh] at hlt
    exact lt_irrefl _ hlt
  obtain ⟨c1, c2, c3, c4, c5⟩ := edge_axis hN h1 h2 ht hi hi2 hj hj2 hm hp
  have back : ∀ x, (w2.inverse.mul w1).inverse.act ((w2.inverse.mul w1).act x) = x := fun x => trans_inverse_act ht x
  have fwd : ∀ x, (w2.inverse.mul w1).act ((w2.inverse.mul w1).inverse.act x) = x := fun x => trans_act_inverse ht x
  have fr : ∀ x, w2.act ((w2.inverse.mul w1).act x) = w1.act x := fun x => frame_act u2 x
  have len : dist2 ((w2.inverse.mul w1).act (P1.startOf i)) ((w2.inverse.mul w1).act (P1.endOf i)) = dist2 (P1.startOf i) (P1.endOf i) := act_dist ht _ _
  obtain ⟨k1, k2, k3⟩ := closest_of_segments N.eps hN.eps.le ((w2.inverse.mul w1).act (P1.startOf i)) ((w2.inverse.mul w1).act (P1.endOf i)) (P2.startOf j) (P2.endOf j)
    (by rw [len]; exact l1) l2
  have lev := edge_level hN h1 h2 ht hi hi2 hj hj2 hm hp k1 k2
  have hlen1 : 0 < ((w2.inverse.mul w1).act (P1.endOf i) - (w2.inverse.mul w1).act (P1.startOf i)).lengthSq := by
    rw [lengthSq_eq, len]; exact lt_trans hN.eps l1
  have hlen2 : 0 < (P2.endOf j - P2.startOf j).lengthSq := by rw [lengthSq_eq]; exact lt_trans hN.eps l2
  unfold edgesFace at hf
  have hf := of_decide_eq_true hf
  obtain ⟨a1, a2, a3, a4⟩ := hf
  have form : ∃ l : K, l ≠ 0 ∧ V3.smul l (edgeDepth N P1 P2 (w2.inverse.mul w1) i j).2 =
      ((w2.inverse.mul w1).act (P1.endOf i) - (w2.inverse.mul w1).act (P1.startOf i)).cross (P2.endOf j - P2.startOf j) := by
    have hlen : N.par ≤ (((w2.inverse.mul w1).act (P1.endOf i) - (w2.inverse.mul w1).act (P1.startOf i)).cross (P2.endOf j - P2.startOf j)).lengthSq :=
      not_lt.1 (of_decide_eq_false hp)
    obtain ⟨l, hl, hll, hu, hu1⟩ := unit_cases N hN hlen
    unfold edgeDepth edgeDistance
    rw [if_neg (by rw [hp]; simp)]
    dsimp only
    rw [hu]
    generalize (if P1.tri = true then _ else _ : K) = dd
    by_cases hdd : 0 < dd
    · rw [if_pos hdd]; exact ⟨-l, by simpa using hl.ne', by ext <;> simp <;> field_simp⟩
    · rw [if_neg hdd]; exact ⟨l, hl.ne', by ext <;> simp <;> field_simp⟩
  obtain ⟨l, hl, el⟩ := form
  have ep : edgePoints N P1 P2 (w2.inverse.mul w1) i j =
    closestSegments N.eps ((w2.inverse.mul w1).act (P1.startOf i)) ((w2.inverse.mul w1).act (P1.endOf i)) (P2.startOf j) (P2.endOf j) := rfl
  intro c hc
  unfold edgeContact at hc
  rw [if_pos rfl, List.mem_singleton] at hc
  subst hc
  rw [ep] at a1 a2 a3 a4 ⊢
  generalize closestSegments N.eps ((w2.inverse.mul w1).act (P1.startOf i)) ((w2.inverse.mul w1).act (P1.endOf i)) (P2.startOf j) (P2.endOf j) = cc at *
  generalize edgeDepth N P1 P2 (w2.inverse.mul w1) i j = D at *
  have comm : ∀ x y : V3 K, dist2 x y = dist2 y x := fun x y => by unfold dist2; ring
  have f2 := foot hlen2 a1 a2 k2 (fun y hy => k3 _ _ k1 hy)
  have f1 := foot hlen1 a3 a4 k1 (fun y hy => by rw [comm, comm cc.2]; exact k3 _ _ hy k2)
  have ev : cc.1 - cc.2 = V3.smul D.1 D.2 := by
    rw [← lev]
    refine along_axis hl c1 el ?_ f2
    simp only [V3.dot, V3.sub_x, V3.sub_y, V3.sub_z] at f1 ⊢
    linarith
  refine ⟨by rw [rot_len u2]; exact c1, hpos, .inr (.inr ⟨?_, onSeg_hull h2 hj k2, ?_⟩)⟩
  · refine onSeg_hull h1 hi ?_
    have := onSeg_act (w2.inverse.mul w1).inverse k1
    rw [back, back] at this
    exact this
  · dsimp only
    rw [← fr, fwd, act_sub, ev, rot_smul]

/-! ### The test -/

/-- **C105, partial.** The test of two polyhedra is defined for every axis remembered from the last frame that is in range, and leaves one that is in range.
If it answers that they do not collide, a plane lies between them, unless the search ended with the normal of a face and the clipping left no contact.
Missing: in that case the verdict may be wrong (`overlap_missed`). -/
theorem test_verdict_partial (hN : NumOk N) (h1 : Solid P1) (h2 : Solid P2) (r1 : Rings P1) (r2 : Rings P2) (n1 : 0 < P1.nf) (n2 : 0 < P2.nf) (u1 : w1.ori.lengthSq = 1)
    (u2 : w2.ori.lengthSq = 1) (report clip : Bool) {last : Option (Axis × Bool)} (hl : ∀ a was, last = some (a, was) → InRange P1 P2 a) :
    ∃ r, polyhedra N P1 P2 w1 w2 report clip last = some r ∧ InRange P1 P2 r.axis ∧ Told report r ∧
      (r.colliding = false → Apart (Placed w1 (Hulled P1)) (Placed w2 (Hulled P2)) ∨
        ∃ b, search N P1 P2 (w2.inverse.mul w1) (w2.inverse.mul w1).inverse = .best b ∧ b.axis.isFace = true) := by
  obtain ⟨sr1, sr2⟩ := search_range (N := N) hN (t := w2.inverse.mul w1) n1 n2
  have ht := frame_unit u1 u2
  -- a tested axis without overlap
  have apart : ∀ a, Tested N P1 P2 (w2.inverse.mul w1) a → axisDepth N P1 P2 (w2.inverse.mul w1) a ≤ 0 → Apart (Placed w1 (Hulled P1)) (Placed w2 (Hulled P2)) := by
    intro a ha h0
    obtain ⟨n, x, y, hn, hx, hy, e⟩ := tested_exact hN h1 h2 ht ha
    refine ⟨w2.ori.rot n, by rw [rot_len u2, hn], fun x' y' hx' hy' => ?_⟩
    have := bound_world u1 u2 hx hy hx' hy'
    rw [e, dot_sub_right] at this
    linarith
  have wholly : ∃ r, full N P1 P2 w1 w2 (w2.inverse.mul w1) (w2.inverse.mul w1).inverse report = some r ∧ InRange P1 P2 r.axis ∧ Told report r ∧
      (r.colliding = false → Apart (Placed w1 (Hulled P1)) (Placed w2 (Hulled P2)) ∨
        ∃ b, search N P1 P2 (w2.inverse.mul w1) (w2.inverse.mul w1).inverse = .best b ∧ b.axis.isFace = true) := by
    unfold full
    cases hs : search N P1 P2 (w2.inverse.mul w1) (w2.inverse.mul w1).inverse with
    | separated a =>
      exact ⟨_, rfl, stored_range (sr1 a hs), ⟨by simp, by simp, by simp⟩, fun _ => .inl (search_apart hN h1 h2 u1 u2 hs).2.2⟩
    | best b =>
      have hr := sr2 b hs
      unfold finish
      cases ha : b.axis with
      | face1 f =>
        rw [ha] at hr
        obtain ⟨found, cs, e, k, -⟩ := first_contacts (N := N) h1 r1 h2 n2 u1 u2 hr report (Axis.face1 f).stored
        refine ⟨⟨found, cs, (Axis.face1 f).stored⟩, ?_, stored_range (a := .face1 f) hr, k, fun _ => .inr ⟨b, rfl, by rw [ha]; rfl⟩⟩
        simp only [ha]
        rw [e]; rfl
      | face2 f =>
        rw [ha] at hr
        obtain ⟨found, cs, e, k, -⟩ := second_contacts (N := N) h2 r2 h1 n1 u1 u2 hr report (Axis.face2 f).stored
        refine ⟨⟨found, cs, (Axis.face2 f).stored⟩, ?_, stored_range (a := .face2 f) hr, k, fun _ => .inr ⟨b, rfl, by rw [ha]; rfl⟩⟩
        simp only [ha]
        rw [e]; rfl
      | edges i j =>
        rw [ha] at hr
        refine ⟨⟨true, edgeContact N P1 P2 (w2.inverse.mul w1) (w2.inverse.mul w1).inverse w2 i j b.depth b.dir report, (Axis.edges i j).stored⟩, by simp only [ha],
          stored_range (a := .edges i j) hr, ⟨fun hh => ?_, fun hh => ?_, ?_⟩, fun hh => by simp at hh⟩
        · simp [edgeContact, hh]
        · simp [edgeContact, hh]
        · unfold edgeContact; split_ifs <;> simp
  unfold polyhedra
  dsimp only
  cases hlast : last with
  | none => exact wholly
  | some p =>
    obtain ⟨a, was⟩ := p
    have hr := hl a was hlast
    dsimp only
    have prev : ∃ o, previous N P1 P2 w1 w2 (w2.inverse.mul w1) (w2.inverse.mul w1).inverse report clip was a = some o ∧
        ∀ r, o = some r → InRange P1 P2 r.axis ∧ Told report r ∧ (r.colliding = false → Apart (Placed w1 (Hulled P1)) (Placed w2 (Hulled P2))) := by
      unfold previous
      cases a with
      | face1 f =>
        dsimp only
        by_cases c1 : was = false ∧ faceDepth P1 P2 (w2.inverse.mul w1) f ≤ 0
        · rw [if_pos c1]
          refine ⟨_, rfl, fun r hr' => ?_⟩
          simp only [Option.some.injEq] at hr'
          subst hr'
          exact ⟨hr, ⟨by simp, by simp, by simp⟩, fun _ => apart (.face1 f) hr c1.2⟩
        · rw [if_neg c1]
          by_cases c2 : was = true ∧ clip = true ∧ 0 < faceDepth P1 P2 (w2.inverse.mul w1) f
          · rw [if_pos c2]
            obtain ⟨found, cs, e, k, -⟩ := first_contacts (N := N) h1 r1 h2 n2 u1 u2 hr report (Axis.face1 f)
            rw [e]
            refine ⟨_, rfl, fun r hr' => ?_⟩
            cases hfd : found
            · simp [hfd] at hr'
            · simp only [hfd, if_true, Option.some.injEq] at hr'
              subst hr'
              rw [hfd] at k
              exact ⟨hr, k, fun hh => by simp at hh⟩
          · rw [if_neg c2]
            exact ⟨_, rfl, fun r hr' => by simp at hr'⟩
      | face2 f =>
        dsimp only
        by_cases c1 : was = false ∧ faceDepth P2 P1 (w2.inverse.mul w1).inverse f ≤ 0
        · rw [if_pos c1]
          refine ⟨_, rfl, fun r hr' => ?_⟩
          simp only [Option.some.injEq] at hr'
          subst hr'
          exact ⟨hr, ⟨by simp, by simp, by simp⟩, fun _ => apart (.face2 f) hr c1.2⟩
        · rw [if_neg c1]
          by_cases c2 : was = true ∧ clip = true ∧ 0 < faceDepth P2 P1 (w2.inverse.mul w1).inverse f
          · rw [if_pos c2]
            obtain ⟨found, cs, e, k, -⟩ := second_contacts (N := N) h2 r2 h1 n1 u1 u2 hr report (Axis.face2 f)
            rw [e]
            refine ⟨_, rfl, fun r hr' => ?_⟩
            cases hfd : found
            · simp [hfd] at hr'
            · simp only [hfd, if_true, Option.some.injEq] at hr'
              subst hr'
              rw [hfd] at k
              exact ⟨hr, k, fun hh => by simp at hh⟩
          · rw [if_neg c2]
            exact ⟨_, rfl, fun r hr' => by simp at hr'⟩
      | edges i j =>
        dsimp only
        by_cases c0 : minkowski P1 P2 (w2.inverse.mul w1) i j = true
        · rw [if_pos c0]
          by_cases c1 : was = false ∧ (edgeDepth N P1 P2 (w2.inverse.mul w1) i j).1 ≤ 0
          · rw [if_pos c1]
            refine ⟨_, rfl, fun r hr' => ?_⟩
            simp only [Option.some.injEq] at hr'
            subst hr'
            refine ⟨hr, ⟨by simp, by simp, by simp⟩, fun _ => apart (.edges i j) ⟨hr.1, hr.2, c0, ?_⟩ c1.2⟩
            by_contra hpar
            have hpar : parallel N ((w2.inverse.mul w1).act (P1.endOf i) - (w2.inverse.mul w1).act (P1.startOf i)) (P2.endOf j - P2.startOf j) = true := by
              simpa using hpar
            have hd := c1.2
            unfold edgeDepth edgeDistance at hd
            rw [if_pos hpar] at hd
            exact absurd hd (not_le.2 hN.large)
          · rw [if_neg c1]
            by_cases c2 : was = true ∧ clip = true ∧ 0 < (edgeDepth N P1 P2 (w2.inverse.mul w1) i j).1 ∧ (edgeDepth N P1 P2 (w2.inverse.mul w1) i j).1 < N.large
            · rw [if_pos c2]
              by_cases c3 : edgesFace N P1 P2 (w2.inverse.mul w1) i j = true
              · rw [if_pos c3]
                refine ⟨_, rfl, fun r hr' => ?_⟩
                simp only [Option.some.injEq] at hr'
                subst hr'
                refine ⟨hr, ⟨fun hh => ?_, fun hh => ?_, ?_⟩, fun hh => by simp at hh⟩
                · simp [edgeContact, hh]
                · simp [edgeContact, hh]
                · unfold edgeContact; split_ifs <;> simp
              · rw [if_neg c3]
                exact ⟨_, rfl, fun r hr' => by simp at hr'⟩
            · rw [if_neg c2]
              exact ⟨_, rfl, fun r hr' => by simp at hr'⟩
        · rw [if_neg c0]
          exact ⟨_, rfl, fun r hr' => by simp at hr'⟩
    obtain ⟨o, ho, hspec⟩ := prev
    rw [ho]
    cases o with
    | none => exact wholly
    | some r =>
      obtain ⟨a1, a2, a3⟩ := hspec r rfl
      exact ⟨r, rfl, a1, a2, fun hh => .inl (a3 hh)⟩

/-- **C105, partial.** The test does not go by an axis on which the polyhedra overlapped in the last frame, as in the queries of the world and in the first
frame of a pair. Then they overlap if it says that they collide. Missing: in the other frames of a simulation they may be apart (`apart_collides`). -/
theorem collides_partial (hN : NumOk N) (h1 : Solid P1) (h2 : Solid P2) (u1 : w1.ori.lengthSq = 1) (u2 : w2.ori.lengthSq = 1)
    (hpar : NoParallel N P1 P2 (w2.inverse.mul w1))
    (hb1 : ∃ f < P1.nf, faceDepth P1 P2 (w2.inverse.mul w1) f < N.large) (hb2 : ∃ f < P2.nf, faceDepth P2 P1 (w2.inverse.mul w1).inverse f < N.large)
    (report clip : Bool) {last : Option (Axis × Bool)} (hc : clip = true → ∀ a, last ≠ some (a, true)) {r : Res K}
    (h : polyhedra N P1 P2 w1 w2 report clip last = some r) (hr : r.colliding = true) :
    ∃ δ, 0 < δ ∧ Overlap δ (Placed w1 (Hulled P1)) (Placed w2 (Hulled P2)) := by
  have wholly : ∀ r, full N P1 P2 w1 w2 (w2.inverse.mul w1) (w2.inverse.mul w1).inverse report = some r → r.colliding = true →
      ∃ δ, 0 < δ ∧ Overlap δ (Placed w1 (Hulled P1)) (Placed w2 (Hulled P2)) := by
    intro r h hr
    unfold full at h
    cases hs : search N P1 P2 (w2.inverse.mul w1) (w2.inverse.mul w1).inverse with
    | separated a =>
      rw [hs] at h
      simp only [finish, Option.some.injEq] at h
      rw [← h] at hr
      simp at hr
    | best b =>
      obtain ⟨δ, d0, ho, -⟩ := search_overlap hN h1 h2 u1 u2 hs hpar hb1 hb2
      exact ⟨δ, d0, ho⟩
  unfold polyhedra at h
  dsimp only at h
  cases hlast : last with
  | none => rw [hlast] at h; exact wholly r h hr
  | some p =>
    obtain ⟨a, was⟩ := p
    rw [hlast] at h hc
    dsimp only at h
    have hw : ¬ (was = true ∧ clip = true) := fun hh => hc hh.2 a (by rw [hh.1])
    cases hp : previous N P1 P2 w1 w2 (w2.inverse.mul w1) (w2.inverse.mul w1).inverse report clip was a with
    | none => rw [hp] at h; simp at h
    | some o =>
      rw [hp] at h
      cases o with
      | none => exact wholly r h hr
      | some r' =>
        simp only [Option.some.injEq] at h
        subst h
        exfalso
        unfold previous at hp
        cases a with
        | face1 f =>
          dsimp only at hp
          by_cases c1 : was = false ∧ faceDepth P1 P2 (w2.inverse.mul w1) f ≤ 0
          · rw [if_pos c1] at hp
            simp only [Option.some.injEq] at hp
            rw [← hp] at hr; simp at hr
          · rw [if_neg c1, if_neg (fun hh => hw ⟨hh.1, hh.2.1⟩)] at hp
            simp at hp
        | face2 f =>
          dsimp only at hp
          by_cases c1 : was = false ∧ faceDepth P2 P1 (w2.inverse.mul w1).inverse f ≤ 0
          · rw [if_pos c1] at hp
            simp only [Option.some.injEq] at hp
            rw [← hp] at hr; simp at hr
          · rw [if_neg c1, if_neg (fun hh => hw ⟨hh.1, hh.2.1⟩)] at hp
            simp at hp
        | edges i j =>
          dsimp only at hp
          by_cases c0 : minkowski P1 P2 (w2.inverse.mul w1) i j = true
          · rw [if_pos c0] at hp
            by_cases c1 : was = false ∧ (edgeDepth N P1 P2 (w2.inverse.mul w1) i j).1 ≤ 0
            · rw [if_pos c1] at hp
              simp only [Option.some.injEq] at hp
              rw [← hp] at hr; simp at hr
            · rw [if_neg c1, if_neg (fun hh => hw ⟨hh.1, hh.2.1⟩)] at hp
              simp at hp
          · rw [if_neg c0] at hp
            simp at hp

end Field

/-- **C103: contacts.** Every contact that the test reports is sound: its normal is a unit vector, its depth is positive, and its two points are apart by the
depth along the normal: a point of one body and the point right above it of a face of the other, or points of both bodies. -/
theorem test_contacts {P1 P2 : Poly ℝ} {w1 w2 : Trans ℝ} {N : Num ℝ} (hN : NumOk N) (h1 : Solid P1) (h2 : Solid P2) (r1 : Rings P1) (r2 : Rings P2)
    (s1 : Strict P1) (s2 : Strict P2) (n1 : 0 < P1.nf) (n2 : 0 < P2.nf) (u1 : w1.ori.lengthSq = 1) (u2 : w2.ori.lengthSq = 1)
    (hpar : NoParallel N P1 P2 (w2.inverse.mul w1))
    (hb1 : ∃ f < P1.nf, faceDepth P1 P2 (w2.inverse.mul w1) f < N.large) (hb2 : ∃ f < P2.nf, faceDepth P2 P1 (w2.inverse.mul w1).inverse f < N.large)
    (l1 : ∀ i < P1.ne, N.eps < dist2 (P1.startOf i) (P1.endOf i)) (l2 : ∀ j < P2.ne, N.eps < dist2 (P2.startOf j) (P2.endOf j))
    (report clip : Bool) {last : Option (Axis × Bool)} (hl : ∀ a was, last = some (a, was) → InRange P1 P2 a) {r : Res ℝ}
    (h : polyhedra N P1 P2 w1 w2 report clip last = some r) : ∀ c ∈ r.contacts, Sound P1 P2 w1 w2 c := by
  obtain ⟨sr1, sr2⟩ := search_range (N := N) hN (t := w2.inverse.mul w1) n1 n2
  have wholly : ∀ r, full N P1 P2 w1 w2 (w2.inverse.mul w1) (w2.inverse.mul w1).inverse report = some r → ∀ c ∈ r.contacts, Sound P1 P2 w1 w2 c := by
    intro r h
    unfold full at h
    cases hs : search N P1 P2 (w2.inverse.mul w1) (w2.inverse.mul w1).inverse with
    | separated a =>
      rw [hs] at h
      simp only [finish, Option.some.injEq] at h
      subst h
      simp
    | best b =>
      have hr := sr2 b hs
      rw [hs] at h
      unfold finish at h
      cases ha : b.axis with
      | face1 f =>
        rw [ha] at hr
        simp only [ha] at h
        obtain ⟨found, cs, e, -, k⟩ := first_contacts (N := N) h1 r1 h2 n2 u1 u2 hr report (Axis.face1 f)
        rw [e] at h
        simp only [Option.map_some, Option.some.injEq] at h
        subst h
        exact k
      | face2 f =>
        rw [ha] at hr
        simp only [ha] at h
        obtain ⟨found, cs, e, -, k⟩ := second_contacts (N := N) h2 r2 h1 n1 u1 u2 hr report (Axis.face2 f)
        rw [e] at h
        simp only [Option.map_some, Option.some.injEq] at h
        subst h
        exact k
      | edges i j =>
        rw [ha] at hr
        simp only [ha, Option.some.injEq] at h
        subst h
        intro c hc
        dsimp only at hc
        cases report with
        | false => simp [edgeContact] at hc
        | true =>
          obtain ⟨c', e, k1, k2, k3, k4, k5, -⟩ := edge_contact hN h1 h2 s1 s2 u1 u2 hs hpar hb1 hb2 ha (l1 i hr.1.1) (l2 j hr.2.1)
          rw [e, List.mem_singleton] at hc
          subst hc
          exact ⟨k1, k2, .inr (.inr ⟨k3, k4, k5⟩)⟩
  unfold polyhedra at h
  dsimp only at h
  cases hlast : last with
  | none => rw [hlast] at h; exact wholly r h
  | some p =>
    obtain ⟨a, was⟩ := p
    have hr := hl a was hlast
    rw [hlast] at h
    dsimp only at h
    cases hprev : previous N P1 P2 w1 w2 (w2.inverse.mul w1) (w2.inverse.mul w1).inverse report clip was a with
    | none => rw [hprev] at h; simp at h
    | some o =>
      rw [hprev] at h
      cases o with
      | none => exact wholly r h
      | some r' =>
        simp only [Option.some.injEq] at h
        subst h
        unfold previous at hprev
        cases a with
        | face1 f =>
          dsimp only at hprev
          split_ifs at hprev with c1 c2
          · simp only [Option.some.injEq] at hprev; subst hprev; simp
          · obtain ⟨found, cs, e, -, k⟩ := first_contacts (N := N) h1 r1 h2 n2 u1 u2 hr report (Axis.face1 f)
            rw [e] at hprev
            cases found
            · simp at hprev
            · simp only [Option.map_some, if_true, Option.some.injEq] at hprev
              subst hprev
              exact k
          · simp at hprev
        | face2 f =>
          dsimp only at hprev
          split_ifs at hprev with c1 c2
          · simp only [Option.some.injEq] at hprev; subst hprev; simp
          · obtain ⟨found, cs, e, -, k⟩ := second_contacts (N := N) h2 r2 h1 n1 u1 u2 hr report (Axis.face2 f)
            rw [e] at hprev
            cases found
            · simp at hprev
            · simp only [Option.map_some, if_true, Option.some.injEq] at hprev
              subst hprev
              exact k
          · simp at hprev
        | edges i j =>
          dsimp only at hprev
          split_ifs at hprev with c0 c1 c2 c3
          · simp only [Option.some.injEq] at hprev; subst hprev; simp
          · simp only [Option.some.injEq] at hprev
            subst hprev
            cases report with
            | false => simp [edgeContact]
            | true => exact facing_contact hN h1 h2 u1 u2 hr.1.1 hr.1.2 hr.2.1 hr.2.2 c0 c2.2.2.2 c2.2.2.1 c3 (l1 i hr.1.1) (l2 j hr.2.1)
          all_goals simp at hprev

end SatProps
end RP3D
