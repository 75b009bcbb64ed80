import Verif.Props.RoundPolySphere
import Verif.Props.SatCapsuleTest

/-! C132: the test of a capsule against a convex polyhedron, frame after frame. -/

namespace RP3D
namespace RoundPolyProps
open Shape PointProps RoundProps Geom GeomProps Sat SatGeom Gjk GjkProps SatProps RoundPoly
open RayProps (Capsule)

variable {c : Cfg ℝ} {N : Sat.Num ℝ} {P : Poly ℝ} {r hh M : ℝ} {f : Frame ℝ} {i : Info ℝ} {first : Bool} {n : Nat}

/-! ### Specification -/

/-- As `SphereOk`, for a capsule. -/
structure CapsuleOk (c : Cfg ℝ) (N : Sat.Num ℝ) (P : Poly ℝ) (hh r M slack : ℝ) : Prop where
  setting : Setting c P (Inner hh) (capsuleSupport hh) r M
  num : NumOk N
  num1 : N.eps < 1
  half : 0 < hh
  rings : Rings P
  faces : 0 < P.nf
  large : M + r < N.large
  nonneg : 0 ≤ slack
  eps : c.eps * M ≤ slack * slack
  small : slack < r

/-- What a test of a capsule must say: a collision is an overlap; there are contacts only if there is a collision and they are asked for, and then there is one at least; the
normals are unit vectors and the depths are positive. Without contacts, SAT does not contradict GJK. -/
structure CapRight (P : Poly ℝ) (hh r : ℝ) (f : Frame ℝ) (o : Out ℝ) : Prop where
  hit : o.colliding = true → Meet (Placed f.tp (Hulled P)) (Placed f.ts (Capsule r hh))
  none : (o.colliding = false ∨ f.report = false) → o.contacts = []
  some : o.colliding = true → f.report = true → o.contacts ≠ []
  good : ∀ ct ∈ o.contacts, ct.normal.lengthSq = 1 ∧ 0 < ct.depth
  valid : f.update = true → o.info.valid = true
  used : o.info.usedSat = !o.info.usedGjk
  sat : f.report = false → o.info.usedSat = true → o.colliding = true

/-! ### The capsule -/

theorem within_inner (r hh : ℝ) : Within (Inner hh) r = Capsule r hh := by
  funext x
  have e : ∀ s, dist2 ⟨0, s, 0⟩ x ≤ r * r ↔ (x - ⟨0, s, 0⟩).lengthSq ≤ r * r := fun s => by
    have : dist2 ⟨0, s, 0⟩ x = (x - ⟨0, s, 0⟩).lengthSq := by
      simp only [dist2, V3.lengthSq, V3.sub_x, V3.sub_y, V3.sub_z]; ring
    rw [this]
  refine propext ⟨?_, ?_⟩
  · rintro ⟨_, ⟨s, h1, h2, rfl⟩, h⟩
    exact ⟨s, h1, h2, (e s).1 h⟩
  · rintro ⟨s, h1, h2, h⟩
    exact ⟨_, ⟨s, h1, h2, rfl⟩, (e s).2 h⟩

theorem inner_setting (h1 : c.Ok) (h2 : c.eps ≤ 7 / 16) (h3 : IsSqrt c.sqrt) (h4 : Solid P) (h5 : 1 ≤ M) (h6 : M < c.large * (1 - c.eps))
    (h7 : M < c.large * (1 - c.rel)) (h8 : c.axis < 1) (h9 : c.axis ≤ r * r) (h10 : 0 < r) (h11 : 0 ≤ hh) : Setting c P (Inner hh) (capsuleSupport hh) r M := by
  have e : Inner hh = fun x : V3 ℝ => x.x = 0 ∧ -hh ≤ x.y ∧ x.y ≤ hh ∧ x.z = 0 := by
    funext x
    refine propext ⟨?_, ?_⟩
    · rintro ⟨s, a, b, rfl⟩; exact ⟨rfl, a, b, rfl⟩
    · rintro ⟨a, b, d, e⟩; exact ⟨x.y, b, d, V3.ext a rfl e⟩
  have hc := fun d => cores hh h11 (0 : V3 ℝ) 0 0 0 (le_refl 0) (le_refl 0) (le_refl 0) d
  rw [e]
  exact ⟨h1, h2, h3, h4, (hc 0).2.1.1, fun d => (hc d).2.1.2, h5, h6, h7, h8, h9, h10⟩

theorem CapsuleOk.face {slack : ℝ} (h : CapsuleOk c N P hh r M slack) (hf : Near P (Inner hh) M f) :
    capFaceDepth N P hh r (f.ts.inverse.mul f.tp) 0 < N.large := by
  have hS := h.setting
  have ht := frame_unit hf.up hf.us
  obtain ⟨y, hy⟩ := seg_exists (p := segA hh) (q := segB hh) (-((f.ts.inverse.mul f.tp).ori.rot (P.normal 0)))
  have hd := capFace_depth h.num h.num1 hS.pos h.half hS.solid ht h.faces (first_top hS.solid ht h.faces) hy
  have hin : Inner hh y := by
    have : y = segA hh ∨ y = segB hh := by simpa [segBody] using hy.1
    have := h.half
    rcases ‹y = segA hh ∨ y = segB hh› with rfl | rfl
    · exact ⟨-hh, le_refl _, by linarith, rfl⟩
    · exact ⟨hh, by linarith, le_refl _, rfl⟩
  have h1 := hf.extent _ _ ⟨y, hin, rfl⟩ ⟨_, first_hulled hS.solid h.faces, rfl⟩
  rw [← frame_act (t1 := f.tp) hf.us, act_dist hf.us, dist2_comm, dist2_eq] at h1
  have h2 := dot_le (u := (f.ts.inverse.mul f.tp).ori.rot (P.normal 0)) (v := (f.ts.inverse.mul f.tp).act (P.first 0) - y) (a := 1) (b := M) zero_le_one (by linarith [hS.one])
    (by rw [rot_len ht, hS.solid.unit 0 h.faces]; simp) (h1.trans (by nlinarith [hS.one]))
  have := h.large
  rw [hd]
  linarith

/-- SAT when the inner segment meets the polyhedron or is near it: some axis is the best one. -/
theorem CapsuleOk.search {slack : ℝ} (h : CapsuleOk c N P hh r M slack) (hf : Near P (Inner hh) M f) {a b : V3 ℝ} (ha : Placed f.ts (Inner hh) a)
    (hb : Placed f.tp (Hulled P) b) (hd : dist2 a b ≤ slack * slack) :
    ∃ q, capSearch N P hh r (f.ts.inverse.mul f.tp) = some q ∧ 0 < q.depth ∧ q.dir.lengthSq = 1 ∧ CapTested N P hh (f.ts.inverse.mul f.tp) q.axis := by
  have hS := h.setting
  have ht := frame_unit hf.up hf.us
  obtain ⟨-, h2⟩ := capSearch_spec h.num P hh r (f.ts.inverse.mul f.tp)
  cases hq : capSearch N P hh r (f.ts.inverse.mul f.tp) with
  | none =>
    exfalso
    obtain ⟨m, hm, hap⟩ := capsule_apart h.num h.num1 hS.pos h.half hS.solid hf.us hf.up hq
    obtain ⟨_, ⟨s, s1, s2, rfl⟩, rfl⟩ := ha
    have hr := hS.pos
    have hy : Placed f.ts (Capsule r hh) (f.ts.act ⟨0, s, 0⟩ - V3.smul r m) := by
      rw [← within_inner, ← within_placed hf.us]
      refine ⟨_, ⟨_, ⟨s, s1, s2, rfl⟩, rfl⟩, le_of_eq ?_⟩
      have : dist2 (f.ts.act ⟨0, s, 0⟩) (f.ts.act ⟨0, s, 0⟩ - V3.smul r m) = r * r * m.lengthSq := by
        simp only [dist2, V3.lengthSq, V3.sub_x, V3.sub_y, V3.sub_z, V3.smul_x, V3.smul_y, V3.smul_z]; ring
      rw [this, hm, mul_one]
    have h3 := hap b _ hb hy
    have h4 := dot_le (u := m) (v := f.ts.act ⟨0, s, 0⟩ - b) zero_le_one h.nonneg (by rw [hm]; simp) (by rw [← dist2_eq]; exact hd)
    have e : m.dot (f.ts.act ⟨0, s, 0⟩ - V3.smul r m) = m.dot (f.ts.act ⟨0, s, 0⟩) - r * m.lengthSq := by
      simp only [V3.dot, V3.lengthSq, V3.sub_x, V3.sub_y, V3.sub_z, V3.smul_x, V3.smul_y, V3.smul_z]; ring
    rw [e, hm] at h3
    rw [dot_sub_right] at h4
    have := h.small
    linarith
  | some q =>
    obtain ⟨q1, q2, q3⟩ := h2 q hq
    refine ⟨q, rfl, q1, ?_⟩
    rcases q3 with ⟨-, q4⟩ | ⟨q4, q5⟩
    · have := q2 (.face 0) h.faces
      rw [q4] at this
      exact absurd (h.face hf) (not_lt.2 this)
    · have := (cap_exact h.num h.num1 hS.pos h.half hS.solid ht q4).1
      rw [q5] at this
      exact ⟨this, q4⟩

/-- What SAT says then, if it is defined. -/
theorem CapsuleOk.sat {slack : ℝ} (h : CapsuleOk c N P hh r M slack) (hf : Near P (Inner hh) M f) {a b : V3 ℝ} (ha : Placed f.ts (Inner hh) a)
    (hb : Placed f.tp (Hulled P) b) (hd : dist2 a b ≤ slack * slack) (first : Bool) :
    Sat.capsule N P f.ts f.tp hh r first false = some (true, []) ∧
    ∀ found cs, Sat.capsule N P f.ts f.tp hh r first true = some (found, cs) → (found = true ↔ cs ≠ []) ∧ ∀ ct ∈ cs, ct.normal.lengthSq = 1 ∧ 0 < ct.depth := by
  have hS := h.setting
  have ht := frame_unit hf.up hf.us
  obtain ⟨q, hs, q1, q2, q3⟩ := h.search hf ha hb hd
  have hu : (if first = true then -(f.ts.ori.rot q.dir) else f.ts.ori.rot q.dir).lengthSq = 1 := by
    split_ifs
    · rw [neg_len, rot_len hf.us, q2]
    · rw [rot_len hf.us, q2]
  unfold Sat.capsule
  dsimp only
  rw [hs]
  dsimp only
  cases hax : q.axis with
  | start => rw [hax] at q3; exact q3.elim
  | edge e =>
    refine ⟨rfl, fun found cs hcs => ?_⟩
    simp only [if_true, Option.some.injEq, Prod.mk.injEq] at hcs
    obtain ⟨rfl, rfl⟩ := hcs
    refine ⟨by simp, fun ct hct => ?_⟩
    rw [List.mem_singleton.1 hct]
    exact ⟨hu, q1⟩
  | face g =>
    refine ⟨rfl, fun found cs hcs => ?_⟩
    simp only [if_true] at hcs
    unfold capContacts at hcs
    cases hpl : capPlanes P (P.normal g) (P.faceEdge g) P.ne (P.faceEdge g) with
    | none => rw [hpl] at hcs; simp at hcs
    | some planes =>
      rw [hpl] at hcs
      dsimp only at hcs
      cases hcl : clipSegment N.plane ((f.ts.inverse.mul f.tp).inverse.act (segA hh)) ((f.ts.inverse.mul f.tp).inverse.act (segB hh)) planes with
      | none => rw [hcl] at hcs; simp at hcs
      | some pts =>
        rw [hcl] at hcs
        simp only [Option.some.injEq, Prod.mk.injEq] at hcs
        obtain ⟨rfl, rfl⟩ := hcs
        refine ⟨by simp only [decide_eq_true_eq, ne_eq, List.map_eq_nil_iff], fun ct hct => ?_⟩
        obtain ⟨x, -, rfl⟩ := List.mem_map.1 hct
        exact ⟨hu, q1⟩

/-- **C132.** A test of a capsule against a polyhedron, with what a frame before has kept. GJK ends after a number of turns that depends on nothing but the numbers of the program and
breaks no assertion; without contacts the test is always defined; whenever it is defined (see C107 for the contacts) it says what is right, and what it keeps is
good for the next frame. -/
theorem capsule_frame (hc : c.Ok) : ∃ L : Nat, ∀ (N : Sat.Num ℝ) (P : Poly ℝ) (hh r M slack : ℝ) (first : Bool) (f : Frame ℝ) (i : Info ℝ),
    CapsuleOk c N P hh r M slack → Near P (Inner hh) M f → Kept c M i → ∀ n, L ≤ n →
      (capsuleTest c N P hh r first f i n = none ∧ f.report = true) ∨
      ∃ o, capsuleTest c N P hh r first f i n = some (some o) ∧ CapRight P hh r f o ∧ Kept c M o.info := by
  obtain ⟨L, hL⟩ := gjk_always hc
  refine ⟨L, fun N P hh r M slack first f i h hf hi n hn => ?_⟩
  have hS := h.setting
  have hi := kept_start (f := f) hS hi
  obtain ⟨v, ax, hv⟩ := hL P (Inner hh) _ r M f _ first hS hf hi n hn
  obtain ⟨a1, a2, hm⟩ := gjk_means hS hf hi hv
  have hval : f.update = true → f.valid (f.start i) = true := fun hu => by simp [Frame.valid, hu]
  unfold capsuleTest
  rw [hv]
  dsimp only [Option.bind_some]
  cases v with
  | separated =>
    exact Or.inr ⟨_, rfl, ⟨fun h => by simp at h, fun _ => rfl, fun h => by simp at h, fun _ h => by simp at h, hval, rfl, fun _ h => by simp at h⟩, a1, a2⟩
  | collide ct =>
    have hm : Sound P (Inner hh) r first f ct := hm
    have hit : Meet (Placed f.tp (Hulled P)) (Placed f.ts (Capsule r hh)) := by
      obtain ⟨x, hx, y, hy, e⟩ := hm.deep 0 (by simp only [V3.lengthSq, V3.zero_x, V3.zero_y, V3.zero_z]; nlinarith [hm.pos])
      rw [within_inner] at hy
      refine ⟨x, hx, ?_⟩
      have : x = y := by rw [e]; ext <;> simp
      rw [this]; exact hy
    by_cases hr : f.report = true
    · dsimp only
      rw [if_pos hr]
      cases hsh : shallow N P f.ts f.tp hh r first ct with
      | none => exact Or.inl ⟨rfl, hr⟩
      | some cs =>
        obtain ⟨c1, c2⟩ := shallow_contacts h.half hS.solid h.rings hf.us hf.up hsh
        refine Or.inr ⟨_, rfl, ⟨fun _ => hit, ?_, fun _ _ => c1, fun x hx => ?_, hval, rfl, fun _ h => by simp at h⟩, a1, a2⟩
        · rintro (h | h)
          · simp at h
          · rw [hr] at h; simp at h
        · rcases c2 x hx with rfl | ⟨e, g, hg, hs, -, hu, -⟩
          · exact ⟨hm.unit, hm.pos⟩
          · refine ⟨?_, by rw [e]; exact hm.pos⟩
            rw [hs.1]
            split_ifs
            · rw [neg_len]; exact hu
            · exact hu
    · dsimp only
      rw [if_neg hr]
      exact Or.inr ⟨_, rfl, ⟨fun _ => hit, fun _ => rfl, fun _ h => absurd h hr, fun _ h => by simp at h, hval, rfl, fun _ _ => rfl⟩, a1, a2⟩
  | interpenetrate =>
    obtain ⟨a, b, ha, hb, hd⟩ := hm
    obtain ⟨s1, s2⟩ := h.sat hf ha hb (hd.trans h.eps) first
    have hit : Meet (Placed f.tp (Hulled P)) (Placed f.ts (Capsule r hh)) := by
      refine ⟨b, hb, ?_⟩
      rw [← within_inner, ← within_placed hf.us]
      refine ⟨a, ha, (hd.trans h.eps).trans ?_⟩
      have := h.small
      have := h.nonneg
      nlinarith
    dsimp only
    by_cases hr : f.report = true
    · rw [hr]
      cases hc : Sat.capsule N P f.ts f.tp hh r first true with
      | none => exact Or.inl ⟨rfl, rfl⟩
      | some q =>
        obtain ⟨found, cs⟩ := q
        obtain ⟨t1, t2⟩ := s2 found cs hc
        refine Or.inr ⟨_, rfl, ⟨fun _ => hit, ?_, fun h _ => t1.1 h, t2, hval, rfl, fun h => by rw [hr] at h; simp at h⟩, a1, a2⟩
        rintro (h | h)
        · dsimp only at h ⊢
          by_contra hne
          rw [t1.2 hne] at h
          simp at h
        · rw [hr] at h; simp at h
    · have hr' : f.report = false := by simpa using hr
      rw [hr', s1]
      exact Or.inr ⟨_, rfl, ⟨fun _ => hit, fun _ => rfl, fun _ h => absurd h hr, fun _ h => by simp at h, hval, rfl, fun _ _ => rfl⟩, a1, a2⟩

/-- **C132.** The same for any number of tests of a pair, one after the other. -/
theorem capsule_frames (hc : c.Ok) : ∃ L : Nat, ∀ (N : Sat.Num ℝ) (P : Poly ℝ) (hh r M slack : ℝ) (first : Bool), CapsuleOk c N P hh r M slack → ∀ n, L ≤ n →
    ∀ (fs : List (Frame ℝ)) (i : Info ℝ), (∀ f ∈ fs, Near P (Inner hh) M f) → Kept c M i →
      (frames (fun f i => capsuleTest c N P hh r first f i n) i fs = none ∧ ∃ f ∈ fs, f.report = true) ∨
      ∃ os, frames (fun f i => capsuleTest c N P hh r first f i n) i fs = some (some os) ∧ List.Forall₂ (CapRight P hh r) fs os := by
  obtain ⟨L, hL⟩ := capsule_frame hc
  refine ⟨L, fun N P hh r M slack first h n hn fs => ?_⟩
  induction fs with
  | nil => intro i _ _; exact Or.inr ⟨[], rfl, .nil⟩
  | cons f fs ih =>
    intro i hf hi
    rcases hL N P hh r M slack first f i h (hf f (by simp)) hi n hn with ⟨e, hr⟩ | ⟨o, ho, hr, hk⟩
    · exact Or.inl ⟨by simp [frames, e], f, by simp, hr⟩
    · rcases ih o.info (fun g hg => hf g (by simp [hg])) hk with ⟨e, g, hg, hgr⟩ | ⟨os, hos, hR⟩
      · exact Or.inl ⟨by simp [frames, ho, e], g, by simp [hg], hgr⟩
      · exact Or.inr ⟨o :: os, by simp [frames, ho, hos], .cons hr hR⟩

end RoundPolyProps
end RP3D
