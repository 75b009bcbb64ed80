import Verif.Props.RoundPoly

/-! C132: the test of a sphere against a convex polyhedron, frame after frame. -/

namespace RP3D
namespace RoundPolyProps
open Shape PointProps RoundProps Geom GeomProps Sat SatGeom Gjk GjkProps SatProps RoundPoly

variable {c : Cfg ℝ} {N : Sat.Num ℝ} {P : Poly ℝ} {r M : ℝ} {f : Frame ℝ} {i : Info ℝ} {first : Bool} {n : Nat} {ts tp : Trans ℝ}

/-! ### Specification -/

/-- The core of a sphere. -/
def Center (x : V3 ℝ) : Prop := x = 0

/-- The numbers of the program are sound for a polyhedron and a sphere of radius `r` in poses at which they are at most the root of `M` apart; `slack` is a length that the
tolerance of GJK is below: 2.4 mm for shapes of a few meters. -/
structure SphereOk (c : Cfg ℝ) (N : Sat.Num ℝ) (P : Poly ℝ) (r M slack : ℝ) : Prop where
  setting : Setting c P Center (fun _ => 0) r M
  faces : 0 < P.nf
  large : M + r < N.large
  nonneg : 0 ≤ slack
  eps : c.eps * M ≤ slack * slack
  small : slack < r

/-- What a test of a sphere must say: a collision is an overlap; there are contacts only if there is a collision and they are asked for, and then there is one: its normal is a
unit vector, its points are in the sphere and in the planes of the polyhedron apart by the depth, and moved by a vector shorter than the depth by `slack` the sphere still
meets the polyhedron. SAT, which runs when GJK finds an overlap of the cores, does not contradict it. -/
structure Right (P : Poly ℝ) (r slack : ℝ) (first : Bool) (f : Frame ℝ) (o : Out ℝ) : Prop where
  hit : o.colliding = true → Meet (Placed f.tp (Hulled P)) (Placed f.ts (SatProps.Ball r))
  none : (o.colliding = false ∨ f.report = false) → o.contacts = []
  one : o.colliding = true → f.report = true → ∃ ct, o.contacts = [ct] ∧ ct.normal.lengthSq = 1 ∧ 0 < ct.depth ∧
    SatProps.Ball r (if first then ct.p1 else ct.p2) ∧ (f.t1 first).act ct.p1 = (f.t2 first).act ct.p2 + V3.smul ct.depth ct.normal ∧
    ∀ (w : V3 ℝ) (l : ℝ), 0 ≤ l → w.lengthSq ≤ l * l → l + slack ≤ ct.depth → Meet (Placed f.tp (Hulled P)) (Moved (Placed f.ts (SatProps.Ball r)) w)
  valid : f.update = true → o.info.valid = true
  used : o.info.usedSat = !o.info.usedGjk
  sat : o.info.usedSat = true → o.colliding = true

/-! ### The sphere -/

theorem within_center (r : ℝ) : Within Center r = SatProps.Ball r := by
  funext x
  refine propext ⟨?_, fun h => ⟨0, rfl, ?_⟩⟩
  · rintro ⟨a, rfl, h⟩
    unfold dist2 at h
    unfold SatProps.Ball V3.lengthSq
    simp only [V3.zero_x, V3.zero_y, V3.zero_z] at h
    linarith
  · unfold SatProps.Ball V3.lengthSq at h
    unfold dist2
    simp only [V3.zero_x, V3.zero_y, V3.zero_z]
    linarith

theorem placed_center {t : Trans ℝ} {x : V3 ℝ} : Placed t Center x ↔ x = t.pos := by
  have z : t.act 0 = t.pos := by ext <;> simp [Trans.act, Quat.rot]
  constructor
  · rintro ⟨_, rfl, rfl⟩; exact z
  · rintro rfl; exact ⟨0, rfl, z.symm⟩

theorem center_setting {c : Cfg ℝ} (h1 : c.Ok) (h2 : c.eps ≤ 7 / 16) (h3 : IsSqrt c.sqrt) (h4 : Solid P) (h5 : 1 ≤ M) (h6 : M < c.large * (1 - c.eps))
    (h7 : M < c.large * (1 - c.rel)) (h8 : c.axis < 1) (h9 : c.axis ≤ r * r) (h10 : 0 < r) : Setting c P Center (fun _ => 0) r M := by
  refine ⟨h1, h2, h3, h4, ?_, fun d => ⟨rfl, ?_⟩, h5, h6, h7, h8, h9, h10⟩
  · rintro x y s rfl rfl _ _
    show _ = _
    ext <;> simp
  · rintro x rfl
    exact le_refl _

theorem first_hulled (hP : Solid P) {g : Nat} (hg : g < P.nf) : Hulled P (P.first g) := by
  obtain ⟨hne, hv⟩ := hP.corner g hg
  have hmem : (P.faceVerts g).headD 0 ∈ P.faceVerts g := by
    cases h : P.faceVerts g with
    | nil => exact absurd h hne
    | cons a l => simp
  exact .vertex (List.mem_map.2 ⟨_, List.mem_range.2 (hv _ hmem).1, rfl⟩)

theorem ball_sum {u w : V3 ℝ} {k l : ℝ} (hk : 0 ≤ k) (hl : 0 ≤ l) (hu : u.lengthSq ≤ k * k) (hw : w.lengthSq ≤ l * l) : (u - w).lengthSq ≤ (k + l) * (k + l) := by
  have h := dot_le (u := -u) (v := w) hk hl (by rw [neg_len]; exact hu) hw
  have e : (u - w).lengthSq = u.lengthSq + 2 * (-u).dot w + w.lengthSq := by
    simp only [V3.lengthSq, V3.dot, V3.sub_x, V3.sub_y, V3.sub_z, V3.neg_x, V3.neg_y, V3.neg_z]; ring
  rw [e]
  nlinarith

theorem inverse_len {t : Trans ℝ} (ht : t.ori.lengthSq = 1) (x : V3 ℝ) : (t.inverse.act x).lengthSq = dist2 x t.pos := by
  have z : t.act 0 = t.pos := by ext <;> simp [Trans.act, Quat.rot]
  have := act_dist ht (t.inverse.act x) 0
  rw [trans_act_inverse ht, z] at this
  rw [this]
  simp [dist2, V3.lengthSq]

/-- SAT when the center is in the polyhedron or near it: one contact. -/
theorem sphere_near (hl : 0 < N.large) (hP : Solid P) (us : ts.ori.lengthSq = 1) (up : tp.ori.lengthSq = 1) (hr : 0 < r) {k : ℝ} (hk : 0 ≤ k) (hkr : k < r) {b : V3 ℝ}
    (hb : Placed tp (Hulled P) b) (hd : dist2 ts.pos b ≤ k * k) (hf : ∃ g < P.nf, sphereDepth P (tp.inverse.mul ts).pos r g < N.large) (first : Bool) :
    ∃ (ct : Round.Contact ℝ) (nw : V3 ℝ), (∀ report, sphere N P ts tp r first report = (true, if report then [ct] else [])) ∧ nw.lengthSq = 1 ∧
      ct.normal = (if first then -nw else nw) ∧ 0 < ct.depth ∧ SatProps.Ball r (if first then ct.p1 else ct.p2) ∧
      (if first then ts else tp).act ct.p1 = (if first then tp else ts).act ct.p2 + V3.smul ct.depth ct.normal ∧
      (∀ (w : V3 ℝ) (l : ℝ), 0 ≤ l → w.lengthSq ≤ l * l → l + k ≤ ct.depth → Meet (Placed tp (Hulled P)) (Moved (Placed ts (SatProps.Ball r)) w)) ∧
      ∀ j, ct.depth < j → ¬ Meet (Placed tp (Hulled P)) (Moved (Placed ts (SatProps.Ball r)) (V3.smul j nw)) := by
  have hc : tp.act (tp.inverse.mul ts).pos = ts.pos := center_act up
  obtain ⟨b0, hb0, rfl⟩ := hb
  rw [← hc, act_dist up, dist2_eq] at hd
  have hdep : ∀ g, sphereDepth P (tp.inverse.mul ts).pos r g = (P.normal g).dot (P.first g - (tp.inverse.mul ts).pos) + r := fun g => by
    unfold sphereDepth; simp only [V3.dot]; ring
  have hall : ∀ g < P.nf, 0 < sphereDepth P (tp.inverse.mul ts).pos r g := fun g hg => by
    have h1 := poly_le hP hg hb0
    have h2 := dot_le (u := P.normal g) (v := (tp.inverse.mul ts).pos - b0) zero_le_one hk (by rw [hP.unit g hg]; simp) hd
    rw [hdep, dot_sub_right]
    rw [dot_sub_right] at h2
    linarith
  have hap := fun g (hg : g < P.nf) s x y => face_apart (s := s) (x := x) (y := y) hP us up hr.le hg
  have hdeep : (∀ g < P.nf, 0 ≤ (P.normal g).dot (P.first g - (tp.inverse.mul ts).pos)) → Placed tp (Hulled P) ts.pos := fun h => by
    have := point_ball hP (le_refl 0) h (w := 0) (by simp [V3.lengthSq])
    exact ⟨_, this, by rw [← hc]; congr 1; ext <;> simp⟩
  have hin := fun h => sphere_contact hl hP us up hr h hf first
  obtain ⟨s1, s2⟩ := scan_spec (sphereDepth P (tp.inverse.mul ts).pos r) (List.range P.nf) (N.large, 0) hl
  unfold sphere at hin ⊢
  dsimp only at hin ⊢
  generalize scan (sphereDepth P (tp.inverse.mul ts).pos r) (List.range P.nf) (N.large, 0) = m at *
  have hm : 0 < m.1 := by
    by_contra hh
    obtain ⟨a, b⟩ := s1 (not_lt.1 hh)
    exact hh (b ▸ hall _ (List.mem_range.1 a))
  obtain ⟨a, -, b⟩ := s2 hm
  obtain ⟨f0, hf0, hlt⟩ := hf
  have b := b.resolve_left (fun e => by
    have := a f0 (List.mem_range.2 hf0)
    rw [e] at this
    exact absurd hlt (not_lt.2 this))
  obtain ⟨b1, b2⟩ := b
  have hg := List.mem_range.1 b1
  have hn : (tp.ori.rot (P.normal m.2)).lengthSq = 1 := by rw [rot_len up]; exact hP.unit _ hg
  have hcs : SatProps.Ball r (ts.inverse.ori.rot (V3.smul r (-(tp.ori.rot (P.normal m.2))))) := by
    have : ts.inverse.ori = ts.ori.conj := rfl
    unfold SatProps.Ball
    rw [this, rot_len (conj_unit us)]
    have : (V3.smul r (-(tp.ori.rot (P.normal m.2)))).lengthSq = r * r * (tp.ori.rot (P.normal m.2)).lengthSq := by
      simp only [V3.lengthSq, V3.smul_x, V3.smul_y, V3.smul_z, V3.neg_x, V3.neg_y, V3.neg_z]; ring
    rw [this, hn, mul_one]
  have wcs : ts.act (ts.inverse.ori.rot (V3.smul r (-(tp.ori.rot (P.normal m.2))))) = ts.pos - V3.smul r (tp.ori.rot (P.normal m.2)) := by
    have : ts.inverse.ori = ts.ori.conj := rfl
    unfold Trans.act
    rw [this, rot_conj' us]
    ext <;> simp <;> ring
  have wcp : tp.act ((tp.inverse.mul ts).pos + V3.smul (m.1 - r) (P.normal m.2)) = ts.pos + V3.smul (m.1 - r) (tp.ori.rot (P.normal m.2)) := by
    have := act_sub tp ((tp.inverse.mul ts).pos + V3.smul (m.1 - r) (P.normal m.2)) (tp.inverse.mul ts).pos
    have e : (tp.inverse.mul ts).pos + V3.smul (m.1 - r) (P.normal m.2) - (tp.inverse.mul ts).pos = V3.smul (m.1 - r) (P.normal m.2) := by ext <;> simp
    rw [e, rot_smul, hc] at this
    rw [← this]; ext <;> simp
  have parts : ∀ j, m.1 < j → ¬ Meet (Placed tp (Hulled P)) (Moved (Placed ts (SatProps.Ball r)) (V3.smul j (tp.ori.rot (P.normal m.2)))) := by
    rintro j hj ⟨x, hx, y, hy, rfl⟩
    have := hap _ hg j _ _ hx hy
    rw [b2] at this
    linarith
  refine ⟨⟨if first then -(tp.ori.rot (P.normal m.2)) else tp.ori.rot (P.normal m.2), m.1,
    if first then ts.inverse.ori.rot (V3.smul r (-(tp.ori.rot (P.normal m.2)))) else (tp.inverse.mul ts).pos + V3.smul (m.1 - r) (P.normal m.2),
    if first then (tp.inverse.mul ts).pos + V3.smul (m.1 - r) (P.normal m.2) else ts.inverse.ori.rot (V3.smul r (-(tp.ori.rot (P.normal m.2))))⟩,
    tp.ori.rot (P.normal m.2), fun report => by rw [if_neg (not_le.2 hm)], hn, rfl, hm, ?_, ?_, ?_, parts⟩
  · cases first <;> exact hcs
  · cases first
    · show tp.act ((tp.inverse.mul ts).pos + V3.smul (m.1 - r) (P.normal m.2)) =
        ts.act (ts.inverse.ori.rot (V3.smul r (-(tp.ori.rot (P.normal m.2))))) + V3.smul m.1 (tp.ori.rot (P.normal m.2))
      rw [wcs, wcp]; ext <;> simp <;> ring
    · show ts.act (ts.inverse.ori.rot (V3.smul r (-(tp.ori.rot (P.normal m.2))))) =
        tp.act ((tp.inverse.mul ts).pos + V3.smul (m.1 - r) (P.normal m.2)) + V3.smul m.1 (-(tp.ori.rot (P.normal m.2)))
      rw [wcs, wcp]; ext <;> simp <;> ring
  · intro w l l0 hw hlk
    by_cases hpc : Placed tp (Hulled P) ts.pos
    · obtain ⟨ct, nw, q1, -, -, -, -, -, -, q2, -⟩ := hin hpc
      rw [if_neg (not_le.2 hm)] at q1
      simp only [if_true, Prod.mk.injEq, List.cons.injEq, true_and, and_true] at q1
      rw [← q1] at q2
      refine q2 w (hw.trans ?_)
      dsimp only at hlk ⊢
      nlinarith
    · have : ∃ g < P.nf, (P.normal g).dot (P.first g - (tp.inverse.mul ts).pos) < 0 := by
        by_contra hh
        push Not at hh
        exact hpc (hdeep hh)
      obtain ⟨g, hgn, hgd⟩ := this
      have hmr := a g (List.mem_range.2 hgn)
      rw [hdep] at hmr
      dsimp only at hlk
      refine ⟨tp.act b0, ⟨b0, hb0, rfl⟩, tp.act b0 - w, ⟨ts.inverse.act (tp.act b0 - w), ?_, (trans_act_inverse us _).symm⟩, by ext <;> simp⟩
      show (ts.inverse.act (tp.act b0 - w)).lengthSq ≤ r * r
      rw [inverse_len us, ← hc, dist2_eq]
      have e2 : tp.act b0 - w - tp.act (tp.inverse.mul ts).pos = (tp.act b0 - tp.act (tp.inverse.mul ts).pos) - w := by ext <;> simp <;> ring
      have e3 : (tp.act b0 - tp.act (tp.inverse.mul ts).pos).lengthSq ≤ k * k := by
        rw [act_sub, rot_len up]
        refine le_of_eq_of_le ?_ hd
        simp only [V3.lengthSq, V3.sub_x, V3.sub_y, V3.sub_z]; ring
      rw [e2]
      have := ball_sum hk l0 e3 hw
      nlinarith

theorem SphereOk.large_pos {slack : ℝ} (h : SphereOk c N P r M slack) : 0 < N.large := by
  have := h.large; have := h.setting.one; have := h.setting.pos; linarith

theorem SphereOk.face {slack : ℝ} (h : SphereOk c N P r M slack) (hf : Near P Center M f) :
    ∃ g < P.nf, sphereDepth P (f.tp.inverse.mul f.ts).pos r g < N.large := by
  have hS := h.setting
  refine ⟨0, h.faces, ?_⟩
  have h1 := hf.extent f.ts.pos _ (placed_center.2 rfl) ⟨_, first_hulled hS.solid h.faces, rfl⟩
  rw [← center_act hf.up, act_dist hf.up, dist2_comm, dist2_eq] at h1
  have h2 := dot_le (u := P.first 0 - (f.tp.inverse.mul f.ts).pos) (v := P.normal 0) (a := M) (b := 1) (by linarith [hS.one]) zero_le_one
    (h1.trans (by nlinarith [hS.one])) (by rw [hS.solid.unit 0 h.faces]; simp)
  have := h.large
  unfold sphereDepth
  linarith

/-- **C132.** A test of a sphere against a polyhedron, with what a frame before has kept. It ends after a number of turns that depends on nothing but the numbers of the
program, breaks no assertion, says what is right, and what it keeps is good for the next frame. -/
theorem sphere_frame (hc : c.Ok) : ∃ L : Nat, ∀ (N : Sat.Num ℝ) (P : Poly ℝ) (r M slack : ℝ) (first : Bool) (f : Frame ℝ) (i : Info ℝ), SphereOk c N P r M slack →
    Near P Center M f → Kept c M i → ∀ n, L ≤ n → ∃ o, sphereTest c N P r first f i n = some (some o) ∧ Right P r slack first f o ∧ Kept c M o.info := by
  obtain ⟨L, hL⟩ := gjk_always hc
  refine ⟨L, fun N P r M slack first f i h hf hi n hn => ?_⟩
  have hS := h.setting
  have hi := kept_start (f := f) hS hi
  obtain ⟨v, ax, hv⟩ := hL P Center _ r M f _ first hS hf hi n hn
  obtain ⟨a1, a2, hm⟩ := gjk_means hS hf hi hv
  have hval : f.update = true → f.valid (f.start i) = true := fun hu => by simp [Frame.valid, hu]
  unfold sphereTest
  rw [hv]
  refine ⟨_, rfl, ?_, ?_⟩
  · cases v with
    | separated => exact ⟨fun h => by simp at h, fun _ => rfl, fun h => by simp at h, hval, rfl, fun h => by simp at h⟩
    | collide ct =>
      have hm : Sound P Center r first f ct := hm
      have hdeep := hm.deep
      rw [within_center] at hdeep
      refine ⟨fun _ => ?_, ?_, fun _ hr => ⟨ct, by dsimp only; rw [if_pos hr], hm.unit, hm.pos, ?_, hm.diff, fun w l l0 hw hl => hdeep w (hw.trans ?_)⟩, hval, rfl, fun _ => rfl⟩
      · obtain ⟨x, hx, y, hy, e⟩ := hdeep 0 (by simp only [V3.lengthSq, V3.zero_x, V3.zero_y, V3.zero_z]; nlinarith [hm.pos])
        refine ⟨x, hx, ?_⟩
        have : x = y := by rw [e]; ext <;> simp
        rw [this]; exact hy
      · rintro (h | h)
        · simp at h
        · dsimp only; rw [h]; rfl
      · obtain ⟨x, hx, e⟩ := hm.round
        rw [within_center] at hx
        have e := congrArg f.ts.inverse.act e
        rw [trans_inverse_act hf.us, trans_inverse_act hf.us] at e
        rw [e]
        exact hx
      · have := h.nonneg
        nlinarith
    | interpenetrate =>
      obtain ⟨a, b, ha, hb, hd⟩ := hm
      rw [placed_center] at ha
      subst ha
      obtain ⟨ct, nw, q1, q2, q3, q4, q5, q6, q7, -⟩ := sphere_near h.large_pos hS.solid hf.us hf.up hS.pos h.nonneg h.small hb (hd.trans h.eps) (h.face hf) first
      dsimp only
      rw [q1]
      refine ⟨fun _ => ?_, ?_, fun _ hr => ⟨ct, by dsimp only; rw [if_pos hr], ?_, q4, q5, q6, q7⟩, hval, rfl, fun _ => rfl⟩
      · have hd' := hd.trans h.eps
        refine ⟨b, hb, f.ts.inverse.act b, ?_, (trans_act_inverse hf.us b).symm⟩
        show (f.ts.inverse.act b).lengthSq ≤ r * r
        rw [inverse_len hf.us, dist2_comm]
        refine hd'.trans ?_
        have := h.small
        have := h.nonneg
        nlinarith
      · rintro (h | h)
        · simp at h
        · dsimp only; rw [h]; rfl
      · rw [q3]
        split_ifs
        · rw [neg_len]; exact q2
        · exact q2
  · cases v <;> exact ⟨a1, a2⟩

/-- **C132.** The same for any number of tests of a pair, one after the other, in any poses, in the steps of the world and for queries, and whenever the pair is made anew. -/
theorem sphere_frames (hc : c.Ok) : ∃ L : Nat, ∀ (N : Sat.Num ℝ) (P : Poly ℝ) (r M slack : ℝ) (first : Bool), SphereOk c N P r M slack → ∀ n, L ≤ n →
    ∀ (fs : List (Frame ℝ)) (i : Info ℝ), (∀ f ∈ fs, Near P Center M f) → Kept c M i →
      ∃ os, frames (fun f i => sphereTest c N P r first f i n) i fs = some (some os) ∧ List.Forall₂ (Right P r slack first) fs os := by
  obtain ⟨L, hL⟩ := sphere_frame hc
  refine ⟨L, fun N P r M slack first h n hn fs => ?_⟩
  induction fs with
  | nil => intro i _ _; exact ⟨[], rfl, .nil⟩
  | cons f fs ih =>
    intro i hf hi
    obtain ⟨o, ho, hr, hk⟩ := hL N P r M slack first f i h (hf f (by simp)) hi n hn
    obtain ⟨os, hos, hR⟩ := ih o.info (fun g hg => hf g (by simp [hg])) hk
    exact ⟨o :: os, by simp [frames, ho, hos], .cons hr hR⟩

/-- The state in which the loop of GJK ends. -/
noncomputable def run (c : Cfg ℝ) (P : Poly ℝ) (r : ℝ) (first : Bool) (f : Frame ℝ) (i : Info ℝ) (n : Nat) : Option (Loop ℝ) :=
  GjkProps.run c (f.t1 first) (f.t2 first) (supp1 (fun _ => 0) P first) (supp2 (fun _ => 0) P first) (marg1 r first) (marg2 r first) (f.start i).cached n

/-- **C132**, in part: when GJK has not stopped at a large simplex that it takes for degenerate (see C99), then if the test says that there is no collision the center of the sphere
is not nearer to the polyhedron than the radius less the tolerance, and moved along the normal of the contact by the depth and the tolerance the sphere is outside. -/
theorem sphere_far_partial {slack k : ℝ} (h : SphereOk c N P r M slack) (hf : Near P Center M f) (hi : Kept c M i) (hk : Tol c M k) {o : Out ℝ}
    (ho : sphereTest c N P r first f i n = some (some o)) (hr : ∀ l, run c P r first f i n = some l → Resolved c k l) :
    (o.colliding = false → ∀ b, Placed f.tp (Hulled P) b → ∀ d, 0 ≤ d → d * d = dist2 f.ts.pos b → r ≤ d + k) ∧
    ∀ ct ∈ o.contacts, ∀ j, ct.depth + k < j → ∀ b, Placed f.tp (Hulled P) b →
      r * r ≤ dist2 b (f.ts.pos + V3.smul j (if first then -ct.normal else ct.normal)) := by
  have hS := h.setting
  have hi := kept_start (f := f) hS hi
  unfold sphereTest at ho
  cases hv : gjkTest c P (fun _ => 0) r first f (f.start i) n with
  | none => rw [hv] at ho; simp at ho
  | some q =>
    cases q with
    | none => rw [hv] at ho; simp at ho
    | some q =>
      obtain ⟨v, ax⟩ := q
      have hp := hS.pair hf first
      have hm : 0 < marg1 r first + marg2 r first := by rw [margins]; exact hS.pos
      obtain ⟨hg, -, -⟩ := search_axis hp hm hS.axis1 (by rw [margins]; exact hS.axis) hi hv
      obtain ⟨-, -, hmean⟩ := gjk_means hS hf hi hv
      rw [hv] at ho
      simp only [Option.map_some, Option.some.injEq] at ho
      subst ho
      cases v with
      | separated =>
        refine ⟨fun _ b hb d d0 hd => ?_, fun ct hct => by simp at hct⟩
        cases first with
        | true =>
          have := separated_partial hp hk hm (kept_axis hi) hg hr (placed_center.2 rfl) hb d0 hd
          rwa [margins] at this
        | false =>
          have := separated_partial hp hk hm (kept_axis hi) hg hr hb (placed_center.2 rfl) d0 (by rw [hd, dist2_comm]; rfl)
          rwa [margins] at this
      | collide ct =>
        refine ⟨fun h => by simp at h, fun ct' hct j hj => ?_⟩
        have e : ct' = ct := by
          dsimp only at hct
          split_ifs at hct
          · simpa using hct
          · simp at hct
        subst e
        have hm1 : 0 ≤ marg1 r first := by cases first <;> simp [marg1, hS.pos.le]
        have hm2 : 0 ≤ marg2 r first := by cases first <;> simp [marg2, hS.pos.le]
        have hT := contact_partial hp hk hm1 hm2 hm (kept_axis hi) hg hr
        intro b hb
        cases first with
        | true =>
          have := hT.apart j hj.le _ b (placed_center.2 rfl) hb
          rw [margins] at this
          refine this.trans_eq ?_
          simp only [dist2, if_true, Frame.t1, V3.add_x, V3.add_y, V3.add_z, V3.smul_x, V3.smul_y, V3.smul_z, V3.neg_x, V3.neg_y, V3.neg_z]; ring
        | false =>
          have := hT.apart j hj.le b _ hb (placed_center.2 rfl)
          rw [margins] at this
          exact this
      | interpenetrate =>
        obtain ⟨a, b, ha, hb, hd⟩ := hmean
        rw [placed_center] at ha
        subst ha
        obtain ⟨ct, nw, q1, q2, q3, q4, q5, q6, q7, q8⟩ := sphere_near h.large_pos hS.solid hf.us hf.up hS.pos h.nonneg h.small hb (hd.trans h.eps) (h.face hf) first
        dsimp only
        rw [q1]
        refine ⟨fun h => by simp at h, fun ct' hct j hj x hx => ?_⟩
        have e : ct' = ct := by
          dsimp only at hct
          split_ifs at hct
          · simpa using hct
          · simp at hct
        subst e
        have en : (if first = true then -ct'.normal else ct'.normal) = nw := by
          rw [q3]
          cases first
          · rfl
          · show - -nw = nw
            ext <;> simp
        rw [en]
        by_contra hlt
        have hk0 := hk.nonneg
        refine q8 j (by linarith) ⟨x, hx, x - V3.smul j nw, ⟨f.ts.inverse.act (x - V3.smul j nw), ?_, (trans_act_inverse hf.us _).symm⟩, by ext <;> simp⟩
        show (f.ts.inverse.act (x - V3.smul j nw)).lengthSq ≤ r * r
        rw [inverse_len hf.us]
        refine le_trans (le_of_eq ?_) (not_le.1 hlt).le
        simp only [dist2, V3.add_x, V3.add_y, V3.add_z, V3.sub_x, V3.sub_y, V3.sub_z]; ring

end RoundPolyProps
end RP3D
