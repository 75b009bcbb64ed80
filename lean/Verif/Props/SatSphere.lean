import Verif.Props.SatMissed

/-! C104: the separating axis test of a sphere against a convex polyhedron. -/

namespace RP3D
namespace SatProps
open Shape RayProps PointProps RoundProps Geom GeomProps Sat SatGeom

set_option linter.unusedSectionVars false

section Field
variable {K : Type} [Field K] [LinearOrder K] [IsStrictOrderedRing K] {P : Poly K} {ts tp : Trans K} {N : Num K} {r : K}

/-- The ball of a sphere shape. -/
def Ball (r : K) (x : V3 K) : Prop := x.lengthSq ≤ r * r

theorem dot_ball {n x : V3 K} (hr : 0 ≤ r) (hn : n.lengthSq = 1) (hx : Ball r x) : -r ≤ n.dot x ∧ n.dot x ≤ r := by
  have h1 := dot_le (u := n) (v := x) zero_le_one hr (by rw [hn]; simp) hx
  have h2 := dot_le (u := -n) (v := x) zero_le_one hr (by rw [neg_len, hn]; simp) hx
  rw [neg_dot] at h2
  constructor <;> linarith

/-- The center of the sphere in the space of the polyhedron. -/
theorem center_act (up : tp.ori.lengthSq = 1) : tp.act (tp.inverse.mul ts).pos = ts.pos := by
  have := frame_act (t1 := ts) (t2 := tp) up 0
  have z : ∀ t : Trans K, t.act 0 = t.pos := fun t => by ext <;> simp [Trans.act, Quat.rot]
  rw [z, z] at this
  exact this

theorem poly_le (hP : Solid P) {f : Nat} (hf : f < P.nf) {u : V3 K} (hu : Hulled P u) : (P.normal f).dot u ≤ (P.normal f).dot (P.first f) := by
  refine hull_le (vs := verts P) (fun v hv => ?_) hu
  obtain ⟨w, hw, rfl⟩ := List.mem_map.1 hv
  exact hP.behind f hf w (List.mem_range.1 hw)

/-- Far along the normal of a face there is a plane between the polyhedron and the sphere. -/
theorem face_apart (hP : Solid P) (us : ts.ori.lengthSq = 1) (up : tp.ori.lengthSq = 1) (hr : 0 ≤ r) {f : Nat} (hf : f < P.nf) {s : K} {x y : V3 K}
    (hx : Placed tp (Hulled P) x) (hy : Placed ts (Ball r) y) :
    (tp.ori.rot (P.normal f)).dot x ≤ (tp.ori.rot (P.normal f)).dot (y + V3.smul s (tp.ori.rot (P.normal f))) - s + sphereDepth P (tp.inverse.mul ts).pos r f := by
  obtain ⟨u, hu, rfl⟩ := hx
  obtain ⟨v, hv, rfl⟩ := hy
  have hn : (tp.ori.rot (P.normal f)).lengthSq = 1 := by rw [rot_len up]; exact hP.unit f hf
  have a := poly_le hP hf hu
  have b := (dot_ball hr hn (x := ts.ori.rot v) (by unfold Ball; rw [rot_len us]; exact hv)).1
  have c := dot_act up (tp.ori.rot (P.normal f)) u (tp.inverse.mul ts).pos
  rw [center_act up, rot_conj up, dot_sub_right, dot_sub_right] at c
  have d : (tp.ori.rot (P.normal f)).dot (ts.act v) = (tp.ori.rot (P.normal f)).dot ts.pos + (tp.ori.rot (P.normal f)).dot (ts.ori.rot v) := by
    simp only [Trans.act, V3.dot, V3.add_x, V3.add_y, V3.add_z]; ring
  have e : (tp.ori.rot (P.normal f)).dot (ts.act v + V3.smul s (tp.ori.rot (P.normal f))) = (tp.ori.rot (P.normal f)).dot (ts.act v) + s := by
    have : (tp.ori.rot (P.normal f)).dot (ts.act v + V3.smul s (tp.ori.rot (P.normal f))) = (tp.ori.rot (P.normal f)).dot (ts.act v) + s * (tp.ori.rot (P.normal f)).lengthSq := by
      simp only [V3.dot, V3.lengthSq, V3.add_x, V3.add_y, V3.add_z, V3.smul_x, V3.smul_y, V3.smul_z]; ring
    rw [this, hn, mul_one]
  have g : sphereDepth P (tp.inverse.mul ts).pos r f = (P.normal f).dot (P.first f) - (P.normal f).dot (tp.inverse.mul ts).pos + r := by
    unfold sphereDepth
    simp only [V3.dot, V3.sub_x, V3.sub_y, V3.sub_z]; ring
  rw [e, d, g]
  linarith

/-- **C104.** If the test says that the sphere and the polyhedron do not collide, a plane lies between them. -/
theorem sphere_apart (hl : 0 < N.large) (hP : Solid P) (us : ts.ori.lengthSq = 1) (up : tp.ori.lengthSq = 1) (hr : 0 ≤ r) {first report : Bool}
    (h : (sphere N P ts tp r first report).1 = false) : Apart (Placed tp (Hulled P)) (Placed ts (Ball r)) := by
  unfold sphere at h
  dsimp only at h
  obtain ⟨s1, -⟩ := scan_spec (sphereDepth P (tp.inverse.mul ts).pos r) (List.range P.nf) (N.large, 0) hl
  generalize scan (sphereDepth P (tp.inverse.mul ts).pos r) (List.range P.nf) (N.large, 0) = m at *
  by_cases c : m.1 ≤ 0
  · obtain ⟨a, b⟩ := s1 c
    have hf := List.mem_range.1 a
    refine ⟨tp.ori.rot (P.normal m.2), by rw [rot_len up]; exact hP.unit _ hf, fun x y hx hy => ?_⟩
    have := face_apart hP us up hr hf (s := 0) hx hy
    rw [b] at this
    have e : y + V3.smul 0 (tp.ori.rot (P.normal m.2)) = y := by ext <;> simp
    rw [e] at this
    linarith
  · rw [if_neg c] at h
    simp at h

/-- The distance from an inner point to the surface of a polyhedron: smallest along the normal of a face. -/
theorem point_deep (hP : Solid P) {c : V3 K} {δ : K} (hδ : 0 ≤ δ) (h : ∀ f < P.nf, δ ≤ (P.normal f).dot (P.first f - c)) (n : V3 K) (hn : n.lengthSq = 1) :
    ∃ v < P.nv, δ ≤ n.dot (P.vert v - c) := by
  have hA := body_ok hP (t := here) here_unit
  let B : Body K := ⟨[c], fun _ => False, fun _ _ _ _ => False, c⟩
  have tB : ∀ m, Top B m c := fun m => ⟨List.mem_singleton.2 rfl, fun z hz => by rw [List.mem_singleton.1 hz]⟩
  have uB : ∀ m y, Top B m y → y = c := fun m y hy => List.mem_singleton.1 hy.1
  have face : ∀ m, (body P here).face m → Deep (body P here) B δ m := by
    rintro m ⟨f, hf, rfl⟩
    rw [here_rot]
    refine ⟨1, zero_le_one, by rw [hP.unit f hf]; simp, fun x y hx hy => ?_⟩
    rw [uB _ _ hy, mul_one]
    have e := first_top hP here_unit hf
    rw [here_rot, here_act] at e
    have := h f hf
    rw [dot_sub_right] at this ⊢
    rw [top_eq hx e]
    exact this
  have hne : n ≠ 0 := by rintro rfl; simp [V3.lengthSq] at hn
  have all : Deep (body P here) B δ n := by
    refine reduce_arcs hA (fun m => ⟨c, tB m⟩) ?_ (fun m hm y y' hy hy' hne => absurd ((uB _ _ hy).trans (uB _ _ hy').symm) hne) hne
    intro m hm x x' hx hx' hne
    obtain ⟨p, q, a, b, he, α, β, hα, hβ, rfl⟩ := hA.arc m hm x x' hx hx' hne
    obtain ⟨ta, tb⟩ := hA.top _ _ _ _ he
    exact deep_comb hα hβ ta tb (tB _) (tB _) (face a (hA.faces _ _ _ _ he).1) (face b (hA.faces _ _ _ _ he).2)
  obtain ⟨k, hk, hlen, hd⟩ := all
  obtain ⟨x, hx⟩ := hA.exists_top n
  obtain ⟨v, hv, rfl⟩ := mem_pts.1 hx.1
  have := hd _ c hx (tB _)
  rw [here_act] at this
  refine ⟨v, hv, le_trans ?_ this⟩
  have hk1 : 1 ≤ k := by
    by_contra hh
    rw [hn] at hlen
    nlinarith [not_le.1 hh]
  nlinarith

end Field

/-- The points near an inner point are points of the polyhedron. -/
theorem point_ball {P : Poly ℝ} (hP : Solid P) {c w : V3 ℝ} {δ : ℝ} (hδ : 0 ≤ δ) (h : ∀ f < P.nf, δ ≤ (P.normal f).dot (P.first f - c)) (hw : w.lengthSq ≤ δ * δ) :
    Hulled P (c + w) := by
  have ho : Overlap δ (Hull (verts P)) (Hull [c]) := by
    intro n hn
    obtain ⟨v, hv, hd⟩ := point_deep hP hδ h n hn
    exact ⟨_, _, .vertex (List.mem_map.2 ⟨v, List.mem_range.2 hv, rfl⟩), .vertex (List.mem_singleton.2 rfl), hd⟩
  obtain ⟨x, hx, y, hy, e⟩ := overlap_meet hδ ho hw
  have hc : ∀ y, Hull [c] y → y = c := by
    intro y hy
    induction hy with
    | vertex hv => exact List.mem_singleton.1 hv
    | mix _ _ _ _ ih1 ih2 => rw [ih1, ih2]; ext <;> simp <;> ring
  rw [hc y hy] at e
  rw [← e]
  exact hx

/-- **C104.** The center of the sphere is in the polyhedron, which is when the program runs this test. Then the test says that they collide, and reports one contact: the
normal is a unit vector; the points are on the surface of the sphere and on a face of the polyhedron, apart by the depth along the normal; moved by any vector not longer
than the depth the sphere still meets the polyhedron, moved farther along the normal of the face it does not. -/
theorem sphere_contact {P : Poly ℝ} {ts tp : Trans ℝ} {N : Num ℝ} {r : ℝ} (hl : 0 < N.large) (hP : Solid P) (us : ts.ori.lengthSq = 1) (up : tp.ori.lengthSq = 1) (hr : 0 < r)
    (hin : Placed tp (Hulled P) ts.pos) (hb : ∃ f < P.nf, sphereDepth P (tp.inverse.mul ts).pos r f < N.large) (first : Bool) :
    ∃ c n, sphere N P ts tp r first true = (true, [c]) ∧ n.lengthSq = 1 ∧ c.normal = (if first then -n else n) ∧ 0 < c.depth ∧
      (if first then c.p1 else c.p2).lengthSq = r * r ∧ (∃ f < P.nf, n = tp.ori.rot (P.normal f) ∧ Hulled P (if first then c.p2 else c.p1) ∧
        (P.normal f).dot (if first then c.p2 else c.p1) = (P.normal f).dot (P.first f)) ∧
      (if first then ts else tp).act c.p1 - (if first then tp else ts).act c.p2 = V3.smul c.depth c.normal ∧
      (∀ w : V3 ℝ, w.lengthSq ≤ c.depth * c.depth → Meet (Placed tp (Hulled P)) (Moved (Placed ts (Ball r)) w)) ∧
      ∀ s, c.depth < s → ¬ Meet (Placed tp (Hulled P)) (Moved (Placed ts (Ball r)) (V3.smul s n)) := by
  -- the center is behind all faces
  have hc : tp.act (tp.inverse.mul ts).pos = ts.pos := center_act up
  have hcin : Hulled P (tp.inverse.mul ts).pos := by
    obtain ⟨u, hu, e⟩ := hin
    have : u = (tp.inverse.mul ts).pos := by
      rw [← trans_inverse_act up u, ← e, ← hc, trans_inverse_act up]
    rw [← this]; exact hu
  have hd : ∀ f < P.nf, 0 ≤ (P.normal f).dot (P.first f - (tp.inverse.mul ts).pos) := fun f hf => by
    rw [dot_sub_right]; linarith [poly_le hP hf hcin]
  have hdep : ∀ f, sphereDepth P (tp.inverse.mul ts).pos r f = (P.normal f).dot (P.first f - (tp.inverse.mul ts).pos) + r := fun f => by
    unfold sphereDepth; simp only [V3.dot]; ring
  have hap := fun f (hf : f < P.nf) s x y => face_apart (s := s) (x := x) (y := y) hP us up hr.le hf
  obtain ⟨s1, s2⟩ := scan_spec (sphereDepth P (tp.inverse.mul ts).pos r) (List.range P.nf) (N.large, 0) hl
  unfold sphere
  dsimp only
  generalize scan (sphereDepth P (tp.inverse.mul ts).pos r) (List.range P.nf) (N.large, 0) = m at *
  have hm : 0 < m.1 := by
    by_contra hh
    obtain ⟨a, b⟩ := s1 (not_lt.1 hh)
    rw [hdep] at b
    linarith [hd _ (List.mem_range.1 a), not_lt.1 hh]
  obtain ⟨a, -, b⟩ := s2 hm
  obtain ⟨f0, hf0, hlt⟩ := hb
  have b := b.resolve_left (fun e => by
    have := a f0 (List.mem_range.2 hf0)
    rw [e] at this
    exact absurd hlt (not_lt.2 this))
  obtain ⟨b1, b2⟩ := b
  have hf := List.mem_range.1 b1
  have hu := hP.unit _ hf
  have hn : (tp.ori.rot (P.normal m.2)).lengthSq = 1 := by rw [rot_len up]; exact hu
  have hδ : 0 ≤ m.1 - r := by rw [← b2, hdep]; linarith [hd _ hf]
  have hall : ∀ f < P.nf, m.1 - r ≤ (P.normal f).dot (P.first f - (tp.inverse.mul ts).pos) := fun f hf => by
    have := a f (List.mem_range.2 hf)
    rw [hdep] at this
    linarith
  have ball : ∀ w : V3 ℝ, w.lengthSq ≤ (m.1 - r) * (m.1 - r) → Hulled P ((tp.inverse.mul ts).pos + w) := fun w hw => point_ball hP hδ hall hw
  -- the two points
  have hcs : (ts.inverse.ori.rot (V3.smul r (-(tp.ori.rot (P.normal m.2))))).lengthSq = r * r := by
    have : ts.inverse.ori = ts.ori.conj := rfl
    rw [this, rot_len (conj_unit us)]
    have : (V3.smul r (-(tp.ori.rot (P.normal m.2)))).lengthSq = r * r * (tp.ori.rot (P.normal m.2)).lengthSq := by
      simp only [V3.lengthSq, V3.smul_x, V3.smul_y, V3.smul_z, V3.neg_x, V3.neg_y, V3.neg_z]; ring
    rw [this, hn, mul_one]
  have wcs : ts.act (ts.inverse.ori.rot (V3.smul r (-(tp.ori.rot (P.normal m.2))))) = ts.pos - V3.smul r (tp.ori.rot (P.normal m.2)) := by
    have : ts.inverse.ori = ts.ori.conj := rfl
    unfold Trans.act
    rw [this, rot_conj' us]
    ext <;> simp <;> ring
  have wcp : tp.act ((tp.inverse.mul ts).pos + V3.smul (m.1 - r) (P.normal m.2)) = ts.pos + V3.smul (m.1 - r) (tp.ori.rot (P.normal m.2)) := by
    have := act_sub tp ((tp.inverse.mul ts).pos + V3.smul (m.1 - r) (P.normal m.2)) (tp.inverse.mul ts).pos
    have e : (tp.inverse.mul ts).pos + V3.smul (m.1 - r) (P.normal m.2) - (tp.inverse.mul ts).pos = V3.smul (m.1 - r) (P.normal m.2) := by ext <;> simp
    rw [e, rot_smul, hc] at this
    rw [← this]; ext <;> simp
  have hcp : Hulled P ((tp.inverse.mul ts).pos + V3.smul (m.1 - r) (P.normal m.2)) := by
    apply ball
    have : (V3.smul (m.1 - r) (P.normal m.2)).lengthSq = (m.1 - r) * (m.1 - r) * (P.normal m.2).lengthSq := by
      simp only [V3.lengthSq, V3.smul_x, V3.smul_y, V3.smul_z]; ring
    rw [this, hu, mul_one]
  have hplane : (P.normal m.2).dot ((tp.inverse.mul ts).pos + V3.smul (m.1 - r) (P.normal m.2)) = (P.normal m.2).dot (P.first m.2) := by
    have e : (P.normal m.2).dot ((tp.inverse.mul ts).pos + V3.smul (m.1 - r) (P.normal m.2)) = (P.normal m.2).dot (tp.inverse.mul ts).pos + (m.1 - r) * (P.normal m.2).lengthSq := by
      simp only [V3.dot, V3.lengthSq, V3.add_x, V3.add_y, V3.add_z, V3.smul_x, V3.smul_y, V3.smul_z]; ring
    rw [e, hu, ← b2, hdep, dot_sub_right]; ring
  have meets : ∀ w : V3 ℝ, w.lengthSq ≤ m.1 * m.1 → Meet (Placed tp (Hulled P)) (Moved (Placed ts (Ball r)) w) := by
    intro w hw
    -- a point of the way of the center
    have hk : ∀ k : ℝ, (V3.smul k w).lengthSq = k * k * w.lengthSq := fun k => by simp only [V3.lengthSq, V3.smul_x, V3.smul_y, V3.smul_z]; ring
    have sc : ∀ k : ℝ, (k / m.1) * (k / m.1) * w.lengthSq ≤ k * k := fun k => by
      have : (k / m.1) * (k / m.1) * w.lengthSq ≤ (k / m.1) * (k / m.1) * (m.1 * m.1) := mul_le_mul_of_nonneg_left hw (mul_self_nonneg _)
      have e : (k / m.1) * (k / m.1) * (m.1 * m.1) = k * k := by field_simp
      linarith
    refine ⟨tp.act ((tp.inverse.mul ts).pos + tp.ori.conj.rot (V3.smul ((m.1 - r) / m.1) w)), ⟨_, ball _ ?_, rfl⟩, ts.pos - V3.smul (r / m.1) w, ⟨ts.ori.conj.rot (V3.smul (-(r / m.1)) w), ?_, ?_⟩, ?_⟩
    · rw [rot_len (conj_unit up), hk]; exact sc _
    · show (ts.ori.conj.rot (V3.smul (-(r / m.1)) w)).lengthSq ≤ r * r
      rw [rot_len (conj_unit us), hk]
      have := sc r
      linarith
    · unfold Trans.act
      rw [rot_conj' us]
      ext <;> simp <;> ring
    · have := act_sub tp ((tp.inverse.mul ts).pos + tp.ori.conj.rot (V3.smul ((m.1 - r) / m.1) w)) (tp.inverse.mul ts).pos
      have e : (tp.inverse.mul ts).pos + tp.ori.conj.rot (V3.smul ((m.1 - r) / m.1) w) - (tp.inverse.mul ts).pos = tp.ori.conj.rot (V3.smul ((m.1 - r) / m.1) w) := by ext <;> simp
      rw [e, rot_conj' up, hc] at this
      have e2 : tp.act ((tp.inverse.mul ts).pos + tp.ori.conj.rot (V3.smul ((m.1 - r) / m.1) w)) = ts.pos + V3.smul ((m.1 - r) / m.1) w := by
        have key : ∀ q p w : V3 ℝ, q - p = w → q = p + w := by rintro q p w rfl; ext <;> simp
        exact key _ _ _ this
      rw [e2]
      have hm' := hm.ne'
      ext <;> simp <;> field_simp <;> ring
  have parts : ∀ s, m.1 < s → ¬ Meet (Placed tp (Hulled P)) (Moved (Placed ts (Ball r)) (V3.smul s (tp.ori.rot (P.normal m.2)))) := by
    rintro s hs ⟨x, hx, y, hy, rfl⟩
    have := hap _ hf s _ _ hx hy
    rw [b2] at this
    linarith
  rw [if_neg (not_le.2 hm)]
  cases first
  · refine ⟨_, tp.ori.rot (P.normal m.2), rfl, hn, rfl, hm, hcs, ⟨m.2, hf, rfl, hcp, hplane⟩, ?_, meets, parts⟩
    simp only [Bool.false_eq_true, if_false]
    rw [wcp, wcs]
    ext <;> simp <;> ring
  · refine ⟨_, tp.ori.rot (P.normal m.2), rfl, hn, rfl, hm, hcs, ⟨m.2, hf, rfl, hcp, hplane⟩, ?_, meets, parts⟩
    simp only [if_true]
    rw [wcp, wcs]
    ext <;> simp <;> ring

/-! ### Cases that meet the hypotheses -/

/-- A sphere in a cube. -/
example : ∃ c, sphere std cube (put 0 0 (1/2)) (put 0 0 0) (1/4) true true = (true, [c]) ∧ c.depth = 3/4 := by
  have e : ((put 0 0 0).inverse.mul (put 0 0 (1/2))).pos = ⟨0, 0, 1/2⟩ := by rw [put_put]; rfl
  have d : ∀ f, sphereDepth cube ⟨0, 0, 1/2⟩ (1/4) f = (cube.first f - ⟨0, 0, 1/2⟩).dot (cube.normal f) + 1/4 := fun f => rfl
  obtain ⟨c, n, h, -, -, h0, -, ⟨f, hf, -⟩, -⟩ := sphere_contact (N := std) (P := cube) (ts := put 0 0 (1/2)) (tp := put 0 0 0) (r := 1/4) (by norm_num [std]) cube_solid
    (put_unit ..) (put_unit ..) (by norm_num)
    ⟨⟨0, 0, 1/2⟩, (box_hull one_pos one_pos one_pos _).2 ⟨⟨by norm_num, by norm_num⟩, ⟨by norm_num, by norm_num⟩, by norm_num, by norm_num⟩, by rw [put_act]; ext <;> simp [put]⟩
    ⟨0, show 0 < 6 by norm_num, by rw [e, d]; norm_num [std, cube, Sat.box, boxFaces, boxNormal, boxVert, Poly.first, V3.dot]⟩ true
  refine ⟨c, h, ?_⟩
  unfold sphere at h
  dsimp only at h
  rw [e] at h
  have hs : scan (sphereDepth cube ⟨0, 0, 1/2⟩ (1/4)) (List.range cube.nf) (std.large, 0) = (3/4, 0) := by
    show scan (sphereDepth cube ⟨0, 0, 1/2⟩ (1/4)) [0, 1, 2, 3, 4, 5] (std.large, 0) = (3/4, 0)
    norm_num [scan, sphereDepth, std, cube, Sat.box, boxFaces, boxNormal, boxVert, Poly.first, V3.dot]
  rw [hs] at h
  norm_num at h
  rw [← h]

/-- A sphere beside a cube. -/
example : (sphere std cube (put 0 0 2) (put 0 0 0) (1/2) true true).1 = false := by
  have e : ((put 0 0 0).inverse.mul (put 0 0 2)).pos = ⟨0, 0, 2⟩ := by rw [put_put]; rfl
  unfold sphere
  dsimp only
  rw [e]
  have hs : scan (sphereDepth cube ⟨0, 0, 2⟩ (1/2)) (List.range cube.nf) (std.large, 0) = (-1/2, 0) := by
    show scan (sphereDepth cube ⟨0, 0, 2⟩ (1/2)) [0, 1, 2, 3, 4, 5] (std.large, 0) = (-1/2, 0)
    norm_num [scan, sphereDepth, std, cube, Sat.box, boxFaces, boxNormal, boxVert, Poly.first, V3.dot]
  rw [hs]
  norm_num

end SatProps
end RP3D
