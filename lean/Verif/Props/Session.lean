import Verif.Narrow.Session
import Verif.Props.SatExamples

/-! C119: queries of the world and the simulation. A query of the world (`testOverlap`, `testCollision`) tests the pair of two polyhedra with the same data of the last
frame as a step, and writes it. -/

namespace RP3D
namespace SatProps
open Shape RayProps PointProps RoundProps Geom GeomProps Sat SatGeom

set_option linter.unusedSectionVars false

section Field
variable {K : Type} [Field K] [LinearOrder K] [IsStrictOrderedRing K] {P1 P2 : Poly K} {w1 w2 : Trans K} {N : Num K}

/-! ### Specification -/

/-- The index of every face and every edge fits in the byte in which it is remembered, and there are faces. -/
structure Fits (P1 P2 : Poly K) : Prop where
  f1 : 0 < P1.nf ∧ P1.nf ≤ 256
  f2 : 0 < P2.nf ∧ P2.nf ≤ 256
  e1 : P1.ne ≤ 256
  e2 : P2.ne ≤ 256

/-- The verdict of one call, and its contacts: told when asked for; a plane lies between bodies said to be apart, or the search ended with a face. -/
def Fair (N : Num K) (P1 P2 : Poly K) (c : Moment K) (r : Res K) : Prop :=
  Told c.kind.report r ∧
    (r.colliding = false → Apart (Placed c.w1 (Hulled P1)) (Placed c.w2 (Hulled P2)) ∨
      ∃ b, search N P1 P2 (c.w2.inverse.mul c.w1) (c.w2.inverse.mul c.w1).inverse = .best b ∧ b.axis.isFace = true)

/-! ### Lemmas -/

theorem edgeScan_best {t : Trans K} : ∀ {ps : List (Nat × Nat)} {b0 b : Best K}, edgeScan N P1 P2 t ps b0 = .best b →
    b = b0 ∨ ∃ i j, (i, j) ∈ ps ∧ minkowski P1 P2 t i j = true ∧ 0 < (edgeDepth N P1 P2 t i j).1 ∧ b = ⟨(edgeDepth N P1 P2 t i j).1, .edges i j, (edgeDepth N P1 P2 t i j).2⟩
  | [], b0, b, h => by
    simp only [edgeScan, Found.best.injEq] at h
    exact .inl h.symm
  | (i, j) :: ps, b0, b, h => by
    unfold edgeScan at h
    by_cases hm : minkowski P1 P2 t i j = true
    · rw [if_pos hm] at h
      dsimp only at h
      by_cases h0 : (edgeDepth N P1 P2 t i j).1 ≤ 0
      · rw [if_pos h0] at h
        exact absurd h (by simp)
      · rw [if_neg h0] at h
        rcases edgeScan_best h with e | ⟨i', j', hmem, rest⟩
        · by_cases hb : better N (edgeDepth N P1 P2 t i j).1 b0 = true
          · rw [if_pos hb] at e
            exact .inr ⟨i, j, List.mem_cons_self .., hm, not_le.1 h0, e⟩
          · rw [if_neg hb] at e
            exact .inl e
        · exact .inr ⟨i', j', List.mem_cons_of_mem _ hmem, rest⟩
    · rw [if_neg hm] at h
      rcases edgeScan_best h with e | ⟨i', j', hmem, rest⟩
      · exact .inl e
      · exact .inr ⟨i', j', List.mem_cons_of_mem _ hmem, rest⟩

theorem edgeScan_separated {t : Trans K} : ∀ {ps : List (Nat × Nat)} {b0 : Best K} {a : Axis}, edgeScan N P1 P2 t ps b0 = .separated a →
    ∃ i j, (i, j) ∈ ps ∧ a = .edges i j ∧ (edgeDepth N P1 P2 t i j).1 ≤ 0
  | [], b0, a, h => by simp [edgeScan] at h
  | (i, j) :: ps, b0, a, h => by
    unfold edgeScan at h
    by_cases hm : minkowski P1 P2 t i j = true
    · rw [if_pos hm] at h
      dsimp only at h
      by_cases h0 : (edgeDepth N P1 P2 t i j).1 ≤ 0
      · rw [if_pos h0] at h
        simp only [Found.separated.injEq] at h
        exact ⟨i, j, List.mem_cons_self .., h.symm, h0⟩
      · rw [if_neg h0] at h
        obtain ⟨i', j', hmem, rest⟩ := edgeScan_separated h
        exact ⟨i', j', List.mem_cons_of_mem _ hmem, rest⟩
    · rw [if_neg hm] at h
      obtain ⟨i', j', hmem, rest⟩ := edgeScan_separated h
      exact ⟨i', j', List.mem_cons_of_mem _ hmem, rest⟩

theorem stored_of_range {a : Axis} (hf : Fits P1 P2) (h : InRange P1 P2 a) : a.stored = a := by
  cases a with
  | face1 f =>
    have : f < P1.nf := h
    simp only [Axis.stored, Axis.face1.injEq]
    exact Nat.mod_eq_of_lt (lt_of_lt_of_le this hf.f1.2)
  | face2 f =>
    have : f < P2.nf := h
    simp only [Axis.stored, Axis.face2.injEq]
    exact Nat.mod_eq_of_lt (lt_of_lt_of_le this hf.f2.2)
  | edges i j =>
    simp only [Axis.stored, Axis.edges.injEq]
    exact ⟨Nat.mod_eq_of_lt (lt_of_lt_of_le h.1.1 hf.e1), Nat.mod_eq_of_lt (lt_of_lt_of_le h.2.1 hf.e2)⟩

/-- What the search says about the axis that it returns. -/
def Says (N : Num K) (P1 P2 : Poly K) (t : Trans K) : Found K → Prop
  | .separated (.face1 f) => f < P1.nf ∧ faceDepth P1 P2 t f ≤ 0
  | .separated (.face2 f) => f < P2.nf ∧ faceDepth P2 P1 t.inverse f ≤ 0
  | .separated (.edges i j) => InRange P1 P2 (.edges i j) ∧ (edgeDepth N P1 P2 t i j).1 ≤ 0
  | .best ⟨_, .face1 f, _⟩ => f < P1.nf ∧ 0 < faceDepth P1 P2 t f
  | .best ⟨_, .face2 f, _⟩ => f < P2.nf ∧ 0 < faceDepth P2 P1 t.inverse f
  | .best ⟨d, .edges i j, v⟩ => InRange P1 P2 (.edges i j) ∧ minkowski P1 P2 t i j = true ∧ 0 < d ∧ edgeDepth N P1 P2 t i j = (d, v)

theorem facesDepth_says {t : Trans K} (hl : 0 < N.large) (n1 : 0 < P1.nf) :
    (facesDepth N P1 P2 t).2 < P1.nf ∧ ((facesDepth N P1 P2 t).1 ≤ 0 ↔ faceDepth P1 P2 t (facesDepth N P1 P2 t).2 ≤ 0) := by
  obtain ⟨s1, s2⟩ := scan_spec (faceDepth P1 P2 t) (List.range P1.nf) (N.large, 0) hl
  unfold facesDepth
  by_cases h : (scan (faceDepth P1 P2 t) (List.range P1.nf) (N.large, 0)).1 ≤ 0
  · obtain ⟨a, b⟩ := s1 h
    exact ⟨List.mem_range.1 a, by rw [b]⟩
  · obtain ⟨a, -, c⟩ := s2 (not_le.1 h)
    rcases c with c | ⟨c1, c2⟩
    · rw [c] at h a ⊢
      refine ⟨n1, ⟨fun h' => absurd h' h, fun h' => ?_⟩⟩
      exact absurd (lt_of_lt_of_le hl (le_trans (a 0 (List.mem_range.2 n1)) h')) (lt_irrefl _)
    · exact ⟨List.mem_range.1 c1, by rw [c2]⟩

theorem search_says {t : Trans K} (hl : 0 < N.large) (hf : Fits P1 P2) : Says N P1 P2 t (search N P1 P2 t t.inverse) := by
  obtain ⟨a1, a2⟩ := facesDepth_says (N := N) (P1 := P1) (P2 := P2) (t := t) hl hf.f1.1
  obtain ⟨b1, b2⟩ := facesDepth_says (N := N) (P1 := P2) (P2 := P1) (t := t.inverse) hl hf.f2.1
  unfold search
  dsimp only
  by_cases h1 : (facesDepth N P1 P2 t).1 ≤ 0
  · rw [if_pos h1]
    exact ⟨a1, a2.1 h1⟩
  · rw [if_neg h1]
    by_cases h2 : (facesDepth N P2 P1 t.inverse).1 ≤ 0
    · rw [if_pos h2]
      exact ⟨b1, b2.1 h2⟩
    · rw [if_neg h2]
      generalize hb : (if (facesDepth N P1 P2 t).1 < (facesDepth N P2 P1 t.inverse).1 * N.rel + N.abs then
        (⟨min (facesDepth N P1 P2 t).1 (facesDepth N P2 P1 t.inverse).1, .face1 (facesDepth N P1 P2 t).2, 0⟩ : Best K)
        else ⟨min (facesDepth N P1 P2 t).1 (facesDepth N P2 P1 t.inverse).1, .face2 (facesDepth N P2 P1 t.inverse).2, 0⟩) = bb
      have hbb : Says N P1 P2 t (.best bb) := by
        rw [← hb]
        split_ifs
        · exact ⟨a1, not_le.1 fun h => h1 (a2.2 h)⟩
        · exact ⟨b1, not_le.1 fun h => h2 (b2.2 h)⟩
      cases hs : edgeScan N P1 P2 t (pairs P1.ne P2.ne) bb with
      | separated a =>
        obtain ⟨i, j, hmem, rfl, h0⟩ := edgeScan_separated hs
        exact ⟨mem_pairs.1 hmem, h0⟩
      | best b =>
        rcases edgeScan_best hs with e | ⟨i, j, hmem, hm, h0, e⟩
        · rw [e]
          exact hbb
        · rw [e]
          exact ⟨mem_pairs.1 hmem, hm, h0, rfl⟩

/-- Without clipping by the last axis the test ends early only where the bodies were apart and still are along the same axis. -/
theorem noclip {report was : Bool} {a : Axis} {t12 t21 : Trans K} :
    previous N P1 P2 w1 w2 t12 t21 report false was a = some none ∨ (was = false ∧ ∀ report' clip', previous N P1 P2 w1 w2 t12 t21 report' clip' false a = some (some ⟨false, [], a⟩)) := by
  cases was with
  | true =>
    left
    cases a with
    | face1 f => simp [previous]
    | face2 f => simp [previous]
    | edges i j => simp [previous]
  | false =>
    cases a with
    | face1 f =>
      by_cases h : faceDepth P1 P2 t12 f ≤ 0
      · right; simp [previous, h]
      · left; simp [previous, h]
    | face2 f =>
      by_cases h : faceDepth P2 P1 t21 f ≤ 0
      · right; simp [previous, h]
      · left; simp [previous, h]
    | edges i j =>
      by_cases hm : minkowski P1 P2 t12 i j = true
      · by_cases h : (edgeDepth N P1 P2 t12 i j).1 ≤ 0
        · right; simp [previous, h, hm]
        · left; simp [previous, h, hm]
      · left; simp [previous, hm]

/-- The axis of a whole search leads to the result of the whole search. -/
theorem again {t : Trans K} (hl : 0 < N.large) (hf : Fits P1 P2) {r : Res K} (h : full N P1 P2 w1 w2 t t.inverse true = some r) (clip was : Bool)
    (hw : r.colliding = true → was = true) :
    previous N P1 P2 w1 w2 t t.inverse true clip was r.axis = some none ∨ previous N P1 P2 w1 w2 t t.inverse true clip was r.axis = some (some r) := by
  have hsay := search_says (N := N) (P1 := P1) (P2 := P2) (t := t) hl hf
  unfold full finish at h
  cases hs : search N P1 P2 t t.inverse with
  | separated a =>
    rw [hs] at hsay h
    simp only [Option.some.injEq] at h
    cases a with
    | face1 f =>
      rw [stored_of_range hf (a := .face1 f) hsay.1] at h
      subst h
      simp only [previous]
      by_cases w : was = false
      · right; simp [w, hsay.2]
      · left
        have : ¬ 0 < faceDepth P1 P2 t f := not_lt.2 hsay.2
        simp [w, this]
    | face2 f =>
      rw [stored_of_range hf (a := .face2 f) hsay.1] at h
      subst h
      simp only [previous]
      by_cases w : was = false
      · right; simp [w, hsay.2]
      · left
        have : ¬ 0 < faceDepth P2 P1 t.inverse f := not_lt.2 hsay.2
        simp [w, this]
    | edges i j =>
      rw [stored_of_range hf hsay.1] at h
      subst h
      simp only [previous]
      by_cases hm : minkowski P1 P2 t i j = true
      · by_cases w : was = false
        · right; simp [w, hm, hsay.2]
        · left
          have : ¬ 0 < (edgeDepth N P1 P2 t i j).1 := not_lt.2 hsay.2
          simp [w, hm, this]
      · left; simp [hm]
  | best b =>
    obtain ⟨d, a, v⟩ := b
    rw [hs] at hsay h
    dsimp only at h
    cases a with
    | face1 f =>
      obtain ⟨q, hq, e⟩ := Option.map_eq_some_iff.1 h
      rw [stored_of_range hf (a := .face1 f) hsay.1] at e
      subst e
      have h0 : ¬ faceDepth P1 P2 t f ≤ 0 := not_le.2 hsay.2
      simp only [previous, h0, and_false, if_false]
      by_cases hc : was = true ∧ clip = true ∧ 0 < faceDepth P1 P2 t f
      · rw [if_pos hc, hq]
        cases e1 : q.1 with
        | true => right; simp [e1]
        | false => left; simp [e1]
      · rw [if_neg hc]
        exact .inl rfl
    | face2 f =>
      obtain ⟨q, hq, e⟩ := Option.map_eq_some_iff.1 h
      rw [stored_of_range hf (a := .face2 f) hsay.1] at e
      subst e
      have h0 : ¬ faceDepth P2 P1 t.inverse f ≤ 0 := not_le.2 hsay.2
      simp only [previous, h0, and_false, if_false]
      by_cases hc : was = true ∧ clip = true ∧ 0 < faceDepth P2 P1 t.inverse f
      · rw [if_pos hc, hq]
        cases e1 : q.1 with
        | true => right; simp [e1]
        | false => left; simp [e1]
      · rw [if_neg hc]
        exact .inl rfl
    | edges i j =>
      simp only [Option.some.injEq] at h
      rw [stored_of_range hf hsay.1] at h
      subst h
      have hw := hw rfl
      obtain ⟨-, hm, h0, e⟩ := hsay
      simp only [previous, hm, e, hw, if_true]
      have : ¬ d ≤ 0 := not_le.2 h0
      simp only [reduceCtorEq, false_and, if_false, true_and]
      by_cases hc : clip = true ∧ 0 < d ∧ d < N.large
      · rw [if_pos hc]
        by_cases he : edgesFace N P1 P2 t i j = true
        · rw [if_pos he]; exact .inr rfl
        · rw [if_neg he]; exact .inl rfl
      · rw [if_neg hc]
        exact .inl rfl

/-! ### Theorems -/

/-- **C119, partial: a query foretells the step.** After `testCollision`, a step or another `testCollision` that meets the same poses finds the same: the same verdict and
the same contact points. Missing: a step without the query before it may find other ones (`query_changes_contacts`, `query_changes_verdict`). -/
theorem query_foretells_partial (hl : 0 < N.large) (hf : Fits P1 P2) (others others' : Bool) {m m' : Memo} {r : Res K}
    (h : call N P1 P2 .collision others w1 w2 m = some (r, m')) (c : Call) (hc : c = .step ∨ c = .collision) :
    ∃ m'', call N P1 P2 c others' w1 w2 m' = some (r, m'') := by
  have hrep : c.report = true := by rcases hc with rfl | rfl <;> rfl
  have key : polyhedra N P1 P2 w1 w2 true c.clip m'.last = some r := by
    unfold call at h
    cases hp : polyhedra N P1 P2 w1 w2 true false m.last with
    | none => simp [Call.report, Call.clip, hp] at h
    | some q =>
      simp only [Call.report, Call.clip, hp, Option.some.injEq, Prod.mk.injEq] at h
      obtain ⟨rfl, hm'⟩ := h
      -- the result of a whole search
      have whole : full N P1 P2 w1 w2 (w2.inverse.mul w1) (w2.inverse.mul w1).inverse true = some q → polyhedra N P1 P2 w1 w2 true c.clip m'.last = some q := by
        intro hfull
        cases hlast : m'.last with
        | none => exact hfull
        | some aw =>
          obtain ⟨a, was⟩ := aw
          have ha : a = q.axis ∧ (q.colliding = true → was = true) := by
            by_cases k1 : Call.process (q.colliding || others) .collision = true
            · rw [if_pos k1] at hm'
              simp only [← hm', Memo.last, and_self, if_true, Option.some.injEq, Prod.mk.injEq] at hlast
              exact ⟨hlast.1.symm, fun h => by rw [← hlast.2, h]⟩
            · rw [if_neg k1] at hm'
              simp only [← hm', Memo.last] at hlast
              split_ifs at hlast
              simp only [Option.some.injEq, Prod.mk.injEq] at hlast
              refine ⟨hlast.1.symm, fun h => ?_⟩
              simp [Call.process, h] at k1
          rw [ha.1]
          unfold polyhedra
          dsimp only
          rcases again hl hf hfull c.clip was ha.2 with e | e
          · rw [e]; exact hfull
          · rw [e]
      cases hlast : m.last with
      | none =>
        rw [hlast] at hp
        exact whole hp
      | some aw =>
        obtain ⟨a, was⟩ := aw
        rw [hlast] at hp
        unfold polyhedra at hp
        dsimp only at hp
        rcases noclip (N := N) (P1 := P1) (P2 := P2) (w1 := w1) (w2 := w2) (report := true) (was := was) (a := a) (t12 := w2.inverse.mul w1) (t21 := (w2.inverse.mul w1).inverse) with e | ⟨w, e⟩
        · rw [e] at hp
          exact whole hp
        · subst w
          rw [e true false] at hp
          simp only [Option.some.injEq] at hp
          have hv : m.valid = true ∧ m.sat = true ∧ m.axis = a ∧ m.was = false := by
            unfold Memo.last at hlast
            split_ifs at hlast with k
            simp only [Option.some.injEq, Prod.mk.injEq] at hlast
            exact ⟨k.1, k.2, hlast.1, hlast.2⟩
          have : m'.last = some (a, false) := by
            by_cases k1 : Call.process (q.colliding || others) .collision = true
            · rw [if_pos k1] at hm'
              simp [← hm', Memo.last, ← hp]
            · rw [if_neg k1] at hm'
              simp [← hm', Memo.last, ← hp, hv.1, hv.2.2.2]
          rw [this]
          unfold polyhedra
          dsimp only
          rw [e true c.clip]
          exact congrArg some hp
  unfold call
  rw [hrep, key]
  exact ⟨_, rfl⟩

/-- **C119: queries among steps.** In every sequence of steps and queries, with any poses, every test is defined, and every verdict is fair: queries never lead
to a broken assertion or to a remembered axis that is out of range. -/
theorem session_fair (hN : NumOk N) (h1 : Solid P1) (h2 : Solid P2) (r1 : Rings P1) (r2 : Rings P2) (n1 : 0 < P1.nf) (n2 : 0 < P2.nf) :
    ∀ (cs : List (Moment K)) (m : Memo), (∀ c ∈ cs, c.w1.ori.lengthSq = 1 ∧ c.w2.ori.lengthSq = 1) → InRange P1 P2 m.axis →
      ∃ rs, session N P1 P2 cs m = some rs ∧ List.Forall₂ (Fair N P1 P2) cs rs
  | [], m, _, _ => ⟨[], rfl, .nil⟩
  | c :: cs, m, hu, hm => by
    obtain ⟨u1, u2⟩ := hu c (List.mem_cons_self ..)
    have hr : ∀ a was, m.last = some (a, was) → InRange P1 P2 a := by
      intro a was h
      unfold Memo.last at h
      split_ifs at h
      simp only [Option.some.injEq, Prod.mk.injEq] at h
      rw [← h.1]
      exact hm
    obtain ⟨r, e, ir, told, verdict⟩ := test_verdict_partial hN h1 h2 r1 r2 n1 n2 u1 u2 c.kind.report c.kind.clip hr
    have ec : ∃ m', call N P1 P2 c.kind c.others c.w1 c.w2 m = some (r, m') ∧ m'.axis = r.axis := by
      unfold call
      rw [e]
      refine ⟨_, rfl, ?_⟩
      split_ifs <;> rfl
    obtain ⟨m', em, ea⟩ := ec
    obtain ⟨rs, es, hrs⟩ := session_fair hN h1 h2 r1 r2 n1 n2 cs m' (fun c' hc' => hu c' (List.mem_cons_of_mem _ hc')) (by rw [ea]; exact ir)
    refine ⟨r :: rs, ?_, .cons ⟨told, verdict⟩ hrs⟩
    unfold session
    rw [em]
    dsimp only
    rw [es]

end Field

/-- A pair begins with a memory in range. -/
example : InRange plate die Memo.fresh.axis := ⟨⟨by decide, rfl⟩, by decide, rfl⟩

/-- The hypotheses of `session_fair` are met: two cubes with crossed edges, a step, a query and a step. -/
example : ∃ rs, session std cube cube [⟨.step, false, lower, upper⟩, ⟨.overlap, false, lower, upper⟩, ⟨.collision, false, lower, upper⟩, ⟨.step, true, lower, upper⟩] Memo.fresh =
    some rs ∧ rs.length = 4 := by
  obtain ⟨rs, e, h⟩ := session_fair (N := std) std_ok cube_solid cube_solid (box_rings _) (box_rings _) (show 0 < 6 by norm_num) (show 0 < 6 by norm_num)
    [⟨.step, false, lower, upper⟩, ⟨.overlap, false, lower, upper⟩, ⟨.collision, false, lower, upper⟩, ⟨.step, true, lower, upper⟩] Memo.fresh
    (by simp [lower_unit, upper_unit]) ⟨⟨show 0 < 24 by norm_num, rfl⟩, show 0 < 24 by norm_num, rfl⟩
  exact ⟨rs, e, h.length_eq.symm⟩

theorem small_fits : Fits plate die := ⟨⟨by decide, by decide⟩, ⟨by decide, by decide⟩, by decide, by decide⟩

/-- The hypotheses of `query_foretells_partial` are met by a pair that collides and remembers so. -/
example : ∃ r m', call ratNum plate die .collision false (level 0) (level (19/1000)) ⟨true, true, true, .face1 0⟩ = some (r, m') ∧ r.colliding = true ∧
    ∃ m'', call ratNum plate die .step false (level 0) (level (19/1000)) m' = some (r, m'') := by
  have k : (call ratNum plate die .collision false (level 0) (level (19/1000)) ⟨true, true, true, .face1 0⟩).map (fun r => r.1.colliding) = some true := by decide +kernel
  obtain ⟨⟨r, m'⟩, e, e'⟩ := Option.map_eq_some_iff.1 k
  exact ⟨r, m', e, e', query_foretells_partial (by norm_num [ratNum]) small_fits false false e .step (.inl rfl)⟩

/-! ### What an overlap test leaves -/

theorem silent {K : Type} [Field K] [LinearOrder K] [IsStrictOrderedRing K] {N : Num K} {P1 P2 : Poly K} {w1 w2 : Trans K} {clip : Bool} {last : Option (Axis × Bool)} {r : Res K} (h : polyhedra N P1 P2 w1 w2 false clip last = some r) :
    r.contacts = [] := by
  have hface : ∀ {R I : Poly K} {a b w : Trans K} {f : Nat} {one : Bool} {x : Bool × List (Round.Contact K)}, faceContacts N R I a b w f one false = some x → x.2 = [] := by
    intro R I a b w f one x e
    unfold faceContacts at e
    split at e
    · cases e
    · simp only [Bool.false_eq_true, if_false, Option.some.injEq] at e
      rw [← e]
  have hfull : ∀ {a b : Trans K}, full N P1 P2 w1 w2 a b false = some r → r.contacts = [] := by
    intro a b e
    unfold full finish at e
    split at e
    · cases e; rfl
    · split at e
      · obtain ⟨x, e1, rfl⟩ := Option.map_eq_some_iff.1 e
        exact hface e1
      · obtain ⟨x, e1, rfl⟩ := Option.map_eq_some_iff.1 e
        exact hface e1
      · cases e
        simp [edgeContact]
  have hprev : ∀ {a b : Trans K} {was : Bool} {x : Axis}, previous N P1 P2 w1 w2 a b false clip was x = some (some r) → r.contacts = [] := by
    intro a b was x e
    unfold previous at e
    dsimp only at e
    split at e
    · split_ifs at e
      · cases e; rfl
      · obtain ⟨y, e1, e2⟩ := Option.map_eq_some_iff.1 e
        split_ifs at e2
        cases e2
        exact hface e1
      · cases e
    · split_ifs at e
      · cases e; rfl
      · obtain ⟨y, e1, e2⟩ := Option.map_eq_some_iff.1 e
        split_ifs at e2
        cases e2
        exact hface e1
      · cases e
    · split_ifs at e
      · cases e; rfl
      · cases e
        simp [edgeContact]
      all_goals cases e
  unfold polyhedra at h
  dsimp only at h
  split at h
  · exact hfull h
  · split at h
    · cases h
    · rename_i e
      cases h
      exact hprev e
    · exact hfull h

/-- C119: an overlap test finds no contact points and leaves the verdict of the last step; it writes the axis (which is how it may change the next step). -/
theorem overlap_leaves {K : Type} [Field K] [LinearOrder K] [IsStrictOrderedRing K] {N : Num K} {P1 P2 : Poly K} {w1 w2 : Trans K} {others : Bool} {m m' : Memo} {r : Res K} (h : call N P1 P2 .overlap others w1 w2 m = some (r, m')) :
    r.contacts = [] ∧ m'.valid = m.valid ∧ m'.was = m.was ∧ m'.axis = r.axis := by
  unfold call at h
  cases hp : polyhedra N P1 P2 w1 w2 Call.overlap.report Call.overlap.clip m.last with
  | none => rw [hp] at h; cases h
  | some x =>
    rw [hp] at h
    simp only [Option.some.injEq, Prod.mk.injEq] at h
    obtain ⟨rfl, rfl⟩ := h
    exact ⟨silent hp, rfl, rfl, rfl⟩

example : ∃ r m', call ratNum plate die .overlap false (level 0) (level (19/1000)) ⟨true, true, true, .face1 0⟩ = some (r, m') ∧ r.colliding = true ∧
    r.contacts = [] := by
  have k : (call ratNum plate die .overlap false (level 0) (level (19/1000)) ⟨true, true, true, .face1 0⟩).map (fun r => r.1.colliding) = some true := by decide +kernel
  obtain ⟨⟨r, m'⟩, e, e'⟩ := Option.map_eq_some_iff.1 k
  exact ⟨r, m', e, e', (overlap_leaves e).1⟩

/-! ### A query that changes the simulation -/

/-- What is seen of the last result of a session: the verdict, and the normal and the depth of the contacts. -/
def seen {K : Type} (rs : List (Res K)) : Option (Bool × List (V3 K × K)) := rs.getLast?.map fun r => (r.colliding, r.contacts.map fun c => (c.normal, c.depth))

/-- A die at a place. -/
def at' (x z : ℚ) : Trans ℚ := ⟨⟨x, 0, z⟩, ⟨0, 0, 0, 1⟩⟩

/-- **C119, negation: contacts.** A die lies on another; before the next step it is moved aside. They still overlap, and the least depth is now sideways. The step
pushes it up by 5 mm; it pushes it aside by 1 mm if `testCollision` or `testOverlap` was called just before the step. -/
theorem query_changes_contacts :
    (session ratNum die die [⟨.step, false, at' 0 0, at' 0 (19/1000)⟩, ⟨.step, false, at' 0 0, at' (19/1000) (15/1000)⟩] Memo.fresh).bind seen =
      some (true, [(⟨0, 0, 1⟩, 5/1000), (⟨0, 0, 1⟩, 5/1000), (⟨0, 0, 1⟩, 5/1000), (⟨0, 0, 1⟩, 5/1000)]) ∧
    ∀ q, q = Call.overlap ∨ q = Call.collision →
      (session ratNum die die [⟨.step, false, at' 0 0, at' 0 (19/1000)⟩, ⟨q, false, at' 0 0, at' (19/1000) (15/1000)⟩,
        ⟨.step, false, at' 0 0, at' (19/1000) (15/1000)⟩] Memo.fresh).bind seen =
      some (true, [(⟨1, 0, 0⟩, 1/1000), (⟨1, 0, 0⟩, 1/1000), (⟨1, 0, 0⟩, 1/1000), (⟨1, 0, 0⟩, 1/1000)]) := by
  refine ⟨by decide +kernel, ?_⟩
  rintro q (rfl | rfl) <;> decide +kernel

/-- **C119, negation: verdict.** The plate and the die of `apart_collides`: the step makes contacts of bodies that are apart, and makes none if `testCollision` or
`testOverlap` was called just before it. -/
theorem query_changes_verdict :
    (session ratNum plate die [⟨.step, false, level 0, level (199/10000)⟩, ⟨.step, false, level 0, level (-21/1000)⟩] Memo.fresh).bind seen =
      some (true, [(⟨0, 0, 1⟩, 41/1000), (⟨0, 0, 1⟩, 41/1000), (⟨0, 0, 1⟩, 41/1000), (⟨0, 0, 1⟩, 41/1000)]) ∧
    ∀ q, q = Call.overlap ∨ q = Call.collision →
      (session ratNum plate die [⟨.step, false, level 0, level (199/10000)⟩, ⟨q, false, level 0, level (-21/1000)⟩,
        ⟨.step, false, level 0, level (-21/1000)⟩] Memo.fresh).bind seen = some (false, []) := by
  refine ⟨by decide +kernel, ?_⟩
  rintro q (rfl | rfl) <;> decide +kernel

end SatProps
end RP3D
