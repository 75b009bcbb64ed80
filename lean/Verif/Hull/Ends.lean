import Verif.Hull.Pool
import Mathlib.Data.Finset.Card

/-! Lemmas: the loops that merge faces end, as each round removes a face or a half-edge. -/

namespace RP3D.Hull
variable {K : Type} [Field K] [LinearOrder K] [IsStrictOrderedRing K]

/-- No new edges. -/
def LessE (t t' : Topo) : Prop := (∀ e, (t'.edge e).isSome = true → (t.edge e).isSome = true) ∧ t'.edges.length = t.edges.length

theorem LessE.refl (t : Topo) : LessE t t := ⟨fun _ h => h, rfl⟩
theorem LessE.trans {t t' t'' : Topo} (h : LessE t t') (h' : LessE t' t'') : LessE t t'' := ⟨fun e he => h.1 e (h'.1 e he), h'.2.trans h.2⟩
theorem less_of_edges {t t' : Topo} (h : t'.edges = t.edges) : LessE t t' := ⟨fun e => by unfold Topo.edge; rw [h]; exact id, by rw [h]⟩

theorem modEdge_less {t t' : Topo} {e : Nat} {g : Edge → Edge} (h : t.modEdge e g = some t') : LessE t t' := by
  unfold Topo.modEdge at h
  cases hx : t.edge e with
  | none => rw [hx] at h; simp at h
  | some x =>
    rw [hx] at h
    simp only [Option.some.injEq] at h
    subst h
    refine ⟨fun a ha => ?_, by simp⟩
    by_cases c : a = e
    · subst c; rw [hx]; rfl
    · unfold Topo.edge at ha ⊢
      dsimp only at ha
      rwa [List.getElem?_set_ne (Ne.symm c)] at ha

theorem setFaceEdge_less {t t' : Topo} {f e : Nat} (h : t.setFaceEdge f e = some t') : LessE t t' := by
  unfold Topo.setFaceEdge at h
  split_ifs at h
  · simp only [Option.some.injEq] at h; subst h; exact less_of_edges rfl

theorem deleteFace_less {t t' : Topo} {f : Nat} (h : t.deleteFace f = some t') : LessE t t' := by
  unfold Topo.deleteFace at h
  split_ifs at h
  · simp only [Option.some.injEq] at h; subst h; exact less_of_edges rfl

theorem removeVertex_less {t t' : Topo} {v : Nat} (h : t.removeVertex v = some t') : LessE t t' := by
  unfold Topo.removeVertex at h
  cases hx : t.vert v with
  | none => rw [hx] at h; simp at h
  | some x => rw [hx] at h; simp at h; subst h; exact less_of_edges rfl

theorem removeHalfEdge_less {dbg : Bool} {t t' : Topo} {e : Nat} (h : Topo.removeHalfEdge dbg t e = some t') :
    LessE t t' ∧ (t.edge e).isSome = true ∧ (t'.edge e).isSome = false := by
  unfold Topo.removeHalfEdge at h
  cases hx : t.edge e with
  | none => rw [hx] at h; simp at h
  | some x =>
    rw [hx] at h
    dsimp only at h
    have key : ∀ t1 : Topo, LessE t t1 → LessE t { t1 with edges := t1.edges.set e none, elist := t1.elist.erase e, map := t1.map.filter (fun m => m.1 != (x.start, x.stop)) } ∧
        ((some x).isSome = true ∧ (Topo.edge { t1 with edges := t1.edges.set e none, elist := t1.elist.erase e, map := t1.map.filter (fun m => m.1 != (x.start, x.stop)) } e).isSome = false) := by
      intro t1 h1
      have hnone : (Topo.edge { t1 with edges := t1.edges.set e none, elist := t1.elist.erase e, map := t1.map.filter (fun m => m.1 != (x.start, x.stop)) } e) = none := by
        unfold Topo.edge
        dsimp only
        rw [List.getElem?_set]
        split_ifs <;> simp_all
      refine ⟨⟨fun a ha => ?_, by rw [← h1.2]; simp⟩, rfl, by rw [hnone]; rfl⟩
      by_cases c : a = e
      · subst c; rw [hx]; rfl
      · refine h1.1 a ?_
        unfold Topo.edge at ha ⊢
        dsimp only at ha
        rwa [List.getElem?_set_ne (Ne.symm c)] at ha
    split_ifs at h
    · cases hw : x.twin with
      | none => rw [hw] at h; simp at h; subst h; exact key t (LessE.refl t)
      | some w =>
        rw [hw] at h
        simp only [Option.map_eq_some_iff] at h
        obtain ⟨t1, h1, rfl⟩ := h
        exact key t1 (modEdge_less h1)

/-- How many half-edges there are. -/
def edgeCount (t : Topo) : Nat := ((Finset.range t.edges.length).filter (fun e => (t.edge e).isSome = true)).card

theorem edgeCount_lt {t t' : Topo} (h : LessE t t') {e : Nat} (h1 : (t.edge e).isSome = true) (h2 : (t'.edge e).isSome = false) : edgeCount t' < edgeCount t := by
  unfold edgeCount
  apply Finset.card_lt_card
  rw [Finset.ssubset_iff_of_subset]
  · refine ⟨e, ?_, by simp [h2]⟩
    rw [Finset.mem_filter, Finset.mem_range]
    refine ⟨?_, h1⟩
    by_contra hc
    unfold Topo.edge at h1
    rw [List.getElem?_eq_none (not_lt.mp hc)] at h1
    simp at h1
  · intro a ha
    rw [Finset.mem_filter, Finset.mem_range] at ha ⊢
    exact ⟨h.2 ▸ ha.1, h.1 a ha.2⟩

set_option maxHeartbeats 2000000 in
theorem fixAt_less {C : Cst K} {ps : List (V3 K)} {s : St K} {f inE : Nat} {d : List Nat} {r : St K × List Nat} (h : fixAt C ps s f inE d = some r) :
    r.1.t.edges.length = s.t.edges.length ∧ edgeCount r.1.t < edgeCount s.t := by
  have fin : ∀ {t1 t2 t' : Topo} {e : Nat}, LessE s.t t1 → Topo.removeHalfEdge C.dbg t1 e = some t2 → LessE t2 t' → t'.edges.length = s.t.edges.length ∧ edgeCount t' < edgeCount s.t := by
    intro t1 t2 t' e k1 k2 k3
    obtain ⟨a1, a2, a3⟩ := removeHalfEdge_less k2
    refine ⟨((k1.trans a1).trans k3).2, edgeCount_lt ((k1.trans a1).trans k3) (e := e) (k1.1 e a2) ?_⟩
    cases hb : (t'.edge e).isSome with
    | false => rfl
    | true => rw [k3.1 e hb] at a3; simp at a3
  unfold fixAt at h
  obtain ⟨x, hx, h⟩ := bind_some' h
  replace h := if_none h
  obtain ⟨w, hw, h⟩ := bind_some' h
  obtain ⟨xw, hxw, h⟩ := bind_some' h
  obtain ⟨oe, -, h⟩ := bind_some' h
  obtain ⟨o1, -, h⟩ := bind_some' h
  obtain ⟨o2, -, h⟩ := bind_some' h
  obtain ⟨o3, -, h⟩ := bind_some' h
  split_ifs at h with htri
  · obtain ⟨before, -, h⟩ := bind_some' h
    obtain ⟨out, -, h⟩ := bind_some' h
    obtain ⟨after, -, h⟩ := bind_some' h
    obtain ⟨rest, -, h⟩ := bind_some' h
    obtain ⟨t1, e1, h⟩ := bind_some' h
    obtain ⟨t2, e2, h⟩ := bind_some' h
    obtain ⟨t3, e3, h⟩ := bind_some' h
    obtain ⟨t4, e4, h⟩ := bind_some' h
    obtain ⟨t5, e5, h⟩ := bind_some' h
    obtain ⟨t6, e6, h⟩ := bind_some' h
    obtain ⟨c, hc, h⟩ := bind_some' h
    obtain ⟨s1, hs1, h⟩ := bind_some' h
    obtain ⟨t7, e7, h⟩ := bind_some' h
    obtain ⟨gone, -, h⟩ := bind_some' h
    obtain ⟨out', -, h⟩ := bind_some' h
    obtain ⟨outTwin, -, h⟩ := bind_some' h
    obtain ⟨t8, e8, h⟩ := bind_some' h
    obtain ⟨t9, e9, h⟩ := bind_some' h
    obtain ⟨w', -, h⟩ := bind_some' h
    obtain ⟨t10, e10, h⟩ := bind_some' h
    obtain ⟨t11, e11, h⟩ := bind_some' h
    obtain ⟨t12, e12, h⟩ := bind_some' h
    replace h := if_none h
    obtain ⟨s2, hs2, h⟩ := bind_some' h
    split_ifs at h
    simp only [Option.some.injEq] at h
    subst h
    obtain ⟨r1, r2, r3⟩ := recalc_spec hs2
    obtain ⟨a1, -⟩ := addConflict_spec hs1
    have k0 : LessE s.t t6 := (((((setFaceEdge_less e1).trans (modEdge_less e2)).trans (modEdge_less e3)).trans (modEdge_less e4)).trans (modEdge_less e5)).trans (modEdge_less e6)
    have k1 : LessE s1.t t7 := deleteFace_less e7
    rw [a1] at k1
    have k2 : LessE t8 t12 := (((removeHalfEdge_less e9).1.trans (removeHalfEdge_less e10).1).trans (removeHalfEdge_less e11).1).trans (removeVertex_less e12)
    change s2.t.edges.length = _ ∧ edgeCount s2.t < _
    rw [r1]
    exact fin (k0.trans k1) e8 k2
  · obtain ⟨out, -, h⟩ := bind_some' h
    obtain ⟨xo, -, h⟩ := bind_some' h
    obtain ⟨ow, -, h⟩ := bind_some' h
    obtain ⟨xow, -, h⟩ := bind_some' h
    obtain ⟨owPrev, -, h⟩ := bind_some' h
    obtain ⟨t1, e1, h⟩ := bind_some' h
    obtain ⟨t2, e2, h⟩ := bind_some' h
    obtain ⟨t3, e3, h⟩ := bind_some' h
    obtain ⟨after, -, h⟩ := bind_some' h
    obtain ⟨t4, e4, h⟩ := bind_some' h
    obtain ⟨t5, e5, h⟩ := bind_some' h
    obtain ⟨t6, e6, h⟩ := bind_some' h
    obtain ⟨t7, e7, h⟩ := bind_some' h
    obtain ⟨ow', -, h⟩ := bind_some' h
    obtain ⟨t8, e8, h⟩ := bind_some' h
    obtain ⟨t9, e9, h⟩ := bind_some' h
    obtain ⟨t10, e10, h⟩ := bind_some' h
    obtain ⟨s1, hs1, h⟩ := bind_some' h
    obtain ⟨w', -, h⟩ := bind_some' h
    obtain ⟨other, -, h⟩ := bind_some' h
    obtain ⟨s2, hs2, h⟩ := bind_some' h
    simp only [Option.some.injEq] at h
    subst h
    obtain ⟨r1, r2, r3⟩ := recalc_spec hs1
    obtain ⟨q1, q2, q3⟩ := recalc_spec hs2
    have k0 : LessE s.t t7 := ((((((modEdge_less e1).trans (modEdge_less e2)).trans (modEdge_less e3)).trans (modEdge_less e4)).trans (modEdge_less e5)).trans
      (setFaceEdge_less e6)).trans (setFaceEdge_less e7)
    have k2 : LessE t8 t10 := (removeHalfEdge_less e9).1.trans (removeVertex_less e10)
    change s2.t.edges.length = _ ∧ edgeCount s2.t < _
    rw [q1, r1]
    exact fin k0 e8 k2

theorem fixAll_eq {C : Cst K} {ps : List (V3 K)} {f a b : Nat} {s : St K} {d : List Nat} (ha : edgeCount s.t < a) (hb : edgeCount s.t < b) :
    fixAll C ps f a s d = fixAll C ps f b s d := by
  induction a generalizing b s d with
  | zero => omega
  | succ a ih =>
    cases b with
    | zero => omega
    | succ b =>
      unfold fixAll
      cases s.t.faceRing f with
      | none => rfl
      | some es =>
        change (issue s.t es >>= _) = (issue s.t es >>= _)
        cases issue s.t es with
        | none => rfl
        | some o =>
          cases o with
          | none => rfl
          | some e =>
            change (fixAt C ps s f e d >>= _) = (fixAt C ps s f e d >>= _)
            cases hq : fixAt C ps s f e d with
            | none => rfl
            | some r =>
              obtain ⟨-, k⟩ := fixAt_less hq
              exact ih (by omega) (by omega)

theorem edgeCount_le (t : Topo) : edgeCount t ≤ t.edges.length := by
  unfold edgeCount
  exact (Finset.card_filter_le _ _).trans (by simp)

/-- How many faces there are. -/
def faceCount (t : Topo) : Nat := ((Finset.range t.faces.length).filter (fun f => t.live f = true)).card

theorem faceCount_le (t : Topo) : faceCount t ≤ t.faces.length := by
  unfold faceCount
  exact (Finset.card_filter_le _ _).trans (by simp)

theorem faceCount_lt {t t' : Topo} (h : ∀ f, t'.live f = true → t.live f = true) (hl : t'.faces.length = t.faces.length) {f : Nat} (h1 : t.live f = true) (h2 : t'.live f = false) :
    faceCount t' < faceCount t := by
  unfold faceCount
  apply Finset.card_lt_card
  rw [Finset.ssubset_iff_of_subset]
  · refine ⟨f, ?_, by simp [h2]⟩
    rw [Finset.mem_filter, Finset.mem_range]
    refine ⟨?_, h1⟩
    by_contra hc
    unfold Topo.live at h1
    rw [List.getElem?_eq_none (not_lt.mp hc)] at h1
    simp at h1
  · intro a ha
    rw [Finset.mem_filter, Finset.mem_range] at ha ⊢
    exact ⟨hl ▸ ha.1, h a ha.2⟩

set_option maxHeartbeats 2000000 in
theorem mergeAt_less {C : Cst K} {ps : List (V3 K)} {s : St K} {e : Nat} {d : List Nat} {r : St K × List Nat} (h : mergeAt C ps s e d = some r) : faceCount r.1.t < faceCount s.t := by
  have fl := mergeAt_flow (d := d) h
  unfold mergeAt at h
  obtain ⟨x, hx, h⟩ := bind_some' h
  obtain ⟨w, hw, h⟩ := bind_some' h
  obtain ⟨xw, hxw, h⟩ := bind_some' h
  replace h := if_none h
  obtain ⟨before, -, h⟩ := bind_some' h
  obtain ⟨after, -, h⟩ := bind_some' h
  obtain ⟨t1, e1, h⟩ := bind_some' h
  obtain ⟨es, -, h⟩ := bind_some' h
  obtain ⟨t2, e2, h⟩ := bind_some' h
  replace h := if_none h
  obtain ⟨wNext, -, h⟩ := bind_some' h
  obtain ⟨t3, e3, h⟩ := bind_some' h
  obtain ⟨wPrev, -, h⟩ := bind_some' h
  obtain ⟨t4, e4, h⟩ := bind_some' h
  obtain ⟨t5, e5, h⟩ := bind_some' h
  obtain ⟨t6, e6, h⟩ := bind_some' h
  replace h := if_none h
  obtain ⟨c, hc, h⟩ := bind_some' h
  obtain ⟨s1, hs1, h⟩ := bind_some' h
  obtain ⟨t7, e7, h⟩ := bind_some' h
  obtain ⟨t8, e8, h⟩ := bind_some' h
  obtain ⟨t9, e9, h⟩ := bind_some' h
  replace h := if_none h
  obtain ⟨s2, hs2, h⟩ := bind_some' h
  replace h := if_none h
  obtain ⟨q, hq, h⟩ := bind_some' h
  split_ifs at h
  simp only [Option.some.injEq] at h
  subst h
  obtain ⟨r1, r2, r3⟩ := recalc_spec hs2
  have k1 : KeepT t7 t9 := (removeHalfEdge_keep e8).trans (removeHalfEdge_keep e9)
  have dr := deleteFace_drop e7
  refine faceCount_lt fl.2.2.2.1 fl.2.1 (f := xw.face) (conflict_live hc).1 ?_
  cases hb : q.1.t.live xw.face with
  | false => rfl
  | true =>
    have := (fixAll_flow hq).2.2.2.1 _ hb
    rw [r1] at this
    change t9.live _ = true at this
    rw [k1.1, dr.2.1, if_pos rfl] at this
    simp at this

theorem merge_eq {C : Cst K} {ps : List (V3 K)} {test : St K → List Nat → Nat → Nat → Option Bool} {a b : Nat} {fs : List Nat} {s : St K} {d : List Nat}
    (ha : fs.length + faceCount s.t ≤ a) (hb : fs.length + faceCount s.t ≤ b) : merge C ps test a fs s d = merge C ps test b fs s d := by
  induction a generalizing b fs s d with
  | zero =>
    cases fs with
    | nil => cases b <;> rfl
    | cons f fs => simp at ha
  | succ a ih =>
    cases fs with
    | nil => cases b <;> rfl
    | cons f fs =>
      rw [List.length_cons] at ha hb
      cases b with
      | zero => omega
      | succ b =>
        unfold merge
        split_ifs
        · exact ih (by omega) (by omega)
        · cases s.t.faceRing f with
          | none => rfl
          | some es =>
            simp only [Option.bind_some]
            cases findEdge (test s d f) es with
            | none => rfl
            | some o =>
              cases o with
              | none => exact ih (by omega) (by omega)
              | some e =>
                simp only [Option.bind_some]
                cases hq : mergeAt C ps s e d with
                | none => rfl
                | some r =>
                  have := mergeAt_less hq
                  simp only [Option.bind_some]
                  refine ih ?_ ?_ <;> rw [List.length_cons] <;> omega

end RP3D.Hull
