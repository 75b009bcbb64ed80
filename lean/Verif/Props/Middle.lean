import Verif.Narrow.MiddleLemmas
import Verif.Props.Bounds
import Mathlib.Data.Real.Sqrt
import Mathlib.Algebra.Order.Floor.Ring
import Mathlib.Analysis.Real.Sqrt

/-! C117: the tests of a convex with a concave collider. C118: what is remembered about the triangles. -/

namespace RP3D
namespace MiddleProps
open Middle Bounds BoundsProps Ray RayProps TriMesh TriProps Height HeightProps ConcaveProps TreeSpec

/-! ### What is remembered -/

variable {D : Type}

/-- Specification: a frame names no triangle twice, and the ids have 32 bits. -/
def Fine (f : Frame D) : Prop := f.ids.Nodup ∧ ∀ i ∈ f.ids, i < 2 ^ 32

/-- Specification: what is known about a triangle after the frames (the latest first): what the narrow phase left in the latest frame if
the triangle was tested in it, nothing otherwise. -/
def remembered (d : D) : List (Frame D) → Nat → D
  | [], _ => d
  | f :: fs, i => if i ∈ f.ids then f.out i (remembered d fs i) else d

/-- The data after the frames. -/
def after (d : D) (first : Bool) : List (Frame D) → Infos D
  | [] => Infos.empty D
  | f :: fs => (after d first fs).frame d first f

/-- The triangles of the latest frame. -/
def lastIds : List (Frame D) → List Nat
  | [] => []
  | f :: _ => f.ids

/-- The data kept after some frames. -/
structure Kept (d : D) (fs : List (Frame D)) (s : Infos D) : Prop where
  ok : s.Ok
  live : ∀ i, i < 2 ^ 32 → ∀ inf, s.find (triKey i) = some inf → inf.obsolete = false → i ∈ lastIds fs ∧ inf.data = remembered d fs i
  known : ∀ i ∈ lastIds fs, ∃ inf, s.find (triKey i) = some inf ∧ inf.obsolete = false
  keys : ∀ e ∈ s.entries, e.2.obsolete = false → ∃ i ∈ lastIds fs, e.1 = triKey i
  size : s.entries.length ≤ (lastIds fs).length + (lastIds fs.tail).length

/-- What an object starts with in the next frame. -/
theorem Kept.start {d : D} {fs : List (Frame D)} {s : Infos D} (h : Kept d fs s) {i : Nat} (hi : i < 2 ^ 32) :
    s.clear.start d (triKey i) = if i ∈ lastIds fs then remembered d fs i else d := by
  unfold Infos.start
  rw [(Infos.clear_ok h.ok).2]
  split_ifs with hm
  · obtain ⟨inf, h1, h2⟩ := h.known i hm
    rw [h1]
    simp only [Option.filter_some, h2, Bool.not_false, if_true, Option.map_some, Option.getD_some]
    exact (h.live i hi inf h1 h2).2
  · cases hf : s.find (triKey i) with
    | none => rfl
    | some inf =>
      cases ho : inf.obsolete with
      | true => rw [Option.filter_some, if_neg (by simp [ho])]; rfl
      | false => exact absurd (h.live i hi inf hf ho).1 hm

theorem remembered_last (d : D) (fs : List (Frame D)) (i : Nat) : (if i ∈ lastIds fs then remembered d fs i else d) = remembered d fs i := by
  cases fs with
  | nil => simp [remembered]
  | cons f fs =>
    unfold lastIds remembered
    split_ifs <;> rfl

theorem kept_frame {d : D} {first : Bool} {fs : List (Frame D)} {s : Infos D} (h : Kept d fs s) {f : Frame D} (hf : Fine f)
    (hlast : (lastIds fs).Nodup) : Kept d (f :: fs) (s.frame d first f) := by
  obtain ⟨c1, c2⟩ := Infos.clear_ok h.ok
  obtain ⟨t1, t2, t3, t4, t5⟩ := Infos.touch_ok d first f.ids c1 hf.1 hf.2
  have tn := Infos.touch_ptrs d first c1 hf.1 hf.2
  unfold Infos.frame
  dsimp only
  generalize hr : s.clear.touch d first f.ids = r at *
  generalize hw : (fun (p : Nat) (x : D) => match (f.ids.zip r.2).find? fun e => e.2 == p with
    | some e => f.out e.1 x
    | none => x) = w
  obtain ⟨w1, w2⟩ := Infos.write_ok t1 w
  -- the keys of the frame are live
  have live : ∀ j (hj : j < f.ids.length), ∃ inf, (r.1.write w).find (triKey f.ids[j]) = some inf ∧ inf.obsolete = false ∧
      inf.data = remembered d (f :: fs) f.ids[j] := by
    intro j hj
    obtain ⟨x, x1, x2, x3, x4, _⟩ := t3 j hj (by omega)
    refine ⟨{ x with data := w x.ptr x.data }, by rw [w2, x1]; rfl, x3, ?_⟩
    simp only
    have hz : (f.ids.zip r.2).find? (fun e => e.2 == x.ptr) = some (f.ids[j], x.ptr) := by
      cases hh : (f.ids.zip r.2).find? (fun e => e.2 == x.ptr) with
      | none =>
        have := List.find?_eq_none.1 hh (f.ids[j], x.ptr) (by
          rw [List.mem_iff_getElem]
          exact ⟨j, by rw [List.length_zip]; omega, by rw [List.getElem_zip, x2]⟩)
        simp at this
      | some e =>
        have h1 := List.mem_of_find?_eq_some hh
        have h2 := List.find?_some hh
        simp only [beq_iff_eq] at h2
        obtain ⟨m, hm, e'⟩ := List.mem_iff_getElem.1 h1
        rw [List.getElem_zip] at e'
        rw [List.length_zip] at hm
        subst e'
        simp only at h2
        rw [x2] at h2
        have : m = j := (List.Nodup.getElem_inj_iff tn).1 h2
        subst this
        rw [x2]
    have : w x.ptr x.data = f.out f.ids[j] x.data := by rw [← hw]; dsimp only; rw [hz]
    rw [this, x4, h.start (hf.2 _ (List.getElem_mem hj)), remembered_last]
    exact (if_pos (List.getElem_mem hj)).symm
  have dead : ∀ k, (∀ i ∈ f.ids, triKey i ≠ k) → ∀ inf, (r.1.write w).find k = some inf → inf.obsolete = true := by
    intro k hk inf hi
    rw [w2, t4 k hk, c2] at hi
    simp only [Option.map_eq_some_iff] at hi
    obtain ⟨_, ⟨_, _, rfl⟩, rfl⟩ := hi
    rfl
  refine ⟨w1, ?_, ?_, ?_, ?_⟩
  · intro i hi inf h1 h2
    have hm : i ∈ f.ids := by
      by_contra hno
      have := dead (triKey i) (fun j hj e => hno (triKey_inj (hf.2 j hj) hi e ▸ hj)) inf h1
      rw [h2] at this
      exact absurd this (by simp)
    obtain ⟨j, hj, rfl⟩ := List.mem_iff_getElem.1 hm
    obtain ⟨inf', l1, _, l3⟩ := live j hj
    rw [l1] at h1
    simp only [Option.some.injEq] at h1
    subst h1
    exact ⟨hm, l3⟩
  · intro i hi
    obtain ⟨j, hj, rfl⟩ := List.mem_iff_getElem.1 hi
    obtain ⟨inf', l1, l2, _⟩ := live j hj
    exact ⟨inf', l1, l2⟩
  · intro e he ho
    by_contra hno
    push Not at hno
    have := dead e.1 (fun i hi => (hno i hi).symm) e.2 ((Infos.find_some w1).2 he)
    rw [ho] at this
    exact absurd this (by simp)
  · have e1 : (r.1.write w).entries.length = r.1.entries.length := by simp [Infos.write]
    have e2 : s.clear.entries.length ≤ (lastIds fs).length := by
      have sub : (s.clear.entries.map (·.1)) ⊆ (lastIds fs).map triKey := by
        intro k hk
        obtain ⟨e, he, rfl⟩ := List.mem_map.1 hk
        simp only [Infos.clear, List.mem_map, List.mem_filter, Bool.not_eq_true'] at he
        obtain ⟨e', ⟨h1, h2⟩, rfl⟩ := he
        obtain ⟨i, hi, e⟩ := h.keys e' h1 h2
        exact List.mem_map.2 ⟨i, hi, e.symm⟩
      have := (List.subperm_of_subset c1.keys sub).length_le
      simpa using this
    change _ ≤ f.ids.length + (lastIds fs).length
    omega

/-- The data after any number of frames. -/
theorem after_kept (d : D) (first : Bool) : ∀ fs : List (Frame D), (∀ f ∈ fs, Fine f) → Kept d fs (after d first fs)
  | [], _ => by
    refine ⟨Infos.empty_ok, ?_, ?_, ?_, Nat.le_refl _⟩
    · intro _ _ _ h; exact absurd h (by simp [after, Infos.empty, Infos.find])
    · intro _ h; exact absurd h (by simp [lastIds])
    · intro _ h; exact absurd h (by simp [after, Infos.empty])
  | f :: fs, h => by
    refine kept_frame (after_kept d first fs fun g hg => h g (List.mem_cons_of_mem _ hg)) (h f List.mem_cons_self) ?_
    cases fs with
    | nil => exact List.nodup_nil
    | cons g gs => exact (h g (by simp)).1

/-- **C118.** After any number of frames, the test of a triangle starts with exactly what the narrow phase left for this triangle in the
latest frame, and with nothing if the triangle was not tested then; different triangles have different objects, also while the tests are
made one after the other. No more data are kept than there were tests in the two latest frames. -/
theorem triangle_memory (d : D) (first : Bool) (fs : List (Frame D)) (h : ∀ f ∈ fs, Fine f) (ids : List Nat) (hn : ids.Nodup)
    (hb : ∀ i ∈ ids, i < 2 ^ 32) :
    (∀ j (hj : j < ids.length), ∃ p inf, ((after d first fs).clear.touch d first ids).2[j]? = some p ∧
      ((after d first fs).clear.touch d first ids).1.find (shapesKey (if first then 0 else ids[j]) (if first then ids[j] else 0)) = some inf ∧
      inf.ptr = p ∧ inf.data = remembered d fs ids[j]) ∧
    ((after d first fs).clear.touch d first ids).2.Nodup ∧
    (after d first fs).entries.length ≤ (lastIds fs).length + (lastIds fs.tail).length := by
  have k := after_kept d first fs h
  obtain ⟨c1, _⟩ := Infos.clear_ok k.ok
  obtain ⟨_, t2, t3, _, _⟩ := Infos.touch_ok d first ids c1 hn hb
  refine ⟨fun j hj => ?_, Infos.touch_ptrs d first c1 hn hb, k.size⟩
  obtain ⟨x, x1, x2, _, x4, _⟩ := t3 j hj (by omega)
  refine ⟨_, x, List.getElem?_eq_getElem (by omega), by rw [key_eq]; exact x1, x2, ?_⟩
  rw [x4, k.start (hb _ (List.getElem_mem hj)), remembered_last]

/-- Two frames with the triangles 3, 5 and 5, 6: the third frame finds the data of 5 and 6, which the narrow phase counted, but not of 3. -/
example : let fs : List (Frame Nat) := [⟨[5, 6], fun _ x => x + 1⟩, ⟨[3, 5], fun _ x => x + 1⟩]
    (∀ f ∈ fs, Fine f) ∧ remembered 0 fs 5 = 2 ∧ remembered 0 fs 6 = 1 ∧ remembered 0 fs 3 = 0 ∧
    ((after 0 true fs).clear.touch 0 true [3, 5, 6]).1.entries.map (fun e => (e.2.data)) = [2, 1, 0] := by
  refine ⟨?_, by decide, by decide, by decide, by decide +kernel⟩
  intro f hf
  simp only [List.mem_cons, List.not_mem_nil, or_false] at hf
  rcases hf with rfl | rfl <;> exact ⟨by decide, by decide⟩

/-- **C118** does not hold from step to step: a query about other bodies between two steps counts as a frame in which the triangle is not
tested, so that the next step starts with nothing. -/
theorem query_forgets : ∃ (step query : Frame Nat), Fine step ∧ Fine query ∧ query.ids = [] ∧
    (((after 0 true [step]).clear.touch 0 true [7]).1.find (shapesKey 0 7)).map (·.data) = some 1 ∧
    (((after 0 true [query, step]).clear.touch 0 true [7]).1.find (shapesKey 0 7)).map (·.data) = some 0 :=
  ⟨⟨[7], fun _ x => x + 1⟩, ⟨[], fun _ x => x⟩, ⟨by decide, by decide⟩, ⟨by decide, by decide⟩, rfl, by decide +kernel, by decide +kernel⟩

/-! ### The tests -/

variable {K : Type} [Field K] [LinearOrder K]

/-- Specification: a test of the convex shape with a triangle, in the order of the colliders. -/
def Between (first : Bool) (cs : Bounds.Shape K) (i : Item K) (t : Middle.Test K) : Prop :=
  if first then t.shape1 = .convex cs ∧ t.shape2 = .triangle i else t.shape1 = .triangle i ∧ t.shape2 = .convex cs

theorem addTriangles (sqrt : K → K) (me : K) (d : D) (first : Bool) (cs : Bounds.Shape K) (t1 t2 : Trans K) (report : Bool) :
    ∀ (items : List (Item K)) (acc : List (Middle.Test K) × Infos D), (∀ i ∈ items, triangleOk sqrt me i) →
    items.foldlM (addTriangle sqrt me d first cs t1 t2 report) acc =
      some (acc.1 ++ List.zipWith (fun i p => ⟨if first then .convex cs else .triangle i, if first then .triangle i else .convex cs, t1, t2, report, p⟩)
        items (acc.2.touch d first (items.map (·.id))).2, (acc.2.touch d first (items.map (·.id))).1)
  | [], acc, _ => by simp [Infos.touch]
  | i :: is, acc, h => by
    rw [List.foldlM_cons]
    unfold addTriangle
    rw [if_pos (h i List.mem_cons_self)]
    simp only [Option.bind_eq_bind, Option.bind_some]
    have ih := addTriangles sqrt me d first cs t1 t2 report is
    unfold addTriangle at ih
    rw [ih _ fun j hj => h j (List.mem_cons_of_mem _ hj)]
    have e1 : (if first = true then TShape.convex cs else TShape.triangle i : TShape K).id = if first then 0 else i.id := by
      cases first <;> rfl
    have e2 : (if first = true then TShape.triangle i else TShape.convex cs : TShape K).id = if first then i.id else 0 := by
      cases first <;> rfl
    simp only [e1, e2, List.map_cons, Infos.touch, List.zipWith_cons_cons, List.append_assoc, List.singleton_append]

/-- A triangle that breaks the assertion. -/
theorem addTriangles_none (sqrt : K → K) (me : K) (d : D) (first : Bool) (cs : Bounds.Shape K) (t1 t2 : Trans K) (report : Bool) :
    ∀ (items : List (Item K)) (acc : List (Middle.Test K) × Infos D) (i : Item K), i ∈ items → ¬ triangleOk sqrt me i →
    items.foldlM (addTriangle sqrt me d first cs t1 t2 report) acc = none
  | [], _, _, h, _ => by cases h
  | j :: is, acc, i, h, hn => by
    rw [List.foldlM_cons]
    by_cases hj : triangleOk sqrt me j
    · rcases List.mem_cons.1 h with rfl | h
      · exact absurd hj hn
      · cases ha : addTriangle sqrt me d first cs t1 t2 report acc j with
        | none => rfl
        | some a => exact addTriangles_none sqrt me d first cs t1 t2 report is a i h hn
    · unfold addTriangle
      rw [if_neg hj]
      rfl

variable [IsStrictOrderedRing K] [FloorRing K]

/-- The tests for the triangles the concave shape hands out. -/
theorem pair_tests {sqrt : K → K} {me : K} {d : D} (first : Bool) {cs : Bounds.Shape K} {tc tm : Trans K} {gc gm want : Bool} {shape : CShape K}
    (hm : tm.ori.lengthSq = 1) (hc : tc.ori.lengthSq = 1) {p0 : V3 K} (hp0 : Points cs p0) {s : Infos D} (hs : s.Ok)
    {hands : List (Item K)} (all : Item K → Prop)
    (htri : ∀ box, cs.worldBox (tm.inverse.mul tc) = some box → shape.triangles box = some hands ∧ (hands.map (·.id)).Nodup ∧ ∀ i ∈ hands, all i)
    (hok : ∀ i, all i → triangleOk sqrt me i ∧ i.id < 2 ^ 32) :
    let convex : Col K := ⟨.convex cs, tc, gc⟩
    let concave : Col K := ⟨shape, tm, gm⟩
    let x1 := if first then convex else concave
    let x2 := if first then concave else convex
    ∃ box ts s', cs.worldBox (tm.inverse.mul tc) = some box ∧ concavePair sqrt me d first x1 x2 want s = some (ts, s') ∧
      (∀ t ∈ ts, t.trans1 = x1.trans ∧ t.trans2 = x2.trans ∧ t.report = (want && !gc && !gm) ∧ ∃ i ∈ hands, Between first cs i t) ∧
      (∀ i ∈ hands, ∃ t ∈ ts, Between first cs i t) ∧ (∀ i (j j' : Nat) t t', ts[j]? = some t → ts[j']? = some t' → Between first cs i t → Between first cs i t' → j = j') ∧
      (ts.map (·.info)).Nodup ∧
      s' = (s.touch d first (hands.map (·.id))).1 := by
  intro convex concave x1 x2
  have hunit : (tm.inverse.mul tc).ori.lengthSq = 1 := by
    have e : (tm.inverse.mul tc).ori = tm.ori.conj.mul tc.ori := rfl
    rw [e]
    exact unit_mul (unit_inverse hm) hc
  obtain ⟨box, hb, _⟩ := world_box_contains hp0 hunit
  obtain ⟨h1, h2, h3⟩ := htri box hb
  have hbd : ∀ k ∈ hands.map (·.id), k < 2 ^ 32 := by
    intro k hk
    obtain ⟨i, hi, rfl⟩ := List.mem_map.1 hk
    exact (hok i (h3 i hi)).2
  have tlen := (Infos.touch_ok d first _ hs h2 hbd).2.1
  rw [List.length_map] at tlen
  have tn := Infos.touch_ptrs d first hs h2 hbd
  refine ⟨box, List.zipWith (fun i p => ⟨if first then .convex cs else .triangle i, if first then .triangle i else .convex cs, x1.trans, x2.trans,
    want && !x1.trigger && !x2.trigger, p⟩) hands (s.touch d first (hands.map (·.id))).2, _, hb, ?_, ?_, ?_, ?_, ?_, rfl⟩
  · have key := addTriangles sqrt me d first cs x1.trans x2.trans (want && !x1.trigger && !x2.trigger) hands ([], s) fun i hi => (hok i (h3 i hi)).1
    rw [List.nil_append] at key
    rw [← key]
    unfold concavePair
    cases first
    · simp only [x1, x2, convex, concave, Bool.false_eq_true, if_false, hb, h1, Option.bind_eq_bind, Option.bind_some]
    · simp only [x1, x2, convex, concave, if_true, hb, h1, Option.bind_eq_bind, Option.bind_some]
  · intro t ht
    obtain ⟨j, hj, rfl⟩ := List.mem_iff_getElem.1 ht
    rw [List.getElem_zipWith]
    refine ⟨rfl, rfl, ?_, _, List.getElem_mem (by simp at hj; exact hj.1), ?_⟩
    · cases first <;> cases want <;> cases gc <;> cases gm <;> rfl
    · cases first <;> exact ⟨rfl, rfl⟩
  · intro i hi
    obtain ⟨j, hj, rfl⟩ := List.mem_iff_getElem.1 hi
    refine ⟨_, List.getElem_mem (n := j) (by rw [List.length_zipWith]; omega), ?_⟩
    rw [List.getElem_zipWith]
    cases first <;> exact ⟨rfl, rfl⟩
  · intro i j j' t t' ht ht' b b'
    have one : ∀ {j : Nat} {t : Middle.Test K}, (List.zipWith (fun i p => (⟨if first then .convex cs else .triangle i,
        if first then .triangle i else .convex cs, x1.trans, x2.trans, want && !x1.trigger && !x2.trigger, p⟩ : Middle.Test K)) hands
        (s.touch d first (hands.map (·.id))).2)[j]? = some t → Between first cs i t → ∃ hj : j < hands.length, hands[j] = i := by
      intro j t ht b
      obtain ⟨hj, rfl⟩ := List.getElem?_eq_some_iff.1 ht
      rw [List.getElem_zipWith] at b
      refine ⟨by rw [List.length_zipWith] at hj; omega, ?_⟩
      cases first
      · exact TShape.triangle.inj b.1
      · exact TShape.triangle.inj b.2
    obtain ⟨hj, e⟩ := one ht b
    obtain ⟨hj', e'⟩ := one ht' b'
    exact (List.Nodup.getElem_inj_iff (List.Nodup.of_map _ h2)).1 (e.trans e'.symm)
  · have : (List.zipWith (fun i p => (⟨if first then .convex cs else .triangle i, if first then .triangle i else .convex cs, x1.trans, x2.trans,
        want && !x1.trigger && !x2.trigger, p⟩ : Middle.Test K)) hands (s.touch d first (hands.map (·.id))).2).map (·.info) =
        (s.touch d first (hands.map (·.id))).2 := by
      rw [List.map_zipWith]
      refine List.ext_getElem (by rw [List.length_zipWith]; omega) fun j h1 h2 => ?_
      rw [List.getElem_zipWith]
    rw [this]
    exact tn

omit [FloorRing K] in
/-- A common point of the placed shapes, seen from the concave one, is in the box of the convex shape. -/
theorem common_in_box {cs : Bounds.Shape K} {tc tm : Trans K} (hm : tm.ori.lengthSq = 1) (hc : tc.ori.lengthSq = 1) {p q : V3 K}
    (hp : Points cs p) (e : tc.act p = tm.act q) {box : AABB K} (hb : cs.worldBox (tm.inverse.mul tc) = some box) : AABB.Mem q box := by
  have hunit : (tm.inverse.mul tc).ori.lengthSq = 1 := by
    have e : (tm.inverse.mul tc).ori = tm.ori.conj.mul tc.ori := rfl
    rw [e]
    exact unit_mul (unit_inverse hm) hc
  obtain ⟨box', hb', hin⟩ := world_box_contains hp hunit
  rw [hb] at hb'
  simp only [Option.some.injEq] at hb'
  subst hb'
  rwa [trans_mul_act, e, trans_inverse_act hm] at hin

/-- Specification: the triangle `k` of a mesh as a shape of its own. -/
def meshItem (u : User K) (scale : V3 K) (l : List (Nat × Nat × Nat)) (k : Nat) : Item K :=
  let t := userTriangle u scale (l.getD k (0, 0, 0))
  ⟨t.1, t.2.1, t.2.2, l.length + k⟩

/-- **C117.** A convex collider and a concave mesh with a positive scale, none of whose scaled triangles is smaller than the code accepts:
the middle phase breaks no assertion; its tests are tests of the convex shape with triangles of the mesh, in the order and with the
transforms of the colliders, and ask for contacts unless one of the colliders is a trigger; every triangle that has a point in common with
the convex shape is tested; none is tested twice; and no two tests share their remembered data. -/
theorem mesh_pair_partial {sqrt acos : K → K} {me : K} (hme : 0 < me) {ch : Nat → Choice K} {fat : AABB K → AABB K}
    (hfat : ∀ b : AABB K, b.Valid → (fat b).contains b = true) {f : Nat → TNode K} {u : User K} {m : TMesh K} {valid : Bool} {t : Tree K}
    (h : TriMesh.init sqrt acos me ch fat f u = some (m, valid, t)) {scale : V3 K} (sx : 0 < scale.x) (sy : 0 < scale.y) (sz : 0 < scale.z)
    (hn : 2 * (trianglesOf me u).length ≤ 2 ^ 32)
    (hbig : ∀ k, k < (trianglesOf me u).length → triangleOk sqrt me (meshItem u scale (trianglesOf me u) k))
    {cs : Bounds.Shape K} {p0 : V3 K} (hp0 : Points cs p0) {tc tm : Trans K} (hc : tc.ori.lengthSq = 1) (hm : tm.ori.lengthSq = 1)
    (first gc gm want : Bool) (d : D) {s : Infos D} (hs : s.Ok) :
    let convex : Col K := ⟨.convex cs, tc, gc⟩
    let concave : Col K := ⟨.mesh scale m t, tm, gm⟩
    let x1 := if first then convex else concave
    let x2 := if first then concave else convex
    ∃ ts s', concavePair sqrt me d first x1 x2 want s = some (ts, s') ∧
      (∀ t ∈ ts, t.trans1 = x1.trans ∧ t.trans2 = x2.trans ∧ t.report = (want && !gc && !gm) ∧
        ∃ k, k < (trianglesOf me u).length ∧ Between first cs (meshItem u scale (trianglesOf me u) k) t) ∧
      (∀ k (hk : k < (trianglesOf me u).length) p q, Points cs p → Tri (userTriangle u scale (trianglesOf me u)[k]).1
        (userTriangle u scale (trianglesOf me u)[k]).2.1 (userTriangle u scale (trianglesOf me u)[k]).2.2 q → tc.act p = tm.act q →
        ∃ t ∈ ts, Between first cs (meshItem u scale (trianglesOf me u) k) t) ∧
      (∀ i (j j' : Nat) t t', ts[j]? = some t → ts[j']? = some t' → Between first cs i t → Between first cs i t' → j = j') ∧
      (ts.map (·.info)).Nodup := by
  intro convex concave x1 x2
  obtain ⟨box, hb, _⟩ := world_box_contains hp0 (t := tm.inverse.mul tc) (unit_mul (unit_inverse hm) hc)
  obtain ⟨items, i1, i2, i3, i4⟩ := concave_triangles hme hfat h sx sy sz box
  have hmesh : ∀ it ∈ items, ∃ k, k < (trianglesOf me u).length ∧ it = meshItem u scale (trianglesOf me u) k := by
    intro it hit
    obtain ⟨k, hk, e1, e2⟩ := i3 it hit
    refine ⟨k, hk, ?_⟩
    unfold meshItem
    rw [List.getD_eq_getElem?_getD, List.getElem?_eq_getElem hk, Option.getD_some, ← e2, ← e1]
  obtain ⟨box', ts, s', hb', r1, r2, r3, r4, r5, _⟩ := pair_tests (sqrt := sqrt) (me := me) (d := d) first (gc := gc) (gm := gm) (want := want)
    (shape := .mesh scale m t) hm hc hp0 hs (hands := items) (fun it => ∃ k, k < (trianglesOf me u).length ∧ it = meshItem u scale (trianglesOf me u) k)
    (by
      intro b' hb'
      rw [hb] at hb'
      simp only [Option.some.injEq] at hb'
      subst hb'
      exact ⟨i1, i2, hmesh⟩)
    (by
      rintro it ⟨k, hk, rfl⟩
      refine ⟨hbig k hk, ?_⟩
      unfold meshItem
      simp only
      omega)
  refine ⟨ts, s', r1, ?_, ?_, r4, r5⟩
  · intro t ht
    obtain ⟨a1, a2, a3, i, hi, b⟩ := r2 t ht
    obtain ⟨k, hk, rfl⟩ := hmesh i hi
    exact ⟨a1, a2, a3, k, hk, b⟩
  · intro k hk p q hp hq e
    have hin := common_in_box hm hc hp e hb
    obtain ⟨m1, m2, m3⟩ := forTriangle_mem (userTriangle u scale (trianglesOf me u)[k]).1 (userTriangle u scale (trianglesOf me u)[k]).2.1
      (userTriangle u scale (trianglesOf me u)[k]).2.2
    have hin' := tri_in_box hq m1 m2 m3
    obtain ⟨it, hit, hid⟩ := i4 k hk (by
      rw [AABB.testCollision_iff]
      obtain ⟨a1, a2, a3, a4, a5, a6⟩ := hin
      obtain ⟨b1, b2, b3, b4, b5, b6⟩ := hin'
      exact ⟨⟨b1.trans a2, a1.trans b2⟩, ⟨b3.trans a4, a3.trans b4⟩, b5.trans a6, a5.trans b6⟩)
    obtain ⟨k', hk', rfl⟩ := hmesh it hit
    have : k' = k := by unfold meshItem at hid; simp only at hid; omega
    subst this
    exact r3 _ hit

/-- Specification: a triangle of a height field as a shape of its own. -/
def fieldItem (src : Source K) (f : HField K) (scale : V3 K) (i j : Nat) (second : Bool) : Item K :=
  let t := cellTriangle src f scale i j second
  ⟨t.1, t.2.1, t.2.2, f.shapeId i j (if second then 1 else 0)⟩

/-- **C117.** The same for a convex collider and a height field. -/
theorem field_pair_partial {sqrt : K → K} {me : K} {cols rows : Nat} {src : Source K} {dat : Data K} {f : HField K}
    (h : Height.init cols rows src dat = some f) {scale : V3 K} (sx : 0 < scale.x) (sz : 0 < scale.z)
    (hn : 2 * ((cols - 1) * (rows - 1)) ≤ 2 ^ 32)
    (hbig : ∀ i j second, i + 1 < cols → j + 1 < rows → triangleOk sqrt me (fieldItem src f scale i j second))
    {cs : Bounds.Shape K} {p0 : V3 K} (hp0 : Points cs p0) {tc tm : Trans K} (hc : tc.ori.lengthSq = 1) (hm : tm.ori.lengthSq = 1)
    (first gc gm want : Bool) (d : D) {s : Infos D} (hs : s.Ok) :
    let convex : Col K := ⟨.convex cs, tc, gc⟩
    let concave : Col K := ⟨.field scale f, tm, gm⟩
    let x1 := if first then convex else concave
    let x2 := if first then concave else convex
    ∃ ts s', concavePair sqrt me d first x1 x2 want s = some (ts, s') ∧
      (∀ t ∈ ts, t.trans1 = x1.trans ∧ t.trans2 = x2.trans ∧ t.report = (want && !gc && !gm) ∧
        ∃ i j second, i + 1 < cols ∧ j + 1 < rows ∧ Between first cs (fieldItem src f scale i j second) t) ∧
      (∀ i j second p q, i + 1 < cols → j + 1 < rows → Points cs p → Tri (cellTriangle src f scale i j second).1
        (cellTriangle src f scale i j second).2.1 (cellTriangle src f scale i j second).2.2 q → tc.act p = tm.act q →
        ∃ t ∈ ts, Between first cs (fieldItem src f scale i j second) t) ∧
      (∀ i (j j' : Nat) t t', ts[j]? = some t → ts[j']? = some t' → Between first cs i t → Between first cs i t' → j = j') ∧
      (ts.map (·.info)).Nodup := by
  intro convex concave x1 x2
  obtain ⟨box, hb, _⟩ := world_box_contains hp0 (t := tm.inverse.mul tc) (unit_mul (unit_inverse hm) hc)
  obtain ⟨items, i1, i2, i3, i4⟩ := height_triangles h sx sz box
  obtain ⟨hmade, hcols, hrows⟩ := init_made h
  have hf : ∀ it ∈ items, ∃ i j second, i + 1 < cols ∧ j + 1 < rows ∧ it = fieldItem src f scale i j second := by
    intro it hit
    obtain ⟨i, j, second, hi, hj, e1, e2⟩ := i3 it hit
    refine ⟨i, j, second, hi, hj, ?_⟩
    unfold fieldItem
    rw [← e1, ← e2]
  obtain ⟨box', ts, s', hb', r1, r2, r3, r4, r5, _⟩ := pair_tests (sqrt := sqrt) (me := me) (d := d) first (gc := gc) (gm := gm) (want := want)
    (shape := .field scale f) hm hc hp0 hs (hands := items)
    (fun it => ∃ i j second, i + 1 < cols ∧ j + 1 < rows ∧ it = fieldItem src f scale i j second)
    (by
      intro b' hb'
      rw [hb] at hb'
      simp only [Option.some.injEq] at hb'
      subst hb'
      exact ⟨i1, i2, hf⟩)
    (by
      rintro it ⟨i, j, second, hi, hj, rfl⟩
      refine ⟨hbig i j second hi hj, ?_⟩
      unfold fieldItem HField.shapeId
      simp only
      rw [hcols]
      obtain ⟨c', rfl⟩ : ∃ c', cols = c' + 1 := ⟨cols - 1, by omega⟩
      obtain ⟨r', rfl⟩ : ∃ r', rows = r' + 1 := ⟨rows - 1, by omega⟩
      simp only [Nat.add_sub_cancel] at hn ⊢
      have h1 : (j + 1) * c' ≤ c' * r' := by rw [mul_comm c' r']; exact Nat.mul_le_mul_right _ (by omega)
      have h2 : (j + 1) * c' = j * c' + c' := by ring
      have h3 : (if second = true then 1 else 0) ≤ 1 := by split_ifs <;> omega
      omega)
  refine ⟨ts, s', r1, ?_, ?_, r4, r5⟩
  · intro t ht
    obtain ⟨a1, a2, a3, it, hi, b⟩ := r2 t ht
    obtain ⟨i, j, second, h1, h2, rfl⟩ := hf it hi
    exact ⟨a1, a2, a3, i, j, second, h1, h2, b⟩
  · intro i j second p q hi hj hp hq e
    have hin := common_in_box hm hc hp e hb
    -- the point of the triangle is within the cell
    have cx : ∀ a b, (corner src f scale a b).x = scale.x * ((a : K) - ((f.cols : K) - 1) / 2) ∨
        (corner src f scale a b).x = ((a : K) - ((f.cols : K) - 1) / 2) * scale.x := by
      intro a b; unfold corner Placed scaleBy; first | exact .inl rfl | exact .inr rfl
    have cz : ∀ a b, (corner src f scale a b).z = scale.z * ((b : K) - ((f.rows : K) - 1) / 2) ∨
        (corner src f scale a b).z = ((b : K) - ((f.rows : K) - 1) / 2) * scale.z := by
      intro a b; unfold corner Placed scaleBy; first | exact .inl rfl | exact .inr rfl
    have cx' : ∀ a b, (corner src f scale a b).x = scale.x * ((a : K) - ((f.cols : K) - 1) / 2) := by
      intro a b; rcases cx a b with h | h <;> rw [h]; ring
    have cz' : ∀ a b, (corner src f scale a b).z = scale.z * ((b : K) - ((f.rows : K) - 1) / 2) := by
      intro a b; rcases cz a b with h | h <;> rw [h]; ring
    have wx : (corner src f scale i j).x ≤ q.x ∧ q.x ≤ (corner src f scale (i + 1) j).x ∧
        (corner src f scale i j).z ≤ q.z ∧ q.z ≤ (corner src f scale i (j + 1)).z := by
      obtain ⟨a, b, c, a0, b0, c0, e1, rfl⟩ := hq
      have low : ∀ {lo x y z : K}, lo ≤ x → lo ≤ y → lo ≤ z → lo ≤ a * x + b * y + c * z := by
        intro lo x y z hx hy hz
        have e2 : lo = a * lo + b * lo + c * lo := by rw [← add_mul, ← add_mul, e1, one_mul]
        rw [e2]
        exact add_le_add (add_le_add (mul_le_mul_of_nonneg_left hx a0) (mul_le_mul_of_nonneg_left hy b0)) (mul_le_mul_of_nonneg_left hz c0)
      have high : ∀ {hi x y z : K}, x ≤ hi → y ≤ hi → z ≤ hi → a * x + b * y + c * z ≤ hi := by
        intro hi x y z hx hy hz
        have e2 : hi = a * hi + b * hi + c * hi := by rw [← add_mul, ← add_mul, e1, one_mul]
        rw [e2]
        exact add_le_add (add_le_add (mul_le_mul_of_nonneg_left hx a0) (mul_le_mul_of_nonneg_left hy b0)) (mul_le_mul_of_nonneg_left hz c0)
      have mx : ∀ {a b a' b' : Nat}, a ≤ a' → (corner src f scale a b).x ≤ (corner src f scale a' b').x := by
        intro a b a' b' hle
        rw [cx', cx']
        exact mul_le_mul_of_nonneg_left (sub_le_sub_right (by exact_mod_cast hle) _) sx.le
      have mz : ∀ {a b a' b' : Nat}, b ≤ b' → (corner src f scale a b).z ≤ (corner src f scale a' b').z := by
        intro a b a' b' hle
        rw [cz', cz']
        exact mul_le_mul_of_nonneg_left (sub_le_sub_right (by exact_mod_cast hle) _) sz.le
      cases second <;>
        simp only [cellTriangle, Bool.false_eq_true, if_false, if_true, V3.add_x, V3.add_z, V3.smul_x, V3.smul_z] <;>
        refine ⟨low ?_ ?_ ?_, high ?_ ?_ ?_, low ?_ ?_ ?_, high ?_ ?_ ?_⟩ <;> first | exact mx (by omega) | exact mz (by omega)
    obtain ⟨a1, a2, _, _, a5, a6⟩ := hin
    obtain ⟨it, hit, hv, hid⟩ := i4 i j hi hj (wx.1.trans a2) (a1.trans wx.2.1) (wx.2.2.1.trans a6) (a5.trans wx.2.2.2) second
    have : it = fieldItem src f scale i j second := by
      unfold fieldItem
      rw [← hv, ← hid]
    subst this
    exact r3 _ hit

/-! ### Examples -/

/-- A sphere of radius 1/2 above the flat ground of `ground`, as the second collider: the hypotheses of `mesh_pair_partial` are met, and the
triangle below the sphere is tested. The normals of the triangles have the square length 4, so that `id` serves as square root. -/
example : ∃ m t, MadeGround m t ∧ ∃ ts s', concavePair id me () false ⟨.mesh ⟨1, 1, 1⟩ m t, Trans.one, false⟩
    ⟨.convex (.sphere (1/2)), ⟨⟨1/2, 1/4, -1/2⟩, Quat.one⟩, false⟩ true (Infos.empty Unit) = some (ts, s') ∧
    ∃ t ∈ ts, t.shape1 = .triangle ⟨⟨0, 0, -1⟩, ⟨1, 0, 1⟩, ⟨1, 0, -1⟩, 7⟩ ∧ t.report = true := by
  obtain ⟨m, t, h⟩ := ground_made
  have hlen : (trianglesOf me ground).length = 4 := by rw [ground_triangles]; rfl
  obtain ⟨ts, s', h1, h2, h3, _⟩ := mesh_pair_partial (me := me) (by norm_num [me]) (fun b _ => AABB.contains_refl b) h (scale := ⟨1, 1, 1⟩)
    (by norm_num) (by norm_num) (by norm_num) (by rw [hlen]; norm_num)
    (by
      rw [ground_triangles]
      decide +kernel)
    (cs := .sphere (1/2)) (p0 := ⟨0, 0, 0⟩) (Points.sphere (by norm_num) (by norm_num [V3.lengthSq]))
    (tc := ⟨⟨1/2, 1/4, -1/2⟩, Quat.one⟩) (tm := Trans.one) (by decide +kernel) (by decide +kernel) false false false true () Infos.empty_ok
  refine ⟨m, t, h, ts, s', h1, ?_⟩
  obtain ⟨x, hx, b⟩ := h3 3 (by rw [hlen]; norm_num) ⟨0, -1/4, 0⟩ ⟨1/2, 0, -1/2⟩ (Points.sphere (by norm_num) (by norm_num [V3.lengthSq]))
    (by
      simp only [ground_triangles]
      exact ⟨1/2, 1/4, 1/4, by norm_num, by norm_num, by norm_num, by norm_num,
        by norm_num [V3.ext_iff, userTriangle, ground, scaleBy]⟩)
    (by decide +kernel)
  rw [ground_triangles] at b
  refine ⟨x, hx, ?_, (h2 x hx).2.2.1⟩
  rw [b.1]
  exact congrArg TShape.triangle (by decide +kernel)

/-- The hypotheses of `field_pair_partial` are met by the height field of `hills` and a box in it, and there is a test. -/
example : ∃ f, hillField = some f ∧ ∃ ts s', concavePair id me () true ⟨.convex (.box ⟨2, 1, 1⟩), Trans.one, true⟩
    ⟨.field ⟨1, 1, 1⟩ f, Trans.one, false⟩ true (Infos.empty Unit) = some (ts, s') ∧ ∃ t ∈ ts, t.report = false := by
  obtain ⟨f, hf⟩ := Option.isSome_iff_exists.1 hillField_some
  obtain ⟨hmade, hcols, hrows⟩ := init_made hf
  have hx : hillField.map (fun f => (corner hills f ⟨1, 1, 1⟩ 5 1)) = some ⟨0, 1, 0⟩ := by decide +kernel
  have hcorner : corner hills f ⟨1, 1, 1⟩ 5 1 = ⟨0, 1, 0⟩ := by rw [hf] at hx; simpa using hx
  obtain ⟨ts, s', h1, h2, h3, _⟩ := field_pair_partial (sqrt := id) (me := me) hf (scale := ⟨1, 1, 1⟩) (by norm_num) (by norm_num) (by norm_num)
    (by
      intro i j second _ _
      have key : ∀ a b : ℚ, me < id (a * a + 1 + b * b) := by
        intro a b
        have : me < 1 := by norm_num [me]
        exact lt_of_lt_of_le this (by rw [id_eq]; nlinarith [mul_self_nonneg a, mul_self_nonneg b])
      cases second
      · have := key ((corner hills f ⟨1, 1, 1⟩ (i + 1) j).y - (corner hills f ⟨1, 1, 1⟩ i j).y)
          ((corner hills f ⟨1, 1, 1⟩ i (j + 1)).y - (corner hills f ⟨1, 1, 1⟩ i j).y)
        refine this.trans_eq (congrArg id ?_)
        simp only [fieldItem, cellTriangle, corner, Placed, scaleBy, V3.lengthSq, V3.cross, V3.sub_x, V3.sub_y, V3.sub_z, Bool.false_eq_true, if_false]
        push_cast
        ring
      · have := key ((corner hills f ⟨1, 1, 1⟩ (i + 1) (j + 1)).y - (corner hills f ⟨1, 1, 1⟩ i (j + 1)).y)
          ((corner hills f ⟨1, 1, 1⟩ (i + 1) (j + 1)).y - (corner hills f ⟨1, 1, 1⟩ (i + 1) j).y)
        refine this.trans_eq (congrArg id ?_)
        simp only [fieldItem, cellTriangle, corner, Placed, scaleBy, V3.lengthSq, V3.cross, V3.sub_x, V3.sub_y, V3.sub_z, if_true]
        push_cast
        ring)
    (cs := .box ⟨2, 1, 1⟩) (p0 := ⟨0, 0, 0⟩) (Points.box (by norm_num) (by norm_num) (by norm_num) (by norm_num) (by norm_num) (by norm_num))
    (tc := Trans.one) (tm := Trans.one) (by decide +kernel) (by decide +kernel) true true false true () Infos.empty_ok
  refine ⟨f, hf, ts, s', h1, ?_⟩
  obtain ⟨x, hx, b⟩ := h3 5 1 false ⟨0, 1, 0⟩ ⟨0, 1, 0⟩ (by norm_num) (by norm_num)
    (Points.box (by norm_num) (by norm_num) (by norm_num) (by norm_num) (by norm_num) (by norm_num))
    (by
      refine ⟨1, 0, 0, by norm_num, by norm_num, by norm_num, by norm_num, ?_⟩
      simp only [cellTriangle, Bool.false_eq_true, if_false, hcorner]
      norm_num [V3.ext_iff]) rfl
  exact ⟨x, hx, (h2 x hx).2.2.1⟩

/-- A flat grid with one cell. -/
def flat : Source ℝ := .real fun _ => 0

/-- **C117** does not hold for small triangles: the cell of a height field that is scaled to a tenth of a millimetre, with a ball of radius 1
in the middle. The assertion of the constructor of the triangle is broken. -/
theorem small_triangle_undefined : ∃ f, Height.init 2 2 flat ⟨fun _ => 0, 0, 0⟩ = some f ∧
    concavePair Real.sqrt ((2 : ℝ)⁻¹ ^ 23) () true ⟨.convex (.sphere 1), Trans.one, false⟩
      ⟨.field ⟨1 / 10000, 1 / 10000, 1 / 10000⟩ f, Trans.one, false⟩ true (Infos.empty Unit) = none := by
  have hne : Height.init 2 2 flat ⟨fun _ => 0, 0, 0⟩ ≠ none := by
    rw [ne_eq, (height_bounds 2 2 flat ⟨fun _ => 0, 0, 0⟩).1]
    omega
  obtain ⟨f, hf⟩ := Option.ne_none_iff_exists'.1 hne
  refine ⟨f, hf, ?_⟩
  have hu : (Trans.one : Trans ℝ).ori.lengthSq = 1 := by norm_num [Trans.one, Quat.one, Quat.lengthSq]
  have hp : Points (.sphere (1 : ℝ)) ⟨0, 0, 0⟩ := Points.sphere (by norm_num) (by norm_num [V3.lengthSq])
  obtain ⟨box, hb, _⟩ := world_box_contains hp (t := Trans.one.inverse.mul Trans.one) (unit_mul (unit_inverse hu) hu)
  obtain ⟨items, i1, _, _, i4⟩ := height_triangles hf (scale := ⟨1 / 10000, 1 / 10000, 1 / 10000⟩) (by norm_num) (by norm_num) box
  obtain ⟨hmade, hcols, hrows⟩ := init_made hf
  have hbox : box = ⟨⟨-1, -1, -1⟩, ⟨1, 1, 1⟩⟩ := by
    simp only [Bounds.Shape.worldBox, Bounds.sphere, Trans.one, Trans.inverse, Trans.mul, Quat.one, Quat.conj, Quat.rot, Option.some.injEq] at hb
    rw [← hb]
    norm_num [V3.ext_iff]
  obtain ⟨it, hit, hv, _⟩ := i4 0 0 (by norm_num) (by norm_num)
    (by rw [hbox]; unfold corner Placed scaleBy; rw [hcols]; norm_num) (by rw [hbox]; unfold corner Placed scaleBy; rw [hcols]; norm_num)
    (by rw [hbox]; unfold corner Placed scaleBy; rw [hrows]; norm_num) (by rw [hbox]; unfold corner Placed scaleBy; rw [hrows]; norm_num) false
  have key := addTriangles_none Real.sqrt ((2 : ℝ)⁻¹ ^ 23) () true (.sphere 1) Trans.one Trans.one true items ([], Infos.empty Unit) it hit (by
    unfold triangleOk
    simp only [cellTriangle, corner, Placed, scaleBy, hcols, hrows, flat, Source.get, Bool.false_eq_true, if_false, Prod.mk.injEq] at hv
    obtain ⟨ha, hb, hc⟩ := hv
    rw [ha, hb, hc]
    rw [not_lt]
    refine (Real.sqrt_le_sqrt (y := ((2 : ℝ)⁻¹ ^ 23) ^ 2) ?_).trans (Real.sqrt_sq (by positivity)).le
    simp only [V3.lengthSq, V3.cross, V3.sub_x, V3.sub_y, V3.sub_z]
    norm_num)
  unfold concavePair
  simp only [if_true]
  rw [hb, Option.bind_eq_bind, Option.bind_some]
  simp only [CShape.triangles, i1, Option.bind_eq_bind, Option.bind_some, Bool.not_false, Bool.and_self]
  exact key

end MiddleProps
end RP3D
