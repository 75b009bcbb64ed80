import Verif.Mesh.Lemmas

/-!
C54: the half-edge structure of a closed mesh is consistent; C72: what happens to a mesh that is not closed.

The specification speaks of the faces as lists of vertices only: the directed edge `j` of the face `f` goes from its vertex `j` to the vertex
after it. Nothing of the model is used in it except the type of the result.
-/

namespace RP3D
namespace MeshProps

open Mesh

/-- The edge number `j` of the face `f` goes from the vertex `a` to the vertex `b`. -/
def Edge (faces : List (List Nat)) (f j a b : Nat) : Prop :=
  ∃ vs, faces[f]? = some vs ∧ vs[j]? = some a ∧ vs[(j + 1) % vs.length]? = some b

/-- A closed and consistently oriented surface: every directed edge belongs to one face, the edge in the other direction belongs to a face
as well, no edge is a loop. -/
structure Closed (nv : Nat) (faces : List (List Nat)) : Prop where
  some_face : faces ≠ []
  faces_ne : ∀ vs ∈ faces, vs ≠ []
  range : ∀ f j a b, Edge faces f j a b → a < nv
  no_loop : ∀ f j a b, Edge faces f j a b → a ≠ b
  oriented : ∀ f j f' j' a b, Edge faces f j a b → Edge faces f' j' a b → f = f' ∧ j = j'
  closed : ∀ f j a b, Edge faces f j a b → ∃ f' j', Edge faces f' j' b a

/-- The half-edges `r` describe the surface; `h f j` is the index of the half-edge of the edge `j` of the face `f`. -/
structure Describes (faces : List (List Nat)) (r : Result) (h : Nat → Nat → Nat) : Prop where
  /-- each edge has its half-edge, with its source, its face, the edge after it in its face and the opposite edge -/
  edge : ∀ f j a b vs, Edge faces f j a b → faces[f]? = some vs → ∃ e, r.arr[h f j]? = some e ∧ e.vertex = a ∧ e.face = f ∧
    e.next = h f ((j + 1) % vs.length) ∧ ∃ f' j', Edge faces f' j' b a ∧ e.twin = h f' j'
  /-- different edges have different half-edges -/
  inj : ∀ f j a b f' j' a' b', Edge faces f j a b → Edge faces f' j' a' b' → h f j = h f' j' → f = f' ∧ j = j'
  /-- there are no other half-edges -/
  surj : ∀ i < r.arr.length, ∃ f j a b, Edge faces f j a b ∧ h f j = i
  /-- the half-edge of a face is one of its edges -/
  ofFace : r.faceEdge.length = faces.length ∧ ∀ f < faces.length, ∃ j a b, Edge faces f j a b ∧ r.faceEdge[f]? = some (h f j)
  /-- the half-edge of a vertex that is used starts there -/
  verts : ∀ f j a b, Edge faces f j a b → ∃ f' j' b', Edge faces f' j' a b' ∧ r.vert a = h f' j'

/-! ### From the specification to the corners of the model -/

theorem edge_iff {faces : List (List Nat)} {f j a b : Nat} :
    Edge faces f j a b ↔ (f, j) ∈ corners faces ∧ key (faces.getD f []) j = (a, b) := by
  rw [mem_corners]
  unfold Edge key
  constructor
  · rintro ⟨vs, hf, ha, hb⟩
    have hg : faces.getD f [] = vs := by rw [List.getD_eq_getElem?_getD, hf]; rfl
    obtain ⟨hf', _⟩ := List.getElem?_eq_some_iff.1 hf
    obtain ⟨hj, _⟩ := List.getElem?_eq_some_iff.1 ha
    simp only [hg]
    refine ⟨⟨hf', hj⟩, ?_⟩
    rw [List.getD_eq_getElem?_getD, ha, List.getD_eq_getElem?_getD]
    have : (if j + 1 = vs.length then 0 else j + 1) = (j + 1) % vs.length := by
      split
      · rename_i h; rw [h, Nat.mod_self]
      · rw [Nat.mod_eq_of_lt (by omega)]
    rw [this, hb]
    rfl
  · rintro ⟨⟨hf, hj⟩, hk⟩
    simp only at hf hj
    have hg : faces.getD f [] = faces[f] := by rw [List.getD_eq_getElem?_getD, List.getElem?_eq_getElem hf]; rfl
    rw [hg] at hj hk
    obtain ⟨ha, hb⟩ := Prod.mk.inj hk
    refine ⟨faces[f], List.getElem?_eq_getElem hf, ?_, ?_⟩
    · rw [List.getElem?_eq_getElem hj]
      rw [List.getD_eq_getElem?_getD, List.getElem?_eq_getElem hj] at ha
      exact congrArg some ha
    · have : (if j + 1 = faces[f].length then 0 else j + 1) = (j + 1) % faces[f].length := by
        split
        · rename_i h; rw [h, Nat.mod_self]
        · rw [Nat.mod_eq_of_lt (by omega)]
      rw [this] at hb
      have hlt : (j + 1) % faces[f].length < faces[f].length := Nat.mod_lt _ (by omega)
      rw [List.getElem?_eq_getElem hlt]
      rw [List.getD_eq_getElem?_getD, List.getElem?_eq_getElem hlt] at hb
      exact congrArg some hb

theorem edge_of_corner {faces : List (List Nat)} {c : Nat × Nat} (h : c ∈ corners faces) :
    Edge faces c.1 c.2 (key (faces.getD c.1 []) c.2).1 (key (faces.getD c.1 []) c.2).2 :=
  edge_iff.2 ⟨h, rfl⟩

theorem mem_tags {faces : List (List Nat)} {f : Nat} {k : Key} :
    (f, k) ∈ (corners faces).map (tag faces) ↔ ∃ j, Edge faces f j k.1 k.2 := by
  rw [List.mem_map]
  constructor
  · rintro ⟨c, hc, ht⟩
    obtain ⟨rfl, rfl⟩ := Prod.mk.inj ht
    exact ⟨c.2, edge_of_corner hc⟩
  · rintro ⟨j, hj⟩
    obtain ⟨hc, hk⟩ := edge_iff.1 hj
    exact ⟨(f, j), hc, by simp only [tag, hk]⟩

/-- The successor in a face as in the specification. -/
theorem succ_edge {faces : List (List Nat)} {f j a b : Nat} {vs : List Nat} (h : Edge faces f j a b) (hf : faces[f]? = some vs) :
    faces.getD f [] = vs ∧ succV vs j = (j + 1) % vs.length ∧ ∃ c, Edge faces f ((j + 1) % vs.length) b c := by
  obtain ⟨ws, h1, h2, h3⟩ := h
  rw [hf, Option.some.injEq] at h1
  subst h1
  obtain ⟨hj, _⟩ := List.getElem?_eq_some_iff.1 h2
  refine ⟨by rw [List.getD_eq_getElem?_getD, hf]; rfl, ?_, ?_⟩
  · unfold succV
    split
    · rename_i h; rw [h, Nat.mod_self]
    · rw [Nat.mod_eq_of_lt (by omega)]
  · have hlt : ((j + 1) % vs.length + 1) % vs.length < vs.length := Nat.mod_lt _ (by omega)
    exact ⟨vs[((j + 1) % vs.length + 1) % vs.length], vs, hf, h3, List.getElem?_eq_getElem hlt⟩

theorem mapM_range {α : Type} (g : Nat → Option α) : ∀ (n : Nat) (l : List α), (List.range n).mapM g = some l ↔
    l.length = n ∧ ∀ i < n, l[i]? = g i ∧ (g i).isSome
  | 0, l => by
    simp only [List.range_zero, List.mapM_nil]
    constructor
    · intro h
      cases h
      simp
    · rintro ⟨h, _⟩
      rw [List.eq_nil_of_length_eq_zero h]
      rfl
  | n + 1, l => by
    rw [List.range_succ, List.mapM_append]
    constructor
    · intro h
      simp only [Option.bind_eq_bind] at h
      obtain ⟨l1, h1, h⟩ := Option.bind_eq_some_iff.1 h
      obtain ⟨l2, h2, h⟩ := Option.bind_eq_some_iff.1 h
      simp only [List.mapM_cons, List.mapM_nil] at h2
      simp only [Option.bind_eq_bind] at h2
      obtain ⟨x, hx, h2⟩ := Option.bind_eq_some_iff.1 h2
      cases h2
      cases h
      obtain ⟨hl, hi⟩ := (mapM_range g n l1).1 h1
      refine ⟨by simp [hl], ?_⟩
      intro i hlt
      by_cases hin : i = n
      · subst hin
        rw [List.getElem?_append_right (by omega), hl, Nat.sub_self, hx]
        simp
      · rw [List.getElem?_append_left (by omega)]
        exact hi i (by omega)
    · rintro ⟨hl, hi⟩
      have hne : l ≠ [] := by intro h; rw [h] at hl; simp at hl
      obtain ⟨l1, x, rfl⟩ : ∃ l1 x, l = l1 ++ [x] := ⟨l.dropLast, l.getLast hne, (List.dropLast_append_getLast hne).symm⟩
      simp only [List.length_append, List.length_cons, List.length_nil] at hl
      have h1 : (List.range n).mapM g = some l1 := by
        rw [mapM_range g n l1]
        refine ⟨by omega, ?_⟩
        intro i hlt
        have := hi i (by omega)
        rwa [List.getElem?_append_left (by omega)] at this
      have h2 := hi n (by omega)
      rw [List.getElem?_append_right (by omega), show n - l1.length = 0 by omega] at h2
      simp only [List.getElem?_cons_zero] at h2
      rw [h1]
      simp only [List.mapM_cons, List.mapM_nil]
      rw [← h2.1]
      rfl

/-- The result of the whole function in terms of the two runs. -/
theorem compute_iff {nv : Nat} {faces : List (List Nat)} {r : Result} : computeHalfEdges nv faces = some r ↔
    faces ≠ [] ∧ ∃ s, (corners faces).foldlM (visit nv faces) St.init = some s ∧
      ∃ nexts fs, (List.range s.ed.arr.length).mapM (nextIndex s) = some nexts ∧ (List.range faces.length).mapM (faceIndex s) = some fs ∧
        r = { arr := List.zipWith (fun (e : HEdge) n => { e with next := n }) s.ed.arr nexts, faceEdge := fs, vert := s.ed.vert } := by
  unfold computeHalfEdges
  split
  · rename_i h; simp [h]
  · rename_i h
    simp only [Option.bind_eq_bind, Option.bind_eq_some_iff, Option.some.injEq]
    constructor
    · rintro ⟨s, h1, nx, h2, fs, h3, rfl⟩
      exact ⟨h, s, h1, nx, fs, h2, h3, rfl⟩
    · rintro ⟨_, s, h1, nx, fs, h2, h3, rfl⟩
      exact ⟨s, h1, nx, h2, fs, h3, rfl⟩

/-- The state after the first loop. -/
theorem loop_spec {nv : Nat} {faces : List (List Nat)} {s : St} (h : (corners faces).foldlM (visit nv faces) St.init = some s) :
    InvE nv ((corners faces).map (tag faces)) s.ed ∧
    (∀ k k', s.nextE k = some k' ↔ ∃ c ∈ corners faces, key (faces.getD c.1 []) c.2 = k ∧
      key (faces.getD c.1 []) (succV (faces.getD c.1 []) c.2) = k') ∧
    s.faceKey = runFaces ((corners faces).map (tag faces)) (fun _ => none) := by
  rw [loop_eq] at h
  obtain ⟨nx, h1, h⟩ := Option.bind_eq_some_iff.1 h
  obtain ⟨ed, h2, h⟩ := Option.bind_eq_some_iff.1 h
  cases h
  refine ⟨by simpa using runEdges_inv _ [] _ _ (invE_init nv) h2, ?_, rfl⟩
  intro k k'
  rw [(addAll_spec _ _ _ h1).2.2 k k']
  simp only [reduceCtorEq, false_or, List.mem_map, Prod.mk.injEq]

/-! ### The theorems -/

/-- The structure that `computeHalfEdges` builds describes the surface, whenever it is built at all. -/
theorem described {nv : Nat} {faces : List (List Nat)} {r : Result} (h : computeHalfEdges nv faces = some r) :
    Closed nv faces ∧ ∃ hh, Describes faces r hh := by
  obtain ⟨hne, s, hs, nexts, fs, hn, hf, rfl⟩ := compute_iff.1 h
  obtain ⟨inv, hnext, hfk⟩ := loop_spec hs
  obtain ⟨hnl, hni⟩ := (mapM_range _ _ _).1 hn
  obtain ⟨hfl, hfi⟩ := (mapM_range _ _ _).1 hf
  -- every edge whose reverse is present has a next edge with the same property
  have hstep : ∀ f j a b vs, Edge faces f j a b → faces[f]? = some vs → (s.ed.idx (a, b)).isSome →
      ∃ c, Edge faces f ((j + 1) % vs.length) b c ∧ (s.ed.idx (b, c)).isSome ∧
        ∀ i, s.ed.idx (a, b) = some i → nextIndex s i = s.ed.idx (b, c) := by
    intro f j a b vs he hvs hi
    obtain ⟨hg, hsucc, c, hc⟩ := succ_edge he hvs
    obtain ⟨hcor, hkey⟩ := edge_iff.1 he
    obtain ⟨hcor', hkey'⟩ := edge_iff.1 hc
    obtain ⟨i, hi⟩ := Option.isSome_iff_exists.1 hi
    have hk := (inv.idxk _ _).1 hi
    have hlt : i < s.ed.arr.length := (inv.len i).1 (by rw [hk]; rfl)
    have hnx : s.nextE (a, b) = some (b, c) := by
      rw [hnext]
      refine ⟨(f, j), hcor, hkey, ?_⟩
      simp only
      rw [hg, hsucc, ← hg, hg]
      rw [hg] at hkey'
      exact hkey'
    have hcomp : nextIndex s i = s.ed.idx (b, c) := by
      simp only [nextIndex, Option.bind_eq_bind, hk, Option.bind_some, hnx]
    refine ⟨c, hc, ?_, ?_⟩
    · rw [← hcomp]; exact (hni i hlt).2
    · intro i' hi'
      rw [hi, Option.some.injEq] at hi'
      rw [← hi']; exact hcomp
  -- the edge of each face
  have hface : ∀ f < faces.length, ∃ j a b, Edge faces f j a b ∧ ∃ i, s.ed.idx (a, b) = some i ∧ fs[f]? = some i := by
    intro f hlt
    obtain ⟨h1, h2⟩ := hfi f hlt
    obtain ⟨i, hi⟩ := Option.isSome_iff_exists.1 h2
    simp only [faceIndex, Option.bind_eq_bind] at hi
    obtain ⟨k, hk, hki⟩ := Option.bind_eq_some_iff.1 hi
    rw [hfk] at hk
    rcases runFaces_mem _ _ _ _ hk with hk | hk
    · exact absurd hk (by simp)
    · obtain ⟨j, hj⟩ := mem_tags.1 hk
      refine ⟨j, k.1, k.2, hj, i, hki, ?_⟩
      rw [h1]
      simp only [faceIndex, Option.bind_eq_bind]
      exact hi
  -- hence all edges have an index
  have hall : ∀ f j a b, Edge faces f j a b → (s.ed.idx (a, b)).isSome := by
    intro f j a b he
    obtain ⟨vs, hvs, haj, _⟩ := id he
    have hflt : f < faces.length := (List.getElem?_eq_some_iff.1 hvs).1
    obtain ⟨j0, a0, b0, he0, i0, hi0, _⟩ := hface f hflt
    have key : ∀ n, ∃ a b, Edge faces f ((j0 + n) % vs.length) a b ∧ (s.ed.idx (a, b)).isSome := by
      intro n
      induction n with
      | zero =>
        obtain ⟨ws, h1, h2, h3⟩ := id he0
        rw [hvs, Option.some.injEq] at h1
        subst h1
        have := (List.getElem?_eq_some_iff.1 h2).1
        rw [Nat.add_zero, Nat.mod_eq_of_lt this]
        exact ⟨a0, b0, he0, by rw [hi0]; rfl⟩
      | succ n ih =>
        obtain ⟨a, b, hab, hi⟩ := ih
        obtain ⟨c, hc, hi', _⟩ := hstep _ _ _ _ vs hab hvs hi
        rw [Nat.mod_add_mod] at hc
        exact ⟨b, c, hc, hi'⟩
    obtain ⟨ws, h1, h2, h3⟩ := id he0
    rw [hvs, Option.some.injEq] at h1
    subst h1
    have hj0 := (List.getElem?_eq_some_iff.1 h2).1
    have hj := (List.getElem?_eq_some_iff.1 haj).1
    obtain ⟨a', b', hab, hi⟩ := key (vs.length - j0 + j)
    rw [show j0 + (vs.length - j0 + j) = j + vs.length by omega, Nat.add_mod_right, Nat.mod_eq_of_lt hj] at hab
    have e1 := (edge_iff.1 he).2
    have e2 := (edge_iff.1 hab).2
    rw [e1] at e2
    rw [e2]; exact hi
  have horient : ∀ f j f' j' a b, Edge faces f j a b → Edge faces f' j' a b → f = f' ∧ j = j' := by
    intro f j f' j' a b h1 h2
    obtain ⟨hc1, hk1⟩ := edge_iff.1 h1
    obtain ⟨hc2, hk2⟩ := edge_iff.1 h2
    have hnd := inv.nodup
    rw [List.map_map] at hnd
    have := List.inj_on_of_nodup_map hnd hc1 hc2 (by simp only [Function.comp, tag]; rw [hk1, hk2])
    exact Prod.mk.inj this
  have hclosed : Closed nv faces := by
    refine ⟨hne, ?_, ?_, ?_, horient, ?_⟩
    · intro vs hvs
      obtain ⟨f, hlt, hget⟩ := List.getElem_of_mem hvs
      obtain ⟨j, a, b, ⟨ws, h1, h2, _⟩, _⟩ := hface f hlt
      rw [List.getElem?_eq_getElem hlt, Option.some.injEq, hget] at h1
      subst h1
      rintro rfl
      simp at h2
    · intro f j a b he
      exact inv.ranged (a, b) (hall f j a b he)
    · intro f j a b he
      exact inv.loops f (a, b) (mem_tags.2 ⟨j, he⟩)
    · intro f j a b he
      obtain ⟨_, f', hf'⟩ := (inv.pair (a, b)).1 (hall f j a b he)
      obtain ⟨j', hj'⟩ := mem_tags.1 hf'
      exact ⟨f', j', hj'⟩
  refine ⟨hclosed, fun f j => (s.ed.idx (key (faces.getD f []) j)).getD 0, ?_⟩
  have hh : ∀ f j a b, Edge faces f j a b → ∃ i, s.ed.idx (a, b) = some i ∧ (s.ed.idx (key (faces.getD f []) j)).getD 0 = i := by
    intro f j a b he
    obtain ⟨i, hi⟩ := Option.isSome_iff_exists.1 (hall f j a b he)
    refine ⟨i, hi, ?_⟩
    rw [(edge_iff.1 he).2, hi]; rfl
  refine ⟨?_, ?_, ?_, ⟨hfl, ?_⟩, ?_⟩
  · intro f j a b vs he hvs
    obtain ⟨i, hi, hhi⟩ := hh f j a b he
    have hk := (inv.idxk _ _).1 hi
    obtain ⟨e, h1, h2, h3, h4⟩ := inv.arr i _ hk
    have hlt : i < s.ed.arr.length := (inv.len i).1 (by rw [hk]; rfl)
    obtain ⟨c, hc, hic, hcomp⟩ := hstep f j a b vs he hvs (by rw [hi]; rfl)
    obtain ⟨n, hn1⟩ := Option.isSome_iff_exists.1 hic
    obtain ⟨n', hn2, hn3⟩ := hh _ _ _ _ hc
    obtain ⟨f', j', htw⟩ := hclosed.closed f j a b he
    obtain ⟨t, ht, hht⟩ := hh _ _ _ _ htw
    refine ⟨{ e with next := n }, ?_, h2, ?_, ?_, f', j', htw, ?_⟩
    · simp only
      rw [hhi, List.getElem?_zipWith, h1]
      have := (hni i hlt).1
      rw [hcomp i hi, hn1] at this
      rw [this]
    · obtain ⟨j1, he1⟩ := mem_tags.1 h3
      exact (horient _ _ _ _ _ _ he1 he).1
    · simp only
      rw [hn3]
      rw [hn1, Option.some.injEq] at hn2
      exact hn2
    · simp only
      rw [hht]
      have h5 : s.ed.idx (b, a) = some e.twin := h4
      rw [ht, Option.some.injEq] at h5
      exact h5.symm
  · intro f j a b f' j' a' b' h1 h2 heq
    obtain ⟨i, hi, hhi⟩ := hh _ _ _ _ h1
    obtain ⟨i', hi', hhi'⟩ := hh _ _ _ _ h2
    simp only [hhi, hhi'] at heq
    subst heq
    have e1 := (inv.idxk _ _).1 hi
    have e2 := (inv.idxk _ _).1 hi'
    rw [e1, Option.some.injEq] at e2
    obtain ⟨rfl, rfl⟩ := Prod.mk.inj e2
    exact horient _ _ _ _ _ _ h1 h2
  · intro i hi
    simp only [List.length_zipWith, hnl, Nat.min_self] at hi
    obtain ⟨k, hk⟩ := Option.isSome_iff_exists.1 ((inv.len i).2 hi)
    obtain ⟨e, _, _, h3, _⟩ := inv.arr i k hk
    obtain ⟨j, hj⟩ := mem_tags.1 h3
    refine ⟨e.face, j, k.1, k.2, hj, ?_⟩
    obtain ⟨i', hi', hhi'⟩ := hh _ _ _ _ hj
    rw [hhi']
    have := (inv.idxk k i).2 hk
    rw [show (k.1, k.2) = k from rfl, this, Option.some.injEq] at hi'
    exact hi'.symm
  · intro f hlt
    obtain ⟨j, a, b, he, i, hi, hfs⟩ := hface f hlt
    refine ⟨j, a, b, he, ?_⟩
    obtain ⟨i', hi', hhi'⟩ := hh _ _ _ _ he
    rw [hhi']
    rw [hi, Option.some.injEq] at hi'
    rw [← hi']; exact hfs
  · intro f j a b he
    obtain ⟨k', hk', hk1⟩ := inv.vert (a, b) (hall f j a b he)
    simp only at hk1 hk'
    obtain ⟨⟨g, hg⟩, _⟩ := (inv.pair k').1 (by rw [hk']; rfl)
    obtain ⟨j', hj'⟩ := mem_tags.1 hg
    rw [hk1] at hj'
    refine ⟨g, j', k'.2, hj', ?_⟩
    obtain ⟨i', hi', hhi'⟩ := hh _ _ _ _ hj'
    simp only [hhi']
    rw [← hk1, show (k'.1, k'.2) = k' from rfl, hk', Option.some.injEq] at hi'
    exact hi'

/-- C54: on a closed, consistently oriented mesh `computeHalfEdges` is defined and its half-edges describe the mesh. -/
theorem half_edges {nv : Nat} {faces : List (List Nat)} (hc : Closed nv faces) :
    ∃ r hh, computeHalfEdges nv faces = some r ∧ Describes faces r hh := by
  have hnd : ((corners faces).map fun c => key (faces.getD c.1 []) c.2).Nodup := by
    refine (nodup_corners faces).map_on ?_
    intro c1 h1 c2 h2 he
    have e1 := edge_of_corner h1
    have e2 := edge_of_corner h2
    rw [he] at e1
    obtain ⟨a, b⟩ := hc.oriented _ _ _ _ _ _ e1 e2
    exact Prod.ext a b
  obtain ⟨nx, hnx⟩ := addAll_some ((corners faces).map fun c =>
    (key (faces.getD c.1 []) c.2, key (faces.getD c.1 []) (succV (faces.getD c.1 []) c.2))) (fun _ => none) (fun _ _ => rfl) (by
      rw [List.map_map]; exact hnd)
  obtain ⟨ed, hed⟩ := runEdges_some (nv := nv) ((corners faces).map (tag faces)) [] St.init.ed (invE_init nv) (by
      rw [List.nil_append, List.map_map]; exact hnd) (by
    intro p hp
    obtain ⟨j, hj⟩ := mem_tags.1 (show (p.1, p.2) ∈ _ from hp)
    obtain ⟨f', j', hj'⟩ := hc.closed _ _ _ _ hj
    exact ⟨hc.no_loop _ _ _ _ hj, hc.range _ _ _ _ hj, hc.range _ _ _ _ hj'⟩)
  have hs : (corners faces).foldlM (visit nv faces) St.init =
      some ⟨ed, nx, runFaces ((corners faces).map (tag faces)) (fun _ => none)⟩ := by
    rw [loop_eq, hnx, Option.bind_some, hed, Option.bind_some]
  obtain ⟨inv, hnext, hfk⟩ := loop_spec hs
  simp only at inv hnext hfk
  have hall : ∀ f j a b, Edge faces f j a b → (ed.idx (a, b)).isSome := by
    intro f j a b he
    rw [inv.pair]
    obtain ⟨f', j', hj'⟩ := hc.closed _ _ _ _ he
    exact ⟨⟨f, mem_tags.2 ⟨j, he⟩⟩, ⟨f', mem_tags.2 ⟨j', hj'⟩⟩⟩
  have hnexts : ∃ nexts, (List.range ed.arr.length).mapM
      (nextIndex ⟨ed, nx, runFaces ((corners faces).map (tag faces)) (fun _ => none)⟩) = some nexts := by
    have hp : ∀ i < ed.arr.length, (nextIndex ⟨ed, nx, runFaces ((corners faces).map (tag faces)) (fun _ => none)⟩ i).isSome := by
      intro i hi
      obtain ⟨k, hk⟩ := Option.isSome_iff_exists.1 ((inv.len i).2 hi)
      obtain ⟨e, _, _, h3, _⟩ := inv.arr i k hk
      obtain ⟨j, hj⟩ := mem_tags.1 h3
      obtain ⟨vs, hvs, _⟩ := id hj
      obtain ⟨hg, hsucc, c, hcc⟩ := succ_edge hj hvs
      have hcor := (edge_iff.1 hj)
      have hcor' := (edge_iff.1 hcc).2
      have : nx k = some (k.2, c) := by
        rw [hnext]
        refine ⟨(e.face, j), hcor.1, hcor.2, ?_⟩
        simp only
        rw [hg, hsucc]
        rw [hg] at hcor'
        exact hcor'
      simp only [nextIndex, Option.bind_eq_bind, hk, Option.bind_some, this]
      exact hall _ _ _ _ hcc
    refine ⟨(List.range ed.arr.length).map fun i =>
      (nextIndex ⟨ed, nx, runFaces ((corners faces).map (tag faces)) (fun _ => none)⟩ i).getD 0, ?_⟩
    rw [mapM_range]
    refine ⟨by simp, ?_⟩
    intro i hi
    refine ⟨?_, hp i hi⟩
    obtain ⟨n, hn⟩ := Option.isSome_iff_exists.1 (hp i hi)
    rw [List.getElem?_map, List.getElem?_range hi, Option.map_some, hn]
    rfl
  have hfs : ∃ fs, (List.range faces.length).mapM
      (faceIndex ⟨ed, nx, runFaces ((corners faces).map (tag faces)) (fun _ => none)⟩) = some fs := by
    have hp : ∀ i < faces.length, (faceIndex ⟨ed, nx, runFaces ((corners faces).map (tag faces)) (fun _ => none)⟩ i).isSome := by
      intro f hlt
      have hlen : 0 < faces[f].length := List.length_pos_iff.2 (hc.faces_ne _ (List.getElem_mem hlt))
      have hcor : (f, 0) ∈ corners faces := by
        rw [mem_corners]
        refine ⟨hlt, ?_⟩
        simp only
        rw [List.getD_eq_getElem?_getD, List.getElem?_eq_getElem hlt]
        exact hlen
      have hsome := runFaces_some ((corners faces).map (tag faces)) (fun _ => none) f
        (Or.inr ⟨_, mem_tags.2 ⟨0, edge_of_corner hcor⟩⟩)
      obtain ⟨k, hk⟩ := Option.isSome_iff_exists.1 hsome
      rcases runFaces_mem _ _ _ _ hk with h | h
      · exact absurd h (by simp)
      · obtain ⟨j, hj⟩ := mem_tags.1 h
        simp only [faceIndex, Option.bind_eq_bind, hk, Option.bind_some]
        exact hall _ _ _ _ hj
    refine ⟨(List.range faces.length).map fun i =>
      (faceIndex ⟨ed, nx, runFaces ((corners faces).map (tag faces)) (fun _ => none)⟩ i).getD 0, ?_⟩
    rw [mapM_range]
    refine ⟨by simp, ?_⟩
    intro i hi
    refine ⟨?_, hp i hi⟩
    obtain ⟨n, hn⟩ := Option.isSome_iff_exists.1 (hp i hi)
    rw [List.getElem?_map, List.getElem?_range hi, Option.map_some, hn]
    rfl
  obtain ⟨nexts, hnexts⟩ := hnexts
  obtain ⟨fs, hfs⟩ := hfs
  have hcomp := compute_iff.2 ⟨hc.some_face, _, hs, nexts, fs, hnexts, hfs, rfl⟩
  obtain ⟨_, hh, hd⟩ := described hcomp
  exact ⟨_, hh, hcomp, hd⟩

/-- C54: the structure is built exactly for the closed meshes. -/
theorem defined_iff_closed (nv : Nat) (faces : List (List Nat)) : (computeHalfEdges nv faces).isSome ↔ Closed nv faces := by
  constructor
  · intro h
    obtain ⟨r, hr⟩ := Option.isSome_iff_exists.1 h
    exact (described hr).1
  · intro h
    obtain ⟨r, _, hr, _⟩ := half_edges h
    rw [hr]; rfl

/-- C54: the twin of the twin of a half-edge is the half-edge, it belongs to the edge in the other direction and is another half-edge. -/
theorem twin_of_twin {nv : Nat} {faces : List (List Nat)} {r : Result} (h : computeHalfEdges nv faces = some r) (i : Nat) (e : HEdge)
    (hi : r.arr[i]? = some e) : ∃ t n, r.arr[e.twin]? = some t ∧ r.arr[e.next]? = some n ∧ t.twin = i ∧ e.twin ≠ i ∧ t.vertex = n.vertex := by
  obtain ⟨hc, hh, hd⟩ := described h
  obtain ⟨f, j, a, b, he, hij⟩ := hd.surj i (List.getElem?_eq_some_iff.1 hi).1
  obtain ⟨vs, hvs, _⟩ := id he
  obtain ⟨e', h1, _, _, hnext, f', j', htw, htwin⟩ := hd.edge f j a b vs he hvs
  rw [hij, hi, Option.some.injEq] at h1
  subst h1
  obtain ⟨vs', hvs', _⟩ := id htw
  obtain ⟨t, ht, htv, _, _, f'', j'', htw', htwin'⟩ := hd.edge f' j' b a vs' htw hvs'
  obtain ⟨_, _, c, hcE⟩ := succ_edge he hvs
  obtain ⟨n, hn, hnv, _⟩ := hd.edge f _ b c vs hcE hvs
  refine ⟨t, n, by rw [htwin]; exact ht, by rw [hnext]; exact hn, ?_, ?_, by rw [htv, hnv]⟩
  · obtain ⟨rfl, rfl⟩ := hc.oriented _ _ _ _ _ _ htw' he
    rw [htwin', hij]
  · intro heq
    rw [htwin, ← hij] at heq
    obtain ⟨rfl, rfl⟩ := hd.inj _ _ _ _ _ _ _ _ htw he heq
    have e1 := (edge_iff.1 htw).2
    have e2 := (edge_iff.1 he).2
    rw [e1] at e2
    exact hc.no_loop _ _ _ _ he (Prod.mk.inj e2).2

/-- Following `next` from the half-edge of a face. -/
def walk (r : Result) (i : Nat) : Nat → Option Nat
  | 0 => some i
  | n + 1 => (walk r i n).bind fun m => (r.arr[m]?).map HEdge.next

/-- C54: the walk along `next` from the half-edge of a face visits the vertices of the face in their order, starting somewhere, and returns
after as many steps as the face has vertices. -/
theorem walk_around_face {nv : Nat} {faces : List (List Nat)} {r : Result} (h : computeHalfEdges nv faces = some r) (f : Nat) (vs : List Nat)
    (hf : faces[f]? = some vs) : ∃ i0 j0, r.faceEdge[f]? = some i0 ∧ walk r i0 vs.length = some i0 ∧
      ∀ n, ∃ m e, walk r i0 n = some m ∧ r.arr[m]? = some e ∧ e.face = f ∧ vs[(j0 + n) % vs.length]? = some e.vertex := by
  obtain ⟨hc, hh, hd⟩ := described h
  obtain ⟨j0, a, b, he, hfe⟩ := hd.ofFace.2 f (List.getElem?_eq_some_iff.1 hf).1
  have hj0 : j0 < vs.length := by
    obtain ⟨ws, h1, h2, _⟩ := id he
    rw [hf, Option.some.injEq] at h1
    subst h1
    exact (List.getElem?_eq_some_iff.1 h2).1
  have hw : ∀ n, walk r (hh f j0) n = some (hh f ((j0 + n) % vs.length)) ∧ ∃ a b, Edge faces f ((j0 + n) % vs.length) a b := by
    intro n
    induction n with
    | zero =>
      rw [Nat.add_zero, Nat.mod_eq_of_lt hj0]
      exact ⟨rfl, a, b, he⟩
    | succ n ih =>
      obtain ⟨hwn, a', b', he'⟩ := ih
      obtain ⟨e, h1, _, _, h4, _⟩ := hd.edge f _ a' b' vs he' hf
      obtain ⟨_, _, c, hcE⟩ := succ_edge he' hf
      rw [Nat.mod_add_mod] at h4 hcE
      refine ⟨?_, b', c, hcE⟩
      simp only [walk, hwn, Option.bind_some, h1, Option.map_some, h4]
      rfl
  refine ⟨hh f j0, j0, hfe, ?_, ?_⟩
  · rw [(hw vs.length).1, Nat.add_mod_right, Nat.mod_eq_of_lt hj0]
  · intro n
    obtain ⟨hwn, a', b', he'⟩ := hw n
    obtain ⟨e, h1, h2, h3, _⟩ := hd.edge f _ a' b' vs he' hf
    obtain ⟨ws, g1, g2, _⟩ := id he'
    rw [hf, Option.some.injEq] at g1
    subst g1
    exact ⟨_, e, hwn, h1, h3, by rw [h2]; exact g2⟩

/-- `initBoxShapeHalfEdgeStructure` (PhysicsCommon.cpp:73-112). -/
def boxFaces : List (List Nat) := [[0, 1, 2, 3], [1, 5, 6, 2], [4, 7, 6, 5], [4, 0, 3, 7], [4, 5, 1, 0], [2, 6, 7, 3]]

/-- `initTriangleShapeHalfEdgeStructure` (PhysicsCommon.cpp:115-135). -/
def triangleFaces : List (List Nat) := [[0, 1, 2], [0, 2, 1]]

/-- C54: the structure of the boxes is defined, with 24 half-edges. -/
theorem box_structure : ∃ r, computeHalfEdges 8 boxFaces = some r ∧ r.arr.length = 24 ∧ Closed 8 boxFaces := by
  have h : ((computeHalfEdges 8 boxFaces).map fun r => r.arr.length) = some 24 := by decide +kernel
  obtain ⟨r, hr, hl⟩ := Option.map_eq_some_iff.1 h
  exact ⟨r, hr, hl, (described hr).1⟩

/-- C54: the structure of the triangles (two faces, back to back) is defined, with 6 half-edges. -/
theorem triangle_structure : ∃ r, computeHalfEdges 3 triangleFaces = some r ∧ r.arr.length = 6 ∧ Closed 3 triangleFaces := by
  have h : ((computeHalfEdges 3 triangleFaces).map fun r => r.arr.length) = some 6 := by decide +kernel
  obtain ⟨r, hr, hl⟩ := Option.map_eq_some_iff.1 h
  exact ⟨r, hr, hl, (described hr).1⟩

/-- The hypothesis of `half_edges` holds for a mesh with faces of different sizes: a pyramid. -/
example : Closed 5 [[0, 1, 2, 3], [1, 0, 4], [2, 1, 4], [3, 2, 4], [0, 3, 4]] :=
  (defined_iff_closed _ _).1 (by decide +kernel)

/-! ### Malformed meshes -/

theorem facesNormals_spec (area : Nat → Bool) (faces : List (List Nat)) (h3 : ∀ vs ∈ faces, 3 ≤ vs.length) : ∀ (m n : Nat) (ok : Bool),
    n + m ≤ faces.length → facesNormals area faces (List.range' n m) (n, ok) = some (n + m, ok && (List.range' n m).all area)
  | 0, n, ok, _ => by simp [facesNormals]
  | m + 1, n, ok, h => by
    have hlt : n < faces.length := by omega
    have hg : faces.getD n [] = faces[n] := by rw [List.getD_eq_getElem?_getD, List.getElem?_eq_getElem hlt]; rfl
    rw [List.range'_succ]
    simp only [facesNormals]
    rw [if_pos (by rw [hg]; exact h3 _ (List.getElem_mem hlt)), if_pos (by omega), facesNormals_spec area faces h3 m (n + 1) _ (by omega)]
    simp only [List.all_cons, Bool.and_assoc]
    rw [show n + 1 + m = n + (m + 1) by omega]

/-- C72, partial: if every face has three vertices and the surface is closed, `ConvexMesh::init` is defined, and it accepts the mesh exactly if
the formula of Euler holds and no face has a zero area. Missing: meshes with other defects, see the theorems below. -/
theorem malformed_reported_partial (area : Nat → Bool) {nv : Nat} {faces : List (List Nat)} (hc : Closed nv faces) (h3 : ∀ vs ∈ faces, 3 ≤ vs.length) :
    ∃ ok, initMesh area nv faces = some ok ∧
      (ok = true ↔ nv + faces.length = 2 + (faces.map List.length).sum / 2 ∧ ∀ f < faces.length, area f = true) := by
  obtain ⟨r, _, hr, _⟩ := half_edges hc
  have hn := facesNormals_spec area faces h3 faces.length 0 true (by omega)
  rw [← List.range_eq_range'] at hn
  have hv : volumeDefined faces (0 + faces.length) = true := by
    unfold volumeDefined
    simp only [decide_eq_true_eq]
    intro f hlt
    rw [List.getD_eq_getElem?_getD, List.getElem?_eq_getElem hlt]
    exact ⟨h3 _ (List.getElem_mem hlt), by omega⟩
  have hpos : 0 < nv := by
    obtain ⟨vs, hvs⟩ := List.exists_mem_of_ne_nil _ hc.some_face
    obtain ⟨f, hlt, hget⟩ := List.getElem_of_mem hvs
    have hlen := h3 vs hvs
    have hcor : (f, 0) ∈ corners faces := by
      rw [mem_corners]
      refine ⟨hlt, ?_⟩
      simp only
      rw [List.getD_eq_getElem?_getD, List.getElem?_eq_getElem hlt, hget]
      exact Nat.lt_of_lt_of_le (by omega) hlen
    have := hc.range _ _ _ _ (edge_of_corner hcor)
    omega
  refine ⟨checks nv faces && (List.range faces.length).all area, ?_, ?_⟩
  · unfold initMesh
    simp only [Option.bind_eq_bind]
    rw [hr, hn]
    simp only [Option.bind_some]
    rw [if_pos hv]
    simp [hpos]
  · unfold checks
    simp only [Bool.and_eq_true, decide_eq_true_eq, List.all_eq_true, List.mem_range]
    constructor
    · rintro ⟨⟨_, h1⟩, h2⟩
      exact ⟨by omega, h2⟩
    · rintro ⟨h1, h2⟩
      exact ⟨⟨h3, by omega⟩, h2⟩

/-- The hypotheses hold for a tetrahedron, which is accepted; the same surface with a vertex that no face uses is reported as invalid. -/
example : initMesh (fun _ => true) 4 [[0, 1, 2], [0, 3, 1], [1, 3, 2], [0, 2, 3]] = some true ∧
    initMesh (fun _ => true) 5 [[0, 1, 2], [0, 3, 1], [1, 3, 2], [0, 2, 3]] = some false := by decide +kernel

/-- C72 fails: a tetrahedron with one face turned inside out passes all the checks of `ConvexMesh::init`, so no error is reported, and the call
is undefined (two half-edges with the same key). -/
theorem inconsistent_mesh_undefined :
    checks 4 [[0, 1, 2], [0, 1, 3], [1, 3, 2], [0, 2, 3]] = true ∧
    initMesh (fun _ => true) 4 [[0, 1, 2], [0, 1, 3], [1, 3, 2], [0, 2, 3]] = none := by
  decide +kernel

/-- C72 fails: a face of two vertices is recognised as an error, but `init` goes on and is undefined; here the surface is closed, so the
half-edges are built, but a face has no normal. -/
theorem small_face_undefined :
    checks 5 [[0, 1, 2], [0, 2, 1], [3, 4]] = false ∧ (computeHalfEdges 5 [[0, 1, 2], [0, 2, 1], [3, 4]]).isSome = true ∧
    initMesh (fun _ => true) 5 [[0, 1, 2], [0, 2, 1], [3, 4]] = none := by
  decide +kernel

/-- C72 fails: a mesh with a hole (a box without its last face) does not satisfy the formula of Euler, but `init` is undefined before
the error is returned. -/
theorem open_mesh_undefined : checks 8 boxFaces.dropLast = false ∧ initMesh (fun _ => true) 8 boxFaces.dropLast = none := by
  decide +kernel

end MeshProps
end RP3D
