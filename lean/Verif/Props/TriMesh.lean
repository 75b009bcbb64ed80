import Verif.Mesh.Triangles
import Verif.Props.Tree
import Verif.Props.Transform
import Mathlib.Tactic.Linarith
import Mathlib.Tactic.Ring
import Mathlib.Tactic.FieldSimp

/-! C82: the triangles of a mesh are the user's triangles. C83: the normals of the vertices. -/

namespace RP3D
namespace TriProps
open TriMesh

variable {K : Type} [Field K] [LinearOrder K]

/-- Specification: the user's triangle has its vertices in the array, and is not degenerate: the square of twice its area and the squares of
its edges are at least `e2`. -/
def Good (u : User K) (e2 : K) (t : Nat × Nat × Nat) : Prop :=
  (t.1 < u.nv ∧ t.2.1 < u.nv ∧ t.2.2 < u.nv) ∧
    e2 ≤ ((u.vert t.2.1 - u.vert t.1).cross (u.vert t.2.2 - u.vert t.1)).lengthSq ∧
    e2 ≤ (u.vert t.2.1 - u.vert t.1).lengthSq ∧ e2 ≤ (u.vert t.2.2 - u.vert t.2.1).lengthSq ∧ e2 ≤ (u.vert t.2.2 - u.vert t.1).lengthSq

instance (u : User K) (e2 : K) (t : Nat × Nat × Nat) : Decidable (Good u e2 t) := by unfold Good; infer_instance

/-- Specification: the good triangles, in the user's order. -/
def good (u : User K) (e2 : K) : List (Nat × Nat × Nat) := u.tris.filter fun t => decide (Good u e2 t)

/-- The indices of the vertices of triangles. -/
def flat (l : List (Nat × Nat × Nat)) : List Nat := l.flatMap fun t => [t.1, t.2.1, t.2.2]

theorem good_iff (u : User K) (e2 : K) (t : Nat × Nat × Nat) : Good u e2 t ↔
    ¬ (t.1 ≥ u.nv ∨ t.2.1 ≥ u.nv ∨ t.2.2 ≥ u.nv) ∧ ¬ degenerate e2 (u.vert t.1) (u.vert t.2.1) (u.vert t.2.2) := by
  have h1 : ((u.vert t.2.2 - u.vert t.1).cross (u.vert t.2.1 - u.vert t.1)).lengthSq =
      ((u.vert t.2.1 - u.vert t.1).cross (u.vert t.2.2 - u.vert t.1)).lengthSq := by
    simp only [V3.lengthSq, V3.cross]; ring
  have h2 : (u.vert t.1 - u.vert t.2.2).lengthSq = (u.vert t.2.2 - u.vert t.1).lengthSq := by
    simp only [V3.lengthSq, V3.sub_x, V3.sub_y, V3.sub_z]; ring
  unfold Good degenerate
  rw [h1, h2]
  simp only [not_or, not_le, not_lt, ge_iff_le]

/-- What is stored after some of the faces. -/
structure Copied (u : User K) (e2 : K) (done : List (Nat × Nat × Nat)) (c : Copy K) : Prop where
  nv : c.mesh.verts.length = u.nv
  nn : c.mesh.normals.length = u.nv
  nu : c.used.length = u.nv
  tris : c.mesh.tris = flat (done.filter fun t => decide (Good u e2 t))
  range : ∀ i ∈ c.mesh.tris, i < u.nv
  vert : ∀ i ∈ c.mesh.tris, c.mesh.verts[i]? = some (u.vert i)
  normal : ∀ i ∈ c.mesh.tris, c.mesh.normals[i]? = some (normalOf u i)
  used : ∀ i, c.used[i]? = some true ↔ i ∈ c.mesh.tris
  valid : c.valid = true ↔ (∀ t ∈ done, t.1 < u.nv ∧ t.2.1 < u.nv ∧ t.2.2 < u.nv) ∧
    (u.normal.isSome = true → ∀ i ∈ c.mesh.tris, e2 ≤ (normalOf u i).lengthSq)

theorem set3_get {α : Type} {l : List α} {a b d i : Nat} {f : Nat → α} (ha : a < l.length) (hb : b < l.length) (hd : d < l.length) :
    (((l.set a (f a)).set b (f b)).set d (f d))[i]? = if i = a ∨ i = b ∨ i = d then some (f i) else l[i]? := by
  simp only [List.getElem?_set, List.length_set]
  by_cases h1 : d = i
  · subst h1; simp [hd]
  · by_cases h2 : b = i
    · subst h2; simp [h1, hb]
    · by_cases h3 : a = i
      · subst h3; simp [h1, h2, ha]
      · have e1 : ¬ i = d := fun e => h1 e.symm
        have e2 : ¬ i = b := fun e => h2 e.symm
        have e3 : ¬ i = a := fun e => h3 e.symm
        simp [h1, h2, h3, e1, e2, e3]

theorem copyFace_spec {u : User K} {e2 : K} {done : List (Nat × Nat × Nat)} {c : Copy K} (h : Copied u e2 done c) (t : Nat × Nat × Nat) :
    Copied u e2 (done ++ [t]) (copyFace u e2 c t) := by
  obtain ⟨a, b, d⟩ := t
  unfold copyFace
  simp only
  have hg := good_iff u e2 (a, b, d)
  simp only at hg
  by_cases h1 : a ≥ u.nv ∨ b ≥ u.nv ∨ d ≥ u.nv
  · rw [if_pos h1]
    have hn : ¬ Good u e2 (a, b, d) := fun hh => (hg.1 hh).1 h1
    refine ⟨h.nv, h.nn, h.nu, ?_, h.range, h.vert, h.normal, h.used, ?_⟩
    · rw [List.filter_append]; simp [hn, h.tris]
    · simp only [Bool.false_eq_true, false_iff, not_and]
      intro hh
      have := hh (a, b, d) (by simp)
      simp only at this
      omega
  rw [if_neg h1]
  by_cases h2 : degenerate e2 (u.vert a) (u.vert b) (u.vert d)
  · rw [if_pos h2]
    have hn : ¬ Good u e2 (a, b, d) := fun hh => (hg.1 hh).2 h2
    refine ⟨h.nv, h.nn, h.nu, ?_, h.range, h.vert, h.normal, h.used, ?_⟩
    · rw [List.filter_append]; simp [hn, h.tris]
    · rw [h.valid]
      refine and_congr ⟨?_, ?_⟩ Iff.rfl
      · intro hh t ht
        rcases List.mem_append.1 ht with ht | ht
        · exact hh t ht
        · rw [List.mem_singleton.1 ht]; simp only; omega
      · intro hh t ht
        exact hh t (List.mem_append_left _ ht)
  rw [if_neg h2]
  have hy : Good u e2 (a, b, d) := hg.2 ⟨h1, h2⟩
  have ha : a < u.nv := by omega
  have hb : b < u.nv := by omega
  have hd : d < u.nv := by omega
  have hv := fun i => set3_get (l := c.mesh.verts) (f := u.vert) (i := i) (h.nv.symm ▸ ha) (h.nv.symm ▸ hb) (h.nv.symm ▸ hd)
  have hn := fun i => set3_get (l := c.mesh.normals) (f := normalOf u) (i := i) (h.nn.symm ▸ ha) (h.nn.symm ▸ hb) (h.nn.symm ▸ hd)
  have hu := fun i => set3_get (l := c.used) (f := fun _ => true) (i := i) (h.nu.symm ▸ ha) (h.nu.symm ▸ hb) (h.nu.symm ▸ hd)
  have hm : ∀ i, i ∈ c.mesh.tris ++ [a, b, d] ↔ i ∈ c.mesh.tris ∨ (i = a ∨ i = b ∨ i = d) := by intro i; simp
  refine ⟨by simp [h.nv], by simp [h.nn], by simp [h.nu], ?_, ?_, ?_, ?_, ?_, ?_⟩
  · rw [List.filter_append]; simp [hy, h.tris, flat]
  · intro i hi
    rcases (hm i).1 hi with hi | rfl | rfl | rfl
    · exact h.range i hi
    all_goals assumption
  · intro i hi
    rw [hv]
    split_ifs with hh
    · rfl
    · exact h.vert i (((hm i).1 hi).resolve_right hh)
  · intro i hi
    rw [hn]
    split_ifs with hh
    · rfl
    · exact h.normal i (((hm i).1 hi).resolve_right hh)
  · intro i
    rw [hu, hm]
    split_ifs with hh
    · simp [hh]
    · simp [hh, h.used i]
  · simp only [Bool.and_eq_true, h.valid, Bool.not_eq_true', Bool.and_eq_false_iff, decide_eq_false_iff_not, not_lt]
    constructor
    · rintro ⟨⟨⟨⟨q1, q2⟩, q3⟩, q4⟩, q5⟩
      refine ⟨?_, ?_⟩
      · intro t ht
        rcases List.mem_append.1 ht with ht | ht
        · exact q1 t ht
        · rw [List.mem_singleton.1 ht]; exact ⟨ha, hb, hd⟩
      · intro hs i hi
        have hs' : ¬ u.normal.isSome = false := by simp [hs]
        rcases (hm i).1 hi with hi | rfl | rfl | rfl
        · exact q2 hs i hi
        · exact q3.resolve_left hs'
        · exact q4.resolve_left hs'
        · exact q5.resolve_left hs'
    · rintro ⟨q1, q2⟩
      have key : ∀ i, i ∈ c.mesh.tris ++ [a, b, d] → u.normal.isSome = false ∨ e2 ≤ (normalOf u i).lengthSq := by
        intro i hi
        cases hs : u.normal.isSome
        · exact Or.inl rfl
        · exact Or.inr (q2 hs i hi)
      exact ⟨⟨⟨⟨fun t ht => q1 t (List.mem_append_left _ ht), fun hs i hi => q2 hs i (List.mem_append_left _ hi)⟩, key a (by simp)⟩,
        key b (by simp)⟩, key d (by simp)⟩

theorem copyFaces_spec {u : User K} {e2 : K} : ∀ (l done : List (Nat × Nat × Nat)) (c : Copy K), Copied u e2 done c →
    Copied u e2 (done ++ l) (l.foldl (copyFace u e2) c)
  | [], done, c, h => by simpa using h
  | t :: l, done, c, h => by
    have := copyFaces_spec l (done ++ [t]) _ (copyFace_spec h t)
    simpa using this

/-! ### Unused vertices -/

/-- The state of the loop before the index `i`: what was stored for the user's index `o` is now found under `σ o`. -/
structure Removing {u : User K} (orig : List Nat) (i : Nat) (σ : Nat → Nat) (m : TMesh K) : Prop where
  tris : m.tris = orig.map σ
  low : ∀ o ∈ orig, o ≤ i → σ o = o
  high : ∀ o ∈ orig, i < o → i < σ o
  len : m.normals.length = m.verts.length
  big : i < m.verts.length
  vert : ∀ o ∈ orig, m.verts[σ o]? = some (u.vert o)
  normal : ∀ o ∈ orig, m.normals[σ o]? = some (normalOf u o)
  usedAbove : ∀ v, i < v → v < m.verts.length → v ∈ m.tris

theorem removeLoop_spec {u : User K} {orig : List Nat} {used : List Bool} (hu : ∀ i, used[i]? = some true ↔ i ∈ orig) :
    ∀ (i : Nat) (σ : Nat → Nat) (m : TMesh K), Removing (u := u) orig i σ m → i < used.length →
      ∃ σ' m', removeLoop used i m = some m' ∧ Removing (u := u) orig 0 σ' m' := by
  intro i
  induction i with
  | zero => intro σ m h _; exact ⟨σ, m, rfl, h⟩
  | succ i ih =>
    intro σ m h hi
    unfold removeLoop
    cases hui : used[i + 1]? with
    | none => simp at hui; omega
    | some b =>
      have hlow := h.big
      cases b with
      | true =>
        have hmem := (hu (i + 1)).1 hui
        refine ih σ m ⟨h.tris, fun o ho hh => h.low o ho (by omega), ?_, h.len, by omega, h.vert, h.normal, ?_⟩ (by omega)
        · intro o ho hh
          by_cases e : o = i + 1
          · rw [h.low o ho (by omega)]; omega
          · have := h.high o ho (by omega); omega
        · intro v hv hl
          by_cases e : v = i + 1
          · rw [h.tris, e]
            exact List.mem_map.2 ⟨i + 1, hmem, h.low _ hmem (le_refl _)⟩
          · exact h.usedAbove v (by omega) hl
      | false =>
        have hmem : i + 1 ∉ orig := fun hh => by rw [(hu (i + 1)).2 hh] at hui; simp at hui
        have hcase : ∀ o ∈ orig, (o ≤ i ∧ σ o = o) ∨ (i + 1 < o ∧ i + 1 < σ o) := by
          intro o ho
          by_cases e : o ≤ i + 1
          · left
            have : o ≠ i + 1 := fun e => hmem (e ▸ ho)
            exact ⟨by omega, h.low o ho e⟩
          · right
            exact ⟨by omega, h.high o ho (by omega)⟩
        have hnot : i + 1 ∉ m.tris := by
          rw [h.tris]
          intro hh
          obtain ⟨o, ho, e⟩ := List.mem_map.1 hh
          rcases hcase o ho with hc | hc <;> omega
        simp only
        rw [if_pos ⟨h.big, by rw [h.len]; exact h.big, hnot⟩]
        have hget : ∀ {α : Type} (l : List α) (o : Nat), o ∈ orig →
            (l.eraseIdx (i + 1))[if σ o > i + 1 then σ o - 1 else σ o]? = l[σ o]? := by
          intro α l o ho
          rcases hcase o ho with hc | hc
          · rw [if_neg (show ¬ σ o > i + 1 by omega), List.getElem?_eraseIdx, if_pos (by omega)]
          · rw [if_pos hc.2, List.getElem?_eraseIdx, if_neg (by omega)]
            congr 1; omega
        refine ih (fun o => if σ o > i + 1 then σ o - 1 else σ o) _ ⟨?_, ?_, ?_, ?_, ?_, ?_, ?_, ?_⟩ (by omega)
        · simp only [h.tris, List.map_map]; rfl
        · intro o ho hh
          rcases hcase o ho with hc | hc
          · rw [if_neg (by omega)]; exact hc.2
          · omega
        · intro o ho hh
          rcases hcase o ho with hc | hc
          · omega
          · rw [if_pos hc.2]; omega
        · simp only [List.length_eraseIdx, h.len]
        · simp only [List.length_eraseIdx]
          rw [if_pos h.big]; omega
        · intro o ho
          simp only
          rw [hget _ o ho]; exact h.vert o ho
        · intro o ho
          simp only
          rw [hget _ o ho]; exact h.normal o ho
        · intro v hv hl
          simp only [List.length_eraseIdx] at hl
          rw [if_pos h.big] at hl
          have := h.usedAbove (v + 1) (by omega) (by omega)
          simp only
          refine List.mem_map.2 ⟨v + 1, this, ?_⟩
          rw [if_pos (by omega)]; omega

/-! ### The theorems -/

/-- Specification: the mesh has the given triangles, in this order, with the positions of the user's vertices. -/
def HasTriangles (u : User K) (m : TMesh K) (l : List (Nat × Nat × Nat)) : Prop :=
  m.tris.length = 3 * l.length ∧
    ∀ k (h : k < l.length), m.triangle k = some (u.vert l[k].1, u.vert l[k].2.1, u.vert l[k].2.2)

theorem flat_length (l : List (Nat × Nat × Nat)) : (flat l).length = 3 * l.length := by
  induction l with
  | nil => rfl
  | cons t l ih => unfold flat at *; simp only [List.flatMap_cons, List.length_append, ih, List.length_cons, List.length_nil]; omega

theorem flat_get : ∀ (l : List (Nat × Nat × Nat)) (k : Nat) (h : k < l.length),
    (flat l)[3 * k]? = some l[k].1 ∧ (flat l)[3 * k + 1]? = some l[k].2.1 ∧ (flat l)[3 * k + 2]? = some l[k].2.2
  | [], k, h => absurd h (by simp)
  | t :: l, 0, _ => ⟨rfl, rfl, rfl⟩
  | t :: l, k + 1, h => by
    have := flat_get l k (by simpa using h)
    have e : flat (t :: l) = t.1 :: t.2.1 :: t.2.2 :: flat l := rfl
    rw [e]
    have e0 : 3 * (k + 1) = 3 * k + 1 + 1 + 1 := by omega
    rw [e0]
    simpa using this

theorem copyData_removing {u : User K} {e : K} (he : 0 < e) (hn : 0 < u.nv) : ∃ σ m valid, copyData e u = some (m, valid) ∧
    Removing (u := u) (flat (good u (e * e))) 0 σ m ∧
    (valid = true ↔ (∀ t ∈ u.tris, t.1 < u.nv ∧ t.2.1 < u.nv ∧ t.2.2 < u.nv) ∧ good u (e * e) ≠ [] ∧
      (u.normal.isSome = true → ∀ i ∈ flat (good u (e * e)), e * e ≤ (normalOf u i).lengthSq)) := by
  have h0 : Copied u (e * e) [] (⟨⟨List.replicate u.nv ⟨0, 0, 0⟩, List.replicate u.nv ⟨0, 0, 0⟩, []⟩, List.replicate u.nv false, true⟩ : Copy K) := by
    refine ⟨by simp, by simp, by simp, rfl, by simp, by simp, by simp, ?_, by simp⟩
    intro i
    simp [List.getElem?_replicate]
  have h := copyFaces_spec u.tris [] _ h0
  rw [List.nil_append] at h
  unfold copyData
  rw [if_pos he]
  simp only
  generalize (u.tris.foldl (copyFace u (e * e)) _) = c at h
  have hR : Removing (u := u) c.mesh.tris (c.mesh.verts.length - 1) id c.mesh := by
    have hnv := h.nv
    refine ⟨by simp, fun o _ _ => rfl, ?_, by rw [h.nn, h.nv], by omega, h.vert, h.normal, ?_⟩
    · intro o ho hh
      exact hh
    · intro v hv hl; omega
  have hnu := h.nu
  have hnv := h.nv
  obtain ⟨σ, m, hm, hr⟩ := removeLoop_spec h.used _ _ _ hR (by omega)
  refine ⟨σ, m, c.valid && !m.tris.isEmpty, ?_, ?_, ?_⟩
  · unfold removeUnused
    rw [if_neg (by omega), hm]
    rfl
  · have e' : flat (good u (e * e)) = c.mesh.tris := h.tris.symm
    rw [e']; exact hr
  · have e' : c.mesh.tris = flat (good u (e * e)) := h.tris
    rw [Bool.and_eq_true, h.valid, e']
    have : (!m.tris.isEmpty) = true ↔ good u (e * e) ≠ [] := by
      rw [hr.tris, e']
      cases hg : good u (e * e) with
      | nil => simp [flat]
      | cons t l => simp [flat]
    rw [this]
    tauto

/-- C82: if the coordinates are not all zero, then the triangles of the mesh are exactly the good triangles of the user, in this order and with
the positions given by the user. All indices are in range, every vertex but possibly the first is used, and normals given by the user go
with their vertices. The mesh is reported as valid exactly if all indices are in range, there is a good triangle, and no normal given
for a vertex of a good triangle is shorter than epsilon. -/
theorem mesh_triangles {u : User K} {e : K} (he : 0 < e) (hn : 0 < u.nv) : ∃ m valid, copyData e u = some (m, valid) ∧
    HasTriangles u m (good u (e * e)) ∧ (∀ i ∈ m.tris, i < m.verts.length) ∧ m.normals.length = m.verts.length ∧
    (∀ v, 0 < v → v < m.verts.length → v ∈ m.tris) ∧
    (∀ n, u.normal = some n → ∀ k i : Nat, (flat (good u (e * e)))[k]? = some i → ∃ j : Nat, m.tris[k]? = some j ∧ m.normals[j]? = some (n i)) ∧
    (valid = true ↔ (∀ t ∈ u.tris, t.1 < u.nv ∧ t.2.1 < u.nv ∧ t.2.2 < u.nv) ∧ good u (e * e) ≠ [] ∧
      (∀ n, u.normal = some n → ∀ t ∈ good u (e * e), e * e ≤ (n t.1).lengthSq ∧ e * e ≤ (n t.2.1).lengthSq ∧ e * e ≤ (n t.2.2).lengthSq)) := by
  obtain ⟨σ, m, valid, h1, h2, h3⟩ := copyData_removing (u := u) he hn
  refine ⟨m, valid, h1, ⟨?_, ?_⟩, ?_, h2.len, h2.usedAbove, ?_, ?_⟩
  · rw [h2.tris, List.length_map, flat_length]
  · intro k hk
    obtain ⟨g1, g2, g3⟩ := flat_get _ k hk
    have hmem : ∀ {i x : Nat}, (flat (good u (e * e)))[i]? = some x → x ∈ flat (good u (e * e)) := fun h => List.mem_of_getElem? h
    unfold TMesh.triangle
    simp only [h2.tris, List.getElem?_map, g1, g2, g3, Option.map_some, Option.bind_eq_bind, Option.bind_some, h2.vert _ (hmem g1),
      h2.vert _ (hmem g2), h2.vert _ (hmem g3)]
    rfl
  · intro i hi
    rw [h2.tris] at hi
    obtain ⟨o, ho, rfl⟩ := List.mem_map.1 hi
    exact (List.getElem?_eq_some_iff.1 (h2.vert o ho)).1
  · intro n hn k i hi
    refine ⟨σ i, by rw [h2.tris, List.getElem?_map, hi]; rfl, ?_⟩
    rw [h2.normal i (List.mem_of_getElem? hi)]
    simp [normalOf, hn]
  · rw [h3]
    refine and_congr Iff.rfl (and_congr Iff.rfl ?_)
    cases hnn : u.normal with
    | none => simp
    | some n =>
      simp only [Option.isSome_some, forall_const, Option.some.injEq, forall_eq', normalOf, hnn]
      constructor
      · intro h t ht
        have : ∀ i ∈ [t.1, t.2.1, t.2.2], e * e ≤ (n i).lengthSq := fun i hi => h i (List.mem_flatMap.2 ⟨t, ht, hi⟩)
        exact ⟨this _ (by simp), this _ (by simp), this _ (by simp)⟩
      · intro h i hi
        obtain ⟨t, ht, hi⟩ := List.mem_flatMap.1 hi
        obtain ⟨q1, q2, q3⟩ := h t ht
        simp only [List.mem_cons, List.not_mem_nil, or_false] at hi
        rcases hi with rfl | rfl | rfl <;> assumption

/-! ### Epsilon -/

section Eps
variable [IsStrictOrderedRing K]

/-- The loop of `computeEpsilon`. -/
def maxStep (u : User K) (m : V3 K) (i : Nat) : V3 K :=
  ⟨if |(u.vert i).x| > m.x then |(u.vert i).x| else m.x, if |(u.vert i).y| > m.y then |(u.vert i).y| else m.y,
    if |(u.vert i).z| > m.z then |(u.vert i).z| else m.z⟩

theorem maxFold_spec (u : User K) : ∀ (l : List Nat) (m : V3 K), 0 ≤ m.x → 0 ≤ m.y → 0 ≤ m.z →
    m.x ≤ (l.foldl (maxStep u) m).x ∧ m.y ≤ (l.foldl (maxStep u) m).y ∧ m.z ≤ (l.foldl (maxStep u) m).z ∧
    (∀ i ∈ l, |(u.vert i).x| ≤ (l.foldl (maxStep u) m).x ∧ |(u.vert i).y| ≤ (l.foldl (maxStep u) m).y ∧
      |(u.vert i).z| ≤ (l.foldl (maxStep u) m).z) ∧
    ((∀ i ∈ l, u.vert i = ⟨0, 0, 0⟩) → l.foldl (maxStep u) m = m)
  | [], m, h1, h2, h3 => by simp
  | i :: l, m, h1, h2, h3 => by
    have e1 : m.x ≤ (maxStep u m i).x ∧ |(u.vert i).x| ≤ (maxStep u m i).x := by
      unfold maxStep; simp only; split_ifs with h <;> constructor <;> first | exact le_refl _ | exact h.le | exact not_lt.1 h
    have e2 : m.y ≤ (maxStep u m i).y ∧ |(u.vert i).y| ≤ (maxStep u m i).y := by
      unfold maxStep; simp only; split_ifs with h <;> constructor <;> first | exact le_refl _ | exact h.le | exact not_lt.1 h
    have e3 : m.z ≤ (maxStep u m i).z ∧ |(u.vert i).z| ≤ (maxStep u m i).z := by
      unfold maxStep; simp only; split_ifs with h <;> constructor <;> first | exact le_refl _ | exact h.le | exact not_lt.1 h
    obtain ⟨k1, k2, k3, k4, k5⟩ := maxFold_spec u l (maxStep u m i) (h1.trans e1.1) (h2.trans e2.1) (h3.trans e3.1)
    rw [List.foldl_cons]
    refine ⟨e1.1.trans k1, e2.1.trans k2, e3.1.trans k3, ?_, ?_⟩
    · intro j hj
      rcases List.mem_cons.1 hj with rfl | hj
      · exact ⟨e1.2.trans k1, e2.2.trans k2, e3.2.trans k3⟩
      · exact k4 j hj
    · intro hz
      rw [k5 fun j hj => hz j (List.mem_cons_of_mem _ hj)]
      unfold maxStep
      rw [hz i (List.mem_cons_self ..)]
      ext <;> simp [not_lt.2 h1, not_lt.2 h2, not_lt.2 h3]

/-- Epsilon is positive exactly if some vertex is not the origin. -/
theorem epsilon_pos {me : K} (hme : 0 < me) (u : User K) : 0 < computeEpsilon me u ↔ ∃ i, i < u.nv ∧ u.vert i ≠ ⟨0, 0, 0⟩ := by
  obtain ⟨k1, k2, k3, k4, k5⟩ := maxFold_spec u (List.range u.nv) ⟨0, 0, 0⟩ (le_refl _) (le_refl _) (le_refl _)
  have e : computeEpsilon me u = 3 * (((List.range u.nv).foldl (maxStep u) ⟨0, 0, 0⟩).x + ((List.range u.nv).foldl (maxStep u) ⟨0, 0, 0⟩).y +
    ((List.range u.nv).foldl (maxStep u) ⟨0, 0, 0⟩).z) * me := rfl
  rw [e]
  generalize (List.range u.nv).foldl (maxStep u) ⟨0, 0, 0⟩ = M at *
  simp only at k1 k2 k3
  constructor
  · intro h
    by_contra hn
    have : M = ⟨0, 0, 0⟩ := k5 (by
      intro i hi
      by_contra hne
      exact hn ⟨i, List.mem_range.1 hi, hne⟩)
    rw [this] at h
    simp at h
  · rintro ⟨i, hi, hne⟩
    obtain ⟨a1, a2, a3⟩ := k4 i (List.mem_range.2 hi)
    have : 0 < M.x + M.y + M.z := by
      by_contra hle
      rw [not_lt] at hle
      have ex : |(u.vert i).x| ≤ 0 := by linarith
      have ey : |(u.vert i).y| ≤ 0 := by linarith
      have ez : |(u.vert i).z| ≤ 0 := by linarith
      apply hne
      ext
      · exact abs_nonpos_iff.1 ex
      · exact abs_nonpos_iff.1 ey
      · exact abs_nonpos_iff.1 ez
    positivity

end Eps

/-! ### The tree -/

open TreeSpec

/-- The tree holds the boxes of the first `n` triangles: `ids k` is the node of the triangle `k`. -/
structure Holds (m : TMesh K) (fat : AABB K → AABB K) (n : Nat) (S : Nat → Option (Obj K)) (ids : Nat → Nat) : Prop where
  obj : ∀ k, k < n → ∃ a b c, m.triangle k = some (a, b, c) ∧ S (ids k) = some ⟨k, AABB.forTriangle a b c, fat (AABB.forTriangle a b c)⟩
  only : ∀ i o, S i = some o → o.data < n ∧ ids o.data = i

/-- What is known of the box of a triangle. -/
def TriBox (m : TMesh K) (b : AABB K) : Prop := ∃ k p q r, m.triangle k = some (p, q, r) ∧ b = AABB.forTriangle p q r

theorem initTree_spec (ch : Nat → Choice K) (fat : AABB K → AABB K) (f : Nat → TNode K) {m : TMesh K}
    (hm : ∀ k, k < m.tris.length / 3 → (m.triangle k).isSome) :
    ∃ t S ids, initTree ch fat f m = some t ∧ Hist (TriBox m) fat t S ∧ Holds m fat (m.tris.length / 3) S ids := by
  unfold initTree
  suffices key : ∀ n, n ≤ m.tris.length / 3 → ∃ t S ids, (List.range n).foldlM (fun t k => do
      let (a, b, c) ← m.triangle k
      let (t', _) ← t.addObject (ch k) fat (AABB.forTriangle a b c) k
      return t') (Tree.init f) = some t ∧ Hist (TriBox m) fat t S ∧ Holds m fat n S ids from key _ (le_refl _)
  intro n
  induction n with
  | zero => intro _; exact ⟨_, _, fun _ => 0, rfl, Hist.init f, by intro k hk; omega, by intro i o h; cases h⟩
  | succ n ih =>
    intro hn
    obtain ⟨t, S, ids, e, hist, hold⟩ := ih (by omega)
    obtain ⟨⟨a, b, c⟩, hk⟩ := Option.isSome_iff_exists.1 (hm n (by omega))
    obtain ⟨t', i, ha, hi⟩ := (tree_valid_defined hist (ch n) (AABB.forTriangle a b c) n).1
    refine ⟨t', upd S i (some ⟨n, AABB.forTriangle a b c, fat (AABB.forTriangle a b c)⟩), upd ids n i, ?_,
      Hist.add hist ⟨n, a, b, c, hk, rfl⟩ ha, ?_, ?_⟩
    · rw [List.range_succ, List.foldlM_append, e]
      simp [hk, ha]
    · intro k hkn
      by_cases ek : k = n
      · subst ek
        exact ⟨a, b, c, hk, by rw [upd_same, upd_same]⟩
      · obtain ⟨a', b', c', h1, h2⟩ := hold.obj k (by omega)
        refine ⟨a', b', c', h1, ?_⟩
        rw [upd_ne _ _ ek]
        have : ids k ≠ i := fun e => by rw [e, hi] at h2; cases h2
        rw [upd_ne _ _ this]
        exact h2
    · intro j o hj
      by_cases ej : j = i
      · subst ej
        rw [upd_same] at hj
        cases hj
        exact ⟨by simp, by simp [upd_same]⟩
      · rw [upd_ne _ _ ej] at hj
        obtain ⟨h1, h2⟩ := hold.only j o hj
        exact ⟨by omega, by rw [upd_ne _ _ (by omega)]; exact h2⟩

/-! ### Normals -/

section Normals
variable [IsStrictOrderedRing K]

theorem normalize_unit {sqrt : K → K} (hs : IsSqrt sqrt) {me e : K} (h0 : 0 < me) (hme : me ≤ e) {v : V3 K} (hv : e * e ≤ v.lengthSq) :
    (Ray.normalize me (fun v => sqrt v.lengthSq) v).lengthSq = 1 := by
  have he : 0 < e := h0.trans_le hme
  have hp : 0 < v.lengthSq := (mul_pos he he).trans_le hv
  obtain ⟨q0, q1⟩ := sqrt_pos hs hp
  have hl : ¬ sqrt v.lengthSq < me := by
    intro hh
    have : sqrt v.lengthSq * sqrt v.lengthSq < e * e := by nlinarith
    linarith
  unfold Ray.normalize
  simp only
  rw [if_neg hl]
  have : v.x / sqrt v.lengthSq * (v.x / sqrt v.lengthSq) + v.y / sqrt v.lengthSq * (v.y / sqrt v.lengthSq) +
      v.z / sqrt v.lengthSq * (v.z / sqrt v.lengthSq) = v.lengthSq / (sqrt v.lengthSq * sqrt v.lengthSq) := by
    simp only [V3.lengthSq]; field_simp
  unfold V3.lengthSq at this ⊢
  simp only at this ⊢
  rw [this]
  change v.lengthSq / (sqrt v.lengthSq * sqrt v.lengthSq) = 1
  rw [q1, div_self hp.ne']

/-- C83: if the normals are computed by the library and it returns, they have length 1, and the triangles and vertices are unchanged.
Partial: for meshes that are so small that `mEpsilon` is below `MACHINE_EPSILON` the normals may be left with another length
(`small_mesh_normals`); and the assertions fail for some meshes (`unused_first_vertex`). -/
theorem mesh_normals_partial {sqrt acos : K → K} (hs : IsSqrt sqrt) {me e : K} (h0 : 0 < me) (hme : me ≤ e) {m m' : TMesh K}
    (h : verticesNormals sqrt acos me e m = some m') : m'.verts = m.verts ∧ m'.tris = m.tris ∧ ∀ n ∈ m'.normals, n.lengthSq = 1 := by
  unfold verticesNormals at h
  rw [Option.bind_eq_bind, Option.bind_eq_some_iff] at h
  obtain ⟨l, _, h⟩ := h
  split_ifs at h with hl
  · simp only [Option.pure_def, Option.some.injEq] at h
    subst h
    refine ⟨rfl, rfl, ?_⟩
    intro n hn
    obtain ⟨v, hv, rfl⟩ := List.mem_map.1 hn
    have := List.all_eq_true.1 hl v hv
    exact normalize_unit hs h0 hme (by simpa using this)

end Normals

/-! ### Examples -/

/-- `MACHINE_EPSILON` of single precision. -/
def me : ℚ := 1 / 8388608

/-- Four vertices, of which the first is not used; a degenerate triangle and a good one. -/
def plate : User ℚ := ⟨4, fun i => if i = 0 then ⟨9, 9, 9⟩ else if i = 1 then ⟨1, 0, 0⟩ else if i = 2 then ⟨0, 1, 0⟩ else ⟨0, 0, 1⟩, none,
  [(1, 1, 2), (1, 2, 3)]⟩

theorem plate_eps : 0 < computeEpsilon me plate := (epsilon_pos (by norm_num [me]) plate).2 ⟨0, by decide +kernel, by decide +kernel⟩

/-- The hypotheses of `mesh_triangles` are met; one of two triangles is good. -/
example : ∃ m valid, copyData (computeEpsilon me plate) plate = some (m, valid) ∧
    HasTriangles plate m (good plate (computeEpsilon me plate * computeEpsilon me plate)) :=
  let ⟨m, v, h1, h2, _⟩ := mesh_triangles (u := plate) plate_eps (by decide +kernel)
  ⟨m, v, h1, h2⟩

example : good plate (computeEpsilon me plate * computeEpsilon me plate) = [(1, 2, 3)] := by decide +kernel

/-- C83 fails: the first vertex is never removed; if no triangle uses it, its normal is zero and the assertion about its length fails,
whatever the square root and the arc cosine. Here the other three vertices form a good triangle and the mesh was found valid. -/
theorem unused_first_vertex : ∃ m, copyData (computeEpsilon me plate) plate = some (m, true) ∧ 0 ∉ m.tris ∧ m.verts.length = 4 ∧
    ∀ sqrt acos : ℚ → ℚ, verticesNormals sqrt acos me (computeEpsilon me plate) m = none := by
  refine ⟨⟨[⟨0, 0, 0⟩, ⟨1, 0, 0⟩, ⟨0, 1, 0⟩, ⟨0, 0, 1⟩], [⟨0, 0, 0⟩, ⟨0, 0, 0⟩, ⟨0, 0, 0⟩, ⟨0, 0, 0⟩], [1, 2, 3]⟩, by decide +kernel,
    by decide, by decide, ?_⟩
  intro sqrt acos
  have h0 := plate_eps
  generalize computeEpsilon me plate = e at h0
  have add : ∀ (i : Nat) (p q r : V3 ℚ) (l l' : List (V3 ℚ)), 0 < i → addNormal sqrt acos me e i p q r l = some l' → l[0]? = l'[0]? := by
    intro i p q r l l' hi h
    unfold addNormal at h
    simp only at h
    split_ifs at h
    obtain ⟨old, _, rfl⟩ := Option.map_eq_some_iff.1 h
    rw [List.getElem?_set_ne (by omega)]
  have face : ∀ (l l' : List (V3 ℚ)), faceNormals sqrt acos me e ⟨[⟨0, 0, 0⟩, ⟨1, 0, 0⟩, ⟨0, 1, 0⟩, ⟨0, 0, 1⟩], [⟨0, 0, 0⟩, ⟨0, 0, 0⟩, ⟨0, 0, 0⟩, ⟨0, 0, 0⟩],
      [1, 2, 3]⟩ l 0 = some l' → l[0]? = l'[0]? := by
    intro l l' h
    unfold faceNormals TMesh.triangle at h
    simp only [Option.bind_eq_bind, List.getElem?_cons_succ, List.getElem?_cons_zero, Nat.mul_zero, Nat.zero_add, Option.bind_some, Option.pure_def] at h
    rw [Option.bind_eq_some_iff] at h
    obtain ⟨l1, h1, h⟩ := h
    rw [Option.bind_eq_some_iff] at h
    obtain ⟨l2, h2, h⟩ := h
    rw [add _ _ _ _ _ _ (by omega) h1, add _ _ _ _ _ _ (by omega) h2, add _ _ _ _ _ _ (by omega) h]
  unfold verticesNormals
  simp only [Option.bind_eq_bind]
  cases hf : (List.range ([1, 2, 3].length / 3)).foldlM (faceNormals sqrt acos me e ⟨[⟨0, 0, 0⟩, ⟨1, 0, 0⟩, ⟨0, 1, 0⟩, ⟨0, 0, 1⟩],
      [⟨0, 0, 0⟩, ⟨0, 0, 0⟩, ⟨0, 0, 0⟩, ⟨0, 0, 0⟩], [1, 2, 3]⟩) [⟨0, 0, 0⟩, ⟨0, 0, 0⟩, ⟨0, 0, 0⟩, ⟨0, 0, 0⟩] with
  | none => rfl
  | some l =>
    rw [Option.bind_some, if_neg]
    have e1 : List.range ([1, 2, 3].length / 3) = [0] := rfl
    rw [e1] at hf
    simp only [List.foldlM_cons, List.foldlM_nil, Option.bind_eq_bind, Option.pure_def] at hf
    rw [Option.bind_fun_some] at hf
    have hz := face _ _ hf
    simp only [List.getElem?_cons_zero] at hz
    have hmem : (⟨0, 0, 0⟩ : V3 ℚ) ∈ l := List.mem_of_getElem? hz.symm
    intro hall
    have := List.all_eq_true.1 hall _ hmem
    simp only [V3.lengthSq, mul_zero, add_zero, ge_iff_le, decide_eq_true_eq] at this
    nlinarith

/-- A mesh whose vertices are all at the origin is not reported as invalid: the assertion on epsilon fails. -/
theorem zero_mesh_undefined {me : ℚ} (hme : 0 < me) (u : User ℚ) (hz : ∀ i, i < u.nv → u.vert i = ⟨0, 0, 0⟩) :
    copyData (computeEpsilon me u) u = none := by
  unfold copyData
  rw [if_neg]
  intro h
  obtain ⟨i, hi, hne⟩ := (epsilon_pos hme u).1 h
  exact hne (hz i hi)

/-- A triangle with edges 3, 4 and 5 times a hundredth of a millimetre. -/
def tiny : User ℚ := ⟨3, fun i => if i = 1 then ⟨3 / 100000, 0, 0⟩ else if i = 2 then ⟨0, 4 / 100000, 0⟩ else ⟨0, 0, 0⟩, none, [(0, 1, 2)]⟩

/-- The square roots that occur, and numbers near to the arc cosines that occur. -/
def tinySqrt (x : ℚ) : ℚ :=
  ([3 / 100000, 4 / 100000, 5 / 100000, 12 / 10000000000, 1885 / 1000000000000, 1112 / 1000000000000, 772 / 1000000000000] : List ℚ).find?
    (fun r => r * r == x) |>.getD 0
def tinyAcos (c : ℚ) : ℚ := if c = 0 then 1885 / 1200 else if c = 3 / 5 then 1112 / 1200 else 772 / 1200

/-- C83 fails for small meshes: the normal of a face below `MACHINE_EPSILON` is not normalised, and neither is that of the vertex. The mesh is
valid and all assertions hold. -/
theorem small_mesh_normals : (copyData (computeEpsilon me tiny) tiny).bind
    (fun r => (verticesNormals tinySqrt tinyAcos me (computeEpsilon me tiny) r.1).map fun m => (r.2, m.normals)) =
    some (true, [⟨0, 0, 1885 / 1000000000000⟩, ⟨0, 0, 1112 / 1000000000000⟩, ⟨0, 0, 772 / 1000000000000⟩]) := by decide +kernel

end TriProps
end RP3D
