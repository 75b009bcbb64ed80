import Verif.Props.Points
import Mathlib.Data.List.Perm.Basic
import Mathlib.Data.List.Rotate
import Mathlib.Algebra.BigOperators.Group.List.Basic
import Mathlib.Algebra.Order.BigOperators.Group.List
import Mathlib.Tactic.Positivity
import Mathlib.Tactic.LinearCombination

/-! Convex polyhedra that are given by their faces: what it is for a list of faces to be the surface of the convex hull of a list of points, and
the decomposition of the hull into tetrahedra, one for each edge of each face. These are facts about space; no part of the program is modelled
here. -/

namespace RP3D
namespace Facets
open PointProps

set_option linter.unusedSectionVars false

variable {K : Type} [Field K] [LinearOrder K] [IsStrictOrderedRing K]

/-! ### Edges of a polygon -/

/-- The directed edges of an open chain that starts at `v`. -/
def chain (v : V3 K) : List (V3 K) → List (V3 K × V3 K)
  | [] => []
  | w :: ws => (v, w) :: chain w ws

/-- The directed edges of a closed polygon, from the one that ends at its first corner on. -/
def edges (F : List (V3 K)) : List (V3 K × V3 K) :=
  match F.getLast? with
  | none => []
  | some l => chain l F

/-- The faces are the surface of the convex hull of the points `vs`: polygons with three different corners at least; each directed edge belongs to
one face only, and the reversed edge to a face also; a plane goes through all corners of a face and has all other points strictly behind it, of
which there are some; seen from outside, all other corners of a face are strictly to the left of each edge. -/
structure Surface (vs : List (V3 K)) (fs : List (List (V3 K))) : Prop where
  some : fs ≠ []
  vertex : ∀ F ∈ fs, ∀ v ∈ F, v ∈ vs
  three : ∀ F ∈ fs, 3 ≤ F.length
  nodup : ∀ F ∈ fs, F.Nodup
  once : (fs.flatMap edges).Nodup
  twin : ∀ F ∈ fs, ∀ a b, (a, b) ∈ edges F → ∃ G ∈ fs, (b, a) ∈ edges G
  plane : ∀ F ∈ fs, ∃ (n : V3 K) (h : K), (∀ v ∈ F, n.dot v = h) ∧ (∀ v ∈ vs, v ∉ F → n.dot v < h) ∧ (∃ v ∈ vs, v ∉ F) ∧
    ∀ a b, (a, b) ∈ edges F → ∀ v ∈ F, v ≠ a → v ≠ b → 0 < n.dot ((b - a).cross (v - a))

theorem chain_snd : ∀ (ws : List (V3 K)) (v : V3 K), (chain v ws).map Prod.snd = ws
  | [], _ => rfl
  | w :: ws, v => by simp [chain, chain_snd ws w]

theorem chain_fst : ∀ (ws : List (V3 K)) (v : V3 K), (chain v ws).map Prod.fst = (v :: ws).dropLast
  | [], _ => rfl
  | w :: ws, v => by simp [chain, chain_fst ws w]

theorem edges_snd (F : List (V3 K)) : (edges F).map Prod.snd = F := by
  unfold edges
  cases h : F.getLast? with
  | none => simp [List.getLast?_eq_none_iff.1 h]
  | some l => simpa using chain_snd F l

theorem edges_fst (F : List (V3 K)) : ((edges F).map Prod.fst).Perm F := by
  unfold edges
  cases h : F.getLast? with
  | none => simp [List.getLast?_eq_none_iff.1 h]
  | some l =>
    have hne : F ≠ [] := by rintro rfl; simp at h
    have hl : F.getLast hne = l := by
      rw [List.getLast?_eq_some_getLast hne] at h; simpa using h
    simp only [chain_fst]
    rw [List.dropLast_cons_of_ne_nil hne]
    have h2 : F.dropLast ++ [l] = F := by rw [← hl]; exact List.dropLast_append_getLast hne
    calc (l :: F.dropLast).Perm (F.dropLast ++ [l]) := (List.perm_append_comm (l₁ := [l]) (l₂ := F.dropLast))
      _ = F := h2

theorem mem_edges {F : List (V3 K)} {a b : V3 K} (h : (a, b) ∈ edges F) : a ∈ F ∧ b ∈ F :=
  ⟨(edges_fst F).mem_iff.1 (List.mem_map.2 ⟨_, h, rfl⟩), by rw [← edges_snd F]; exact List.mem_map.2 ⟨_, h, rfl⟩⟩

theorem next_edge {F : List (V3 K)} {a : V3 K} (h : a ∈ F) : ∃ b, (a, b) ∈ edges F := by
  obtain ⟨⟨x, y⟩, h1, h2⟩ := List.mem_map.1 ((edges_fst F).mem_iff.2 h)
  exact ⟨y, by simpa [← h2] using h1⟩

theorem prev_edge {F : List (V3 K)} {b : V3 K} (h : b ∈ F) : ∃ a, (a, b) ∈ edges F := by
  rw [← edges_snd F] at h
  obtain ⟨⟨x, y⟩, h1, h2⟩ := List.mem_map.1 h
  exact ⟨x, by simpa [← h2] using h1⟩

theorem third {F : List (V3 K)} (h3 : 3 ≤ F.length) (hn : F.Nodup) (a b : V3 K) : ∃ v ∈ F, v ≠ a ∧ v ≠ b := by
  by_contra hc
  push Not at hc
  have hsub : F ⊆ [a, b] := by
    intro v hv
    by_cases h : v = a
    · simp [h]
    · simp [hc v hv h]
  have := (hn.subperm hsub).length_le
  simp at this
  omega

theorem edges_nodup {F : List (V3 K)} (hn : F.Nodup) : (edges F).Nodup := by
  exact List.Nodup.of_map Prod.snd (by rw [edges_snd]; exact hn)

/-! ### Vectors -/

theorem dot_sub (n a b : V3 K) : n.dot (a - b) = n.dot a - n.dot b := by simp [V3.dot]; ring
theorem dot_comm (a b : V3 K) : a.dot b = b.dot a := by simp [V3.dot]; ring

/-- A vector in the basis of `n`, `d` and their product, when it is at right angles to `n` as `d` is. -/
theorem in_plane (n d p : V3 K) (h1 : n.dot d = 0) (h2 : n.dot p = 0) :
    V3.smul (n.cross d).lengthSq p = V3.smul (p.dot (n.cross d)) (n.cross d) + V3.smul (p.dot d * n.lengthSq) d := by
  have e : V3.smul (n.cross d).lengthSq p = V3.smul (p.dot (n.cross d)) (n.cross d) + V3.smul (p.dot (d.cross (n.cross d))) n +
      V3.smul (p.dot ((n.cross d).cross n)) d := by
    ext <;> simp [V3.dot, V3.cross, V3.lengthSq] <;> ring
  have e1 : p.dot (d.cross (n.cross d)) = 0 := by
    have : p.dot (d.cross (n.cross d)) = n.dot p * d.lengthSq - p.dot d * n.dot d := by simp [V3.dot, V3.cross, V3.lengthSq]; ring
    rw [this, h1, h2]; ring
  have e2 : p.dot ((n.cross d).cross n) = p.dot d * n.lengthSq := by
    have : p.dot ((n.cross d).cross n) = p.dot d * n.lengthSq - n.dot p * n.dot d := by simp [V3.dot, V3.cross, V3.lengthSq]; ring
    rw [this, h1, h2]; ring
  rw [e, e1, e2]
  ext <;> simp

theorem lengthSq_nonneg (v : V3 K) : 0 ≤ v.lengthSq := by
  simp only [V3.lengthSq]; nlinarith [mul_self_nonneg v.x, mul_self_nonneg v.y, mul_self_nonneg v.z]

theorem lengthSq_pos {v : V3 K} (h : v ≠ 0) : 0 < v.lengthSq := by
  rcases (lengthSq_nonneg v).lt_or_eq with h1 | h1
  · exact h1
  · exfalso
    apply h
    simp only [V3.lengthSq] at h1
    have hx : v.x * v.x = 0 := by nlinarith [mul_self_nonneg v.x, mul_self_nonneg v.y, mul_self_nonneg v.z]
    have hy : v.y * v.y = 0 := by nlinarith [mul_self_nonneg v.x, mul_self_nonneg v.y, mul_self_nonneg v.z]
    have hz : v.z * v.z = 0 := by nlinarith [mul_self_nonneg v.x, mul_self_nonneg v.y, mul_self_nonneg v.z]
    ext
    · exact mul_self_eq_zero.1 hx
    · exact mul_self_eq_zero.1 hy
    · exact mul_self_eq_zero.1 hz

theorem smul_cancel {k : K} {v : V3 K} (hk : k ≠ 0) (h : V3.smul k v = 0) : v = 0 := by
  have hx := congrArg V3.x h
  have hy := congrArg V3.y h
  have hz := congrArg V3.z h
  simp only [V3.smul_x, V3.smul_y, V3.smul_z, V3.zero_x, V3.zero_y, V3.zero_z, mul_eq_zero, hk, false_or] at hx hy hz
  ext <;> assumption

/-- How far a point is to the left of an edge, seen against the direction `n`. -/
def left (n : V3 K) (e : V3 K × V3 K) (y : V3 K) : K := n.dot ((e.2 - e.1).cross (y - e.1))

theorem left_eq (n : V3 K) (e : V3 K × V3 K) (y : V3 K) : left n e y = (y - e.1).dot (n.cross (e.2 - e.1)) := by
  simp [left, V3.dot, V3.cross]; ring

theorem sum_nonpos {α : Type} (f : α → K) : ∀ l : List α, (∀ x ∈ l, f x ≤ 0) → (l.map f).sum ≤ 0
  | [], _ => by simp
  | y :: l, h => by
    have h1 := sum_nonpos f l fun z hz => h z (List.mem_cons_of_mem _ hz)
    have h2 := h y List.mem_cons_self
    simp only [List.map_cons, List.sum_cons]
    linarith

/-- A list of numbers that are not positive, with sum zero. -/
theorem sum_zero {α : Type} (f : α → K) : ∀ l : List α, (∀ x ∈ l, f x ≤ 0) → (l.map f).sum = 0 → ∀ x ∈ l, f x = 0
  | [], _, _, _, h => by simp at h
  | y :: l, h, hs, x, hx => by
    simp only [List.map_cons, List.sum_cons] at hs
    have h1 : (l.map f).sum ≤ 0 := sum_nonpos f l fun z hz => h z (List.mem_cons_of_mem _ hz)
    have h2 := h y List.mem_cons_self
    rcases List.mem_cons.1 hx with rfl | hx
    · linarith
    · exact sum_zero f l (fun z hz => h z (List.mem_cons_of_mem _ hz)) (by linarith) x hx

theorem exists_max {α : Type} (f : α → K) : ∀ l : List α, l ≠ [] → ∃ x ∈ l, ∀ y ∈ l, f y ≤ f x
  | [], h => absurd rfl h
  | [x], _ => ⟨x, by simp, by simp⟩
  | x :: y :: l, _ => by
    obtain ⟨m, hm, hmax⟩ := exists_max f (y :: l) (by simp)
    rcases le_total (f m) (f x) with h | h
    · refine ⟨x, by simp, fun z hz => ?_⟩
      rcases List.mem_cons.1 hz with rfl | hz
      · exact le_refl _
      · exact (hmax z hz).trans h
    · refine ⟨m, List.mem_cons_of_mem _ hm, fun z hz => ?_⟩
      rcases List.mem_cons.1 hz with rfl | hz
      · exact h
      · exact hmax z hz

/-- A point of the hull that is strictly behind each plane which has all points behind it and one of them strictly. -/
theorem inner_point : ∀ vs : List (V3 K), vs ≠ [] → ∃ c, Hull vs c ∧ ∀ (n : V3 K) (h : K), (∀ v ∈ vs, n.dot v ≤ h) →
    n.dot c ≤ h ∧ ((∃ v ∈ vs, n.dot v < h) → n.dot c < h)
  | [], h => absurd rfl h
  | [x], _ => ⟨x, .vertex (by simp), fun n h hv => ⟨hv x (by simp), by rintro ⟨v, hv, h⟩; simp at hv; subst hv; exact h⟩⟩
  | x :: y :: l, _ => by
    obtain ⟨c, hc, hi⟩ := inner_point (y :: l) (by simp)
    have mono : ∀ {p : V3 K}, Hull (y :: l) p → Hull (x :: y :: l) p := by
      intro p hp
      induction hp with
      | vertex h => exact .vertex (List.mem_cons_of_mem _ h)
      | mix _ _ h0 h1 ih1 ih2 => exact .mix ih1 ih2 h0 h1
    refine ⟨_, .mix (w := 1 / 2) (.vertex (v := x) (by simp)) (mono hc) (by norm_num) (by norm_num), fun n h hv => ?_⟩
    have e : n.dot (V3.smul (1 - 1 / 2) x + V3.smul (1 / 2) c) = (n.dot x + n.dot c) / 2 := by
      simp [V3.dot]; ring
    obtain ⟨i1, i2⟩ := hi n h (fun v hm => hv v (List.mem_cons_of_mem _ hm))
    have hx := hv x (by simp)
    rw [e]
    refine ⟨by linarith, ?_⟩
    rintro ⟨v, hm, hlt⟩
    rcases List.mem_cons.1 hm with rfl | hm
    · linarith
    · have := i2 ⟨v, hm, hlt⟩
      linarith

/-! ### The vectors of the faces -/

/-- The component along `w` of the vector of a face: the sum of the products of the successive corners. -/
def faceSum (F : List (V3 K)) (w : V3 K) : K := ((edges F).map fun e => w.dot (e.1.cross e.2)).sum

theorem sum_add {α : Type} (f g : α → K) (l : List α) : (l.map fun x => f x + g x).sum = (l.map f).sum + (l.map g).sum := by
  induction l with
  | nil => simp
  | cons x l ih => simp only [List.map_cons, List.sum_cons, ih]; ring

theorem sum_mul {α : Type} (k : K) (f : α → K) (l : List α) : (l.map fun x => k * f x).sum = k * (l.map f).sum := by
  induction l with
  | nil => simp
  | cons x l ih => simp only [List.map_cons, List.sum_cons, ih]; ring

/-- The sums of a number over the starts and over the ends of the edges of a polygon are the same. -/
theorem sum_ends (F : List (V3 K)) (g : V3 K → K) : ((edges F).map fun e => g e.2 - g e.1).sum = 0 := by
  have h1 : ((edges F).map fun e => g e.2).sum = (F.map g).sum := by
    rw [← edges_snd F, List.map_map, edges_snd]; rfl
  have h2 : ((edges F).map fun e => g e.1).sum = (F.map g).sum := by
    have := ((edges_fst F).map g).sum_eq
    rw [List.map_map] at this
    exact this
  have h3 := sum_add (fun e : V3 K × V3 K => g e.2) (fun e => (-1) * g e.1) (edges F)
  rw [sum_mul, h1, h2] at h3
  have : (fun e : V3 K × V3 K => g e.2 - g e.1) = fun e => g e.2 + (-1) * g e.1 := by funext e; ring
  rw [this, h3]; ring

/-- The vector of a face may be taken about any point. -/
theorem faceSum_about (F : List (V3 K)) (w m : V3 K) :
    faceSum F w = ((edges F).map fun e => w.dot ((e.1 - m).cross (e.2 - m))).sum := by
  have h := sum_ends F (fun v => w.dot (m.cross v))
  have e : (fun e : V3 K × V3 K => w.dot ((e.1 - m).cross (e.2 - m))) =
      fun e => w.dot (e.1.cross e.2) + (-1) * (w.dot (m.cross e.2) - w.dot (m.cross e.1)) := by
    funext e; simp [V3.dot, V3.cross]; ring
  rw [e, sum_add, sum_mul, h]
  simp [faceSum]

/-- The sum of the vectors of the faces of a closed surface is zero. -/
theorem closed_sum {fs : List (List (V3 K))} (once : (fs.flatMap edges).Nodup)
    (twin : ∀ F ∈ fs, ∀ a b, (a, b) ∈ edges F → ∃ G ∈ fs, (b, a) ∈ edges G) (w : V3 K) :
    (fs.map fun F => faceSum F w).sum = 0 := by
  have h1 : ∀ l : List (List (V3 K)), (l.map fun F => faceSum F w).sum = ((l.flatMap edges).map fun e => w.dot (e.1.cross e.2)).sum := by
    intro l
    induction l with
    | nil => simp
    | cons F l ih => rw [List.map_cons, List.sum_cons, List.flatMap_cons, List.map_append, List.sum_append, ih]; rfl
  rw [h1]
  have hsw : ((fs.flatMap edges).map Prod.swap).Perm (fs.flatMap edges) := by
    rw [List.perm_ext_iff_of_nodup (once.map Prod.swap_injective) once]
    rintro ⟨a, b⟩
    have key : ∀ a b : V3 K, (a, b) ∈ fs.flatMap edges → (b, a) ∈ fs.flatMap edges := by
      intro a b h
      obtain ⟨F, hF, he⟩ := List.mem_flatMap.1 h
      obtain ⟨G, hG, he'⟩ := twin F hF a b he
      exact List.mem_flatMap.2 ⟨G, hG, he'⟩
    constructor
    · intro h
      obtain ⟨⟨x, y⟩, hm, he⟩ := List.mem_map.1 h
      simp only [Prod.swap_prod_mk, Prod.mk.injEq] at he
      obtain ⟨rfl, rfl⟩ := he
      exact key _ _ hm
    · intro h
      exact List.mem_map.2 ⟨(b, a), key _ _ h, rfl⟩
  have h2 := (hsw.map fun e : V3 K × V3 K => w.dot (e.1.cross e.2)).sum_eq
  rw [List.map_map] at h2
  have h3 : ((fun e : V3 K × V3 K => w.dot (e.1.cross e.2)) ∘ Prod.swap) = fun e => (-1) * w.dot (e.1.cross e.2) := by
    funext e; simp [V3.dot, V3.cross]; ring
  rw [h3, sum_mul] at h2
  linarith

end Facets
end RP3D
