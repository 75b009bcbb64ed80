import Verif.Broadphase.TreeHist
import Verif.Math.Ext

set_option linter.unusedSectionVars false
set_option linter.unusedSimpArgs false

/-! Model of ray casting through the tree (src/collision/broadphase/DynamicAABBTree.cpp) and of the slab test
`AABB::testRayIntersect` (include/reactphysics3d/collision/shapes/AABB.h), with infinities and NaN.

Simplifications: the coordinates of boxes and of the ray, and the maximum fraction, are finite numbers. The value returned by the
callback is arbitrary (including NaN). -/

namespace RP3D
open Ext
variable {K : Type} [Field K] [LinearOrder K]

/-- The two parameters of one axis (AABB.h:302-303, 311-312). -/
def slabT (F : FloatOps K) (c o : K) (inv : Ext K) : Ext K := F.mul (F.sub c o) inv

/-- `AABB::testRayIntersect` (AABB.h:285-316). -/
def AABB.testRay (F : FloatOps K) (b : AABB K) (o : V3 K) (inv : V3 (Ext K)) (maxFraction : K) : Bool :=
  let t1 := slabT F b.mn.x o.x inv.x
  let t2 := slabT F b.mx.x o.x inv.x
  let tMin := Ext.stdMin t1 t2
  let tMax := Ext.stdMax t1 t2
  let tMax := Ext.stdMin tMax (fin maxFraction)
  let t1 := slabT F b.mn.y o.y inv.y
  let t2 := slabT F b.mx.y o.y inv.y
  let tMin := Ext.stdMax tMin (Ext.stdMin t1 t2)
  let tMax := Ext.stdMin tMax (Ext.stdMax t1 t2)
  let t1 := slabT F b.mn.z o.z inv.z
  let t2 := slabT F b.mx.z o.z inv.z
  let tMin := Ext.stdMax tMin (Ext.stdMin t1 t2)
  let tMax := Ext.stdMin tMax (Ext.stdMax t1 t2)
  Ext.ge tMax (Ext.stdMax tMin (fin 0))

/-- `rayDirectionInverse` (DynamicAABBTree.cpp:691-692); `neg` gives the signs of zero components. -/
def rayInv (F : FloatOps K) (neg : V3 Bool) (d : V3 K) : V3 (Ext K) := ⟨F.inv neg.x d.x, F.inv neg.y d.y, F.inv neg.z d.z⟩

/-- The update of the maximum fraction (DynamicAABBTree.cpp:726-734). -/
def clip (m : K) : Ext K → K
  | fin h => if 0 < h then (if h < m then h else m) else m
  | _ => m

namespace Tree
variable {σ : Type}

/-- The loop of `raycast` (DynamicAABBTree.cpp:684-748). The callback gets the id of the object and the maximum fraction of the ray; it
has a state of its own. The result is its last state, the last maximum fraction, and whether it has stopped the traversal. -/
def raycastLoop (F : FloatOps K) (t : Tree K) (o : V3 K) (inv : V3 (Ext K)) (cb : σ → Nat → K → σ × Ext K)
    (stack : List (Option Nat)) (m : K) (s : σ) : Option (σ × K × Bool) :=
  match stack with
  | [] => some (s, m, false)
  | none :: st => raycastLoop F t o inv cb st m s
  | some i :: st =>
    match t.rd i with
    | none => none
    | some n =>
      if n.box.testRay F o inv m then
        if n.height = 0 then
          match cb s i m with
          | (s', h) => if h = fin 0 then some (s', m, true) else raycastLoop F t o inv cb st (clip m h) s'
        else
          match t.kids i with
          | none => none
          | some (l, r) => raycastLoop F t o inv cb (some r :: some l :: st) m s
      else raycastLoop F t o inv cb st m s
partial_fixpoint

/-- `raycast` (DynamicAABBTree.cpp:684-748) for the ray from `o` in direction `d`. -/
def raycast (F : FloatOps K) (t : Tree K) (o d : V3 K) (neg : V3 Bool) (cb : σ → Nat → K → σ × Ext K) (m : K) (s : σ) :
    Option (σ × K × Bool) := t.raycastLoop F o (rayInv F neg d) cb [t.root] m s

end Tree

/-! Specification of a ray cast: go through a list of objects, and call the callback for those hit by the ray up to the current maximum
fraction. -/
namespace RaySpec

/-- A positive number shortens the ray, everything else leaves it. -/
def shorten (m : K) (h : Ext K) : K := match h with
  | fin h => if 0 < h ∧ h < m then h else m
  | _ => m

def scan {σ : Type} (hit : Nat → K → Prop) [∀ i m, Decidable (hit i m)] (cb : σ → Nat → K → σ × Ext K) :
    List Nat → K → σ → σ × K × Bool
  | [], m, s => (s, m, false)
  | i :: L, m, s =>
    if hit i m then
      if (cb s i m).2 = fin 0 then ((cb s i m).1, m, true)
      else scan hit cb L (shorten m (cb s i m).2) (cb s i m).1
    else scan hit cb L m s

/-- The segment from `o` along `d` up to the fraction `m` has a point in the box. -/
def Hits (o d : V3 K) (b : AABB K) (m : K) : Prop :=
  ∃ t : K, 0 ≤ t ∧ t ≤ m ∧ AABB.Mem ⟨o.x + t * d.x, o.y + t * d.y, o.z + t * d.z⟩ b

end RaySpec

namespace AABB
variable [IsStrictOrderedRing K]

/-- No parameter of the slab test is NaN. -/
def NoNaN (F : FloatOps K) (b : AABB K) (o : V3 K) (inv : V3 (Ext K)) : Prop :=
  slabT F b.mn.x o.x inv.x ≠ nan ∧ slabT F b.mx.x o.x inv.x ≠ nan ∧
  slabT F b.mn.y o.y inv.y ≠ nan ∧ slabT F b.mx.y o.y inv.y ≠ nan ∧
  slabT F b.mn.z o.z inv.z ≠ nan ∧ slabT F b.mx.z o.z inv.z ≠ nan

/-- The slab test without NaN. -/
theorem testRay_iff (F : FloatOps K) (b : AABB K) (o : V3 K) (inv : V3 (Ext K)) (m : K) (h : NoNaN F b o inv) :
    b.testRay F o inv m = true ↔
      max (max (max (min (slabT F b.mn.x o.x inv.x).val (slabT F b.mx.x o.x inv.x).val)
        (min (slabT F b.mn.y o.y inv.y).val (slabT F b.mx.y o.y inv.y).val))
        (min (slabT F b.mn.z o.z inv.z).val (slabT F b.mx.z o.z inv.z).val)) (fin (0 : K)).val ≤
      min (min (min (max (slabT F b.mn.x o.x inv.x).val (slabT F b.mx.x o.x inv.x).val) (fin m).val)
        (max (slabT F b.mn.y o.y inv.y).val (slabT F b.mx.y o.y inv.y).val))
        (max (slabT F b.mn.z o.z inv.z).val (slabT F b.mx.z o.z inv.z).val) := by
  obtain ⟨h1, h2, h3, h4, h5, h6⟩ := h
  have m0 : (fin m : Ext K) ≠ nan := by simp
  have z0 : (fin 0 : Ext K) ≠ nan := by simp
  obtain ⟨a1, b1⟩ := stdMin_val h1 h2
  obtain ⟨a2, b2⟩ := stdMax_val h1 h2
  obtain ⟨a3, b3⟩ := stdMin_val b2 m0
  obtain ⟨a4, b4⟩ := stdMin_val h3 h4
  obtain ⟨a5, b5⟩ := stdMax_val h3 h4
  obtain ⟨a6, b6⟩ := stdMax_val b1 b4
  obtain ⟨a7, b7⟩ := stdMin_val b3 b5
  obtain ⟨a8, b8⟩ := stdMin_val h5 h6
  obtain ⟨a9, b9⟩ := stdMax_val h5 h6
  obtain ⟨c1, d1⟩ := stdMax_val b6 b8
  obtain ⟨c2, d2⟩ := stdMin_val b7 b9
  obtain ⟨c3, d3⟩ := stdMax_val d1 z0
  unfold testRay
  rw [ge_iff d2 d3, c3, c2, c1, a9, a8, a7, a6, a5, a4, a3, a2, a1]

/-- The interval of an axis grows with the box. -/
theorem slab_mono (F : FloatOps K) {o mn mx mn' mx' : K} {inv : Ext K} (hv : mn ≤ mx) (h1 : mn' ≤ mn) (h2 : mx ≤ mx')
    (n1 : slabT F mn o inv ≠ nan) (n2 : slabT F mx o inv ≠ nan) (n3 : slabT F mn' o inv ≠ nan) (n4 : slabT F mx' o inv ≠ nan) :
    min (slabT F mn' o inv).val (slabT F mx' o inv).val ≤ min (slabT F mn o inv).val (slabT F mx o inv).val ∧
    max (slabT F mn o inv).val (slabT F mx o inv).val ≤ max (slabT F mn' o inv).val (slabT F mx' o inv).val := by
  have hs : ∀ c c' : K, c ≤ c' → (F.sub c o).val ≤ (F.sub c' o).val := fun c c' h => F.mono (by linarith)
  have e1 := hs _ _ h1
  have e2 := hs _ _ h2
  have e3 := hs _ _ hv
  unfold slabT at *
  rcases F.mul_mono inv with hm | hm
  · have f1 := hm _ _ (F.num _) (F.num _) n3 n1 e1
    have f2 := hm _ _ (F.num _) (F.num _) n2 n4 e2
    have f3 := hm _ _ (F.num _) (F.num _) n1 n2 e3
    exact ⟨le_min ((min_le_left _ _).trans f1) ((min_le_left _ _).trans (f1.trans f3)),
      max_le ((f3.trans f2).trans (le_max_right _ _)) (f2.trans (le_max_right _ _))⟩
  · have f1 := hm _ _ (F.num _) (F.num _) n3 n1 e1
    have f2 := hm _ _ (F.num _) (F.num _) n2 n4 e2
    have f3 := hm _ _ (F.num _) (F.num _) n1 n2 e3
    exact ⟨le_min ((min_le_right _ _).trans (f2.trans f3)) ((min_le_right _ _).trans f2),
      max_le (f1.trans (le_max_left _ _)) ((f3.trans f1).trans (le_max_left _ _))⟩

/-- A ray that passes the test for a box passes it for every larger one, and with a larger maximum fraction. -/
theorem testRay_mono (F : FloatOps K) {a b : AABB K} {o : V3 K} {inv : V3 (Ext K)} {m m' : K} (hv : b.Valid) (hc : a.contains b = true)
    (hm : m ≤ m') (na : NoNaN F a o inv) (nb : NoNaN F b o inv) (h : b.testRay F o inv m = true) : a.testRay F o inv m' = true := by
  rw [testRay_iff F _ _ _ _ na]
  rw [testRay_iff F _ _ _ _ nb] at h
  rw [contains_iff] at hc
  obtain ⟨c1, c2, c3, c4, c5, c6⟩ := hc
  obtain ⟨v1, v2, v3⟩ := hv
  obtain ⟨a1, a2, a3, a4, a5, a6⟩ := na
  obtain ⟨b1, b2, b3, b4, b5, b6⟩ := nb
  obtain ⟨x1, x2⟩ := slab_mono F v1 c1 c4 b1 b2 a1 a2
  obtain ⟨y1, y2⟩ := slab_mono F v2 c2 c5 b3 b4 a3 a4
  obtain ⟨z1, z2⟩ := slab_mono F v3 c3 c6 b5 b6 a5 a6
  refine le_trans ?_ (le_trans h ?_)
  · exact max_le_max (max_le_max (max_le_max x1 y1) z1) le_rfl
  · exact min_le_min (min_le_min (min_le_min x2 (val_fin_le.2 hm)) y2) z2

theorem NoNaN.merge {F : FloatOps K} {a b : AABB K} {o : V3 K} {inv : V3 (Ext K)} (ha : NoNaN F a o inv) (hb : NoNaN F b o inv) :
    NoNaN F (AABB.merge a b) o inv := by
  obtain ⟨a1, a2, a3, a4, a5, a6⟩ := ha
  obtain ⟨b1, b2, b3, b4, b5, b6⟩ := hb
  rw [merge_eq]
  have hmin : ∀ x y c i, slabT F x c i ≠ nan → slabT F y c i ≠ nan → slabT F (min x y) c i ≠ nan := by
    intro x y c i h1 h2
    rcases min_choice x y with h | h <;> rw [h] <;> assumption
  have hmax : ∀ x y c i, slabT F x c i ≠ nan → slabT F y c i ≠ nan → slabT F (max x y) c i ≠ nan := by
    intro x y c i h1 h2
    rcases max_choice x y with h | h <;> rw [h] <;> assumption
  exact ⟨hmin _ _ _ _ a1 b1, hmax _ _ _ _ a2 b2, hmin _ _ _ _ a3 b3, hmax _ _ _ _ a4 b4, hmin _ _ _ _ a5 b5, hmax _ _ _ _ a6 b6⟩

/-! Exact arithmetic. -/

/-- The values of a parameter `t` for which the point is between the two planes. -/
theorem slab_exact {o d mn mx : K} {neg : Bool} (hv : mn ≤ mx) (hn : d ≠ 0 ∨ o ≠ mn ∧ o ≠ mx) (t : K) :
    (mn ≤ o + t * d ∧ o + t * d ≤ mx) ↔
      min (slabT (FloatOps.exact K) mn o ((FloatOps.exact K).inv neg d)).val (slabT (FloatOps.exact K) mx o ((FloatOps.exact K).inv neg d)).val
        ≤ (fin t).val ∧ (fin t).val ≤
      max (slabT (FloatOps.exact K) mn o ((FloatOps.exact K).inv neg d)).val (slabT (FloatOps.exact K) mx o ((FloatOps.exact K).inv neg d)).val := by
  rcases lt_trichotomy d 0 with hd | hd | hd
  · have e : ∀ c, slabT (FloatOps.exact K) c o ((FloatOps.exact K).inv neg d) = fin ((c - o) * (1 / d)) := by
      intro c; simp [slabT, FloatOps.inv, FloatOps.exact, FloatOps.mul, FloatOps.sub, hd.ne]
    rw [e, e]
    simp only [min_le_iff, le_max_iff, val_fin_le]
    have e1 : ∀ c, (c - o) * (1 / d) ≤ t ↔ o + t * d ≤ c := by
      intro c
      rw [mul_one_div, div_le_iff_of_neg hd]
      constructor <;> intro h <;> linarith
    have e2 : ∀ c, t ≤ (c - o) * (1 / d) ↔ c ≤ o + t * d := by
      intro c
      rw [mul_one_div, le_div_iff_of_neg hd]
      constructor <;> intro h <;> linarith
    rw [e1, e1, e2, e2]
    constructor
    · rintro ⟨h1, h2⟩; exact ⟨Or.inr h2, Or.inl h1⟩
    · rintro ⟨h1, h2⟩
      exact ⟨h2.elim id (fun h => hv.trans h), h1.elim (fun h => h.trans hv) id⟩
  · subst hd
    obtain ⟨n1, n2⟩ : o ≠ mn ∧ o ≠ mx := hn.resolve_left (by simp)
    simp only [mul_zero, add_zero]
    have q : ∀ c, o ≠ c → slabT (FloatOps.exact K) c o ((FloatOps.exact K).inv neg 0) =
        if (o < c) = (neg = false) then pinf else ninf := by
      intro c hc
      rcases lt_or_gt_of_ne hc with h | h
      · have h' : ¬ (o - c > 0) := by linarith
        have h3 : ¬ (o - c) > 0 := h'
        cases neg <;> simp [slabT, FloatOps.inv, FloatOps.exact, FloatOps.mul, FloatOps.sub, FloatOps.signInf, h, h.le]
      · have h' : ¬ (0 < c - o) := by linarith
        cases neg <;> simp [slabT, FloatOps.inv, FloatOps.exact, FloatOps.mul, FloatOps.sub, FloatOps.signInf, h, h.le]
    rw [q mn n1, q mx n2]
    rcases lt_or_gt_of_ne n1 with h1 | h1 <;> rcases lt_or_gt_of_ne n2 with h2 | h2
    · have : ¬ mn ≤ o := by linarith
      cases neg <;> simp [h1, h2, this, val]
    · exfalso; linarith
    · have a1 : ¬ o < mn := by linarith
      cases neg <;> simp [a1, h2, h1.le, h2.le, val]
    · have a1 : ¬ o < mn := by linarith
      have a2 : ¬ o < mx := by linarith
      have a3 : ¬ o ≤ mx := by linarith
      cases neg <;> simp [a1, a2, a3, val]
  · have e : ∀ c, slabT (FloatOps.exact K) c o ((FloatOps.exact K).inv neg d) = fin ((c - o) * (1 / d)) := by
      intro c; simp [slabT, FloatOps.inv, FloatOps.exact, FloatOps.mul, FloatOps.sub, hd.ne']
    rw [e, e]
    simp only [min_le_iff, le_max_iff, val_fin_le]
    have e1 : ∀ c, (c - o) * (1 / d) ≤ t ↔ c ≤ o + t * d := by
      intro c
      rw [mul_one_div, div_le_iff₀ hd]
      constructor <;> intro h <;> linarith
    have e2 : ∀ c, t ≤ (c - o) * (1 / d) ↔ o + t * d ≤ c := by
      intro c
      rw [mul_one_div, le_div_iff₀ hd]
      constructor <;> intro h <;> linarith
    rw [e1, e1, e2, e2]
    constructor
    · rintro ⟨h1, h2⟩; exact ⟨Or.inl h1, Or.inr h2⟩
    · rintro ⟨h1, h2⟩
      exact ⟨h1.elim id (fun h => hv.trans h), h2.elim (fun h => h.trans hv) id⟩

theorem noNaN_axis {o d c : K} {neg : Bool} (h : d ≠ 0 ∨ o ≠ c) : slabT (FloatOps.exact K) c o ((FloatOps.exact K).inv neg d) ≠ nan := by
  by_cases hd : d = 0
  · have hc := h.resolve_left (by simp [hd])
    have hc' : c - o ≠ 0 := sub_ne_zero.2 hc.symm
    subst hd
    rcases lt_or_gt_of_ne hc with h | h
    · cases neg <;> simp [slabT, FloatOps.inv, FloatOps.exact, FloatOps.mul, FloatOps.sub, FloatOps.signInf, h] <;> split_ifs <;> simp
    · cases neg <;> simp [slabT, FloatOps.inv, FloatOps.exact, FloatOps.mul, FloatOps.sub, FloatOps.signInf, h] <;> split_ifs <;> simp
  · simp [slabT, FloatOps.inv, FloatOps.exact, FloatOps.mul, FloatOps.sub, hd]

/-- The ray is not parallel to a pair of sides of the box while lying in one of their planes. -/
def Clear (b : AABB K) (o d : V3 K) : Prop :=
  (d.x ≠ 0 ∨ o.x ≠ b.mn.x ∧ o.x ≠ b.mx.x) ∧ (d.y ≠ 0 ∨ o.y ≠ b.mn.y ∧ o.y ≠ b.mx.y) ∧ (d.z ≠ 0 ∨ o.z ≠ b.mn.z ∧ o.z ≠ b.mx.z)

theorem Clear.noNaN {b : AABB K} {o d : V3 K} (h : Clear b o d) (neg : V3 Bool) :
    NoNaN (FloatOps.exact K) b o (rayInv (FloatOps.exact K) neg d) := by
  obtain ⟨h1, h2, h3⟩ := h
  exact ⟨noNaN_axis (h1.imp id And.left), noNaN_axis (h1.imp id And.right), noNaN_axis (h2.imp id And.left),
    noNaN_axis (h2.imp id And.right), noNaN_axis (h3.imp id And.left), noNaN_axis (h3.imp id And.right)⟩

/-- A value between two extended numbers that is between 0 and `m` is a number. -/
theorem exists_between_val {l u : WithBot (WithTop K)} {m : K} (h : max l (fin (0 : K)).val ≤ min u (fin m).val) :
    ∃ t : K, l ≤ (fin t).val ∧ (fin t).val ≤ u ∧ 0 ≤ t ∧ t ≤ m := by
  rw [max_le_iff, le_min_iff, le_min_iff] at h
  obtain ⟨⟨h1, h2⟩, h3, h4⟩ := h
  by_cases hl : l ≤ (fin (0 : K)).val
  · exact ⟨0, hl, h3, le_rfl, val_fin_le.1 h4⟩
  · rw [not_le] at hl
    -- `l` is a number
    induction l using WithBot.recBotCoe with
    | bot => simp at hl
    | coe l =>
      induction l using WithTop.recTopCoe with
      | top => simp [val] at h2
      | coe l =>
        refine ⟨l, le_rfl, h1, ?_, ?_⟩
        · simpa [val] using hl.le
        · simpa [val] using h2

/-- In exact arithmetic the slab test says whether the segment meets the box. -/
theorem testRay_exact (b : AABB K) (o d : V3 K) (neg : V3 Bool) (m : K) (hv : b.Valid) (hc : Clear b o d) :
    b.testRay (FloatOps.exact K) o (rayInv (FloatOps.exact K) neg d) m = true ↔ RaySpec.Hits o d b m := by
  rw [testRay_iff _ _ _ _ _ (hc.noNaN neg)]
  obtain ⟨v1, v2, v3⟩ := hv
  obtain ⟨c1, c2, c3⟩ := hc
  have key : RaySpec.Hits o d b m ↔ ∃ t : K, 0 ≤ t ∧ t ≤ m ∧ (b.mn.x ≤ o.x + t * d.x ∧ o.x + t * d.x ≤ b.mx.x) ∧
      (b.mn.y ≤ o.y + t * d.y ∧ o.y + t * d.y ≤ b.mx.y) ∧ (b.mn.z ≤ o.z + t * d.z ∧ o.z + t * d.z ≤ b.mx.z) := by
    unfold RaySpec.Hits AABB.Mem
    simp only [and_assoc]
  rw [key]
  simp only [slab_exact (neg := neg.x) v1 c1, slab_exact (neg := neg.y) v2 c2, slab_exact (neg := neg.z) v3 c3]
  simp only [rayInv]
  generalize slabT (FloatOps.exact K) b.mn.x o.x _ = x1
  generalize slabT (FloatOps.exact K) b.mx.x o.x _ = x2
  generalize slabT (FloatOps.exact K) b.mn.y o.y _ = y1
  generalize slabT (FloatOps.exact K) b.mx.y o.y _ = y2
  generalize slabT (FloatOps.exact K) b.mn.z o.z _ = z1
  generalize slabT (FloatOps.exact K) b.mx.z o.z _ = z2
  constructor
  · intro h
    have h' : max (max (max (min x1.val x2.val) (min y1.val y2.val)) (min z1.val z2.val)) (fin (0 : K)).val ≤
        min (min (min (max x1.val x2.val) (max y1.val y2.val)) (max z1.val z2.val)) (fin m).val := by
      refine h.trans (le_of_eq ?_)
      rw [min_assoc (max x1.val x2.val), min_comm (fin m).val, ← min_assoc, min_assoc _ (fin m).val, min_comm (fin m).val, ← min_assoc]
    obtain ⟨t, a1, a2, a3, a4⟩ := exists_between_val h'
    rw [max_le_iff, max_le_iff] at a1
    rw [le_min_iff, le_min_iff] at a2
    exact ⟨t, a3, a4, ⟨a1.1.1, a2.1.1⟩, ⟨a1.1.2, a2.1.2⟩, a1.2, a2.2⟩
  · rintro ⟨t, a3, a4, ⟨h1, h2⟩, ⟨h3, h4⟩, h5, h6⟩
    have a3' : (fin (0 : K)).val ≤ (fin t).val := val_fin_le.2 a3
    have a4' : (fin t).val ≤ (fin m).val := val_fin_le.2 a4
    exact (max_le (max_le (max_le h1 h3) h5) a3').trans (le_min (le_min (le_min h2 a4') h4) h6)

end AABB
end RP3D
