import Verif.Broadphase.Tree
import Verif.Math.Rounding
import Mathlib.Tactic.Linarith

/-! The enlarged box computed by the tree, with rounded arithmetic. -/

namespace RP3D
variable {K : Type} [Field K] [LinearOrder K] [IsStrictOrderedRing K]

/-- The fat box (DynamicAABBTree.cpp:152-155, 202-205) with each operation rounded: `gap = aabb.getExtent() * pct * 0.5`, then
`min - gap`, `max + gap`. -/
def fatBoxR (R : Rounding K) (pct : K) (b : AABB K) : AABB K :=
  let gap : K → K → K := fun mn mx => R.rnd (R.rnd (R.rnd (mx - mn) * pct) * (1 / 2))
  ⟨⟨R.rnd (b.mn.x - gap b.mn.x b.mx.x), R.rnd (b.mn.y - gap b.mn.y b.mx.y), R.rnd (b.mn.z - gap b.mn.z b.mx.z)⟩,
   ⟨R.rnd (b.mx.x + gap b.mn.x b.mx.x), R.rnd (b.mx.y + gap b.mn.y b.mx.y), R.rnd (b.mx.z + gap b.mn.z b.mx.z)⟩⟩

/-- The six coordinates are representable numbers. -/
def AABB.Repr (R : Rounding K) (b : AABB K) : Prop :=
  R.rnd b.mn.x = b.mn.x ∧ R.rnd b.mn.y = b.mn.y ∧ R.rnd b.mn.z = b.mn.z ∧
  R.rnd b.mx.x = b.mx.x ∧ R.rnd b.mx.y = b.mx.y ∧ R.rnd b.mx.z = b.mx.z

theorem gap_nonneg (R : Rounding K) {pct mn mx : K} (hp : 0 ≤ pct) (h : mn ≤ mx) :
    0 ≤ R.rnd (R.rnd (R.rnd (mx - mn) * pct) * (1 / 2)) := by
  have key : ∀ x, 0 ≤ x → 0 ≤ R.rnd x := fun x hx => by have := R.mono hx; rwa [R.zero] at this
  have h2 : (0 : K) ≤ 1 / 2 := by positivity
  exact key _ (mul_nonneg (key _ (mul_nonneg (key _ (by linarith)) hp)) h2)

theorem fatBoxR_contains (R : Rounding K) {pct : K} (hp : 0 ≤ pct) (b : AABB K) (hv : b.Valid) (hr : b.Repr R) :
    (fatBoxR R pct b).contains b = true := by
  rw [AABB.contains_iff]
  obtain ⟨v1, v2, v3⟩ := hv
  obtain ⟨r1, r2, r3, r4, r5, r6⟩ := hr
  have lo : ∀ a g : K, 0 ≤ g → R.rnd a = a → R.rnd (a - g) ≤ a := fun a g hg ha => by
    have := R.mono (show a - g ≤ a by linarith); rwa [ha] at this
  have hi : ∀ a g : K, 0 ≤ g → R.rnd a = a → a ≤ R.rnd (a + g) := fun a g hg ha => by
    have := R.mono (show a ≤ a + g by linarith); rwa [ha] at this
  exact ⟨lo _ _ (gap_nonneg R hp v1) r1, lo _ _ (gap_nonneg R hp v2) r2, lo _ _ (gap_nonneg R hp v3) r3,
    hi _ _ (gap_nonneg R hp v1) r4, hi _ _ (gap_nonneg R hp v2) r5, hi _ _ (gap_nonneg R hp v3) r6⟩

theorem fatBoxR_exact (pct : K) (b : AABB K) : fatBoxR (Rounding.exact K) pct b = fatBox pct b := rfl

end RP3D
