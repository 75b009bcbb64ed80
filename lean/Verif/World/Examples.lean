import Verif.World.Hist

/-!
Concrete histories over the integers, used to show that hypotheses can be met and to show behaviour that disagrees with a property.

Boxes are inflated by 1 when they enter the tree.
-/

set_option linter.unusedSectionVars false

namespace RP3D
namespace World
variable {α : Type} [LinearOrder α]

/-- The pairs of nodes below `N` that the broad phase reports. -/
def nodesBelow (N : Nat) (w : World α) : List (Nat × Nat) :=
  ((List.range N).flatMap fun n => (List.range N).map fun m => (n, m)).filter fun nm =>
    w.moved nm.1 && match w.tree nm.1, w.tree nm.2 with
      | some t, some u => t.fat.testCollision u.fat
      | _, _ => false

theorem nodesBelow_ok {N : Nat} {w : World α} (h : ∀ n, N ≤ n → w.tree n = none) : w.NodesOf (w.nodesBelow N) := by
  intro n m
  have hlt : ∀ n t, w.tree n = some t → n < N := by
    intro n t ht
    by_contra hn
    rw [h n (by omega)] at ht
    cases ht
  simp only [nodesBelow, List.mem_filter, List.mem_flatMap, List.mem_range, List.mem_map, Prod.mk.injEq, Bool.and_eq_true]
  constructor
  · rintro ⟨_, h1, h2⟩
    refine ⟨h1, ?_⟩
    split at h2
    · rename_i t u ht hu
      exact ⟨t, u, ht, hu, h2⟩
    · cases h2
  · rintro ⟨h1, t, u, ht, hu, h2⟩
    refine ⟨⟨n, hlt n t ht, m, hlt m u hu, rfl, rfl⟩, h1, ?_⟩
    rw [ht, hu]
    exact h2

end World

namespace WEx
open World

/-- Inflation of a box by 1 on all sides. -/
def fat (b : AABB Int) : AABB Int := ⟨⟨b.mn.x - 1, b.mn.y - 1, b.mn.z - 1⟩, ⟨b.mx.x + 1, b.mx.y + 1, b.mx.z + 1⟩⟩

/-- A cube of side 2 at `x`. -/
def cube (x : Int) : AABB Int := ⟨⟨x, 0, 0⟩, ⟨x + 2, 2, 2⟩⟩

/-- The world after a call (the empty world if the call is undefined). -/
def next (w : World Int) (op : WOp Int) : World Int := ((w.exec fat op).getD (init, [])).1
def evs (w : World Int) (op : WOp Int) : List Event := ((w.exec fat op).getD (init, [])).2

theorem Hist.next {r : Rules} {tr : List (WOp Int × List Event)} {w : World Int} (h : Hist fat r tr w) {op : WOp Int} (hv : w.Valid op) (hf : w.Follows r op)
    (he : (w.exec fat op).isSome = true) : Hist fat r (tr ++ [(op, evs w op)]) (next w op) := by
  refine Hist.step h hv hf ?_
  obtain ⟨x, hx⟩ := Option.isSome_iff_exists.1 he
  simp [WEx.next, evs, hx]

/-- No rule is followed. -/
def free : Rules := ⟨False, False, False, False, False, False⟩
/-- All rules are followed. -/
def all : Rules := ⟨True, True, True, True, True, True⟩

theorem follows_free (w : World Int) (op : WOp Int) : w.Follows free op := by
  cases op <;> simp [Follows, free]

/-- The step in which the tested pairs for which `hit` holds collide and nothing moves. -/
def stepWith (hit : Bool) (w : World Int) (wake sleep : List Nat) : WOp Int := .update ⟨w.nodesBelow 2, fun _ => hit, wake, [], fun _ => cube 0, sleep⟩
abbrev stepOp := stepWith true

/-- Two bodies with one collider each, whose boxes overlap. -/
def w1 := next init (.createBody 0)
def w2 := next w1 (.createBody 1)
def w3 := next w2 (.addCollider 0 0 true 0 (cube 0))
def w4 := next w3 (.addCollider 1 1 true 1 (cube 1))
def theTree : Nat → Option (TObj Int) := upd (upd (fun _ => none) 0 (some ⟨0, fat (cube 0)⟩)) 1 (some ⟨1, fat (cube 1)⟩)

theorem theTree_none : ∀ n, 2 ≤ n → theTree n = none := by
  intro n hn
  rw [theTree, upd_ne _ _ (by omega), upd_ne _ _ (by omega)]

theorem nodes_ok {w : World Int} (ht : w.tree = theTree) : w.NodesOf (w.nodesBelow 2) := nodesBelow_ok (by rw [ht]; exact theTree_none)

theorem step_valid {w : World Int} {hit : Bool} {wake sleep : List Nat} (ht : w.tree = theTree) (hb : (wake ++ sleep).all (fun b => (w.body b).isSome) = true) :
    w.Valid (stepWith hit w wake sleep) := by
  rw [List.all_append, Bool.and_eq_true, List.all_eq_true, List.all_eq_true] at hb
  exact ⟨nodes_ok ht, fun b h => Option.isSome_iff_exists.1 (hb.1 b h), fun b h => Option.isSome_iff_exists.1 (hb.2 b h)⟩

theorem ex_of {β : Type} {o : Option β} (h : o.isSome = true) : ∃ x, o = some x := Option.isSome_iff_exists.1 h
theorem none_of {β : Type} {o : Option β} (h : o.isNone = true) : o = none := by cases o <;> simp_all

theorem hist4 (r : Rules) : ∃ tr, Hist fat r tr w4 := by
  have h0 : Hist fat r [] (World.init : World Int) := Hist.init
  have h1 := Hist.next h0 (op := .createBody 0) rfl trivial (by decide +kernel)
  have h2 := Hist.next h1 (op := .createBody 1) (none_of (o := (next World.init (.createBody 0)).body 1) (by decide +kernel)) trivial (by decide +kernel)
  have h3 := Hist.next h2 (op := .addCollider 0 0 true 0 (cube 0)) ⟨ex_of (o := w2.body 0) (by decide +kernel), none_of (o := w2.col 0) (by decide +kernel), by decide,
    none_of (o := w2.tree 0) (by decide +kernel)⟩ trivial (by decide +kernel)
  have h4 := Hist.next h3 (op := .addCollider 1 1 true 1 (cube 1)) ⟨ex_of (o := w3.body 1) (by decide +kernel), none_of (o := w3.col 1) (by decide +kernel), by decide,
    none_of (o := w3.tree 1) (by decide +kernel)⟩ trivial (by decide +kernel)
  exact ⟨_, h4⟩

def w5 := next w4 (stepOp w4 [] [])

theorem hist5 (r : Rules) : ∃ tr, Hist fat r tr w5 := by
  obtain ⟨tr, h4⟩ := hist4 r
  exact ⟨_, Hist.next h4 (op := stepOp w4 [] []) (step_valid rfl rfl) trivial (by decide +kernel)⟩

theorem w4_step : evs w4 (stepOp w4 [] []) = [⟨.start, 0, 1, false⟩] := by decide +kernel
theorem w5_step : evs w5 (stepOp w5 [] []) = [⟨.stay, 0, 1, false⟩] := by decide +kernel

/-- The two colliders of the scene may collide and their fat boxes overlap. -/
theorem meet_of {w : World Int} (ht : w.tree = theTree) {x1 x2 : Col} (h1 : w.col 0 = some x1) (h2 : w.col 1 = some x2) (hb : x1.bp = some 0 ∧ x2.bp = some 1)
    (hn : x1.body ≠ x2.body) (hc : w.noColl (bodyPair x1.body x2.body) = false) (hm : x1.mask &&& x2.cat ≠ 0 ∧ x1.cat &&& x2.mask ≠ 0) (hv : x1.convex = true) :
    Meet w 0 1 0 1 x1 x2 ⟨0, fat (cube 0)⟩ ⟨1, fat (cube 1)⟩ :=
  ⟨h1, h2, hb.1, hb.2, by rw [ht]; rfl, by rw [ht]; rfl, hn, hc, hm, Or.inl hv, by decide⟩

def col0 : Col := ⟨0, some 0, true, 1, 0xFFFF, false, true, true, false, false⟩
def col1 : Col := ⟨1, some 1, true, 1, 0xFFFF, false, true, true, false, false⟩

theorem w4_meet : Meet w4 0 1 0 1 col0 col1 ⟨0, fat (cube 0)⟩ ⟨1, fat (cube 1)⟩ :=
  meet_of rfl (by decide +kernel) (by decide +kernel) ⟨rfl, rfl⟩ (by decide) (by decide +kernel) (by decide) rfl

theorem w5_meet : Meet w5 0 1 0 1 col0 col1 ⟨0, fat (cube 0)⟩ ⟨1, fat (cube 1)⟩ :=
  meet_of rfl (by decide +kernel) (by decide +kernel) ⟨rfl, rfl⟩ (by decide) (by decide +kernel) (by decide) rfl

end WEx
end RP3D
