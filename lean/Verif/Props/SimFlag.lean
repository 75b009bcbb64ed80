import Verif.World.SimFlag
import Verif.Props.WorldDisagree

/-!
C64: the flag `mHasSimulationCollider` of a body. `createIslands` reads it to decide whether a contact joins two bodies
(PhysicsWorld.cpp:800), and the model of islands assumes that it is set for the bodies of two simulation colliders.
-/

namespace RP3D
open World WorldSpec WEx

/-- C64, one direction, over all histories: a body with a simulation collider is treated as such.
Missing: the flag is not cleared when the last simulation collider is removed or turned off (`sim_flag_stale`). -/
theorem sim_flag_set_partial {α : Type} [LinearOrder α] {fat : AABB α → AABB α} {r : Rules} {tr : List (WOp α × List Event)} {w : World α}
    (h : Hist fat r tr w) {b c : Nat} {B : Body} {x : Col} (hB : w.body b = some B) (hx : w.col c = some x) (hb : x.body = b) (hs : x.sim = true) :
    B.hasSim = true := by
  subst hb
  exact h.simOk c x B hx hB hs

/-- Such a body exists. -/
example : ∃ tr w B x, Hist WEx.fat free tr w ∧ w.body 0 = some B ∧ w.col 0 = some x ∧ x.body = 0 ∧ x.sim = true := by
  obtain ⟨tr, h⟩ := hist5 free
  obtain ⟨B, hB⟩ := ex_of (o := w5.body 0) (by decide +kernel)
  exact ⟨tr, w5, B, col0, h, hB, by decide +kernel, rfl, rfl⟩

/-- C64 does not hold: a body whose only collider is removed is still treated as having a simulation collider
(`updateHasSimulationCollider` never writes `false`, Body.cpp:470-485). -/
theorem sim_flag_stale : ∃ tr w B, Hist WEx.fat free tr w ∧ w.body 0 = some B ∧ B.cols = [] ∧ B.hasSim = true := by
  obtain ⟨tr, h⟩ := hist5 free
  have h1 := Hist.next h (op := .removeCollider 0 0 []) ⟨⟨col0, by decide +kernel, rfl⟩, by simp⟩ (follows_free _ _) (by decide +kernel)
  obtain ⟨B, hB⟩ := ex_of (o := (next w5 (.removeCollider 0 0 [])).body 0) (by decide +kernel)
  refine ⟨_, _, B, h1, hB, ?_, ?_⟩
  · have : ((next w5 (.removeCollider 0 0 [])).body 0).map Body.cols = some [] := by decide +kernel
    rw [hB] at this; exact Option.some.inj this
  · have : ((next w5 (.removeCollider 0 0 [])).body 0).map Body.hasSim = some true := by decide +kernel
    rw [hB] at this; exact Option.some.inj this

/-- C64 does not hold: the same when the collider is turned into a trigger. -/
theorem sim_flag_stale_trigger : ∃ tr w B x, Hist WEx.fat free tr w ∧ w.body 0 = some B ∧ B.cols = [0] ∧ w.col 0 = some x ∧ x.sim = false ∧ B.hasSim = true := by
  obtain ⟨tr, h⟩ := hist5 free
  have h1 := Hist.next h (op := .setTrigger 0 true) (ex_of (o := w5.col 0) (by decide +kernel)) (follows_free _ _) (by decide +kernel)
  obtain ⟨B, hB⟩ := ex_of (o := (next w5 (.setTrigger 0 true)).body 0) (by decide +kernel)
  obtain ⟨x, hx⟩ := ex_of (o := (next w5 (.setTrigger 0 true)).col 0) (by decide +kernel)
  refine ⟨_, _, B, x, h1, hB, ?_, hx, ?_, ?_⟩
  · have : ((next w5 (.setTrigger 0 true)).body 0).map Body.cols = some [0] := by decide +kernel
    rw [hB] at this; exact Option.some.inj this
  · have : ((next w5 (.setTrigger 0 true)).col 0).map Col.sim = some false := by decide +kernel
    rw [hx] at this; exact Option.some.inj this
  · have : ((next w5 (.setTrigger 0 true)).body 0).map Body.hasSim = some true := by decide +kernel
    rw [hB] at this; exact Option.some.inj this

end RP3D
