import Verif.Props.Isotropy
import Verif.Props.GalileoExamples
import Mathlib.Analysis.Real.Sqrt

/-! C143: examples. -/

namespace RP3D
namespace Isotropy
open Solver Joints Whole Turned
open Apart (Ev)

namespace Glide

noncomputable section

/-- A ball that moves along another one; the second one is pushed. -/
def calls : List (Ev ℝ) :=
  [.create 1 ⟨⟨0, 0, 0⟩, ⟨0, 0, 0, 1⟩⟩, .create 2 ⟨⟨0, 2, 0⟩, ⟨0, 0, 0, 1⟩⟩, .call 2 (.setMass 3), .call 1 (.linearVelocity ⟨1, 0, 0⟩), .call 2 (.force ⟨0, -6, 0⟩ ⟨1, 2, 0⟩)]
def cc : Cfg ℝ := ⟨0, 1 / 5, 1 / 100, true, 1 / 2, 1 / 1000⟩
def jc : JCfg ℝ := ⟨0, 1 / 5, 1 / 8388608, true, 3, Real.sqrt, fun _ => 0, fun _ _ => 0, fun x _ => x⟩
def hit : XMan ℝ := ⟨1, 2, 1 / 2, 1 / 4, 0, 0, 0, 0, 0, [⟨⟨0, 1, 0⟩, ⟨0, 1, 0⟩, ⟨0, 1, 0⟩, 1 / 10, false, 0⟩]⟩
def smooth : XMan ℝ := { hit with mu := 0 }
def step : In ℝ := ⟨1 / 60, some ⟨0, -10, 0⟩, [[1, 2]], cc, jc, [hit, smooth], ⟨[], [], [], []⟩, 10, 5, fun q => Real.sqrt q.lengthSq, fun x y => x + y, 1000000⟩
def tale : List (Ev ℝ) := calls ++ [.step step]
def start : DW ℝ := DW.empty true (1 / 50) (1 / 60) 1
def g : Quat ℝ := ⟨0, 3 / 5, 0, 4 / 5⟩

end

end Glide
open Glide

theorem glide_len (q : Quat ℝ) : 0 ≤ Real.sqrt q.lengthSq ∧ Real.sqrt q.lengthSq * Real.sqrt q.lengthSq = q.lengthSq := by
  refine ⟨Real.sqrt_nonneg _, Real.mul_self_sqrt ?_⟩
  unfold Quat.lengthSq
  nlinarith [mul_self_nonneg q.x, mul_self_nonneg q.y, mul_self_nonneg q.z, mul_self_nonneg q.w]

theorem glide_clear : Clear step (calls.foldl Ev.run start) := by
  refine ⟨rfl, fun X hX => ?_, glide_len⟩
  have : X = hit ∨ X = smooth := by simpa [step] using hX
  rcases this with rfl | rfl
  · right
    have a : dyn (calls.foldl Ev.run start) 1 = (Dyn.create ⟨⟨0, 0, 0⟩, ⟨0, 0, 0, 1⟩⟩).setLinearVelocity ⟨1, 0, 0⟩ := rfl
    have b : dyn (calls.foldl Ev.run start) 2 = ((Dyn.create ⟨⟨0, 2, 0⟩, ⟨0, 0, 0, 1⟩⟩).setMass 3).applyForce ⟨0, -6, 0⟩ ⟨1, 2, 0⟩ := rfl
    have va : ((Dyn.create ⟨⟨0, 0, 0⟩, ⟨0, 0, 0, 1⟩⟩).setLinearVelocity ⟨1, 0, 0⟩ : Dyn ℝ).vel = ⟨1, 0, 0⟩ ∧ ((Dyn.create ⟨⟨0, 0, 0⟩, ⟨0, 0, 0, 1⟩⟩).setLinearVelocity ⟨1, 0, 0⟩ : Dyn ℝ).ang = 0 := by
      constructor <;> simp [Dyn.setLinearVelocity, Dyn.create, Dyn.setIsSleeping]
    have vb : (((Dyn.create ⟨⟨0, 2, 0⟩, ⟨0, 0, 0, 1⟩⟩).setMass 3).applyForce ⟨0, -6, 0⟩ ⟨1, 2, 0⟩ : Dyn ℝ).vel = 0 ∧
        (((Dyn.create ⟨⟨0, 2, 0⟩, ⟨0, 0, 0, 1⟩⟩).setMass 3).applyForce ⟨0, -6, 0⟩ ⟨1, 2, 0⟩ : Dyn ℝ).ang = 0 := by
      have n : ¬ ((3 : ℝ) < 0) := by norm_num
      constructor <;> simp [Dyn.setMass, Dyn.storeMass, Dyn.create, Dyn.applyForce, n]
    have u : unit cc Real.sqrt (sum3 (hit.pts.map XPoint.normal)) = ⟨0, 1, 0⟩ := by
      have e : sum3 (hit.pts.map XPoint.normal) = (⟨0, 1, 0⟩ : V3 ℝ) := by
        show (0 : V3 ℝ) + ⟨0, 1, 0⟩ = _
        rw [zero_add]
      have l : (⟨0, 1, 0⟩ : V3 ℝ).lengthSq = 1 := by simp [V3.lengthSq]
      unfold unit
      rw [e, l, Real.sqrt_one, if_neg (by norm_num [cc])]
      ext <;> simp [V3.smul]
    have s : slip cc Real.sqrt (fun b => (jbody (dyn (calls.foldl Ev.run start) b)).toSBody) hit = ⟨-1, 0, 0⟩ := by
      unfold slip
      dsimp only
      rw [u]
      show _ = (⟨-1, 0, 0⟩ : V3 ℝ)
      have h1 : (jbody (dyn (calls.foldl Ev.run start) hit.b1)).v = ⟨1, 0, 0⟩ := by show (dyn _ 1).vel = _; rw [a]; exact va.1
      have h2 : (jbody (dyn (calls.foldl Ev.run start) hit.b1)).w = 0 := by show (dyn _ 1).ang = _; rw [a]; exact va.2
      have h3 : (jbody (dyn (calls.foldl Ev.run start) hit.b2)).v = 0 := by show (dyn _ 2).vel = _; rw [b]; exact vb.1
      have h4 : (jbody (dyn (calls.foldl Ev.run start) hit.b2)).w = 0 := by show (dyn _ 2).ang = _; rw [b]; exact vb.2
      rw [h1, h2, h3, h4]
      ext <;> simp [V3.cross, V3.dot, V3.smul]
    show cc.eps < Real.sqrt (slip cc Real.sqrt _ hit).lengthSq
    rw [s]
    have l : (⟨-1, 0, 0⟩ : V3 ℝ).lengthSq = 1 := by simp [V3.lengthSq]
    rw [l, Real.sqrt_one]
    norm_num [cc]
  · exact Or.inl ⟨rfl, rfl, rfl⟩

/-- Two bodies that slide along each other, with friction, in a world turned by about 74 degrees. -/
example : SimW g (tale.foldl Ev.run start) ((tale.map (turnEv g)).foldl Ev.run start) := by
  have one : (⟨0, 0, 0, 1⟩ : Quat ℝ).lengthSq = 1 := by norm_num [Quat.lengthSq]
  exact isotropy_partial (by norm_num [g, Quat.lengthSq]) _ (empty_turn true _ _ _) ⟨one, one, trivial, trivial, trivial, glide_clear, trivial⟩

namespace Crate

/-- A crate on a floor, pushed along the floor. -/
def calls : List (Ev ℚ) :=
  [.create 0 ⟨⟨0, -2, 0⟩, ⟨0, 0, 0, 1⟩⟩, .call 0 (.setType .static), .create 1 ⟨⟨0, 0, 0⟩, ⟨0, 0, 0, 1⟩⟩, .call 1 (.setInertia 0), .call 1 (.forceCenter ⟨10, 0, 0⟩)]
/-- A contact with friction 0.97. -/
def hit : XMan ℚ := ⟨0, 1, 0, 97 / 100, 0, 0, 0, 0, 0, [⟨⟨0, 1, 0⟩, ⟨0, -1, 0⟩, ⟨0, -1, 0⟩, 0, false, 0⟩]⟩
/-- The square root and the length are right for all numbers and orientations that occur, which are 0, 1 and unit quaternions. -/
def step : In ℚ := ⟨1 / 10, some ⟨0, -10, 0⟩, [[1]], Newton.Three.cc, Newton.Three.jc, [hit], ⟨[], [], [], []⟩, 10, 5, fun _ => 1, fun x y => x + y, 1000000⟩
def tale : List (Ev ℚ) := calls ++ [.step step]
def start : DW ℚ := DW.empty true (1 / 50) (1 / 60) 1
def g : Quat ℚ := ⟨0, 3 / 5, 0, 4 / 5⟩

end Crate

/-- **C143 fails for friction of contacts that do not slide yet.** Friction is limited along two axes chosen from the axes of the world. The crate starts to move when it is pushed along
the first axis; pushed with the same force in a world turned about the vertical, it stays where it is. -/
theorem friction_tells : Crate.g.lengthSq = 1 ∧ Crate.g.rot ⟨0, -10, 0⟩ = ⟨0, -10, 0⟩ ∧
    ((Crate.tale.foldl Ev.run Crate.start).body 1).map (fun d => (d.vel, d.tr.pos)) = some (⟨3 / 100, 0, 0⟩, ⟨3 / 1000, 0, 0⟩) ∧
    (((Crate.tale.map (turnEv Crate.g)).foldl Ev.run Crate.start).body 1).map (fun d => (d.vel, d.tr.pos)) = some (0, 0) := by decide +kernel

/-- **C143 needs free axes.** A locked axis is an axis of the world. -/
theorem lock_tells : let es : List (Ev ℚ) := [.create 1 ⟨0, ⟨0, 0, 0, 1⟩⟩, .call 1 (.linearLock ⟨1, 0, 1⟩), .call 1 (.forceCenter ⟨0, 10, 0⟩), .step { Crate.step with mans := [], g := none }]
    let g : Quat ℚ := ⟨3 / 5, 0, 0, 4 / 5⟩
    ((es.foldl Ev.run Crate.start).body 1).map (fun d => d.vel) = some 0 ∧ (((es.map (turnEv g)).foldl Ev.run Crate.start).body 1).map (fun d => d.vel) ≠ some 0 := by decide +kernel

end Isotropy
end RP3D
