import Verif.World.BodyJointsInv

/-!
Properties C62 (destroying a body destroys exactly its joints) and C53 (destroying a world destroys everything once).

Both fail in the code when the destruction of a joint wakes a body: waking moves components, and the loop of `destroyRigidBody` then reads the
list of another body (`destroy_body_wrong`, `teardown_undefined`). The partial theorems say when they hold.
-/

namespace RP3D
namespace BodyJointsProps
open JWorld Comps

/-! ### What a user sees -/

/-- The bodies of a joint, `none` if there is no such joint. -/
def ends (w : JWorld) (j : Nat) : Option (Nat × Nat) := w.jc.getData j

/-- The joint is in the world and one of its bodies is `b`. -/
def Attached (w : JWorld) (b j : Nat) : Prop := ∃ b1 b2, ends w j = some (b1, b2) ∧ (b1 = b ∨ b2 = b)

/-- A body that wakes up when one of its joints is destroyed: `isSleeping`, not static, `isActive`. -/
def CanWake (w : JWorld) (b : Nat) : Prop := ∃ d, w.rb.getData b = some d ∧ d.sleeping = true ∧ d.static = false ∧ d.active = true

/-- The body is neither static nor asleep. -/
def Moving (w : JWorld) (b : Nat) : Prop := ∃ d, w.rb.getData b = some d ∧ d.static = false ∧ d.sleeping = false

/-- The case in which the code destroys the right joints: the body is neither static nor asleep, or no body of its joints can wake up. -/
def Safe (w : JWorld) (b : Nat) : Prop := Moving w b ∨ ∀ j b1 b2, ends w j = some (b1, b2) → b1 = b ∨ b2 = b → ¬ CanWake w b1 ∧ ¬ CanWake w b2

/-- Calls that respect the documented use: objects exist, new entities are new; bodies are destroyed in the safe case only. -/
def Allowed (w : JWorld) : Op → Prop
  | .createBody b => b ∉ w.list
  | .createJoint j b1 b2 => ends w j = none ∧ b1 ∈ w.list ∧ b2 ∈ w.list
  | .destroyJoint j => ends w j ≠ none
  | .destroyBody b => b ∈ w.list ∧ Safe w b
  | .setSleeping b _ => b ∈ w.list
  | .setStatic b _ => b ∈ w.list
  | .setActive b _ => b ∈ w.list
  | .arrangeJoint j => ends w j ≠ none

/-- The worlds of all histories of allowed calls. -/
inductive Reach : JWorld → Prop
  | empty : Reach JWorld.empty
  | step {w w' : JWorld} {op : Op} : Reach w → Allowed w op → w.step op = some w' → Reach w'

/-! ### From the invariant to what a user sees -/

variable {w : JWorld} {f : Bodies} {g : Joints}

theorem ends_eq (h : Inv w f g) (j : Nat) : ends w j = (g j).map Prod.fst := getData_eq h.jc j

theorem attached_iff (h : Inv w f g) (b j : Nat) : Attached w b j ↔ AttachedTo g b j := by
  unfold Attached AttachedTo
  rw [ends_eq h]
  cases g j with
  | none => simp [mult]
  | some x =>
    obtain ⟨⟨b1, b2⟩, v⟩ := x
    simp only [Option.map_some, Option.some.injEq, Prod.mk.injEq, mult]
    constructor
    · rintro ⟨_, _, ⟨rfl, rfl⟩, h | h⟩ <;> simp [h]
    · intro h
      refine ⟨b1, b2, ⟨rfl, rfl⟩, ?_⟩
      by_contra hh
      rw [not_or] at hh
      simp [hh.1, hh.2] at h

theorem guard_of (h : Inv w f g) {b i : Nat} (hm : w.rb.map b = some i) (hs : Safe w b) : Guard w f g b i := by
  rcases hs with ⟨d, h1, h2, h3⟩ | hs
  · left
    rw [getData_eq h.rb] at h1
    cases hf : f b with
    | none => rw [hf] at h1; cases h1
    | some x =>
      obtain ⟨x, v⟩ := x
      rw [hf] at h1
      cases h1
      have hv := h.en b _ v hf h2 h3
      obtain ⟨k, _, m1, _, _, m2, _⟩ := map_of_f h.rb hf
      rw [hm] at m1
      cases m1
      rw [hv] at m2
      have := of_decide_eq_false m2.symm
      omega
  · right
    intro j c1 c2 v c d u hg hb hc hf hw
    have he : ends w j = some (c1, c2) := by rw [ends_eq h, hg]; rfl
    have hcan : CanWake w c := ⟨d, by rw [getData_eq h.rb, hf]; rfl, hw⟩
    rcases hc with rfl | rfl
    · exact (hs j _ _ he hb).1 hcan
    · exact (hs j _ _ he hb).2 hcan

theorem map_of_list (h : Inv w f g) {b : Nat} (hb : b ∈ w.list) : ∃ i, w.rb.map b = some i := by
  obtain ⟨x, hx⟩ := some_of ((h.list b).1 hb)
  obtain ⟨i, _, hi, _⟩ := map_of_f h.rb hx
  exact ⟨i, hi⟩

theorem joint_of (h : Inv w f g) {j : Nat} (hj : ends w j ≠ none) : ∃ b1 b2 v, g j = some ((b1, b2), v) := by
  rw [ends_eq h] at hj
  cases hg : g j with
  | none => rw [hg] at hj; exact absurd rfl hj
  | some x => exact ⟨x.1.1, x.1.2, x.2, rfl⟩

theorem step_inv (h : Inv w f g) {op : Op} (ha : Allowed w op) : ∃ w' f' g', w.step op = some w' ∧ Inv w' f' g' := by
  cases op with
  | createBody b =>
    have : f b = none := by
      cases hf : f b with
      | none => rfl
      | some x => exact absurd ((h.list b).2 (by rw [hf]; rfl)) ha
    obtain ⟨w', f', h1, h2⟩ := createBody_inv h this
    exact ⟨w', f', g, h1, h2⟩
  | createJoint j b1 b2 =>
    obtain ⟨a1, a2, a3⟩ := ha
    have : g j = none := by
      rw [ends_eq h] at a1
      simpa using a1
    obtain ⟨w', f', v, h1, h2⟩ := createJoint_inv h this ((h.list _).1 a2) ((h.list _).1 a3)
    exact ⟨w', f', _, h1, h2⟩
  | destroyJoint j =>
    obtain ⟨b1, b2, v, hg⟩ := joint_of h ha
    obtain ⟨w', f', h1, h2, _⟩ := destroyJoint_ok h hg
    exact ⟨w', f', _, h1, h2⟩
  | destroyBody b =>
    obtain ⟨i, hm⟩ := map_of_list h ha.1
    obtain ⟨w', f', l, h1, h2, _⟩ := destroyBody_ok h hm (guard_of h hm ha.2)
    exact ⟨w', _, _, h1, h2⟩
  | setSleeping b v =>
    obtain ⟨⟨d, v0⟩, hf⟩ := some_of ((h.list b).1 ha)
    obtain ⟨w', d', v', h1, h2, _⟩ := setSleeping_inv h hf v
    exact ⟨w', _, g, h1, h2⟩
  | setStatic b v =>
    obtain ⟨w', f', h1, h2⟩ := setStatic_inv h ((h.list b).1 ha) v
    exact ⟨w', f', g, h1, h2⟩
  | setActive b v =>
    obtain ⟨w', f', h1, h2⟩ := setActive_inv h ((h.list b).1 ha) v
    exact ⟨w', f', g, h1, h2⟩
  | arrangeJoint j =>
    obtain ⟨b1, b2, v, hg⟩ := joint_of h ha
    obtain ⟨w', v', h1, h2⟩ := arrangeJoint_inv h hg
    exact ⟨w', f, _, h1, h2⟩

theorem empty_inv : Inv JWorld.empty (fun _ => none) (fun _ => none) :=
  ⟨rep_empty, rep_empty, List.nodup_nil, by simp [JWorld.empty], by simp, by simp, by simp⟩

theorem reach_inv (h : Reach w) : ∃ f g, Inv w f g := by
  induction h with
  | empty => exact ⟨_, _, empty_inv⟩
  | step _ ha hs ih =>
    obtain ⟨f, g, hi⟩ := ih
    obtain ⟨w', f', g', h1, h2⟩ := step_inv hi ha
    rw [h1] at hs
    cases hs
    exact ⟨f', g', h2⟩

/-! ### C62 -/

/-- No allowed call is undefined. -/
theorem allowed_defined (h : Reach w) {op : Op} (ha : Allowed w op) : ∃ w', w.step op = some w' := by
  obtain ⟨f, g, hi⟩ := reach_inv h
  obtain ⟨w', _, _, h1, _⟩ := step_inv hi ha
  exact ⟨w', h1⟩

/-- The list of joints of a body holds exactly the joints attached to it, and both bodies of a joint exist. -/
theorem joint_lists (h : Reach w) : (∀ b d, w.rb.getData b = some d → ∀ j, j ∈ d.joints ↔ Attached w b j) ∧
    ∀ j b1 b2, ends w j = some (b1, b2) → b1 ∈ w.list ∧ b2 ∈ w.list := by
  obtain ⟨f, g, hi⟩ := reach_inv h
  refine ⟨?_, ?_⟩
  · intro b d hd j
    rw [attached_iff hi]
    unfold AttachedTo
    rw [getData_eq hi.rb] at hd
    cases hf : f b with
    | none => rw [hf] at hd; cases hd
    | some x =>
      rw [hf] at hd
      cases hd
      rw [← hi.count b x.1 x.2 hf j, List.count_pos_iff]
  · intro j b1 b2 he
    rw [ends_eq hi] at he
    cases hg : g j with
    | none => rw [hg] at he; cases he
    | some x =>
      obtain ⟨⟨c1, c2⟩, v⟩ := x
      rw [hg] at he
      cases he
      have := hi.ends j _ _ v hg
      exact ⟨(hi.list _).2 this.1, (hi.list _).2 this.2⟩

/-- C62 in the safe case: `destroyRigidBody` destroys the joints attached to the body, each once, and no others; the other joints keep their
bodies. Missing: the case in which a body wakes up meanwhile and the body is static or asleep, where the code fails
(`destroy_body_wrong`). -/
theorem destroy_body_joints_partial (h : Reach w) {b : Nat} (hb : b ∈ w.list) (hs : Safe w b) :
    ∃ w' l, w.destroyBody b = some w' ∧ w'.deadJoints = w.deadJoints ++ l ∧ l.Nodup ∧ (∀ j, j ∈ l ↔ Attached w b j) ∧
      (∀ j, Attached w b j → ends w' j = none) ∧ (∀ j, ¬ Attached w b j → ends w' j = ends w j) ∧
      w'.list = w.list.erase b ∧ b ∉ w'.list ∧ w'.deadBodies = w.deadBodies ++ [b] := by
  obtain ⟨f, g, hi⟩ := reach_inv h
  obtain ⟨i, hm⟩ := map_of_list hi hb
  obtain ⟨w', f', l, h1, h2, h3, h4, h5, h6, h7, _⟩ := destroyBody_ok hi hm (guard_of hi hm hs)
  refine ⟨w', l, h1, h4, h5, fun j => by rw [h6, attached_iff hi], ?_, ?_, h3, ?_, h7⟩
  · intro j hj
    rw [ends_eq h2, if_pos ((attached_iff hi b j).1 hj)]
    rfl
  · intro j hj
    rw [ends_eq h2, if_neg fun hh => hj ((attached_iff hi b j).2 hh), ends_eq hi]
  · rw [h3]
    exact fun hh => (hi.nodup.mem_erase_iff.1 hh).1 rfl

/-- A check of the calls of a history without destruction of bodies. -/
def allowedB (w : JWorld) : Op → Bool
  | .createBody b => decide (b ∉ w.list)
  | .createJoint j b1 b2 => decide (ends w j = none ∧ b1 ∈ w.list ∧ b2 ∈ w.list)
  | .destroyJoint j => decide (ends w j ≠ none)
  | .destroyBody _ => false
  | .setSleeping b _ => decide (b ∈ w.list)
  | .setStatic b _ => decide (b ∈ w.list)
  | .setActive b _ => decide (b ∈ w.list)
  | .arrangeJoint j => decide (ends w j ≠ none)

def runB (w : JWorld) : List Op → Option JWorld
  | [] => some w
  | op :: ops => if allowedB w op = true then (w.step op).bind fun w => runB w ops else none

theorem runB_reach {ops : List Op} {w w' : JWorld} (h : Reach w) (hr : runB w ops = some w') : Reach w' := by
  induction ops generalizing w with
  | nil => cases hr; exact h
  | cons op ops ih =>
    unfold runB at hr
    split_ifs at hr with ha
    rw [Option.bind_eq_some_iff] at hr
    obtain ⟨w1, h1, h2⟩ := hr
    refine ih (Reach.step h ?_ h1) h2
    cases op with
    | destroyBody b => exact absurd ha Bool.false_ne_true
    | _ => simpa [allowedB, Allowed] using ha

/-- A history in which body 0 sleeps, is joined to 2, and body 1 sleeps and is joined to 3. -/
def sleepers : List Op := [.createBody 0, .createBody 1, .createBody 2, .createBody 3, .createJoint 10 1 3, .createJoint 11 0 2,
  .setSleeping 0 true, .setSleeping 1 true]

/-- C62 fails: destroying the sleeping body 0 also destroys joint 10, which joins bodies 1 and 3. -/
theorem destroy_body_wrong : ∃ w w', Reach w ∧ 0 ∈ w.list ∧ w.destroyBody 0 = some w' ∧ ends w 10 = some (1, 3) ∧
    10 ∉ w.deadJoints ∧ 10 ∈ w'.deadJoints ∧ ends w' 10 = none := by
  have h : ((runB JWorld.empty sleepers).bind fun w => (w.destroyBody 0).map fun w' =>
      decide (0 ∈ w.list ∧ ends w 10 = some (1, 3) ∧ 10 ∉ w.deadJoints ∧ 10 ∈ w'.deadJoints ∧ ends w' 10 = none)) = some true := by
    decide +kernel
  rw [Option.bind_eq_some_iff] at h
  obtain ⟨w, h1, h2⟩ := h
  rw [Option.map_eq_some_iff] at h2
  obtain ⟨w', h3, h4⟩ := h2
  obtain ⟨k1, k2⟩ := of_decide_eq_true h4
  exact ⟨w, w', runB_reach Reach.empty h1, k1, h3, k2⟩

/-- The same world with body 0 awake: the hypotheses of `destroy_body_joints_partial` hold although bodies 1 and 2 sleep, and body 0 has a joint. -/
example : ∃ w, Reach w ∧ 0 ∈ w.list ∧ Safe w 0 ∧ Attached w 0 11 ∧ CanWake w 1 ∧ CanWake w 2 := by
  have h : ((runB JWorld.empty (sleepers ++ [.setSleeping 2 true, .setSleeping 0 false])).map fun w =>
      decide (0 ∈ w.list ∧ w.rb.getData 0 = some ⟨false, true, false, [11]⟩ ∧ ends w 11 = some (0, 2) ∧
        w.rb.getData 1 = some ⟨false, true, true, [10]⟩ ∧ w.rb.getData 2 = some ⟨false, true, true, [11]⟩)) = some true := by
    decide +kernel
  rw [Option.map_eq_some_iff] at h
  obtain ⟨w, h1, h2⟩ := h
  obtain ⟨k1, k2, k3, k4, k5⟩ := of_decide_eq_true h2
  exact ⟨w, runB_reach Reach.empty h1, k1, Or.inl ⟨_, k2, rfl, rfl⟩, ⟨0, 2, k3, Or.inl rfl⟩, ⟨_, k4, rfl, rfl, rfl⟩, ⟨_, k5, rfl, rfl, rfl⟩⟩

/-! ### C53 -/

/-- C53 when no body can wake up: the destructor is defined; it destroys each joint and each body of the world exactly once, and leaves none.
Missing: worlds with a sleeping body that can wake up, where the code can fail (`teardown_undefined`). -/
theorem teardown_partial (h : Reach w) (hw : ∀ b, ¬ CanWake w b) :
    ∃ w' l, w.teardown = some w' ∧ w'.deadJoints = w.deadJoints ++ l ∧ l.Nodup ∧ (∀ j, j ∈ l ↔ ends w j ≠ none) ∧
      w'.deadBodies = w.deadBodies ++ w.list.reverse ∧ w.list.Nodup ∧ w'.list = [] ∧ (∀ j, ends w' j = none) ∧ ∀ b, w'.rb.getData b = none := by
  obtain ⟨f, g, hi⟩ := reach_inv h
  obtain ⟨w1, f1, g1, l1, a1, a2, a3, a4, a5, a6, a7, a8, a9⟩ := teardownJoints_ok (w.jc.nb + 1) 0 hi (by omega)
  have hw1 : ∀ b d v, f1 b = some (d, v) → ¬ Wakeable d := by
    intro b d v hb hwk
    cases hf : f b with
    | none => have := (a9 b).1.1 hf; rw [this] at hb; cases hb
    | some z => exact hw b ⟨z.1, by rw [getData_eq hi.rb, hf]; rfl, (a9 b).2 z.1 z.2 d v hf hb hwk⟩
  obtain ⟨w2, f2, g2, l2, b1, b2, b3, b4, b5, b6, b7, b8⟩ := teardownBodies_ok w1.list.length a2 hw1 rfl
  have f2n : ∀ b, f2 b = none := by
    intro b
    cases hf : f2 b with
    | none => rfl
    | some x =>
      have := (b2.list b).2 (by rw [hf]; rfl)
      rw [b3] at this
      cases this
  have g2n : ∀ j, g2 j = none := by
    intro j
    cases hg : g2 j with
    | none => rfl
    | some x =>
      have := (b2.ends j x.1.1 x.1.2 x.2 hg).1
      rw [f2n] at this
      cases this
  have en : ∀ j, ends w j ≠ none ↔ g j ≠ none := by
    intro j
    rw [ends_eq hi]
    cases g j <;> simp
  refine ⟨w2, l1 ++ l2, ?_, by rw [b4, a4, List.append_assoc], ?_, ?_, by rw [b8, a8, a3], hi.nodup, b3, ?_, ?_⟩
  · unfold teardown
    rw [a1, Option.bind_eq_bind, Option.bind_some]
    exact b1
  · rw [List.nodup_append]
    refine ⟨a5, b5, ?_⟩
    intro x hx y hy
    rintro rfl
    exact ((b6 x).1 hy).1 ((a6 x).1 hx).2
  · intro j
    rw [en, List.mem_append, a6, b6]
    constructor
    · rintro (h | h)
      · exact h.1
      · rcases a7 j with k | k
        · exact absurd k h.1
        · rw [← k]; exact h.1
    · intro hj
      by_cases hg : g1 j = none
      · exact Or.inl ⟨hj, hg⟩
      · exact Or.inr ⟨hg, g2n j⟩
  · intro j
    rw [ends_eq b2, g2n]
    rfl
  · intro b
    rw [getData_eq b2.rb, f2n]
    rfl

/-- A world with three awake bodies, one of them static, and two joints meets the hypotheses. -/
example : ∃ w, Reach w ∧ (∀ b, ¬ CanWake w b) ∧ ends w 10 = some (0, 1) ∧ ends w 11 = some (1, 2) ∧ w.list = [0, 1, 2] := by
  have h : ((runB JWorld.empty [.createBody 0, .createBody 1, .createBody 2, .setStatic 2 true, .createJoint 10 0 1, .createJoint 11 1 2]).map fun w =>
      decide (w.list = [0, 1, 2] ∧ (∀ b ∈ w.list, (w.rb.getData b).map JBody.sleeping = some false) ∧ ends w 10 = some (0, 1) ∧
        ends w 11 = some (1, 2))) = some true := by decide +kernel
  rw [Option.map_eq_some_iff] at h
  obtain ⟨w, h1, h2⟩ := h
  obtain ⟨k1, k2, k3, k4⟩ := of_decide_eq_true h2
  have hr := runB_reach Reach.empty h1
  refine ⟨w, hr, ?_, k3, k4, k1⟩
  rintro b ⟨d, hd, hs, _⟩
  obtain ⟨f, g, hi⟩ := reach_inv hr
  have hb : b ∈ w.list := by
    rw [hi.list]
    rw [getData_eq hi.rb] at hd
    cases hf : f b with
    | none => rw [hf] at hd; cases hd
    | some x => rfl
  have := k2 b hb
  rw [hd] at this
  simp [hs] at this

/-- Four sleeping bodies with four joints. -/
def asleep : List Op := [.createBody 0, .createBody 1, .createBody 2, .createBody 3, .createJoint 10 0 1, .createJoint 11 0 1, .createJoint 12 0 3,
  .createJoint 13 1 3, .setSleeping 0 true, .setSleeping 1 true, .setSleeping 2 true, .setSleeping 3 true]

/-- C53 fails: the destructor of a world of four sleeping bodies runs into undefined behaviour. -/
theorem teardown_undefined : ∃ w, Reach w ∧ w.teardown = none := by
  have h : ((runB JWorld.empty asleep).map fun w => w.teardown.isNone) = some true := by decide +kernel
  rw [Option.map_eq_some_iff] at h
  obtain ⟨w, h1, h2⟩ := h
  exact ⟨w, runB_reach Reach.empty h1, Option.isNone_iff_eq_none.1 h2⟩

end BodyJointsProps
end RP3D
