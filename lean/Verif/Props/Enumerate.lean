import Verif.Props.BodyJoints
import Verif.Props.World

/-!
C151: the bodies of a world and the colliders of a body can be enumerated by index: each object that exists is met exactly
once, the bodies in the order in which they were created.
-/

namespace RP3D

/-- `PhysicsWorld::getNbRigidBodies` (PhysicsWorld.h:671-673). -/
def JWorld.nbBodies (w : JWorld) : Nat := w.list.length

/-- `PhysicsWorld::getRigidBody` (PhysicsWorld.cpp:1036-1065): the assertion refuses other indices. -/
def JWorld.getBody (w : JWorld) (i : Nat) : Option Nat := w.list[i]?

/-- `Body::getNbColliders` (Body.cpp:133-135). -/
def World.nbColliders {α : Type} (w : World α) (b : Nat) : Option Nat := (w.body b).map fun B => B.cols.length

/-- `Body::getCollider` (Body.cpp:142-163): the assertion refuses other indices, and the collider must exist. -/
def World.getCollider {α : Type} (w : World α) (b i : Nat) : Option Nat := do
  let B ← w.body b
  let c ← B.cols[i]?
  let _ ← w.col c
  return c

namespace Enumerate
open JWorld

/-! ### Specification -/

/-- A body has been created and not been destroyed since. -/
def Alive (h : List Op) (b : Nat) : Prop := ∃ p q, h = p ++ .createBody b :: q ∧ Op.destroyBody b ∉ q

/-- Body `a` was created before body `b`, and neither has been destroyed since. -/
def Before (h : List Op) (a b : Nat) : Prop :=
  ∃ p q r, h = p ++ .createBody a :: (q ++ .createBody b :: r) ∧ Op.destroyBody a ∉ q ++ r ∧ Op.destroyBody b ∉ r

/-- The histories of a world: any calls in any order that the code can carry out, with new entities for new bodies and no
body destroyed twice. -/
inductive Past : List Op → JWorld → Prop
  | start : Past [] JWorld.empty
  | next {h : List Op} {w w' : JWorld} {op : Op} (past : Past h w) (new : ∀ b, op = .createBody b → b ∉ w.list)
      (step : w.step op = some w') : Past (h ++ [op]) w'

/-! ### What the calls do to the list of bodies -/

section
variable {w w' : JWorld}

theorem change_list {b : Nat} {g : JBody → JBody} (h : w.change b g = some w') : w'.list = w.list := by
  simp only [JWorld.change, Option.bind_eq_bind, Option.bind_eq_some_iff] at h
  obtain ⟨d, _, rb, _, e⟩ := h
  cases e; rfl

theorem disable_list {b : Nat} {v : Bool} (h : w.setBodyDisabled b v = some w') : w'.list = w.list := by
  simp only [JWorld.setBodyDisabled, Option.bind_eq_bind, Option.bind_eq_some_iff] at h
  obtain ⟨old, _, h⟩ := h
  split at h
  · cases h; rfl
  · simp only [Option.bind_eq_some_iff] at h
    obtain ⟨rb, _, e⟩ := h
    cases e; rfl

theorem sleep_list {b : Nat} {v : Bool} (h : w.setIsSleeping b v = some w') : w'.list = w.list := by
  simp only [JWorld.setIsSleeping, Option.bind_eq_bind, Option.bind_eq_some_iff] at h
  obtain ⟨d, _, h⟩ := h
  split at h
  · cases h; rfl
  · simp only [Option.bind_eq_some_iff] at h
    obtain ⟨u, h1, h2⟩ := h
    rw [disable_list h2, change_list h1]

theorem static_list {b : Nat} {v : Bool} (h : w.setStatic b v = some w') : w'.list = w.list := by
  simp only [JWorld.setStatic, Option.bind_eq_bind, Option.bind_eq_some_iff] at h
  obtain ⟨d, _, h⟩ := h
  split at h
  · cases h; rfl
  · simp only [Option.bind_eq_some_iff] at h
    obtain ⟨u, h1, u', h2, h3⟩ := h
    rw [sleep_list h3, disable_list h2, change_list h1]

theorem active_list {b : Nat} {v : Bool} (h : w.setActive b v = some w') : w'.list = w.list := by
  simp only [JWorld.setActive, Option.bind_eq_bind, Option.bind_eq_some_iff] at h
  obtain ⟨d, _, h⟩ := h
  split at h
  · cases h; rfl
  · simp only [Option.bind_eq_some_iff] at h
    obtain ⟨u, h1, h2⟩ := h
    rw [change_list h2, sleep_list h1]

theorem createJoint_list {j b1 b2 : Nat} (h : w.createJoint j b1 b2 = some w') : w'.list = w.list := by
  simp only [JWorld.createJoint, Option.bind_eq_bind, Option.bind_eq_some_iff] at h
  obtain ⟨d1, _, d2, _, jc, _, u, h1, h2⟩ := h
  rw [change_list h2, change_list h1]

theorem arrange_list {j : Nat} (h : w.arrangeJoint j = some w') : w'.list = w.list := by
  simp only [JWorld.arrangeJoint, JWorld.setJointDisabled, Option.bind_eq_bind, Option.bind_eq_some_iff] at h
  obtain ⟨e, _, d1, _, d2, _, old, _, h⟩ := h
  split at h
  · cases h; rfl
  · simp only [Option.bind_eq_some_iff] at h
    obtain ⟨jc, _, e⟩ := h
    cases e; rfl

theorem removeJoint_list {b j : Nat} (h : w.removeJoint b j = some w') : w'.list = w.list := by
  simp only [JWorld.removeJoint, Option.bind_eq_bind, Option.bind_eq_some_iff] at h
  obtain ⟨d, _, h⟩ := h
  split at h
  · exact change_list h
  · cases h

theorem destroyJoint_list {j : Nat} (h : w.destroyJoint j = some w') : w'.list = w.list := by
  simp only [JWorld.destroyJoint, Option.bind_eq_bind, Option.bind_eq_some_iff] at h
  obtain ⟨e, _, u1, h1, u2, h2, u3, h3, u4, h4, jc, _, e⟩ := h
  cases e
  show u4.list = w.list
  rw [removeJoint_list h4, removeJoint_list h3, sleep_list h2, sleep_list h1]

theorem jointLoop_list {i : Nat} : ∀ {n : Nat} {w w' : JWorld}, w.jointLoop i n = some w' → w'.list = w.list
  | 0, _, _, h => by cases h
  | n + 1, w, w', h => by
    simp only [JWorld.jointLoop, Option.bind_eq_bind, Option.bind_eq_some_iff] at h
    obtain ⟨s, _, h⟩ := h
    split at h
    · cases h; rfl
    · simp only [Option.bind_eq_some_iff] at h
      obtain ⟨u, h1, h2⟩ := h
      rw [jointLoop_list h2, destroyJoint_list h1]

/-- Only creating and destroying bodies changes the list. -/
theorem step_list {op : Op} (h : w.step op = some w') : w'.list = match op with
    | .createBody b => w.list ++ [b]
    | .destroyBody b => w.list.erase b
    | _ => w.list := by
  cases op with
  | createBody b =>
    simp only [JWorld.step, JWorld.createBody, Option.bind_eq_bind, Option.bind_eq_some_iff] at h
    obtain ⟨rb, _, e⟩ := h
    cases e; rfl
  | destroyBody b =>
    simp only [JWorld.step, JWorld.destroyBody, Option.bind_eq_bind, Option.bind_eq_some_iff] at h
    obtain ⟨i, _, u, h1, rb, _, e⟩ := h
    cases e
    show u.list.erase b = w.list.erase b
    rw [jointLoop_list h1]
  | createJoint j b1 b2 => exact createJoint_list h
  | destroyJoint j => exact destroyJoint_list h
  | setSleeping b v => exact sleep_list h
  | setStatic b v => exact static_list h
  | setActive b v => exact active_list h
  | arrangeJoint j => exact arrange_list h

end

/-! ### Histories -/

theorem alive_snoc {h : List Op} {op : Op} {b : Nat} :
    Alive (h ++ [op]) b ↔ op = .createBody b ∨ (Alive h b ∧ op ≠ .destroyBody b) := by
  constructor
  · rintro ⟨p, q, e, hq⟩
    rcases List.eq_nil_or_concat q with rfl | ⟨q', x, rfl⟩
    · left
      have := (List.append_inj' e rfl).2
      simpa using this
    · right
      rw [List.concat_eq_append, ← List.cons_append, ← List.append_assoc] at e
      obtain ⟨e1, e2⟩ := List.append_inj' e rfl
      obtain rfl : op = x := by simpa using e2
      rw [List.concat_eq_append] at hq
      refine ⟨⟨p, q', e1, fun k => hq (List.mem_append_left _ k)⟩, ?_⟩
      rintro rfl
      exact hq (by simp)
  · rintro (rfl | ⟨⟨p, q, rfl, hq⟩, ho⟩)
    · exact ⟨h, [], rfl, List.not_mem_nil⟩
    · refine ⟨p, q ++ [op], by simp, ?_⟩
      intro k
      rcases List.mem_append.1 k with k | k
      · exact hq k
      · exact ho (List.mem_singleton.1 k).symm

theorem before_later {h : List Op} {op : Op} {a b : Nat} (k : Before h a b) (ha : op ≠ .destroyBody a) (hb : op ≠ .destroyBody b) :
    Before (h ++ [op]) a b := by
  obtain ⟨p, q, r, rfl, h1, h2⟩ := k
  refine ⟨p, q, r ++ [op], by simp, ?_, ?_⟩
  · simp only [List.mem_append, List.mem_singleton, not_or] at h1 ⊢
    exact ⟨h1.1, h1.2, fun e => ha e.symm⟩
  · simp only [List.mem_append, List.mem_singleton, not_or]
    exact ⟨h2, fun e => hb e.symm⟩

theorem before_new {h : List Op} {a b : Nat} (k : Alive h a) : Before (h ++ [.createBody b]) a b := by
  obtain ⟨p, q, rfl, hq⟩ := k
  exact ⟨p, q, [], by simp, by simpa using hq, List.not_mem_nil⟩

/-- What is known about the list in every history. -/
theorem past_list {h : List Op} {w : JWorld} (k : Past h w) :
    w.list.Nodup ∧ (∀ b, b ∈ w.list ↔ Alive h b) ∧ w.list.Pairwise (Before h) := by
  induction k with
  | start =>
    refine ⟨List.nodup_nil, fun b => ⟨fun m => (List.not_mem_nil m).elim, ?_⟩, List.Pairwise.nil⟩
    rintro ⟨p, q, e, _⟩
    simp at e
  | @next h w w' op past new step ih =>
    obtain ⟨nd, mem, ord⟩ := ih
    have e := step_list step
    have other (hl : w'.list = w.list) (hc : ∀ b, op ≠ .createBody b) (hd : ∀ b, op ≠ .destroyBody b) :
        w'.list.Nodup ∧ (∀ b, b ∈ w'.list ↔ Alive (h ++ [op]) b) ∧ w'.list.Pairwise (Before (h ++ [op])) := by
      rw [hl]
      refine ⟨nd, fun b => ?_, ord.imp fun k => before_later k (hd _) (hd _)⟩
      rw [alive_snoc, mem]
      exact ⟨fun k => Or.inr ⟨k, hd b⟩, fun k => k.elim (fun k => absurd k (hc b)) And.left⟩
    cases op with
    | createBody b =>
      have hb := new b rfl
      replace e : w'.list = w.list ++ [b] := e
      rw [e]
      refine ⟨?_, fun c => ?_, ?_⟩
      · rw [List.nodup_append]
        refine ⟨nd, by simp, fun x hx y hy exy => hb ?_⟩
        rw [← List.mem_singleton.1 hy, ← exy]; exact hx
      · rw [alive_snoc, List.mem_append, List.mem_singleton, mem]
        constructor
        · rintro (k | rfl)
          · exact Or.inr ⟨k, by simp⟩
          · exact Or.inl rfl
        · rintro (k | k)
          · exact Or.inr (by cases k; rfl)
          · exact Or.inl k.1
      · rw [List.pairwise_append]
        refine ⟨ord.imp fun k => before_later k (by simp) (by simp), List.pairwise_singleton _ _, fun x hx y hy => ?_⟩
        rw [List.mem_singleton.1 hy]
        exact before_new ((mem x).1 hx)
    | destroyBody b =>
      replace e : w'.list = w.list.erase b := e
      rw [e]
      refine ⟨nd.erase b, fun c => ?_, ?_⟩
      · rw [nd.mem_erase_iff, alive_snoc, mem]
        constructor
        · rintro ⟨k1, k2⟩
          exact Or.inr ⟨k2, fun e => k1 (by cases e; rfl)⟩
        · rintro (k | ⟨k1, k2⟩)
          · cases k
          · exact ⟨fun e => k2 (by rw [e]), k1⟩
      · refine (ord.sublist List.erase_sublist).imp_of_mem fun {x y} hx hy k => before_later k ?_ ?_
        · intro e; cases e
          exact nd.not_mem_erase hx
        · intro e; cases e
          exact nd.not_mem_erase hy
    | createJoint => exact other e (by simp) (by simp)
    | destroyJoint => exact other e (by simp) (by simp)
    | setSleeping => exact other e (by simp) (by simp)
    | setStatic => exact other e (by simp) (by simp)
    | setActive => exact other e (by simp) (by simp)
    | arrangeJoint => exact other e (by simp) (by simp)

/-! ### Theorems -/

section
variable {h : List Op} {w : JWorld}

/-- An index below the number of bodies is accepted, and no other. -/
theorem body_index (w : JWorld) (i : Nat) : (∃ b, w.getBody i = some b) ↔ i < w.nbBodies := by
  constructor
  · rintro ⟨b, e⟩
    exact (List.getElem?_eq_some_iff.1 e).1
  · intro k
    exact ⟨_, List.getElem?_eq_some_iff.2 ⟨k, rfl⟩⟩

/-- Every body that has been created and not destroyed is found at one index, and nothing else is found. -/
theorem bodies_once (k : Past h w) (b : Nat) : (∃! i, w.getBody i = some b) ↔ Alive h b := by
  obtain ⟨nd, mem, -⟩ := past_list k
  rw [← mem]
  constructor
  · rintro ⟨i, e, -⟩
    exact List.mem_iff_getElem?.2 ⟨i, e⟩
  · intro m
    obtain ⟨i, e⟩ := List.mem_iff_getElem?.1 m
    refine ⟨i, e, fun j e' => ?_⟩
    exact (List.getElem?_inj (List.getElem?_eq_some_iff.1 e').1 nd).1 (e'.trans e.symm)

/-- An entry of the list is a body that exists. -/
theorem listed_alive (k : Past h w) {i b : Nat} (e : w.getBody i = some b) : Alive h b :=
  ((past_list k).2.1 b).1 (List.mem_iff_getElem?.2 ⟨i, e⟩)

/-- The bodies come in the order in which they were created. -/
theorem in_order (k : Past h w) {i j a b : Nat} (ha : w.getBody i = some a) (hb : w.getBody j = some b) (hij : i < j) :
    Before h a b := by
  obtain ⟨-, -, ord⟩ := past_list k
  obtain ⟨hi, rfl⟩ := List.getElem?_eq_some_iff.1 ha
  obtain ⟨hj, rfl⟩ := List.getElem?_eq_some_iff.1 hb
  exact List.pairwise_iff_getElem.1 ord i j hi hj hij

/-- The calls of the documented use are histories of this kind. -/
theorem past_of_reach (k : BodyJointsProps.Reach w) : ∃ h, Past h w := by
  induction k with
  | empty => exact ⟨[], .start⟩
  | @step w w' op _ ha hs ih =>
    obtain ⟨h, k⟩ := ih
    refine ⟨h ++ [op], .next k ?_ hs⟩
    rintro b rfl
    exact ha

end

section
variable {α : Type} [LinearOrder α] {fat : AABB α → AABB α} {r : Rules} {tr : List (WOp α × List World.Event)} {w : World α}

/-- The colliders of a body are those that were added to it and not removed, each at one index below their number; whatever
calls have been made. -/
theorem colliders_once (k : World.Hist fat r tr w) {b n : Nat} (hn : w.nbColliders b = some n) :
    (∀ i, (∃ c, w.getCollider b i = some c) ↔ i < n) ∧
    (∀ c, (∃! i, w.getCollider b i = some c) ↔ ∃ x, w.col c = some x ∧ x.body = b) := by
  obtain ⟨A, hA⟩ := k.inv
  have s := hA.inv.s
  simp only [World.nbColliders, Option.map_eq_some_iff] at hn
  obtain ⟨B, hB, rfl⟩ := hn
  obtain ⟨nd, hx⟩ := s.cols b B hB
  have get (i : Nat) : w.getCollider b i = B.cols[i]? := by
    simp only [World.getCollider, hB, Option.bind_eq_bind, Option.bind_some]
    cases e : B.cols[i]? with
    | none => rfl
    | some c =>
      obtain ⟨x, h1, -⟩ := hx c (List.mem_iff_getElem?.2 ⟨i, e⟩)
      simp [h1]
  refine ⟨fun i => ?_, fun c => ?_⟩
  · rw [get]
    constructor
    · rintro ⟨c, e⟩
      exact (List.getElem?_eq_some_iff.1 e).1
    · intro k
      exact ⟨_, List.getElem?_eq_some_iff.2 ⟨k, rfl⟩⟩
  · simp only [get]
    constructor
    · rintro ⟨i, e, -⟩
      exact hx c (List.mem_iff_getElem?.2 ⟨i, e⟩)
    · rintro ⟨x, h1, rfl⟩
      obtain ⟨B', hB', m, -⟩ := s.col c x h1
      rw [hB] at hB'; cases hB'
      obtain ⟨i, e⟩ := List.mem_iff_getElem?.1 m
      refine ⟨i, e, fun j e' => ?_⟩
      exact (List.getElem?_inj (List.getElem?_eq_some_iff.1 e').1 nd).1 (e'.trans e.symm)

end

/-! ### Examples -/

/-- Three bodies are created, the first one is destroyed and its entity used again: the new body comes last. -/
def story : List Op := [.createBody 0, .createBody 1, .createBody 2, .createJoint 9 1 2, .destroyBody 0, .createBody 0]

/-- A check of histories. -/
def pastB (w : JWorld) : List Op → Option JWorld
  | [] => some w
  | op :: ops =>
    match op, w.step op with
    | .createBody b, some w' => if b ∈ w.list then none else pastB w' ops
    | _, some w' => pastB w' ops
    | _, none => none

theorem pastB_past : ∀ {ops h : List Op} {w w' : JWorld}, Past h w → pastB w ops = some w' → Past (h ++ ops) w'
  | [], h, w, w', k, e => by
    cases e
    rw [List.append_nil]; exact k
  | op :: ops, h, w, w', k, e => by
    have : ∃ u, w.step op = some u ∧ (∀ b, op = .createBody b → b ∉ w.list) ∧ pastB u ops = some w' := by
      unfold pastB at e
      split at e
      · rename_i b u hu
        split at e
        · cases e
        · rename_i hb
          exact ⟨u, hu, fun c ec => by cases ec; exact hb, e⟩
      · rename_i u hn hu
        exact ⟨u, hu, fun c ec => (hn c ec).elim, e⟩
      · cases e
    obtain ⟨u, hu, hn, e⟩ := this
    have := pastB_past (Past.next k hn hu) e
    rwa [List.append_assoc] at this

example : ∃ w, Past story w ∧ w.nbBodies = 3 ∧ w.getBody 0 = some 1 ∧ w.getBody 1 = some 2 ∧ w.getBody 2 = some 0 ∧
    w.getBody 3 = none := by
  have e : ((pastB JWorld.empty story).any fun w => w.list = [1, 2, 0]) = true := by decide +kernel
  obtain ⟨w, h1, h2⟩ := (Option.any_eq_true _ _).1 e
  have h2 : w.list = [1, 2, 0] := of_decide_eq_true h2
  refine ⟨w, pastB_past .start h1, ?_, ?_, ?_, ?_, ?_⟩ <;> simp [JWorld.nbBodies, JWorld.getBody, h2]

/-- Two bodies in contact, of which the first one gets a second collider. -/
def two := WEx.next WEx.w5 (.addCollider 0 7 true 9 (WEx.cube 5))

example : (∃ tr, World.Hist WEx.fat WEx.free tr two) ∧ two.nbColliders 0 = some 2 ∧ two.getCollider 0 0 = some 0 ∧
    two.getCollider 0 1 = some 7 ∧ two.getCollider 0 2 = none ∧ two.nbColliders 1 = some 1 := by
  obtain ⟨tr, h⟩ := WEx.hist5 WEx.free
  refine ⟨⟨_, WEx.Hist.next h (op := .addCollider 0 7 true 9 (WEx.cube 5)) ⟨WEx.ex_of (o := WEx.w5.body 0) (by decide +kernel),
    WEx.none_of (o := WEx.w5.col 7) (by decide +kernel), by decide, WEx.none_of (o := WEx.w5.tree 9) (by decide +kernel)⟩
    (WEx.follows_free _ _) (by decide +kernel)⟩, ?_, ?_, ?_, ?_, ?_⟩ <;> decide +kernel

end Enumerate
end RP3D
