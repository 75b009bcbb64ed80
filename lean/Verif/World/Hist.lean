import Verif.World.Update

/-!
Histories of calls of the public API on a world, the rules that a user may follow, and the proof that every call keeps the invariant.
-/

set_option linter.unusedVariables false
set_option linter.unusedSimpArgs false
set_option linter.unusedSectionVars false

namespace RP3D

/-- A call of the public API, with the choices of the oracles (ids of new nodes, boxes, reported pairs of nodes, bodies woken). -/
inductive WOp (α : Type)
  | createBody (b : Nat)
  | destroyBody (b : Nat) (wss : List (List Nat))
  | addCollider (b c : Nat) (convex : Bool) (n : Nat) (box : AABB α)
  | removeCollider (b c : Nat) (ws : List Nat)
  | setType (b : Nat) (t : BType)
  | setActive (b : Nat) (v : Bool) (ns : List Nat) (box : Nat → AABB α)
  | setSleeping (b : Nat) (v : Bool)
  | setTransform (b : Nat) (box : Nat → AABB α)
  | setLocalTransform (c : Nat) (box : AABB α)
  | setCategory (c bits : Nat)
  | setMask (c bits : Nat)
  | setTrigger (c : Nat) (v : Bool)
  | setSim (c : Nat) (v : Bool)
  | setQuery (c : Nat) (v : Bool)
  | resize (c : Nat)
  | createJoint (j b1 b2 : Nat) (coll : Bool)
  | destroyJoint (j : Nat)
  | update (a : World.StepArgs α)
  | queryOverlapAll (nodes : List (Nat × Nat)) (hit : Nat → Bool)
  | queryCollisionAll (nodes : List (Nat × Nat)) (hit : Nat → Bool)
  | testOverlap (b1 b2 : Nat) (nodes : List (Nat × Nat)) (hit : Nat → Bool)

/-- The rules that a user of the library may follow. -/
structure Rules where
  /-- calls that look up the pairs of a collider are made only while all its pairs are enabled -/
  strict : Prop
  /-- filter bits are changed only while the collider has no pair -/
  bits : Prop
  /-- colliders are not removed while the end of one of their contacts is still to be reported -/
  lost : Prop
  /-- a joint that forbids collision is destroyed only if one of its bodies has no collider -/
  cover : Prop
  /-- no query of the whole world is made -/
  sync : Prop
  /-- two bodies are connected by at most one joint that forbids collision when such a joint is destroyed -/
  joint : Prop

namespace World
variable {α : Type} [LinearOrder α]

/-- The effect of a call, and the events it reports. -/
def exec (fat : AABB α → AABB α) (w : World α) : WOp α → Option (World α × List Event)
  | .createBody b => some (w.createBody b, [])
  | .destroyBody b wss => (w.destroyBody b wss).map fun w => (w, [])
  | .addCollider b c cv n box => (w.addCollider fat b c cv n box).map fun w => (w, [])
  | .removeCollider b c ws => (w.removeCollider b c ws).map fun w => (w, [])
  | .setType b t => (w.setType b t).map fun w => (w, [])
  | .setActive b v ns box => (w.setActive fat b v ns box).map fun w => (w, [])
  | .setSleeping b v => (w.setSleeping b v).map fun w => (w, [])
  | .setTransform b box => (w.setTransform fat b box).map fun w => (w, [])
  | .setLocalTransform c box => (w.setLocalTransform fat c box).map fun w => (w, [])
  | .setCategory c bits => (w.setCategory c bits).map fun w => (w, [])
  | .setMask c bits => (w.setMask c bits).map fun w => (w, [])
  | .setTrigger c v => (w.setTrigger c v).map fun w => (w, [])
  | .setSim c v => (w.setSim c v).map fun w => (w, [])
  | .setQuery c v => (w.setQuery c v).map fun w => (w, [])
  | .resize c => (w.resize c).map fun w => (w, [])
  | .createJoint j b1 b2 coll => (w.createJoint j b1 b2 coll).map fun w => (w, [])
  | .destroyJoint j => (w.destroyJoint j).map fun w => (w, [])
  | .update a => w.update fat a
  | .queryOverlapAll nodes hit => (w.queryOverlapAll nodes hit).map fun r => (r.1, [])
  | .queryCollisionAll nodes hit => (w.queryCollisionAll nodes hit).map fun r => (r.1, [])
  | .testOverlap b1 b2 nodes hit => (w.testOverlap b1 b2 nodes hit).map fun r => (r.1, [])

/-- The arguments of a call name existing objects, new objects get unused names, and the oracles answer as the code they stand for.
A sleeping or static body with joints is not destroyed (see `destroyJoints`). -/
def Valid (w : World α) : WOp α → Prop
  | .createBody b => w.body b = none
  | .destroyBody b wss => ∃ B, w.body b = some B ∧ wss.length = B.cols.length ∧ (∀ ws ∈ wss, ∀ b ∈ ws, ∃ B, w.body b = some B) ∧
      (B.disabled = true → B.joints = [])
  | .addCollider b c _ n _ => (∃ B, w.body b = some B) ∧ w.col c = none ∧ n < 2 ^ 32 ∧ w.tree n = none
  | .removeCollider b c ws => (∃ x, w.col c = some x ∧ x.body = b) ∧ ∀ b ∈ ws, ∃ B, w.body b = some B
  | .setType b _ => ∃ B, w.body b = some B
  | .setActive b v ns _ => ∃ B, w.body b = some B ∧ (v = true → ns.Nodup ∧ ns.length = B.cols.length ∧ ∀ n ∈ ns, n < 2 ^ 32 ∧ w.tree n = none)
  | .setSleeping b _ => ∃ B, w.body b = some B
  | .setTransform b _ => ∃ B, w.body b = some B
  | .setLocalTransform c _ => ∃ x, w.col c = some x
  | .setCategory c _ => ∃ x, w.col c = some x
  | .setMask c _ => ∃ x, w.col c = some x
  | .setTrigger c _ => ∃ x, w.col c = some x
  | .setSim c _ => ∃ x, w.col c = some x
  | .setQuery c _ => ∃ x, w.col c = some x
  | .resize c => ∃ x, w.col c = some x
  | .createJoint j b1 b2 _ => b1 ≠ b2 ∧ (∃ B, w.body b1 = some B) ∧ (∃ B, w.body b2 = some B) ∧ w.jnt j = none
  | .destroyJoint j => ∃ J, w.jnt j = some J
  | .update a => w.StepOk a
  | .queryOverlapAll nodes _ => w.NodesOf nodes
  | .queryCollisionAll nodes _ => w.NodesOf nodes
  | .testOverlap _ _ nodes _ => w.NodesOf nodes

/-- All pairs of a collider are enabled. -/
def NoIdle (w : World α) (c : Nat) : Prop := ∀ id ∈ w.store.own c, ∃ p, w.store.deref id = some p ∧ p.enabled = true

/-- Joint `j` is the only joint that forbids collision between its bodies. -/
def OnlyJoint (w : World α) (j : Nat) : Prop := ∀ J j' J', w.jnt j = some J → w.jnt j' = some J' → J.coll = false → J'.coll = false →
  bodyPair J'.b1 J'.b2 = bodyPair J.b1 J.b2 → j' = j

/-- A call follows the rules. -/
def Follows (r : Rules) (w : World α) : WOp α → Prop
  | .destroyBody b _ => (r.lost → ∀ B, w.body b = some B → ∀ q ∈ w.lost, q.c1 ∉ B.cols ∧ q.c2 ∉ B.cols ∧ q.b1 ≠ b ∧ q.b2 ≠ b) ∧
      (r.joint → ∀ j J, w.jnt j = some J → (b = J.b1 ∨ b = J.b2) → w.OnlyJoint j)
  | .removeCollider _ c _ => r.lost → ∀ q ∈ w.lost, q.c1 ≠ c ∧ q.c2 ≠ c
  | .setType b t => r.strict → ∀ B, w.body b = some B → B.type = .static → t ≠ .static → B.sleeping = false → ∀ c ∈ B.cols, w.NoIdle c
  | .setTransform b _ => r.strict → ∀ B, w.body b = some B → B.type = .static → ∀ c ∈ B.cols, w.NoIdle c
  | .setLocalTransform c _ => r.strict → ∀ x B, w.col c = some x → w.body x.body = some B → B.type = .static → w.NoIdle c
  | .setCategory c _ => (r.strict → w.NoIdle c) ∧ (r.bits → w.store.own c = [])
  | .setMask c _ => (r.strict → w.NoIdle c) ∧ (r.bits → w.store.own c = [])
  | .destroyJoint j => (r.cover → ∀ J, w.jnt j = some J → J.coll = true ∨ ∃ b, (b = J.b1 ∨ b = J.b2) ∧ ∀ B, w.body b = some B → B.cols = []) ∧
      (r.joint → w.OnlyJoint j)
  | .queryOverlapAll _ _ => ¬ r.sync
  | .queryCollisionAll _ _ => ¬ r.sync
  | _ => True

/-- A history of calls that follow the rules, from the creation of the world, with the events reported by each call. -/
inductive Hist (fat : AABB α → AABB α) (r : Rules) : List (WOp α × List Event) → World α → Prop
  | init : Hist fat r [] init
  | step {tr : List (WOp α × List Event)} {w w' : World α} {op : WOp α} {ev : List Event} (h : Hist fat r tr w) (hv : w.Valid op)
      (hf : w.Follows r op) (he : w.exec fat op = some (w', ev)) : Hist fat r (tr ++ [(op, ev)]) w'

/-- The colliders whose pairs a call drops. -/
def dropped (w : World α) : WOp α → Nat → Prop
  | .destroyBody b _, c => ∃ B, w.body b = some B ∧ c ∈ B.cols
  | .removeCollider _ c' _, c => c = c'
  | .setActive b _ _ _, c => ∃ B, w.body b = some B ∧ c ∈ B.cols
  | _, _ => False

/-- The part of the invariant that the rules guarantee. -/
def _root_.RP3D.Rules.cfg (r : Rules) : Cfg := ⟨r.strict, r.bits, r.lost, r.cover, r.sync, fun _ => False, fun _ => False⟩

/-- The effect of a call on the events. -/
def Effect (r : Rules) (w : World α) (A : PMap) (op : WOp α) (w' : World α) (A' : PMap) (ev : List Event) : Prop :=
  match op with
  | .update a => Stepped r.cfg a.hit w A w' A' ev
  | op => ev = [] ∧ Rounds (w.dropped op) w A w' A'

variable {w w' : World α} {A A' : PMap} {cfg : Cfg} {r : Rules}

theorem NoIdle.all (h : WInv cfg w A) {c : Nat} (hn : w.NoIdle c) : AllEnabled A c := by
  intro id k p hp hc
  have hown : id ∈ w.store.own c := (h.rep.own c id).2 ⟨k, p, hp, hc.imp Eq.symm Eq.symm⟩
  obtain ⟨p', h1, h2⟩ := hn id hown
  rw [h.rep.deref_eq hp] at h1
  cases h1
  rw [← (h.rep.wf _ _ _ hp).2.1]
  exact h2

theorem own_nil_all (h : WInv cfg w A) {c : Nat} (hn : w.store.own c = []) : ∀ id k p, A id = some (k, p) → p.c1 ≠ c ∧ p.c2 ≠ c := by
  intro id k p hp
  constructor
  · intro e
    have := (h.rep.own c id).2 ⟨k, p, hp, Or.inl e⟩
    rw [hn] at this; cases this
  · intro e
    have := (h.rep.own c id).2 ⟨k, p, hp, Or.inr e⟩
    rw [hn] at this; cases this

/-- The invariant of histories. -/
structure HInv (r : Rules) (w : World α) (A : PMap) : Prop where
  inv : WInv r.cfg w A
  jj : JJ r.joint w

theorem _root_.RP3D.Ok.map {S : Prop} {β γ : Type} {P : β → Prop} {Q : γ → Prop} {o : Option β} {f : β → γ} (h : Ok S P o) (hf : ∀ x, P x → Q (f x)) :
    Ok S Q (o.map f) := by
  cases o with
  | none => exact h
  | some x => exact hf x h

theorem ok_of_some {S : Prop} {β : Type} {P : β → Prop} {o : Option β} (h : ∃ x, o = some x ∧ P x) : Ok S P o := by
  obtain ⟨x, e, hx⟩ := h
  rw [e]; exact hx

theorem init_hinv : HInv (α := α) r init (fun _ => none) := by
  refine ⟨⟨PStore.rep_init, ⟨?_, ?_, ?_, ?_, ?_, ?_, ?_, ?_, ?_, ⟨List.Pairwise.nil, ?_⟩, ?_⟩, ⟨?_, ?_, ?_, ?_, ?_⟩⟩, ⟨⟨?_, ?_⟩, ⟨?_, ?_⟩⟩⟩
  all_goals first
    | (intro _ _ h; exact absurd h (by simp [init]))
    | (intro _ _ _ h; exact absurd h (by simp [init]))
    | (intro _ h; exact absurd h (by simp [init]))
    | (intro _ _ _ _ h; exact absurd h (by simp [init]))
    | (intro _ _ _ _ _ _ _ _ _ h; exact absurd h.hc1 (by simp [init]))

/-- Every call keeps the invariant; no call has undefined behaviour if the user follows the rules `strict` and `lost`. -/
theorem exec_ok {fat : AABB α → AABB α} (h : HInv r w A) {op : WOp α} (hv : w.Valid op) (hf : w.Follows r op) :
    Ok (r.strict ∧ r.lost) (fun x => ∃ A', HInv r x.1 A' ∧ Effect r w A op x.1 A' x.2) (w.exec fat op) := by
  have hE : ∀ b, ¬ r.cfg.ex b := fun b h => h
  have hA : ∀ b, ¬ r.cfg.exA b := fun b h => h
  have hw := h.inv
  cases op with
  | createBody b =>
    refine ⟨A, ⟨createBody_ok hw hv, ⟨⟨?_, ?_⟩, ⟨h.jj.n.1, h.jj.n.2⟩⟩⟩, rfl, rounds_same rfl⟩
    · intro j J hJ
      obtain ⟨g1, g2⟩ := h.jj.j.jnt j J hJ
      refine ⟨g1, fun b' hb' => ?_⟩
      obtain ⟨B', hB', hm⟩ := g2 b' hb'
      refine ⟨B', ?_, hm⟩
      have hne : b' ≠ b := by
        intro e
        rw [e, show w.body b = none from hv] at hB'
        cases hB'
      exact (upd_ne _ _ hne).trans hB'
    · intro b' B' hB'
      by_cases e : b' = b
      · subst e
        have : some B' = _ := hB'.symm.trans (upd_same _ _ _)
        cases this
        exact ⟨List.nodup_nil, fun j hj => by cases hj⟩
      · have : w.body b' = some B' := (upd_ne _ _ e).symm.trans hB'
        exact h.jj.j.joints b' B' this
  | destroyBody b wss =>
    obtain ⟨B, hB, h1, h2, _⟩ := hv
    refine ((destroyBody_ok hw hA h.jj hB h1 h2 (fun hl => hf.1 hl B hB) ?_).weak (S' := r.strict ∧ r.lost) And.left).map ?_
    · intro hN j J j' J' g1 g2 g3 g4 g5 g6
      exact hf.2 hN j J g1 g3 J j' J' g1 g2 g4 g5 g6
    · rintro w' ⟨⟨A', g1, g2⟩, g3, _⟩
      exact ⟨A', ⟨g1, g3⟩, rfl, g2.mono (fun c hc => ⟨B, hB, hc⟩)⟩
  | addCollider b c cv n box =>
    obtain ⟨⟨B, hB⟩, h1, h2, h3⟩ := hv
    obtain ⟨w', e, g1, g2, g3⟩ := addCollider_ok (fat := fat) (box := box) hw hB h1 cv h2 h3 hA
    simp only [exec, e]
    exact ⟨A, ⟨g1, g3.jj h.jj⟩, rfl, g2⟩
  | removeCollider b c ws =>
    obtain ⟨⟨x, hx, hb⟩, h1⟩ := hv
    refine ((removeCollider_ok hw hA hx hb h1 hf).weak (S' := r.strict ∧ r.lost) And.left).map ?_
    rintro w' ⟨A', g1, g2, g3, _⟩
    exact ⟨A', ⟨g1, g3.jj h.jj⟩, rfl, g2⟩
  | setType b t =>
    obtain ⟨B, hB⟩ := hv
    refine ((setType_ok hw hE hA hB t (fun hs a1 a2 a3 c hc => (hf hs B hB a1 a2 a3 c hc).all hw)).weak (S' := r.strict ∧ r.lost) And.left).map ?_
    rintro w' ⟨⟨A', g1, g2⟩, g3⟩
    exact ⟨A', ⟨g1, g3.jj h.jj⟩, rfl, g2⟩
  | setActive b v ns box =>
    obtain ⟨B, hB, h1⟩ := hv
    obtain ⟨w', e, ⟨A', g1, g2⟩, g3, _⟩ := setActive_ok (fat := fat) (box := box) hw hA hB v h1
    simp only [exec, e]
    exact ⟨A', ⟨g1, g3.jj h.jj⟩, rfl, g2.mono (fun c hc => ⟨B, hB, hc⟩)⟩
  | setSleeping b v =>
    obtain ⟨B, hB⟩ := hv
    refine ((hw.setSleeping hB v).weak (S' := r.strict ∧ r.lost) And.left).map ?_
    rintro w' ⟨A', g1, g2, _⟩
    exact ⟨A', ⟨g1, g2.jeq.jj h.jj⟩, rfl, g2.rounds _⟩
  | setTransform b box =>
    obtain ⟨B, hB⟩ := hv
    refine ((setTransform_ok (fat := fat) (box := box) hw hE hA hB (fun hs a1 c hc => (hf hs B hB a1 c hc).all hw)).weak (S' := r.strict ∧ r.lost) And.left).map ?_
    rintro w' ⟨⟨A', g1, g2⟩, g3⟩
    exact ⟨A', ⟨g1, g3.jj h.jj⟩, rfl, g2⟩
  | setLocalTransform c box =>
    obtain ⟨x, hx⟩ := hv
    obtain ⟨B, hB, _⟩ := hw.s.col c x hx
    refine ((setLocalTransform_ok (fat := fat) (box := box) hw hE hA hx hB (fun hs a1 => (hf hs x B hx hB a1).all hw)).weak (S' := r.strict ∧ r.lost) And.left).map ?_
    rintro w' ⟨⟨A', g1, g2⟩, g3⟩
    exact ⟨A', ⟨g1, g3.jj h.jj⟩, rfl, g2⟩
  | setCategory c bits =>
    obtain ⟨x, hx⟩ := hv
    have := (setBits_ok hw hx bits x.mask (fun hs => (hf.1 hs).all hw) (fun hb => own_nil_all hw (hf.2 hb))).weak (S' := r.strict ∧ r.lost) And.left
    simp only [exec, setCategory, hx]
    refine this.map ?_
    rintro w' ⟨A', g1, g3, g2, _⟩
    exact ⟨A', ⟨g1, g3.jj h.jj⟩, rfl, g2⟩
  | setMask c bits =>
    obtain ⟨x, hx⟩ := hv
    have := (setBits_ok hw hx x.cat bits (fun hs => (hf.1 hs).all hw) (fun hb => own_nil_all hw (hf.2 hb))).weak (S' := r.strict ∧ r.lost) And.left
    simp only [exec, setMask, hx]
    refine this.map ?_
    rintro w' ⟨A', g1, g3, g2, _⟩
    exact ⟨A', ⟨g1, g3.jj h.jj⟩, rfl, g2⟩
  | setTrigger c v =>
    obtain ⟨x, hx⟩ := hv
    obtain ⟨w', e, ⟨A', g1, g2⟩, g3⟩ := setTrigger_ok hw hx v
    simp only [exec, e]
    exact ⟨A', ⟨g1, g3.jj h.jj⟩, rfl, g2⟩
  | setSim c v =>
    obtain ⟨x, hx⟩ := hv
    obtain ⟨w', e, ⟨A', g1, g2⟩, g3⟩ := setSim_ok hw hx v
    simp only [exec, e]
    exact ⟨A', ⟨g1, g3.jj h.jj⟩, rfl, g2⟩
  | setQuery c v =>
    obtain ⟨x, hx⟩ := hv
    obtain ⟨w', e, ⟨A', g1, g2⟩, g3⟩ := setQuery_ok hw hx v
    simp only [exec, e]
    exact ⟨A', ⟨g1, g3.jj h.jj⟩, rfl, g2⟩
  | resize c =>
    obtain ⟨x, hx⟩ := hv
    obtain ⟨w', e, ⟨A', g1, g2⟩, g3⟩ := resize_ok hw hx
    simp only [exec, e]
    exact ⟨A', ⟨g1, g3.jj h.jj⟩, rfl, g2⟩
  | createJoint j b1 b2 coll =>
    obtain ⟨h1, ⟨B1, hB1⟩, ⟨B2, hB2⟩, h2⟩ := hv
    obtain ⟨w', e, ⟨A', g1, g2⟩, g3⟩ := createJoint_ok (coll := coll) hw h.jj h1 hB1 hB2 h2
    simp only [exec, e]
    exact ⟨A', ⟨g1, g3⟩, rfl, g2⟩
  | destroyJoint j =>
    obtain ⟨J, hJ⟩ := hv
    refine ((destroyJoint_ok hw h.jj hJ (fun hc => hf.1 hc J hJ) ?_).weak (S' := r.strict ∧ r.lost) And.left).map ?_
    · intro hN g1 j' J' g2 g3 g4
      exact hf.2 hN J j' J' hJ g2 g1 g3 g4
    · rintro w' ⟨A', g1, g2, g3, _⟩
      exact ⟨A', ⟨g1, g3⟩, rfl, g2⟩
  | update a =>
    refine (update_ok (fat := fat) hw hE hv).mono ?_
    rintro x ⟨A', g1, g2, g3⟩
    exact ⟨A', ⟨g1, g2.jj h.jj⟩, g3⟩
  | queryOverlapAll nodes hit =>
    obtain ⟨w', ids, A1, e, ⟨A', g1, g2⟩, g3, _⟩ := queryOverlapAll_ok hw hf hv hit
    simp only [exec, e]
    exact ⟨A', ⟨g1, g3.jj h.jj⟩, rfl, g2⟩
  | queryCollisionAll nodes hit =>
    obtain ⟨w', ids, A1, e, ⟨A', g1, g2⟩, g3, _⟩ := queryCollisionAll_ok hw hf hv hit
    simp only [exec, e]
    exact ⟨A', ⟨g1, g3.jj h.jj⟩, rfl, g2⟩
  | testOverlap b1 b2 nodes hit =>
    obtain ⟨w', b, A1, e, g1, g2, g3, _⟩ := testOverlap_ok hw hv b1 b2 hit
    simp only [exec, e]
    exact ⟨A1, ⟨g1, g3.jj h.jj⟩, rfl, g2⟩

theorem Hist.inv {fat : AABB α → AABB α} {tr : List (WOp α × List Event)} (h : Hist fat r tr w) : ∃ A, HInv r w A := by
  induction h with
  | init => exact ⟨_, init_hinv⟩
  | step h hv hf he ih =>
    obtain ⟨A, hA⟩ := ih
    obtain ⟨A', h1, _⟩ := (exec_ok hA hv hf).of_some he
    exact ⟨A', h1⟩

end World
end RP3D
