import Verif.World.Hist
import Verif.World.BodyJointsInv

/-!
The waking of neighbours when a collider is removed (src/body/RigidBody.cpp: removeCollider, awakeNeighborDisabledBodies), with the positions of the components
of bodies in their arrays.

`World/Model` leaves the set of woken bodies open; here it is computed as in the code.  The positions matter because the loop over the colliders holds a
reference into the array `mColliders` of `BodyComponents`, and waking a body exchanges components of that array.
-/

set_option linter.unusedSectionVars false

namespace RP3D

/-- A world and the positions of the body components (`mBodyComponents`; the tables of transforms and of rigid bodies have the same order, see
`World/BodyJoints`). -/
structure PWorld (α : Type) where
  w : World α
  t : Comps Unit

namespace PWorld
variable {α : Type} [LinearOrder α]

/-- `setIsSleeping(false)` (RigidBody.cpp:1006-1057) with the exchange of components in `setBodyDisabled` (PhysicsWorld.cpp:168-178), which happens if the
body becomes enabled. -/
def wakeBody (s : PWorld α) (n : Nat) : Option (PWorld α) :=
  match s.w.setSleeping n false with
  | none => none
  | some w' =>
    match s.w.body n, w'.body n with
    | some N, some N' =>
      if N.disabled && !N'.disabled then
        match s.t.setDisabled id n false with
        | none => none
        | some t => some ⟨w', t⟩
      else some ⟨w', s.t⟩
    | _, _ => none

/-- The other body of a pair, seen from `b` (RigidBody.cpp:1102-1107). -/
def other (b : Nat) (x1 x2 : Col) : Nat := if b = x1.body then x2.body else x1.body

/-- The body of the inner loop of `awakeNeighborDisabledBodies` (RigidBody.cpp:1094-1115): one pair. -/
def wakeOne (b : Nat) (s : PWorld α) (id : Nat) : Option (PWorld α) :=
  match s.w.store.deref id with
  | none => none
  | some p =>
    if p.prev then
      match s.w.col p.c1, s.w.col p.c2 with
      | some x1, some x2 =>
        match s.w.body (other b x1 x2) with
        | none => none
        | some N => if N.disabled then s.wakeBody (other b x1 x2) else some s
      | _, _ => none
    else some s

/-- The loops of `awakeNeighborDisabledBodies` (RigidBody.cpp:1086-1118) from round `j` on, for at most `m` rounds.  The reference `colliderEntities`
stands for the list of the body that is at index `i` at the time of the read; the pair ids of a collider are copied. -/
def wakeLoop (b i : Nat) : Nat → Nat → PWorld α → Option (PWorld α)
  | 0, _, _ => none
  | m + 1, j, s =>
    match s.t.slots i with
    | none => none
    | some (e, _) =>
      match s.w.body e with
      | none => none
      | some E =>
        match E.cols[j]? with
        | none => some s
        | some c =>
          match (s.w.store.own c).foldlM (wakeOne b) s with
          | none => none
          | some s' => wakeLoop b i m (j + 1) s'

/-- `awakeNeighborDisabledBodies` (RigidBody.cpp:1084-1118); `m` is a bound on the number of rounds. -/
def awakeNeighbors (m : Nat) (s : PWorld α) (b : Nat) : Option (PWorld α) :=
  match s.t.map b with
  | none => none
  | some i => wakeLoop b i m 0 s

/-- `RigidBody::removeCollider` (RigidBody.cpp:728-735). -/
def removeCollider (m : Nat) (s : PWorld α) (b c : Nat) : Option (PWorld α) :=
  match s.awakeNeighbors m b with
  | none => none
  | some s1 =>
    match s1.w.bodyRemoveCollider b c with
    | none => none
    | some w => some ⟨w, s1.t⟩

/-- `removeAllColliders` (Body.cpp:204-213): the list is copied. -/
def removeAll (m : Nat) (s : PWorld α) (b : Nat) (cs : List Nat) : Option (PWorld α) := cs.foldlM (fun s c => s.removeCollider m b c) s

/-- `destroyRigidBody` (PhysicsWorld.cpp:448-477), under the conditions of `World.destroyJoints`. -/
def destroyBody (m : Nat) (s : PWorld α) (b : Nat) : Option (World α) :=
  match s.w.body b with
  | none => none
  | some B =>
    match s.removeAll m b B.cols with
    | none => none
    | some s1 =>
      match s1.w.destroyJoints b B.joints.length with
      | none => none
      | some w2 => some { w2 with body := upd w2.body b none }

/-- The table holds the bodies of the world, the disabled ones behind the others. -/
def Placed (s : PWorld α) : Prop := Comps.Rep (fun _ : Unit => ()) s.t (fun b => (s.w.body b).map fun B => ((), B.disabled))

end PWorld

namespace World
variable {α : Type} [LinearOrder α]

/-- A body that can move is simulated. -/
def Woken (w : World α) (n : Nat) : Prop := ∀ N, w.body n = some N → N.type ≠ .static → N.active = true → N.disabled = false

/-- Awake bodies stay awake. -/
def Calm (w w' : World α) : Prop := ∀ n, w.Woken n → w'.Woken n

theorem Calm.refl (w : World α) : Calm w w := fun _ h => h
theorem Calm.trans {w w' w'' : World α} (h : Calm w w') (h2 : Calm w' w'') : Calm w w'' := fun n hn => h2 n (h n hn)

/-- One world is obtained from the other by waking bodies. -/
def Wakes (w w' : World α) : Prop := ∃ ws, (∀ b ∈ ws, ∃ B, w.body b = some B) ∧ w.setSleepingAll ws false = some w'

theorem Wakes.refl (w : World α) : Wakes w w := ⟨[], by simp, rfl⟩

theorem Wakes.trans {w w' w'' : World α} (h : Wakes w w') (h2 : Wakes w' w'') (hb : ∀ b, (w'.body b).isSome = (w.body b).isSome) : Wakes w w'' := by
  obtain ⟨ws, h1, e1⟩ := h
  obtain ⟨ws', h3, e2⟩ := h2
  refine ⟨ws ++ ws', ?_, ?_⟩
  · intro b hm
    rcases List.mem_append.1 hm with hm | hm
    · exact h1 b hm
    · obtain ⟨B, hB⟩ := h3 b hm
      have := hb b
      rw [hB] at this
      exact Option.isSome_iff_exists.1 this.symm
  · unfold setSleepingAll at e1 e2 ⊢
    rw [List.foldlM_append, e1]
    exact e2

end World

namespace Comps
variable {D : Type}

theorem swap_nb {c c' : Comps D} {cp : D → D} {i j : Nat} (h : c.swap cp i j = some c') : c'.nb = c.nb := by
  unfold swap at h
  split at h
  · cases h
  · simp only [Option.bind_eq_bind, Option.bind_eq_some_iff] at h
    obtain ⟨c2, h2, c3, h3, h4⟩ := h
    unfold place at h4
    split_ifs at h4
    cases h4
    exact (move_nb h3).1.trans (destroyAt_nb h2).1

theorem setDisabled_nb {c c' : Comps D} {cp : D → D} {e : Nat} (h : c.setDisabled cp e false = some c') : c'.nb = c.nb := by
  unfold setDisabled at h
  rw [Option.bind_eq_bind, Option.bind_eq_some_iff] at h
  obtain ⟨i, hi, h⟩ := h
  by_cases hd : i ≥ c.ds
  · rw [if_pos ⟨rfl, hd⟩] at h
    by_cases hn : c.ds ≠ i
    · rw [if_pos hn] at h
      cases hs : c.swap cp i c.ds with
      | none => rw [hs] at h; cases h
      | some c1 => rw [hs] at h; cases h; exact swap_nb (c' := c1) hs
    · rw [if_neg hn] at h; cases h; rfl
  · rw [if_neg (by omega), if_neg (by simp)] at h; cases h; rfl

end Comps

namespace PWorld
open World Comps
variable {α : Type} [LinearOrder α] {s s' : PWorld α} {A A' : PMap} {cfg : Cfg}

/-- What waking keeps. -/
structure Woke (cfg : Cfg) (s : PWorld α) (A : PMap) (s' : PWorld α) (A' : PMap) : Prop where
  inv : WInv cfg s'.w A'
  frame : Frame s.w A s'.w A'
  placed : s'.Placed
  keep : Keep s.t s'.t
  nb : s'.t.nb = s.t.nb
  calm : Calm s.w s'.w
  wakes : Wakes s.w s'.w

theorem Woke.refl (h : WInv cfg s.w A) (hp : s.Placed) : Woke cfg s A s A :=
  ⟨h, Frame.refl _ _, hp, Keep.refl _, rfl, Calm.refl _, Wakes.refl _⟩

theorem Woke.trans {s'' : PWorld α} {A'' : PMap} (h : Woke cfg s A s' A') (h2 : Woke cfg s' A' s'' A'') : Woke cfg s A s'' A'' :=
  ⟨h2.inv, h.frame.trans h2.frame, h2.placed, h.keep.trans h2.keep, h2.nb.trans h.nb, h.calm.trans h2.calm,
    h.wakes.trans h2.wakes (fun b => isSome_map (h.frame.body b))⟩

theorem wakeBody_ok (h : WInv cfg s.w A) (hp : s.Placed) {n : Nat} {N : Body} (hN : s.w.body n = some N) :
    Ok cfg.strict (fun s' => ∃ A', Woke cfg s A s' A' ∧ s'.w.Woken n) (s.wakeBody n) := by
  unfold wakeBody
  have key := setSleeping_false_ok (h.addEx n) hN (fun _ => h)
  cases hk : s.w.setSleeping n false with
  | none => rw [hk] at key; exact key
  | some w' =>
    rw [hk] at key
    obtain ⟨A', g1, g2, g3, _, _, g6⟩ := key
    have hdis : N.type ≠ .static → (if N.sleeping then false else N.disabled) = false := by
      intro ht
      cases hs : N.sleeping with
      | true => rfl
      | false =>
        by_contra hd
        rcases h.d.dis n N hN (by simpa using hd) with e | e
        · exact ht e
        · rw [hs] at e; cases e
    have hcalm : Calm s.w w' := by
      intro m hm M hM ht ha
      by_cases e : m = n
      · subst e
        rw [g6] at hM
        cases hM
        split at ht
        · rename_i hc
          rw [if_pos hc] at ha ⊢
          exact hm N hN ht ha
        · rename_i hc
          rw [if_neg hc]
          exact hdis ht
      · rw [g3 m e] at hM
        exact hm M hM ht ha
    have hwok : w'.Woken n := by
      intro M hM ht ha
      rw [g6] at hM
      cases hM
      split at ht
      · rename_i hc
        rw [if_pos hc] at ha
        rcases hc with hc | hc
        · exact absurd hc ht
        · rw [hc] at ha; cases ha
      · rename_i hc
        rw [if_neg hc]
        exact hdis ht
    have hwakes : Wakes s.w w' := by
      refine ⟨[n], ?_, ?_⟩
      · intro b hb; rw [List.mem_singleton] at hb; subst hb; exact ⟨N, hN⟩
      · simp [setSleepingAll, hk]
    simp only [hN, g6]
    set N' : Body := if N.type = .static ∨ N.active = false then N else { N with sleeping := false, disabled := if N.sleeping then false else N.disabled } with hN'
    have hor : N'.disabled = false ∨ N'.disabled = N.disabled := by
      rw [hN']
      split
      · exact Or.inr rfl
      · cases N.sleeping <;> simp
    by_cases hd : (N.disabled && !N'.disabled) = true
    · rw [if_pos hd]
      rw [Bool.and_eq_true, Bool.not_eq_true'] at hd
      obtain ⟨t', e1, e2⟩ := setDisabled_rep hp (cp := id) (fun _ => rfl) (e := n) false (x := ()) (b := N.disabled) (by rw [hN]; rfl)
      rw [e1]
      refine ⟨A', ⟨g1, g2, ?_, enable_keep hp e1, setDisabled_nb e1, hcalm, hwakes⟩, hwok⟩
      have : (fun b => (w'.body b).map fun B => ((), B.disabled)) = fun e' => if e' = n then some ((), false) else (s.w.body e').map fun B => ((), B.disabled) := by
        funext e'
        by_cases e : e' = n
        · subst e; rw [if_pos rfl, g6]; show some ((), N'.disabled) = _; rw [hd.2]
        · rw [if_neg e, g3 e' e]
      show Rep _ t' _
      rw [this]
      exact e2
    · rw [if_neg hd]
      refine ⟨A', ⟨g1, g2, ?_, Keep.refl _, rfl, hcalm, hwakes⟩, hwok⟩
      have : (fun b => (w'.body b).map fun B => ((), B.disabled)) = fun e' => (s.w.body e').map fun B => ((), B.disabled) := by
        funext e'
        by_cases e : e' = n
        · subst e
          rw [g6, hN]
          show some ((), N'.disabled) = some ((), N.disabled)
          cases h1 : N.disabled <;> cases h2 : N'.disabled <;> simp_all
        · rw [g3 e' e]
      show Rep _ s.t _
      rw [this]
      exact hp

/-- The neighbour of `b` in the pair `p` is simulated. -/
def NextWoken (w : World α) (b : Nat) (p : Pair) : Prop := ∀ x1 x2, w.col p.c1 = some x1 → w.col p.c2 = some x2 → w.Woken (other b x1 x2)

theorem other_core {b : Nat} {x1 x2 y1 y2 : Col} (h1 : y1.core = x1.core) (h2 : y2.core = x2.core) : other b y1 y2 = other b x1 x2 := by
  unfold other
  rw [(Col.core_eq h1).1, (Col.core_eq h2).1]

theorem NextWoken.later {p : Pair} {b : Nat} {w w' : World α} (hf : Frame w A w' A') (hc : Calm w w') (h : NextWoken w b p) : NextWoken w' b p := by
  intro y1 y2 h1 h2
  obtain ⟨x1, g1, e1⟩ := hf.col_bwd h1
  obtain ⟨x2, g2, e2⟩ := hf.col_bwd h2
  rw [← other_core e1 e2]
  exact hc _ (h x1 x2 g1 g2)

theorem wakeOne_ok (h : WInv cfg s.w A) (hp : s.Placed) (b : Nat) {id : Nat} {k : Kind} {p : Pair} (ha : A id = some (k, p)) :
    Ok cfg.strict (fun s' => ∃ A', Woke cfg s A s' A' ∧ (p.prev = true → NextWoken s'.w b p)) (wakeOne b s id) := by
  unfold wakeOne
  rw [h.rep.deref_eq ha]
  simp only
  obtain ⟨x1, x2, ho⟩ := h.s.pair id k p ha
  by_cases hv : p.prev = true
  · rw [if_pos hv]
    simp only [ho.c1, ho.c2]
    have hb : ∃ N, s.w.body (other b x1 x2) = some N := by
      obtain ⟨B1, h1, _⟩ := h.s.col _ _ ho.c1
      obtain ⟨B2, h2, _⟩ := h.s.col _ _ ho.c2
      unfold other
      split
      · exact ⟨B2, h2⟩
      · exact ⟨B1, h1⟩
    obtain ⟨N, hN⟩ := hb
    simp only [hN]
    by_cases hd : N.disabled = true
    · rw [if_pos hd]
      refine (wakeBody_ok h hp hN).mono ?_
      rintro s' ⟨A', g1, g2⟩
      refine ⟨A', g1, fun _ => ?_⟩
      intro y1 y2 h1 h2
      obtain ⟨z1, e1, c1⟩ := g1.frame.col_fwd ho.c1
      obtain ⟨z2, e2, c2⟩ := g1.frame.col_fwd ho.c2
      rw [h1] at e1; rw [h2] at e2
      cases e1; cases e2
      rw [other_core c1 c2]
      exact g2
    · rw [if_neg hd]
      refine ⟨A, Woke.refl h hp, fun _ => ?_⟩
      intro y1 y2 h1 h2
      rw [ho.c1] at h1; rw [ho.c2] at h2
      cases h1; cases h2
      intro M hM ht ha'
      rw [hN] at hM; cases hM
      simpa using hd
  · rw [if_neg hv]
    exact ⟨A, Woke.refl h hp, fun e => absurd e hv⟩

/-- All neighbours that touched collider `c` are simulated. -/
def AroundWoken (A : PMap) (w : World α) (b c : Nat) : Prop := ∀ id k p, A id = some (k, p) → p.prev = true → p.c1 = c ∨ p.c2 = c → NextWoken w b p

theorem NextWoken.core {w : World α} {b : Nat} {k k' : Kind} {p p' : Pair} (he : pairCore (k', p') = pairCore (k, p)) (h : NextWoken w b p') : NextWoken w b p := by
  obtain ⟨_, _, _, _, e1, e2, _⟩ := pairCore_eq he
  intro x1 x2 h1 h2
  rw [← e1] at h1; rw [← e2] at h2
  exact h x1 x2 h1 h2

/-- One round of the outer loop. -/
theorem round_ok (h : WInv cfg s.w A) (hp : s.Placed) (b c : Nat) :
    Ok cfg.strict (fun s' => ∃ A', Woke cfg s A s' A' ∧ AroundWoken A s'.w b c) ((s.w.store.own c).foldlM (wakeOne b) s) := by
  have key := Ok.foldlM_each (S := cfg.strict) (I := fun s' : PWorld α => ∃ A', Woke cfg s A s' A')
    (D := fun id s' => ∀ k p, A id = some (k, p) → p.prev = true → NextWoken s'.w b p) (f := wakeOne b) (l := s.w.store.own c) (x := s)
    ⟨A, Woke.refl h hp⟩ (by
      rintro y id hid ⟨A1, g⟩
      obtain ⟨k, p, ha, _⟩ := (h.rep.own c id).1 hid
      obtain ⟨k1, p1, ha1, he⟩ := g.frame.pair_fwd ha
      refine (wakeOne_ok g.inv g.placed b ha1).mono ?_
      rintro z ⟨A2, g2, hn⟩
      refine ⟨⟨A2, g.trans g2⟩, ?_, ?_⟩
      · intro k' p' ha' hv
        rw [ha] at ha'; cases ha'
        exact (hn (by rw [(pairCore_eq he).2.2.2.2.2.2.1]; exact hv)).core he
      · intro id' _ hd k' p' ha' hv
        exact (hd k' p' ha' hv).later g2.frame g2.calm)
  refine key.mono ?_
  rintro s' ⟨⟨A', g⟩, hd⟩
  refine ⟨A', g, ?_⟩
  intro id k p ha hv hc
  exact hd id ((h.rep.own c id).2 ⟨k, p, ha, hc⟩) k p ha hv

theorem AroundWoken.of_frame {w w1 w' : World α} {b c : Nat} (hf : Frame w A w1 A') (h : AroundWoken A' w' b c) : AroundWoken A w' b c := by
  intro id k p ha hv hc
  obtain ⟨k1, p1, ha1, he⟩ := hf.pair_fwd ha
  obtain ⟨_, _, _, _, e1, e2, e3, _⟩ := pairCore_eq he
  exact (h id k1 p1 ha1 (by rw [e3]; exact hv) (by rw [e1, e2]; exact hc)).core he

theorem AroundWoken.later {w w' : World α} {A1 A' : PMap} {b c : Nat} (h : AroundWoken A w b c) (hf : Frame w A1 w' A') (hc : Calm w w') : AroundWoken A w' b c :=
  fun id k p ha hv he => (h id k p ha hv he).later hf hc

theorem cols_frame {w w' : World α} (hf : Frame w A w' A') {e : Nat} {E' : Body} (h : w'.body e = some E') : ∃ E, w.body e = some E ∧ E.cols = E'.cols := by
  obtain ⟨E, h1, h2⟩ := hf.body_bwd h
  exact ⟨E, h1, (Body.core_eq h2).2.2.1⟩

/-- The loop wakes the neighbours of the collider of the first round, and those of all later colliders if the body is enabled. -/
theorem wakeLoop_ok (b i : Nat) (m : Nat) : ∀ (j : Nat) {s : PWorld α} {A : PMap}, 0 < m → WInv cfg s.w A → s.Placed → i < s.t.nb →
    (∀ e E, s.w.body e = some E → E.cols.length < j + m) →
    Ok cfg.strict (fun s' => ∃ A', Woke cfg s A s' A' ∧ ∀ B, s.t.map b = some i → s.w.body b = some B →
      ∀ j' c, B.cols[j']? = some c → j' = j ∨ (i < s.t.ds ∧ j ≤ j') → AroundWoken A s'.w b c) (wakeLoop b i m j s) := by
  induction m with
  | zero =>
    intro j s A h0
    exact absurd h0 (Nat.lt_irrefl 0)
  | succ m ih =>
    intro j s A _ h hp hi hm
    unfold wakeLoop
    obtain ⟨e, d, h1, h2, h3⟩ := GRep.slot hp.rep (i := i) hi
    rw [h1]
    simp only
    cases hE : s.w.body e with
    | none => rw [hE] at h3; cases h3
    | some E =>
      simp only
      have hbe : ∀ B, s.t.map b = some i → s.w.body b = some B → B = E := by
        intro B hb hB
        obtain ⟨d', hs⟩ := (hp.rep.core b i).1 hb
        rw [h1] at hs
        cases hs
        rw [hE] at hB
        cases hB; rfl
      cases hc : E.cols[j]? with
      | none =>
        refine ⟨A, Woke.refl h hp, ?_⟩
        intro B hb hB j' c hj hor
        rw [hbe B hb hB] at hj
        rw [List.getElem?_eq_none_iff] at hc
        have : j' < E.cols.length := by
          rw [List.getElem?_eq_some_iff] at hj
          exact hj.1
        omega
      | some c =>
        simp only
        have hr := round_ok h hp b c
        cases hk : (s.w.store.own c).foldlM (wakeOne b) s with
        | none => rw [hk] at hr; exact hr
        | some s1 =>
          rw [hk] at hr
          obtain ⟨A1, g1, g2⟩ := hr
          simp only
          have hm0 : 0 < m := by
            have a1 := hm e E hE
            have a2 := (List.getElem?_eq_some_iff.1 hc).1
            omega
          refine (ih (j + 1) hm0 g1.inv g1.placed (by rw [g1.nb]; exact hi) ?_).mono ?_
          · intro e' E' hE'
            obtain ⟨E0, a1, a2⟩ := cols_frame g1.frame hE'
            rw [← a2]
            have := hm e' E0 a1
            omega
          · rintro s2 ⟨A2, k1, k2⟩
            refine ⟨A2, g1.trans k1, ?_⟩
            intro B hb hB j' c' hj hor
            by_cases ej : j' = j
            · subst ej
              rw [hbe B hb hB, hc] at hj
              cases hj
              exact g2.later k1.frame k1.calm
            · have hor : i < s.t.ds ∧ j ≤ j' := hor.resolve_left ej
              obtain ⟨q1, q2⟩ := g1.keep b i hb hor.1
              obtain ⟨B1, b1, b2⟩ := g1.frame.body_fwd hB
              have := k2 B1 q1 b1 j' c' (by rw [(Body.core_eq b2).2.2.1]; exact hj) (Or.inr ⟨q2, by omega⟩)
              exact this.of_frame g1.frame

/-- `awakeNeighborDisabledBodies` wakes the neighbours of the first collider, and those of all colliders if the body is enabled. -/
theorem awakeNeighbors_ok {m b : Nat} {B : Body} (h : WInv cfg s.w A) (hp : s.Placed) (hB : s.w.body b = some B)
    (hm : ∀ e E, s.w.body e = some E → E.cols.length < m) :
    Ok cfg.strict (fun s' => ∃ A', Woke cfg s A s' A' ∧ ∀ c ∈ B.cols, B.disabled = false ∨ B.cols.head? = some c → AroundWoken A s'.w b c)
      (s.awakeNeighbors m b) := by
  unfold awakeNeighbors
  obtain ⟨i, d, h1, h2, _, h4, h5⟩ := map_of_f hp (e := b) (x := ()) (b := B.disabled) (by rw [hB]; rfl)
  rw [h1]
  simp only
  have hm0 : 0 < m := by have := hm b B hB; omega
  refine (wakeLoop_ok b i m 0 hm0 h hp h5 (by intro e E hE; have := hm e E hE; omega)).mono ?_
  rintro s' ⟨A', g1, g2⟩
  refine ⟨A', g1, ?_⟩
  intro c hc hor
  rcases hor with hor | hor
  · obtain ⟨j, hj⟩ := List.getElem?_of_mem hc
    refine g2 B h1 hB j c hj (Or.inr ⟨?_, Nat.zero_le _⟩)
    rw [hor] at h4
    have := of_decide_eq_false h4.symm
    omega
  · exact g2 B h1 hB 0 c (by rw [← List.head?_eq_getElem?]; exact hor) (Or.inl rfl)

/-- A collider that touched `c`, with its body. -/
def Touch (A : PMap) (w : World α) (c n : Nat) : Prop := ∃ id k p x1 x2, A id = some (k, p) ∧ p.prev = true ∧ w.col p.c1 = some x1 ∧ w.col p.c2 = some x2 ∧
  ((p.c1 = c ∧ x2.body = n) ∨ (p.c2 = c ∧ x1.body = n))

theorem AroundWoken.touch {w w' : World α} {b c n : Nat} {x : Col} (h : AroundWoken A w' b c) (hw : WInv cfg w A) (hx : w.col c = some x) (hb : x.body = b)
    (hf : Frame w A w' A') (ht : Touch A w c n) : w'.Woken n := by
  obtain ⟨id, k, p, x1, x2, h1, h2, h3, h4, h5⟩ := ht
  obtain ⟨z1, z2, ho⟩ := hw.s.pair id k p h1
  have e1 := ho.c1; have e2 := ho.c2
  rw [h3] at e1; rw [h4] at e2
  cases e1; cases e2
  obtain ⟨y1, g1, c1⟩ := hf.col_fwd h3
  obtain ⟨y2, g2, c2⟩ := hf.col_fwd h4
  have key := h id k p h1 h2 (h5.imp And.left And.left) y1 y2 g1 g2
  rw [other_core c1 c2] at key
  unfold other at key
  rcases h5 with ⟨e, en⟩ | ⟨e, en⟩
  · rw [e, hx] at h3; cases h3
    rw [if_pos hb.symm, en] at key
    exact key
  · rw [e, hx] at h4; cases h4
    rw [if_neg (by rw [← hb]; exact fun e => ho.ne e.symm), en] at key
    exact key

theorem calm_body {w w' : World α} (h : ∀ n N', w'.body n = some N' → ∃ N, w.body n = some N ∧ N.type = N'.type ∧ N.active = N'.active ∧ N.disabled = N'.disabled) :
    Calm w w' := by
  intro n hn N' hN' ht ha
  obtain ⟨N, h1, h2, h3, h4⟩ := h n N' hN'
  rw [← h4]
  exact hn N h1 (by rw [h2]; exact ht) (by rw [h3]; exact ha)

/-- What a removal of a collider keeps and does. -/
structure Removed (cfg : Cfg) (s : PWorld α) (A : PMap) (b c : Nat) (s' : PWorld α) (A' : PMap) : Prop where
  inv : WInv cfg s'.w A'
  placed : s'.Placed
  calm : Calm s.w s'.w
  rounds : Rounds (· = c) s.w A s'.w A'
  lost : s'.w.lost = s.w.lost
  col : ∀ c', c' ≠ c → (s'.w.col c').map Col.core = (s.w.col c').map Col.core
  body : ∀ e, (s'.w.body e).map (fun E => (E.cols, E.joints)) = (s.w.body e).map (fun E => (if e = b then E.cols.erase c else E.cols, E.joints))
  refine : ∃ ws, (∀ n ∈ ws, ∃ N, s.w.body n = some N) ∧ s.w.removeCollider b c ws = some s'.w

theorem removeCollider_ok {m b c : Nat} {x : Col} {B : Body} (h : WInv cfg s.w A) (hA : ∀ b, ¬ cfg.exA b) (hp : s.Placed) (hB : s.w.body b = some B) (hx : s.w.col c = some x)
    (hb : x.body = b) (hm : ∀ e E, s.w.body e = some E → E.cols.length < m) (hl : cfg.lost → ∀ q ∈ s.w.lost, q.c1 ≠ c ∧ q.c2 ≠ c) :
    Ok cfg.strict (fun s' => ∃ A', Removed cfg s A b c s' A' ∧
      ∀ c' ∈ B.cols, B.disabled = false ∨ B.cols.head? = some c' → ∀ n, Touch A s.w c' n → s'.w.Woken n) (s.removeCollider m b c) := by
  unfold removeCollider
  have key := awakeNeighbors_ok (m := m) h hp hB hm
  cases hk : s.awakeNeighbors m b with
  | none => rw [hk] at key; exact key
  | some s1 =>
    rw [hk] at key
    obtain ⟨A1, g1, g2⟩ := key
    simp only
    obtain ⟨x1, hx1, ex⟩ := g1.frame.col_fwd hx
    obtain ⟨B1, hB1, eB⟩ := g1.frame.body_fwd hB
    obtain ⟨w', A', e, k1, k2, k3, k4, k5, k6⟩ := bodyRemoveCollider_ok g1.inv hA hx1 (b := b) ((Col.core_eq ex).1.trans hb) (by rw [g1.frame.lost]; exact hl)
    rw [e]
    obtain ⟨v, k6⟩ := k6 B1 hB1
    have hcalm : Calm s1.w w' := by
      refine calm_body ?_
      intro n N' hN'
      rw [k6] at hN'
      by_cases en : n = b
      · subst en
        rw [upd_same] at hN'; cases hN'
        exact ⟨B1, hB1, rfl, rfl, rfl⟩
      · rw [upd_ne _ _ en] at hN'
        exact ⟨N', hN', rfl, rfl, rfl⟩
    refine ⟨A', ⟨k1, ?_, g1.calm.trans hcalm, ?_, k4.trans g1.frame.lost, ?_, ?_, ?_⟩, ?_⟩
    · have : (fun n => (w'.body n).map fun B => ((), B.disabled)) = fun n => (s1.w.body n).map fun B => ((), B.disabled) := by
        funext n
        rw [k6]
        by_cases en : n = b
        · subst en; rw [upd_same, hB1]; rfl
        · rw [upd_ne _ _ en]
      show Rep _ s1.t _
      rw [this]
      exact g1.placed
    · exact (g1.frame.rounds _).trans k2
    · intro c' hc'
      rw [k5, upd_ne _ _ hc']
      exact g1.frame.col c'
    · intro n
      rw [k6]
      have hf := g1.frame.body n
      by_cases en : n = b
      · subst en
        rw [upd_same, hB]
        simp only [Option.map_some, if_true]
        rw [(Body.core_eq eB).2.2.1, (Body.core_eq eB).2.2.2.2]
      · rw [upd_ne _ _ en]
        simp only [if_neg en]
        cases h1 : s.w.body n with
        | none => rw [h1] at hf; cases h2 : s1.w.body n with
          | none => rfl
          | some N' => rw [h2] at hf; cases hf
        | some N =>
          obtain ⟨N', h2, h3⟩ := g1.frame.body_fwd h1
          rw [h2]
          simp only [Option.map_some]
          rw [(Body.core_eq h3).2.2.1, (Body.core_eq h3).2.2.2.2]
    · obtain ⟨ws, w1, w2⟩ := g1.wakes
      refine ⟨ws, w1, ?_⟩
      unfold World.removeCollider
      rw [w2]
      exact e
    · intro c' hc' hor n ht
      obtain ⟨x', hx', hb'⟩ := (h.s.cols b B hB).2 c' hc'
      exact hcalm n ((g2 c' hc' hor).touch h hx' hb' g1.frame ht)

theorem Touch.keep {b c c' n : Nat} {x : Col} (h : WInv cfg s.w A) (hr : Removed cfg s A b c s' A') (hx : s.w.col c' = some x) (hb : x.body = b) (hy : ∃ y, s.w.col c = some y ∧ y.body = b)
    (hc : c' ≠ c) (ht : Touch A s.w c' n) : Touch A' s'.w c' n := by
  obtain ⟨id, k, p, x1, x2, h1, h2, h3, h4, h5⟩ := ht
  obtain ⟨z1, z2, ho⟩ := h.s.pair id k p h1
  have e1 := ho.c1; have e2 := ho.c2
  rw [h3] at e1; rw [h4] at e2
  cases e1; cases e2
  obtain ⟨y, hy, hyb⟩ := hy
  have hn1 : p.c1 ≠ c := by
    intro e
    rcases h5 with ⟨e', _⟩ | ⟨e', _⟩
    · exact hc (e'.symm.trans e)
    · rw [e', hx] at h4; cases h4
      rw [e, hy] at h3; cases h3
      exact ho.ne (hyb.trans hb.symm)
  have hn2 : p.c2 ≠ c := by
    intro e
    rcases h5 with ⟨e', _⟩ | ⟨e', _⟩
    · rw [e', hx] at h3; cases h3
      rw [e, hy] at h4; cases h4
      exact ho.ne (hb.trans hyb.symm)
    · exact hc (e'.symm.trans e)
  have hop : Open A' s'.w.lost p.c1 p.c2 := (hr.rounds p.c1 p.c2 hn1 hn2).2 (Or.inl ⟨id, k, p, h1, h2, Or.inl ⟨rfl, rfl⟩⟩)
  rw [hr.lost] at hop
  rcases hop with ⟨id', k', p', a1, a2, a3⟩ | ⟨q, q1, q2⟩
  · obtain ⟨y1, f1, f2⟩ := map_fwd (hr.col _ hn1) h3
    obtain ⟨y2, f3, f4⟩ := map_fwd (hr.col _ hn2) h4
    have b1 := (Col.core_eq f2).1
    have b2 := (Col.core_eq f4).1
    rcases a3 with ⟨u1, u2⟩ | ⟨u1, u2⟩
    · refine ⟨id', k', p', y1, y2, a1, a2, by rw [u1]; exact f1, by rw [u2]; exact f3, ?_⟩
      rcases h5 with ⟨e, en⟩ | ⟨e, en⟩
      · exact Or.inl ⟨u1.trans e, b2.trans en⟩
      · exact Or.inr ⟨u2.trans e, b1.trans en⟩
    · refine ⟨id', k', p', y2, y1, a1, a2, by rw [u1]; exact f3, by rw [u2]; exact f1, ?_⟩
      rcases h5 with ⟨e, en⟩ | ⟨e, en⟩
      · exact Or.inr ⟨u2.trans e, b2.trans en⟩
      · exact Or.inl ⟨u1.trans e, b1.trans en⟩
  · exact absurd q2.symm (h.s.once.apart q q1 id k p h1 h2)

/-- Removing all colliders wakes all neighbours: every collider is the first one when its turn comes. -/
theorem removeAll_ok {m b : Nat} {B : Body} (cs : List Nat) (h : WInv cfg s.w A) (hA : ∀ b, ¬ cfg.exA b) (hp : s.Placed) (hB : s.w.body b = some B) (hcs : B.cols = cs)
    (hm : ∀ e E, s.w.body e = some E → E.cols.length < m) (hl : cfg.lost → ∀ q ∈ s.w.lost, q.c1 ∉ B.cols ∧ q.c2 ∉ B.cols) :
    Ok cfg.strict (fun s' => (∃ A', WInv cfg s'.w A') ∧ s'.Placed ∧ Calm s.w s'.w ∧ (∀ c ∈ cs, ∀ n, Touch A s.w c n → s'.w.Woken n) ∧
      ∃ cws, cws.map Prod.fst = cs ∧ (∀ cw ∈ cws, ∀ n ∈ cw.2, ∃ N, s.w.body n = some N) ∧ s.w.removeAllColliders b cws = some s'.w) (s.removeAll m b cs) := by
  induction cs generalizing s A B with
  | nil => exact ⟨⟨A, h⟩, hp, Calm.refl _, by simp, [], rfl, by simp, rfl⟩
  | cons c cs ih =>
    unfold removeAll
    rw [List.foldlM_cons]
    obtain ⟨x, hx, hxb⟩ := (h.s.cols b B hB).2 c (by rw [hcs]; simp)
    have hnd := (h.s.cols b B hB).1
    rw [hcs, List.nodup_cons] at hnd
    refine Ok.bind (removeCollider_ok (m := m) h hA hp hB hx hxb hm ?_) ?_
    · intro hl' q hq
      have := hl hl' q hq
      rw [hcs] at this
      exact ⟨fun e => this.1 (by rw [e]; simp), fun e => this.2 (by rw [e]; simp)⟩
    · rintro s1 _ ⟨A1, g1, g2⟩
      have hb1 := g1.body b
      rw [hB] at hb1
      simp only [Option.map_some, if_true] at hb1
      obtain ⟨B1, hB1, e1⟩ : ∃ B1, s1.w.body b = some B1 ∧ (B1.cols, B1.joints) = (B.cols.erase c, B.joints) := by
        cases h1 : s1.w.body b with
        | none => rw [h1] at hb1; cases hb1
        | some B1 => rw [h1] at hb1; exact ⟨B1, rfl, Option.some.inj hb1⟩
      have e1 : B1.cols = cs := by
        have := congrArg Prod.fst e1
        rw [hcs, List.erase_cons_head] at this
        exact this
      refine (ih (s := s1) (A := A1) (B := B1) g1.inv g1.placed hB1 e1 ?_ ?_).mono ?_
      · intro e E hE
        have := g1.body e
        rw [hE] at this
        cases h1 : s.w.body e with
        | none => rw [h1] at this; cases this
        | some E0 =>
          rw [h1] at this
          have h2 := congrArg Prod.fst (Option.some.inj this)
          have h3 := hm e E0 h1
          simp only at h2
          rw [h2]
          split
          · have := List.length_erase_le (l := E0.cols) (a := c); omega
          · exact h3
      · intro hl' q hq
        rw [g1.lost] at hq
        have := hl hl' q hq
        rw [hcs] at this
        rw [e1]
        exact ⟨fun e => this.1 (List.mem_cons_of_mem _ e), fun e => this.2 (List.mem_cons_of_mem _ e)⟩
      · rintro s2 ⟨k1, k2, k3, k4, cws, k5, k6, k7⟩
        refine ⟨k1, k2, g1.calm.trans k3, ?_, ?_⟩
        · intro c' hc' n ht
          rcases List.mem_cons.1 hc' with rfl | hc'
          · exact k3 n (g2 c' (by rw [hcs]; simp) (Or.inr (by rw [hcs]; rfl)) n ht)
          · obtain ⟨x', hx', hxb'⟩ := (h.s.cols b B hB).2 c' (by rw [hcs]; simp [hc'])
            exact k4 c' hc' n (ht.keep h g1 hx' hxb' ⟨x, hx, hxb⟩ (fun e => hnd.1 (e ▸ hc')))
        · obtain ⟨ws, w1, w2⟩ := g1.refine
          refine ⟨(c, ws) :: cws, by simp [k5], ?_, ?_⟩
          · intro cw hcw n hn
            rcases List.mem_cons.1 hcw with rfl | hcw
            · exact w1 n hn
            · obtain ⟨N, hN⟩ := k6 cw hcw n hn
              have := g1.body n
              rw [hN] at this
              cases h1 : s.w.body n with
              | none => rw [h1] at this; cases this
              | some N0 => exact ⟨N0, rfl⟩
          · unfold removeAllColliders at k7 ⊢
            rw [List.foldlM_cons, w2]
            exact k7

end PWorld

namespace World
variable {α : Type} [LinearOrder α] {w w' : World α}

/-- Types and activity of bodies are unchanged, and no body becomes disabled. -/
def Easier (w w' : World α) : Prop := ∀ n N', w'.body n = some N' → ∃ N, w.body n = some N ∧ N.type = N'.type ∧ N.active = N'.active ∧ (N.disabled = false → N'.disabled = false)

theorem Easier.calm (h : Easier w w') : Calm w w' := by
  intro n hn N' hN' ht ha
  obtain ⟨N, h1, h2, h3, h4⟩ := h n N' hN'
  exact h4 (hn N h1 (by rw [h2]; exact ht) (by rw [h3]; exact ha))

theorem Easier.of_eq (h : w'.body = w.body) : Easier w w' := by
  intro n N' hN'
  rw [h] at hN'
  exact ⟨N', hN', rfl, rfl, id⟩

theorem Easier.trans {w'' : World α} (h : Easier w w') (h2 : Easier w' w'') : Easier w w'' := by
  intro n N'' hN''
  obtain ⟨N', a1, a2, a3, a4⟩ := h2 n N'' hN''
  obtain ⟨N, b1, b2, b3, b4⟩ := h n N' a1
  exact ⟨N, b1, b2.trans a2, b3.trans a3, fun e => a4 (b4 e)⟩

theorem Easier.setBody {b : Nat} {B B' : Body} (hB : w.body b = some B) (h1 : B.type = B'.type) (h2 : B.active = B'.active) (h3 : B.disabled = false → B'.disabled = false) :
    Easier w (w.setBody b B') := by
  intro n N' hN'
  by_cases e : n = b
  · subst e
    have : some N' = some B' := hN'.symm.trans (upd_same _ _ _)
    cases this
    exact ⟨B, hB, h1, h2, h3⟩
  · exact ⟨N', (upd_ne _ _ e).symm.trans hN', rfl, rfl, id⟩

theorem askCheck_body {c : Nat} (h : w.askCheck c = some w') : w'.body = w.body := by
  unfold askCheck at h
  split at h
  · cases h
  · split at h
    · cases h; rfl
    · unfold addMoved at h
      split at h
      · cases h
      · cases h; rfl

theorem foldlM_body {β : Type} {f : World α → β → Option (World α)} (hf : ∀ w w' b, f w b = some w' → w'.body = w.body) (l : List β) :
    ∀ {w w' : World α}, l.foldlM f w = some w' → w'.body = w.body := by
  induction l with
  | nil => intro w w' h; cases h; rfl
  | cons a l ih =>
    intro w w' h
    rw [List.foldlM_cons, Option.bind_eq_bind, Option.bind_eq_some_iff] at h
    obtain ⟨w1, h1, h2⟩ := h
    exact (ih h2).trans (hf _ _ _ h1)

theorem setColsDisabled_body {cs : List Nat} {d : Bool} (h : w.setColsDisabled cs d = some w') : w'.body = w.body := by
  refine foldlM_body ?_ cs h
  intro w w' c hc
  rw [Option.map_eq_some_iff] at hc
  obtain ⟨x, _, rfl⟩ := hc
  rfl

theorem setSleeping_false_easier {b : Nat} (h : w.setSleeping b false = some w') : Easier w w' := by
  unfold setSleeping at h
  cases hB : w.body b with
  | none => rw [hB] at h; cases h
  | some B =>
    rw [hB] at h
    simp only [Bool.false_eq_true, if_false] at h
    split_ifs at h
    · cases h; exact .of_eq rfl
    · cases h; exact .of_eq rfl
    · cases h; exact .of_eq rfl
    · split at h
      · cases h
      · rename_i w1 hw1
        have hs := Easier.setBody (w := w) (B' := { B with sleeping := false }) hB rfl rfl id
        have h1 : Easier (w.setBody b { B with sleeping := false }) w1 := by
          have hb' : (w.setBody b { B with sleeping := false }).body b = some { B with sleeping := false } := upd_same _ _ _
          unfold setBodyDisabled at hw1
          rw [hb'] at hw1
          simp only at hw1
          split_ifs at hw1
          · cases hw1; exact .of_eq rfl
          · exact (Easier.setBody (B' := { B with sleeping := false, disabled := false }) hb' rfl rfl (fun _ => rfl)).trans (.of_eq (setColsDisabled_body hw1))
        have h2 : Easier w1 w' := by
          split at h
          · cases h
          · exact .of_eq ((foldlM_body (f := askCheck) (fun _ _ _ => askCheck_body) _ h).trans rfl)
        exact (hs.trans h1).trans h2

theorem destroyJoint_easier {j : Nat} (h : w.destroyJoint j = some w') : Easier w w' := by
  unfold destroyJoint at h
  split at h
  · cases h
  · rename_i J _
    simp only at h
    split at h
    · cases h
    · rename_i w1 h1
      split at h
      · cases h
      · rename_i w2 h2
        split at h
        · cases h
        · rename_i w3 h3
          split at h
          · cases h
          · rename_i w4 h4
            cases h
            have e0 : Easier w (if J.coll = true then w else w.setNoColl (bodyPair J.b1 J.b2) false) := by
              split <;> exact .of_eq rfl
            have hrem : ∀ {w w' : World α} {b : Nat}, w.removeJointFrom b j = some w' → Easier w w' := by
              intro w w' b hw
              unfold removeJointFrom at hw
              rw [Option.map_eq_some_iff] at hw
              obtain ⟨B, hB, rfl⟩ := hw
              exact Easier.setBody hB rfl rfl id
            exact (((e0.trans (setSleeping_false_easier h1)).trans (setSleeping_false_easier h2)).trans (hrem h3)).trans ((hrem h4).trans (.of_eq rfl))

theorem destroyJoints_easier {b : Nat} (k : Nat) : ∀ {w w' : World α}, w.destroyJoints b k = some w' → Easier w w' := by
  induction k with
  | zero =>
    intro w w' h
    unfold destroyJoints at h
    split at h
    · split_ifs at h
      cases h; exact .of_eq rfl
    · cases h
  | succ k ih =>
    intro w w' h
    unfold destroyJoints at h
    split at h
    · cases h
    · split at h
      · cases h; exact .of_eq rfl
      · split at h
        · cases h
        · rename_i w1 h1
          exact (destroyJoint_easier h1).trans (ih h)

end World

namespace PWorld
open World
variable {α : Type} [LinearOrder α] {s : PWorld α} {A : PMap} {cfg : Cfg}

/-- Destroying a body wakes all its neighbours, and is one of the behaviours of the model without positions. -/
theorem destroyBody_woken {m b : Nat} {B : Body} {w' : World α} (h : WInv cfg s.w A) (hA : ∀ b, ¬ cfg.exA b) (hp : s.Placed) (hB : s.w.body b = some B)
    (hm : ∀ e E, s.w.body e = some E → E.cols.length < m) (hl : cfg.lost → ∀ q ∈ s.w.lost, q.c1 ∉ B.cols ∧ q.c2 ∉ B.cols) (he : s.destroyBody m b = some w') :
    (∀ c ∈ B.cols, ∀ n, Touch A s.w c n → w'.Woken n) ∧
      ∃ wss, wss.length = B.cols.length ∧ (∀ ws ∈ wss, ∀ n ∈ ws, ∃ N, s.w.body n = some N) ∧ s.w.destroyBody b wss = some w' := by
  unfold destroyBody at he
  rw [hB] at he
  simp only at he
  split at he
  · cases he
  · rename_i s1 h1
    obtain ⟨_, _, _, k4, cws, k5, k6, k7⟩ := (removeAll_ok (m := m) B.cols h hA hp hB rfl hm hl).of_some h1
    split at he
    · cases he
    · rename_i w2 h2
      cases he
      constructor
      · intro c hc n ht N hN
        by_cases e : n = b
        · subst e
          have : some N = none := hN.symm.trans (upd_same _ _ _)
          cases this
        · have hN2 : w2.body n = some N := (upd_ne _ _ e).symm.trans hN
          exact (destroyJoints_easier _ h2).calm n (k4 c hc n ht) N hN2
      · refine ⟨cws.map Prod.snd, by rw [← k5]; simp, ?_, ?_⟩
        · intro ws hws n hn
          obtain ⟨cw, hcw, rfl⟩ := List.mem_map.1 hws
          exact k6 cw hcw n hn
        · unfold World.destroyBody
          rw [hB]
          have : B.cols.zip (cws.map Prod.snd) = cws := by
            rw [← k5]
            clear k5 k6 k7
            induction cws with
            | nil => rfl
            | cons a l ih => simp [ih]
          simp only [this, k7, h2]

end PWorld
end RP3D
