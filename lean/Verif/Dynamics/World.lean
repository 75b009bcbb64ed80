import Verif.Dynamics.Inv

/-! The invariants of bodies over histories of a world. -/

namespace RP3D
namespace Dyn
variable {K : Type} [Field K] [LinearOrder K]

/-- The part of `update` between the islands and the sleeping pass, for one body. -/
def move (a : DW.Args K) (b : Nat) (d : Dyn K) : Dyn K :=
  ((((d.updateInertia.integrateVel a.dt a.g).solveVel (a.vels b)).integratePos a.dt a.split).solvePos (a.poss b)).updateState a.len

@[simp] theorem solveVel_type (s) (d : Dyn K) : (d.solveVel s).type = d.type := by cases s <;> rfl
@[simp] theorem solveVel_disabled (s) (d : Dyn K) : (d.solveVel s).disabled = d.disabled := by cases s <;> rfl
@[simp] theorem solveVel_sleeping (s) (d : Dyn K) : (d.solveVel s).sleeping = d.sleeping := by cases s <;> rfl
@[simp] theorem solveVel_active (s) (d : Dyn K) : (d.solveVel s).active = d.active := by cases s <;> rfl
@[simp] theorem solveVel_allowed (s) (d : Dyn K) : (d.solveVel s).allowed = d.allowed := by cases s <;> rfl
@[simp] theorem solveVel_vel (s) (d : Dyn K) : (d.solveVel s).vel = d.vel := by cases s <;> rfl
@[simp] theorem solveVel_ang (s) (d : Dyn K) : (d.solveVel s).ang = d.ang := by cases s <;> rfl
@[simp] theorem solveVel_tr (s) (d : Dyn K) : (d.solveVel s).tr = d.tr := by cases s <;> rfl
@[simp] theorem solveVel_comLocal (s) (d : Dyn K) : (d.solveVel s).comLocal = d.comLocal := by cases s <;> rfl
@[simp] theorem solveVel_comWorld (s) (d : Dyn K) : (d.solveVel s).comWorld = d.comWorld := by cases s <;> rfl
@[simp] theorem solveVel_sleepTime (s) (d : Dyn K) : (d.solveVel s).sleepTime = d.sleepTime := by cases s <;> rfl
@[simp] theorem solveVel_invInertiaW (s) (d : Dyn K) : (d.solveVel s).invInertiaW = d.invInertiaW := by cases s <;> rfl
@[simp] theorem solveVel_mass (s) (d : Dyn K) : (d.solveVel s).mass = d.mass := by cases s <;> rfl
@[simp] theorem solveVel_invMass (s) (d : Dyn K) : (d.solveVel s).invMass = d.invMass := by cases s <;> rfl
@[simp] theorem solveVel_inertia (s) (d : Dyn K) : (d.solveVel s).inertia = d.inertia := by cases s <;> rfl
@[simp] theorem solveVel_invInertia (s) (d : Dyn K) : (d.solveVel s).invInertia = d.invInertia := by cases s <;> rfl
@[simp] theorem solveVel_linDamp (s) (d : Dyn K) : (d.solveVel s).linDamp = d.linDamp := by cases s <;> rfl
@[simp] theorem solveVel_angDamp (s) (d : Dyn K) : (d.solveVel s).angDamp = d.angDamp := by cases s <;> rfl

@[simp] theorem solvePos_type (s) (d : Dyn K) : (d.solvePos s).type = d.type := by cases s <;> rfl
@[simp] theorem solvePos_disabled (s) (d : Dyn K) : (d.solvePos s).disabled = d.disabled := by cases s <;> rfl
@[simp] theorem solvePos_sleeping (s) (d : Dyn K) : (d.solvePos s).sleeping = d.sleeping := by cases s <;> rfl
@[simp] theorem solvePos_active (s) (d : Dyn K) : (d.solvePos s).active = d.active := by cases s <;> rfl
@[simp] theorem solvePos_allowed (s) (d : Dyn K) : (d.solvePos s).allowed = d.allowed := by cases s <;> rfl
@[simp] theorem solvePos_vel (s) (d : Dyn K) : (d.solvePos s).vel = d.vel := by cases s <;> rfl
@[simp] theorem solvePos_ang (s) (d : Dyn K) : (d.solvePos s).ang = d.ang := by cases s <;> rfl
@[simp] theorem solvePos_tr (s) (d : Dyn K) : (d.solvePos s).tr = d.tr := by cases s <;> rfl
@[simp] theorem solvePos_cVel (s) (d : Dyn K) : (d.solvePos s).cVel = d.cVel := by cases s <;> rfl
@[simp] theorem solvePos_cAng (s) (d : Dyn K) : (d.solvePos s).cAng = d.cAng := by cases s <;> rfl
@[simp] theorem solvePos_comLocal (s) (d : Dyn K) : (d.solvePos s).comLocal = d.comLocal := by cases s <;> rfl
@[simp] theorem solvePos_comWorld (s) (d : Dyn K) : (d.solvePos s).comWorld = d.comWorld := by cases s <;> rfl
@[simp] theorem solvePos_sleepTime (s) (d : Dyn K) : (d.solvePos s).sleepTime = d.sleepTime := by cases s <;> rfl
@[simp] theorem solvePos_invInertiaW (s) (d : Dyn K) : (d.solvePos s).invInertiaW = d.invInertiaW := by cases s <;> rfl
@[simp] theorem solvePos_mass (s) (d : Dyn K) : (d.solvePos s).mass = d.mass := by cases s <;> rfl
@[simp] theorem solvePos_invMass (s) (d : Dyn K) : (d.solvePos s).invMass = d.invMass := by cases s <;> rfl
@[simp] theorem solvePos_inertia (s) (d : Dyn K) : (d.solvePos s).inertia = d.inertia := by cases s <;> rfl
@[simp] theorem solvePos_invInertia (s) (d : Dyn K) : (d.solvePos s).invInertia = d.invInertia := by cases s <;> rfl
@[simp] theorem solvePos_linDamp (s) (d : Dyn K) : (d.solvePos s).linDamp = d.linDamp := by cases s <;> rfl
@[simp] theorem solvePos_angDamp (s) (d : Dyn K) : (d.solvePos s).angDamp = d.angDamp := by cases s <;> rfl

/-- What the movement of a body never writes. -/
structure SameSet (d e : Dyn K) : Prop where
  type : e.type = d.type
  active : e.active = d.active
  allowed : e.allowed = d.allowed
  sleeping : e.sleeping = d.sleeping
  disabled : e.disabled = d.disabled
  sleepTime : e.sleepTime = d.sleepTime
  mass : e.mass = d.mass
  invMass : e.invMass = d.invMass
  inertia : e.inertia = d.inertia
  invInertia : e.invInertia = d.invInertia
  linDamp : e.linDamp = d.linDamp
  angDamp : e.angDamp = d.angDamp
  comLocal : e.comLocal = d.comLocal

theorem SameSet.trans {d e f : Dyn K} (h : SameSet d e) (g : SameSet e f) : SameSet d f :=
  ⟨g.1.trans h.1, g.2.trans h.2, g.3.trans h.3, g.4.trans h.4, g.5.trans h.5, g.6.trans h.6, g.7.trans h.7, g.8.trans h.8,
    g.9.trans h.9, g.10.trans h.10, g.11.trans h.11, g.12.trans h.12, g.13.trans h.13⟩

theorem updateInertia_same (d : Dyn K) : SameSet d d.updateInertia := by
  unfold updateInertia; split <;> constructor <;> rfl

theorem integrateGravity_same (dt : K) (g) (d : Dyn K) : SameSet d (integrateGravity dt g d) := by
  unfold integrateGravity; split
  · constructor <;> rfl
  · split <;> constructor <;> rfl

theorem integrateVel_same (dt : K) (g) (d : Dyn K) : SameSet d (integrateVel dt g d) := by
  unfold integrateVel; split
  · constructor <;> rfl
  · refine SameSet.trans (e := integrateForce dt d) (by constructor <;> rfl) ?_
    exact (integrateGravity_same dt g _).trans (by constructor <;> rfl)

theorem integrateGravity_keep (dt : K) (g) (d : Dyn K) : (integrateGravity dt g d).vel = d.vel ∧ (integrateGravity dt g d).ang = d.ang ∧
    (integrateGravity dt g d).tr = d.tr ∧ (integrateGravity dt g d).comWorld = d.comWorld ∧
    (integrateGravity dt g d).invInertiaW = d.invInertiaW ∧ (integrateGravity dt g d).cAng = d.cAng ∧
    (integrateGravity dt g d).sVel = d.sVel ∧ (integrateGravity dt g d).sAng = d.sAng := by
  unfold integrateGravity; split
  · simp
  · split <;> simp

theorem integrateVel_keep (dt : K) (g) (d : Dyn K) : (integrateVel dt g d).vel = d.vel ∧ (integrateVel dt g d).ang = d.ang ∧
    (integrateVel dt g d).tr = d.tr ∧ (integrateVel dt g d).comWorld = d.comWorld ∧
    (integrateVel dt g d).invInertiaW = d.invInertiaW := by
  unfold integrateVel; split
  · simp
  · obtain ⟨h1, h2, h3, h4, h5, -⟩ := integrateGravity_keep dt g (integrateForce dt d)
    exact ⟨h1, h2, h3, h4, h5⟩

theorem solveVel_same (s) (d : Dyn K) : SameSet d (d.solveVel s) := by cases s <;> constructor <;> rfl
theorem solvePos_same (s) (d : Dyn K) : SameSet d (d.solvePos s) := by cases s <;> constructor <;> rfl
theorem integratePos_same (dt sp : K) (d : Dyn K) : SameSet d (d.integratePos dt sp) := by
  unfold integratePos; split <;> constructor <;> rfl
theorem updateState_same (l) (d : Dyn K) : SameSet d (d.updateState l) := by
  unfold updateState; split <;> constructor <;> rfl

theorem move_same (a : DW.Args K) (b : Nat) (d : Dyn K) : SameSet d (d.move a b) :=
  (updateInertia_same d).trans <| (integrateVel_same _ _ _).trans <| (solveVel_same _ _).trans <| (integratePos_same _ _ _).trans <|
    (solvePos_same _ _).trans (updateState_same _ _)

/-- A disabled body is not moved and keeps its velocity. -/
theorem move_disabled (a : DW.Args K) (b : Nat) (d : Dyn K) (h : d.disabled = true) :
    (d.move a b).vel = d.vel ∧ (d.move a b).ang = d.ang ∧ (d.move a b).tr = d.tr ∧ (d.move a b).comWorld = d.comWorld ∧
      (d.move a b).invInertiaW = d.invInertiaW := by
  have e1 : d.updateInertia = d := by unfold updateInertia; rw [if_pos h]
  have e2 : d.integrateVel a.dt a.g = d := by unfold integrateVel; rw [if_pos h]
  unfold move
  rw [e1, e2]
  have h2 : (d.solveVel (a.vels b)).disabled = true := by rw [solveVel_disabled]; exact h
  have e3 : (d.solveVel (a.vels b)).integratePos a.dt a.split = d.solveVel (a.vels b) := by unfold integratePos; rw [if_pos h2]
  rw [e3]
  have e4 : ((d.solveVel (a.vels b)).solvePos (a.poss b)).updateState a.len = (d.solveVel (a.vels b)).solvePos (a.poss b) := by
    unfold updateState; rw [if_pos (by simpa using h)]
  rw [e4]
  simp

theorem move_invInertiaW (a : DW.Args K) (b : Nat) (d : Dyn K) : (d.move a b).invInertiaW = d.updateInertia.invInertiaW := by
  have h1 : ∀ (dt sp : K) (d : Dyn K), (d.integratePos dt sp).invInertiaW = d.invInertiaW := fun dt sp d => by
    unfold integratePos; split <;> rfl
  have h2 : ∀ l (d : Dyn K), (d.updateState l).invInertiaW = d.invInertiaW := fun l d => by
    unfold updateState; split <;> rfl
  unfold move
  rw [h2, solvePos_invInertiaW, h1, solveVel_invInertiaW, (integrateVel_keep _ _ _).2.2.2.2]

theorem Flags.move {d : Dyn K} (h : Flags d) (a : DW.Args K) (b : Nat) : Flags (d.move a b) := by
  have s := move_same a b d
  refine h.congr s.type s.disabled s.sleeping fun hs => ?_
  have := move_disabled a b d (h.st hs).1
  exact ⟨this.1, this.2.1⟩

theorem MassOk.move {d : Dyn K} (h : MassOk d) (a : DW.Args K) (b : Nat) : MassOk (d.move a b) := by
  have s := move_same a b d
  refine h.congr s.type s.invMass s.mass s.invInertia s.inertia (fun ht => ?_) s.linDamp s.angDamp
  rw [move_invInertiaW]
  unfold updateInertia
  split
  · rfl
  · show worldInertia _ d.invInertia = _
    rw [h.i, if_neg ht, worldInertia_zero, h.w ht]

theorem ComOk.move {d : Dyn K} (h : ComOk d) (a : DW.Args K) (b : Nat) : ComOk (d.move a b) := by
  by_cases hd : d.disabled = true
  · obtain ⟨_, _, ht, hc, _⟩ := move_disabled a b d hd
    unfold ComOk
    rw [hc, ht, (move_same a b d).comLocal]; exact h
  · have s : SameSet d ((((d.updateInertia.integrateVel a.dt a.g).solveVel (a.vels b)).integratePos a.dt a.split).solvePos (a.poss b)) :=
      (updateInertia_same d).trans <| (integrateVel_same _ _ _).trans <| (solveVel_same _ _).trans <| (integratePos_same _ _ _).trans <|
        (solvePos_same _ _)
    unfold ComOk Dyn.move
    generalize ((((d.updateInertia.integrateVel a.dt a.g).solveVel (a.vels b)).integratePos a.dt a.split).solvePos (a.poss b)) = e at s
    unfold updateState
    rw [if_neg (by rw [s.disabled]; exact hd)]
    show e.cPos = Trans.act ⟨e.cPos - _, _⟩ e.comLocal
    unfold Trans.act
    ext <;> simp

end Dyn

namespace DW
variable {K : Type} [Field K] [LinearOrder K]

theorem moved_body (a : Args K) (w : DW K) (b : Nat) :
    (moved a w).body b = ((wakeIslands a w).body b).map (fun d => d.move a b) := by
  simp [moved, prepared, mapAll, Dyn.move, Option.map_map, Function.comp_def]

@[simp] theorem modify_same (w : DW K) (b : Nat) (f) : (w.modify b f).body b = (w.body b).map f := by simp [modify, upd_same]
theorem modify_ne (w : DW K) {b c : Nat} (f) (h : c ≠ b) : (w.modify b f).body c = w.body c := by
  unfold modify; exact upd_ne _ _ h

/-- A property of bodies that the timer and `setIsSleeping` keep is kept by the sleeping pass. -/
theorem sleep_induct (P : Nat → Dyn K → Prop) (ht : ∀ b d t, d.type ≠ .static → P b d → P b { d with sleepTime := t })
    (hs : ∀ b d, P b d → P b (d.setIsSleeping true)) (add) (big dt : K) (is : List (List Nat)) (w : DW K)
    (h : ∀ b d, w.body b = some d → P b d) : ∀ b d, (updateSleeping add big dt w is).body b = some d → P b d := by
  have mod : ∀ (w : DW K) (b : Nat) (f : Dyn K → Dyn K), (∀ b d, w.body b = some d → P b d) → (∀ d, w.body b = some d → P b d → P b (f d)) →
      ∀ c d, (w.modify b f).body c = some d → P c d := fun w b f hw hf c d hc => by
    by_cases e : c = b
    · subst e
      rw [modify_same] at hc
      cases hb : w.body c with
      | none => rw [hb] at hc; simp at hc
      | some d' =>
        rw [hb] at hc
        simp at hc
        rw [← hc]
        exact hf d' hb (hw c d' hb)
    · rw [modify_ne _ _ e] at hc; exact hw c d hc
  have tk : ∀ (i : List Nat) (s : DW K × K), (∀ b d, s.1.body b = some d → P b d) →
      ∀ b d, (i.foldl (tick add dt) s).1.body b = some d → P b d := by
    intro i
    induction i with
    | nil => exact fun s hs => hs
    | cons x i ih =>
      intro s hs
      refine ih _ ?_
      unfold tick
      split
      · exact hs
      · rename_i d hd
        split
        · exact hs
        · rename_i hns
          split
          · exact mod _ _ _ hs fun d' h' p => ht _ d' _ (by rw [hd] at h'; cases h'; exact hns) p
          · exact mod _ _ _ hs fun d' h' p => ht _ d' _ (by rw [hd] at h'; cases h'; exact hns) p
  have sl : ∀ (i : List Nat) (w : DW K), (∀ b d, w.body b = some d → P b d) →
      ∀ b d, (i.foldl (fun w b => w.modify b fun d => d.setIsSleeping true) w).body b = some d → P b d := by
    intro i
    induction i with
    | nil => exact fun s hs => hs
    | cons x i ih =>
      intro w hw
      exact ih _ (mod _ _ _ hw fun d _ p => hs _ d p)
  induction is generalizing w with
  | nil => exact h
  | cons i is ih =>
    refine ih _ ?_
    unfold sleepIsland
    simp only
    split
    · exact sl _ _ (tk _ _ h)
    · exact tk _ _ h

/-- The sleeping pass neither adds nor removes bodies. -/
theorem sleep_none (add) (big dt : K) (is : List (List Nat)) (w : DW K) (b : Nat) :
    (updateSleeping add big dt w is).body b = none ↔ w.body b = none := by
  have mod : ∀ (w : DW K) (c : Nat) f, (w.modify c f).body b = none ↔ w.body b = none := fun w c f => by
    by_cases e : b = c
    · subst e; rw [modify_same]; simp
    · rw [modify_ne _ _ e]
  have tk : ∀ (i : List Nat) (s : DW K × K), (i.foldl (tick add dt) s).1.body b = none ↔ s.1.body b = none := by
    intro i
    induction i with
    | nil => exact fun s => Iff.rfl
    | cons x i ih =>
      intro s
      refine (ih _).trans ?_
      unfold tick
      split
      · exact Iff.rfl
      · split
        · exact Iff.rfl
        · split <;> exact mod _ _ _
  have sl : ∀ (i : List Nat) (w : DW K),
      (i.foldl (fun w b => w.modify b fun d => d.setIsSleeping true) w).body b = none ↔ w.body b = none := by
    intro i
    induction i with
    | nil => exact fun s => Iff.rfl
    | cons x i ih => exact fun w => (ih _).trans (mod _ _ _)
  induction is generalizing w with
  | nil => exact Iff.rfl
  | cons i is ih =>
    refine (ih _).trans ?_
    unfold sleepIsland
    simp only
    split
    · exact (sl _ _).trans (tk _ _)
    · exact tk _ _

/-- The empty restriction on calls. -/
def Any (_ : DW K) (_ : Op K) : Prop := True

/-- A property of bodies that every operation allowed by `ok` keeps. -/
structure Kept (ok : DW K → Op K → Prop) (P : Dyn K → Prop) : Prop where
  create : ∀ t, P (Dyn.create t)
  exec : ∀ w b d o, w.body b = some d → ok w (.call b o) → P d → P (d.exec o)
  sleep : ∀ d b, P d → P (d.setIsSleeping b)
  move : ∀ w a b d e, w.body b = some d → ok w (.update a) → e = d ∨ e = d.setIsSleeping false → P e → P (e.move a b)
  time : ∀ d t, d.type ≠ .static → P d → P { d with sleepTime := t }
  reset : ∀ d, P d → P d.resetForces

theorem Kept.update {ok} {P : Dyn K → Prop} (k : Kept ok P) (w : DW K) (a : Args K) (ho : ok w (.update a))
    (h : ∀ b d, w.body b = some d → P d) : ∀ b d, (w.update a).body b = some d → P d := by
  have h1 : ∀ b d, (moved a w).body b = some d → P d := fun b d hb => by
    rw [moved_body, wakeIslands, mapAll] at hb
    cases e : w.body b with
    | none => simp [e] at hb
    | some d' =>
      simp only [e, Option.map_some, Option.some.injEq] at hb
      rw [← hb]
      split
      · exact k.move w a b d' _ e ho (Or.inr rfl) (k.sleep _ false (h b d' e))
      · exact k.move w a b d' _ e ho (Or.inl rfl) (h b d' e)
  intro b d hb
  unfold DW.update at hb
  simp only [mapAll, Option.map_eq_some_iff] at hb
  obtain ⟨d', hd', rfl⟩ := hb
  refine k.reset _ ?_
  split at hd'
  · exact sleep_induct (fun _ => P) (fun _ => k.time) (fun _ d p => k.sleep d true p) _ _ _ _ _ h1 b d' hd'
  · exact h1 b d' hd'

theorem Kept.op {ok} {P : Dyn K → Prop} (k : Kept ok P) (w : DW K) (o : Op K) (ho : ok w o) (h : ∀ b d, w.body b = some d → P d) :
    ∀ b d, (w.exec o).body b = some d → P d := by
  cases o with
  | create c t =>
    intro b d hb
    simp only [DW.exec] at hb
    by_cases e : b = c
    · subst e; rw [upd_same] at hb; cases hb; exact k.create t
    · rw [upd_ne _ _ e] at hb; exact h b d hb
  | destroy c =>
    intro b d hb
    simp only [DW.exec] at hb
    by_cases e : b = c
    · subst e; rw [upd_same] at hb; cases hb
    · rw [upd_ne _ _ e] at hb; exact h b d hb
  | call c o =>
    intro b d hb
    simp only [DW.exec] at hb
    by_cases e : b = c
    · subst e
      rw [modify_same, Option.map_eq_some_iff] at hb
      obtain ⟨d', hd', rfl⟩ := hb
      exact k.exec w _ d' o hd' ho (h _ _ hd')
    · rw [modify_ne _ _ e] at hb; exact h b d hb
  | enableSleeping c =>
    intro b d hb
    simp only [DW.exec, enableSleeping] at hb
    split at hb
    · simp only [mapAll, Option.map_eq_some_iff] at hb
      obtain ⟨d', hd', rfl⟩ := hb
      exact k.sleep d' false (h _ _ hd')
    · exact h b d hb
  | limits l a t => exact h
  | update a => exact k.update w a ho h

/-- An empty world. -/
def empty (on : Bool) (l a t : K) : DW K := ⟨fun _ => none, on, l, a, t⟩

/-- Worlds reached from an empty world by calls that `ok` allows. -/
inductive Reach (ok : DW K → Op K → Prop) : DW K → Prop
  | empty (on l a t) : Reach ok (DW.empty on l a t)
  | step {w} (o : Op K) : ok w o → Reach ok w → Reach ok (w.exec o)

theorem Kept.reach {ok} {P : Dyn K → Prop} (k : Kept ok P) {w : DW K} (h : Reach ok w) : ∀ b d, w.body b = some d → P d := by
  induction h with
  | empty => intro b d h; simp [DW.empty] at h
  | step o ho _ ih => exact k.op _ o ho ih

theorem Reach.mono {ok ok' : DW K → Op K → Prop} (h : ∀ w o, ok w o → ok' w o) {w : DW K} (r : Reach ok w) : Reach ok' w := by
  induction r with
  | empty on l a t => exact .empty on l a t
  | step o ho _ ih => exact .step o (h _ _ ho) ih

theorem kept_flags (ok) : Kept (K := K) ok Dyn.Flags where
  create t := ⟨fun h => (by cases h), fun _ h => (by cases h)⟩
  exec w b d o _ _ h := h.exec o
  sleep d b h := h.sleep b
  move w a b d e _ _ _ h := h.move a b
  time d t _ h := h.congr rfl rfl rfl fun _ => ⟨rfl, rfl⟩
  reset d h := h.congr rfl rfl rfl fun _ => ⟨rfl, rfl⟩

theorem kept_mass [IsStrictOrderedRing K] (ok) : Kept (K := K) ok Dyn.MassOk where
  create t := by
    refine ⟨?_, ?_, fun h => absurd rfl h, le_refl _, le_refl _⟩
    · simp [Dyn.create, Dyn.invOf]
    · simp [Dyn.create, Dyn.invOfTensor, Dyn.invOfI]
  exec w b d o _ _ h := h.exec o
  sleep d b h := h.sleep b
  move w a b d e _ _ _ h := h.move a b
  time d t _ h := h.congr rfl rfl rfl rfl rfl (fun _ => rfl) rfl rfl
  reset d h := h.congr rfl rfl rfl rfl rfl (fun _ => rfl) rfl rfl

theorem kept_com (ok) : Kept (K := K) ok Dyn.ComOk where
  create t := by
    show t.pos = t.act 0
    unfold Trans.act Quat.rot
    ext <;> simp [V3.cross]
  exec w b d o _ _ h := h.exec o
  sleep d b h := h.sleep b
  move w a b d e _ _ _ h := h.move a b
  time d t _ h := h
  reset d h := h

/-- A static body is left as it is by a step, except for what the solvers write and the forces. -/
theorem update_static (w : DW K) (a : Args K) {b : Nat} {d : Dyn K} (hb : w.body b = some d) (hs : d.type = .static) :
    (w.update a).body b = some (d.move a b).resetForces := by
  have e1 : d.setIsSleeping false = d := by
    unfold Dyn.setIsSleeping
    split
    · rfl
    · rfl
  have e2 : (moved a w).body b = some (d.move a b) := by
    rw [moved_body, wakeIslands, mapAll]
    simp [hb, e1]
  have e3 : ∀ (w' : DW K) is, w'.body b = some (d.move a b) → (updateSleeping a.add a.big a.dt w' is).body b = some (d.move a b) := by
    intro w' is h'
    have hm : (d.move a b).type = .static := (Dyn.move_same a b d).type.trans hs
    have := sleep_induct (fun c e => c = b → e = d.move a b)
      (fun c e t hne h hc => absurd (by rw [h hc]; exact hm) hne)
      (fun c e h hc => by
        rw [h hc]
        unfold Dyn.setIsSleeping
        split
        · rfl
        · rfl)
      a.add a.big a.dt is w' (fun c e hc hcb => by subst hcb; rw [h'] at hc; cases hc; rfl)
    cases hx : (updateSleeping a.add a.big a.dt w' is).body b with
    | some e => rw [this b e hx rfl]
    | none =>
      exfalso
      have k := sleep_none a.add a.big a.dt is w' b
      rw [k] at hx
      rw [hx] at h'
      cases h'
  unfold DW.update
  simp only [mapAll]
  split
  · rw [e3 _ _ e2]; rfl
  · rw [e2]; rfl

end DW
end RP3D
