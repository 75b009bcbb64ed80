import Verif.World.Common
import Mathlib.Data.List.Basic
import Mathlib.Data.List.Nodup
import Mathlib.Tactic.ApplyFun
import Mathlib.Tactic.Tauto

/-! C126: a `PhysicsCommon` destroys what it has created exactly once, and nothing that is alive refers to something destroyed. -/

namespace RP3D
namespace Common

/-- What of an object does not change while it is alive. -/
def strip (o : Obj) : Kind × Nat × Option Nat := (o.kind, o.owner, o.mesh)

/-- The consistency of the state; the sets are given apart, because they are stale while `release` runs. -/
structure Inv (s : S) (sets : Nat → Kind → List Nat) : Prop where
  nodup : ∀ c k, (sets c k).Nodup
  mem : ∀ c k h, h ∈ sets c k ↔ ∃ o, s.obj h = some o ∧ o.kind = k ∧ o.owner = c
  fresh : ∀ h o, s.obj h = some o → h < s.next
  deadNodup : s.dead.Nodup
  dead : ∀ h, h ∈ s.dead ↔ h < s.next ∧ s.obj h = none
  colWorld : ∀ c ∈ s.cols, ∃ o, s.obj c.world = some o ∧ o.kind = .world
  colShape : ∀ c ∈ s.cols, ∃ o, s.obj c.shape = some o ∧ o.kind.isShape
  colNodup : (s.cols.map Col.id).Nodup
  userNodup : ∀ h o, s.obj h = some o → o.colliders.Nodup
  users : ∀ h o, s.obj h = some o → ∀ i, i ∈ o.colliders ↔ ∃ c ∈ s.cols, c.shape = h ∧ c.id = i
  mesh : ∀ h o, s.obj h = some o → ∀ m, o.mesh = some m → ∃ p, s.obj m = some p ∧ o.kind.mesh = some p.kind
  logger : ∀ l, s.logger = some l → ∃ o, s.obj l = some o ∧ o.kind = .logger
  commons : ∀ h o, s.obj h = some o → o.owner ∈ s.commons

/-- What removing colliders leaves alone. -/
structure Keep (s s' : S) : Prop where
  next : s'.next = s.next
  commons : s'.commons = s.commons
  sets : s'.sets = s.sets
  logger : s'.logger = s.logger
  dead : s'.dead = s.dead
  obj : ∀ i, (s'.obj i).map strip = (s.obj i).map strip

theorem Keep.refl (s : S) : Keep s s := ⟨rfl, rfl, rfl, rfl, rfl, fun _ => rfl⟩

theorem Keep.trans {a b c : S} (h : Keep a b) (g : Keep b c) : Keep a c :=
  ⟨g.next.trans h.next, g.commons.trans h.commons, g.sets.trans h.sets, g.logger.trans h.logger, g.dead.trans h.dead,
    fun i => (g.obj i).trans (h.obj i)⟩

theorem Inv.log {s : S} {sets} (h : Inv s sets) : s.log = some s := by
  unfold S.log
  split
  · rfl
  · rename_i l hl
    obtain ⟨o, ho, _⟩ := h.logger l hl
    simp [ho]

theorem Inv.colInj {s : S} {sets} (h : Inv s sets) {c d : Col} (hc : c ∈ s.cols) (hd : d ∈ s.cols) (e : c.id = d.id) : c = d :=
  List.inj_on_of_nodup_map h.colNodup hc hd e

theorem Inv.cols_nodup {s : S} {sets} (h : Inv s sets) : s.cols.Nodup := List.Nodup.of_map _ h.colNodup

theorem removeCol_ok {s : S} {sets} (h : Inv s sets) {c : Col} (hc : c ∈ s.cols) :
    ∃ s', s.removeCol c = some s' ∧ Inv s' sets ∧ Keep s s' ∧ s'.cols = s.cols.erase c := by
  obtain ⟨o, ho, hos⟩ := h.colShape c hc
  refine ⟨_, by simp [S.removeCol, h.log, ho]; rfl, ?_, ?_, rfl⟩
  · have get : ∀ {i p}, (if i = c.shape then some { o with colliders := o.colliders.erase c.id } else s.obj i) = some p →
        ∃ q, s.obj i = some q ∧ p.kind = q.kind ∧ p.owner = q.owner ∧ p.mesh = q.mesh ∧
          p.colliders = if i = c.shape then q.colliders.erase c.id else q.colliders := by
      intro i p hp
      by_cases e : i = c.shape
      · subst e
        rw [if_pos rfl] at hp
        cases hp
        exact ⟨o, ho, rfl, rfl, rfl, by simp⟩
      · rw [if_neg e] at hp
        exact ⟨p, hp, rfl, rfl, rfl, by simp [e]⟩
    have put : ∀ {i q}, s.obj i = some q →
        ∃ p, (if i = c.shape then some { o with colliders := o.colliders.erase c.id } else s.obj i) = some p ∧
          p.kind = q.kind ∧ p.owner = q.owner ∧ p.mesh = q.mesh := by
      intro i q hq
      by_cases e : i = c.shape
      · subst e
        rw [ho] at hq
        cases hq
        exact ⟨_, if_pos rfl, rfl, rfl, rfl⟩
      · exact ⟨q, by rw [if_neg e, hq], rfl, rfl, rfl⟩
    constructor
    · exact h.nodup
    · intro c' k i
      rw [h.mem]
      constructor
      · rintro ⟨q, hq, e1, e2⟩
        obtain ⟨p, hp, f1, f2, _⟩ := put hq
        exact ⟨p, hp, f1.trans e1, f2.trans e2⟩
      · rintro ⟨p, hp, e1, e2⟩
        obtain ⟨q, hq, f1, f2, _⟩ := get hp
        exact ⟨q, hq, f1 ▸ e1, f2 ▸ e2⟩
    · intro i p hp
      obtain ⟨q, hq, _⟩ := get hp
      exact h.fresh i q hq
    · exact h.deadNodup
    · intro i
      rw [h.dead]
      refine and_congr_right fun _ => ?_
      by_cases e : i = c.shape
      · subst e; simp [ho]
      · simp [e]
    · intro d hd
      obtain ⟨q, hq, e⟩ := h.colWorld d (List.mem_of_mem_erase hd)
      obtain ⟨p, hp, f, _⟩ := put hq
      exact ⟨p, hp, f.trans e⟩
    · intro d hd
      obtain ⟨q, hq, e⟩ := h.colShape d (List.mem_of_mem_erase hd)
      obtain ⟨p, hp, f, _⟩ := put hq
      exact ⟨p, hp, by rw [f]; exact e⟩
    · exact List.Nodup.sublist (List.Sublist.map _ List.erase_sublist) h.colNodup
    · intro i p hp
      obtain ⟨q, hq, _, _, _, e⟩ := get hp
      rw [e]
      split
      · exact (h.userNodup i q hq).erase _
      · exact h.userNodup i q hq
    · intro i p hp j
      obtain ⟨q, hq, _, _, _, e⟩ := get hp
      rw [e]
      have hu := h.users i q hq j
      by_cases f : i = c.shape
      · rw [if_pos f, (h.userNodup i q hq).mem_erase_iff, hu]
        constructor
        · rintro ⟨hj, d, hd, e1, e2⟩
          exact ⟨d, (h.cols_nodup.mem_erase_iff).2 ⟨fun g => hj (by rw [← e2, g]), hd⟩, e1, e2⟩
        · rintro ⟨d, hd, e1, e2⟩
          obtain ⟨g1, g2⟩ := (h.cols_nodup.mem_erase_iff).1 hd
          exact ⟨fun g => g1 (h.colInj g2 hc (e2.trans g)), d, g2, e1, e2⟩
      · rw [if_neg f, hu]
        constructor
        · rintro ⟨d, hd, e1, e2⟩
          exact ⟨d, (h.cols_nodup.mem_erase_iff).2 ⟨fun g => f (by rw [← e1, g]), hd⟩, e1, e2⟩
        · rintro ⟨d, hd, e1, e2⟩
          exact ⟨d, List.mem_of_mem_erase hd, e1, e2⟩
    · intro i p hp m hm
      obtain ⟨q, hq, f1, _, f3, _⟩ := get hp
      obtain ⟨r, hr, e⟩ := h.mesh i q hq m (f3 ▸ hm)
      obtain ⟨p', hp', f, _⟩ := put hr
      exact ⟨p', hp', by rw [f1, f, e]⟩
    · intro l hl
      obtain ⟨q, hq, e⟩ := h.logger l hl
      obtain ⟨p, hp, f, _⟩ := put hq
      exact ⟨p, hp, f.trans e⟩
    · intro i p hp
      obtain ⟨q, hq, _, f2, _⟩ := get hp
      rw [f2]
      exact h.commons i q hq
  · refine ⟨rfl, rfl, rfl, rfl, rfl, fun i => ?_⟩
    by_cases e : i = c.shape
    · subst e; simp [ho, strip]
    · simp [e]

theorem removeCols_ok {sets} : ∀ {l : List Col} {s : S}, Inv s sets → l.Nodup → (∀ c ∈ l, c ∈ s.cols) →
    ∃ s', s.removeCols l = some s' ∧ Inv s' sets ∧ Keep s s' ∧ ∀ c, c ∈ s'.cols ↔ c ∈ s.cols ∧ c ∉ l
  | [], s, h, _, _ => ⟨s, rfl, h, Keep.refl s, by simp⟩
  | c :: l, s, h, hn, hl => by
    obtain ⟨s1, e1, i1, k1, c1⟩ := removeCol_ok h (hl c (by simp))
    obtain ⟨hcl, hn⟩ := List.nodup_cons.1 hn
    obtain ⟨s2, e2, i2, k2, c2⟩ := removeCols_ok (s := s1) i1 hn (fun d hd => by
      rw [c1, h.cols_nodup.mem_erase_iff]
      exact ⟨fun g => hcl (g ▸ hd), hl d (by simp [hd])⟩)
    refine ⟨s2, by simp [S.removeCols, e1, e2], i2, k1.trans k2, fun d => ?_⟩
    rw [c2, c1, h.cols_nodup.mem_erase_iff]
    simp only [List.mem_cons, not_or]
    tauto

/-- The sets after an object is gone. -/
def eraseSet (sets : Nat → Kind → List Nat) (c : Nat) (k : Kind) (h : Nat) : Nat → Kind → List Nat :=
  fun c' k' => if c' = c ∧ k' = k then (sets c k).erase h else sets c' k'

/-- Nothing that is alive refers to the object. -/
structure Unused (s : S) (h : Nat) : Prop where
  cols : ∀ c ∈ s.cols, c.shape ≠ h ∧ c.world ≠ h
  mesh : ∀ i o, s.obj i = some o → o.mesh ≠ some h
  logger : s.logger ≠ some h

theorem kill_ok {s : S} {sets} (i : Inv s sets) {h : Nat} {o : Obj} (ho : s.obj h = some o) (hu : Unused s h) :
    Inv (s.kill h) (eraseSet sets o.owner o.kind h) := by
  have get : ∀ {j p}, (s.kill h).obj j = some p → j ≠ h ∧ s.obj j = some p := by
    intro j p hp
    by_cases e : j = h
    · simp [S.kill, e] at hp
    · simp [S.kill, e] at hp; exact ⟨e, hp⟩
  have put : ∀ {j p}, j ≠ h → s.obj j = some p → (s.kill h).obj j = some p := by
    intro j p e hp; simp [S.kill, e, hp]
  constructor
  · intro c k
    unfold eraseSet
    split
    · exact (i.nodup _ _).erase _
    · exact i.nodup c k
  · intro c k j
    unfold eraseSet
    split
    · rename_i e
      obtain ⟨rfl, rfl⟩ := e
      rw [(i.nodup _ _).mem_erase_iff, i.mem]
      constructor
      · rintro ⟨e, p, hp, e1, e2⟩; exact ⟨p, put e hp, e1, e2⟩
      · rintro ⟨p, hp, e1, e2⟩; exact ⟨(get hp).1, p, (get hp).2, e1, e2⟩
    · rename_i e
      rw [i.mem]
      constructor
      · rintro ⟨p, hp, e1, e2⟩
        refine ⟨p, put (fun g => e ?_) hp, e1, e2⟩
        rw [g, ho] at hp; cases hp; exact ⟨e2.symm, e1.symm⟩
      · rintro ⟨p, hp, e1, e2⟩; exact ⟨p, (get hp).2, e1, e2⟩
  · intro j p hp; exact i.fresh j p (get hp).2
  · have : h ∉ s.dead := fun g => by have := ((i.dead h).1 g).2; rw [ho] at this; cases this
    simp only [S.kill, List.nodup_append, i.deadNodup, List.nodup_cons, List.not_mem_nil, not_false_iff, List.nodup_nil, and_self,
      List.mem_singleton, true_and]
    rintro a ha b rfl rfl; exact this ha
  · intro j
    simp only [S.kill, List.mem_append, List.mem_singleton, i.dead]
    by_cases e : j = h
    · subst e; simp [i.fresh j o ho]
    · simp [e]
  · intro c hc
    obtain ⟨p, hp, e⟩ := i.colWorld c hc
    exact ⟨p, put (hu.cols c hc).2 hp, e⟩
  · intro c hc
    obtain ⟨p, hp, e⟩ := i.colShape c hc
    exact ⟨p, put (hu.cols c hc).1 hp, e⟩
  · exact i.colNodup
  · intro j p hp; exact i.userNodup j p (get hp).2
  · intro j p hp; exact i.users j p (get hp).2
  · intro j p hp m hm
    obtain ⟨q, hq, e⟩ := i.mesh j p (get hp).2 m hm
    exact ⟨q, put (fun g => hu.mesh j p (get hp).2 (g ▸ hm)) hq, e⟩
  · intro l hl
    obtain ⟨q, hq, e⟩ := i.logger l hl
    exact ⟨q, put (fun g => hu.logger (g ▸ hl)) hq, e⟩
  · intro j p hp; exact i.commons j p (get hp).2

/-- Nothing that is alive refers to the object, except for the colliders of a world. -/
structure CanDel (s : S) (h : Nat) : Prop where
  shape : ∀ c ∈ s.cols, c.shape ≠ h
  mesh : ∀ i o, s.obj i = some o → o.mesh ≠ some h
  logger : s.logger ≠ some h

theorem strip_some {s s' : S} (k : Keep s s') {i : Nat} {o : Obj} (h : s'.obj i = some o) :
    ∃ p, s.obj i = some p ∧ p.kind = o.kind ∧ p.owner = o.owner ∧ p.mesh = o.mesh := by
  have := k.obj i
  rw [h] at this
  cases e : s.obj i with
  | none => rw [e] at this; simp at this
  | some p =>
    rw [e] at this
    simp only [Option.map_some, Option.some.injEq, strip, Prod.mk.injEq] at this
    exact ⟨p, rfl, this.1.symm, this.2.1.symm, this.2.2.symm⟩

/-- What deleting one object leaves alone. -/
structure Gone (s s' : S) (h : Nat) : Prop where
  next : s'.next = s.next
  commons : s'.commons = s.commons
  sets : s'.sets = s.sets
  logger : s'.logger = s.logger
  dead : s'.dead = s.dead ++ [h]
  obj : ∀ i, (s'.obj i).map strip = if i = h then none else (s.obj i).map strip
  cols : ∀ c, c ∈ s'.cols ↔ c ∈ s.cols ∧ c.world ≠ h

theorem del_ok {s : S} {sets} (i : Inv s sets) {h : Nat} {o : Obj} (ho : s.obj h = some o) (hc : CanDel s h) :
    ∃ s', s.del h = some s' ∧ Inv s' (eraseSet sets o.owner o.kind h) ∧ Gone s s' h := by
  by_cases hw : o.kind = .world
  · obtain ⟨s1, e1, i1, k1, c1⟩ := removeCols_ok (l := s.cols.filter fun c => c.world = h) i (i.cols_nodup.filter _)
      (fun c hc => (List.mem_filter.1 hc).1)
    have e2 := i1.log
    have hcols : ∀ c, c ∈ s1.cols ↔ c ∈ s.cols ∧ c.world ≠ h := fun c => by
      rw [c1]; simp only [List.mem_filter, decide_eq_true_eq]; tauto
    obtain ⟨o1, ho1, f1, f2⟩ : ∃ o1, s1.obj h = some o1 ∧ o1.kind = o.kind ∧ o1.owner = o.owner := by
      have := k1.obj h
      rw [ho] at this
      cases e : s1.obj h with
      | none => rw [e] at this; simp at this
      | some p =>
        rw [e] at this
        simp only [Option.map_some, Option.some.injEq, strip, Prod.mk.injEq] at this
        exact ⟨p, rfl, this.1, this.2.1⟩
    have hu : Unused s1 h := ⟨fun c hc' => ⟨hc.shape c ((hcols c).1 hc').1, ((hcols c).1 hc').2⟩, fun j p hp hm => by
      obtain ⟨q, hq, _, _, e⟩ := strip_some k1 hp
      exact hc.mesh j q hq (e.trans hm), by rw [k1.logger]; exact hc.logger⟩
    refine ⟨s1.kill h, by simp [S.del, ho, hw, i.log, e1, e2], ?_, ⟨k1.next, k1.commons, k1.sets, k1.logger, ?_, fun j => ?_, hcols⟩⟩
    · rw [← f1, ← f2]; exact kill_ok i1 ho1 hu
    · simp [S.kill, k1.dead]
    · by_cases e : j = h
      · simp [S.kill, e]
      · simp [S.kill, e, k1.obj j]
  · have hcw : ∀ c ∈ s.cols, c.world ≠ h := fun c hc' e => by
      obtain ⟨p, hp, g⟩ := i.colWorld c hc'
      rw [e, ho] at hp; cases hp; exact hw g
    have hu : Unused s h := ⟨fun c hc' => ⟨hc.shape c hc', hcw c hc'⟩, hc.mesh, hc.logger⟩
    refine ⟨s.kill h, ?_, kill_ok i ho hu, ⟨rfl, rfl, rfl, rfl, rfl, fun j => ?_, fun c => ?_⟩⟩
    · unfold S.del
      simp [ho, hw, i.log]
    · by_cases e : j = h <;> simp [S.kill, e]
    · exact ⟨fun hc' => ⟨hc', hcw c hc'⟩, fun hc' => hc'.1⟩

/-! ### The loops of `release` -/

/-- One of the sets is empty. -/
def emptySet (sets : Nat → Kind → List Nat) (c : Nat) (k : Kind) : Nat → Kind → List Nat :=
  fun c' k' => if c' = c ∧ k' = k then [] else sets c' k'

/-- What deleting the objects of a list leaves alone. -/
structure AllGone (s s' : S) (l : List Nat) : Prop where
  next : s'.next = s.next
  commons : s'.commons = s.commons
  sets : s'.sets = s.sets
  logger : s'.logger = s.logger
  dead : s'.dead = s.dead ++ l
  obj : ∀ i, (s'.obj i).map strip = if i ∈ l then none else (s.obj i).map strip
  cols : ∀ c, c ∈ s'.cols ↔ c ∈ s.cols ∧ c.world ∉ l

theorem strip_back {s s' : S} {l : List Nat} (h : ∀ i, (s'.obj i).map strip = if i ∈ l then none else (s.obj i).map strip) {i : Nat} {o : Obj}
    (ho : s'.obj i = some o) : i ∉ l ∧ ∃ p, s.obj i = some p ∧ p.kind = o.kind ∧ p.owner = o.owner ∧ p.mesh = o.mesh := by
  have := h i
  rw [ho] at this
  by_cases e : i ∈ l
  · simp [e] at this
  · rw [if_neg e] at this
    cases e' : s.obj i with
    | none => rw [e'] at this; simp at this
    | some p =>
      rw [e'] at this
      simp only [Option.map_some, Option.some.injEq, strip, Prod.mk.injEq] at this
      exact ⟨e, p, rfl, this.1.symm, this.2.1.symm, this.2.2.symm⟩

theorem strip_there {s s' : S} {l : List Nat} (h : ∀ i, (s'.obj i).map strip = if i ∈ l then none else (s.obj i).map strip) {i : Nat} {o : Obj}
    (hi : i ∉ l) (ho : s.obj i = some o) : ∃ p, s'.obj i = some p ∧ p.kind = o.kind ∧ p.owner = o.owner ∧ p.mesh = o.mesh := by
  have := h i
  rw [if_neg hi, ho] at this
  cases e' : s'.obj i with
  | none => rw [e'] at this; simp at this
  | some p =>
    rw [e'] at this
    simp only [Option.map_some, Option.some.injEq, strip, Prod.mk.injEq] at this
    exact ⟨p, rfl, this.1, this.2.1, this.2.2⟩

theorem delAll_ok {c : Nat} {k : Kind} : ∀ {l : List Nat} {s : S} {sets}, Inv s sets → sets c k = l → (∀ h ∈ l, CanDel s h) →
    ∃ s', s.delAll l = some s' ∧ Inv s' (emptySet sets c k) ∧ AllGone s s' l
  | [], s, sets, i, hs, _ => by
    refine ⟨s, rfl, ?_, ⟨rfl, rfl, rfl, rfl, by simp, by simp, by simp⟩⟩
    have : emptySet sets c k = sets := by
      funext c' k'
      unfold emptySet
      split
      · rename_i e; rw [e.1, e.2, hs]
      · rfl
    rw [this]; exact i
  | h :: l, s, sets, i, hs, hd => by
    obtain ⟨o, ho, e1, e2⟩ := (i.mem c k h).1 (by rw [hs]; simp)
    obtain ⟨s1, d1, i1, g1⟩ := del_ok i ho (hd h (by simp))
    rw [e1, e2] at i1
    have hs1 : eraseSet sets c k h c k = l := by simp [eraseSet, hs]
    have g1' : ∀ j, (s1.obj j).map strip = if j ∈ [h] then none else (s.obj j).map strip := by simpa using g1.obj
    obtain ⟨s2, d2, i2, g2⟩ := delAll_ok (s := s1) i1 hs1 (fun j hj => by
      have := hd j (by simp [hj])
      refine ⟨fun c hc => this.shape c ((g1.cols c).1 hc).1, fun m p hp hm => ?_, by rw [g1.logger]; exact this.logger⟩
      obtain ⟨_, q, hq, _, _, f⟩ := strip_back g1' hp
      exact this.mesh m q hq (f.trans hm))
    refine ⟨s2, by simp [S.delAll, d1, d2], ?_, ⟨g2.next.trans g1.next, g2.commons.trans g1.commons, g2.sets.trans g1.sets,
      g2.logger.trans g1.logger, by rw [g2.dead, g1.dead]; simp, fun j => ?_, fun d => ?_⟩⟩
    · have : emptySet (eraseSet sets c k h) c k = emptySet sets c k := by
        funext c' k'
        by_cases e : c' = c ∧ k' = k
        · simp [emptySet, e]
        · simp only [emptySet, if_neg e, eraseSet]
      rwa [this] at i2
    · rw [g2.obj, g1.obj]
      by_cases a : j = h <;> by_cases b : j ∈ l <;> simp [a, b]
    · rw [g2.cols, g1.cols]
      simp only [List.mem_cons, not_or]
      tauto

/-- Who has created an object that is alive. -/
def ownerOf (s : S) (h : Nat) : Option Nat := (s.obj h).map Obj.owner

/-- Nothing of another `PhysicsCommon` refers to something of this one. -/
structure Closed (s : S) (c : Nat) : Prop where
  cols : ∀ d ∈ s.cols, ownerOf s d.shape = some c → ownerOf s d.world = some c
  mesh : ∀ i o m, s.obj i = some o → o.mesh = some m → ownerOf s m = some c → o.owner = c
  logger : ∀ l, s.logger = some l → ownerOf s l ≠ some c

theorem Inv.setSet {s : S} {sets} (i : Inv s sets) (c k l) : Inv (s.setSet c k l) sets :=
  ⟨i.nodup, i.mem, i.fresh, i.deadNodup, i.dead, i.colWorld, i.colShape, i.colNodup, i.userNodup, i.users, i.mesh, i.logger, i.commons⟩

/-- An order in which every object is deleted before what it refers to. -/
def Ordered (ks : List Kind) : Prop := ks.Pairwise fun a b => a ≠ b ∧ ¬ (a.isShape = true ∧ b = .world) ∧ b.mesh ≠ some a

instance (ks : List Kind) : Decidable (Ordered ks) := by unfold Ordered; infer_instance

theorem isShape_of_mesh {k m : Kind} (h : k.mesh = some m) : k.isShape = true ∧ m.isShape = false ∧ m ≠ .world ∧ m ≠ .logger := by
  cases k <;> simp [Kind.mesh] at h <;> subst h <;> decide

theorem releaseKinds_ok {c : Nat} : ∀ {ks : List Kind} {s : S}, Ordered ks → Inv s s.sets → Closed s c → (∀ k, k ∉ ks → s.sets c k = []) →
    ∃ s', s.releaseKinds c ks = some s' ∧ Inv s' s'.sets ∧ (∀ k, s'.sets c k = []) ∧
      (∀ c' k, c' ≠ c → s'.sets c' k = s.sets c' k) ∧ s'.dead = s.dead ++ ks.flatMap (s.sets c) ∧ s'.logger = s.logger ∧
      s'.commons = s.commons ∧ s'.next = s.next ∧
      (∀ i, (s'.obj i).map strip = if ∃ k ∈ ks, i ∈ s.sets c k then none else (s.obj i).map strip) ∧
      ∀ d, d ∈ s'.cols ↔ d ∈ s.cols ∧ ∀ k ∈ ks, d.world ∉ s.sets c k
  | [], s, _, i, _, hd => ⟨s, rfl, i, fun k => hd k (by simp), fun _ _ _ => rfl, by simp, rfl, rfl, rfl, by simp, by simp⟩
  | k :: ks, s, ho, i, hc, hd => by
    obtain ⟨o1, o2⟩ := List.pairwise_cons.1 ho
    have alive : ∀ {h p}, s.obj h = some p → p.owner = c → p.kind ∈ k :: ks := fun {h p} hp e => by
      by_contra g
      have := (i.mem c p.kind h).2 ⟨p, hp, rfl, e⟩
      rw [hd p.kind g] at this
      simp at this
    obtain ⟨s1, e1, i1, g1⟩ := delAll_ok (c := c) (k := k) (l := s.sets c k) i rfl (fun h hh => by
      obtain ⟨o, hob, ek, eo⟩ := (i.mem c k h).1 hh
      have hown : ownerOf s h = some c := by simp [ownerOf, hob, eo]
      refine ⟨fun d hd' e => ?_, fun j p hp hm => ?_, fun e => hc.logger h e hown⟩
      · -- a collider with this shape
        obtain ⟨p, hp, hs⟩ := i.colShape d hd'
        rw [e, hob] at hp
        cases hp
        obtain ⟨w, hw, hk⟩ := i.colWorld d hd'
        have := hc.cols d hd' (by rw [e]; exact hown)
        have hwo : w.owner = c := by simpa [ownerOf, hw] using this
        have hin := alive hw hwo
        rw [hk] at hin
        rcases List.mem_cons.1 hin with e' | e'
        · rw [ek, ← e'] at hs; simp [Kind.isShape] at hs
        · exact (o1 _ e').2.1 ⟨ek ▸ hs, rfl⟩
      · -- a shape with this mesh
        obtain ⟨q, hq, e⟩ := i.mesh j p hp h hm
        rw [hob] at hq
        cases hq
        have hin := alive hp (hc.mesh j p h hp hm hown)
        rw [ek] at e
        rcases List.mem_cons.1 hin with e' | e'
        · have := isShape_of_mesh e
          rw [e'] at this
          simp [this.1] at this
        · exact (o1 _ e').2.2 e)
    have heq : (s1.setSet c k []).sets = emptySet s.sets c k := by
      funext c' k'; simp only [S.setSet, emptySet, g1.sets]
    have own : ∀ {h}, ownerOf s1 h = some c → ownerOf s h = some c := fun {h} e => by
      unfold ownerOf at e ⊢
      cases q : s1.obj h with
      | none => rw [q] at e; simp at e
      | some p =>
        rw [q] at e
        obtain ⟨_, r, hr, _, f, _⟩ := strip_back g1.obj q
        rw [hr]; simp only [Option.map_some, Option.some.injEq] at e ⊢; rw [f, e]
    obtain ⟨s2, e2, i2, a2, b2, d2, l2, c2, n2, ob2, co2⟩ := releaseKinds_ok (c := c) (s := s1.setSet c k []) (ks := ks) o2
      (by rw [heq]; exact i1.setSet ..)
      (by
        refine ⟨fun d hd' e => ?_, fun j p m hp hm e => ?_, fun l hl e => ?_⟩
        · obtain ⟨hd1, hd2⟩ := (g1.cols d).1 hd'
          have := hc.cols d hd1 (own e)
          obtain ⟨w, hw, _⟩ := i.colWorld d hd1
          obtain ⟨p, hp, _, f, _⟩ := strip_there g1.obj hd2 hw
          change ownerOf s1 d.world = some c
          simp only [ownerOf, hw, Option.map_some, Option.some.injEq] at this
          simp [ownerOf, hp, f, this]
        · obtain ⟨_, q, hq, _, f, f'⟩ := strip_back g1.obj hp
          rw [← f]
          exact hc.mesh j q m hq (f'.trans hm) (own e)
        · exact hc.logger l (g1.logger ▸ hl) (own e))
      (fun k' hk' => by
        rw [heq]
        by_cases e : k' = k
        · simp [emptySet, e]
        · simp [emptySet, e, hd k' (by simp [e, hk'])])
    have same : ∀ k' ∈ ks, (s1.setSet c k []).sets c k' = s.sets c k' := fun k' hk' => by
      rw [heq]
      have : k' ≠ k := fun e => (o1 k' hk').1 e.symm
      simp [emptySet, this]
    refine ⟨s2, by simp [S.releaseKinds, e1, e2], i2, a2, fun c' k' e => ?_, ?_, l2.trans g1.logger, c2.trans g1.commons, n2.trans g1.next,
      fun j => ?_, fun d => ?_⟩
    · rw [b2 c' k' e, heq]; simp [emptySet, e]
    · rw [d2]
      have : (s1.setSet c k []).dead = s1.dead := rfl
      rw [this, g1.dead, List.flatMap_cons, List.append_assoc]
      congr 2
      unfold List.flatMap
      rw [List.map_congr_left same]
    · rw [ob2]
      have e : (∃ k' ∈ ks, j ∈ (s1.setSet c k []).sets c k') ↔ ∃ k' ∈ ks, j ∈ s.sets c k' :=
        exists_congr fun k' => and_congr_right fun hk' => by rw [same k' hk']
      rw [show ((s1.setSet c k []).obj j).map strip = (s1.obj j).map strip from rfl, g1.obj]
      simp only [e, List.mem_cons, exists_eq_or_imp]
      by_cases p : j ∈ s.sets c k <;> by_cases q : ∃ k' ∈ ks, j ∈ s.sets c k' <;> simp [p, q]
    · rw [co2, show (s1.setSet c k []).cols = s1.cols from rfl, g1.cols]
      simp only [List.mem_cons, forall_eq_or_imp]
      have e : (∀ k' ∈ ks, d.world ∉ (s1.setSet c k []).sets c k') ↔ ∀ k' ∈ ks, d.world ∉ s.sets c k' :=
        forall_congr' fun k' => imp_congr_right fun hk' => by rw [same k' hk']
      rw [e]; tauto

/-! ### What a careful user does -/

/-- The rules for the user: use only what is alive, destroy nothing that something else refers to, and give back the logger before it is
destroyed. -/
def Careful (s : S) : Op → Prop
  | .newCommon c => c ∉ s.commons
  | .deleteCommon c => c ∈ s.commons ∧ Closed s c
  | .create c k mesh _ _ => c ∈ s.commons ∧ mesh.isSome = k.mesh.isSome ∧ ∀ m, mesh = some m → ∃ p, s.obj m = some p ∧ k.mesh = some p.kind
  | .destroy c k h => (∃ o, s.obj h = some o ∧ o.kind = k ∧ o.owner = c) ∧ CanDel s h
  | .addCollider id w sh => (∀ d ∈ s.cols, d.id ≠ id) ∧ (∃ o, s.obj w = some o ∧ o.kind = .world) ∧ ∃ o, s.obj sh = some o ∧ o.kind.isShape
  | .removeCollider d => d ∈ s.cols
  | .setLogger l => ∀ h, l = some h → ∃ o, s.obj h = some o ∧ o.kind = .logger

/-- The states a careful user can reach. -/
inductive Reach : S → Prop
  | init : Reach S.init
  | step {s s' op} : Reach s → Careful s op → s.step op = some s' → Reach s'

theorem init_inv : Inv S.init S.init.sets := by
  constructor <;> simp [S.init]

theorem create_ok {s : S} (i : Inv s s.sets) {c : Nat} {k : Kind} {mesh : Option Nat} {valid logs : Bool}
    (hc : c ∈ s.commons) (hm : ∀ m, mesh = some m → ∃ p, s.obj m = some p ∧ k.mesh = some p.kind) :
    ∃ s', s.create c k mesh valid logs = some s' ∧ Inv s' s'.sets ∧ s'.next = s.next + 1 ∧ s'.commons = s.commons ∧
      (s'.obj s.next = if valid then some ⟨k, c, [], mesh⟩ else none) ∧ ∀ j, j ≠ s.next → s'.obj j = s.obj j := by
  have no : s.obj s.next = none := by
    cases e : s.obj s.next with
    | none => rfl
    | some o => exact absurd (i.fresh _ _ e) (lt_irrefl _)
  let s1 : S := { s with next := s.next + 1, obj := fun j => if j = s.next then some ⟨k, c, [], mesh⟩ else s.obj j }
  have ne : ∀ {j o}, s.obj j = some o → j ≠ s.next := fun {j o} ho e => by rw [e, no] at ho; cases ho
  have put : ∀ {j o}, s.obj j = some o → s1.obj j = some o := fun {j o} ho => by
    change (if j = s.next then _ else s.obj j) = some o; rw [if_neg (ne ho), ho]
  have get : ∀ {j o}, s1.obj j = some o → (j = s.next ∧ o = ⟨k, c, [], mesh⟩) ∨ s.obj j = some o := fun {j o} ho => by
    by_cases e : j = s.next
    · left
      change (if j = s.next then _ else s.obj j) = some o at ho
      rw [if_pos e] at ho
      exact ⟨e, (Option.some.inj ho).symm⟩
    · right
      change (if j = s.next then _ else s.obj j) = some o at ho
      rwa [if_neg e] at ho
  have i1 : Inv s1 (fun c' k' => if c' = c ∧ k' = k then s.next :: s.sets c k else s.sets c' k') := by
    constructor
    · intro c' k'
      split
      · refine List.nodup_cons.2 ⟨fun g => ?_, i.nodup c k⟩
        obtain ⟨o, ho, _⟩ := (i.mem c k _).1 g
        rw [no] at ho; cases ho
      · exact i.nodup c' k'
    · intro c' k' h
      split
      · rename_i e
        obtain ⟨rfl, rfl⟩ := e
        rw [List.mem_cons, i.mem]
        constructor
        · rintro (rfl | ⟨o, ho, e⟩)
          · exact ⟨_, if_pos rfl, rfl, rfl⟩
          · exact ⟨o, put ho, e⟩
        · rintro ⟨o, ho, e⟩
          rcases get ho with ⟨e', _⟩ | ho
          · exact .inl e'
          · exact .inr ⟨o, ho, e⟩
      · rename_i e
        rw [i.mem]
        constructor
        · rintro ⟨o, ho, e⟩; exact ⟨o, put ho, e⟩
        · rintro ⟨o, ho, e1, e2⟩
          rcases get ho with ⟨_, rfl⟩ | ho
          · exact absurd ⟨e2.symm, e1.symm⟩ e
          · exact ⟨o, ho, e1, e2⟩
    · intro h o ho
      change h < s.next + 1
      rcases get ho with ⟨rfl, _⟩ | ho
      · omega
      · have := i.fresh h o ho; omega
    · exact i.deadNodup
    · intro h
      change h ∈ s.dead ↔ h < s.next + 1 ∧ (if h = s.next then some _ else s.obj h) = none
      rw [i.dead]
      by_cases e : h = s.next
      · subst e; simp
      · simp only [if_neg e]
        have : h < s.next ↔ h < s.next + 1 := by omega
        rw [this]
    · intro d hd; obtain ⟨o, ho, e⟩ := i.colWorld d hd; exact ⟨o, put ho, e⟩
    · intro d hd; obtain ⟨o, ho, e⟩ := i.colShape d hd; exact ⟨o, put ho, e⟩
    · exact i.colNodup
    · intro h o ho
      rcases get ho with ⟨_, rfl⟩ | ho
      · exact List.nodup_nil
      · exact i.userNodup h o ho
    · intro h o ho j
      rcases get ho with ⟨rfl, rfl⟩ | ho
      · refine ⟨fun g => by simp at g, ?_⟩
        rintro ⟨d, hd, e, _⟩
        obtain ⟨p, hp, _⟩ := i.colShape d hd
        rw [e, no] at hp; cases hp
      · exact i.users h o ho j
    · intro h o ho m hm'
      rcases get ho with ⟨rfl, rfl⟩ | ho
      · obtain ⟨p, hp, e⟩ := hm m hm'
        exact ⟨p, put hp, e⟩
      · obtain ⟨p, hp, e⟩ := i.mesh h o ho m hm'
        exact ⟨p, put hp, e⟩
    · intro l hl; obtain ⟨o, ho, e⟩ := i.logger l hl; exact ⟨o, put ho, e⟩
    · intro h o ho
      rcases get ho with ⟨_, rfl⟩ | ho
      · exact hc
      · exact i.commons h o ho
  have hl : s.logIf (logs || decide (k = .world)) = some s := by unfold S.logIf; split; exact i.log; rfl
  cases valid with
  | true =>
    refine ⟨s1.setSet c k (s.next :: s.sets c k), by simp only [S.create, hl, Option.bind_eq_bind, Option.bind_some, if_true]; rfl, i1.setSet .., rfl, rfl, by simp [S.setSet, s1],
      fun j hj => by simp [S.setSet, s1, hj]⟩
  | false =>
    have hu : Unused s1 s.next := by
      refine ⟨fun d hd => ⟨?_, ?_⟩, fun j o ho e => ?_, fun e => ?_⟩
      · obtain ⟨o, ho, _⟩ := i.colShape d hd; exact ne ho
      · obtain ⟨o, ho, _⟩ := i.colWorld d hd; exact ne ho
      · rcases get ho with ⟨_, rfl⟩ | ho
        · obtain ⟨p, hp, _⟩ := hm _ e; exact ne hp rfl
        · obtain ⟨p, hp, _⟩ := i.mesh j o ho _ e; exact ne hp rfl
      · obtain ⟨p, hp, _⟩ := i.logger _ e; exact ne hp rfl
    have i2 := kill_ok (o := ⟨k, c, [], mesh⟩) i1 (if_pos rfl) hu
    refine ⟨s1.kill s.next, by simp only [S.create, hl, Option.bind_eq_bind, Option.bind_some, Bool.false_eq_true, if_false]; rfl, ?_, rfl, rfl, by simp [S.kill], fun j hj => by simp [S.kill, s1, hj]⟩
    have : eraseSet (fun c' k' => if c' = c ∧ k' = k then s.next :: s.sets c k else s.sets c' k') c k s.next = (s1.kill s.next).sets := by
      funext c' k'
      unfold eraseSet
      by_cases e : c' = c ∧ k' = k
      · simp [e, S.kill, s1]
      · simp only [if_neg e]; rfl
    rwa [this] at i2

theorem add_ok {s : S} (i : Inv s s.sets) {id w sh : Nat} (h : Careful s (.addCollider id w sh)) :
    ∃ s', s.step (.addCollider id w sh) = some s' ∧ Inv s' s'.sets ∧ s'.cols = ⟨id, w, sh⟩ :: s.cols := by
  obtain ⟨hid, ⟨ow, how, hkw⟩, ⟨o, ho, hk⟩⟩ := h
  let s1 : S := { s with cols := ⟨id, w, sh⟩ :: s.cols, obj := fun i => if i = sh then some { o with colliders := id :: o.colliders } else s.obj i }
  have get : ∀ {j p}, s1.obj j = some p → ∃ q, s.obj j = some q ∧ p.kind = q.kind ∧ p.owner = q.owner ∧ p.mesh = q.mesh ∧
      p.colliders = if j = sh then id :: q.colliders else q.colliders := by
    intro j p hp
    change (if j = sh then _ else s.obj j) = some p at hp
    by_cases e : j = sh
    · subst e
      rw [if_pos rfl] at hp
      cases hp
      exact ⟨o, ho, rfl, rfl, rfl, by simp⟩
    · rw [if_neg e] at hp
      exact ⟨p, hp, rfl, rfl, rfl, by simp [e]⟩
  have put : ∀ {j q}, s.obj j = some q → ∃ p, s1.obj j = some p ∧ p.kind = q.kind ∧ p.owner = q.owner ∧ p.mesh = q.mesh := by
    intro j q hq
    by_cases e : j = sh
    · subst e
      rw [ho] at hq
      cases hq
      exact ⟨_, if_pos rfl, rfl, rfl, rfl⟩
    · exact ⟨q, by change (if j = sh then _ else s.obj j) = some q; rw [if_neg e, hq], rfl, rfl, rfl⟩
  have i1 : Inv s1 s.sets := by
    constructor
    · exact i.nodup
    · intro c' k h
      rw [i.mem]
      constructor
      · rintro ⟨q, hq, e1, e2⟩
        obtain ⟨p, hp, f1, f2, _⟩ := put hq
        exact ⟨p, hp, f1.trans e1, f2.trans e2⟩
      · rintro ⟨p, hp, e1, e2⟩
        obtain ⟨q, hq, f1, f2, _⟩ := get hp
        exact ⟨q, hq, f1 ▸ e1, f2 ▸ e2⟩
    · intro h p hp
      obtain ⟨q, hq, _⟩ := get hp
      exact i.fresh h q hq
    · exact i.deadNodup
    · intro h
      change h ∈ s.dead ↔ h < s.next ∧ (if h = sh then some _ else s.obj h) = none
      rw [i.dead]
      refine and_congr_right fun _ => ?_
      by_cases e : h = sh
      · subst e; simp [ho]
      · simp [e]
    · intro d hd
      rcases List.mem_cons.1 hd with rfl | hd
      · obtain ⟨p, hp, f, _⟩ := put how
        exact ⟨p, hp, f.trans hkw⟩
      · obtain ⟨q, hq, e⟩ := i.colWorld d hd
        obtain ⟨p, hp, f, _⟩ := put hq
        exact ⟨p, hp, f.trans e⟩
    · intro d hd
      rcases List.mem_cons.1 hd with rfl | hd
      · obtain ⟨p, hp, f, _⟩ := put ho
        exact ⟨p, hp, by rw [f]; exact hk⟩
      · obtain ⟨q, hq, e⟩ := i.colShape d hd
        obtain ⟨p, hp, f, _⟩ := put hq
        exact ⟨p, hp, by rw [f]; exact e⟩
    · change (id :: s.cols.map Col.id).Nodup
      refine List.nodup_cons.2 ⟨fun g => ?_, i.colNodup⟩
      obtain ⟨d, hd, e⟩ := List.mem_map.1 g
      exact hid d hd e
    · intro h p hp
      obtain ⟨q, hq, _, _, _, e⟩ := get hp
      rw [e]
      split
      · refine List.nodup_cons.2 ⟨fun g => ?_, i.userNodup h q hq⟩
        obtain ⟨d, hd, _, e⟩ := (i.users h q hq id).1 g
        exact hid d hd e
      · exact i.userNodup h q hq
    · intro h p hp j
      obtain ⟨q, hq, _, _, _, e⟩ := get hp
      rw [e]
      change _ ↔ ∃ c ∈ (⟨id, w, sh⟩ : Col) :: s.cols, c.shape = h ∧ c.id = j
      simp only [List.mem_cons, exists_eq_or_imp]
      by_cases g : h = sh
      · subst g
        rw [if_pos rfl, List.mem_cons, i.users h q hq]
        simp [eq_comm]
      · rw [if_neg g, i.users h q hq]
        simp [Ne.symm g]
    · intro h p hp m hm
      obtain ⟨q, hq, f1, _, f3, _⟩ := get hp
      obtain ⟨r, hr, e⟩ := i.mesh h q hq m (f3 ▸ hm)
      obtain ⟨p', hp', f, _⟩ := put hr
      exact ⟨p', hp', by rw [f1, f, e]⟩
    · intro l hl
      obtain ⟨q, hq, e⟩ := i.logger l hl
      obtain ⟨p, hp, f, _⟩ := put hq
      exact ⟨p, hp, f.trans e⟩
    · intro h p hp
      obtain ⟨q, hq, _, f2, _⟩ := get hp
      rw [f2]
      exact i.commons h q hq
  exact ⟨s1, by have := i1.log; simp only [S.step, how, ho, Option.bind_eq_bind, Option.bind_some]; exact this, i1, rfl⟩

/-- The effect of deleting a `PhysicsCommon` in a consistent state. -/
theorem delete_ok {s : S} (i : Inv s s.sets) {c : Nat} (h : Closed s c) :
    ∃ s', s.step (.deleteCommon c) = some s' ∧ Inv s' s'.sets ∧ s'.dead = s.dead ++ releaseOrder.flatMap (s.sets c) ∧ s'.logger = s.logger ∧
      s'.commons = s.commons.filter (· ≠ c) ∧ s'.next = s.next ∧
      (∀ j, (s'.obj j).map strip = if ownerOf s j = some c then none else (s.obj j).map strip) ∧
      ∀ d, d ∈ s'.cols ↔ d ∈ s.cols ∧ ownerOf s d.world ≠ some c := by
  have all : ∀ k : Kind, k ∈ releaseOrder := by intro k; cases k <;> decide
  obtain ⟨s1, e1, i1, a1, b1, d1, l1, c1, n1, o1, co1⟩ := releaseKinds_ok (c := c) (ks := releaseOrder) (s := s) (by decide) i h
    (fun k hk => absurd (all k) hk)
  have iff : ∀ j, (∃ k ∈ releaseOrder, j ∈ s.sets c k) ↔ ownerOf s j = some c := by
    intro j
    constructor
    · rintro ⟨k, _, hj⟩
      obtain ⟨o, ho, _, e⟩ := (i.mem c k j).1 hj
      simp [ownerOf, ho, e]
    · intro e
      cases ho : s.obj j with
      | none => simp [ownerOf, ho] at e
      | some o => exact ⟨o.kind, all _, (i.mem c o.kind j).2 ⟨o, ho, rfl, by simpa [ownerOf, ho] using e⟩⟩
  have hob : ∀ j, (s1.obj j).map strip = if ownerOf s j = some c then none else (s.obj j).map strip := fun j => by
    rw [o1 j]; simp only [iff j]
  refine ⟨{ s1 with commons := s1.commons.filter (· ≠ c) }, by simp [S.step, e1], ?_, d1, l1, by rw [c1], n1, hob, fun d => ?_⟩
  · refine ⟨i1.nodup, i1.mem, i1.fresh, i1.deadNodup, i1.dead, i1.colWorld, i1.colShape, i1.colNodup, i1.userNodup, i1.users, i1.mesh,
      i1.logger, fun j o ho => ?_⟩
    change s1.obj j = some o at ho
    simp only [List.mem_filter, decide_eq_true_eq, ne_eq]
    refine ⟨i1.commons j o ho, fun e => ?_⟩
    have := (i1.mem c o.kind j).2 ⟨o, ho, rfl, e⟩
    rw [a1] at this
    simp at this
  · change d ∈ s1.cols ↔ _
    rw [co1]
    refine and_congr_right fun _ => ?_
    rw [ne_eq, ← iff]
    simp

theorem destroy_ok {s : S} (i : Inv s s.sets) {c : Nat} {k : Kind} {h : Nat} (hc : Careful s (.destroy c k h)) :
    ∃ s', s.step (.destroy c k h) = some s' ∧ Inv s' s'.sets ∧ s'.dead = s.dead ++ [h] ∧ s'.commons = s.commons := by
  obtain ⟨⟨o, ho, rfl, rfl⟩, hd⟩ := hc
  obtain ⟨s1, e1, i1, g1⟩ := del_ok i ho hd
  refine ⟨s1.setSet o.owner o.kind ((s1.sets o.owner o.kind).erase h), by simp [S.step, S.destroy, e1], ?_, g1.dead, g1.commons⟩
  have : eraseSet s.sets o.owner o.kind h = (s1.setSet o.owner o.kind ((s1.sets o.owner o.kind).erase h)).sets := by
    funext c' k'
    simp only [eraseSet, S.setSet, g1.sets]
  rw [this] at i1
  exact i1.setSet ..

theorem careful_inv {s : S} (i : Inv s s.sets) {op : Op} (h : Careful s op) : ∃ s', s.step op = some s' ∧ Inv s' s'.sets := by
  cases op with
  | newCommon c =>
    exact ⟨_, rfl, ⟨i.nodup, i.mem, i.fresh, i.deadNodup, i.dead, i.colWorld, i.colShape, i.colNodup, i.userNodup, i.users, i.mesh,
      i.logger, fun j o ho => List.mem_cons_of_mem _ (i.commons j o ho)⟩⟩
  | deleteCommon c => obtain ⟨s', e, i', _⟩ := delete_ok i h.2; exact ⟨s', e, i'⟩
  | create c k mesh valid logs => obtain ⟨s', e, i', _⟩ := create_ok i h.1 h.2.2 (valid := valid) (logs := logs); exact ⟨s', e, i'⟩
  | destroy c k x => obtain ⟨s', e, i', _⟩ := destroy_ok i h; exact ⟨s', e, i'⟩
  | addCollider id w sh => obtain ⟨s', e, i', _⟩ := add_ok i h; exact ⟨s', e, i'⟩
  | removeCollider d =>
    obtain ⟨s', e, i', k, _⟩ := removeCol_ok i h
    exact ⟨s', e, by rw [k.sets]; exact i'⟩
  | setLogger l =>
    exact ⟨_, rfl, ⟨i.nodup, i.mem, i.fresh, i.deadNodup, i.dead, i.colWorld, i.colShape, i.colNodup, i.userNodup, i.users, i.mesh,
      h, i.commons⟩⟩

theorem reach_inv {s : S} (h : Reach s) : Inv s s.sets := by
  induction h with
  | init => exact init_inv
  | step _ hc e ih =>
    obtain ⟨s', e', i'⟩ := careful_inv ih hc
    rw [e] at e'
    cases e'
    exact i'

/-! ### The property -/

/-- **C126**: no call of a careful user touches something that was destroyed. -/
theorem never_undefined_partial {s : S} (h : Reach s) {op : Op} (hc : Careful s op) : (s.step op).isSome := by
  obtain ⟨s', e, _⟩ := careful_inv (reach_inv h) hc
  simp [e]

/-- **C126**: every object that was ever created is alive or was destroyed, but not both, and none was destroyed twice. -/
theorem destroyed_once {s : S} (h : Reach s) : s.dead.Nodup ∧ ∀ i < s.next, (i ∈ s.dead ↔ s.obj i = none) :=
  ⟨(reach_inv h).deadNodup, fun i hi => by rw [(reach_inv h).dead]; simp [hi]⟩

/-- **C126**: what is alive refers only to what is alive: colliders to their world and their shape, shapes to their colliders and meshes. -/
theorem references_alive {s : S} (h : Reach s) :
    (∀ d ∈ s.cols, (s.obj d.world).isSome ∧ (s.obj d.shape).isSome) ∧
      (∀ i o, s.obj i = some o → ∀ m, o.mesh = some m → (s.obj m).isSome) ∧
      ∀ i o, s.obj i = some o → ∀ x, x ∈ o.colliders ↔ ∃ d ∈ s.cols, d.shape = i ∧ d.id = x := by
  have i := reach_inv h
  refine ⟨fun d hd => ?_, fun j o ho m hm => ?_, i.users⟩
  · obtain ⟨_, e1, _⟩ := i.colWorld d hd
    obtain ⟨_, e2, _⟩ := i.colShape d hd
    simp [e1, e2]
  · obtain ⟨_, e, _⟩ := i.mesh j o ho m hm
    simp [e]

/-- **C126**: deleting a `PhysicsCommon` destroys all that it has created and that is left, and nothing else; the colliders of its worlds are
gone, all others are left. -/
theorem delete_destroys_all {s : S} (h : Reach s) {c : Nat} (hc : Careful s (.deleteCommon c)) : ∃ s', s.step (.deleteCommon c) = some s' ∧
    (∀ i o, s.obj i = some o → (o.owner = c ↔ s'.obj i = none)) ∧
    (∀ i o, s'.obj i = some o → ∃ p, s.obj i = some p ∧ o.kind = p.kind ∧ o.owner = p.owner ∧ o.mesh = p.mesh) ∧
    ∀ d, d ∈ s'.cols ↔ d ∈ s.cols ∧ ownerOf s d.world ≠ some c := by
  obtain ⟨s', e, _, _, _, _, _, ho, hd⟩ := delete_ok (reach_inv h) hc.2
  refine ⟨s', e, fun i o hi => ?_, fun i o hi => ?_, hd⟩
  · have := ho i
    have own : ownerOf s i = some o.owner := by simp [ownerOf, hi]
    rw [own, hi] at this
    by_cases e : o.owner = c
    · rw [e] at this
      simp only [if_true, Option.map_eq_none_iff] at this
      simp [e, this]
    · rw [if_neg (by simpa using e)] at this
      refine ⟨fun g => absurd g e, fun g => by rw [g] at this; simp at this⟩
  · have := ho i
    rw [hi] at this
    split at this
    · simp at this
    · cases hp : s.obj i with
      | none => rw [hp] at this; simp at this
      | some p =>
        rw [hp] at this
        simp only [Option.map_some, Option.some.injEq, strip, Prod.mk.injEq] at this
        exact ⟨p, rfl, this⟩

/-- **C126**: and it destroys a world before the shapes of its colliders, a shape before its mesh. -/
theorem delete_order {s : S} (h : Reach s) {c : Nat} (hc : Careful s (.deleteCommon c)) : ∃ s' l, s.step (.deleteCommon c) = some s' ∧
    s'.dead = s.dead ++ l ∧
    (∀ d ∈ s.cols, ownerOf s d.world = some c → ownerOf s d.shape = some c → ∃ a b, l = a ++ b ∧ d.world ∈ a ∧ d.shape ∈ b) ∧
    ∀ i o m, s.obj i = some o → o.mesh = some m → o.owner = c → ownerOf s m = some c → ∃ a b, l = a ++ b ∧ i ∈ a ∧ m ∈ b := by
  have i := reach_inv h
  obtain ⟨s', e, _, hd, _⟩ := delete_ok i hc.2
  have inn : ∀ {j o}, s.obj j = some o → ownerOf s j = some c → j ∈ s.sets c o.kind := fun {j o} ho e =>
    (i.mem c o.kind j).2 ⟨o, ho, rfl, by simpa [ownerOf, ho] using e⟩
  have cut : ∀ (ks1 ks2 : List Kind) (x y : Nat) (k1 k2 : Kind), releaseOrder = ks1 ++ ks2 → k1 ∈ ks1 → k2 ∈ ks2 → x ∈ s.sets c k1 →
      y ∈ s.sets c k2 → ∃ a b, releaseOrder.flatMap (s.sets c) = a ++ b ∧ x ∈ a ∧ y ∈ b := by
    intro ks1 ks2 x y k1 k2 hk h1 h2 hx hy
    exact ⟨ks1.flatMap (s.sets c), ks2.flatMap (s.sets c), by rw [hk, List.flatMap_append], List.mem_flatMap.2 ⟨k1, h1, hx⟩,
      List.mem_flatMap.2 ⟨k2, h2, hy⟩⟩
  refine ⟨s', _, e, hd, fun d hd' e1 e2 => ?_, fun j o m hj hm e1 e2 => ?_⟩
  · obtain ⟨w, hw, hk⟩ := i.colWorld d hd'
    obtain ⟨o, ho, hs⟩ := i.colShape d hd'
    refine cut [.world] [.sphere, .box, .capsule, .convexShape, .heightShape, .concaveShape, .convexMesh, .triangleMesh, .heightField,
      .logger] _ _ w.kind o.kind rfl (by simp [hk]) ?_ (inn hw e1) (inn ho e2)
    revert hs
    cases o.kind <;> decide
  · obtain ⟨p, hp, hk⟩ := i.mesh j o hj m hm
    refine cut [.world, .sphere, .box, .capsule, .convexShape, .heightShape, .concaveShape] [.convexMesh, .triangleMesh, .heightField,
      .logger] _ _ o.kind p.kind rfl ?_ ?_ (inn hj (by simp [ownerOf, hj, e1])) (inn hp e2)
    · revert hk; cases o.kind <;> simp [Kind.mesh]
    · revert hk
      cases o.kind <;> simp only [Kind.mesh, reduceCtorEq, false_imp_iff, Option.some.injEq] <;> intro hk <;> rw [← hk] <;> decide

/-- **C126**: a mesh that is not valid leaves nothing behind. -/
theorem invalid_leaves_nothing {s s' : S} (h : Reach s) {c : Nat} {k : Kind} {mesh : Option Nat} {logs : Bool}
    (hc : Careful s (.create c k mesh false logs)) (e : s.step (.create c k mesh false logs) = some s') : s'.obj = s.obj ∧ s'.sets = s.sets := by
  have i := reach_inv h
  obtain ⟨s1, e1, i1, _, _, o1, o2⟩ := create_ok i hc.1 hc.2.2 (valid := false) (logs := logs)
  have : s1 = s' := by rw [S.step] at e; rw [e1] at e; exact Option.some.inj e
  subst this
  constructor
  · funext j
    by_cases g : j = s.next
    · subst g
      rw [o1]
      cases q : s.obj s.next with
      | none => rfl
      | some p => exact absurd (i.fresh _ _ q) (lt_irrefl _)
    · exact o2 j g
  · have hl : s.logIf (logs || decide (k = .world)) = some s := by unfold S.logIf; split; exact i.log; rfl
    simp only [S.create, hl, Option.bind_eq_bind, Option.bind_some, Bool.false_eq_true, if_false, Option.some.injEq] at e1
    subst e1; rfl

/-! ### The logger outlives its owner in the pointer `mLogger` -/

/-- Several calls. -/
def run (ops : List Op) : Option S := ops.foldlM S.step S.init

/-- Two `PhysicsCommon`, a default logger of the first is used; the first is deleted. -/
def loggerOps : List Op := [.newCommon 0, .newCommon 1, .create 0 .logger none true false, .setLogger (some 0), .deleteCommon 0]

/-- **C126 does not hold for the logger**: `~PhysicsCommon` (and `destroyDefaultLogger`) leave `mLogger` pointing to the destroyed logger. The
next message goes there, for instance when the other `PhysicsCommon` creates a world. -/
theorem logger_dangles : (run loggerOps).isSome ∧ run (loggerOps ++ [.create 1 .world none true false]) = none := by
  decide +kernel

/-- The same with a single `PhysicsCommon`: the logger is destroyed, then a world. -/
theorem logger_destroyed : (run [.newCommon 0, .create 0 .logger none true false, .setLogger (some 0), .create 0 .world none true false,
      .destroy 0 .logger 0]).isSome ∧
    run [.newCommon 0, .create 0 .logger none true false, .setLogger (some 0), .create 0 .world none true false, .destroy 0 .logger 0,
      .deleteCommon 0] = none := by
  decide +kernel

/-- Destroying a shape that a collider uses is reported, but it is done: the next use of the collider is undefined. -/
theorem shape_in_use : (run [.newCommon 0, .create 0 .world none true false, .create 0 .box none true false, .addCollider 7 0 1,
      .destroy 0 .box 1]).isSome ∧
    run [.newCommon 0, .create 0 .world none true false, .create 0 .box none true false, .addCollider 7 0 1, .destroy 0 .box 1,
      .deleteCommon 0] = none := by
  decide +kernel

/-! ### Example -/

/-- A world with a collider of a convex mesh shape and the logger in use; the logger is given back, and the `PhysicsCommon` deleted. -/
def exOps : List Op := [.newCommon 0, .create 0 .logger none true false, .setLogger (some 0), .create 0 .convexMesh none false true,
  .create 0 .convexMesh none true false, .create 0 .convexShape (some 2) true false, .create 0 .world none true true, .addCollider 5 4 3,
  .setLogger none]

/-- The states of the example. -/
def exState (n : Nat) : S := (run (exOps.take n)).getD S.init

theorem ex_reach : Reach (exState 9) ∧ Careful (exState 9) (.deleteCommon 0) ∧ (exState 9).cols = [⟨5, 4, 3⟩] ∧ (exState 9).dead = [1] := by
  have get : ∀ {a : Option S} {b : S}, a.isSome → a.getD S.init = b → a = some b := by
    intro a b h e; cases a with
    | none => simp at h
    | some x => simp at e; rw [e]
  have st : ∀ {n op}, Reach (exState n) → Careful (exState n) op → run (exOps.take n) = some (exState n) →
      run (exOps.take (n + 1)) = some (exState (n + 1)) → exOps.take (n + 1) = exOps.take n ++ [op] → Reach (exState (n + 1)) := by
    intro n op r c e1 e2 e3
    refine .step r c ?_
    rw [e3] at e2
    simpa [run, List.foldlM_append, show List.foldlM S.step S.init (exOps.take n) = some (exState n) from e1] using e2
  have rn : ∀ n < 10, (run (exOps.take n)).isSome := by decide +kernel
  have ok : ∀ n < 10, run (exOps.take n) = some (exState n) := fun n hn => get (rn n hn) rfl
  have r0 : Reach (exState 0) := .init
  have r1 := st (op := .newCommon 0) r0 (by simp [Careful, exState, run, S.init]) (ok 0 (by omega)) (ok 1 (by omega)) rfl
  have r2 := st (op := .create 0 .logger none true false) r1
    ⟨(by decide +kernel : 0 ∈ (exState 1).commons), rfl, by simp⟩ (ok 1 (by omega)) (ok 2 (by omega)) rfl
  have r3 := st (op := .setLogger (some 0)) r2
    (fun h e => ⟨⟨.logger, 0, [], none⟩, by cases e; decide +kernel, rfl⟩) (ok 2 (by omega)) (ok 3 (by omega)) rfl
  have r4 := st (op := .create 0 .convexMesh none false true) r3
    ⟨(by decide +kernel : 0 ∈ (exState 3).commons), rfl, by simp⟩ (ok 3 (by omega)) (ok 4 (by omega)) rfl
  have r5 := st (op := .create 0 .convexMesh none true false) r4
    ⟨(by decide +kernel : 0 ∈ (exState 4).commons), rfl, by simp⟩ (ok 4 (by omega)) (ok 5 (by omega)) rfl
  have r6 := st (op := .create 0 .convexShape (some 2) true false) r5
    ⟨(by decide +kernel : 0 ∈ (exState 5).commons), rfl, fun m e => ⟨⟨.convexMesh, 0, [], none⟩, by cases e; decide +kernel, rfl⟩⟩
    (ok 5 (by omega)) (ok 6 (by omega)) rfl
  have r7 := st (op := .create 0 .world none true true) r6
    ⟨(by decide +kernel : 0 ∈ (exState 6).commons), rfl, by simp⟩ (ok 6 (by omega)) (ok 7 (by omega)) rfl
  have r8 := st (op := .addCollider 5 4 3) r7
    ⟨(by decide +kernel : ∀ d ∈ (exState 7).cols, d.id ≠ 5), ⟨⟨.world, 0, [], none⟩, by decide +kernel, rfl⟩,
      ⟨⟨.convexShape, 0, [], some 2⟩, by decide +kernel, rfl⟩⟩ (ok 7 (by omega)) (ok 8 (by omega)) rfl
  have r9 := st (op := .setLogger none) r8 (fun h e => by cases e) (ok 8 (by omega)) (ok 9 (by omega)) rfl
  have i := reach_inv r9
  have com : (exState 9).commons = [0] := by decide +kernel
  have own : ∀ {h o}, (exState 9).obj h = some o → o.owner = 0 := fun ho => by simpa [com] using i.commons _ _ ho
  refine ⟨r9, ⟨by rw [com]; simp, ⟨fun d hd _ => ?_, fun j o m ho _ _ => own ho, fun l hl => ?_⟩⟩, by decide +kernel, by decide +kernel⟩
  · obtain ⟨w, hw, _⟩ := i.colWorld d hd
    simp [ownerOf, hw, own hw]
  · have : (exState 9).logger = none := by decide +kernel
    rw [this] at hl; cases hl

/-- The hypotheses of the theorems are met: the world (4) is destroyed before the shape (3), the shape before the mesh (2). -/
example : ∃ s', (exState 9).step (.deleteCommon 0) = some s' ∧ s'.dead = [1, 4, 3, 2, 0] := by
  obtain ⟨s', e, _⟩ := delete_destroys_all ex_reach.1 ex_reach.2.1
  refine ⟨s', e, ?_⟩
  have : ((exState 9).step (.deleteCommon 0)).map S.dead = some [1, 4, 3, 2, 0] := by decide +kernel
  rw [e] at this
  simpa using this

example := never_undefined_partial ex_reach.1 ex_reach.2.1
example := delete_order ex_reach.1 ex_reach.2.1
example := destroyed_once ex_reach.1
example := references_alive ex_reach.1

/-- An invalid mesh in this state leaves nothing behind. -/
example : Careful (exState 9) (.create 0 .triangleMesh none false false) ∧
    ((exState 9).step (.create 0 .triangleMesh none false false)).isSome :=
  ⟨⟨(by decide +kernel : 0 ∈ (exState 9).commons), rfl, by simp⟩, by decide +kernel⟩

end Common
end RP3D
