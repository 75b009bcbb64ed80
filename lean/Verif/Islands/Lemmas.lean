import Verif.Islands.Model
import Mathlib.Logic.Relation
import Mathlib.Data.List.Nodup
import Mathlib.Data.List.Perm.Subperm

/-!
Lemmas for C29, C30 and C31: the invariant of the construction of islands.  `L` is the list of finished islands (bodies, contact pairs), `(C, O)` the current one.
-/

namespace RP3D

/-! What islands are supposed to be. -/
namespace IslSpec
open Isl

/-- Two bodies touch through a simulated contact. -/
def Touch (G : Graph) (a b : Nat) : Prop := ∃ P ∈ G.pairs, P.sim1 = true ∧ P.sim2 = true ∧ ((P.b1 = a ∧ P.b2 = b) ∨ (P.b1 = b ∧ P.b2 = a))
/-- Two bodies are connected by a joint. -/
def Joined (G : Graph) (a b : Nat) : Prop := ∃ j J, G.joint j = some J ∧ ((J.1 = a ∧ J.2 = b) ∨ (J.1 = b ∧ J.2 = a))
def Linked (G : Graph) (a b : Nat) : Prop := Touch G a b ∨ Joined G a b
/-- A chain of contacts and joints that passes only through bodies that are not static. -/
def Chain (G : Graph) : Nat → Nat → Prop := Relation.ReflTransGen fun a b => G.static a = false ∧ Linked G a b

/-- A graph as `createIslands` finds it: the bodies of contact pairs and joints exist and are different, a body with a simulation collider is known to have one, and the list of
joints of a body is right. -/
structure Wf (G : Graph) : Prop where
  pair : ∀ P ∈ G.pairs, P.b1 ≠ P.b2 ∧ P.b1 ∈ G.bodies ∧ P.b2 ∈ G.bodies
  sim : ∀ P ∈ G.pairs, P.sim1 = true → P.sim2 = true → G.hasSim P.b1 = true ∧ G.hasSim P.b2 = true
  joint : ∀ j J, G.joint j = some J → J.1 ≠ J.2 ∧ J.1 ∈ G.bodies ∧ J.2 ∈ G.bodies
  jointsOf : ∀ b j, j ∈ G.jointsOf b ↔ ∃ J, G.joint j = some J ∧ (J.1 = b ∨ J.2 = b)

end IslSpec

namespace Isl
open IslSpec

variable {G : Graph} {m : Nat → List Nat}

theorem addLast_append (k : Nat) (l : List Nat) (x : Nat) : addLast k (l ++ [x]) = some (l ++ [x + k]) := by
  induction l with
  | nil => rfl
  | cons y l ih =>
    cases l with
    | nil => rfl
    | cons z l =>
      show (addLast k ((z :: l) ++ [x])).map (y :: ·) = _
      rw [ih]; rfl

/-- `addContactPairsToBodies` gives every body the indices of its pairs. -/
theorem mem_addPairs (m : Nat → List Nat) (i : Nat) (l : List CP) (b p : Nat) :
    p ∈ addPairs m i l b ↔ p ∈ m b ∨ ∃ k P, p = i + k ∧ l[k]? = some P ∧ (P.b1 = b ∨ P.b2 = b) := by
  induction l generalizing m i with
  | nil => simp [addPairs]
  | cons P l ih =>
    rw [addPairs, ih]
    have h1 : p ∈ upd (upd m P.b1 (m P.b1 ++ [i])) P.b2 (upd m P.b1 (m P.b1 ++ [i]) P.b2 ++ [i]) b ↔ p ∈ m b ∨ (p = i ∧ (P.b1 = b ∨ P.b2 = b)) := by
      by_cases e2 : b = P.b2
      · subst e2
        rw [upd_same]
        by_cases e1 : P.b2 = P.b1
        · rw [e1, upd_same]; simp
        · rw [upd_ne _ _ e1]; simp
      · rw [upd_ne _ _ e2]
        by_cases e1 : b = P.b1
        · subst e1; rw [upd_same]; simp
        · rw [upd_ne _ _ e1]
          simp [Ne.symm e1, Ne.symm e2]
    rw [h1]
    constructor
    · rintro ((h | ⟨rfl, h⟩) | ⟨k, Q, rfl, hk, h⟩)
      · exact Or.inl h
      · exact Or.inr ⟨0, P, rfl, rfl, h⟩
      · exact Or.inr ⟨k + 1, Q, by omega, by simpa using hk, h⟩
    · rintro (h | ⟨k, Q, rfl, hk, h⟩)
      · exact Or.inl (Or.inl h)
      · cases k with
        | zero =>
          simp only [List.getElem?_cons_zero, Option.some.injEq] at hk
          subst hk
          exact Or.inl (Or.inr ⟨rfl, h⟩)
        | succ k => exact Or.inr ⟨k, Q, by omega, by simpa using hk, h⟩

/-- The contact pairs of the bodies are cleared by the last loop. -/
theorem clearPairs_addPairs (G : Graph) : clearPairs (addPairs (fun _ => []) 0 G.pairs) G.pairs = fun _ => [] := by
  have h1 : ∀ (l : List CP) (m : Nat → List Nat) (b : Nat), (m b = [] ∨ ∃ P ∈ l, P.b1 = b ∨ P.b2 = b) → clearPairs m l b = [] := by
    intro l
    induction l with
    | nil =>
      rintro m b (h | ⟨P, hP, _⟩)
      · exact h
      · cases hP
    | cons Q l ih =>
      intro m b h
      rw [clearPairs]
      apply ih
      by_cases e2 : b = Q.b2
      · subst e2; exact Or.inl (upd_same _ _ _)
      · rw [upd_ne _ _ e2]
        by_cases e1 : b = Q.b1
        · subst e1; exact Or.inl (upd_same _ _ _)
        · rw [upd_ne _ _ e1]
          rcases h with h | ⟨P, hP, h⟩
          · exact Or.inl h
          · rcases List.mem_cons.1 hP with rfl | hP
            · rcases h with rfl | rfl
              · exact absurd rfl e1
              · exact absurd rfl e2
            · exact Or.inr ⟨P, hP, h⟩
  funext b
  apply h1
  cases hm : addPairs (fun _ => []) 0 G.pairs b with
  | nil => exact Or.inl rfl
  | cons p l =>
    have : p ∈ addPairs (fun _ => []) 0 G.pairs b := by rw [hm]; simp
    rw [mem_addPairs] at this
    rcases this with h | ⟨k, P, _, hk, h⟩
    · cases h
    · exact Or.inr ⟨P, List.mem_of_getElem? hk, h⟩

/-! The arrays that describe a list of islands. -/

def size (G : Graph) (p : Nat) : Nat := (G.pairs[p]?.map CP.n).getD 0
def msum (G : Graph) (O : List Nat) : Nat := (O.map (size G)).sum
def flat (L : List (List Nat × List Nat)) : List Nat := L.flatMap Prod.fst
def ords (L : List (List Nat × List Nat)) : List Nat := L.flatMap Prod.snd

theorem msum_append (O O' : List Nat) : msum G (O ++ O') = msum G O + msum G O' := by simp [msum]
theorem flat_append (L L' : List (List Nat × List Nat)) : flat (L ++ L') = flat L ++ flat L' := by simp [flat]
theorem ords_append (L L' : List (List Nat × List Nat)) : ords (L ++ L') = ords L ++ ords L' := by simp [ords]
theorem flat_one (C O : List Nat) : flat [(C, O)] = C := by simp [flat]
theorem ords_one (C O : List Nat) : ords [(C, O)] = O := by simp [ords]

structure Enc (G : Graph) (L : List (List Nat × List Nat)) (s : St) : Prop where
  bodies : s.bodies = flat L
  start : s.start = (List.range L.length).map fun i => (flat (L.take i)).length
  nb : s.nb = L.map fun l => l.1.length
  order : s.order = ords L
  mStart : s.mStart = (List.range L.length).map fun i => msum G (ords (L.take i))
  mNb : s.mNb = L.map fun l => msum G l.2
  total : s.total = msum G (ords L)

theorem range_take_snoc {β : Type} (f : List (List Nat × List Nat) → β) (L : List (List Nat × List Nat)) (x : List Nat × List Nat) :
    ((List.range (L ++ [x]).length).map fun i => f ((L ++ [x]).take i)) = ((List.range L.length).map fun i => f (L.take i)) ++ [f L] := by
  rw [List.length_append, List.length_singleton, List.range_succ, List.map_append, List.map_singleton, List.take_left']
  · congr 1
    apply List.map_congr_left
    intro i hi
    rw [List.mem_range] at hi
    rw [List.take_append_of_le_length (by omega)]
  · rfl

theorem Enc.open {L : List (List Nat × List Nat)} {s : St} (h : Enc G L s) (b : Nat) : Enc G (L ++ [([], [])]) (openIsland s b) := by
  refine ⟨?_, ?_, ?_, ?_, ?_, ?_, ?_⟩
  · rw [flat_append, flat_one, List.append_nil]; exact h.bodies
  · rw [range_take_snoc (fun l => (flat l).length), ← h.start, ← h.bodies]; rfl
  · rw [List.map_append, ← h.nb]; rfl
  · rw [ords_append, ords_one, List.append_nil]; exact h.order
  · rw [range_take_snoc (fun l => msum G (ords l)), ← h.mStart, ← h.total]; rfl
  · rw [List.map_append, ← h.mNb]; rfl
  · rw [ords_append, ords_one, List.append_nil]; exact h.total

/-- A body that is not static is in a finished island. -/
def Old (G : Graph) (L : List (List Nat × List Nat)) (b : Nat) : Prop := G.static b = false ∧ ∃ l ∈ L, b ∈ l.1

def simP (P : CP) : Prop := P.sim1 = true ∧ P.sim2 = true

/-- What is known of a finished island. -/
structure IslOk (G : Graph) (m : Nat → List Nat) (l : List Nat × List Nat) : Prop where
  nodup : l.1.Nodup
  root : ∃ r ∈ l.1, G.static r = false ∧ ∀ b ∈ l.1, Chain G r b
  pairs : ∀ p ∈ l.2, ∃ P, G.pairs[p]? = some P ∧ simP P ∧ P.b1 ∈ l.1 ∧ P.b2 ∈ l.1 ∧ (G.static P.b1 = false ∨ G.static P.b2 = false)
  sub : ∀ b ∈ l.1, b ∈ G.bodies

/-- The invariant inside an island with root `r`; all pairs and joints of the bodies in `K` have been visited.  `E` are the bodies enabled at the start of the island. -/
structure DI (G : Graph) (m : Nat → List Nat) (L : List (List Nat × List Nat)) (r : Nat) (E : List Nat) (C O : List Nat) (K : Nat → Prop) (s : St) : Prop where
  enc : Enc G (L ++ [(C, O)]) s
  inIsl : ∀ b, s.inIsl b = true ↔ Old G L b ∨ b ∈ C ∨ b ∈ s.stack
  nodup : (C ++ s.stack).Nodup
  fresh : ∀ b, b ∈ C ∨ b ∈ s.stack → ¬ Old G L b
  sub : ∀ b, b ∈ C ∨ b ∈ s.stack → b ∈ G.bodies
  chain : ∀ b, b ∈ C ∨ b ∈ s.stack → Chain G r b
  statics : s.statics = C.filter fun b => G.static b
  pIn : ∀ p P, G.pairs[p]? = some P → simP P → s.pDone p = true →
    (∃ l ∈ L, P.b1 ∈ l.1 ∧ P.b2 ∈ l.1 ∧ p ∈ l.2) ∨ ((P.b1 ∈ C ∨ P.b1 ∈ s.stack) ∧ (P.b2 ∈ C ∨ P.b2 ∈ s.stack) ∧ p ∈ O)
  pAll : ∀ a, (Old G L a ∨ (G.static a = false ∧ K a)) → ∀ p ∈ m a, s.pDone p = true
  jIn : ∀ j J, G.joint j = some J → s.jDone j = true →
    (∃ l ∈ L, J.1 ∈ l.1 ∧ J.2 ∈ l.1) ∨ ((J.1 ∈ C ∨ J.1 ∈ s.stack) ∧ (J.2 ∈ C ∨ J.2 ∈ s.stack))
  jAll : ∀ a, (Old G L a ∨ (G.static a = false ∧ K a)) → ∀ j ∈ G.jointsOf a, s.jDone j = true
  oDone : ∀ p, p ∈ ords L ∨ p ∈ O → s.pDone p = true
  oNodup : (ords L ++ O).Nodup
  oPair : ∀ p ∈ O, ∃ P, G.pairs[p]? = some P ∧ simP P ∧ (P.b1 ∈ C ∨ P.b1 ∈ s.stack) ∧ (P.b2 ∈ C ∨ P.b2 ∈ s.stack) ∧
    (G.static P.b1 = false ∨ G.static P.b2 = false)
  eNodup : s.enabled.Nodup
  eSub : ∀ b ∈ s.enabled, b ∈ G.bodies
  ePre : E <+: s.enabled
  eWake : ∀ b ∈ C, G.wakes b = true → b ∈ s.enabled
  eNew : ∀ b ∈ s.enabled, b ∈ E ∨ b ∈ C
  root : r ∈ C ∨ r ∈ s.stack

/-- The bodies not yet in an island and the bodies to visit. -/
def mu (G : Graph) (s : St) : Nat := (G.bodies.filter fun b => !s.inIsl b).length + s.stack.length

theorem filter_upd_lt {f : Nat → Bool} {o : Nat} {l : List Nat} (ho : o ∈ l) (hf : f o = false) :
    (l.filter fun b => !(upd f o true b)).length + 1 ≤ (l.filter fun b => !f b).length := by
  have h1 : ∀ l : List Nat, (l.filter fun b => !(upd f o true b)).length ≤ (l.filter fun b => !f b).length := by
    intro l
    induction l with
    | nil => simp
    | cons x l ih =>
      by_cases e : x = o
      · subst e
        simp only [List.filter_cons, upd_same, hf, Bool.not_true, Bool.not_false, if_true, Bool.false_eq_true, if_false, List.length_cons]
        omega
      · simp only [List.filter_cons, upd_ne _ _ e]
        split
        · simp only [List.length_cons]; omega
        · exact ih
  induction l with
  | nil => cases ho
  | cons x l ih =>
    by_cases e : x = o
    · subst e
      simp only [List.filter_cons, upd_same, hf, Bool.not_true, Bool.not_false, if_true, Bool.false_eq_true, if_false, List.length_cons]
      have := h1 l
      omega
    · have ho : o ∈ l := by
        rcases List.mem_cons.1 ho with h | h
        · exact absurd h.symm e
        · exact h
      simp only [List.filter_cons, upd_ne _ _ e]
      split
      · simp only [List.length_cons]; have := ih ho; omega
      · exact ih ho

variable {L : List (List Nat × List Nat)} {r : Nat} {E C O : List Nat} {K : Nat → Prop} {s : St}

theorem pushBody_ok (h : DI G m L r E C O K s) {o : Nat} (ho : o ∈ G.bodies) (hold : ¬ Old G L o) (hc : Chain G r o) :
    ∃ s', pushBody G s o = some s' ∧ DI G m L r E C O K s' ∧ (o ∈ C ∨ o ∈ s'.stack) ∧ (∀ b ∈ s.stack, b ∈ s'.stack) ∧ s'.pDone = s.pDone ∧ s'.jDone = s.jDone ∧
      mu G s' ≤ mu G s := by
  unfold pushBody
  rw [if_pos ho]
  by_cases hi : s.inIsl o = true
  · rw [if_pos hi]
    refine ⟨s, rfl, h, ?_, fun b hb => hb, rfl, rfl, Nat.le_refl _⟩
    rcases (h.inIsl o).1 hi with g | g
    · exact absurd g hold
    · exact g
  · rw [if_neg hi]
    have hn : ¬ (o ∈ C ∨ o ∈ s.stack) := fun g => hi ((h.inIsl o).2 (Or.inr g))
    have up : ∀ b, b ∈ C ∨ b ∈ s.stack → b ∈ C ∨ b ∈ o :: s.stack := by
      rintro b (g | g)
      · exact Or.inl g
      · exact Or.inr (List.mem_cons_of_mem _ g)
    have dn : ∀ {p : Nat → Prop}, (∀ b, b ∈ C ∨ b ∈ s.stack → p b) → p o → ∀ b, b ∈ C ∨ b ∈ o :: s.stack → p b := by
      rintro p h1 h2 b (g | g)
      · exact h1 b (Or.inl g)
      · rcases List.mem_cons.1 g with rfl | g
        · exact h2
        · exact h1 b (Or.inr g)
    refine ⟨_, rfl, ⟨⟨h.enc.bodies, h.enc.start, h.enc.nb, h.enc.order, h.enc.mStart, h.enc.mNb, h.enc.total⟩, ?_, ?_, dn h.fresh hold, dn h.sub ho, dn h.chain hc, h.statics, ?_, h.pAll, ?_,
      h.jAll, h.oDone, h.oNodup, ?_, h.eNodup, h.eSub, h.ePre, h.eWake, h.eNew, up _ h.root⟩, Or.inr (by simp), fun b hb => List.mem_cons_of_mem _ hb, rfl, rfl, ?_⟩
    · intro b
      show upd s.inIsl o true b = true ↔ Old G L b ∨ b ∈ C ∨ b ∈ o :: s.stack
      by_cases e : b = o
      · subst e; rw [upd_same]; simp
      · rw [upd_ne _ _ e, h.inIsl, List.mem_cons]; simp [e]
    · show (C ++ o :: s.stack).Nodup
      rw [List.nodup_middle, List.nodup_cons]
      refine ⟨?_, h.nodup⟩
      rw [List.mem_append]; exact hn
    · intro p P hp hs hd
      rcases h.pIn p P hp hs hd with g | ⟨g1, g2, g3⟩
      · exact Or.inl g
      · exact Or.inr ⟨up _ g1, up _ g2, g3⟩
    · intro j J hj hd
      rcases h.jIn j J hj hd with g | ⟨g1, g2⟩
      · exact Or.inl g
      · exact Or.inr ⟨up _ g1, up _ g2⟩
    · intro p hp
      obtain ⟨P, hP, hs, g1, g2, g3⟩ := h.oPair p hp
      exact ⟨P, hP, hs, up _ g1, up _ g2, g3⟩
    · have := filter_upd_lt (f := s.inIsl) (l := G.bodies) ho (by simpa using hi)
      show (G.bodies.filter fun b => !(upd s.inIsl o true b)).length + (s.stack.length + 1) ≤ (G.bodies.filter fun b => !s.inIsl b).length + s.stack.length
      omega

theorem other_same {a b1 b2 : Nat} (h : b1 = a ∨ b2 = a) : (b1 = a ∧ b2 = other a b1 b2) ∨ (b1 = other a b1 b2 ∧ b2 = a) := by
  unfold other
  by_cases e : b1 = a
  · rw [if_pos e]; exact Or.inl ⟨e, rfl⟩
  · rw [if_neg e]; exact Or.inr ⟨rfl, h.resolve_left e⟩

/-- The list of pairs of a body is right. -/
def Lists (G : Graph) (m : Nat → List Nat) : Prop := ∀ b p, p ∈ m b ↔ ∃ P, G.pairs[p]? = some P ∧ (P.b1 = b ∨ P.b2 = b)

theorem visitPair_ok (wf : Wf G) (hm : Lists G m) (h : DI G m L r E C O K s) {a p : Nat} (ha : a ∈ C) (hst : G.static a = false) (hp : p ∈ m a) :
    ∃ s' O', visitPair G a s p = some s' ∧ DI G m L r E C O' K s' ∧ s'.pDone p = true ∧ (∀ q, s.pDone q = true → s'.pDone q = true) ∧ s'.jDone = s.jDone ∧ mu G s' ≤ mu G s := by
  obtain ⟨P, hP, hb⟩ := (hm a p).1 hp
  have hPm := List.mem_of_getElem? hP
  unfold visitPair
  rw [hP]
  simp only
  by_cases hd : s.pDone p = true
  · rw [if_pos hd]
    exact ⟨s, O, rfl, h, hd, fun _ g => g, rfl, Nat.le_refl _⟩
  rw [if_neg hd]
  have ht := other_same hb
  -- the other body is not in a finished island
  have hold : ¬ Old G L (other a P.b1 P.b2) := by
    intro ho
    apply hd
    refine h.pAll _ (Or.inl ho) p ((hm _ _).2 ⟨P, hP, ?_⟩)
    rcases ht with ⟨_, g⟩ | ⟨g, _⟩
    · exact Or.inr g
    · exact Or.inl g
  have hbod : other a P.b1 P.b2 ∈ G.bodies := by
    obtain ⟨_, g1, g2⟩ := wf.pair P hPm
    rcases ht with ⟨_, g⟩ | ⟨g, _⟩
    · rw [← g]; exact g2
    · rw [← g]; exact g1
  have mono : ∀ q, s.pDone q = true → upd s.pDone p true q = true := by
    intro q hq
    by_cases e : q = p
    · subst e; exact upd_same _ _ _
    · rw [upd_ne _ _ e]; exact hq
  by_cases hs : simP P
  · have hns : ¬ ((!P.sim1 || !P.sim2) = true) := by simp [hs.1, hs.2]
    rw [if_neg hns]
    have hsim : G.hasSim (other a P.b1 P.b2) = true := by
      obtain ⟨g1, g2⟩ := wf.sim P hPm hs.1 hs.2
      rcases ht with ⟨_, g⟩ | ⟨g, _⟩
      · rw [← g]; exact g2
      · rw [← g]; exact g1
    rw [if_pos hsim]
    have hmNb : s.mNb = L.map (fun l => msum G l.2) ++ [msum G O] := by
      rw [h.enc.mNb, List.map_append]; rfl
    rw [hmNb, addLast_append]
    simp only
    have hsz : size G p = P.n := by simp [size, hP]
    have hmO : msum G (O ++ [p]) = msum G O + P.n := by rw [msum_append]; simp [msum, hsz]
    have hpo : p ∉ ords L ++ O := by
      intro g
      exact hd (h.oDone p (List.mem_append.1 g))
    have hch : Chain G r (other a P.b1 P.b2) := by
      refine Relation.ReflTransGen.tail (h.chain a (Or.inl ha)) ⟨hst, Or.inl ⟨P, hPm, hs.1, hs.2, ?_⟩⟩
      exact ht.imp (fun g => ⟨g.1, g.2⟩) (fun g => ⟨g.1, g.2⟩)
    unfold pushBody
    rw [if_pos hbod]
    -- the state before the push lacks only the membership of the other body
    have key : ∀ st : List Nat, (∀ b ∈ s.stack, b ∈ st) → (other a P.b1 P.b2 ∈ C ∨ other a P.b1 P.b2 ∈ st) → ∀ inIsl : Nat → Bool,
        (∀ b, inIsl b = true ↔ Old G L b ∨ b ∈ C ∨ b ∈ st) → (C ++ st).Nodup → (∀ b, b ∈ st → b ∈ s.stack ∨ b = other a P.b1 P.b2) →
        DI G m L r E C (O ++ [p]) K
          { s with
            pDone := upd s.pDone p true
            order := s.order ++ [p]
            total := s.total + P.n
            mNb := L.map (fun l => msum G l.2) ++ [msum G O + P.n]
            stack := st
            inIsl := inIsl } := by
      intro st hsub ho inIsl hin hnd hback
      have up : ∀ b, b ∈ C ∨ b ∈ s.stack → b ∈ C ∨ b ∈ st := by
        rintro b (g | g)
        · exact Or.inl g
        · exact Or.inr (hsub b g)
      have dn : ∀ {q : Nat → Prop}, (∀ b, b ∈ C ∨ b ∈ s.stack → q b) → q (other a P.b1 P.b2) → ∀ b, b ∈ C ∨ b ∈ st → q b := by
        rintro q h1 h2 b (g | g)
        · exact h1 b (Or.inl g)
        · rcases hback b g with g | rfl
          · exact h1 b (Or.inr g)
          · exact h2
      have both : (P.b1 ∈ C ∨ P.b1 ∈ st) ∧ (P.b2 ∈ C ∨ P.b2 ∈ st) := by
        rcases ht with ⟨g1, g2⟩ | ⟨g1, g2⟩
        · rw [← g2] at ho; exact ⟨Or.inl (g1 ▸ ha), ho⟩
        · rw [← g1] at ho; exact ⟨ho, Or.inl (g2 ▸ ha)⟩
      refine ⟨⟨?_, ?_, ?_, ?_, ?_, ?_, ?_⟩, hin, hnd, dn h.fresh hold, dn h.sub hbod, dn h.chain hch, h.statics, ?_, ?_, ?_, h.jAll, ?_, ?_, ?_, h.eNodup, h.eSub, h.ePre, h.eWake, h.eNew, up _ h.root⟩
      · rw [flat_append, flat_one]; have := h.enc.bodies; rw [flat_append, flat_one] at this; exact this
      · rw [range_take_snoc (fun l => (flat l).length)]; have := h.enc.start; rw [range_take_snoc (fun l => (flat l).length)] at this; exact this
      · have := h.enc.nb; rw [List.map_append] at this ⊢; exact this
      · have := h.enc.order; rw [ords_append, ords_one] at this ⊢
        show s.order ++ [p] = _
        rw [this, List.append_assoc]
      · rw [range_take_snoc (fun l => msum G (ords l))]; have := h.enc.mStart; rw [range_take_snoc (fun l => msum G (ords l))] at this; exact this
      · rw [List.map_append, List.map_singleton, hmO]
      · have := h.enc.total; rw [ords_append, ords_one, msum_append] at this ⊢
        show s.total + P.n = _
        rw [this, hmO]; omega
      · intro q Q hQ hsQ hdQ
        by_cases e : q = p
        · subst e
          rw [hP] at hQ; cases hQ
          exact Or.inr ⟨both.1, both.2, by simp⟩
        · have hdQ : upd s.pDone p true q = true := hdQ
          rw [upd_ne _ _ e] at hdQ
          rcases h.pIn q Q hQ hsQ hdQ with g | ⟨g1, g2, g3⟩
          · exact Or.inl g
          · exact Or.inr ⟨up _ g1, up _ g2, List.mem_append_left _ g3⟩
      · intro b hb q hq
        exact mono q (h.pAll b hb q hq)
      · intro j J hj hdj
        rcases h.jIn j J hj hdj with g | ⟨g1, g2⟩
        · exact Or.inl g
        · exact Or.inr ⟨up _ g1, up _ g2⟩
      · rintro q (hq | hq)
        · exact mono q (h.oDone q (Or.inl hq))
        · rcases List.mem_append.1 hq with hq | hq
          · exact mono q (h.oDone q (Or.inr hq))
          · rw [List.mem_singleton] at hq; subst hq; exact upd_same _ _ _
      · rw [← List.append_assoc, List.nodup_append]
        refine ⟨h.oNodup, by simp, ?_⟩
        intro x hx y hy
        rw [List.mem_singleton] at hy; subst hy
        rintro rfl
        exact hpo hx
      · intro q hq
        rcases List.mem_append.1 hq with hq | hq
        · obtain ⟨Q, hQ, hsQ, g1, g2, g3⟩ := h.oPair q hq
          exact ⟨Q, hQ, hsQ, up _ g1, up _ g2, g3⟩
        · rw [List.mem_singleton] at hq; subst hq
          exact ⟨P, hP, hs, both.1, both.2, by rcases hb with e | e <;> simp [e, hst]⟩
    by_cases hi : s.inIsl (other a P.b1 P.b2) = true
    · rw [if_pos hi]
      have hmem : other a P.b1 P.b2 ∈ C ∨ other a P.b1 P.b2 ∈ s.stack := by
        rcases (h.inIsl _).1 hi with g | g
        · exact absurd g hold
        · exact g
      exact ⟨_, O ++ [p], rfl, key s.stack (fun _ g => g) hmem s.inIsl h.inIsl h.nodup (fun _ g => Or.inl g), upd_same _ _ _, mono, rfl, Nat.le_refl _⟩
    · rw [if_neg hi]
      have hn : ¬ (other a P.b1 P.b2 ∈ C ∨ other a P.b1 P.b2 ∈ s.stack) := fun g => hi ((h.inIsl _).2 (Or.inr g))
      refine ⟨_, O ++ [p], rfl, key (other a P.b1 P.b2 :: s.stack) (fun _ g => List.mem_cons_of_mem _ g) (Or.inr (by simp)) _ ?_ ?_ ?_, upd_same _ _ _, mono, rfl, ?_⟩
      · intro b
        by_cases e : b = other a P.b1 P.b2
        · rw [e, upd_same]; simp
        · rw [upd_ne _ _ e, h.inIsl, List.mem_cons]; simp [e]
      · rw [List.nodup_middle, List.nodup_cons]
        refine ⟨?_, h.nodup⟩
        rw [List.mem_append]; exact hn
      · intro b hb
        rcases List.mem_cons.1 hb with g | g
        · exact Or.inr g
        · exact Or.inl g
      · have := filter_upd_lt (f := s.inIsl) (l := G.bodies) hbod (by simpa using hi)
        show (G.bodies.filter fun b => !(upd s.inIsl (other a P.b1 P.b2) true b)).length + (s.stack.length + 1) ≤
          (G.bodies.filter fun b => !s.inIsl b).length + s.stack.length
        omega
  · have hns : (!P.sim1 || !P.sim2) = true := by
      cases h1 : P.sim1 <;> cases h2 : P.sim2 <;> simp_all [simP]
    rw [if_pos hns]
    refine ⟨_, O, rfl, ?_, upd_same _ _ _, mono, rfl, Nat.le_refl _⟩
    refine ⟨⟨h.enc.bodies, h.enc.start, h.enc.nb, h.enc.order, h.enc.mStart, h.enc.mNb, h.enc.total⟩, h.inIsl, h.nodup, h.fresh, h.sub, h.chain, h.statics, ?_,
      fun b hb q hq => mono q (h.pAll b hb q hq), h.jIn, h.jAll, fun q hq => mono q (h.oDone q hq), h.oNodup, h.oPair, h.eNodup, h.eSub, h.ePre, h.eWake, h.eNew, h.root⟩
    intro q Q hQ hsQ hdQ
    by_cases e : q = p
    · subst e
      rw [hP] at hQ; cases hQ
      exact absurd hsQ hs
    · have hdQ : upd s.pDone p true q = true := hdQ
      rw [upd_ne _ _ e] at hdQ
      exact h.pIn q Q hQ hsQ hdQ

theorem visitJoint_ok (wf : Wf G) (h : DI G m L r E C O K s) {a j : Nat} (ha : a ∈ C) (hst : G.static a = false) (hj : j ∈ G.jointsOf a) :
    ∃ s', visitJoint G a s j = some s' ∧ DI G m L r E C O K s' ∧ s'.jDone j = true ∧ (∀ q, s.jDone q = true → s'.jDone q = true) ∧ s'.pDone = s.pDone ∧ mu G s' ≤ mu G s := by
  obtain ⟨J, hJ, hb⟩ := (wf.jointsOf a j).1 hj
  unfold visitJoint
  rw [hJ]
  simp only
  by_cases hd : s.jDone j = true
  · rw [if_pos hd]
    exact ⟨s, rfl, h, hd, fun _ g => g, rfl, Nat.le_refl _⟩
  rw [if_neg hd]
  have ht := other_same hb
  have hold : ¬ Old G L (other a J.1 J.2) := by
    intro ho
    apply hd
    refine h.jAll _ (Or.inl ho) j ((wf.jointsOf _ _).2 ⟨J, hJ, ?_⟩)
    rcases ht with ⟨_, g⟩ | ⟨g, _⟩
    · exact Or.inr g.symm.symm
    · exact Or.inl g
  have hbod : other a J.1 J.2 ∈ G.bodies := by
    obtain ⟨_, g1, g2⟩ := wf.joint j J hJ
    rcases ht with ⟨_, g⟩ | ⟨g, _⟩
    · rw [← g]; exact g2
    · rw [← g]; exact g1
  have hch : Chain G r (other a J.1 J.2) :=
    Relation.ReflTransGen.tail (h.chain a (Or.inl ha)) ⟨hst, Or.inr ⟨j, J, hJ, ht⟩⟩
  obtain ⟨s', e, h', ho, hsub, e1, e2, hmu⟩ := pushBody_ok h hbod hold hch
  have ep : pushBody G { s with jDone := upd s.jDone j true } (other a J.1 J.2) = some { s' with jDone := upd s.jDone j true } := by
    unfold pushBody at e ⊢
    rw [if_pos hbod] at e ⊢
    simp only
    split at e
    · rename_i g; rw [if_pos g]; cases e; rfl
    · rename_i g; rw [if_neg g]; cases e; rfl
  have mono : ∀ q, s.jDone q = true → upd s.jDone j true q = true := by
    intro q hq
    by_cases e : q = j
    · subst e; exact upd_same _ _ _
    · rw [upd_ne _ _ e]; exact hq
  refine ⟨_, ep, ?_, upd_same _ _ _, mono, e1, hmu⟩
  refine ⟨⟨h'.enc.bodies, h'.enc.start, h'.enc.nb, h'.enc.order, h'.enc.mStart, h'.enc.mNb, h'.enc.total⟩, h'.inIsl, h'.nodup, h'.fresh, h'.sub, h'.chain, h'.statics, h'.pIn, h'.pAll, ?_,
    ?_, h'.oDone, h'.oNodup, h'.oPair, h'.eNodup, h'.eSub, h'.ePre, h'.eWake, h'.eNew, h'.root⟩
  · intro q Q hQ hdQ
    by_cases e : q = j
    · subst e
      rw [hJ] at hQ; cases hQ
      refine Or.inr ?_
      rcases ht with ⟨g1, g2⟩ | ⟨g1, g2⟩
      · rw [← g2] at ho; exact ⟨Or.inl (g1 ▸ ha), ho⟩
      · rw [← g1] at ho; exact ⟨ho, Or.inl (g2 ▸ ha)⟩
    · have hdQ : upd s.jDone j true q = true := hdQ
      rw [upd_ne _ _ e, ← e2] at hdQ
      exact h'.jIn q Q hQ hdQ
  · intro b hb q hq
    have := h'.jAll b hb q hq
    rw [e2] at this
    exact mono q this

theorem visitPairs_ok (wf : Wf G) (hm : Lists G m) {a : Nat} (ha : a ∈ C) (hst : G.static a = false) (l : List Nat) (hl : ∀ p ∈ l, p ∈ m a)
    (h : DI G m L r E C O K s) : ∃ s' O', l.foldlM (visitPair G a) s = some s' ∧ DI G m L r E C O' K s' ∧ (∀ p ∈ l, s'.pDone p = true) ∧
      (∀ q, s.pDone q = true → s'.pDone q = true) ∧ mu G s' ≤ mu G s := by
  induction l generalizing s O with
  | nil => exact ⟨s, O, rfl, h, (by simp), fun _ g => g, Nat.le_refl _⟩
  | cons p l ih =>
    obtain ⟨s1, O1, e1, h1, d1, mo1, _, u1⟩ := visitPair_ok wf hm h ha hst (hl p (by simp))
    obtain ⟨s2, O2, e2, h2, d2, mo2, u2⟩ := ih (fun q hq => hl q (List.mem_cons_of_mem _ hq)) h1
    refine ⟨s2, O2, by rw [List.foldlM_cons, e1]; exact e2, h2, ?_, fun q hq => mo2 q (mo1 q hq), Nat.le_trans u2 u1⟩
    intro q hq
    rcases List.mem_cons.1 hq with rfl | hq
    · exact mo2 _ d1
    · exact d2 q hq

theorem visitJoints_ok (wf : Wf G) {a : Nat} (ha : a ∈ C) (hst : G.static a = false) (l : List Nat) (hl : ∀ j ∈ l, j ∈ G.jointsOf a)
    (h : DI G m L r E C O K s) : ∃ s', l.foldlM (visitJoint G a) s = some s' ∧ DI G m L r E C O K s' ∧ (∀ j ∈ l, s'.jDone j = true) ∧
      (∀ q, s.jDone q = true → s'.jDone q = true) ∧ s'.pDone = s.pDone ∧ mu G s' ≤ mu G s := by
  induction l generalizing s with
  | nil => exact ⟨s, rfl, h, (by simp), fun _ g => g, rfl, Nat.le_refl _⟩
  | cons j l ih =>
    obtain ⟨s1, e1, h1, d1, mo1, p1, u1⟩ := visitJoint_ok wf h ha hst (hl j (by simp))
    obtain ⟨s2, e2, h2, d2, mo2, p2, u2⟩ := ih (fun q hq => hl q (List.mem_cons_of_mem _ hq)) h1
    refine ⟨s2, by rw [List.foldlM_cons, e1]; exact e2, h2, ?_, fun q hq => mo2 q (mo1 q hq), p2.trans p1, Nat.le_trans u2 u1⟩
    intro q hq
    rcases List.mem_cons.1 hq with rfl | hq
    · exact mo2 _ d1
    · exact d2 q hq

/-- The state after `addBodyToIsland` and `setIsSleeping(false)`. -/
theorem pop_ok {b : Nat} {l nb' : List Nat} (h : DI G m L r E C O (· ∈ C) s) (hs : s.stack = b :: l) (hnb : addLast 1 s.nb = some nb') (st : List Nat)
    (hst : st = if G.static b then s.statics ++ [b] else s.statics) :
    DI G m L r E (C ++ [b]) O (· ∈ C) { wakeBody G { s with stack := l, bodies := s.bodies ++ [b], nb := nb' } b with statics := st } := by
  have hmv : ∀ x, x ∈ C ++ [b] ∨ x ∈ l ↔ x ∈ C ∨ x ∈ s.stack := by
    intro x
    rw [hs, List.mem_append, List.mem_singleton, List.mem_cons]
    tauto
  have hnb' : nb' = L.map (fun l => l.1.length) ++ [C.length + 1] := by
    rw [h.enc.nb, List.map_append, List.map_singleton, addLast_append] at hnb
    exact (Option.some.inj hnb).symm
  have hbod : s.bodies = flat L ++ C := by rw [h.enc.bodies, flat_append, flat_one]
  have hb : b ∈ G.bodies := h.sub b (Or.inr (by rw [hs]; simp))
  have w : wakeBody G { s with stack := l, bodies := s.bodies ++ [b], nb := nb' } b =
      { s with
        stack := l
        bodies := s.bodies ++ [b]
        nb := nb'
        enabled := if G.wakes b ∧ b ∉ s.enabled then s.enabled ++ [b] else s.enabled } := by
    unfold wakeBody
    simp only
    split <;> rfl
  rw [w]
  have een : ∀ x, x ∈ (if G.wakes b ∧ b ∉ s.enabled then s.enabled ++ [b] else s.enabled) → x ∈ s.enabled ∨ x = b := by
    intro x hx
    split at hx
    · simpa using hx
    · exact Or.inl hx
  have een' : ∀ x, x ∈ s.enabled → x ∈ (if G.wakes b ∧ b ∉ s.enabled then s.enabled ++ [b] else s.enabled) := by
    intro x hx
    split
    · exact List.mem_append_left _ hx
    · exact hx
  refine ⟨⟨?_, ?_, ?_, ?_, ?_, ?_, ?_⟩, ?_, ?_, ?_, ?_, ?_, ?_, ?_, h.pAll, ?_, h.jAll, h.oDone, h.oNodup, ?_, ?_, ?_, ?_, ?_, ?_, (hmv _).2 h.root⟩
  · rw [flat_append, flat_one, hbod, List.append_assoc]
  · rw [range_take_snoc (fun l => (flat l).length)]; have := h.enc.start; rw [range_take_snoc (fun l => (flat l).length)] at this; exact this
  · rw [List.map_append, List.map_singleton, List.length_append]; exact hnb'
  · have := h.enc.order; rw [ords_append, ords_one] at this ⊢; exact this
  · rw [range_take_snoc (fun l => msum G (ords l))]; have := h.enc.mStart; rw [range_take_snoc (fun l => msum G (ords l))] at this; exact this
  · have := h.enc.mNb; rw [List.map_append, List.map_singleton] at this ⊢; exact this
  · have := h.enc.total; rw [ords_append, ords_one] at this ⊢; exact this
  · intro x
    show s.inIsl x = true ↔ Old G L x ∨ x ∈ C ++ [b] ∨ x ∈ l
    rw [h.inIsl, hmv]
  · show (C ++ [b] ++ l).Nodup
    have := h.nodup
    rw [hs] at this
    rwa [List.append_assoc]
  · exact fun x hx => h.fresh x ((hmv x).1 hx)
  · exact fun x hx => h.sub x ((hmv x).1 hx)
  · exact fun x hx => h.chain x ((hmv x).1 hx)
  · show st = _
    rw [hst, h.statics, List.filter_append]
    cases hb : G.static b <;> simp [hb]
  · intro p P hp hsP hd
    rcases h.pIn p P hp hsP hd with g | ⟨g1, g2, g3⟩
    · exact Or.inl g
    · exact Or.inr ⟨(hmv _).2 g1, (hmv _).2 g2, g3⟩
  · intro j J hj hd
    rcases h.jIn j J hj hd with g | ⟨g1, g2⟩
    · exact Or.inl g
    · exact Or.inr ⟨(hmv _).2 g1, (hmv _).2 g2⟩
  · intro p hp
    obtain ⟨P, hP, hsP, g1, g2, g3⟩ := h.oPair p hp
    exact ⟨P, hP, hsP, (hmv _).2 g1, (hmv _).2 g2, g3⟩
  · show List.Nodup (if _ then _ else _)
    split
    · rename_i g
      rw [List.nodup_append]
      refine ⟨h.eNodup, by simp, ?_⟩
      rintro x hx y hy rfl
      rw [List.mem_singleton] at hy; subst hy
      exact g.2 hx
    · exact h.eNodup
  · intro x hx
    rcases een x hx with g | rfl
    · exact h.eSub x g
    · exact hb
  · show E <+: (if _ then _ else _)
    split
    · exact h.ePre.trans (List.prefix_append _ _)
    · exact h.ePre
  · intro x hx hw
    rcases List.mem_append.1 hx with hx | hx
    · exact een' x (h.eWake x hx hw)
    · rw [List.mem_singleton] at hx
      subst hx
      show x ∈ (if _ then _ else _)
      by_cases g : x ∈ s.enabled
      · exact een' x g
      · rw [if_pos ⟨hw, g⟩]; simp
  · intro x hx
    rcases een x hx with g | rfl
    · rcases h.eNew x g with k | k
      · exact Or.inl k
      · exact Or.inr (List.mem_append_left _ k)
    · exact Or.inr (by simp)

theorem mu_pop {b : Nat} {l : List Nat} {s' : St} (hs : s.stack = b :: l) (h1 : s'.inIsl = s.inIsl) (h2 : s'.stack = l) : mu G s' + 1 = mu G s := by
  unfold mu
  rw [h1, h2, hs, List.length_cons]
  omega

theorem wakeBody_fields (s : St) (b : Nat) : (wakeBody G s b).inIsl = s.inIsl ∧ (wakeBody G s b).stack = s.stack ∧ (wakeBody G s b).statics = s.statics := by
  unfold wakeBody
  split <;> exact ⟨rfl, rfl, rfl⟩

theorem visit_ok (wf : Wf G) (hm : Lists G m) {b : Nat} {l : List Nat} (h : DI G m L r E C O (· ∈ C) s) (hs : s.stack = b :: l) :
    ∃ s' O', visit G m { s with stack := l } b = some s' ∧ DI G m L r E (C ++ [b]) O' (· ∈ C ++ [b]) s' ∧ mu G s' + 1 ≤ mu G s := by
  have hnb : ∃ nb', addLast 1 s.nb = some nb' := by
    rw [h.enc.nb, List.map_append, List.map_singleton, addLast_append]
    exact ⟨_, rfl⟩
  obtain ⟨nb', hnb⟩ := hnb
  have hf := wakeBody_fields (G := G) { s with stack := l, bodies := s.bodies ++ [b], nb := nb' } b
  unfold visit
  simp only [hnb]
  cases hst : G.static b with
  | true =>
    have hp := pop_ok h hs hnb (s.statics ++ [b]) (by rw [hst]; rfl)
    rw [if_pos rfl]
    refine ⟨_, O, rfl, ?_, ?_⟩
    · rw [hf.2.2]
      refine ⟨hp.enc, hp.inIsl, hp.nodup, hp.fresh, hp.sub, hp.chain, hp.statics, hp.pIn, ?_, hp.jIn, ?_, hp.oDone, hp.oNodup, hp.oPair, hp.eNodup, hp.eSub, hp.ePre, hp.eWake, hp.eNew, hp.root⟩
      · rintro a (ha | ⟨ha, hc⟩)
        · exact hp.pAll a (Or.inl ha)
        · rcases List.mem_append.1 hc with hc | hc
          · exact hp.pAll a (Or.inr ⟨ha, hc⟩)
          · rw [List.mem_singleton] at hc; subst hc; rw [hst] at ha; cases ha
      · rintro a (ha | ⟨ha, hc⟩)
        · exact hp.jAll a (Or.inl ha)
        · rcases List.mem_append.1 hc with hc | hc
          · exact hp.jAll a (Or.inr ⟨ha, hc⟩)
          · rw [List.mem_singleton] at hc; subst hc; rw [hst] at ha; cases ha
    · exact Nat.le_of_eq (mu_pop hs hf.1 hf.2.1)
  | false =>
    have hp := pop_ok h hs hnb s.statics (by rw [hst]; rfl)
    rw [if_neg (by simp)]
    have e : { wakeBody G { s with stack := l, bodies := s.bodies ++ [b], nb := nb' } b with statics := s.statics } =
        wakeBody G { s with stack := l, bodies := s.bodies ++ [b], nb := nb' } b := by
      have := hf.2.2
      revert this
      generalize wakeBody G { s with stack := l, bodies := s.bodies ++ [b], nb := nb' } b = x
      intro hx
      cases x
      simp only at hx
      rw [hx]
    rw [e] at hp
    obtain ⟨s1, O1, e1, h1, d1, _, u1⟩ := visitPairs_ok wf hm (a := b) (by simp) hst (m b) (fun _ g => g) hp
    obtain ⟨s2, e2, h2, d2, _, p2, u2⟩ := visitJoints_ok wf (a := b) (by simp) hst (G.jointsOf b) (fun _ g => g) h1
    rw [e1]
    refine ⟨s2, O1, e2, ?_, ?_⟩
    · refine ⟨h2.enc, h2.inIsl, h2.nodup, h2.fresh, h2.sub, h2.chain, h2.statics, h2.pIn, ?_, h2.jIn, ?_, h2.oDone, h2.oNodup, h2.oPair, h2.eNodup, h2.eSub, h2.ePre, h2.eWake, h2.eNew, h2.root⟩
      · rintro a (ha | ⟨ha, hc⟩)
        · exact h2.pAll a (Or.inl ha)
        · rcases List.mem_append.1 hc with hc | hc
          · exact h2.pAll a (Or.inr ⟨ha, hc⟩)
          · rw [List.mem_singleton] at hc; subst hc
            intro p hpm
            rw [p2]; exact d1 p hpm
      · rintro a (ha | ⟨ha, hc⟩)
        · exact h2.jAll a (Or.inl ha)
        · rcases List.mem_append.1 hc with hc | hc
          · exact h2.jAll a (Or.inr ⟨ha, hc⟩)
          · rw [List.mem_singleton] at hc; subst hc; exact d2
    · have := mu_pop (G := G) hs hf.1 hf.2.1
      omega

theorem drain_ok (wf : Wf G) (hm : Lists G m) (k : Nat) (h : DI G m L r E C O (· ∈ C) s) (hk : mu G s ≤ k) :
    ∃ s' C' O', drain G m k s = some s' ∧ DI G m L r E (C ++ C') O' (· ∈ C ++ C') s' ∧ s'.stack = [] := by
  induction k generalizing s C O with
  | zero =>
    have : s.stack = [] := by
      rw [← List.length_eq_zero_iff]
      unfold mu at hk
      omega
    exact ⟨s, [], O, by simp only [drain, if_pos this], by simpa using h, this⟩
  | succ k ih =>
    unfold drain
    cases hs : s.stack with
    | nil => exact ⟨s, [], O, rfl, by simpa using h, hs⟩
    | cons b l =>
      obtain ⟨s1, O1, e1, h1, u1⟩ := visit_ok wf hm h hs
      simp only [e1]
      obtain ⟨s2, C2, O2, e2, h2, g2⟩ := ih h1 (by omega)
      exact ⟨s2, [b] ++ C2, O2, e2, by rw [← List.append_assoc]; exact h2, g2⟩

/-- The invariant between two islands; `E0` are the bodies enabled at the start. -/
structure OI (G : Graph) (m : Nat → List Nat) (E0 : List Nat) (L : List (List Nat × List Nat)) (s : St) : Prop where
  enc : Enc G L s
  inIsl : ∀ b, s.inIsl b = true ↔ Old G L b
  ok : ∀ l ∈ L, IslOk G m l
  disj : L.Pairwise fun l l' => ∀ b, b ∈ l.1 → b ∈ l'.1 → G.static b = true
  statics : s.statics = []
  pIn : ∀ p P, G.pairs[p]? = some P → simP P → s.pDone p = true → ∃ l ∈ L, P.b1 ∈ l.1 ∧ P.b2 ∈ l.1 ∧ p ∈ l.2
  pAll : ∀ a, Old G L a → ∀ p ∈ m a, s.pDone p = true
  jIn : ∀ j J, G.joint j = some J → s.jDone j = true → ∃ l ∈ L, J.1 ∈ l.1 ∧ J.2 ∈ l.1
  jAll : ∀ a, Old G L a → ∀ j ∈ G.jointsOf a, s.jDone j = true
  oDone : ∀ p ∈ ords L, s.pDone p = true
  oNodup : (ords L).Nodup
  eNodup : s.enabled.Nodup
  eSub : ∀ b ∈ s.enabled, b ∈ G.bodies
  ePre : E0 <+: s.enabled
  eWake : ∀ b ∈ flat L, G.wakes b = true → b ∈ s.enabled
  eNew : ∀ b ∈ s.enabled, b ∈ E0 ∨ b ∈ flat L

theorem resetStatics_eq (f : Nat → Bool) (l : List Nat) (b : Nat) : resetStatics f l b = if b ∈ l then false else f b := by
  unfold resetStatics
  induction l generalizing f with
  | nil => simp
  | cons x l ih =>
    rw [List.foldl_cons, ih]
    by_cases h : b ∈ l
    · simp [h]
    · by_cases e : b = x
      · subst e; simp [h, upd_same]
      · simp [h, e, upd_ne _ _ e]

theorem mem_flat {L : List (List Nat × List Nat)} {b : Nat} : b ∈ flat L ↔ ∃ l ∈ L, b ∈ l.1 := by simp [flat]

theorem island_ok (wf : Wf G) (hm : Lists G m) {E0 : List Nat} (h : OI G m E0 L s) {b : Nat} (hb : b ∈ s.enabled) (hin : s.inIsl b = false) (hst : G.static b = false) :
    ∃ s' C O, island G m s b = some s' ∧ OI G m E0 (L ++ [(C, O)]) s' ∧ b ∈ C ∧ s.enabled <+: s'.enabled := by
  have hold : ¬ Old G L b := by
    intro g
    rw [(h.inIsl b).2 g] at hin; cases hin
  have h0 : DI G m L b s.enabled [] [] (· ∈ []) (openIsland s b) := by
    refine ⟨h.enc.open b, ?_, ?_, ?_, ?_, ?_, h.statics, ?_, ?_, ?_, ?_, ?_, ?_, ?_, h.eNodup, h.eSub, List.prefix_refl _, ?_, ?_, Or.inr ?_⟩
    · intro x
      show upd s.inIsl b true x = true ↔ Old G L x ∨ x ∈ [] ∨ x ∈ [b]
      by_cases e : x = b
      · subst e; rw [upd_same]; simp
      · rw [upd_ne _ _ e, h.inIsl]; simp [e]
    · simp [openIsland]
    · rintro x (g | g)
      · cases g
      · rw [show (openIsland s b).stack = [b] from rfl, List.mem_singleton] at g; rw [g]; exact hold
    · rintro x (g | g)
      · cases g
      · rw [show (openIsland s b).stack = [b] from rfl, List.mem_singleton] at g; rw [g]; exact h.eSub b hb
    · rintro x (g | g)
      · cases g
      · rw [show (openIsland s b).stack = [b] from rfl, List.mem_singleton] at g; rw [g]; exact Relation.ReflTransGen.refl
    · exact fun p P hp hs hd => Or.inl (h.pIn p P hp hs hd)
    · rintro a (ha | ⟨_, ha⟩)
      · exact h.pAll a ha
      · cases ha
    · exact fun j J hj hd => Or.inl (h.jIn j J hj hd)
    · rintro a (ha | ⟨_, ha⟩)
      · exact h.jAll a ha
      · cases ha
    · rintro p (hp | hp)
      · exact h.oDone p hp
      · cases hp
    · simpa using h.oNodup
    · intro p hp; cases hp
    · intro x hx; cases hx
    · exact fun x hx => Or.inl hx
    · simp [openIsland]
  have hmu : mu G (openIsland s b) ≤ G.bodies.length + 1 := by
    unfold mu
    have := List.length_filter_le (fun x => !(openIsland s b).inIsl x) G.bodies
    have e : (openIsland s b).stack.length = 1 := rfl
    omega
  obtain ⟨s1, C, O, e1, h1, g1⟩ := drain_ok wf hm (G.bodies.length + 1) h0 hmu
  rw [List.nil_append] at h1
  have cl : ∀ {x}, x ∈ C ∨ x ∈ s1.stack → x ∈ C := by
    rintro x (g | g)
    · exact g
    · rw [g1] at g; cases g
  have hroot : b ∈ C := cl h1.root
  unfold island
  rw [e1]
  refine ⟨_, C, O, rfl, ?_, hroot, h1.ePre⟩
  have oldL : ∀ x, Old G (L ++ [(C, O)]) x ↔ Old G L x ∨ (G.static x = false ∧ x ∈ C) := by
    intro x
    constructor
    · rintro ⟨g, l, hl, hx⟩
      rcases List.mem_append.1 hl with hl | hl
      · exact Or.inl ⟨g, l, hl, hx⟩
      · rw [List.mem_singleton] at hl; subst hl; exact Or.inr ⟨g, hx⟩
    · rintro (⟨g, l, hl, hx⟩ | ⟨g, hx⟩)
      · exact ⟨g, l, List.mem_append_left _ hl, hx⟩
      · exact ⟨g, (C, O), by simp, hx⟩
  refine ⟨⟨h1.enc.bodies, h1.enc.start, h1.enc.nb, h1.enc.order, h1.enc.mStart, h1.enc.mNb, h1.enc.total⟩, ?_, ?_, ?_, rfl, ?_, ?_, ?_, ?_, ?_, ?_, h1.eNodup, h1.eSub,
    h.ePre.trans h1.ePre, ?_, ?_⟩
  · intro x
    show resetStatics s1.inIsl s1.statics x = true ↔ _
    rw [resetStatics_eq, oldL, h1.statics]
    by_cases g : x ∈ C ∧ G.static x = true
    · rw [if_pos (List.mem_filter.2 g)]
      constructor
      · intro k; cases k
      · rintro (⟨k, _⟩ | ⟨k, _⟩)
        · rw [g.2] at k; cases k
        · rw [g.2] at k; cases k
    · rw [if_neg (fun k => g (List.mem_filter.1 k)), h1.inIsl]
      constructor
      · rintro (k | k)
        · exact Or.inl k
        · have k := cl k
          refine Or.inr ⟨?_, k⟩
          cases e : G.static x with
          | false => rfl
          | true => exact absurd ⟨k, e⟩ g
      · rintro (k | ⟨_, k⟩)
        · exact Or.inl k
        · exact Or.inr (Or.inl k)
  · intro l hl
    rcases List.mem_append.1 hl with hl | hl
    · exact h.ok l hl
    · rw [List.mem_singleton] at hl; subst hl
      refine ⟨(List.nodup_append.1 h1.nodup).1, ⟨b, hroot, hst, fun x hx => h1.chain x (Or.inl hx)⟩, ?_, fun x hx => h1.sub x (Or.inl hx)⟩
      intro p hp
      obtain ⟨P, hP, hs, k1, k2, k3⟩ := h1.oPair p hp
      exact ⟨P, hP, hs, cl k1, cl k2, k3⟩
  · rw [List.pairwise_append]
    refine ⟨h.disj, by simp, ?_⟩
    intro l hl l' hl' x hx hx'
    rw [List.mem_singleton] at hl'; subst hl'
    cases e : G.static x with
    | true => rfl
    | false => exact absurd ⟨e, l, hl, hx⟩ (h1.fresh x (Or.inl hx'))
  · intro p P hp hs hd
    rcases h1.pIn p P hp hs hd with ⟨l, hl, k⟩ | ⟨k1, k2, k3⟩
    · exact ⟨l, List.mem_append_left _ hl, k⟩
    · exact ⟨(C, O), by simp, cl k1, cl k2, k3⟩
  · intro a ha
    exact h1.pAll a ((oldL a).1 ha)
  · intro j J hj hd
    rcases h1.jIn j J hj hd with ⟨l, hl, k⟩ | ⟨k1, k2⟩
    · exact ⟨l, List.mem_append_left _ hl, k⟩
    · exact ⟨(C, O), by simp, cl k1, cl k2⟩
  · intro a ha
    exact h1.jAll a ((oldL a).1 ha)
  · intro p hp
    rw [ords_append, ords_one] at hp
    exact h1.oDone p (List.mem_append.1 hp)
  · rw [ords_append, ords_one]
    exact h1.oNodup
  · intro x hx hw
    rw [flat_append, flat_one] at hx
    rcases List.mem_append.1 hx with hx | hx
    · exact h1.ePre.subset (h.eWake x hx hw)
    · exact h1.eWake x hx hw
  · intro x hx
    rw [flat_append, flat_one, List.mem_append]
    rcases h1.eNew x hx with k | k
    · rcases h.eNew x k with k | k
      · exact Or.inl k
      · exact Or.inr (Or.inl k)
    · exact Or.inr (Or.inr k)

/-- All enabled bodies up to `i` have been handled. -/
def Upto (G : Graph) (L : List (List Nat × List Nat)) (s : St) (i : Nat) : Prop := ∀ k b, k < i → s.enabled[k]? = some b → G.static b = true ∨ Old G L b

theorem islands_ok (wf : Wf G) (hm : Lists G m) {E0 : List Nat} (k i : Nat) (h : OI G m E0 L s) (hu : Upto G L s i) (hk : G.bodies.length ≤ k + i) :
    ∃ s' L', islands G m k i s = some s' ∧ OI G m E0 L' s' ∧ ∀ b ∈ s'.enabled, G.static b = true ∨ Old G L' b := by
  have hlen : s.enabled.length ≤ G.bodies.length := (List.Nodup.subperm h.eNodup h.eSub).length_le
  have fin : s.enabled.length ≤ i → ∀ b ∈ s.enabled, G.static b = true ∨ Old G L b := by
    intro hi b hb
    obtain ⟨k, hk, e⟩ := List.getElem_of_mem hb
    exact hu k b (by omega) (by rw [List.getElem?_eq_getElem hk, e])
  induction k generalizing i s L with
  | zero =>
    have hi : s.enabled.length ≤ i := by omega
    exact ⟨s, L, by simp only [islands, if_pos hi], h, fin hi⟩
  | succ k ih =>
    unfold islands
    cases hb : s.enabled[i]? with
    | none => exact ⟨s, L, rfl, h, fin (List.getElem?_eq_none_iff.1 hb)⟩
    | some b =>
      have hbm := List.mem_of_getElem? hb
      simp only
      by_cases hc : s.inIsl b = true ∨ G.static b = true
      · rw [if_pos hc]
        have hu' : Upto G L s (i + 1) := by
          intro k' b' hk' hb'
          by_cases e : k' = i
          · subst e
            rw [hb] at hb'; cases hb'
            rcases hc with g | g
            · exact Or.inr ((h.inIsl b).1 g)
            · exact Or.inl g
          · exact hu k' b' (by omega) hb'
        refine ih (i + 1) h hu' (by omega) hlen ?_
        intro hi b hb
        obtain ⟨k, hk, e⟩ := List.getElem_of_mem hb
        exact hu' k b (by omega) (by rw [List.getElem?_eq_getElem hk, e])
      · rw [if_neg hc]
        have h1 : s.inIsl b = false := by
          cases e : s.inIsl b with
          | false => rfl
          | true => exact absurd (Or.inl e) hc
        have h2 : G.static b = false := by
          cases e : G.static b with
          | false => rfl
          | true => exact absurd (Or.inr e) hc
        obtain ⟨s1, C, O, e1, hs1, hbC, hpre⟩ := island_ok wf hm h hbm h1 h2
        simp only [e1]
        have up : ∀ x, Old G L x → Old G (L ++ [(C, O)]) x := by
          rintro x ⟨g, l, hl, hx⟩
          exact ⟨g, l, List.mem_append_left _ hl, hx⟩
        have hil : i < s.enabled.length := (List.getElem?_eq_some_iff.1 hb).1
        have hu' : Upto G (L ++ [(C, O)]) s1 (i + 1) := by
          intro k' b' hk' hb'
          have e : s1.enabled[k']? = s.enabled[k']? := by
            obtain ⟨t, ht⟩ := hpre
            rw [← ht, List.getElem?_append_left (by omega)]
          rw [e] at hb'
          by_cases e : k' = i
          · subst e
            rw [hb] at hb'; cases hb'
            exact Or.inr ⟨h2, (C, O), by simp, hbC⟩
          · exact (hu k' b' (by omega) hb').imp id (up b')
        have hlen1 : s1.enabled.length ≤ G.bodies.length := (List.Nodup.subperm hs1.eNodup hs1.eSub).length_le
        refine ih (i + 1) hs1 hu' (by omega) hlen1 ?_
        intro hi b hb
        obtain ⟨k, hk, e⟩ := List.getElem_of_mem hb
        exact hu' k b (by omega) (by rw [List.getElem?_eq_getElem hk, e])

theorem lists_addPairs (G : Graph) : Lists G (addPairs (fun _ => []) 0 G.pairs) := by
  intro b p
  rw [mem_addPairs]
  constructor
  · rintro (h | ⟨k, P, rfl, hk, h⟩)
    · cases h
    · exact ⟨P, by rw [Nat.zero_add]; exact hk, h⟩
  · rintro ⟨P, hP, h⟩
    exact Or.inr ⟨p, P, by omega, hP, h⟩

theorem createIslands_ok (wf : Wf G) {E0 : List Nat} (hn : E0.Nodup) (hs : ∀ b ∈ E0, b ∈ G.bodies) :
    ∃ s L, createIslands G E0 = some s ∧ OI G (addPairs (fun _ => []) 0 G.pairs) E0 L s ∧ ∀ b ∈ s.enabled, G.static b = true ∨ Old G L b := by
  refine islands_ok (L := []) wf (lists_addPairs G) G.bodies.length 0 ?_ ?_ (by omega)
  · refine ⟨⟨rfl, rfl, rfl, rfl, rfl, rfl, rfl⟩, ?_, by simp, by simp, rfl, ?_, ?_, ?_, ?_, by simp [ords], by simp [ords], hn, hs, List.prefix_refl _, by simp [flat], fun b hb => Or.inl hb⟩
    · intro b
      constructor
      · intro h; cases h
      · rintro ⟨_, l, hl, _⟩; cases hl
    · intro p P _ _ h; cases h
    · rintro a ⟨_, l, hl, _⟩; cases hl
    · intro j J _ h; cases h
    · rintro a ⟨_, l, hl, _⟩; cases hl
  · intro k b hk; omega

end Isl
end RP3D
