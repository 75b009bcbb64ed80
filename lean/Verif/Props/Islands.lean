import Verif.Islands.Lemmas

/-!
Property theorems about islands: C29, C30, C31.

`bodiesOf s i` are the bodies of island `i` and `manifoldsOf s M i` its contact manifolds, read from the arrays the way `updateSleepingBodies`
(PhysicsWorld.cpp:885-887) and `initializeForIsland` (ContactSolverSystem.cpp:122-126) do.
-/

namespace RP3D
open Isl IslSpec

namespace IslSpec

/-- `bodyEntities[startBodyEntitiesIndex[i] + b]` for `b < nbBodiesInIsland[i]`. -/
def bodiesOf (s : St) (i : Nat) : List Nat := (s.bodies.drop (s.start.getD i 0)).take (s.nb.getD i 0)
/-- The manifolds from `contactManifoldsIndices[i]` on, `nbContactManifolds[i]` of them. -/
def manifoldsOf (s : St) (M : List (Nat × Nat)) (i : Nat) : List (Nat × Nat) := (M.drop (s.mStart.getD i 0)).take (s.mNb.getD i 0)
/-- `getNbIslands` -/
def nbIslands (s : St) : Nat := s.mStart.length

end IslSpec

variable {G : Graph} {E0 : List Nat} {s : St}

theorem drop_take_flatMap {β γ : Type} (f : β → List γ) (L : List β) (i : Nat) (l : β) (h : L[i]? = some l) :
    ((L.flatMap f).drop ((L.take i).flatMap f).length).take (f l).length = f l := by
  obtain ⟨hi, e⟩ := List.getElem?_eq_some_iff.1 h
  have : L = L.take i ++ l :: L.drop (i + 1) := by
    rw [← e, ← List.drop_eq_getElem_cons hi, List.take_append_drop]
  conv => lhs; arg 2; arg 2; rw [this]
  rw [List.flatMap_append, List.flatMap_cons, List.drop_left', List.take_left']
  · rfl
  · rfl

theorem bodiesOf_eq {L : List (List Nat × List Nat)} (h : Enc G L s) {i : Nat} {l : List Nat × List Nat} (hi : L[i]? = some l) : bodiesOf s i = l.1 := by
  have hlt := (List.getElem?_eq_some_iff.1 hi).1
  unfold bodiesOf
  have e1 : s.start.getD i 0 = (flat (L.take i)).length := by
    rw [h.start, List.getD_eq_getElem?_getD, List.getElem?_map, List.getElem?_range hlt]; rfl
  have e2 : s.nb.getD i 0 = l.1.length := by
    rw [h.nb, List.getD_eq_getElem?_getD, List.getElem?_map, hi]; rfl
  rw [e1, e2, h.bodies]
  exact drop_take_flatMap Prod.fst L i l hi

theorem bodiesOf_none {L : List (List Nat × List Nat)} (h : Enc G L s) {i : Nat} (hi : L[i]? = none) : bodiesOf s i = [] := by
  unfold bodiesOf
  have e2 : s.nb.getD i 0 = 0 := by
    rw [h.nb, List.getD_eq_getElem?_getD, List.getElem?_map, hi]; rfl
  rw [e2, List.take_zero]

theorem mem_bodiesOf {L : List (List Nat × List Nat)} (h : Enc G L s) {i b : Nat} : b ∈ bodiesOf s i ↔ ∃ l, L[i]? = some l ∧ b ∈ l.1 := by
  cases hi : L[i]? with
  | none => rw [bodiesOf_none h hi]; simp
  | some l => rw [bodiesOf_eq h hi]; simp

theorem nbIslands_eq {L : List (List Nat × List Nat)} (h : Enc G L s) : nbIslands s = L.length := by
  unfold nbIslands
  rw [h.mStart]; simp

/-- The construction of islands is defined: all indices exist and the number of bodies bounds the number of rounds. -/
theorem createIslands_defined (wf : Wf G) (hn : E0.Nodup) (hs : ∀ b ∈ E0, b ∈ G.bodies) : ∃ s, createIslands G E0 = some s := by
  obtain ⟨s, L, e, _⟩ := createIslands_ok wf hn hs
  exact ⟨s, e⟩

/-- C29: every enabled body that is not static (enabled before, or woken by the construction) is in exactly one island; no island contains a body twice; a body that is not static is
in at most one island; and the bodies of the islands exist. -/
theorem islands_partition (wf : Wf G) (hn : E0.Nodup) (hs : ∀ b ∈ E0, b ∈ G.bodies) (he : createIslands G E0 = some s) :
    (∀ b, b ∈ E0 ∨ b ∈ s.enabled → G.static b = false → ∃ i, i < nbIslands s ∧ b ∈ bodiesOf s i) ∧
    (∀ i, (bodiesOf s i).Nodup) ∧
    (∀ b i j, G.static b = false → b ∈ bodiesOf s i → b ∈ bodiesOf s j → i = j) ∧
    (∀ i, i < nbIslands s → bodiesOf s i ≠ []) ∧
    ∀ i b, b ∈ bodiesOf s i → b ∈ G.bodies := by
  obtain ⟨s', L, e, h, hall⟩ := createIslands_ok wf hn hs
  rw [he] at e; cases e
  refine ⟨?_, ?_, ?_, ?_, ?_⟩
  · intro b hb hst
    have hb : b ∈ s.enabled := hb.elim (fun g => h.ePre.subset g) id
    rcases hall b hb with g | ⟨_, l, hl, hbl⟩
    · rw [hst] at g; cases g
    · obtain ⟨i, hi, e⟩ := List.getElem_of_mem hl
      exact ⟨i, by rw [nbIslands_eq h.enc]; exact hi, (mem_bodiesOf h.enc).2 ⟨l, by rw [List.getElem?_eq_getElem hi, e], hbl⟩⟩
  · intro i
    cases hi : L[i]? with
    | none => rw [bodiesOf_none h.enc hi]; simp
    | some l => rw [bodiesOf_eq h.enc hi]; exact (h.ok l (List.mem_of_getElem? hi)).nodup
  · intro b i j hst hi hj
    obtain ⟨l, hl, hb⟩ := (mem_bodiesOf h.enc).1 hi
    obtain ⟨l', hl', hb'⟩ := (mem_bodiesOf h.enc).1 hj
    obtain ⟨hi, e⟩ := List.getElem?_eq_some_iff.1 hl
    obtain ⟨hj, e'⟩ := List.getElem?_eq_some_iff.1 hl'
    have hd := List.pairwise_iff_getElem.1 h.disj
    by_contra hne
    rcases Nat.lt_or_gt_of_ne hne with g | g
    · have := hd i j hi hj g b (by rw [e]; exact hb) (by rw [e']; exact hb')
      rw [hst] at this; cases this
    · have := hd j i hj hi g b (by rw [e']; exact hb') (by rw [e]; exact hb)
      rw [hst] at this; cases this
  · intro i hi
    rw [nbIslands_eq h.enc] at hi
    have hL : L[i]? = some L[i] := List.getElem?_eq_getElem hi
    rw [bodiesOf_eq h.enc hL]
    obtain ⟨r, hr, _⟩ := (h.ok _ (List.getElem_mem hi)).root
    intro e
    rw [e] at hr; cases hr
  · intro i b hb
    obtain ⟨l, hl, hb⟩ := (mem_bodiesOf h.enc).1 hb
    exact (h.ok l (List.mem_of_getElem? hl)).sub b hb

/-- Every body of an island that can be woken is enabled afterwards; nothing else is enabled. -/
theorem islands_wake (wf : Wf G) (hn : E0.Nodup) (hs : ∀ b ∈ E0, b ∈ G.bodies) (he : createIslands G E0 = some s) :
    (∀ i b, b ∈ bodiesOf s i → G.wakes b = true → b ∈ s.enabled) ∧ ∀ b ∈ s.enabled, b ∈ E0 ∨ ∃ i, b ∈ bodiesOf s i := by
  obtain ⟨s', L, e, h, hall⟩ := createIslands_ok wf hn hs
  rw [he] at e; cases e
  constructor
  · intro i b hb hw
    obtain ⟨l, hl, hb⟩ := (mem_bodiesOf h.enc).1 hb
    exact h.eWake b (mem_flat.2 ⟨l, List.mem_of_getElem? hl, hb⟩) hw
  · intro b hb
    rcases h.eNew b hb with g | g
    · exact Or.inl g
    · obtain ⟨l, hl, hbl⟩ := mem_flat.1 g
      obtain ⟨i, hi, e⟩ := List.getElem_of_mem hl
      exact Or.inr ⟨i, (mem_bodiesOf h.enc).2 ⟨l, by rw [List.getElem?_eq_getElem hi, e], hbl⟩⟩

theorem chain_step (wf : Wf G) {L : List (List Nat × List Nat)} (h : OI G (addPairs (fun _ => []) 0 G.pairs) E0 L s) {i a b : Nat} (ha : a ∈ bodiesOf s i)
    (hst : G.static a = false) (hab : Linked G a b)
    (huniq : ∀ b i j, G.static b = false → b ∈ bodiesOf s i → b ∈ bodiesOf s j → i = j) : b ∈ bodiesOf s i := by
  have at_ : ∀ l ∈ L, ∀ x ∈ l.1, ∃ j, x ∈ bodiesOf s j ∧ ∀ y ∈ l.1, y ∈ bodiesOf s j := by
    intro l hl x hx
    obtain ⟨j, hj, e⟩ := List.getElem_of_mem hl
    have hL : L[j]? = some l := by rw [List.getElem?_eq_getElem hj, e]
    exact ⟨j, (mem_bodiesOf h.enc).2 ⟨l, hL, hx⟩, fun y hy => (mem_bodiesOf h.enc).2 ⟨l, hL, hy⟩⟩
  obtain ⟨l, hl, hal⟩ := (mem_bodiesOf h.enc).1 ha
  have hold : Old G L a := ⟨hst, l, List.mem_of_getElem? hl, hal⟩
  have fin : ∀ l' ∈ L, a ∈ l'.1 → b ∈ l'.1 → b ∈ bodiesOf s i := by
    intro l' hl' h1 h2
    obtain ⟨j, g1, g2⟩ := at_ l' hl' a h1
    rw [huniq a i j hst ha g1]
    exact g2 b h2
  rcases hab with ⟨P, hP, s1, s2, hb⟩ | ⟨j, J, hJ, hb⟩
  · obtain ⟨p, hp, e⟩ := List.getElem_of_mem hP
    have hPp : G.pairs[p]? = some P := by rw [List.getElem?_eq_getElem hp, e]
    have hpm : p ∈ addPairs (fun _ => []) 0 G.pairs a :=
      (lists_addPairs G a p).2 ⟨P, hPp, hb.elim (fun g => Or.inl g.1) (fun g => Or.inr g.2)⟩
    obtain ⟨l', hl', g1, g2, _⟩ := h.pIn p P hPp ⟨s1, s2⟩ (h.pAll a hold p hpm)
    rcases hb with ⟨e1, e2⟩ | ⟨e1, e2⟩
    · rw [e1] at g1; rw [e2] at g2; exact fin l' hl' g1 g2
    · rw [e1] at g1; rw [e2] at g2; exact fin l' hl' g2 g1
  · have hjm : j ∈ G.jointsOf a := (wf.jointsOf a j).2 ⟨J, hJ, hb.elim (fun g => Or.inl g.1) (fun g => Or.inr g.2)⟩
    obtain ⟨l', hl', g1, g2⟩ := h.jIn j J hJ (h.jAll a hold j hjm)
    rcases hb with ⟨e1, e2⟩ | ⟨e1, e2⟩
    · rw [e1] at g1; rw [e2] at g2; exact fin l' hl' g1 g2
    · rw [e1] at g1; rw [e2] at g2; exact fin l' hl' g2 g1

theorem linked_symm {a b : Nat} (h : Linked G a b) : Linked G b a := by
  rcases h with ⟨P, hP, s1, s2, hb⟩ | ⟨j, J, hJ, hb⟩
  · exact Or.inl ⟨P, hP, s1, s2, hb.symm⟩
  · exact Or.inr ⟨j, J, hJ, hb.symm⟩

theorem chain_symm {a b : Nat} (h : Chain G a b) (hb : G.static b = false) : Chain G b a := by
  induction h with
  | refl => exact Relation.ReflTransGen.refl
  | tail h1 h2 ih => exact Relation.ReflTransGen.head ⟨hb, linked_symm h2.2⟩ (ih h2.1)

/-- C30: the island of a body that is not static consists of exactly the bodies that are connected with it by a chain of simulated contacts and joints that passes only through bodies
that are not static. -/
theorem island_is_component (wf : Wf G) (hn : E0.Nodup) (hs : ∀ b ∈ E0, b ∈ G.bodies) (he : createIslands G E0 = some s) {i a : Nat} (ha : a ∈ bodiesOf s i)
    (hst : G.static a = false) (b : Nat) : b ∈ bodiesOf s i ↔ Chain G a b := by
  have huniq := (islands_partition wf hn hs he).2.2.1
  obtain ⟨s', L, e, h, hall⟩ := createIslands_ok wf hn hs
  rw [he] at e; cases e
  constructor
  · intro hb
    obtain ⟨l, hl, hal⟩ := (mem_bodiesOf h.enc).1 ha
    obtain ⟨l', hl', hbl⟩ := (mem_bodiesOf h.enc).1 hb
    rw [hl] at hl'; cases hl'
    obtain ⟨r, _, _, hc⟩ := (h.ok l (List.mem_of_getElem? hl)).root
    exact Relation.ReflTransGen.trans (chain_symm (hc a hal) hst) (hc b hbl)
  · intro hc
    induction hc with
    | refl => exact ha
    | tail _ h2 ih => exact chain_step wf h ih h2.1 h2.2 huniq

/-- C30: two bodies, one of them enabled and not static, that touch or are joined are in the same island. -/
theorem linked_same_island (wf : Wf G) (hn : E0.Nodup) (hs : ∀ b ∈ E0, b ∈ G.bodies) (he : createIslands G E0 = some s) {a b : Nat} (ha : a ∈ E0) (hst : G.static a = false)
    (hab : Linked G a b) : ∃ i, i < nbIslands s ∧ a ∈ bodiesOf s i ∧ b ∈ bodiesOf s i := by
  obtain ⟨i, hi, h1⟩ := (islands_partition wf hn hs he).1 a (Or.inl ha) hst
  exact ⟨i, hi, h1, (island_is_component wf hn hs he h1 hst b).2 (Relation.ReflTransGen.single ⟨hst, hab⟩)⟩

/-! Contact manifolds. -/

/-- The manifolds of a contact pair. -/
def mani (G : Graph) (p : Nat) : List (Nat × Nat) := (List.range (size G p)).map fun i => (p, i)

theorem createContacts_eq (order : List Nat) (h : ∀ p ∈ order, ∃ P, G.pairs[p]? = some P) : createContacts G order = some (order.flatMap (mani G)) := by
  unfold createContacts
  suffices H : ∀ acc, order.foldlM (createPair G) acc = some (acc ++ order.flatMap (mani G)) by
    simpa using H []
  induction order with
  | nil => intro acc; simp
  | cons p l ih =>
    intro acc
    obtain ⟨P, hP⟩ := h p (by simp)
    have e : createPair G acc p = some (acc ++ mani G p) := by simp [createPair, mani, size, hP]
    rw [List.foldlM_cons, e, List.flatMap_cons, ← List.append_assoc]
    exact ih (fun q hq => h q (List.mem_cons_of_mem _ hq)) _

theorem length_mani (O : List Nat) : (O.flatMap (mani G)).length = msum G O := by
  induction O with
  | nil => rfl
  | cons p O ih =>
    rw [List.flatMap_cons, List.length_append, ih]
    simp [mani, msum]

theorem manifoldsOf_eq {L : List (List Nat × List Nat)} (h : Enc G L s) {i : Nat} {l : List Nat × List Nat} (hi : L[i]? = some l) :
    manifoldsOf s (s.order.flatMap (mani G)) i = l.2.flatMap (mani G) := by
  have hlt := (List.getElem?_eq_some_iff.1 hi).1
  unfold manifoldsOf
  have e1 : s.mStart.getD i 0 = msum G (ords (L.take i)) := by
    rw [h.mStart, List.getD_eq_getElem?_getD, List.getElem?_map, List.getElem?_range hlt]; rfl
  have e2 : s.mNb.getD i 0 = msum G l.2 := by
    rw [h.mNb, List.getD_eq_getElem?_getD, List.getElem?_map, hi]; rfl
  have e3 : ∀ L : List (List Nat × List Nat), (ords L).flatMap (mani G) = L.flatMap fun l => l.2.flatMap (mani G) := by
    intro L
    simp [ords, List.flatMap_assoc]
  rw [e1, e2, h.order, ← length_mani, ← length_mani, e3, e3]
  exact drop_take_flatMap (fun l => l.2.flatMap (mani G)) L i l hi

/-- C31: the creation of the manifolds is defined; the ranges of the islands, one after the other, are the whole array of manifolds, in which every manifold occurs once; and the manifolds
of island `i` are exactly those of the simulated contact pairs with a non-static body in island `i`. -/
theorem manifolds_partition (wf : Wf G) (hn : E0.Nodup) (hs : ∀ b ∈ E0, b ∈ G.bodies) (he : createIslands G E0 = some s) :
    ∃ M, createContacts G s.order = some M ∧ M.Nodup ∧ (List.range (nbIslands s)).flatMap (manifoldsOf s M) = M ∧
      ∀ i p k, (p, k) ∈ manifoldsOf s M i ↔ i < nbIslands s ∧ ∃ P, G.pairs[p]? = some P ∧ P.sim1 = true ∧ P.sim2 = true ∧ k < P.n ∧
        ∃ b, (P.b1 = b ∨ P.b2 = b) ∧ G.static b = false ∧ b ∈ bodiesOf s i := by
  have huniq := (islands_partition wf hn hs he).2.2.1
  obtain ⟨s', L, e, h, hall⟩ := createIslands_ok wf hn hs
  rw [he] at e; cases e
  have hord : ∀ p ∈ s.order, ∃ P, G.pairs[p]? = some P := by
    intro p hp
    rw [h.enc.order] at hp
    simp only [ords, List.mem_flatMap] at hp
    obtain ⟨l, hl, hp⟩ := hp
    obtain ⟨P, hP, _⟩ := (h.ok l hl).pairs p hp
    exact ⟨P, hP⟩
  refine ⟨_, createContacts_eq s.order hord, ?_, ?_, ?_⟩
  · rw [List.nodup_flatMap]
    constructor
    · intro p _
      refine List.Nodup.map ?_ List.nodup_range
      intro a b hab
      exact (Prod.mk.inj hab).2
    · have hnd : s.order.Nodup := by rw [h.enc.order]; exact h.oNodup
      refine hnd.imp ?_
      intro p q hne x hx hy
      simp only [mani, List.mem_map] at hx hy
      obtain ⟨_, _, rfl⟩ := hx
      obtain ⟨_, _, e⟩ := hy
      exact hne (Prod.mk.inj e).1.symm
  · rw [nbIslands_eq h.enc]
    have e1 : (List.range L.length).flatMap (manifoldsOf s (s.order.flatMap (mani G))) = L.flatMap fun l => l.2.flatMap (mani G) := by
      generalize hM : s.order.flatMap (mani G) = M
      rw [List.flatMap_def, List.flatMap_def]
      congr 1
      apply List.ext_getElem?
      intro i
      rw [List.getElem?_map, List.getElem?_map]
      by_cases hi : i < L.length
      · rw [List.getElem?_range hi, List.getElem?_eq_getElem hi]
        simp only [Option.map_some]
        rw [← hM, manifoldsOf_eq h.enc (List.getElem?_eq_getElem hi)]
      · rw [List.getElem?_eq_none (by simpa using hi), List.getElem?_eq_none (by omega)]
        rfl
    rw [e1, h.enc.order]
    simp [ords, List.flatMap_assoc]
  · intro i p k
    rw [nbIslands_eq h.enc]
    cases hi : L[i]? with
    | none =>
      have : ¬ i < L.length := by
        intro g
        rw [List.getElem?_eq_getElem g] at hi; cases hi
      have e2 : s.mNb.getD i 0 = 0 := by
        rw [h.enc.mNb, List.getD_eq_getElem?_getD, List.getElem?_map, hi]; rfl
      rw [manifoldsOf, e2]
      simp [this]
    | some l =>
      have hlt := (List.getElem?_eq_some_iff.1 hi).1
      have hlm := List.mem_of_getElem? hi
      rw [manifoldsOf_eq h.enc hi, List.mem_flatMap]
      constructor
      · rintro ⟨q, hq, hk⟩
        simp only [mani, List.mem_map, List.mem_range] at hk
        obtain ⟨k', hk', e⟩ := hk
        obtain ⟨rfl, rfl⟩ := Prod.mk.inj e
        obtain ⟨P, hP, hsP, g1, g2, g3⟩ := (h.ok l hlm).pairs q hq
        rw [size, hP] at hk'
        refine ⟨hlt, P, hP, hsP.1, hsP.2, hk', ?_⟩
        rcases g3 with g3 | g3
        · exact ⟨P.b1, Or.inl rfl, g3, (mem_bodiesOf h.enc).2 ⟨l, hi, g1⟩⟩
        · exact ⟨P.b2, Or.inr rfl, g3, (mem_bodiesOf h.enc).2 ⟨l, hi, g2⟩⟩
      · rintro ⟨_, P, hP, s1, s2, hk, b, hb, hst, hbi⟩
        obtain ⟨l', hl', hbl⟩ := (mem_bodiesOf h.enc).1 hbi
        rw [hi] at hl'; cases hl'
        have hpm : p ∈ addPairs (fun _ => []) 0 G.pairs b := (lists_addPairs G b p).2 ⟨P, hP, hb⟩
        obtain ⟨l', hl', g1, g2, g3⟩ := h.pIn p P hP ⟨s1, s2⟩ (h.pAll b ⟨hst, l, hlm, hbl⟩ p hpm)
        have : l' = l := by
          obtain ⟨j, hj, e⟩ := List.getElem_of_mem hl'
          have hL : L[j]? = some l' := by rw [List.getElem?_eq_getElem hj, e]
          have hbj : b ∈ bodiesOf s j := (mem_bodiesOf h.enc).2 ⟨l', hL, by rcases hb with e | e <;> rw [← e] <;> assumption⟩
          rw [huniq b i j hst hbi hbj, hL] at hi
          exact Option.some.inj hi
        subst this
        refine ⟨p, g3, ?_⟩
        simp only [mani, List.mem_map, List.mem_range]
        exact ⟨k, by rw [size, hP]; exact hk, rfl⟩

/-- The contact pairs attached to the bodies are all removed again for the next step. -/
theorem contact_pairs_cleared (G : Graph) : clearPairs (addPairs (fun _ => []) 0 G.pairs) G.pairs = fun _ => [] := clearPairs_addPairs G

/-! A scene: bodies 1 and 2 rest on the static body 0; body 3 is asleep and joined to body 2; body 4 touches body 1 with a trigger only. -/

namespace IslEx

def scene : Graph where
  pairs := [⟨0, 1, true, true, 2⟩, ⟨2, 0, true, true, 1⟩, ⟨1, 4, true, false, 1⟩]
  joint := fun j => if j = 0 then some (2, 3) else none
  jointsOf := fun b => if b = 2 ∨ b = 3 then [0] else []
  bodies := [0, 1, 2, 3, 4]
  static := fun b => b == 0
  hasSim := fun _ => true
  wakes := fun b => b == 3

theorem wf : Wf scene := by
  refine ⟨by decide, fun _ _ _ _ => ⟨rfl, rfl⟩, ?_, ?_⟩
  · intro j J h
    simp only [scene] at h
    split at h
    · cases h; decide
    · cases h
  · intro b j
    simp only [scene]
    constructor
    · intro h
      split at h
      · rename_i g
        rw [List.mem_singleton] at h
        subst h
        exact ⟨(2, 3), rfl, by omega⟩
      · cases h
    · rintro ⟨J, h, hb⟩
      split at h
      · rename_i g
        cases h
        rw [if_pos (by omega), g]; simp
      · cases h

/-- There are three islands: {1, 0}, {2, 3, 0} (body 3 is woken) and {4}, with the manifolds of pair 0 and of pair 1. -/
example : ∃ s, createIslands scene [4, 2, 1] = some s ∧ nbIslands s = 3 ∧ (List.range 3).map (bodiesOf s) = [[4], [2, 3, 0], [1, 0]] ∧ s.enabled = [4, 2, 1, 3] ∧
    (∃ M, createContacts scene s.order = some M ∧ (List.range 3).map (manifoldsOf s M) = [[], [(1, 0)], [(0, 0), (0, 1)]]) ∧ 3 ∈ bodiesOf s 1 ∧ Chain scene 2 3 := by
  obtain ⟨s, e⟩ := createIslands_defined (G := scene) wf (E0 := [4, 2, 1]) (by decide) (by decide)
  have h : ∀ {β : Type} (f : St → β) (v : β), (createIslands scene [4, 2, 1]).map f = some v → f s = v := by
    intro β f v hv
    rw [e] at hv
    exact Option.some.inj hv
  have h3 : 3 ∈ bodiesOf s 1 := by
    rw [h (fun s => bodiesOf s 1) [2, 3, 0] (by decide +kernel)]; simp
  have h2 : 2 ∈ bodiesOf s 1 := by
    rw [h (fun s => bodiesOf s 1) [2, 3, 0] (by decide +kernel)]; simp
  obtain ⟨M, hM, _⟩ := manifolds_partition wf (E0 := [4, 2, 1]) (by decide) (by decide) e
  have eM : M = [(1, 0), (0, 0), (0, 1)] := by
    rw [h (fun s => s.order) [1, 0] (by decide +kernel)] at hM
    exact (Option.some.inj hM).symm
  refine ⟨s, e, h nbIslands 3 (by decide +kernel), h (fun s => (List.range 3).map (bodiesOf s)) _ (by decide +kernel), h St.enabled _ (by decide +kernel), ⟨M, hM, ?_⟩, h3,
    (island_is_component wf (by decide) (by decide) e h2 rfl 3).1 h3⟩
  rw [eM]
  exact h (fun s => (List.range 3).map (manifoldsOf s [(1, 0), (0, 0), (0, 1)])) _ (by decide +kernel)

end IslEx

end RP3D
