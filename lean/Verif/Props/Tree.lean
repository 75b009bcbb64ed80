import Verif.Broadphase.TreeHist
import Verif.Broadphase.FatBox
import Mathlib.Algebra.Order.Ring.Rat

/-!
Property theorems C18, C19, C21: the dynamic tree of the broad phase.

The specification `TreeSpec` (in `Broadphase/TreeHist.lean`) is the map from ids to objects a client has in mind; well-formedness of the
node array is specified here by `Stored`, in terms of the array alone.
-/

namespace RP3D
open TreeSpec

variable {α : Type} [LinearOrder α]

/-- A tree is stored below the parent `p` at index `i`; it consists of the nodes `ids`, of which `ls` are leaves. -/
inductive Stored (f : Nat → TNode α) : Option Nat → Nat → List Nat → List Nat → Prop
  | leaf {p : Option Nat} {i : Nat} : (f i).link = p → (f i).height = 0 → Stored f p i [i] [i]
  | node {p : Option Nat} {i l r : Nat} {is js ls ms : List Nat} : (f i).link = p → (f i).cont = .kids l r →
      (f i).height = max (f l).height (f r).height + 1 → (f i).box = AABB.merge (f l).box (f r).box →
      Stored f (some i) l is ls → Stored f (some i) r js ms → Stored f p i (i :: (is ++ js)) (ls ++ ms)

/-- A chain of unused nodes. -/
inductive FreeChain (f : Nat → TNode α) : Option Nat → List Nat → Prop
  | nil : FreeChain f none []
  | cons {i : Nat} {l : List Nat} : (f i).height = -1 → FreeChain f (f i).link l → FreeChain f (some i) (i :: l)

/-- The array is a proper tree whose leaves are the objects `S`, and all the other nodes are in the free list. -/
structure WellFormed (t : Tree α) (S : Nat → Option (Obj α)) (ids leaves free : List Nat) : Prop where
  tree : (t.root = none ∧ ids = [] ∧ leaves = []) ∨ ∃ r, t.root = some r ∧ Stored t.node none r ids leaves
  chain : FreeChain t.node t.free free
  cover : (ids ++ free).Perm (List.range t.cap)
  count : t.count = ids.length
  objects : ∀ i, i ∈ leaves ↔ (S i).isSome
  data : ∀ i o, S i = some o → t.dataOf i = some o.data ∧ t.fatOf i = some o.fat

namespace Tree

theorem Rep.stored {f : Nat → TNode α} {p : Option Nat} {t : T} (h : Rep f p t) : Stored f p t.addr t.addrs t.leaves := by
  induction t generalizing p with
  | leaf a => exact .leaf h.1 h.2
  | node a l r h1 h2 =>
    obtain ⟨k1, k2, k3, k4, k5, k6⟩ := h
    exact .node k1 k2 k3 k4 (h1 k5) (h2 k6)

theorem FreeL.chain {f : Nat → TNode α} : ∀ {l : List Nat} {h : Option Nat}, FreeL f h l → FreeChain f h l
  | [], none, _ => .nil
  | [], some _, h => by cases h
  | i :: l, h, hf => by
    obtain ⟨h1, h2, h3⟩ := hf
    subst h1
    exact .cons h2 h3.chain

theorem Abs.wf {t : Tree α} {S : Nat → Option (Obj α)} {tr : Option T} {fl : List Nat} (h : Abs t S tr fl) :
    WellFormed t S (oaddrs tr) (oleaves tr) fl := by
  refine ⟨?_, h.inv.free.chain, by simpa using h.inv.perm, by simpa using h.inv.count, h.mem, ?_⟩
  · cases tr with
    | none => exact Or.inl ⟨h.inv.root, rfl, rfl⟩
    | some T0 => exact Or.inr ⟨T0.addr, h.inv.root, (h.inv.rep T0 rfl).stored⟩
  · intro i o hi
    have hl : i < t.cap := h.inv.lt (Or.inl (oaddrs_leaves ((h.mem i).2 (by rw [hi]; rfl))))
    obtain ⟨h1, h2⟩ := h.obj i o hi
    simp [dataOf, fatOf, rd, hl, h1, h2]

end Tree

variable {P : AABB α → Prop} {fat : AABB α → AABB α} {t : Tree α} {S : Nat → Option (Obj α)}

/-- **C18.** After every history the node array is a proper binary tree. -/
theorem tree_well_formed (h : Hist P fat t S) : ∃ ids leaves free, WellFormed t S ids leaves free := by
  obtain ⟨tr, fl, h⟩ := Tree.hist_abs h
  exact ⟨_, _, _, h.wf⟩

/-- **C18.** The parts of the array are disjoint and every object is one leaf only: no id occurs twice. -/
theorem tree_ids_nodup {ids leaves free : List Nat} (h : WellFormed t S ids leaves free) : (ids ++ free).Nodup :=
  h.cover.nodup_iff.2 List.nodup_range

theorem Stored.leaves_sublist {f : Nat → TNode α} {p : Option Nat} {i : Nat} {ids ls : List Nat} (h : Stored f p i ids ls) :
    ls.Sublist ids := by
  induction h with
  | leaf _ _ => exact List.Sublist.refl _
  | node _ _ _ _ _ _ h1 h2 => exact (h1.append h2).cons _

/-- **C18.** Each object is exactly one leaf. -/
theorem tree_leaves_nodup {ids leaves free : List Nat} (h : WellFormed t S ids leaves free) : leaves.Nodup := by
  have hn := (List.nodup_append.1 (tree_ids_nodup h)).1
  rcases h.tree with ⟨_, _, h3⟩ | ⟨r, _, h3⟩
  · rw [h3]; exact List.nodup_nil
  · exact hn.sublist h3.leaves_sublist

/-- **C18.** No operation on a live object is ever undefined: the loops terminate, and no node outside of the array is accessed.
A new object gets an id that no live object has. -/
theorem tree_valid_defined (h : Hist P fat t S) (ch : Choice α) (b : AABB α) (d : Nat) :
    (∃ t' i, t.addObject ch fat b d = some (t', i) ∧ S i = none) ∧
    ∀ i o, S i = some o → (∃ t', t.removeObject i = some t') ∧ ∀ force, ∃ t' m, t.updateObject ch fat i b force = some (t', m) := by
  obtain ⟨tr, fl, h⟩ := Tree.hist_abs h
  constructor
  · obtain ⟨t', i, _, _, e, _, hn⟩ := Tree.addObject_abs ch fat h b d
    exact ⟨t', i, e, hn⟩
  · intro i o hi
    constructor
    · obtain ⟨t', _, _, e, _⟩ := Tree.removeObject_abs h hi
      exact ⟨t', e⟩
    · intro force
      obtain ⟨t', m, _, _, e, _⟩ := Tree.updateObject_abs ch fat h hi b force
      exact ⟨t', m, e⟩

/-- **C19.** An overlap query reports exactly the objects whose fat boxes overlap the query box, each once. -/
theorem tree_overlap_exact (h : Hist P fat t S) (q : AABB α) :
    ∃ l, t.overlapping q = some l ∧ l.Nodup ∧ ∀ i, i ∈ l ↔ ∃ o, S i = some o ∧ q.testCollision o.fat = true := by
  obtain ⟨tr, fl, h⟩ := Tree.hist_abs h
  refine ⟨_, Tree.overlapping_abs h q, ?_, ?_⟩
  · exact (List.nodup_reverse.2 (tree_leaves_nodup h.wf)).filter _
  · intro i
    rw [List.mem_filter, List.mem_reverse, h.mem i]
    constructor
    · rintro ⟨h1, h2⟩
      obtain ⟨o, ho⟩ := Option.isSome_iff_exists.1 h1
      exact ⟨o, ho, by rw [← (h.obj i o ho).2]; exact h2⟩
    · rintro ⟨o, ho, h2⟩
      exact ⟨by rw [ho]; rfl, by rw [(h.obj i o ho).2]; exact h2⟩

/-- **C19.** The query for several objects at once (used for the objects that have moved) reports exactly the pairs of overlapping fat
boxes. -/
theorem tree_overlap_pairs_exact (h : Hist P fat t S) (ids : List Nat) (hids : ∀ i ∈ ids, (S i).isSome) :
    ∃ l, t.overlappingPairs ids = some l ∧ ∀ i j, (i, j) ∈ l ↔ i ∈ ids ∧ ∃ o o', S i = some o ∧ S j = some o' ∧
      o.fat.testCollision o'.fat = true := by
  induction ids with
  | nil => exact ⟨[], rfl, by simp⟩
  | cons k ids ih =>
    obtain ⟨l, hl, hm⟩ := ih (fun i hi => hids i (by simp [hi]))
    obtain ⟨ok, hok⟩ := Option.isSome_iff_exists.1 (hids k (by simp))
    obtain ⟨l1, h1, _, m1⟩ := tree_overlap_exact h ok.fat
    have hf : t.fatOf k = some ok.fat := by
      obtain ⟨_, _, _, w⟩ := tree_well_formed h
      exact (w.data k ok hok).2
    refine ⟨l1.map (fun j => (k, j)) ++ l, by simp [Tree.overlappingPairs, hf, h1, hl], ?_⟩
    intro i j
    rw [List.mem_append, List.mem_map, hm, List.mem_cons]
    constructor
    · rintro (⟨j', hj, e⟩ | ⟨hi, h'⟩)
      · cases e
        obtain ⟨o', ho', hc⟩ := (m1 _).1 hj
        exact ⟨Or.inl rfl, ok, o', hok, ho', hc⟩
      · exact ⟨Or.inr hi, h'⟩
    · rintro ⟨rfl | hi, o, o', h1', h2, h3⟩
      · rw [hok] at h1'
        cases h1'
        exact Or.inl ⟨j, (m1 j).2 ⟨o', h2, h3⟩, rfl⟩
      · exact Or.inr ⟨hi, o, o', h1', h2, h3⟩

/-- **C21.** The fat box of an object contains the box the client gave last, for every inflation that enlarges. -/
theorem tree_box_enclosed (hfat : ∀ b, P b → (fat b).contains b = true) (h : Hist P fat t S) :
    ∀ i o, S i = some o → t.fatOf i = some o.fat ∧ o.fat.contains o.box = true := by
  suffices key : ∀ i o, S i = some o → o.fat.contains o.box = true by
    intro i o hi
    obtain ⟨_, _, _, w⟩ := tree_well_formed h
    exact ⟨(w.data i o hi).2, key i o hi⟩
  induction h with
  | init f => intro i o hi; cases hi
  | add _ hb _ ih =>
    rename_i i0 _ _
    intro i o hi
    by_cases e : i = i0
    · subst e; rw [upd_same] at hi; cases hi; exact hfat _ hb
    · rw [upd_ne _ _ e] at hi; exact ih i o hi
  | remove _ _ _ ih =>
    rename_i i0 _ _ _ _
    intro i o hi
    by_cases e : i = i0
    · subst e; rw [upd_same] at hi; cases hi
    · rw [upd_ne _ _ e] at hi; exact ih i o hi
  | @update t0 _ S0 ch b i0 o0 force moved h0 hi0 hb e0 ih =>
    intro i o hi
    by_cases e : i = i0
    · subst e
      rw [upd_same] at hi
      cases hi
      cases moved with
      | true => simpa using hfat _ hb
      | false =>
        obtain ⟨tr, fl, ha⟩ := Tree.hist_abs h0
        obtain ⟨_, m, _, _, e1, _, hm, _⟩ := Tree.updateObject_abs ch fat ha hi0 b force
        rw [e0] at e1
        cases e1
        simpa using (hm.1 rfl).2
    · rw [upd_ne _ _ e] at hi; exact ih i o hi
  | reset _ _ => intro i o hi; cases hi

/-- **C19**, with C21. A query never misses an object whose real box overlaps the query box. -/
theorem tree_overlap_complete (hfat : ∀ b, P b → (fat b).contains b = true) (h : Hist P fat t S) (q : AABB α) {i : Nat} {o : Obj α}
    (hi : S i = some o) (hq : q.testCollision o.box = true) : ∃ l, t.overlapping q = some l ∧ i ∈ l := by
  obtain ⟨l, e, _, hm⟩ := tree_overlap_exact h q
  exact ⟨l, e, (hm i).2 ⟨o, hi, AABB.testCollision_of_contains (tree_box_enclosed hfat h i o hi).2 hq⟩⟩

/-- **C21.** A move returns `false` exactly when no reinsertion was forced and the fat box contains the new box; then nothing has
changed in the tree. -/
theorem tree_update_false (h : Hist P fat t S) {ch : Choice α} {i : Nat} {o : Obj α} (hi : S i = some o) {b : AABB α} {force m : Bool}
    {t' : Tree α} (e : t.updateObject ch fat i b force = some (t', m)) :
    (m = false ↔ force = false ∧ o.fat.contains b = true) ∧ (m = false → t' = t) := by
  obtain ⟨tr, fl, ha⟩ := Tree.hist_abs h
  obtain ⟨_, _, _, _, e1, _, h1, h2⟩ := Tree.updateObject_abs ch fat ha hi b force
  rw [e] at e1
  cases e1
  exact ⟨h1, h2⟩

/-- **C21.** Ids, data and fat boxes of the other objects do not change when an object is added, moved or removed. (That of the object
itself is part of `Hist`.) -/
theorem tree_others_stable {t' : Tree α} {S' : Nat → Option (Obj α)} (h : Hist P fat t S) (h' : Hist P fat t' S')
    {i : Nat} {o : Obj α} (hi : S i = some o) (hi' : S' i = some o) :
    t'.dataOf i = t.dataOf i ∧ t'.fatOf i = t.fatOf i ∧ t'.dataOf i = some o.data := by
  obtain ⟨_, _, _, w⟩ := tree_well_formed h
  obtain ⟨_, _, _, w'⟩ := tree_well_formed h'
  have a := w.data i o hi
  have b := w'.data i o hi'
  exact ⟨b.1.trans a.1.symm, b.2.trans a.2.symm, b.1⟩

/-- **C21.** The enlarged box the code computes contains the given one, whatever the rounding of the floating-point operations, for
valid boxes with representable coordinates and inflation percentages that are not negative: the hypothesis of `tree_box_enclosed`. -/
theorem tree_fat_contains {K : Type} [Field K] [LinearOrder K] [IsStrictOrderedRing K] (R : Rounding K) {pct : K} (hp : 0 ≤ pct) :
    ∀ b : AABB K, b.Valid ∧ b.Repr R → (fatBoxR R pct b).contains b = true :=
  fun b hb => fatBoxR_contains R hp b hb.1 hb.2

/-! A history with two objects, of which one is moved. -/
namespace TreeExample

def box (x : Rat) : AABB Rat := ⟨⟨x, 0, 0⟩, ⟨x + 1, 1, 1⟩⟩
def f0 : Nat → TNode Rat := fun _ => ⟨none, .raw, 0, box 0⟩
abbrev fat0 : AABB Rat → AABB Rat := fatBoxR (Rounding.exact Rat) (1 / 10)

theorem box_ok (x : Rat) : (box x).Valid ∧ (box x).Repr (Rounding.exact Rat) := by
  refine ⟨⟨?_, ?_, ?_⟩, rfl, rfl, rfl, rfl, rfl, rfl⟩
  · show x ≤ x + 1
    linarith
  · show (0 : Rat) ≤ 1
    norm_num
  · show (0 : Rat) ≤ 1
    norm_num

example : ∃ (t : Tree Rat) (S : Nat → Option (Obj Rat)) (i j : Nat) (oi oj : Obj Rat),
    Hist (fun b => b.Valid ∧ b.Repr (Rounding.exact Rat)) fat0 t S ∧ i ≠ j ∧ S i = some oi ∧ S j = some oj ∧ oi.data = 7 ∧
    oj.data = 8 ∧ oj.box = box 5 ∧ oi.fat.contains oi.box = true := by
  have h0 : Hist (fun b => b.Valid ∧ b.Repr (Rounding.exact Rat)) fat0 (Tree.init f0) (fun _ => none) := Hist.init f0
  obtain ⟨⟨t1, i, e1, _⟩, _⟩ := tree_valid_defined h0 costChoice (box 0) 7
  have h1 := Hist.add h0 (box_ok 0) e1
  obtain ⟨⟨t2, j, e2, n2⟩, _⟩ := tree_valid_defined h1 costChoice (box 3) 8
  have h2 := Hist.add h1 (box_ok 3) e2
  have hij : i ≠ j := by
    rintro rfl
    rw [upd_same] at n2
    cases n2
  have hj : upd (upd (fun _ => none) i (some ⟨7, box 0, fat0 (box 0)⟩)) j (some ⟨8, box 3, fat0 (box 3)⟩) j =
    some (⟨8, box 3, fat0 (box 3)⟩ : Obj Rat) := upd_same _ _ _
  obtain ⟨_, hv⟩ := tree_valid_defined h2 costChoice (box 5) 0
  obtain ⟨t3, m, e3⟩ := (hv j _ hj).2 false
  have h3 := Hist.update h2 hj (box_ok 5) e3
  refine ⟨t3, _, i, j, ⟨7, box 0, fat0 (box 0)⟩, _, h3, hij, ?_, upd_same _ _ _, rfl, rfl, rfl, ?_⟩
  · rw [upd_ne _ _ hij, upd_ne _ _ hij, upd_same]
  · exact tree_fat_contains (Rounding.exact Rat) (by norm_num) _ (box_ok 0)

end TreeExample

end RP3D
