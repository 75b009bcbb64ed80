import Verif.Broadphase.TreeOps

set_option linter.unusedVariables false
set_option linter.unusedSectionVars false

/-! Histories of the dynamic tree, the objects the client has put into it, and the invariant that relates the two. -/

namespace RP3D

/-! Specification: the client's view of the tree is a finite map from ids to objects. -/
namespace TreeSpec

/-- What a client knows of an object: its data, the box it last gave, and the enlarged box computed the last time it was moved. -/
structure Obj (α : Type) where
  data : Nat
  box : AABB α
  fat : AABB α

variable {α : Type} [LinearOrder α]

/-- All histories of a tree. The decision of the descent is an oracle `ch` that may be different at each call. `P` is what is required
of the boxes given by the client. -/
inductive Hist (P : AABB α → Prop) (fat : AABB α → AABB α) : Tree α → (Nat → Option (Obj α)) → Prop
  | init (f : Nat → TNode α) : Hist P fat (Tree.init f) (fun _ => none)
  | add {t t' : Tree α} {S : Nat → Option (Obj α)} {ch : Choice α} {b : AABB α} {d i : Nat} : Hist P fat t S → P b →
      t.addObject ch fat b d = some (t', i) → Hist P fat t' (upd S i (some ⟨d, b, fat b⟩))
  | remove {t t' : Tree α} {S : Nat → Option (Obj α)} {i : Nat} {o : Obj α} : Hist P fat t S → S i = some o →
      t.removeObject i = some t' → Hist P fat t' (upd S i none)
  | update {t t' : Tree α} {S : Nat → Option (Obj α)} {ch : Choice α} {b : AABB α} {i : Nat} {o : Obj α} {force moved : Bool} :
      Hist P fat t S → S i = some o → P b → t.updateObject ch fat i b force = some (t', moved) →
      Hist P fat t' (upd S i (some ⟨o.data, b, if moved then fat b else o.fat⟩))
  | reset {t : Tree α} {S : Nat → Option (Obj α)} : Hist P fat t S → Hist P fat t.reset (fun _ => none)

end TreeSpec

namespace Tree
open TreeSpec
variable {α : Type} [LinearOrder α]

/-- The tree holds exactly the objects `S`. -/
structure Abs (t : Tree α) (S : Nat → Option (Obj α)) (tr : Option T) (fl : List Nat) : Prop where
  inv : Inv t tr [] fl
  mem : ∀ i, i ∈ oleaves tr ↔ (S i).isSome
  obj : ∀ i o, S i = some o → (t.node i).cont = .data o.data ∧ (t.node i).box = o.fat

theorem Rep.setCont {f g : Nat → TNode α} {p : Option Nat} {t : T} {i : Nat} (h : Rep f p t) (hi : i ∈ t.leaves) (nd : t.addrs.Nodup)
    (e : ∀ a, a ≠ i → g a = f a) (e1 : (g i).link = (f i).link) (e2 : (g i).height = (f i).height) (e3 : (g i).box = (f i).box) :
    Rep g p t := by
  have el : ∀ a, (g a).link = (f a).link := fun a => by by_cases h : a = i; (· rw [h, e1]); (· rw [e a h])
  have eh : ∀ a, (g a).height = (f a).height := fun a => by by_cases h : a = i; (· rw [h, e2]); (· rw [e a h])
  have eb : ∀ a, (g a).box = (f a).box := fun a => by by_cases h : a = i; (· rw [h, e3]); (· rw [e a h])
  induction t generalizing p with
  | leaf a => simp only [Rep, el, eh]; exact h
  | node a l r h1 h2 =>
    obtain ⟨k1, k2, k3, k4, k5, k6⟩ := h
    simp only [T.addrs, List.nodup_cons, List.nodup_append, List.mem_append, not_or] at nd
    obtain ⟨⟨n1, n2⟩, n3, n4, n5⟩ := nd
    simp only [T.leaves, List.mem_append] at hi
    have hai : a ≠ i := by
      rintro rfl
      rcases hi with hi | hi
      · exact n1 (leaves_sub l _ hi)
      · exact n2 (leaves_sub r _ hi)
    refine ⟨by rw [el]; exact k1, by rw [e a hai]; exact k2, by rw [eh, eh, eh]; exact k3, by rw [eb, eb, eb]; exact k4, ?_, ?_⟩
    · rcases hi with hi | hi
      · exact h1 k5 hi n3
      · exact k5.congr (fun x hx => e x (fun he => n5 x hx i (leaves_sub r _ hi) he))
    · rcases hi with hi | hi
      · exact k6.congr (fun x hx => e x (fun he => n5 i (leaves_sub l _ hi) x hx he.symm))
      · exact h2 k6 hi n4

theorem oaddrs_leaves {tr : Option T} {x : Nat} (h : x ∈ oleaves tr) : x ∈ oaddrs tr := by
  cases tr with
  | none => exact h
  | some T => exact leaves_sub T x h

/-- Changing the box or the content of an allocated node outside of the tree. -/
theorem Inv.edit {t : Tree α} {tr : Option T} {ext fl : List Nat} {i : Nat} (h : Inv t tr (i :: ext) fl) (v : TNode α) :
    Inv { t with node := upd t.node i v } tr (i :: ext) fl := by
  have hnd := h.nd
  have hn : ∀ x, x ∈ oaddrs tr ∨ x ∈ fl → x ≠ i := by
    rintro x hx rfl
    rw [List.nodup_append] at hnd
    rcases hx with hx | hx
    · exact hnd.2.2 x hx x (by simp) rfl
    · have := hnd.2.1
      simp only [List.cons_append, List.nodup_cons, List.mem_append, not_or] at this
      exact this.1.2 hx
  refine ⟨?_, h.root, h.free.congr (fun x hx => upd_ne _ _ (hn x (Or.inr hx))), h.perm, h.count, h.cap⟩
  intro T hT
  refine (h.rep T hT).congr (fun x hx => upd_ne _ _ (hn x (Or.inl ?_)))
  subst hT; exact hx

theorem addObject_abs (ch : Choice α) (fat : AABB α → AABB α) {t : Tree α} {S : Nat → Option (Obj α)} {tr : Option T} {fl : List Nat}
    (h : Abs t S tr fl) (b : AABB α) (d : Nat) :
    ∃ t' i tr' fl', t.addObject ch fat b d = some (t', i) ∧ Abs t' (upd S i (some ⟨d, b, fat b⟩)) tr' fl' ∧ S i = none := by
  obtain ⟨t1, i, fl1, e1, i1, l1, h1, s1⟩ := allocNode_inv h.inv
  have hi1 : i < t1.cap := i1.lt (by simp)
  let v2 : TNode α := { t1.node i with box := fat b, height := 0 }
  let t2 : Tree α := { t1 with node := upd t1.node i v2 }
  have i2 : Inv t2 tr [i] fl1 := i1.edit v2
  have n2 : t2.node i = v2 := upd_same _ _ _
  obtain ⟨t3, tr', fl3, e3, i3, p3, k3, _⟩ := insertLeaf_inv ch i2 (by rw [n2])
  have hi3 : i < t3.cap := i3.lt (Or.inl (oaddrs_leaves (tr := some tr') (p3.mem_iff.2 (by simp))))
  let v4 : TNode α := { t3.node i with cont := .data d }
  let t4 : Tree α := { t3 with node := upd t3.node i v4 }
  have n4 : t4.node i = v4 := upd_same _ _ _
  have o4 : ∀ x, x ≠ i → t4.node x = t3.node x := fun x hx => upd_ne _ _ hx
  have hil : i ∈ tr'.leaves := p3.mem_iff.2 (by simp)
  have hnd3 := i3.nd
  have i4 : Inv t4 (some tr') [] fl3 := by
    refine ⟨?_, i3.root, ?_, i3.perm, i3.count, i3.cap⟩
    · rintro _ ⟨⟩
      refine (i3.rep tr' rfl).setCont hil (List.nodup_append.1 hnd3).1 o4 ?_ ?_ ?_ <;> rw [n4]
    · refine i3.free.congr (fun x hx => o4 x ?_)
      rintro rfl
      exact (List.nodup_append.1 hnd3).2.2 x (leaves_sub _ _ hil) x (by simpa using hx) rfl
  have hSi : S i = none := by
    by_contra hne
    have := (h.mem i).2 (Option.isSome_iff_ne_none.2 hne)
    exact (s1 i (Or.inl (oaddrs_leaves this))).2 rfl
  refine ⟨t4, i, some tr', fl3, ?_, ⟨i4, ?_, ?_⟩, hSi⟩
  · unfold addObject
    rw [e1]
    simp only [Option.bind_eq_bind, Option.bind_some, setBox, setHeight, if_pos hi1]
    have : (⟨upd (upd t1.node i { t1.node i with box := fat b }) i
        { upd t1.node i { t1.node i with box := fat b } i with height := 0 }, t1.cap, t1.root, t1.free, t1.count⟩ : Tree α) = t2 := by
      show Tree.mk _ _ _ _ _ = Tree.mk _ _ _ _ _
      congr 1
      funext x
      simp only [upd, v2]
      split_ifs <;> rfl
    rw [this, e3]
    simp only [Option.bind_some, setCont, if_pos hi3]
    rfl
  · intro j
    rw [show oleaves (some tr') = tr'.leaves from rfl, p3.mem_iff, List.mem_cons, h.mem j]
    by_cases e : j = i
    · subst e; simp [upd]
    · simp [upd, e]
  · intro j o hj
    by_cases e : j = i
    · subst e
      rw [upd_same] at hj
      cases hj
      rw [n4]
      refine ⟨rfl, ?_⟩
      have := (k3 j (by simp)).1
      rw [n2] at this
      exact this
    · rw [upd_ne _ _ e] at hj
      have hl : j ∈ oleaves tr := (h.mem j).2 (by rw [hj]; rfl)
      obtain ⟨a1, a2, a3⟩ := k3 j (by simp [hl])
      have := h.obj j o hj
      rw [← (s1 j (Or.inl (oaddrs_leaves hl))).1] at this
      have hh : t2.node j = t1.node j := upd_ne _ _ e
      rw [o4 j e, a1, a2, hh]
      exact this

theorem removeObject_abs {t : Tree α} {S : Nat → Option (Obj α)} {tr : Option T} {fl : List Nat} (h : Abs t S tr fl) {i : Nat}
    {o : Obj α} (hi : S i = some o) : ∃ t' tr' fl', t.removeObject i = some t' ∧ Abs t' (upd S i none) tr' fl' := by
  have hl : i ∈ oleaves tr := (h.mem i).2 (by rw [hi]; rfl)
  cases tr with
  | none => cases hl
  | some T0 =>
    obtain ⟨t1, tr1, fl1, e1, i1, p1, k1, _⟩ := removeLeaf_inv h.inv hl
    obtain ⟨t2, e2, i2, s2, _, _⟩ := releaseNode_inv i1
    have hn : i ∉ oleaves tr1 := by
      intro hx
      have := i1.nd
      rw [List.nodup_append] at this
      exact this.2.2 i (oaddrs_leaves hx) i (by simp) rfl
    refine ⟨t2, tr1, i :: fl1, ?_, i2, ?_, ?_⟩
    · unfold removeObject
      rw [e1]; exact e2
    · intro j
      have := h.mem j
      rw [show oleaves (some T0) = T0.leaves from rfl, p1.mem_iff, List.mem_cons] at this
      by_cases e : j = i
      · subst e; simp [upd, hn]
      · simp only [upd, if_neg e]
        rw [← this]
        simp [e]
    · intro j o' hj
      by_cases e : j = i
      · subst e; rw [upd_same] at hj; cases hj
      · rw [upd_ne _ _ e] at hj
        have hl : j ∈ T0.leaves := (h.mem j).2 (by rw [hj]; rfl)
        obtain ⟨a1, a2, a3⟩ := k1 j hl
        rw [s2 j e, a1, a2]
        exact h.obj j o' hj

theorem updateObject_abs (ch : Choice α) (fat : AABB α → AABB α) {t : Tree α} {S : Nat → Option (Obj α)} {tr : Option T} {fl : List Nat}
    (h : Abs t S tr fl) {i : Nat} {o : Obj α} (hi : S i = some o) (b : AABB α) (force : Bool) :
    ∃ t' moved tr' fl', t.updateObject ch fat i b force = some (t', moved) ∧
      Abs t' (upd S i (some ⟨o.data, b, if moved then fat b else o.fat⟩)) tr' fl' ∧
      (moved = false ↔ force = false ∧ o.fat.contains b = true) ∧ (moved = false → t' = t) := by
  have hl : i ∈ oleaves tr := (h.mem i).2 (by rw [hi]; rfl)
  have hic : i < t.cap := h.inv.lt (Or.inl (oaddrs_leaves hl))
  obtain ⟨o1, o2⟩ := h.obj i o hi
  have hrd : t.rd i = some (t.node i) := if_pos hic
  by_cases hc : force = false ∧ o.fat.contains b = true
  · refine ⟨t, false, tr, fl, ?_, ⟨h.inv, ?_, ?_⟩, by simp [hc], fun _ => rfl⟩
    · unfold updateObject
      simp only [hrd, Option.bind_eq_bind, Option.bind_some, o2, hc, Bool.not_false, Bool.true_and, if_true, Option.pure_def]
    · intro j
      rw [h.mem j]
      by_cases e : j = i
      · subst e; simp [upd, hi]
      · simp [upd, e]
    · intro j o' hj
      by_cases e : j = i
      · subst e; rw [upd_same] at hj; cases hj; exact ⟨o1, by simpa using o2⟩
      · rw [upd_ne _ _ e] at hj; exact h.obj j o' hj
  · cases tr with
    | none => cases hl
    | some T0 =>
      obtain ⟨t1, tr1, fl1, e1, i1, p1, k1, _⟩ := removeLeaf_inv h.inv hl
      have hi1 : i < t1.cap := i1.lt (by simp)
      let v2 : TNode α := { t1.node i with box := fat b }
      let t2 : Tree α := { t1 with node := upd t1.node i v2 }
      have i2 : Inv t2 tr1 [i] fl1 := i1.edit v2
      have n2 : t2.node i = v2 := upd_same _ _ _
      have hrep0 : (t.node i).height = 0 := by
        obtain ⟨c, e⟩ := leaf_ctx (T0 := T0) T0 [] rfl hl
        have := h.inv.rep T0 rfl
        rw [e] at this
        exact this.open.1.2
      have hh2 : (t2.node i).height = 0 := by
        rw [n2]
        have := (k1 i hl).2.2
        rw [hrep0] at this
        exact this
      obtain ⟨t3, tr3, fl3, e3, i3, p3, k3, _⟩ := insertLeaf_inv ch i2 hh2
      refine ⟨t3, true, some tr3, fl3, ?_, ⟨i3, ?_, ?_⟩, by simpa using hc, by simp⟩
      · unfold updateObject
        have hcc : (!force && (t.node i).box.contains b) = false := by
          rw [o2]
          cases force <;> simp_all
        simp only [hrd, Option.bind_eq_bind, Option.bind_some, hcc, e1, setBox, if_pos hi1, Option.pure_def]
        have e3' : insertLeaf ch (⟨upd t1.node i { t1.node i with box := fat b }, t1.cap, t1.root, t1.free, t1.count⟩ : Tree α) i =
          some t3 := e3
        rw [e3']
        simp
      · intro j
        have := h.mem j
        rw [show oleaves (some T0) = T0.leaves from rfl, p1.mem_iff] at this
        rw [show oleaves (some tr3) = tr3.leaves from rfl, p3.mem_iff, this]
        by_cases e : j = i
        · subst e; simp [upd, hi]
        · simp [upd, e]
      · intro j o' hj
        by_cases e : j = i
        · subst e
          rw [upd_same] at hj
          cases hj
          obtain ⟨a1, a2, _⟩ := k3 j (by simp)
          rw [a1, a2, n2]
          refine ⟨?_, by simp [v2]⟩
          show (t1.node j).cont = _
          rw [(k1 j hl).2.1, o1]
        · rw [upd_ne _ _ e] at hj
          have hj0 : j ∈ T0.leaves := (h.mem j).2 (by rw [hj]; rfl)
          have hj1 : j ∈ oleaves tr1 := by
            rcases List.mem_cons.1 (p1.mem_iff.1 hj0) with h' | h'
            · exact absurd h' e
            · exact h'
          obtain ⟨a1, a2, _⟩ := k3 j (by simp [hj1])
          obtain ⟨c1, c2, _⟩ := k1 j hj0
          have hh : t2.node j = t1.node j := upd_ne _ _ e
          rw [a1, a2, hh, c1, c2]
          exact h.obj j o' hj

theorem hist_abs {P : AABB α → Prop} {fat : AABB α → AABB α} {t : Tree α} {S : Nat → Option (Obj α)} (h : Hist P fat t S) :
    ∃ tr fl, Abs t S tr fl := by
  induction h with
  | init f => exact ⟨none, _, init_inv f, by simp [oleaves], by simp⟩
  | add _ _ e ih =>
    obtain ⟨tr, fl, ih⟩ := ih
    obtain ⟨t', i, tr', fl', e', h', _⟩ := addObject_abs _ _ ih _ _
    rw [e] at e'
    cases e'
    exact ⟨tr', fl', h'⟩
  | remove _ hi e ih =>
    obtain ⟨tr, fl, ih⟩ := ih
    obtain ⟨t', tr', fl', e', h'⟩ := removeObject_abs ih hi
    rw [e] at e'
    cases e'
    exact ⟨tr', fl', h'⟩
  | update _ hi _ e ih =>
    obtain ⟨tr, fl, ih⟩ := ih
    obtain ⟨t', m, tr', fl', e', h', _⟩ := updateObject_abs _ _ ih hi _ _
    rw [e] at e'
    cases e'
    exact ⟨tr', fl', h'⟩
  | reset _ ih => exact ⟨none, _, init_inv _, by simp [oleaves], by simp⟩

/-! Queries. -/

/-- The box of every leaf below a node is in the box of the node. -/
theorem Rep.contains {f : Nat → TNode α} {p : Option Nat} {t : T} (h : Rep f p t) :
    ∀ x ∈ t.leaves, (f t.addr).box.contains (f x).box = true := by
  induction t generalizing p with
  | leaf a =>
    intro x hx
    simp only [T.leaves, List.mem_singleton] at hx
    subst hx
    exact AABB.contains_refl _
  | node a l r h1 h2 =>
    obtain ⟨_, _, _, k4, k5, k6⟩ := h
    intro x hx
    simp only [T.leaves, List.mem_append] at hx
    rw [addr_node, k4]
    rcases hx with hx | hx
    · exact AABB.contains_trans (AABB.contains_merge_left _ _) (h1 k5 x hx)
    · exact AABB.contains_trans (AABB.contains_merge_right _ _) (h2 k6 x hx)

/-- The loop of the overlap query finds the leaves whose boxes overlap, from the last to the first. -/
theorem report_rep {t : Tree α} {q : AABB α} {sub : T} : ∀ {p : Option Nat}, Rep t.node p sub → (∀ x ∈ sub.addrs, x < t.cap) →
    ∀ st out, t.report q (some sub.addr :: st) out =
      t.report q st (out ++ sub.leaves.reverse.filter (fun x => q.testCollision (t.node x).box)) := by
  induction sub with
  | leaf a =>
    intro p h hc st out
    have ha : t.rd a = some (t.node a) := if_pos (hc a (by simp [T.addrs]))
    rw [report, addr_leaf]
    simp only [ha, h.2, if_true, T.leaves, List.reverse_cons, List.reverse_nil, List.nil_append, List.filter_cons, List.filter_nil]
    split_ifs <;> simp
  | node a l r h1 h2 =>
    intro p h hc st out
    have hh := h
    obtain ⟨k1, k2, k3, k4, k5, k6⟩ := h
    have hac : a < t.cap := hc a (by simp [T.addrs])
    have ha : t.rd a = some (t.node a) := if_pos hac
    have hk : t.kids a = some (l.addr, r.addr) := by simp only [kids, if_pos hac, k2]
    have hne : (t.node a).height ≠ 0 := by
      have := hh.node_height
      omega
    rw [report, addr_node]
    simp only [ha, hk, if_neg hne, T.leaves, List.reverse_append, List.filter_append]
    split_ifs with ho
    · rw [h2 k6 (fun x hx => hc x (by simp [T.addrs, hx])), h1 k5 (fun x hx => hc x (by simp [T.addrs, hx])), List.append_assoc]
    · have key : ∀ x ∈ l.leaves ++ r.leaves, q.testCollision (t.node x).box = false := by
        intro x hx
        by_contra hx2
        apply ho
        have := hh.contains x hx
        rw [addr_node] at this
        exact AABB.testCollision_of_contains this (by simpa using hx2)
      rw [List.filter_eq_nil_iff.2, List.filter_eq_nil_iff.2, List.append_nil, List.append_nil]
      · intro x hx; rw [key x (by simp at hx; simp [hx])]; simp
      · intro x hx; rw [key x (by simp at hx; simp [hx])]; simp

theorem overlapping_abs {t : Tree α} {S : Nat → Option (Obj α)} {tr : Option T} {fl : List Nat} (h : Abs t S tr fl) (q : AABB α) :
    t.overlapping q = some ((oleaves tr).reverse.filter (fun x => q.testCollision (t.node x).box)) := by
  unfold overlapping
  rw [h.inv.root]
  cases tr with
  | none => rw [Option.map_none, report, report]; rfl
  | some T0 =>
    rw [Option.map_some, report_rep (h.inv.rep T0 rfl) (fun x hx => h.inv.lt (Or.inl hx)), report, List.nil_append]
    rfl

end Tree
end RP3D
