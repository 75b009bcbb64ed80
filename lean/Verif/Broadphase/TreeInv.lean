import Verif.Broadphase.TreeFix
import Mathlib.Data.List.Nodup

set_option linter.unusedVariables false
set_option linter.unusedSectionVars false

/-! The invariant of the tree and its preservation by the operations. -/

namespace RP3D
namespace Tree
variable {α : Type} [LinearOrder α]

theorem fixNode_open {t : Tree α} {a : Nat} {l r : T} {c : Ctx} (h : Open t a l r c) :
    ∃ t' a' l' r', t.fixNode a = some (t', a') ∧ Open t' a' l' r' c ∧ Rep t'.node (parent c) (.node a' l' r') ∧
      (a' :: (l'.addrs ++ r'.addrs)).Perm (a :: (l.addrs ++ r.addrs)) ∧ (l'.leaves ++ r'.leaves).Perm (l.leaves ++ r.leaves) ∧
      Same t t' (l.leaves ++ (r.leaves ++ ctxLeaves c)) (a :: (l.addrs ++ (r.addrs ++ ctxAddrs c))) := by
  obtain ⟨t1, a', l', r', e, ho, pa, pl, hs⟩ := balance_open h
  have nd := ho.nd
  simp only [List.nodup_cons, List.mem_append, not_or] at nd
  obtain ⟨⟨nal, nar, nax⟩, _⟩ := nd
  have ha : a' < t1.cap := ho.lt _ (by simp)
  have hl : l'.addr < t1.cap := ho.lt _ (by simp [addr_mem])
  have hr : r'.addr < t1.cap := ho.lt _ (by simp [addr_mem])
  have nla : l'.addr ≠ a' := fun e => nal (by rw [← e]; exact addr_mem _)
  have nra : r'.addr ≠ a' := fun e => nar (by rw [← e]; exact addr_mem _)
  let v : TNode α := ⟨(t1.node a').link, .kids l'.addr r'.addr, max (t1.node l'.addr).height (t1.node r'.addr).height + 1,
    AABB.merge (t1.node l'.addr).box (t1.node r'.addr).box⟩
  have hv : t.fixNode a = some ({ t1 with node := upd t1.node a' v }, a') := by
    unfold fixNode
    simp only [e, kids, ho.cont, rd, setHeight, setBox, if_pos ha, if_pos hl, if_pos hr, Option.bind_eq_bind, Option.bind_some,
      Option.pure_def]
    congr 1
    congr 1
    congr 1
    funext x
    simp only [upd]
    split_ifs <;> rfl
  have el : ∀ x ∈ l'.addrs, upd t1.node a' v x = t1.node x := fun x hx => upd_ne _ _ (fun e => nal (by rw [← e]; exact hx))
  have er : ∀ x ∈ r'.addrs, upd t1.node a' v x = t1.node x := fun x hx => upd_ne _ _ (fun e => nar (by rw [← e]; exact hx))
  have ex : ∀ x ∈ ctxAddrs c, upd t1.node a' v x = t1.node x := fun x hx => upd_ne _ _ (fun e => nax (by rw [← e]; exact hx))
  have rl := ho.rl.congr el
  have rr := ho.rr.congr er
  have rep : Rep (upd t1.node a' v) (parent c) (.node a' l' r') := by
    refine ⟨?_, ?_, ?_, ?_, rl, rr⟩
    · rw [upd_same]; exact ho.link
    · rw [upd_same]
    · rw [upd_same, el _ (addr_mem _), er _ (addr_mem _)]
    · rw [upd_same, el _ (addr_mem _), er _ (addr_mem _)]
  have pall : (a' :: (l'.addrs ++ (r'.addrs ++ ctxAddrs c))).Perm (a :: (l.addrs ++ (r.addrs ++ ctxAddrs c))) := by
    have := pa.append_right (ctxAddrs c)
    simpa only [List.cons_append, List.append_assoc] using this
  refine ⟨_, a', l', r', hv, ⟨rep.1, rep.2.1, ?_, rl, rr, ho.ctx.congr ex, ho.nd, ho.lt, ho.root⟩, rep, pa, pl, ?_⟩
  · exact rep.node_height
  · refine hs.trans (ls' := l'.leaves ++ (r'.leaves ++ ctxLeaves c)) (all' := [a']) ⟨rfl, rfl, rfl, ?_, ?_⟩ ?_ ?_
    · intro x hx
      exact upd_ne _ _ (by simpa using hx)
    · intro x hx
      have : x ≠ a' := by
        rintro rfl
        simp only [List.mem_append] at hx
        rcases hx with h | h | h
        · exact nal (leaves_sub _ _ h)
        · exact nar (leaves_sub _ _ h)
        · rcases ctxLeaves_sub c _ h with ⟨h, _⟩ | h
          · exact nax h
          · have nd := ho.nd
            simp only [List.nodup_cons, List.nodup_append] at nd
            exact h nd.2.2.1.2.1
      simp only [upd_ne _ _ this]
      exact ⟨trivial, trivial, trivial⟩
    · intro x hx
      have p2 : (l'.leaves ++ (r'.leaves ++ ctxLeaves c)).Perm (l.leaves ++ (r.leaves ++ ctxLeaves c)) := by
        have := pl.append_right (ctxLeaves c)
        simpa only [List.append_assoc] using this
      exact p2.mem_iff.2 hx
    · intro x hx
      have : x = a' := by simpa using hx
      rw [this]
      exact pall.mem_iff.1 (by simp)

theorem fixUp_open {c : Ctx} : ∀ {t : Tree α} {a : Nat} {l r : T}, Open t a l r c →
    ∃ t' tr, t.fixUp (some a) = some t' ∧ Rep t'.node none tr ∧ t'.root = some tr.addr ∧
      tr.addrs.Perm (a :: (l.addrs ++ (r.addrs ++ ctxAddrs c))) ∧ tr.leaves.Perm (l.leaves ++ (r.leaves ++ ctxLeaves c)) ∧
      Same t t' (l.leaves ++ (r.leaves ++ ctxLeaves c)) (a :: (l.addrs ++ (r.addrs ++ ctxAddrs c))) := by
  induction c with
  | nil =>
    intro t a l r h
    obtain ⟨t', a', l', r', e, ho, rep, pa, pl, hs⟩ := fixNode_open h
    refine ⟨t', .node a' l' r', ?_, rep, ?_, ?_, ?_, hs⟩
    · rw [fixUp]
      have ha : a' < t'.cap := ho.lt _ (by simp)
      simp only [e, rd, if_pos ha, ho.link, parent]
      rw [fixUp]
    · rw [ho.root]; rfl
    · simpa [T.addrs, ctxAddrs] using pa
    · simpa [T.leaves, ctxLeaves] using pl
  | cons f c ih =>
    intro t a l r h
    obtain ⟨p, snd, s⟩ := f
    obtain ⟨t1, a', l', r', e, ho, rep, pa, pl, hs⟩ := fixNode_open h
    have ha : a' < t1.cap := ho.lt _ (by simp)
    obtain ⟨k1, k2, k3, k4, k5⟩ := ho.ctx
    have ndo := ho.nd
    simp only [parent] at rep
    -- permutations of the node lists
    have pA : ∀ (L R : T), (L = s ∧ R = .node a' l' r') ∨ (L = .node a' l' r' ∧ R = s) →
        (p :: (L.addrs ++ (R.addrs ++ ctxAddrs c))).Perm (a :: (l.addrs ++ (r.addrs ++ ctxAddrs ((p, snd, s) :: c)))) ∧
        (L.leaves ++ (R.leaves ++ ctxLeaves c)).Perm (l.leaves ++ (r.leaves ++ ctxLeaves ((p, snd, s) :: c))) ∧
        (p :: (L.addrs ++ (R.addrs ++ ctxAddrs c))).Perm (a' :: (l'.addrs ++ (r'.addrs ++ ctxAddrs ((p, snd, s) :: c)))) := by
      intro L R hLR
      have base : ∀ (X Y C : List Nat), (p :: (X ++ (Y ++ C))).Perm (Y ++ (p :: (X ++ C))) := by
        intro X Y C
        refine List.Perm.trans ?_ List.perm_middle.symm
        refine List.Perm.cons _ ?_
        rw [← List.append_assoc, ← List.append_assoc]
        exact List.perm_append_comm.append_right _
      have base2 : ∀ (X Y C : List Nat), (X ++ (Y ++ C)).Perm (Y ++ (X ++ C)) := by
        intro X Y C
        rw [← List.append_assoc, ← List.append_assoc]
        exact List.perm_append_comm.append_right _
      have h3 : (p :: (L.addrs ++ (R.addrs ++ ctxAddrs c))).Perm (a' :: (l'.addrs ++ (r'.addrs ++ ctxAddrs ((p, snd, s) :: c)))) := by
        have goal2 : (p :: (L.addrs ++ (R.addrs ++ ctxAddrs c))).Perm ((T.node a' l' r').addrs ++ (p :: (s.addrs ++ ctxAddrs c))) := by
          rcases hLR with ⟨rfl, rfl⟩ | ⟨rfl, rfl⟩
          · exact base _ _ _
          · refine (List.Perm.cons _ ?_).trans (base _ _ _)
            exact base2 _ _ _
        simpa only [T.addrs, ctxAddrs, List.cons_append, List.append_assoc] using goal2
      refine ⟨?_, ?_, h3⟩
      · refine h3.trans ?_
        have := pa.append_right (ctxAddrs ((p, snd, s) :: c))
        simpa only [List.cons_append, List.append_assoc] using this
      · have g : (L.leaves ++ (R.leaves ++ ctxLeaves c)).Perm ((T.node a' l' r').leaves ++ (s.leaves ++ ctxLeaves c)) := by
          rcases hLR with ⟨rfl, rfl⟩ | ⟨rfl, rfl⟩
          · exact base2 _ _ _
          · exact List.Perm.refl _
        refine g.trans ?_
        have := pl.append_right (ctxLeaves ((p, snd, s) :: c))
        simpa only [T.leaves, ctxLeaves, List.append_assoc] using this
    have fin : ∀ (L R : T), (L = s ∧ R = .node a' l' r') ∨ (L = .node a' l' r' ∧ R = s) →
        (t1.node p).cont = .kids L.addr R.addr → 
        ∃ t' tr, t.fixUp (some a) = some t' ∧ Rep t'.node none tr ∧ t'.root = some tr.addr ∧
          tr.addrs.Perm (a :: (l.addrs ++ (r.addrs ++ ctxAddrs ((p, snd, s) :: c)))) ∧
          tr.leaves.Perm (l.leaves ++ (r.leaves ++ ctxLeaves ((p, snd, s) :: c))) ∧
          Same t t' (l.leaves ++ (r.leaves ++ ctxLeaves ((p, snd, s) :: c)))
            (a :: (l.addrs ++ (r.addrs ++ ctxAddrs ((p, snd, s) :: c)))) := by
      intro L R hLR hk
      obtain ⟨p1, p2, p3⟩ := pA L R hLR
      have ho1 : Open t1 p L R c := by
        refine ⟨k1, hk, k3, ?_, ?_, k5, p3.nodup_iff.2 ndo, fun x hx => ho.lt x (p3.mem_iff.1 hx), ?_⟩
        · rcases hLR with ⟨rfl, rfl⟩ | ⟨rfl, rfl⟩
          · exact k4
          · exact rep
        · rcases hLR with ⟨rfl, rfl⟩ | ⟨rfl, rfl⟩
          · exact rep
          · exact k4
        · rw [ho.root]; rfl
      obtain ⟨t', tr, e2, r2, rt, q1, q2, hs2⟩ := ih ho1
      refine ⟨t', tr, ?_, r2, rt, q1.trans p1, q2.trans p2, ?_⟩
      · rw [fixUp]
        simp only [e, rd, if_pos ha, ho.link, parent]
        exact e2
      · exact hs.trans hs2 (fun x hx => p2.mem_iff.2 hx) (fun x hx => p1.mem_iff.1 hx)
    cases snd
    · exact fin _ _ (Or.inr ⟨rfl, rfl⟩) k2
    · exact fin _ _ (Or.inl ⟨rfl, rfl⟩) k2

/-! ### The free list and the invariant -/

/-- The free list. -/
def FreeL (f : Nat → TNode α) : Option Nat → List Nat → Prop
  | o, [] => o = none
  | o, x :: l => o = some x ∧ (f x).height = -1 ∧ FreeL f (f x).link l

theorem FreeL.congr {f g : Nat → TNode α} {o : Option Nat} {l : List Nat} (h : FreeL f o l) (e : ∀ x ∈ l, g x = f x) : FreeL g o l := by
  induction l generalizing o with
  | nil => exact h
  | cons x l ih =>
    obtain ⟨h1, h2, h3⟩ := h
    have ex := e x (by simp)
    refine ⟨h1, by rw [ex]; exact h2, ?_⟩
    rw [ex]
    exact ih h3 (fun y hy => e y (by simp [hy]))

def oaddrs : Option T → List Nat
  | none => []
  | some t => t.addrs
def oleaves : Option T → List Nat
  | none => []
  | some t => t.leaves

/-- The tree `tr` is stored; `ext` are allocated nodes outside of the tree, `fl` is the free list. -/
structure Inv (t : Tree α) (tr : Option T) (ext fl : List Nat) : Prop where
  rep : ∀ T, tr = some T → Rep t.node none T
  root : t.root = tr.map T.addr
  free : FreeL t.node t.free fl
  perm : (oaddrs tr ++ (ext ++ fl)).Perm (List.range t.cap)
  count : t.count = (oaddrs tr ++ ext).length
  cap : 0 < t.cap

theorem Inv.nd {t : Tree α} {tr : Option T} {ext fl : List Nat} (h : Inv t tr ext fl) : (oaddrs tr ++ (ext ++ fl)).Nodup :=
  h.perm.nodup_iff.2 List.nodup_range

theorem Inv.lt {t : Tree α} {tr : Option T} {ext fl : List Nat} (h : Inv t tr ext fl) {x : Nat}
    (hx : x ∈ oaddrs tr ∨ x ∈ ext ∨ x ∈ fl) : x < t.cap := by
  have := (h.perm.mem_iff (a := x)).1 (by simpa using hx)
  simpa using this

theorem chain_free (f : Nat → TNode α) (lo hi : Nat) : ∀ n k, lo ≤ k → hi = k + n →
    FreeL (chain f lo hi) (if k < hi then some k else none) (List.range' k n) := by
  intro n
  induction n with
  | zero => intro k h1 h2; simp [FreeL, h2]
  | succ n ih =>
    intro k h1 h2
    rw [List.range'_succ]
    refine ⟨by simp [h2], ?_, ?_⟩
    · simp [chain, h1, h2]
    · have := ih (k + 1) (by omega) (by omega)
      have e : (chain f lo hi k).link = if k + 1 < hi then some (k + 1) else none := by
        simp [chain, h1, show k < hi by omega]
      rw [e]; exact this

theorem init_inv (f : Nat → TNode α) : Inv (init f) none [] (List.range 16) := by
  refine ⟨by simp, rfl, ?_, by simp [init, oaddrs], rfl, by simp [init]⟩
  have := chain_free f 0 16 16 0 (Nat.le_refl _) rfl
  simpa [List.range_eq_range', init] using this

/-- Growing. -/
theorem grow_inv {t : Tree α} {tr : Option T} {ext : List Nat} (h : Inv t tr ext []) :
    Inv (grow t) tr ext (List.range' t.count t.count) ∧ t.count = t.cap ∧ ∀ x, x < t.cap → (grow t).node x = t.node x := by
  have hc : t.count = t.cap := by
    have := h.perm.length_eq
    simp only [List.append_nil, List.length_range] at this
    rw [h.count, this]
  have hsame : ∀ x, x < t.cap → (grow t).node x = t.node x := by
    intro x hx
    simp only [grow, chain]
    rw [if_neg (by omega)]
  refine ⟨⟨?_, h.root, ?_, ?_, h.count, ?_⟩, hc, hsame⟩
  · intro T hT
    refine (h.rep T hT).congr (fun x hx => hsame x (h.lt (Or.inl ?_)))
    rw [hT]; exact hx
  · have h0 := chain_free t.node t.count (t.cap * 2) t.count t.count (Nat.le_refl _) (by omega)
    rw [if_pos (by have := h.cap; omega)] at h0
    exact h0
  · have hp := h.perm
    rw [List.append_nil] at hp
    have : (grow t).cap = t.count + t.count := by simp only [grow]; omega
    rw [this, List.range_add, ← List.append_assoc, hc]
    refine hp.append ?_
    rw [List.range'_eq_map_range]
  · simp only [grow]; have := h.cap; omega

theorem allocNode_inv {t : Tree α} {tr : Option T} {ext fl : List Nat} (h : Inv t tr ext fl) :
    ∃ t' i fl', t.allocNode = some (t', i) ∧ Inv t' tr (i :: ext) fl' ∧ (t'.node i).link = none ∧ (t'.node i).height = 0 ∧
      ∀ x, x ∈ oaddrs tr ∨ x ∈ ext → t'.node x = t.node x ∧ x ≠ i := by
  -- reduce to a state with a free node
  have key : ∀ (t1 : Tree α) (x : Nat) (l : List Nat), Inv t1 tr ext (x :: l) →
      ∃ t', (t1.free.bind fun i => (t1.rd i).bind fun n => (({ t1 with free := n.link } : Tree α).setLink i none).bind fun t =>
        (t.setHeight i 0).bind fun t => some ({ t with count := t.count + 1 }, i)) = some (t', x) ∧
        Inv t' tr (x :: ext) l ∧ (t'.node x).link = none ∧ (t'.node x).height = 0 ∧
        ∀ y, y ∈ oaddrs tr ∨ y ∈ ext → t'.node y = t1.node y ∧ y ≠ x := by
    intro t1 x l h1
    obtain ⟨f1, f2, f3⟩ := h1.free
    have hx : x < t1.cap := h1.lt (by simp)
    have hnd := h1.nd
    have hnx : ∀ y, y ∈ oaddrs tr ∨ y ∈ ext → y ≠ x := by
      rintro y hy rfl
      rw [← List.append_assoc, List.nodup_append] at hnd
      exact hnd.2.2 y (by simpa using hy) y (by simp) rfl
    have hnl : x ∉ l := by
      have : (x :: l).Nodup := by
        rw [← List.append_assoc, List.nodup_append] at hnd
        exact hnd.2.1
      exact (List.nodup_cons.1 this).1
    let v : TNode α := { t1.node x with link := none, height := 0 }
    refine ⟨⟨upd t1.node x v, t1.cap, t1.root, (t1.node x).link, t1.count + 1⟩, ?_, ⟨?_, h1.root, ?_, ?_, ?_, h1.cap⟩, ?_, ?_, ?_⟩
    · simp only [f1, Option.bind_some, rd, if_pos hx, setLink, setHeight]
      congr 1
      congr 1
      congr 1
      funext y
      simp only [upd]
      split_ifs <;> rfl
    · intro T hT
      refine (h1.rep T hT).congr (fun y hy => upd_ne _ _ (hnx y (Or.inl ?_)))
      rw [hT]; exact hy
    · exact f3.congr (fun y hy => upd_ne _ _ (fun e => hnl (by rw [← e]; exact hy)))
    · refine List.Perm.trans ?_ h1.perm
      exact (List.perm_middle.symm).append_left _
    · have := h1.count
      simp only [List.length_append, List.length_cons] at this ⊢
      omega
    · simp only [upd_same]; rfl
    · simp only [upd_same]; rfl
    · intro y hy
      exact ⟨upd_ne _ _ (hnx y hy), hnx y hy⟩
  cases fl with
  | cons x l =>
    have hf : t.free.isNone = false := by rw [h.free.1]; rfl
    obtain ⟨t', e, r1, r2, r3, r4⟩ := key t x l h
    refine ⟨t', x, l, ?_, r1, r2, r3, r4⟩
    unfold allocNode
    simp only [hf, Bool.false_eq_true, if_false, Option.bind_eq_bind, Option.pure_def]
    exact e
  | nil =>
    have hf : t.free = none := h.free
    obtain ⟨hg, hc, hsame⟩ := grow_inv h
    have hpos := h.cap
    obtain ⟨k, hk⟩ : ∃ k, t.count = k + 1 := ⟨t.count - 1, by omega⟩
    have hg2 : Inv (grow t) tr ext (t.count :: List.range' (t.count + 1) k) := by
      have : List.range' t.count t.count = t.count :: List.range' (t.count + 1) k := by
        conv_lhs => rw [show List.range' t.count t.count = List.range' t.count (k + 1) by rw [← hk]]
        rw [List.range'_succ]
      rw [← this]; exact hg
    obtain ⟨t', e, r1, r2, r3, r4⟩ := key (grow t) t.count _ hg2
    refine ⟨t', t.count, _, ?_, r1, r2, r3, ?_⟩
    · unfold allocNode
      simp only [hf, Option.isNone_none, if_true, Option.bind_eq_bind, Option.pure_def]
      exact e
    · intro x hx
      obtain ⟨e1, e2⟩ := r4 x hx
      refine ⟨?_, e2⟩
      rw [e1]
      exact hsame x (h.lt (by tauto))

theorem releaseNode_inv {t : Tree α} {tr : Option T} {ext fl : List Nat} {i : Nat} (h : Inv t tr (i :: ext) fl) :
    ∃ t', t.releaseNode i = some t' ∧ Inv t' tr ext (i :: fl) ∧ (∀ x, x ≠ i → t'.node x = t.node x) ∧ t'.cap = t.cap ∧
      t'.root = t.root := by
  have hi : i < t.cap := h.lt (by simp)
  have hnd := h.nd
  have n1 : ∀ x ∈ oaddrs tr, x ≠ i := by
    rintro x hx rfl
    rw [List.nodup_append] at hnd
    exact hnd.2.2 x hx x (by simp) rfl
  have n2 : ∀ x ∈ fl, x ≠ i := by
    rintro x hx rfl
    rw [List.nodup_append] at hnd
    have := hnd.2.1
    simp only [List.cons_append, List.nodup_cons, List.mem_append, not_or] at this
    exact this.1.2 hx
  let v : TNode α := { t.node i with link := t.free, height := -1 }
  refine ⟨⟨upd t.node i v, t.cap, t.root, some i, t.count - 1⟩, ?_, ⟨?_, h.root, ⟨rfl, ?_, ?_⟩, ?_, ?_, h.cap⟩, ?_, rfl, rfl⟩
  · unfold releaseNode
    simp only [setLink, setHeight, if_pos hi, Option.bind_eq_bind, Option.bind_some, Option.pure_def]
    congr 1
    congr 1
    funext y
    simp only [upd]
    split_ifs <;> rfl
  · intro T hT
    refine (h.rep T hT).congr (fun y hy => upd_ne _ _ (n1 y ?_))
    rw [hT]; exact hy
  · simp only [upd_same]; rfl
  · have e : (upd t.node i v i).link = t.free := by rw [upd_same]
    rw [e]
    exact h.free.congr (fun y hy => upd_ne _ _ (n2 y hy))
  · refine List.Perm.trans ?_ h.perm
    exact List.perm_middle.append_left _
  · have := h.count
    simp only [List.length_append, List.length_cons] at this ⊢
    omega
  · intro x hx
    exact upd_ne _ _ hx

end Tree
end RP3D
