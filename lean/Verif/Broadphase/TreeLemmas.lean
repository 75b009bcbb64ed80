import Verif.Broadphase.Tree

set_option linter.unusedVariables false

/-! Representation of the node array by inductive trees. -/

namespace RP3D
namespace Tree
variable {α : Type} [LinearOrder α]

/-- Abstract trees: node ids only; all other content is in the memory. -/
inductive T
  | leaf (a : Nat)
  | node (a : Nat) (l r : T)

def T.addr : T → Nat
  | .leaf a => a
  | .node a _ _ => a
def T.addrs : T → List Nat
  | .leaf a => [a]
  | .node a l r => a :: (l.addrs ++ r.addrs)
def T.leaves : T → List Nat
  | .leaf a => [a]
  | .node _ l r => l.leaves ++ r.leaves

/-- `t` is stored in the memory `f` below the parent `p`, with right heights and boxes. -/
def Rep (f : Nat → TNode α) (p : Option Nat) : T → Prop
  | .leaf a => (f a).link = p ∧ (f a).height = 0
  | .node a l r => (f a).link = p ∧ (f a).cont = .kids l.addr r.addr ∧
      (f a).height = max (f l.addr).height (f r.addr).height + 1 ∧
      (f a).box = AABB.merge (f l.addr).box (f r.addr).box ∧ Rep f (some a) l ∧ Rep f (some a) r

/-- A path from a hole to the root: ids, the side of the hole (`true` = second child) and the sibling. -/
abbrev Ctx := List (Nat × Bool × T)

def parent : Ctx → Option Nat
  | [] => none
  | (a, _, _) :: _ => some a
def ctxAddrs : Ctx → List Nat
  | [] => []
  | (a, _, s) :: c => a :: (s.addrs ++ ctxAddrs c)
def ctxLeaves : Ctx → List Nat
  | [] => []
  | (_, _, s) :: c => s.leaves ++ ctxLeaves c
def top (h : Nat) : Ctx → Nat
  | [] => h
  | (a, _, _) :: c => top a c
def plug (t : T) : Ctx → T
  | [] => t
  | (a, snd, s) :: c => plug (if snd then .node a s t else .node a t s) c

/-- The path is stored in the memory; heights and boxes on the path may be out of date. -/
def RepC (f : Nat → TNode α) (h : Nat) : Ctx → Prop
  | [] => True
  | (a, snd, s) :: c => (f a).link = parent c ∧ (f a).cont = (if snd then .kids s.addr h else .kids h s.addr) ∧
      1 ≤ (f a).height ∧ Rep f (some a) s ∧ RepC f a c

theorem addr_mem (t : T) : t.addr ∈ t.addrs := by cases t <;> simp [T.addr, T.addrs]
theorem leaves_sub (t : T) : ∀ x ∈ t.leaves, x ∈ t.addrs := by
  induction t with
  | leaf a => simp [T.leaves, T.addrs]
  | node a l r h1 h2 =>
    intro x hx
    simp only [T.leaves, List.mem_append] at hx
    simp only [T.addrs, List.mem_cons, List.mem_append]
    rcases hx with h | h
    · exact Or.inr (Or.inl (h1 x h))
    · exact Or.inr (Or.inr (h2 x h))

theorem Rep.congr {f g : Nat → TNode α} {p : Option Nat} {t : T} (h : Rep f p t) (e : ∀ a ∈ t.addrs, g a = f a) : Rep g p t := by
  induction t generalizing p with
  | leaf a =>
    have := e a (by simp [T.addrs])
    simp only [Rep, this]; exact h
  | node a l r h1 h2 =>
    have ea := e a (by simp [T.addrs])
    have el := e l.addr (by simp [T.addrs, addr_mem])
    have er := e r.addr (by simp [T.addrs, addr_mem])
    obtain ⟨k1, k2, k3, k4, k5, k6⟩ := h
    simp only [Rep, ea, el, er]
    exact ⟨k1, k2, k3, k4, h1 k5 (fun x hx => e x (by simp [T.addrs, hx])), h2 k6 (fun x hx => e x (by simp [T.addrs, hx]))⟩

/-- Changing the link of the root of a stored tree. -/
theorem Rep.relink {f g : Nat → TNode α} {p q : Option Nat} {t : T} (h : Rep f p t) (nd : t.addrs.Nodup)
    (e1 : g t.addr = { f t.addr with link := q }) (e : ∀ a ∈ t.addrs, a ≠ t.addr → g a = f a) : Rep g q t := by
  cases t with
  | leaf a =>
    simp only [T.addr] at e1
    simp only [Rep, e1]; exact ⟨trivial, h.2⟩
  | node a l r =>
    simp only [T.addr] at e1 e
    simp only [T.addrs, List.nodup_cons, List.mem_append, not_or] at nd
    have hne : ∀ x, x ∈ l.addrs ∨ x ∈ r.addrs → x ≠ a := by
      rintro x hx rfl
      rcases hx with hx | hx
      · exact nd.1.1 hx
      · exact nd.1.2 hx
    have el := e l.addr (by simp [T.addrs, addr_mem]) (hne _ (Or.inl (addr_mem l)))
    have er := e r.addr (by simp [T.addrs, addr_mem]) (hne _ (Or.inr (addr_mem r)))
    obtain ⟨k1, k2, k3, k4, k5, k6⟩ := h
    simp only [Rep, e1, el, er]
    exact ⟨trivial, k2, k3, k4, k5.congr (fun x hx => e x (by simp [T.addrs, hx]) (hne _ (Or.inl hx))),
      k6.congr (fun x hx => e x (by simp [T.addrs, hx]) (hne _ (Or.inr hx)))⟩

theorem Rep.height_nonneg {f : Nat → TNode α} {p : Option Nat} {t : T} (h : Rep f p t) : 0 ≤ (f t.addr).height := by
  induction t generalizing p with
  | leaf a => simp only [T.addr]; rw [h.2]
  | node a l r h1 h2 =>
    obtain ⟨_, _, k3, _, k5, k6⟩ := h
    have := h1 k5; have := h2 k6
    simp only [T.addr]; omega

theorem Rep.node_height {f : Nat → TNode α} {p : Option Nat} {a : Nat} {l r : T} (h : Rep f p (.node a l r)) : 1 ≤ (f a).height := by
  obtain ⟨_, _, k3, _, k5, k6⟩ := h
  have := k5.height_nonneg; have := k6.height_nonneg
  omega

theorem Rep.link {f : Nat → TNode α} {p : Option Nat} {t : T} (h : Rep f p t) : (f t.addr).link = p := by
  cases t with
  | leaf a => exact h.1
  | node a l r => exact h.1

theorem RepC.congr {f g : Nat → TNode α} {h : Nat} {c : Ctx} (hc : RepC f h c) (e : ∀ a ∈ ctxAddrs c, g a = f a) : RepC g h c := by
  induction c generalizing h with
  | nil => trivial
  | cons x c ih =>
    obtain ⟨a, snd, s⟩ := x
    obtain ⟨k1, k2, k3, k4, k5⟩ := hc
    have ea := e a (by simp [ctxAddrs])
    simp only [RepC, ea]
    exact ⟨k1, k2, k3, k4.congr (fun x hx => e x (by simp [ctxAddrs, hx])), ih k5 (fun x hx => e x (by simp [ctxAddrs, hx]))⟩

/-- Replacing the hole: only the children of the first node of the path change. -/
theorem RepC.rehole {f g : Nat → TNode α} {h h' : Nat} {c : Ctx} (hc : RepC f h c) (nd : (ctxAddrs c).Nodup)
    (e1 : ∀ a snd s c', c = (a, snd, s) :: c' →
      g a = { f a with cont := if snd then Cont.kids s.addr h' else Cont.kids h' s.addr })
    (e : ∀ a ∈ ctxAddrs c, some a ≠ parent c → g a = f a) : RepC g h' c := by
  cases c with
  | nil => trivial
  | cons x c =>
    obtain ⟨a, snd, s⟩ := x
    obtain ⟨k1, k2, k3, k4, k5⟩ := hc
    simp only [ctxAddrs, List.nodup_cons, List.mem_append, not_or] at nd
    have ea := e1 a snd s c rfl
    simp only [RepC, ea]
    refine ⟨k1, trivial, k3, ?_, ?_⟩
    · refine k4.congr (fun x hx => e x (by simp [ctxAddrs, hx]) ?_)
      simp only [parent]; rintro ⟨rfl⟩; exact nd.1.1 hx
    · refine k5.congr (fun x hx => e x (by simp [ctxAddrs, hx]) ?_)
      simp only [parent]; rintro ⟨rfl⟩; exact nd.1.2 hx

theorem plug_addrs (t : T) (c : Ctx) : (plug t c).addrs.Perm (t.addrs ++ ctxAddrs c) := by
  induction c generalizing t with
  | nil => simp [plug, ctxAddrs]
  | cons x c ih =>
    obtain ⟨a, snd, s⟩ := x
    refine (ih _).trans ?_
    cases snd
    · simp only [Bool.false_eq_true, if_false, T.addrs, ctxAddrs, List.cons_append, List.append_assoc]
      exact List.perm_middle.symm
    · simp only [if_true, T.addrs, ctxAddrs, List.cons_append, List.append_assoc]
      refine (List.Perm.cons a ?_).trans List.perm_middle.symm
      rw [← List.append_assoc, ← List.append_assoc]
      exact List.perm_append_comm.append_right _

theorem plug_leaves (t : T) (c : Ctx) : (plug t c).leaves.Perm (t.leaves ++ ctxLeaves c) := by
  induction c generalizing t with
  | nil => simp [plug, ctxLeaves]
  | cons x c ih =>
    obtain ⟨a, snd, s⟩ := x
    refine (ih _).trans ?_
    cases snd
    · simp only [Bool.false_eq_true, if_false, T.leaves, ctxLeaves, List.append_assoc]
      exact List.Perm.refl _
    · simp only [if_true, T.leaves, ctxLeaves]
      rw [← List.append_assoc]
      exact List.perm_append_comm.append_right _

theorem top_plug (t : T) (c : Ctx) : (plug t c).addr = top t.addr c := by
  induction c generalizing t with
  | nil => rfl
  | cons x c ih =>
    obtain ⟨a, snd, s⟩ := x
    simp only [plug, top]
    rw [ih]
    cases snd <;> rfl

theorem top_mem (h : Nat) (c : Ctx) : top h c = h ∧ c = [] ∨ top h c ∈ ctxAddrs c := by
  induction c generalizing h with
  | nil => exact Or.inl ⟨rfl, rfl⟩
  | cons x c ih =>
    obtain ⟨a, snd, s⟩ := x
    right
    simp only [top, ctxAddrs, List.mem_cons, List.mem_append]
    rcases ih a with h | h
    · exact Or.inl h.1
    · exact Or.inr (Or.inr h)

/-- Zooming in. -/
theorem Rep.open {f : Nat → TNode α} {t : T} {c : Ctx} (h : Rep f none (plug t c)) : Rep f (parent c) t ∧ RepC f t.addr c := by
  induction c generalizing t with
  | nil => exact ⟨h, trivial⟩
  | cons x c ih =>
    obtain ⟨a, snd, s⟩ := x
    obtain ⟨h1, h2⟩ := ih h
    cases snd
    · have h3 := h1.node_height
      obtain ⟨k1, k2, k3, k4, k5, k6⟩ := h1
      exact ⟨k5, k1, k2, h3, k6, h2⟩
    · have h3 := h1.node_height
      obtain ⟨k1, k2, k3, k4, k5, k6⟩ := h1
      exact ⟨k6, k1, k2, h3, k5, h2⟩

/-! ### Rotations -/

/-- What a rotation leaves in the memory. -/
structure Rotated (t t' : Tree α) (a c b keep move : Nat) (snd : Bool) : Prop where
  cap : t'.cap = t.cap
  free : t'.free = t.free
  count : t'.count = t.count
  root : t'.root = if (t.node a).link = none then some c else t.root
  na : t'.node a = ⟨some c, if snd then .kids b move else .kids move b, max (t.node b).height (t.node move).height + 1,
    AABB.merge (t.node b).box (t.node move).box⟩
  nc : t'.node c = ⟨(t.node a).link, .kids a keep,
    max (max (t.node b).height (t.node move).height + 1) (t.node keep).height + 1,
    AABB.merge (AABB.merge (t.node b).box (t.node move).box) (t.node keep).box⟩
  nm : t'.node move = { t.node move with link := some a }
  np : ∀ p l r, (t.node a).link = some p → (t.node p).cont = .kids l r →
    t'.node p = { t.node p with cont := if l = a then .kids c r else .kids l c }
  other : ∀ x, x ≠ a → x ≠ c → x ≠ move → some x ≠ (t.node a).link → t'.node x = t.node x

theorem rotateEnd_eq (t : Tree α) {a c b keep move : Nat} {snd : Bool} {k0 l0 r0 : Nat}
    (hc : c < t.cap) (ha : a < t.cap) (hb : b < t.cap) (hk : keep < t.cap) (hm : move < t.cap)
    (kc : (t.node c).cont = .kids a k0) (ka : (t.node a).cont = .kids l0 r0)
    (n1 : a ≠ c) (n2 : b ≠ a) (n3 : b ≠ c) (n4 : keep ≠ a) (n5 : keep ≠ c) (n6 : move ≠ a) (n7 : move ≠ c) (n8 : keep ≠ move)
    (n9 : b ≠ move) :
    ∃ t', t.rotateEnd a c b keep move snd = some t' ∧ t'.cap = t.cap ∧ t'.free = t.free ∧ t'.count = t.count ∧ t'.root = t.root ∧
      t'.node a = ⟨(t.node a).link, if snd then .kids l0 move else .kids move r0,
        max (t.node b).height (t.node move).height + 1, AABB.merge (t.node b).box (t.node move).box⟩ ∧
      t'.node c = ⟨(t.node c).link, .kids a keep,
        max (max (t.node b).height (t.node move).height + 1) (t.node keep).height + 1,
        AABB.merge (AABB.merge (t.node b).box (t.node move).box) (t.node keep).box⟩ ∧
      t'.node move = { t.node move with link := some a } ∧
      ∀ x, x ≠ a → x ≠ c → x ≠ move → t'.node x = t.node x := by
  have n1' := n1.symm
  have n2' := n2.symm
  have n3' := n3.symm
  have n4' := n4.symm
  have n5' := n5.symm
  have n6' := n6.symm
  have n7' := n7.symm
  have n8' := n8.symm
  have n9' := n9.symm
  simp only [rotateEnd, setKid, kids, setCont, setLink, setBox, setHeight, rd, Option.bind_eq_bind, if_pos hc, if_pos ha, if_pos hb,
    if_pos hk, if_pos hm, kc, ka, Option.bind_some, upd, if_neg n1, if_neg n1']
  refine ⟨_, rfl, rfl, rfl, rfl, rfl, ?_, ?_, ?_, ?_⟩
  · simp [upd, n1, n1', n2, n2', n3, n3', n4, n4', n5, n5', n6, n6', n7, n7', n8, n8', n9, n9']
  · simp [upd, n1, n1', n2, n2', n3, n3', n4, n4', n5, n5', n6, n6', n7, n7', n8, n8', n9, n9']
  · simp [upd, n1, n1', n2, n2', n3, n3', n4, n4', n5, n5', n6, n6', n7, n7', n8, n8', n9, n9']
  · intro x h1 h2 h3
    simp [upd, h1, h2, h3]

theorem rotate_eq (t : Tree α) {a c b f g : Nat} {snd : Bool}
    (hc : c < t.cap) (ha : a < t.cap) (hb : b < t.cap) (hf : f < t.cap) (hg : g < t.cap)
    (kc : (t.node c).cont = .kids f g) (ka : (t.node a).cont = if snd then .kids b c else .kids c b)
    (hp : ∀ p, (t.node a).link = some p → p < t.cap ∧ p ≠ a ∧ p ≠ c ∧ p ≠ f ∧ p ≠ g ∧ p ≠ b ∧ ∃ l r, (t.node p).cont = .kids l r)
    (n1 : a ≠ c) (n2 : b ≠ a) (n3 : b ≠ c) (n4 : f ≠ a) (n5 : f ≠ c) (n6 : g ≠ a) (n7 : g ≠ c) (n8 : f ≠ g)
    (n9 : b ≠ f) (n10 : b ≠ g) :
    ∃ t', t.rotate a c b snd = some t' ∧
      if (t.node f).height > (t.node g).height then Rotated t t' a c b f g snd else Rotated t t' a c b g f snd := by
  -- the state before the end of the rotation
  have hk : ∃ l0 r0, (t.node a).cont = .kids l0 r0 ∧ (snd = true → l0 = b) ∧ (snd = false → r0 = b) := by
    cases snd
    · exact ⟨c, b, ka, (by simp), (by simp)⟩
    · exact ⟨b, c, ka, (by simp), (by simp)⟩
  obtain ⟨l0, r0, ka', hl0, hr0⟩ := hk
  have n1' := n1.symm
  have key : ∃ t1 : Tree α, (∀ T : Tree α → Option (Tree α), ((t.kids c).bind fun x => (t.setKid c false a).bind fun t => (t.rd a).bind
        fun na => (t.setLink c na.link).bind fun t => (t.setLink a (some c)).bind fun t => (t.replaceAt na.link a c).bind T) = T t1) ∧
      t1.cap = t.cap ∧ t1.free = t.free ∧ t1.count = t.count ∧ t1.root = (if (t.node a).link = none then some c else t.root) ∧
      t1.node c = { t.node c with cont := .kids a g, link := (t.node a).link } ∧ t1.node a = { t.node a with link := some c } ∧
      (∀ p l r, (t.node a).link = some p → (t.node p).cont = .kids l r →
        t1.node p = { t.node p with cont := if l = a then .kids c r else .kids l c }) ∧
      ∀ x, x ≠ a → x ≠ c → some x ≠ (t.node a).link → t1.node x = t.node x := by
    cases hlk : (t.node a).link with
    | none =>
      refine ⟨⟨upd (upd (upd t.node c { t.node c with cont := .kids a g }) c { t.node c with cont := .kids a g, link := none })
        a { t.node a with link := some c }, t.cap, some c, t.free, t.count⟩, ?_, rfl, rfl, rfl, by simp, ?_, ?_, ?_, ?_⟩
      · intro T
        simp only [setKid, kids, setCont, setLink, rd, Option.bind_eq_bind, if_pos hc, if_pos ha, kc, Option.bind_some, upd,
          if_neg n1, if_neg n1', if_true, hlk, replaceAt, Bool.false_eq_true, if_false]
      · simp [upd, n1']
      · simp [upd]
      · intro p l r h; cases h
      · intro x h1 h2 _; simp [upd, h1, h2]
    | some p =>
      obtain ⟨p1, p2, p3, p4, p5, p6, l, r, p7⟩ := hp p hlk
      have p2' := p2.symm
      have p3' := p3.symm
      refine ⟨⟨upd (upd (upd (upd t.node c { t.node c with cont := .kids a g }) c { t.node c with cont := .kids a g, link := some p })
        a { t.node a with link := some c }) p { t.node p with cont := if l = a then .kids c r else .kids l c },
        t.cap, t.root, t.free, t.count⟩, ?_, rfl, rfl, rfl, by simp, ?_, ?_, ?_, ?_⟩
      · intro T
        by_cases hla : l = a
        · simp only [setKid, kids, setCont, setLink, rd, Option.bind_eq_bind, if_pos hc, if_pos ha, if_pos p1, kc, Option.bind_some,
            upd, if_neg n1, if_neg n1', if_neg p2, if_neg p3, if_true, hlk, replaceAt, replaceChild, p7, hla, Bool.false_eq_true,
            if_false]
        · simp only [setKid, kids, setCont, setLink, rd, Option.bind_eq_bind, if_pos hc, if_pos ha, if_pos p1, kc, Option.bind_some,
            upd, if_neg n1, if_neg n1', if_neg p2, if_neg p3, if_true, hlk, replaceAt, replaceChild, p7, if_neg hla,
            Bool.false_eq_true, if_false]
      · simp [upd, n1', p3']
      · simp [upd, p2']
      · intro q l' r' h h'
        cases h
        rw [p7] at h'; cases h'
        simp [upd]
      · intro x h1 h2 h3
        have : x ≠ p := fun e => h3 (by rw [e])
        simp [upd, h1, h2, this]
  obtain ⟨t1, e1, c1, c2, c3, c4, c5, c6, c7, c8⟩ := key
  have hnp : ∀ x, x < t.cap → (x = f ∨ x = g ∨ x = b) → some x ≠ (t.node a).link := by
    intro x _ hx e
    obtain ⟨_, _, _, p4, p5, p6, _⟩ := hp x e.symm
    rcases hx with h | h | h
    · exact p4 h
    · exact p5 h
    · exact p6 h
  have ef : t1.node f = t.node f := c8 f n4 n5 (hnp f hf (Or.inl rfl))
  have eg : t1.node g = t.node g := c8 g n6 n7 (hnp g hg (Or.inr (Or.inl rfl)))
  have eb : t1.node b = t.node b := c8 b n2 n3 (hnp b hb (Or.inr (Or.inr rfl)))
  have erot : t.rotate a c b snd = if (t.node f).height > (t.node g).height then t1.rotateEnd a c b f g snd
      else t1.rotateEnd a c b g f snd := by
    have := e1 (fun t2 => (t2.rd f).bind fun nf => (t2.rd g).bind fun ng =>
      if nf.height > ng.height then t2.rotateEnd a c b f g snd else t2.rotateEnd a c b g f snd)
    simp only [rd, c1, if_pos hf, if_pos hg, Option.bind_some, ef, eg] at this
    rw [← this]
    unfold rotate
    simp only [kids, if_pos hc, kc, Option.bind_some, Option.bind_eq_bind, rd]
  have fin : ∀ keep move : Nat, keep < t.cap → move < t.cap → keep ≠ a → keep ≠ c → move ≠ a → move ≠ c → keep ≠ move → b ≠ move →
      t1.node keep = t.node keep → t1.node move = t.node move → some move ≠ (t.node a).link → some a ≠ (t.node a).link →
      some c ≠ (t.node a).link →
      ∃ t', t1.rotateEnd a c b keep move snd = some t' ∧ Rotated t t' a c b keep move snd := by
    intro keep move h1 h2 h3 h4 h5 h6 h7 h8 ek em h9 h10 h11
    obtain ⟨t', e, k1, k2, k3, k4, k5, k6, k7, k8⟩ := rotateEnd_eq t1 (snd := snd) (a := a) (c := c) (b := b) (keep := keep)
      (move := move) (k0 := g) (l0 := l0) (r0 := r0)
      (by omega) (by omega) (by omega) (by omega) (by omega) (by rw [c5]) (by rw [c6]; exact ka') n1 n2 n3 h3 h4 h5 h6 h7 h8
    refine ⟨t', e, ⟨by rw [k1, c1], by rw [k2, c2], by rw [k3, c3], by rw [k4, c4], ?_, ?_, ?_, ?_, ?_⟩⟩
    · rw [k5, c6, eb, em]
      cases snd
      · simp [hr0 rfl]
      · simp [hl0 rfl]
    · rw [k6, c5, eb, em, ek]
    · rw [k7, em]
    · intro p l r hpl hpc
      have hpne : p ≠ a ∧ p ≠ c ∧ p ≠ move := by
        refine ⟨?_, ?_, ?_⟩ <;> rintro rfl
        · exact h10 hpl.symm
        · exact h11 hpl.symm
        · exact h9 hpl.symm
      rw [k8 p hpne.1 hpne.2.1 hpne.2.2]
      exact c7 p l r hpl hpc
    · intro x x1 x2 x3 x4
      rw [k8 x x1 x2 x3]
      exact c8 x x1 x2 x4
  have h10 : some a ≠ (t.node a).link := fun e => (hp a e.symm).2.1 rfl
  have h11 : some c ≠ (t.node a).link := fun e => (hp c e.symm).2.2.1 rfl
  rw [erot]
  split_ifs with hh
  · exact fin f g hf hg n4 n5 n6 n7 n8 n10 ef eg (hnp g hg (Or.inr (Or.inl rfl))) h10 h11
  · exact fin g f hg hf n6 n7 n4 n5 n8.symm n9 eg ef (hnp f hf (Or.inl rfl)) h10 h11

end Tree
end RP3D
