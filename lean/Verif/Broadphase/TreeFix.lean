import Verif.Broadphase.TreeLemmas

set_option linter.unusedVariables false

/-! Balancing and the way up to the root. -/

namespace RP3D
namespace Tree
variable {α : Type} [LinearOrder α]

/-- The inner node `a` with children `l` and `r` below the path `c`; its height and box may be out of date. -/
structure Open (t : Tree α) (a : Nat) (l r : T) (c : Ctx) : Prop where
  link : (t.node a).link = parent c
  cont : (t.node a).cont = .kids l.addr r.addr
  height : 1 ≤ (t.node a).height
  rl : Rep t.node (some a) l
  rr : Rep t.node (some a) r
  ctx : RepC t.node a c
  nd : (a :: (l.addrs ++ (r.addrs ++ ctxAddrs c))).Nodup
  lt : ∀ x ∈ a :: (l.addrs ++ (r.addrs ++ ctxAddrs c)), x < t.cap
  root : t.root = some (top a c)

/-- What the operations on the inner nodes do not change: everything outside of `all`, and the leaves `ls` up to their parents. -/
structure Same (t t' : Tree α) (ls all : List Nat) : Prop where
  cap : t'.cap = t.cap
  free : t'.free = t.free
  count : t'.count = t.count
  out : ∀ x, x ∉ all → t'.node x = t.node x
  leaf : ∀ x ∈ ls, (t'.node x).box = (t.node x).box ∧ (t'.node x).cont = (t.node x).cont ∧ (t'.node x).height = (t.node x).height

theorem Same.refl (t : Tree α) (ls all : List Nat) : Same t t ls all := ⟨rfl, rfl, rfl, fun _ _ => rfl, fun _ _ => ⟨rfl, rfl, rfl⟩⟩

theorem Same.trans {t t' t'' : Tree α} {ls all ls' all' : List Nat} (h : Same t t' ls all) (h' : Same t' t'' ls' all')
    (e1 : ∀ x ∈ ls, x ∈ ls') (e2 : ∀ x ∈ all', x ∈ all) : Same t t'' ls all :=
  ⟨h'.cap.trans h.cap, h'.free.trans h.free, h'.count.trans h.count,
   fun x hx => (h'.out x (fun k => hx (e2 x k))).trans (h.out x hx),
   fun x hx => by
     obtain ⟨a1, a2, a3⟩ := h.leaf x hx
     obtain ⟨b1, b2, b3⟩ := h'.leaf x (e1 x hx)
     exact ⟨b1.trans a1, b2.trans a2, b3.trans a3⟩⟩

theorem addr_leaf (a : Nat) : (T.leaf a).addr = a := rfl
theorem addr_node (a : Nat) (l r : T) : (T.node a l r).addr = a := rfl

theorem merge_comm (a b : AABB α) : AABB.merge a b = AABB.merge b a := by
  rw [AABB.merge_eq, AABB.merge_eq]
  simp only [min_comm, max_comm]

theorem parent_mem {c : Ctx} {p : Nat} (h : parent c = some p) : p ∈ ctxAddrs c := by
  cases c with
  | nil => cases h
  | cons x c => obtain ⟨a, s, q⟩ := x; cases h; simp [ctxAddrs]

theorem RepC.parent_kids {f : Nat → TNode α} {h : Nat} {c : Ctx} (hc : RepC f h c) {p : Nat} (hp : parent c = some p) :
    ∃ l r, (f p).cont = .kids l r := by
  cases c with
  | nil => cases hp
  | cons x c =>
    obtain ⟨a, s, q⟩ := x
    cases hp
    cases s
    · exact ⟨_, _, hc.2.1⟩
    · exact ⟨_, _, hc.2.1⟩

theorem ctxLeaves_sub (c : Ctx) : ∀ x ∈ ctxLeaves c, x ∈ ctxAddrs c ∧ some x ≠ parent c ∨ ¬ (ctxAddrs c).Nodup := by
  intro x hx
  by_cases nd : (ctxAddrs c).Nodup
  · left
    induction c with
    | nil => simp [ctxLeaves] at hx
    | cons y c ih =>
      obtain ⟨a, s, q⟩ := y
      simp only [ctxLeaves, List.mem_append] at hx
      simp only [ctxAddrs, List.nodup_cons, List.mem_append, not_or, List.nodup_append] at nd
      simp only [ctxAddrs, List.mem_cons, List.mem_append, parent]
      rcases hx with h | h
      · exact ⟨Or.inr (Or.inl (leaves_sub q x h)), fun e => by cases e; exact nd.1.1 (leaves_sub q x h)⟩
      · have := (ih h nd.2.2.1).1
        exact ⟨Or.inr (Or.inr this), fun e => by cases e; exact nd.1.2 this⟩
  · exact Or.inr nd

/-- A rotation keeps the structure. -/
theorem Rotated.open {t t' : Tree α} {a c0 : Nat} {o mv kp : T} {c : Ctx} {snd : Bool}
    (h : Rotated t t' a c0 o.addr kp.addr mv.addr snd) (hl : (t.node a).link = parent c)
    (ro : Rep t.node (some a) o) (rm : Rep t.node (some c0) mv) (rk : Rep t.node (some c0) kp) (hc : RepC t.node a c)
    (nd : (a :: c0 :: (o.addrs ++ (mv.addrs ++ (kp.addrs ++ ctxAddrs c)))).Nodup)
    (lt : ∀ x ∈ a :: c0 :: (o.addrs ++ (mv.addrs ++ (kp.addrs ++ ctxAddrs c))), x < t.cap)
    (root : t.root = some (top a c)) :
    Open t' c0 (if snd then .node a o mv else .node a mv o) kp c ∧
      Same t t' (o.leaves ++ (mv.leaves ++ (kp.leaves ++ ctxLeaves c)))
        (a :: c0 :: (o.addrs ++ (mv.addrs ++ (kp.addrs ++ ctxAddrs c)))) := by
  have nd0 := nd
  simp only [List.nodup_cons, List.mem_cons, List.mem_append, not_or, List.nodup_append] at nd
  obtain ⟨⟨nac, nao, nam, nak, nax⟩, ⟨nco, ncm, nck, ncx⟩, ndo, ⟨ndm, ⟨ndk, ndx, dkx⟩, dm⟩, dO⟩ := nd
  have hpx : ∀ p, parent c = some p → p ∈ ctxAddrs c := fun p hp => parent_mem hp
  have hpne : ∀ x, x ∉ ctxAddrs c → some x ≠ (t.node a).link := by
    intro x hx e
    rw [hl] at e
    exact hx (hpx x e.symm)
  have amv := addr_mem mv
  -- unchanged parts
  have eo : ∀ x ∈ o.addrs, t'.node x = t.node x := by
    intro x hx
    refine h.other x ?_ ?_ ?_ (hpne x ?_)
    · rintro rfl; exact nao hx
    · rintro rfl; exact nco hx
    · rintro rfl; exact dO _ hx _ (Or.inl amv) rfl
    · intro hx'; exact dO _ hx _ (Or.inr (Or.inr hx')) rfl
  have ek : ∀ x ∈ kp.addrs, t'.node x = t.node x := by
    intro x hx
    refine h.other x ?_ ?_ ?_ (hpne x ?_)
    · rintro rfl; exact nak hx
    · rintro rfl; exact nck hx
    · rintro rfl; exact dm _ amv _ (Or.inl hx) rfl
    · intro hx'; exact dkx _ hx _ hx' rfl
  have em : ∀ x ∈ mv.addrs, x ≠ mv.addr → t'.node x = t.node x := by
    intro x hx hne
    refine h.other x ?_ ?_ hne (hpne x ?_)
    · rintro rfl; exact nam hx
    · rintro rfl; exact ncm hx
    · intro hx'; exact dm _ hx _ (Or.inr hx') rfl
  have ex : ∀ x ∈ ctxAddrs c, some x ≠ parent c → t'.node x = t.node x := by
    intro x hx hne
    refine h.other x ?_ ?_ ?_ (by rw [hl]; exact hne)
    · rintro rfl; exact nax hx
    · rintro rfl; exact ncx hx
    · rintro rfl; exact dm _ amv _ (Or.inr hx) rfl
  have ro' : Rep t'.node (some a) o := ro.congr eo
  have rk' : Rep t'.node (some c0) kp := rk.congr ek
  have rm' : Rep t'.node (some a) mv := rm.relink ndm h.nm em
  have eno : t'.node o.addr = t.node o.addr := eo _ (addr_mem o)
  have enk : t'.node kp.addr = t.node kp.addr := ek _ (addr_mem kp)
  have hca : (if snd then T.node a o mv else T.node a mv o).addr = a := by cases snd <;> rfl
  have rA : Rep t'.node (some c0) (if snd then .node a o mv else .node a mv o) := by
    cases snd
    · simp only [Bool.false_eq_true, if_false, Rep]
      refine ⟨by rw [h.na], by rw [h.na]; simp, ?_, ?_, rm', ro'⟩
      · rw [h.na, h.nm, eno]; simp only; rw [max_comm]
      · rw [h.na, h.nm, eno]; simp only; rw [merge_comm]
    · simp only [if_true, Rep]
      refine ⟨by rw [h.na], by rw [h.na]; simp, ?_, ?_, ro', rm'⟩
      · rw [h.na, h.nm, eno]
      · rw [h.na, h.nm, eno]
  have rC : RepC t'.node c0 c := by
    refine hc.rehole ndx ?_ ex
    intro p s q c' e
    subst e
    have hlp : (t.node a).link = some p := hl
    have hcont := hc.2.1
    cases s
    · simp only [Bool.false_eq_true, if_false] at hcont ⊢
      rw [h.np p _ _ hlp hcont]; simp
    · simp only [if_true] at hcont ⊢
      have hq : q.addr ≠ a := by
        intro e; apply nax; rw [← e]; simp [ctxAddrs, addr_mem]
      rw [h.np p _ _ hlp hcont, if_neg hq]
  have hperm : (c0 :: ((if snd then T.node a o mv else T.node a mv o).addrs ++ (kp.addrs ++ ctxAddrs c))).Perm
      (a :: c0 :: (o.addrs ++ (mv.addrs ++ (kp.addrs ++ ctxAddrs c)))) := by
    cases snd
    · simp only [Bool.false_eq_true, if_false, T.addrs, List.cons_append, List.append_assoc]
      refine (List.Perm.swap _ _ _).trans (List.Perm.cons _ (List.Perm.cons _ ?_))
      rw [← List.append_assoc, ← List.append_assoc o.addrs]
      exact List.perm_append_comm.append_right _
    · simp only [if_true, T.addrs, List.cons_append, List.append_assoc]
      exact List.Perm.swap _ _ _
  refine ⟨⟨?_, ?_, ?_, rA, rk', rC, ?_, ?_, ?_⟩, ?_⟩
  · rw [h.nc]; exact hl
  · rw [h.nc, hca]
  · rw [h.nc]
    have := ro.height_nonneg
    have := rm.height_nonneg
    simp only; omega
  · exact hperm.nodup_iff.2 nd0
  · intro x hx
    rw [h.cap]
    exact lt x (hperm.mem_iff.1 hx)
  · rw [h.root, hl]
    cases c with
    | nil => rfl
    | cons y c => obtain ⟨p, s, q⟩ := y; simpa [parent, top] using root
  · refine ⟨h.cap, h.free, h.count, ?_, ?_⟩
    · intro x hx
      simp only [List.mem_cons, List.mem_append, not_or] at hx
      obtain ⟨x1, x2, x3, x4, x5, x6⟩ := hx
      exact h.other x x1 x2 (fun e => x4 (by rw [e]; exact amv)) (hpne x x6)
    · intro x hx
      simp only [List.mem_append] at hx
      rcases hx with hx | hx | hx | hx
      · rw [eo x (leaves_sub o x hx)]; exact ⟨rfl, rfl, rfl⟩
      · by_cases e : x = mv.addr
        · subst e; rw [h.nm]; exact ⟨rfl, rfl, rfl⟩
        · rw [em x (leaves_sub mv x hx) e]; exact ⟨rfl, rfl, rfl⟩
      · rw [ek x (leaves_sub kp x hx)]; exact ⟨rfl, rfl, rfl⟩
      · rcases ctxLeaves_sub c x hx with ⟨h1, h2⟩ | h1
        · rw [ex x h1 h2]; exact ⟨rfl, rfl, rfl⟩
        · exact absurd ndx h1

/-- The result of balancing: the same leaves and node ids. -/
theorem balance_open {t : Tree α} {a : Nat} {l r : T} {c : Ctx} (h : Open t a l r c) :
    ∃ t' a' l' r', t.balance a = some (t', a') ∧ Open t' a' l' r' c ∧
      (a' :: (l'.addrs ++ r'.addrs)).Perm (a :: (l.addrs ++ r.addrs)) ∧ (l'.leaves ++ r'.leaves).Perm (l.leaves ++ r.leaves) ∧
      Same t t' (l.leaves ++ (r.leaves ++ ctxLeaves c)) (a :: (l.addrs ++ (r.addrs ++ ctxAddrs c))) := by
  have hlt := h.lt
  have ha : a < t.cap := hlt a (by simp)
  have hlc : l.addr < t.cap := hlt _ (by simp [addr_mem])
  have hrc : r.addr < t.cap := hlt _ (by simp [addr_mem])
  have hid : ∃ t' a' l' r', some (t, a) = some (t', a') ∧ Open t' a' l' r' c ∧
      (a' :: (l'.addrs ++ r'.addrs)).Perm (a :: (l.addrs ++ r.addrs)) ∧ (l'.leaves ++ r'.leaves).Perm (l.leaves ++ r.leaves) ∧
      Same t t' (l.leaves ++ (r.leaves ++ ctxLeaves c)) (a :: (l.addrs ++ (r.addrs ++ ctxAddrs c))) :=
    ⟨t, a, l, r, rfl, h, List.Perm.refl _, List.Perm.refl _, Same.refl _ _ _⟩
  have nd0 := h.nd
  have nd := h.nd
  simp only [List.nodup_cons, List.mem_append, not_or, List.nodup_append] at nd
  obtain ⟨⟨nal, nar, nax⟩, ndl, ⟨ndr, ndx, drx⟩, dl⟩ := nd
  have hpar : ∀ p, (t.node a).link = some p → p ∈ ctxAddrs c ∧ p < t.cap ∧ p ≠ a ∧ ∃ l r, (t.node p).cont = .kids l r := by
    intro p hp
    rw [h.link] at hp
    have hm := parent_mem hp
    exact ⟨hm, hlt p (by simp [hm]), fun e => nax (by rw [← e]; exact hm), h.ctx.parent_kids hp⟩
  unfold balance
  simp only [rd, if_pos ha, kids, h.cont, if_pos hlc, if_pos hrc, Option.bind_eq_bind, Option.bind_some, Option.pure_def]
  by_cases hh : (t.node a).height = 0 ∨ (t.node a).height < 2
  · rw [if_pos hh]; exact hid
  rw [if_neg hh]
  by_cases h1 : (t.node r.addr).height - (t.node l.addr).height > 1
  · rw [if_pos h1]
    cases r with
    | leaf x =>
      exfalso
      have k1 := h.rr.2
      have k2 := h.rl.height_nonneg
      simp only [addr_leaf] at h1
      rw [k1] at h1; omega
    | node x F G =>
      simp only [addr_node] at h1 ⊢
      simp only [T.addrs, List.mem_cons, List.mem_append, not_or, List.nodup_cons, List.nodup_append] at ndr nar dl drx
      obtain ⟨⟨nxF, nxG⟩, ndF, ndG, dFG⟩ := ndr
      obtain ⟨nax', naF, naG⟩ := nar
      obtain ⟨q1, q2, q3, q4, q5, q6⟩ := h.rr
      have aF := addr_mem F
      have aG := addr_mem G
      have al := addr_mem l
      have hx : x < t.cap := hlt x (by simp [T.addrs])
      have hF : F.addr < t.cap := hlt _ (by simp [T.addrs, aF])
      have hG : G.addr < t.cap := hlt _ (by simp [T.addrs, aG])
      obtain ⟨t', e, hrot⟩ := rotate_eq t (a := a) (c := x) (b := l.addr) (f := F.addr) (g := G.addr) (snd := true)
        hx ha hlc hF hG q2 (by rw [h.cont]; rfl)
        (by
          intro p hp
          obtain ⟨p1, p2, p3, p4⟩ := hpar p hp
          refine ⟨p2, p3, ?_, ?_, ?_, ?_, p4⟩
          · rintro rfl; exact drx _ (Or.inl rfl) _ p1 rfl
          · rintro rfl; exact drx _ (Or.inr (Or.inl aF)) _ p1 rfl
          · rintro rfl; exact drx _ (Or.inr (Or.inr aG)) _ p1 rfl
          · rintro rfl; exact dl _ al _ (Or.inr p1) rfl)
        nax' (fun e => nal (by rw [← e]; exact al)) (fun e => dl _ al _ (Or.inl (Or.inl rfl)) e)
        (fun e => naF (by rw [← e]; exact aF)) (fun e => nxF (by rw [← e]; exact aF))
        (fun e => naG (by rw [← e]; exact aG)) (fun e => nxG (by rw [← e]; exact aG))
        (fun e => dFG _ aF _ aG e) (fun e => dl _ al _ (Or.inl (Or.inr (Or.inl aF))) e)
        (fun e => dl _ al _ (Or.inl (Or.inr (Or.inr aG))) e)
      simp only [e, Option.bind_some]
      have fin : ∀ mv kp : T, Rotated t t' a x l.addr kp.addr mv.addr true → Rep t.node (some x) mv → Rep t.node (some x) kp →
          (mv.addrs ++ kp.addrs).Perm (F.addrs ++ G.addrs) → (mv.leaves ++ kp.leaves).Perm (F.leaves ++ G.leaves) → 
          ∃ t'' a' l' r', some (t', x) = some (t'', a') ∧ Open t'' a' l' r' c ∧
            (a' :: (l'.addrs ++ r'.addrs)).Perm (a :: (l.addrs ++ (T.node x F G).addrs)) ∧
            (l'.leaves ++ r'.leaves).Perm (l.leaves ++ (T.node x F G).leaves) ∧
            Same t t'' (l.leaves ++ ((T.node x F G).leaves ++ ctxLeaves c))
              (a :: (l.addrs ++ ((T.node x F G).addrs ++ ctxAddrs c))) := by
        intro mv kp hr rm rk pa pl
        have pA : (a :: x :: (l.addrs ++ (mv.addrs ++ (kp.addrs ++ ctxAddrs c)))).Perm
            (a :: (l.addrs ++ ((T.node x F G).addrs ++ ctxAddrs c))) := by
          simp only [T.addrs, List.cons_append]
          refine List.Perm.cons _ ((List.Perm.cons _ ?_).trans List.perm_middle.symm)
          rw [← List.append_assoc mv.addrs]
          exact (pa.append_right _).append_left _
        have pL : (l.leaves ++ (mv.leaves ++ (kp.leaves ++ ctxLeaves c))).Perm
            (l.leaves ++ ((T.node x F G).leaves ++ ctxLeaves c)) := by
          simp only [T.leaves]
          rw [← List.append_assoc mv.leaves]
          exact (pl.append_right _).append_left _
        obtain ⟨ho, hs⟩ := hr.open h.link h.rl rm rk h.ctx (pA.nodup_iff.2 nd0) (fun y hy => hlt y (pA.mem_iff.1 hy)) h.root
        refine ⟨t', x, _, _, rfl, ho, ?_, ?_, ?_⟩
        · simp only [if_true, T.addrs, List.cons_append, List.append_assoc]
          refine (List.Perm.swap _ _ _).trans (List.Perm.cons _ ((List.Perm.cons _ ?_).trans List.perm_middle.symm))
          exact pa.append_left _
        · simp only [if_true, T.leaves, List.append_assoc]
          exact pl.append_left _
        · exact ⟨hs.cap, hs.free, hs.count, fun y hy => hs.out y (fun k => hy (pA.mem_iff.1 k)),
            fun y hy => hs.leaf y (pL.mem_iff.2 hy)⟩
      split_ifs at hrot with hfg
      · exact fin G F hrot q6 q5 List.perm_append_comm List.perm_append_comm
      · exact fin F G hrot q5 q6 (List.Perm.refl _) (List.Perm.refl _)
  rw [if_neg h1]
  by_cases h2 : (t.node r.addr).height - (t.node l.addr).height < -1
  · rw [if_pos h2]
    cases l with
    | leaf x =>
      exfalso
      have k1 := h.rl.2
      have k2 := h.rr.height_nonneg
      simp only [addr_leaf] at h2
      rw [k1] at h2; omega
    | node x F G =>
      simp only [addr_node] at h2 ⊢
      simp only [T.addrs, List.mem_cons, List.mem_append, not_or, List.nodup_cons, List.nodup_append] at ndl nal dl
      obtain ⟨⟨nxF, nxG⟩, ndF, ndG, dFG⟩ := ndl
      obtain ⟨nax', naF, naG⟩ := nal
      obtain ⟨q1, q2, q3, q4, q5, q6⟩ := h.rl
      have aF := addr_mem F
      have aG := addr_mem G
      have ar := addr_mem r
      have hx : x < t.cap := hlt x (by simp [T.addrs])
      have hF : F.addr < t.cap := hlt _ (by simp [T.addrs, aF])
      have hG : G.addr < t.cap := hlt _ (by simp [T.addrs, aG])
      obtain ⟨t', e, hrot⟩ := rotate_eq t (a := a) (c := x) (b := r.addr) (f := F.addr) (g := G.addr) (snd := false)
        hx ha hrc hF hG q2 (by rw [h.cont]; rfl)
        (by
          intro p hp
          obtain ⟨p1, p2, p3, p4⟩ := hpar p hp
          refine ⟨p2, p3, ?_, ?_, ?_, ?_, p4⟩
          · rintro rfl; exact dl _ (Or.inl rfl) _ (Or.inr p1) rfl
          · rintro rfl; exact dl _ (Or.inr (Or.inl aF)) _ (Or.inr p1) rfl
          · rintro rfl; exact dl _ (Or.inr (Or.inr aG)) _ (Or.inr p1) rfl
          · rintro rfl; exact drx _ ar _ p1 rfl)
        nax' (fun e => nar (by rw [← e]; exact ar)) (fun e => dl _ (Or.inl rfl) _ (Or.inl ar) e.symm)
        (fun e => naF (by rw [← e]; exact aF)) (fun e => nxF (by rw [← e]; exact aF))
        (fun e => naG (by rw [← e]; exact aG)) (fun e => nxG (by rw [← e]; exact aG))
        (fun e => dFG _ aF _ aG e) (fun e => dl _ (Or.inr (Or.inl aF)) _ (Or.inl ar) e.symm)
        (fun e => dl _ (Or.inr (Or.inr aG)) _ (Or.inl ar) e.symm)
      simp only [e, Option.bind_some]
      have fin : ∀ mv kp : T, Rotated t t' a x r.addr kp.addr mv.addr false → Rep t.node (some x) mv → Rep t.node (some x) kp →
          (mv.addrs ++ kp.addrs).Perm (F.addrs ++ G.addrs) → (mv.leaves ++ kp.leaves).Perm (F.leaves ++ G.leaves) → 
          ∃ t'' a' l' r', some (t', x) = some (t'', a') ∧ Open t'' a' l' r' c ∧
            (a' :: (l'.addrs ++ r'.addrs)).Perm (a :: ((T.node x F G).addrs ++ r.addrs)) ∧
            (l'.leaves ++ r'.leaves).Perm ((T.node x F G).leaves ++ r.leaves) ∧
            Same t t'' ((T.node x F G).leaves ++ (r.leaves ++ ctxLeaves c))
              (a :: ((T.node x F G).addrs ++ (r.addrs ++ ctxAddrs c))) := by
        intro mv kp hr rm rk pa pl
        have swap3 : ∀ (R M K C FG : List Nat), (M ++ K).Perm FG → (R ++ (M ++ (K ++ C))).Perm (FG ++ (R ++ C)) := by
          intro R M K C FG hp
          have : (R ++ (M ++ (K ++ C))).Perm (R ++ (FG ++ C)) := by
            rw [← List.append_assoc M]
            exact (hp.append_right _).append_left _
          refine this.trans ?_
          rw [← List.append_assoc, ← List.append_assoc]
          exact List.perm_append_comm.append_right _
        have pA : (a :: x :: (r.addrs ++ (mv.addrs ++ (kp.addrs ++ ctxAddrs c)))).Perm
            (a :: ((T.node x F G).addrs ++ (r.addrs ++ ctxAddrs c))) := by
          simp only [T.addrs, List.cons_append]
          exact List.Perm.cons _ (List.Perm.cons _ (swap3 _ _ _ _ _ pa))
        have pL : (r.leaves ++ (mv.leaves ++ (kp.leaves ++ ctxLeaves c))).Perm
            ((T.node x F G).leaves ++ (r.leaves ++ ctxLeaves c)) := by
          simp only [T.leaves]
          exact swap3 _ _ _ _ _ pl
        have swap2 : ∀ (R M K FG : List Nat), (M ++ K).Perm FG → (M ++ (R ++ K)).Perm (FG ++ R) := by
          intro R M K FG hp
          have : (M ++ (R ++ K)).Perm (M ++ K ++ R) := by
            rw [List.append_assoc]
            exact List.perm_append_comm.append_left _
          exact this.trans (hp.append_right _)
        obtain ⟨ho, hs⟩ := hr.open h.link h.rr rm rk h.ctx (pA.nodup_iff.2 nd0) (fun y hy => hlt y (pA.mem_iff.1 hy)) h.root
        refine ⟨t', x, _, _, rfl, ho, ?_, ?_, ?_⟩
        · simp only [Bool.false_eq_true, if_false, T.addrs, List.cons_append, List.append_assoc]
          refine (List.Perm.swap _ _ _).trans (List.Perm.cons _ (List.Perm.cons _ ?_))
          have := swap2 r.addrs mv.addrs kp.addrs _ pa
          simpa only [List.append_assoc] using this
        · simp only [Bool.false_eq_true, if_false, T.leaves, List.append_assoc]
          have := swap2 r.leaves mv.leaves kp.leaves _ pl
          simpa only [List.append_assoc] using this
        · exact ⟨hs.cap, hs.free, hs.count, fun y hy => hs.out y (fun k => hy (pA.mem_iff.1 k)),
            fun y hy => hs.leaf y (pL.mem_iff.2 hy)⟩
      split_ifs at hrot with hfg
      · exact fin G F hrot q6 q5 List.perm_append_comm List.perm_append_comm
      · exact fin F G hrot q5 q6 (List.Perm.refl _) (List.Perm.refl _)
  rw [if_neg h2]
  exact hid

end Tree
end RP3D
