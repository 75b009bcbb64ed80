import Verif.Broadphase.TreeInv

set_option linter.unusedVariables false
set_option linter.unusedSectionVars false

/-! Insertion and removal of leaves. -/

namespace RP3D
namespace Tree
variable {α : Type} [LinearOrder α]

theorem descend_spec (ch : Choice α) {t : Tree α} {T0 : T} (hrep : Rep t.node none T0) (hlt : ∀ x ∈ T0.addrs, x < t.cap)
    (nb : AABB α) : ∀ (sub : T) (c : Ctx), T0 = plug sub c → ∃ s c', T0 = plug s c' ∧ descend ch t nb sub.addr = some s.addr := by
  intro sub
  induction sub with
  | leaf a =>
    intro c e
    refine ⟨.leaf a, c, e, ?_⟩
    subst e
    obtain ⟨h1, h2⟩ := hrep.open
    have ha : a < t.cap := hlt a ((plug_addrs _ _).mem_iff.2 (by simp [T.addrs]))
    have hra : t.rd a = some (t.node a) := if_pos ha
    rw [addr_leaf, descend, hra]
    exact if_pos h1.2
  | node a l r ihl ihr =>
    intro c e
    have ho : Rep t.node (parent c) (.node a l r) ∧ RepC t.node a c := by
      subst e; exact hrep.open
    have hm : ∀ x ∈ (T.node a l r).addrs, x < t.cap := by
      intro x hx; apply hlt; rw [e]; exact (plug_addrs _ _).mem_iff.2 (by simp [hx])
    have ha : a < t.cap := hm a (by simp [T.addrs])
    have hl : l.addr < t.cap := hm _ (by simp [T.addrs, addr_mem])
    have hr : r.addr < t.cap := hm _ (by simp [T.addrs, addr_mem])
    have hh := ho.1.node_height
    have hk := ho.1.2.1
    have hra : t.rd a = some (t.node a) := if_pos ha
    have hrl : t.rd l.addr = some (t.node l.addr) := if_pos hl
    have hrr : t.rd r.addr = some (t.node r.addr) := if_pos hr
    have hka : t.kids a = some (l.addr, r.addr) := by simp only [kids, if_pos ha, hk]
    cases hd : ch (t.node a).box nb (t.node l.addr).box ((t.node l.addr).height == 0) (t.node r.addr).box
        ((t.node r.addr).height == 0) with
    | stop =>
      refine ⟨.node a l r, c, e, ?_⟩
      rw [addr_node, descend, hra]
      simp only [if_neg (show ¬ (t.node a).height = 0 by omega), hka, hrl, hrr, hd]
    | left =>
      obtain ⟨s, c', h1, h2⟩ := ihl ((a, false, r) :: c) (by rw [e]; rfl)
      refine ⟨s, c', h1, ?_⟩
      rw [addr_node, descend, hra]
      simp only [if_neg (show ¬ (t.node a).height = 0 by omega), hka, hrl, hrr, hd]
      exact h2
    | right =>
      obtain ⟨s, c', h1, h2⟩ := ihr ((a, true, l) :: c) (by rw [e]; rfl)
      refine ⟨s, c', h1, ?_⟩
      rw [addr_node, descend, hra]
      simp only [if_neg (show ¬ (t.node a).height = 0 by omega), hka, hrl, hrr, hd]
      exact h2

/-- Leaves keep their boxes, data and heights. -/
def KeepLeaves (t t' : Tree α) (ls : List Nat) : Prop :=
  ∀ x ∈ ls, (t'.node x).box = (t.node x).box ∧ (t'.node x).cont = (t.node x).cont ∧ (t'.node x).height = (t.node x).height

/-- `replaceChild` on the node above a hole. -/
theorem replaceChild_ctx {t : Tree α} {h h' p : Nat} {snd : Bool} {s : T} {c : Ctx} (hc : RepC t.node h ((p, snd, s) :: c))
    (hp : p < t.cap) (hne : s.addr ≠ h) :
    t.replaceChild p h h' = some { t with node := upd t.node p { t.node p with cont := if snd then .kids s.addr h' else .kids h' s.addr } } := by
  have hk := hc.2.1
  cases snd
  · simp only [Bool.false_eq_true, if_false] at hk
    simp only [replaceChild, kids, if_pos hp, hk, Option.bind_eq_bind, Option.bind_some, if_true, setKid, setCont, Bool.false_eq_true,
      if_false]
  · simp only [if_true] at hk
    simp only [replaceChild, kids, if_pos hp, hk, Option.bind_eq_bind, Option.bind_some, if_neg hne, setKid, setCont, if_true]

theorem insertLeaf_inv (ch : Choice α) {t : Tree α} {tr : Option T} {ext fl : List Nat} {i : Nat} (h : Inv t tr (i :: ext) fl)
    (hh : (t.node i).height = 0) :
    ∃ t' tr' fl', t.insertLeaf ch i = some t' ∧ Inv t' (some tr') ext fl' ∧ tr'.leaves.Perm (i :: oleaves tr) ∧
      KeepLeaves t t' (i :: oleaves tr) ∧ ∀ x ∈ ext, t'.node x = t.node x := by
  have hi : i < t.cap := h.lt (by simp)
  have hnd := h.nd
  cases tr with
  | none =>
    let v : TNode α := { t.node i with link := none }
    simp only [oaddrs, List.nil_append] at hnd
    have hnd' := List.nodup_cons.1 hnd
    refine ⟨⟨upd t.node i v, t.cap, some i, t.free, t.count⟩, .leaf i, fl, ?_, ⟨?_, rfl, ?_, ?_, ?_, h.cap⟩, by simp [T.leaves, oleaves],
      ?_, ?_⟩
    · unfold insertLeaf
      rw [h.root]
      simp only [Option.map_none, setLink, if_pos hi]
      rfl
    · rintro _ ⟨⟩
      simp only [Rep, upd_same]
      exact ⟨rfl, hh⟩
    · refine h.free.congr (fun x hx => upd_ne _ _ ?_)
      rintro rfl
      exact hnd'.1 (by simp [hx])
    · exact h.perm
    · exact h.count
    · intro x hx
      simp only [oleaves, List.mem_singleton] at hx
      subst hx
      simp only [upd_same]
      exact ⟨rfl, rfl, rfl⟩
    · intro x hx
      refine upd_ne _ _ ?_
      rintro rfl
      exact hnd'.1 (by simp [hx])
  | some T0 =>
    have hlt0 : ∀ x ∈ T0.addrs, x < t.cap := fun x hx => h.lt (Or.inl hx)
    obtain ⟨s, c, eT, ed⟩ := descend_spec ch (h.rep T0 rfl) hlt0 (t.node i).box T0 [] rfl
    obtain ⟨t1, p, fl', ea, hI, hlk, hht, hsame⟩ := allocNode_inv h
    have hperm0 : T0.addrs.Perm (s.addrs ++ ctxAddrs c) := by rw [eT]; exact plug_addrs _ _
    have hT0 : ∀ x ∈ T0.addrs, t1.node x = t.node x ∧ x ≠ p := fun x hx => hsame x (Or.inl hx)
    have hI' : t1.node i = t.node i ∧ i ≠ p := hsame i (by simp)
    have hreps : Rep t.node (parent c) s ∧ RepC t.node s.addr c := by
      have := h.rep T0 rfl
      rw [eT] at this; exact this.open
    have hms : ∀ x ∈ s.addrs, x ∈ T0.addrs := fun x hx => hperm0.mem_iff.2 (by simp [hx])
    have hmc : ∀ x ∈ ctxAddrs c, x ∈ T0.addrs := fun x hx => hperm0.mem_iff.2 (by simp [hx])
    have hrs1 : Rep t1.node (parent c) s := hreps.1.congr (fun x hx => (hT0 x (hms x hx)).1)
    have hrc1 : RepC t1.node s.addr c := hreps.2.congr (fun x hx => (hT0 x (hmc x hx)).1)
    have nd1 := hI.nd
    -- all relevant nodes are different
    have ndall : (p :: (s.addrs ++ ([i] ++ ctxAddrs c))).Nodup ∧ ∀ x ∈ ext ++ fl', x ∉ p :: (s.addrs ++ ([i] ++ ctxAddrs c)) := by
      have pp : (oaddrs (some T0) ++ (p :: i :: ext ++ fl')).Perm ((p :: (s.addrs ++ ([i] ++ ctxAddrs c))) ++ (ext ++ fl')) := by
        simp only [oaddrs]
        refine (hperm0.append_right _).trans ?_
        simp only [List.cons_append, List.append_assoc, List.nil_append]
        have e1 : (s.addrs ++ (ctxAddrs c ++ p :: i :: (ext ++ fl'))).Perm (p :: (s.addrs ++ (ctxAddrs c ++ i :: (ext ++ fl')))) := by
          rw [← List.append_assoc]
          refine List.perm_middle.trans ?_
          rw [List.append_assoc]
        refine e1.trans (List.Perm.cons _ (List.Perm.append_left _ ?_))
        exact List.perm_middle
      have := pp.nodup_iff.1 nd1
      rw [List.nodup_append] at this
      exact ⟨this.1, fun x hx hx' => this.2.2 x hx' x hx rfl⟩
    have hps : ∀ x ∈ s.addrs, x ≠ p ∧ x ≠ i := by
      intro x hx
      have := ndall.1
      simp only [List.nodup_cons, List.mem_append, not_or, List.nodup_append, List.mem_singleton] at this
      exact ⟨fun e => this.1.1 (by rw [← e]; exact hx), fun e => this.2.2.2 x hx i (Or.inl rfl) e⟩
    have hpc : ∀ x ∈ ctxAddrs c, x ≠ p ∧ x ≠ i ∧ x ≠ s.addr := by
      intro x hx
      have := ndall.1
      simp only [List.nodup_cons, List.mem_append, not_or, List.nodup_append, List.mem_singleton] at this
      exact ⟨fun e => this.1.2.2 (by rw [← e]; exact hx), fun e => this.2.2.1.2.2 i rfl x hx e.symm,
        fun e => this.2.2.2 _ (addr_mem s) x (Or.inr hx) e.symm⟩
    have hip : i ≠ p := hI'.2
    have hndc : (ctxAddrs c).Nodup := by
      have := ndall.1
      simp only [List.nodup_cons, List.mem_append, not_or, List.nodup_append, List.mem_singleton] at this
      exact this.2.2.1.2.1
    have hnds : s.addrs.Nodup := by
      have := ndall.1
      simp only [List.nodup_cons, List.mem_append, not_or, List.nodup_append, List.mem_singleton] at this
      exact this.2.1
    have hp1 : p < t1.cap := hI.lt (by simp)
    have hi1 : i < t1.cap := hI.lt (by simp)
    have hs1 : s.addr < t1.cap := hI.lt (Or.inl (hms _ (addr_mem s)))
    have hsa := hps _ (addr_mem s)
    have hroot1 : t1.root = some (top s.addr c) := by
      rw [hI.root]; simp only [Option.map_some]; rw [eT, top_plug]
    have hs0 : s.addr < t.cap := hlt0 _ (hms _ (addr_mem s))
    have hns : (t.node s.addr).link = parent c := hreps.1.link
    have e1s : t1.node s.addr = t.node s.addr := (hT0 _ (hms _ (addr_mem s))).1
    -- the state before the way up
    have key : ∃ t2 : Tree α, t.insertLeaf ch i = t2.fixUp (some p) ∧ t2.cap = t1.cap ∧ t2.free = t1.free ∧ t2.count = t1.count ∧
        t2.root = some (top p c) ∧
        t2.node p = ⟨parent c, .kids s.addr i, (t.node s.addr).height + 1, AABB.merge (t.node s.addr).box (t.node i).box⟩ ∧
        t2.node i = { t1.node i with link := some p } ∧ t2.node s.addr = { t1.node s.addr with link := some p } ∧
        (∀ a snd q c', c = (a, snd, q) :: c' → t2.node a = { t1.node a with cont := if snd then .kids q.addr p else .kids p q.addr }) ∧
        (∀ x, x ≠ p → x ≠ i → x ≠ s.addr → some x ≠ parent c → t2.node x = t1.node x) := by
      have hr0 : t.root = some T0.addr := h.root
      have ha0 : (t.rd i) = some (t.node i) := by simp only [rd, if_pos hi]
      have has : (t.rd s.addr) = some (t.node s.addr) := by simp only [rd, if_pos hs0]
      cases c with
      | nil =>
        refine ⟨⟨upd (upd (upd t1.node p ⟨none, .kids s.addr i, (t.node s.addr).height + 1,
          AABB.merge (t.node s.addr).box (t.node i).box⟩) s.addr { t1.node s.addr with link := some p }) i
            { t1.node i with link := some p }, t1.cap, some p, t1.free, t1.count⟩, ?_, rfl, rfl, rfl, rfl, ?_, ?_, ?_, ?_, ?_⟩
        · unfold insertLeaf
          simp only [hr0, ha0, ed, has, ea, Option.bind_eq_bind, Option.bind_some, hns, parent, setLink, setBox, setHeight, setCont,
            if_pos hp1, if_pos hi1, if_pos hs1]
          congr 1
          congr 1
          funext x
          simp only [upd]
          split_ifs <;> first | rfl | (exfalso; simp_all)
        · simp [upd, hip.symm, hsa.1.symm, parent]
        · simp [upd]
        · simp [upd, hsa.2]
        · intro a snd q c' e; cases e
        · intro x x1 x2 x3 _
          simp [upd, x1, x2, x3]
      | cons fr c =>
        obtain ⟨g, snd, q⟩ := fr
        have hg := hpc g (by simp [ctxAddrs])
        have hg1 : g < t1.cap := hI.lt (Or.inl (hmc g (by simp [ctxAddrs])))
        have hq := hpc q.addr (by simp [ctxAddrs, addr_mem])
        have hrep : ∀ (tt : Tree α), tt.cap = t1.cap → (∀ x ∈ ctxAddrs ((g, snd, q) :: c), tt.node x = t1.node x) →
            tt.replaceChild g s.addr p = some { tt with node := upd tt.node g { tt.node g with
              cont := if snd then .kids q.addr p else .kids p q.addr } } := by
          intro tt hcap htt
          exact replaceChild_ctx (hrc1.congr htt) (by rw [hcap]; exact hg1) hq.2.2
        refine ⟨⟨upd (upd (upd (upd t1.node p ⟨some g, .kids s.addr i, (t.node s.addr).height + 1,
          AABB.merge (t.node s.addr).box (t.node i).box⟩) g { t1.node g with cont := if snd then .kids q.addr p else .kids p q.addr })
            s.addr { t1.node s.addr with link := some p }) i
            { t1.node i with link := some p }, t1.cap, t1.root, t1.free, t1.count⟩, ?_, rfl, rfl, rfl, ?_, ?_, ?_, ?_, ?_, ?_⟩
        · unfold insertLeaf
          simp only [hr0, ha0, ed, has, ea, Option.bind_eq_bind, Option.bind_some, hns, parent, setLink, setBox, setHeight,
            if_pos hp1]
          rw [hrep]
          rotate_left
          · rfl
          · intro x hx
            have := (hpc x hx).1
            simp [upd, this]
          simp only [Option.bind_some, setCont, setLink, if_pos hp1, if_pos hi1, if_pos hs1]
          congr 1
          congr 1
          funext x
          simp only [upd]
          by_cases x1 : x = i
          · simp [x1, hip, hg.2.1.symm, hsa.2.symm]
          by_cases x2 : x = s.addr
          · simp [x2, hsa.1, hsa.2, hg.2.2.symm]
          by_cases x3 : x = p
          · simp [x3, hg.1.symm, hsa.1.symm, hip.symm]
          by_cases x4 : x = g
          · simp [x4, hg.1, hg.2.1, hg.2.2]
          · simp [x1, x2, x3, x4]
        · rw [hroot1]; rfl
        · simp [upd, hip.symm, hsa.1.symm, hg.1.symm, parent]
        · simp [upd]
        · simp [upd, hsa.2]
        · intro a snd' q' c' e
          cases e
          simp [upd, hg.2.1, hg.2.2]
        · intro x x1 x2 x3 x4
          have : x ≠ g := fun e => x4 (by rw [e]; rfl)
          simp [upd, x1, x2, x3, this]
    obtain ⟨t2, e2, c1, c2, c3, c4, c5, c6, c7, c8, c9⟩ := key
    have hparc : ∀ x, x ∉ ctxAddrs c → some x ≠ parent c := fun x hx e => hx (parent_mem e.symm)
    have hopen : Open t2 p s (.leaf i) c := by
      refine ⟨by rw [c5], by rw [c5]; rfl, ?_, ?_, ?_, ?_, ?_, ?_, c4⟩
      · rw [c5]
        have := hreps.1.height_nonneg
        simp only; omega
      · refine hrs1.relink hnds (by rw [c7]) ?_
        intro x hx hne
        have h1 := hps x hx
        refine c9 x h1.1 h1.2 hne (hparc x ?_)
        intro hxc
        have := ndall.1
        simp only [List.nodup_cons, List.mem_append, not_or, List.nodup_append, List.mem_singleton] at this
        exact this.2.2.2 x hx x (Or.inr hxc) rfl
      · simp only [Rep, c6, hI'.1]; exact ⟨trivial, hh⟩
      · refine hrc1.rehole hndc c8 ?_
        intro x hx hne
        obtain ⟨x1, x2, x3⟩ := hpc x hx
        exact c9 x x1 x2 x3 hne
      · simpa [T.addrs] using ndall.1
      · intro x hx
        rw [c1]
        simp only [List.mem_cons, List.mem_append, T.addrs, List.not_mem_nil, or_false] at hx
        rcases hx with rfl | hx | rfl | hx
        · exact hp1
        · exact hI.lt (Or.inl (hms x hx))
        · exact hi1
        · exact hI.lt (Or.inl (hmc x hx))
    obtain ⟨t3, tr', e3, r3, rt3, pa3, pl3, hs3⟩ := fixUp_open hopen
    have hall : ∀ x ∈ ext ++ fl', t3.node x = t1.node x := by
      intro x hx
      have hx' := ndall.2 x hx
      rw [hs3.out x (by simpa [T.addrs] using hx')]
      simp only [List.mem_cons, List.mem_append, not_or, List.not_mem_nil, not_false_eq_true, and_true] at hx'
      obtain ⟨x1, x2, x3, x4⟩ := hx'
      exact c9 x x1 x3 (fun e => x2 (by rw [e]; exact addr_mem s)) (hparc x x4)
    have hleaves : (oleaves (some T0)).Perm (s.leaves ++ ctxLeaves c) := by
      simp only [oleaves]; rw [eT]; exact plug_leaves _ _
    have pl4 : tr'.leaves.Perm (i :: oleaves (some T0)) := by
      refine pl3.trans ?_
      simp only [T.leaves]
      refine List.perm_middle.trans ?_
      exact List.Perm.cons _ hleaves.symm
    refine ⟨t3, tr', fl', by rw [e2]; exact e3, ⟨?_, ?_, ?_, ?_, ?_, ?_⟩, pl4, ?_, ?_⟩
    · rintro _ ⟨⟩; exact r3
    · exact rt3
    · rw [hs3.free, c2]
      exact hI.free.congr (fun x hx => hall x (by simp [hx]))
    · rw [hs3.cap, c1]
      refine List.Perm.trans ?_ hI.perm
      simp only [oaddrs]
      have : tr'.addrs.Perm (p :: i :: T0.addrs) := by
        refine pa3.trans (List.Perm.cons _ ?_)
        simp only [T.addrs]
        refine List.perm_middle.trans (List.Perm.cons _ hperm0.symm)
      refine (this.append_right _).trans ?_
      simp only [List.cons_append]
      refine List.Perm.symm ?_
      refine List.perm_middle.trans (List.Perm.cons _ List.perm_middle)
    · rw [hs3.count, c3, hI.count]
      have : tr'.addrs.length = (p :: i :: T0.addrs).length := by
        have := pa3.length_eq
        have h2 := hperm0.length_eq
        simp only [T.addrs, List.length_cons, List.length_append, List.length_nil] at this h2 ⊢
        omega
      simp only [oaddrs, List.length_append, this, List.length_cons]
      omega
    · rw [hs3.cap, c1]; exact hI.cap
    · intro x hx
      have hx3 : x ∈ s.leaves ++ ((T.leaf i).leaves ++ ctxLeaves c) := pl3.mem_iff.1 (pl4.mem_iff.2 hx)
      obtain ⟨a1, a2, a3⟩ := hs3.leaf x hx3
      have h12 : (t2.node x).box = (t.node x).box ∧ (t2.node x).cont = (t.node x).cont ∧ (t2.node x).height = (t.node x).height := by
        simp only [List.mem_append, T.leaves, List.mem_singleton] at hx3
        by_cases xs : x = s.addr
        · rw [xs, c7, e1s]; exact ⟨rfl, rfl, rfl⟩
        rcases hx3 with hx3 | rfl | hx3
        · have hm := leaves_sub s x hx3
          obtain ⟨b1, b2⟩ := hps x hm
          have hxc : x ∉ ctxAddrs c := by
            intro hxc
            have := ndall.1
            simp only [List.nodup_cons, List.mem_append, not_or, List.nodup_append, List.mem_singleton] at this
            exact this.2.2.2 x hm x (Or.inr hxc) rfl
          rw [c9 x b1 b2 xs (hparc x hxc), (hT0 x (hms x hm)).1]; exact ⟨rfl, rfl, rfl⟩
        · rw [c6, hI'.1]; exact ⟨rfl, rfl, rfl⟩
        · rcases ctxLeaves_sub c x hx3 with ⟨hm, hne⟩ | hn
          · obtain ⟨b1, b2, b3⟩ := hpc x hm
            rw [c9 x b1 b2 b3 hne, (hT0 x (hmc x hm)).1]; exact ⟨rfl, rfl, rfl⟩
          · exact absurd hndc hn
      exact ⟨a1.trans h12.1, a2.trans h12.2.1, a3.trans h12.2.2⟩
    · intro x hx
      rw [hall x (by simp [hx])]
      exact (hsame x (by simp [hx])).1

/-- Zooming in to a leaf. -/
theorem leaf_ctx {T0 : T} {i : Nat} : ∀ (sub : T) (c : Ctx), T0 = plug sub c → i ∈ sub.leaves → ∃ c', T0 = plug (.leaf i) c' := by
  intro sub
  induction sub with
  | leaf a =>
    intro c e hi
    simp only [T.leaves, List.mem_singleton] at hi
    subst hi
    exact ⟨c, e⟩
  | node a l r ihl ihr =>
    intro c e hi
    simp only [T.leaves, List.mem_append] at hi
    rcases hi with hi | hi
    · exact ihl ((a, false, r) :: c) (by rw [e]; rfl) hi
    · exact ihr ((a, true, l) :: c) (by rw [e]; rfl) hi

theorem removeLeaf_inv {t : Tree α} {T0 : T} {ext fl : List Nat} {i : Nat} (h : Inv t (some T0) ext fl) (hi : i ∈ T0.leaves) :
    ∃ t' tr' fl', t.removeLeaf i = some t' ∧ Inv t' tr' (i :: ext) fl' ∧ T0.leaves.Perm (i :: oleaves tr') ∧
      KeepLeaves t t' T0.leaves ∧ ∀ x ∈ ext, t'.node x = t.node x := by
  obtain ⟨c, eT⟩ := leaf_ctx (T0 := T0) T0 [] rfl hi
  have hrep := h.rep T0 rfl
  have hleaves : T0.leaves.Perm (i :: ctxLeaves c) := by rw [eT]; exact plug_leaves _ _
  have haddrs : T0.addrs.Perm (i :: ctxAddrs c) := by rw [eT]; exact plug_addrs _ _
  have hopen : Rep t.node (parent c) (.leaf i) ∧ RepC t.node i c := by rw [eT] at hrep; exact hrep.open
  have hic : i < t.cap := h.lt (Or.inl (haddrs.mem_iff.2 (by simp)))
  have hnd := h.nd
  have ndT : T0.addrs.Nodup ∧ ∀ x ∈ ext ++ fl, x ∉ T0.addrs := by
    simp only [oaddrs] at hnd
    have := List.nodup_append.1 hnd
    exact ⟨this.1, fun x hx hx' => this.2.2 x hx' x hx rfl⟩
  have ndc : (i :: ctxAddrs c).Nodup := haddrs.nodup_iff.1 ndT.1
  have hroot : t.root = some (top i c) := by
    rw [h.root, Option.map_some, eT, top_plug, addr_leaf]
  cases c with
  | nil =>
    have hT : T0 = .leaf i := eT
    subst hT
    refine ⟨{ t with root := none }, none, fl, ?_, ⟨by simp, rfl, h.free, ?_, ?_, h.cap⟩, by simp [T.leaves, oleaves], ?_, fun _ _ => rfl⟩
    · unfold removeLeaf
      rw [if_pos (by rw [hroot]; rfl)]
    · simpa [oaddrs, T.addrs] using h.perm
    · have := h.count
      simpa [oaddrs, T.addrs] using this
    · intro x _; exact ⟨rfl, rfl, rfl⟩
  | cons fr c =>
    obtain ⟨p, snd, s⟩ := fr
    obtain ⟨⟨hl, hh⟩, k1, k2, k3, k4, k5⟩ := hopen
    simp only [parent] at hl
    simp only [ctxAddrs, List.nodup_cons, List.mem_cons, List.mem_append, not_or, List.nodup_append] at ndc
    obtain ⟨⟨nip, nis, nic⟩, ⟨nps, npc⟩, nds, ndcc, dsc⟩ := ndc
    have as := addr_mem s
    have hmem : ∀ x, x = p ∨ x ∈ s.addrs ∨ x ∈ ctxAddrs c → x < t.cap := by
      intro x hx
      refine h.lt (Or.inl (haddrs.mem_iff.2 ?_))
      simp only [ctxAddrs, List.mem_cons, List.mem_append]
      tauto
    have hp : p < t.cap := hmem p (Or.inl rfl)
    have hs : s.addr < t.cap := hmem _ (Or.inr (Or.inl as))
    have hne : t.root ≠ some i := by
      rw [hroot]
      intro e
      have e' : top p c = i := Option.some.inj e
      rcases top_mem p c with h1 | h1
      · exact nip (e'.symm.trans h1.1)
      · exact nic (by rw [← e']; exact h1)
    have hsib : ∃ l r, (t.node p).cont = .kids l r ∧ (if l = i then r else l) = s.addr := by
      cases snd
      · exact ⟨_, _, k2, if_pos rfl⟩
      · refine ⟨_, _, k2, if_neg ?_⟩
        intro e; exact nis (by rw [← e]; exact as)
    obtain ⟨l0, r0, hk0, hsib⟩ := hsib
    have hrdi : t.rd i = some (t.node i) := if_pos hic
    have hrdp : t.rd p = some (t.node p) := if_pos hp
    have hkp : t.kids p = some (l0, r0) := by simp only [kids, if_pos hp, hk0]
    have hsp : s.addr ≠ p := fun e => nps (by rw [← e]; exact as)
    have hsi : s.addr ≠ i := fun e => nis (by rw [← e]; exact as)
    have hpi : p ≠ i := fun e => nip e.symm
    cases c with
    | nil =>
      -- the parent is the root
      let v : TNode α := { t.node s.addr with link := none }
      let t1 : Tree α := ⟨upd t.node s.addr v, t.cap, some s.addr, t.free, t.count⟩
      have hI1 : Inv t1 (some s) (p :: i :: ext) fl := by
        refine ⟨?_, rfl, ?_, ?_, ?_, h.cap⟩
        · rintro _ ⟨⟩
          exact k4.relink nds (upd_same _ _ _) (fun x _ hx => upd_ne _ _ hx)
        · refine h.free.congr (fun x hx => upd_ne _ _ ?_)
          rintro rfl
          exact ndT.2 s.addr (by simp [hx]) (haddrs.mem_iff.2 (by simp [ctxAddrs, as]))
        · refine List.Perm.trans ?_ h.perm
          simp only [oaddrs]
          refine List.Perm.trans ?_ (haddrs.append_right _).symm
          simp only [ctxAddrs, List.append_nil, List.cons_append]
          refine List.perm_middle.trans ?_
          refine (List.Perm.cons p List.perm_middle).trans ?_
          exact List.Perm.swap _ _ _
        · have h1 := h.count
          have h2 := haddrs.length_eq
          simp only [oaddrs, ctxAddrs, List.append_nil, List.length_cons, List.length_append] at h1 h2 ⊢
          show t.count = _
          omega
      obtain ⟨t2, e2, hI2, hsm, _, _⟩ := releaseNode_inv hI1
      refine ⟨t2, some s, p :: fl, ?_, hI2, ?_, ?_, ?_⟩
      · unfold removeLeaf
        rw [if_neg hne]
        simp only [hrdi, hl, hrdp, hkp, Option.bind_eq_bind, Option.bind_some, k1, parent, hsib, setLink, if_pos hs]
        exact e2
      · simpa [ctxLeaves, oleaves] using hleaves
      · intro x hx
        have hxp : x ≠ p := by
          rintro rfl
          have hx2 := hleaves.mem_iff.1 hx
          simp only [ctxLeaves, List.append_nil, List.mem_cons] at hx2
          rcases hx2 with h | h
          · exact hpi h
          · exact nps (leaves_sub s _ h)
        rw [hsm x hxp]
        show (upd t.node s.addr v x).box = _ ∧ (upd t.node s.addr v x).cont = _ ∧ (upd t.node s.addr v x).height = _
        by_cases e : x = s.addr
        · subst e; rw [upd_same]; exact ⟨rfl, rfl, rfl⟩
        · rw [upd_ne _ _ e]; exact ⟨rfl, rfl, rfl⟩
      · intro x hx
        have hxT := ndT.2 x (by simp [hx])
        have hxT' : x ∉ i :: ctxAddrs [(p, snd, s)] := fun k => hxT (haddrs.mem_iff.2 k)
        simp only [ctxAddrs, List.append_nil, List.mem_cons, not_or] at hxT'
        rw [hsm x hxT'.2.1]
        exact upd_ne _ _ (fun e => hxT'.2.2 (by rw [e]; exact as))
    | cons fr c =>
      obtain ⟨g, snd2, q⟩ := fr
      have hg : g < t.cap := hmem g (by simp [ctxAddrs])
      have hgp : g ≠ p := fun e => npc (by rw [← e]; simp [ctxAddrs])
      have hgs : g ≠ s.addr := fun e => dsc _ as g (by simp [ctxAddrs]) e.symm
      have hgi : g ≠ i := fun e => nic (by rw [← e]; simp [ctxAddrs])
      have hqp : q.addr ≠ p := fun e => npc (by rw [← e]; simp [ctxAddrs, addr_mem])
      let vg : TNode α := { t.node g with cont := if snd2 then .kids q.addr s.addr else .kids s.addr q.addr }
      let vs : TNode α := { t.node s.addr with link := some g }
      let vp : TNode α := { t.node p with link := t.free, height := -1 }
      let t2 : Tree α := ⟨upd (upd (upd t.node g vg) s.addr vs) p vp, t.cap, t.root, some p, t.count - 1⟩
      have e2 : t.removeLeaf i = t2.fixUp (some g) := by
        unfold removeLeaf
        rw [if_neg hne]
        simp only [hrdi, hl, hrdp, hkp, Option.bind_eq_bind, Option.bind_some, k1, parent, hsib]
        rw [replaceChild_ctx k5 hg hqp]
        simp only [Option.bind_some, setLink, setHeight, if_pos hs, if_pos hp, releaseNode, Option.bind_eq_bind, Option.pure_def]
        congr 1
        show Tree.mk _ _ _ _ _ = Tree.mk _ _ _ _ _
        congr 1
        funext x
        simp only [upd]
        by_cases x1 : x = p
        · simp [x1, hsp.symm, hgp.symm, vp]
        by_cases x2 : x = s.addr
        · simp [x2, hsp, hgs.symm, vs]
        by_cases x3 : x = g
        · simp [x3, hgp, hgs, vg]
        · simp [x1, x2, x3]
      have np : t2.node p = vp := by simp [t2, upd]
      have ns : t2.node s.addr = vs := by simp [t2, upd, hsp]
      have ng : t2.node g = vg := by simp [t2, upd, hgp, hgs]
      have no : ∀ x, x ≠ p → x ≠ s.addr → x ≠ g → t2.node x = t.node x := by
        intro x h1 h2 h3; simp [t2, upd, h1, h2, h3]
      obtain ⟨m1, m2, m3, m4, m5⟩ := k5
      simp only [ctxAddrs, List.mem_cons, List.mem_append, not_or, List.nodup_cons, List.nodup_append] at npc nic ndcc dsc
      obtain ⟨npg, npq, npc⟩ := npc
      obtain ⟨nig, niq, nic⟩ := nic
      obtain ⟨⟨ngq, ngc⟩, ndq, ndcc, dqc⟩ := ndcc
      have rs : Rep t2.node (some g) s := by
        refine k4.relink nds ns ?_
        intro x hx hxs
        refine no x (fun e => nps (by rw [← e]; exact hx)) hxs (fun e => dsc x hx g (by simp) e)
      have rq : Rep t2.node (some g) q := by
        refine m4.congr ?_
        intro x hx
        exact no x (fun e => npq (by rw [← e]; exact hx)) (fun e => dsc _ as x (by simp [hx]) e.symm)
          (fun e => ngq (by rw [← e]; exact hx))
      have rc : RepC t2.node g c := by
        refine m5.congr ?_
        intro x hx
        exact no x (fun e => npc (by rw [← e]; exact hx)) (fun e => dsc _ as x (by simp [hx]) e.symm)
          (fun e => ngc (by rw [← e]; exact hx))
      have hcond : ∀ x, x = g ∨ x ∈ s.addrs ∨ x ∈ q.addrs ∨ x ∈ ctxAddrs c → x < t.cap := by
        intro x hx
        apply hmem
        simp only [ctxAddrs, List.mem_cons, List.mem_append]
        tauto
      have fin : ∀ L R : T, (L = s ∧ R = q) ∨ (L = q ∧ R = s) → vg.cont = .kids L.addr R.addr →
          ∃ t' tr' fl', t2.fixUp (some g) = some t' ∧ Inv t' tr' (i :: ext) fl' ∧ T0.leaves.Perm (i :: oleaves tr') ∧
          KeepLeaves t t' T0.leaves ∧ ∀ x ∈ ext, t'.node x = t.node x := by
        intro L R hLR hk
        have pLR : (L.addrs ++ R.addrs).Perm (s.addrs ++ q.addrs) := by
          rcases hLR with ⟨rfl, rfl⟩ | ⟨rfl, rfl⟩
          · exact List.Perm.refl _
          · exact List.perm_append_comm
        have pLl : (L.leaves ++ R.leaves).Perm (s.leaves ++ q.leaves) := by
          rcases hLR with ⟨rfl, rfl⟩ | ⟨rfl, rfl⟩
          · exact List.Perm.refl _
          · exact List.perm_append_comm
        have pall : (g :: (L.addrs ++ (R.addrs ++ ctxAddrs c))).Perm (g :: (s.addrs ++ (q.addrs ++ ctxAddrs c))) := by
          refine List.Perm.cons _ ?_
          rw [← List.append_assoc, ← List.append_assoc]
          exact pLR.append_right _
        have pctx : (g :: (s.addrs ++ (q.addrs ++ ctxAddrs c))).Perm (s.addrs ++ ctxAddrs ((g, snd2, q) :: c)) := by
          simp only [ctxAddrs]
          exact List.perm_middle.symm
        have hop : Open t2 g L R c := by
          refine ⟨by rw [ng]; exact m1, by rw [ng]; exact hk, by rw [ng]; exact m3, ?_, ?_, rc, ?_, ?_, ?_⟩
          · rcases hLR with ⟨rfl, rfl⟩ | ⟨rfl, rfl⟩
            · exact rs
            · exact rq
          · rcases hLR with ⟨rfl, rfl⟩ | ⟨rfl, rfl⟩
            · exact rq
            · exact rs
          · refine (pall.trans pctx).nodup_iff.2 ?_
            have := haddrs.nodup_iff.1 ndT.1
            have hsuf : List.Sublist (s.addrs ++ ctxAddrs ((g, snd2, q) :: c)) (i :: ctxAddrs ((p, snd, s) :: (g, snd2, q) :: c)) := by
              simp only [ctxAddrs]
              exact (List.Sublist.refl _).cons _ |>.cons _
            exact this.sublist hsuf
          · intro x hx
            have := pall.mem_iff.1 hx
            simp only [List.mem_cons, List.mem_append] at this
            exact hcond x (by tauto)
          · show t.root = _
            rw [hroot]; rfl
        obtain ⟨t3, tr', e3, r3, rt3, pa3, pl3, hs3⟩ := fixUp_open hop
        have pT : T0.addrs.Perm (i :: p :: tr'.addrs) := by
          refine haddrs.trans (List.Perm.cons _ ?_)
          rw [show ctxAddrs ((p, snd, s) :: (g, snd2, q) :: c) = p :: (s.addrs ++ ctxAddrs ((g, snd2, q) :: c)) from rfl]
          exact List.Perm.cons _ ((pa3.trans pall).trans pctx).symm
        have pTl : T0.leaves.Perm (i :: tr'.leaves) := by
          refine hleaves.trans (List.Perm.cons _ ?_)
          refine List.Perm.trans ?_ pl3.symm
          simp only [ctxLeaves]
          rw [← List.append_assoc, ← List.append_assoc]
          exact (pLl.append_right _).symm
        have hout : ∀ x, x ∉ T0.addrs → t3.node x = t.node x := by
          intro x hx
          have hx' : x ≠ i ∧ x ≠ p ∧ x ∉ tr'.addrs := by
            have : x ∉ i :: p :: tr'.addrs := fun k => hx (pT.mem_iff.2 k)
            simpa using this
          have hx3 : x ∉ g :: (L.addrs ++ (R.addrs ++ ctxAddrs c)) := fun k => hx'.2.2 (pa3.mem_iff.2 k)
          have hx4 : x ∉ g :: (s.addrs ++ (q.addrs ++ ctxAddrs c)) := fun k => hx3 (pall.mem_iff.2 k)
          rw [hs3.out x hx3]
          simp only [List.mem_cons, List.mem_append, not_or] at hx4
          exact no x hx'.2.1 (fun e => hx4.2.1 (by rw [e]; exact as)) hx4.1
        refine ⟨t3, some tr', p :: fl, e3, ⟨?_, rt3, ?_, ?_, ?_, ?_⟩, pTl, ?_, ?_⟩
        · rintro _ ⟨⟩; exact r3
        · have hpT : p ∉ tr'.addrs := by
            have := pT.nodup_iff.1 ndT.1
            simp only [List.nodup_cons, List.mem_cons, not_or] at this
            exact this.2.1
          have e3p : t3.node p = vp := by
            rw [hs3.out p (fun k => hpT (pa3.mem_iff.2 k)), np]
          refine ⟨by rw [hs3.free], by rw [e3p], ?_⟩
          rw [e3p]
          refine h.free.congr (fun x hx => hout x (ndT.2 x (by simp [hx])))
        · rw [hs3.cap]
          refine List.Perm.trans ?_ h.perm
          simp only [oaddrs]
          refine List.Perm.trans ?_ (pT.append_right _).symm
          simp only [List.cons_append]
          refine List.perm_middle.trans (List.Perm.cons _ ?_)
          rw [← List.append_assoc]
          refine List.perm_middle.trans ?_
          rw [List.append_assoc]
        · rw [hs3.count]
          have h1 := h.count
          have h2 := pT.length_eq
          simp only [oaddrs, List.length_cons, List.length_append] at h1 h2 ⊢
          show t.count - 1 = _
          omega
        · rw [hs3.cap]; exact h.cap
        · intro x hx
          have hx2 := pTl.mem_iff.1 hx
          rcases List.mem_cons.1 hx2 with rfl | hx3
          · have hn : x ∉ g :: (L.addrs ++ (R.addrs ++ ctxAddrs c)) := by
              intro k
              have k2 := pall.mem_iff.1 k
              simp only [List.mem_cons, List.mem_append] at k2
              rcases k2 with k2 | k2 | k2 | k2
              · exact hgi k2.symm
              · exact nis k2
              · exact niq k2
              · exact nic k2
            rw [hs3.out x hn, no x nip (fun e => hsi e.symm) (fun e => hgi e.symm)]
            exact ⟨rfl, rfl, rfl⟩
          · obtain ⟨a1, a2, a3⟩ := hs3.leaf x (pl3.mem_iff.1 hx3)
            have hxp : x ≠ p := by
              rintro rfl
              have := pT.nodup_iff.1 ndT.1
              simp only [List.nodup_cons, List.mem_cons, not_or] at this
              exact this.2.1 (leaves_sub _ _ hx3)
            have h12 : (t2.node x).box = (t.node x).box ∧ (t2.node x).cont = (t.node x).cont ∧
                (t2.node x).height = (t.node x).height := by
              by_cases xs : x = s.addr
              · rw [xs, ns]; exact ⟨rfl, rfl, rfl⟩
              · have hxg : x ≠ g := by
                  rintro rfl
                  have hl2 := pl3.mem_iff.1 hx3
                  rw [← List.append_assoc] at hl2
                  rcases List.mem_append.1 hl2 with hl3 | hl3
                  · rcases List.mem_append.1 (pLl.mem_iff.1 hl3) with hl4 | hl4
                    · exact dsc _ (leaves_sub _ _ hl4) x (by simp) rfl
                    · exact ngq (leaves_sub _ _ hl4)
                  · rcases ctxLeaves_sub c x hl3 with ⟨hm, _⟩ | hm
                    · exact ngc hm
                    · exact hm ndcc
                rw [no x hxp xs hxg]; exact ⟨rfl, rfl, rfl⟩
            exact ⟨a1.trans h12.1, a2.trans h12.2.1, a3.trans h12.2.2⟩
        · intro x hx
          exact hout x (ndT.2 x (by simp [hx]))
      rw [e2]
      cases snd2
      · exact fin s q (Or.inl ⟨rfl, rfl⟩) rfl
      · exact fin q s (Or.inr ⟨rfl, rfl⟩) rfl

end Tree
end RP3D
