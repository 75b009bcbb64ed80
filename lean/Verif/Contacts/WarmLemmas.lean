import Verif.Contacts.Warm

/-! Lemmas about the arrays of contacts. -/

namespace RP3D
namespace Warm

variable {K : Type} [Field K] [LinearOrder K]

/-- A part of a list. -/
def block {β : Type} (l : List β) (a n : Nat) : List β := (l.drop a).take n

theorem block_get {β : Type} (l : List β) (a n i : Nat) : (block l a n)[i]? = if i < n then l[a + i]? else none := by
  unfold block
  rw [List.getElem?_take]
  split
  · rw [List.getElem?_drop]
  · rfl

theorem block_length {β : Type} {l : List β} {a n : Nat} (h : a + n ≤ l.length) : (block l a n).length = n := by
  unfold block
  rw [List.length_take, List.length_drop]
  omega

theorem block_append {β : Type} {l : List β} {a n : Nat} (h : a + n ≤ l.length) (r : List β) : block (l ++ r) a n = block l a n := by
  apply List.ext_getElem?
  intro i
  rw [block_get, block_get]
  split
  · rw [List.getElem?_append_left (by omega)]
  · rfl

theorem block_congr {β γ : Type} {l : List β} {l' : List γ} {a n : Nat} {g : β → γ} (h : ∀ c, a ≤ c → c < a + n → l'[c]? = (l[c]?).map g) :
    block l' a n = (block l a n).map g := by
  apply List.ext_getElem?
  intro i
  rw [block_get, List.getElem?_map, block_get]
  split
  · exact h _ (by omega) (by omega)
  · rfl

theorem block_all {β : Type} (l r : List β) : block (l ++ r) l.length r.length = r := by
  unfold block
  simp

/-! ### Searching and changing a range -/

theorem search_eq {β γ : Type} {f : Nat → Option (Option β)} {g : γ → Option β} {l : List γ} {a n : Nat} (hn : a + n ≤ l.length)
    (h : ∀ c v, a ≤ c → c < a + n → l[c]? = some v → f c = some (g v)) : search f a n = some ((block l a n).findSome? g) := by
  induction n generalizing a with
  | zero => simp [search, block]
  | succ n ih =>
    obtain ⟨v, hv⟩ : ∃ v, l[a]? = some v := ⟨_, List.getElem?_eq_getElem (by omega)⟩
    have hb : block l a (n + 1) = v :: block l (a + 1) n := by
      apply List.ext_getElem?
      intro i
      cases i with
      | zero => simp [block_get, hv]
      | succ i =>
        rw [List.getElem?_cons_succ, block_get, block_get]
        by_cases c : i < n
        · rw [if_pos (by omega), if_pos c]
          congr 1
          omega
        · rw [if_neg (by omega), if_neg c]
    rw [hb, List.findSome?_cons]
    unfold search
    rw [h a v le_rfl (by omega) hv]
    cases g v with
    | some b => rfl
    | none => exact ih (by omega) (fun c v h1 h2 => h c v (by omega) (by omega))

theorem overRange_eq {β : Type} {f : List β → Nat → Option (List β)} {g : β → β} {ok : β → Prop} {l : List β} {a n : Nat}
    (hf : ∀ l' c v, l'[c]? = some v → ok v → f l' c = some (l'.set c (g v))) (hn : ∀ c, a ≤ c → c < a + n → ∃ v, l[c]? = some v ∧ ok v) :
    ∃ l', overRange f l a n = some l' ∧ ∀ c, l'[c]? = if a ≤ c ∧ c < a + n then (l[c]?).map g else l[c]? := by
  induction n generalizing a l with
  | zero => exact ⟨l, rfl, fun c => by rw [if_neg (by omega)]⟩
  | succ n ih =>
    obtain ⟨v, hv, hok⟩ := hn a le_rfl (by omega)
    obtain ⟨l', e, he⟩ := ih (l := l.set a (g v)) (a := a + 1) (by
      intro c h1 h2
      obtain ⟨w, hw, k⟩ := hn c (by omega) (by omega)
      exact ⟨w, by rw [List.getElem?_set_ne (by omega)]; exact hw, k⟩)
    refine ⟨l', ?_, fun c => ?_⟩
    · unfold overRange
      rw [hf l a v hv hok]
      exact e
    · rw [he c]
      by_cases hc : c = a
      · subst hc
        rw [if_neg (by omega), if_pos (by omega), List.getElem?_set_self', hv]
        rfl
      · by_cases h : a ≤ c ∧ c < a + (n + 1)
        · rw [if_pos (by omega), if_pos h, List.getElem?_set_ne (Ne.symm hc)]
        · rw [if_neg (by omega), if_neg h, List.getElem?_set_ne (Ne.symm hc)]

/-! ### The arrays of a frame -/

/-- A fresh contact point. -/
def fresh (i : Info K) : Point K := ⟨i, 0, false⟩

/-- The assertions of the constructor hold. -/
def Good (i : Info K) : Prop := 0 < i.depth ∧ 8 / 10 < i.normal.lengthSq

theorem addPoints_eq {pot : List (Info K)} (h : ∀ i ∈ pot, Good i) (Q : List (Point K)) : addPoints Q pot = some (Q ++ pot.map fresh) := by
  unfold addPoints
  induction pot generalizing Q with
  | nil => simp
  | cons i pot ih =>
    have e : newPoint i = some (fresh i) := if_pos (h i List.mem_cons_self)
    rw [List.foldlM_cons, e]
    show List.foldlM _ (Q ++ [fresh i]) pot = _
    rw [ih (fun j hj => h j (List.mem_cons_of_mem _ hj))]
    simp

/-- The manifolds of a pair, whose points begin at `s`. -/
def mk (x : CPair K) : Nat → List (List (Info K)) → List (Man K)
  | _, [] => []
  | s, pot :: r => ⟨s, pot.length, x.b1, x.b2, x.c1, x.c2, Fric.zero⟩ :: mk x (s + pot.length) r

theorem mk_length (x : CPair K) (s : Nat) (r : List (List (Info K))) : (mk x s r).length = r.length := by
  induction r generalizing s with
  | nil => rfl
  | cons p r ih => simp [mk, ih]

theorem mk_nbPts (x : CPair K) (n s : Nat) (r : List (List (Info K))) : mk { x with nbPts := n } s r = mk x s r := by
  induction r generalizing s with
  | nil => rfl
  | cons p r ih => simp [mk, ih]

theorem manifolds_eq {pots : List (List (Info K))} (h : ∀ p ∈ pots, p ≠ [] ∧ ∀ i ∈ p, Good i) (x : CPair K) (M : List (Man K)) (Q : List (Point K)) :
    pots.foldlM addManifold (x, M, Q) =
      some ({ x with nbPts := x.nbPts + pots.flatten.length }, M ++ mk x Q.length pots, Q ++ pots.flatten.map fresh) := by
  induction pots generalizing x M Q with
  | nil => simp [mk]
  | cons p pots ih =>
    obtain ⟨hp, hg⟩ := h p List.mem_cons_self
    have e : addManifold (x, M, Q) p = some ({ x with nbPts := x.nbPts + p.length },
        M ++ [⟨Q.length, p.length, x.b1, x.b2, x.c1, x.c2, Fric.zero⟩], Q ++ p.map fresh) := by
      unfold addManifold
      rw [if_pos (List.length_pos_of_ne_nil hp)]
      dsimp only
      rw [addPoints_eq hg]
      rfl
    rw [List.foldlM_cons, e]
    show List.foldlM addManifold _ pots = _
    rw [ih (fun q hq => h q (List.mem_cons_of_mem _ hq))]
    simp [mk, mk_nbPts, Nat.add_assoc]

/-- A pair owns its parts of the arrays. -/
structure Own (x0 x : CPair K) (M : List (Man K)) (Q : List (Point K)) : Prop where
  eq : x = { x0 with manIdx := x.manIdx, nbMan := x0.pots.length, ptIdx := x.ptIdx, nbPts := x0.pots.flatten.length }
  ptEnd : x.ptIdx + x.nbPts ≤ Q.length
  manEnd : x.manIdx + x.nbMan ≤ M.length
  pts : block Q x.ptIdx x.nbPts = x0.pots.flatten.map fresh
  mans : block M x.manIdx x.nbMan = mk x0 x.ptIdx x0.pots

theorem Own.append {x0 x : CPair K} {M : List (Man K)} {Q : List (Point K)} (h : Own x0 x M Q) (M' : List (Man K)) (Q' : List (Point K)) :
    Own x0 x (M ++ M') (Q ++ Q') := by
  refine ⟨h.eq, ?_, ?_, ?_, ?_⟩
  · have := h.ptEnd
    rw [List.length_append]
    omega
  · have := h.manEnd
    rw [List.length_append]
    omega
  · rw [block_append h.ptEnd]
    exact h.pts
  · rw [block_append h.manEnd]
    exact h.mans

def InP (x : CPair K) (c : Nat) : Prop := x.ptIdx ≤ c ∧ c < x.ptIdx + x.nbPts
def InM (x : CPair K) (c : Nat) : Prop := x.manIdx ≤ c ∧ c < x.manIdx + x.nbMan

instance (x : CPair K) (c : Nat) : Decidable (InP x c) := by unfold InP; infer_instance
instance (x : CPair K) (c : Nat) : Decidable (InM x c) := by unfold InM; infer_instance

def Apart (x y : CPair K) : Prop := (∀ c, ¬ (InP x c ∧ InP y c)) ∧ ∀ c, ¬ (InM x c ∧ InM y c)

/-- The pairs of a frame before their contacts are created. -/
structure FreshPair (x : CPair K) : Prop where
  zero : x.manIdx = 0 ∧ x.nbMan = 0 ∧ x.ptIdx = 0 ∧ x.nbPts = 0
  pots : ∀ p ∈ x.pots, p ≠ [] ∧ ∀ i ∈ p, Good i

/-- After the pairs `done`. -/
structure Made (P0 : List (CPair K)) (done : List Nat) (P : List (CPair K)) (M : List (Man K)) (Q : List (Point K)) : Prop where
  len : P.length = P0.length
  other : ∀ k, k ∉ done → P[k]? = P0[k]?
  own : ∀ k x0, k ∈ done → P0[k]? = some x0 → ∃ x, P[k]? = some x ∧ Own x0 x M Q
  apart : ∀ k l x y, k ∈ done → l ∈ done → k ≠ l → P[k]? = some x → P[l]? = some y → Apart x y

theorem addPair_made {P0 : List (CPair K)} (h0 : ∀ x ∈ P0, FreshPair x) {done : List Nat} {P : List (CPair K)} {M : List (Man K)} {Q : List (Point K)}
    (h : Made P0 done P M Q) {k : Nat} (hk : k < P0.length) (hn : k ∉ done) :
    ∃ P' M' Q', addPair (P, M, Q) k = some (P', M', Q') ∧ Made P0 (done ++ [k]) P' M' Q' := by
  obtain ⟨x, hx⟩ : ∃ x, P0[k]? = some x := ⟨_, List.getElem?_eq_getElem hk⟩
  have hP : P[k]? = some x := (h.other k hn).trans hx
  have F := h0 x (List.mem_of_getElem? hx)
  set x1 : CPair K := { x with manIdx := M.length, nbMan := x.pots.length, ptIdx := Q.length, nbPts := x.pots.flatten.length } with hx1
  have e : addPair (P, M, Q) k = some (P.set k x1, M ++ mk x Q.length x.pots, Q ++ x.pots.flatten.map fresh) := by
    unfold addPair
    show (P[k]?).bind _ = _
    rw [hP, Option.bind_some]
    have := manifolds_eq F.pots { x with manIdx := M.length, nbMan := x.pots.length, ptIdx := Q.length } M Q
    have m : mk { x with manIdx := M.length, nbMan := x.pots.length, ptIdx := Q.length } Q.length x.pots = mk x Q.length x.pots := by
      generalize Q.length = s
      have : ∀ (r : List (List (Info K))) (a b c s : Nat), mk { x with manIdx := a, nbMan := b, ptIdx := c } s r = mk x s r := by
        intro r
        induction r with
        | nil => intros; rfl
        | cons p r ih => intros; simp [mk, ih]
      exact this _ _ _ _ _
    rw [m] at this
    dsimp only
    rw [this]
    have z : x.nbPts + x.pots.flatten.length = x.pots.flatten.length := by rw [F.zero.2.2.2, Nat.zero_add]
    show some (P.set k { x with manIdx := M.length, nbMan := x.pots.length, ptIdx := Q.length, nbPts := x.nbPts + x.pots.flatten.length }, _, _) = _
    rw [z]
  have hk' : k < P.length := by rw [h.len]; exact hk
  have set_self : (P.set k x1)[k]? = some x1 := by rw [List.getElem?_set_self hk']
  have own1 : Own x x1 (M ++ mk x Q.length x.pots) (Q ++ x.pots.flatten.map fresh) := by
    refine ⟨rfl, ?_, ?_, ?_, ?_⟩
    · show Q.length + x.pots.flatten.length ≤ _
      rw [List.length_append, List.length_map]
    · show M.length + x.pots.length ≤ _
      rw [List.length_append, mk_length]
    · have := block_all Q (x.pots.flatten.map fresh)
      rw [List.length_map] at this
      exact this
    · have := block_all M (mk x Q.length x.pots)
      rw [mk_length] at this
      exact this
  have ap : ∀ l y, l ∈ done → (P.set k x1)[l]? = some y → Apart y x1 ∧ Apart x1 y := by
    intro l y hl hy
    have lk : l ≠ k := fun e => hn (e ▸ hl)
    rw [List.getElem?_set_ne (Ne.symm lk)] at hy
    have ly : l < P0.length := by
      rw [← h.len]
      exact (List.getElem?_eq_some_iff.1 hy).1
    obtain ⟨z, hz, o⟩ := h.own l _ hl (List.getElem?_eq_getElem ly)
    rw [hy] at hz
    cases hz
    have a := o.ptEnd
    have b := o.manEnd
    refine ⟨⟨?_, ?_⟩, ⟨?_, ?_⟩⟩
    · rintro c ⟨⟨_, h1⟩, ⟨h2, _⟩⟩
      have : Q.length ≤ c := h2
      omega
    · rintro c ⟨⟨_, h1⟩, ⟨h2, _⟩⟩
      have : M.length ≤ c := h2
      omega
    · rintro c ⟨⟨h2, _⟩, ⟨_, h1⟩⟩
      have : Q.length ≤ c := h2
      omega
    · rintro c ⟨⟨h2, _⟩, ⟨_, h1⟩⟩
      have : M.length ≤ c := h2
      omega
  refine ⟨_, _, _, e, ⟨by rw [List.length_set, h.len], ?_, ?_, ?_⟩⟩
  · intro l hl
    rw [List.mem_append, List.mem_singleton, not_or] at hl
    rw [List.getElem?_set_ne (Ne.symm hl.2)]
    exact h.other l hl.1
  · intro l z hl hz
    by_cases hlk : l = k
    · subst hlk
      rw [hx] at hz
      cases hz
      exact ⟨x1, set_self, own1⟩
    · have hd : l ∈ done := by
        rcases List.mem_append.1 hl with h | h
        · exact h
        · exact absurd (List.mem_singleton.1 h) hlk
      obtain ⟨y, hy, o⟩ := h.own l z hd hz
      exact ⟨y, by rw [List.getElem?_set_ne (Ne.symm hlk)]; exact hy, o.append _ _⟩
  · intro a b y z ha hb hab hy hz
    rcases List.mem_append.1 ha with ka | ka <;> rcases List.mem_append.1 hb with kb | kb
    · have ak : a ≠ k := fun e => hn (e ▸ ka)
      have bk : b ≠ k := fun e => hn (e ▸ kb)
      rw [List.getElem?_set_ne (Ne.symm ak)] at hy
      rw [List.getElem?_set_ne (Ne.symm bk)] at hz
      exact h.apart a b y z ka kb hab hy hz
    · rw [List.mem_singleton] at kb
      subst kb
      rw [set_self] at hz
      cases hz
      exact (ap a y ka hy).1
    · rw [List.mem_singleton] at ka
      subst ka
      rw [set_self] at hy
      cases hy
      exact (ap b z kb hz).2
    · rw [List.mem_singleton] at ka kb
      exact absurd (ka.trans kb.symm) hab

theorem create_made {P0 : List (CPair K)} (h0 : ∀ x ∈ P0, FreshPair x) {order : List Nat} (ho : order.Nodup) (hk : ∀ k ∈ order, k < P0.length) :
    ∃ P M Q, order.foldlM addPair (P0, [], []) = some (P, M, Q) ∧ Made P0 order P M Q := by
  suffices H : ∀ (l done : List Nat) (P : List (CPair K)) (M : List (Man K)) (Q : List (Point K)), Made P0 done P M Q → (done ++ l).Nodup →
      (∀ k ∈ l, k < P0.length) → ∃ P' M' Q', l.foldlM addPair (P, M, Q) = some (P', M', Q') ∧ Made P0 (done ++ l) P' M' Q' by
    have base : Made P0 [] P0 [] [] := ⟨rfl, fun _ _ => rfl, by simp, by simp⟩
    have := H order [] P0 [] [] base (by simpa using ho) hk
    simpa using this
  intro l
  induction l with
  | nil =>
    intro done P M Q h _ _
    exact ⟨P, M, Q, rfl, by simpa using h⟩
  | cons k l ih =>
    intro done P M Q h hn hk
    have nk : k ∉ done := by
      rw [List.nodup_append] at hn
      intro hd
      exact hn.2.2 k hd k List.mem_cons_self rfl
    obtain ⟨P', M', Q', e, h'⟩ := addPair_made h0 h (hk k List.mem_cons_self) nk
    obtain ⟨P2, M2, Q2, e2, h2⟩ := ih (done ++ [k]) P' M' Q' h' (by simpa using hn) (fun j hj => hk j (List.mem_cons_of_mem _ hj))
    refine ⟨P2, M2, Q2, ?_, by simpa using h2⟩
    rw [List.foldlM_cons, e]
    exact e2

end Warm
end RP3D
