import Verif.Containers.HashLemmas
import Mathlib.Tactic.IntervalCases

set_option linter.unusedSectionVars false
set_option linter.unusedVariables false

/-! Reserve, removal, clearing, copying and iteration of the hash table. -/

namespace RP3D
namespace HTab
variable {E K : Type} [DecidableEq K] {key : E → K} {hash : K → Nat}

theorem allocFor_pow {k : Nat} (hk : 6 ≤ k) : allocFor (2 ^ k) = 3 * 2 ^ (k - 2) := by
  obtain ⟨j, rfl⟩ : ∃ j, k = j + 6 := ⟨k - 6, by omega⟩
  have h1 : 2 ^ (j + 6) * 3 / 4 = 3 * 2 ^ (j + 4) := by
    have : 2 ^ (j + 6) * 3 = 3 * 2 ^ (j + 4) * 4 := by ring
    rw [this, Nat.mul_div_cancel _ (by norm_num)]
  have h2 : j + 6 - 2 = j + 4 := by omega
  unfold allocFor
  rw [h1, h2]
  apply ceil16F_of_isF32
  · exact isF32_mul_pow (f32OfNat_small (by norm_num))
  · have : 3 * 2 ^ (j + 4) = 3 * 2 ^ j * 16 := by ring
    rw [this, Nat.mul_mod_left]

theorem allocFor_16 : allocFor (2 ^ 4) = 16 := by
  unfold allocFor; rw [ceil16F_small (by norm_num)]; norm_num

theorem allocFor_32 : allocFor (2 ^ 5) = 32 := by
  unfold allocFor; rw [ceil16F_small (by norm_num)]; norm_num

theorem allocFor_lt_succ {k : Nat} (hk : 4 ≤ k) : allocFor (2 ^ k) < allocFor (2 ^ (k + 1)) := by
  rcases Nat.lt_or_ge k 6 with h | h
  · interval_cases k
    · rw [allocFor_16, allocFor_32]; norm_num
    · rw [allocFor_32, allocFor_pow (by norm_num)]; norm_num
  · rw [allocFor_pow h, allocFor_pow (by omega)]
    have : k + 1 - 2 = (k - 2) + 1 := by omega
    rw [this, pow_succ]
    have : 0 < 2 ^ (k - 2) := by positivity
    omega

theorem allocFor_lt {k m : Nat} (hk : 4 ≤ k) (hm : k < m) : allocFor (2 ^ k) < allocFor (2 ^ m) := by
  obtain ⟨d, rfl⟩ : ∃ d, m = k + 1 + d := ⟨m - k - 1, by omega⟩
  clear hm
  induction d with
  | zero => exact allocFor_lt_succ hk
  | succ d ih =>
    have := allocFor_lt_succ (k := k + 1 + d) (by omega)
    exact ih.trans this

theorem allocFor_pos {k : Nat} (hk : 4 ≤ k) : 0 < allocFor (2 ^ k) := by
  rcases Nat.eq_or_lt_of_le hk with rfl | h
  · rw [allocFor_16]; norm_num
  · exact lt_of_le_of_lt (Nat.zero_le _) (allocFor_lt (le_refl 4) h)

/-- The new free list of `reserve`. -/
theorem chain_range {next : Nat → Option Nat} {s : Option Nat} {fl : List Nat} {nb : Nat}
    (hfl : IsChain next s fl) : ∀ (m a : Nat), 0 < m → a + m = nb →
    (∀ i, a ≤ i → i < nb → next i = if i + 1 < nb then some (i + 1) else s) →
    IsChain next (some a) (List.range' a m ++ fl) := by
  intro m
  induction m with
  | zero => intro a h; omega
  | succ m ih =>
    intro a _ ha hn
    refine ⟨rfl, ?_⟩
    rw [hn a (le_refl _) (by omega)]
    rcases Nat.eq_zero_or_pos m with h0 | h0
    · subst h0
      rw [if_neg (by omega)]
      simpa using hfl
    · rw [if_pos (by omega)]
      exact ih (a + 1) h0 (by omega) (fun i h1 h2 => hn i (by omega) h2)

/-- Effect of `reserve`. -/
theorem reserve_spec {t : HTab E} {ch : Nat → List Nat} {fl : List Nat} (h : Inv key hash t ch fl)
    {n : Nat} (hn : n ≤ 2 ^ 63 ∨ ∃ k, n = 2 ^ k) :
    ∃ t' ch' fl', reserve key hash t n = some t' ∧ Inv key hash t' ch' fl' ∧ n ≤ t'.hashSize ∧
      (t'.all ch').Perm (t.all ch) ∧ (t.hashSize < n → ∃ r, 0 < r.length ∧ fl' = r ++ fl) ∧
      (∀ e ∈ t.all ch, t'.entries e = t.entries e) ∧ t.hashSize ≤ t'.hashSize := by
  unfold reserve
  by_cases hle : n ≤ t.hashSize
  · rw [if_pos hle]
    exact ⟨t, ch, fl, rfl, h, hle, List.Perm.refl _, fun hh => by omega, fun _ _ => rfl, le_refl _⟩
  · rw [if_neg hle]
    obtain ⟨k, hk4, hk, hnk⟩ : ∃ k, 4 ≤ k ∧ roundCap n = 2 ^ k ∧ n ≤ 2 ^ k := by
      rcases hn with hn | ⟨k, rfl⟩
      · exact roundCap_spec hn
      · rcases Nat.lt_or_ge k 4 with h4 | h4
        · refine ⟨4, le_refl _, ?_, ?_⟩
          · have : 2 ^ k < 2 ^ 4 := Nat.pow_lt_pow_right (by norm_num) h4
            have h16 : (if 2 ^ k < 16 then 16 else 2 ^ k) = 16 := if_pos (by omega)
            unfold roundCap
            rw [h16]; rfl
          · exact Nat.pow_le_pow_right (by norm_num) (by omega)
        · refine ⟨k, h4, ?_, le_refl _⟩
          have : 2 ^ 4 ≤ 2 ^ k := Nat.pow_le_pow_right (by norm_num) h4
          have h16 : (if 2 ^ k < 16 then 16 else 2 ^ k) = 2 ^ k := if_neg (by omega)
          unfold roundCap
          rw [h16]
          simp only [isPowerOfTwo_pow, if_true]
    rw [hk]
    have hgrow : t.nAlloc < allocFor (2 ^ k) := by
      rcases h.size with ⟨_, h2⟩ | ⟨j, hj4, hj, hja⟩
      · rw [h2]; exact allocFor_pos hk4
      · rw [hja]
        apply allocFor_lt hj4
        have : 2 ^ j < 2 ^ k := by omega
        exact (Nat.pow_lt_pow_iff_right (by norm_num)).1 this
    have hlt : t.hashSize < 2 ^ k := by omega
    have hlive : ∀ e ∈ t.all ch, ∃ x, t.entries e = some x := by
      intro e he
      obtain ⟨b, hb, hbe⟩ := mem_all.1 he
      obtain ⟨x, hx, _⟩ := h.live b hb e hbe
      exact ⟨x, hx⟩
    have hrel := relink_fold (key := key) (hash := hash) t (2 ^ k) (t.all ch) []
      ⟨fun _ => none, fun _ => none, t.next⟩
      ⟨fun b => rfl, fun e => by simp, fun e _ => rfl⟩ (by simpa using h.nodup_all) hlive
    rw [List.nil_append] at hrel
    dsimp only
    rw [relinkAll_eq h]
    simp only [Option.bind_eq_bind, Option.bind_some]
    rw [if_pos hgrow]
    set f := (t.all ch).foldl (relink1 key hash t (2 ^ k)) ⟨fun _ => none, fun _ => none, t.next⟩ with hf
    set ch' : Nat → List Nat := fun b => ((t.all ch).filter (fun e => bk key hash t (2 ^ k) e = b)).reverse with hch'
    have hbk : ∀ e ∈ t.all ch, bk key hash t (2 ^ k) e < 2 ^ k := by
      intro e he
      obtain ⟨x, hx⟩ := hlive e he
      simp only [bk, hx, bucketOf, Nat.and_two_pow_sub_one_eq_mod]
      exact Nat.mod_lt _ (by positivity)
    have hperm : ((List.range (2 ^ k)).flatMap ch').Perm (t.all ch) :=
      flatMap_filter_perm _ _ _ h.nodup_all hbk
    have hallmem : ∀ b, ∀ e ∈ ch' b, e ∈ t.all ch ∧ bk key hash t (2 ^ k) e = b := by
      intro b e he
      simpa [hch'] using he
    refine ⟨_, ch', List.range' t.nAlloc (allocFor (2 ^ k) - t.nAlloc) ++ fl, rfl, ⟨?_, ?_, ?_, ?_, ?_, ?_, ?_⟩, hnk, hperm, ?_, ?_, le_of_lt hlt⟩
    · exact Or.inr ⟨k, hk4, rfl, rfl⟩
    · intro b hb
      apply (hrel.chains b).congr
      intro i hi
      have := h.lt_of_all (hallmem b i hi).1
      show (if i < t.nAlloc then f.next i else _) = f.next i
      rw [if_pos this]
    · apply chain_range (s := t.free) (nb := allocFor (2 ^ k))
      · apply h.freeC.congr
        intro i hi
        show (if i < t.nAlloc then f.next i else _) = t.next i
        rw [if_pos (h.lt_of_free hi)]
        exact hrel.nexts i (fun hh => h.disj hh hi)
      · omega
      · omega
      · intro i h1 h2
        show (if i < t.nAlloc then f.next i else _) = _
        rw [if_neg (by omega)]
    · show ((List.range (2 ^ k)).flatMap ch' ++ (List.range' t.nAlloc (allocFor (2 ^ k) - t.nAlloc) ++ fl)).Perm (List.range (allocFor (2 ^ k)))
      have h1 : List.range (allocFor (2 ^ k)) = List.range t.nAlloc ++ List.range' t.nAlloc (allocFor (2 ^ k) - t.nAlloc) := by
        rw [List.range_eq_range', List.range_eq_range']
        have := List.range'_append_1 (s := 0) (m := t.nAlloc) (n := allocFor (2 ^ k) - t.nAlloc)
        rw [Nat.zero_add] at this
        rw [this]; congr 1; omega
      rw [h1]
      refine (hperm.append_right _).trans ?_
      refine List.Perm.trans ?_ (h.perm.append_right _)
      rw [List.append_assoc]
      exact List.Perm.append_left _ List.perm_append_comm
    · intro b hb e he
      obtain ⟨h1, h2⟩ := hallmem b e he
      obtain ⟨x, hx⟩ := hlive e h1
      refine ⟨x, ?_, ?_⟩
      · show f.entries e = some x
        rw [hrel.ents e, if_pos h1, hx]
      · simpa [bk, hx] using h2
    · intro e he
      show f.entries e = none
      rw [hrel.ents e, if_neg (fun hh => he (hperm.mem_iff.2 hh))]
    · show t.nEntries = ((List.range (2 ^ k)).flatMap ch').length
      rw [hperm.length_eq]; exact h.count
    · intro _
      refine ⟨_, ?_, rfl⟩
      simp; omega
    · intro e he
      show f.entries e = t.entries e
      rw [hrel.ents e, if_pos he]

/-- `reserve` keeps the content. -/
theorem reserve_rep {t : HTab E} {l : List E} (h : Rep key hash t l) {n : Nat} (hn : n ≤ 2 ^ 63) :
    ∃ t', reserve key hash t n = some t' ∧ Rep key hash t' l ∧ n ≤ t'.hashSize := by
  obtain ⟨ch, fl, h, hp, hk⟩ := h
  obtain ⟨t', ch', fl', h1, h2, h3, h4, _, h5, _⟩ := reserve_spec h (Or.inl hn)
  refine ⟨t', h1, ⟨ch', fl', h2, ?_, hk⟩, h3⟩
  refine (h4.filterMap _).trans ?_
  rw [List.filterMap_congr h5]
  exact hp

/-- Insertion of a fresh entry. -/
theorem insertNew_spec {t : HTab E} {ch : Nat → List Nat} {fl : List Nat} (h : Inv key hash t ch fl) (x : E) :
    ∃ t' ch' fl', insertNew key hash t x = some t' ∧ Inv key hash t' ch' fl' ∧
      ((t'.all ch').filterMap t'.entries).Perm (x :: (t.all ch).filterMap t.entries) := by
  obtain ⟨t1, ch1, fl1, h1, h2, h3, h4⟩ : ∃ t1 ch1 fl1,
      grow key hash t = some t1 ∧
      Inv key hash t1 ch1 fl1 ∧ fl1 ≠ [] ∧
      ((t1.all ch1).filterMap t1.entries).Perm ((t.all ch).filterMap t.entries) := by
    unfold grow
    by_cases hf : t.free = none
    · rw [if_pos hf]
      have hpow : ∃ k, (if t.hashSize = 0 then 16 else t.hashSize * 2) = 2 ^ k := by
        split_ifs with h0
        · exact ⟨4, rfl⟩
        · rcases h.size with ⟨h1, _⟩ | ⟨k, _, h1, _⟩
          · exact absurd h1 h0
          · exact ⟨k + 1, by rw [h1, pow_succ]⟩
      obtain ⟨t', ch', fl', a1, a2, a3, a4, a5, a6, _⟩ := reserve_spec h (Or.inr hpow)
      refine ⟨t', ch', fl', a1, a2, ?_, ?_⟩
      · obtain ⟨r, hr, rfl⟩ := a5 (by split_ifs <;> omega)
        intro hh
        simp at hh
        simp [hh.1] at hr
      · refine (a4.filterMap _).trans ?_
        rw [List.filterMap_congr a6]
    · rw [if_neg hf]
      refine ⟨t, ch, fl, rfl, h, ?_, List.Perm.refl _⟩
      rintro rfl
      exact hf h.freeC
  obtain ⟨e, fl2, rfl⟩ : ∃ e fl2, fl1 = e :: fl2 := List.exists_cons_of_ne_nil h3
  obtain ⟨p1, p2, p3, ch', p4, p5⟩ := h2.push x _ rfl
  refine ⟨_, ch', fl2, ?_, p4, p5.trans (h4.cons x)⟩
  unfold insertNew
  rw [h1]
  simp only [Option.bind_eq_bind, Option.bind_some, p1]
  rw [if_pos ⟨p2, p3⟩]

theorem contents_key {t : HTab E} {ch : Nat → List Nat} {fl : List Nat} (h : Inv key hash t ch fl) {l : List E}
    (hp : ((t.all ch).filterMap t.entries).Perm l) (k : K) :
    (∀ e ∈ t.all ch, ∀ x, t.entries e = some x → key x ≠ k) ↔ ∀ x ∈ l, key x ≠ k := by
  constructor
  · intro h1 x hx
    obtain ⟨e, he, hex⟩ := List.mem_filterMap.1 (hp.mem_iff.2 hx)
    exact h1 e he x hex
  · intro h1 e he x hx
    exact h1 x (hp.mem_iff.1 (List.mem_filterMap.2 ⟨e, he, hx⟩))

/-! ### Iteration -/

/-- The iterator `it` is in front of the indices `L` (the rest of the iteration). -/
def IterAt (t : HTab E) (ch : Nat → List Nat) (it : Iter) (L : List Nat) : Prop :=
  (it = t.endIter ∧ L = []) ∨
  (∃ pre suf, it.bucket < t.hashSize ∧ ch it.bucket = pre ++ it.entry :: suf ∧
    L = it.entry :: suf ++ (List.range' (it.bucket + 1) (t.hashSize - (it.bucket + 1))).flatMap ch)

theorem nextBucket_spec {t : HTab E} {ch : Nat → List Nat}
    (hc : ∀ b < t.hashSize, IsChain t.next (t.buckets b) (ch b)) : ∀ (fuel b : Nat), b ≤ t.hashSize →
    t.hashSize - b ≤ fuel →
    IterAt t ch (t.nextBucket fuel b) ((List.range' b (t.hashSize - b)).flatMap ch) := by
  intro fuel
  induction fuel with
  | zero =>
    intro b h1 h2
    have : b = t.hashSize := by omega
    subst this
    left
    exact ⟨rfl, by simp⟩
  | succ fuel ih =>
    intro b h1 h2
    unfold nextBucket
    split_ifs with hb
    · have hr : List.range' b (t.hashSize - b) = b :: List.range' (b + 1) (t.hashSize - (b + 1)) := by
        have : t.hashSize - b = (t.hashSize - (b + 1)) + 1 := by omega
        rw [this]; rfl
      have hch := hc b hb
      cases hbk : t.buckets b with
      | none =>
        have : ch b = [] := by
          cases hl : ch b with
          | nil => rfl
          | cons a l => rw [hl, hbk] at hch; cases hch.1
        simp only
        rw [hr, List.flatMap_cons, this, List.nil_append]
        exact ih (b + 1) (by omega) (by omega)
      | some e =>
        simp only
        cases hl : ch b with
        | nil => rw [hl, hbk] at hch; cases hch
        | cons a l =>
          rw [hl, hbk] at hch
          have hae : e = a := Option.some.inj hch.1
          subst hae
          right
          refine ⟨[], l, hb, by simpa using hl, ?_⟩
          rw [hr, List.flatMap_cons, hl]
    · have : b = t.hashSize := by omega
      subst this
      left
      exact ⟨rfl, by simp⟩

theorem advance_spec {t : HTab E} {ch : Nat → List Nat} {fl : List Nat} (h : Inv key hash t ch fl) {it : Iter}
    {i : Nat} {L : List Nat} (hit : IterAt t ch it (i :: L)) :
    it ≠ t.endIter ∧ t.deref it = t.entries i ∧ ∃ it', t.advance it = some it' ∧ IterAt t ch it' L := by
  rcases hit with ⟨_, h2⟩ | ⟨pre, suf, h1, h2, h3⟩
  · cases h2
  · simp only [List.cons_append, List.cons.injEq] at h3
    obtain ⟨h3, h4⟩ := h3
    subst h3
    have hlt : it.entry < t.nAlloc := h.lt_of_all (mem_all.2 ⟨it.bucket, h1, by rw [h2]; simp⟩)
    have hch := h.chains _ h1
    rw [h2] at hch
    have hsuf := hch.append_cons
    refine ⟨?_, ?_, ?_⟩
    · intro hh
      rw [hh] at h1
      simp [endIter] at h1
    · unfold deref; rw [if_pos ⟨h1, hlt⟩]
    · unfold advance
      rw [if_pos ⟨h1, hlt⟩]
      cases suf with
      | nil =>
        have : t.next it.entry = none := hsuf
        rw [this]
        refine ⟨_, rfl, ?_⟩
        rw [h4, List.nil_append]
        exact nextBucket_spec h.chains _ _ (by omega) (by omega)
      | cons a suf =>
        rw [hsuf.1]
        refine ⟨_, rfl, Or.inr ⟨pre ++ [it.entry], suf, h1, ?_, h4⟩⟩
        rw [h2]; simp

theorem collect_spec {t : HTab E} {ch : Nat → List Nat} {fl : List Nat} (h : Inv key hash t ch fl) :
    ∀ (L : List Nat) (fuel : Nat) (it : Iter), (∀ e ∈ L, ∃ x, t.entries e = some x) → IterAt t ch it L →
    L.length ≤ fuel → t.collect fuel it = some (L.filterMap t.entries) := by
  intro L
  induction L with
  | nil =>
    intro fuel it _ hit _
    rcases hit with ⟨h1, _⟩ | ⟨_, _, _, _, h3⟩
    · cases fuel <;> simp [collect, h1]
    · simp at h3
  | cons i L ih =>
    intro fuel it hl hit hlen
    obtain ⟨fuel, rfl⟩ : ∃ f, fuel = f + 1 := ⟨fuel - 1, by simp at hlen; omega⟩
    obtain ⟨h1, h2, it', h3, h4⟩ := advance_spec h hit
    obtain ⟨x, hx⟩ := hl i (by simp)
    unfold collect
    rw [if_neg h1, h2, hx, h3]
    simp only [Option.bind_eq_bind, Option.bind_some]
    rw [ih fuel it' (fun e he => hl e (by simp [he])) h4 (by simpa using hlen)]
    simp [List.filterMap_cons, hx]

theorem Inv.live_all {t : HTab E} {ch : Nat → List Nat} {fl : List Nat} (h : Inv key hash t ch fl) :
    ∀ e ∈ t.all ch, ∃ x, t.entries e = some x := by
  intro e he
  obtain ⟨b, hb, hbe⟩ := mem_all.1 he
  obtain ⟨x, hx, _⟩ := h.live b hb e hbe
  exact ⟨x, hx⟩

theorem begin_spec {t : HTab E} {ch : Nat → List Nat} {fl : List Nat} (h : Inv key hash t ch fl) :
    ∃ it, t.beginIter = some it ∧ IterAt t ch it (t.all ch) := by
  unfold beginIter
  by_cases h0 : t.nEntries = 0
  · rw [if_pos h0]
    refine ⟨_, rfl, Or.inl ⟨rfl, ?_⟩⟩
    have := h.count
    rw [h0] at this
    exact List.length_eq_zero_iff.1 this.symm
  · rw [if_neg h0]
    have := nextBucket_spec h.chains t.hashSize 0 (by omega) (by omega)
    have hr : List.range' 0 (t.hashSize - 0) = List.range t.hashSize := by
      rw [List.range_eq_range']; rfl
    rw [hr] at this
    have hlt : (t.nextBucket t.hashSize 0).bucket < t.hashSize := by
      rcases this with ⟨_, h2⟩ | ⟨_, _, h1, _, _⟩
      · have hc := h.count
        unfold all at hc
        rw [h2] at hc
        exact absurd hc h0
      · exact h1
    simp only
    rw [if_pos hlt]
    exact ⟨_, rfl, this⟩

theorem toList_spec {t : HTab E} {ch : Nat → List Nat} {fl : List Nat} (h : Inv key hash t ch fl) :
    t.toList = some ((t.all ch).filterMap t.entries) := by
  obtain ⟨it, h1, h2⟩ := begin_spec h
  unfold toList
  rw [h1]
  simp only [Option.bind_eq_bind, Option.bind_some]
  exact collect_spec h _ _ _ h.live_all h2 h.all_len

/-! ### Removal -/

theorem all_split (t : HTab E) (ch : Nat → List Nat) {b : Nat} (hb : b < t.hashSize) :
    t.all ch = (List.range b).flatMap ch ++ (ch b ++ (List.range' (b + 1) (t.hashSize - (b + 1))).flatMap ch) := by
  unfold all
  have h1 : List.range t.hashSize = List.range b ++ b :: List.range' (b + 1) (t.hashSize - (b + 1)) := by
    rw [List.range_eq_range', List.range_eq_range']
    have h2 := List.range'_append_1 (s := 0) (m := b) (n := t.hashSize - b)
    rw [Nat.zero_add] at h2
    have h3 : List.range' b (t.hashSize - b) = b :: List.range' (b + 1) (t.hashSize - (b + 1)) := by
      have : t.hashSize - b = (t.hashSize - (b + 1)) + 1 := by omega
      rw [this]; rfl
    rw [← h3, h2]; congr 1; omega
  rw [h1, List.flatMap_append, List.flatMap_cons]

/-- Effect of removing a present key. -/
theorem remove_found {t : HTab E} {ch : Nat → List Nat} {fl : List Nat} (h : Inv key hash t ch fl) {k : K}
    (h0 : t.hashSize ≠ 0) {pre suf : List Nat} {i : Nat} {x : E}
    (hch : ch (bucketOf hash t.hashSize k) = pre ++ i :: suf) (hx : t.entries i = some x) (hk : key x = k)
    (hl : lookup key hash t k = some (some (pre.getLast?, i))) :
    ∃ t' it' ch' L1 L2, remove key hash t k = some (t', it') ∧ Inv key hash t' ch' (i :: fl) ∧
      t.all ch = L1 ++ i :: L2 ∧ t'.all ch' = L1 ++ L2 ∧ IterAt t' ch' it' L2 ∧
      (∀ e, e ≠ i → t'.entries e = t.entries e) := by
  set b := bucketOf hash t.hashSize k with hb
  have hbl : b < t.hashSize := h.bucket_lt h0 k
  have hnd := h.nodup_ch hbl
  rw [hch] at hnd
  have hi_all : i ∈ t.all ch := mem_all.2 ⟨b, hbl, by rw [hch]; simp⟩
  have hi_pre : i ∉ pre := by
    intro hh
    exact (List.nodup_append.1 hnd).2.2 i hh i (by simp) rfl
  have hi_suf : i ∉ suf := (List.nodup_cons.1 (List.nodup_append.1 hnd).2.1).1
  have hi_other : ∀ c < t.hashSize, c ≠ b → i ∉ ch c := by
    intro c hc hcb hh
    exact hcb (h.ch_inj hc hbl hh (by rw [hch]; simp))
  set ch' := upd ch b (pre ++ suf) with hch'
  have hother : ∀ c, c ≠ b → ch' c = ch c := fun c hc => upd_ne _ _ hc
  have hsame : ch' b = pre ++ suf := by simp [hch']
  -- the table after unlinking
  set t1 : HTab E := (match pre.getLast? with
      | none => { t with buckets := upd t.buckets b (t.next i) }
      | some l => { t with next := upd t.next l (t.next i) }) with ht1
  have t1f : t1.nAlloc = t.nAlloc ∧ t1.nEntries = t.nEntries ∧ t1.hashSize = t.hashSize ∧ t1.entries = t.entries ∧ t1.free = t.free := by
    rw [ht1]; cases pre.getLast? <;> simp
  have t1next : t1.next i = t.next i := by
    rw [ht1]
    cases hg : pre.getLast? with
    | none => rfl
    | some l =>
      have : l ∈ pre := List.mem_of_getLast? hg
      show upd t.next l _ i = _
      rw [upd_ne _ _ (by rintro rfl; exact hi_pre this)]
  have t1chains : ∀ c < t.hashSize, IsChain t1.next (t1.buckets c) (ch' c) := by
    intro c hc
    have hcc := h.chains c hc
    rw [ht1]
    cases hg : pre.getLast? with
    | none =>
      have hp0 : pre = [] := by simpa using hg
      show IsChain t.next (upd t.buckets b (t.next i) c) (ch' c)
      by_cases hcb : c = b
      · subst hcb
        rw [upd_same, hsame, hp0]
        rw [hch, hp0] at hcc
        exact hcc.2
      · rw [upd_ne _ _ hcb, hother c hcb]; exact hcc
    | some l =>
      have hlmem : l ∈ pre := List.mem_of_getLast? hg
      obtain ⟨pre', rfl⟩ : ∃ p, pre = p ++ [l] := by
        rcases List.eq_nil_or_concat pre with h | ⟨p, a, h⟩
        · rw [h] at hg; cases hg
        · rw [h] at hg
          simp at hg
          exact ⟨p, by rw [h, hg]; simp⟩
      show IsChain (upd t.next l (t.next i)) (t.buckets c) (ch' c)
      by_cases hcb : c = b
      · subst hcb
        rw [hsame]
        rw [hch] at hcc
        simp only [List.append_assoc, List.singleton_append] at hcc hnd ⊢
        exact hcc.unlink hnd
      · rw [hother c hcb]
        apply hcc.upd_not_mem
        intro hh
        exact hcb (h.ch_inj hc hbl hh (by rw [hch]; simp))
  have t1free : IsChain t1.next t1.free fl := by
    rw [t1f.2.2.2.2]
    rw [ht1]
    cases hg : pre.getLast? with
    | none => exact h.freeC
    | some l =>
      have hlmem : l ∈ pre := List.mem_of_getLast? hg
      apply h.freeC.upd_not_mem
      intro hh
      exact h.disj (mem_all.2 ⟨b, hbl, by rw [hch]; simp [hlmem]⟩) hh
  set t2 : HTab E := { t1 with entries := upd t1.entries i none, next := upd t1.next i t1.free, free := some i, nEntries := t1.nEntries - 1 } with ht2
  have hhs : t2.hashSize = t.hashSize := t1f.2.2.1
  have hallold : t.all ch = ((List.range b).flatMap ch ++ pre) ++ i :: (suf ++ (List.range' (b + 1) (t.hashSize - (b + 1))).flatMap ch) := by
    rw [all_split t ch hbl, hch]; simp
  have hallnew : t2.all ch' = ((List.range b).flatMap ch ++ pre) ++ (suf ++ (List.range' (b + 1) (t.hashSize - (b + 1))).flatMap ch) := by
    rw [all_split t2 ch' (by rw [hhs]; exact hbl), hsame, hhs]
    have e1 : (List.range b).flatMap ch' = (List.range b).flatMap ch := by
      apply List.flatMap_congr
      intro a ha
      exact hother a (by have := List.mem_range.1 ha; omega)
    have e2 : (List.range' (b + 1) (t.hashSize - (b + 1))).flatMap ch' = (List.range' (b + 1) (t.hashSize - (b + 1))).flatMap ch := by
      apply List.flatMap_congr
      intro a ha
      apply hother a
      rw [List.mem_range'_1] at ha
      omega
    rw [e1, e2]; simp
  have hnotin : i ∉ t2.all ch' := by
    rw [hallnew]
    have := h.nodup_all
    rw [hallold] at this
    rw [List.nodup_middle] at this
    exact (List.nodup_cons.1 this).1
  have hchains2 : ∀ c < t2.hashSize, IsChain t2.next (t2.buckets c) (ch' c) := by
    intro c hc
    rw [hhs] at hc
    apply (t1chains c hc).upd_not_mem
    intro hh
    apply hnotin
    exact mem_all.2 ⟨c, by rw [hhs]; exact hc, hh⟩
  have hinv : Inv key hash t2 ch' (i :: fl) := by
    refine ⟨?_, hchains2, ?_, ?_, ?_, ?_, ?_⟩
    · show (t1.hashSize = 0 ∧ t1.nAlloc = 0) ∨ _
      have := h.size
      rw [← t1f.1, ← t1f.2.2.1] at this
      exact this
    · refine ⟨rfl, ?_⟩
      show IsChain (upd t1.next i t1.free) (upd t1.next i t1.free i) fl
      rw [upd_same]
      exact t1free.upd_not_mem (fun hh => h.disj hi_all hh)
    · show (t2.all ch' ++ i :: fl).Perm (List.range t1.nAlloc)
      rw [t1f.1]
      refine List.Perm.trans ?_ h.perm
      rw [hallnew, hallold]
      have hmid : ∀ A B : List Nat, (A ++ B ++ i :: fl).Perm (A ++ i :: B ++ fl) := by
        intro A B
        refine List.perm_middle.trans ?_
        rw [List.append_assoc A B, List.append_assoc A, List.cons_append]
        exact List.perm_middle.symm
      exact hmid _ _
    · intro c hc e he
      have hc' : c < t.hashSize := by rwa [hhs] at hc
      have hei : e ≠ i := by
        rintro rfl
        exact hnotin (mem_all.2 ⟨c, hc, he⟩)
      have hec : e ∈ ch c := by
        by_cases hcb : c = b
        · subst hcb
          rw [hsame] at he
          rw [hch]
          simp only [List.mem_append, List.mem_cons] at he ⊢
          tauto
        · rwa [hother c hcb] at he
      obtain ⟨y, hy, hyb⟩ := h.live c hc' e hec
      refine ⟨y, ?_, by rw [hhs]; exact hyb⟩
      show upd t1.entries i none e = some y
      rw [upd_ne _ _ hei, t1f.2.2.2.1, hy]
    · intro e he
      show upd t1.entries i none e = none
      by_cases hei : e = i
      · subst hei; simp
      · rw [upd_ne _ _ hei, t1f.2.2.2.1]
        apply h.dead
        intro hh
        apply he
        rw [hallnew]
        rw [hallold] at hh
        simp only [List.mem_append, List.mem_cons] at hh ⊢
        tauto
    · show t1.nEntries - 1 = _
      rw [t1f.2.1, h.count, hallnew, hallold]
      simp
      omega
  have hnext : IsChain t.next (t.next i) suf := by
    have := h.chains b hbl
    rw [hch] at this
    exact this.append_cons
  refine ⟨t2, (match t1.next i with | some e => ⟨b, e⟩ | none => t2.nextBucket t2.hashSize (b + 1)), ch', _, _, ?_, hinv, hallold, hallnew, ?_, ?_⟩
  · unfold remove
    rw [hl]
    simp only [Option.bind_eq_bind, Option.bind_some]
    cases hg : t1.next i with
    | none =>
      rfl
    | some e =>
      rfl
  · rw [t1next]
    cases hs : suf with
    | nil =>
      rw [hs] at hnext
      have : t.next i = none := hnext
      rw [this]
      have hn := nextBucket_spec hchains2 t2.hashSize (b + 1) (by rw [hhs]; omega) (by omega)
      rw [hhs] at hn ⊢
      have e2 : (List.range' (b + 1) (t.hashSize - (b + 1))).flatMap ch' = (List.range' (b + 1) (t.hashSize - (b + 1))).flatMap ch := by
        apply List.flatMap_congr
        intro a ha
        apply hother a
        rw [List.mem_range'_1] at ha
        omega
      rw [e2] at hn
      simpa using hn
    | cons a suf' =>
      rw [hs] at hnext
      rw [hnext.1]
      right
      refine ⟨pre, suf', by rw [hhs]; exact hbl, by rw [hsame, hs], ?_⟩
      have e2 : (List.range' (b + 1) (t.hashSize - (b + 1))).flatMap ch' = (List.range' (b + 1) (t.hashSize - (b + 1))).flatMap ch := by
        apply List.flatMap_congr
        intro a ha
        apply hother a
        rw [List.mem_range'_1] at ha
        omega
      show _ = a :: suf' ++ (List.range' (b + 1) (t2.hashSize - (b + 1))).flatMap ch'
      rw [hhs, e2]
  · intro e he
    show upd t1.entries i none e = _
    rw [upd_ne _ _ he, t1f.2.2.2.1]

end HTab
end RP3D
