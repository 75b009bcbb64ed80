import Verif.Containers.HashTable
import Mathlib.Data.List.Perm.Basic
import Mathlib.Data.List.Nodup
import Mathlib.Data.List.Range

set_option linter.unusedSectionVars false
set_option linter.unusedVariables false

/-! Representation invariant of the hash table and the simulation lemmas. -/

namespace RP3D

/-- The linked list starting at `s` through `next` visits exactly the indices `l`. -/
def IsChain (next : Nat → Option Nat) : Option Nat → List Nat → Prop
  | s, [] => s = none
  | s, i :: l => s = some i ∧ IsChain next (next i) l

theorem IsChain.congr {next next' : Nat → Option Nat} {s : Option Nat} {l : List Nat}
    (h : IsChain next s l) (he : ∀ i ∈ l, next' i = next i) : IsChain next' s l := by
  induction l generalizing s with
  | nil => exact h
  | cons i l ih =>
    refine ⟨h.1, ?_⟩
    rw [he i (by simp)]
    exact ih h.2 (fun j hj => he j (by simp [hj]))

theorem IsChain.upd_not_mem {next : Nat → Option Nat} {s : Option Nat} {l : List Nat} {e : Nat}
    {v : Option Nat} (h : IsChain next s l) (he : e ∉ l) : IsChain (upd next e v) s l :=
  h.congr (fun i hi => upd_ne _ _ (fun hh => he (hh ▸ hi)))

theorem IsChain.append_cons {next : Nat → Option Nat} {s : Option Nat} {pre suf : List Nat} {i : Nat}
    (h : IsChain next s (pre ++ i :: suf)) : IsChain next (next i) suf := by
  induction pre generalizing s with
  | nil => exact h.2
  | cons a pre ih => exact ih h.2

/-- Unlinking `i` after `last`. -/
theorem IsChain.unlink {next : Nat → Option Nat} {s : Option Nat} {pre suf : List Nat} {last i : Nat}
    (h : IsChain next s (pre ++ last :: i :: suf)) (hn : (pre ++ last :: i :: suf).Nodup) :
    IsChain (upd next last (next i)) s (pre ++ last :: suf) := by
  induction pre generalizing s with
  | nil =>
    refine ⟨h.1, ?_⟩
    simp only [upd_same]
    simp at hn
    exact h.2.2.upd_not_mem hn.1.2
  | cons a pre ih =>
    simp only [List.cons_append, List.nodup_cons] at hn
    refine ⟨h.1, ?_⟩
    rw [upd_ne _ _ (fun hh => hn.1 (by simp [hh]))]
    exact ih h.2 hn.2

theorem flatMap_upd_perm (ch : Nat → List Nat) {n b : Nat} (hb : b < n) :
    ∃ rest, ∀ l, ((List.range n).flatMap (upd ch b l)).Perm (l ++ rest) := by
  refine ⟨((List.range n).erase b).flatMap ch, fun l => ?_⟩
  have h1 : (List.range n).Perm (b :: (List.range n).erase b) :=
    List.perm_cons_erase (List.mem_range.2 hb)
  refine (h1.flatMap_right _).trans ?_
  simp only [List.flatMap_cons, upd_same]
  have : ((List.range n).erase b).flatMap (upd ch b l) = ((List.range n).erase b).flatMap ch := by
    apply List.flatMap_congr
    intro a ha
    apply upd_ne
    rintro rfl
    exact (List.Nodup.not_mem_erase List.nodup_range) ha
  rw [this]

theorem upd_self {β : Type} (f : Nat → β) (i : Nat) : upd f i (f i) = f := by
  funext j; unfold upd; split_ifs with h
  · rw [h]
  · rfl

namespace HTab
variable {E K : Type} [DecidableEq K] (key : E → K) (hash : K → Nat)

/-- All used entry indices, in iteration order. -/
def all (t : HTab E) (ch : Nat → List Nat) : List Nat := (List.range t.hashSize).flatMap ch

/-- The representation invariant: `ch b` is the chain of bucket `b`, `fl` is the free list. -/
structure Inv (t : HTab E) (ch : Nat → List Nat) (fl : List Nat) : Prop where
  size : (t.hashSize = 0 ∧ t.nAlloc = 0) ∨ ∃ k, 4 ≤ k ∧ t.hashSize = 2 ^ k ∧ t.nAlloc = allocFor (2 ^ k)
  chains : ∀ b < t.hashSize, IsChain t.next (t.buckets b) (ch b)
  freeC : IsChain t.next t.free fl
  perm : (t.all ch ++ fl).Perm (List.range t.nAlloc)
  live : ∀ b < t.hashSize, ∀ e ∈ ch b, ∃ x, t.entries e = some x ∧ bucketOf hash t.hashSize (key x) = b
  dead : ∀ e, e ∉ t.all ch → t.entries e = none
  count : t.nEntries = (t.all ch).length

/-- `t` stores the entries `l`. -/
def Rep (t : HTab E) (l : List E) : Prop :=
  ∃ ch fl, Inv key hash t ch fl ∧ ((t.all ch).filterMap t.entries).Perm l ∧ (l.map key).Nodup

variable {key hash}

theorem mem_all {t : HTab E} {ch : Nat → List Nat} {e : Nat} :
    e ∈ t.all ch ↔ ∃ b < t.hashSize, e ∈ ch b := by
  simp [all, List.mem_flatMap]

namespace Inv
variable {t : HTab E} {ch : Nat → List Nat} {fl : List Nat} (h : Inv key hash t ch fl)
include h

theorem nodup : (t.all ch ++ fl).Nodup := h.perm.nodup_iff.2 List.nodup_range

theorem nodup_all : (t.all ch).Nodup := (List.nodup_append.1 h.nodup).1

theorem disj {e : Nat} (h1 : e ∈ t.all ch) (h2 : e ∈ fl) : False :=
  (List.nodup_append.1 h.nodup).2.2 e h1 e h2 rfl

theorem lt_of_all {e : Nat} (he : e ∈ t.all ch) : e < t.nAlloc :=
  List.mem_range.1 (h.perm.mem_iff.1 (List.mem_append_left _ he))

theorem lt_of_free {e : Nat} (he : e ∈ fl) : e < t.nAlloc :=
  List.mem_range.1 (h.perm.mem_iff.1 (List.mem_append_right _ he))

theorem nodup_ch {b : Nat} (hb : b < t.hashSize) : (ch b).Nodup := by
  have := h.nodup_all
  unfold all at this
  rw [List.nodup_flatMap] at this
  exact this.1 b (List.mem_range.2 hb)

theorem ch_inj {b c e : Nat} (hb : b < t.hashSize) (hc : c < t.hashSize) (h1 : e ∈ ch b) (h2 : e ∈ ch c) :
    b = c := by
  obtain ⟨x, hx, hx'⟩ := h.live b hb e h1
  obtain ⟨y, hy, hy'⟩ := h.live c hc e h2
  rw [hx] at hy; cases hy
  exact hx'.symm.trans hy'

theorem all_len : (t.all ch).length ≤ t.nAlloc := by
  have := h.perm.length_eq
  simp at this; omega

theorem ch_len {b : Nat} (hb : b < t.hashSize) : (ch b).length ≤ t.nAlloc := by
  have h1 : (ch b).Subperm (t.all ch) := by
    apply List.subperm_of_subset (h.nodup_ch hb)
    intro e he
    exact mem_all.2 ⟨b, hb, he⟩
  exact h1.length_le.trans h.all_len

theorem bucket_lt (h0 : t.hashSize ≠ 0) (k : K) : bucketOf hash t.hashSize k < t.hashSize := by
  rcases h.size with ⟨h1, _⟩ | ⟨k', _, h1, _⟩
  · exact absurd h1 h0
  · unfold bucketOf
    rw [h1, Nat.and_two_pow_sub_one_eq_mod]
    exact Nat.mod_lt _ (by positivity)

end Inv

/-! ### Lookup -/

theorem scan_spec (t : HTab E) (k : K) {l : List Nat} :
    ∀ {fuel : Nat} {last cur : Option Nat}, IsChain t.next cur l →
    (∀ e ∈ l, e < t.nAlloc ∧ ∃ x, t.entries e = some x) → l.length ≤ fuel →
    ((∀ e ∈ l, ∀ x, t.entries e = some x → key x ≠ k) ∧ scan key hash t k fuel last cur = some none) ∨
    (∃ pre i suf x, l = pre ++ i :: suf ∧ t.entries i = some x ∧ key x = k ∧
      (∀ e ∈ pre, ∀ x, t.entries e = some x → key x ≠ k) ∧
      scan key hash t k fuel last cur = some (some (pre.getLast?.or last, i))) := by
  induction l with
  | nil =>
    intro fuel last cur hc _ _
    left
    have : cur = none := hc
    subst this
    refine ⟨by simp, ?_⟩
    cases fuel <;> rfl
  | cons i l ih =>
    intro fuel last cur hc hl hlen
    obtain ⟨rfl, hc⟩ := hc
    obtain ⟨fuel, rfl⟩ : ∃ f, fuel = f + 1 := ⟨fuel - 1, by simp at hlen; omega⟩
    obtain ⟨hi, x, hx⟩ := hl i (by simp)
    by_cases hk : key x = k
    · right
      refine ⟨[], i, l, x, rfl, hx, hk, by simp, ?_⟩
      simp [scan, hi, hx, hk]
    · have hs : scan key hash t k (fuel + 1) last (some i) = scan key hash t k fuel (some i) (t.next i) := by
        rw [scan, if_pos hi]
        simp only [hx]
        rw [if_neg (fun hh => hk hh.2)]
      rcases ih (last := some i) hc (fun e he => hl e (by simp [he])) (by simpa using hlen) with
        ⟨h1, h2⟩ | ⟨pre, j, suf, y, h1, h2, h3, h4, h5⟩
      · left
        refine ⟨?_, hs.trans h2⟩
        intro e he y hy
        rcases List.mem_cons.1 he with rfl | he
        · rw [hx] at hy; cases hy; exact hk
        · exact h1 e he y hy
      · right
        refine ⟨i :: pre, j, suf, y, by rw [h1]; rfl, h2, h3, ?_, ?_⟩
        · intro e he y hy
          rcases List.mem_cons.1 he with rfl | he
          · rw [hx] at hy; cases hy; exact hk
          · exact h4 e he y hy
        · rw [hs, h5]
          congr 3
          cases pre with
          | nil => rfl
          | cons a p => simp [List.getLast?_cons]

/-- Lookup finds the entry with the key when there is one. -/
theorem lookup_spec {t : HTab E} {ch : Nat → List Nat} {fl : List Nat} (h : Inv key hash t ch fl) (k : K) :
    ((∀ e ∈ t.all ch, ∀ x, t.entries e = some x → key x ≠ k) ∧ lookup key hash t k = some none) ∨
    (t.hashSize ≠ 0 ∧ ∃ pre i suf x, ch (bucketOf hash t.hashSize k) = pre ++ i :: suf ∧ t.entries i = some x ∧ key x = k ∧
      lookup key hash t k = some (some (pre.getLast?, i))) := by
  unfold lookup
  by_cases h0 : t.hashSize = 0
  · left
    refine ⟨?_, by rw [if_pos h0]⟩
    intro e he
    simp [all, h0] at he
  · rw [if_neg h0]
    have hb := h.bucket_lt h0 k
    have hlt : ∀ e ∈ ch (bucketOf hash t.hashSize k), e < t.nAlloc ∧ ∃ x, t.entries e = some x := by
      intro e he
      obtain ⟨x, hx, _⟩ := h.live _ hb e he
      exact ⟨h.lt_of_all (mem_all.2 ⟨_, hb, he⟩), x, hx⟩
    rcases scan_spec (hash := hash) t k (last := none) (fuel := t.nAlloc + 1) (h.chains _ hb) hlt
      (by have := h.ch_len hb; omega) with ⟨h1, h2⟩ | ⟨pre, i, suf, x, h1, h2, h3, h4, h5⟩
    · left
      refine ⟨?_, h2⟩
      intro e he x hx hk
      obtain ⟨c, hc, hce⟩ := mem_all.1 he
      obtain ⟨y, hy, hyb⟩ := h.live c hc e hce
      rw [hx] at hy; cases hy
      rw [hk] at hyb
      rw [← hyb] at hce
      exact h1 e hce x hx hk
    · right
      refine ⟨h0, pre, i, suf, x, h1, h2, h3, ?_⟩
      rw [h5]; simp

/-! ### Insertion -/

theorem Inv.replace {t : HTab E} {ch : Nat → List Nat} {fl : List Nat} (h : Inv key hash t ch fl)
    {i : Nat} {x y : E} (hx : t.entries i = some x) (hk : key y = key x) :
    Inv key hash { t with entries := upd t.entries i (some y) } ch fl := by
  have hi : i ∈ t.all ch := by
    by_contra hn
    rw [h.dead i hn] at hx; cases hx
  refine ⟨h.size, h.chains, h.freeC, h.perm, ?_, ?_, h.count⟩
  · intro b hb e he
    by_cases hei : e = i
    · subst hei
      refine ⟨y, by simp, ?_⟩
      obtain ⟨z, hz, hzb⟩ := h.live b hb e he
      rw [hx] at hz; cases hz
      show bucketOf hash t.hashSize (key y) = b
      rw [hk, hzb]
    · obtain ⟨z, hz, hzb⟩ := h.live b hb e he
      exact ⟨z, by rw [← hz]; exact upd_ne _ _ hei, hzb⟩
  · intro e he
    have : e ≠ i := by rintro rfl; exact he hi
    show upd t.entries i (some y) e = none
    rw [upd_ne _ _ this]; exact h.dead e he

theorem filterMap_upd_some {ents : Nat → Option E} {l : List Nat} {e : Nat} {v : Option E} (he : e ∉ l) :
    l.filterMap (upd ents e v) = l.filterMap ents := by
  apply List.filterMap_congr
  intro a ha
  exact upd_ne _ _ (fun hh => he (hh ▸ ha))

/-- Insertion when there is a free entry. -/
theorem Inv.push {t : HTab E} {ch : Nat → List Nat} {e : Nat} {fl : List Nat} (h : Inv key hash t ch (e :: fl))
    (x : E) (b : Nat) (hb : b = bucketOf hash t.hashSize (key x)) :
    t.free = some e ∧ e < t.nAlloc ∧ b < t.hashSize ∧
    ∃ ch', Inv key hash (t.push e b x) ch' fl ∧
      (((List.range t.hashSize).flatMap ch').filterMap (upd t.entries e (some x))).Perm
        (x :: (t.all ch).filterMap t.entries) := by
  have hfree := h.freeC
  have he : e < t.nAlloc := h.lt_of_free (by simp)
  have h0 : t.hashSize ≠ 0 := by
    rcases h.size with ⟨_, h2⟩ | ⟨k, _, h2, _⟩
    · omega
    · rw [h2]; positivity
  have hbl : b < t.hashSize := hb ▸ h.bucket_lt h0 (key x)
  obtain ⟨rest, hrest⟩ := flatMap_upd_perm ch hbl
  have hold : (t.all ch).Perm (ch b ++ rest) := by
    have := hrest (ch b); rwa [upd_self] at this
  have hnew : ((List.range t.hashSize).flatMap (upd ch b (e :: ch b))).Perm (e :: t.all ch) :=
    (hrest _).trans ((List.Perm.cons e hold.symm))
  have heall : e ∉ t.all ch := fun hh => h.disj hh (by simp)
  have hefl : e ∉ fl := by
    have := (List.nodup_append.1 h.nodup).2.1
    exact (List.nodup_cons.1 this).1
  refine ⟨hfree.1, he, hbl, upd ch b (e :: ch b), ⟨h.size, ?_, ?_, ?_, ?_, ?_, ?_⟩, ?_⟩
  · intro c hc
    show IsChain (upd t.next e (t.buckets b)) (upd t.buckets b (some e) c) (upd ch b (e :: ch b) c)
    by_cases hcb : c = b
    · subst hcb
      simp only [upd_same]
      refine ⟨rfl, ?_⟩
      simp only [upd_same]
      exact (h.chains c hc).upd_not_mem (fun hh => heall (mem_all.2 ⟨c, hc, hh⟩))
    · rw [upd_ne _ _ hcb, upd_ne _ _ hcb]
      exact (h.chains c hc).upd_not_mem (fun hh => heall (mem_all.2 ⟨c, hc, hh⟩))
  · exact hfree.2.upd_not_mem hefl
  · show ((List.range t.hashSize).flatMap (upd ch b (e :: ch b)) ++ fl).Perm (List.range t.nAlloc)
    refine (hnew.append_right fl).trans ?_
    refine List.Perm.trans ?_ h.perm
    exact (List.perm_middle (l₁ := t.all ch) (a := e) (l₂ := fl)).symm
  · intro c hc e' he'
    show ∃ y, upd t.entries e (some x) e' = some y ∧ bucketOf hash t.hashSize (key y) = c
    have hc' : c < t.hashSize := hc
    by_cases hcb : c = b
    · subst hcb
      rw [upd_same] at he'
      rcases List.mem_cons.1 he' with rfl | he2
      · exact ⟨x, by simp, hb.symm⟩
      · obtain ⟨y, hy, hyb⟩ := h.live c hc' e' he2
        refine ⟨y, ?_, hyb⟩
        rw [upd_ne _ _ (by rintro rfl; exact heall (mem_all.2 ⟨c, hc', he2⟩)), hy]
    · rw [upd_ne _ _ hcb] at he'
      obtain ⟨y, hy, hyb⟩ := h.live c hc' e' he'
      refine ⟨y, ?_, hyb⟩
      rw [upd_ne _ _ (by rintro rfl; exact heall (mem_all.2 ⟨c, hc', he'⟩)), hy]
  · intro e' he'
    have hn : e' ∉ e :: t.all ch := fun hh => he' (hnew.mem_iff.2 hh)
    simp only [List.mem_cons, not_or] at hn
    show upd t.entries e (some x) e' = none
    rw [upd_ne _ _ hn.1]; exact h.dead e' hn.2
  · show t.nEntries + 1 = ((List.range t.hashSize).flatMap (upd ch b (e :: ch b))).length
    rw [hnew.length_eq, h.count]; rfl
  · refine (hnew.filterMap _).trans ?_
    rw [List.filterMap_cons]
    simp only [upd_same]
    rw [filterMap_upd_some heall]

/-! ### Reserve -/

/-- One iteration of the relink loop. -/
def relink1 (key : E → K) (hash : K → Nat) (t : HTab E) (cap : Nat) (f : Fresh E) (e : Nat) : Fresh E :=
  match t.entries e with
  | none => f
  | some x => ⟨upd f.buckets (bucketOf hash cap (key x)) (some e), upd f.entries e (some x),
      upd f.next e (f.buckets (bucketOf hash cap (key x)))⟩

theorem relinkChain_eq (t : HTab E) (cap : Nat) {l : List Nat} :
    ∀ {fuel : Nat} {cur : Option Nat} (f : Fresh E), IsChain t.next cur l →
    (∀ e ∈ l, e < t.nAlloc ∧ ∃ x, t.entries e = some x) → l.length ≤ fuel →
    relinkChain key hash t cap fuel cur f = some (l.foldl (relink1 key hash t cap) f) := by
  induction l with
  | nil =>
    intro fuel cur f hc _ _
    have : cur = none := hc
    subst this
    cases fuel <;> rfl
  | cons i l ih =>
    intro fuel cur f hc hl hlen
    obtain ⟨rfl, hc⟩ := hc
    obtain ⟨fuel, rfl⟩ : ∃ f, fuel = f + 1 := ⟨fuel - 1, by simp at hlen; omega⟩
    obtain ⟨hi, x, hx⟩ := hl i (by simp)
    rw [relinkChain, if_pos hi]
    simp only [hx, List.foldl_cons]
    rw [ih _ hc (fun e he => hl e (by simp [he])) (by simpa using hlen)]
    simp only [relink1, hx]

theorem relinkAll_eq {t : HTab E} {ch : Nat → List Nat} {fl : List Nat} (h : Inv key hash t ch fl) (cap : Nat)
    (f : Fresh E) : relinkAll key hash t cap f = some ((t.all ch).foldl (relink1 key hash t cap) f) := by
  unfold relinkAll all
  have : ∀ (bs : List Nat) (f : Fresh E), (∀ b ∈ bs, b < t.hashSize) →
      bs.foldlM (fun f i => relinkChain key hash t cap (t.nAlloc + 1) (t.buckets i) f) f =
        some ((bs.flatMap ch).foldl (relink1 key hash t cap) f) := by
    intro bs
    induction bs with
    | nil => intro f _; rfl
    | cons b bs ih =>
      intro f hbs
      have hb := hbs b (by simp)
      rw [List.foldlM_cons, relinkChain_eq t cap f (h.chains b hb) ?_ (by have := h.ch_len hb; omega)]
      · simp only [List.flatMap_cons, List.foldl_append, Option.bind_eq_bind, Option.bind_some]
        exact ih _ (fun c hc => hbs c (by simp [hc]))
      · intro e he
        obtain ⟨x, hx, _⟩ := h.live _ hb e he
        exact ⟨h.lt_of_all (mem_all.2 ⟨_, hb, he⟩), x, hx⟩
  exact this _ f (fun b hb => List.mem_range.1 hb)

/-- New bucket of an entry. -/
def bk (key : E → K) (hash : K → Nat) (t : HTab E) (cap : Nat) (e : Nat) : Nat :=
  match t.entries e with
  | none => 0
  | some x => bucketOf hash cap (key x)

/-- State of the relink loop after the entries `done`. -/
structure Relinked (key : E → K) (hash : K → Nat) (t : HTab E) (cap : Nat) (done : List Nat) (f : Fresh E) : Prop where
  chains : ∀ b, IsChain f.next (f.buckets b) (done.filter (fun e => bk key hash t cap e = b)).reverse
  ents : ∀ e, f.entries e = if e ∈ done then t.entries e else none
  nexts : ∀ e, e ∉ done → f.next e = t.next e

theorem relink_fold (t : HTab E) (cap : Nat) (l : List Nat) : ∀ (done : List Nat) (f : Fresh E),
    Relinked key hash t cap done f → (done ++ l).Nodup → (∀ e ∈ l, ∃ x, t.entries e = some x) →
    Relinked key hash t cap (done ++ l) (l.foldl (relink1 key hash t cap) f) := by
  induction l with
  | nil => intro done f h _ _; simpa using h
  | cons e l ih =>
    intro done f h hn hl
    have hed : e ∉ done := by
      intro hh
      exact (List.nodup_append.1 hn).2.2 e hh e (by simp) rfl
    have := ih (done ++ [e]) (relink1 key hash t cap f e) ?_ (by simpa using hn) (fun a ha => hl a (by simp [ha]))
    · simpa using this
    · obtain ⟨x, hx⟩ := hl e (by simp)
      have hbk : bk key hash t cap e = bucketOf hash cap (key x) := by simp [bk, hx]
      simp only [relink1, hx]
      rw [← hbk]
      refine ⟨?_, ?_, ?_⟩
      · intro b
        show IsChain (upd f.next e _) (upd f.buckets _ _ b) _
        have hnm : e ∉ (done.filter (fun e => bk key hash t cap e = b)).reverse := by
          simp [hed]
        by_cases hb : b = bk key hash t cap e
        · subst hb
          rw [List.filter_append, List.reverse_append]
          simp only [decide_true, List.filter_cons_of_pos, List.filter_nil, List.reverse_singleton, upd_same, List.singleton_append]
          refine ⟨rfl, ?_⟩
          simp only [upd_same]
          exact (h.chains _).upd_not_mem hnm
        · rw [upd_ne _ _ hb]
          have : (done ++ [e]).filter (fun e => bk key hash t cap e = b) = done.filter (fun e => bk key hash t cap e = b) := by
            rw [List.filter_append]
            simp [Ne.symm hb]
          rw [this]
          exact (h.chains b).upd_not_mem hnm
      · intro a
        show upd f.entries e (some x) a = _
        by_cases ha : a = e
        · subst ha; simp [hx]
        · rw [upd_ne _ _ ha, h.ents a]; simp [ha]
      · intro a ha
        simp at ha
        show upd f.next e _ a = _
        rw [upd_ne _ _ ha.2]; exact h.nexts a ha.1

theorem flatMap_filter_perm (bkf : Nat → Nat) (l : List Nat) (n : Nat) (hl : l.Nodup) (hb : ∀ e ∈ l, bkf e < n) :
    ((List.range n).flatMap (fun b => (l.filter (fun e => bkf e = b)).reverse)).Perm l := by
  rw [List.perm_ext_iff_of_nodup _ hl]
  · intro a
    simp only [List.mem_flatMap, List.mem_range, List.mem_reverse, List.mem_filter, decide_eq_true_eq]
    constructor
    · rintro ⟨b, _, h, _⟩; exact h
    · intro h; exact ⟨bkf a, hb a h, h, rfl⟩
  · rw [List.nodup_flatMap]
    refine ⟨fun b _ => List.nodup_reverse.2 (hl.filter _), ?_⟩
    apply (List.nodup_range (n := n)).imp
    intro a b hab
    simp only [Function.onFun, List.Disjoint, List.mem_reverse, List.mem_filter, decide_eq_true_eq]
    rintro e ⟨_, h1⟩ ⟨_, h2⟩
    exact hab (h1.symm.trans h2)

theorem roundCap_spec {n : Nat} (hn : n ≤ 2 ^ 63) : ∃ k, 4 ≤ k ∧ roundCap n = 2 ^ k ∧ n ≤ 2 ^ k := by
  have key : ∀ m, 16 ≤ m → m ≤ 2 ^ 63 → ∃ k, 4 ≤ k ∧ (if isPowerOfTwo m then m else nextPowerOfTwo64 m) = 2 ^ k ∧ m ≤ 2 ^ k := by
    intro m h1 h2
    split_ifs with hp
    · obtain ⟨k, rfl⟩ := (isPowerOfTwo_iff m).1 hp
      refine ⟨k, ?_, rfl, le_refl _⟩
      by_contra hk
      have : 2 ^ k ≤ 2 ^ 3 := Nat.pow_le_pow_right (by norm_num) (by omega)
      omega
    · refine ⟨_, ?_, nextPowerOfTwo64_eq (by omega) h2, ?_⟩
      · have : 3 ≤ Nat.log 2 (m - 1) := Nat.le_log_of_pow_le (by norm_num) (by omega)
        omega
      · have := Nat.lt_pow_succ_log_self (b := 2) (by norm_num) (m - 1)
        omega
  unfold roundCap
  by_cases h : n < 16
  · simp only [h, if_true]
    obtain ⟨k, h1, h2, h3⟩ := key 16 (le_refl _) (by norm_num)
    exact ⟨k, h1, h2, by omega⟩
  · simp only [h, if_false]
    exact key n (by omega) hn

end HTab
end RP3D
