import Verif.Containers.HashLemmas2

set_option linter.unusedSectionVars false
set_option linter.unusedVariables false

/-! Clearing and copying the hash table; the operations in terms of `Rep`. -/

namespace RP3D
namespace HTab
variable {E K : Type} [DecidableEq K] {key : E → K} {hash : K → Nat}

/-- Effect of clearing one chain. -/
theorem clearChain_spec {l : List Nat} : ∀ (t : HTab E) (fl : List Nat) (fuel : Nat) (cur : Option Nat),
    IsChain t.next cur l → IsChain t.next t.free fl → (l ++ fl).Nodup → (∀ e ∈ l, e < t.nAlloc) → l.length ≤ fuel →
    ∃ t', clearChain fuel cur t = some t' ∧ t'.nAlloc = t.nAlloc ∧ t'.hashSize = t.hashSize ∧
      t'.buckets = t.buckets ∧ IsChain t'.next t'.free (l.reverse ++ fl) ∧
      (∀ e, e ∉ l → t'.next e = t.next e) ∧ (∀ e, t'.entries e = if e ∈ l then none else t.entries e) := by
  induction l with
  | nil =>
    intro t fl fuel cur hc hf _ _ _
    have : cur = none := hc
    subst this
    refine ⟨t, ?_, rfl, rfl, rfl, by simpa using hf, fun _ _ => rfl, by simp⟩
    cases fuel <;> rfl
  | cons e l ih =>
    intro t fl fuel cur hc hf hn hlt hlen
    obtain ⟨rfl, hc⟩ := hc
    obtain ⟨fuel, rfl⟩ : ∃ f, fuel = f + 1 := ⟨fuel - 1, by simp at hlen; omega⟩
    simp only [List.cons_append, List.nodup_cons, List.mem_append, not_or] at hn
    obtain ⟨⟨hel, hef⟩, hn⟩ := hn
    set t1 : HTab E := { t with entries := upd t.entries e none, next := upd t.next e t.free, free := some e } with ht1
    have hc1 : IsChain t1.next (t.next e) l := hc.upd_not_mem hel
    have hf1 : IsChain t1.next t1.free (e :: fl) := by
      refine ⟨rfl, ?_⟩
      show IsChain (upd t.next e t.free) (upd t.next e t.free e) fl
      rw [upd_same]
      exact hf.upd_not_mem hef
    obtain ⟨t', h1, h2, h3, h4, h5, h6, h7⟩ := ih t1 (e :: fl) fuel (t.next e) hc1 hf1
      (by rw [List.nodup_middle]; simp [hel, hef, hn]) (fun a ha => hlt a (by simp [ha])) (by simpa using hlen)
    refine ⟨t', ?_, h2, h3, h4, by simpa using h5, ?_, ?_⟩
    · rw [clearChain, if_pos (hlt e (by simp))]
      exact h1
    · intro a ha
      simp only [List.mem_cons, not_or] at ha
      rw [h6 a ha.2]
      exact upd_ne _ _ ha.1
    · intro a
      rw [h7 a]
      by_cases hal : a ∈ l
      · simp [hal]
      · by_cases hae : a = e
        · subst hae; simp [hal, ht1]
        · simp only [hal, if_false, List.mem_cons, hae, or_self]
          exact upd_ne _ _ hae

/-- The body of the outer loop of `clear`. -/
def clearStep (t : HTab E) (i : Nat) : Option (HTab E) := do
  let t ← clearChain (t.nAlloc + 1) (t.buckets i) t
  return { t with buckets := upd t.buckets i none }

theorem clear_loop {t : HTab E} {ch : Nat → List Nat} {fl : List Nat} (h : Inv key hash t ch fl) :
    ∀ m ≤ t.hashSize, ∃ t' fl', (List.range m).foldlM clearStep t = some t' ∧
      t'.nAlloc = t.nAlloc ∧ t'.hashSize = t.hashSize ∧
      (∀ b < m, t'.buckets b = none) ∧ (∀ b, m ≤ b → t'.buckets b = t.buckets b) ∧
      (∀ b, m ≤ b → b < t.hashSize → IsChain t'.next (t'.buckets b) (ch b)) ∧
      IsChain t'.next t'.free fl' ∧ fl'.Perm ((List.range m).flatMap ch ++ fl) ∧
      (∀ e, t'.entries e = if e ∈ (List.range m).flatMap ch then none else t.entries e) := by
  intro m
  induction m with
  | zero =>
    intro _
    exact ⟨t, fl, rfl, rfl, rfl, by simp, fun _ _ => rfl, fun b _ hb => h.chains b hb, h.freeC, by simp, by simp⟩
  | succ m ih =>
    intro hm
    obtain ⟨t1, fl1, h1, h2, h3, h4, h5, h6, h7, h8, h9⟩ := ih (by omega)
    have hml : m < t.hashSize := by omega
    have hmem : ∀ e ∈ ch m, e ∈ t.all ch := fun e he => mem_all.2 ⟨m, hml, he⟩
    have hdisj : ∀ e ∈ ch m, e ∉ (List.range m).flatMap ch := by
      intro e he hh
      obtain ⟨b, hb, hbe⟩ := List.mem_flatMap.1 hh
      have hbm := List.mem_range.1 hb
      have := h.ch_inj (by omega) hml hbe he
      omega
    have hnod : (ch m ++ fl1).Nodup := by
      rw [List.nodup_append]
      refine ⟨h.nodup_ch hml, ?_, ?_⟩
      · rw [h8.nodup_iff]
        have hsub : ((List.range m).flatMap ch ++ fl).Sublist (t.all ch ++ fl) := by
          rw [all_split t ch hml, List.append_assoc]
          apply List.Sublist.append (List.Sublist.refl _)
          exact List.sublist_append_right _ _
        exact h.nodup.sublist hsub
      · rintro a ha b hb rfl
        rcases List.mem_append.1 (h8.mem_iff.1 hb) with hb | hb
        · exact hdisj a ha hb
        · exact h.disj (hmem a ha) hb
    obtain ⟨t2, c1, c2, c3, c4, c5, c6, c7⟩ := clearChain_spec t1 fl1 (t1.nAlloc + 1) (t1.buckets m)
      (h6 m (le_refl _) hml) h7 hnod (fun e he => by rw [h2]; exact h.lt_of_all (hmem e he))
      (by rw [h2]; have := h.ch_len hml; omega)
    refine ⟨{ t2 with buckets := upd t2.buckets m none }, (ch m).reverse ++ fl1, ?_, by rw [← h2]; exact c2, by rw [← h3]; exact c3, ?_, ?_, ?_, c5, ?_, ?_⟩
    · rw [List.range_succ, List.foldlM_append, h1]
      simp only [Option.bind_eq_bind, Option.bind_some, List.foldlM_cons, List.foldlM_nil, clearStep, c1]
      rfl
    · intro b hb
      show upd t2.buckets m none b = none
      by_cases hbm : b = m
      · subst hbm; simp
      · rw [upd_ne _ _ hbm, c4]; exact h4 b (by omega)
    · intro b hb
      show upd t2.buckets m none b = _
      rw [upd_ne _ _ (by omega), c4]; exact h5 b (by omega)
    · intro b hb hbl
      show IsChain t2.next (upd t2.buckets m none b) (ch b)
      rw [upd_ne _ _ (by omega), c4]
      apply (h6 b (by omega) hbl).congr
      intro e he
      apply c6
      intro hh
      have := h.ch_inj hbl hml he hh
      omega
    · rw [List.range_succ, List.flatMap_append]
      simp only [List.flatMap_cons, List.flatMap_nil, List.append_nil]
      have p1 : ((ch m).reverse ++ fl1).Perm (ch m ++ ((List.range m).flatMap ch ++ fl)) :=
        (List.reverse_perm _).append h8
      refine p1.trans ?_
      rw [← List.append_assoc]
      exact List.perm_append_comm.append_right fl
    · intro e
      show t2.entries e = _
      rw [c7 e, h9 e, List.range_succ, List.flatMap_append]
      by_cases h1 : e ∈ ch m
      · simp [h1]
      · simp [h1]

/-- `clear(false)` empties the container. -/
theorem clear_spec {t : HTab E} {ch : Nat → List Nat} {fl : List Nat} (h : Inv key hash t ch fl) :
    ∃ t' fl', clear t false = some t' ∧ Inv key hash t' (fun _ => []) fl' ∧ t'.hashSize = t.hashSize := by
  obtain ⟨t1, fl1, h1, h2, h3, h4, h5, h6, h7, h8, h9⟩ := clear_loop h t.hashSize (le_refl _)
  refine ⟨{ t1 with nEntries := 0 }, fl1, ?_, ⟨?_, ?_, h7, ?_, ?_, ?_, ?_⟩, h3⟩
  · unfold clear
    have : (List.range t.hashSize).foldlM (fun (t : HTab E) i => do
      let t ← clearChain (t.nAlloc + 1) (t.buckets i) t
      return { t with buckets := upd t.buckets i none }) t = some t1 := h1
    rw [this]
    simp
  · have := h.size
    rw [← h2, ← h3] at this
    exact this
  · intro b hb
    exact h4 b (by rw [← h3]; exact hb)
  · show ((List.range t1.hashSize).flatMap (fun _ => []) ++ fl1).Perm (List.range t1.nAlloc)
    rw [h2]
    have : (List.range t1.hashSize).flatMap (fun _ => ([] : List Nat)) = [] := by simp
    rw [this, List.nil_append]
    exact h8.trans h.perm
  · intro b _ e he; cases he
  · intro e _
    show t1.entries e = none
    rw [h9 e]
    split_ifs with hh
    · rfl
    · exact h.dead e hh
  · simp [all]

theorem copyChain_spec {src : HTab E} {l : List Nat} : ∀ (fuel : Nat) (cur : Option Nat) (ents : Nat → Option E),
    IsChain src.next cur l → (∀ e ∈ l, e < src.nAlloc ∧ ∃ x, src.entries e = some x) → l.length ≤ fuel →
    copyChain src fuel cur ents = some (fun e => if e ∈ l then src.entries e else ents e) := by
  induction l with
  | nil =>
    intro fuel cur ents hc _ _
    have : cur = none := hc
    subst this
    cases fuel <;> simp [copyChain]
  | cons i l ih =>
    intro fuel cur ents hc hl hlen
    obtain ⟨rfl, hc⟩ := hc
    obtain ⟨fuel, rfl⟩ : ∃ f, fuel = f + 1 := ⟨fuel - 1, by simp at hlen; omega⟩
    obtain ⟨hi, x, hx⟩ := hl i (by simp)
    rw [copyChain, if_pos hi]
    simp only [hx]
    rw [ih fuel _ _ hc (fun e he => hl e (by simp [he])) (by simpa using hlen)]
    congr 1
    funext e
    by_cases h1 : e ∈ l
    · simp [h1]
    · by_cases h2 : e = i
      · subst h2; simp [h1, hx]
      · simp [h1, h2, upd_ne]

/-- The copy has the same content (in fact the same state). -/
theorem copy_spec {t : HTab E} {ch : Nat → List Nat} {fl : List Nat} (h : Inv key hash t ch fl) :
    copy t = some t := by
  have key' : ∀ (bs : List Nat) (ents : Nat → Option E), (∀ b ∈ bs, b < t.hashSize) →
      bs.foldlM (fun ents i => copyChain t (t.nAlloc + 1) (t.buckets i) ents) ents =
        some (fun e => if e ∈ bs.flatMap ch then t.entries e else ents e) := by
    intro bs
    induction bs with
    | nil => intro ents _; simp
    | cons b bs ih =>
      intro ents hbs
      have hb := hbs b (by simp)
      rw [List.foldlM_cons, copyChain_spec _ _ _ (h.chains b hb) ?_ (by have := h.ch_len hb; omega)]
      · simp only [Option.bind_eq_bind, Option.bind_some]
        rw [ih _ (fun c hc => hbs c (by simp [hc]))]
        congr 1
        funext e
        by_cases h1 : e ∈ bs.flatMap ch
        · simp only [h1, if_true, List.flatMap_cons, List.mem_append, or_true]
        · by_cases h2 : e ∈ ch b
          · simp [h2]
          · simp only [h1, h2, if_false, List.flatMap_cons, List.mem_append, or_self]
      · intro e he
        obtain ⟨x, hx, _⟩ := h.live _ hb e he
        exact ⟨h.lt_of_all (mem_all.2 ⟨_, hb, he⟩), x, hx⟩
  unfold copy
  rw [key' _ _ (fun b hb => List.mem_range.1 hb)]
  simp only [Option.bind_eq_bind, Option.bind_some]
  have : (fun e => if e ∈ (List.range t.hashSize).flatMap ch then t.entries e else none) = t.entries := by
    funext e
    split_ifs with hh
    · rfl
    · exact (h.dead e hh).symm
  rw [this]; rfl

/-! ### In terms of `Rep` -/

theorem rep_empty : Rep key hash (empty : HTab E) [] := by
  refine ⟨fun _ => [], [], ⟨Or.inl ⟨rfl, rfl⟩, ?_, rfl, ?_, ?_, fun _ _ => rfl, rfl⟩, ?_, by simp⟩
  · intro b hb; exact absurd hb (Nat.not_lt_zero _)
  · simp [all, empty]
  · intro b hb; exact absurd hb (Nat.not_lt_zero _)
  · simp [all, empty]

theorem rep_toList {t : HTab E} {l : List E} (h : Rep key hash t l) : ∃ l', t.toList = some l' ∧ l'.Perm l := by
  obtain ⟨ch, fl, h, hp, _⟩ := h
  exact ⟨_, toList_spec h, hp⟩

theorem filterMap_length_eq {ents : Nat → Option E} {l : List Nat} (h : ∀ e ∈ l, ∃ x, ents e = some x) :
    (l.filterMap ents).length = l.length := by
  induction l with
  | nil => rfl
  | cons a l ih =>
    obtain ⟨x, hx⟩ := h a (by simp)
    rw [List.filterMap_cons, hx]
    simp [ih (fun e he => h e (by simp [he]))]

theorem rep_size {t : HTab E} {l : List E} (h : Rep key hash t l) : t.nEntries = l.length := by
  obtain ⟨ch, fl, h, hp, _⟩ := h
  rw [h.count, ← hp.length_eq, filterMap_length_eq h.live_all]

theorem rep_find {t : HTab E} {l : List E} (h : Rep key hash t l) (k : K) :
    ((∀ x ∈ l, key x ≠ k) ∧ lookup key hash t k = some none) ∨
    (∃ x ∈ l, key x = k ∧ ∃ p i, lookup key hash t k = some (some (p, i)) ∧ t.entries i = some x) := by
  obtain ⟨ch, fl, h, hp, _⟩ := h
  rcases lookup_spec h k with ⟨h1, h2⟩ | ⟨h0, pre, i, suf, x, h1, h2, h3, h4⟩
  · exact Or.inl ⟨(contents_key h hp k).1 h1, h2⟩
  · right
    have hi : i ∈ t.all ch := by
      by_contra hn
      rw [h.dead i hn] at h2; cases h2
    exact ⟨x, hp.mem_iff.1 (List.mem_filterMap.2 ⟨i, hi, h2⟩), h3, _, _, h4, h2⟩

theorem rep_contains {t : HTab E} {l : List E} (h : Rep key hash t l) (k : K) :
    contains key hash t k = some (decide (k ∈ l.map key)) := by
  rcases rep_find h k with ⟨h1, h2⟩ | ⟨x, hx, hk, p, i, h2, h3⟩
  · have : k ∉ l.map key := by
      intro hh
      obtain ⟨x, hx, hxk⟩ := List.mem_map.1 hh
      exact h1 x hx hxk
    simp only [contains, findEntry, h2, this]; rfl
  · have : k ∈ l.map key := List.mem_map.2 ⟨x, hx, hk⟩
    simp only [contains, findEntry, h2, this]; rfl

theorem rep_get {t : HTab E} {l : List E} (h : Rep key hash t l) (k : K) (hk : k ∈ l.map key) :
    ∃ x ∈ l, key x = k ∧ get key hash t k = some x := by
  rcases rep_find h k with ⟨h1, h2⟩ | ⟨x, hx, hxk, p, i, h2, h3⟩
  · obtain ⟨x, hx, hxk⟩ := List.mem_map.1 hk
    exact absurd hxk (h1 x hx)
  · refine ⟨x, hx, hxk, ?_⟩
    simp [get, findEntry, h2, h3]

theorem rep_insertNew {t : HTab E} {l : List E} (h : Rep key hash t l) (x : E) (hx : key x ∉ l.map key) :
    ∃ t', insertNew key hash t x = some t' ∧ Rep key hash t' (x :: l) := by
  obtain ⟨ch, fl, h, hp, hn⟩ := h
  obtain ⟨t', ch', fl', h1, h2, h3⟩ := insertNew_spec h x
  exact ⟨t', h1, ch', fl', h2, h3.trans (hp.cons x), by simpa using ⟨by simpa using hx, hn⟩⟩

theorem nodup_filter_cons {l : List E} (hn : (l.map key).Nodup) (x : E) :
    ((x :: l.filter (fun y => key y ≠ key x)).map key).Nodup := by
  simp only [List.map_cons, List.nodup_cons, List.mem_map, List.mem_filter, decide_eq_true_eq, not_exists, not_and]
  exact ⟨fun y hy => hy.2, hn.sublist (List.filter_sublist.map key)⟩

theorem rep_replace {t : HTab E} {l : List E} (h : Rep key hash t l) {x y : E} {p : Option Nat} {i : Nat}
    (hl : lookup key hash t (key y) = some (some (p, i))) (hx : t.entries i = some x) (hk : key x = key y) :
    Rep key hash { t with entries := upd t.entries i (some y) } (y :: l.filter (fun z => key z ≠ key y)) := by
  obtain ⟨ch, fl, h, hp, hn⟩ := h
  refine ⟨ch, fl, h.replace hx hk.symm, ?_, nodup_filter_cons hn y⟩
  have hi : i ∈ t.all ch := by
    by_contra hh
    rw [h.dead i hh] at hx; cases hx
  obtain ⟨s1, s2, hs⟩ := List.append_of_mem hi
  have hnd := h.nodup_all
  rw [hs, List.nodup_middle] at hnd
  have hni := (List.nodup_cons.1 hnd).1
  have hs1 : i ∉ s1 := fun hh => hni (by simp [hh])
  have hs2 : i ∉ s2 := fun hh => hni (by simp [hh])
  show ((t.all ch).filterMap (upd t.entries i (some y))).Perm _
  rw [hs, List.filterMap_append, List.filterMap_cons]
  simp only [upd_same]
  rw [filterMap_upd_some hs1, filterMap_upd_some hs2]
  refine List.perm_middle.trans (List.Perm.cons y ?_)
  rw [hs, List.filterMap_append, List.filterMap_cons, hx] at hp
  have hp' := List.perm_middle.symm.trans hp
  have hfil := hp'.filter (fun z => decide (key z ≠ key y))
  rw [List.filter_cons_of_neg (by simp [hk])] at hfil
  refine List.Perm.trans ?_ hfil
  rw [List.filter_eq_self.2]
  intro z hz
  have hnk := (hp'.map key).nodup_iff.2 hn
  simp only [List.map_cons, List.nodup_cons] at hnk
  have : key z ≠ key x := by
    intro hh
    exact hnk.1 (hh ▸ List.mem_map_of_mem hz)
  rw [hk] at this
  simpa using this

/-- Removing a present key: order of iteration and returned iterator. -/
theorem rep_remove_found {t : HTab E} {l : List E} (h : Rep key hash t l) (k : K) (hk : k ∈ l.map key) :
    ∃ t' it' x L1 L2, remove key hash t k = some (t', it') ∧ key x = k ∧
      t.toList = some (L1 ++ x :: L2) ∧ t'.toList = some (L1 ++ L2) ∧ t'.collect t'.nAlloc it' = some L2 ∧
      Rep key hash t' (l.filter (fun z => key z ≠ k)) := by
  have hrep := h
  obtain ⟨ch, fl, h, hp, hn⟩ := h
  rcases lookup_spec h k with ⟨h1, h2⟩ | ⟨h0, pre, i, suf, x, h1, h2, h3, h4⟩
  · obtain ⟨x, hx, hxk⟩ := List.mem_map.1 hk
    exact absurd hxk ((contents_key h hp k).1 h1 x hx)
  · obtain ⟨t', it', ch', L1, L2, r1, r2, r3, r4, r5, r6⟩ := remove_found h h0 h1 h2 h3 h4
    have hnd := h.nodup_all
    rw [r3, List.nodup_middle] at hnd
    have hni := (List.nodup_cons.1 hnd).1
    have e1 : L1.filterMap t'.entries = L1.filterMap t.entries :=
      List.filterMap_congr (fun e he => r6 e (by rintro rfl; exact hni (by simp [he])))
    have e2 : L2.filterMap t'.entries = L2.filterMap t.entries :=
      List.filterMap_congr (fun e he => r6 e (by rintro rfl; exact hni (by simp [he])))
    have hold : t.toList = some (L1.filterMap t.entries ++ x :: L2.filterMap t.entries) := by
      rw [toList_spec h, r3, List.filterMap_append, List.filterMap_cons, h2]
    have hnew : t'.toList = some (L1.filterMap t.entries ++ L2.filterMap t.entries) := by
      rw [toList_spec r2, r4, List.filterMap_append, e1, e2]
    refine ⟨t', it', x, L1.filterMap t.entries, L2.filterMap t.entries, r1, h3, hold, hnew, ?_, ch', i :: fl, r2, ?_, hn.sublist (List.filter_sublist.map key)⟩
    · rw [collect_spec r2 L2 _ it' (fun e he => r2.live_all e (by rw [r4]; simp [he])) r5 ?_, e2]
      have := r2.all_len
      rw [r4] at this
      simp at this; omega
    · rw [r4, List.filterMap_append, e1, e2]
      rw [r3, List.filterMap_append, List.filterMap_cons, h2] at hp
      have hp' := List.perm_middle.symm.trans hp
      have hfil := hp'.filter (fun z => decide (key z ≠ k))
      rw [List.filter_cons_of_neg (by simp [h3])] at hfil
      refine List.Perm.trans ?_ hfil
      rw [List.filter_eq_self.2]
      intro z hz
      have hnk := (hp'.map key).nodup_iff.2 hn
      simp only [List.map_cons, List.nodup_cons] at hnk
      have : key z ≠ key x := by
        intro hh
        exact hnk.1 (hh ▸ List.mem_map_of_mem hz)
      rw [h3] at this
      simpa using this

theorem rep_remove_absent {t : HTab E} {l : List E} (h : Rep key hash t l) (k : K) (hk : k ∉ l.map key) :
    remove key hash t k = some (t, t.endIter) := by
  rcases rep_find h k with ⟨h1, h2⟩ | ⟨x, hx, hxk, _⟩
  · simp [remove, h2]
  · exact absurd (List.mem_map.2 ⟨x, hx, hxk⟩) hk

theorem rep_clear {t : HTab E} {l : List E} (h : Rep key hash t l) :
    ∃ t', clear t false = some t' ∧ Rep key hash t' [] := by
  obtain ⟨ch, fl, h, _, _⟩ := h
  obtain ⟨t', fl', h1, h2, _⟩ := clear_spec h
  exact ⟨t', h1, _, _, h2, by simp [all], by simp⟩

end HTab
end RP3D
