import Verif.Containers.HashLemmas3

/-! Property theorems C03, C04 and C05: `Map` and `Set`. -/

namespace RP3D

/-! ### Specification: finite maps and finite sets -/

/-- Operations of `Map`. -/
inductive MapOp (K V : Type)
  | reserve (n : Nat)
  | add (k : K) (v : V) (insertIfAlreadyPresent : Bool)
  | remove (k : K)
  | clear
  | copy
  | contains (k : K)
  | get (k : K)
  | size
  | items

/-- Results of the operations. -/
inductive MapOut (K V : Type)
  | unit
  | bool (b : Bool)
  | val (v : V)
  | nat (n : Nat)
  | items (l : List (K × V))

namespace MapSpec
variable {K V : Type} [DecidableEq K]

/-- `l` lists the finite map `f` without repetition. -/
def Lists (f : K → Option V) (l : List (K × V)) : Prop :=
  (l.map Prod.fst).Nodup ∧ ∀ k v, (k, v) ∈ l ↔ f k = some v

/-- The next state of the finite map. -/
def next (f : K → Option V) : MapOp K V → (K → Option V)
  | .add k v _ => fun j => if j = k then some v else f j
  | .remove k => fun j => if j = k then none else f j
  | .clear => fun _ => none
  | _ => f

/-- What the documentation and the asserts require from the caller. -/
def Pre (f : K → Option V) : MapOp K V → Prop
  | .add k _ flag => flag = true ∨ f k = none
  | .get k => f k ≠ none
  | .reserve n => n ≤ 2 ^ 63
  | _ => True

/-- The results allowed by the specification. -/
def Result (f : K → Option V) : MapOp K V → MapOut K V → Prop
  | .add _ _ _, o => o = .bool true
  | .contains k, o => o = .bool (f k).isSome
  | .get k, o => ∃ v, f k = some v ∧ o = .val v
  | .size, o => ∃ l, Lists f l ∧ o = .nat l.length
  | .items, o => ∃ l, Lists f l ∧ o = .items l
  | _, o => o = .unit

/-- The caller respects the preconditions along the history. -/
def Allowed : (K → Option V) → List (MapOp K V) → Prop
  | _, [] => True
  | f, op :: ops => Pre f op ∧ Allowed (next f op) ops

/-- The sequence of results is one of a finite map. -/
def Accepts : (K → Option V) → List (MapOp K V) → List (MapOut K V) → Prop
  | _, [], outs => outs = []
  | f, op :: ops, outs => ∃ o os, outs = o :: os ∧ Result f op o ∧ Accepts (next f op) ops os

end MapSpec

namespace HMap
variable {K V : Type} [DecidableEq K] (hash : K → Nat)

/-- One operation of the modelled `Map`. -/
def step (t : HTab (K × V)) : MapOp K V → Option (HTab (K × V) × MapOut K V)
  | .reserve n => do return (← t.reserve Prod.fst hash n, .unit)
  | .add k v flag => do
    let (t, b) ← t.mapAdd Prod.fst hash (k, v) flag
    return (t, .bool b)
  | .remove k => do
    let (t, _) ← t.remove Prod.fst hash k
    return (t, .unit)
  | .clear => do return (← t.clear false, .unit)
  | .copy => do return (← t.copy, .unit)
  | .contains k => do return (t, .bool (← t.contains Prod.fst hash k))
  | .get k => do return (t, .val (← t.get Prod.fst hash k).2)
  | .size => some (t, .nat t.nEntries)
  | .items => do return (t, .items (← t.toList))

/-- A history of operations. -/
def run (t : HTab (K × V)) : List (MapOp K V) → Option (HTab (K × V) × List (MapOut K V))
  | [] => some (t, [])
  | op :: ops => do
    let (t, o) ← step hash t op
    let (t, os) ← run t ops
    return (t, o :: os)

/-- The table stores the finite map `f`. -/
def Rep (t : HTab (K × V)) (f : K → Option V) : Prop :=
  ∃ l, HTab.Rep Prod.fst hash t l ∧ MapSpec.Lists f l

variable {hash}

theorem lists_of_perm {f : K → Option V} {l l' : List (K × V)} (h : MapSpec.Lists f l) (hp : l'.Perm l) :
    MapSpec.Lists f l' :=
  ⟨(hp.map _).nodup_iff.2 h.1, fun k v => hp.mem_iff.trans (h.2 k v)⟩

theorem mem_keys {f : K → Option V} {l : List (K × V)} (h : MapSpec.Lists f l) (k : K) :
    k ∈ l.map Prod.fst ↔ f k ≠ none := by
  constructor
  · intro hk
    obtain ⟨⟨a, v⟩, hx, rfl⟩ := List.mem_map.1 hk
    rw [(h.2 a v).1 hx]; simp
  · intro hk
    obtain ⟨v, hv⟩ := Option.ne_none_iff_exists'.1 hk
    exact List.mem_map.2 ⟨(k, v), (h.2 k v).2 hv, rfl⟩

theorem step_correct {t : HTab (K × V)} {f : K → Option V} (h : Rep hash t f) (op : MapOp K V)
    (hpre : MapSpec.Pre f op) :
    ∃ t' o, step hash t op = some (t', o) ∧ Rep hash t' (MapSpec.next f op) ∧ MapSpec.Result f op o := by
  obtain ⟨l, hr, hl⟩ := h
  cases op with
  | reserve n =>
    obtain ⟨t', h1, h2, _⟩ := HTab.reserve_rep hr hpre
    exact ⟨t', .unit, by simp [step, h1], ⟨l, h2, hl⟩, rfl⟩
  | add k v flag =>
    have hnext : MapSpec.Lists (MapSpec.next f (.add k v flag)) ((k, v) :: l.filter (fun z => z.1 ≠ k)) := by
      refine ⟨HTab.nodup_filter_cons hl.1 (k, v), fun j w => ?_⟩
      simp only [MapSpec.next, List.mem_cons, Prod.mk.injEq, List.mem_filter, decide_eq_true_eq, hl.2 j w]
      by_cases hj : j = k
      · simp [hj, eq_comm]
      · simp [hj]
    rcases HTab.rep_find hr k with ⟨h1, h2⟩ | ⟨x, hx, hk, p, i, h2, h3⟩
    · obtain ⟨t', h4, h5⟩ := HTab.rep_insertNew hr (k, v) (by
        intro hh
        obtain ⟨y, hy, hyk⟩ := List.mem_map.1 hh
        exact h1 y hy hyk)
      refine ⟨t', .bool true, ?_, ⟨_, h5, ?_⟩, rfl⟩
      · simp [step, HTab.mapAdd, h2, h4]
      · have : l.filter (fun z => z.1 ≠ k) = l := by
          rw [List.filter_eq_self]; intro y hy; simpa using h1 y hy
        rwa [this] at hnext
    · have hflag : flag = true := by
        rcases hpre with h | h
        · exact h
        · have := (mem_keys hl k).1 (List.mem_map.2 ⟨x, hx, hk⟩)
          exact absurd h this
      subst hflag
      refine ⟨_, .bool true, ?_, ⟨_, HTab.rep_replace (y := (k, v)) hr h2 h3 hk, hnext⟩, rfl⟩
      simp [step, HTab.mapAdd, h2]
  | remove k =>
    by_cases hk : k ∈ l.map Prod.fst
    · obtain ⟨t', it', x, L1, L2, h1, _, _, _, _, h5⟩ := HTab.rep_remove_found hr k hk
      refine ⟨t', .unit, by simp [step, h1], ⟨_, h5, ?_⟩, rfl⟩
      refine ⟨hl.1.sublist (List.filter_sublist.map _), fun j w => ?_⟩
      simp only [MapSpec.next, List.mem_filter, decide_eq_true_eq, hl.2 j w]
      by_cases hj : j = k
      · simp [hj]
      · simp [hj]
    · refine ⟨t, .unit, by simp [step, HTab.rep_remove_absent hr k hk], ⟨l, hr, ?_⟩, rfl⟩
      have hf : f k = none := by
        by_contra hh
        exact hk ((mem_keys hl k).2 hh)
      refine ⟨hl.1, fun j w => ?_⟩
      rw [hl.2 j w]
      simp only [MapSpec.next]
      by_cases hj : j = k
      · simp [hj, hf]
      · simp [hj]
  | clear =>
    obtain ⟨t', h1, h2⟩ := HTab.rep_clear hr
    exact ⟨t', .unit, by simp [step, h1], ⟨[], h2, by simp [MapSpec.Lists, MapSpec.next]⟩, rfl⟩
  | copy =>
    obtain ⟨ch, fl, hi, _, _⟩ := id hr
    exact ⟨t, .unit, by simp [step, HTab.copy_spec hi], ⟨l, hr, hl⟩, rfl⟩
  | contains k =>
    refine ⟨t, .bool (decide (k ∈ l.map Prod.fst)), by simp [step, HTab.rep_contains hr k], ⟨l, hr, hl⟩, ?_⟩
    simp only [MapSpec.Result]
    congr 1
    rw [Bool.eq_iff_iff, decide_eq_true_iff, mem_keys hl k, ne_eq, ← Option.not_isSome_iff_eq_none, not_not]
  | get k =>
    obtain ⟨x, hx, hk, h1⟩ := HTab.rep_get hr k ((mem_keys hl k).2 hpre)
    refine ⟨t, .val x.2, by simp [step, h1], ⟨l, hr, hl⟩, x.2, ?_, rfl⟩
    rw [← hl.2 k x.2, ← hk]; exact hx
  | size =>
    exact ⟨t, .nat t.nEntries, rfl, ⟨l, hr, hl⟩, l, hl, by rw [HTab.rep_size hr]⟩
  | items =>
    obtain ⟨l', h1, h2⟩ := HTab.rep_toList hr
    exact ⟨t, .items l', by simp [step, h1], ⟨l, hr, hl⟩, l', lists_of_perm hl h2, rfl⟩

theorem run_correct (ops : List (MapOp K V)) : ∀ {t : HTab (K × V)} {f : K → Option V}, Rep hash t f →
    MapSpec.Allowed f ops → ∃ t' outs, run hash t ops = some (t', outs) ∧ MapSpec.Accepts f ops outs ∧
      Rep hash t' (ops.foldl MapSpec.next f) := by
  induction ops with
  | nil => intro t f h _; exact ⟨t, [], rfl, rfl, h⟩
  | cons op ops ih =>
    intro t f h hall
    obtain ⟨t1, o, h1, h2, h3⟩ := step_correct h op hall.1
    obtain ⟨t2, os, h4, h5, h6⟩ := ih h2 hall.2
    exact ⟨t2, o :: os, by simp [run, h1, h4], ⟨o, os, rfl, h3, h5⟩, h6⟩

theorem rep_empty : Rep hash (HTab.empty : HTab (K × V)) (fun _ => none) :=
  ⟨[], HTab.rep_empty, by simp [MapSpec.Lists]⟩

end HMap

section
variable {K V : Type} [DecidableEq K]

/-- **C03.** For every hash function, every history of operations on an initially empty map runs without
undefined behaviour and returns the results of a finite map. -/
theorem map_refines_finite_map (hash : K → Nat) (ops : List (MapOp K V))
    (hops : MapSpec.Allowed (fun _ => none) ops) :
    ∃ t outs, HMap.run hash HTab.empty ops = some (t, outs) ∧ MapSpec.Accepts (fun _ => none) ops outs := by
  obtain ⟨t, outs, h1, h2, _⟩ := HMap.run_correct ops HMap.rep_empty hops
  exact ⟨t, outs, h1, h2⟩

/-- The hypotheses of `map_refines_finite_map` are met by a history with colliding keys, replacement,
growth and removal. -/
example : MapSpec.Allowed (fun _ => none)
    [.add 1 10 false, .add 17 20 false, .add 1 30 true, .reserve 100, .get 17, .remove 1, .clear,
      (.items : MapOp Nat Nat)] := by
  simp [MapSpec.Allowed, MapSpec.Pre, MapSpec.next]

/-- The modelled code really computes: two keys in the same bucket, a replacement and a removal. -/
example : (HMap.run (fun k : Nat => k) HTab.empty
    [.add 1 10 false, .add 17 20 false, .add 1 30 true, .remove 17, .contains 17, .get 1, .size]).map Prod.snd =
    some [.bool true, .bool true, .bool true, .unit, .bool false, MapOut.val 30, .nat 1] := by rfl

/-- **C03.** `remove` on a present key removes exactly that element, keeps the iteration order of the
others and returns an iterator in front of the elements that come after it. -/
theorem map_remove_while_iterating (hash : K → Nat) (ops : List (MapOp K V))
    (hops : MapSpec.Allowed (fun _ => none) ops) (t : HTab (K × V)) (outs : List (MapOut K V))
    (hrun : HMap.run hash HTab.empty ops = some (t, outs)) (before after : List (K × V)) (x : K × V)
    (hx : t.toList = some (before ++ x :: after)) :
    ∃ t' it, t.remove Prod.fst hash x.1 = some (t', it) ∧ t'.toList = some (before ++ after) ∧
      t'.collect t'.nAlloc it = some after := by
  obtain ⟨t1, outs1, h1, _, l, hr, hl⟩ := HMap.run_correct ops (HMap.rep_empty (hash := hash)) hops
  rw [hrun] at h1
  cases h1
  obtain ⟨l', h2, hp⟩ := HTab.rep_toList hr
  rw [hx] at h2
  cases h2
  have hnd : ((before ++ x :: after).map Prod.fst).Nodup := (HMap.lists_of_perm hl hp).1
  obtain ⟨t', it', y, L1, L2, h1, hy, h3, h4, h5, _⟩ := HTab.rep_remove_found hr x.1
    (List.mem_map_of_mem (hp.mem_iff.1 (by simp)))
  rw [hx] at h3
  have heq : before ++ x :: after = L1 ++ y :: L2 := Option.some.inj h3
  have hsplit : before = L1 ∧ after = L2 := by
    have key : ∀ (A B C D : List (K × V)), ((A ++ x :: B).map Prod.fst).Nodup → A ++ x :: B = C ++ y :: D →
        y.1 = x.1 → A = C ∧ B = D := by
      intro A
      induction A with
      | nil =>
        intro B C D hn he hk
        cases C with
        | nil => simp at he; exact ⟨rfl, he.2⟩
        | cons c C =>
          exfalso
          simp at he
          obtain ⟨rfl, rfl⟩ := he
          simp at hn
          exact hn.1.2.1 hk.symm
      | cons a A ih =>
        intro B C D hn he hk
        cases C with
        | nil =>
          exfalso
          simp at he
          obtain ⟨rfl, rfl⟩ := he
          simp at hn
          exact hn.1.2.1 hk
        | cons c C =>
          simp at he
          obtain ⟨rfl, he⟩ := he
          simp only [List.cons_append, List.map_cons, List.nodup_cons] at hn
          obtain ⟨h1, h2⟩ := ih B C D hn.2 he hk
          exact ⟨by rw [h1], h2⟩
    exact key before after L1 L2 hnd heq hy
  obtain ⟨rfl, rfl⟩ := hsplit
  exact ⟨t', it', h1, h4, h5⟩

/-- Iteration order of three colliding keys and one other key; removing the second one. -/
example : (do
    let (t, _) ← HMap.run (fun k : Nat => k) HTab.empty
      [.add 1 10 false, .add 17 20 false, .add 33 30 false, (.add 2 40 false : MapOp Nat Nat)]
    let l ← t.toList
    let (t', it) ← t.remove Prod.fst (fun k => k) 17
    return (l, ← t'.toList, ← t'.collect t'.nAlloc it)) =
    some ([(33, 30), (17, 20), (1, 10), (2, 40)], [(33, 30), (1, 10), (2, 40)], [(1, 10), (2, 40)]) := by rfl

theorem mapCheck_spec {hash : K → Nat} [DecidableEq V] {t : HTab (K × V)} {f : K → Option V}
    (h : HMap.Rep hash t f) (l : List (K × V)) :
    HTab.mapCheck hash t l = some (decide (∀ x ∈ l, f x.1 = some x.2)) := by
  obtain ⟨l0, hr, hl⟩ := h
  induction l with
  | nil => simp [HTab.mapCheck]
  | cons x l ih =>
    rcases HTab.rep_find hr x.1 with ⟨h1, h2⟩ | ⟨y, hy, hk, p, i, h2, h3⟩
    · have hf : f x.1 = none := by
        by_contra hh
        obtain ⟨z, hz, hzk⟩ := List.mem_map.1 ((HMap.mem_keys hl x.1).2 hh)
        exact h1 z hz hzk
      simp [HTab.mapCheck, HTab.findEntry, h2, hf]
    · have hf : f x.1 = some y.2 := by
        rw [← hl.2 x.1 y.2, ← hk]; exact hy
      simp only [HTab.mapCheck, HTab.findEntry, h2, Option.bind_eq_bind, Option.bind_some]
      by_cases hv : y.2 = x.2
      · simp [h3, hv, ih, hf]
      · simp [h3, hv, hf]

/-- **C03.** `operator==` on two reachable maps decides whether they are the same finite map. -/
theorem map_equality_correct [DecidableEq V] (hash : K → Nat) (ops1 ops2 : List (MapOp K V))
    (h1 : MapSpec.Allowed (fun _ => none) ops1) (h2 : MapSpec.Allowed (fun _ => none) ops2)
    (t1 t2 : HTab (K × V)) (o1 o2 : List (MapOut K V)) (hr1 : HMap.run hash HTab.empty ops1 = some (t1, o1))
    (hr2 : HMap.run hash HTab.empty ops2 = some (t2, o2)) :
    HTab.mapEq hash t1 t2 = some true ↔
      ops1.foldl MapSpec.next (fun _ => none) = ops2.foldl MapSpec.next (fun _ => none) := by
  obtain ⟨a1, b1, c1, _, d1⟩ := HMap.run_correct ops1 (HMap.rep_empty (hash := hash)) h1
  obtain ⟨a2, b2, c2, _, d2⟩ := HMap.run_correct ops2 (HMap.rep_empty (hash := hash)) h2
  rw [hr1] at c1; cases c1
  rw [hr2] at c2; cases c2
  generalize ops1.foldl MapSpec.next (fun _ => none) = f1 at d1 ⊢
  generalize ops2.foldl MapSpec.next (fun _ => none) = f2 at d2 ⊢
  have k1 := mapCheck_spec d1
  have k2 := mapCheck_spec d2
  obtain ⟨l1, r1, s1⟩ := d1
  obtain ⟨l2, r2, s2⟩ := d2
  obtain ⟨m1, t1l, p1⟩ := HTab.rep_toList r1
  obtain ⟨m2, t2l, p2⟩ := HTab.rep_toList r2
  have q1 := HMap.lists_of_perm s1 p1
  have q2 := HMap.lists_of_perm s2 p2
  unfold HTab.mapEq
  rw [HTab.rep_size r1, HTab.rep_size r2]
  constructor
  · intro h
    split_ifs at h with hsz
    · cases h
    rw [t1l, t2l] at h
    simp only [Option.bind_eq_bind, Option.bind_some, k1, k2] at h
    split_ifs at h with hc
    swap
    · cases h
    simp only [decide_eq_true_eq, Option.some.injEq] at h hc
    funext k
    cases hk : f1 k with
    | some v => exact (hc (k, v) ((q1.2 k v).2 hk)).symm
    | none =>
      cases hk2 : f2 k with
      | none => rfl
      | some v => have := h (k, v) ((q2.2 k v).2 hk2); rw [hk] at this; cases this
  · rintro rfl
    have hlen : l1.length = l2.length := by
      apply List.Perm.length_eq
      rw [List.perm_ext_iff_of_nodup (List.Nodup.of_map _ s1.1) (List.Nodup.of_map _ s2.1)]
      rintro ⟨k, v⟩
      rw [s1.2, s2.2]
    rw [if_neg (by simpa using hlen), t1l, t2l]
    simp only [Option.bind_eq_bind, Option.bind_some, k1, k2]
    rw [if_pos]
    · simp only [Option.some.injEq, decide_eq_true_eq]
      rintro ⟨k, v⟩ hx; exact (q2.2 k v).1 hx
    · simp only [decide_eq_true_eq]
      rintro ⟨k, v⟩ hx; exact (q1.2 k v).1 hx

/-- **C04 (violated).** After `clear(true)` on a map that had allocated memory, every `add` is undefined
behaviour (it writes through the released arrays). -/
theorem map_add_after_release_unsafe (hash : K → Nat) (ops : List (MapOp K V))
    (hops : MapSpec.Allowed (fun _ => none) ops) (t : HTab (K × V)) (outs : List (MapOut K V))
    (hrun : HMap.run hash HTab.empty ops = some (t, outs)) (hal : 0 < t.nAlloc) :
    ∃ t', t.clear true = some t' ∧ t'.toList = some [] ∧ ∀ x flag, t'.mapAdd Prod.fst hash x flag = none := by
  obtain ⟨t1, outs1, h1, _, l, ⟨ch, fl, hi, _, _⟩, _⟩ := HMap.run_correct ops (HMap.rep_empty (hash := hash)) hops
  rw [hrun] at h1
  cases h1
  obtain ⟨t1, fl1, h1, h2, h3, h4, h5, h6, h7, h8, h9⟩ := HTab.clear_loop hi t.hashSize (le_refl _)
  have hfree : ∃ e, t1.free = some e := by
    cases hf : t1.free with
    | some e => exact ⟨e, rfl⟩
    | none =>
      exfalso
      have : fl1 = [] := by
        cases fl1 with
        | nil => rfl
        | cons a l => rw [hf] at h7; cases h7.1
      have hp := h8.trans hi.perm
      rw [this] at hp
      have := hp.length_eq
      simp at this; omega
  obtain ⟨e, he⟩ := hfree
  refine ⟨⟨0, 0, 0, fun _ => none, fun _ => none, fun _ => none, t1.free⟩, ?_, ?_, ?_⟩
  · unfold HTab.clear
    have : (List.range t.hashSize).foldlM (fun (t : HTab (K × V)) i => do
      let t ← HTab.clearChain (t.nAlloc + 1) (t.buckets i) t
      return { t with buckets := upd t.buckets i none }) t = some t1 := h1
    rw [this]
    simp [h2, hal]
  · simp [HTab.toList, HTab.beginIter, HTab.endIter, HTab.collect]
  · intro x flag
    simp [HTab.mapAdd, HTab.lookup, HTab.insertNew, HTab.grow, he]

/-- The hypotheses are met: one insertion allocates, and the following history is undefined. -/
example : (do
    let (t, _) ← HMap.run (fun k : Nat => k) HTab.empty [(.add 1 10 false : MapOp Nat Nat)]
    let t' ← t.clear true
    t'.mapAdd Prod.fst (fun k => k) (1, 10) false).isSome = false := by rfl

/-- **C04 (partial).** A map cleared without releasing its memory is an empty map usable for every further
history.  Missing: the same after `clear(true)`, which is false, see `map_add_after_release_unsafe`. -/
theorem map_reusable_after_clear_partial (hash : K → Nat) (ops ops' : List (MapOp K V))
    (hops : MapSpec.Allowed (fun _ => none) ops) (hops' : MapSpec.Allowed (fun _ => none) ops')
    (t : HTab (K × V)) (outs : List (MapOut K V)) (hrun : HMap.run hash HTab.empty ops = some (t, outs)) :
    ∃ t' t'' outs', t.clear false = some t' ∧ HMap.run hash t' ops' = some (t'', outs') ∧
      MapSpec.Accepts (fun _ => none) ops' outs' := by
  obtain ⟨t1, outs1, h1, _, l, hr, _⟩ := HMap.run_correct ops (HMap.rep_empty (hash := hash)) hops
  rw [hrun] at h1
  cases h1
  obtain ⟨t', h2, h3⟩ := HTab.rep_clear hr
  obtain ⟨t'', outs', h4, h5, _⟩ := HMap.run_correct (hash := hash) (t := t') (f := fun _ => none) ops'
    ⟨[], h3, by simp [MapSpec.Lists]⟩ hops'
  exact ⟨t', t'', outs', h2, h4, h5⟩

end

/-! ### Set -/

/-- Operations of `Set`. -/
inductive SetOp (K : Type)
  | reserve (n : Nat)
  | add (k : K)
  | remove (k : K)
  | clear
  | copy
  | contains (k : K)
  | size
  | toArray

/-- Results of the operations. -/
inductive SetOut (K : Type)
  | unit
  | bool (b : Bool)
  | nat (n : Nat)
  | items (l : List K)

namespace SetSpec
variable {K : Type} [DecidableEq K]

/-- The set as a membership test. -/
def next (f : K → Bool) : SetOp K → (K → Bool)
  | .add k => fun j => j = k || f j
  | .remove k => fun j => j ≠ k && f j
  | .clear => fun _ => false
  | _ => f

/-- `l` lists the elements of the set without repetition. -/
def Lists (f : K → Bool) (l : List K) : Prop := l.Nodup ∧ ∀ k, k ∈ l ↔ f k = true

def Pre : SetOp K → Prop
  | .reserve n => n ≤ 2 ^ 63
  | _ => True

/-- The results allowed by the specification; `add` says whether the element was new. -/
def Result (f : K → Bool) : SetOp K → SetOut K → Prop
  | .add k, o => o = .bool (!f k)
  | .contains k, o => o = .bool (f k)
  | .size, o => ∃ l, Lists f l ∧ o = .nat l.length
  | .toArray, o => ∃ l, Lists f l ∧ o = .items l
  | _, o => o = .unit

/-- The sequence of results is one of a finite set. -/
def Accepts : (K → Bool) → List (SetOp K) → List (SetOut K) → Prop
  | _, [], outs => outs = []
  | f, op :: ops, outs => ∃ o os, outs = o :: os ∧ Result f op o ∧ Accepts (next f op) ops os

end SetSpec

namespace HSet
variable {K : Type} [DecidableEq K] (hash : K → Nat)

/-- One operation of the modelled `Set`. -/
def step (t : HTab K) : SetOp K → Option (HTab K × SetOut K)
  | .reserve n => do return (← t.reserve id hash n, .unit)
  | .add k => do
    let (t, b) ← t.setAdd id hash k
    return (t, .bool b)
  | .remove k => do
    let (t, _) ← t.remove id hash k
    return (t, .unit)
  | .clear => do return (← t.clear false, .unit)
  | .copy => do return (← t.copy, .unit)
  | .contains k => do return (t, .bool (← t.contains id hash k))
  | .size => some (t, .nat t.nEntries)
  | .toArray => do return (t, .items (← t.toList))

/-- A history of operations. -/
def run (t : HTab K) : List (SetOp K) → Option (HTab K × List (SetOut K))
  | [] => some (t, [])
  | op :: ops => do
    let (t, o) ← step hash t op
    let (t, os) ← run t ops
    return (t, o :: os)

def Rep (t : HTab K) (f : K → Bool) : Prop := ∃ l, HTab.Rep id hash t l ∧ SetSpec.Lists f l

variable {hash}

theorem step_correct {t : HTab K} {f : K → Bool} (h : Rep hash t f) (op : SetOp K) (hpre : SetSpec.Pre op) :
    ∃ t' o, step hash t op = some (t', o) ∧ Rep hash t' (SetSpec.next f op) ∧ SetSpec.Result f op o := by
  obtain ⟨l, hr, hl⟩ := h
  cases op with
  | reserve n =>
    obtain ⟨t', h1, h2, _⟩ := HTab.reserve_rep hr hpre
    exact ⟨t', .unit, by simp [step, h1], ⟨l, h2, hl⟩, rfl⟩
  | add k =>
    rcases HTab.rep_find hr k with ⟨h1, h2⟩ | ⟨x, hx, hk, p, i, h2, h3⟩
    · have hkl : k ∉ l := fun hh => h1 k hh rfl
      obtain ⟨t', h4, h5⟩ := HTab.rep_insertNew hr k (by simpa using hkl)
      have hf : f k = false := by
        cases hfk : f k with
        | false => rfl
        | true => exact absurd ((hl.2 k).2 hfk) hkl
      refine ⟨t', .bool true, ?_, ⟨_, h5, ?_⟩, by simp [SetSpec.Result, hf]⟩
      · simp [step, HTab.setAdd, h2, h4]
      · refine ⟨by simp [hkl, hl.1], fun j => ?_⟩
        simp [SetSpec.next, hl.2 j]
    · have hk' : x = k := hk
      subst hk'
      have hf : f x = true := (hl.2 x).1 hx
      refine ⟨t, .bool false, by simp [step, HTab.setAdd, h2], ⟨l, hr, hl.1, fun j => ?_⟩, by simp [SetSpec.Result, hf]⟩
      rw [hl.2 j]
      simp only [SetSpec.next, Bool.or_eq_true, decide_eq_true_eq]
      constructor
      · exact Or.inr
      · rintro (rfl | h)
        · exact hf
        · exact h
  | remove k =>
    by_cases hk : k ∈ l.map id
    · obtain ⟨t', it', x, L1, L2, h1, _, _, _, _, h5⟩ := HTab.rep_remove_found hr k hk
      refine ⟨t', .unit, by simp [step, h1], ⟨_, h5, ?_⟩, rfl⟩
      refine ⟨hl.1.sublist List.filter_sublist, fun j => ?_⟩
      simp [SetSpec.next, hl.2 j, and_comm]
    · refine ⟨t, .unit, by simp [step, HTab.rep_remove_absent hr k hk], ⟨l, hr, hl.1, fun j => ?_⟩, rfl⟩
      rw [hl.2 j]
      simp only [SetSpec.next, Bool.and_eq_true, decide_eq_true_eq]
      constructor
      · intro h
        refine ⟨?_, h⟩
        rintro rfl
        exact hk (by simpa using (hl.2 j).2 h)
      · exact fun h => h.2
  | clear =>
    obtain ⟨t', h1, h2⟩ := HTab.rep_clear hr
    exact ⟨t', .unit, by simp [step, h1], ⟨[], h2, by simp [SetSpec.Lists, SetSpec.next]⟩, rfl⟩
  | copy =>
    obtain ⟨ch, fl, hi, _, _⟩ := id hr
    exact ⟨t, .unit, by simp [step, HTab.copy_spec hi], ⟨l, hr, hl⟩, rfl⟩
  | contains k =>
    refine ⟨t, .bool (decide (k ∈ l.map id)), by simp [step, HTab.rep_contains hr k], ⟨l, hr, hl⟩, ?_⟩
    simp only [SetSpec.Result]
    congr 1
    rw [Bool.eq_iff_iff, decide_eq_true_iff, List.map_id, hl.2 k]
  | size =>
    exact ⟨t, .nat t.nEntries, rfl, ⟨l, hr, hl⟩, l, hl, by rw [HTab.rep_size hr]⟩
  | toArray =>
    obtain ⟨l', h1, h2⟩ := HTab.rep_toList hr
    exact ⟨t, .items l', by simp [step, h1], ⟨l, hr, hl⟩, l',
      ⟨h2.nodup_iff.2 hl.1, fun k => h2.mem_iff.trans (hl.2 k)⟩, rfl⟩

theorem run_correct (ops : List (SetOp K)) : ∀ {t : HTab K} {f : K → Bool}, Rep hash t f →
    (∀ op ∈ ops, SetSpec.Pre op) → ∃ t' outs, run hash t ops = some (t', outs) ∧ SetSpec.Accepts f ops outs ∧
      Rep hash t' (ops.foldl SetSpec.next f) := by
  induction ops with
  | nil => intro t f h _; exact ⟨t, [], rfl, rfl, h⟩
  | cons op ops ih =>
    intro t f h hall
    obtain ⟨t1, o, h1, h2, h3⟩ := step_correct h op (hall op (by simp))
    obtain ⟨t2, os, h4, h5, h6⟩ := ih h2 (fun o ho => hall o (by simp [ho]))
    exact ⟨t2, o :: os, by simp [run, h1, h4], ⟨o, os, rfl, h3, h5⟩, h6⟩

theorem rep_empty : Rep hash (HTab.empty : HTab K) (fun _ => false) :=
  ⟨[], HTab.rep_empty, by simp [SetSpec.Lists]⟩

end HSet

section
variable {K : Type} [DecidableEq K]

/-- **C05.** For every hash function, every history of operations on an initially empty set runs without
undefined behaviour and returns the results of a finite set. -/
theorem set_refines_finite_set (hash : K → Nat) (ops : List (SetOp K)) (hops : ∀ op ∈ ops, SetSpec.Pre op) :
    ∃ t outs, HSet.run hash HTab.empty ops = some (t, outs) ∧ SetSpec.Accepts (fun _ => false) ops outs := by
  obtain ⟨t, outs, h1, h2, _⟩ := HSet.run_correct ops HSet.rep_empty hops
  exact ⟨t, outs, h1, h2⟩

example : (HSet.run (fun k : Nat => k) HTab.empty
    [.reserve 20, .add 1, .add 33, .add 1, .remove 1, .contains 33, .contains 1, .toArray]).map Prod.snd =
    some [.unit, .bool true, .bool true, .bool false, .unit, .bool true, .bool false, SetOut.items [33]] := by rfl

theorem setCheck_spec {hash : K → Nat} {t : HTab K} {f : K → Bool} (h : HSet.Rep hash t f) (l : List K) :
    HTab.setCheck hash t l = some (decide (∀ x ∈ l, f x = true)) := by
  obtain ⟨l0, hr, hl⟩ := h
  induction l with
  | nil => simp [HTab.setCheck]
  | cons x l ih =>
    simp only [HTab.setCheck, HTab.rep_contains hr x, Option.bind_eq_bind, Option.bind_some, List.map_id]
    by_cases hx : f x = true
    · simp [(hl.2 x).2 hx, ih, hx]
    · have : x ∉ l0 := fun hh => hx ((hl.2 x).1 hh)
      simp [this, hx]

/-- **C05.** `operator==` on two reachable sets decides whether they are the same finite set. -/
theorem set_equality_correct (hash : K → Nat) (ops1 ops2 : List (SetOp K))
    (h1 : ∀ op ∈ ops1, SetSpec.Pre op) (h2 : ∀ op ∈ ops2, SetSpec.Pre op)
    (t1 t2 : HTab K) (o1 o2 : List (SetOut K)) (hr1 : HSet.run hash HTab.empty ops1 = some (t1, o1))
    (hr2 : HSet.run hash HTab.empty ops2 = some (t2, o2)) :
    HTab.setEq hash t1 t2 = some true ↔
      ops1.foldl SetSpec.next (fun _ => false) = ops2.foldl SetSpec.next (fun _ => false) := by
  obtain ⟨a1, b1, c1, _, d1⟩ := HSet.run_correct ops1 (HSet.rep_empty (hash := hash)) h1
  obtain ⟨a2, b2, c2, _, d2⟩ := HSet.run_correct ops2 (HSet.rep_empty (hash := hash)) h2
  rw [hr1] at c1; cases c1
  rw [hr2] at c2; cases c2
  generalize ops1.foldl SetSpec.next (fun _ => false) = f1 at d1 ⊢
  generalize ops2.foldl SetSpec.next (fun _ => false) = f2 at d2 ⊢
  have k2 := setCheck_spec d2
  obtain ⟨l1, r1, s1⟩ := d1
  obtain ⟨l2, r2, s2⟩ := d2
  obtain ⟨m1, t1l, p1⟩ := HTab.rep_toList r1
  unfold HTab.setEq
  rw [HTab.rep_size r1, HTab.rep_size r2]
  constructor
  · intro h
    split_ifs at h with hsz
    · cases h
    rw [t1l] at h
    simp only [Option.bind_eq_bind, Option.bind_some, k2, Option.some.injEq, decide_eq_true_eq] at h
    have hsub : l1 ⊆ l2 := fun x hx => (s2.2 x).2 (h x (p1.mem_iff.2 hx))
    have hperm : l1.Perm l2 := (List.subperm_of_subset s1.1 hsub).perm_of_length_le (by simp at hsz; omega)
    funext k
    rw [Bool.eq_iff_iff, ← s1.2 k, ← s2.2 k]
    exact hperm.mem_iff
  · rintro rfl
    have hlen : l1.length = l2.length := by
      apply List.Perm.length_eq
      rw [List.perm_ext_iff_of_nodup s1.1 s2.1]
      intro k
      rw [s1.2, s2.2]
    rw [if_neg (by simpa using hlen), t1l]
    simp only [Option.bind_eq_bind, Option.bind_some, k2, Option.some.injEq, decide_eq_true_eq]
    intro x hx
    exact (s1.2 x).1 (p1.mem_iff.1 hx)

/-- Two sets built in different orders with removals are equal. -/
example : (do
    let (t1, _) ← HSet.run (fun k : Nat => k) HTab.empty [.add 1, .add 2, .add 3, .remove 2]
    let (t2, _) ← HSet.run (fun k : Nat => k) HTab.empty [.reserve 64, .add 3, .add 1]
    HTab.setEq (fun k => k) t1 t2) = some true := by rfl

end
end RP3D
