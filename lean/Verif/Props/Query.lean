import Verif.Contacts.Query
import Verif.Props.WarmStart

/-! The contact pairs of the narrow phase, and the collision queries (C116). -/

namespace RP3D
namespace Query
open Warm

variable {K : Type} [Field K] [LinearOrder K]

/-! ### Specification -/

/-- The result of the geometric test of two shapes: its contact points, whether or not they are asked for. -/
abbrev Raw := Test

/-- `testCollision` of the whole world (and the step), and of one or two bodies. -/
inductive Level | world | body
deriving DecidableEq

/-- Whether contact points are asked for (CollisionDetectionSystem.cpp:402, 497-501, 569). -/
def Level.asks : Level → Raw K → Bool
  | .world, r => !r.trig
  | .body, r => r.convex || !r.trig

/-- The result of the narrow phase. -/
def Level.run (l : Level) (r : Raw K) : Test K := { r with pts := if l.asks r then r.pts else [] }

/-- The tests of a query: they agree on what a pair is, pairs of convex shapes are tested once, shapes that collide have contact points. -/
structure Wf (rs : List (Raw K)) : Prop where
  same : ∀ r ∈ rs, ∀ r' ∈ rs, r.id = r'.id → r.b1 = r'.b1 ∧ r.b2 = r'.b2 ∧ r.c1 = r'.c1 ∧ r.c2 = r'.c2 ∧ r.trig = r'.trig ∧ r.convex = r'.convex
  once : rs.Pairwise fun r r' => r.id = r'.id → r.convex = false
  distinct : ∀ r ∈ rs, ∀ r' ∈ rs, r.c1 = r'.c1 → r.c2 = r'.c2 → r.id = r'.id
  pts : ∀ r ∈ rs, r.hit = true → r.pts ≠ [] ∧ ∀ i ∈ r.pts, Good i

/-- What is known of the reduction: it keeps a point of a pair with points, and adds none (C40-C42). -/
structure CfgOk (cfg : QCfg K) : Prop where
  cap : 0 < cfg.cap
  maxM : 0 < cfg.maxM
  nil : cfg.red [] = []
  some : ∀ ms, ms ≠ [] → cfg.red ms ≠ []
  sub : ∀ ms, (∀ m ∈ ms, m ≠ []) → ∀ m ∈ cfg.red ms, m ≠ [] ∧ ∃ m' ∈ ms, ∀ i ∈ m, i ∈ m'

/-! ### Grouping -/

theorem addSimilar_ok {cfg : QCfg K} {S : Info K → Prop} {p : Info K} (hp : S p) {ms ms' : List (List (Info K))} (h : ∀ m ∈ ms, m ≠ [] ∧ ∀ i ∈ m, S i)
    (e : addSimilar cfg p ms = some ms') : ms' ≠ [] ∧ ∀ m ∈ ms', m ≠ [] ∧ ∀ i ∈ m, S i := by
  induction ms generalizing ms' with
  | nil => cases e
  | cons m ms ih =>
    have rest : ∀ l, (addSimilar cfg p ms).map (m :: ·) = some l → l ≠ [] ∧ ∀ m ∈ l, m ≠ [] ∧ ∀ i ∈ m, S i := by
      intro l hl
      obtain ⟨l', h1, rfl⟩ := Option.map_eq_some_iff.1 hl
      have := ih (fun m hm => h m (List.mem_cons_of_mem _ hm)) h1
      refine ⟨by simp, fun m' hm' => ?_⟩
      rcases List.mem_cons.1 hm' with rfl | hm'
      · exact h _ List.mem_cons_self
      · exact this.2 m' hm'
    unfold addSimilar at e
    split at e
    · exact rest _ e
    · split at e
      · cases e
        refine ⟨by simp, fun m' hm' => ?_⟩
        rcases List.mem_cons.1 hm' with rfl | hm'
        · refine ⟨by simp, fun i hi => ?_⟩
          rcases List.mem_append.1 hi with hi | hi
          · exact (h _ List.mem_cons_self).2 i hi
          · rw [List.mem_singleton.1 hi]
            exact hp
        · exact h m' (List.mem_cons_of_mem _ hm')
      · exact rest _ e

theorem addPoint_ok {cfg : QCfg K} (hc : 0 < cfg.maxM) {S : Info K → Prop} {p : Info K} (hp : S p) {ms : List (List (Info K))} (h : ∀ m ∈ ms, m ≠ [] ∧ ∀ i ∈ m, S i) :
    addPoint cfg ms p ≠ [] ∧ ∀ m ∈ addPoint cfg ms p, m ≠ [] ∧ ∀ i ∈ m, S i := by
  unfold addPoint
  split
  · rename_i ms' e
    exact addSimilar_ok hp h e
  · split
    · refine ⟨by simp, fun m hm => ?_⟩
      rcases List.mem_append.1 hm with hm | hm
      · exact h m hm
      · rw [List.mem_singleton.1 hm]
        exact ⟨by simp, by simpa using hp⟩
    · rename_i hl
      exact ⟨fun e => hl (by rw [e]; exact hc), h⟩

theorem fold_ok {cfg : QCfg K} (hc : 0 < cfg.maxM) {S : Info K → Prop} {ps : List (Info K)} (hp : ∀ p ∈ ps, S p) {ms : List (List (Info K))}
    (h : ∀ m ∈ ms, m ≠ [] ∧ ∀ i ∈ m, S i) : (ps ≠ [] ∨ ms ≠ [] → ps.foldl (addPoint cfg) ms ≠ []) ∧ ∀ m ∈ ps.foldl (addPoint cfg) ms, m ≠ [] ∧ ∀ i ∈ m, S i := by
  induction ps generalizing ms with
  | nil => exact ⟨fun h' => h'.elim (fun h => absurd rfl h) id, h⟩
  | cons p ps ih =>
    have a := addPoint_ok hc (hp p List.mem_cons_self) h
    have := ih (fun q hq => hp q (List.mem_cons_of_mem _ hq)) a.2
    exact ⟨fun _ => this.1 (Or.inr a.1), this.2⟩

/-! ### Contact pairs -/

/-- A contact pair is that of a test. -/
def Of (t : Test K) (c : Cand K) : Prop := c.id = t.id ∧ c.b1 = t.b1 ∧ c.b2 = t.b2 ∧ c.c1 = t.c1 ∧ c.c2 = t.c2 ∧ c.trig = t.trig

structure Inv (done : List (Test K)) (s : (Nat → Option Nat) × List (Cand K)) : Prop where
  ids : (s.2.map (·.id)).Nodup
  map : ∀ id j, s.1 id = some j → ∃ c, s.2[j]? = some c ∧ c.id = id
  mapped : ∀ t ∈ done, t.hit = true → t.convex = false → ∃ j, s.1 t.id = some j
  org : ∀ c ∈ s.2, ∃ t ∈ done, t.hit = true ∧ Of t c
  all : ∀ t ∈ done, t.hit = true → ∃ c ∈ s.2, c.id = t.id
  pots : ∀ c ∈ s.2, (c.trig = true → c.pots = []) ∧ (c.trig = false → c.pots ≠ []) ∧ ∀ p ∈ c.pots, p ≠ [] ∧ ∀ i ∈ p, ∃ t ∈ done, t.hit = true ∧ t.id = c.id ∧ i ∈ t.pts

theorem Inv.push {done : List (Test K)} {s : (Nat → Option Nat) × List (Cand K)} (h : Inv done s) {t : Test K} (ht : t.hit = true) {f : Nat → Option Nat} {ms : List (List (Info K))}
    (hn : ∀ c ∈ s.2, c.id ≠ t.id) (hf : (t.convex = true ∧ f = s.1) ∨ f = upd s.1 t.id (some s.2.length)) (h1 : t.trig = true → ms = []) (h2 : t.trig = false → ms ≠ [])
    (h3 : ∀ p ∈ ms, p ≠ [] ∧ ∀ i ∈ p, i ∈ t.pts) : Inv (done ++ [t]) (f, s.2 ++ [{ t.cand with pots := ms }]) := by
  have old : ∀ id j, s.1 id = some j → ∃ c, (s.2 ++ [{ t.cand with pots := ms }])[j]? = some c ∧ c.id = id := by
    intro id j hj
    obtain ⟨c, hc, e⟩ := h.map id j hj
    exact ⟨c, by rw [List.getElem?_append_left (List.getElem?_eq_some_iff.1 hc).1]; exact hc, e⟩
  refine ⟨?_, ?_, ?_, ?_, ?_, ?_⟩
  · dsimp only
    rw [List.map_append, List.nodup_append]
    refine ⟨h.ids, by simp, ?_⟩
    intro a ha b hb
    obtain ⟨c, hc, rfl⟩ := List.mem_map.1 ha
    have : b = t.id := by simpa [Test.cand] using hb
    rw [this]
    exact hn c hc
  · intro id j hj
    dsimp only at hj ⊢
    rcases hf with ⟨-, rfl⟩ | rfl
    · exact old id j hj
    · by_cases e : id = t.id
      · subst e
        rw [upd_same] at hj
        cases hj
        exact ⟨{ t.cand with pots := ms }, by simp, rfl⟩
      · rw [upd_ne _ _ e] at hj
        exact old id j hj
  · intro t' ht' hh hc
    dsimp only
    rcases List.mem_append.1 ht' with ht' | ht'
    · obtain ⟨j, hj⟩ := h.mapped t' ht' hh hc
      rcases hf with ⟨-, rfl⟩ | rfl
      · exact ⟨j, hj⟩
      · by_cases e : t'.id = t.id
        · rw [e, upd_same]
          exact ⟨_, rfl⟩
        · rw [upd_ne _ _ e]
          exact ⟨j, hj⟩
    · rw [List.mem_singleton] at ht'
      subst ht'
      rcases hf with ⟨hf, -⟩ | rfl
      · rw [hf] at hc
        cases hc
      · exact ⟨_, upd_same _ _ _⟩
  · intro c hc
    rcases List.mem_append.1 hc with hc | hc
    · obtain ⟨t', ht', r⟩ := h.org c hc
      exact ⟨t', List.mem_append_left _ ht', r⟩
    · rw [List.mem_singleton.1 hc]
      exact ⟨t, by simp, ht, rfl, rfl, rfl, rfl, rfl, rfl⟩
  · intro t' ht' hh
    rcases List.mem_append.1 ht' with ht' | ht'
    · obtain ⟨c, hc, e⟩ := h.all t' ht' hh
      exact ⟨c, List.mem_append_left _ hc, e⟩
    · rw [List.mem_singleton.1 ht']
      exact ⟨{ t.cand with pots := ms }, by simp, rfl⟩
  · intro c hc
    rcases List.mem_append.1 hc with hc | hc
    · obtain ⟨p1, p2, p3⟩ := h.pots c hc
      refine ⟨p1, p2, fun p hp => ⟨(p3 p hp).1, fun i hi => ?_⟩⟩
      obtain ⟨t', a, b⟩ := (p3 p hp).2 i hi
      exact ⟨t', List.mem_append_left _ a, b⟩
    · rw [List.mem_singleton.1 hc]
      exact ⟨h1, h2, fun p hp => ⟨(h3 p hp).1, fun i hi => ⟨t, by simp, ht, rfl, (h3 p hp).2 i hi⟩⟩⟩

theorem mem_set {β : Type} {l : List β} {j : Nat} {x c : β} (h : c ∈ l.set j x) : c = x ∨ c ∈ l := by
  rcases List.mem_or_eq_of_mem_set h with h | h
  · exact Or.inr h
  · exact Or.inl h

theorem set_self {β : Type} {l : List β} {j : Nat} {c x : β} (h : l[j]? = some c) : (l.set j x)[j]? = some x := by
  rw [List.getElem?_set_self (List.getElem?_eq_some_iff.1 h).1]

theorem process_inv {cfg : QCfg K} (hc : CfgOk cfg) {ts done : List (Test K)} {t : Test K} (hts : ∀ t' ∈ done ++ [t], t' ∈ ts)
    (same : ∀ r ∈ ts, ∀ r' ∈ ts, r.id = r'.id → r.b1 = r'.b1 ∧ r.b2 = r'.b2 ∧ r.c1 = r'.c1 ∧ r.c2 = r'.c2 ∧ r.trig = r'.trig ∧ r.convex = r'.convex)
    (once : ∀ t' ∈ done, t'.id = t.id → t'.convex = false) {s s' : (Nat → Option Nat) × List (Cand K)} (h : Inv done s) (e : process cfg s t = some s') :
    Inv (done ++ [t]) s' := by
  have mem : t ∈ ts := hts t (by simp)
  have memd : ∀ t' ∈ done, t' ∈ ts := fun t' h => hts t' (by simp [h])
  unfold process at e
  split at e
  · rename_i hit
    split at e
    · rename_i ok
      have new : t.convex = true → ∀ c ∈ s.2, c.id ≠ t.id := by
        intro hcv c hcs he
        obtain ⟨t', ht', -, o⟩ := h.org c hcs
        have := once t' ht' (o.1.symm.trans he)
        rw [(same t mem t' (memd t' ht') (he.symm.trans o.1)).2.2.2.2.2, this] at hcv
        cases hcv
      split at e
      · rename_i hcv
        cases e
        refine h.push hit (new hcv) (Or.inl ⟨hcv, rfl⟩) ?_ ?_ ?_
        · intro ht
          rcases ok with ⟨_, h0⟩ | ⟨h0, _⟩
          · rw [if_pos h0]
          · rw [ht] at h0; cases h0
        · intro ht
          rcases ok with ⟨h0, _⟩ | ⟨_, h0⟩
          · rw [ht] at h0; cases h0
          · rw [if_neg h0]; simp
        · intro p hp
          split at hp
          · cases hp
          · rename_i h0
            rw [List.mem_singleton] at hp
            subst hp
            refine ⟨?_, fun i hi => List.mem_of_mem_take hi⟩
            intro h1
            rcases List.take_eq_nil_iff.1 h1 with h1 | h1
            · exact absurd h1 (Nat.pos_iff_ne_zero.1 hc.cap)
            · exact h0 h1
      · rename_i hcv
        have hcv : t.convex = false := by simpa using hcv
        split at e
        · rename_i hm
          cases e
          have fo := fold_ok (cfg := cfg) hc.maxM (S := fun i => i ∈ t.pts) (ps := t.pts) (fun _ h => h) (ms := []) (by simp)
          refine h.push hit ?_ (Or.inr rfl) ?_ ?_ fo.2
          · intro c hcs he
            obtain ⟨t', ht', hh, o⟩ := h.org c hcs
            have := (same t mem t' (memd t' ht') (he.symm.trans o.1)).2.2.2.2.2
            obtain ⟨j, hj⟩ := h.mapped t' ht' hh (this.symm.trans hcv)
            rw [← o.1, he, hm] at hj
            cases hj
          · intro ht
            rcases ok with ⟨_, h0⟩ | ⟨h0, _⟩
            · rw [h0]; rfl
            · rw [ht] at h0; cases h0
          · intro ht
            rcases ok with ⟨h0, _⟩ | ⟨_, h0⟩
            · rw [ht] at h0; cases h0
            · exact fo.1 (Or.inl h0)
        · rename_i j hm
          obtain ⟨c, hj, rfl⟩ := Option.map_eq_some_iff.1 e
          obtain ⟨c', hj', hid⟩ := h.map t.id j hm
          rw [hj] at hj'
          cases hj'
          have hcs := List.mem_of_getElem? hj
          obtain ⟨p1, p2, p3⟩ := h.pots c hcs
          have htr : c.trig = t.trig := by
            obtain ⟨t', ht', hh, o⟩ := h.org c hcs
            rw [o.2.2.2.2.2, (same t mem t' (memd t' ht') (hid.symm.trans o.1)).2.2.2.2.1]
          have fo := fold_ok (cfg := cfg) hc.maxM (S := fun i => ∃ t' ∈ done ++ [t], t'.hit = true ∧ t'.id = c.id ∧ i ∈ t'.pts) (ps := t.pts)
            (fun i hi => ⟨t, by simp, hit, hid.symm, hi⟩) (ms := c.pots) (fun m hm => ⟨(p3 m hm).1, fun i hi => by
              obtain ⟨t', a, b⟩ := (p3 m hm).2 i hi
              exact ⟨t', List.mem_append_left _ a, b⟩⟩)
          have ids : (s.2.set j { c with pots := t.pts.foldl (addPoint cfg) c.pots }).map (·.id) = s.2.map (·.id) := by
            apply List.ext_getElem?
            intro k
            rw [List.getElem?_map, List.getElem?_map]
            by_cases hk : j = k
            · subst hk
              rw [set_self hj, hj]
              rfl
            · rw [List.getElem?_set_ne hk]
          refine ⟨by rw [ids]; exact h.ids, ?_, ?_, ?_, ?_, ?_⟩
          · intro id k hk
            obtain ⟨c2, h1, h2⟩ := h.map id k hk
            dsimp only
            by_cases hjk : j = k
            · subst hjk
              rw [hj] at h1
              cases h1
              exact ⟨_, set_self hj, h2⟩
            · exact ⟨c2, by rw [List.getElem?_set_ne hjk]; exact h1, h2⟩
          · intro t' ht' hh hcc
            rcases List.mem_append.1 ht' with ht' | ht'
            · exact h.mapped t' ht' hh hcc
            · rw [List.mem_singleton.1 ht']
              exact ⟨j, hm⟩
          · intro c2 hc2
            rcases mem_set hc2 with rfl | hc2
            · obtain ⟨t', ht', hh, o⟩ := h.org c hcs
              exact ⟨t', List.mem_append_left _ ht', hh, o⟩
            · obtain ⟨t', ht', r⟩ := h.org c2 hc2
              exact ⟨t', List.mem_append_left _ ht', r⟩
          · intro t' ht' hh
            have : t'.id ∈ s.2.map (·.id) := by
              rcases List.mem_append.1 ht' with ht' | ht'
              · obtain ⟨c2, h1, h2⟩ := h.all t' ht' hh
                exact List.mem_map.2 ⟨c2, h1, h2⟩
              · rw [List.mem_singleton.1 ht']
                exact List.mem_map.2 ⟨c, hcs, hid⟩
            rw [← ids] at this
            obtain ⟨c2, h1, h2⟩ := List.mem_map.1 this
            exact ⟨c2, h1, h2⟩
          · intro c2 hc2
            rcases mem_set hc2 with rfl | hc2
            · refine ⟨fun ht => ?_, fun ht => ?_, fo.2⟩
              · dsimp only at ht ⊢
                rcases ok with ⟨_, h0⟩ | ⟨h0, _⟩
                · rw [h0, p1 ht]; rfl
                · rw [← htr, ht] at h0; cases h0
              · exact fo.1 (Or.inr (p2 ht))
            · obtain ⟨q1, q2, q3⟩ := h.pots c2 hc2
              refine ⟨q1, q2, fun p hp => ⟨(q3 p hp).1, fun i hi => ?_⟩⟩
              obtain ⟨t', a, b⟩ := (q3 p hp).2 i hi
              exact ⟨t', List.mem_append_left _ a, b⟩
    · cases e
  · rename_i hit
    cases e
    have nh : ∀ t' ∈ done ++ [t], t'.hit = true → t' ∈ done := by
      intro t' ht' hh
      rcases List.mem_append.1 ht' with ht' | ht'
      · exact ht'
      · rw [List.mem_singleton.1 ht'] at hh
        exact absurd hh hit
    refine ⟨h.ids, h.map, fun t' ht' hh => h.mapped t' (nh t' ht' hh) hh, ?_, fun t' ht' hh => h.all t' (nh t' ht' hh) hh, ?_⟩
    · intro c hc
      obtain ⟨t', ht', r⟩ := h.org c hc
      exact ⟨t', List.mem_append_left _ ht', r⟩
    · intro c2 hc2
      obtain ⟨q1, q2, q3⟩ := h.pots c2 hc2
      refine ⟨q1, q2, fun p hp => ⟨(q3 p hp).1, fun i hi => ?_⟩⟩
      obtain ⟨t', a, b⟩ := (q3 p hp).2 i hi
      exact ⟨t', List.mem_append_left _ a, b⟩

/-- Whenever the results can be processed, the contact pairs are those of the colliding tests. -/
theorem processAll_inv {cfg : QCfg K} (hc : CfgOk cfg) {ts : List (Test K)}
    (same : ∀ r ∈ ts, ∀ r' ∈ ts, r.id = r'.id → r.b1 = r'.b1 ∧ r.b2 = r'.b2 ∧ r.c1 = r'.c1 ∧ r.c2 = r'.c2 ∧ r.trig = r'.trig ∧ r.convex = r'.convex)
    (once : ts.Pairwise fun r r' => r.id = r'.id → r.convex = false) {cs : List (Cand K)} (e : processAll cfg ts = some cs) : ∃ f, Inv ts (f, cs) := by
  obtain ⟨⟨f, cs'⟩, e0, rfl⟩ := Option.map_eq_some_iff.1 e
  suffices H : ∀ (l done : List (Test K)) (s s' : (Nat → Option Nat) × List (Cand K)), done ++ l = ts → Inv done s → l.foldlM (process cfg) s = some s' → Inv ts s' by
    exact ⟨f, H ts [] ((fun _ => none), []) (f, cs') rfl ⟨by simp, by simp, by simp, by simp, by simp, by simp⟩ e0⟩
  intro l
  induction l with
  | nil =>
    intro done s s' hd h e
    cases e
    rw [List.append_nil] at hd
    rwa [← hd]
  | cons t l ih =>
    intro done s s' hd h e
    rw [List.foldlM_cons] at e
    obtain ⟨s1, e1, e2⟩ := Option.bind_eq_some_iff.1 e
    have hd' : (done ++ [t]) ++ l = ts := by simpa using hd
    refine ih (done ++ [t]) s1 s' hd' (process_inv hc (ts := ts) ?_ same ?_ h e1) e2
    · intro t' ht'
      rw [← hd']
      exact List.mem_append_left _ ht'
    · intro t' ht'
      rw [← hd, List.pairwise_append] at once
      exact once.2.2 t' ht' t List.mem_cons_self

/-- If the assertion on triggers holds for all colliding tests, the results can be processed. -/
theorem processAll_some {cfg : QCfg K} {ts : List (Test K)} (ok : ∀ t ∈ ts, t.hit = true → (t.trig = true ∧ t.pts = []) ∨ (t.trig = false ∧ t.pts ≠ [])) :
    ∃ cs, processAll cfg ts = some cs := by
  suffices H : ∀ (l : List (Test K)) (s : (Nat → Option Nat) × List (Cand K)), (∀ t ∈ l, t ∈ ts) → (∀ id j, s.1 id = some j → j < s.2.length) →
      ∃ s', l.foldlM (process cfg) s = some s' by
    obtain ⟨s', h⟩ := H ts ((fun _ => none), []) (fun _ h => h) (by simp)
    exact ⟨s'.2, by unfold processAll; rw [h]; rfl⟩
  intro l
  induction l with
  | nil => exact fun s _ _ => ⟨s, rfl⟩
  | cons t l ih =>
    intro s hl hs
    have : ∃ s1, process cfg s t = some s1 ∧ ∀ id j, s1.1 id = some j → j < s1.2.length := by
      unfold process
      split
      · rename_i hit
        rw [if_pos (ok t (hl t List.mem_cons_self) hit)]
        split
        · refine ⟨_, rfl, fun id j hj => ?_⟩
          have := hs id j hj
          rw [List.length_append]
          exact Nat.lt_add_right _ this
        · split
          · refine ⟨_, rfl, fun id j hj => ?_⟩
            rw [List.length_append]
            dsimp only at hj
            by_cases e : id = t.id
            · rw [e, upd_same] at hj
              cases hj
              simp
            · rw [upd_ne _ _ e] at hj
              exact Nat.lt_add_right _ (hs id j hj)
          · rename_i j hj
            rw [List.getElem?_eq_getElem (hs _ _ hj)]
            refine ⟨_, rfl, fun id k hk => ?_⟩
            rw [List.length_set]
            exact hs id k hk
      · exact ⟨s, rfl, hs⟩
    obtain ⟨s1, e, h1⟩ := this
    obtain ⟨s', e'⟩ := ih s1 (fun t' ht' => hl t' (List.mem_cons_of_mem _ ht')) h1
    exact ⟨s', by rw [List.foldlM_cons, e]; exact e'⟩

theorem run_wf {rs : List (Raw K)} (h : Wf rs) (lv : Level) :
    (∀ r ∈ rs.map lv.run, ∀ r' ∈ rs.map lv.run, r.id = r'.id → r.b1 = r'.b1 ∧ r.b2 = r'.b2 ∧ r.c1 = r'.c1 ∧ r.c2 = r'.c2 ∧ r.trig = r'.trig ∧ r.convex = r'.convex) ∧
    ((rs.map lv.run).Pairwise fun r r' => r.id = r'.id → r.convex = false) := by
  constructor
  · intro r hr r' hr' e
    obtain ⟨q, hq, rfl⟩ := List.mem_map.1 hr
    obtain ⟨q', hq', rfl⟩ := List.mem_map.1 hr'
    exact h.same q hq q' hq' e
  · rw [List.pairwise_map]
    exact h.once

/-- The contact pair of a candidate satisfies what `Warm.frame_ok` asks for. -/
theorem pair_fresh {cfg : QCfg K} (hc : CfgOk cfg) {rs : List (Raw K)} (h : Wf rs) {lv : Level} {s : (Nat → Option Nat) × List (Cand K)} (hi : Inv (rs.map lv.run) s) {c : Cand K}
    (hcs : c ∈ s.2) : FreshPair (c.pair cfg) ∧ (∀ m ∈ (c.pair cfg).pots, ∀ i ∈ m, ∃ r ∈ rs, r.hit = true ∧ r.id = c.id ∧ i ∈ r.pts) := by
  obtain ⟨-, -, p3⟩ := hi.pots c hcs
  have from_ : ∀ m ∈ cfg.red c.pots, m ≠ [] ∧ ∀ i ∈ m, ∃ r ∈ rs, r.hit = true ∧ r.id = c.id ∧ i ∈ r.pts := by
    intro m hm
    obtain ⟨m1, m', hm', sub⟩ := hc.sub c.pots (fun p hp => (p3 p hp).1) m hm
    refine ⟨m1, fun i hi => ?_⟩
    obtain ⟨t, ht, hh, hid, hp⟩ := (p3 m' hm').2 i (sub i hi)
    obtain ⟨r, hr, rfl⟩ := List.mem_map.1 ht
    refine ⟨r, hr, hh, hid, ?_⟩
    have : i ∈ (if lv.asks r then r.pts else []) := hp
    split at this
    · exact this
    · cases this
  refine ⟨⟨⟨rfl, rfl, rfl, rfl⟩, fun p hp => ⟨(from_ p hp).1, fun i hi => ?_⟩⟩, fun m hm => (from_ m hm).2⟩
  obtain ⟨r, hr, hh, -, hp⟩ := (from_ p hp).2 i hi
  exact (h.pts r hr hh).2 i hp

/-- **C116, the step.** In a step the results of the narrow phase are processed without a failed assertion; every pair of colliders that collides gets
exactly one contact pair, with contact points if and only if none of the colliders is a trigger, and these are contact points of this pair. -/
theorem step_pairs {cfg : QCfg K} (hc : CfgOk cfg) {rs : List (Raw K)} (h : Wf rs) : ∃ cs, processAll cfg (rs.map Level.world.run) = some cs ∧
    (cs.map (·.id)).Nodup ∧ (∀ c ∈ cs, ∃ r ∈ rs, r.hit = true ∧ Of r c) ∧ (∀ r ∈ rs, r.hit = true → ∃ c ∈ cs, Of r c) ∧
    ∀ c ∈ cs, FreshPair (c.pair cfg) ∧ ((c.pair cfg).pots = [] ↔ c.trig = true) ∧ ∀ m ∈ (c.pair cfg).pots, ∀ i ∈ m, ∃ r ∈ rs, r.hit = true ∧ r.id = c.id ∧ i ∈ r.pts := by
  obtain ⟨cs, e⟩ := processAll_some (cfg := cfg) (ts := rs.map Level.world.run) (by
    intro t ht hh
    obtain ⟨r, hr, rfl⟩ := List.mem_map.1 ht
    have hp := (h.pts r hr hh).1
    cases htr : r.trig with
    | true =>
      refine Or.inl ⟨htr, ?_⟩
      show (if Level.world.asks r then r.pts else []) = []
      simp [Level.asks, htr]
    | false =>
      refine Or.inr ⟨htr, ?_⟩
      show (if Level.world.asks r then r.pts else []) ≠ []
      simpa [Level.asks, htr] using hp)
  obtain ⟨f, hi⟩ := processAll_inv hc (run_wf h .world).1 (run_wf h .world).2 e
  refine ⟨cs, e, hi.ids, ?_, ?_, ?_⟩
  · intro c hcs
    obtain ⟨t, ht, hh, o⟩ := hi.org c hcs
    obtain ⟨r, hr, rfl⟩ := List.mem_map.1 ht
    exact ⟨r, hr, hh, o⟩
  · intro r hr hh
    obtain ⟨c, hcs, hid⟩ := hi.all (Level.world.run r) (List.mem_map_of_mem hr) hh
    obtain ⟨t, ht, -, o⟩ := hi.org c hcs
    obtain ⟨r', hr', rfl⟩ := List.mem_map.1 ht
    have hid : c.id = r.id := hid
    have o1 : c.id = r'.id := o.1
    obtain ⟨a1, a2, a3, a4, a5, -⟩ := h.same r hr r' hr' (hid.symm.trans o1)
    refine ⟨c, hcs, hid, ?_, ?_, ?_, ?_, ?_⟩
    · rw [a1]; exact o.2.1
    · rw [a2]; exact o.2.2.1
    · rw [a3]; exact o.2.2.2.1
    · rw [a4]; exact o.2.2.2.2.1
    · rw [a5]; exact o.2.2.2.2.2
  · intro c hcs
    obtain ⟨f1, f2⟩ := pair_fresh hc h hi hcs
    refine ⟨f1, ⟨fun e => ?_, fun ht => ?_⟩, f2⟩
    · by_contra hn
      exact hc.some _ ((hi.pots c hcs).2.1 (by simpa using hn)) e
    · show cfg.red c.pots = []
      rw [(hi.pots c hcs).1 ht]
      exact hc.nil

/-! ### Queries -/

theorem snap_none {P : List (Warm.CPair K)} {M : List (Man K)} {Q : List (Point K)} {k : Nat} {x : Warm.CPair K} (hx : P[k]? = some x) (h0 : x.pots = []) {l : List Nat} (hk : k ∈ l) :
    l.foldlM snapPair (P, M, Q) = none := by
  induction l generalizing P M Q with
  | nil => cases hk
  | cons a l ih =>
    rw [List.foldlM_cons]
    by_cases e : a = k
    · subst e
      have : snapPair (P, M, Q) a = none := by
        unfold snapPair
        show (P[a]?).bind _ = none
        rw [hx]
        simp [h0]
      rw [this]
      rfl
    · cases hs : snapPair (P, M, Q) a with
      | none => rfl
      | some s =>
        have : s.1[k]? = some x := by
          unfold snapPair at hs
          obtain ⟨y, hy, hs⟩ := Option.bind_eq_some_iff.1 hs
          split at hs
          · unfold addPair at hs
            obtain ⟨z, hz, hs⟩ := Option.bind_eq_some_iff.1 hs
            obtain ⟨r, hr, hs⟩ := Option.bind_eq_some_iff.1 hs
            cases hs
            dsimp only
            rw [List.getElem?_set_ne e]
            exact hx
          · cases hs
        exact ih (P := s.1) (M := s.2.1) (Q := s.2.2) this (by
          rcases List.mem_cons.1 hk with h | h
          · exact absurd h.symm e
          · exact h)

theorem snap_eq {P : List (Warm.CPair K)} {M : List (Man K)} {Q : List (Point K)} {l : List Nat} (hl : l.Nodup) (h0 : ∀ k ∈ l, ∀ x, P[k]? = some x → x.pots ≠ []) :
    l.foldlM snapPair (P, M, Q) = l.foldlM addPair (P, M, Q) := by
  induction l generalizing P M Q with
  | nil => rfl
  | cons a l ih =>
    rw [List.nodup_cons] at hl
    rw [List.foldlM_cons, List.foldlM_cons]
    have : snapPair (P, M, Q) a = addPair (P, M, Q) a := by
      unfold snapPair
      show (P[a]?).bind _ = _
      cases hx : P[a]? with
      | none =>
        unfold addPair
        show none = (P[a]?).bind _
        rw [hx]
        rfl
      | some x =>
        rw [Option.bind_some, if_pos (List.length_pos_of_ne_nil (h0 a List.mem_cons_self x hx))]
    rw [this]
    cases hs : addPair (P, M, Q) a with
    | none => rfl
    | some s =>
      refine ih hl.2 (P := s.1) (M := s.2.1) (Q := s.2.2) fun k hk x hx => ?_
      unfold addPair at hs
      obtain ⟨z, hz, hs⟩ := Option.bind_eq_some_iff.1 hs
      obtain ⟨r, hr, hs⟩ := Option.bind_eq_some_iff.1 hs
      cases hs
      dsimp only at hx
      rw [List.getElem?_set_ne (show a ≠ k from fun e => hl.1 (by rw [e]; exact hk))] at hx
      exact h0 k (List.mem_cons_of_mem _ hk) x hx

/-- **C116, queries.** If no trigger is among the colliding pairs, a collision query of the world or of bodies succeeds and reports exactly the pairs of
colliders that collide, each once, with contact points, and only contact points of this pair. -/
theorem query_partial {cfg : QCfg K} (hc : CfgOk cfg) {rs : List (Raw K)} (h : Wf rs) (lv : Level) (ht : ∀ r ∈ rs, r.hit = true → r.trig = false) :
    ∃ l, collisions cfg (rs.map lv.run) = some l ∧ (l.map fun s => (s.c1, s.c2)).Nodup ∧
      (∀ r ∈ rs, r.hit = true → ∃ s ∈ l, s.b1 = r.b1 ∧ s.b2 = r.b2 ∧ s.c1 = r.c1 ∧ s.c2 = r.c2 ∧ s.pts ≠ []) ∧
      ∀ s ∈ l, ∃ r ∈ rs, r.hit = true ∧ s.b1 = r.b1 ∧ s.b2 = r.b2 ∧ s.c1 = r.c1 ∧ s.c2 = r.c2 ∧ ∀ i ∈ s.pts, ∃ r' ∈ rs, r'.hit = true ∧ r'.id = r.id ∧ i ∈ r'.pts := by
  unfold collisions
  split
  case isFalse hn =>
    refine ⟨[], rfl, by simp, fun r hr hh => absurd ?_ hn, by simp⟩
    rw [List.any_eq_true]
    exact ⟨lv.run r, List.mem_map_of_mem hr, hh⟩
  case isTrue =>
  obtain ⟨cs, e⟩ := processAll_some (cfg := cfg) (ts := rs.map lv.run) (by
    intro t htm hh
    obtain ⟨r, hr, rfl⟩ := List.mem_map.1 htm
    have hp := (h.pts r hr hh).1
    have htr := ht r hr hh
    refine Or.inr ⟨htr, ?_⟩
    show (if lv.asks r then r.pts else []) ≠ []
    cases lv <;> simpa [Level.asks, htr] using hp)
  obtain ⟨f, hi⟩ := processAll_inv hc (run_wf h lv).1 (run_wf h lv).2 e
  have org : ∀ c ∈ cs, ∃ r ∈ rs, r.hit = true ∧ Of r c := by
    intro c hcs
    obtain ⟨t, htm, hh, o⟩ := hi.org c hcs
    obtain ⟨r, hr, rfl⟩ := List.mem_map.1 htm
    exact ⟨r, hr, hh, o⟩
  have ntrig : ∀ c ∈ cs, c.trig = false := by
    intro c hcs
    obtain ⟨r, hr, hh, o⟩ := org c hcs
    rw [o.2.2.2.2.2]
    exact ht r hr hh
  have potne : ∀ c ∈ cs, (c.pair cfg).pots ≠ [] := fun c hcs => hc.some _ ((hi.pots c hcs).2.1 (ntrig c hcs))
  have fresh : ∀ x ∈ cs.map (Cand.pair cfg), FreshPair x := by
    intro x hx
    obtain ⟨c, hcs, rfl⟩ := List.mem_map.1 hx
    exact (pair_fresh hc h hi hcs).1
  obtain ⟨P, M, Q, e1, made⟩ := create_made fresh (order := List.range cs.length) List.nodup_range (fun k hk => by
    rw [List.length_map]
    exact List.mem_range.1 hk)
  have e2 : (List.range cs.length).foldlM snapPair (cs.map (Cand.pair cfg), [], []) = some (P, M, Q) := by
    rw [snap_eq List.nodup_range, e1]
    intro k _ x hx
    obtain ⟨c, hcs, rfl⟩ := List.mem_map.1 (List.mem_of_getElem? hx)
    exact potne c hcs
  have lenP : P.length = cs.length := by rw [made.len, List.length_map]
  have own : ∀ (k : Nat) (c : Cand K), cs[k]? = some c → ∃ x, P[k]? = some x ∧ Own (c.pair cfg) x M Q := by
    intro k c hk
    refine made.own k _ (List.mem_range.2 (List.getElem?_eq_some_iff.1 hk).1) ?_
    rw [List.getElem?_map, hk]
    rfl
  have seen_eq : ∀ (c : Cand K) (x : Warm.CPair K), Own (c.pair cfg) x M Q → seen Q x = ⟨c.b1, c.b2, c.c1, c.c2, (cfg.red c.pots).flatten⟩ := by
    intro c x o
    unfold seen
    rw [o.pts, List.map_map]
    have : ((fun q : Point K => q.info) ∘ Warm.fresh) = id := rfl
    rw [this, List.map_id, o.eq]
    rfl
  have elist : ((P.zip cs).filter fun p => !p.2.trig).map (fun p => seen Q p.1) = cs.map fun c => ⟨c.b1, c.b2, c.c1, c.c2, (cfg.red c.pots).flatten⟩ := by
    have all : ∀ p ∈ P.zip cs, p.2 ∈ cs := fun p hp => (List.of_mem_zip hp).2
    rw [List.filter_eq_self.2 (fun p hp => by rw [ntrig p.2 (all p hp)]; rfl)]
    apply List.ext_getElem?
    intro k
    rw [List.getElem?_map, List.getElem?_map]
    cases hk : cs[k]? with
    | none =>
      rw [List.getElem?_eq_none_iff] at hk
      rw [List.getElem?_eq_none (by rw [List.length_zip]; omega)]
      rfl
    | some c =>
      obtain ⟨x, hx, o⟩ := own k c hk
      rw [show (P.zip cs)[k]? = some (x, c) from List.getElem?_zip_eq_some.2 ⟨hx, hk⟩]
      exact congrArg some (seen_eq c x o)
  refine ⟨cs.map fun c => ⟨c.b1, c.b2, c.c1, c.c2, (cfg.red c.pots).flatten⟩, ?_, ?_⟩
  · show (processAll cfg _).bind _ = _
    rw [e, Option.bind_some]
    show (List.foldlM snapPair _ _).bind _ = _
    rw [e2, Option.bind_some, elist]
  · refine ⟨?_, ?_, ?_⟩
    · rw [List.map_map]
      have ids := hi.ids
      unfold List.Nodup at ids ⊢
      rw [List.pairwise_map] at ids ⊢
      refine ids.imp_of_mem fun {a b} ha hb hab he => hab ?_
      obtain ⟨r, hr, -, o⟩ := org a ha
      obtain ⟨r', hr', -, o'⟩ := org b hb
      rw [Prod.mk.injEq] at he
      have h1 : a.c1 = b.c1 := he.1
      have h2 : a.c2 = b.c2 := he.2
      rw [o.1, o'.1]
      exact h.distinct r hr r' hr' (by rw [← o.2.2.2.1, ← o'.2.2.2.1]; exact h1) (by rw [← o.2.2.2.2.1, ← o'.2.2.2.2.1]; exact h2)
    · intro r hr hh
      obtain ⟨c, hcs, hid⟩ := hi.all (lv.run r) (List.mem_map_of_mem hr) hh
      obtain ⟨r', hr', hh', o⟩ := org c hcs
      have hid : c.id = r.id := hid
      obtain ⟨a1, a2, a3, a4, -, -⟩ := h.same r hr r' hr' (hid.symm.trans o.1)
      refine ⟨_, List.mem_map_of_mem hcs, by rw [a1]; exact o.2.1, by rw [a2]; exact o.2.2.1, by rw [a3]; exact o.2.2.2.1, by rw [a4]; exact o.2.2.2.2.1, ?_⟩
      have hne := potne c hcs
      have hf := (pair_fresh hc h hi hcs).1.pots
      show (cfg.red c.pots).flatten ≠ []
      intro hfl
      rw [List.flatten_eq_nil_iff] at hfl
      obtain ⟨m, hm⟩ := List.exists_mem_of_ne_nil _ hne
      exact (hf m hm).1 (hfl m hm)
    · intro s hs
      obtain ⟨c, hcs, rfl⟩ := List.mem_map.1 hs
      obtain ⟨r, hr, hh, o⟩ := org c hcs
      refine ⟨r, hr, hh, o.2.1, o.2.2.1, o.2.2.2.1, o.2.2.2.2.1, fun i hi' => ?_⟩
      obtain ⟨m, hm, him⟩ := List.mem_flatten.1 hi'
      obtain ⟨r', h1, h2, h3, h4⟩ := (pair_fresh hc h hi hcs).2 m hm i him
      exact ⟨r', h1, h2, h3.trans o.1, h4⟩

/-- C116, disagreement: if a trigger is among the colliding pairs, a collision query fails an assertion. -/
theorem query_trigger {cfg : QCfg K} (hc : CfgOk cfg) {rs : List (Raw K)} (h : Wf rs) (lv : Level) {r : Raw K} (hr : r ∈ rs) (hh : r.hit = true) (ht : r.trig = true) :
    collisions cfg (rs.map lv.run) = none := by
  unfold collisions
  rw [if_pos (by rw [List.any_eq_true]; exact ⟨lv.run r, List.mem_map_of_mem hr, hh⟩)]
  show (processAll cfg _).bind _ = _
  cases e : processAll cfg (rs.map lv.run) with
  | none => rfl
  | some cs =>
    obtain ⟨f, hi⟩ := processAll_inv hc (run_wf h lv).1 (run_wf h lv).2 e
    obtain ⟨c, hcs, hid⟩ := hi.all (lv.run r) (List.mem_map_of_mem hr) hh
    obtain ⟨t, htm, -, o⟩ := hi.org c hcs
    obtain ⟨r', hr', rfl⟩ := List.mem_map.1 htm
    have hid : c.id = r.id := hid
    have o1 : c.id = r'.id := o.1
    have tr : c.trig = true := by
      have := (h.same r hr r' hr' (hid.symm.trans o1)).2.2.2.2.1
      have o6 : c.trig = r'.trig := o.2.2.2.2.2
      rw [o6, ← this]
      exact ht
    obtain ⟨k, hk⟩ := List.mem_iff_getElem?.1 hcs
    rw [Option.bind_some]
    show (List.foldlM snapPair _ _).bind _ = _
    rw [snap_none (k := k) (x := c.pair cfg) (by rw [List.getElem?_map, hk]; rfl) (by
      show cfg.red c.pots = []
      rw [(hi.pots c hcs).1 tr]
      exact hc.nil) (List.mem_range.2 (List.getElem?_eq_some_iff.1 hk).1)]
    rfl

/-! ### Examples -/

namespace Ex

def cfg : QCfg ℚ := ⟨9 / 10, 255, 64, fun ms => ms⟩

theorem cfg_ok : CfgOk cfg := ⟨by decide, by decide, rfl, fun _ h => h, fun ms h m hm => ⟨h m hm, m, hm, fun _ hi => hi⟩⟩

/-- Two convex colliders in contact, a mesh whose two triangles touch a third collider, and two colliders that do not touch. -/
def raws : List (Raw ℚ) := [⟨5, 0, 1, 0, 1, false, true, true, [Warm.Ex.info 0]⟩, ⟨6, 0, 2, 0, 2, false, false, true, [Warm.Ex.info 1]⟩,
  ⟨6, 0, 2, 0, 2, false, false, true, [Warm.Ex.info 2, Warm.Ex.info 3]⟩, ⟨7, 1, 2, 1, 2, true, true, false, []⟩]

theorem good (z : ℚ) : Good (Warm.Ex.info z) :=
  ⟨by show (0 : ℚ) < 1 / 100; norm_num, by show (8 / 10 : ℚ) < 1 * 1 + 0 * 0 + 0 * 0; norm_num⟩

theorem raws_wf : Wf raws := by
  refine ⟨by decide +kernel, by decide +kernel, by decide +kernel, ?_⟩
  intro r hr hh
  refine ⟨?_, fun i hi => ?_⟩
  · revert r
    decide +kernel
  · obtain ⟨z, rfl⟩ : ∃ z, i = Warm.Ex.info z := by
      simp only [raws, List.mem_cons, List.not_mem_nil, or_false] at hr
      rcases hr with rfl | rfl | rfl | rfl <;> simp at hi
      · exact ⟨_, hi⟩
      · exact ⟨_, hi⟩
      · rcases hi with hi | hi <;> exact ⟨_, hi⟩
    exact good z

example : ∀ r ∈ raws, r.hit = true → r.trig = false := by decide +kernel

/-- The two pairs in contact are reported, with all their points. -/
example : collisions cfg (raws.map Level.body.run) = some [⟨0, 1, 0, 1, [Warm.Ex.info 0]⟩, ⟨0, 2, 0, 2, [Warm.Ex.info 1, Warm.Ex.info 2, Warm.Ex.info 3]⟩] := by
  decide +kernel

/-- A trigger in contact. -/
def trigRaws : List (Raw ℚ) := [⟨5, 0, 1, 0, 1, true, true, true, [Warm.Ex.info 0]⟩]

theorem trigRaws_wf : Wf trigRaws := by
  refine ⟨by decide +kernel, by decide +kernel, by decide +kernel, ?_⟩
  intro r hr _
  rw [trigRaws, List.mem_singleton] at hr
  subst hr
  exact ⟨by simp, by simpa using good 0⟩

example (lv : Level) : collisions cfg (trigRaws.map lv.run) = none := query_trigger cfg_ok trigRaws_wf lv List.mem_cons_self rfl rfl

end Ex

end Query
end RP3D
