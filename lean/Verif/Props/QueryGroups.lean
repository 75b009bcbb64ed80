import Verif.Props.Query

/-! How the contact points of a pair are grouped into potential manifolds (C116). -/

set_option linter.unusedSectionVars false

namespace RP3D
namespace Query
open Warm

variable {K : Type} [Field K] [LinearOrder K]

/-! ### Specification -/

/-- The points of a pair with a concave shape, grouped: not too many groups of not too many points, in each group the normals are close to that of the
first point, and no point is lost as long as there is room for another group. -/
structure Grouped (cfg : QCfg K) (ms : List (List (Info K))) (S : Info K → Prop) : Prop where
  count : ms.length ≤ cfg.maxM
  size : ∀ m ∈ ms, m ≠ [] ∧ m.length ≤ cfg.cap
  similar : ∀ q rest, q :: rest ∈ ms → ∀ i ∈ rest, cfg.cos ≤ V3.dot q.normal i.normal
  only : ∀ m ∈ ms, ∀ i ∈ m, S i
  kept : ∀ p, S p → (∃ m ∈ ms, p ∈ m) ∨ ms.length = cfg.maxM

/-! ### The grouping -/

theorem addSimilar_grouped {cfg : QCfg K} {p : Info K} : ∀ {ms ms' : List (List (Info K))}, addSimilar cfg p ms = some ms' →
    ms'.length = ms.length ∧ (∃ m ∈ ms', p ∈ m) ∧ (∀ m ∈ ms, ∃ m' ∈ ms', ∀ i ∈ m, i ∈ m') ∧
    ∀ m ∈ ms', m ∈ ms ∨ ∃ q rest, q :: rest ∈ ms ∧ m = q :: (rest ++ [p]) ∧ (q :: rest).length < cfg.cap ∧ cfg.cos ≤ V3.dot q.normal p.normal
  | [], _, e => by cases e
  | m :: ms, ms', e => by
    have rest : (addSimilar cfg p ms).map (m :: ·) = some ms' →
        ms'.length = (m :: ms).length ∧ (∃ m ∈ ms', p ∈ m) ∧ (∀ k ∈ m :: ms, ∃ m' ∈ ms', ∀ i ∈ k, i ∈ m') ∧
        ∀ k ∈ ms', k ∈ m :: ms ∨ ∃ q rest, q :: rest ∈ m :: ms ∧ k = q :: (rest ++ [p]) ∧ (q :: rest).length < cfg.cap ∧ cfg.cos ≤ V3.dot q.normal p.normal := by
      intro e
      obtain ⟨l, e1, rfl⟩ := Option.map_eq_some_iff.1 e
      obtain ⟨a, ⟨b, hb, hpb⟩, c, d⟩ := addSimilar_grouped e1
      refine ⟨by simp [a], ⟨b, List.mem_cons_of_mem _ hb, hpb⟩, ?_, ?_⟩
      · intro k hk
        rcases List.mem_cons.1 hk with rfl | hk
        · exact ⟨k, List.mem_cons_self, fun _ h => h⟩
        · obtain ⟨m', h1, h2⟩ := c k hk
          exact ⟨m', List.mem_cons_of_mem _ h1, h2⟩
      · intro k hk
        rcases List.mem_cons.1 hk with rfl | hk
        · exact .inl List.mem_cons_self
        · rcases d k hk with h | ⟨q, r, h1, h2⟩
          · exact .inl (List.mem_cons_of_mem _ h)
          · exact .inr ⟨q, r, List.mem_cons_of_mem _ h1, h2⟩
    unfold addSimilar at e
    cases m with
    | nil => exact rest e
    | cons q r =>
      dsimp only at e
      split at e
      · rename_i hc
        cases e
        refine ⟨rfl, ⟨_, List.mem_cons_self, by simp⟩, ?_, ?_⟩
        · intro k hk
          rcases List.mem_cons.1 hk with rfl | hk
          · exact ⟨_, List.mem_cons_self, fun i hi => List.mem_append_left _ hi⟩
          · exact ⟨k, List.mem_cons_of_mem _ hk, fun _ h => h⟩
        · intro k hk
          rcases List.mem_cons.1 hk with rfl | hk
          · exact .inr ⟨q, r, List.mem_cons_self, rfl, hc.1, hc.2⟩
          · exact .inl (List.mem_cons_of_mem _ hk)
      · exact rest e

theorem addPoint_grouped {cfg : QCfg K} (hcap : 0 < cfg.cap) {ms : List (List (Info K))} {S : Info K → Prop} (h : Grouped cfg ms S) (p : Info K) :
    Grouped cfg (addPoint cfg ms p) fun i => S i ∨ i = p := by
  unfold addPoint
  split
  · rename_i ms' e
    obtain ⟨a, ⟨b, hb, hpb⟩, c, d⟩ := addSimilar_grouped e
    refine ⟨a ▸ h.count, ?_, ?_, ?_, ?_⟩
    · intro m hm
      rcases d m hm with hm | ⟨q, r, h1, rfl, h3, _⟩
      · exact h.size m hm
      · refine ⟨by simp, ?_⟩
        simp only [List.length_cons, List.length_append, List.length_nil] at h3 ⊢
        omega
    · intro q rest hm i hi
      rcases d _ hm with hm | ⟨q', r, h1, h2, _, h4⟩
      · exact h.similar q rest hm i hi
      · cases h2
        rcases List.mem_append.1 hi with hi | hi
        · exact h.similar q r h1 i hi
        · rw [List.mem_singleton.1 hi]; exact h4
    · intro m hm i hi
      rcases d m hm with hm | ⟨q, r, h1, rfl, _⟩
      · exact .inl (h.only m hm i hi)
      · rw [← List.cons_append] at hi
        rcases List.mem_append.1 hi with hi | hi
        · exact .inl (h.only _ h1 i hi)
        · exact .inr (List.mem_singleton.1 hi)
    · rintro i (hi | rfl)
      · rcases h.kept i hi with ⟨m, hm, him⟩ | hf
        · obtain ⟨m', h1, h2⟩ := c m hm
          exact .inl ⟨m', h1, h2 i him⟩
        · exact .inr (a.trans hf)
      · exact .inl ⟨b, hb, hpb⟩
  · split
    · rename_i hlt
      refine ⟨by simp; omega, ?_, ?_, ?_, ?_⟩
      · intro m hm
        rcases List.mem_append.1 hm with hm | hm
        · exact h.size m hm
        · rw [List.mem_singleton.1 hm]
          exact ⟨by simp, hcap⟩
      · intro q rest hm i hi
        rcases List.mem_append.1 hm with hm | hm
        · exact h.similar q rest hm i hi
        · rw [List.mem_singleton] at hm
          cases hm
          cases hi
      · intro m hm i hi
        rcases List.mem_append.1 hm with hm | hm
        · exact .inl (h.only m hm i hi)
        · rw [List.mem_singleton.1 hm] at hi
          exact .inr (List.mem_singleton.1 hi)
      · rintro i (hi | rfl)
        · rcases h.kept i hi with ⟨m, hm, him⟩ | hf
          · exact .inl ⟨m, List.mem_append_left _ hm, him⟩
          · omega
        · exact .inl ⟨[i], by simp, by simp⟩
    · rename_i hlt
      refine ⟨h.count, h.size, h.similar, fun m hm i hi => .inl (h.only m hm i hi), ?_⟩
      rintro i _
      exact .inr (le_antisymm h.count (not_lt.1 hlt))

theorem Grouped.congr {cfg : QCfg K} {ms : List (List (Info K))} {S T : Info K → Prop} (h : Grouped cfg ms S) (e : ∀ i, S i ↔ T i) : Grouped cfg ms T :=
  ⟨h.count, h.size, h.similar, fun m hm i hi => (e i).1 (h.only m hm i hi), fun p hp => h.kept p ((e p).2 hp)⟩

theorem fold_grouped {cfg : QCfg K} (hcap : 0 < cfg.cap) : ∀ (ps : List (Info K)) {ms : List (List (Info K))} {S : Info K → Prop}, Grouped cfg ms S →
    Grouped cfg (ps.foldl (addPoint cfg) ms) fun i => S i ∨ i ∈ ps
  | [], ms, S, h => h.congr fun i => by simp
  | p :: ps, ms, S, h => (fold_grouped hcap ps (addPoint_grouped hcap h p)).congr fun i => by simp [or_assoc]

/-- What is known of the contact pairs so far. -/
def Groups (cfg : QCfg K) (done : List (Test K)) (s : (Nat → Option Nat) × List (Cand K)) : Prop :=
  ∀ c ∈ s.2, (∀ t ∈ done, t.hit = true → t.id = c.id → t.convex = true → c.pots = if t.pts = [] then [] else [t.pts.take cfg.cap]) ∧
    ((∀ t ∈ done, t.hit = true → t.id = c.id → t.convex = false) → Grouped cfg c.pots fun i => ∃ t ∈ done, t.hit = true ∧ t.id = c.id ∧ i ∈ t.pts)

theorem process_groups {cfg : QCfg K} (hc : CfgOk cfg) {ts done : List (Test K)} {t : Test K} (hts : ∀ t' ∈ done ++ [t], t' ∈ ts)
    (same : ∀ r ∈ ts, ∀ r' ∈ ts, r.id = r'.id → r.b1 = r'.b1 ∧ r.b2 = r'.b2 ∧ r.c1 = r'.c1 ∧ r.c2 = r'.c2 ∧ r.trig = r'.trig ∧ r.convex = r'.convex)
    (once : ∀ t' ∈ done, t'.id = t.id → t'.convex = false) {s s' : (Nat → Option Nat) × List (Cand K)} (h : Inv done s) (g : Groups cfg done s)
    (e : process cfg s t = some s') : Groups cfg (done ++ [t]) s' := by
  have mem : t ∈ ts := hts t (by simp)
  have memd : ∀ t' ∈ done, t' ∈ ts := fun t' h => hts t' (by simp [h])
  have empty : Grouped cfg [] fun _ => False := ⟨Nat.zero_le _, by simp, by simp, by simp, by simp⟩
  -- pairs of other tests
  have other : ∀ c ∈ s.2, (t.hit = true → t.id ≠ c.id) →
      (∀ t' ∈ done ++ [t], t'.hit = true → t'.id = c.id → t'.convex = true → c.pots = if t'.pts = [] then [] else [t'.pts.take cfg.cap]) ∧
      ((∀ t' ∈ done ++ [t], t'.hit = true → t'.id = c.id → t'.convex = false) →
        Grouped cfg c.pots fun i => ∃ t' ∈ done ++ [t], t'.hit = true ∧ t'.id = c.id ∧ i ∈ t'.pts) := by
    intro c hcs hne
    obtain ⟨g1, g2⟩ := g c hcs
    refine ⟨fun t' ht' hh hid hcv => ?_, fun hall => (g2 fun t' ht' => hall t' (List.mem_append_left _ ht')).congr fun i => ?_⟩
    · rcases List.mem_append.1 ht' with ht' | ht'
      · exact g1 t' ht' hh hid hcv
      · rw [List.mem_singleton] at ht'
        subst ht'
        exact absurd hid (hne hh)
    · refine ⟨fun ⟨t', a, b⟩ => ⟨t', List.mem_append_left _ a, b⟩, fun ⟨t', a, b1, b2, b3⟩ => ?_⟩
      rcases List.mem_append.1 a with a | a
      · exact ⟨t', a, b1, b2, b3⟩
      · rw [List.mem_singleton] at a
        subst a
        exact absurd b2 (hne b1)
  unfold process at e
  split at e
  · rename_i hit
    split at e
    · split at e
      · rename_i hcv
        cases e
        have new : ∀ c ∈ s.2, t.id ≠ c.id := by
          intro c hcs he
          obtain ⟨t', ht', -, o⟩ := h.org c hcs
          have := once t' ht' (o.1.symm.trans he.symm)
          rw [(same t mem t' (memd t' ht') (he.trans o.1)).2.2.2.2.2, this] at hcv
          cases hcv
        intro c hcs
        rcases List.mem_append.1 hcs with hcs | hcs
        · exact other c hcs fun _ => new c hcs
        · rw [List.mem_singleton] at hcs
          subst hcs
          refine ⟨fun t' ht' hh hid hcv' => ?_, fun hall => ?_⟩
          · rcases List.mem_append.1 ht' with ht' | ht'
            · have := once t' ht' hid
              rw [this] at hcv'
              cases hcv'
            · rw [List.mem_singleton.1 ht']
          · have := hall t (by simp) hit rfl
            rw [hcv] at this
            cases this
      · rename_i hcv
        have hcv : t.convex = false := by simpa using hcv
        split at e
        · rename_i hm
          cases e
          have new : ∀ t' ∈ done, t'.hit = true → t'.id ≠ t.id := by
            intro t' ht' hh he
            have := (same t mem t' (memd t' ht') he.symm).2.2.2.2.2
            obtain ⟨j, hj⟩ := h.mapped t' ht' hh (this.symm.trans hcv)
            rw [he, hm] at hj
            cases hj
          intro c hcs
          rcases List.mem_append.1 hcs with hcs | hcs
          · refine other c hcs fun _ he => ?_
            obtain ⟨t', ht', hh, o⟩ := h.org c hcs
            exact new t' ht' hh (o.1.symm.trans he.symm)
          · rw [List.mem_singleton] at hcs
            subst hcs
            refine ⟨fun t' ht' hh hid hcv' => ?_, fun hall => ?_⟩
            · rcases List.mem_append.1 ht' with ht' | ht'
              · exact absurd hid (new t' ht' hh)
              · rw [List.mem_singleton.1 ht', hcv] at hcv'
                cases hcv'
            · refine (fold_grouped hc.cap t.pts empty).congr fun i => ?_
              refine ⟨fun hi => ⟨t, by simp, hit, rfl, by simpa using hi⟩, fun ⟨t', a, b1, b2, b3⟩ => .inr ?_⟩
              rcases List.mem_append.1 a with a | a
              · exact absurd b2 (new t' a b1)
              · rw [List.mem_singleton.1 a] at b3
                exact b3
        · rename_i j hm
          obtain ⟨c, hj, rfl⟩ := Option.map_eq_some_iff.1 e
          obtain ⟨c', hj', hid⟩ := h.map t.id j hm
          rw [hj] at hj'
          cases hj'
          have hcs := List.mem_of_getElem? hj
          intro c2 hc2
          obtain ⟨k, hk⟩ := List.mem_iff_getElem?.1 hc2
          by_cases hjk : j = k
          · subst hjk
            dsimp only at hk
            rw [set_self hj] at hk
            cases hk
            refine ⟨fun t' ht' hh hid' hcv' => ?_, fun hall => ?_⟩
            · have := (same t mem t' (hts t' ht') (hid.symm.trans hid'.symm)).2.2.2.2.2
              rw [← this, hcv] at hcv'
              cases hcv'
            · have g2 := (g c hcs).2 fun t' ht' => hall t' (List.mem_append_left _ ht')
              refine (fold_grouped hc.cap t.pts g2).congr fun i => ?_
              refine ⟨?_, fun ⟨t', a, b1, b2, b3⟩ => ?_⟩
              · rintro (⟨t', a, b⟩ | hi)
                · exact ⟨t', List.mem_append_left _ a, b⟩
                · exact ⟨t, by simp, hit, hid.symm, hi⟩
              · rcases List.mem_append.1 a with a | a
                · exact .inl ⟨t', a, b1, b2, b3⟩
                · rw [List.mem_singleton.1 a] at b3
                  exact .inr b3
          · dsimp only at hk
            rw [List.getElem?_set_ne hjk] at hk
            refine other c2 (List.mem_of_getElem? hk) fun _ he => hjk ?_
            have nd := h.ids
            have l1 := (List.getElem?_eq_some_iff.1 hj).1
            have l2 := (List.getElem?_eq_some_iff.1 hk).1
            refine (List.Nodup.getElem_inj_iff nd (hi := by simpa using l1) (hj := by simpa using l2)).1 ?_
            rw [List.getElem_map, List.getElem_map, (List.getElem?_eq_some_iff.1 hj).2, (List.getElem?_eq_some_iff.1 hk).2, hid, he]
    · cases e
  · rename_i hit
    cases e
    exact fun c hcs => other c hcs fun hh => absurd hh hit

theorem processAll_groups {cfg : QCfg K} (hc : CfgOk cfg) {ts : List (Test K)}
    (same : ∀ r ∈ ts, ∀ r' ∈ ts, r.id = r'.id → r.b1 = r'.b1 ∧ r.b2 = r'.b2 ∧ r.c1 = r'.c1 ∧ r.c2 = r'.c2 ∧ r.trig = r'.trig ∧ r.convex = r'.convex)
    (once : ts.Pairwise fun r r' => r.id = r'.id → r.convex = false) {cs : List (Cand K)} (e : processAll cfg ts = some cs) : ∃ f, Groups cfg ts (f, cs) := by
  obtain ⟨⟨f, cs'⟩, e0, rfl⟩ := Option.map_eq_some_iff.1 e
  suffices H : ∀ (l done : List (Test K)) (s s' : (Nat → Option Nat) × List (Cand K)), done ++ l = ts → Inv done s → Groups cfg done s →
      l.foldlM (process cfg) s = some s' → Groups cfg ts s' by
    exact ⟨f, H ts [] ((fun _ => none), []) (f, cs') rfl ⟨by simp, by simp, by simp, by simp, by simp, by simp⟩ (by simp [Groups]) e0⟩
  intro l
  induction l with
  | nil =>
    intro done s s' hd _ g e
    cases e
    rw [List.append_nil] at hd
    rwa [← hd]
  | cons t l ih =>
    intro done s s' hd h g e
    rw [List.foldlM_cons] at e
    obtain ⟨s1, e1, e2⟩ := Option.bind_eq_some_iff.1 e
    have hd' : (done ++ [t]) ++ l = ts := by simpa using hd
    have hm : ∀ t' ∈ done ++ [t], t' ∈ ts := fun t' ht' => by rw [← hd']; exact List.mem_append_left _ ht'
    have ho : ∀ t' ∈ done, t'.id = t.id → t'.convex = false := fun t' ht' => by
      rw [← hd, List.pairwise_append] at once
      exact once.2.2 t' ht' t List.mem_cons_self
    exact ih (done ++ [t]) s1 s' hd' (process_inv hc hm same ho h e1) (process_groups hc hm same ho h g e1) e2

/-- **C116, the manifolds.** A pair of convex shapes gets one potential manifold with its contact points (the first 255 of them). The contact points of
the triangles of a concave shape are grouped by their normals, none is lost as long as the largest number of manifolds is not reached, and none appears
that the narrow phase did not find. -/
theorem step_groups {cfg : QCfg K} (hc : CfgOk cfg) {rs : List (Raw K)} (h : Wf rs) {cs : List (Cand K)} (e : processAll cfg (rs.map Level.world.run) = some cs) :
    ∀ c ∈ cs, ∀ r ∈ rs, r.hit = true → r.id = c.id → r.trig = false →
      (r.convex = true → c.pots = [r.pts.take cfg.cap]) ∧
      (r.convex = false → Grouped cfg c.pots fun i => ∃ r' ∈ rs, r'.hit = true ∧ r'.id = r.id ∧ i ∈ r'.pts) := by
  intro c hcs r hr hh hid htr
  obtain ⟨f, g⟩ := processAll_groups hc (run_wf h .world).1 (run_wf h .world).2 e
  obtain ⟨g1, g2⟩ := g c hcs
  have run : ∀ r' ∈ rs, r'.id = r.id → (Level.world.run r').pts = r'.pts := by
    intro r' hr' e
    have := (h.same r' hr' r hr e).2.2.2.2.1
    show (if (!r'.trig) = true then r'.pts else []) = r'.pts
    rw [this, htr]
    rfl
  refine ⟨fun hcv => ?_, fun hcv => ?_⟩
  · have := g1 (Level.world.run r) (List.mem_map_of_mem hr) hh hid hcv
    rw [run r hr rfl, if_neg (h.pts r hr hh).1] at this
    exact this
  · refine (g2 ?_).congr fun i => ?_
    · intro t ht _ ht2
      obtain ⟨r', hr', rfl⟩ := List.mem_map.1 ht
      have e1 : r'.id = r.id := Eq.trans ht2 hid.symm
      exact ((h.same r' hr' r hr e1).2.2.2.2.2).trans hcv
    · constructor
      · rintro ⟨t, ht, t1, t2, t3⟩
        obtain ⟨r', hr', rfl⟩ := List.mem_map.1 ht
        have e1 : r'.id = r.id := Eq.trans t2 hid.symm
        rw [run r' hr' e1] at t3
        exact ⟨r', hr', t1, e1, t3⟩
      · rintro ⟨r', hr', t1, e1, t3⟩
        exact ⟨Level.world.run r', List.mem_map_of_mem hr', t1, Eq.trans e1 hid, by rw [run r' hr' e1]; exact t3⟩

/-- The hypotheses are met. -/
example : ∃ cs, processAll Ex.cfg (Ex.raws.map Level.world.run) = some cs ∧ ∃ c ∈ cs, ∃ r ∈ Ex.raws, r.hit = true ∧ r.id = c.id ∧ r.trig = false ∧
    r.convex = false ∧ Grouped Ex.cfg c.pots fun i => ∃ r' ∈ Ex.raws, r'.hit = true ∧ r'.id = r.id ∧ i ∈ r'.pts := by
  obtain ⟨cs, e, _, _, h, _⟩ := step_pairs Ex.cfg_ok Ex.raws_wf
  have hr : (⟨6, 0, 2, 0, 2, false, false, true, [Warm.Ex.info 1]⟩ : Raw ℚ) ∈ Ex.raws := by decide +kernel
  obtain ⟨c, hc, o⟩ := h _ hr rfl
  exact ⟨cs, e, c, hc, _, hr, rfl, o.1.symm, rfl, rfl, (step_groups Ex.cfg_ok Ex.raws_wf e c hc _ hr rfl o.1.symm rfl).2 rfl⟩

end Query
end RP3D
