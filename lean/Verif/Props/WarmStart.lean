import Verif.Contacts.WarmLemmas
import Verif.Props.World

/-! The contacts of a frame and the impulses they start with (C115). -/

namespace RP3D
namespace Warm

variable {K : Type} [Field K] [LinearOrder K]

/-! ### Specification -/

/-- The contact points of a pair. -/
def pointsOf (F : Frame K) (x : CPair K) : List (Point K) := block F.pts x.ptIdx x.nbPts

/-- The manifolds of a pair. -/
def mansOf (F : Frame K) (x : CPair K) : List (Man K) := block F.mans x.manIdx x.nbMan

/-- The contact points of the pair with this number in a frame; none if there is no such pair. -/
def before (F : Frame K) (id : Nat) : List (Point K) :=
  match F.pairs.find? (fun y => y.id = id) with
  | some y => pointsOf F y
  | none => []

/-- The manifolds of the pair with this number: normal of the first contact point, and friction. -/
def beforeMans (F : Frame K) (id : Nat) : List (Option (V3 K) × Fric K) :=
  match F.pairs.find? (fun y => y.id = id) with
  | some y => (mansOf F y).map fun m => ((F.pts[m.start]?).map fun q => q.info.normal, m.fr)
  | none => []

/-- Where a contact point starts: with the impulse of the first old point that is near on the first shape, or with none. -/
def startPoint (cfg : WCfg K) (old : List (Point K)) (i : Info K) : Point K :=
  match old.find? (fun p => decide ((i.p1 - p.info.p1).lengthSq ≤ cfg.thr * cfg.thr)) with
  | some p => ⟨i, p.imp, p.rest⟩
  | none => ⟨i, 0, false⟩

/-- Where a manifold starts: with the friction of the first old manifold of about the same normal, or with none. -/
def startFric (cfg : WCfg K) (old : List (Option (V3 K) × Fric K)) (n : V3 K) : Fric K :=
  match old.find? (fun p => match p.1 with | some n' => decide (V3.dot n' n ≥ cfg.cos) | none => false) with
  | some p => p.2
  | none => Fric.zero

/-- The arrays of a frame fit together. -/
structure Ok (F : Frame K) : Prop where
  ids : (F.pairs.map (·.id)).Nodup
  known : ∀ j y, F.pairs[j]? = some y → F.map y.id = some j
  exact : ∀ id j, F.map id = some j → ∃ y, F.pairs[j]? = some y ∧ y.id = id
  pts : ∀ x ∈ F.pairs, x.ptIdx + x.nbPts ≤ F.pts.length
  mans : ∀ x ∈ F.pairs, x.manIdx + x.nbMan ≤ F.mans.length
  man : ∀ x ∈ F.pairs, ∀ m ∈ mansOf F x, 0 < m.nb ∧ m.start < F.pts.length

/-- What the solver may do with the arrays: it writes impulses, resting flags and friction. -/
structure Solved (F F' : Frame K) : Prop where
  pairs : F'.pairs = F.pairs
  map : F'.map = F.map
  pts : F'.pts.map (·.info) = F.pts.map (·.info)
  mans : F'.mans.map (fun m => (m.start, m.nb)) = F.mans.map (fun m => (m.start, m.nb))

/-! ### Proofs -/

theorem findSome_ite {β γ : Type} (l : List β) (p : β → Bool) (g : β → γ) : l.findSome? (fun a => if p a = true then some (g a) else none) = (l.find? p).map g := by
  induction l with
  | nil => rfl
  | cons a l ih =>
    rw [List.findSome?_cons, List.find?_cons]
    cases h : p a with
    | true => simp
    | false => simpa using ih

/-- The change of a contact point. -/
def wP (cfg : WCfg K) (old : List (Point K)) (q : Point K) : Point K :=
  match old.find? (fun p => decide ((q.info.p1 - p.info.p1).lengthSq ≤ cfg.thr * cfg.thr)) with
  | some p => { q with imp := p.imp, rest := p.rest }
  | none => q

/-- The change of a manifold. -/
def wM (cfg : WCfg K) (old : List (Option (V3 K) × Fric K)) (Q : List (Point K)) (m : Man K) : Man K :=
  match Q[m.start]? with
  | some q =>
    match old.find? (fun p => match p.1 with | some n' => decide (V3.dot n' q.info.normal ≥ cfg.cos) | none => false) with
    | some p => { m with fr := p.2 }
    | none => m
  | none => m

theorem wP_info (cfg : WCfg K) (old : List (Point K)) (q : Point K) : (wP cfg old q).info = q.info := by
  unfold wP
  split <;> rfl

theorem wP_fresh (cfg : WCfg K) (old : List (Point K)) (i : Info K) : wP cfg old (fresh i) = startPoint cfg old i := by
  unfold wP startPoint fresh
  dsimp only

theorem wM_start (cfg : WCfg K) (old : List (Option (V3 K) × Fric K)) (Q : List (Point K)) (m : Man K) :
    (wM cfg old Q m).start = m.start ∧ (wM cfg old Q m).nb = m.nb := by
  unfold wM
  split
  · split <;> exact ⟨rfl, rfl⟩
  · exact ⟨rfl, rfl⟩

theorem wM_congr (cfg : WCfg K) (old : List (Option (V3 K) × Fric K)) {Q Q' : List (Point K)} (h : Q'.map (·.info) = Q.map (·.info)) (m : Man K) :
    wM cfg old Q' m = wM cfg old Q m := by
  have e : (Q'[m.start]?).map (·.info) = (Q[m.start]?).map (·.info) := by
    rw [← List.getElem?_map, ← List.getElem?_map, h]
  unfold wM
  cases h1 : Q'[m.start]? with
  | none =>
    cases h2 : Q[m.start]? with
    | none => rfl
    | some q => rw [h1, h2] at e; cases e
  | some q' =>
    cases h2 : Q[m.start]? with
    | none => rw [h1, h2] at e; cases e
    | some q =>
      rw [h1, h2] at e
      have : q'.info = q.info := by simpa using e
      simp only [this]

theorem map_find {F : Frame K} (h : Ok F) (id : Nat) :
    (F.map id = none ∧ F.pairs.find? (fun y => y.id = id) = none) ∨
    ∃ j y, F.map id = some j ∧ F.pairs[j]? = some y ∧ y ∈ F.pairs ∧ F.pairs.find? (fun y => y.id = id) = some y := by
  cases hm : F.map id with
  | none =>
    left
    refine ⟨rfl, ?_⟩
    rw [List.find?_eq_none]
    intro y hy he
    obtain ⟨j, hj⟩ := List.mem_iff_getElem?.1 hy
    have := h.known j y hj
    rw [of_decide_eq_true he, hm] at this
    cases this
  | some j =>
    right
    obtain ⟨y, hy, he⟩ := h.exact id j hm
    refine ⟨j, y, rfl, hy, List.mem_of_getElem? hy, ?_⟩
    cases hf : F.pairs.find? (fun y => y.id = id) with
    | none =>
      rw [List.find?_eq_none] at hf
      exact absurd (decide_eq_true he) (hf y (List.mem_of_getElem? hy))
    | some z =>
      have hz : z.id = id := of_decide_eq_true (List.find?_some (p := fun y : CPair K => decide (y.id = id)) hf)
      obtain ⟨l, hl⟩ := List.mem_iff_getElem?.1 (List.mem_of_find?_eq_some hf)
      have := h.known l z hl
      rw [hz, hm] at this
      cases this
      rw [hy] at hl
      exact hl.symm

/-- One pair of the current frame. -/
theorem warmPair_eq {cfg : WCfg K} {old : Frame K} (h : Ok old) {M : List (Man K)} {Q : List (Point K)} {x : CPair K} (hp : x.ptIdx + x.nbPts ≤ Q.length)
    (hm : ∀ c, InM x c → ∃ m, M[c]? = some m ∧ 0 < m.nb ∧ m.start < Q.length) :
    ∃ M' Q', warmPair cfg old (M, Q) x = some (M', Q') ∧
      (∀ c, Q'[c]? = if InP x c then (Q[c]?).map (wP cfg (before old x.id)) else Q[c]?) ∧
      (∀ c, M'[c]? = if InM x c then (M[c]?).map (wM cfg (beforeMans old x.id) Q) else M[c]?) := by
  unfold warmPair
  rcases map_find h x.id with ⟨e1, e2⟩ | ⟨j, y, e1, e2, hy, e3⟩
  · rw [e1]
    refine ⟨M, Q, rfl, fun c => ?_, fun c => ?_⟩
    · split
      · have : wP cfg (before old x.id) = fun q => q := by
          funext q
          simp [wP, before, e2]
        rw [this]
        simp
      · rfl
    · split
      · have : wM cfg (beforeMans old x.id) Q = fun q => q := by
          funext m
          unfold wM
          split <;> simp [beforeMans, e2]
        rw [this]
        simp
      · rfl
  · rw [e1]
    have b1 : before old x.id = pointsOf old y := by simp [before, e3]
    have b2 : beforeMans old x.id = (mansOf old y).map fun m => ((old.pts[m.start]?).map fun q => q.info.normal, m.fr) := by simp [beforeMans, e3]
    have sM : ∀ n, search (likeMan cfg old n) y.manIdx y.nbMan =
        some ((mansOf old y).find? fun m => match (old.pts[m.start]?).map (fun q => q.info.normal) with | some n' => decide (V3.dot n' n ≥ cfg.cos) | none => false) := by
      intro n
      have e := search_eq (f := likeMan cfg old n) (g := fun m : Man K =>
        if (match (old.pts[m.start]?).map (fun q => q.info.normal) with | some n' => decide (V3.dot n' n ≥ cfg.cos) | none => false) = true then some m else none)
        (l := old.mans) (h.mans y hy) (by
          intro c v h1 h2 hv
          have hin : v ∈ mansOf old y := by
            unfold mansOf
            rw [List.mem_iff_getElem?]
            refine ⟨c - y.manIdx, ?_⟩
            rw [block_get, if_pos (by omega), ← hv]
            congr 1
            omega
          obtain ⟨v1, v2⟩ := h.man y hy v hin
          unfold likeMan
          show (old.mans[c]?).bind _ = _
          rw [hv, Option.bind_some, if_pos v1]
          obtain ⟨q, hq⟩ : ∃ q, old.pts[v.start]? = some q := ⟨_, List.getElem?_eq_getElem v2⟩
          show (old.pts[v.start]?).bind _ = _
          rw [hq]
          simp)
      rw [e]
      congr 1
      have := findSome_ite (block old.mans y.manIdx y.nbMan) (fun m : Man K => match (old.pts[m.start]?).map (fun q => q.info.normal) with | some n' => decide (V3.dot n' n ≥ cfg.cos) | none => false) id
      simp only [id_eq, Option.map_id_fun] at this
      exact this
    have sP : ∀ p, search (likePoint cfg old p) y.ptIdx y.nbPts = some ((pointsOf old y).find? fun q => decide ((p - q.info.p1).lengthSq ≤ cfg.thr * cfg.thr)) := by
      intro p
      have e := search_eq (f := likePoint cfg old p) (g := fun q : Point K => if decide ((p - q.info.p1).lengthSq ≤ cfg.thr * cfg.thr) = true then some q else none)
        (l := old.pts) (h.pts y hy) (by
          intro c v _ _ hv
          unfold likePoint
          show (old.pts[c]?).bind _ = _
          rw [hv]
          simp)
      rw [e]
      congr 1
      have := findSome_ite (block old.pts y.ptIdx y.nbPts) (fun q : Point K => decide ((p - q.info.p1).lengthSq ≤ cfg.thr * cfg.thr)) id
      simp only [id_eq, Option.map_id_fun] at this
      exact this
    have set_same : ∀ {β : Type} (l : List β) (c : Nat) (v : β), l[c]? = some v → l.set c v = l := by
      intro β l c v hv
      apply List.ext_getElem?
      intro i
      by_cases hi : c = i
      · subst hi
        rw [List.getElem?_set_self', hv]
        rfl
      · rw [List.getElem?_set_ne hi]
    obtain ⟨M', eM, hM⟩ := overRange_eq (f := warmMan cfg old y Q) (g := wM cfg (beforeMans old x.id) Q) (ok := fun m => 0 < m.nb ∧ m.start < Q.length)
      (l := M) (a := x.manIdx) (n := x.nbMan) (by
        intro l c m hl hk
        obtain ⟨q, hq⟩ : ∃ q, Q[m.start]? = some q := ⟨_, List.getElem?_eq_getElem hk.2⟩
        unfold warmMan
        show (l[c]?).bind _ = _
        rw [hl, Option.bind_some, if_pos hk.1]
        show (Q[m.start]?).bind _ = _
        rw [hq, Option.bind_some]
        show (search _ _ _).bind _ = _
        rw [sM, Option.bind_some]
        congr 1
        unfold wM
        simp only [hq, b2, List.find?_map, Function.comp_def]
        cases hf : (mansOf old y).find? (fun m => match (old.pts[m.start]?).map (fun q => q.info.normal) with | some n' => decide (V3.dot n' q.info.normal ≥ cfg.cos) | none => false) with
        | none => simp [set_same l c m hl]
        | some p => simp) (fun c h1 h2 => hm c ⟨h1, h2⟩)
    obtain ⟨Q', eQ, hQ⟩ := overRange_eq (f := warmPoint cfg old y) (g := wP cfg (before old x.id)) (ok := fun _ => True)
      (l := Q) (a := x.ptIdx) (n := x.nbPts) (by
        intro l c q hl _
        unfold warmPoint
        show (l[c]?).bind _ = _
        rw [hl, Option.bind_some]
        show (search _ _ _).bind _ = _
        rw [sP, Option.bind_some]
        congr 1
        unfold wP
        rw [b1]
        cases hf : (pointsOf old y).find? (fun p => decide ((q.info.p1 - p.info.p1).lengthSq ≤ cfg.thr * cfg.thr)) with
        | none => simp [set_same l c q hl]
        | some p => rfl) (fun c h1 h2 => ⟨_, List.getElem?_eq_getElem (by omega), trivial⟩)
    refine ⟨M', Q', ?_, hQ, hM⟩
    show (old.pairs[j]?).bind _ = _
    rw [e2, Option.bind_some]
    show (overRange _ _ _ _).bind _ = _
    rw [eM, Option.bind_some]
    show (overRange _ _ _ _).bind _ = _
    rw [eQ]
    rfl

theorem getElem_len {β : Type} {l l' : List β} {g : Nat → β → β} (h : ∀ c, l'[c]? = (l[c]?).map (g c)) : l'.length = l.length := by
  apply Nat.le_antisymm
  · by_contra hc
    have := h l.length
    rw [List.getElem?_eq_getElem (by omega), List.getElem?_eq_none le_rfl] at this
    cases this
  · by_contra hc
    have := h l'.length
    rw [List.getElem?_eq_none le_rfl, List.getElem?_eq_getElem (by omega)] at this
    cases this

/-- All pairs of the current frame. -/
theorem warm_eq {cfg : WCfg K} {old : Frame K} (h : Ok old) (xs : List (CPair K)) {M : List (Man K)} {Q : List (Point K)} (hp : ∀ x ∈ xs, x.ptIdx + x.nbPts ≤ Q.length)
    (hm : ∀ x ∈ xs, ∀ c, InM x c → ∃ m, M[c]? = some m ∧ 0 < m.nb ∧ m.start < Q.length) (ha : xs.Pairwise Apart) :
    ∃ M' Q', xs.foldlM (warmPair cfg old) (M, Q) = some (M', Q') ∧ Q'.map (·.info) = Q.map (·.info) ∧
      M'.map (fun m => (m.start, m.nb)) = M.map (fun m => (m.start, m.nb)) ∧
      (∀ c, (∀ x ∈ xs, ¬ InP x c) → Q'[c]? = Q[c]?) ∧ (∀ c, (∀ x ∈ xs, ¬ InM x c) → M'[c]? = M[c]?) ∧
      (∀ x ∈ xs, ∀ c, InP x c → Q'[c]? = (Q[c]?).map (wP cfg (before old x.id))) ∧
      (∀ x ∈ xs, ∀ c, InM x c → M'[c]? = (M[c]?).map (wM cfg (beforeMans old x.id) Q)) := by
  induction xs generalizing M Q with
  | nil => exact ⟨M, Q, rfl, rfl, rfl, fun _ _ => rfl, fun _ _ => rfl, by simp, by simp⟩
  | cons x xs ih =>
    rw [List.pairwise_cons] at ha
    obtain ⟨M1, Q1, e1, q1, m1⟩ := warmPair_eq (cfg := cfg) h (hp x List.mem_cons_self) (hm x List.mem_cons_self)
    have q1' : ∀ c, Q1[c]? = (Q[c]?).map (fun q => if InP x c then wP cfg (before old x.id) q else q) := by
      intro c
      rw [q1 c]
      split <;> simp
    have m1' : ∀ c, M1[c]? = (M[c]?).map (fun q => if InM x c then wM cfg (beforeMans old x.id) Q q else q) := by
      intro c
      rw [m1 c]
      split <;> simp
    have lq : Q1.length = Q.length := getElem_len (g := fun c q => if InP x c then wP cfg (before old x.id) q else q) q1'
    have i1 : Q1.map (·.info) = Q.map (·.info) := by
      apply List.ext_getElem?
      intro c
      rw [List.getElem?_map, List.getElem?_map, q1' c, Option.map_map]
      congr 1
      funext q
      show (if InP x c then wP cfg (before old x.id) q else q).info = q.info
      split
      · exact wP_info _ _ _
      · rfl
    have j1 : M1.map (fun m => (m.start, m.nb)) = M.map (fun m => (m.start, m.nb)) := by
      apply List.ext_getElem?
      intro c
      rw [List.getElem?_map, List.getElem?_map, m1' c, Option.map_map]
      congr 1
      funext q
      show ((if InM x c then wM cfg (beforeMans old x.id) Q q else q).start, (if InM x c then wM cfg (beforeMans old x.id) Q q else q).nb) = _
      split
      · have := wM_start cfg (beforeMans old x.id) Q q
        rw [this.1, this.2]
      · rfl
    obtain ⟨M2, Q2, e2, i2, j2, uq, um, pq, pm⟩ := ih (M := M1) (Q := Q1) (fun y hy => by rw [lq]; exact hp y (List.mem_cons_of_mem _ hy)) (by
      intro y hy c hc
      obtain ⟨m, a, b, d⟩ := hm y (List.mem_cons_of_mem _ hy) c hc
      refine ⟨_, by rw [m1' c, a]; rfl, ?_, ?_⟩
      · split
        · rw [(wM_start _ _ _ _).2]; exact b
        · exact b
      · rw [lq]
        split
        · rw [(wM_start _ _ _ _).1]; exact d
        · exact d) ha.2
    refine ⟨M2, Q2, by rw [List.foldlM_cons, e1]; exact e2, i2.trans i1, j2.trans j1, ?_, ?_, ?_, ?_⟩
    · intro c hc
      rw [uq c (fun y hy => hc y (List.mem_cons_of_mem _ hy)), q1 c, if_neg (hc x List.mem_cons_self)]
    · intro c hc
      rw [um c (fun y hy => hc y (List.mem_cons_of_mem _ hy)), m1 c, if_neg (hc x List.mem_cons_self)]
    · intro y hy c hc
      rcases List.mem_cons.1 hy with rfl | hy
      · rw [uq c (fun z hz hzc => (ha.1 z hz).1 c ⟨hc, hzc⟩), q1 c, if_pos hc]
      · rw [pq y hy c hc, q1 c, if_neg (fun hx => (ha.1 y hy).1 c ⟨hx, hc⟩)]
    · intro y hy c hc
      rcases List.mem_cons.1 hy with rfl | hy
      · rw [um c (fun z hz hzc => (ha.1 z hz).2 c ⟨hc, hzc⟩), m1 c, if_pos hc]
      · rw [pm y hy c hc, m1 c, if_neg (fun hx => (ha.1 y hy).2 c ⟨hx, hc⟩)]
        congr 1
        funext m
        exact wM_congr cfg _ i1 m

theorem mkMap_eq (l : List (CPair K)) (i : Nat) (f : Nat → Option Nat) (hn : (l.map (·.id)).Nodup) (hf : ∀ x ∈ l, f x.id = none) :
    ∃ g, mkMap l i f = some g ∧ (∀ j y, l[j]? = some y → g y.id = some (i + j)) ∧ ∀ id, (∀ y ∈ l, y.id ≠ id) → g id = f id := by
  induction l generalizing i f with
  | nil => exact ⟨f, rfl, by simp, fun _ _ => rfl⟩
  | cons x l ih =>
    rw [List.map_cons, List.nodup_cons] at hn
    have nx : ∀ y ∈ l, y.id ≠ x.id := fun y hy e => hn.1 (List.mem_map.2 ⟨y, hy, e⟩)
    obtain ⟨g, e, h1, h2⟩ := ih (i + 1) (upd f x.id (some i)) hn.2 (by
      intro y hy
      rw [upd_ne _ _ (nx y hy)]
      exact hf y (List.mem_cons_of_mem _ hy))
    refine ⟨g, ?_, ?_, ?_⟩
    · unfold mkMap
      rw [hf x List.mem_cons_self]
      exact e
    · intro j y hj
      cases j with
      | zero =>
        rw [List.getElem?_cons_zero] at hj
        cases hj
        rw [h2 x.id nx, upd_same]
        rfl
      | succ j =>
        rw [List.getElem?_cons_succ] at hj
        rw [h1 j y hj]
        congr 1
        omega
    · intro id hid
      rw [h2 id (fun y hy => hid y (List.mem_cons_of_mem _ hy)), upd_ne _ _ (Ne.symm (hid x List.mem_cons_self))]

theorem mk_ok (x : CPair K) (s : Nat) (r : List (List (Info K))) (h : ∀ p ∈ r, p ≠ []) : ∀ m ∈ mk x s r, 0 < m.nb ∧ s ≤ m.start ∧ m.start + m.nb ≤ s + r.flatten.length := by
  induction r generalizing s with
  | nil => simp [mk]
  | cons p r ih =>
    have hp := List.length_pos_of_ne_nil (h p List.mem_cons_self)
    intro m hm
    rw [List.flatten_cons, List.length_append]
    rcases List.mem_cons.1 hm with rfl | hm
    · exact ⟨hp, le_rfl, by dsimp only; omega⟩
    · have := ih (s + p.length) (fun q hq => h q (List.mem_cons_of_mem _ hq)) m hm
      exact ⟨this.1, by omega, by omega⟩

/-- The manifold at a position and its points. -/
theorem mk_get (x : CPair K) {Q : List (Point K)} (r : List (List (Info K))) (s : Nat) (hQ : block Q s r.flatten.length = r.flatten.map fresh) {i : Nat} {pot : List (Info K)}
    (hi : r[i]? = some pot) : ∃ a, (mk x s r)[i]? = some ⟨a, pot.length, x.b1, x.b2, x.c1, x.c2, Fric.zero⟩ ∧ s ≤ a ∧ a + pot.length ≤ s + r.flatten.length ∧
      block Q a pot.length = pot.map fresh := by
  have get : ∀ j < r.flatten.length, Q[s + j]? = (r.flatten[j]?).map fresh := by
    intro j hj
    have := congrArg (fun l => l[j]?) hQ
    rw [block_get, if_pos hj, List.getElem?_map] at this
    exact this
  clear hQ
  induction r generalizing s i with
  | nil => cases hi
  | cons p r ih =>
    rw [List.flatten_cons, List.length_append] at get ⊢
    cases i with
    | zero =>
      rw [List.getElem?_cons_zero] at hi
      cases hi
      refine ⟨s, rfl, le_rfl, by omega, ?_⟩
      apply List.ext_getElem?
      intro j
      rw [block_get, List.getElem?_map]
      split
      · rename_i hj
        rw [get j (by omega), List.getElem?_append_left hj]
      · rename_i hj
        rw [List.getElem?_eq_none (by omega)]
        rfl
    | succ i =>
      rw [List.getElem?_cons_succ] at hi
      obtain ⟨a, h1, h2, h3, h4⟩ := ih (s + p.length) hi (by
        intro j hj
        have := get (p.length + j) (by omega)
        rw [List.getElem?_append_right (by omega), show p.length + j - p.length = j by omega] at this
        rw [← this]
        congr 1
        omega)
      exact ⟨a, h1, by omega, by omega, h4⟩

/-- The pairs after the contacts were created are those before, with their parts of the arrays. -/
theorem made_pairs {P0 P : List (CPair K)} {order : List Nat} {M : List (Man K)} {Q : List (Point K)} (h : Made P0 order P M Q) :
    P.map (·.id) = P0.map (·.id) := by
  apply List.ext_getElem?
  intro k
  rw [List.getElem?_map, List.getElem?_map]
  by_cases hk : k ∈ order
  · cases hx : P0[k]? with
    | none =>
      rw [List.getElem?_eq_none_iff] at hx
      rw [List.getElem?_eq_none (by rw [h.len]; exact hx)]
    | some x0 =>
      obtain ⟨x, hx', o⟩ := h.own k x0 hk hx
      rw [hx', o.eq]
      rfl
  · rw [h.other k hk]

/-- **C115.** The contacts of a frame. If the arrays of the previous frame fit together, the numbers of the new pairs differ and their contact points are
deep enough and have normals, then no access is out of bounds, no assertion fails and no exception is thrown; the new arrays fit together.  Every pair that
was put into the order of the islands has exactly its own contact points, in their order, and each of them starts with the impulse of the first contact
point of the same pair in the previous frame that is near on the first shape, or with none.  Every manifold of the pair has exactly its own points and
starts with the friction of the first manifold of the same pair in the previous frame that has about the same normal, or with none.  Other pairs have no
contact points. -/
theorem frame_ok {cfg : WCfg K} {old : Frame K} (h : Ok old) {P0 : List (CPair K)} (h0 : ∀ x ∈ P0, FreshPair x) (hid : (P0.map (·.id)).Nodup) {order : List Nat}
    (ho : order.Nodup) (hk : ∀ k ∈ order, k < P0.length) : ∃ F, frame cfg old P0 order = some F ∧ Ok F ∧ F.pairs.length = P0.length ∧
      (∀ k x0, P0[k]? = some x0 → k ∉ order → ∃ x, F.pairs[k]? = some x ∧ x = x0 ∧ pointsOf F x = [] ∧ mansOf F x = []) ∧
      ∀ k x0, P0[k]? = some x0 → k ∈ order → ∃ x, F.pairs[k]? = some x ∧ x.id = x0.id ∧ x.b1 = x0.b1 ∧ x.b2 = x0.b2 ∧ x.c1 = x0.c1 ∧ x.c2 = x0.c2 ∧
        pointsOf F x = x0.pots.flatten.map (startPoint cfg (before old x0.id)) ∧ (mansOf F x).length = x0.pots.length ∧
        ∀ (i : Nat) (pot : List (Info K)), x0.pots[i]? = some pot → ∃ (m : Man K) (i0 : Info K), (mansOf F x)[i]? = some m ∧ pot.head? = some i0 ∧ m.nb = pot.length ∧
          m.body1 = x0.b1 ∧ m.body2 = x0.b2 ∧ m.col1 = x0.c1 ∧ m.col2 = x0.c2 ∧
          block F.pts m.start m.nb = pot.map (startPoint cfg (before old x0.id)) ∧
          m.fr = startFric cfg (beforeMans old x0.id) i0.normal := by
  obtain ⟨P, M, Q, e1, made⟩ := create_made h0 ho hk
  have hids := made_pairs made
  have mem : ∀ x ∈ P, ∃ k x0, P[k]? = some x ∧ P0[k]? = some x0 ∧ FreshPair x0 ∧ ((k ∉ order ∧ x = x0) ∨ (k ∈ order ∧ Own x0 x M Q)) := by
    intro x hx
    obtain ⟨k, hk'⟩ := List.mem_iff_getElem?.1 hx
    have kl : k < P0.length := by
      rw [← made.len]
      exact (List.getElem?_eq_some_iff.1 hk').1
    refine ⟨k, P0[k], hk', List.getElem?_eq_getElem kl, h0 _ (List.getElem_mem kl), ?_⟩
    by_cases ko : k ∈ order
    · obtain ⟨z, hz, o⟩ := made.own k _ ko (List.getElem?_eq_getElem kl)
      rw [hk'] at hz
      cases hz
      exact Or.inr ⟨ko, o⟩
    · have := made.other k ko
      rw [hk', List.getElem?_eq_getElem kl] at this
      exact Or.inl ⟨ko, by cases this; rfl⟩
  have hp : ∀ x ∈ P, x.ptIdx + x.nbPts ≤ Q.length := by
    intro x hx
    obtain ⟨k, x0, _, _, f, ⟨_, rfl⟩ | ⟨_, o⟩⟩ := mem x hx
    · rw [f.zero.2.2.1, f.zero.2.2.2]
      exact Nat.zero_le _
    · exact o.ptEnd
  have hm0 : ∀ x ∈ P, ∀ c, InM x c → ∃ m, M[c]? = some m ∧ 0 < m.nb ∧ m.start < Q.length := by
    intro x hx c hc
    obtain ⟨k, x0, _, _, f, ⟨_, rfl⟩ | ⟨_, o⟩⟩ := mem x hx
    · obtain ⟨h1, h2⟩ := hc
      rw [f.zero.1, f.zero.2.1] at h2
      omega
    · have hb := congrArg (fun l => l[c - x.manIdx]?) o.mans
      rw [block_get, if_pos (by have := hc.1; have := hc.2; omega), show x.manIdx + (c - x.manIdx) = c by have := hc.1; omega] at hb
      have lt : c - x.manIdx < (mk x0 x.ptIdx x0.pots).length := by
        have e := congrArg CPair.nbMan o.eq
        dsimp only at e
        rw [mk_length, ← e]
        have := hc.1; have := hc.2
        omega
      rw [List.getElem?_eq_getElem lt] at hb
      have hm := mk_ok x0 x.ptIdx x0.pots (fun p hp => (f.pots p hp).1) _ (List.getElem_mem lt)
      refine ⟨_, hb, hm.1, ?_⟩
      have e := congrArg CPair.nbPts o.eq
      dsimp only at e
      have := o.ptEnd
      omega
  have hap : P.Pairwise Apart := by
    rw [List.pairwise_iff_getElem]
    intro i j hi hj hij
    have e : ∀ k, ∀ hk : k < P.length, k ∉ order → (∀ c, ¬ InP P[k] c) ∧ ∀ c, ¬ InM P[k] c := by
      intro k hk ko
      obtain ⟨k', x0, h1, h2, f, _⟩ := mem _ (List.getElem_mem hk)
      have := made.other k ko
      rw [List.getElem?_eq_getElem hk] at this
      have f' := h0 _ (List.mem_of_getElem? this.symm)
      constructor
      · rintro c ⟨a, b⟩
        rw [f'.zero.2.2.1, f'.zero.2.2.2] at b
        omega
      · rintro c ⟨a, b⟩
        rw [f'.zero.1, f'.zero.2.1] at b
        omega
    by_cases io : i ∈ order
    · by_cases jo : j ∈ order
      · exact made.apart i j _ _ io jo (by omega) (List.getElem?_eq_getElem hi) (List.getElem?_eq_getElem hj)
      · exact ⟨fun c hc => (e j hj jo).1 c hc.2, fun c hc => (e j hj jo).2 c hc.2⟩
    · exact ⟨fun c hc => (e i hi io).1 c hc.1, fun c hc => (e i hi io).2 c hc.1⟩
  obtain ⟨M', Q', e2, iq, im, -, -, wq, wm⟩ := warm_eq (cfg := cfg) h P hp hm0 hap
  obtain ⟨g, e3, g1, g2⟩ := mkMap_eq P 0 (fun _ => none) (by rw [hids]; exact hid) (fun _ _ => rfl)
  have lQ : Q'.length = Q.length := by
    have := congrArg List.length iq
    rwa [List.length_map, List.length_map] at this
  have lM : M'.length = M.length := by
    have := congrArg List.length im
    rwa [List.length_map, List.length_map] at this
  have eF : frame cfg old P0 order = some ⟨P, M', Q', g⟩ := by
    unfold frame
    show (List.foldlM addPair (P0, [], []) order).bind _ = _
    rw [e1, Option.bind_some]
    show (List.foldlM (warmPair cfg old) (M, Q) P).bind _ = _
    rw [e2, Option.bind_some]
    show (mkMap P 0 fun _ => none).bind _ = _
    rw [e3]
    rfl
  have bP : ∀ x ∈ P, block Q' x.ptIdx x.nbPts = (block Q x.ptIdx x.nbPts).map (wP cfg (before old x.id)) := by
    intro x hx
    exact block_congr fun c h1 h2 => wq x hx c ⟨h1, h2⟩
  have bM : ∀ x ∈ P, block M' x.manIdx x.nbMan = (block M x.manIdx x.nbMan).map (wM cfg (beforeMans old x.id) Q) := by
    intro x hx
    exact block_congr fun c h1 h2 => wm x hx c ⟨h1, h2⟩
  have inM : ∀ x ∈ P, x.manIdx + x.nbMan ≤ M.length := by
    intro x hx
    obtain ⟨k, x0, _, _, f, ⟨_, rfl⟩ | ⟨_, o⟩⟩ := mem x hx
    · rw [f.zero.1, f.zero.2.1]
      exact Nat.zero_le _
    · exact o.manEnd
  refine ⟨_, eF, ?_, made.len, ?_, ?_⟩
  · refine ⟨by rw [hids]; exact hid, fun j y hj => ?_, fun id j hj => ?_, fun x hx => ?_, fun x hx => ?_, fun x hx m hm => ?_⟩
    · have := g1 j y hj
      rwa [Nat.zero_add] at this
    · by_cases hy : ∃ y ∈ P, y.id = id
      · obtain ⟨y, hy, rfl⟩ := hy
        obtain ⟨l, hl⟩ := List.mem_iff_getElem?.1 hy
        have := g1 l y hl
        rw [Nat.zero_add] at this
        have hj : g y.id = some j := hj
        rw [hj] at this
        cases this
        exact ⟨y, hl, rfl⟩
      · have := g2 id (fun y hy' he => hy ⟨y, hy', he⟩)
        have hj : g id = some j := hj
        rw [hj] at this
        cases this
    · show _ ≤ Q'.length
      rw [lQ]
      exact hp x hx
    · show _ ≤ M'.length
      rw [lM]
      exact inM x hx
    · have hm : m ∈ block M' x.manIdx x.nbMan := hm
      rw [bM x hx, List.mem_map] at hm
      obtain ⟨m0, h1, rfl⟩ := hm
      obtain ⟨i, hi⟩ := List.mem_iff_getElem?.1 h1
      rw [block_get] at hi
      split at hi
      · rename_i hlt
        obtain ⟨m1, a, b, c⟩ := hm0 x hx (x.manIdx + i) ⟨by omega, by omega⟩
        rw [hi] at a
        cases a
        rw [(wM_start _ _ _ _).1, (wM_start _ _ _ _).2]
        exact ⟨b, by show _ < Q'.length; rw [lQ]; exact c⟩
      · cases hi
  · intro k x0 hx ko
    have f := h0 _ (List.mem_of_getElem? hx)
    refine ⟨x0, (made.other k ko).trans hx, rfl, ?_, ?_⟩
    · unfold pointsOf block
      rw [f.zero.2.2.2]
      rfl
    · unfold mansOf block
      rw [f.zero.2.1]
      rfl
  · intro k x0 hx ko
    obtain ⟨x, hx', o⟩ := made.own k x0 ko hx
    have hxm := List.mem_of_getElem? hx'
    have f := h0 _ (List.mem_of_getElem? hx)
    have xe := o.eq
    have exid : x.id = x0.id := by rw [xe]
    have enp : x.nbPts = x0.pots.flatten.length := by rw [xe]
    have enm : x.nbMan = x0.pots.length := by rw [xe]
    have ep : pointsOf ⟨P, M', Q', g⟩ x = x0.pots.flatten.map (startPoint cfg (before old x0.id)) := by
      show block Q' x.ptIdx x.nbPts = _
      rw [bP x hxm, o.pts, List.map_map, exid]
      exact List.map_congr_left fun i _ => wP_fresh cfg _ i
    have em : mansOf ⟨P, M', Q', g⟩ x = (mk x0 x.ptIdx x0.pots).map (wM cfg (beforeMans old x0.id) Q) := by
      show block M' x.manIdx x.nbMan = _
      rw [bM x hxm, o.mans, exid]
    refine ⟨x, hx', exid, by rw [xe], by rw [xe], by rw [xe], by rw [xe], ep, ?_, ?_⟩
    · rw [em, List.length_map, mk_length]
    · intro i pot hi
      have oq := o.pts
      rw [enp] at oq
      obtain ⟨a, h1, h2, h3, h4⟩ := mk_get x0 (Q := Q) x0.pots x.ptIdx oq hi
      have pne := (f.pots pot (List.mem_of_getElem? hi)).1
      obtain ⟨i0, r, rfl⟩ : ∃ i0 r, pot = i0 :: r := by
        cases pot with
        | nil => exact absurd rfl pne
        | cons i0 r => exact ⟨i0, r, rfl⟩
      have q0 : Q[a]? = some (fresh i0) := by
        have := congrArg (fun l => l[0]?) h4
        rw [block_get, if_pos (by simp)] at this
        simpa using this
      have ew : wM cfg (beforeMans old x0.id) Q ⟨a, (i0 :: r).length, x0.b1, x0.b2, x0.c1, x0.c2, Fric.zero⟩ =
          ⟨a, (i0 :: r).length, x0.b1, x0.b2, x0.c1, x0.c2, startFric cfg (beforeMans old x0.id) i0.normal⟩ := by
        have ef : (fresh i0).info.normal = i0.normal := rfl
        simp only [wM, startFric, q0, ef]
        cases (beforeMans old x0.id).find? (fun p => match p.1 with | some n' => decide (V3.dot n' i0.normal ≥ cfg.cos) | none => false) <;> rfl
      refine ⟨⟨a, (i0 :: r).length, x0.b1, x0.b2, x0.c1, x0.c2, startFric cfg (beforeMans old x0.id) i0.normal⟩, i0, ?_, rfl, rfl, rfl, rfl, rfl, rfl, ?_, rfl⟩
      · rw [em, List.getElem?_map, h1]
        exact congrArg some ew
      · show block Q' a (i0 :: r).length = _
        rw [block_congr (l := Q) (g := wP cfg (before old x.id)) fun c c1 c2 => wq x hxm c ⟨by omega, by omega⟩, h4, List.map_map, exid]
        exact List.map_congr_left fun i _ => wP_fresh cfg _ i

theorem Ok.solved {F F' : Frame K} (h : Ok F) (hs : Solved F F') : Ok F' := by
  have lQ : F'.pts.length = F.pts.length := by
    have := congrArg List.length hs.pts
    rwa [List.length_map, List.length_map] at this
  have lM : F'.mans.length = F.mans.length := by
    have := congrArg List.length hs.mans
    rwa [List.length_map, List.length_map] at this
  refine ⟨by rw [hs.pairs]; exact h.ids, by rw [hs.pairs, hs.map]; exact h.known, by rw [hs.pairs, hs.map]; exact h.exact,
    by rw [hs.pairs, lQ]; exact h.pts, by rw [hs.pairs, lM]; exact h.mans, ?_⟩
  rw [hs.pairs, lQ]
  intro x hx m hm
  obtain ⟨i, hi⟩ := List.mem_iff_getElem?.1 hm
  unfold mansOf at hi
  rw [block_get] at hi
  split at hi
  · rename_i hlt
    have := congrArg (fun l => l[x.manIdx + i]?) hs.mans
    rw [List.getElem?_map, List.getElem?_map, hi] at this
    cases hm0 : F.mans[x.manIdx + i]? with
    | none => rw [hm0] at this; cases this
    | some m0 =>
      rw [hm0] at this
      have e : (m.start, m.nb) = (m0.start, m0.nb) := by simpa using this
      have := h.man x hx m0 (List.mem_iff_getElem?.2 ⟨i, by unfold mansOf; rw [block_get, if_pos hlt]; exact hm0⟩)
      rw [Prod.mk.injEq] at e
      rw [e.1, e.2]
      exact this
  · cases hi

/-- All frames that follow each other: contacts are created and then solved. -/
inductive Run (cfg : WCfg K) : Frame K → Prop
  | init : Run cfg ⟨[], [], [], fun _ => none⟩
  | next {F F1 F2 : Frame K} {P0 : List (CPair K)} {order : List Nat} : Run cfg F → (∀ x ∈ P0, FreshPair x) → (P0.map (·.id)).Nodup → order.Nodup →
      (∀ k ∈ order, k < P0.length) → frame cfg F P0 order = some F1 → Solved F1 F2 → Run cfg F2

/-- **C115.** In all sequences of frames the arrays of contacts fit together, so that `frame_ok` describes the next frame. -/
theorem run_ok {cfg : WCfg K} {F : Frame K} (h : Run cfg F) : Ok F := by
  induction h with
  | init => exact ⟨List.nodup_nil, by simp, by simp, by simp, by simp, by simp⟩
  | next _ h0 h1 h2 h3 e hs ih =>
    obtain ⟨F', e', o, -⟩ := frame_ok ih h0 h1 h2 h3
    rw [e] at e'
    cases e'
    exact o.solved hs

/-- **C115.** What the user reads of a reported pair are the contact points of the pair. -/
theorem user_points {F : Frame K} (x : CPair K) (i : Nat) : userPoint F x i = (pointsOf F x)[i]? := by
  unfold userPoint pointsOf
  rw [block_get]

/-! ### Examples and disagreements -/

namespace Ex

def cfg : WCfg ℚ := ⟨1 / 10, 9 / 10⟩

/-- A contact at height `z`, with the normal along the first axis. -/
def info (z : ℚ) : Info ℚ := ⟨⟨1, 0, 0⟩, 1 / 100, ⟨0, 0, z⟩, ⟨0, 0, z⟩⟩

/-- A pair of the colliders `c1` and `c2` with one manifold. -/
def pair (id c1 c2 : Nat) (l : List (Info ℚ)) : CPair ℚ := ⟨id, 0, 1, c1, c2, [l], 0, 0, 0, 0⟩

theorem fresh_pair (id c1 c2 : Nat) {l : List (Info ℚ)} (h : l ≠ []) (hl : ∀ i ∈ l, ∃ z, i = info z) : FreshPair (pair id c1 c2 l) := by
  refine ⟨⟨rfl, rfl, rfl, rfl⟩, fun p hp => ?_⟩
  have hp : p ∈ [l] := hp
  rw [List.mem_singleton] at hp
  subst hp
  refine ⟨h, fun i hi => ?_⟩
  obtain ⟨z, rfl⟩ := hl i hi
  exact ⟨by show (0 : ℚ) < 1 / 100; norm_num, by show (8 / 10 : ℚ) < 1 * 1 + 0 * 0 + 0 * 0; norm_num⟩

/-- A frame with one contact, before and after it was solved. -/
def f1 : Frame ℚ := ⟨[⟨5, 0, 1, 0, 1, [[info 0]], 0, 1, 0, 1⟩], [⟨0, 1, 0, 1, 0, 1, Fric.zero⟩], [⟨info 0, 0, false⟩], fun i => if i = 5 then some 0 else none⟩
def fr : Fric ℚ := ⟨⟨0, 1, 0⟩, ⟨0, 0, 1⟩, 3, 4, 0⟩
def f2 : Frame ℚ := ⟨f1.pairs, [⟨0, 1, 0, 1, 0, 1, fr⟩], [⟨info 0, 7, true⟩], f1.map⟩

theorem frame1 : frame cfg ⟨[], [], [], fun _ => none⟩ [pair 5 0 1 [info 0]] [0] = some f1 := by
  have e : frame cfg ⟨[], [], [], fun _ => none⟩ [pair 5 0 1 [info 0]] [0] =
      some ⟨[⟨5, 0, 1, 0, 1, [[info 0]], 0, 1, 0, 1⟩], [⟨0, 1, 0, 1, 0, 1, Fric.zero⟩], [⟨info 0, 0, false⟩], upd (fun _ => none) 5 (some 0)⟩ := by
    obtain ⟨F, hF, -⟩ := frame_ok (cfg := cfg) (old := ⟨[], [], [], fun _ => none⟩) ⟨List.nodup_nil, by simp, by simp, by simp, by simp, by simp⟩
      (P0 := [pair 5 0 1 [info 0]]) (by simpa using fresh_pair 5 0 1 (by simp) (by simp)) (by simp) (order := [0]) (by simp) (by simp)
    have : (List.foldlM addPair ([pair 5 0 1 [info 0]], [], []) [0]) =
      some ([⟨5, 0, 1, 0, 1, [[info 0]], 0, 1, 0, 1⟩], [⟨0, 1, 0, 1, 0, 1, Fric.zero⟩], [⟨info 0, 0, false⟩]) := by decide +kernel
    unfold frame
    rw [this]
    rfl
  rw [e, f1]
  congr 2

theorem run2 : Run cfg f2 := by
  refine Run.next Run.init (P0 := [pair 5 0 1 [info 0]]) (order := [0]) ?_ (by simp) (by simp) (by simp) frame1 ⟨rfl, rfl, rfl, rfl⟩
  simpa using fresh_pair 5 0 1 (l := [info 0]) (by simp) (by simp)

/-- The next frame: points at the heights `zs` between the colliders `0` and `c`. -/
theorem frame2 (c : Nat) (zs : List ℚ) (hz : zs ≠ []) : ∃ F x, frame cfg f2 [pair 5 0 c (zs.map info)] [0] = some F ∧ F.pairs[0]? = some x ∧ x.c2 = c ∧
    pointsOf F x = (zs.map info).map (startPoint cfg (before f2 5)) := by
  obtain ⟨F, e, -, -, -, h⟩ := frame_ok (cfg := cfg) (run_ok run2) (P0 := [pair 5 0 c (zs.map info)]) (by
    simpa using fresh_pair 5 0 c (l := zs.map info) (by simpa using hz) (by simp)) (by simp) (order := [0]) (by simp) (by simp)
  obtain ⟨x, h1, -, -, -, -, h2, h3, -⟩ := h 0 _ rfl (by simp)
  refine ⟨F, x, e, h1, h2, ?_⟩
  rw [h3]
  simp [pair]

/-- A point that moved by less than the distance starts with the impulse, one that is far starts with none. -/
example : ∃ F x, frame cfg f2 [pair 5 0 1 [info (1 / 20), info 3]] [0] = some F ∧ F.pairs[0]? = some x ∧
    pointsOf F x = [⟨info (1 / 20), 7, true⟩, ⟨info 3, 0, false⟩] := by
  obtain ⟨F, x, h1, h2, -, h3⟩ := frame2 1 [1 / 20, 3] (by simp)
  exact ⟨F, x, h1, h2, h3.trans (by decide +kernel)⟩

end Ex

/-- C115, disagreement: the impulse of one contact point of the previous frame is given to two contact points, so that the sum of the impulses at the start
is twice that at the end of the previous frame. -/
theorem impulse_twice : ∃ (F : Frame ℚ) (P0 : List (CPair ℚ)) (F' : Frame ℚ) (x : CPair ℚ), Run Ex.cfg F ∧ (∀ x ∈ P0, FreshPair x) ∧ frame Ex.cfg F P0 [0] = some F' ∧
    F'.pairs = [x] ∧ (F.pts.map (·.imp)).sum = 7 ∧ ((pointsOf F' x).map (·.imp)).sum = 14 := by
  obtain ⟨F, x, h1, h2, -, h3⟩ := Ex.frame2 1 [1 / 20, -1 / 20] (by simp)
  have h0 : ∀ x ∈ [Ex.pair 5 0 1 ([1 / 20, -1 / 20].map Ex.info)], FreshPair x := by
    intro x hx
    rw [List.mem_singleton.1 hx]
    exact Ex.fresh_pair 5 0 1 (by simp) (by simp)
  obtain ⟨F', e, -, hl, -⟩ := frame_ok (run_ok Ex.run2) h0 (by simp) (order := [0]) (by simp) (by simp)
  rw [h1] at e
  cases e
  refine ⟨Ex.f2, _, F, x, Ex.run2, h0, h1, ?_, by decide +kernel, ?_⟩
  · match hF : F.pairs, hl, h2 with
    | [y], _, h2 =>
      simpa using h2
  · rw [h3]
    decide +kernel

/-- C115, disagreement: the pair is recognised by its number only.  If the number stands for other colliders than in the previous frame (see
`pair_number_reused`), contact points start with the impulses of contacts of colliders that may not exist any more. -/
theorem impulse_of_other_colliders : ∃ (F : Frame ℚ) (y : CPair ℚ) (P0 : List (CPair ℚ)) (F' : Frame ℚ) (x : CPair ℚ), Run Ex.cfg F ∧ F.pairs = [y] ∧ y.c2 = 1 ∧
    (∀ x ∈ P0, FreshPair x) ∧ frame Ex.cfg F P0 [0] = some F' ∧ F'.pairs[0]? = some x ∧ x.c2 = 2 ∧ pointsOf F' x = [⟨Ex.info (1 / 20), 7, true⟩] := by
  obtain ⟨F, x, h1, h2, h3, h4⟩ := Ex.frame2 2 [1 / 20] (by simp)
  refine ⟨Ex.f2, _, _, F, x, Ex.run2, rfl, rfl, ?_, h1, h2, h3, h4.trans (by decide +kernel)⟩
  intro x hx
  rw [List.mem_singleton.1 hx]
  exact Ex.fresh_pair 5 0 2 (by simp) (by simp)

end Warm

open World WorldSpec WEx

/-- Collider 1 is removed, and another one is added to the same body and gets the same node of the tree. -/
def WEx.r1 := next w5 (.removeCollider 1 1 [])
def WEx.r2 := next r1 (.addCollider 1 2 true 1 (cube 1))
def WEx.r3 := next r2 (stepOp r2 [] [])

/-- C115, disagreement: between two steps a collider is removed and another one is created, and the number of the pair is the same in both steps. -/
theorem pair_number_reused : ∃ tr tr' w w' id p p', Hist WEx.fat all tr w ∧ Hist WEx.fat all (tr ++ tr') w' ∧ tr'.length = 3 ∧
    w.store.deref id = some p ∧ w'.store.deref id = some p' ∧ p.c2 = 1 ∧ p'.c1 = 2 ∧ w'.col 1 = none := by
  obtain ⟨tr, h⟩ := hist5 all
  have hl : w5.lost = [] := rfl
  have h1 := Hist.next h (op := .removeCollider 1 1 []) ⟨⟨col1, by decide +kernel, rfl⟩, by simp⟩ (by intro _ q hq; rw [hl] at hq; cases hq) (by decide +kernel)
  have h2 := Hist.next h1 (op := .addCollider 1 2 true 1 (cube 1)) ⟨ex_of (o := r1.body 1) (by decide +kernel), none_of (o := r1.col 2) (by decide +kernel), by decide,
    none_of (o := r1.tree 1) (by decide +kernel)⟩ trivial (by decide +kernel)
  have ht : ∀ n, 2 ≤ n → r2.tree n = none := by
    intro n hn
    have : r2.tree = upd (upd theTree 1 none) 1 (some ⟨2, WEx.fat (cube 1)⟩) := rfl
    rw [this, upd_ne _ _ (by omega), upd_ne _ _ (by omega)]
    exact theTree_none n hn
  have h3 := Hist.next h2 (op := stepOp r2 [] []) ⟨nodesBelow_ok ht, by simp, by simp⟩ trivial (by decide +kernel)
  obtain ⟨p, hp⟩ := ex_of (o := w5.store.deref (pairId 0 1)) (by decide +kernel)
  obtain ⟨p', hp'⟩ := ex_of (o := r3.store.deref (pairId 0 1)) (by decide +kernel)
  have e : (w5.store.deref (pairId 0 1)).map Pair.c2 = some 1 := by decide +kernel
  have e' : (r3.store.deref (pairId 0 1)).map Pair.c1 = some 2 := by decide +kernel
  rw [hp] at e
  rw [hp'] at e'
  rw [List.append_assoc, List.append_assoc] at h3
  exact ⟨tr, _, w5, r3, pairId 0 1, p, p', h, h3, rfl, hp, hp', Option.some.inj e, Option.some.inj e', none_of (o := r3.col 1) (by decide +kernel)⟩

end RP3D
