import Verif.World.Model
import Verif.Pairs.StoreLemmas

/-!
The invariant of the world model, and the relation between two worlds that differ only in the state of activity of bodies, marks of
pairs and boxes.

`Cfg` switches on the optional parts of the invariant; each holds only for histories that avoid certain calls (see `Props/World`).
-/

set_option linter.unusedVariables false
set_option linter.unusedSimpArgs false
set_option linter.unusedSectionVars false

namespace RP3D

/-- The result satisfies `P`; an undefined result is excluded if `S` holds. -/
def Ok (S : Prop) {β : Type} (P : β → Prop) : Option β → Prop
  | some x => P x
  | none => ¬ S

theorem Ok.mono {S : Prop} {β : Type} {P Q : β → Prop} {o : Option β} (h : Ok S P o) (hpq : ∀ x, P x → Q x) : Ok S Q o := by
  cases o with
  | none => exact h
  | some x => exact hpq x h

theorem Ok.and {S : Prop} {β : Type} {P Q : β → Prop} {o : Option β} (h : Ok S P o) (h2 : Ok S Q o) : Ok S (fun x => P x ∧ Q x) o := by
  cases o with
  | none => exact h
  | some x => exact ⟨h, h2⟩

theorem Ok.bind {S : Prop} {β γ : Type} {P : β → Prop} {Q : γ → Prop} {o : Option β} {f : β → Option γ} (h : Ok S P o)
    (hf : ∀ x, o = some x → P x → Ok S Q (f x)) : Ok S Q (o.bind f) := by
  cases o with
  | none => exact h
  | some x => exact hf x rfl h

theorem Ok.foldlM {S : Prop} {β γ : Type} {I : β → Prop} {f : β → γ → Option β} {l : List γ} {x : β} (h : I x)
    (hf : ∀ y a, a ∈ l → I y → Ok S I (f y a)) : Ok S I (l.foldlM f x) := by
  induction l generalizing x with
  | nil => exact h
  | cons a l ih =>
    rw [List.foldlM_cons]
    refine Ok.bind (hf x a (by simp) h) (fun y _ hy => ih hy (fun y b hb => hf y b (by simp [hb])))

/-- A fold in which each element establishes a fact about itself that the others keep. -/
theorem Ok.foldlM_each {S : Prop} {β γ : Type} {I : β → Prop} {D : γ → β → Prop} {f : β → γ → Option β} {l : List γ} {x : β} (h : I x)
    (hf : ∀ y a, a ∈ l → I y → Ok S (fun z => I z ∧ D a z ∧ ∀ b ∈ l, D b y → D b z) (f y a)) :
    Ok S (fun z => I z ∧ (∀ a ∈ l, D a z)) (l.foldlM f x) := by
  suffices H : ∀ (l' : List γ) (y : β), (∀ a ∈ l', a ∈ l) → I y →
      Ok S (fun z => I z ∧ (∀ a ∈ l', D a z) ∧ ∀ b ∈ l, D b y → D b z) (l'.foldlM f y) by
    exact (H l x (fun a h => h) h).mono (fun z hz => ⟨hz.1, hz.2.1⟩)
  intro l'
  induction l' with
  | nil => intro y _ hy; exact ⟨hy, fun a h => absurd h (by simp), fun b _ h => h⟩
  | cons a l' ih =>
    intro y hl hy
    rw [List.foldlM_cons]
    refine Ok.bind (hf y a (hl a (by simp)) hy) (fun z _ hz => ?_)
    refine (ih z (fun b hb => hl b (by simp [hb])) hz.1).mono (fun u hu => ⟨hu.1, ?_, ?_⟩)
    · intro b hb
      rcases List.mem_cons.1 hb with rfl | hb
      · exact hu.2.2 b (hl b (by simp)) hz.2.1
      · exact hu.2.1 b hb
    · intro b hb hd
      exact hu.2.2 b hb (hz.2.2 b hb hd)

theorem Ok.some_of {β : Type} {P : β → Prop} {o : Option β} (h : Ok True P o) : ∃ x, o = some x ∧ P x := by
  cases o with
  | none => exact absurd trivial h
  | some x => exact ⟨x, rfl, h⟩

theorem Ok.of_some {S : Prop} {β : Type} {P : β → Prop} {o : Option β} {x : β} (h : Ok S P o) (e : o = some x) : P x := by
  subst e; exact h

theorem collect_some {β : Type} {f : β → Option Bool} {l : List β} (h : ∀ a ∈ l, ∃ b, f a = some b) :
    ∃ r, collect f l = some r ∧ r = l.filter (fun a => f a = some true) := by
  induction l with
  | nil => exact ⟨[], rfl, rfl⟩
  | cons a l ih =>
    obtain ⟨r, hr, e⟩ := ih (fun b hb => h b (by simp [hb]))
    obtain ⟨b, hb⟩ := h a (by simp)
    refine ⟨if b then a :: r else r, by simp only [collect, hb, hr], ?_⟩
    cases b <;> simp [List.filter_cons, hb, e]

theorem mapO_some {β γ : Type} {f : β → Option γ} {l : List β} (h : ∀ a ∈ l, ∃ b, f a = some b) :
    ∃ r, mapO f l = some r ∧ ∀ b, b ∈ r ↔ ∃ a ∈ l, f a = some b := by
  induction l with
  | nil => exact ⟨[], rfl, by simp⟩
  | cons a l ih =>
    obtain ⟨r, hr, e⟩ := ih (fun b hb => h b (by simp [hb]))
    obtain ⟨b, hb⟩ := h a (by simp)
    refine ⟨b :: r, by simp only [mapO, hb, hr], ?_⟩
    intro c
    rw [List.mem_cons, e]
    constructor
    · rintro (rfl | ⟨a', h1, h2⟩)
      · exact ⟨a, by simp, hb⟩
      · exact ⟨a', by simp [h1], h2⟩
    · rintro ⟨a', h1, h2⟩
      rcases List.mem_cons.1 h1 with rfl | h1
      · left; rw [hb] at h2; cases h2; rfl
      · right; exact ⟨a', h1, h2⟩

/-- The part of a body that does not change when it falls asleep or wakes up. -/
def Body.core (B : Body) : Body := { B with sleeping := false, disabled := false }
def Col.core (x : Col) : Col := { x with disabled := false, changed := false }
/-- What a pair is, without its marks. -/
def pairCore (x : Kind × Pair) : Bool × Pair := (x.1.convex, { x.2 with need := false, enabled := false })

theorem Body.core_eq {B B' : Body} (h : B'.core = B.core) :
    B'.type = B.type ∧ B'.active = B.active ∧ B'.cols = B.cols ∧ B'.hasSim = B.hasSim ∧ B'.joints = B.joints := by
  simp only [Body.core, Body.mk.injEq] at h
  exact ⟨h.1, h.2.1, h.2.2.2.2.1, h.2.2.2.2.2.1, h.2.2.2.2.2.2⟩

theorem Col.core_eq {x y : Col} (h : y.core = x.core) :
    y.body = x.body ∧ y.bp = x.bp ∧ y.convex = x.convex ∧ y.cat = x.cat ∧ y.mask = x.mask ∧ y.trigger = x.trigger ∧ y.sim = x.sim ∧
      y.query = x.query := by
  simp only [Col.core, Col.mk.injEq] at h
  exact ⟨h.1, h.2.1, h.2.2.1, h.2.2.2.1, h.2.2.2.2.1, h.2.2.2.2.2.1, h.2.2.2.2.2.2.1, h.2.2.2.2.2.2.2.1⟩

theorem pairCore_eq {k k' : Kind} {p p' : Pair} (h : pairCore (k', p') = pairCore (k, p)) :
    k'.convex = k.convex ∧ p'.id = p.id ∧ p'.bp1 = p.bp1 ∧ p'.bp2 = p.bp2 ∧ p'.c1 = p.c1 ∧ p'.c2 = p.c2 ∧ p'.prev = p.prev ∧ p'.cur = p.cur := by
  simp only [pairCore, Prod.mk.injEq, Pair.mk.injEq] at h
  exact ⟨h.1, h.2.1, h.2.2.1, h.2.2.2.1, h.2.2.2.2.1, h.2.2.2.2.2.1, h.2.2.2.2.2.2.2.1, h.2.2.2.2.2.2.2.2.1⟩

theorem mapO_eq {β γ : Type} {f : β → Option γ} {g : β → γ} {l : List β} (h : ∀ a ∈ l, f a = some (g a)) : mapO f l = some (l.map g) := by
  induction l with
  | nil => rfl
  | cons a l ih => simp only [mapO, h a (by simp), ih (fun b hb => h b (by simp [hb])), List.map_cons]

theorem map_fwd {β γ : Type} {f : β → γ} {o o' : Option β} (h : o'.map f = o.map f) {x : β} (hx : o = some x) :
    ∃ y, o' = some y ∧ f y = f x := by
  subst hx
  simpa using h

namespace World
variable {α : Type} [LinearOrder α]

/-- Two worlds that differ only in activity of bodies, marks of pairs, boxes, and sizes. -/
structure Frame (w : World α) (A : PMap) (w' : World α) (A' : PMap) : Prop where
  body : ∀ b, (w'.body b).map Body.core = (w.body b).map Body.core
  col : ∀ c, (w'.col c).map Col.core = (w.col c).map Col.core
  jnt : w'.jnt = w.jnt
  tree : ∀ n, (w'.tree n).map TObj.col = (w.tree n).map TObj.col
  bpMap : w'.bpMap = w.bpMap
  noColl : w'.noColl = w.noColl
  lost : w'.lost = w.lost
  pair : ∀ id, (A' id).map pairCore = (A id).map pairCore
  moved : ∀ n, w.moved n = true → w'.moved n = true
  boxes : ∀ n, w'.tree n = w.tree n ∨ w'.moved n = true

variable {w w' w'' : World α} {A A' A'' : PMap}

theorem Frame.refl (w : World α) (A : PMap) : Frame w A w A :=
  ⟨fun _ => rfl, fun _ => rfl, rfl, fun _ => rfl, rfl, rfl, rfl, fun _ => rfl, fun _ h => h, fun _ => Or.inl rfl⟩

theorem Frame.trans (h : Frame w A w' A') (h2 : Frame w' A' w'' A'') : Frame w A w'' A'' :=
  ⟨fun b => (h2.body b).trans (h.body b), fun b => (h2.col b).trans (h.col b), h2.jnt.trans h.jnt, fun b => (h2.tree b).trans (h.tree b),
    h2.bpMap.trans h.bpMap, h2.noColl.trans h.noColl, h2.lost.trans h.lost, fun b => (h2.pair b).trans (h.pair b),
    fun n hn => h2.moved n (h.moved n hn), fun n => (h2.boxes n).elim (fun e => (h.boxes n).imp (fun e' => e.trans e') (h2.moved n)) Or.inr⟩

/-- The optional parts of the invariant. -/
structure Cfg where
  /-- disabled pairs have disabled bodies -/
  strict : Prop
  /-- the bits of the colliders of a pair match -/
  bits : Prop
  /-- lost contacts refer to existing colliders -/
  lost : Prop
  /-- colliders that may collide and whose boxes overlap have a pair, or one of them is to be tested -/
  cover : Prop
  /-- no pair is between the two flags of colliding in the previous and in the current frame -/
  sync : Prop
  /-- bodies exempted from `strict` -/
  ex : Nat → Prop
  /-- bodies that are being activated or deactivated -/
  exA : Nat → Prop

/-- The filter bits of two colliders match. -/
def BitsMatch (x1 x2 : Col) : Prop := x1.mask &&& x2.cat ≠ 0 ∧ x1.cat &&& x2.mask ≠ 0

/-- A pair joins two colliders of the tree that belong to different bodies and may collide. -/
structure PairOk (cfg : Cfg) (w : World α) (k : Kind) (p : Pair) (x1 x2 : Col) : Prop where
  c1 : w.col p.c1 = some x1
  c2 : w.col p.c2 = some x2
  ne : x1.body ≠ x2.body
  b1 : x1.bp = some p.bp1
  b2 : x2.bp = some p.bp2
  id : p.id = pairId p.bp1 p.bp2
  noColl : w.noColl (bodyPair x1.body x2.body) = false
  cvx : k.convex = (x1.convex && x2.convex)
  bits : cfg.bits → BitsMatch x1 x2

/-- Two colliders that may collide, at two nodes whose boxes overlap. -/
structure Meet (w : World α) (c1 c2 n1 n2 : Nat) (x1 x2 : Col) (t1 t2 : TObj α) : Prop where
  hc1 : w.col c1 = some x1
  hc2 : w.col c2 = some x2
  hn1 : x1.bp = some n1
  hn2 : x2.bp = some n2
  ht1 : w.tree n1 = some t1
  ht2 : w.tree n2 = some t2
  ne : x1.body ≠ x2.body
  noColl : w.noColl (bodyPair x1.body x2.body) = false
  bits : BitsMatch x1 x2
  cvx : x1.convex = true ∨ x2.convex = true
  fat : t1.fat.testCollision t2.fat = true

/-- `{a, b} = {c, d}` -/
def Same2 (a b c d : Nat) : Prop := (a = c ∧ b = d) ∨ (a = d ∧ b = c)

/-- A contact is recorded as lost at most once, and not while its pair collides. -/
structure LostOnce (L : List CPair) (A : PMap) : Prop where
  once : L.Pairwise fun q r => ¬ Same2 q.c1 q.c2 r.c1 r.c2
  apart : ∀ q ∈ L, ∀ id k p, A id = some (k, p) → p.prev = true → ¬ Same2 p.c1 p.c2 q.c1 q.c2

/-- The part of the invariant that does not mention what `Frame` lets vary. -/
structure SInv (cfg : Cfg) (w : World α) (A : PMap) : Prop where
  pair : ∀ id k p, A id = some (k, p) → ∃ x1 x2, PairOk cfg w k p x1 x2
  col : ∀ c x, w.col c = some x → ∃ B, w.body x.body = some B ∧ c ∈ B.cols ∧ (x.bp.isSome = B.active ∨ cfg.exA x.body)
  cols : ∀ b B, w.body b = some B → B.cols.Nodup ∧ ∀ c ∈ B.cols, ∃ x, w.col c = some x ∧ x.body = b
  bp : ∀ c x n, w.col c = some x → x.bp = some n → n < 2 ^ 32 ∧ w.bpMap n = some c
  bpMap : ∀ n c, w.bpMap n = some c → (∃ x, w.col c = some x ∧ x.bp = some n) ∧ ∃ t, w.tree n = some t ∧ t.col = c
  tree : ∀ n t, w.tree n = some t → w.bpMap n = some t.col
  flags : ∀ c x, w.col c = some x → ¬ (x.trigger = true ∧ x.sim = true)
  lost : cfg.lost → ∀ q ∈ w.lost, w.reportable q = true
  cover : cfg.cover → ∀ c1 c2 n1 n2 x1 x2 t1 t2, Meet w c1 c2 n1 n2 x1 x2 t1 t2 →
    (∃ y, A (pairId n1 n2) = some y) ∨ w.moved n1 = true ∨ w.moved n2 = true
  once : LostOnce w.lost A
  sync : cfg.sync → ∀ id k p, A id = some (k, p) → p.cur = p.prev

/-- Joints and the lists of joints of bodies agree. -/
structure JInv (w : World α) : Prop where
  jnt : ∀ j J, w.jnt j = some J → J.b1 ≠ J.b2 ∧ ∀ b, b = J.b1 ∨ b = J.b2 → ∃ B, w.body b = some B ∧ j ∈ B.joints
  joints : ∀ b B, w.body b = some B → B.joints.Nodup ∧ ∀ j ∈ B.joints, ∃ J, w.jnt j = some J ∧ (b = J.b1 ∨ b = J.b2)

/-- The part of the invariant about activity and marks. -/
structure DInv (cfg : Cfg) (w : World α) (A : PMap) : Prop where
  col : ∀ c x B, w.col c = some x → w.body x.body = some B → x.disabled = B.disabled
  static : ∀ b B, w.body b = some B → B.type = .static → B.disabled = true
  dis : ∀ b B, w.body b = some B → B.disabled = true → B.type = .static ∨ B.sleeping = true
  moved : ∀ n, w.moved n = true → ∃ t, w.tree n = some t
  pair : cfg.strict → ∀ id k p, A id = some (k, p) → k.enabled = false → ∀ c x B, c = p.c1 ∨ c = p.c2 → w.col c = some x →
    w.body x.body = some B → B.disabled = true ∨ cfg.ex x.body

structure WInv (cfg : Cfg) (w : World α) (A : PMap) : Prop where
  rep : w.store.Rep A
  s : SInv cfg w A
  d : DInv cfg w A

theorem Frame.body_fwd (h : Frame w A w' A') {b : Nat} {B : Body} (hb : w.body b = some B) :
    ∃ B', w'.body b = some B' ∧ B'.core = B.core := map_fwd (h.body b) hb
theorem Frame.body_bwd (h : Frame w A w' A') {b : Nat} {B' : Body} (hb : w'.body b = some B') :
    ∃ B, w.body b = some B ∧ B.core = B'.core := map_fwd (h.body b).symm hb
theorem Frame.col_fwd (h : Frame w A w' A') {c : Nat} {x : Col} (hb : w.col c = some x) :
    ∃ x', w'.col c = some x' ∧ x'.core = x.core := map_fwd (h.col c) hb
theorem Frame.col_bwd (h : Frame w A w' A') {c : Nat} {x' : Col} (hb : w'.col c = some x') :
    ∃ x, w.col c = some x ∧ x.core = x'.core := map_fwd (h.col c).symm hb
theorem Frame.pair_fwd (h : Frame w A w' A') {id : Nat} {k : Kind} {p : Pair} (hb : A id = some (k, p)) :
    ∃ k' p', A' id = some (k', p') ∧ pairCore (k', p') = pairCore (k, p) := by
  obtain ⟨⟨k', p'⟩, h1, h2⟩ := map_fwd (h.pair id) hb
  exact ⟨k', p', h1, h2⟩
theorem Frame.pair_bwd (h : Frame w A w' A') {id : Nat} {k' : Kind} {p' : Pair} (hb : A' id = some (k', p')) :
    ∃ k p, A id = some (k, p) ∧ pairCore (k, p) = pairCore (k', p') := by
  obtain ⟨⟨k, p⟩, h1, h2⟩ := map_fwd (h.pair id).symm hb
  exact ⟨k, p, h1, h2⟩

theorem isSome_map {β γ : Type} {f : β → γ} {o o' : Option β} (h : o'.map f = o.map f) : o'.isSome = o.isSome := by
  cases o <;> cases o' <;> simp at h ⊢

theorem Frame.reportable (h : Frame w A w' A') (q : CPair) : w'.reportable q = w.reportable q := by
  simp only [World.reportable, isSome_map (h.col _), isSome_map (h.body _)]

theorem Frame.sinv {cfg : Cfg} (h : Frame w A w' A') (hs : SInv cfg w A) : SInv cfg w' A' := by
  refine ⟨?_, ?_, ?_, ?_, ?_, ?_, ?_, ?_, ?_, ⟨h.lost ▸ hs.once.once, ?_⟩, ?_⟩
  rotate_left 9
  · intro q hq id k' p' hp hpr
    obtain ⟨k, p, h1, h2⟩ := h.pair_bwd hp
    obtain ⟨_, _, _, _, e5, e6, e7, _⟩ := pairCore_eq h2
    rw [h.lost] at hq
    rw [← e5, ← e6]
    exact hs.once.apart q hq id k p h1 (e7.trans hpr)
  · intro hsy id k' p' hp
    obtain ⟨k, p, h1, h2⟩ := h.pair_bwd hp
    obtain ⟨_, _, _, _, e5, e6, e7, e8⟩ := pairCore_eq h2
    rw [← e7, ← e8]
    exact hs.sync hsy id k p h1
  · intro id k' p' hp
    obtain ⟨k, p, h1, h2⟩ := h.pair_bwd hp
    obtain ⟨x1, x2, ho⟩ := hs.pair id k p h1
    obtain ⟨e1, e2, e3, e4, e5, e6, e7, e8⟩ := pairCore_eq h2
    obtain ⟨y1, hy1, f1⟩ := h.col_fwd ho.c1
    obtain ⟨y2, hy2, f2⟩ := h.col_fwd ho.c2
    obtain ⟨g1, g2, g3, g4, g5, _⟩ := Col.core_eq f1
    obtain ⟨k1, k2, k3, k4, k5, _⟩ := Col.core_eq f2
    refine ⟨y1, y2, ⟨by rw [← e5]; exact hy1, by rw [← e6]; exact hy2, by rw [g1, k1]; exact ho.ne, by rw [g2, ← e3]; exact ho.b1,
      by rw [k2, ← e4]; exact ho.b2, by rw [← e2, ← e3, ← e4]; exact ho.id, by rw [g1, k1, h.noColl]; exact ho.noColl,
      by rw [g3, k3, ← e1]; exact ho.cvx, ?_⟩⟩
    intro hb
    have := ho.bits hb
    unfold BitsMatch at this ⊢
    rw [g4, g5, k4, k5]; exact this
  · intro c x' hc
    obtain ⟨x, hx, e⟩ := h.col_bwd hc
    obtain ⟨B, hB, hm, ha⟩ := hs.col c x hx
    obtain ⟨B', hB', e'⟩ := h.body_fwd hB
    obtain ⟨g1, g2, _⟩ := Col.core_eq e
    obtain ⟨k1, k2, k3, _⟩ := Body.core_eq e'
    exact ⟨B', by rw [← g1]; exact hB', by rw [k3]; exact hm, by rw [← g2, ← g1, k2]; exact ha⟩
  · intro b B' hb
    obtain ⟨B, hB, e⟩ := h.body_bwd hb
    obtain ⟨h1, h2⟩ := hs.cols b B hB
    obtain ⟨k1, k2, k3, _⟩ := Body.core_eq e
    rw [← k3]
    refine ⟨h1, fun c hc => ?_⟩
    obtain ⟨x, hx, e2⟩ := h2 c hc
    obtain ⟨x', hx', e'⟩ := h.col_fwd hx
    exact ⟨x', hx', by rw [(Col.core_eq e').1]; exact e2⟩
  · intro c x' n hc hn
    obtain ⟨x, hx, e⟩ := h.col_bwd hc
    rw [h.bpMap]
    exact hs.bp c x n hx (by rw [(Col.core_eq e).2.1]; exact hn)
  · intro n c hn
    rw [h.bpMap] at hn
    obtain ⟨⟨x, hx, hb⟩, t, ht, hc⟩ := hs.bpMap n c hn
    obtain ⟨x', hx', e'⟩ := h.col_fwd hx
    obtain ⟨t', ht', e⟩ := map_fwd (h.tree n) ht
    exact ⟨⟨x', hx', by rw [(Col.core_eq e').2.1]; exact hb⟩, t', ht', e.trans hc⟩
  · intro n t' ht
    obtain ⟨t, ht', e⟩ := map_fwd (h.tree n).symm ht
    rw [h.bpMap, ← e]
    exact hs.tree n t ht'
  · intro c x' hc
    obtain ⟨x, hx, e⟩ := h.col_bwd hc
    obtain ⟨_, _, _, _, _, g6, g7, _⟩ := Col.core_eq e
    rw [← g6, ← g7]
    exact hs.flags c x hx
  · intro hl q hq
    rw [h.lost] at hq
    rw [h.reportable]
    exact hs.lost hl q hq
  · intro hc c1 c2 n1 n2 y1 y2 t1 t2 hm
    by_cases m1 : w'.moved n1 = true
    · exact Or.inr (Or.inl m1)
    by_cases m2 : w'.moved n2 = true
    · exact Or.inr (Or.inr m2)
    obtain ⟨x1, hx1, f1⟩ := h.col_bwd hm.hc1
    obtain ⟨x2, hx2, f2⟩ := h.col_bwd hm.hc2
    obtain ⟨g1, g2, g3, g4, g5, _⟩ := Col.core_eq f1
    obtain ⟨k1, k2, k3, k4, k5, _⟩ := Col.core_eq f2
    have hm' : Meet w c1 c2 n1 n2 x1 x2 t1 t2 := by
      refine ⟨hx1, hx2, g2.trans hm.hn1, k2.trans hm.hn2, ((h.boxes n1).resolve_right m1) ▸ hm.ht1, ((h.boxes n2).resolve_right m2) ▸ hm.ht2,
        by rw [g1, k1]; exact hm.ne, by rw [g1, k1, ← h.noColl]; exact hm.noColl, ?_, by rw [g3, k3]; exact hm.cvx, hm.fat⟩
      have := hm.bits
      unfold BitsMatch at this ⊢
      rw [g4, g5, k4, k5]; exact this
    rcases hs.cover hc c1 c2 n1 n2 x1 x2 t1 t2 hm' with ⟨⟨k, p⟩, hy⟩ | h1 | h1
    · obtain ⟨k', p', hp, _⟩ := h.pair_fwd hy
      exact Or.inl ⟨_, hp⟩
    · exact absurd (h.moved _ h1) m1
    · exact absurd (h.moved _ h1) m2

/-- Nothing about joints changes. -/
theorem JInv.of_eq (h : JInv w) (e1 : w'.jnt = w.jnt) (e2 : ∀ b, (w'.body b).map Body.joints = (w.body b).map Body.joints) : JInv w' := by
  refine ⟨?_, ?_⟩
  · intro j J hj
    rw [e1] at hj
    obtain ⟨h1, h2⟩ := h.jnt j J hj
    refine ⟨h1, fun b hb => ?_⟩
    obtain ⟨B, hB, hm⟩ := h2 b hb
    obtain ⟨B', hB', e'⟩ := map_fwd (e2 b) hB
    exact ⟨B', hB', by rw [e']; exact hm⟩
  · intro b B' hb
    obtain ⟨B, hB, e⟩ := map_fwd (e2 b).symm hb
    obtain ⟨h1, h2⟩ := h.joints b B hB
    rw [← e]
    refine ⟨h1, fun j hj => ?_⟩
    rw [e1]; exact h2 j hj

theorem Frame.joints (h : Frame w A w' A') (b : Nat) : (w'.body b).map Body.joints = (w.body b).map Body.joints := by
  have := congrArg (Option.map Body.joints) (h.body b)
  simpa [Option.map_map, Function.comp_def, Body.core] using this

theorem Frame.jinv (h : Frame w A w' A') (hj : JInv w) : JInv w' := hj.of_eq h.jnt h.joints

end World
end RP3D
