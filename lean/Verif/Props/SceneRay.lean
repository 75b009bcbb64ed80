import Verif.Scene.Inv
import Verif.Props.Raycast
import Verif.Props.BodyRay
import Verif.Props.Bounds

/-! C124: a ray cast through a world sees the bodies where and as they are, after every history of calls. -/

set_option linter.unusedVariables false
set_option linter.unusedSectionVars false

namespace RP3D
namespace Scene
open TreeSpec RaySpec Ray RayProps PointProps BodyRay

variable {K : Type} [Field K] [LinearOrder K] [IsStrictOrderedRing K]

/-! ### Specification -/

/-- The worlds a program can reach. `z` tells whether the size of a shape was changed. The names of new objects are new, poses are rigid, shapes
have boxes, and the list given to `update` names the colliders of the bodies that are neither static nor asleep. -/
inductive Reach (fat : AABB K → AABB K) : Bool → State K → Prop
  | init (f : Nat → TNode K) : Reach fat false (init f)
  | createBody {z w b T} : Reach fat z w → w.body b = none → T.ori.lengthSq = 1 → Reach fat z (w.createBody b T)
  | createForm {z w s f} : Reach fat z w → w.form s = none → Proper f → Reach fat z (w.createForm s f)
  | addCollider {z w w' b c s L} (ch : Choice K) : Reach fat z w → w.col c = none → (w.form s).isSome = true → L.ori.lengthSq = 1 →
      w.addCollider ch fat b c s L = some w' → Reach fat z w'
  | removeCollider {z w w' c} : Reach fat z w → w.removeCollider c = some w' → Reach fat z w'
  | destroyBody {z w w' b} : Reach fat z w → w.destroyBody b = some w' → Reach fat z w'
  | setTransform {z w w' b T} (ch : Choice K) : Reach fat z w → T.ori.lengthSq = 1 → w.setTransform ch fat b T = some w' → Reach fat z w'
  | setLocal {z w w' c L} (ch : Choice K) : Reach fat z w → L.ori.lengthSq = 1 → w.setLocal ch fat c L = some w' → Reach fat z w'
  | setActive {z w w' b v} (ch : Choice K) : Reach fat z w → w.setActive ch fat b v = some w' → Reach fat z w'
  | setEnabled {z w w' b v} : Reach fat z w → w.setEnabled b v = some w' → Reach fat z w'
  | setCategory {z w w' c n} : Reach fat z w → w.setCategory c n = some w' → Reach fat z w'
  | setQuery {z w w' c v} : Reach fat z w → w.setQuery c v = some w' → Reach fat z w'
  | resize {z w s f} : Reach fat z w → Proper f → Reach fat true (w.resize s f)
  | update {z w w' T cs} (ch : Choice K) : Reach fat z w → (∀ b B, w.body b = some B → B.enabled = true → (T b).ori.lengthSq = 1) →
      (∀ c, c ∈ cs ↔ ∃ x B, w.col c = some x ∧ w.body x.body = some B ∧ B.enabled = true) → w.update ch fat T cs = some w' → Reach fat z w'

/-- A collider a ray with this mask may hit. -/
structure Seen (w : State K) (mask c : Nat) (x : SCol K) (B : SBody K) : Prop where
  col : w.col c = some x
  body : w.body x.body = some B
  active : B.active = true
  mask : mask &&& x.cat ≠ 0
  query : x.query = true

/-- The points covered by a collider: the solid of its shape, placed with the pose of its body and its own pose in the body. -/
def Covers (w : State K) (sol : Nat → V3 K → Prop) (c : Nat) (p : V3 K) : Prop :=
  ∃ x B, w.col c = some x ∧ w.body x.body = some B ∧ Placed (B.trans.mul x.loc) (sol x.form) p

/-- The box of a shape encloses the solid. -/
def Encloses (f : Form K) (S : V3 K → Prop) : Prop := ∀ t : Trans K, t.ori.lengthSq = 1 → ∀ b, f.box t = some b → ∀ p, Placed t S p → AABB.Mem p b

/-- What is asked of a ray. The ray is not in the plane of a side of a box in the tree and parallel to it (C20), the shapes of the colliders it may
hit have boxes that enclose them (C61) and exact ray casts (C48), and no change of their sizes is pending. -/
structure RayOk (w : State K) (sol : Nat → V3 K → Prop) (mask : Nat) (r : Ray K) : Prop where
  pos : 0 < r.maxF
  clear : ∀ c x n b, w.col c = some x → x.bp = some n → w.tree.fatOf n = some b → b.Clear r.p1 r.dir
  shape : ∀ c x B f, Seen w mask c x B → w.form x.form = some f →
    Encloses f (sol x.form) ∧ Exact (sol x.form) f.cast (localRay (B.trans.mul x.loc) r) r.maxF
  settled : ∀ c x B, Seen w mask c x B → x.changed = false

/-- A report is true: the first point of the collider on the ray, with an outward normal. -/
structure IsHit (w : State K) (sol : Nat → V3 K → Prop) (mask : Nat) (r : Ray K) (info : Info K) : Prop where
  seen : ∃ x B, Seen w mask info.collider x B
  first : IsFirst (Covers w sol info.collider) r info.fraction
  range : info.fraction ≤ r.maxF
  point : info.point = r.at info.fraction
  normal : Outward (Covers w sol info.collider) r info.fraction info.normal

/-! ### The scenes -/

variable {fat : AABB K → AABB K} {w : State K} {S : Nat → Option (Obj K)}

theorem init_good (f : Nat → TNode K) : Good fat (init f) := by
  refine ⟨fun _ => none, Hist.init f, ?_, ?_, ?_, ?_, ?_, ?_, ?_, ?_, ?_, ?_, ?_⟩ <;> intros <;> simp_all [init]

theorem reach_good (hfat : ∀ b : AABB K, b.Valid → (fat b).contains b = true) {z : Bool} (h : Reach fat z w) :
    Good fat w ∧ (z = false → Settled w) := by
  induction h with
  | init f => exact ⟨init_good f, fun _ c x hc => by cases hc⟩
  | createBody _ hb hT ih => exact ⟨createBody_good ih.1 hb hT, ih.2⟩
  | createForm _ hs hf ih => exact ⟨createForm_good ih.1 hs hf, ih.2⟩
  | @addCollider z w w' b c s L ch _ hc hs hL e ih =>
    obtain ⟨f, hf⟩ := Option.isSome_iff_exists.1 hs
    cases hB : w.body b with
    | none => rw [State.addCollider, hB] at e; cases e
    | some B =>
      obtain ⟨w1, e1, g, t⟩ := addCollider_good hfat ch ih.1 hB hc hf hL
      rw [e] at e1
      cases e1
      exact ⟨g, fun q => t (ih.2 q)⟩
  | @removeCollider z w w' c _ e ih =>
    cases hc : w.col c with
    | none => rw [State.removeCollider, State.cdRemove, hc] at e; cases e
    | some x =>
      obtain ⟨S, hS⟩ := ih.1
      obtain ⟨B, hB, _⟩ := hS.owner c x hc
      obtain ⟨w1, e1, g, t, _⟩ := removeCollider_good ih.1 hc hB
      rw [e] at e1
      cases e1
      exact ⟨g, fun q => t (ih.2 q)⟩
  | @destroyBody z w w' b _ e ih =>
    cases hB : w.body b with
    | none => rw [State.destroyBody, hB] at e; cases e
    | some B =>
      obtain ⟨w1, e1, g, t⟩ := destroyBody_good ih.1 hB
      rw [e] at e1
      cases e1
      exact ⟨g, fun q => t (ih.2 q)⟩
  | @setTransform z w w' b T ch _ hT e ih =>
    cases hB : w.body b with
    | none => rw [State.setTransform, hB] at e; cases e
    | some B =>
      obtain ⟨w1, e1, g, t⟩ := setTransform_good hfat ch ih.1 hB hT
      rw [e] at e1
      cases e1
      exact ⟨g, fun q => t (ih.2 q)⟩
  | @setLocal z w w' c L ch _ hL e ih =>
    cases hc : w.col c with
    | none => rw [State.setLocal, hc] at e; cases e
    | some x =>
      obtain ⟨w1, e1, g, t⟩ := setLocal_good hfat ch ih.1 hc hL
      rw [e] at e1
      cases e1
      exact ⟨g, fun q => t (ih.2 q)⟩
  | @setActive z w w' b v ch _ e ih =>
    cases hB : w.body b with
    | none => rw [State.setActive, hB] at e; cases e
    | some B =>
      obtain ⟨w1, e1, g, t⟩ := setActive_good hfat ch ih.1 hB v
      rw [e] at e1
      cases e1
      exact ⟨g, fun q => t (ih.2 q)⟩
  | @setEnabled z w w' b v _ e ih =>
    cases hB : w.body b with
    | none => rw [State.setEnabled, hB] at e; cases e
    | some B =>
      obtain ⟨w1, e1, g, t⟩ := setEnabled_good ih.1 hB v
      rw [e] at e1
      cases e1
      exact ⟨g, fun q => t (ih.2 q)⟩
  | @setCategory z w w' c n _ e ih =>
    cases hc : w.col c with
    | none => rw [State.setCategory, hc] at e; cases e
    | some x =>
      obtain ⟨w1, e1, g, t⟩ := setCategory_good ih.1 hc n
      rw [e] at e1
      cases e1
      exact ⟨g, fun q => t (ih.2 q)⟩
  | @setQuery z w w' c v _ e ih =>
    cases hc : w.col c with
    | none => rw [State.setQuery, hc] at e; cases e
    | some x =>
      obtain ⟨w1, e1, g, t⟩ := setQuery_good ih.1 hc v
      rw [e] at e1
      cases e1
      exact ⟨g, fun q => t (ih.2 q)⟩
  | resize _ hf ih => exact ⟨resize_good ih.1 hf, fun q => by cases q⟩
  | @update z w w' T cs ch _ hT hcs e ih =>
    obtain ⟨w1, e1, g, t⟩ := update_good hfat ch ih.1 hT hcs
    rw [e] at e1
    cases e1
    exact ⟨g, fun q => t (ih.2 q)⟩

/-- **C124.** No call is undefined in a reachable world: the tree has every id it is asked for. -/
theorem scene_defined (hfat : ∀ b : AABB K, b.Valid → (fat b).contains b = true) {z : Bool} (h : Reach fat z w) (ch : Choice K) :
    (∀ b B, w.body b = some B → (w.destroyBody b).isSome = true ∧ (∀ v, (w.setActive ch fat b v).isSome = true) ∧
      (∀ T : Trans K, T.ori.lengthSq = 1 → (w.setTransform ch fat b T).isSome = true) ∧
      ∀ c s (L : Trans K), w.col c = none → (w.form s).isSome = true → L.ori.lengthSq = 1 → (w.addCollider ch fat b c s L).isSome = true) ∧
    (∀ c x, w.col c = some x → (w.removeCollider c).isSome = true ∧
      ∀ L : Trans K, L.ori.lengthSq = 1 → (w.setLocal ch fat c L).isSome = true) ∧
    ∀ T cs, (∀ b B, w.body b = some B → B.enabled = true → (T b).ori.lengthSq = 1) →
      (∀ c, c ∈ cs ↔ ∃ x B, w.col c = some x ∧ w.body x.body = some B ∧ B.enabled = true) → (w.update ch fat T cs).isSome = true := by
  obtain ⟨g, _⟩ := reach_good hfat h
  refine ⟨fun b B hB => ⟨?_, fun v => ?_, fun T hT => ?_, fun c s L hc hs hL => ?_⟩, fun c x hc => ⟨?_, fun L hL => ?_⟩, fun T cs hT hcs => ?_⟩
  · obtain ⟨w', e, _⟩ := destroyBody_good g hB; rw [e]; rfl
  · obtain ⟨w', e, _⟩ := setActive_good hfat ch g hB v; rw [e]; rfl
  · obtain ⟨w', e, _⟩ := setTransform_good hfat ch g hB hT; rw [e]; rfl
  · obtain ⟨f, hf⟩ := Option.isSome_iff_exists.1 hs
    obtain ⟨w', e, _⟩ := addCollider_good hfat ch g hB hc hf hL; rw [e]; rfl
  · obtain ⟨S, hS⟩ := id g
    obtain ⟨B, hB, _⟩ := hS.owner c x hc
    obtain ⟨w', e, _⟩ := removeCollider_good g hc hB; rw [e]; rfl
  · obtain ⟨w', e, _⟩ := setLocal_good hfat ch g hc hL; rw [e]; rfl
  · obtain ⟨w', e, _⟩ := update_good hfat ch g hT hcs; rw [e]; rfl

/-- **C124.** The stored pose of every collider is that of its body followed by its own. -/
theorem scene_placed (hfat : ∀ b : AABB K, b.Valid → (fat b).contains b = true) {z : Bool} (h : Reach fat z w) {c : Nat} {x : SCol K} {B : SBody K}
    (hc : w.col c = some x) (hB : w.body x.body = some B) : x.world = B.trans.mul x.loc ∧ (x.bp.isSome = true ↔ B.active = true) := by
  obtain ⟨⟨S, g⟩, _⟩ := reach_good hfat h
  exact ⟨g.placed c x B hc hB fun q => q, g.active c x B hc hB fun q => q⟩

/-! ### One collider -/

theorem hist_valid {t : Tree K} (h : Hist AABB.Valid fat t S) : ∀ i o, S i = some o → o.box.Valid := by
  induction h with
  | init f => intro i o hi; cases hi
  | add _ hb _ ih =>
    rename_i i0 _ _
    intro i o hi
    by_cases e : i = i0
    · subst e; rw [upd_same] at hi; cases hi; exact hb
    · rw [upd_ne _ _ e] at hi; exact ih i o hi
  | @remove _ _ _ i0 _ _ _ _ ih =>
    intro i o hi
    by_cases e : i = i0
    · subst e; rw [upd_same] at hi; cases hi
    · rw [upd_ne _ _ e] at hi; exact ih i o hi
  | @update _ _ _ _ _ i0 _ _ _ _ _ hb _ ih =>
    intro i o hi
    by_cases e : i = i0
    · subst e; rw [upd_same] at hi; cases hi; exact hb
    · rw [upd_ne _ _ e] at hi; exact ih i o hi
  | reset _ _ => intro i o hi; cases hi

theorem valid_of_contains {a b : AABB K} (h : a.contains b = true) (hb : b.Valid) : a.Valid := by
  rw [AABB.contains_iff] at h
  obtain ⟨h1, h2, h3, h4, h5, h6⟩ := h
  exact ⟨h1.trans (hb.1.trans h4), h2.trans (hb.2.1.trans h5), h3.trans (hb.2.2.trans h6)⟩

theorem covers_eq (sol : Nat → V3 K → Prop) {c : Nat} {x : SCol K} {B : SBody K} (hc : w.col c = some x) (hB : w.body x.body = some B) :
    Covers w sol c = Placed (B.trans.mul x.loc) (sol x.form) := by
  funext p
  apply propext
  constructor
  · rintro ⟨y, C, hy, hC, h⟩
    rw [hc] at hy
    cases hy
    rw [hB] at hC
    cases hC
    exact h
  · intro h
    exact ⟨x, B, hc, hB, h⟩

abbrev Inv' (fat : AABB K → AABB K) (w : State K) (S : Nat → Option (Obj K)) : Prop := Inv fat w S (fun _ => False) (fun _ => False) fun _ => False

theorem atNode_eq (g : Inv' fat w S) {i : Nat} {ob : Obj K} (hi : S i = some ob) :
    ∃ x B f, w.atNode i = some (ob.data, x, B, f) ∧ w.col ob.data = some x ∧ w.body x.body = some B ∧ w.form x.form = some f ∧ x.bp = some i := by
  obtain ⟨_, _, _, wf⟩ := tree_well_formed g.tree
  have hd := (wf.data i ob hi).1
  obtain ⟨x, hx, hb⟩ := g.obj i ob hi
  obtain ⟨B, hB, _⟩ := g.owner _ x hx
  obtain ⟨f, hf⟩ := g.form _ x hx
  exact ⟨x, B, f, by simp [State.atNode, hd, hx, hB, hf], hx, hB, hf, hb⟩

theorem not_covers_of_not_hits (hfat : ∀ b : AABB K, b.Valid → (fat b).contains b = true) (g : Inv' fat w S) {sol : Nat → V3 K → Prop} {mask : Nat}
    {r : Ray K} (ok : RayOk w sol mask r) {i : Nat} {ob : Obj K} (hi : S i = some ob) {m : K} (hh : ¬ Hits r.p1 r.dir ob.fat m) {x : SCol K} {B : SBody K}
    (hs : Seen w mask ob.data x B) {t : K} (t0 : 0 ≤ t) (t1 : t < m) : ¬ Covers w sol ob.data (r.at t) := by
  intro hc
  rw [covers_eq sol hs.col hs.body] at hc
  obtain ⟨y, _, f, _, hy, _, hf, hb⟩ := atNode_eq g hi
  rw [hs.col] at hy
  cases hy
  have hr : (B.trans.mul x.loc).ori.lengthSq = 1 := by
    rw [trans_mul_eq]; exact unit_mul (g.rigid _ _ hs.body) (g.rigidLoc _ _ hs.col)
  obtain ⟨b, hbx, _⟩ := g.box hs.col
  have hfb : f.box (B.trans.mul x.loc) = some b := by
    simpa only [State.boxOf, hs.body, hf, Option.bind_eq_bind, Option.bind_some] using hbx
  have hm := (ok.shape _ _ _ f hs hf).1 _ hr b hfb _ hc
  have hcon := g.fresh _ x i ob b hs.col (fun q => q) (ok.settled _ _ _ hs) hb hi hbx
  refine hh (hits_fat hcon ⟨t, t0, t1.le, ?_⟩)
  have : r.at t = ⟨r.p1.x + t * r.dir.x, r.p1.y + t * r.dir.y, r.p1.z + t * r.dir.z⟩ := by
    ext <;> simp [Ray.at]
  rw [← this]
  exact hm

variable {σ : Type}

theorem callback_cases (g : Inv' fat w S) {sol : Nat → V3 K → Prop} {mask : Nat} {r : Ray K} (ok : RayOk w sol mask r) {eps : K} (he : 0 < eps)
    (len : V3 K → K) (cb : σ → Info K → σ × Ext K) (s : σ) {i : Nat} {ob : Obj K} (hi : S i = some ob) {m : K} (m0 : 0 < m) (m1 : m ≤ r.maxF) :
    (∃ q, callback eps len w mask r cb (some s) i m = (some s, .fin q) ∧ (q = -1 ∨ q = m) ∧
      ∀ x B, Seen w mask ob.data x B → ¬ Covers w sol ob.data r.p1 → ∀ t, 0 ≤ t → t < m → ¬ Covers w sol ob.data (r.at t)) ∨
    (∃ info, callback eps len w mask r cb (some s) i m = (some (cb s info).1, (cb s info).2) ∧ info.collider = ob.data ∧ info.fraction ≤ m ∧
      IsHit w sol mask r info) := by
  obtain ⟨x, B, f, e, hx, hB, hf, hb⟩ := atNode_eq g hi
  have hr : (B.trans.mul x.loc).ori.lengthSq = 1 := by
    rw [trans_mul_eq]; exact unit_mul (g.rigid _ _ hB) (g.rigidLoc _ _ hx)
  have hw : x.world = B.trans.mul x.loc := g.placed _ x B hx hB fun q => q
  unfold callback
  simp only [e]
  by_cases h1 : mask &&& x.cat ≠ 0 ∧ x.query = true
  · rw [if_pos h1]
    by_cases h2 : B.active = true
    · rw [if_pos h2]
      have hs : Seen w mask ob.data x B := ⟨hx, hB, h2, h1.1, h1.2⟩
      have pok : (Part.mk ⟨ob.data, x.world, f.cast⟩ (sol x.form)).Ok { r with maxF := m } := by
        refine ⟨by rw [hw]; exact hr, ?_⟩
        rw [hw]
        intro m' h0 h3
        exact (ok.shape _ _ _ f hs hf).2 m' h0 (h3.trans m1)
      obtain ⟨c1, c2⟩ := collider_hit pok m0.le eps len blank
      have c3 := collider_point pok m0.le he len blank
      have hsol : (Part.mk (⟨ob.data, x.world, f.cast⟩ : Collider K) (sol x.form)).solid = Covers w sol ob.data := by
        rw [covers_eq sol hx hB]
        unfold Part.solid
        rw [hw]
      rw [hsol] at c1 c2 c3
      cases hrc : Collider.raycast eps len ⟨ob.data, x.world, f.cast⟩ { r with maxF := m } blank with
      | mk v info =>
        rw [hrc] at c1 c2 c3
        cases v with
        | true =>
          obtain ⟨f1, f2, f3⟩ := c1 rfl
          obtain ⟨p1, p2⟩ := c3 rfl
          have f3' : info.collider = ob.data := f3
          refine Or.inr ⟨info, rfl, f3', f2, ⟨x, B, by rw [f3']; exact hs⟩, ?_, le_trans f2 m1, p1, ?_⟩
          · rw [f3']; exact f1
          · rw [f3']; exact p2
        | false =>
          obtain ⟨_, _, f3⟩ := c2 rfl
          exact Or.inl ⟨m, rfl, Or.inr rfl, fun y C _ => f3⟩
    · rw [if_neg h2]
      refine Or.inl ⟨m, rfl, Or.inr rfl, fun y C hs => ?_⟩
      have := hs.col
      rw [hx] at this
      cases this
      have := hs.body
      rw [hB] at this
      cases this
      exact absurd hs.active h2
  · rw [if_neg h1]
    refine Or.inl ⟨-1, rfl, Or.inl rfl, fun y C hs => ?_⟩
    have := hs.col
    rw [hx] at this
    cases this
    exact absurd ⟨hs.mask, hs.query⟩ h1

theorem shorten_pos {m : K} (m0 : 0 < m) (h : Ext K) : 0 < shorten m h ∧ shorten m h ≤ m := by
  cases h with
  | fin x =>
    simp only [shorten]
    split_ifs with h
    · exact ⟨h.1, h.2.le⟩
    · exact ⟨m0, le_refl _⟩
  | _ => exact ⟨m0, le_refl _⟩

/-- The ray cast is a scan of the objects in the tree. -/
theorem raycast_scan (hfat : ∀ b : AABB K, b.Valid → (fat b).contains b = true) (g : Inv' fat w S) {sol : Nat → V3 K → Prop} {mask : Nat} {r : Ray K}
    (ok : RayOk w sol mask r) (eps : K) (len : V3 K → K) (neg : V3 Bool) :
    ∃ L : List Nat, L.Nodup ∧ (∀ i, i ∈ L ↔ (S i).isSome) ∧ ∀ (σ : Type) (cb : σ → Info K → σ × Ext K) (s : σ)
      [∀ i m, Decidable (∃ ob ∈ S i, Hits r.p1 r.dir ob.fat m)],
      ∀ s' m stop, scan (fun i m => ∃ ob ∈ S i, Hits r.p1 r.dir ob.fat m) (callback eps len w mask r cb) L r.maxF (some s) = (some s', m, stop) →
        raycast (FloatOps.exact K) eps len w mask r neg cb s = some (s', m, stop) := by
  obtain ⟨L, h1, h2, h3⟩ := tree_raycast_exact_partial g.tree r.p1 r.dir neg fun i ob hi => by
    obtain ⟨e1, e2⟩ := tree_box_enclosed hfat g.tree i ob hi
    obtain ⟨x, hx, hb⟩ := g.obj i ob hi
    exact ⟨valid_of_contains e2 (hist_valid g.tree i ob hi), ok.clear _ x i _ hx hb e1⟩
  refine ⟨L, h1, h2, fun σ cb s _ s' m stop e => ?_⟩
  unfold raycast
  rw [h3, e]

/-! ### Every callback -/

/-- A callback of the user that keeps a record of the reports. -/
def recorded (cb : σ → Info K → σ × Ext K) : σ × List (Info K) → Info K → (σ × List (Info K)) × Ext K :=
  fun s info => (((cb s.1 info).1, s.2 ++ [info]), (cb s.1 info).2)

theorem scan_reports (hfat : ∀ b : AABB K, b.Valid → (fat b).contains b = true) (g : Inv' fat w S) {sol : Nat → V3 K → Prop} {mask : Nat} {r : Ray K}
    (ok : RayOk w sol mask r) {eps : K} (he : 0 < eps) (len : V3 K → K) (cb : σ → Info K → σ × Ext K)
    [∀ i m, Decidable (∃ ob ∈ S i, Hits r.p1 r.dir ob.fat m)] :
    ∀ (L : List Nat), L.Nodup → (∀ i ∈ L, (S i).isSome) → ∀ (m : K) (s : σ) (log : List (Info K)), 0 < m → m ≤ r.maxF →
    ∃ s' new m' stop, scan (fun i m => ∃ ob ∈ S i, Hits r.p1 r.dir ob.fat m) (callback eps len w mask r (recorded cb)) L m (some (s, log)) =
        (some (s', log ++ new), m', stop) ∧ 0 < m' ∧ m' ≤ m ∧ (new.map Info.collider).Nodup ∧
      (∀ info ∈ new, IsHit w sol mask r info ∧ ∃ i ∈ L, ∃ ob, S i = some ob ∧ ob.data = info.collider) ∧
      (stop = false → ∀ i ∈ L, ∀ ob, S i = some ob → ∀ x B, Seen w mask ob.data x B → ¬ Covers w sol ob.data r.p1 → ∀ t, 0 ≤ t → t < m' →
        Covers w sol ob.data (r.at t) → ∃ info ∈ new, info.collider = ob.data) := by
  intro L
  induction L with
  | nil => intro _ _ m s log m0 _; exact ⟨s, [], m, false, by simp [scan], m0, le_refl _, by simp, by simp, fun _ i hi => by cases hi⟩
  | cons i L ih =>
    intro hn hS m s log m0 m1
    rw [List.nodup_cons] at hn
    obtain ⟨ob, hob⟩ := Option.isSome_iff_exists.1 (hS i (by simp))
    have hS' : ∀ j ∈ L, (S j).isSome := fun j hj => hS j (by simp [hj])
    have inj : ∀ j ∈ L, ∀ ob', S j = some ob' → ob'.data ≠ ob.data := by
      intro j hj ob' hj' e
      obtain ⟨x, hx, hb⟩ := g.obj i ob hob
      obtain ⟨y, hy, hb'⟩ := g.obj j ob' hj'
      rw [e, hx] at hy
      cases hy
      rw [hb] at hb'
      cases hb'
      exact hn.1 hj
    rw [scan]
    by_cases hh : ∃ ob ∈ S i, Hits r.p1 r.dir ob.fat m
    · rw [if_pos hh]
      rcases callback_cases g ok he len (recorded cb) (s, log) hob m0 m1 with ⟨q, e, hq, miss⟩ | ⟨info, e, hcol, hfr, hit⟩
      · -- nothing reported
        rw [e]
        have hq0 : Ext.fin q ≠ Ext.fin (0 : K) := by
          intro h
          injection h with h
          rcases hq with hq | hq <;> rw [hq] at h
          · exact absurd h (by norm_num)
          · exact m0.ne' h
        have hsh : shorten m (Ext.fin q) = m := by
          simp only [shorten]
          rcases hq with hq | hq <;> subst hq
          · rw [if_neg (by rintro ⟨h, _⟩; linarith)]
          · rw [if_neg (by rintro ⟨_, h⟩; exact lt_irrefl _ h)]
        rw [if_neg hq0, hsh]
        obtain ⟨s', new, m', stop, e', p0, p1, p2, p3, p4⟩ := ih hn.2 hS' m s log m0 m1
        refine ⟨s', new, m', stop, e', p0, p1, p2, fun info hi => ?_, fun hst j hj ob' hj' x B hs hout t t0 t1 hc => ?_⟩
        · obtain ⟨a, k, hk, b⟩ := p3 info hi
          exact ⟨a, k, by simp [hk], b⟩
        · rcases List.mem_cons.1 hj with rfl | hj
          · rw [hob] at hj'
            cases hj'
            exact absurd hc (miss x B hs hout t t0 (lt_of_lt_of_le t1 p1))
          · exact p4 hst j hj ob' hj' x B hs hout t t0 t1 hc
      · rw [e]
        have hrep : ∀ new : List (Info K), ((recorded cb (s, log) info).1.2 ++ new) = log ++ (info :: new) := by intro new; simp [recorded]
        by_cases hz : (recorded cb (s, log) info).2 = Ext.fin 0
        · rw [if_pos hz]
          refine ⟨(recorded cb (s, log) info).1.1, [info], m, true, ?_, m0, le_refl _, by simp, fun k hk => ?_, fun h => by cases h⟩
          · rw [← hrep []]; simp
          · rw [List.mem_singleton] at hk
            subst hk
            exact ⟨hit, i, by simp, ob, hob, hcol.symm⟩
        · rw [if_neg hz]
          obtain ⟨k0, k1⟩ := shorten_pos m0 (recorded cb (s, log) info).2
          obtain ⟨s', new, m', stop, e', p0, p1, p2, p3, p4⟩ := ih hn.2 hS' _ (recorded cb (s, log) info).1.1 (recorded cb (s, log) info).1.2 k0 (k1.trans m1)
          refine ⟨s', info :: new, m', stop, ?_, p0, p1.trans k1, ?_, fun k hk => ?_, fun hst j hj ob' hj' x B hs hout t t0 t1 hc => ?_⟩
          · rw [← hrep new]; exact e'
          · rw [List.map_cons, List.nodup_cons]
            refine ⟨fun hm => ?_, p2⟩
            obtain ⟨k, hk, ek⟩ := List.mem_map.1 hm
            obtain ⟨_, j, hj, ob', hj', ed⟩ := p3 k hk
            exact inj j hj ob' hj' (by rw [ed, ek, hcol])
          · rcases List.mem_cons.1 hk with rfl | hk
            · exact ⟨hit, i, by simp, ob, hob, hcol.symm⟩
            · obtain ⟨a, j, hj, b⟩ := p3 k hk
              exact ⟨a, j, by simp [hj], b⟩
          · rcases List.mem_cons.1 hj with rfl | hj
            · rw [hob] at hj'
              cases hj'
              exact ⟨info, by simp, hcol⟩
            · obtain ⟨k, hk, ek⟩ := p4 hst j hj ob' hj' x B hs hout t t0 t1 hc
              exact ⟨k, by simp [hk], ek⟩
    · rw [if_neg hh]
      have hh' : ¬ Hits r.p1 r.dir ob.fat m := fun h => hh ⟨ob, hob, h⟩
      obtain ⟨s', new, m', stop, e', p0, p1, p2, p3, p4⟩ := ih hn.2 hS' m s log m0 m1
      refine ⟨s', new, m', stop, e', p0, p1, p2, fun info hi => ?_, fun hst j hj ob' hj' x B hs hout t t0 t1 hc => ?_⟩
      · obtain ⟨a, k, hk, b⟩ := p3 info hi
        exact ⟨a, k, by simp [hk], b⟩
      · rcases List.mem_cons.1 hj with rfl | hj
        · rw [hob] at hj'
          cases hj'
          exact absurd hc (not_covers_of_not_hits hfat g ok hob hh' hs t0 (lt_of_lt_of_le t1 p1))
        · exact p4 hst j hj ob' hj' x B hs hout t t0 t1 hc

/-- **C124.** Whatever the callback of the user does, in every reachable world: a ray cast reports no collider twice, every report is the first point of
a collider that the mask and the flags admit, where this collider is now, with an outward normal; and if the callback never stopped the ray cast,
every admitted collider that covers a point of the ray before the last maximum fraction (and not its origin) was reported. -/
theorem world_raycast_reports (hfat : ∀ b : AABB K, b.Valid → (fat b).contains b = true) {z : Bool} (h : Reach fat z w) {sol : Nat → V3 K → Prop} {mask : Nat}
    {r : Ray K} (ok : RayOk w sol mask r) {eps : K} (he : 0 < eps) (len : V3 K → K) (neg : V3 Bool) (cb : σ → Info K → σ × Ext K) (s : σ) :
    ∃ s' log m stop, raycast (FloatOps.exact K) eps len w mask r neg (recorded cb) (s, []) = some ((s', log), m, stop) ∧ m ≤ r.maxF ∧
      (log.map Info.collider).Nodup ∧ (∀ info ∈ log, IsHit w sol mask r info) ∧
      (stop = false → ∀ c x B, Seen w mask c x B → ¬ Covers w sol c r.p1 → ∀ t, 0 ≤ t → t < m → Covers w sol c (r.at t) →
        ∃ info ∈ log, info.collider = c) := by
  classical
  obtain ⟨⟨S, g⟩, _⟩ := reach_good hfat h
  obtain ⟨L, l1, l2, l3⟩ := raycast_scan hfat g ok eps len neg
  obtain ⟨s', new, m', stop, e, p0, p1, p2, p3, p4⟩ := scan_reports hfat g ok he len cb L l1 (fun i hi => (l2 i).1 hi) r.maxF s [] ok.pos (le_refl _)
  refine ⟨s', new, m', stop, ?_, p1, p2, fun info hi => (p3 info hi).1, fun hst c x B hs hout t t0 t1 hc => ?_⟩
  · exact l3 _ _ _ _ _ _ (by simpa using e)
  · have ha := (g.active c x B hs.col hs.body fun q => q).2 hs.active
    obtain ⟨n, hn⟩ := Option.isSome_iff_exists.1 ha
    obtain ⟨o, ho, hod⟩ := g.node c x n hs.col hn
    have := p4 hst n ((l2 n).2 (by rw [ho]; rfl)) o ho x B (by rw [hod]; exact hs) (by rw [hod]; exact hout) t t0 t1 (by rw [hod]; exact hc)
    rwa [hod] at this

/-! ### The closest hit -/

/-- The callback of the manual: keep the report and shorten the ray to it. -/
def closest : Option (Info K) → Info K → Option (Info K) × Ext K := fun _ info => (some info, .fin info.fraction)

/-- What the callback has so far: nothing and the whole ray, or a hit and the ray up to it (the ray cast ends at a hit of fraction zero). -/
def Best (w : State K) (sol : Nat → V3 K → Prop) (mask : Nat) (r : Ray K) (m : K) : Option (Info K) → Prop
  | none => m = r.maxF
  | some info => IsHit w sol mask r info ∧ (info.fraction = m ∨ info.fraction = 0)

theorem scan_closest (hfat : ∀ b : AABB K, b.Valid → (fat b).contains b = true) (g : Inv' fat w S) {sol : Nat → V3 K → Prop} {mask : Nat} {r : Ray K}
    (ok : RayOk w sol mask r) {eps : K} (he : 0 < eps) (len : V3 K → K)
    [∀ i m, Decidable (∃ ob ∈ S i, Hits r.p1 r.dir ob.fat m)] :
    ∀ (L : List Nat), (∀ i ∈ L, (S i).isSome) → ∀ (m : K) (s : Option (Info K)), 0 < m → m ≤ r.maxF → Best w sol mask r m s →
    ∃ s' m' stop, scan (fun i m => ∃ ob ∈ S i, Hits r.p1 r.dir ob.fat m) (callback eps len w mask r closest) L m (some s) = (some s', m', stop) ∧
      m' ≤ m ∧ Best w sol mask r m' s' ∧ (stop = true → ∃ info, s' = some info ∧ info.fraction = 0) ∧
      (stop = false → ∀ i ∈ L, ∀ ob, S i = some ob → ∀ x B, Seen w mask ob.data x B → ¬ Covers w sol ob.data r.p1 → ∀ t, 0 ≤ t → t < m' →
        ¬ Covers w sol ob.data (r.at t)) := by
  intro L
  induction L with
  | nil => intro _ m s m0 _ hb; exact ⟨s, m, false, rfl, le_refl _, hb, by simp, fun _ i hi => by cases hi⟩
  | cons i L ih =>
    intro hS m s m0 m1 hb
    obtain ⟨ob, hob⟩ := Option.isSome_iff_exists.1 (hS i (by simp))
    have hS' : ∀ j ∈ L, (S j).isSome := fun j hj => hS j (by simp [hj])
    rw [scan]
    by_cases hh : ∃ ob ∈ S i, Hits r.p1 r.dir ob.fat m
    · rw [if_pos hh]
      rcases callback_cases g ok he len closest s hob m0 m1 with ⟨q, e, hq, miss⟩ | ⟨info, e, hcol, hfr, hit⟩
      · rw [e]
        have hq0 : Ext.fin q ≠ Ext.fin (0 : K) := by
          intro h
          injection h with h
          rcases hq with hq | hq <;> rw [hq] at h
          · exact absurd h (by norm_num)
          · exact m0.ne' h
        have hsh : shorten m (Ext.fin q) = m := by
          simp only [shorten]
          rcases hq with hq | hq <;> subst hq
          · rw [if_neg (by rintro ⟨h, _⟩; linarith)]
          · rw [if_neg (by rintro ⟨_, h⟩; exact lt_irrefl _ h)]
        rw [if_neg hq0, hsh]
        obtain ⟨s', m', stop, e', p1, p2, p3, p4⟩ := ih hS' m s m0 m1 hb
        refine ⟨s', m', stop, e', p1, p2, p3, fun hst j hj ob' hj' x B hs hout t t0 t1 => ?_⟩
        rcases List.mem_cons.1 hj with rfl | hj
        · rw [hob] at hj'
          cases hj'
          exact miss x B hs hout t t0 (lt_of_lt_of_le t1 p1)
        · exact p4 hst j hj ob' hj' x B hs hout t t0 t1
      · rw [e]
        show ∃ s' m' stop, (if Ext.fin info.fraction = Ext.fin (0 : K) then _ else _) = _ ∧ _
        by_cases hz : Ext.fin info.fraction = Ext.fin (0 : K)
        · rw [if_pos hz]
          injection hz with hz
          exact ⟨some info, m, true, rfl, le_refl _, ⟨hit, Or.inr hz⟩, fun _ => ⟨info, rfl, hz⟩, fun h => by cases h⟩
        · rw [if_neg hz]
          have hpos : 0 < info.fraction := lt_of_le_of_ne hit.first.1 fun h => hz (by rw [← h])
          have hsh : shorten m (Ext.fin info.fraction) = info.fraction := by
            simp only [shorten]
            split_ifs with hlt
            · rfl
            · have : ¬ info.fraction < m := fun h => hlt ⟨hpos, h⟩
              exact le_antisymm (not_lt.1 this) hfr
          show ∃ s' m' stop, scan _ _ L (shorten m (Ext.fin info.fraction)) (some (some info)) = _ ∧ _
          rw [hsh]
          obtain ⟨s', m', stop, e', p1, p2, p3, p4⟩ := ih hS' info.fraction (some info) hpos hit.range ⟨hit, Or.inl rfl⟩
          refine ⟨s', m', stop, e', p1.trans hfr, p2, p3, fun hst j hj ob' hj' x B hs hout t t0 t1 => ?_⟩
          rcases List.mem_cons.1 hj with rfl | hj
          · rw [hob] at hj'
            cases hj'
            rw [← hcol]
            exact hit.first.2.2 t t0 (lt_of_lt_of_le t1 p1)
          · exact p4 hst j hj ob' hj' x B hs hout t t0 t1
    · rw [if_neg hh]
      have hh' : ¬ Hits r.p1 r.dir ob.fat m := fun h => hh ⟨ob, hob, h⟩
      obtain ⟨s', m', stop, e', p1, p2, p3, p4⟩ := ih hS' m s m0 m1 hb
      refine ⟨s', m', stop, e', p1, p2, p3, fun hst j hj ob' hj' x B hs hout t t0 t1 => ?_⟩
      rcases List.mem_cons.1 hj with rfl | hj
      · rw [hob] at hj'
        cases hj'
        exact not_covers_of_not_hits hfat g ok hob hh' hs t0 (lt_of_lt_of_le t1 p1)
      · exact p4 hst j hj ob' hj' x B hs hout t t0 t1

/-- **C124.** The closest hit, in every reachable world: with the callback that shortens the ray to each hit, the last report is the first point of an
admitted collider, and no admitted collider (that does not cover the origin of the ray) is closer; without a report, none is on the ray. -/
theorem world_raycast_closest (hfat : ∀ b : AABB K, b.Valid → (fat b).contains b = true) {z : Bool} (h : Reach fat z w) {sol : Nat → V3 K → Prop} {mask : Nat}
    {r : Ray K} (ok : RayOk w sol mask r) {eps : K} (he : 0 < eps) (len : V3 K → K) (neg : V3 Bool) :
    ∃ res m stop, raycast (FloatOps.exact K) eps len w mask r neg closest none = some (res, m, stop) ∧
      (res = none → ∀ c x B, Seen w mask c x B → ¬ Covers w sol c r.p1 → ∀ t, 0 ≤ t → t < r.maxF → ¬ Covers w sol c (r.at t)) ∧
      ∀ info, res = some info → IsHit w sol mask r info ∧
        ∀ c x B, Seen w mask c x B → ¬ Covers w sol c r.p1 → ∀ t, 0 ≤ t → t < info.fraction → ¬ Covers w sol c (r.at t) := by
  classical
  obtain ⟨⟨S, g⟩, _⟩ := reach_good hfat h
  obtain ⟨L, l1, l2, l3⟩ := raycast_scan hfat g ok eps len neg
  obtain ⟨res, m, stop, e, p1, p2, p3, p4⟩ := scan_closest hfat g ok he len L (fun i hi => (l2 i).1 hi) r.maxF none ok.pos (le_refl _) rfl
  have all : stop = false → ∀ c x B, Seen w mask c x B → ¬ Covers w sol c r.p1 → ∀ t, 0 ≤ t → t < m → ¬ Covers w sol c (r.at t) := by
    intro hst c x B hs hout t t0 t1
    have ha := (g.active c x B hs.col hs.body fun q => q).2 hs.active
    obtain ⟨n, hn⟩ := Option.isSome_iff_exists.1 ha
    obtain ⟨o, ho, hod⟩ := g.node c x n hs.col hn
    have := p4 hst n ((l2 n).2 (by rw [ho]; rfl)) o ho x B (by rw [hod]; exact hs) (by rw [hod]; exact hout) t t0 t1
    rwa [hod] at this
  refine ⟨res, m, stop, l3 _ _ _ _ _ _ e, fun hr c x B hs hout t t0 t1 => ?_, fun info hr => ?_⟩
  · subst hr
    have hm : m = r.maxF := p2
    cases hst : stop with
    | true => obtain ⟨i, hi, _⟩ := p3 hst; cases hi
    | false => exact all hst c x B hs hout t t0 (by rw [hm]; exact t1)
  · subst hr
    obtain ⟨q1, q2⟩ := p2
    refine ⟨q1, fun c x B hs hout t t0 t1 => ?_⟩
    rcases q2 with q2 | q2
    · cases hst : stop with
      | true =>
        obtain ⟨i, hi, h0⟩ := p3 hst
        cases hi
        rw [h0] at t1
        exact absurd t1 (not_lt.2 t0)
      | false => exact all hst c x B hs hout t t0 (by rw [← q2]; exact t1)
    · rw [q2] at t1
      exact absurd t1 (not_lt.2 t0)

/-! ### Sizes -/

/-- **C124.** If the size of a shape was never changed, no change is pending: `RayOk.settled` holds. -/
theorem scene_settled (hfat : ∀ b : AABB K, b.Valid → (fat b).contains b = true) (h : Reach fat false w) : Settled w := (reach_good hfat h).2 rfl

theorem place_col {w w' : State K} {c : Nat} (h : w.place c = some w') : w'.body = w.body ∧
    ∀ d, (w'.col d).map (fun x => (x.body, x.bp, x.changed)) = (w.col d).map (fun x => (x.body, x.bp, x.changed)) := by
  unfold State.place at h
  cases hc : w.col c with
  | none => rw [hc] at h; cases h
  | some x =>
    rw [hc] at h
    dsimp only at h
    cases hB : w.body x.body with
    | none => rw [hB] at h; cases h
    | some B =>
      rw [hB] at h
      cases h
      refine ⟨rfl, fun d => ?_⟩
      by_cases e : d = c
      · subst e
        simp only [State.setCol, upd_same, Option.map_some, hc]
      · simp only [State.setCol, upd_ne _ _ e]

theorem placeAll_col : ∀ (L : List Nat) {w w' : State K}, L.foldlM State.place w = some w' → w'.body = w.body ∧
    ∀ d, (w'.col d).map (fun x => (x.body, x.bp, x.changed)) = (w.col d).map (fun x => (x.body, x.bp, x.changed))
  | [], w, w', h => by cases h; exact ⟨rfl, fun _ => rfl⟩
  | c :: L, w, w', h => by
    rw [List.foldlM_cons] at h
    cases h1 : w.place c with
    | none => rw [h1] at h; cases h
    | some w1 =>
      rw [h1] at h
      have a := place_col h1
      have b := placeAll_col L (w := w1) h
      exact ⟨b.1.trans a.1, fun d => (b.2 d).trans (a.2 d)⟩

theorem updateCollider_col {ch : Choice K} {w w' : State K} {c : Nat} (h : w.updateCollider ch fat c = some w') : w'.body = w.body ∧
    ∀ d, w'.col d = (w.col d).map fun x => if d = c ∧ x.bp.isSome = true then { x with changed := false } else x := by
  have same : ∀ d, w.col d = (w.col d).map fun x => x := by intro d; cases w.col d <;> rfl
  unfold State.updateCollider at h
  cases hc : w.col c with
  | none => rw [hc] at h; cases h
  | some x =>
    rw [hc] at h
    dsimp only at h
    cases hb : x.bp with
    | none =>
      rw [hb] at h
      cases h
      refine ⟨rfl, fun d => ?_⟩
      by_cases e : d = c
      · subst e
        simp [hc, hb]
      · simp [e]
    | some n =>
      rw [hb] at h
      dsimp only at h
      cases hx : w.boxOf x with
      | none => rw [hx] at h; cases h
      | some b =>
        rw [hx] at h
        dsimp only at h
        cases ht : w.tree.updateObject ch fat n b x.changed with
        | none => rw [ht] at h; cases h
        | some p =>
          obtain ⟨t, q⟩ := p
          rw [ht] at h
          cases h
          refine ⟨rfl, fun d => ?_⟩
          by_cases e : d = c
          · subst e
            simp [State.setCol, hc, hb]
          · simp [State.setCol, upd_ne _ _ e, e]

theorem updateAll_col {ch : Choice K} : ∀ (L : List Nat) {w w' : State K}, L.foldlM (State.updateCollider ch fat) w = some w' → w'.body = w.body ∧
    ∀ d, w'.col d = (w.col d).map fun x => if d ∈ L ∧ x.bp.isSome = true then { x with changed := false } else x
  | [], w, w', h => by cases h; exact ⟨rfl, fun d => by simp⟩
  | c :: L, w, w', h => by
    rw [List.foldlM_cons] at h
    cases h1 : w.updateCollider ch fat c with
    | none => rw [h1] at h; cases h
    | some w1 =>
      rw [h1] at h
      have a := updateCollider_col h1
      have b := updateAll_col L (w := w1) h
      refine ⟨b.1.trans a.1, fun d => ?_⟩
      rw [b.2 d, a.2 d, Option.map_map]
      congr 1
      funext x
      simp only [Function.comp]
      by_cases h2 : x.bp.isSome = true <;> by_cases h3 : d = c <;> by_cases h4 : d ∈ L <;> simp [h2, h3, h4, List.mem_cons] <;> simp_all

/-- **C124.** After a step, no change of size is pending for the colliders a ray may hit, if their bodies are neither static nor asleep. -/
theorem update_settles (hfat : ∀ b : AABB K, b.Valid → (fat b).contains b = true) {z : Bool} (h : Reach fat z w) (ch : Choice K) {T : Nat → Trans K}
    {cs : List Nat} (hT : ∀ b B, w.body b = some B → B.enabled = true → (T b).ori.lengthSq = 1)
    (hcs : ∀ c, c ∈ cs ↔ ∃ x B, w.col c = some x ∧ w.body x.body = some B ∧ B.enabled = true) {w' : State K} (e : w.update ch fat T cs = some w')
    {mask c : Nat} {x : SCol K} {B : SBody K} (hs : Seen w' mask c x B) (hen : B.enabled = true) : x.changed = false := by
  have hb := (scene_placed hfat (Reach.update ch h hT hcs e) hs.col hs.body).2.2 hs.active
  unfold State.update at e
  cases h1 : cs.foldlM State.place { w with body := fun b => (w.body b).map fun B => if B.enabled then { B with trans := T b } else B } with
  | none => rw [h1] at e; cases e
  | some w1 =>
    rw [h1] at e
    have a := placeAll_col cs h1
    have b := updateAll_col cs (w := w1) e
    have hx := hs.col
    rw [b.2 c] at hx
    cases hy : w1.col c with
    | none => rw [hy] at hx; cases hx
    | some y =>
      rw [hy] at hx
      simp only [Option.map_some, Option.some.injEq] at hx
      have hyb : x.bp = y.bp ∧ x.body = y.body := by rw [← hx]; split_ifs <;> exact ⟨rfl, rfl⟩
      have hc := a.2 c
      rw [hy] at hc
      cases hz : w.col c with
      | none =>
        simp only [hz] at hc
        cases hc
      | some v =>
        simp only [hz, Option.map_some, Option.some.injEq, Prod.mk.injEq] at hc
        have hB := hs.body
        rw [b.1, a.1, hyb.2, hc.1] at hB
        simp only [Option.map_eq_some_iff] at hB
        obtain ⟨C, hC, eC⟩ := hB
        have hm : c ∈ cs := (hcs c).2 ⟨v, C, hz, hC, by
          by_contra hn
          rw [if_neg hn] at eC
          rw [eC] at hn
          exact hn hen⟩
        rw [if_pos ⟨hm, by rw [← hyb.1]; exact hb⟩] at hx
        rw [← hx]

/-! ### Shapes -/

/-- The shapes of the library. -/
def sphereForm (eps : K) (sqrt : K → K) (radius : K) : Form K := ⟨(Bounds.Shape.sphere radius).worldBox, Ray.sphere eps sqrt radius⟩
def boxForm (eps large : K) (half : V3 K) : Form K := ⟨(Bounds.Shape.box half).worldBox, Ray.box eps large half⟩
def capsuleForm (eps epsA : K) (sqrt : K → K) (radius hh : K) : Form K :=
  ⟨(Bounds.Shape.capsule radius hh).worldBox, Ray.capsule eps epsA sqrt radius hh⟩

theorem form_ok {s : Bounds.Shape K} {S : V3 K → Prop} (hS : ∀ p, S p → BoundsProps.Points s p) {p0 : V3 K} (h0 : S p0) (cast : Ray K → Option (Hit K)) :
    Proper (⟨s.worldBox, cast⟩ : Form K) ∧ Encloses (⟨s.worldBox, cast⟩ : Form K) S := by
  constructor
  · intro t ht
    obtain ⟨b, hb, m1, m2, m3, m4, m5, m6⟩ := BoundsProps.world_box_contains (hS p0 h0) ht
    exact ⟨b, hb, m1.trans m2, m3.trans m4, m5.trans m6⟩
  · rintro t ht b hb p ⟨y, hy, rfl⟩
    obtain ⟨b', hb', m⟩ := BoundsProps.world_box_contains (hS y hy) ht
    have : s.worldBox t = some b := hb
    rw [hb'] at this
    cases this
    exact m

/-- The boxes of spheres, boxes and capsules are as asked (with C61; their ray casts with C48: `sphere_exact`, `box_exact`, `capsule_exact`). -/
theorem forms_ok {eps epsA large radius hh : K} {half : V3 K} (sqrt : K → K) (hr : 0 ≤ radius) (hp : 0 ≤ hh) (hx : 0 ≤ half.x) (hy : 0 ≤ half.y)
    (hz : 0 ≤ half.z) :
    (Proper (sphereForm eps sqrt radius) ∧ Encloses (sphereForm eps sqrt radius) (Ball 0 radius)) ∧
    (Proper (boxForm eps large half) ∧ Encloses (boxForm eps large half) (Box half)) ∧
    (Proper (capsuleForm eps epsA sqrt radius hh) ∧ Encloses (capsuleForm eps epsA sqrt radius hh) (Capsule radius hh)) := by
  refine ⟨form_ok (fun p h => ?_) (p0 := 0) ?_ _, form_ok (fun p h => ?_) (p0 := 0) ?_ _, form_ok (fun p h => ?_) (p0 := 0) ?_ _⟩
  · have e : p - 0 = p := by ext <;> simp
    unfold Ball at h
    rw [e] at h
    exact .sphere hr h
  · have e : (0 : V3 K) - 0 = 0 := by ext <;> simp
    unfold Ball
    rw [e]
    simp only [V3.lengthSq, V3.zero_x, V3.zero_y, V3.zero_z]
    nlinarith
  · exact .box h.1.1 h.1.2 h.2.1.1 h.2.1.2 h.2.2.1 h.2.2.2
  · unfold Box
    simp only [V3.zero_x, V3.zero_y, V3.zero_z]
    exact ⟨⟨by linarith, hx⟩, ⟨by linarith, hy⟩, by linarith, hz⟩
  · obtain ⟨y, h1, h2, h3⟩ := h
    exact .capsule hr h1 h2 h3
  · refine ⟨0, by linarith, hp, ?_⟩
    unfold Ball
    simp only [V3.lengthSq, V3.sub_x, V3.sub_y, V3.sub_z, V3.zero_x, V3.zero_y, V3.zero_z]
    nlinarith

/-! ### What is missing: changed sizes -/

/-- A ray that misses the boxes in the tree is reported to nobody, whatever the shapes are by now. -/
theorem raycast_unseen (hfat : ∀ b : AABB K, b.Valid → (fat b).contains b = true) (g : Good fat w) {r : Ray K}
    (h : ∀ c x n b, w.col c = some x → x.bp = some n → w.tree.fatOf n = some b → b.Clear r.p1 r.dir ∧ ¬ Hits r.p1 r.dir b r.maxF)
    (eps : K) (len : V3 K → K) (mask : Nat) (neg : V3 Bool) (cb : σ → Info K → σ × Ext K) (s : σ) :
    raycast (FloatOps.exact K) eps len w mask r neg cb s = some (s, r.maxF, false) := by
  classical
  obtain ⟨S, g⟩ := g
  have key : ∀ i ob, S i = some ob → ob.fat.Valid ∧ ob.fat.Clear r.p1 r.dir ∧ ¬ Hits r.p1 r.dir ob.fat r.maxF := by
    intro i ob hi
    obtain ⟨e1, e2⟩ := tree_box_enclosed hfat g.tree i ob hi
    obtain ⟨x, hx, hb⟩ := g.obj i ob hi
    exact ⟨valid_of_contains e2 (hist_valid g.tree i ob hi), h _ x i _ hx hb e1⟩
  obtain ⟨L, _, l2, l3⟩ := tree_raycast_exact_partial g.tree r.p1 r.dir neg fun i ob hi => ⟨(key i ob hi).1, (key i ob hi).2.1⟩
  unfold raycast
  rw [l3, scan_none]
  rintro i _ ⟨ob, hob, hh⟩
  exact (key i ob hob).2.2 hh

theorem addCollider_active {ch : Choice K} {w w' : State K} {b c s : Nat} {L : Trans K} {B : SBody K} (hB : w.body b = some B) (ha : B.active = true)
    (e : w.addCollider ch fat b c s L = some w') : ∃ bx t n f, w.form s = some f ∧ f.box (B.trans.mul L) = some bx ∧
      w.tree.addObject ch fat bx c = some (t, n) ∧
      w' = ⟨upd w.body b (some { B with cols := B.cols ++ [c] }), upd w.col c (some ⟨b, L, B.trans.mul L, s, some n, false, 1, true⟩), w.form, t⟩ := by
  simp only [State.addCollider, hB] at e
  rw [if_pos ha] at e
  unfold State.cdAdd at e
  simp only [State.setBody, State.setCol, upd_same] at e
  cases hf : w.form s with
  | none => simp [State.boxOf, upd_same, hf] at e
  | some f =>
    cases hb : f.box (B.trans.mul L) with
    | none => simp [State.boxOf, upd_same, hf, hb] at e
    | some bx =>
      simp only [State.boxOf, upd_same, hf, Option.bind_eq_bind, Option.bind_some, hb] at e
      cases ht : w.tree.addObject ch fat bx c with
      | none => rw [ht] at e; cases e
      | some p =>
        obtain ⟨t, n⟩ := p
        rw [ht] at e
        simp only [Option.some.injEq] at e
        refine ⟨bx, t, n, f, rfl, hb, ht, ?_⟩
        rw [← e]
        congr 1
        funext d
        unfold upd
        split_ifs <;> rfl

namespace SceneExample

def fat8 : AABB ℚ → AABB ℚ := fatBox (8 / 100)

theorem fat8_contains (b : AABB ℚ) (h : b.Valid) : (fat8 b).contains b = true := by
  rw [AABB.contains_iff]
  obtain ⟨h1, h2, h3⟩ := h
  unfold fat8 fatBox AABB.extent
  simp only [V3.sub_x, V3.sub_y, V3.sub_z, V3.add_x, V3.add_y, V3.add_z]
  refine ⟨?_, ?_, ?_, ?_, ?_, ?_⟩ <;> linarith

/-- A box with these half extents. -/
def cube (h : ℚ) : Form ℚ := boxForm (1 / 1000000) 1000000 ⟨h, h, h⟩

theorem cube_ok {h : ℚ} (hh : 0 ≤ h) : Proper (cube h) ∧ Encloses (cube h) (Box ⟨h, h, h⟩) :=
  (forms_ok (eps := 1 / 1000000) (epsA := 0) (large := 1000000) (radius := 0) (hh := 0) (half := ⟨h, h, h⟩) id le_rfl le_rfl hh hh hh).2.1

def f0 : Nat → TNode ℚ := fun _ => ⟨none, .raw, 0, ⟨0, 0⟩⟩
def choice : Choice ℚ := costChoice

/-- A body at the origin. -/
def start : State ℚ := ((init f0).createForm 0 (cube 1)).createBody 0 Trans.one

theorem start_reach : Reach fat8 false start :=
  Reach.createBody (Reach.createForm (Reach.init f0) rfl (cube_ok zero_le_one).1) rfl (by decide +kernel)

/-- The body with a cube of half extent 1, as a function of the tree. -/
def cubeWorld (t : Tree ℚ) (n : Nat) : State ℚ :=
  ⟨upd (fun _ => none) 0 (some ⟨Trans.one, true, true, [0]⟩), upd (fun _ => none) 0 (some ⟨0, Trans.one, Trans.one.mul Trans.one, 0, some n, false, 1, true⟩),
    upd (fun _ => none) 0 (some (cube 1)), t⟩

def unitBox : AABB ℚ := ⟨⟨-1, -1, -1⟩, ⟨1, 1, 1⟩⟩

theorem cube_box : (cube 1).box (Trans.one.mul Trans.one) = some unitBox := by
  have : (Bounds.transformed (Trans.one.mul Trans.one) (Bounds.boxLocal ⟨1, 1, 1⟩) : AABB ℚ) = unitBox := by decide +kernel
  show some _ = _
  rw [this]

theorem act_one (y : V3 ℚ) : (Trans.one.mul Trans.one : Trans ℚ).act y = y := by
  have e : (Trans.one.mul Trans.one : Trans ℚ) = ⟨⟨0, 0, 0⟩, ⟨0, 0, 0, 1⟩⟩ := by decide +kernel
  rw [e]
  unfold Trans.act Quat.rot
  ext <;> simp

theorem cubeWorld_reach : ∃ t n, Reach fat8 false (cubeWorld t n) ∧ t.fatOf n = some (fat8 unitBox) := by
  have hd := (scene_defined fat8_contains start_reach choice).1 0 ⟨Trans.one, true, true, []⟩ rfl
  obtain ⟨w', e⟩ := Option.isSome_iff_exists.1 (hd.2.2.2 0 0 Trans.one rfl rfl (by decide +kernel))
  obtain ⟨bx, t, n, f, e1, e2, e3, e4⟩ := addCollider_active (w := start) (B := ⟨Trans.one, true, true, []⟩) rfl rfl e
  cases e1
  rw [cube_box] at e2
  cases e2
  refine ⟨t, n, ?_, ?_⟩
  · have hw : w' = cubeWorld t n := by
      rw [e4]
      unfold cubeWorld
      congr 1
      funext d
      simp only [start, State.createBody, State.setBody, State.createForm, init, upd]
      split_ifs <;> rfl
    rw [← hw]
    exact Reach.addCollider choice start_reach rfl rfl (by decide +kernel) e
  · have hH : Hist AABB.Valid fat8 t _ := Hist.add (Hist.init f0) (by decide +kernel) e3
    exact (tree_box_enclosed fat8_contains hH n _ (upd_same _ _ _)).1

/-- A ray through the cube. -/
def thru : Ray ℚ := ⟨⟨-20, 1 / 4, 1 / 4⟩, ⟨20, 1 / 2, 1 / 2⟩, 1⟩

/-- The hypotheses of `world_raycast_closest` and `world_raycast_reports` are met by a ray that hits. -/
example : ∃ w : State ℚ, Reach fat8 false w ∧ RayOk w (fun _ => Box ⟨1, 1, 1⟩) 1 thru ∧ (∃ x B, Seen w 1 0 x B) ∧
    ¬ Covers w (fun _ => Box ⟨1, 1, 1⟩) 0 thru.p1 ∧ Covers w (fun _ => Box ⟨1, 1, 1⟩) 0 (thru.at (1 / 2)) := by
  obtain ⟨t, n, hr, _⟩ := cubeWorld_reach
  have l1 : (1 / 1000000 : ℚ) ≤ |(localRay (Trans.one.mul Trans.one) thru).dir.x| := by decide +kernel
  have l2 : (1 / 1000000 : ℚ) ≤ |(localRay (Trans.one.mul Trans.one) thru).dir.y| := by decide +kernel
  have l3 : (1 / 1000000 : ℚ) ≤ |(localRay (Trans.one.mul Trans.one) thru).dir.z| := by decide +kernel
  have m1 : 1 &&& 1 ≠ 0 := by decide
  have one : ∀ c x, (cubeWorld t n).col c = some x → c = 0 ∧ x = ⟨0, Trans.one, Trans.one.mul Trans.one, 0, some n, false, 1, true⟩ := by
    intro c x hc
    by_cases e : c = 0
    · subst e
      simp only [cubeWorld, upd_same, Option.some.injEq] at hc
      exact ⟨rfl, hc.symm⟩
    · simp only [cubeWorld, upd_ne _ _ e] at hc
      cases hc
  refine ⟨cubeWorld t n, hr, ⟨by decide +kernel, ?_, ?_, ?_⟩, ⟨_, _, ⟨rfl, rfl, rfl, m1, rfl⟩⟩, ?_, ?_⟩
  · intro c x k b _ _ _
    exact ⟨Or.inl (by decide +kernel), Or.inl (by decide +kernel), Or.inl (by decide +kernel)⟩
  · intro c x B f hs hf
    obtain ⟨rfl, rfl⟩ := one c x hs.col
    have hB := hs.body
    cases hB
    cases hf
    refine ⟨(cube_ok zero_le_one).2, box_exact (by norm_num) (by norm_num) (by decide +kernel) (by norm_num) (by norm_num) (by norm_num) (Or.inr l1) (Or.inr l2) (Or.inr l3)⟩
  · intro c x B hs
    obtain ⟨rfl, rfl⟩ := one c x hs.col
    rfl
  · rintro ⟨x, B, hx, hB, y, hy, e⟩
    obtain ⟨_, rfl⟩ := one 0 x hx
    cases hB
    have e' : thru.p1 = y := by rw [e]; exact act_one y
    have := hy.1.1
    rw [← e'] at this
    exact absurd this (by decide +kernel)
  · refine ⟨_, _, rfl, rfl, thru.at (1 / 2), ?_, ?_⟩
    · show Box (⟨1, 1, 1⟩ : V3 ℚ) (thru.at (1 / 2))
      unfold Box; decide +kernel
    · exact (act_one _).symm

/-- A ray that passes at the distance 5 and more. -/
def past : Ray ℚ := ⟨⟨-20, 5, 5⟩, ⟨20, 6, 6⟩, 1⟩

/-- The static body whose cube was given the half extent 10. -/
def grown (t : Tree ℚ) (n : Nat) : State ℚ := ((cubeWorld t n).setBody 0 ⟨Trans.one, true, false, [0]⟩).resize 0 (cube 10)

/-- **C124 fails** after a change of size: a static (or sleeping) body whose shape has grown is not seen by a ray through the new part of the shape,
neither before the next step nor after any number of steps, because a step updates the boxes of the colliders of awake bodies only. -/
theorem resized_static_never_seen : ∃ w : State ℚ, Reach fat8 true w ∧ (∃ x B, Seen w 1 0 x B ∧ B.enabled = false) ∧
    w.form 0 = some (cube 10) ∧ Encloses (cube 10) (Box ⟨10, 10, 10⟩) ∧ ∀ seq : Nat → State ℚ, seq 0 = w →
      (∀ k, ∃ ch T cs, (∀ c, c ∈ cs ↔ ∃ x B, (seq k).col c = some x ∧ (seq k).body x.body = some B ∧ B.enabled = true) ∧
        (seq k).update ch fat8 T cs = some (seq (k + 1))) →
      ∀ k, Covers (seq k) (fun _ => Box ⟨10, 10, 10⟩) 0 (past.at (1 / 2)) ∧ ¬ Covers (seq k) (fun _ => Box ⟨10, 10, 10⟩) 0 past.p1 ∧
        ∀ (σ : Type) (eps : ℚ) (len : V3 ℚ → ℚ) (neg : V3 Bool) (cb : σ → Info ℚ → σ × Ext ℚ) (s : σ),
          raycast (FloatOps.exact ℚ) eps len (seq k) 1 past neg cb s = some (s, 1, false) := by
  obtain ⟨t, n, hr, hfat⟩ := cubeWorld_reach
  have one : ∀ c x, (grown t n).col c = some x → c = 0 ∧ x = ⟨0, Trans.one, Trans.one.mul Trans.one, 0, some n, true, 1, true⟩ := by
    intro c x hc
    by_cases e : c = 0
    · subst e
      simp only [grown, State.resize, State.setBody, cubeWorld, upd_same, Option.map_some, if_true, Option.some.injEq] at hc
      exact ⟨rfl, hc.symm⟩
    · simp only [grown, State.resize, State.setBody, cubeWorld, upd_ne _ _ e] at hc
      cases hc
  have body : ∀ b B, (grown t n).body b = some B → B = ⟨Trans.one, true, false, [0]⟩ := by
    intro b B hB
    by_cases e : b = 0
    · subst e
      simp only [grown, State.resize, State.setBody, upd_same, Option.some.injEq] at hB
      exact hB.symm
    · simp only [grown, State.resize, State.setBody, cubeWorld, upd_ne _ _ e] at hB
      cases hB
  have hR : Reach fat8 true (grown t n) := Reach.resize (Reach.setEnabled (w' := (cubeWorld t n).setBody 0 ⟨Trans.one, true, false, [0]⟩) (b := 0) (v := false) hr rfl)
    (cube_ok (by norm_num)).1
  have m1 : 1 &&& 1 ≠ 0 := by decide
  have c0 : (grown t n).col 0 = some ⟨0, Trans.one, Trans.one.mul Trans.one, 0, some n, true, 1, true⟩ := by
    simp only [grown, State.resize, State.setBody, cubeWorld, upd_same, Option.map_some, if_true]
  have b0 : (grown t n).body 0 = some ⟨Trans.one, true, false, [0]⟩ := by simp only [grown, State.resize, State.setBody, upd_same]
  refine ⟨grown t n, hR, ⟨_, _, ⟨c0, b0, rfl, m1, rfl⟩, rfl⟩, by simp only [grown, State.resize, upd_same], (cube_ok (by norm_num)).2, ?_⟩
  intro seq s0 step
  have same : ∀ k, seq k = grown t n := by
    intro k
    induction k with
    | zero => exact s0
    | succ k ih =>
      obtain ⟨ch, T, cs, hcs, e⟩ := step k
      rw [ih] at hcs e
      have : cs = [] := by
        apply List.eq_nil_iff_forall_not_mem.2
        intro c hc
        obtain ⟨x, B, _, hB, hen⟩ := (hcs c).1 hc
        rw [body _ B hB] at hen
        cases hen
      subst this
      have e' : (some { grown t n with body := fun b => ((grown t n).body b).map fun B => if B.enabled then { B with trans := T b } else B } :
        Option (State ℚ)) = some (seq (k + 1)) := e
      rw [← Option.some.inj e']
      have hb : (fun b => ((grown t n).body b).map fun B : SBody ℚ => if B.enabled then { B with trans := T b } else B) = (grown t n).body := by
        funext b
        cases hB : (grown t n).body b with
        | none => rfl
        | some B => rw [body b B hB]; rfl
      rw [hb]
  intro k
  rw [same k]
  refine ⟨⟨_, _, c0, b0, past.at (1 / 2), ?_, (act_one _).symm⟩, ?_, fun σ eps len neg cb s => ?_⟩
  · show Box (⟨10, 10, 10⟩ : V3 ℚ) (past.at (1 / 2))
    unfold Box; decide +kernel
  · rintro ⟨x, B, hx, hB, y, hy, e⟩
    obtain ⟨_, rfl⟩ := one 0 x hx
    rw [body _ B hB] at e
    have e' : past.p1 = y := by rw [e]; exact act_one y
    have := hy.1.1
    rw [← e'] at this
    exact absurd this (by decide +kernel)
  · refine raycast_unseen fat8_contains (reach_good fat8_contains hR).1 (fun c x m b hc hm hb => ?_) eps len 1 neg cb s
    obtain ⟨_, rfl⟩ := one c x hc
    cases hm
    have hb' : t.fatOf n = some b := hb
    rw [hfat] at hb'
    cases hb'
    refine ⟨⟨Or.inl (by decide +kernel), Or.inl (by decide +kernel), Or.inl (by decide +kernel)⟩, ?_⟩
    rintro ⟨u, u0, u1, _, _, _, h4, _⟩
    have e1 : (fat8 unitBox).mx.y = 27 / 25 := by decide +kernel
    have e2 : past.p1.y = 5 := rfl
    have e3 : past.dir.y = 1 := by decide +kernel
    simp only at h4
    rw [e1, e2, e3] at h4
    linarith

end SceneExample

end Scene
end RP3D
