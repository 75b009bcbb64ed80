import Verif.Broadphase.Raycast
import Verif.Broadphase.FatBox
import Mathlib.Algebra.Order.Ring.Rat

set_option linter.unusedSectionVars false

/-!
Property theorems C20: ray casts through the tree. The specification is `RaySpec.scan`: the objects are gone through in some order, and
the callback is called for those hit by the ray up to the current maximum fraction.
-/

namespace RP3D
open Ext TreeSpec RaySpec
variable {K : Type} [Field K] [LinearOrder K] [IsStrictOrderedRing K] {σ : Type}

/-- All merged boxes are free of NaN parameters if the leaves are. -/
theorem Tree.Rep.noNaN {F : FloatOps K} {o : V3 K} {inv : V3 (Ext K)} {f : Nat → TNode K} {p : Option Nat} {t : Tree.T}
    (h : Tree.Rep f p t) (hn : ∀ x ∈ t.leaves, (f x).box.NoNaN F o inv) : (f t.addr).box.NoNaN F o inv := by
  induction t generalizing p with
  | leaf a => exact hn a (by simp [T.leaves])
  | node a l r h1 h2 =>
    obtain ⟨_, _, _, k4, k5, k6⟩ := h
    rw [addr_node, k4]
    exact (h1 k5 (fun x hx => hn x (by simp [T.leaves, hx]))).merge (h2 k6 (fun x hx => hn x (by simp [T.leaves, hx])))

theorem scan_append (hit : Nat → K → Prop) [∀ i m, Decidable (hit i m)] (cb : σ → Nat → K → σ × Ext K) (L M : List Nat) (m : K) (s : σ) :
    scan hit cb (L ++ M) m s =
      if (scan hit cb L m s).2.2 then scan hit cb L m s else scan hit cb M (scan hit cb L m s).2.1 (scan hit cb L m s).1 := by
  induction L generalizing m s with
  | nil => simp [scan]
  | cons i L ih =>
    simp only [List.cons_append, scan]
    split_ifs with h1 h2 h3 h4 <;> simp_all

theorem scan_none (hit : Nat → K → Prop) [∀ i m, Decidable (hit i m)] (cb : σ → Nat → K → σ × Ext K) (L : List Nat) (m : K) (s : σ)
    (h : ∀ i ∈ L, ¬ hit i m) : scan hit cb L m s = (s, m, false) := by
  induction L with
  | nil => rfl
  | cons i L ih =>
    rw [scan, if_neg (h i (by simp))]
    exact ih (fun j hj => h j (by simp [hj]))

theorem clip_eq (m : K) (h : Ext K) : clip m h = shorten m h := by
  cases h <;> simp only [clip, shorten]
  split_ifs <;> simp_all

/-- The traversal of a subtree is a scan of its leaves. -/
theorem raycastLoop_rep {F : FloatOps K} {o : V3 K} {inv : V3 (Ext K)} {t : Tree K} {cb : σ → Nat → K → σ × Ext K} {sub : Tree.T} :
    ∀ {p : Option Nat}, Tree.Rep t.node p sub → (∀ x ∈ sub.addrs, x < t.cap) →
    (∀ x ∈ sub.leaves, (t.node x).box.NoNaN F o inv ∧ (t.node x).box.Valid) → ∀ st m s,
    t.raycastLoop F o inv cb (some sub.addr :: st) m s =
      if (scan (fun i m => (t.node i).box.testRay F o inv m = true) cb sub.leaves.reverse m s).2.2 then
        some (scan (fun i m => (t.node i).box.testRay F o inv m = true) cb sub.leaves.reverse m s)
      else t.raycastLoop F o inv cb st (scan (fun i m => (t.node i).box.testRay F o inv m = true) cb sub.leaves.reverse m s).2.1
        (scan (fun i m => (t.node i).box.testRay F o inv m = true) cb sub.leaves.reverse m s).1 := by
  induction sub with
  | leaf a =>
    intro p h hc hn st m s
    have ha : t.rd a = some (t.node a) := if_pos (hc a (by simp [Tree.T.addrs]))
    rw [Tree.raycastLoop, Tree.addr_leaf]
    simp only [ha, h.2, if_true, Tree.T.leaves, List.reverse_cons, List.reverse_nil, List.nil_append, scan, clip_eq]
    split_ifs <;> simp_all
  | node a l r h1 h2 =>
    intro p h hc hn st m s
    have hh := h
    obtain ⟨k1, k2, k3, k4, k5, k6⟩ := h
    have hac : a < t.cap := hc a (by simp [Tree.T.addrs])
    have ha : t.rd a = some (t.node a) := if_pos hac
    have hk : t.kids a = some (l.addr, r.addr) := by simp only [Tree.kids, if_pos hac, k2]
    have hne : (t.node a).height ≠ 0 := by
      have := hh.node_height
      omega
    rw [Tree.raycastLoop, Tree.addr_node]
    simp only [ha, hk, if_neg hne, Tree.T.leaves, List.reverse_append]
    by_cases ho : (t.node a).box.testRay F o inv m = true
    · rw [if_pos ho, h2 k6 (fun x hx => hc x (by simp [Tree.T.addrs, hx])) (fun x hx => hn x (by simp [Tree.T.leaves, hx])), scan_append]
      split_ifs with e1 e2 e2
      · rfl
      · rw [h1 k5 (fun x hx => hc x (by simp [Tree.T.addrs, hx])) (fun x hx => hn x (by simp [Tree.T.leaves, hx])), if_pos e2]
      · rw [h1 k5 (fun x hx => hc x (by simp [Tree.T.addrs, hx])) (fun x hx => hn x (by simp [Tree.T.leaves, hx])), if_neg e2]
    · rw [if_neg ho, scan_none]
      · simp
      · intro i hi hi2
        apply ho
        have hi' : i ∈ (Tree.T.node a l r).leaves := by
          simp only [Tree.T.leaves, List.mem_append]
          simp only [List.mem_append, List.mem_reverse] at hi
          tauto
        have hcon := hh.contains i hi'
        have hnn := hh.noNaN (fun x hx => (hn x hx).1)
        rw [Tree.addr_node] at hcon hnn
        exact AABB.testRay_mono F (hn i hi').2 hcon le_rfl hnn (hn i hi').1 hi2

variable {P : AABB K → Prop} {fat : AABB K → AABB K} {t : Tree K} {S : Nat → Option (Obj K)}

/-- **C20** (`_partial`: rays for which no parameter of the slab test of an object is NaN.) With rounded arithmetic, a ray cast calls the
callback exactly for the objects whose own fat box passes the slab test up to the current maximum fraction: the tree prunes nothing that
the slab test would have accepted, whatever its shape and however hits shorten the ray. -/
theorem tree_raycast_scan_partial (F : FloatOps K) (h : Hist P fat t S) (o d : V3 K) (neg : V3 Bool)
    (hn : ∀ i ob, S i = some ob → ob.fat.Valid ∧ ob.fat.NoNaN F o (rayInv F neg d)) :
    ∃ L : List Nat, L.Nodup ∧ (∀ i, i ∈ L ↔ (S i).isSome) ∧
      ∀ (σ : Type) (cb : σ → Nat → K → σ × Ext K) (m : K) (s : σ), t.raycast F o d neg cb m s =
        some (scan (fun i m => ∃ ob ∈ S i, ob.fat.testRay F o (rayInv F neg d) m = true) cb L m s) := by
  classical
  obtain ⟨tr, fl, h⟩ := Tree.hist_abs h
  have hobj : ∀ i ∈ Tree.oleaves tr, ∃ ob, S i = some ob ∧ (t.node i).box = ob.fat := by
    intro i hi
    obtain ⟨ob, hob⟩ := Option.isSome_iff_exists.1 ((h.mem i).1 hi)
    exact ⟨ob, hob, (h.obj i ob hob).2⟩
  refine ⟨(Tree.oleaves tr).reverse, ?_, fun i => by rw [List.mem_reverse, h.mem i], ?_⟩
  · rw [List.nodup_reverse]
    have := (List.nodup_append.1 h.inv.nd).1
    cases tr with
    | none => exact List.nodup_nil
    | some T0 =>
      clear hobj h hn
      induction T0 with
      | leaf a => simp [Tree.oleaves, Tree.T.leaves]
      | node a l r h1 h2 =>
        simp only [Tree.oaddrs, Tree.T.addrs, List.nodup_cons, List.nodup_append] at this
        simp only [Tree.oleaves, Tree.T.leaves, List.nodup_append]
        refine ⟨h1 this.2.1, h2 this.2.2.1, fun x hx y hy => this.2.2.2 x (Tree.leaves_sub l x hx) y (Tree.leaves_sub r y hy)⟩
  · intro σ cb m s
    have hscan : ∀ (L : List Nat) (m : K) (s : σ), (∀ i ∈ L, i ∈ Tree.oleaves tr) →
        scan (fun i m => (t.node i).box.testRay F o (rayInv F neg d) m = true) cb L m s =
        scan (fun i m => ∃ ob ∈ S i, ob.fat.testRay F o (rayInv F neg d) m = true) cb L m s := by
      intro L
      induction L with
      | nil => intro m s _; rfl
      | cons i L ih =>
        intro m s hL
        obtain ⟨ob, h1, h2⟩ := hobj i (hL i (by simp))
        have e : (∃ ob ∈ S i, ob.fat.testRay F o (rayInv F neg d) m = true) ↔ (t.node i).box.testRay F o (rayInv F neg d) m = true := by
          rw [h2, h1]; simp
        simp only [scan, e]
        split_ifs with e1 e2
        · rfl
        · exact ih _ _ (fun j hj => hL j (by simp [hj]))
        · exact ih _ _ (fun j hj => hL j (by simp [hj]))
    unfold Tree.raycast
    rw [h.inv.root]
    cases tr with
    | none => rw [Option.map_none, Tree.raycastLoop, Tree.raycastLoop]; rfl
    | some T0 =>
      rw [Option.map_some, raycastLoop_rep (h.inv.rep T0 rfl) (fun x hx => h.inv.lt (Or.inl hx)), Tree.raycastLoop]
      · rw [← hscan _ _ _ (fun i hi => List.mem_reverse.1 hi)]
        split_ifs with e
        · rfl
        · show some _ = some _
          congr 1
          refine Prod.ext rfl (Prod.ext rfl ?_)
          exact (Bool.eq_false_iff.2 e).symm
      · intro x hx
        obtain ⟨ob, h1, h2⟩ := hobj x hx
        rw [h2]
        exact (hn x ob h1).symm

/-- **C20** (`_partial`: rays that are not parallel to a side of a box while lying exactly in its plane; exact arithmetic.) A ray cast
calls the callback exactly for the objects whose fat box is met by the segment up to the current maximum fraction. -/
theorem tree_raycast_exact_partial (h : Hist P fat t S) (o d : V3 K) (neg : V3 Bool)
    (hn : ∀ i ob, S i = some ob → ob.fat.Valid ∧ ob.fat.Clear o d) :
    ∃ L : List Nat, L.Nodup ∧ (∀ i, i ∈ L ↔ (S i).isSome) ∧
      ∀ (σ : Type) (cb : σ → Nat → K → σ × Ext K) (m : K) (s : σ) [∀ i m, Decidable (∃ ob ∈ S i, Hits o d ob.fat m)],
        t.raycast (FloatOps.exact K) o d neg cb m s = some (scan (fun i m => ∃ ob ∈ S i, Hits o d ob.fat m) cb L m s) := by
  obtain ⟨L, h1, h2, h3⟩ := tree_raycast_scan_partial (FloatOps.exact K) h o d neg (fun i ob hi => ⟨(hn i ob hi).1, (hn i ob hi).2.noNaN neg⟩)
  refine ⟨L, h1, h2, ?_⟩
  intro σ cb m s _
  rw [h3]
  congr 1
  have e : ∀ i m, (∃ ob ∈ S i, Hits o d ob.fat m) ↔
      (∃ ob ∈ S i, ob.fat.testRay (FloatOps.exact K) o (rayInv (FloatOps.exact K) neg d) m = true) := by
    intro i m
    constructor <;> rintro ⟨ob, h4, h5⟩ <;> refine ⟨ob, h4, ?_⟩
    · exact (AABB.testRay_exact ob.fat o d neg m (hn i ob h4).1 (hn i ob h4).2).2 h5
    · exact (AABB.testRay_exact ob.fat o d neg m (hn i ob h4).1 (hn i ob h4).2).1 h5
  clear h3 h1 h2
  induction L generalizing m s with
  | nil => rfl
  | cons i L ih =>
    simp only [scan, e]

/-! What a scan means for the caller. -/

/-- A callback that keeps a record of the objects it was called for. -/
def logged (cb : σ → Nat → K → σ × Ext K) : σ × List Nat → Nat → K → (σ × List Nat) × Ext K :=
  fun s i m => (((cb s.1 i m).1, s.2 ++ [i]), (cb s.1 i m).2)

theorem scan_log_prefix (hit : Nat → K → Prop) [∀ i m, Decidable (hit i m)] (cb : σ → Nat → K → σ × Ext K) (L : List Nat) (m : K)
    (s : σ × List Nat) :
    (∃ l, (scan hit (logged cb) L m s).1.2 = s.2 ++ l ∧ l.Sublist L) ∧ (scan hit (logged cb) L m s).2.1 ≤ m := by
  induction L generalizing m s with
  | nil => exact ⟨⟨[], by simp [scan]⟩, le_refl _⟩
  | cons i L ih =>
    rw [scan]
    split_ifs with h1 h2
    · exact ⟨⟨[i], rfl, by simp⟩, le_refl _⟩
    · obtain ⟨⟨l, e1, e2⟩, e3⟩ := ih (shorten m (logged cb s i m).2) (logged cb s i m).1
      refine ⟨⟨i :: l, ?_, e2.cons_cons i⟩, e3.trans ?_⟩
      · rw [e1]; simp [logged]
      · cases (logged cb s i m).2 <;> try exact le_refl _
        rename_i x
        show (if 0 < x ∧ x < m then x else m) ≤ m
        split_ifs with h
        · exact h.2.le
        · exact le_refl _
    · obtain ⟨⟨l, e1, e2⟩, e3⟩ := ih m s
      exact ⟨⟨l, e1, e2.cons i⟩, e3⟩

theorem scan_complete (hit : Nat → K → Prop) [∀ i m, Decidable (hit i m)] (hmono : ∀ i m m', m ≤ m' → hit i m → hit i m')
    (cb : σ → Nat → K → σ × Ext K) (L : List Nat) (m : K) (s : σ × List Nat) (hs : (scan hit (logged cb) L m s).2.2 = false) :
    ∀ i ∈ L, hit i (scan hit (logged cb) L m s).2.1 → i ∈ (scan hit (logged cb) L m s).1.2 := by
  induction L generalizing m s with
  | nil => intro i hi; cases hi
  | cons j L ih =>
    rw [scan] at hs ⊢
    by_cases h1 : hit j m
    · rw [if_pos h1] at hs ⊢
      by_cases h2 : (logged cb s j m).2 = fin 0
      · rw [if_pos h2] at hs; cases hs
      · rw [if_neg h2] at hs ⊢
        intro i hi hh
        rcases List.mem_cons.1 hi with rfl | hi
        · obtain ⟨⟨l, e1, _⟩, _⟩ := scan_log_prefix hit cb L (shorten m (logged cb s i m).2) (logged cb s i m).1
          rw [e1]
          simp [logged]
        · exact ih _ _ hs i hi hh
    · rw [if_neg h1] at hs ⊢
      intro i hi hh
      rcases List.mem_cons.1 hi with rfl | hi
      · exact absurd (hmono i _ _ (scan_log_prefix hit cb L m s).2 hh) h1
      · exact ih _ _ hs i hi hh

/-- **C20** (`_partial`: as above.) If the callback never returned zero, then every object whose fat box is met by the segment up to the
final maximum fraction was given to the callback, and no object was given to it twice. -/
theorem tree_raycast_complete_partial (h : Hist P fat t S) (o d : V3 K) (neg : V3 Bool)
    (hn : ∀ i ob, S i = some ob → ob.fat.Valid ∧ ob.fat.Clear o d) (cb : σ → Nat → K → σ × Ext K) (m : K) (s : σ) :
    ∃ (s' : σ) (log : List Nat) (m' : K) (stopped : Bool), t.raycast (FloatOps.exact K) o d neg (logged cb) m (s, []) = some ((s', log), m', stopped) ∧
      log.Nodup ∧ m' ≤ m ∧ (∀ i ∈ log, (S i).isSome) ∧
      (stopped = false → ∀ i ob, S i = some ob → Hits o d ob.fat m' → i ∈ log) := by
  classical
  obtain ⟨L, h1, h2, h3⟩ := tree_raycast_exact_partial h o d neg hn
  rw [h3]
  have hp := scan_log_prefix (fun i m => ∃ ob ∈ S i, Hits o d ob.fat m) cb L m (s, [])
  have hc := scan_complete (fun i m => ∃ ob ∈ S i, Hits o d ob.fat m) (by
    rintro i m m' hm ⟨ob, hob, t, a, b, c⟩
    exact ⟨ob, hob, t, a, b.trans hm, c⟩) cb L m (s, [])
  obtain ⟨⟨l, e1, e2⟩, e3⟩ := hp
  refine ⟨_, _, _, _, rfl, ?_, e3, ?_, ?_⟩
  · rw [e1]; simpa using h1.sublist e2
  · rw [e1]
    intro i hi
    exact (h2 i).1 (e2.subset (by simpa using hi))
  · intro hs i ob hi hh
    exact hc hs i ((h2 i).2 (by rw [hi]; rfl)) ⟨ob, hi, hh⟩

/-- **C20**, with C21: an object whose real box is met by the segment is met by it in the fat box. -/
theorem hits_fat {o d : V3 K} {a b : AABB K} {m : K} (hc : a.contains b = true) (h : Hits o d b m) : Hits o d a m := by
  obtain ⟨t, h1, h2, h3⟩ := h
  refine ⟨t, h1, h2, ?_⟩
  rw [AABB.contains_iff] at hc
  obtain ⟨c1, c2, c3, c4, c5, c6⟩ := hc
  obtain ⟨m1, m2, m3, m4, m5, m6⟩ := h3
  exact ⟨c1.trans m1, m2.trans c4, c2.trans m3, m4.trans c5, c3.trans m5, m6.trans c6⟩

/-! The code misses boxes. -/
namespace RayExample

/-- The unit cube. -/
def cube : AABB Rat := ⟨⟨0, 0, 0⟩, ⟨1, 1, 1⟩⟩

/-- **C20 fails** for a ray parallel to an axis that lies in the plane of a side: the segment from (1, 1/2, -1) to (1, 1/2, 3) touches the
cube in a whole edge-to-edge segment, and the test says no. The parameters involved are the result of 0 * infinity. Likewise in the plane
x = 0; in the planes y = 1 and z = 1 of a ray along x. -/
theorem testRay_misses :
    (∀ x : Rat, x = 0 ∨ x = 1 → Hits ⟨x, 1 / 2, -1⟩ ⟨0, 0, 4⟩ cube 1 ∧
      cube.testRay (FloatOps.exact Rat) ⟨x, 1 / 2, -1⟩ (rayInv (FloatOps.exact Rat) ⟨false, false, false⟩ ⟨0, 0, 4⟩) 1 = false) ∧
    (Hits ⟨-1, 1, 1 / 2⟩ ⟨4, 0, 0⟩ cube 1 ∧
      cube.testRay (FloatOps.exact Rat) ⟨-1, 1, 1 / 2⟩ (rayInv (FloatOps.exact Rat) ⟨false, false, false⟩ ⟨4, 0, 0⟩) 1 = false) := by
  refine ⟨?_, ?_, ?_⟩
  · rintro x (rfl | rfl)
    · refine ⟨⟨1 / 4, by norm_num, by norm_num, ?_⟩, by decide +kernel⟩
      unfold AABB.Mem cube; norm_num
    · refine ⟨⟨1 / 4, by norm_num, by norm_num, ?_⟩, by decide +kernel⟩
      unfold AABB.Mem cube; norm_num
  · refine ⟨1 / 4, by norm_num, by norm_num, ?_⟩
    unfold AABB.Mem cube; norm_num
  · decide +kernel

def f0 : Nat → TNode Rat := fun _ => ⟨none, .raw, 0, cube⟩
abbrev rec : List Nat → Nat → Rat → List Nat × Ext Rat := fun l i _ => (l ++ [i], fin 1)

/-- **C20 fails**: the tree with one object (the cube, without inflation as in the trees of meshes); the segment meets it, the callback is
never called. -/
theorem tree_raycast_misses :
    ∃ (t : Tree Rat) (S : Nat → Option (Obj Rat)) (i : Nat) (ob : Obj Rat) (o d : V3 Rat),
      Hist AABB.Valid (fatBox 0) t S ∧ S i = some ob ∧ Hits o d ob.box 1 ∧ ob.fat = ob.box ∧
      t.raycast (FloatOps.exact Rat) o d ⟨false, false, false⟩ rec 1 [] = some ([], 1, false) := by
  have h0 : Hist AABB.Valid (fatBox (0 : Rat)) (Tree.init f0) (fun _ => none) := Hist.init f0
  obtain ⟨t', i, tr', fl', e, ha, _⟩ := Tree.addObject_abs (costChoice : Choice Rat) (fatBox 0)
    (t := Tree.init f0) (S := fun _ => none) ⟨Tree.init_inv f0, by simp [Tree.oleaves], by simp⟩ cube 7
  have h1 := Hist.add h0 (by decide) e
  have hfat : fatBox (0 : Rat) cube = cube := by decide +kernel
  refine ⟨t', _, i, _, ⟨1, 1 / 2, -1⟩, ⟨0, 0, 4⟩, h1, upd_same _ _ _, (testRay_misses.1 1 (Or.inr rfl)).1, hfat, ?_⟩
  have hmem : ∀ j, j ∈ Tree.oleaves tr' ↔ j = i := by
    intro j
    rw [ha.mem j]
    simp only [upd]
    split_ifs with hj <;> simp [hj]
  cases tr' with
  | none => have := (hmem i).2 rfl; cases this
  | some T0 =>
    have hT : T0 = .leaf i := by
      cases T0 with
      | leaf a =>
        have := (hmem a).1 (by simp [Tree.oleaves, Tree.T.leaves])
        rw [this]
      | node a l r =>
        exfalso
        have hne : ∀ t : Tree.T, t.leaves ≠ [] := by
          intro t; induction t <;> simp_all [Tree.T.leaves]
        obtain ⟨x, hx⟩ := List.exists_mem_of_ne_nil _ (hne l)
        obtain ⟨y, hy⟩ := List.exists_mem_of_ne_nil _ (hne r)
        have ex := (hmem x).1 (by simp [Tree.oleaves, Tree.T.leaves, hx])
        have ey := (hmem y).1 (by simp [Tree.oleaves, Tree.T.leaves, hy])
        have := (List.nodup_append.1 ha.inv.nd).1
        simp only [Tree.oaddrs, Tree.T.addrs, List.nodup_cons, List.nodup_append] at this
        exact this.2.2.2 x (Tree.leaves_sub l x hx) y (Tree.leaves_sub r y hy) (ex.trans ey.symm)
    subst hT
    have hrd : t'.rd i = some (t'.node i) := if_pos (ha.inv.lt (Or.inl (by simp [Tree.oaddrs, Tree.T.addrs])))
    have hbox : (t'.node i).box = cube := by
      rw [(ha.obj i _ (upd_same _ _ _)).2]
      exact hfat
    unfold Tree.raycast
    rw [ha.inv.root, Option.map_some, Tree.addr_leaf, Tree.raycastLoop]
    simp only [hrd, hbox, (testRay_misses.1 1 (Or.inr rfl)).2, Bool.false_eq_true, if_false]
    rw [Tree.raycastLoop]

/-- A ray that satisfies the hypotheses of `tree_raycast_exact_partial` and hits the cube. -/
example : cube.Valid ∧ cube.Clear ⟨1 / 2, 1 / 2, -1⟩ ⟨0, 0, 4⟩ ∧ Hits ⟨1 / 2, 1 / 2, -1⟩ ⟨0, 0, 4⟩ cube 1 := by
  refine ⟨by decide, ?_, 1 / 4, by norm_num, by norm_num, ?_⟩
  · unfold AABB.Clear cube; norm_num
  · unfold AABB.Mem cube; norm_num

end RayExample
end RP3D
