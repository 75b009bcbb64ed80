import Verif.Narrow.RoundPoly

/-! C132: what the data kept of a pair is used for. An axis that was not kept by GJK in a step of the world has no influence, and tests asked for by the user keep none. -/

set_option linter.unusedSectionVars false

namespace RP3D
namespace RoundPolyProps
open Shape Gjk RoundPoly
variable {K : Type} [Field K] [LinearOrder K]

/-! ### Specification -/

/-- What a test tells. -/
def answer (o : Out K) : Bool × List (Round.Contact K) := (o.colliding, o.contacts)

/-- The data comes from a step of the world whose test was decided by GJK. -/
def FromGjk (i : Info K) : Prop := i.valid = true ∧ i.usedGjk = true

/-! ### Theorems -/

theorem cached_none {i : Info K} (h : ¬FromGjk i) : i.cached = none := by
  unfold Info.cached
  rw [if_neg]
  intro k
  rw [Bool.and_eq_true] at k
  exact h k

theorem search_cached (c : Cfg K) (t1 t2 : Trans K) (s1 s2 : V3 K → V3 K) (m1 m2 : K) {i j : Info K} (h : i.cached = j.cached) (n : Nat) :
    (search c t1 t2 s1 s2 m1 m2 i n).map (fun o => o.map Prod.fst) = (search c t1 t2 s1 s2 m1 m2 j n).map fun o => o.map Prod.fst := by
  unfold search
  rw [h]
  cases start c (m1 + m2) j.cached with
  | none => rfl
  | some x =>
    simp only [Option.bind_some]
    cases loop c (supportA s1) (supportB t1 t2 s2) (m1 + m2) n x with
    | broken => rfl
    | running _ => rfl
    | done y e => simp only [Option.map_map]; rfl

/-- The outcomes of two searches with the same verdict. -/
theorem same_verdict {a b : Option (Option (Verdict K × V3 K))} (h : a.map (fun o => o.map Prod.fst) = b.map fun o => o.map Prod.fst) :
    (a = none ∧ b = none) ∨ (a = some none ∧ b = some none) ∨ ∃ v x y, a = some (some (v, x)) ∧ b = some (some (v, y)) := by
  rcases a with _ | _ | ⟨v, x⟩ <;> rcases b with _ | _ | ⟨v', y⟩ <;> simp at h <;> simp [h]

variable {c : Cfg K} {N : Sat.Num K} {P : Sat.Poly K} {hh r : K} {first : Bool} {f : Frame K} {i j : Info K} {n : Nat}

/-- **C132 (data without use).** Data that GJK did not keep in a step of the world has no influence on the test of a ball. -/
theorem sphere_unused (hi : ¬FromGjk (f.start i)) (hj : ¬FromGjk (f.start j)) :
    (sphereTest c N P r first f i n).map (fun o => o.map answer) = (sphereTest c N P r first f j n).map fun o => o.map answer := by
  have h := search_cached c (f.t1 first) (f.t2 first) (supp1 (fun _ => 0) P first) (supp2 (fun _ => 0) P first) (marg1 r first) (marg2 r first)
    ((cached_none hi).trans (cached_none hj).symm) n
  unfold sphereTest gjkTest
  rcases same_verdict h with ⟨e1, e2⟩ | ⟨e1, e2⟩ | ⟨v, x, y, e1, e2⟩ <;> rw [e1, e2]
  · rfl
  · rfl
  · cases v <;> rfl

/-- **C132 (data without use).** The same for a capsule. -/
theorem capsule_unused (hi : ¬FromGjk (f.start i)) (hj : ¬FromGjk (f.start j)) :
    (capsuleTest c N P hh r first f i n).map (fun o => o.map answer) = (capsuleTest c N P hh r first f j n).map fun o => o.map answer := by
  have h := search_cached c (f.t1 first) (f.t2 first) (supp1 (capsuleSupport hh) P first) (supp2 (capsuleSupport hh) P first) (marg1 r first) (marg2 r first)
    ((cached_none hi).trans (cached_none hj).symm) n
  unfold capsuleTest gjkTest
  rcases same_verdict h with ⟨e1, e2⟩ | ⟨e1, e2⟩ | ⟨v, x, y, e1, e2⟩ <;> rw [e1, e2]
  · rfl
  · rfl
  · cases v with
    | separated => rfl
    | collide ct => simp only [Option.bind_some, Option.map_map]; rfl
    | interpenetrate => simp only [Option.bind_some, Option.map_map]; rfl

/-- What a test may keep. -/
def Keeps (f : Frame K) (i : Info K) (o : Out K) : Prop :=
  (o.info.valid = true ↔ f.update = true ∨ (f.renew = false ∧ i.valid = true)) ∧ (o.info.usedGjk = true ↔ o.info.usedSat = false)

theorem valid_iff : f.valid (f.start i) = true ↔ f.update = true ∨ (f.renew = false ∧ i.valid = true) := by
  unfold Frame.valid Frame.start
  cases f.renew <;> cases hv : i.valid <;> cases f.update <;> simp [Info.fresh, hv]

/-- **C132 (validity).** Only a step of the world makes the data of a pair valid; a new pair starts without; the data tells which test decided. -/
theorem sphere_keeps {o : Out K} (h : sphereTest c N P r first f i n = some (some o)) : Keeps f i o := by
  unfold sphereTest at h
  rcases hg : gjkTest c P (fun _ => 0) r first f (f.start i) n with _ | _ | ⟨v, x⟩ <;> rw [hg] at h
  · cases h
  · cases h
  · simp only [Option.map_some, Option.some.injEq] at h
    subst h
    cases v <;> exact ⟨valid_iff, by simp⟩

theorem capsule_keeps {o : Out K} (h : capsuleTest c N P hh r first f i n = some (some o)) : Keeps f i o := by
  unfold capsuleTest at h
  rcases hg : gjkTest c P (capsuleSupport hh) r first f (f.start i) n with _ | _ | ⟨v, x⟩ <;> rw [hg] at h
  · cases h
  · cases h
  · simp only [Option.bind_some] at h
    cases v with
    | separated => cases h; exact ⟨valid_iff, by simp⟩
    | collide ct =>
      obtain ⟨cs, _, e⟩ := Option.map_eq_some_iff.1 h
      cases e; exact ⟨valid_iff, by simp⟩
    | interpenetrate =>
      obtain ⟨cs, _, e⟩ := Option.map_eq_some_iff.1 h
      cases e; exact ⟨valid_iff, by simp⟩

/-- Tests for which these hold. -/
structure Fair (test : Frame K → Info K → Option (Option (Out K))) : Prop where
  unused : ∀ f i j, ¬FromGjk (f.start i) → ¬FromGjk (f.start j) → (test f i).map (fun o => o.map answer) = (test f j).map fun o => o.map answer
  keeps : ∀ f i o, test f i = some (some o) → Keeps f i o

theorem fair_queries {test : Frame K → Info K → Option (Option (Out K))} (ht : Fair test) : ∀ (fs : List (Frame K)) (i : Info K) (os : List (Out K)), i.valid = false →
    (∀ f ∈ fs, f.update = false) → frames test i fs = some (some os) →
    List.Forall₂ (fun f o => (test f .fresh).map (fun o => o.map answer) = some (some (answer o)) ∧ o.info.valid = false) fs os
  | [], _, os, _, _, h => by cases h; exact .nil
  | f :: fs, i, os, hi, hf, h => by
    unfold frames at h
    obtain ⟨o, ho, h⟩ := Option.bind_eq_some_iff.1 h
    rcases o with _ | o
    · cases h
    · obtain ⟨ps, hp, h⟩ := Option.map_eq_some_iff.1 h
      obtain ⟨qs, rfl, rfl⟩ := Option.map_eq_some_iff.1 h
      have hs : ∀ k : Info K, k.valid = false → ¬FromGjk (f.start k) := fun k hk q => by
        have := q.1
        unfold Frame.start at this
        split at this
        · cases this
        · rw [hk] at this; cases this
      have hv : o.info.valid = false := by
        by_contra k
        rcases (ht.keeps f i o ho).1.1 (by simpa using k) with e | ⟨_, e⟩
        · rw [hf f List.mem_cons_self] at e; cases e
        · rw [hi] at e; cases e
      refine .cons ⟨?_, hv⟩ (fair_queries ht fs o.info qs hv (fun g hg => hf g (List.mem_cons_of_mem _ hg)) hp)
      rw [ht.unused f .fresh i (hs _ rfl) (hs _ hi), ho]
      rfl

/-- **C132 (queries).** Tests asked for by the user before the first step of a pair do not influence each other: each answers as if it were the first, and none makes the data valid. -/
theorem sphere_queries {fs : List (Frame K)} {os : List (Out K)} (hf : ∀ f ∈ fs, f.update = false) (h : frames (fun f i => sphereTest c N P r first f i n) .fresh fs = some (some os)) :
    List.Forall₂ (fun f o => (sphereTest c N P r first f .fresh n).map (fun o => o.map answer) = some (some (answer o)) ∧ o.info.valid = false) fs os :=
  fair_queries ⟨fun _ _ _ => sphere_unused, fun _ _ _ => sphere_keeps⟩ fs _ os rfl hf h

theorem capsule_queries {fs : List (Frame K)} {os : List (Out K)} (hf : ∀ f ∈ fs, f.update = false) (h : frames (fun f i => capsuleTest c N P hh r first f i n) .fresh fs = some (some os)) :
    List.Forall₂ (fun f o => (capsuleTest c N P hh r first f .fresh n).map (fun o => o.map answer) = some (some (answer o)) ∧ o.info.valid = false) fs os :=
  fair_queries ⟨fun _ _ _ => capsule_unused, fun _ _ _ => capsule_keeps⟩ fs _ os rfl hf h

end RoundPolyProps
end RP3D
