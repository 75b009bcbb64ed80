import Verif.Engine.Settings
import Std.Data.String.ToNat
import Mathlib.Data.List.Induction
import Mathlib.Tactic.Common
import Mathlib.Tactic.NormNum

/-! C155: the settings of a world are those given at its creation or set last; generated names are different. -/

namespace RP3D
namespace Settings

/-! ### Specification -/

/-- What was set last, as chosen by `f`. -/
def lastSet {K α : Type} (f : Op K → Option α) (h : List (Op K)) : Option α := (h.filterMap f).getLast?

/-- The calls keep their preconditions: no negative thresholds, and counts that fit into 16 bits. -/
def Proper {K : Type} [Zero K] [LE K] : Op K → Prop
  | .nbVelocity n => n < 2 ^ 16
  | .nbPosition n => n < 2 ^ 16
  | .timeBeforeSleep x => 0 ≤ x
  | .sleepLinear x => 0 ≤ x
  | .sleepAngular x => 0 ≤ x
  | _ => True

/-- The same without the bound on the counts. -/
def Signed {K : Type} [Zero K] [LE K] : Op K → Prop
  | .timeBeforeSleep x => 0 ≤ x
  | .sleepLinear x => 0 ≤ x
  | .sleepAngular x => 0 ≤ x
  | _ => True

/-- The world has the settings that it should have. -/
structure AsSet {K : Type} (g : Given K) (h : List (Op K)) (w : World K) : Prop where
  gravity : w.gravity = (lastSet (fun | .gravity v => some v | _ => none) h).getD g.gravity
  gravityOn : w.gravityOn = (lastSet (fun | .gravityOn v => some v | _ => none) h).getD true
  sleeping : w.sleeping = (lastSet (fun | .sleeping v => some v | _ => none) h).getD g.isSleepingEnabled
  nbVelocity : w.nbVelocity = (lastSet (fun | .nbVelocity v => some v | _ => none) h).getD g.nbVelocity
  nbPosition : w.nbPosition = (lastSet (fun | .nbPosition v => some v | _ => none) h).getD g.nbPosition
  timeBeforeSleep : w.timeBeforeSleep = (lastSet (fun | .timeBeforeSleep v => some v | _ => none) h).getD g.timeBeforeSleep
  sleepLinear : w.sleepLinear = (lastSet (fun | .sleepLinear v => some v | _ => none) h).getD g.sleepLinear
  sleepAngular : w.sleepAngular = (lastSet (fun | .sleepAngular v => some v | _ => none) h).getD g.sleepAngular

/-! ### Theorems -/

variable {K : Type} [Zero K] [LE K] [DecidableLE K]

theorem run_snoc (w : World K) : ∀ (h : List (Op K)) (o : Op K), w.run (h ++ [o]) = (w.run h).bind fun u => u.step o := by
  intro h
  induction h generalizing w with
  | nil =>
    intro o
    show (w.step o).bind _ = w.step o
    cases w.step o <;> rfl
  | cons p h ih =>
    intro o
    show (w.step p).bind _ = ((w.step p).bind _).bind _
    cases w.step p with
    | none => rfl
    | some u => exact ih u o

omit [Zero K] [LE K] [DecidableLE K] in
theorem lastSet_snoc {α : Type} (f : Op K → Option α) (h : List (Op K)) (o : Op K) :
    lastSet f (h ++ [o]) = (f o).or (lastSet f h) := by
  unfold lastSet
  rw [List.filterMap_append]
  cases e : f o <;> simp [e]

/-- After proper calls of the setters the world has the settings set last, and those given at the creation where nothing was set. -/
theorem as_set_partial (n : Nat) (g : Given K) (h : List (Op K)) (hp : ∀ o ∈ h, Proper o) :
    ∃ w, (create n g).1.run h = some w ∧ AsSet g h w := by
  induction h using List.reverseRecOn with
  | nil => exact ⟨_, rfl, ⟨rfl, rfl, rfl, rfl, rfl, rfl, rfl, rfl⟩⟩
  | append_singleton h o ih =>
    obtain ⟨w, h1, a⟩ := ih fun o ho => hp o (List.mem_append_left _ ho)
    have po : Proper o := hp o (List.mem_append_right _ (List.mem_singleton_self o))
    rw [run_snoc, h1]
    show ∃ u, w.step o = some u ∧ _
    cases o with
    | gravity v => exact ⟨_, rfl, by constructor <;> rw [lastSet_snoc] <;> first | rfl | exact a.1 | exact a.2 | exact a.3 | exact a.4 | exact a.5 | exact a.6 | exact a.7 | exact a.8⟩
    | gravityOn v => exact ⟨_, rfl, by constructor <;> rw [lastSet_snoc] <;> first | rfl | exact a.1 | exact a.2 | exact a.3 | exact a.4 | exact a.5 | exact a.6 | exact a.7 | exact a.8⟩
    | sleeping v => exact ⟨_, rfl, by constructor <;> rw [lastSet_snoc] <;> first | rfl | exact a.1 | exact a.2 | exact a.3 | exact a.4 | exact a.5 | exact a.6 | exact a.7 | exact a.8⟩
    | nbVelocity v =>
      have e : toUint16 v = v := Nat.mod_eq_of_lt po
      exact ⟨_, rfl, by constructor <;> rw [lastSet_snoc] <;> first | exact e | exact a.1 | exact a.2 | exact a.3 | exact a.4 | exact a.5 | exact a.6 | exact a.7 | exact a.8⟩
    | nbPosition v =>
      have e : toUint16 v = v := Nat.mod_eq_of_lt po
      exact ⟨_, rfl, by constructor <;> rw [lastSet_snoc] <;> first | exact e | exact a.1 | exact a.2 | exact a.3 | exact a.4 | exact a.5 | exact a.6 | exact a.7 | exact a.8⟩
    | timeBeforeSleep v => exact ⟨_, if_pos po, by constructor <;> rw [lastSet_snoc] <;> first | rfl | exact a.1 | exact a.2 | exact a.3 | exact a.4 | exact a.5 | exact a.6 | exact a.7 | exact a.8⟩
    | sleepLinear v => exact ⟨_, if_pos po, by constructor <;> rw [lastSet_snoc] <;> first | rfl | exact a.1 | exact a.2 | exact a.3 | exact a.4 | exact a.5 | exact a.6 | exact a.7 | exact a.8⟩
    | sleepAngular v => exact ⟨_, if_pos po, by constructor <;> rw [lastSet_snoc] <;> first | rfl | exact a.1 | exact a.2 | exact a.3 | exact a.4 | exact a.5 | exact a.6 | exact a.7 | exact a.8⟩

/-- Without the bound it is not so: 65536 iterations of the position solver, an argument of 32 bits, are none. -/
theorem many_iterations_none (n : Nat) (g : Given K) :
    ∃ (h : List (Op K)) (w : World K), (∀ o ∈ h, Signed o) ∧ (create n g).1.run h = some w ∧ w.nbPosition = 0 ∧ ¬ AsSet g h w := by
  refine ⟨[.nbPosition 65536], { (create n g).1 with nbPosition := 0 }, ?_, rfl, rfl, fun a => ?_⟩
  · intro o ho
    rw [List.mem_singleton.1 ho]
    trivial
  · have := a.nbPosition
    exact absurd this (by show ¬ (0 = 65536); decide)

omit [Zero K] [LE K] [DecidableLE K] in
theorem createAll_get (gs : List (Given K)) : ∀ (n i : Nat) (w : World K), n + gs.length ≤ 2 ^ 32 → (createAll n gs)[i]? = some w →
    ∃ g, gs[i]? = some g ∧ w = (create (n + i) g).1 := by
  induction gs with
  | nil => intro n i w _ h; simp [createAll] at h
  | cons g gs ih =>
    intro n i w hl h
    simp only [List.length_cons] at hl
    cases i with
    | zero =>
      simp only [createAll, List.getElem?_cons_zero, Option.some.injEq] at h
      exact ⟨g, rfl, h.symm⟩
    | succ i =>
      simp only [createAll, List.getElem?_cons_succ] at h
      cases gs with
      | nil => simp [createAll] at h
      | cons g' gs' =>
        simp only [List.length_cons] at hl
        have e : (create n g).2 = n + 1 := Nat.mod_eq_of_lt (by omega)
        rw [e] at h
        obtain ⟨k, h1, h2⟩ := ih (n + 1) i w (by simp only [List.length_cons]; omega) h
        exact ⟨k, h1, by rw [h2]; congr 2; omega⟩

theorem autoName_inj {m n : Nat} (h : autoName m = autoName n) : m = n := by
  have key : ∀ k : Nat, k > 0 → "world" ++ k.repr ≠ "world" := by
    intro k _ e
    have : "world" ++ k.repr = "world" ++ "" := by rw [e, String.append_empty]
    exact Nat.repr_ne_empty ((String.append_right_inj "world").1 this)
  unfold autoName at h
  by_cases hm : m > 0 <;> by_cases hn : n > 0
  · rw [if_pos hm, if_pos hn] at h
    exact Nat.repr_injective ((String.append_right_inj "world").1 h)
  · rw [if_pos hm, if_neg hn] at h
    exact absurd h (key m hm)
  · rw [if_neg hm, if_pos hn] at h
    exact absurd h.symm (key n hn)
  · omega

omit [Zero K] [LE K] [DecidableLE K] in
/-- Of up to 2^32 worlds two without a given name have different names, and a given name is the name. -/
theorem names (gs : List (Given K)) (hl : gs.length ≤ 2 ^ 32) (i j : Nat) (v w : World K)
    (hi : (createAll 0 gs)[i]? = some v) (hj : (createAll 0 gs)[j]? = some w) :
    ∃ g g', gs[i]? = some g ∧ gs[j]? = some g' ∧ (g.worldName ≠ "" → v.name = g.worldName) ∧
      (g.worldName = "" → g'.worldName = "" → i ≠ j → v.name ≠ w.name) := by
  obtain ⟨g, h1, rfl⟩ := createAll_get gs 0 i v (by omega) hi
  obtain ⟨g', h2, rfl⟩ := createAll_get gs 0 j w (by omega) hj
  refine ⟨g, g', h1, h2, fun e => if_neg e, fun e e' hne h => hne ?_⟩
  have h' : (if g.worldName = "" then autoName (0 + i) else g.worldName) =
      if g'.worldName = "" then autoName (0 + j) else g'.worldName := h
  rw [if_pos e, if_pos e'] at h'
  have := autoName_inj h'
  omega

omit [Zero K] [LE K] [DecidableLE K] in
/-- But a generated name does not appear in the log: it has the empty name there, like every other world without a given name. -/
theorem log_name_empty (n : Nat) (g : Given K) (e : g.worldName = "") :
    (create n g).1.name ≠ "" ∧ (create n g).1.logName = "" := by
  refine ⟨?_, e⟩
  show (if g.worldName = "" then autoName n else g.worldName) ≠ ""
  rw [if_pos e]
  unfold autoName
  split
  · intro h
    have := congrArg String.length h
    simp at this
  · decide

/-! ### Examples -/

/-- The default settings, in units of 1/100. -/
def usual : Given Int := ⟨"", (0, -981, 0), true, 6, 3, 100, 2, 5⟩

example : (∀ o ∈ ([.gravity (0, 0, 0), .nbPosition 8, .timeBeforeSleep 200, .nbPosition 9] : List (Op Int)), Proper o) ∧
    lastSet (fun | .nbPosition v => some v | _ => none) ([.gravity (0, 0, 0), .nbPosition 8, .timeBeforeSleep 200, .nbPosition 9] : List (Op Int)) = some 9 := by
  refine ⟨fun o ho => ?_, by decide⟩
  simp only [List.mem_cons, List.not_mem_nil, or_false] at ho
  rcases ho with rfl | rfl | rfl | rfl <;> simp [Proper]

example : (createAll 0 [usual, { usual with worldName := "moon" }, usual]).map (fun w => (w.name, w.logName)) =
    [("world", ""), ("moon", "moon"), ("world2", "")] := by decide +kernel

end Settings
end RP3D
