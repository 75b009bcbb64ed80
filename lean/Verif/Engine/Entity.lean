import Mathlib.Data.List.Perm.Basic
import Mathlib.Data.List.Nodup
import Mathlib.Data.Nat.Bitwise
import Mathlib.Tactic.Ring
import Mathlib.Tactic.Linarith

/-! Model of `Entity` and `EntityManager` (src/engine/Entity.cpp, include/reactphysics3d/engine/Entity.h,
src/engine/EntityManager.cpp, include/reactphysics3d/engine/EntityManager.h).

`mGenerations` (an `Array<uint8>`) and `mFreeIndices` (a `Deque<uint32>`) are lists, which is justified by the refinement
theorems of `Verif/Props/Array.lean` and `Verif/Props/Deque.lean`.  An access outside of the generations array
is undefined behaviour (`none`). -/

namespace RP3D

/-- The constructor of `Entity` (Entity.cpp:33-45): 24 bits of index, 8 bits of generation. -/
def mkEntity (index generation : Nat) : Nat := (index &&& (2 ^ 24 - 1)) ||| ((generation &&& (2 ^ 8 - 1)) <<< 24)

/-- `Entity::getIndex` (Entity.h:105-108). -/
def entityIndex (id : Nat) : Nat := id &&& (2 ^ 24 - 1)

/-- `Entity::getGeneration` (Entity.h:110-113). -/
def entityGeneration (id : Nat) : Nat := (id >>> 24) &&& (2 ^ 8 - 1)

/-- `mGenerations`, `mFreeIndices` (EntityManager.h:48-52). -/
structure EntMgr where
  gens : List Nat
  free : List Nat

namespace EntMgr

/-- Constructor (EntityManager.cpp:33-36). -/
def empty : EntMgr := ⟨[], []⟩

/-- `MINIMUM_FREE_INDICES` (Entity.cpp:37). -/
def minFree : Nat := 1024

/-- `createEntity` (EntityManager.cpp:38-63). -/
def create (m : EntMgr) : Option (EntMgr × Nat) :=
  if m.free.length > minFree then
    match m.free with
    | [] => none
    | index :: rest => do
      let g ← m.gens[index]?
      return (⟨m.gens, rest⟩, mkEntity index g)
  else
    let index := m.gens.length
    some (⟨m.gens ++ [0], m.free⟩, mkEntity index 0)

/-- `destroyEntity` (EntityManager.cpp:66-75): the generation is a `uint8`. -/
def destroy (m : EntMgr) (id : Nat) : Option EntMgr := do
  let index := entityIndex id
  let g ← m.gens[index]?
  return ⟨m.gens.set index ((g + 1) % 256), m.free ++ [index]⟩

/-- `isValid` (EntityManager.h:74-76). -/
def isValid (m : EntMgr) (id : Nat) : Option Bool := do
  let g ← m.gens[entityIndex id]?
  return g == entityGeneration id

/-- Operations of the engine on the manager. -/
inductive Op
  | create
  | destroy (id : Nat)

/-- One operation, together with the list of handles that are alive (created and not destroyed).  The
engine only destroys handles that are alive; other histories are rejected. -/
def step (s : EntMgr × List Nat) : Op → Option (EntMgr × List Nat)
  | .create => do
    let (m, id) ← s.1.create
    return (m, id :: s.2)
  | .destroy id =>
    if id ∈ s.2 then do
      let m ← s.1.destroy id
      return (m, s.2.erase id)
    else none

/-- A history of operations. -/
def run (s : EntMgr × List Nat) : List Op → Option (EntMgr × List Nat)
  | [] => some s
  | op :: ops => do
    let s ← step s op
    run s ops

/-! ### Lemmas -/

theorem mkEntity_eq {i g : Nat} (hi : i < 2 ^ 24) (hg : g < 256) : mkEntity i g = 2 ^ 24 * g + i := by
  unfold mkEntity
  rw [Nat.and_two_pow_sub_one_eq_mod, Nat.and_two_pow_sub_one_eq_mod, Nat.mod_eq_of_lt hi, Nat.mod_eq_of_lt hg,
    Nat.shiftLeft_eq, Nat.or_comm, Nat.mul_comm g]
  exact (Nat.two_pow_add_eq_or_of_lt hi g).symm

theorem entityIndex_mk {i g : Nat} (hi : i < 2 ^ 24) (hg : g < 256) : entityIndex (mkEntity i g) = i := by
  rw [mkEntity_eq hi hg]
  unfold entityIndex
  rw [Nat.and_two_pow_sub_one_eq_mod]
  omega

theorem entityGeneration_mk {i g : Nat} (hi : i < 2 ^ 24) (hg : g < 256) : entityGeneration (mkEntity i g) = g := by
  rw [mkEntity_eq hi hg]
  unfold entityGeneration
  rw [Nat.and_two_pow_sub_one_eq_mod, Nat.shiftRight_eq_div_pow]
  omega

/-- The invariant of the manager and the alive handles. -/
structure Inv (m : EntMgr) (alive : List Nat) : Prop where
  byte : ∀ g ∈ m.gens, g < 256
  perm : (m.free ++ alive.map entityIndex).Perm (List.range m.gens.length)
  handles : ∀ h ∈ alive, ∃ g, m.gens[entityIndex h]? = some g ∧ h = mkEntity (entityIndex h) g

theorem inv_empty : Inv empty [] := ⟨by simp [empty], by simp [empty], by simp⟩

theorem Inv.nodup {m : EntMgr} {alive : List Nat} (h : Inv m alive) : (m.free ++ alive.map entityIndex).Nodup :=
  h.perm.nodup_iff.2 List.nodup_range

theorem gens_le_step {s s' : EntMgr × List Nat} {op : Op} (h : step s op = some s') :
    s.1.gens.length ≤ s'.1.gens.length := by
  cases op with
  | create =>
    simp only [step, create] at h
    split_ifs at h with hf
    · cases hfr : s.1.free with
      | nil => rw [hfr] at h; simp at h
      | cons i r =>
        rw [hfr] at h
        simp only [Option.bind_eq_bind] at h
        cases hg : s.1.gens[i]? with
        | none => rw [hg] at h; simp at h
        | some g => rw [hg] at h; simp at h; rw [← h]
    · simp at h; rw [← h]; simp
  | destroy id =>
    simp only [step] at h
    split_ifs at h with ha
    simp only [destroy, Option.bind_eq_bind] at h
    cases hg : s.1.gens[entityIndex id]? with
    | none => rw [hg] at h; simp at h
    | some g => rw [hg] at h; simp at h; rw [← h]; simp

theorem gens_le_run {ops : List Op} : ∀ {s s' : EntMgr × List Nat}, run s ops = some s' →
    s.1.gens.length ≤ s'.1.gens.length := by
  induction ops with
  | nil => intro s s' h; simp [run] at h; rw [h]
  | cons op ops ih =>
    intro s s' h
    simp only [run, Option.bind_eq_bind, Option.bind_eq_some_iff] at h
    obtain ⟨s1, h1, h2⟩ := h
    exact (gens_le_step h1).trans (ih h2)

theorem run_append (ops1 ops2 : List Op) (s : EntMgr × List Nat) :
    run s (ops1 ++ ops2) = (run s ops1).bind (fun s1 => run s1 ops2) := by
  induction ops1 generalizing s with
  | nil => rfl
  | cons op ops1 ih =>
    simp only [List.cons_append, run, Option.bind_eq_bind]
    cases step s op with
    | none => rfl
    | some s1 => simp [ih]

/-- Effect of a creation from a good state. -/
theorem create_spec {m : EntMgr} {alive : List Nat} (h : Inv m alive) (hlen : m.gens.length < 2 ^ 24) :
    ∃ m' i g, m.create = some (m', mkEntity i g) ∧ i < 2 ^ 24 ∧ g < 256 ∧ m'.gens[i]? = some g ∧
      i ∉ alive.map entityIndex ∧
      Inv m' (mkEntity i g :: alive) ∧
      ((m.free = i :: m'.free ∧ 1024 < m.free.length ∧ m'.gens = m.gens) ∨
       (m'.free = m.free ∧ i = m.gens.length ∧ g = 0 ∧ m'.gens = m.gens ++ [0])) := by
  unfold create
  by_cases hf : m.free.length > minFree
  · rw [if_pos hf]
    obtain ⟨i, r, hfr⟩ : ∃ i r, m.free = i :: r := by
      cases hfr : m.free with
      | nil => rw [hfr] at hf; simp at hf
      | cons i r => exact ⟨i, r, rfl⟩
    have hi : i < m.gens.length := by
      have : i ∈ m.free ++ alive.map entityIndex := by rw [hfr]; simp
      exact List.mem_range.1 (h.perm.mem_iff.1 this)
    have hg : m.gens[i]? = some m.gens[i] := List.getElem?_eq_getElem hi
    have hb : m.gens[i] < 256 := h.byte _ (List.getElem_mem hi)
    rw [hfr]
    simp only [hg]
    refine ⟨⟨m.gens, r⟩, i, m.gens[i], rfl, by omega, hb, hg, ?_, ⟨h.byte, ?_, ?_⟩, Or.inl ⟨rfl, ?_, rfl⟩⟩
    · intro hm
      have := h.nodup
      rw [hfr] at this
      simp only [List.cons_append, List.nodup_cons] at this
      exact this.1 (List.mem_append_right _ hm)
    · have hp := h.perm
      rw [hfr] at hp
      simp only [List.map_cons]
      rw [entityIndex_mk (by omega) hb]
      exact List.perm_middle.trans hp
    · intro a ha
      rcases List.mem_cons.1 ha with rfl | ha
      · rw [entityIndex_mk (by omega) hb]; exact ⟨_, hg, rfl⟩
      · exact h.handles a ha
    · rw [hfr] at hf; exact hf
  · rw [if_neg hf]
    refine ⟨⟨m.gens ++ [0], m.free⟩, m.gens.length, 0, rfl, hlen, by norm_num, by simp, ?_, ⟨?_, ?_, ?_⟩,
      Or.inr ⟨rfl, rfl, rfl, rfl⟩⟩
    · intro hm
      have := List.mem_range.1 (h.perm.mem_iff.1 (List.mem_append_right _ hm))
      omega
    · intro g hg
      rcases List.mem_append.1 hg with hg | hg
      · exact h.byte g hg
      · simp at hg; omega
    · simp only [List.map_cons]
      rw [entityIndex_mk hlen (by norm_num)]
      simp only [List.length_append, List.length_singleton, List.range_succ]
      refine List.perm_middle.trans ?_
      exact (List.Perm.cons _ h.perm).trans (List.perm_append_singleton _ _).symm
    · intro a ha
      rcases List.mem_cons.1 ha with rfl | ha
      · rw [entityIndex_mk hlen (by norm_num)]; exact ⟨0, by simp, rfl⟩
      · obtain ⟨g, h1, h2⟩ := h.handles a ha
        refine ⟨g, ?_, h2⟩
        show (m.gens ++ [0])[entityIndex a]? = some g
        rw [List.getElem?_append_left (List.getElem?_eq_some_iff.1 h1).1]; exact h1

/-- Effect of a destruction of an alive handle from a good state. -/
theorem destroy_spec {m : EntMgr} {alive : List Nat} (h : Inv m alive) {id : Nat} (hid : id ∈ alive) :
    ∃ g, m.gens[entityIndex id]? = some g ∧ id = mkEntity (entityIndex id) g ∧
      m.destroy id = some ⟨m.gens.set (entityIndex id) ((g + 1) % 256), m.free ++ [entityIndex id]⟩ ∧
      entityIndex id ∉ m.free ∧
      Inv ⟨m.gens.set (entityIndex id) ((g + 1) % 256), m.free ++ [entityIndex id]⟩ (alive.erase id) := by
  obtain ⟨g, h1, h2⟩ := h.handles id hid
  refine ⟨g, h1, h2, by simp [destroy, h1], ?_, ⟨?_, ?_, ?_⟩⟩
  · intro hh
    exact (List.nodup_append.1 h.nodup).2.2 _ hh _ (List.mem_map_of_mem hid) rfl
  · intro a ha
    rcases List.mem_or_eq_of_mem_set ha with ha | rfl
    · exact h.byte a ha
    · exact Nat.mod_lt _ (by norm_num)
  · simp only [List.length_set]
    refine List.Perm.trans ?_ h.perm
    rw [List.append_assoc]
    apply List.Perm.append_left
    have : alive.Perm (id :: alive.erase id) := List.perm_cons_erase hid
    exact (this.map entityIndex).symm
  · intro a ha
    have ham := List.mem_of_mem_erase ha
    obtain ⟨g', h3, h4⟩ := h.handles a ham
    refine ⟨g', ?_, h4⟩
    have hne : entityIndex id ≠ entityIndex a := by
      have hn := (List.nodup_append.1 h.nodup).2.1
      have hp : (alive.map entityIndex).Perm (entityIndex id :: (alive.erase id).map entityIndex) :=
        (List.perm_cons_erase hid).map entityIndex
      have := hp.nodup_iff.1 hn
      intro hh
      exact (List.nodup_cons.1 this).1 (hh ▸ List.mem_map_of_mem ha)
    show (m.gens.set (entityIndex id) _)[entityIndex a]? = some g'
    rw [List.getElem?_set_ne hne]; exact h3

theorem inv_run {ops : List Op} : ∀ {s s' : EntMgr × List Nat}, Inv s.1 s.2 → run s ops = some s' →
    s'.1.gens.length ≤ 2 ^ 24 → Inv s'.1 s'.2 := by
  induction ops with
  | nil => intro s s' h hr _; simp [run] at hr; rw [← hr]; exact h
  | cons op ops ih =>
    intro s s' h hr hlen
    simp only [run, Option.bind_eq_bind, Option.bind_eq_some_iff] at hr
    obtain ⟨s1, h1, h2⟩ := hr
    refine ih ?_ h2 hlen
    have hle := gens_le_run h2
    cases op with
    | create =>
      by_cases hfull : s.1.gens.length < 2 ^ 24
      · obtain ⟨m', i, g, hc, _, _, _, _, hinv, _⟩ := create_spec h hfull
        simp only [step, hc] at h1
        cases h1
        exact hinv
      · -- the array of generations is full: only recycling is possible
        have hge := gens_le_step h1
        simp only [step, create] at h1
        split_ifs at h1 with hf
        · obtain ⟨i, r, hfr⟩ : ∃ i r, s.1.free = i :: r := by
            cases hfr : s.1.free with
            | nil => rw [hfr] at hf; simp at hf
            | cons i r => exact ⟨i, r, rfl⟩
          have hi : i < s.1.gens.length := by
            have : i ∈ s.1.free ++ s.2.map entityIndex := by rw [hfr]; simp
            exact List.mem_range.1 (h.perm.mem_iff.1 this)
          have hg : s.1.gens[i]? = some s.1.gens[i] := List.getElem?_eq_getElem hi
          have hb : s.1.gens[i] < 256 := h.byte _ (List.getElem_mem hi)
          rw [hfr] at h1
          simp only [hg] at h1
          cases h1
          have hi24 : i < 2 ^ 24 := by omega
          refine ⟨h.byte, ?_, ?_⟩
          · have hp := h.perm
            rw [hfr] at hp
            simp only [List.map_cons]
            rw [entityIndex_mk hi24 hb]
            exact List.perm_middle.trans hp
          · intro a ha
            rcases List.mem_cons.1 ha with rfl | ha
            · rw [entityIndex_mk hi24 hb]; exact ⟨_, hg, rfl⟩
            · exact h.handles a ha
        · cases h1
          simp at hle
          omega
    | destroy id =>
      simp only [step] at h1
      split_ifs at h1 with ha
      obtain ⟨g, _, _, h4, _, h5⟩ := destroy_spec h ha
      simp only [h4] at h1
      cases h1
      exact h5

/-- Number of destructions in a history. -/
def destructions (ops : List Op) : Nat := ops.countP (fun op => match op with | .destroy _ => true | .create => false)

/-- What is known about index `i` after `k` destructions of it and `n` destructions in total since a given
one, whose handle had generation `g`. -/
structure Lap (m : EntMgr) (i g k n : Nat) : Prop where
  pos : 1 ≤ k
  gen : m.gens[i]? = some ((g + k) % 256)
  free : (∃ A B, m.free = A ++ i :: B ∧ 1025 * (k - 1) + 1 + B.length ≤ n) ∨ (i ∉ m.free ∧ 1025 * k ≤ n)

theorem lap_step {s s' : EntMgr × List Nat} {op : Op} {i g k n : Nat} (h : Inv s.1 s.2) (hl : Lap s.1 i g k n)
    (hlen : s'.1.gens.length ≤ 2 ^ 24) (hs : step s op = some s') :
    ∃ k', Lap s'.1 i g k' (n + destructions [op]) := by
  cases op with
  | create =>
    have hilt : i < s.1.gens.length := (List.getElem?_eq_some_iff.1 hl.gen).1
    refine ⟨k, hl.pos, ?_, ?_⟩
    · simp only [step, create] at hs
      split_ifs at hs with hf
      · cases hfr : s.1.free with
        | nil => rw [hfr] at hf; simp at hf
        | cons j r =>
          rw [hfr] at hs
          simp only [Option.bind_eq_bind] at hs
          cases hg : s.1.gens[j]? with
          | none => rw [hg] at hs; simp at hs
          | some g => rw [hg] at hs; simp at hs; rw [← hs]; exact hl.gen
      · simp at hs; rw [← hs]
        show (s.1.gens ++ [0])[i]? = _
        rw [List.getElem?_append_left hilt]; exact hl.gen
    · simp only [destructions, List.countP_cons, List.countP_nil]
      simp only [step, create] at hs
      split_ifs at hs with hf
      · cases hfr : s.1.free with
        | nil => rw [hfr] at hf; simp at hf
        | cons j r =>
          rw [hfr] at hs
          simp only [Option.bind_eq_bind] at hs
          cases hg : s.1.gens[j]? with
          | none => rw [hg] at hs; simp at hs
          | some g' =>
            rw [hg] at hs
            simp at hs
            have hs1 : s'.1.free = r := by rw [← hs]
            rw [hs1]
            have hnd := (List.nodup_append.1 h.nodup).1
            rw [hfr] at hnd
            simp only [List.nodup_cons] at hnd
            rcases hl.free with ⟨A, B, hAB, hn⟩ | ⟨hi, hn⟩
            · cases A with
              | nil =>
                rw [hfr] at hAB
                simp at hAB
                obtain ⟨rfl, rfl⟩ := hAB
                right
                refine ⟨hnd.1, ?_⟩
                rw [hfr] at hf
                simp [minFree] at hf
                have := hl.pos
                simp; omega
              | cons a A =>
                rw [hfr] at hAB
                simp at hAB
                left
                exact ⟨A, B, hAB.2, by simpa using hn⟩
            · right
              rw [hfr] at hi
              simp only [List.mem_cons, not_or] at hi
              exact ⟨hi.2, by simpa using hn⟩
      · simp at hs
        have hs1 : s'.1.free = s.1.free := by rw [← hs]
        rw [hs1]; simpa using hl.free
  | destroy id =>
    simp only [step] at hs
    split_ifs at hs with ha
    obtain ⟨g', h1, h2, h4, hnf, h5⟩ := destroy_spec h ha
    simp only [h4] at hs
    cases hs
    have hcount : destructions [Op.destroy id] = 1 := rfl
    rw [hcount]
    by_cases hid : entityIndex id = i
    · refine ⟨k + 1, by omega, ?_, ?_⟩
      · show (s.1.gens.set (entityIndex id) _)[i]? = _
        rw [hid] at h1 ⊢
        rw [hl.gen] at h1
        have hg' : (g + k) % 256 = g' := Option.some.inj h1
        have hilt : i < s.1.gens.length := (List.getElem?_eq_some_iff.1 hl.gen).1
        rw [List.getElem?_set_self hilt, ← hg']
        congr 1
        omega
      · left
        refine ⟨s.1.free, [], by rw [hid], ?_⟩
        rcases hl.free with ⟨A, B, hAB, hn⟩ | ⟨hi, hn⟩
        · exfalso
          apply hnf
          rw [hid, hAB]; simp
        · simp; omega
    · refine ⟨k, hl.pos, ?_, ?_⟩
      · show (s.1.gens.set (entityIndex id) _)[i]? = _
        rw [List.getElem?_set_ne hid]; exact hl.gen
      · rcases hl.free with ⟨A, B, hAB, hn⟩ | ⟨hi, hn⟩
        · left
          refine ⟨A, B ++ [entityIndex id], ?_, by simp; omega⟩
          show s.1.free ++ [entityIndex id] = _
          rw [hAB]; simp
        · right
          refine ⟨?_, by omega⟩
          show i ∉ s.1.free ++ [entityIndex id]
          simp [hi, Ne.symm hid]

theorem lap_run {ops : List Op} : ∀ {s s' : EntMgr × List Nat} {i g k n : Nat}, Inv s.1 s.2 → Lap s.1 i g k n →
    s'.1.gens.length ≤ 2 ^ 24 → run s ops = some s' → ∃ k', Lap s'.1 i g k' (n + destructions ops) := by
  induction ops with
  | nil =>
    intro s s' i g k n _ hl _ hr
    simp [run] at hr; rw [← hr]; exact ⟨k, by simpa [destructions] using hl⟩
  | cons op ops ih =>
    intro s s' i g k n h hl hlen hr
    have hr0 := hr
    simp only [run, Option.bind_eq_bind, Option.bind_eq_some_iff] at hr
    obtain ⟨s1, h1, h2⟩ := hr
    have hle := gens_le_run h2
    obtain ⟨k1, hl1⟩ := lap_step h hl (by omega) h1
    have hinv : Inv s1.1 s1.2 := inv_run (ops := [op]) h (by simp [run, h1]) (by omega)
    obtain ⟨k2, hl2⟩ := ih hinv hl1 hlen h2
    refine ⟨k2, ?_⟩
    have : n + destructions (op :: ops) = n + destructions [op] + destructions ops := by
      have : destructions (op :: ops) = destructions [op] + destructions ops := by
        unfold destructions
        rw [← List.countP_append]; rfl
      omega
    rw [this]; exact hl2

end EntMgr
end RP3D
