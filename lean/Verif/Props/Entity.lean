import Verif.Engine.Entity

/-! Property theorem C13: entity handles. -/

namespace RP3D
open EntMgr

/-- **C13.** In every history that uses at most 2^24 indices, the handles of the entities alive at
the same time are pairwise different and are all reported valid. -/
theorem entity_handles_distinct (ops : List Op) (m : EntMgr) (alive : List Nat)
    (h : run (EntMgr.empty, []) ops = some (m, alive)) (hsize : m.gens.length ≤ 2 ^ 24) :
    alive.Nodup ∧ ∀ id ∈ alive, m.isValid id = some true := by
  have hi : Inv m alive := inv_run (s := (EntMgr.empty, [])) inv_empty h hsize
  refine ⟨List.Nodup.of_map _ (List.nodup_append.1 hi.nodup).2.1, ?_⟩
  intro id hid
  obtain ⟨g, h1, h2⟩ := hi.handles id hid
  have hlt : entityIndex id < m.gens.length := (List.getElem?_eq_some_iff.1 h1).1
  have hb : g < 256 := by
    have := (List.getElem?_eq_some_iff.1 h1).2
    rw [← this]; exact hi.byte _ (List.getElem_mem _)
  have hgen : entityGeneration id = g := by
    rw [h2]; exact entityGeneration_mk (by omega) hb
  simp [isValid, h1, hgen]

/-- A history with recycling disabled by the minimum of free indices. -/
example : ∃ s, run (EntMgr.empty, []) [.create, .create, .destroy 0, .create, .destroy 1] = some s ∧
    s.2 = [2] ∧ s.1.gens = [1, 1, 0] := ⟨_, rfl, rfl, rfl⟩

/-- **C13.** In every history that uses fewer than 2^24 indices the next creation succeeds and its handle
differs from all alive handles. -/
theorem entity_create_fresh (ops : List Op) (m : EntMgr) (alive : List Nat)
    (h : run (EntMgr.empty, []) ops = some (m, alive)) (hsize : m.gens.length < 2 ^ 24) :
    ∃ m' id, m.create = some (m', id) ∧ id ∉ alive ∧ m'.isValid id = some true := by
  have hi : Inv m alive := inv_run (s := (EntMgr.empty, [])) inv_empty h (by simp only; omega)
  obtain ⟨m', i, g, h1, h2, h3, h4, h5, _, _⟩ := create_spec hi hsize
  refine ⟨m', _, h1, ?_, ?_⟩
  · intro hh
    apply h5
    have := List.mem_map_of_mem (f := entityIndex) hh
    rwa [entityIndex_mk h2 h3] at this
  · simp [isValid, entityIndex_mk h2 h3, entityGeneration_mk h2 h3, h4]

/-- After the destruction of an alive handle, the lap counter of its index starts. -/
theorem lap_start (pre : List Op) (id : Nat) (s1 s2 : EntMgr × List Nat)
    (h1 : run (EntMgr.empty, []) pre = some s1) (h2 : step s1 (.destroy id) = some s2)
    (hsize : s2.1.gens.length ≤ 2 ^ 24) :
    Inv s2.1 s2.2 ∧ Lap s2.1 (entityIndex id) (entityGeneration id) 1 1 ∧ entityGeneration id < 256 ∧
      entityIndex id < 2 ^ 24 ∧ id = mkEntity (entityIndex id) (entityGeneration id) := by
  have hle := gens_le_step h2
  have hi : Inv s1.1 s1.2 := inv_run (s := (EntMgr.empty, [])) inv_empty h1 (by omega)
  simp only [step] at h2
  split_ifs at h2 with ha
  obtain ⟨g, e1, e2, e3, e4, e5⟩ := destroy_spec hi ha
  simp only [e3] at h2
  cases h2
  have hlt : entityIndex id < s1.1.gens.length := (List.getElem?_eq_some_iff.1 e1).1
  have hb : g < 256 := by
    have := (List.getElem?_eq_some_iff.1 e1).2
    rw [← this]; exact hi.byte _ (List.getElem_mem _)
  have hgen : entityGeneration id = g := by
    rw [e2]; exact entityGeneration_mk (by omega) hb
  refine ⟨e5, ⟨le_refl _, ?_, ?_⟩, by rw [hgen]; exact hb, by omega, by rw [hgen]; exact e2⟩
  · show (s1.1.gens.set (entityIndex id) _)[entityIndex id]? = _
    rw [List.getElem?_set_self hlt, hgen]
  · left
    exact ⟨s1.1.free, [], rfl, by simp⟩

/-- **C13.** The handle of a destroyed entity is reported invalid until at least 255·1025 further entities have been
destroyed. -/
theorem entity_destroyed_handle_invalid (pre post : List Op) (id : Nat) (m : EntMgr) (alive : List Nat)
    (h : run (EntMgr.empty, []) (pre ++ .destroy id :: post) = some (m, alive)) (hsize : m.gens.length ≤ 2 ^ 24)
    (hfew : destructions post < 255 * 1025) : m.isValid id = some false := by
  rw [run_append] at h
  obtain ⟨s1, h1, h2⟩ := Option.bind_eq_some_iff.1 h
  simp only [run, Option.bind_eq_bind, Option.bind_eq_some_iff] at h2
  obtain ⟨s2, h2, h3⟩ := h2
  have hle := gens_le_run h3
  obtain ⟨hi, hl, hg, hx, he⟩ := lap_start pre id s1 s2 h1 h2 (le_trans hle hsize)
  obtain ⟨k, hk⟩ := lap_run hi hl hsize h3
  have hpos := hk.pos
  have hk256 : k < 256 := by
    rcases hk.free with ⟨A, B, _, hn⟩ | ⟨_, hn⟩
    · omega
    · omega
  have hgen := hk.gen
  simp only [isValid, hgen]
  have : (entityGeneration id + k) % 256 ≠ entityGeneration id := by omega
  simp [this]

/-- **C13.** No later creation returns the handle of a destroyed entity before at least 256·1025 entities
(counting that one) have been destroyed - the documented lower bound is 256·1024. -/
theorem entity_handle_reuse_distance (pre post : List Op) (id : Nat) (m m' : EntMgr) (alive : List Nat)
    (h : run (EntMgr.empty, []) (pre ++ .destroy id :: post) = some (m, alive))
    (hsize : m.gens.length < 2 ^ 24) (hre : m.create = some (m', id)) :
    256 * 1025 ≤ destructions (.destroy id :: post) := by
  have hinv : Inv m alive := inv_run (s := (EntMgr.empty, [])) inv_empty h (by simp only; omega)
  rw [run_append] at h
  obtain ⟨s1, h1, h2⟩ := Option.bind_eq_some_iff.1 h
  simp only [run, Option.bind_eq_bind, Option.bind_eq_some_iff] at h2
  obtain ⟨s2, h2, h3⟩ := h2
  have hle := gens_le_run h3
  obtain ⟨hi, hl, hg, hx, he⟩ := lap_start pre id s1 s2 h1 h2 (le_trans hle (le_of_lt hsize))
  obtain ⟨k, hk⟩ := lap_run hi hl (le_of_lt hsize) h3
  obtain ⟨m2, i, g, c1, c2, c3, c4, c5, c6, c7⟩ := create_spec hinv hsize
  rw [hre] at c1
  have hpair := Option.some.inj c1
  simp only [Prod.mk.injEq] at hpair
  obtain ⟨rfl, hid⟩ := hpair
  have hi' : entityIndex id = i := by rw [hid]; exact entityIndex_mk c2 c3
  have hg' : entityGeneration id = g := by rw [hid]; exact entityGeneration_mk c2 c3
  have hdes : destructions (.destroy id :: post) = 1 + destructions post := by
    simp [destructions, List.countP_cons]; omega
  rw [hdes]
  have hkgen := hk.gen
  rw [hi', hg'] at hkgen
  rcases c7 with ⟨d1, d2, d3⟩ | ⟨_, d2, _, _⟩
  · rw [d3, hkgen] at c4
    have := Option.some.inj c4
    have hpos := hk.pos
    have hk256 : 256 ≤ k := by omega
    rcases hk.free with ⟨A, B, hAB, hn⟩ | ⟨hnf, _⟩
    · have hA : A = [] := by
        cases A with
        | nil => rfl
        | cons a A =>
          exfalso
          have hnd := (List.nodup_append.1 hinv.nodup).1
          rw [hi', d1] at hAB
          simp only [List.cons_append, List.cons.injEq] at hAB
          rw [d1, hAB.2] at hnd
          simp at hnd
      rw [hA, hi', List.nil_append, d1] at hAB
      simp only [List.cons.injEq, true_and] at hAB
      rw [d1, hAB] at d2
      simp at d2
      omega
    · exfalso
      apply hnf
      rw [hi', d1]; simp
  · exfalso
    have hlt : i < m.gens.length := (List.getElem?_eq_some_iff.1 hkgen).1
    omega

/-- The hypotheses of the three theorems are met, e.g. right after a destruction. -/
example : ∃ s, run (EntMgr.empty, []) ([.create, .create] ++ .destroy 1 :: [.create]) = some s ∧
    s.1.isValid 1 = some false ∧ s.2 = [2, 0] := ⟨_, rfl, rfl, rfl⟩

/-- An index really is recycled once 1025 indices are free. -/
example : (EntMgr.create ⟨List.replicate 1030 3, List.range 1025⟩).map Prod.snd = some (mkEntity 0 3) := by decide +kernel

end RP3D
