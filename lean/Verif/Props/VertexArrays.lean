import Verif.Mesh.VertexArrays
import Mathlib.Tactic.NormNum
import Mathlib.Tactic.Linarith
import Mathlib.Data.List.OfFn
import Mathlib.Algebra.Order.Ring.Rat

/-! C125: the classes `VertexArray`, `TriangleVertexArray` and `PolygonVertexArray` read exactly what the user has put into memory, as long as
no offset reaches 4 GiB. -/

namespace RP3D
namespace VertexArrays

/-! ### What it means that an array is in memory -/

namespace Spec

/-- The bytes of the list are in memory, beginning at the address. -/
def At (mem : Mem) (a : Nat) (l : List Nat) : Prop := ∀ i b, l[i]? = some b → mem (a + i) = some b

/-- The bytes stand for this number. -/
def Num {K : Type} (M : Meaning K) : NumType → K → List Nat → Prop
  | .float, x, l => l.length = 4 ∧ M.float l = x
  | .double, x, l => l.length = 8 ∧ M.double l = x

/-- The bytes of an unsigned integer, the least significant first. -/
def intBytes (size n : Nat) : List Nat := (List.range size).map fun i => n / 256 ^ i % 256

/-- `sizeof` of the number types. -/
def numSize : NumType → Nat
  | .float => 4
  | .double => 8

/-- `sizeof` of the index types. -/
def indexSize : IndexType → Nat
  | .int => 4
  | .short => 2

/-- The vectors are in memory, `stride` bytes apart, each with its three numbers one after the other. -/
structure Vectors {K : Type} (M : Meaning K) (mem : Mem) (start stride : Nat) (t : NumType) (l : List (V3 K)) : Prop where
  aligned : start % numSize t = 0 ∧ stride % numSize t = 0
  here : ∀ i v, l[i]? = some v → ∃ bx b_y bz, Num M t v.x bx ∧ Num M t v.y b_y ∧ Num M t v.z bz ∧
    At mem (start + i * stride) (bx ++ b_y ++ bz)

/-- The tuples of indices are in memory, `stride` bytes apart, the indices of a tuple one after the other. -/
structure Tuples (mem : Mem) (start stride : Nat) (t : IndexType) (l : List (List Nat)) : Prop where
  aligned : start % indexSize t = 0 ∧ stride % indexSize t = 0
  fits : ∀ s ∈ l, ∀ n ∈ s, n < 256 ^ indexSize t
  here : ∀ i s, l[i]? = some s → At mem (start + i * stride) (s.flatMap (intBytes (indexSize t)))

end Spec

open Spec

/-! ### Reading -/

theorem bytes_at {mem : Mem} : ∀ {l : List Nat} {a : Nat}, At mem a l → bytes mem a l.length = some l
  | [], _, _ => rfl
  | b :: l, a, h => by
    have h0 : mem a = some b := by simpa using h 0 b rfl
    have h1 : At mem (a + 1) l := fun i c hc => by
      have := h (i + 1) c (by simpa using hc)
      rwa [show a + 1 + i = a + (i + 1) by omega]
    simp [bytes, h0, bytes_at h1]

theorem at_append {mem : Mem} {a : Nat} {l m : List Nat} (h : At mem a (l ++ m)) : At mem a l ∧ At mem (a + l.length) m := by
  refine ⟨fun i b hb => h i b ?_, fun i b hb => ?_⟩
  · rw [List.getElem?_append_left (List.getElem?_eq_some_iff.1 hb).1, hb]
  · have := h (l.length + i) b (by rw [List.getElem?_append_right (by omega)]; simpa using hb)
    rwa [show a + l.length + i = a + (l.length + i) by omega]

theorem littleEndian_bytes : ∀ (size n : Nat), littleEndian (intBytes size n) = n % 256 ^ size
  | 0, n => by simp [intBytes, littleEndian, Nat.mod_one]
  | size + 1, n => by
    have e : intBytes (size + 1) n = n % 256 :: intBytes size (n / 256) := by
      unfold intBytes
      rw [List.range_succ_eq_map]
      simp only [List.map_cons, List.map_map, pow_zero, Nat.div_one, List.cons.injEq, true_and]
      apply List.map_congr_left
      intro i _
      simp only [Function.comp, Nat.div_div_eq_div_mul, pow_succ, mul_comm]
    rw [e, littleEndian, littleEndian_bytes size, pow_succ, mul_comm (256 ^ size) 256, Nat.mod_mul]

theorem load_at {mem : Mem} {a n : Nat} {l : List Nat} (h : At mem a l) (hn : l.length = n) (ha : a % n = 0) :
    load mem a n = some l := by
  subst hn
  simp [load, ha, bytes_at h]

variable {K : Type} {M : Meaning K} {mem : Mem}

theorem number_at {t : NumType} {a k : Nat} {x : K} {l : List Nat} (hl : Num M t x l) (h : At mem (a + k * numSize t) l)
    (ha : a % numSize t = 0) : number M mem t a k = some x := by
  have e : (a + k * numSize t) % numSize t = 0 := by simp [ha]
  cases t
  · simp only [numSize] at h e; simp [number, load_at h hl.1 e, hl.2]
  · simp only [numSize] at h e; simp [number, load_at h hl.1 e, hl.2]

theorem num_length {t : NumType} {x : K} {l : List Nat} (h : Num M t x l) : l.length = numSize t := by
  cases t <;> exact h.1

theorem vectors_read {start stride : Nat} {t : NumType} {l : List (V3 K)} (h : Vectors M mem start stride t l) {i : Nat} {v : V3 K}
    (hi : l[i]? = some v) : vector M mem t (start + i * stride) = some v := by
  obtain ⟨bx, b_y, bz, hx, hy, hz, hat⟩ := h.here i v hi
  have ha : (start + i * stride) % numSize t = 0 := by
    rw [Nat.add_mod, Nat.mul_mod, h.aligned.1, h.aligned.2]; simp
  obtain ⟨h1, h3⟩ := at_append hat
  obtain ⟨h1, h2⟩ := at_append h1
  have n1 := number_at (k := 0) hx (by simpa using h1) ha
  have n2 := number_at (k := 1) hy (by rw [num_length hx] at h2; simpa using h2) ha
  have n3 := number_at (k := 2) hz (by
    rw [List.length_append, num_length hx, num_length hy] at h3
    rwa [show 2 * numSize t = numSize t + numSize t by omega]) ha
  simp [vector, n1, n2, n3]

theorem intBytes_length (size n : Nat) : (intBytes size n).length = size := by simp [intBytes]

theorem index_at {t : IndexType} {a k n : Nat} (h : At mem (a + k * indexSize t) (intBytes (indexSize t) n)) (ha : a % indexSize t = 0)
    (hn : n < 256 ^ indexSize t) : index mem t a k = some n := by
  have e : (a + k * indexSize t) % indexSize t = 0 := by simp [ha]
  cases t
  · simp only [indexSize] at h e hn
    simp only [index, load_at h (intBytes_length ..) e, Option.map_some, littleEndian_bytes, Nat.mod_eq_of_lt hn]
  · simp only [indexSize] at h e hn
    simp only [index, load_at h (intBytes_length ..) e, Option.map_some, littleEndian_bytes, Nat.mod_eq_of_lt hn]

theorem flat_at {size : Nat} : ∀ {s : List Nat} {a : Nat}, At mem a (s.flatMap (intBytes size)) → ∀ {k n : Nat}, s[k]? = some n →
    At mem (a + k * size) (intBytes size n)
  | [], _, _, _, _, hk => by simp at hk
  | m :: s, a, h, k, n, hk => by
    rw [List.flatMap_cons] at h
    obtain ⟨h1, h2⟩ := at_append h
    rw [intBytes_length] at h2
    cases k with
    | zero => simp at hk; subst hk; simpa using h1
    | succ k =>
      have := flat_at h2 (k := k) (n := n) (by simpa using hk)
      rwa [show a + (k + 1) * size = a + size + k * size by rw [Nat.succ_mul]; omega]

theorem tuples_read {start stride : Nat} {t : IndexType} {l : List (List Nat)} (h : Tuples mem start stride t l) {i k n : Nat}
    {s : List Nat} (hi : l[i]? = some s) (hk : s[k]? = some n) : index mem t (start + i * stride) k = some n := by
  refine index_at (flat_at (h.here i s hi) hk) ?_ (h.fits s (List.mem_of_getElem? hi) n (List.mem_of_getElem? hk))
  rw [Nat.add_mod, Nat.mul_mod, h.aligned.1, h.aligned.2]; simp

theorem mul32_small {a b : Nat} (h : a * b < 2 ^ 32) : mul32 a b = a * b := Nat.mod_eq_of_lt h

theorem lt_of_getElem? {α : Type} {l : List α} {i : Nat} {x : α} (h : l[i]? = some x) : i < l.length :=
  (List.getElem?_eq_some_iff.1 h).1

/-! ### The property -/

/-- **C125**, `VertexArray`: a vertex that begins within the first 4 GiB is read as the user has stored it. -/
theorem vertexArray_exact (v : VArray) {l : List (V3 K)} (hl : Vectors M mem v.start v.stride v.type l) {i : Nat} {x : V3 K}
    (hi : l[i]? = some x) (hs : i * v.stride < 2 ^ 32) : v.getVertex M mem i = some x := by
  rw [VArray.getVertex, mul32_small hs]; exact vectors_read hl hi

/-- **C125**, `TriangleVertexArray`: the same for vertices, -/
theorem triangleArray_vertex (v : TArray) {l : List (V3 K)} (hn : l.length = v.nbVertices)
    (hl : Vectors M mem v.verticesStart v.verticesStride v.vertexType l) {i : Nat} {x : V3 K} (hi : l[i]? = some x)
    (hs : i * v.verticesStride < 2 ^ 32) : v.getVertex M mem i = some x := by
  rw [TArray.getVertex, if_pos (hn ▸ lt_of_getElem? hi), mul32_small hs]; exact vectors_read hl hi

/-- normals -/
theorem triangleArray_normal (v : TArray) {start stride : Nat} {t : NumType} (hv : v.normals = some (start, stride, t)) {l : List (V3 K)}
    (hn : l.length = v.nbVertices) (hl : Vectors M mem start stride t l) {i : Nat} {x : V3 K} (hi : l[i]? = some x)
    (hs : i * stride < 2 ^ 32) : v.getVertexNormal M mem i = some x := by
  rw [TArray.getVertexNormal, if_pos (hn ▸ lt_of_getElem? hi), hv]
  simp only [mul32_small hs]; exact vectors_read hl hi

/-- and triangles. -/
theorem triangleArray_triangle (v : TArray) {l : List (Nat × Nat × Nat)} (hn : l.length = v.nbTriangles)
    (hl : Tuples mem v.indicesStart v.indicesStride v.indexType (l.map fun t => [t.1, t.2.1, t.2.2])) {i : Nat} {x : Nat × Nat × Nat}
    (hi : l[i]? = some x) (hs : i * v.indicesStride < 2 ^ 32) : v.getTriangleVerticesIndices mem i = some x := by
  have e : (l.map fun t => [t.1, t.2.1, t.2.2])[i]? = some [x.1, x.2.1, x.2.2] := by simp [hi]
  rw [TArray.getTriangleVerticesIndices, if_pos (hn ▸ lt_of_getElem? hi)]
  simp [mul32_small hs, tuples_read hl e (k := 0) rfl, tuples_read hl e (k := 1) rfl, tuples_read hl e (k := 2) rfl]

/-- **C125**, `PolygonVertexArray`: all vertices -/
theorem polygonArray_vertices (v : PArray) {l : List (V3 K)} (hn : l.length = v.nbVertices)
    (hl : Vectors M mem v.verticesStart v.verticesStride v.vertexType l) (hs : v.nbVertices * v.verticesStride ≤ 2 ^ 32)
    (h0 : 0 < v.verticesStride) : v.vertices M mem = some l := by
  have key : ∀ i (h : i < l.length), v.getVertex M mem i = some l[i] := fun i h => by
    have : i * v.verticesStride < 2 ^ 32 :=
      lt_of_lt_of_le (Nat.mul_lt_mul_of_pos_right (hn ▸ h) h0) hs
    rw [PArray.getVertex, mul32_small this]
    exact vectors_read hl (List.getElem?_eq_getElem h)
  rw [PArray.vertices, ← hn]
  have gen : ∀ m ≤ l.length, (List.range m).mapM (fun i => v.getVertex M mem i) = some (l.take m) := by
    intro m
    induction m with
    | zero => intro _; simp
    | succ m ih =>
      intro hm
      rw [List.range_succ, List.mapM_append, ih (by omega)]
      have hlt : m < l.length := by omega
      have hk := key m hlt
      have e : l.take (m + 1) = l.take m ++ [l[m]] := by simp
      rw [e]
      simp [hk]
  rw [gen l.length le_rfl, List.take_length]

/-- and the indices of all faces: those that begin at `indexBase` in the user's array. -/
theorem polygonArray_face (v : PArray) {l : List Nat} (hl : Tuples mem v.indicesStart v.indicesStride v.indexType (l.map fun n => [n]))
    {f nb base : Nat} (hf : v.faces[f]? = some (nb, base)) (hb : base + nb ≤ l.length) (h0 : 0 < v.indicesStride)
    (hs : l.length * v.indicesStride ≤ 2 ^ 32) : v.faceVertices mem f = some ((l.drop base).take nb) := by
  have small : l.length ≤ 2 ^ 32 := le_trans (Nat.le_mul_of_pos_right _ h0) hs
  have key : ∀ k, k < nb → ∃ h : base + k < l.length, v.getVertexIndexInFace mem f k = some l[base + k] := fun k hk => by
    have hlt : base + k < l.length := by omega
    refine ⟨hlt, ?_⟩
    have e : (l.map fun n => [n])[base + k]? = some [l[base + k]] := by simp [hlt]
    have m1 : add32 base k = base + k := Nat.mod_eq_of_lt (lt_of_lt_of_le hlt small)
    have m2 : mul32 (base + k) v.indicesStride = (base + k) * v.indicesStride :=
      mul32_small (lt_of_lt_of_le (Nat.mul_lt_mul_of_pos_right hlt h0) hs)
    simp [PArray.getVertexIndexInFace, hf, hk, m1, m2, tuples_read hl e (k := 0) rfl]
  have gen : ∀ m ≤ nb, (List.range m).mapM (fun k => v.getVertexIndexInFace mem f k) = some ((l.drop base).take m) := by
    intro m
    induction m with
    | zero => intro _; simp
    | succ m ih =>
      intro hm
      obtain ⟨h1, h2⟩ := key m (by omega)
      rw [List.range_succ, List.mapM_append, ih (by omega)]
      simp [h2, List.take_add_one, List.getElem?_drop, List.getElem?_eq_getElem h1]
  simp [PArray.faceVertices, hf, gen nb le_rfl]

/-- What the triangle mesh of C82 is made from: with these arrays in memory, the accessors return what `TriMesh.User` holds. -/
theorem triangleArray_user [Field K] (v : TArray) {verts : List (V3 K)} {tris : List (Nat × Nat × Nat)} (hn : verts.length = v.nbVertices)
    (hm : tris.length = v.nbTriangles) (hv : Vectors M mem v.verticesStart v.verticesStride v.vertexType verts)
    (ht : Tuples mem v.indicesStart v.indicesStride v.indexType (tris.map fun t => [t.1, t.2.1, t.2.2]))
    (s1 : v.nbVertices * v.verticesStride ≤ 2 ^ 32) (s2 : v.nbTriangles * v.indicesStride ≤ 2 ^ 32) (p1 : 0 < v.verticesStride)
    (p2 : 0 < v.indicesStride) :
    let u : TriMesh.User K := ⟨v.nbVertices, fun i => verts.getD i ⟨0, 0, 0⟩, none, tris⟩
    (∀ i < u.nv, v.getVertex M mem i = some (u.vert i)) ∧
      ∀ i (h : i < u.tris.length), v.getTriangleVerticesIndices mem i = some u.tris[i] := by
  refine ⟨fun i hi => ?_, fun i hi => ?_⟩
  · have hi' : i < verts.length := hn ▸ hi
    refine triangleArray_vertex v hn hv ?_ (lt_of_lt_of_le (Nat.mul_lt_mul_of_pos_right hi p1) s1)
    simp [List.getElem?_eq_getElem hi']
  · have hi' : i < tris.length := hi
    exact triangleArray_triangle v hm ht (List.getElem?_eq_getElem hi')
      (lt_of_lt_of_le (Nat.mul_lt_mul_of_pos_right (hm ▸ hi') p2) s2)

/-! ### The property is violated for offsets of 4 GiB and more -/

/-- Two vertices whose offsets differ by a multiple of 4 GiB are the same for the code. -/
theorem vertexArray_wraps (v : VArray) (M : Meaning K) (mem : Mem) {i j : Nat} (h : i * v.stride % 2 ^ 32 = j * v.stride % 2 ^ 32) :
    v.getVertex M mem i = v.getVertex M mem j := by
  simp only [VArray.getVertex, mul32, h]

/-- The number of a `float` according to IEEE 754 (finite numbers). -/
def ieeeFloat (l : List Nat) : ℚ :=
  let n := littleEndian l
  let e := n / 2 ^ 23 % 256
  let m : ℚ := (n % 2 ^ 23 : Nat)
  (if n / 2 ^ 31 = 0 then 1 else -1) * (if e = 0 then m / 2 ^ 149 else (2 ^ 23 + m) * 2 ^ e / 2 ^ 150)

/-- The meaning of bytes for the witness (there are no `double`s in it). -/
def ieee : Meaning ℚ := ⟨ieeeFloat, fun _ => 0⟩

example : ieeeFloat [0, 0, 128, 63] = 1 := by decide +kernel
example : ieeeFloat [0, 0, 32, 193] = -10 := by decide +kernel

/-- 2^28 vertices at the origin and one at (1, 1, 1), 16 bytes apart. -/
def bigMem : Mem := fun a => if a < 2 ^ 32 then some 0 else if a < 2 ^ 32 + 12 then some ([0, 0, 128, 63].getD (a % 4) 0) else none

/-- The array with these vertices. -/
def bigArray : VArray := ⟨2 ^ 28 + 1, 0, 16, .float⟩

/-- The vertices of the array. -/
def bigVertices : List (V3 ℚ) := List.replicate (2 ^ 28) ⟨0, 0, 0⟩ ++ [⟨1, 1, 1⟩]

theorem big_in_memory : Vectors ieee bigMem bigArray.start bigArray.stride bigArray.type bigVertices := by
  refine ⟨⟨rfl, rfl⟩, fun i v hi => ?_⟩
  have hlen : i < 2 ^ 28 + 1 := by
    have := lt_of_getElem? hi
    rw [bigVertices, List.length_append, List.length_replicate] at this
    exact this
  by_cases h : i < 2 ^ 28
  · have hv : v = ⟨0, 0, 0⟩ := by
      rw [bigVertices, List.getElem?_append_left (by rw [List.length_replicate]; exact h), List.getElem?_replicate, if_pos h] at hi
      exact (Option.some.inj hi).symm
    subst hv
    have z : Num ieee NumType.float (0 : ℚ) [0, 0, 0, 0] := ⟨rfl, by decide +kernel⟩
    refine ⟨[0, 0, 0, 0], [0, 0, 0, 0], [0, 0, 0, 0], z, z, z, fun k b hb => ?_⟩
    have hk : k < 12 := by simpa using lt_of_getElem? hb
    have hb0 : b = 0 := by
      have := List.mem_of_getElem? hb
      simpa using this
    have : 0 + i * 16 + k < 2 ^ 32 := by omega
    rw [hb0]
    exact if_pos this
  · have hi' : i = 2 ^ 28 := by omega
    subst hi'
    have hv : v = ⟨1, 1, 1⟩ := by
      rw [bigVertices, List.getElem?_append_right (by rw [List.length_replicate]), List.length_replicate, Nat.sub_self] at hi
      exact (Option.some.inj hi).symm
    subst hv
    have o : Num ieee NumType.float (1 : ℚ) [0, 0, 128, 63] := ⟨rfl, by decide +kernel⟩
    refine ⟨[0, 0, 128, 63], [0, 0, 128, 63], [0, 0, 128, 63], o, o, o, ?_⟩
    have all : ∀ k < 12, ∀ b, ([0, 0, 128, 63] ++ [0, 0, 128, 63] ++ [0, 0, 128, 63] : List Nat)[k]? = some b →
        bigMem (2 ^ 32 + k) = some b := by
      intro k hk
      have : ∀ k < 12, ([0, 0, 128, 63] ++ [0, 0, 128, 63] ++ [0, 0, 128, 63] : List Nat)[k]? = bigMem (2 ^ 32 + k) := by decide +kernel
      intro b hb
      rw [← this k hk, hb]
    intro k b hb
    have hk : k < 12 := by simpa using lt_of_getElem? hb
    have := all k hk b hb
    rwa [show bigArray.start + 2 ^ 28 * bigArray.stride + k = 2 ^ 32 + k from by simp [bigArray]]

/-- **C125 does not hold for arrays of more than 4 GiB**: the last vertex of this array is at (1, 1, 1), but the first is read for it. -/
theorem big_array_wrong : bigVertices[2 ^ 28]? = some ⟨1, 1, 1⟩ ∧ 2 ^ 28 < bigArray.nbVertices ∧
    bigArray.getVertex ieee bigMem (2 ^ 28) = some ⟨0, 0, 0⟩ := by
  refine ⟨?_, by simp [bigArray], by decide +kernel⟩
  rw [bigVertices, List.getElem?_append_right (by rw [List.length_replicate]), List.length_replicate, Nat.sub_self]
  rfl

/-! ### Examples -/

/-- Two vertices with a stride of 16 bytes at address 8 and the triangle (1, 0, 258) as `short` at address 64. -/
def smallMem : Mem := fun a =>
  if 8 ≤ a ∧ a < 24 then some ([0, 0, 128, 63, 0, 0, 32, 193, 0, 0, 0, 0, 9, 9, 9, 9].getD (a - 8) 0)
  else if 24 ≤ a ∧ a < 36 then some ([0, 0, 0, 0, 0, 0, 128, 63, 0, 0, 128, 63].getD (a - 24) 0)
  else if 64 ≤ a ∧ a < 70 then some ([1, 0, 0, 0, 2, 1].getD (a - 64) 0)
  else none

/-- Vertices and triangle of this memory. -/
def smallArray : TArray := ⟨2, 8, 16, .float, none, 1, 64, 6, .short⟩

theorem smallMem_vectors : Vectors ieee smallMem 8 16 .float [⟨1, -10, 0⟩, ⟨0, 1, 1⟩] := by
  refine ⟨⟨rfl, rfl⟩, fun i v hi => ?_⟩
  have h2 : i < 2 := by simpa using lt_of_getElem? hi
  have o : Num ieee NumType.float (1 : ℚ) [0, 0, 128, 63] := ⟨rfl, by decide +kernel⟩
  have z : Num ieee NumType.float (0 : ℚ) [0, 0, 0, 0] := ⟨rfl, by decide +kernel⟩
  have m : Num ieee NumType.float (-10 : ℚ) [0, 0, 32, 193] := ⟨rfl, by decide +kernel⟩
  rcases (show i = 0 ∨ i = 1 by omega) with rfl | rfl
  · obtain rfl : _ = v := Option.some.inj hi
    refine ⟨_, _, _, o, m, z, fun k b hb => ?_⟩
    have hk : k < 12 := by simpa using lt_of_getElem? hb
    have : ∀ k < 12, ([0, 0, 128, 63] ++ [0, 0, 32, 193] ++ [0, 0, 0, 0] : List Nat)[k]? = smallMem (8 + 0 * 16 + k) := by decide +kernel
    rw [← this k hk, hb]
  · obtain rfl : _ = v := Option.some.inj hi
    refine ⟨_, _, _, z, o, o, fun k b hb => ?_⟩
    have hk : k < 12 := by simpa using lt_of_getElem? hb
    have : ∀ k < 12, ([0, 0, 0, 0] ++ [0, 0, 128, 63] ++ [0, 0, 128, 63] : List Nat)[k]? = smallMem (8 + 1 * 16 + k) := by decide +kernel
    rw [← this k hk, hb]

theorem smallMem_tuples : Tuples smallMem 64 6 .short [[1, 0, 258]] := by
  refine ⟨⟨rfl, rfl⟩, by decide, fun i s hi => ?_⟩
  have h2 : i < 1 := by simpa using lt_of_getElem? hi
  obtain rfl : i = 0 := by omega
  obtain rfl : _ = s := Option.some.inj hi
  intro k b hb
  have hk : k < 6 := by simpa [intBytes, indexSize] using lt_of_getElem? hb
  have : ∀ k < 6, ([1, 0, 258].flatMap (intBytes (indexSize .short)))[k]? = smallMem (64 + 0 * 6 + k) := by decide +kernel
  rw [← this k hk, hb]

/-- The hypotheses of the theorems are met: vertex 1 and the triangle are read back. -/
example : smallArray.getVertex ieee smallMem 1 = some ⟨0, 1, 1⟩ :=
  triangleArray_vertex smallArray (l := [⟨1, -10, 0⟩, ⟨0, 1, 1⟩]) rfl smallMem_vectors rfl (by decide)

example : smallArray.getTriangleVerticesIndices smallMem 0 = some (1, 0, 258) :=
  triangleArray_triangle smallArray (l := [(1, 0, 258)]) rfl smallMem_tuples rfl (by decide)

example : (⟨1, 8, 16, .float⟩ : VArray).getVertex ieee smallMem 1 = some ⟨0, 1, 1⟩ :=
  vertexArray_exact ⟨1, 8, 16, .float⟩ smallMem_vectors rfl (by decide)

example : ({ smallArray with normals := some (8, 16, .float) } : TArray).getVertexNormal ieee smallMem 1 = some ⟨0, 1, 1⟩ :=
  triangleArray_normal { smallArray with normals := some (8, 16, .float) } rfl (l := [⟨1, -10, 0⟩, ⟨0, 1, 1⟩]) rfl smallMem_vectors rfl
    (by decide)

example := triangleArray_user smallArray (M := ieee) (mem := smallMem) (verts := [⟨1, -10, 0⟩, ⟨0, 1, 1⟩]) (tris := [(1, 0, 258)]) rfl rfl
  smallMem_vectors smallMem_tuples (by decide) (by decide) (by decide) (by decide)

/-- A polygon array with these vertices and the indices 1, 0, 2, 1 as `int` at address 64; the face begins at the second index. -/
def polyMem : Mem := fun a => if 64 ≤ a ∧ a < 80 then some ([1, 0, 0, 0, 0, 0, 0, 0, 2, 0, 0, 0, 1, 0, 0, 0].getD (a - 64) 0) else smallMem a

/-- Vertices, indices and the face. -/
def polyArray : PArray := ⟨2, 8, 16, 64, 4, [(3, 1)], .float, .int⟩

theorem polyMem_vectors : Vectors ieee polyMem 8 16 .float [⟨1, -10, 0⟩, ⟨0, 1, 1⟩] := by
  refine ⟨⟨rfl, rfl⟩, fun i v hi => ?_⟩
  obtain ⟨bx, b_y, bz, hx, hy, hz, hat⟩ := smallMem_vectors.here i v hi
  refine ⟨bx, b_y, bz, hx, hy, hz, fun k b hb => ?_⟩
  have h2 : i < 2 := by simpa using lt_of_getElem? hi
  have hk : k < 12 := by
    have := lt_of_getElem? hb
    rw [List.length_append, List.length_append, hx.1, hy.1, hz.1] at this
    omega
  rw [← hat k b hb, polyMem, if_neg (by omega)]

theorem polyMem_tuples : Tuples polyMem 64 4 .int ([1, 0, 2, 1].map fun n => [n]) := by
  refine ⟨⟨rfl, rfl⟩, by decide, fun i s hi => ?_⟩
  have h2 : i < 4 := by simpa using lt_of_getElem? hi
  have all : ∀ i < 4, ∀ k < 4, ((([1, 0, 2, 1].map fun n => [n])[i]?.getD []).flatMap (intBytes (indexSize .int)))[k]? =
      polyMem (64 + i * 4 + k) := by decide +kernel
  have len : ∀ i < 4, ((([1, 0, 2, 1].map fun n => [n])[i]?.getD []).flatMap (intBytes (indexSize .int))).length = 4 := by decide +kernel
  intro k b hb
  have l := len i h2
  have a := all i h2 k
  rw [hi, Option.getD_some] at l a
  rw [← a (l ▸ lt_of_getElem? hb), hb]

example : polyArray.vertices ieee polyMem = some [⟨1, -10, 0⟩, ⟨0, 1, 1⟩] :=
  polygonArray_vertices polyArray rfl polyMem_vectors (by decide) (by decide)

example : polyArray.faceVertices polyMem 0 = some [0, 2, 1] :=
  polygonArray_face polyArray (l := [1, 0, 2, 1]) (nb := 3) (base := 1) polyMem_tuples rfl (by decide) (by decide) (by decide)

end VertexArrays
end RP3D
