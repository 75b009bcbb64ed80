import Verif.Mesh.Triangles

/-! Model of the classes through which the user hands over vertices and indices: `VertexArray` (src/collision/VertexArray.cpp),
`TriangleVertexArray` (src/collision/TriangleVertexArray.cpp) and `PolygonVertexArray` (src/collision/PolygonVertexArray.cpp).

Memory is a partial function from addresses to bytes; `none`: a broken assertion, an access to memory that is not the user's, or an access
through a pointer that is not aligned. Addresses have more than 32 bits and do not overflow; `uint32` products and sums wrap. The bytes of
an integer are in little-endian order. What number the four or eight bytes of a `float` or `double` stand for is a parameter
(`float`, `double`); the conversion to `decimal` is part of it. -/

namespace RP3D
namespace VertexArrays

/-- The bytes that can be read. -/
abbrev Mem := Nat → Option Nat

/-- The `n` bytes at an address. -/
def bytes (mem : Mem) (a : Nat) : Nat → Option (List Nat)
  | 0 => some []
  | n + 1 => do
    let b ← mem a
    let l ← bytes mem (a + 1) n
    some (b :: l)

/-- An object of `n` bytes that has to be aligned to its size. -/
def load (mem : Mem) (a n : Nat) : Option (List Nat) := if a % n = 0 then bytes mem a n else none

/-- The value of an unsigned integer with these bytes. -/
def littleEndian : List Nat → Nat
  | [] => 0
  | b :: l => b + 256 * littleEndian l

/-- A product of two `uint32`. -/
def mul32 (a b : Nat) : Nat := a * b % 2 ^ 32

/-- A sum of two `uint32`. -/
def add32 (a b : Nat) : Nat := (a + b) % 2 ^ 32

/-- `DataType`, `VertexDataType`, `NormalDataType` (VertexArray.h:47, TriangleVertexArray.h:51-54, PolygonVertexArray.h:48). -/
inductive NumType where
  | float
  | double
deriving DecidableEq

/-- `IndexDataType` (TriangleVertexArray.h:57, PolygonVertexArray.h:51). -/
inductive IndexType where
  | int
  | short
deriving DecidableEq

/-- The numbers that the bytes of a `float` and of a `double` stand for. -/
structure Meaning (K : Type) where
  float : List Nat → K
  double : List Nat → K

variable {K : Type}

/-- `sizeof(float)`, `sizeof(double)`. -/
def NumType.size : NumType → Nat
  | .float => 4
  | .double => 8

/-- `sizeof(uint)`, `sizeof(ushort)`. -/
def IndexType.size : IndexType → Nat
  | .int => 4
  | .short => 2

/-- `decimal(vertices[k])` for the array that begins at `a`. -/
def number (M : Meaning K) (mem : Mem) (t : NumType) (a k : Nat) : Option K := match t with
  | .float => (load mem (a + k * 4) 4).map M.float
  | .double => (load mem (a + k * 8) 8).map M.double

/-- Three numbers: VertexArray.cpp:52-63, TriangleVertexArray.cpp:151-159 and 178-185, PolygonVertexArray.cpp:112-123. -/
def vector (M : Meaning K) (mem : Mem) (t : NumType) (a : Nat) : Option (V3 K) := do
  let x ← number M mem t a 0
  let y ← number M mem t a 1
  let z ← number M mem t a 2
  some ⟨x, y, z⟩

/-- The `k`-th index of the array that begins at `a`. -/
def index (mem : Mem) (t : IndexType) (a k : Nat) : Option Nat := match t with
  | .int => (load mem (a + k * 4) 4).map littleEndian
  | .short => (load mem (a + k * 2) 2).map littleEndian

/-- `VertexArray` (VertexArray.cpp:40-45). -/
structure VArray where
  nbVertices : Nat
  start : Nat
  stride : Nat
  type : NumType

/-- `VertexArray::getVertex` (VertexArray.cpp:48-69). There is no test of the index. -/
def VArray.getVertex (M : Meaning K) (mem : Mem) (v : VArray) (i : Nat) : Option (V3 K) :=
  vector M mem v.type (v.start + mul32 i v.stride)

/-- `TriangleVertexArray` (TriangleVertexArray.cpp:51-106); `normals`: start, stride and type of the normals, if there are any. -/
structure TArray where
  nbVertices : Nat
  verticesStart : Nat
  verticesStride : Nat
  vertexType : NumType
  normals : Option (Nat × Nat × NumType)
  nbTriangles : Nat
  indicesStart : Nat
  indicesStride : Nat
  indexType : IndexType

/-- `TriangleVertexArray::getTriangleVerticesIndices` (TriangleVertexArray.cpp:115-136). -/
def TArray.getTriangleVerticesIndices (mem : Mem) (v : TArray) (i : Nat) : Option (Nat × Nat × Nat) :=
  if i < v.nbTriangles then do
    let p := v.indicesStart + mul32 i v.indicesStride
    let a ← index mem v.indexType p 0
    let b ← index mem v.indexType p 1
    let c ← index mem v.indexType p 2
    some (a, b, c)
  else none

/-- `TriangleVertexArray::getVertex` (TriangleVertexArray.cpp:143-163). -/
def TArray.getVertex (M : Meaning K) (mem : Mem) (v : TArray) (i : Nat) : Option (V3 K) :=
  if i < v.nbVertices then vector M mem v.vertexType (v.verticesStart + mul32 i v.verticesStride) else none

/-- `TriangleVertexArray::getVertexNormal` (TriangleVertexArray.cpp:170-191); without normals the pointer is null. -/
def TArray.getVertexNormal (M : Meaning K) (mem : Mem) (v : TArray) (i : Nat) : Option (V3 K) :=
  if i < v.nbVertices then match v.normals with
    | none => none
    | some (start, stride, t) => vector M mem t (start + mul32 i stride)
  else none

/-- `PolygonVertexArray` (PolygonVertexArray.cpp:63-77); `faces`: `nbVertices` and `indexBase` of each face. -/
structure PArray where
  nbVertices : Nat
  verticesStart : Nat
  verticesStride : Nat
  indicesStart : Nat
  indicesStride : Nat
  faces : List (Nat × Nat)
  vertexType : NumType
  indexType : IndexType

/-- `PolygonVertexArray::getVertexIndexInFace` (PolygonVertexArray.cpp:83-105). -/
def PArray.getVertexIndexInFace (mem : Mem) (v : PArray) (f k : Nat) : Option Nat := do
  let face ← v.faces[f]?
  if k < face.1 then index mem v.indexType (v.indicesStart + mul32 (add32 face.2 k) v.indicesStride) 0 else none

/-- `PolygonVertexArray::getVertex` (PolygonVertexArray.cpp:108-129). There is no test of the index. -/
def PArray.getVertex (M : Meaning K) (mem : Mem) (v : PArray) (i : Nat) : Option (V3 K) :=
  vector M mem v.vertexType (v.verticesStart + mul32 i v.verticesStride)

/-- The indices of a face, as `ConvexMesh::createHalfEdgeStructure` asks for them (ConvexMesh.cpp:134-141). -/
def PArray.faceVertices (mem : Mem) (v : PArray) (f : Nat) : Option (List Nat) := do
  let face ← v.faces[f]?
  (List.range face.1).mapM fun k => v.getVertexIndexInFace mem f k

/-- The vertices, as `ConvexMesh::copyVertices` (ConvexMesh.cpp:89-92) asks for them. -/
def PArray.vertices (M : Meaning K) (mem : Mem) (v : PArray) : Option (List (V3 K)) :=
  (List.range v.nbVertices).mapM fun i => v.getVertex M mem i

end VertexArrays
end RP3D
