import Verif.Math.Rigid

/-!
Reading and writing the transforms as OpenGL matrices (src/mathematics/Transform.cpp:34-57).  The caller hands over a
pointer to decimals: the memory behind it is a function of the index, and the function changes the cells it writes.
Simplification: exact arithmetic; the square root is an argument.
-/

namespace RP3D

/-- One assignment `openglMatrix[i] = v` (Transform.cpp:47-56). -/
def poke {α : Type} (m : Nat → α) (i : Nat) (v : α) : Nat → α := fun j => if j = i then v else m j

namespace Trans
variable {α : Type} [Field α] [LinearOrder α]

/-- `getOpenGLMatrix` (Transform.cpp:45-57): the sixteen assignments in their order. -/
def toGL (t : Trans α) (mem : Nat → α) : Nat → α :=
  let m := t.ori.matrix
  let mem := poke mem 0 m.r0.x
  let mem := poke mem 1 m.r1.x
  let mem := poke mem 2 m.r2.x
  let mem := poke mem 3 0
  let mem := poke mem 4 m.r0.y
  let mem := poke mem 5 m.r1.y
  let mem := poke mem 6 m.r2.y
  let mem := poke mem 7 0
  let mem := poke mem 8 m.r0.z
  let mem := poke mem 9 m.r1.z
  let mem := poke mem 10 m.r2.z
  let mem := poke mem 11 0
  let mem := poke mem 12 t.pos.x
  let mem := poke mem 13 t.pos.y
  let mem := poke mem 14 t.pos.z
  poke mem 15 1

/-- `setFromOpenGL` (Transform.cpp:35-42): the transform that was there before is forgotten. -/
def ofGL (sqrt : α → α) (mem : Nat → α) : Trans α :=
  ⟨⟨mem 12, mem 13, mem 14⟩,
   Quat.ofMatrix sqrt (M3.of (mem 0) (mem 4) (mem 8) (mem 1) (mem 5) (mem 9) (mem 2) (mem 6) (mem 10))⟩

end Trans
end RP3D
