import Mathlib.Algebra.Order.Field.Basic
import Mathlib.Tactic.Ring
import Mathlib.Tactic.Linarith
import Mathlib.Tactic.FieldSimp

/-! Vectors with three coordinates (include/reactphysics3d/mathematics/Vector3.h:40-422). Coordinates are taken from an arbitrary type; the
arithmetic is exact (no rounding) when the type is a field. -/

namespace RP3D

@[ext] structure V3 (α : Type) where
  x : α
  y : α
  z : α
deriving DecidableEq, Repr

namespace V3
variable {α : Type}

/-- Coordinate access (Vector3.h `operator[]`). -/
def get (v : V3 α) : Fin 3 → α
  | 0 => v.x
  | 1 => v.y
  | 2 => v.z

/-- `operator+`, `operator-`, unary minus, multiplication with a number and componentwise (Vector3.h:312-355). -/
instance [Add α] : Add (V3 α) := ⟨fun a b => ⟨a.x + b.x, a.y + b.y, a.z + b.z⟩⟩
instance [Sub α] : Sub (V3 α) := ⟨fun a b => ⟨a.x - b.x, a.y - b.y, a.z - b.z⟩⟩
instance [Neg α] : Neg (V3 α) := ⟨fun a => ⟨-a.x, -a.y, -a.z⟩⟩
instance [Zero α] : Zero (V3 α) := ⟨⟨0, 0, 0⟩⟩
def smul [Mul α] (k : α) (a : V3 α) : V3 α := ⟨k * a.x, k * a.y, k * a.z⟩
/-- `dot`, `cross`, `lengthSquare` (Vector3.h:202-216). -/
def dot [Mul α] [Add α] (a b : V3 α) : α := a.x * b.x + a.y * b.y + a.z * b.z
def cross [Mul α] [Sub α] (a b : V3 α) : V3 α := ⟨a.y * b.z - a.z * b.y, a.z * b.x - a.x * b.z, a.x * b.y - a.y * b.x⟩
def lengthSq [Mul α] [Add α] (a : V3 α) : α := a.x * a.x + a.y * a.y + a.z * a.z

@[simp] theorem add_x [Add α] (a b : V3 α) : (a + b).x = a.x + b.x := rfl
@[simp] theorem add_y [Add α] (a b : V3 α) : (a + b).y = a.y + b.y := rfl
@[simp] theorem add_z [Add α] (a b : V3 α) : (a + b).z = a.z + b.z := rfl
@[simp] theorem sub_x [Sub α] (a b : V3 α) : (a - b).x = a.x - b.x := rfl
@[simp] theorem sub_y [Sub α] (a b : V3 α) : (a - b).y = a.y - b.y := rfl
@[simp] theorem sub_z [Sub α] (a b : V3 α) : (a - b).z = a.z - b.z := rfl
@[simp] theorem neg_x [Neg α] (a : V3 α) : (-a).x = -a.x := rfl
@[simp] theorem neg_y [Neg α] (a : V3 α) : (-a).y = -a.y := rfl
@[simp] theorem neg_z [Neg α] (a : V3 α) : (-a).z = -a.z := rfl
@[simp] theorem zero_x [Zero α] : (0 : V3 α).x = 0 := rfl
@[simp] theorem zero_y [Zero α] : (0 : V3 α).y = 0 := rfl
@[simp] theorem zero_z [Zero α] : (0 : V3 α).z = 0 := rfl
@[simp] theorem smul_x [Mul α] (k : α) (a : V3 α) : (smul k a).x = k * a.x := rfl
@[simp] theorem smul_y [Mul α] (k : α) (a : V3 α) : (smul k a).y = k * a.y := rfl
@[simp] theorem smul_z [Mul α] (k : α) (a : V3 α) : (smul k a).z = k * a.z := rfl

end V3
end RP3D
