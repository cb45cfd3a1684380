import Mathlib.Algebra.Order.Field.Basic
import Mathlib.Algebra.Order.Ring.Abs
import Mathlib.Tactic.Ring
import Mathlib.Tactic.Linarith
import Mathlib.Tactic.NormNum
import Mathlib.Tactic.FieldSimp
import Mathlib.Tactic.Positivity
import Mathlib.Tactic.LinearCombination

/-!
# Geometry vocabulary

The crate `geometry3d` is an external dependency that is not available in the sandbox.  The definitions below
give `Vector3D`, `Point3D`, `Ray3D` and `BBox3D` their evident mathematical meaning.  They are generic in the
number type `K` (an ordered field; exact arithmetic — rounding is outside the model).
-/

namespace Rendering

/-- `geometry3d::Vector3D` / `geometry3d::Point3D` (external): three coordinates.
Points and vectors share one type in the model. -/
@[ext] structure Vec3 (K : Type) where
  x : K
  y : K
  z : K
deriving DecidableEq, Repr

/-- `geometry3d::BBoxAxis` (external), used in /repo/src/bvh.rs:49-53. -/
inductive Axis where
  | X | Y | Z
deriving DecidableEq, Repr

/-- Coordinate selection, the `match split_axis` of /repo/src/bvh.rs:49-53, 176-180, 192-196. -/
def Vec3.get {K : Type} (v : Vec3 K) : Axis → K
  | .X => v.x
  | .Y => v.y
  | .Z => v.z

section
variable {K : Type}

instance [Zero K] : Zero (Vec3 K) := ⟨⟨0, 0, 0⟩⟩
instance [Add K] : Add (Vec3 K) := ⟨fun a b => ⟨a.x + b.x, a.y + b.y, a.z + b.z⟩⟩
instance [Sub K] : Sub (Vec3 K) := ⟨fun a b => ⟨a.x - b.x, a.y - b.y, a.z - b.z⟩⟩
instance [Neg K] : Neg (Vec3 K) := ⟨fun a => ⟨-a.x, -a.y, -a.z⟩⟩

/-- `Vector3D * Float` (external): scaling. -/
def Vec3.scale [Mul K] (v : Vec3 K) (k : K) : Vec3 K := ⟨v.x * k, v.y * k, v.z * k⟩

/-- `Vector3D * Vector3D` (external): dot product; also /repo/src/triangle.rs:186-194 (`dot`). -/
def Vec3.dot [Mul K] [Add K] (a b : Vec3 K) : K := a.x * b.x + a.y * b.y + a.z * b.z

/-- `Vector3D::cross` (external); also /repo/src/triangle.rs:196-207 (`cross`). -/
def Vec3.cross [Mul K] [Sub K] (a b : Vec3 K) : Vec3 K :=
  ⟨a.y * b.z - a.z * b.y, a.z * b.x - a.x * b.z, a.x * b.y - a.y * b.x⟩

/-- `Vector3D::length_squared` (external). -/
def Vec3.lengthSq [Mul K] [Add K] (a : Vec3 K) : K := a.dot a

@[simp] theorem Vec3.zero_x [Zero K] : (0 : Vec3 K).x = 0 := rfl
@[simp] theorem Vec3.zero_y [Zero K] : (0 : Vec3 K).y = 0 := rfl
@[simp] theorem Vec3.zero_z [Zero K] : (0 : Vec3 K).z = 0 := rfl
@[simp] theorem Vec3.add_x [Add K] (a b : Vec3 K) : (a + b).x = a.x + b.x := rfl
@[simp] theorem Vec3.add_y [Add K] (a b : Vec3 K) : (a + b).y = a.y + b.y := rfl
@[simp] theorem Vec3.add_z [Add K] (a b : Vec3 K) : (a + b).z = a.z + b.z := rfl
@[simp] theorem Vec3.sub_x [Sub K] (a b : Vec3 K) : (a - b).x = a.x - b.x := rfl
@[simp] theorem Vec3.sub_y [Sub K] (a b : Vec3 K) : (a - b).y = a.y - b.y := rfl
@[simp] theorem Vec3.sub_z [Sub K] (a b : Vec3 K) : (a - b).z = a.z - b.z := rfl
@[simp] theorem Vec3.neg_x [Neg K] (a : Vec3 K) : (-a).x = -a.x := rfl
@[simp] theorem Vec3.neg_y [Neg K] (a : Vec3 K) : (-a).y = -a.y := rfl
@[simp] theorem Vec3.neg_z [Neg K] (a : Vec3 K) : (-a).z = -a.z := rfl
@[simp] theorem Vec3.scale_x [Mul K] (a : Vec3 K) (k : K) : (a.scale k).x = a.x * k := rfl
@[simp] theorem Vec3.scale_y [Mul K] (a : Vec3 K) (k : K) : (a.scale k).y = a.y * k := rfl
@[simp] theorem Vec3.scale_z [Mul K] (a : Vec3 K) (k : K) : (a.scale k).z = a.z * k := rfl

/-- `geometry3d::Ray3D` (external). -/
structure Ray3 (K : Type) where
  origin : Vec3 K
  direction : Vec3 K
deriving DecidableEq, Repr

/-- `Ray3D::project(t)` (external): the point at parameter `t`. -/
def Ray3.project [Mul K] [Add K] (r : Ray3 K) (t : K) : Vec3 K := r.origin + r.direction.scale t

/-- `geometry3d::BBox3D` (external): axis-aligned box. -/
structure BBox (K : Type) where
  min : Vec3 K
  max : Vec3 K
deriving DecidableEq, Repr

/-- `BBox3D::from_point` (external). -/
def BBox.fromPoint (p : Vec3 K) : BBox K := ⟨p, p⟩

/-- `BBox3D::from_union_point` (external): smallest box containing the box and the point. -/
def BBox.fromUnionPoint [Min K] [Max K] (b : BBox K) (p : Vec3 K) : BBox K :=
  ⟨⟨Min.min b.min.x p.x, Min.min b.min.y p.y, Min.min b.min.z p.z⟩,
   ⟨Max.max b.max.x p.x, Max.max b.max.y p.y, Max.max b.max.z p.z⟩⟩

/-- `BBox3D::from_union` (external): smallest box containing both boxes. -/
def BBox.fromUnion [Min K] [Max K] (a b : BBox K) : BBox K :=
  ⟨⟨Min.min a.min.x b.min.x, Min.min a.min.y b.min.y, Min.min a.min.z b.min.z⟩,
   ⟨Max.max a.max.x b.max.x, Max.max a.max.y b.max.y, Max.max a.max.z b.max.z⟩⟩

end

/-- `crate::triangle::Triangle` = `[Float; 9]`, /repo/src/triangle.rs:1-12: three vertices. -/
structure Tri (K : Type) where
  a : Vec3 K
  b : Vec3 K
  c : Vec3 K
deriving DecidableEq, Repr

/-- `Float::MAX` for f64: the largest finite double. -/
def floatMax (K : Type) [Field K] : K := (2 ^ 53 - 1) * 2 ^ 971

/-- `Float::EPSILON` for f64. -/
def floatEps (K : Type) [Field K] : K := 1 / 2 ^ 52

end Rendering
