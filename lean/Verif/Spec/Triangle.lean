import Verif.Spec.Bvh
import Verif.Model.TriangleReal

/-! # Specification vocabulary for triangles over ℝ -/

namespace Rendering

/-- Dot product, written out. -/
def Dot (a b : Vec3 ℝ) : ℝ := a.x * b.x + a.y * b.y + a.z * b.z

/-- Euclidean norm. -/
noncomputable def Norm (a : Vec3 ℝ) : ℝ := Real.sqrt (a.x ^ 2 + a.y ^ 2 + a.z ^ 2)

/-- Cross product, written out. -/
def Cross (a b : Vec3 ℝ) : Vec3 ℝ :=
  ⟨a.y * b.z - a.z * b.y, a.z * b.x - a.x * b.z, a.x * b.y - a.y * b.x⟩

/-- The geometric (un-normalised) normal of a triangle, by the right-hand rule. -/
def geometricNormal (t : Tri ℝ) : Vec3 ℝ := Cross (t.b - t.a) (t.c - t.a)

/-- Twice the area of a triangle. -/
noncomputable def doubleArea (t : Tri ℝ) : ℝ := Norm (geometricNormal t)

/-- A triangle moved by a vector. -/
def Tri.translate (t : Tri ℝ) (d : Vec3 ℝ) : Tri ℝ := ⟨t.a + d, t.b + d, t.c + d⟩

/-- A triangle scaled about the origin. -/
def Tri.scaled (t : Tri ℝ) (k : ℝ) : Tri ℝ := ⟨t.a.scale k, t.b.scale k, t.c.scale k⟩

end Rendering
