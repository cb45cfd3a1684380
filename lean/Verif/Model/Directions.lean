import Verif.Model.Samplers

/-!
# `Primitive::direction` (/repo/src/primitive.rs) and the functions it calls (/repo/src/primitive_samplers.rs)

Over ℝ.  A zero distance, for which the code's direction is NaN, gives the zero vector here.
-/

namespace Rendering

/-- /repo/src/primitive_samplers.rs:43-50 `triangle_direction`. -/
noncomputable def triangleDirection (t : Tri ℝ) (point : Vec3 ℝ) : ℝ × Vec3 ℝ :=
  let centroid := (t.a + t.b + t.c).scale (1 / 3)
  let direction := centroid - point
  let d := direction.length
  (d, direction.scale (1 / d))

/-- /repo/src/primitive_samplers.rs:80-84 `sphere_direction`. -/
noncomputable def sphereDirection (centre : Vec3 ℝ) (radius : ℝ) (point : Vec3 ℝ) : ℝ × Vec3 ℝ :=
  let direction := centre - point
  let t := direction.length
  (t - radius, direction.scale (1 / t))

/-- `Float::MAX - 1.` (f64), /repo/src/primitive_samplers.rs:123: subtracting one from the largest number rounds back to it. -/
noncomputable def farAway : ℝ := floatMax ℝ

/-- /repo/src/primitive_samplers.rs:122-124 `source_direction`. -/
noncomputable def sourceDirection (direction : Vec3 ℝ) (_point : Vec3 ℝ) : ℝ × Vec3 ℝ := (farAway, direction)

/-- /repo/src/primitive.rs:95-102 `Primitive::direction`: how far, and in which direction. -/
noncomputable def Primitive.direction (p : Primitive ℝ) (point : Vec3 ℝ) : Res (ℝ × Vec3 ℝ) :=
  match p with
  | .sphere c r => .ok (sphereDirection c r point)
  | .triangle t => .ok (triangleDirection t point)
  | .cylinder _ _ _ => .panic
  | .source d _ => .ok (sourceDirection d point)

end Rendering
