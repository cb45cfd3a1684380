import Verif.Model.Ray
import Verif.Model.Scene
import Mathlib.Analysis.SpecialFunctions.Trigonometric.Basic
import Mathlib.Analysis.SpecialFunctions.Log.Basic

/-!
# /repo/src/samplers.rs, /repo/src/primitive_samplers.rs and the sampling functions of /repo/src/primitive.rs

Over ℝ: the passages through `f32` and the rounding of `sin`, `cos`, `sqrt` are not modelled.
-/

namespace Rendering

/-- `f64::clamp`. -/
noncomputable def clampR (x lo hi : ℝ) : ℝ := max lo (min hi x)

/-- Functions of crate `geometry3d` used by the samplers and the tracers: `Vector3D::get_perpendicular` (`none` is `Err`, which is always unwrapped) and the `intersect` methods of
`Sphere3D`, `Triangle3D`, `Cylinder3D` and `DistantSource3D`. -/
structure GeoExt where
  perp : Vec3 ℝ → Option (Vec3 ℝ)
  primIntersect : Primitive ℝ → Ray3 ℝ → Option IntersectionInfo

/-- /repo/src/samplers.rs:25-43 `uniform_sample_triangle`. -/
noncomputable def uniformSampleTriangle (rng : Rng) (a b c : Vec3 ℝ) : Vec3 ℝ × Rng :=
  let ((rand1, rand2), rng) := rng.gen2
  let tiny : ℝ := 1 / 10 ^ 8
  let rand1 := clampR rand1 tiny (1 - tiny)
  let rand2 := clampR rand2 tiny (1 - tiny)
  let aux := Real.sqrt rand1
  let u := 1 - aux
  let v := rand2 * aux
  let v1 := b - a
  let v2 := c - a
  (a + v1.scale u + v2.scale v, rng)

/-- /repo/src/samplers.rs:70-83 `uniform_sample_horizontal_disc`. -/
noncomputable def uniformSampleHorizontalDisc (rng : Rng) (radius : ℝ) : (ℝ × ℝ) × Rng :=
  let ((r, theta), rng) := rng.gen2
  let r := radius * Real.sqrt r
  let theta := 2 * Real.pi * theta
  ((r * Real.sin theta, r * Real.cos theta), rng)

/-- /repo/src/samplers.rs:105-124 `local_to_world`. -/
def localToWorld (e1 e2 normal centre : Vec3 ℝ) (x y z : ℝ) : Vec3 ℝ :=
  ⟨centre.x + x * e1.x + y * e2.x + z * normal.x, centre.y + x * e1.y + y * e2.y + z * normal.y, centre.z + x * e1.z + y * e2.z + z * normal.z⟩

/-- /repo/src/samplers.rs:128-133 `sample_cosine_weighted_horizontal_hemisphere`. -/
noncomputable def sampleCosineHemisphere (rng : Rng) : Vec3 ℝ × Rng :=
  let ((x, y), rng) := uniformSampleHorizontalDisc rng 1
  let aux := clampR (x * x + y * y) 0 1
  (⟨x, y, Real.sqrt (1 - aux)⟩, rng)

/-- /repo/src/samplers.rs:135-168 `uniform_sample_hemisphere`. -/
noncomputable def uniformSampleHemisphere (rng : Rng) (e1 e2 normal : Vec3 ℝ) : Vec3 ℝ × Rng :=
  let ((rand1, rand2), rng) := rng.gen2
  let sq := Real.sqrt (1 - rand1 * rand1)
  let pie2 := 2 * Real.pi * rand2
  (localToWorld e1 e2 normal 0 (Real.cos pie2 * sq) (Real.sin pie2 * sq) rand1, rng)

/-- /repo/src/samplers.rs:170-184 `uniform_sample_sphere`. -/
noncomputable def uniformSampleSphere (rng : Rng) : Vec3 ℝ × Rng :=
  let ((rand1, rand2), rng) := rng.gen2
  let tiny : ℝ := 1 / 10 ^ 7
  let rand1 := clampR rand1 tiny (1 - tiny)
  let rand2 := clampR rand2 tiny (1 - tiny)
  let z := 1 - 2 * rand1
  let aux := Real.sqrt (1 - z * z)
  (⟨Real.cos (2 * Real.pi * rand2) * aux, Real.sin (2 * Real.pi * rand2) * aux, z⟩, rng)

/-- /repo/src/samplers.rs:186-208 `uniform_sample_disc`. -/
noncomputable def uniformSampleDisc (ext : GeoExt) (rng : Rng) (radius : ℝ) (centre normal : Vec3 ℝ) : Res (Vec3 ℝ × Rng) :=
  let ((x, y), rng) := uniformSampleHorizontalDisc rng radius
  (Res.ofOption (ext.perp normal)).bind fun e2 =>
    let e1 := e2.cross normal
    .ok (localToWorld e1 e2 normal centre x y 0, rng)

/-! ### /repo/src/primitive_samplers.rs -/

/-- /repo/src/primitive_samplers.rs:32-35 `uniform_cone_pdf`. -/
noncomputable def uniformConePdf (cosTheta : ℝ) : ℝ := 1 / (2 * Real.pi * (1 - cosTheta))

/-- /repo/src/primitive_samplers.rs:39-41 `sample_triangle_surface`. -/
noncomputable def sampleTriangleSurface (t : Tri ℝ) (rng : Rng) : Vec3 ℝ × Rng := uniformSampleTriangle rng t.a t.b t.c

open Classical in
/-- /repo/src/primitive_samplers.rs:52-66 `triangle_solid_angle_pdf`. `Triangle3D::area` (external) is the area. -/
noncomputable def primTriangleSolidAnglePdf (t : Tri ℝ) (info : IntersectionInfo) (ray : Ray3 ℝ) : ℝ :=
  let d2 := (info.p - ray.origin).lengthSq
  let cosTheta := ray.origin.dot info.normal
  if cosTheta < 1 / 10 ^ 7 then 0
  else d2 / |cosTheta| / triangleArea t

/-- /repo/src/primitive_samplers.rs:72-78 `sphere_solid_angle_pdf`. -/
noncomputable def sphereSolidAnglePdf (centre : Vec3 ℝ) (radius : ℝ) (ray : Ray3 ℝ) : ℝ :=
  let d2 := (centre - ray.origin).lengthSq
  let sinTheta2 := radius * radius / d2
  let cosTheta := Real.sqrt (clampR (1 - sinTheta2) 0 1)
  uniformConePdf cosTheta

/-- /repo/src/primitive_samplers.rs:86-105 `sample_sphere_surface`. -/
noncomputable def sampleSphereSurface (centre : Vec3 ℝ) (radius : ℝ) (rng : Rng) : Vec3 ℝ × Rng :=
  let (p, rng) := uniformSampleSphere rng
  let tiny : ℝ := 1 / 10 ^ 5
  (⟨p.x * (radius * (1 - tiny)) + centre.x, p.y * (radius * (1 - tiny)) + centre.y, p.z * (radius * (1 - tiny)) + centre.z⟩, rng)

/-- /repo/src/primitive_samplers.rs:112-119 `source_solid_angle_pdf`; `cos_half_alpha` is the cosine of half the source's angle. -/
noncomputable def sourceSolidAnglePdf (angle : ℝ) : ℝ := uniformConePdf (Real.cos (angle / 2))

/-! ### /repo/src/primitive.rs -/

/-- /repo/src/primitive.rs:86-93 `solid_angle_pdf`. -/
noncomputable def Primitive.solidAnglePdf (p : Primitive ℝ) (info : IntersectionInfo) (ray : Ray3 ℝ) : Res ℝ :=
  match p with
  | .sphere c r => .ok (sphereSolidAnglePdf c r ray)
  | .triangle t => .ok (primTriangleSolidAnglePdf t info ray)
  | .cylinder _ _ _ => .panic
  | .source _ angle => .ok (sourceSolidAnglePdf angle)

/-- The surface point chosen in /repo/src/primitive.rs:105-114. -/
noncomputable def Primitive.sampleSurface (ext : GeoExt) (p : Primitive ℝ) (rng : Rng) (point : Vec3 ℝ) : Res (Vec3 ℝ × Rng) :=
  match p with
  | .sphere c r => .ok (sampleSphereSurface c r rng)
  | .triangle t => .ok (sampleTriangleSurface t rng)
  | .cylinder _ _ _ => .panic
  | .source direction angle =>
    let radius := Real.tan (angle / 2)
    let normal := direction.normalized
    uniformSampleDisc ext rng radius (point + normal) normal

/-- /repo/src/primitive.rs:104-118 `sample_direction`. -/
noncomputable def Primitive.sampleDirection (ext : GeoExt) (p : Primitive ℝ) (rng : Rng) (point : Vec3 ℝ) : Res (Vec3 ℝ × Rng) :=
  (p.sampleSurface ext rng point).bind fun (surfacePoint, rng) => .ok ((surfacePoint - point).normalized, rng)

end Rendering
