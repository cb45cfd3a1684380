import Verif.Model.Bvh
import Mathlib.Analysis.Real.Sqrt
import Mathlib.Algebra.Order.Floor.Semiring

/-!
# /repo/src/triangle.rs, /repo/src/interaction.rs — the parts that need square roots

Over ℝ (exact square roots).
-/

namespace Rendering

/-- `Vector3D::length` (external). -/
noncomputable def Vec3.length (v : Vec3 ℝ) : ℝ := Real.sqrt v.lengthSq

/-- `Vector3D::get_normalized` (external).  The zero vector (for which the code produces NaN) is mapped to zero. -/
noncomputable def Vec3.normalized (v : Vec3 ℝ) : Vec3 ℝ := v.scale (1 / v.length)

/-- `geometry3d::intersection::SurfaceSide` (external). -/
inductive SurfaceSide where
  | Front | Back | NonApplicable
deriving DecidableEq, Repr

open Classical in
/-- `SurfaceSide::get_side(normal, ray_dir)` (external): the front is the side the normal points to; the returned normal faces against
the ray; a perpendicular normal belongs to neither side. -/
noncomputable def getSide (normal rayDir : Vec3 ℝ) : Vec3 ℝ × SurfaceSide :=
  if normal.dot rayDir < 0 then (normal, .Front)
  else if normal.dot rayDir > 0 then (-normal, .Back)
  else (normal, .NonApplicable)

/-- `geometry3d::intersection::IntersectionInfo` (external), without the always-zero `dndu`, `dndv`. -/
structure IntersectionInfo where
  p : Vec3 ℝ
  normal : Vec3 ℝ
  dpdu : Vec3 ℝ
  dpdv : Vec3 ℝ
  side : SurfaceSide
  u : ℝ
  v : ℝ

/-- /repo/src/triangle.rs:348-389 `new_info`. -/
noncomputable def newInfo (t : Tri ℝ) (point : Vec3 ℝ) (u v : ℝ) (rayDir : Vec3 ℝ) : IntersectionInfo :=
  let dpdu := t.b - t.a
  let dpdv := t.c - t.a
  let normal := (dpdu.cross dpdv).normalized
  let ns := getSide normal rayDir
  let e1 := dpdu.normalized
  let e2 := (ns.1.cross e1).normalized
  { normal := ns.1, dpdu := e1, dpdv := e2, p := point, side := ns.2, u := u, v := v }

/-- /repo/src/triangle.rs:276-291 `triangle_intersect` with all the information returned. -/
noncomputable def triangleIntersectInfo (t : Tri ℝ) (ray : Ray3 ℝ) : Option IntersectionInfo :=
  match baricentricCoordinates ray t with
  | none => none
  | some b => some (newInfo t b.p b.u b.v ray.direction)

/-- /repo/src/triangle.rs:10-38 `triangle_area`. -/
noncomputable def triangleArea (t : Tri ℝ) : ℝ :=
  let ab := Real.sqrt ((t.b.x - t.a.x) ^ 2 + (t.b.y - t.a.y) ^ 2 + (t.b.z - t.a.z) ^ 2)
  let bc := Real.sqrt ((t.c.x - t.b.x) ^ 2 + (t.c.y - t.b.y) ^ 2 + (t.c.z - t.b.z) ^ 2)
  let ca := Real.sqrt ((t.a.x - t.c.x) ^ 2 + (t.a.y - t.c.y) ^ 2 + (t.a.z - t.c.z) ^ 2)
  Real.sqrt ((ca + bc + ab) * ((ca + bc + ab) / 2 - ab) * ((ca + bc + ab) / 2 - bc) * ((ca + bc + ab) / 2 - ca) / 2)

open Classical in
/-- /repo/src/triangle.rs:40-55 `triangle_solid_angle_pdf` (a zero area, for which the code gives `inf`, gives 0 here). -/
noncomputable def triangleSolidAnglePdf (t : Tri ℝ) (point normal : Vec3 ℝ) (ray : Ray3 ℝ) : ℝ :=
  let d2 := (point - ray.origin).lengthSq
  let cosTheta := ray.origin.dot normal
  if cosTheta < 1 / 10 ^ 7 then 0
  else d2 / |cosTheta| / triangleArea t

/-- /repo/src/interaction.rs:27-43 `Interaction`. -/
structure Interaction where
  point : Vec3 ℝ
  wo : Vec3 ℝ
  shading : IntersectionInfo

/-- /repo/src/interaction.rs:61-74 `interpolate_normal`. -/
noncomputable def Interaction.interpolateNormal (i : Interaction) (n0 n1 n2 : Vec3 ℝ) : Interaction :=
  let u := i.shading.u
  let v := i.shading.v
  let n := (n0.scale u + n1.scale v + n2.scale (1 - u - v)).normalized
  let n := if i.shading.side = .Back then n.scale (-1) else n
  { i with shading := { i.shading with normal := n } }

/-- /repo/src/bvh.rs:619-626: the interaction recorded on the ray by `BoundingVolumeTree::intersect` for the primitive found:
`interaction.point` is the ray projected by the square root of the best squared distance. -/
noncomputable def recordedInteraction (tri : Tri ℝ) (ray : Ray3 ℝ) (b : Bary ℝ) : Interaction :=
  let t := Real.sqrt (b.p - ray.origin).lengthSq
  { point := ray.project t, wo := ray.direction.scale (-1), shading := newInfo tri b.p b.u b.v ray.direction }

end Rendering
