import Verif.Model.Geometry

/-!
# /repo/src/triangle.rs — bounds and ray/triangle intersection

Square-root-free part, over any ordered field `K`.  Normalised normals, Heron's area and the sphere mesh need ℝ and are in
`Verif/Model/TriangleReal.lean`.
-/

namespace Rendering

variable {K : Type} [Field K] [LinearOrder K]

/-- /repo/src/triangle.rs:58-67 `world_bounds`. -/
def worldBounds (t : Tri K) : BBox K :=
  let bbox := BBox.fromPoint t.a
  let bbox := bbox.fromUnionPoint t.b
  bbox.fromUnionPoint t.c

/-- /repo/src/triangle.rs:248 `TINY`. -/
def tiny (K : Type) [Field K] : K := 1 / 10 ^ 5

/-- What `baricentric_coorinates` returns (`(Point3D, Float, Float)`), with the ray parameter `t` kept as well (the
code drops it after projecting, /repo/src/triangle.rs:267-269). -/
structure Bary (K : Type) where
  p : Vec3 K
  u : K
  v : K
  t : K
deriving DecidableEq, Repr

/-- /repo/src/triangle.rs:213-272 `baricentric_coorinates`.  Line by line; `f = 1/a` is exact division
because `|a| ≥ TINY > 0` at that point. -/
def baricentricCoordinates (ray : Ray3 K) (tri : Tri K) : Option (Bary K) :=
  let edge1 := tri.b - tri.a
  let edge2 := tri.c - tri.a
  let h := ray.direction.cross edge2
  let a := edge1.dot h
  if |a| < tiny K then none
  else
    let f := 1 / a
    let s := ray.origin - tri.a
    let u := f * s.dot h
    if ¬ (-floatEps K ≤ u ∧ u ≤ 1 + floatEps K) then none
    else
      let q := s.cross edge1
      let v := f * ray.direction.dot q
      if u + v > 1 + floatEps K ∨ v < -floatEps K then none
      else
        let t := f * edge2.dot q
        if t > tiny K then some ⟨ray.project t, u, v, t⟩ else none

/-- /repo/src/triangle.rs:276-291 `triangle_intersect`, restricted to the data used by the traversal: the point and
the barycentric coordinates.  The normal/side computed by `new_info` (348-389) is in `TriangleReal.lean`. -/
def triangleIntersect (t : Tri K) (ray : Ray3 K) : Option (Bary K) :=
  baricentricCoordinates ray t

/-- /repo/src/triangle.rs:295-312 `simple_triangle_intersect`. -/
def simpleTriangleIntersect (t : Tri K) (ray : Ray3 K) : Option (Vec3 K) :=
  match baricentricCoordinates ray t with
  | none => none
  | some b => some b.p

end Rendering
