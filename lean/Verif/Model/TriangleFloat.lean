import Verif.Model.Triangle
import Verif.Model.F64

/-!
# The ray/triangle test of /repo/src/triangle.rs in double precision

The same function as `baricentricCoordinates` (`Model/Triangle.lean`), every operation rounded.
-/

namespace Rendering

/-- /repo/src/triangle.rs:186-194 `dot`. -/
def dot64 (a b : Vec3 F64) : F64 := a.x * b.x + a.y * b.y + a.z * b.z

/-- /repo/src/triangle.rs:196-207 `cross`. -/
def cross64 (a b : Vec3 F64) : Vec3 F64 := ⟨a.y * b.z - a.z * b.y, a.z * b.x - a.x * b.z, a.x * b.y - a.y * b.x⟩

/-- The differences of coordinates at /repo/src/triangle.rs:237-243 and 256. -/
def sub64 (a b : Vec3 F64) : Vec3 F64 := ⟨a.x - b.x, a.y - b.y, a.z - b.z⟩

/-- `Float::EPSILON`: 2^-52, a double. -/
def eps64 : F64 := ⟨1 / 2 ^ 52⟩

/-- /repo/src/triangle.rs:213-272 `baricentric_coorinates`; the result is the parameter `t` (the code returns `ray.project(t)`, external), `u` and `v`. -/
def baricentric64 (ray : Ray3 F64) (tri : Tri F64) : Option (F64 × F64 × F64) :=
  let edge1 := sub64 tri.b tri.a
  let edge2 := sub64 tri.c tri.a
  let h := cross64 ray.direction edge2
  let a := dot64 edge1 h
  let tiny := F64.lit (1 / 10 ^ 5)
  if |a.val| < tiny.val then none
  else
    let f := F64.lit 1 / a
    let s := sub64 ray.origin tri.a
    let u := f * dot64 s h
    if ¬ (-eps64.val ≤ u.val ∧ u ≤ F64.lit 1 + eps64) then none
    else
      let q := cross64 s edge1
      let v := f * dot64 ray.direction q
      if F64.lit 1 + eps64 < u + v ∨ v.val < -eps64.val then none
      else
        let t := f * dot64 edge2 q
        if tiny < t then some (t, u, v) else none

end Rendering
