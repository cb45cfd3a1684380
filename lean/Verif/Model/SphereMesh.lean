import Verif.Model.TriangleReal
import Mathlib.Analysis.SpecialFunctions.Trigonometric.Basic

/-!
# /repo/src/triangle.rs:417-537 — `mesh_sphere`
-/

namespace Rendering

/-- `Float::to_radians` (standard library). -/
noncomputable def toRadians (deg : ℝ) : ℝ := deg * (Real.pi / 180)

/-- /repo/src/triangle.rs:437-455: a vertex of the two middle rings. -/
noncomputable def ringPoint (midr h : ℝ) (c : Vec3 ℝ) (deg : ℝ) : Vec3 ℝ :=
  ⟨midr * Real.sin (toRadians deg), midr * Real.cos (toRadians deg), h⟩ + c

/-- /repo/src/triangle.rs:432-485: the twenty base triangles, in the order in which they are pushed. -/
noncomputable def baseTriangles (r : ℝ) (c : Vec3 ℝ) : List (Tri ℝ) :=
  let midtopZ := r * Real.cos (toRadians 60)
  let midr := r * Real.sin (toRadians 60)
  let midbottomZ := -midtopZ
  let top : Vec3 ℝ := ⟨0, 0, r⟩ + c
  let bottom : Vec3 ℝ := ⟨0, 0, -r⟩ + c
  let t0 := ringPoint midr midtopZ c 36
  let t1 := ringPoint midr midtopZ c (3 * 36)
  let t2 := ringPoint midr midtopZ c (5 * 36)
  let t3 := ringPoint midr midtopZ c (7 * 36)
  let t4 := ringPoint midr midtopZ c (9 * 36)
  let b0 := ringPoint midr midbottomZ c 0
  let b1 := ringPoint midr midbottomZ c 72
  let b2 := ringPoint midr midbottomZ c (2 * 72)
  let b3 := ringPoint midr midbottomZ c (3 * 72)
  let b4 := ringPoint midr midbottomZ c (4 * 72)
  [⟨t0, t4, top⟩, ⟨t4, t3, top⟩, ⟨t3, t2, top⟩, ⟨t2, t1, top⟩, ⟨t1, t0, top⟩,
   ⟨b0, b1, bottom⟩, ⟨b1, b2, bottom⟩, ⟨b2, b3, bottom⟩, ⟨b3, b4, bottom⟩, ⟨b4, b0, bottom⟩,
   ⟨t4, t0, b0⟩, ⟨t0, t1, b1⟩, ⟨t1, t2, b2⟩, ⟨t2, t3, b3⟩, ⟨t3, t4, b4⟩,
   ⟨b1, b0, t0⟩, ⟨b2, b1, t1⟩, ⟨b3, b2, t2⟩, ⟨b4, b3, t3⟩, ⟨b0, b4, t4⟩]

/-- /repo/src/triangle.rs:493-500: midpoint of two vertices, projected on the sphere. -/
noncomputable def midOnSphere (centre : Vec3 ℝ) (r : ℝ) (a b : Vec3 ℝ) : Vec3 ℝ :=
  let ab := (a + b).scale (1 / 2)
  centre + ((ab - centre).normalized).scale r

/-- /repo/src/triangle.rs:489-510: one pass of `refine`.  The loop replaces triangle `i` in place and pushes three triangles at the back;
triangles pushed during the pass are not visited by it (`n` is read before the loop). -/
noncomputable def refine (centre : Vec3 ℝ) (r : ℝ) (ts : List (Tri ℝ)) : List (Tri ℝ) :=
  let mid := midOnSphere centre r
  ts.map (fun t => ⟨t.a, mid t.a t.b, mid t.a t.c⟩) ++
  ts.flatMap (fun t => [⟨mid t.a t.b, t.b, mid t.b t.c⟩, ⟨mid t.b t.c, t.c, mid t.a t.c⟩, ⟨mid t.a t.b, mid t.b t.c, mid t.a t.c⟩])

/-- /repo/src/triangle.rs:418 `N_REFINEMENTS`. -/
def nRefinements : Nat := 5

/-- /repo/src/triangle.rs:417-537 `mesh_sphere` (a partial sphere is meshed as a full one, after a warning on stderr). -/
noncomputable def meshSphere (c : Vec3 ℝ) (r : ℝ) : List (Tri ℝ) × List (Vec3 ℝ × Vec3 ℝ × Vec3 ℝ) :=
  let triangles := (refine c r)^[nRefinements] (baseTriangles r c)
  let normals := triangles.map (fun t => ((t.a - c).normalized, (t.b - c).normalized, (t.c - c).normalized))
  (triangles, normals)

end Rendering
