import Verif.Model.BvhFloat
import Verif.Spec.Bvh
import Verif.Lemmas.TriangleFloat

/-!
# Specification vocabulary for ray casting in double precision
-/

namespace Rendering

/-- Centre of the bounding box of a triangle as computed in double precision, per coordinate. -/
def boxCentre64 (t : Tri F64) (a : Axis) : F64 :=
  (max (max (t.a.get a) (t.b.get a)) (t.c.get a) + min (min (t.a.get a) (t.b.get a)) (t.c.get a)) * F64.lit (1 / 2)

/-- Fewer than 2^30 triangles, no 32768 of which have box centres within 1.1e-8 of one another in every coordinate. -/
def FitsAccelerator64 (tris : List (Tri F64)) : Prop :=
  tris.length < 2 ^ 30 ∧ ∀ l : List (Tri F64), l.Subperm tris → 2 ^ 15 ≤ l.length →
    ∃ s ∈ l, ∃ t ∈ l, ∃ a, (11 / 10 ^ 9 : ℚ) ≤ (boxCentre64 s a).val - (boxCentre64 t a).val

/-- Contract of the unstable sort and selection of the standard library, and of `BBox3D::max_extent`, in double precision. -/
structure BvhEnv.Lawful64 (env : BvhEnv F64) : Prop where
  sort_perm : ∀ a l, (env.sort a l).Perm l
  sort_sorted : ∀ a l, (env.sort a l).Pairwise (fun i j => i.centroid.get a ≤ j.centroid.get a)
  select_perm : ∀ m a l, (env.select m a l).Perm l
  maxExtent_max : ∀ (b : BBox F64) (a : Axis), b.max.get a - b.min.get a ≤ b.max.get (env.maxExtent b) - b.min.get (env.maxExtent b)

/-- The number a double stands for, coordinate by coordinate. -/
noncomputable def BBox.reals (b : BBox F64) : BBox ℝ :=
  ⟨b.min.reals, b.max.reals⟩

/-- Contract of the external ray/box test `BBox3D::intersect` in double precision: it may give false positives but never misses a box through which
the ray — the exact one, with these doubles as coordinates — passes. -/
def BvhEnv.BoxTestConservative64 (env : BvhEnv F64) : Prop :=
  ∀ (b : BBox F64) (ray : Ray3 F64) (t : ℝ), 0 ≤ t → b.reals.Contains (ray.reals.origin + ray.reals.direction.scale t) → env.boxHit b ray = true

end Rendering
