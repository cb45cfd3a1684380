import Verif.Model.Bvh

/-!
# Specification vocabulary for ray casting

Nothing here refers to trees, nodes, stacks or leaves: only to triangles, rays, points and distances, and to the
contracts of the external functions.
-/

namespace Rendering

variable {K : Type} [Field K] [LinearOrder K]

/-- The ray reaches the point `p` of the (closed) triangle at parameter `t`. -/
def Crosses (ray : Ray3 K) (tri : Tri K) (t : K) (p : Vec3 K) : Prop :=
  p = ray.origin + ray.direction.scale t ∧
  ∃ u v : K, 0 ≤ u ∧ 0 ≤ v ∧ u + v ≤ 1 ∧
    p = tri.a.scale (1 - u - v) + tri.b.scale u + tri.c.scale v

/-- Squared distance between two points. -/
def distSq (p q : Vec3 K) : K := (p.x - q.x) ^ 2 + (p.y - q.y) ^ 2 + (p.z - q.z) ^ 2

/-- The scalar triple product `(b - a) · (d × (c - a))`: it vanishes when the ray is parallel to the triangle's plane (or the
triangle is degenerate). -/
def tripleProduct (ray : Ray3 K) (tri : Tri K) : K :=
  let d := ray.direction
  let e := tri.b - tri.a
  let f := tri.c - tri.a
  e.x * (d.y * f.z - d.z * f.y) + e.y * (d.z * f.x - d.x * f.z) + e.z * (d.x * f.y - d.y * f.x)

/-- The ray genuinely goes through the closed triangle, at squared distance `d2` from its origin, at a parameter beyond 1e-5 and
not near-parallel to it. -/
def VisibleHit (ray : Ray3 K) (tri : Tri K) (d2 : K) : Prop :=
  ∃ t p, Crosses ray tri t p ∧ 1 / 10 ^ 5 < t ∧ 1 / 10 ^ 5 ≤ |tripleProduct ray tri| ∧ distSq p ray.origin = d2

/-- The point `p` is on the ray beyond 1e-5, and on the plane of the triangle, inside the triangle up to the 2^-52 tolerance on the
barycentric coordinates `u`, `v`. -/
def TolerantHit (ray : Ray3 K) (tri : Tri K) (t : K) (p : Vec3 K) (u v : K) : Prop :=
  p = ray.origin + ray.direction.scale t ∧ 1 / 10 ^ 5 < t ∧
  p = tri.a.scale (1 - u - v) + tri.b.scale u + tri.c.scale v ∧
  -(1 / 2 ^ 52) ≤ u ∧ u ≤ 1 + 1 / 2 ^ 52 ∧ -(1 / 2 ^ 52) ≤ v ∧ u + v ≤ 1 + 1 / 2 ^ 52

/-- The squared distances at which `cast_ray` accepts hits: beyond `MIN_T = 1e-7`, below `Float::MAX`. -/
def InRange (d2 : K) : Prop := 1 / 10 ^ 7 < d2 ∧ d2 < floatMax K

/-- An obstacle at squared distance `t2` counts as blocking a target at squared distance `d2`. -/
def Blocking (t2 d2 : K) : Prop := 1 / 10 ^ 6 < t2 ∧ t2 + 1 / 10 ^ 6 < d2 ∧ 1 / 10 ^ 4 < |d2 - t2|

/-- The ray stays clear of the 2^-52 tolerance band around the triangle's edges: tolerant hits are genuine ones. -/
def ClearOfEdges (ray : Ray3 K) (tri : Tri K) : Prop :=
  ∀ t p u v, TolerantHit ray tri t p u v → 0 ≤ u ∧ 0 ≤ v ∧ u + v ≤ 1

/-- The box contains the point. -/
def BBox.Contains (b : BBox K) (p : Vec3 K) : Prop :=
  (b.min.x ≤ p.x ∧ p.x ≤ b.max.x) ∧ (b.min.y ≤ p.y ∧ p.y ≤ b.max.y) ∧ (b.min.z ≤ p.z ∧ p.z ≤ b.max.z)

/-- Contract of the external ray/box test `BBox3D::intersect`: it may give false positives but never misses a box
that contains a point of the ray at a non-negative parameter. -/
def BvhEnv.BoxTestConservative (env : BvhEnv K) : Prop :=
  ∀ (b : BBox K) (ray : Ray3 K) (t : K), 0 ≤ t → b.Contains (ray.origin + ray.direction.scale t) → env.boxHit b ray = true

/-- Contract of the standard library's unstable sort and selection — they permute their input, and sorting sorts by
the centroid coordinate — and of `BBox3D::max_extent` — the returned axis has the largest extent. Ties may be broken in any way. -/
structure BvhEnv.Lawful (env : BvhEnv K) : Prop where
  sort_perm : ∀ a l, (env.sort a l).Perm l
  sort_sorted : ∀ a l, (env.sort a l).Pairwise (fun i j => i.centroid.get a ≤ j.centroid.get a)
  select_perm : ∀ m a l, (env.select m a l).Perm l
  maxExtent_max : ∀ (b : BBox K) (a : Axis), b.max.get a - b.min.get a ≤ b.max.get (env.maxExtent b) - b.min.get (env.maxExtent b)

/-- Centre of the bounding box of a triangle, per coordinate. -/
def boxCentre (t : Tri K) (a : Axis) : K :=
  (max (max (t.a.get a) (t.b.get a)) (t.c.get a) + min (min (t.a.get a) (t.b.get a)) (t.c.get a)) / 2

/-- No 32768 triangles of the scene have box centres within 1e-8 of one another in every coordinate. -/
def NoHugeCluster (tris : List (Tri K)) : Prop :=
  ∀ l : List (Tri K), l.Subperm tris → 2 ^ 15 ≤ l.length →
    ∃ s ∈ l, ∃ t ∈ l, ∃ a, 1 / 10 ^ 8 ≤ boxCentre s a - boxCentre t a

/-- The size limits under which the 16- and 32-bit fields of the flattened tree do not overflow: fewer than 2^30
triangles, and no huge cluster of coincident ones. -/
def FitsAccelerator (tris : List (Tri K)) : Prop := tris.length < 2 ^ 30 ∧ NoHugeCluster tris

/-- The rows of a scene: each triangle with its front material, back material and vertex normals. -/
def rows {T F B N : Type} (tris : List T) (front : List F) (back : List B) (normals : List N) :
    List (T × F × B × N) :=
  tris.zip (front.zip (back.zip normals))

end Rendering
