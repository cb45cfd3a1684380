import Verif.Model.Tracer

/-!
# Moving everything by the same vector

The same scene somewhere else: every point is displaced by `v`, directions are left alone.  The contract `Uniform` says of the external functions that they treat all places alike.
-/

namespace Rendering

variable {K : Type}

section
variable [Add K]

/-- The triangle displaced by `v`. -/
def Tri.shift (v : Vec3 K) (t : Tri K) : Tri K := ⟨t.a + v, t.b + v, t.c + v⟩

/-- The box displaced by `v`. -/
def BBox.shift (v : Vec3 K) (b : BBox K) : BBox K := ⟨b.min + v, b.max + v⟩

/-- The ray displaced by `v`: same direction. -/
def Ray3.shift (v : Vec3 K) (r : Ray3 K) : Ray3 K := ⟨r.origin + v, r.direction⟩

/-- The primitive displaced by `v`; a distant source is not anywhere. -/
def Primitive.shift (v : Vec3 K) : Primitive K → Primitive K
  | .sphere c r => .sphere (c + v) r
  | .triangle t => .triangle (t.shift v)
  | .cylinder p q r => .cylinder (p + v) (q + v) r
  | .source d a => .source d a

/-- The same call, with the object displaced by `v`. -/
def SceneOp.shift (v : Vec3 K) : SceneOp K → SceneOp K
  | .pushObject f b p => .pushObject f b (p.shift v)
  | op => op

/-- What is recorded about a triangle while building the accelerator, displaced by `v`. -/
def ObjInfo.shift (v : Vec3 K) (i : ObjInfo K) : ObjInfo K := ⟨i.index, i.bounds.shift v, i.centroid + v⟩

/-- The external functions treat all places alike: boxes and rays displaced together meet or miss as before, a box has the same longest axis and area anywhere, sorting by centre is sorting by
displaced centre, and a displaced sphere has the displaced mesh with the same normals. -/
structure SceneEnv.Uniform (env : SceneEnv K) : Prop where
  boxHit : ∀ v b ray, env.bvh.boxHit (b.shift v) (ray.shift v) = env.bvh.boxHit b ray
  maxExtent : ∀ v b, env.bvh.maxExtent (b.shift v) = env.bvh.maxExtent b
  surfaceArea : ∀ v b, env.bvh.surfaceArea (b.shift v) = env.bvh.surfaceArea b
  sort : ∀ v a l, env.bvh.sort a (l.map (ObjInfo.shift v)) = (env.bvh.sort a l).map (ObjInfo.shift v)
  select : ∀ v m a l, env.bvh.select m a (l.map (ObjInfo.shift v)) = (env.bvh.select m a l).map (ObjInfo.shift v)
  mesh : ∀ v c r, env.meshSphere (c + v) r = ((env.meshSphere c r).1.map (Tri.shift v), (env.meshSphere c r).2)

end

/-- The intersection displaced by `v`: the point moves, normal, tangents, side and coordinates do not. -/
def IntersectionInfo.shift (v : Vec3 ℝ) (i : IntersectionInfo) : IntersectionInfo := { i with p := i.p + v }

/-- The external intersection of a light with a ray treats all places alike. -/
def GeoExt.Uniform (ext : GeoExt) : Prop :=
  ∀ v p ray, ext.primIntersect (p.shift v) (ray.shift v) = (ext.primIntersect p ray).map (IntersectionInfo.shift v)

/-- The ray to be traced, displaced by `v`. -/
noncomputable def TRay.shift (v : Vec3 ℝ) (r : TRay) : TRay := { r with geometry := r.geometry.shift v }

end Rendering
