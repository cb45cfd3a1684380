import Verif.Model.Bvh
import Verif.Model.Colour

/-!
# /repo/src/scene.rs — the scene as a state machine

The state is the public `Scene` structure (the sky functions are only stored, and are kept as opaque flags here).  Functions that
panic return `Res.panic`.
-/

namespace Rendering
variable {K : Type}

/-- /repo/src/material/mod.rs:49-56 `Material` and the structures in /repo/src/material/*.rs. -/
inductive Material (K : Type) where
  | plastic (colour : Spectrum K) (specularity roughness : K)
  | metal (colour : Spectrum K) (specularity roughness : K)
  | light (colour : Spectrum K)
  | mirror (colour : Spectrum K)
  | dielectric (colour : Spectrum K) (refractionIndex : K)
  | glass (colour : Spectrum K) (refractionIndex : K)
deriving DecidableEq

/-- /repo/src/material/mod.rs:86-88 `emits_direct_light`. -/
def Material.emitsDirectLight : Material K → Bool
  | .light _ => true
  | _ => false

/-- /repo/src/material/mod.rs:91-93 `emits_light`. -/
def Material.emitsLight : Material K → Bool
  | .light _ => true
  | _ => false

/-- /repo/src/material/mod.rs:99-101 `specular_only`. -/
def Material.specularOnly : Material K → Bool
  | .mirror _ => true
  | .glass _ _ => true
  | .dielectric _ _ => true
  | _ => false

/-- /repo/src/primitive.rs:31-37 `Primitive`. -/
inductive Primitive (K : Type) where
  | sphere (centre : Vec3 K) (radius : K)
  | triangle (t : Tri K)
  | cylinder (p0 p1 : Vec3 K) (radius : K)
  | source (direction : Vec3 K) (angle : K)
deriving DecidableEq

/-- /repo/src/primitive.rs:41-48 `id` (the strings are defined in `geometry3d`; only the comparison with `"source"` matters). -/
def Primitive.id : Primitive K → String
  | .sphere _ _ => "sphere"
  | .triangle _ => "triangle"
  | .cylinder _ _ _ => "cylinder"
  | .source _ _ => "source"

/-- Vertex normals of one triangle. -/
abbrev Normals (K : Type) := Vec3 K × Vec3 K × Vec3 K

/-- /repo/src/scene.rs:34-40 `Object`. -/
structure Object (K : Type) where
  primitive : Primitive K
  front : Nat
  back : Nat

/-- External functions used by scene operations: those of the BVH, `Vector3D::get_normalized`, and the sphere mesher (modelled
over ℝ in `Model/SphereMesh.lean`). -/
structure SceneEnv (K : Type) where
  bvh : BvhEnv K
  normalized : Vec3 K → Vec3 K
  meshSphere : Vec3 K → K → List (Tri K) × List (Normals K)

/-- /repo/src/scene.rs:42-80 `Scene`. The two sky fields are represented by `hasSky`. -/
structure Scene (K : Type) where
  triangles : List (Tri K) := []
  normals : List (Normals K) := []
  front : List Nat := []
  back : List Nat := []
  materials : List (Material K) := []
  lights : List (Object K) := []
  distantLights : List (Object K) := []
  accelerator : Option (Bvh K) := none
  hasSky : Bool := false

section
variable [Field K]

/-- /repo/src/triangle.rs:393-415 `mesh_triangle`. -/
def meshTriangle (env : SceneEnv K) (t : Tri K) : List (Tri K) × List (Normals K) :=
  let s1 := t.b - t.a
  let s2 := t.c - t.a
  let normal := env.normalized (s1.cross s2)
  ([t], [(normal, normal, normal)])

/-- /repo/src/scene.rs:234-238 `push_material`: new state and returned index. -/
def Scene.pushMaterial (s : Scene K) (m : Material K) : Scene K × Nat :=
  let s' := { s with materials := s.materials ++ [m] }
  (s', s'.materials.length - 1)

/-- /repo/src/scene.rs:245-302 `push_object`. -/
def Scene.pushObject (env : SceneEnv K) (s : Scene K) (f b : Nat) (p : Primitive K) : Res (Scene K) :=
  match s.materials[f]? with
  | none => .panic      -- 251-253
  | some mf =>
    match s.materials[b]? with
    | none => .panic    -- 255-257
    | some mb =>
      let isLight := mf.emitsDirectLight || mb.emitsDirectLight
      let object : Object K := { front := f, back := b, primitive := p }
      let s :=
        if isLight then
          if p.id = "source" then { s with distantLights := s.distantLights ++ [object] }
          else { s with lights := s.lights ++ [object] }
        else s
      let mesh : Res (List (Tri K) × List (Normals K)) :=
        match p with
        | .triangle t => .ok (meshTriangle env t)
        | .sphere c r => .ok (env.meshSphere c r)
        | _ => if !isLight then .panic else .ok ([], [])
      mesh.bind fun (triangles, normals) =>
        let additional := triangles.length
        .ok { s with
          triangles := s.triangles ++ triangles
          normals := s.normals ++ normals
          front := s.front ++ List.replicate additional f
          back := s.back ++ List.replicate additional b }

/-- /repo/src/scene.rs:203-205 `count_all_lights`. -/
def Scene.countAllLights (s : Scene K) : Nat := s.lights.length + s.distantLights.length

variable [LinearOrder K] [FloorRing K]

/-- /repo/src/scene.rs:196-198 `rebuild_accelerator` (which calls `BoundingVolumeTree::new(self)`, reordering the arrays). -/
def Scene.rebuildAccelerator (env : SceneEnv K) (s : Scene K) : Res (Scene K) :=
  (bvhNew env.bvh s.triangles s.front s.back s.normals).bind fun (bvh, tris, front, back, normals) =>
    .ok { s with triangles := tris, front := front, back := back, normals := normals, accelerator := some bvh }

/-- /repo/src/scene.rs:188-193 `build_accelerator`. -/
def Scene.buildAccelerator (env : SceneEnv K) (s : Scene K) : Res (Scene K) :=
  if s.accelerator.isSome then .panic else s.rebuildAccelerator env

/-- /repo/src/scene.rs:210-216 `cast_ray`. -/
def Scene.castRay (env : SceneEnv K) (s : Scene K) (ray : Ray3 K) (scratch : List Nat) : Res (Option (Nat × Bary K)) :=
  match s.accelerator with
  | some a => bvhIntersect env.bvh a.nodes s.triangles ray scratch
  | none => .panic

/-- /repo/src/scene.rs:219-230 `unobstructed_distance`. -/
def Scene.unobstructedDistance (env : SceneEnv K) (s : Scene K) (ray : Ray3 K) (distanceSquared : K) (scratch : List Nat) :
    Res Bool :=
  match s.accelerator with
  | some a => bvhUnobstructed env.bvh a.nodes s.triangles ray distanceSquared scratch
  | none => .panic

/-- /repo/src/scene.rs:104-186 `add_perez_sky`: the sky is stored and, when the sun is up (`sun` is `solar.sun_position(n)` with
the computed brightness and apparent angle), a light material and a distant source are pushed. The Perez model itself is external. -/
def Scene.addPerezSky (env : SceneEnv K) (s : Scene K) (sun : Option (Vec3 K × K × K)) : Res (Scene K) :=
  let s := { s with hasSky := true }
  match sun with
  | none => .ok s
  | some (dir, brightness, angle) =>
    let (s, mat) := s.pushMaterial (.light (Spectrum.gray brightness))
    s.pushObject env mat mat (.source dir angle)

/-- The mutating operations of the public API, for quantifying over histories. -/
inductive SceneOp (K : Type) where
  | pushMaterial (m : Material K)
  | pushObject (f b : Nat) (p : Primitive K)
  | build
  | rebuild
  | addPerezSky (sun : Option (Vec3 K × K × K))

/-- One operation. -/
def Scene.step (env : SceneEnv K) (s : Scene K) : SceneOp K → Res (Scene K)
  | .pushMaterial m => .ok (s.pushMaterial m).1
  | .pushObject f b p => s.pushObject env f b p
  | .build => s.buildAccelerator env
  | .rebuild => s.rebuildAccelerator env
  | .addPerezSky sun => s.addPerezSky env sun

/-- A history of operations; a panic ends the program. -/
def Scene.run (env : SceneEnv K) (s : Scene K) : List (SceneOp K) → Res (Scene K)
  | [] => .ok s
  | op :: ops => (s.step env op).bind fun s => s.run env ops

end
end Rendering
