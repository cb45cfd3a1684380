import Verif.Model.Scene
import Verif.Spec.Bvh

/-!
# Specification vocabulary for scenes
-/

namespace Rendering
variable {K : Type}

/-- The four per-triangle arrays have the same length. -/
def Scene.Aligned (s : Scene K) : Prop :=
  s.normals.length = s.triangles.length ∧ s.front.length = s.triangles.length ∧ s.back.length = s.triangles.length

/-- Every material index stored anywhere in the scene designates an existing material. -/
def Scene.IndicesValid (s : Scene K) : Prop :=
  (∀ i ∈ s.front, i < s.materials.length) ∧ (∀ i ∈ s.back, i < s.materials.length) ∧
  (∀ o ∈ s.lights, o.front < s.materials.length ∧ o.back < s.materials.length) ∧
  (∀ o ∈ s.distantLights, o.front < s.materials.length ∧ o.back < s.materials.length)

/-- Contract of the sphere mesher: as many normal triples as triangles (proved for the real one in C20). -/
def SceneEnv.MeshAligned (env : SceneEnv K) : Prop :=
  ∀ c r, (env.meshSphere c r).2.length = (env.meshSphere c r).1.length

/-- `s'` is what `build_accelerator` or `rebuild_accelerator` leaves when called on `s`. -/
def Scene.BuiltFrom [Field K] [LinearOrder K] [FloorRing K] (env : SceneEnv K) (s s' : Scene K) : Prop :=
  s.buildAccelerator env = .ok s' ∨ s.rebuildAccelerator env = .ok s'

/-- The scene's rows: triangle, front material, back material, vertex normals. -/
def Scene.rows (s : Scene K) : List (Tri K × Nat × Nat × Normals K) :=
  Rendering.rows s.triangles s.front s.back s.normals

/-! ## What a history of calls amounts to -/

section history

/-- The triangles and vertex normals contributed by a primitive. -/
def SceneEnv.meshOf [Field K] (env : SceneEnv K) : Primitive K → List (Tri K × Normals K)
  | .triangle t =>
    let n := env.normalized ((t.b - t.a).cross (t.c - t.a))
    [(t, n, n, n)]
  | .sphere c r => (env.meshSphere c r).1.zip (env.meshSphere c r).2
  | _ => []

/-- The rows pushed by a history, in order: each triangle with the indices and normals it was pushed with. -/
def pushedRows [Field K] (env : SceneEnv K) : List (SceneOp K) → List (Tri K × Nat × Nat × Normals K)
  | [] => []
  | .pushObject f b p :: ops => (env.meshOf p).map (fun x => (x.1, f, b, x.2)) ++ pushedRows env ops
  | _ :: ops => pushedRows env ops

/-- The materials pushed by a history (a sky with the sun up pushes the sun's light). -/
def pushedMaterials : List (SceneOp K) → List (Material K)
  | [] => []
  | .pushMaterial m :: ops => m :: pushedMaterials ops
  | .addPerezSky (some (_, brightness, _)) :: ops => .light ⟨brightness, brightness, brightness⟩ :: pushedMaterials ops
  | _ :: ops => pushedMaterials ops

/-- Index `i` designates a light among `mats`. -/
def IsLight (mats : List (Material K)) (i : Nat) : Prop := ∃ c, mats[i]? = some (.light c)

/-- The primitive is a distant source. -/
def Primitive.isDistant : Primitive K → Bool
  | .source _ _ => true
  | _ => false

open Classical in
/-- The light objects registered by a history that starts with the materials `mats`: each object pushed with a light as its front or
back material, together with whether it is a distant source. -/
noncomputable def pushedLights (mats : List (Material K)) : List (SceneOp K) → List (Bool × Object K)
  | [] => []
  | .pushMaterial m :: ops => pushedLights (mats ++ [m]) ops
  | .pushObject f b p :: ops =>
    (if IsLight mats f ∨ IsLight mats b then [(p.isDistant, ⟨p, f, b⟩)] else []) ++
      pushedLights mats ops
  | .addPerezSky (some (d, brightness, a)) :: ops =>
    (true, ⟨.source d a, mats.length, mats.length⟩) ::
      pushedLights (mats ++ [.light ⟨brightness, brightness, brightness⟩]) ops
  | _ :: ops => pushedLights mats ops

/-- The operation neither builds nor rebuilds the accelerator. -/
def SceneOp.NoBuild : SceneOp K → Prop
  | .build => False
  | .rebuild => False
  | _ => True

end history

end Rendering
