import Verif.Spec.Scene
import Verif.Spec.Radiance

/-!
# What a Radiance text shows

The surfaces and lights of the objects of a text, each with its material.
-/

namespace Rendering
variable {K : Type}

/-- The parts of the objects, in order, each with its material: the first one defined, before the object, under the name of the object's modifier. `defs` are the definitions so far. -/
def partsOf : List (List UInt8 × Material K) → List (RadItem K) → List (Primitive K × Material K)
  | _, [] => []
  | defs, .material name m :: items => partsOf (defs ++ [(name, m)]) items
  | defs, .object modifier parts :: items =>
    (match defs.find? (fun d => d.1 == modifier) with
    | some d => parts.map fun p => (p, d.2)
    | none => []) ++ partsOf defs items

/-- The material is a light. -/
def Material.isLamp : Material K → Bool
  | .light _ => true
  | _ => false

/-- The triangles of the surfaces of the parts, each with its material and vertex normals. -/
def surfacesOf [Field K] (env : SceneEnv K) (parts : List (Primitive K × Material K)) : List (Tri K × Material K × Normals K) :=
  parts.flatMap fun x => (env.meshOf x.1).map fun t => (t.1, x.2, t.2)

/-- The parts that are lights nearby, in order. -/
def lampsOf (parts : List (Primitive K × Material K)) : List (Primitive K × Material K) := parts.filter fun x => x.2.isLamp && !x.1.isDistant

/-- The parts that are distant lights, in order. -/
def distantLampsOf (parts : List (Primitive K × Material K)) : List (Primitive K × Material K) := parts.filter fun x => x.2.isLamp && x.1.isDistant

/-- What a scene holds, with materials in place of their indices. -/
def Scene.surfaces (s : Scene K) : List (Tri K × Option (Material K) × Option (Material K) × Normals K) :=
  s.rows.map fun r => (r.1, s.materials[r.2.1]?, s.materials[r.2.2.1]?, r.2.2.2)

/-- A light of a scene, with materials in place of their indices. -/
def Scene.resolve (s : Scene K) (o : Object K) : Primitive K × Option (Material K) × Option (Material K) := (o.primitive, s.materials[o.front]?, s.materials[o.back]?)

end Rendering
