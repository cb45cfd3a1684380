import Verif.Model.Tracer

/-!
# Turning all lights up by a factor

The same scene in which every light material emits `k` times as much and the sky is `k` times as bright; nothing else differs.
-/

namespace Rendering

/-- A light of `k` times the colour; other materials are left alone. -/
def Material.brighten {K : Type} [Field K] (k : K) : Material K → Material K
  | .light c => .light (c.scale k)
  | m => m

/-- The scene with all its lights turned up. -/
def Scene.brighten {K : Type} [Field K] (k : K) (s : Scene K) : Scene K := { s with materials := s.materials.map (Material.brighten k) }

/-- The same calls with all lights (the sun included) turned up. -/
def SceneOp.brighten {K : Type} [Field K] (k : K) : SceneOp K → SceneOp K
  | .pushMaterial m => .pushMaterial (m.brighten k)
  | .addPerezSky (some (dir, brightness, angle)) => .addPerezSky (some (dir, brightness * k, angle))
  | op => op

/-- The world with all lights and the sky turned up. -/
noncomputable def World.brighten (k : ℝ) (w : World) : World := { w with scene := w.scene.brighten k, sky := w.sky.map fun sky d => sky d * k }

/-- Every object in the two lists of lights has a light material on both its sides. -/
def World.TwoSidedLights (w : World) : Prop :=
  ∀ o ∈ w.scene.lights ++ w.scene.distantLights, ∀ m, w.scene.materials[o.front]? = some m ∨ w.scene.materials[o.back]? = some m → ∃ c, m = .light c

/-- No light material emits anything, and the sky, if there is one, is black in every direction. -/
def World.Unlit (w : World) : Prop := (∀ c, Material.light c ∈ w.scene.materials → c = Spectrum.black) ∧ ∀ sky, w.sky = some sky → ∀ d, sky d = 0

/-- An answer of a tracer with the light multiplied by `k`: same probability, same random numbers used, same panics. -/
noncomputable def scaledBy (k : ℝ) (r : Res ((Spectrum ℝ × ℝ) × Rng)) : Res ((Spectrum ℝ × ℝ) × Rng) := r.bind fun x => .ok ((x.1.1.scale k, x.1.2), x.2)

end Rendering
