import Verif.Lemmas.World

/-!
# Scenes in which nothing can go wrong, and scenes of physical materials
-/

namespace Rendering

/-- The computation does not panic, and what it returns (if it does) satisfies `P`. -/
def Res.Holds {α : Type} (P : α → Prop) : Res α → Prop
  | .ok x => P x
  | .panic => False
  | .diverge => True

/-- No channel is negative. -/
def Spectrum.Nonneg (c : Spectrum ℝ) : Prop := 0 ≤ c.c0 ∧ 0 ≤ c.c1 ∧ 0 ≤ c.c2

/-- All channels are between zero and one. -/
def Spectrum.Fraction (c : Spectrum ℝ) : Prop := c.Nonneg ∧ c.c0 ≤ 1 ∧ c.c1 ≤ 1 ∧ c.c2 ≤ 1

/-- Plastics and metals without a glossy part. -/
def Material.NotGlossy : Material ℝ → Prop
  | .plastic _ specularity _ => specularity = 0
  | .metal _ specularity _ => specularity = 0
  | _ => True

/-- The primitive is one that shadow rays can be sent to: not a cylinder, and a distant source has a direction. -/
def Primitive.CanBeSampled : Primitive ℝ → Prop
  | .cylinder _ _ _ => False
  | .source direction _ => 0 < Dot direction direction
  | _ => True

/-- The scene has been built, all material indices are valid and lights can be sampled. -/
structure World.Solid (w : World) (s : Scene ℝ) : Prop where
  renders : w.Renders s
  indices : s.IndicesValid
  perp : w.ext.PerpSpec
  lights : ∀ o ∈ s.lights ++ s.distantLights, o.primitive.CanBeSampled

/-- As before, and no material is glossy. -/
structure World.Sound (w : World) (s : Scene ℝ) : Prop extends w.Solid s where
  matt : ∀ m ∈ s.materials, m.NotGlossy

/-- Settings for direct light only: no ambient sample is taken. -/
def RayTracer.DirectOnly (rt : RayTracer) : Prop := rt.maxDepth = 0 ∨ rt.nAmbientSamples = 0

/-- Constants of a material that make physical sense. -/
def Material.Physical : Material ℝ → Prop
  | .plastic c specularity _ => c.Nonneg ∧ 0 ≤ specularity ∧ specularity ≤ 1
  | .metal c specularity _ => c.Nonneg ∧ 0 ≤ specularity ∧ specularity ≤ 1
  | .light c => c.Nonneg
  | .mirror c => c.Nonneg
  | .dielectric c n => c.Nonneg ∧ 0 < n
  | .glass c n => c.Fraction ∧ 0 < n

/-- All constants make physical sense, the sky is nowhere negative and surfaces are flat-shaded (triangles, not spheres). -/
structure World.Physical (w : World) (s : Scene ℝ) : Prop where
  materials : ∀ m ∈ s.materials, m.Physical
  sky : ∀ sky, w.sky = some sky → ∀ d, 0 ≤ sky d
  skyColour : ∀ c, w.skyColour = some c → c.Nonneg
  flat : ∀ (j : Nat) (tri : Tri ℝ), s.triangles[j]? = some tri → s.normals[j]? = some ((geometricNormal tri).normalized, (geometricNormal tri).normalized, (geometricNormal tri).normalized)

/-- A call that keeps a scene solid: objects (and suns) that shadow rays can be sent to. -/
def SceneOp.Solid : SceneOp ℝ → Prop
  | .pushObject _ _ p => p.CanBeSampled
  | .addPerezSky (some (d, _, _)) => 0 < Dot d d
  | _ => True

/-- A call that keeps a scene sound: materials that are not glossy, objects (and suns) that shadow rays can be sent to. -/
def SceneOp.Harmless : SceneOp ℝ → Prop
  | .pushMaterial m => m.NotGlossy
  | .pushObject _ _ p => p.CanBeSampled
  | .addPerezSky (some (d, _, _)) => 0 < Dot d d
  | _ => True

/-- A call that keeps a scene physical: materials that make physical sense, no spheres, and a sun that is not negative. -/
def SceneOp.Physical : SceneOp ℝ → Prop
  | .pushMaterial m => m.Physical
  | .pushObject _ _ (.sphere _ _) => False
  | .addPerezSky (some (_, brightness, _)) => 0 ≤ brightness
  | _ => True

/-- Every direction that is drawn towards a light meets the light. -/
def World.LightsMet (w : World) : Prop :=
  ∀ o ∈ w.scene.lights ++ w.scene.distantLights, ∀ (pt d : Vec3 ℝ) (rng rng' : Rng), o.primitive.sampleDirection w.ext rng pt = .ok (d, rng') → w.ext.primIntersect o.primitive ⟨pt, d⟩ ≠ none

/-- Every bounce off a mirror or through glass counts, or there are no such surfaces. -/
def BouncesCount (s : Scene ℝ) (csb : ℝ) : Prop := 1 ≤ csb ∨ ∀ m ∈ s.materials, m.specularOnly = false

/-- Specular bounces count with positive probability; and with a probability of at least a half if there is a surface that splits rays in two (glass or dielectric). -/
def BouncesCountOften (s : Scene ℝ) (csb : ℝ) : Prop := 0 < csb ∧ (1 / 2 ≤ csb ∨ ∀ m ∈ s.materials, m.specularOnly = true → ∃ c, m = .mirror c)

/-- No ambient sample is ever taken, or none of them can meet a light. -/
def World.AmbientEnds (w : World) (s : Scene ℝ) (rt : RayTracer) : Prop := (rt.maxDepth = 0 ∨ rt.nAmbientSamples = 0) ∨ (w.sky = none ∧ ∀ m ∈ s.materials, m.emitsLight = false)

end Rendering
