import Verif.Lemmas.MeanLight

/-!
# The rendering equation of a matt scene, with a limited number of reflections
-/

namespace Rendering

open MeasureTheory Set

/-- A scene of flat surfaces lit by suns only. -/
structure World.Sunlit (w : World) (s : Scene ℝ) : Prop where
  renders : w.Renders s
  indices : s.IndicesValid
  perp : w.ext.PerpSpec
  box : w.env.bvh.MeasurableBoxTest
  flat : ∀ (j : Nat) (tri : Tri ℝ), s.triangles[j]? = some tri → s.normals[j]? = some ((geometricNormal tri).normalized, (geometricNormal tri).normalized, (geometricNormal tri).normalized)
  sky : w.sky = none
  lamps : s.lights = []
  suns : ∀ sun ∈ s.distantLights, ∃ direction angle L D, w.IsSun s sun direction angle L D ∧ L.Nonneg

/-- As before, and all surfaces are matt. -/
structure World.SunlitMatt (w : World) (s : Scene ℝ) : Prop extends w.Sunlit s where
  matt : ∀ (k : Nat) m, s.materials[k]? = some m → k ∈ s.front ++ s.back → ∃ col r, m ∈ [Material.plastic col 0 r, Material.metal col 0 r] ∧ col.Nonneg

/-- How likely light that was reflected at a further surface is looked for at all, for a path of this depth and weight. -/
noncomputable def followChance (rt : RayTracer) (depth : Nat) (weight : ℝ) : ENNReal :=
  if rt.maxDepth = 0 ∨ rt.nAmbientSamples = 0 then 0
  else if depth = 0 then 1
  else if rt.limitWeight = 0 then 1
  else ENNReal.ofReal (min 1 (weight / rt.limitWeight))

/-- Light of the suns that a surface reflects towards the origin of the ray that arrived there: the mean of what one shadow ray per sun brings. -/
noncomputable def sunlightAt (w : World) (m : Material ℝ) (arrived : TRay) (ch : Spectrum ℝ → ℝ) : ENNReal :=
  ∫⁻ r, brought (w.localIllumination 2 m arrived r 1) ch ∂randomNumbers

/-- The path from where `arrived` arrived into the direction `l` (in the coordinates of the surface). -/
noncomputable def TRay.onward (arrived : TRay) (m : Material ℝ) (l : Vec3 ℝ) : TRay :=
  { arrived with
    geometry := ⟨arrived.interaction.point + arrived.interaction.shading.normal.scale (1 / 10 ^ 5), worldOf arrived.interaction.shading.dpdu arrived.interaction.shading.dpdv arrived.interaction.shading.normal l⟩
    depth := arrived.depth + 1
    value := arrived.value * m.colour.radiance }

/-- Light, in one channel, that arrives along a ray after at most `k` reflections: the sunlight reflected by the surface the ray meets, and what that surface reflects (`colour / π`) of the light that arrives
there after at most `k - 1` reflections (weighted with `followChance`). -/
noncomputable def reflectedLight (w : World) (rt : RayTracer) (ch : Spectrum ℝ → ℝ) : Nat → TRay → ENNReal
  | 0, _ => 0
  | k + 1, ray =>
    match w.cast ray with
    | .ok (some (i, arrived)) =>
      match w.materialAt arrived.interaction.shading.side i with
      | .ok m => sunlightAt w m arrived ch + followChance rt arrived.depth arrived.value * (ENNReal.ofReal (ch m.colour / Real.pi) * irradiance fun l => reflectedLight w rt ch k (arrived.onward m l))
      | _ => 0
    | _ => 0

end Rendering
