import Verif.Model.Tracer

/-!
# What path tracing is supposed to compute

A tracer without scratch memory, in which rays are values: every ambient sample is drawn for the ray that arrived at the surface (`arriving`), and
nothing a sample does can change that ray.  It shares with the model the casting of rays, the materials and the shadow rays, which have specifications of their own.
-/

namespace Rendering

open Classical

/-- Tracing a ray with a generator: light, probability, and the generator afterwards. -/
abbrev RefTrace := Rng → TRay → Res ((Spectrum ℝ × ℝ) × Rng)

/-- The sum over the specular paths of the light that arrives along each times its weight; a path counts as a bounce with probability `csb`. -/
noncomputable def refSpecular (self : RefTrace) (csb : ℝ) : List (TRay × Spectrum ℝ) → Rng → Res (Spectrum ℝ × Rng)
  | [], rng => .ok (Spectrum.black, rng)
  | (path, weight) :: rest, rng =>
    let path := if rng 0 < csb then { path with depth := path.depth + 1 } else path
    (self rng.gen.2 path).bind fun ((light, _), rng) =>
      (refSpecular self csb rest rng).bind fun (others, rng) => .ok (light * weight + others, rng)

/-- Ambient samples at the point where `arriving` arrived, until `n` of them have not met a light: the sum of the values of the `n`. -/
noncomputable def refAmbient (self : RefTrace) (m : Material ℝ) (arriving : TRay) : Nat → Nat → Rng → Res (Spectrum ℝ × Rng)
  | 0, _, _ => .diverge
  | _ + 1, 0, rng => .ok (Spectrum.black, rng)
  | fuel + 1, n + 1, rng =>
    let shading := arriving.interaction.shading
    (m.sampleBsdf fuel shading.normal shading.dpdu shading.dpdv arriving.interaction.point arriving rng).bind fun ((bsdf, pdf), out, rng) =>
      let cosTheta := |shading.normal.dot out.geometry.direction|
      (self rng { arriving with geometry := out.geometry, depth := arriving.depth + 1, value := arriving.value * (bsdf.radiance * cosTheta / pdf) }).bind fun ((light, lightPdf), rng) =>
        if lightPdf > 0 then refAmbient self m arriving fuel (n + 1) rng
        else (refAmbient self m arriving fuel n rng).bind fun (others, rng) => .ok (((light * bsdf).scale cosTheta).divBy pdf + others, rng)

/-- Light leaving a surface of material `m` (triangle `i`) towards the origin of the ray that arrived there. -/
noncomputable def refSurface (w : World) (rt : RayTracer) (fuel : Nat) (self : RefTrace) (i : Nat) (m : Material ℝ) (ray : TRay) (rng : Rng) : Res ((Spectrum ℝ × ℝ) × Rng) :=
  let hit := ray.interaction
  if m.emitsLight then
    (Res.ofOption w.scene.triangles[i]?).bind fun tri => .ok ((m.colour, triangleSolidAnglePdf tri hit.point hit.shading.normal ray.geometry), rng)
  else if ray.depth > rt.maxDepth then .ok ((Spectrum.black, 0), rng)
  else
    (Res.ofOption w.scene.normals[i]?).bind fun (n0, n1, n2) =>
      let ray := { ray with interaction := hit.interpolateNormal n0 n1 n2 }
      if m.specularOnly then
        (m.getPossiblePaths hit.shading.normal hit.point ray).bind fun paths =>
          (refSpecular self rt.countSpecularBounce paths.toList rng).bind fun (light, rng) => .ok ((light, 0), rng)
      else
        let (n, ray, rng) := ray.getNAmbientSamples rt.nAmbientSamples rt.maxDepth rt.limitWeight rng
        (w.localIllumination fuel m ray rng (if ray.depth = 0 then rt.nShadowSamples else 1)).bind fun (direct, rng) =>
          if n = 0 then .ok ((direct + Spectrum.black, 0), rng)
          else (refAmbient self m ray fuel n rng).bind fun (sum, rng) => .ok ((direct + sum.divBy (n : ℝ), 0), rng)

/-- Light arriving along a ray. -/
noncomputable def refTrace (w : World) (rt : RayTracer) : Nat → RefTrace
  | 0 => fun _ _ => .diverge
  | fuel + 1 => fun rng ray =>
    (w.cast ray).bind fun hit =>
      match hit with
      | some (i, ray) =>
        if ray.interaction.shading.side = .NonApplicable then .ok ((Spectrum.black, 0), rng)
        else (w.materialAt ray.interaction.shading.side i).bind fun m => refSurface w rt fuel (refTrace w rt fuel) i m ray rng
      | none =>
        match w.sky with
        | some sky => .ok (((w.skyColour.getD (Spectrum.gray 1)).scale (sky ray.geometry.direction), 1 / 2 / Real.pi), rng)
        | none => .ok ((Spectrum.black, 0), rng)

end Rendering

namespace Rendering

/-- What a caller of `trace_ray` observes: the light, the probability and the generator afterwards (not the scratch memory). -/
def outcome (r : Res ((Spectrum ℝ × ℝ) × TRay × TState)) : Res ((Spectrum ℝ × ℝ) × Rng) := r.bind fun x => .ok (x.1, x.2.2.rng)

/-- `trace_ray` with an assertion at its start, here and in every recursive call: the ray's depth is at most `limit`. -/
noncomputable def traceRayAsserting (w : World) (rt : RayTracer) (limit : Nat) : Nat → TraceFn
  | 0 => fun st ray => if ray.depth ≤ limit then .diverge else .panic
  | fuel + 1 => fun st ray => if ray.depth ≤ limit then traceStep w rt fuel (traceRayAsserting w rt limit fuel) st ray else .panic

end Rendering
