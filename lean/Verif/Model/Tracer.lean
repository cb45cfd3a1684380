import Verif.Model.Ward

/-!
# /repo/src/ray_tracer.rs — `RayTracer::trace_ray` and the functions it calls

Over ℝ.  `Res.diverge` means that the fuel ran out; theorems about termination quantify over the fuel.  `aux.nodes`, the scratch memory of the accelerator, is passed as
`[]`: its contents do not matter (C06).  `debug_assert!`s and the debug-only message about missed lights are not modelled.
-/

namespace Rendering

open Classical

/-- Everything `trace_ray` reads: the scene, the external functions, the sky (`Scene::sky`, `Scene::sky_colour`, /repo/src/scene.rs:73-79). -/
structure World where
  scene : Scene ℝ
  env : SceneEnv ℝ
  ext : GeoExt
  dt : DirTests
  sky : Option (Vec3 ℝ → ℝ)
  skyColour : Option (Spectrum ℝ)

/-- /repo/src/ray_tracer.rs:50-57 `RayTracer`. -/
structure RayTracer where
  maxDepth : Nat
  nShadowSamples : Nat
  nAmbientSamples : Nat
  limitWeight : ℝ
  countSpecularBounce : ℝ

/-- What tracing changes besides the ray: the generator and `aux.rays` (/repo/src/ray_tracer.rs:36-39). -/
structure TState where
  rng : Rng
  rays : List TRay

/-- /repo/src/scene.rs:210-216 with /repo/src/bvh.rs:619-626: `scene.cast_ray(ray, nodes)`: the triangle hit, and the ray with the interaction recorded on it. -/
noncomputable def World.cast (w : World) (ray : TRay) : Res (Option (Nat × TRay)) :=
  (w.scene.castRay w.env ray.geometry []).bind fun r =>
    match r with
    | none => .ok none
    | some (i, b) =>
      (Res.ofOption w.scene.triangles[i]?).bind fun tri =>
        .ok (some (i, { ray with interaction := recordedInteraction tri ray.geometry b }))

/-- `&scene.materials[scene.front_material_indexes[triangle_index]]` and its `back` counterpart, /repo/src/ray_tracer.rs:82-92. -/
noncomputable def World.materialAt (w : World) (side : SurfaceSide) (i : Nat) : Res (Material ℝ) :=
  match side with
  | .Front => (Res.ofOption w.scene.front[i]?).bind fun k => Res.ofOption w.scene.materials[k]?
  | .Back => (Res.ofOption w.scene.back[i]?).bind fun k => Res.ofOption w.scene.materials[k]?
  | .NonApplicable => .panic

/-- /repo/src/ray_tracer.rs:415-454 `intersect_light`. -/
noncomputable def World.intersectLight (w : World) (light : Object ℝ) (shadowRay : Ray3 ℝ) : Res (Option (Spectrum ℝ × ℝ)) :=
  match w.ext.primIntersect light.primitive shadowRay with
  | none => .ok none
  | some info =>
    let d2 := (shadowRay.origin - info.p).lengthSq
    (w.scene.unobstructedDistance w.env shadowRay d2 []).bind fun free =>
      if !free then .ok (some (Spectrum.black, 0))
      else
        match info.side with
        | .NonApplicable => .ok (some (Spectrum.black, 0))
        | .Front => (Res.ofOption w.scene.materials[light.front]?).bind fun m =>
            (light.primitive.solidAnglePdf info shadowRay).bind fun pdf => .ok (some (m.colour, pdf))
        | .Back => (Res.ofOption w.scene.materials[light.back]?).bind fun m =>
            (light.primitive.solidAnglePdf info shadowRay).bind fun pdf => .ok (some (m.colour, pdf))

/-- The contribution of one unobstructed light sample, /repo/src/ray_tracer.rs:230-242. -/
noncomputable def World.lightTerm (w : World) (m : Material ℝ) (ray : TRay) (n : Nat) (normal e1 e2 direction : Vec3 ℝ) (lightColour : Spectrum ℝ) (lightPdf : ℝ) : Res (Spectrum ℝ) :=
  let cosTheta := |normal.dot direction|
  let vout := direction.scale (-1)
  (m.evalBsdf w.dt normal e1 e2 ray vout).bind fun bsdf => .ok (((lightColour.scale cosTheta) * bsdf).divBy ((n : ℝ) * lightPdf))

/-- /repo/src/ray_tracer.rs:211-254: the `while i < n` loop over the samples of one light. -/
noncomputable def World.lightLoop (w : World) (m : Material ℝ) (ray : TRay) (n : Nat) (pt normal e1 e2 : Vec3 ℝ) (light : Object ℝ) :
    Nat → Nat → Spectrum ℝ → Rng → Res (Spectrum ℝ × Rng)
  | 0, _, _, _ => .diverge
  | fuel + 1, i, acc, rng =>
    if i < n then
      (light.primitive.sampleDirection w.ext rng pt).bind fun (direction, rng) =>
        (w.intersectLight light ⟨pt, direction⟩).bind fun r =>
          match r with
          | some (colour, pdf) =>
            if pdf < 1 / 10 ^ 18 then w.lightLoop m ray n pt normal e1 e2 light fuel (i + 1) acc rng
            else (w.lightTerm m ray n normal e1 e2 direction colour pdf).bind fun t =>
              w.lightLoop m ray n pt normal e1 e2 light fuel (i + 1) (acc + t) rng
          | none => w.lightLoop m ray n pt normal e1 e2 light fuel i acc rng
    else .ok (acc, rng)

/-- /repo/src/ray_tracer.rs:209-255: the loop over lights. -/
noncomputable def World.lightsLoop (w : World) (fuel : Nat) (m : Material ℝ) (ray : TRay) (n : Nat) (pt normal e1 e2 : Vec3 ℝ) :
    List (Object ℝ) → Spectrum ℝ → Rng → Res (Spectrum ℝ × Rng)
  | [], acc, rng => .ok (acc, rng)
  | light :: rest, acc, rng =>
    (w.lightLoop m ray n pt normal e1 e2 light fuel 0 acc rng).bind fun (acc, rng) => w.lightsLoop fuel m ray n pt normal e1 e2 rest acc rng

/-- /repo/src/ray_tracer.rs:191-258 `sample_light_array`. -/
noncomputable def World.sampleLightArray (w : World) (fuel : Nat) (m : Material ℝ) (ray : TRay) (rng : Rng) (n : Nat) (lights : List (Object ℝ)) : Res (Spectrum ℝ × Rng) :=
  let (pt, normal, e1, e2) := ray.getTriad
  let pt := pt + normal.scale (1 / 1000)
  w.lightsLoop fuel m ray n pt normal e1 e2 lights Spectrum.black rng

/-- /repo/src/ray_tracer.rs:262-292 `get_local_illumination`. -/
noncomputable def World.localIllumination (w : World) (fuel : Nat) (m : Material ℝ) (ray : TRay) (rng : Rng) (n : Nat) : Res (Spectrum ℝ × Rng) :=
  (w.sampleLightArray fuel m ray rng n w.scene.lights).bind fun (close, rng) =>
    (w.sampleLightArray fuel m ray rng n w.scene.distantLights).bind fun (distant, rng) => .ok (close + distant, rng)

/-- The type of `trace_ray`: light, probability, the ray and the state afterwards. -/
abbrev TraceFn := TState → TRay → Res ((Spectrum ℝ × ℝ) × TRay × TState)

/-- /repo/src/ray_tracer.rs:121-140: tracing the paths out of a specular surface; `self` is the recursive call. -/
noncomputable def specularLoop (self : TraceFn) (csb : ℝ) : List (TRay × Spectrum ℝ) → TRay → Spectrum ℝ → TState → Res (Spectrum ℝ × TRay × TState)
  | [], ray, li, st => .ok (li, ray, st)
  | (newRay, bsdf) :: rest, ray, acc, st =>
    let ray := { ray with value := ray.value * bsdf.radiance }
    let (q, rng) := st.rng.gen
    let newRay := if q < csb then { newRay with depth := newRay.depth + 1 } else newRay
    (self { st with rng := rng } newRay).bind fun ((li, _), _, st) => specularLoop self csb rest ray (acc + li * bsdf) st

/-- `paths.iter().flatten()`. -/
def Paths.toList (p : Paths) : List (TRay × Spectrum ℝ) := p.1.toList ++ p.2.toList

/-- /repo/src/ray_tracer.rs:318-350: the `while count < n` loop of `get_global_illumination`; `depth` is the depth at which the copy of the ray was stored in `aux.rays`. -/
noncomputable def globalLoop (self : TraceFn) (m : Material ℝ) (n depth : Nat) (pt normal e1 e2 : Vec3 ℝ) :
    Nat → Nat → Spectrum ℝ → TRay → TState → Res (Spectrum ℝ × TRay × TState)
  | 0, _, _, _, _ => .diverge
  | fuel + 1, count, global, ray, st =>
    if count < n then
      (m.sampleBsdf fuel normal e1 e2 pt ray st.rng).bind fun ((bsdf, rayPdf), ray, rng) =>
        let cosTheta := |normal.dot ray.geometry.direction|
        let ray := { ray with depth := ray.depth + 1, value := ray.value * (bsdf.radiance * cosTheta / rayPdf) }
        (self { st with rng := rng } ray).bind fun ((li, lightPdf), _, st) =>
          (Res.ofOption st.rays[depth]?).bind fun saved =>
            if lightPdf > 0 then globalLoop self m n depth pt normal e1 e2 fuel count global saved st
            else
              let fx := (li * bsdf).scale cosTheta
              globalLoop self m n depth pt normal e1 e2 fuel (count + 1) (global + fx.divBy rayPdf) saved st
    else .ok (global, ray, st)

/-- /repo/src/ray_tracer.rs:294-353 `get_global_illumination`. -/
noncomputable def globalIllumination (self : TraceFn) (fuel : Nat) (m : Material ℝ) (n : Nat) (ray : TRay) (st : TState) : Res (Spectrum ℝ × TRay × TState) :=
  if n = 0 then .ok (Spectrum.black, ray, st)
  else
    let (pt, normal, e1, e2) := ray.getTriad
    if ray.depth < st.rays.length then
      (globalLoop self m n ray.depth pt normal e1 e2 fuel 0 Spectrum.black ray { st with rays := st.rays.set ray.depth ray }).bind fun (g, ray, st) =>
        .ok (g.divBy (n : ℝ), ray, st)
    else .panic

/-- /repo/src/ray_tracer.rs:94-174: what happens at a surface of material `m` (triangle `i`), after the cast. -/
noncomputable def surfaceStep (w : World) (rt : RayTracer) (fuel : Nat) (self : TraceFn) (i : Nat) (m : Material ℝ) (ray : TRay) (st : TState) :
    Res ((Spectrum ℝ × ℝ) × TRay × TState) :=
  let (pt, normal, _, _) := ray.getTriad
  if m.emitsLight then
    (Res.ofOption w.scene.triangles[i]?).bind fun tri =>
      .ok ((m.colour, triangleSolidAnglePdf tri pt ray.interaction.shading.normal ray.geometry), ray, st)
  else if ray.depth > rt.maxDepth then .ok ((Spectrum.black, 0), ray, st)
  else
    (Res.ofOption w.scene.normals[i]?).bind fun (n0, n1, n2) =>
      let ray := { ray with interaction := ray.interaction.interpolateNormal n0 n1 n2 }
      if m.specularOnly then
        (m.getPossiblePaths normal pt ray).bind fun paths =>
          (specularLoop self rt.countSpecularBounce paths.toList ray Spectrum.black st).bind fun (li, ray, st) =>
            .ok ((li, 0), { ray with colour := ray.colour * li }, st)
      else
        let (nAmbient, ray, rng) := ray.getNAmbientSamples rt.nAmbientSamples rt.maxDepth rt.limitWeight st.rng
        let nShadow := if ray.depth = 0 then rt.nShadowSamples else 1
        (w.localIllumination fuel m ray rng nShadow).bind fun (loc, rng) =>
          (globalIllumination self fuel m nAmbient ray { st with rng := rng }).bind fun (global, ray, st) =>
            .ok ((loc + global, 0), ray, st)

/-- /repo/src/ray_tracer.rs:175-187: the ray hit nothing. -/
noncomputable def missStep (w : World) (ray : TRay) (st : TState) : Res ((Spectrum ℝ × ℝ) × TRay × TState) :=
  match w.sky with
  | some sky =>
    let b := sky ray.geometry.direction
    let colour := w.skyColour.getD (Spectrum.gray 1)
    .ok ((colour.scale b, 1 / 2 / Real.pi), { ray with colour := ray.colour * colour.scale b }, st)
  | none => .ok ((Spectrum.black, 0), ray, st)

/-- /repo/src/ray_tracer.rs:74-188 `trace_ray`, with `self` for the recursive calls. -/
noncomputable def traceStep (w : World) (rt : RayTracer) (fuel : Nat) (self : TraceFn) : TraceFn := fun st ray =>
  (w.cast ray).bind fun hit =>
    match hit with
    | some (i, ray) =>
      if ray.interaction.shading.side = .NonApplicable then .ok ((Spectrum.black, 0), ray, st)
      else (w.materialAt ray.interaction.shading.side i).bind fun m => surfaceStep w rt fuel self i m ray st
    | none => missStep w ray st

/-- /repo/src/ray_tracer.rs:74-188 `trace_ray`. -/
noncomputable def traceRay (w : World) (rt : RayTracer) : Nat → TraceFn
  | 0 => fun _ _ => .diverge
  | fuel + 1 => traceStep w rt fuel (traceRay w rt fuel)

/-- `RayTracerHelper::default()`, /repo/src/ray_tracer.rs:41-48: fifteen rays. -/
noncomputable def defaultRays : List TRay := List.replicate 15 TRay.default

end Rendering
