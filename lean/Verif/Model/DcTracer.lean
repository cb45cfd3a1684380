import Verif.Model.Tracer
import Verif.Model.Matrix
import Verif.Model.Render

/-!
# /repo/src/daylight_coefficients.rs — `DCFactory::calc_dc` and its `trace_ray`

Over ℝ.  `solar::ReinhartSky` is external: its number of bins and `dir_to_bin`.  `Res.diverge` means that the fuel ran out.  Every call of `get_rng()` gives a generator of
its own: `primary i` for the sensor ray `i`, `secondary i k` for its sample `k`.  `debug_assert!`s are not modelled.
-/

namespace Rendering

open Classical

/-- /repo/src/daylight_coefficients.rs:39-46 `DCFactory`; `nBins` and `dirToBin` belong to its `ReinhartSky`. -/
structure DcFactory where
  nBins : Nat
  dirToBin : Vec3 ℝ → Nat
  maxDepth : Nat
  nAmbientSamples : Nat
  limitWeight : ℝ
  countSpecularBounce : ℝ

/-- What tracing changes besides the ray: the generator, `aux.rays` and the matrix of contributions. -/
structure DState where
  rng : Rng
  rays : List TRay
  contribution : Mat (Spectrum ℝ)

/-- The type of `DCFactory::trace_ray`: the ray and the state afterwards. -/
abbrev DcFn := DState → TRay → Res (TRay × DState)

/-- /repo/src/daylight_coefficients.rs:221-238: the loop over specular paths. -/
noncomputable def dcSpecularLoop (self : DcFn) (csb : ℝ) : List (TRay × Spectrum ℝ) → DState → Res DState
  | [], st => .ok st
  | (newRay, bsdf) :: rest, st =>
    let newRay := { newRay with colour := newRay.colour * bsdf, value := newRay.value * bsdf.radiance }
    let (q, rng) := st.rng.gen
    let newRay := if q < csb then { newRay with depth := newRay.depth + 1 } else newRay
    (self { st with rng := rng } newRay).bind fun (_, st) => dcSpecularLoop self csb rest st

/-- /repo/src/daylight_coefficients.rs:253-275: the loop over ambient samples; `ray` is the same object throughout. `fuel` is for the rejection loop of `sample_bsdf`. -/
noncomputable def dcAmbientLoop (self : DcFn) (m : Material ℝ) (fuel : Nat) (pt normal e1 e2 : Vec3 ℝ) : Nat → TRay → DState → Res (TRay × DState)
  | 0, ray, st => .ok (ray, st)
  | n + 1, ray, st =>
    (m.sampleBsdf fuel normal e1 e2 pt ray st.rng).bind fun ((bsdf, weight), ray, rng) =>
      let cosTheta := |normal.dot ray.geometry.direction|
      let ray := { ray with colour := ray.colour * (bsdf.scale cosTheta).divBy weight, depth := ray.depth + 1 }
      (self { st with rng := rng } ray).bind fun (ray, st) => dcAmbientLoop self m fuel pt normal e1 e2 n ray st

/-- /repo/src/daylight_coefficients.rs:198-275: what happens at triangle `i`, after the cast and the first test of the depth. -/
noncomputable def dcSurfaceStep (w : World) (dc : DcFactory) (fuel : Nat) (self : DcFn) (i : Nat) (ray : TRay) (st : DState) : Res (TRay × DState) :=
  if ray.interaction.shading.side = .NonApplicable then .ok (ray, st)
  else
    (w.materialAt ray.interaction.shading.side i).bind fun m =>
      if ray.depth > dc.maxDepth ∨ m.emitsDirectLight then .ok (ray, st)
      else
        let (pt, normal, _, _) := ray.getTriad
        (Res.ofOption w.scene.normals[i]?).bind fun (n0, n1, n2) =>
          let ray := { ray with interaction := ray.interaction.interpolateNormal n0 n1 n2 }
          if m.specularOnly then
            (m.getPossiblePaths normal pt ray).bind fun paths =>
              (dcSpecularLoop self dc.countSpecularBounce paths.toList st).bind fun st => .ok (ray, st)
          else
            let (n, ray, rng) := ray.getNAmbientSamples dc.nAmbientSamples dc.maxDepth dc.limitWeight st.rng
            if ray.depth < st.rays.length then
              let (_, normal, e1, e2) := ray.getTriad
              dcAmbientLoop self m fuel pt normal e1 e2 n ray { st with rng := rng, rays := st.rays.set ray.depth ray }
            else .panic

/-- /repo/src/daylight_coefficients.rs:276-299: the ray hit nothing. -/
noncomputable def dcMissStep (dc : DcFactory) (ray : TRay) (st : DState) : Res (TRay × DState) :=
  let bin := dc.dirToBin ray.geometry.direction
  (Res.ofOption (st.contribution.get? 0 bin)).bind fun old =>
    (st.contribution.set 0 bin (old + (Spectrum.one * ray.colour).divBy (dc.nAmbientSamples : ℝ))).bind fun c => .ok (ray, { st with contribution := c })

/-- /repo/src/daylight_coefficients.rs:183-300 `trace_ray`. -/
noncomputable def dcTraceRay (w : World) (dc : DcFactory) : Nat → DcFn
  | 0 => fun _ _ => .diverge
  | fuel + 1 => fun st ray =>
    (w.cast ray).bind fun hit =>
      match hit with
      | some (i, ray) => if ray.depth > dc.maxDepth then .ok (ray, st) else dcSurfaceStep w dc fuel (dcTraceRay w dc fuel) i ray st
      | none => dcMissStep dc ray st

/-- `ColourMatrix::new(BLACK, 1, n_bins)`. -/
noncomputable def DcFactory.blank (dc : DcFactory) : Mat (Spectrum ℝ) := Mat.new Spectrum.black 1 dc.nBins

/-- /repo/src/daylight_coefficients.rs:80-90: the local directions of the samples of one sensor ray. -/
noncomputable def dcDirections : Nat → Rng → List (Vec3 ℝ)
  | 0, _ => []
  | n + 1, rng =>
    let (d, rng) := sampleCosineHemisphere rng
    d :: dcDirections n rng

/-- /repo/src/daylight_coefficients.rs:100-152: the contribution of one sample. -/
noncomputable def dcSample (w : World) (dc : DcFactory) (fuel : Nat) (origin e1 e2 normal localDir : Vec3 ℝ) (rng : Rng) : Res (Mat (Spectrum ℝ)) :=
  let newDir := localToWorld e1 e2 normal 0 localDir.x localDir.y localDir.z
  let ray : TRay := { TRay.default with geometry := ⟨origin, newDir⟩, colour := Spectrum.gray Real.pi }
  (dcTraceRay w dc fuel ⟨rng, defaultRays, dc.blank⟩ ray).bind fun (_, st) => .ok st.contribution

/-- `ret += v` on matrices: entry by entry; different shapes panic. -/
noncomputable def Mat.addAssign (a b : Mat (Spectrum ℝ)) : Res (Mat (Spectrum ℝ)) :=
  if a.nrows = b.nrows ∧ a.ncols = b.ncols then .ok { a with data := List.zipWith (· + ·) a.data b.data } else .panic

/-- /repo/src/daylight_coefficients.rs:156-161: the sum of the contributions. -/
noncomputable def dcSum : Mat (Spectrum ℝ) → List (Mat (Spectrum ℝ)) → Res (Mat (Spectrum ℝ))
  | ret, [] => .ok ret
  | ret, v :: rest => (ret.addAssign v).bind fun ret => dcSum ret rest

/-- Mapping a fallible function over a list, in order. -/
def mapRes {A B : Type} (f : A → Res B) : List A → Res (List B)
  | [] => .ok []
  | a :: rest => (f a).bind fun b => (mapRes f rest).bind fun bs => .ok (b :: bs)

/-- /repo/src/daylight_coefficients.rs:77-163: the row of one sensor ray. -/
noncomputable def dcRow (w : World) (dc : DcFactory) (fuel : Nat) (sensor : Ray3 ℝ) (primary : Rng) (secondary : Nat → Rng) : Res (Mat (Spectrum ℝ)) :=
  let normal := sensor.direction
  (Res.ofOption (w.ext.perp normal)).bind fun e2 =>
    let e1 := e2.cross normal
    (mapRes (fun (k, d) => dcSample w dc fuel sensor.origin e1 e2 normal d (secondary k)) ((dcDirections dc.nAmbientSamples primary).zipIdx.map Prod.swap)).bind fun contributions =>
      dcSum dc.blank contributions

/-- /repo/src/daylight_coefficients.rs:171-174: copying a contribution into row `i` of the result, from bin `b` on. -/
noncomputable def dcCopyRow (contribution : Mat (Spectrum ℝ)) (i : Nat) : List Nat → Mat (Spectrum ℝ) → Res (Mat (Spectrum ℝ))
  | [], ret => .ok ret
  | b :: rest, ret => (Res.ofOption (contribution.get? 0 b)).bind fun v => (ret.set i b v).bind fun ret => dcCopyRow contribution i rest ret

/-- /repo/src/daylight_coefficients.rs:169-175. -/
noncomputable def dcCopyRows (nBins : Nat) : Nat → List (Mat (Spectrum ℝ)) → Mat (Spectrum ℝ) → Res (Mat (Spectrum ℝ))
  | _, [], ret => .ok ret
  | i, c :: rest, ret => (dcCopyRow c i (List.range nBins) ret).bind fun ret => dcCopyRows nBins (i + 1) rest ret

/-- /repo/src/daylight_coefficients.rs:63-178 `calc_dc`. -/
noncomputable def calcDc (w : World) (dc : DcFactory) (fuel : Nat) (rays : List (Ray3 ℝ)) (primary : Nat → Rng) (secondary : Nat → Nat → Rng) : Res (Mat (Spectrum ℝ)) :=
  (mapRes (fun (i, ray) => dcRow w dc fuel ray (primary i) (secondary i)) (rays.zipIdx.map Prod.swap)).bind fun dcs =>
    dcCopyRows dc.nBins 0 dcs (Mat.new Spectrum.black rays.length dc.nBins)

/-- What the task of sample `k` of a sensor ray computes, /repo/src/daylight_coefficients.rs:77-152. -/
noncomputable def dcTask (w : World) (dc : DcFactory) (fuel : Nat) (sensor : Ray3 ℝ) (primary : Rng) (k : Nat) (rng : Rng) : Res (Mat (Spectrum ℝ)) :=
  (Res.ofOption (w.ext.perp sensor.direction)).bind fun e2 =>
    (Res.ofOption (dcDirections dc.nAmbientSamples primary)[k]?).bind fun d => dcSample w dc fuel sensor.origin (e2.cross sensor.direction) e2 sensor.direction d rng

/-- The parallel loop of `calc_dc` as interleaved workers (`Model/Render.lean`): one worker per sample of every sensor ray; number `i * n_ambient_samples + k` is sample `k` of ray `i`. -/
noncomputable def dcLoop (w : World) (dc : DcFactory) (fuel : Nat) (rays : List (Ray3 ℝ)) (primary : Nat → Rng) : Loop Rng (Res (Mat (Spectrum ℝ))) where
  n := rays.length * dc.nAmbientSamples
  total := rays.length * dc.nAmbientSamples
  compute := fun t rng => ((Res.ofOption rays[t / dc.nAmbientSamples]?).bind fun sensor => dcTask w dc fuel sensor (primary (t / dc.nAmbientSamples)) (t % dc.nAmbientSamples) rng, rng)

/-- The state in which the workers start; nothing computed is represented by `diverge`. -/
noncomputable def dcInit (dc : DcFactory) (secondary : Nat → Nat → Rng) : RState Rng (Res (Mat (Spectrum ℝ))) where
  workers := fun t => ⟨t, [t], .compute, secondary (t / dc.nAmbientSamples) (t % dc.nAmbientSamples)⟩
  mem := fun _ => .diverge
  counter := 0
  counterLock := none
  lastProgress := 0
  progressLock := none
  log := []
  writes := []

end Rendering
