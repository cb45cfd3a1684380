import Verif.Spec.RenderingEquation
import Verif.Model.DcTracer

/-!
# The sky that is seen along a ray, directly and by reflection
-/

namespace Rendering

/-- What is seen, in one channel, of patch `j` of the sky along a ray, if the patch has radiance 1 and the rest of the sky is dark: 1 or 0 if nothing is in the way, and otherwise what the surface met by the ray reflects (`colour / π`) of the light that
arrives there, after at most `k` reflections. -/
noncomputable def skySeen (w : World) (bin : Vec3 ℝ → Nat) (ch : Spectrum ℝ → ℝ) (j : Nat) : Nat → Ray3 ℝ → ENNReal
  | 0, view =>
    match w.cast { TRay.default with geometry := view } with
    | .ok none => if bin view.direction = j then 1 else 0
    | _ => 0
  | k + 1, view =>
    match w.cast { TRay.default with geometry := view } with
    | .ok none => if bin view.direction = j then 1 else 0
    | .ok (some (i, arrived)) =>
      match w.materialAt arrived.interaction.shading.side i with
      | .ok m => ENNReal.ofReal (ch m.colour / Real.pi) * irradiance fun l => skySeen w bin ch j k (arrived.onward m l).geometry
      | _ => 0
    | _ => 0

/-- The light of a sky of radiance `sky`, in one channel, that arrives along a ray directly or by at most `k` reflections. -/
noncomputable def skyLight (w : World) (sky : Vec3 ℝ → ENNReal) (ch : Spectrum ℝ → ℝ) : Nat → Ray3 ℝ → ENNReal
  | 0, view =>
    match w.cast { TRay.default with geometry := view } with
    | .ok none => sky view.direction
    | _ => 0
  | k + 1, view =>
    match w.cast { TRay.default with geometry := view } with
    | .ok none => sky view.direction
    | .ok (some (i, arrived)) =>
      match w.materialAt arrived.interaction.shading.side i with
      | .ok m => ENNReal.ofReal (ch m.colour / Real.pi) * irradiance fun l => skyLight w sky ch k (arrived.onward m l).geometry
      | _ => 0
    | _ => 0

end Rendering
