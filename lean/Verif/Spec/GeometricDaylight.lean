import Verif.Spec.GeometricLight
import Verif.Spec.SkyThrough

/-!
# Daylight in a matt scene, in geometric terms
-/

namespace Rendering

open MeasureTheory Set

/-- The light of a sky of radiance `sky`, in one channel, that comes back along a ray: the sky itself where the ray meets nothing, and otherwise `colour / π` of what arrives, weighted with its cosine, over the hemisphere
of the surface that the ray meets, directly or by at most `k` reflections in all. -/
noncomputable def Scene.daylight (s : Scene ℝ) (S : Sight) (axes : Axes) (ch : Spectrum ℝ → ℝ) (sky : Vec3 ℝ → ENNReal) : Nat → Ray3 ℝ → ENNReal
  | 0, view =>
    match S.meets view with
    | none => sky view.direction
    | some _ => 0
  | k + 1, view =>
    match S.meets view with
    | none => sky view.direction
    | some (j, p) =>
      match s.sideSeen j view.direction with
      | none => 0
      | some (N, colour) => ENNReal.ofReal (ch colour / Real.pi) * ∫⁻ q in Ioo (0 : ℝ) 1 ×ˢ Ioo 0 (2 * Real.pi), s.daylight S axes ch sky k ⟨p + N.scale (1 / 10 ^ 5), axes.around N q.1 q.2⟩ * ENNReal.ofReal q.1

/-- What a sensor receives of it: the integral over the hemisphere into which the sensor looks, weighted with the cosine. -/
noncomputable def Scene.daylightAt (s : Scene ℝ) (S : Sight) (axes : Axes) (ch : Spectrum ℝ → ℝ) (sky : Vec3 ℝ → ENNReal) (k : Nat) (sensor : Ray3 ℝ) : ENNReal :=
  ∫⁻ q in Ioo (0 : ℝ) 1 ×ˢ Ioo 0 (2 * Real.pi), s.daylight S axes ch sky k ⟨sensor.origin, axes.around sensor.direction q.1 q.2⟩ * ENNReal.ofReal q.1

end Rendering
