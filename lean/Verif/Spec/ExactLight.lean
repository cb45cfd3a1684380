import Verif.Spec.RenderingEquation

/-!
# The rendering equation without a limit on the number of reflections
-/

namespace Rendering

/-- Light that comes back along a ray when the light in the scene is `L` (a radiance for every point and direction of view): the sunlight that the surface met by the ray reflects, and what that surface reflects
(`colour / π`) of the light that arrives there. Nothing comes back along a ray that meets no surface. -/
noncomputable def World.lightBack (w : World) (ch : Spectrum ℝ → ℝ) (L : Ray3 ℝ → ENNReal) (view : Ray3 ℝ) : ENNReal :=
  match w.cast { TRay.default with geometry := view } with
  | .ok (some (i, arrived)) =>
    match w.materialAt arrived.interaction.shading.side i with
    | .ok m => sunlightAt w m arrived ch + ENNReal.ofReal (ch m.colour / Real.pi) * irradiance fun l => L (arrived.onward m l).geometry
    | _ => 0
  | _ => 0

/-- `L` solves the rendering equation: along every ray it is the light that comes back. -/
def World.SolvesRenderingEquation (w : World) (ch : Spectrum ℝ → ℝ) (L : Ray3 ℝ → ENNReal) : Prop :=
  ∀ view : Ray3 ℝ, Norm view.direction = 1 → L view = w.lightBack ch L view

end Rendering
