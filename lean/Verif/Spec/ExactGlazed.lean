import Verif.Spec.Glazed

/-!
# The rendering equation with mirrors, panes of glass and dielectrics, without a limit on the number of reflections
-/

namespace Rendering

/-- Light that comes back along a ray in a medium of refraction index `η`, when the light in the scene is `L` (a radiance for every point, direction of view and medium): a matt surface sends the sunlight it reflects and `colour / π` of the light that arrives there;
a mirror, pane or dielectric sends the light that arrives along the paths it offers, times their weights. -/
noncomputable def World.glazedBack (w : World) (ch : Spectrum ℝ → ℝ) (L : Ray3 ℝ → ℝ → ENNReal) (view : Ray3 ℝ) (η : ℝ) : ENNReal :=
  match w.cast { TRay.default with geometry := view, refractionIndex := η } with
  | .ok (some (i, arrived)) =>
    match w.materialAt arrived.interaction.shading.side i with
    | .ok m =>
      if m.specularOnly then ((offered m arrived).map fun x => ENNReal.ofReal (ch x.2) * L x.1.geometry x.1.refractionIndex).sum
      else sunlightAt w m arrived ch + ENNReal.ofReal (ch m.colour / Real.pi) * irradiance fun l => L (arrived.onward m l).geometry η
    | _ => 0
  | _ => 0

/-- `L` solves the equation: along every ray, in every medium, it is the light that comes back. -/
def World.SolvesGlazedEquation (w : World) (ch : Spectrum ℝ → ℝ) (L : Ray3 ℝ → ℝ → ENNReal) : Prop :=
  ∀ (view : Ray3 ℝ) (η : ℝ), Norm view.direction = 1 → 0 < η → L view η = w.glazedBack ch L view η

end Rendering
