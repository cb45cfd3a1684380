import Verif.Spec.RenderingEquation

/-!
# Matt scenes with a sky: what the mean of the tracer is, and what it should be
-/

namespace Rendering

open MeasureTheory Set Classical

/-- The share of the hemisphere over the point where `arrived` arrived (weighted with the cosine) from which nothing of the scene is seen. -/
noncomputable def skyShare (w : World) (m : Material ℝ) (arrived : TRay) : ENNReal :=
  irradiance (fun l => if w.cast (arrived.onward m l) = .ok none then 1 else 0) / ENNReal.ofReal Real.pi

/-- Wherever the ray, or a path of at most `k - 1` reflections that continues it, arrives, something of the scene is seen from there. -/
def World.SeesSurfaces (w : World) : Nat → TRay → Prop
  | 0, _ => True
  | k + 1, ray => ∀ i arrived m, w.cast ray = .ok (some (i, arrived)) → w.materialAt arrived.interaction.shading.side i = .ok m →
      skyShare w m arrived < 1 ∧ ∀ l, Norm l = 1 → 0 < l.z → w.SeesSurfaces k (arrived.onward m l)

/-- Wherever the ray, or a path of at most `k - 1` reflections that continues it, arrives, the share of the hemisphere from which nothing of the scene is seen is at most `q`. -/
def World.SkyAtMost (w : World) (q : ENNReal) : Nat → TRay → Prop
  | 0, _ => True
  | k + 1, ray => ∀ i arrived m, w.cast ray = .ok (some (i, arrived)) → w.materialAt arrived.interaction.shading.side i = .ok m →
      skyShare w m arrived ≤ q ∧ ∀ l, Norm l = 1 → 0 < l.z → w.SkyAtMost q k (arrived.onward m l)

/-- `reflectedLight` with every reflection divided by the share of the hemisphere in which something of the scene is seen. -/
noncomputable def windowLight (w : World) (rt : RayTracer) (ch : Spectrum ℝ → ℝ) : Nat → TRay → ENNReal
  | 0, _ => 0
  | k + 1, ray =>
    match w.cast ray with
    | .ok (some (i, arrived)) =>
      match w.materialAt arrived.interaction.shading.side i with
      | .ok m => sunlightAt w m arrived ch + followChance rt arrived.depth arrived.value * ((1 - skyShare w m arrived)⁻¹ * (ENNReal.ofReal (ch m.colour / Real.pi) * irradiance fun l => windowLight w rt ch k (arrived.onward m l)))
      | _ => 0
    | _ => 0

end Rendering
