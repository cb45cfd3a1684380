import Verif.Spec.RenderingEquation
import Verif.Spec.Safety

/-!
# Light in scenes with mirrors, panes of glass and dielectrics
-/

namespace Rendering

/-- A scene lit by suns only in which every surface is matt, or a mirror, a pane of glass or a dielectric. -/
structure World.SunlitGlazed (w : World) (s : Scene ℝ) : Prop extends w.Sunlit s where
  surfaces : ∀ (k : Nat) m, s.materials[k]? = some m → k ∈ s.front ++ s.back → (∃ col r, m ∈ [Material.plastic col 0 r, Material.metal col 0 r] ∧ col.Nonneg) ∨ m.specularOnly = true ∧ m.Physical

/-- The probability that the passage through (or reflection at) a mirror, glass or dielectric counts as a bounce. -/
noncomputable def countedChance (rt : RayTracer) : ENNReal := ENNReal.ofReal (min 1 rt.countSpecularBounce)

/-- The paths that a mirror, pane or dielectric offers to the ray that arrived there, with their weights. -/
noncomputable def offered (m : Material ℝ) (arrived : TRay) : List (TRay × Spectrum ℝ) :=
  match m.getPossiblePaths arrived.interaction.shading.normal arrived.interaction.point arrived with
  | .ok paths => paths.toList
  | _ => []

/-- The path, one bounce deeper. -/
def TRay.counted (ray : TRay) : TRay := { ray with depth := ray.depth + 1 }

/-- Every path that may be followed from this ray ends (in the open, or because it is too deep) within `n` steps. -/
def World.EndsWithin (w : World) (rt : RayTracer) : Nat → TRay → Prop
  | 0, _ => False
  | n + 1, ray =>
    match w.cast ray with
    | .ok (some (i, arrived)) =>
      match w.materialAt arrived.interaction.shading.side i with
      | .ok m => ray.depth ≤ rt.maxDepth →
        if m.specularOnly then ∀ x ∈ offered m arrived, (0 < rt.countSpecularBounce → w.EndsWithin rt n x.1.counted) ∧ (rt.countSpecularBounce < 1 → w.EndsWithin rt n x.1)
        else ∀ l, Norm l = 1 → w.EndsWithin rt n (arrived.onward m l)
      | _ => True
    | _ => True

/-- The ray meets at most `b` mirrors, panes or dielectrics in a row. -/
def World.SpecularRow (w : World) : Nat → TRay → Prop
  | 0, ray =>
    match w.cast ray with
    | .ok (some (i, arrived)) =>
      match w.materialAt arrived.interaction.shading.side i with
      | .ok m => m.specularOnly = false
      | _ => True
    | _ => True
  | b + 1, ray =>
    match w.cast ray with
    | .ok (some (i, arrived)) =>
      match w.materialAt arrived.interaction.shading.side i with
      | .ok m => m.specularOnly = true → ∀ x ∈ offered m arrived, w.SpecularRow b x.1
      | _ => True
    | _ => True

/-- Light, in one channel, that arrives along a ray over at most `n` surfaces.  A matt surface sends the sunlight it reflects and what it reflects of the light that arrives there; a mirror, pane or dielectric sends the light that arrives
along the paths it offers, times their weights. -/
noncomputable def glazedLight (w : World) (rt : RayTracer) (ch : Spectrum ℝ → ℝ) : Nat → TRay → ENNReal
  | 0, _ => 0
  | n + 1, ray =>
    match w.cast ray with
    | .ok (some (i, arrived)) =>
      match w.materialAt arrived.interaction.shading.side i with
      | .ok m =>
        if rt.maxDepth < ray.depth then 0
        else if m.specularOnly then
          ((offered m arrived).map fun x => ENNReal.ofReal (ch x.2) * (countedChance rt * glazedLight w rt ch n x.1.counted + (1 - countedChance rt) * glazedLight w rt ch n x.1)).sum
        else sunlightAt w m arrived ch + followChance rt arrived.depth arrived.value * (ENNReal.ofReal (ch m.colour / Real.pi) * irradiance fun l => glazedLight w rt ch n (arrived.onward m l))
      | _ => 0
    | _ => 0

end Rendering
