import Verif.Model.TriangleReal
import Verif.Model.Colour

/-!
# /repo/src/ray.rs — rays, and the random numbers

Over ℝ.  A random number generator is the infinite sequence of the numbers it will still produce; theorems quantify over all sequences with values in `[0, 1)`.  Draws of
type `f32` and `f64` are not distinguished.
-/

namespace Rendering

/-- `RandGen` (/repo/src/rand.rs:23): the numbers still to be drawn. -/
abbrev Rng := ℕ → ℝ

/-- `rng.gen::<Float>()`: the number drawn and the generator afterwards. -/
def Rng.gen (r : Rng) : ℝ × Rng := (r 0, fun n => r (n + 1))

/-- `rng.gen::<(Float, Float)>()`. -/
def Rng.gen2 (r : Rng) : (ℝ × ℝ) × Rng := ((r 0, r 1), fun n => r (n + 2))

/-- What `rand` guarantees: uniform draws lie in `[0, 1)`. -/
def Rng.Valid (r : Rng) : Prop := ∀ n, 0 ≤ r n ∧ r n < 1

/-- `Interaction::default()` (derived, /repo/src/interaction.rs:26). -/
def Interaction.default : Interaction :=
  { point := 0, wo := 0, shading := { p := 0, normal := 0, dpdu := 0, dpdv := 0, side := .NonApplicable, u := 0, v := 0 } }

/-- /repo/src/ray.rs:31-49 `Ray`. -/
structure TRay where
  geometry : Ray3 ℝ
  refractionIndex : ℝ
  interaction : Interaction
  depth : Nat
  value : ℝ
  colour : Spectrum ℝ

/-- /repo/src/ray.rs:51-65 `Ray::default`. -/
noncomputable def TRay.default : TRay :=
  { geometry := ⟨0, 0⟩, refractionIndex := 1, interaction := Interaction.default, depth := 0, value := 1, colour := Spectrum.one }

/-- /repo/src/ray.rs:82-88 `get_triad`: point, normal, e1, e2. -/
def TRay.getTriad (r : TRay) : Vec3 ℝ × Vec3 ℝ × Vec3 ℝ × Vec3 ℝ :=
  (r.interaction.point, r.interaction.shading.normal, r.interaction.shading.dpdu, r.interaction.shading.dpdv)

/-- `r > a / b` in floating point, for `b` not negative zero: dividing by zero gives an infinity of the sign of `a`, or NaN, and nothing exceeds NaN. -/
def ExceedsQuotient (r a b : ℝ) : Prop := (b ≠ 0 ∧ r > a / b) ∨ (b = 0 ∧ a < 0)

open Classical in
/-- /repo/src/ray.rs:91-116 `get_n_ambient_samples`: number of samples, the ray and the generator afterwards. -/
noncomputable def TRay.getNAmbientSamples (ray : TRay) (maxAmbientSamples maxDepth : Nat) (limitWeight : ℝ) (rng : Rng) : Nat × TRay × Rng :=
  if maxDepth = 0 ∨ maxAmbientSamples = 0 then (0, ray, rng)
  else if ray.depth = 0 then (maxAmbientSamples, ray, rng)
  else
    let wt := ray.value
    let (r, rng) := rng.gen
    if ExceedsQuotient r wt limitWeight then (0, { ray with value := limitWeight }, rng)
    else (1, ray, rng)

end Rendering
