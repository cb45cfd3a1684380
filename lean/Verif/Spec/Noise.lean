import Verif.Props.SunShadow

/-!
# The noise of a random quantity
-/

namespace Rendering

open MeasureTheory

/-- The mean squared distance of a random quantity from its mean. -/
noncomputable def noiseOf {Ω : Type} [MeasurableSpace Ω] (μ : Measure Ω) (f : Ω → ENNReal) : ENNReal := ∫⁻ ω, ENNReal.ofReal (((f ω).toReal - (∫⁻ ω', f ω' ∂μ).toReal) ^ 2) ∂μ

/-- Settings with these numbers of samples. -/
def RayTracer.withCounts (rt : RayTracer) (nShadow nAmbient : Nat) : RayTracer := { rt with nShadowSamples := nShadow, nAmbientSamples := nAmbient }

end Rendering
