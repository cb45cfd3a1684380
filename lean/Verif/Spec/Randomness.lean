import Verif.Model.Ray
import Mathlib.MeasureTheory.Measure.Lebesgue.Basic
import Mathlib.Probability.ProductMeasure

/-!
# Specification vocabulary: endless sequences of independent uniform random numbers

Nothing here refers to the code that draws them.
-/

namespace Rendering

open MeasureTheory Set

/-- The law of an endless sequence of independent random numbers, each uniform between 0 and 1. -/
noncomputable def randomNumbers : Measure (ℕ → ℝ) := Measure.infinitePi fun _ : ℕ => volume.restrict (Ico (0 : ℝ) 1)

/-- The probability of an event that depends on an endless sequence of random numbers. -/
noncomputable def Chance (event : (ℕ → ℝ) → Prop) : ENNReal := randomNumbers {r | event r}

/-- The event has probability one (its contrary has probability zero). -/
def AlmostSurely (event : (ℕ → ℝ) → Prop) : Prop := Chance (fun r => ¬ event r) = 0

end Rendering
