import Verif.Spec.FalseColour
import Verif.Spec.Doubles
import Verif.Model.F64
import Verif.Model.Colour

/-!
# Specification of C136: colours that are nearly right
-/

namespace Rendering

/-- No channel of the two colours differs by more than `ε`. -/
def ChannelsWithin (ε : ℝ) (a b : Rgb ℝ) : Prop := |a.r - b.r| ≤ ε ∧ |a.g - b.g| ≤ ε ∧ |a.b - b.b| ≤ ε

/-- `c` is, but for a millionth in each channel, the colour of `x` on the scale from `lo` to `hi`. -/
def NearlyScaleColour (table : List (Rgb ℝ)) (lo hi x : ℝ) (c : Rgb ℝ) : Prop :=
  ∃ c', ScaleColour table lo hi x c' ∧ ChannelsWithin (1 / 1000000) c c'

/-- `c` is, but for two millionths in each channel, the colour of `x` on the scale from `lo` to `hi`. -/
def RoughlyScaleColour (table : List (Rgb ℝ)) (lo hi x : ℝ) (c : Rgb ℝ) : Prop :=
  ∃ c', ScaleColour table lo hi x c' ∧ ChannelsWithin (2 / 1000000) c c'

/-- The channels of a pixel are not negative. -/
def NotNegative (p : Spectrum F64) : Prop := 0 ≤ p.c0.val ∧ 0 ≤ p.c1.val ∧ 0 ≤ p.c2.val

end Rendering
