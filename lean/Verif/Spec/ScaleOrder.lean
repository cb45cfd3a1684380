import Verif.Spec.FalseColour
import Verif.Model.ColourMapTables

/-!
# How bright a colour of a scale looks
-/

namespace Rendering

/-- Relative brightness of a screen colour: the weights of ITU-R BT.709. -/
noncomputable def brightness (c : Rgb ℝ) : ℝ := 2126 / 10000 * c.r + 7152 / 10000 * c.g + 722 / 10000 * c.b

/-- The brightness of the `i`-th pixel of uncompressed RGB data, from 0 to 255. -/
def PixelBrightness (data : List UInt8) (i : Nat) (v : ℝ) : Prop :=
  ∃ r g b : UInt8, data[3 * i]? = some r ∧ data[3 * i + 1]? = some g ∧ data[3 * i + 2]? = some b ∧ v = 2126 / 10000 * r.toNat + 7152 / 10000 * g.toNat + 722 / 10000 * b.toNat

/-- Two pixels of uncompressed RGB data are the same. -/
def SamePixel (data : List UInt8) (i k : Nat) : Prop := data[3 * i]? = data[3 * k]? ∧ data[3 * i + 1]? = data[3 * k + 1]? ∧ data[3 * i + 2]? = data[3 * k + 2]?

/-- Within a thousandth in every channel. -/
def Nearly (c d : Rgb ℝ) : Prop := |c.r - d.r| ≤ 1 / 1000 ∧ |c.g - d.g| ≤ 1 / 1000 ∧ |c.b - d.b| ≤ 1 / 1000

/-- The first colours of the published scales, to three decimals. -/
noncomputable def scaleStart : Colourmap → Rgb ℝ
  | .inferno => ⟨1 / 1000, 0, 14 / 1000⟩
  | .magma => ⟨1 / 1000, 0, 14 / 1000⟩
  | .plasma => ⟨50 / 1000, 30 / 1000, 528 / 1000⟩
  | .viridis => ⟨267 / 1000, 5 / 1000, 329 / 1000⟩
  | .radiance => ⟨434 / 1000, 31 / 1000, 516 / 1000⟩

/-- The last colours of the published scales, to three decimals. -/
noncomputable def scaleEnd : Colourmap → Rgb ℝ
  | .inferno => ⟨988 / 1000, 998 / 1000, 645 / 1000⟩
  | .magma => ⟨987 / 1000, 991 / 1000, 750 / 1000⟩
  | .plasma => ⟨940 / 1000, 975 / 1000, 131 / 1000⟩
  | .viridis => ⟨993 / 1000, 906 / 1000, 144 / 1000⟩
  | .radiance => ⟨992 / 1000, 984 / 1000, 156 / 1000⟩

end Rendering
