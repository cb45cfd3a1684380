import Verif.Model.ColourMap
import Mathlib.Data.Real.Basic
import Mathlib.Order.Bounds.Basic

/-!
# Specification of false colours

Nothing here refers to the code that maps or saves images (only to the type of colours).
-/

namespace Rendering

/-- `c` is the colour of `x` on a scale from `lo` to `hi` whose colours are those of `table`, equally spaced: the first at or below `lo`, the last at or above `hi`, a mixture of the two neighbours in between. -/
def ScaleColour (table : List (Rgb ℝ)) (lo hi x : ℝ) (c : Rgb ℝ) : Prop :=
  (x ≤ lo ∧ table.head? = some c) ∨ (hi ≤ x ∧ table.getLast? = some c) ∨
  ∃ (i : Nat) (a b : Rgb ℝ) (t : ℝ), table[i]? = some a ∧ table[i + 1]? = some b ∧ 0 ≤ t ∧ t ≤ 1 ∧ x = lo + (i + t) * ((hi - lo) / (table.length - 1)) ∧
    c = ⟨(1 - t) * a.r + t * b.r, (1 - t) * a.g + t * b.g, (1 - t) * a.b + t * b.b⟩

/-- The lower end of the scale: the one asked for, but not below `least`; `least` if none was asked for. -/
def LowerEnd (least : ℝ) (asked : Option ℝ) (lo : ℝ) : Prop :=
  (asked = none ∧ lo = least) ∨ ∃ v, asked = some v ∧ ((v < least ∧ lo = least) ∨ (least ≤ v ∧ lo = v))

/-- The upper end of the scale: the one asked for; the brightest value if none was asked for. -/
def UpperEnd (values : List ℝ) (asked : Option ℝ) (hi : ℝ) : Prop :=
  asked = some hi ∨ (asked = none ∧ hi ∈ values ∧ ∀ v ∈ values, v ≤ hi)

/-- The byte is the whole number nearest to 256 times the channel, or 255 if that is 256. -/
def ByteOf (x : ℝ) (b : UInt8) : Prop := ∃ k : ℤ, |(k : ℝ) - 256 * x| ≤ 1 / 2 ∧ (b.toNat : ℤ) = min 255 k

/-- The `i`-th pixel of uncompressed RGB data has the colour `c`. -/
def PixelHas (data : List UInt8) (i : Nat) (c : Rgb ℝ) : Prop :=
  ∃ r g b, data[3 * i]? = some r ∧ data[3 * i + 1]? = some g ∧ data[3 * i + 2]? = some b ∧ ByteOf c.r r ∧ ByteOf c.g g ∧ ByteOf c.b b

/-- Uncompressed RGB data holds one pixel for each value, in order, and each has a colour of its value. -/
def ColoursOf (colour : ℝ → Rgb ℝ → Prop) (values : List ℝ) (data : List UInt8) : Prop :=
  data.length = 3 * values.length ∧ ∀ (i : Nat) (v : ℝ), values[i]? = some v → ∃ c, colour v c ∧ PixelHas data i c

end Rendering
