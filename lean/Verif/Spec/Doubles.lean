import Verif.Model.RgbeFloat
import Mathlib.Data.Real.Basic
import Mathlib.Data.Int.Log
import Mathlib.Data.Real.Archimedean

/-!
# What an accurate mathematics library returns
-/

namespace Rendering

/-- A number with at most 53 significant bits. -/
def IsDouble (q : ℚ) : Prop := ∃ m k : ℤ, |m| < 2 ^ 53 ∧ q = m * 2 ^ k

/-- The distance between neighbouring doubles near `y`. -/
noncomputable def ulp (y : ℝ) : ℝ := 2 ^ (Int.log 2 |y| - 52)

/-- `r` is a double as near to `y` as the usual libraries guarantee: 0.55 units in the last place (the nearest double is within 0.5). -/
def NearlyRounded (r : ℚ) (y : ℝ) : Prop := IsDouble r ∧ |(r : ℝ) - y| ≤ 11 / 20 * ulp y

/-- The library returns doubles within 0.55 units in the last place of the true values. -/
structure Libm.Accurate (lib : Libm) : Prop where
  log2 : ∀ x : F64, 0 < x.val → NearlyRounded (lib.log2 x).val (Real.logb 2 x.val)
  exp2 : ∀ x : F64, NearlyRounded (lib.exp2 x).val ((2 : ℝ) ^ (x.val : ℝ))

end Rendering
