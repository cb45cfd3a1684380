import Mathlib.Data.Int.Log
import Mathlib.Data.Rat.Floor
import Mathlib.Algebra.Order.Round

/-!
# A model of the IEEE-754 double precision operations the code performs

Only what is needed to exhibit (or exclude) rounding effects: values are rationals, every operation is the exact one followed by
rounding to 53 significant bits, ties to even.  Overflow, underflow (subnormals), infinities, NaN and signed zeros are not modelled;
all the values it is used for are far from those ranges.
-/

namespace Rendering

/-- Rounding to the nearest integer, ties to even. -/
def roundHalfEven (q : ℚ) : ℤ :=
  let f := ⌊q⌋
  let d := q - f
  if d < 1 / 2 then f else if 1 / 2 < d then f + 1 else if f % 2 = 0 then f else f + 1

/-- Rounding of a rational to `p` significant bits (ties to even). -/
def roundBits (p : Nat) (q : ℚ) : ℚ :=
  if q = 0 then 0
  else
    let ulp : ℚ := 2 ^ (Int.log 2 |q| - ((p : ℤ) - 1))
    (roundHalfEven (q / ulp) : ℚ) * ulp

/-- Double precision: 53 significant bits. -/
def round64 (q : ℚ) : ℚ := roundBits 53 q

/-- A double precision number. -/
structure F64 where
  val : ℚ
deriving DecidableEq, Repr

namespace F64
/-- The double nearest to a decimal literal. -/
def lit (q : ℚ) : F64 := ⟨round64 q⟩
instance : Add F64 := ⟨fun a b => ⟨round64 (a.val + b.val)⟩⟩
instance : Sub F64 := ⟨fun a b => ⟨round64 (a.val - b.val)⟩⟩
instance : Mul F64 := ⟨fun a b => ⟨round64 (a.val * b.val)⟩⟩
instance : Div F64 := ⟨fun a b => ⟨round64 (a.val / b.val)⟩⟩
instance : NatCast F64 := ⟨fun n => ⟨round64 n⟩⟩
instance : LE F64 := ⟨fun a b => a.val ≤ b.val⟩
instance : DecidableLE F64 := fun a b => inferInstanceAs (Decidable (a.val ≤ b.val))
instance : LT F64 := ⟨fun a b => a.val < b.val⟩
instance : DecidableLT F64 := fun a b => inferInstanceAs (Decidable (a.val < b.val))
end F64

example : (F64.lit (1/10) + F64.lit (2/10)) ≠ F64.lit (3/10) := by decide +kernel
example : (F64.lit (1/10)).val = 3602879701896397 / 36028797018963968 := by decide +kernel

end Rendering
