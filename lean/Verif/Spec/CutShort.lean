import Verif.Model.ColourMatrix

/-!
# What is left of a file if the program stops while writing it
-/

namespace Rendering

/-- What is read of a matrix file that stops in its header: zeros, and as many columns as the digits written so far say. -/
def HeaderOnly {α : Type} (zero : α) (m m' : Mat α) : Prop := ∃ digits n, digits ≠ [] ∧ digits <+: decimal m.ncols ∧ parseUsize digits = some n ∧ m' = Mat.new zero m.nrows n

/-- What is read of a matrix file that stops in row `k`: the rows above, `f` of what they were, zeros below, and in row `k` either zeros only, or every entry but the last one, and `last` relates the last entry to what it was. -/
def StopsInRow {α : Type} (zero : α) (f : α → α) (last : α → α → Prop) (m m' : Mat α) (k : Nat) : Prop :=
  m'.nrows = m.nrows ∧ m'.ncols = m.ncols ∧ k < m.nrows ∧ (∀ r < k, ∀ c < m.ncols, m'.get? r c = (m.get? r c).map f) ∧ (∀ r, k < r → r < m.nrows → ∀ c < m.ncols, m'.get? r c = some zero) ∧
  ((∀ c < m.ncols, m'.get? k c = some zero) ∨ ((∀ c, c + 1 < m.ncols → m'.get? k c = (m.get? k c).map f) ∧ ∀ v, m.get? k (m.ncols - 1) = some v → ∃ v', m'.get? k (m.ncols - 1) = some v' ∧ last v v'))

/-- The number read from the first characters of a text, at least one of them. -/
def ReadFromPart {K : Type} (fmt : NumFmt K) (text : List UInt8) (x : K) : Prop := ∃ part, part ≠ [] ∧ part <+: text ∧ fmt.parse part = some x

end Rendering
