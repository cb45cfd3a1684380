import Verif.Model.ColourMatrix

/-!
# What the header of a matrix file says
-/

namespace Rendering

/-- A line that ends the header: empty, or beginning with white space. -/
def BlankLine (line : List UInt8) : Prop := line = [] ∨ ∃ b rest, line = b :: rest ∧ isAsciiWhitespace b = true

/-- The line is `key…=n`, with one `=` only. -/
def Says (key : String) (line : List UInt8) (n : Nat) : Prop := ∃ more digits, line = bytes key ++ more ++ 61 :: digits ∧ 61 ∉ more ∧ 61 ∉ digits ∧ parseUsize digits = some n

/-- The last line of the header that begins with `key` says `n`. -/
def LastSays (key : String) (header : List (List UInt8)) (n : Nat) : Prop := ∃ before line after, header = before ++ line :: after ∧ Says key line n ∧ ∀ l ∈ after, ¬ bytes key <+: l

/-- The header of a matrix file: its lines up to the first blank one (or the end).  It announces the sizes, every line about sizes and components is in the form `key=number`, and the number of components is the expected one.  `dataLines` are the lines after the blank one. -/
def Announces (comps : Nat) (content : List UInt8) (nrows ncols : Nat) (dataLines : List (List UInt8)) : Prop :=
  ∃ header rest, linesOf content = header ++ rest ∧ dataLines = rest.tail ∧ (∀ l ∈ header, ¬ BlankLine l) ∧ (∀ l ∈ rest.head?, BlankLine l) ∧
    LastSays "NROWS" header nrows ∧ LastSays "NCOLS" header ncols ∧
    ∀ l ∈ header, (bytes "NROWS" <+: l → ∃ n, Says "NROWS" l n) ∧ (bytes "NCOLS" <+: l → ∃ n, Says "NCOLS" l n) ∧ (bytes "NCOMP" <+: l → Says "NCOMP" l comps)

end Rendering
