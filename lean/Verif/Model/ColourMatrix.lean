import Verif.Model.Matrix
import Verif.Model.Bytes
import Verif.Model.Colour

/-!
# /repo/src/colour_matrix.rs

Files are byte strings (`read_to_string` rejects invalid UTF-8 with an error; the functions below start from the decoded text).  Printing
and parsing of floating point numbers (`{}`, `{:.5}` and `parse::<f64>`) are parameters.  `Option` is the `Result<_, String>` of the
code, with the message dropped; panics are `Res.panic`.
-/

namespace Rendering
variable {K : Type}

/-- Floating point formatting and parsing, from the standard library. -/
structure NumFmt (K : Type) where
  /-- `format!("{}", x)` -/
  display : K → List UInt8
  /-- `format!("{:.5}", x)` -/
  fixed5 : K → List UInt8
  /-- `str::parse::<Float>()` -/
  parse : List UInt8 → Option K

/-- `str::lines()`: pieces ended by `\n`, the last one possibly not; a `\r` before the `\n` is dropped. -/
def stripCr (l : List UInt8) : List UInt8 := if l.getLast? = some 13 then l.dropLast else l
def linesOf (content : List UInt8) : List (List UInt8) :=
  let pieces := splitOnByte (· == 10) content
  pieces.dropLast.map stripCr ++ (match pieces.getLast? with
    | some [] => []
    | some l => [l]
    | none => [])

/-- `str::split_ascii_whitespace()`. -/
def words (line : List UInt8) : List (List UInt8) := (splitOnByte isAsciiWhitespace line).filter (· ≠ [])

/-! ### Conversions -/

section
variable [Field K]

/-- /repo/src/colour_matrix.rs:29-34 `average_matrix`. -/
def averageMatrix (dc : Mat K) : Res (Mat K) :=
  let averageOperator := Mat.new (1 / (dc.nrows : K)) 1 dc.nrows
  averageOperator.mul dc

/-- The double loop of /repo/src/colour_matrix.rs:39-44 and 52-57 over the listed positions. -/
def convertLoop (f : Spectrum K → K) (cm : Mat (Spectrum K)) : Mat K → List (Nat × Nat) → Res (Mat K)
  | ret, [] => .ok ret
  | ret, (row, col) :: rest =>
    match cm.get? row col with
    | none => .panic
    | some colour => (ret.set row col (f colour)).bind fun ret => convertLoop f cm ret rest

/-- `for row in 0..nrows { for col in 0..ncols {` -/
def positions (nrows ncols : Nat) : List (Nat × Nat) :=
  (List.range nrows).flatMap (fun row => (List.range ncols).map (fun col => (row, col)))

/-- /repo/src/colour_matrix.rs:36-46 `colour_matrix_to_radiance`. -/
def colourMatrixToRadiance (cm : Mat (Spectrum K)) : Res (Mat K) :=
  convertLoop Spectrum.radiance cm (Mat.new 0 cm.nrows cm.ncols) (positions cm.nrows cm.ncols)

/-- /repo/src/colour_matrix.rs:48-58 `colour_matrix_to_luminance`. -/
def colourMatrixToLuminance (cm : Mat (Spectrum K)) : Res (Mat K) :=
  convertLoop Spectrum.luminance cm (Mat.new 0 cm.nrows cm.ncols) (positions cm.nrows cm.ncols)
end

/-! ### Writing -/

/-- `writeln!`: the line and a newline. -/
def ln (l : List UInt8) : List UInt8 := l ++ [10]

/-- /repo/src/colour.rs:118-122 `Display for Spectrum`. -/
def spectrumText (fmt : NumFmt K) (s : Spectrum K) : List UInt8 :=
  fmt.fixed5 s.c0 ++ [32] ++ fmt.fixed5 s.c1 ++ [32] ++ fmt.fixed5 s.c2

/-- The file layout shared by /repo/src/colour_matrix.rs:60-85 and 87-112: header with `NCOMP=ncomp`, then one line per row, each entry
followed by a tab.  An out-of-range `get` would panic; it cannot happen for a matrix with as many entries as its shape says. -/
def saveText {α : Type} (text : α → List UInt8) (ncomp : List UInt8) (cm : Mat α) : List UInt8 :=
  ln (bytes "#?SIMPLE") ++ ln (bytes "NROWS=" ++ decimal cm.nrows) ++ ln (bytes "NCOLS=" ++ decimal cm.ncols) ++
  ln (bytes "NCOMP=" ++ ncomp) ++ ln (bytes "FORMAT=ascii") ++ ln [] ++
  (List.range cm.nrows).flatMap (fun r =>
    ln ((List.range cm.ncols).flatMap (fun c =>
      match cm.get? r c with
      | some v => text v ++ [9]
      | none => [])))

/-- /repo/src/colour_matrix.rs:60-85 `save_colour_matrix`. -/
def saveColourMatrix (fmt : NumFmt K) (cm : Mat (Spectrum K)) : List UInt8 := saveText (spectrumText fmt) (bytes "3") cm

/-- /repo/src/colour_matrix.rs:87-112 `save_matrix`. -/
def saveMatrix (fmt : NumFmt K) (m : Mat K) : List UInt8 := saveText fmt.display (bytes "1") m

/-! ### Reading -/

/-- What one header line says: `none` is an error return. -/
inductive MHeader where
  | nrows (n : Nat)
  | ncols (n : Nat)
  | skip
deriving DecidableEq

/-- /repo/src/colour_matrix.rs:137-151 (and similarly for the other keys): the number after the only `=`. -/
def headerNumber (line : List UInt8) : Option Nat :=
  match splitOnByte (· == 61) line with
  | [_, v] => parseUsize v
  | _ => none

/-- /repo/src/colour_matrix.rs:137-189 / 293-345: one header line, expecting `ncomp` components. -/
def mHeaderLine (ncomp : Nat) (line : List UInt8) : Option MHeader :=
  if startsWith (bytes "NROWS") line then (headerNumber line).map .nrows
  else if startsWith (bytes "NCOLS") line then (headerNumber line).map .ncols
  else if startsWith (bytes "NCOMP") line then
    match headerNumber line with
    | none => none
    | some n => if n ≠ ncomp then none else some .skip
  else some .skip

/-- The header loop (/repo/src/colour_matrix.rs:130-190, 286-346): sizes found so far and the number of lines consumed;
`none` is an error return. -/
def mHeader (ncomp : Nat) : List (List UInt8) → Option Nat → Option Nat → Nat → Option (Option Nat × Option Nat × Nat)
  | [], nrows, ncols, n => some (nrows, ncols, n)
  | line :: rest, nrows, ncols, n =>
    if line.isEmpty || isAsciiWhitespace line.head! then some (nrows, ncols, n + 1)
    else match mHeaderLine ncomp line with
      | none => none
      | some (.nrows v) => mHeader ncomp rest (some v) ncols (n + 1)
      | some (.ncols v) => mHeader ncomp rest nrows (some v) (n + 1)
      | some .skip => mHeader ncomp rest nrows ncols (n + 1)

/-- `values[i].parse::<Float>()`: `ok none` is the error return, an index out of range panics. -/
def parseAt (fmt : NumFmt K) (values : List (List UInt8)) (i : Nat) : Res (Option K) :=
  match values[i]? with
  | none => .panic
  | some v => .ok (fmt.parse v)

/-- /repo/src/colour_matrix.rs:224-251: one entry of a colour matrix. -/
def parseColour (fmt : NumFmt K) (values : List (List UInt8)) (ncol : Nat) : Res (Option (Spectrum K)) :=
  (parseAt fmt values (3 * ncol)).bind fun
    | none => .ok none
    | some red => (parseAt fmt values (3 * ncol + 1)).bind fun
      | none => .ok none
      | some green => (parseAt fmt values (3 * ncol + 2)).bind fun
        | none => .ok none
        | some blue => .ok (some ⟨red, green, blue⟩)

/-- The `while ncol < ncols` loop of one row (/repo/src/colour_matrix.rs:222-262 and 378-391); `todo` is `ncols - ncol`. -/
def readRow {α : Type} (entry : Nat → Res (Option α)) (nrow : Nat) : Nat → Nat → Mat α → Res (Option (Mat α))
  | 0, _, m => .ok (some m)
  | todo + 1, ncol, m =>
    (entry ncol).bind fun
      | none => .ok none
      | some v => (m.set nrow ncol v).bind fun m => readRow entry nrow todo (ncol + 1) m

/-- The loop over the data lines (/repo/src/colour_matrix.rs:211-263, 367-392). -/
def readRows {α : Type} (comps ncols : Nat) (entry : List (List UInt8) → Nat → Res (Option α)) :
    Nat → List (List UInt8) → Mat α → Res (Option (Mat α))
  | _, [], m => .ok (some m)
  | nrow, line :: rest, m =>
    let values := words line
    if values.length ≠ comps * ncols then .ok none
    else (readRow (entry values) nrow ncols 0 m).bind fun
      | none => .ok none
      | some m => readRows comps ncols entry (nrow + 1) rest m

/-- The part common to the two readers, after the file is read. -/
def readGeneric {α : Type} (zero : α) (comps : Nat) (entry : List (List UInt8) → Nat → Res (Option α)) (content : List UInt8) :
    Res (Option (Mat α)) :=
  let lines := linesOf content
  match mHeader comps lines none none 0 with
  | none => .ok none
  | some (nrows, ncols, headerLines) =>
    match nrows, ncols with
    | some nrows, some ncols => readRows comps ncols entry 0 (lines.drop headerLines) (Mat.new zero nrows ncols)
    | _, _ => .ok none

/-- /repo/src/colour_matrix.rs:114-266 `read_colour_matrix`. -/
def readColourMatrix [Field K] (fmt : NumFmt K) (content : List UInt8) : Res (Option (Mat (Spectrum K))) :=
  readGeneric Spectrum.black 3 (parseColour fmt) content

/-- /repo/src/colour_matrix.rs:268-397 `read_matrix`. -/
def readMatrix [Field K] (fmt : NumFmt K) (content : List UInt8) : Res (Option (Mat K)) :=
  if content.isEmpty then .ok none
  else readGeneric 0 1 (parseAt fmt) content

end Rendering
