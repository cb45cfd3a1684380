import Verif.Model.Image
import Verif.Model.ColourMapTables

/-!
# /repo/src/image.rs:293-415 — false-colour output

The result modelled is what is handed to the JPEG encoder: the bytes and the two 16-bit sizes.
-/

namespace Rendering

/-- `f64::round`: to the nearest integer, halves away from zero. -/
noncomputable def roundAway (x : ℝ) : ℤ := if 0 ≤ x then ⌊x + 1 / 2⌋ else ⌈x - 1 / 2⌉

/-- /repo/src/image.rs:338-340: the three bytes pushed for one colour. -/
noncomputable def colourBytes (s : Rgb ℝ) : List UInt8 :=
  [realAsU8 (roundAway (s.r * 256)), realAsU8 (roundAway (s.g * 256)), realAsU8 (roundAway (s.b * 256))]

/-- The loop over the pixels' values pushing bytes; a panic in the mapping ends it. -/
noncomputable def pushColours {α : Type} (f : α → Res (Rgb ℝ)) : List α → Res (List UInt8)
  | [] => .ok []
  | x :: xs => (f x).bind fun s => (pushColours f xs).bind fun rest => .ok (colourBytes s ++ rest)

/-- What reaches the JPEG encoder. -/
structure JpegInput where
  data : List UInt8
  width : Nat
  height : Nat

/-- `Encoder::encode(…).unwrap()` of the crate `jpeg-encoder` 0.5, /repo/src/image.rs:343-346 and 411-414: an error — and so a panic — if a side is zero or there is not enough data for the size. -/
def JpegInput.encode (j : JpegInput) : Res JpegInput :=
  if j.width = 0 ∨ j.height = 0 ∨ j.data.length < j.width * j.height * 3 then .panic else .ok j

/-- `usize as u16`. -/
def asU16 (n : Nat) : Nat := n % 65536

/-- /repo/src/image.rs:361-367: lower limit of `save_falsecolour` (`MIN_MIN` is 0). -/
noncomputable def linearMin : Option ℝ → ℝ
  | some v => max v 0
  | none => 0

/-- /repo/src/image.rs:368-393: upper limit of `save_falsecolour`. -/
noncomputable def linearMax (luminance : List ℝ) : Option ℝ → ℝ
  | some v => v
  | none =>
    let m := luminance.foldl (fun m v => if v > m then v else m) 0
    if m ≤ 0 then 2 * 0 else m

/-- /repo/src/image.rs:349-415 `save_falsecolour`. -/
noncomputable def ImageBuffer.saveFalsecolour (im : ImageBuffer) (min max : Option ℝ) (scale : Colourmap) : Res JpegInput :=
  let luminance := im.pixels.map Spectrum.luminance
  let lo := linearMin min
  let hi := linearMax luminance max
  (pushColours (fun x => mapLinearColour x lo hi scale.table) luminance).bind fun data =>
    JpegInput.encode { data, width := asU16 im.width, height := asU16 im.height }

/-- A double that came out of `log10`: a number, minus infinity (of zero) or NaN (of a negative number). -/
inductive LogF where
  | nan
  | negInf
  | fin (x : ℝ)

/-- `f64::log10`. -/
noncomputable def log10F (x : ℝ) : LogF := if 0 < x then .fin (Real.logb 10 x) else if x = 0 then .negInf else .nan

/-- `map_linear_colour` (/repo/src/colourmap/mod.rs:54-80) on values that may be minus infinity or NaN: comparisons with NaN are false;
`min` is always a number here.  With `max` NaN every comparison in the loop is with NaN. -/
noncomputable def mapLogColour (x : LogF) (min : ℝ) (max : LogF) (map : List (Rgb ℝ)) : Res (Rgb ℝ) :=
  match x with
  | .negInf => Res.ofOption map.head?
  | .nan => .panic
  | .fin x =>
    match max with
    | .fin max => mapLinearColour x min max map
    | .negInf => if x ≤ min then Res.ofOption map.head? else Res.ofOption map.getLast?
    | .nan => if x ≤ min then Res.ofOption map.head? else .panic

/-- /repo/src/image.rs:304-310: lower limit (`MIN_MIN` is 0.001). -/
noncomputable def logMin : Option ℝ → ℝ
  | some v => Real.logb 10 (max v (1 / 1000))
  | none => Real.logb 10 (1 / 1000)

/-- `*v > m` for a `v` that came out of `log10`. -/
noncomputable def logMaxStep (m : ℝ) : LogF → ℝ
  | .fin v => if v > m then v else m
  | _ => m

/-- /repo/src/image.rs:311-325: upper limit.  `m` starts at `MIN_MIN`, which is compared with logarithms. -/
noncomputable def logMax (logLuminance : List LogF) : Option ℝ → LogF
  | some v => log10F v
  | none =>
    let m := logLuminance.foldl logMaxStep (1 / 1000)
    if m ≤ 1 / 1000 then .fin (2 * (1 / 1000)) else .fin m

/-- /repo/src/image.rs:294-347 `save_log_falsecolour`. -/
noncomputable def ImageBuffer.saveLogFalsecolour (im : ImageBuffer) (min max : Option ℝ) (scale : Colourmap) : Res JpegInput :=
  let logLuminance := im.pixels.map (fun p => log10F p.luminance)
  let lo := logMin min
  let hi := logMax logLuminance max
  (pushColours (fun x => mapLogColour x lo hi scale.table) logLuminance).bind fun data =>
    JpegInput.encode { data, width := asU16 im.width, height := asU16 im.height }

end Rendering
