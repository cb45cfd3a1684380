import Verif.Model.Image
import Verif.Model.F64
import Mathlib.Analysis.SpecialFunctions.Log.Base

/-!
# `rusty_frexp`, `colour_to_rgbe` and `rgbe_to_colour` of /repo/src/image.rs in double precision

The same functions as in `Model/Image.lean`, with every arithmetic operation rounded (`Model/F64.lean`).  The mathematics library is external: `log2` and `exp2` are given by `Libm`.
-/

namespace Rendering

/-- The two functions of the mathematics library (`f64::log2`, `f64::exp2`) used by /repo/src/image.rs:43-44. -/
structure Libm where
  log2 : F64 → F64
  exp2 : F64 → F64

/-- `f64::floor`: exact. -/
def F64.floor (x : F64) : F64 := ⟨⌊x.val⌋⟩

/-- `f64 as u8`: truncation, saturating at 0 and 255. -/
def F64.asU8 (x : F64) : UInt8 := UInt8.ofNat (min 255 (⌊x.val⌋).toNat)

/-- /repo/src/image.rs:39-48 `rusty_frexp`, for positive arguments (the only ones `colour_to_rgbe` passes). -/
def rustyFrexp64 (lib : Libm) (s : F64) : F64 × ℤ :=
  let lg := lib.log2 s
  let x := lib.exp2 (lg - lg.floor - F64.lit 1)
  let exp := lg.floor + F64.lit 1
  (x, ⌊exp.val⌋)

/-- /repo/src/image.rs:55-79 `colour_to_rgbe` (release build). -/
def colourToRgbe64 (lib : Libm) (red green blue : F64) : UInt8 × UInt8 × UInt8 × UInt8 :=
  let v := red
  let v := if v < green then green else v
  let v := if v < blue then blue else v
  if v < F64.lit (1 / 10 ^ 19) then (0, 0, 0, 0)
  else
    let (mantissa, e) := rustyFrexp64 lib v
    let mantissa := mantissa * (F64.lit 256 / v)
    let r := (red * mantissa).floor.asU8
    let g := (green * mantissa).floor.asU8
    let b := (blue * mantissa).floor.asU8
    (r, g, b, i32AsU8 (e + 128))

/-- /repo/src/image.rs:81-93 `rgbe_to_colour`, one channel: `2f64.powi(n)` is exact. -/
def rgbeChannel64 (byte e : UInt8) : F64 := if e = 0 then ⟨0⟩ else F64.lit byte.toNat * ⟨2 ^ ((e.toNat : ℤ) - 136)⟩

/-- /repo/src/image.rs:81-93 `rgbe_to_colour`. -/
def rgbeToColour64 (p : UInt8 × UInt8 × UInt8 × UInt8) : Spectrum F64 :=
  ⟨rgbeChannel64 p.1 p.2.2.2, rgbeChannel64 p.2.1 p.2.2.2, rgbeChannel64 p.2.2.1 p.2.2.2⟩

end Rendering
