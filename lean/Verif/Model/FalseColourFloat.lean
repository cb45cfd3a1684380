import Verif.Model.FalseColour
import Verif.Model.RgbeFloat

/-!
# `save_falsecolour` of /repo/src/image.rs in double precision

The same function as in `Model/FalseColour.lean`, with every arithmetic operation rounded (`Model/F64.lean`); `mapLinearColour` (`Model/ColourMap.lean`) is used at the type of doubles.
-/

namespace Rendering

/-- /repo/src/colour.rs:84-91 `radiance`: products added up in order, starting from zero. -/
def radiance64 (p : Spectrum F64) : F64 :=
  ((⟨0⟩ + p.c0 * F64.lit (265 / 1000)) + p.c1 * F64.lit (67 / 100)) + p.c2 * F64.lit (65 / 1000)

/-- /repo/src/colour.rs:101-103 `luminance`. -/
def luminance64 (p : Spectrum F64) : F64 := radiance64 p * F64.lit 179

/-- An entry of the tables in /repo/src/colourmap: decimal literals. -/
def RawRgb.toRgb64 (c : RawRgb) : Rgb F64 := ⟨F64.lit (c.1 / 10 ^ 12), F64.lit (c.2.1 / 10 ^ 12), F64.lit (c.2.2 / 10 ^ 12)⟩

/-- The selection in /repo/src/image.rs:395-401. -/
def Colourmap.table64 (m : Colourmap) : List (Rgb F64) := m.raw.map RawRgb.toRgb64

/-- `(x * 256.).round() as u8`, /repo/src/image.rs:406-408: halves away from zero, saturating. -/
def byte64 (x : F64) : UInt8 :=
  let y := (x * F64.lit 256).val
  let k : ℤ := if 0 ≤ y then ⌊y + 1 / 2⌋ else ⌈y - 1 / 2⌉
  UInt8.ofNat (min 255 k.toNat)

/-- /repo/src/image.rs:404-409: the loop over the luminances. -/
def pushColours64 (f : F64 → Res (Rgb F64)) : List F64 → Res (List UInt8)
  | [] => .ok []
  | x :: xs => (f x).bind fun s => (pushColours64 f xs).bind fun rest => .ok ([byte64 s.r, byte64 s.g, byte64 s.b] ++ rest)

/-- /repo/src/image.rs:361-367: lower limit. -/
def linearMin64 : Option F64 → F64
  | some v => if v.val < 0 then ⟨0⟩ else v
  | none => ⟨0⟩

/-- /repo/src/image.rs:368-393: upper limit. -/
def linearMax64 (luminance : List F64) : Option F64 → F64
  | some v => v
  | none =>
    let m := luminance.foldl (fun m v => if m < v then v else m) ⟨0⟩
    if m.val ≤ 0 then F64.lit 2 * ⟨0⟩ else m

/-- /repo/src/image.rs:349-415 `save_falsecolour`. -/
def saveFalsecolour64 (width height : Nat) (pixels : List (Spectrum F64)) (min max : Option F64) (scale : Colourmap) : Res JpegInput :=
  let luminance := pixels.map luminance64
  let lo := linearMin64 min
  let hi := linearMax64 luminance max
  (pushColours64 (fun x => mapLinearColour x lo hi scale.table64) luminance).bind fun data =>
    JpegInput.encode { data, width := asU16 width, height := asU16 height }

end Rendering
