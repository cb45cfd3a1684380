import Verif.Model.Bytes
import Verif.Model.Colour
import Verif.Model.ColourMap
import Mathlib.Analysis.SpecialFunctions.Log.Base

/-!
# /repo/src/image.rs

`Float` is ℝ.  Files are byte strings.  Error messages are not modelled (`ReadResult.err` carries none).
-/

namespace Rendering

/-- Float to `u8` cast (`as u8`): truncation, saturating at 0 and 255. -/
noncomputable def realAsU8 (x : ℝ) : UInt8 := UInt8.ofNat (min 255 (⌊x⌋).toNat)

/-- `i32` to `u8` cast: the low eight bits. -/
def i32AsU8 (n : ℤ) : UInt8 := UInt8.ofNat (n % 256).toNat

/-- /repo/src/image.rs:39-48 `rusty_frexp` (`s.signum() * x` with `signum` 1 for `+0` never reached). -/
noncomputable def rustyFrexp (s : ℝ) : ℝ × ℤ :=
  if 0 = s then (s, 0)
  else
    let lg := Real.logb 2 |s|
    let x := (2 : ℝ) ^ (lg - ⌊lg⌋ - 1 : ℝ)
    let exp := ⌊lg⌋ + 1
    (SignType.sign s * x, exp)

/-- /repo/src/image.rs:51-53 `rusty_ldexp`. -/
noncomputable def rustyLdexp (x : ℝ) (n : ℤ) : ℝ := x * 2 ^ n

/-- /repo/src/image.rs:55-79 `colour_to_rgbe` (release build: the `debug_assert!`s are not executed and the exponent wraps). -/
noncomputable def colourToRgbe (red green blue : ℝ) : UInt8 × UInt8 × UInt8 × UInt8 :=
  let v := red
  let v := if green > v then green else v
  let v := if blue > v then blue else v
  if v < 1 / 10 ^ 19 then (0, 0, 0, 0)
  else
    let (mantissa, e) := rustyFrexp v
    let mantissa := mantissa * (256 / v)
    let r := realAsU8 ⌊red * mantissa⌋
    let g := realAsU8 ⌊green * mantissa⌋
    let b := realAsU8 ⌊blue * mantissa⌋
    (r, g, b, i32AsU8 (e + 128))

/-- /repo/src/image.rs:81-93 `rgbe_to_colour`. -/
noncomputable def rgbeToColour (r g b e : UInt8) : Spectrum ℝ :=
  if e = 0 then Spectrum.black
  else
    let n : ℤ := e.toNat - (128 + 8)
    let f := rustyLdexp 1 n
    ⟨r.toNat * f, g.toNat * f, b.toNat * f⟩

/-- /repo/src/image.rs:98-106 `ImageBuffer`. -/
structure ImageBuffer where
  width : Nat
  height : Nat
  pixels : List (Spectrum ℝ)

namespace ImageBuffer

/-- /repo/src/image.rs:119-124 `Index::index`; out of bounds panics. -/
def index (im : ImageBuffer) (x y : Nat) : Res (Spectrum ℝ) :=
  let i := y * im.width + x
  Res.ofOption im.pixels[i]?

/-- /repo/src/image.rs:109-114 `IndexMut::index_mut`, as the assignment `image[(x, y)] = v`. -/
def setIndex (im : ImageBuffer) (x y : Nat) (v : Spectrum ℝ) : Res ImageBuffer :=
  let i := y * im.width + x
  if i < im.pixels.length then .ok { im with pixels := im.pixels.set i v } else .panic

/-- /repo/src/image.rs:128-134 `new`. -/
noncomputable def new (width height : Nat) : ImageBuffer :=
  { width, height, pixels := List.replicate (width * height) Spectrum.black }

/-- /repo/src/image.rs:158-171 `from_pixels`. -/
def fromPixels (width height : Nat) (pixels : List (Spectrum ℝ)) : Res ImageBuffer :=
  if pixels.length ≠ width * height then .panic else .ok { width, height, pixels }

/-- /repo/src/image.rs:137-155 `diff`; `none` is the `Err` return. -/
noncomputable def diff (im other : ImageBuffer) : Res (Option ImageBuffer) :=
  if (im.width, im.height) ≠ (other.width, other.height) then .ok none
  else
    let pixels := (im.pixels.zip other.pixels).map (fun (a, b) => Spectrum.gray |a.radiance - b.radiance|)
    (fromPixels im.width im.height pixels).bind fun im => .ok (some im)

/-- /repo/src/image.rs:174-191 `save_hdre`: the bytes of the file. -/
noncomputable def saveHdre (im : ImageBuffer) : List UInt8 :=
  bytes "#?RGBE\n" ++ bytes "FORMAT=32-bit_rle_rgbe\n\n" ++
  (bytes "-Y " ++ decimal im.height ++ bytes " +X " ++ decimal im.width ++ bytes "\n") ++
  im.pixels.flatMap (fun p => let (r, g, b, e) := colourToRgbe p.c0 p.c1 p.c2; [r, g, b, e])

/-- `str::from_utf8(l).unwrap()`. -/
def utf8Unwrap (l : List UInt8) : Res Unit := if validUtf8 l then .ok () else .panic

/-- What one header line does (/repo/src/image.rs:217-268): go on with the next line, return an error, or finish with the size. -/
inductive HeaderLine where
  | next
  | err
  | size (height width : Nat)
deriving DecidableEq

/-- /repo/src/image.rs:217-268: the body of the header loop, for one line. -/
def headerLine (line : List UInt8) : Res HeaderLine :=
  if startsWith (bytes "-Y") line then
    (utf8Unwrap line).bind fun _ =>
      match splitOnByte isAsciiWhitespace line with
      | [_, h, plusX, w] =>
        if plusX ≠ bytes "+X" then .ok .err
        else
          (utf8Unwrap h).bind fun _ =>
            match parseUsize h with
            | none => .ok .err
            | some height =>
              (utf8Unwrap w).bind fun _ =>
                match parseUsize w with
                | none => .ok .err
                | some width => .ok (.size height width)
      | _ => .ok .err
  else if startsWith (bytes "FORMAT") line then
    match splitOnByte (· == 61) line with
    | [_, fmt] =>
      if fmt ≠ bytes "32-bit_rle_rgbe" then (utf8Unwrap fmt).bind fun _ => .ok .err
      else .ok .next
    | _ => (utf8Unwrap line).bind fun _ => .ok .err
  else .ok .next

/-- Outcome of `from_file`: `Err` or the image. -/
inductive ReadResult where
  | err
  | image (im : ImageBuffer)

/-- /repo/src/image.rs:210-290: the header loop, then the pixels.  Each pass consumes at least the newline, so `content.length + 1`
passes suffice (`fuel`). -/
noncomputable def readFrom : Nat → List UInt8 → Res ReadResult
  | 0, _ => .diverge
  | fuel + 1, content =>
    match content.findIdx? (· == 10) with
    | none => .ok .err
    | some nl =>
      let line := content.take nl
      let content := content.drop (nl + 1)
      (headerLine line).bind fun
        | .next => readFrom fuel content
        | .err => .ok .err
        | .size height width =>
          let pixels := (chunksExact4 content).map (fun (r, g, b, e) => rgbeToColour r g b e)
          .ok (.image { width, height, pixels })

/-- /repo/src/image.rs:194-291 `from_file`, given the content of a readable file. -/
noncomputable def fromFile (content : List UInt8) : Res ReadResult := readFrom (content.length + 1) content

end ImageBuffer
end Rendering
