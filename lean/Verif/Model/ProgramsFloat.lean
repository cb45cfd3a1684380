import Verif.Model.Programs
import Verif.Model.FalseColourFloat

/-!
# `from_file` and `diff` of /repo/src/image.rs and the programs `sfalsecolor` and `scompare` in double precision

The same functions as in `Model/Image.lean` and `Model/Programs.lean`, with every arithmetic operation rounded (`Model/F64.lean`); only linear scales, and for `scompare` only with a map (`-m`).
-/

namespace Rendering

/-- /repo/src/image.rs:98-106 `ImageBuffer`. -/
structure ImageBuffer64 where
  width : Nat
  height : Nat
  pixels : List (Spectrum F64)
deriving DecidableEq

namespace ImageBuffer64

/-- Outcome of `from_file`: `Err` or the image. -/
inductive ReadResult where
  | err
  | image (im : ImageBuffer64)
deriving DecidableEq

/-- /repo/src/image.rs:210-290: the header loop, then the pixels. -/
def readFrom : Nat → List UInt8 → Res ReadResult
  | 0, _ => .diverge
  | fuel + 1, content =>
    match content.findIdx? (· == 10) with
    | none => .ok .err
    | some nl =>
      let line := content.take nl
      let content := content.drop (nl + 1)
      (ImageBuffer.headerLine line).bind fun
        | .next => readFrom fuel content
        | .err => .ok .err
        | .size height width =>
          let pixels := (chunksExact4 content).map rgbeToColour64
          .ok (.image { width, height, pixels })

/-- /repo/src/image.rs:194-291 `from_file`, given the content of a readable file. -/
def fromFile (content : List UInt8) : Res ReadResult := readFrom (content.length + 1) content

/-- /repo/src/image.rs:150 one pixel of `diff`; `abs` is exact. -/
def diffPixel (a b : Spectrum F64) : Spectrum F64 :=
  let v : F64 := ⟨|(radiance64 a - radiance64 b).val|⟩
  ⟨v, v, v⟩

/-- /repo/src/image.rs:137-155 `diff`; `none` is the `Err` return. -/
def diff (im other : ImageBuffer64) : Res (Option ImageBuffer64) :=
  if (im.width, im.height) ≠ (other.width, other.height) then .ok none
  else
    let pixels := (im.pixels.zip other.pixels).map (fun (a, b) => diffPixel a b)
    if pixels.length ≠ im.width * im.height then .panic else .ok (some { width := im.width, height := im.height, pixels })

end ImageBuffer64

/-- /repo/bin/sfalsecolor.rs:43-79 `main`, without `--log`. -/
def sfalsecolor64 (file : List UInt8) (min max : Option F64) (map : Colourmap) : Res Written :=
  (ImageBuffer64.fromFile file).bind fun im =>
    match im with
    | .err => .ok .failed
    | .image im => (saveFalsecolour64 im.width im.height im.pixels min max map).bind fun j => .ok (.jpeg j)

/-- /repo/bin/scompare.rs:48-95 `main`, with `-m` and without `--log`. -/
def scompare64 (fileA fileB : List UInt8) (min max : Option F64) (map : Colourmap) : Res Written :=
  (ImageBuffer64.fromFile fileA).bind fun a =>
    match a with
    | .err => .ok .failed
    | .image a => (ImageBuffer64.fromFile fileB).bind fun b =>
      match b with
      | .err => .ok .failed
      | .image b => (b.diff a).bind fun d =>
        match d with
        | none => .ok .failed
        | some d => (saveFalsecolour64 d.width d.height d.pixels min max map).bind fun j => .ok (.jpeg j)

end Rendering
