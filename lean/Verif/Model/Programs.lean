import Verif.Model.Radiance
import Verif.Model.FalseColour
import Verif.Model.Render
import Verif.Model.Tracer

/-!
# The command-line programs /repo/bin/{spict,sfluxmtx,scompare,sfalsecolor}.rs

Text is a list of characters (a Rust `&str`); parsing and printing of floating point numbers are parameters. What `clap` does (flags, defaults, usage errors) and the
reading and writing of files is not modelled: the functions below start from parsed options and the contents of files and end with what is written.
-/

namespace Rendering
variable {K : Type}

/-! ### Text -/

/-- `char::is_whitespace`: the Unicode property White_Space. -/
def isWhite (c : Char) : Bool :=
  let n := c.toNat
  (9 ≤ n && n ≤ 13) || n == 32 || n == 0x85 || n == 0xA0 || n == 0x1680 || (0x2000 ≤ n && n ≤ 0x200A) || n == 0x2028 || n == 0x2029 || n == 0x202F || n == 0x205F || n == 0x3000

/-- `str::trim`. -/
def trimText (s : List Char) : List Char := ((s.dropWhile isWhite).reverse.dropWhile isWhite).reverse

/-- `str::split(' ')`: the pieces between spaces, always at least one, possibly empty. -/
def splitSpaces : List Char → List (List Char)
  | [] => [[]]
  | c :: rest =>
    if c = ' ' then [] :: splitSpaces rest
    else match splitSpaces rest with
      | [] => [[c]]
      | piece :: more => (c :: piece) :: more

/-! ### /repo/bin/spict.rs -/

/-- /repo/bin/spict.rs:39-75 `Triplet::from_str`; `none` is the `Err` return. -/
def tripletFromStr (parse : List Char → Option K) (s : List Char) : Option (Vec3 K) :=
  match splitSpaces (trimText s) with
  | [x, y, z] => (parse x).bind fun a => (parse y).bind fun b => (parse z).bind fun c => some ⟨a, b, c⟩
  | _ => none

/-- /repo/bin/spict.rs:31-35 `Display for Triplet`. -/
def tripletDisplay (print : K → List Char) (t : Vec3 K) : List Char := print t.x ++ [' '] ++ print t.y ++ [' '] ++ print t.z

/-- The options of /repo/bin/spict.rs:80-142, apart from file names. -/
structure SpictOptions where
  rt : RayTracer
  width : Nat
  height : Nat
  viewPoint : Vec3 ℝ
  viewDirection : Vec3 ℝ
  viewUp : Vec3 ℝ
  fieldOfView : ℝ

/-- /repo/bin/spict.rs:164-182: the camera. -/
noncomputable def SpictOptions.camera (o : SpictOptions) : Pinhole :=
  Pinhole.new ⟨o.viewPoint, o.viewDirection.normalized, o.viewUp, o.fieldOfView⟩ o.width o.height

/-- The ray of a pixel, /repo/src/camera/pinhole.rs:114-141 with the assignment in /repo/src/ray_tracer.rs:384-385. -/
noncomputable def Pinhole.traceableRay (c : Pinhole) (p : Nat × Nat) : TRay :=
  { TRay.default with geometry := (c.genRay p).1, value := (c.genRay p).2 }

/-- /repo/src/ray_tracer.rs:384-388: the colour of a pixel. A panic or an endless recursion in one pixel ends the whole `render`; here that pixel is left black, and the theorems
speak about pixels whose tracing returns. -/
noncomputable def pixelTracer (w : World) (rt : RayTracer) (fuel : Nat) (camera : Pinhole) : PixelTracer TState ℝ := fun p st =>
  match traceRay w rt fuel st (camera.traceableRay p) with
  | .ok ((v, _), _, st') => (v, st')
  | _ => (Spectrum.black, st)

/-- /repo/src/ray_tracer.rs:378-379: the generator and the scratch memory of a chunk of pixels (`RayTracerHelper::default`). -/
noncomputable def chunkState (rng : Nat → Rng) (k : Nat) : TState := ⟨rng k, defaultRays⟩

/-- The content of the file written by /repo/bin/spict.rs:192-194 after `render` has run through the states up to `s`. -/
noncomputable def spictFile (o : SpictOptions) (s : RState TState (Spectrum ℝ)) : Res (List UInt8) :=
  (ImageBuffer.fromPixels o.width o.height (renderPixels o.width o.height s)).bind fun im => .ok im.saveHdre

/-- /repo/bin/spict.rs:147-161 and /repo/bin/sfluxmtx.rs:70-80 for a `.rad` file: read, then build the accelerator. -/
noncomputable def loadRadiance (env : RadEnv ℝ) (src : List UInt8) : Res (Scene ℝ) := (Scene.fromRadianceSource env src).bind fun s => s.buildAccelerator env.scene

/-! ### /repo/bin/sfluxmtx.rs -/

/-- The lines delivered by `read_line`: each ends with a newline, except perhaps the last. -/
def rawLines : List UInt8 → List (List UInt8)
  | [] => []
  | b :: rest =>
    if b = 10 then [b] :: rawLines rest
    else match rawLines rest with
      | [] => [[b]]
      | line :: more => (b :: line) :: more

/-- /repo/bin/sfluxmtx.rs:91-166: one line of the list of sensors; `none` is `exit(1)`. -/
def sensorOfLine (parse : List Char → Option K) (normalized : Vec3 K → Vec3 K) (line : List Char) : Option (Ray3 K) :=
  match splitSpaces (trimText line) with
  | [ox, oy, oz, dx, dy, dz] =>
    (parse ox).bind fun ox => (parse oy).bind fun oy => (parse oz).bind fun oz => (parse dx).bind fun dx => (parse dy).bind fun dy => (parse dz).bind fun dz =>
      some ⟨⟨ox, oy, oz⟩, normalized ⟨dx, dy, dz⟩⟩
  | _ => none

/-- /repo/bin/sfluxmtx.rs:83-168 `while let Ok(n) = stdin().read_line(&mut buffer)`: `decode` is UTF-8 decoding; a line that is not UTF-8 makes `read_line` return `Err`, which ends the loop. -/
def readSensors (parse : List Char → Option K) (normalized : Vec3 K → Vec3 K) (decode : List UInt8 → Option (List Char)) : List (List UInt8) → List (Ray3 K) → Option (List (Ray3 K))
  | [], rays => some rays
  | line :: rest, rays =>
    match decode line with
    | none => some rays
    | some text => (sensorOfLine parse normalized text).bind fun r => readSensors parse normalized decode rest (rays ++ [r])

/-- The sensors read from the standard input. -/
def sensorsOf (parse : List Char → Option K) (normalized : Vec3 K → Vec3 K) (decode : List UInt8 → Option (List Char)) (input : List UInt8) : Option (List (Ray3 K)) :=
  readSensors parse normalized decode (rawLines input) []

/-! ### /repo/bin/scompare.rs and /repo/bin/sfalsecolor.rs -/

/-- What a program leaves behind. -/
inductive Written where
  /-- `exit(1)` after a message -/
  | failed
  /-- an HDR file with this content -/
  | hdr (content : List UInt8)
  /-- a JPEG file made from this input of the encoder -/
  | jpeg (input : JpegInput)

/-- The last lines of both programs: false colours on a linear or logarithmic scale. -/
noncomputable def falseColours (im : ImageBuffer) (min max : Option ℝ) (log : Bool) (map : Colourmap) : Res Written :=
  if log then (im.saveLogFalsecolour min max map).bind fun j => .ok (.jpeg j) else (im.saveFalsecolour min max map).bind fun j => .ok (.jpeg j)

/-- /repo/bin/scompare.rs:48-95 `main`, from the contents of the two files; `map` is the `-m` option. -/
noncomputable def scompare (fileA fileB : List UInt8) (min max : Option ℝ) (log : Bool) (map : Option Colourmap) : Res Written :=
  (ImageBuffer.fromFile fileA).bind fun a =>
    match a with
    | .err => .ok .failed
    | .image a => (ImageBuffer.fromFile fileB).bind fun b =>
      match b with
      | .err => .ok .failed
      | .image b => (b.diff a).bind fun d =>
        match d with
        | none => .ok .failed
        | some d =>
          match map with
          | some m => falseColours d min max log m
          | none => .ok (.hdr d.saveHdre)

/-- /repo/bin/sfalsecolor.rs:43-79 `main`. -/
noncomputable def sfalsecolor (file : List UInt8) (min max : Option ℝ) (log : Bool) (map : Colourmap) : Res Written :=
  (ImageBuffer.fromFile file).bind fun im =>
    match im with
    | .err => .ok .failed
    | .image im => falseColours im min max log map

end Rendering
