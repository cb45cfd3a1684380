import Verif.Model.TriangleReal
import Mathlib.Analysis.SpecialFunctions.Trigonometric.Basic

/-!
# /repo/src/camera/*.rs — view, film, pinhole camera

Over ℝ.
-/

namespace Rendering

/-- /repo/src/camera/view.rs:24-31 `View`. -/
structure View where
  viewPoint : Vec3 ℝ
  viewDirection : Vec3 ℝ
  viewUp : Vec3 ℝ
  fieldOfView : ℝ

/-- /repo/src/camera/view.rs:33-42 `View::default`. -/
def View.default : View := ⟨⟨0, 0, 0⟩, ⟨0, 1, 0⟩, ⟨0, 0, 1⟩, 60⟩

/-- /repo/src/camera/pinhole.rs:26-34 `Pinhole` (the film is its resolution, /repo/src/camera/film.rs:23-26). -/
structure Pinhole where
  view : View
  width : Nat
  height : Nat
  filmDistance : ℝ
  u : Vec3 ℝ

namespace Pinhole

/-- /repo/src/camera/pinhole.rs:37-46 `Pinhole::new`. -/
noncomputable def new (view : View) (width height : Nat) : Pinhole :=
  { view := view, width := width, height := height
    filmDistance := 1 / Real.tan ((view.fieldOfView * (Real.pi / 180)) / 2)
    u := view.viewDirection.cross view.viewUp }

/-- /repo/src/camera/pinhole.rs:51-57 `gen_random_sample`: `draw` is the pair of random `usize`; the remainder by zero panics. -/
def genRandomSample (c : Pinhole) (draw : Nat × Nat) : Res (Nat × Nat) :=
  if c.width = 0 ∨ c.height = 0 then .panic else .ok (draw.1 % c.width, draw.2 % c.height)

/-- /repo/src/camera/camera_trait.rs:43-47 `pixel_index`. -/
def pixelIndex (c : Pinhole) (pxl : Nat × Nat) : Nat := c.width * pxl.2 + pxl.1

/-- Horizontal film coordinate of a pixel's centre (/repo/src/camera/pinhole.rs:117-125). -/
noncomputable def filmX (c : Pinhole) (xPixel : Nat) : ℝ :=
  let xlim : ℝ := 2
  let dx := xlim / c.width
  dx / 2 + xPixel * dx - xlim / 2

/-- Vertical film coordinate (downwards) of a pixel's centre (/repo/src/camera/pinhole.rs:116-126). -/
noncomputable def filmY (c : Pinhole) (yPixel : Nat) : ℝ :=
  let aspectRatio : ℝ := c.height / c.width
  let ylim := aspectRatio * 2
  let dy := ylim / c.height
  dy / 2 + yPixel * dy - ylim / 2

/-- The unnormalised direction of /repo/src/camera/pinhole.rs:128-129. -/
noncomputable def filmPoint (c : Pinhole) (p : Nat × Nat) : Vec3 ℝ :=
  c.view.viewDirection.scale c.filmDistance + c.u.scale (c.filmX p.1) - c.view.viewUp.scale (c.filmY p.2)

/-- /repo/src/camera/pinhole.rs:114-141 `gen_ray`: geometry and weight. -/
noncomputable def genRay (c : Pinhole) (p : Nat × Nat) : Ray3 ℝ × ℝ :=
  (⟨c.view.viewPoint, (c.filmPoint p).normalized⟩, 1)

open Classical in
/-- /repo/src/camera/pinhole.rs:58-110 `pixel_from_ray`.  The assertion on `y` only exists in debug builds and holds in exact arithmetic; it is
omitted.  `floor() as usize` saturates at zero like `⌊·⌋₊`; saturation at 2^64 is not modelled. -/
noncomputable def pixelFromRay (c : Pinhole) (ray : Ray3 ℝ) : Res ((Nat × Nat) × ℝ) :=
  if (ray.origin - c.view.viewPoint).lengthSq > 1 / 10 ^ 24 then .panic
  else
    let direction := ray.direction
    let normal := c.view.viewDirection
    let cos := normal.dot direction
    if |cos| < 1 / 10 ^ 12 then .ok ((0, 0), 0)
    else
      let s := c.view.viewPoint + normal.scale c.filmDistance
      let rayLength := (s - ray.origin).dot normal / cos
      let intersectionPt := direction.scale rayLength
      let x := intersectionPt.dot c.u
      let z := intersectionPt.dot c.view.viewUp
      if |z| > 1 ∨ |x| > 1 then .ok ((0, 0), 0)
      else
        let xlim : ℝ := 2
        let aspectRatio : ℝ := c.height / c.width
        let ylim := aspectRatio * xlim
        let dx := xlim / c.width
        let dy := ylim / c.height
        let x := (x + 1) / dx
        let y := (1 - z) / dy
        .ok ((⌊x⌋₊, ⌊y⌋₊), 1)

end Pinhole
end Rendering
