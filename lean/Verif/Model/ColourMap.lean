import Verif.Model.Bvh
import Verif.Model.F64

/-!
# /repo/src/colourmap/mod.rs

The function only uses the arithmetic operations, `≤` and conversions from `usize`, so it is modelled once for any type with those:
ordered fields (exact arithmetic) and `F64` (rounded arithmetic).
-/

namespace Rendering

/-- A colour of a map, `[Float; 3]`. -/
structure Rgb (K : Type) where
  r : K
  g : K
  b : K
deriving DecidableEq, Repr

section
variable {K : Type} [Add K] [Sub K] [Mul K] [Div K] [NatCast K] [LE K] [DecidableLE K]

/-- /repo/src/colourmap/mod.rs:73-75: interpolation of one channel. -/
def lerp (a b lam : K) : K := a + (b - a) * lam

/-- /repo/src/colourmap/mod.rs:67-79: the loop `for i in 1..map.len()`, from `i` on, with `rest` the entries from `i - 1` on;
falling off the end is `unreachable!()`, a panic. -/
def mapLoop (x min delta : K) : Nat → List (Rgb K) → Res (Rgb K)
  | i, p :: q :: rest =>
    let binStart := min + (((i - 1 : Nat) : K)) * delta
    let binEnd := binStart + delta
    if x ≤ binEnd then
      let lam := (x - binStart) / delta
      .ok ⟨lerp p.r q.r lam, lerp p.g q.g lam, lerp p.b q.b lam⟩
    else mapLoop x min delta (i + 1) (q :: rest)
  | _, _ => .panic

/-- /repo/src/colourmap/mod.rs:54-80 `map_linear_colour` (`map_linear_spectrum`, 83-105, is the same function on `Spectrum`). -/
def mapLinearColour (x min max : K) (map : List (Rgb K)) : Res (Rgb K) :=
  if x ≤ min then Res.ofOption map.head?
  else if max ≤ x then Res.ofOption map.getLast?
  else
    let delta := (max - min) / ((map.length - 1 : Nat) : K)
    mapLoop x min delta 1 map
end

end Rendering
