import Verif.Model.Geometry
import Verif.Model.Bvh

/-!
# /repo/src/colour.rs — `Spectrum`

The code is generic in the number of channels; every use instantiates it with `N_CHANNELS = 3` (/repo/src/lib.rs), which is
what is modelled.
-/

namespace Rendering

/-- /repo/src/colour.rs:23-24 `Spectrum([Float; 3])`. -/
@[ext] structure Spectrum (K : Type) where
  c0 : K
  c1 : K
  c2 : K
deriving DecidableEq, Repr

namespace Spectrum
variable {K : Type}

/-- The channels in order, as iterated by `self.0.iter()`. -/
def channels (s : Spectrum K) : List K := [s.c0, s.c1, s.c2]

/-- /repo/src/colour.rs:51-53 `gray`, also 365-369 `From<Float>`. -/
def gray (v : K) : Spectrum K := ⟨v, v, v⟩

variable [Field K]

/-- /repo/src/colour.rs:47 `ONE`. -/
def one : Spectrum K := gray 1
/-- /repo/src/colour.rs:48 `BLACK`. -/
def black : Spectrum K := gray 0

/-- /repo/src/colour.rs:125-138 `Spectrum + Spectrum`. -/
instance : Add (Spectrum K) := ⟨fun a b => ⟨a.c0 + b.c0, a.c1 + b.c1, a.c2 + b.c2⟩⟩
/-- /repo/src/colour.rs:139-152 `Spectrum - Spectrum`. -/
instance : Sub (Spectrum K) := ⟨fun a b => ⟨a.c0 - b.c0, a.c1 - b.c1, a.c2 - b.c2⟩⟩
/-- /repo/src/colour.rs:172-185 `Spectrum * Spectrum`. -/
instance : Mul (Spectrum K) := ⟨fun a b => ⟨a.c0 * b.c0, a.c1 * b.c1, a.c2 * b.c2⟩⟩
/-- /repo/src/colour.rs:187-200 `Spectrum / Spectrum`. (Division by zero is not modelled as infinity.) -/
instance : Div (Spectrum K) := ⟨fun a b => ⟨a.c0 / b.c0, a.c1 / b.c1, a.c2 / b.c2⟩⟩

/-- /repo/src/colour.rs:251-263 `Spectrum * Float`. -/
def scale (a : Spectrum K) (k : K) : Spectrum K := ⟨a.c0 * k, a.c1 * k, a.c2 * k⟩
/-- /repo/src/colour.rs:265-277 `Spectrum / Float`. -/
def divBy (a : Spectrum K) (k : K) : Spectrum K := ⟨a.c0 / k, a.c1 / k, a.c2 / k⟩
/-- /repo/src/colour.rs:222-234 `Spectrum + Float`. -/
def addScalar (a : Spectrum K) (k : K) : Spectrum K := ⟨a.c0 + k, a.c1 + k, a.c2 + k⟩
/-- /repo/src/colour.rs:236-249 `Spectrum - Float`. -/
def subScalar (a : Spectrum K) (k : K) : Spectrum K := ⟨a.c0 - k, a.c1 - k, a.c2 - k⟩
/-- /repo/src/colour.rs:317-327 `Float + Spectrum`. -/
def scalarAdd (k : K) (a : Spectrum K) : Spectrum K := ⟨k + a.c0, k + a.c1, k + a.c2⟩
/-- /repo/src/colour.rs:329-339 `Float - Spectrum`. -/
def scalarSub (k : K) (a : Spectrum K) : Spectrum K := ⟨k - a.c0, k - a.c1, k - a.c2⟩
/-- /repo/src/colour.rs:341-351 `Float * Spectrum`. -/
def scalarMul (k : K) (a : Spectrum K) : Spectrum K := ⟨k * a.c0, k * a.c1, k * a.c2⟩
/-- /repo/src/colour.rs:353-363 `Float / Spectrum`. -/
def scalarDiv (k : K) (a : Spectrum K) : Spectrum K := ⟨k / a.c0, k / a.c1, k / a.c2⟩

/-- Reading channel `i` (`other.0[i]`), `none` = out of bounds panic. -/
def get? (a : Spectrum K) : Nat → Option K
  | 0 => some a.c0
  | 1 => some a.c1
  | 2 => some a.c2
  | _ => none

/-- Writing channel `i` in place (`iter_mut`). -/
def set (a : Spectrum K) (i : Nat) (v : K) : Spectrum K :=
  match i with
  | 0 => { a with c0 := v }
  | 1 => { a with c1 := v }
  | 2 => { a with c2 := v }
  | _ => a

/-- The in-place loop `for (i, this) in self.0.iter_mut().enumerate() { *this op= other.0[i] }` of
/repo/src/colour.rs:154-170, 202-218 (`op` is `+`, `-`, `*`, `/`). -/
def opAssign (op : K → K → K) (a b : Spectrum K) : Res (Spectrum K) :=
  (List.range 3).foldl (fun r i => r.bind fun s =>
    match s.get? i, b.get? i with
    | some x, some y => .ok (s.set i (op x y))
    | _, _ => .panic) (.ok a)

/-- The in-place loop with a scalar of /repo/src/colour.rs:279-313. -/
def opAssignScalar (op : K → K → K) (a : Spectrum K) (k : K) : Res (Spectrum K) :=
  (List.range 3).foldl (fun r i => r.bind fun s =>
    match s.get? i with
    | some x => .ok (s.set i (op x k))
    | none => .panic) (.ok a)

/-- /repo/src/colour.rs:55-62 `powi` (non-negative exponents). -/
def powi (a : Spectrum K) (n : Nat) : Spectrum K := ⟨a.c0 ^ n, a.c1 ^ n, a.c2 ^ n⟩

/-- /repo/src/colour.rs:25 `RADIANCE_COEFFICIENTS`. -/
def radianceCoefficients : List K := [265 / 1000, 67 / 100, 65 / 1000]

/-- /repo/src/colour.rs:84-91 `radiance`: zip with the coefficients, multiply, sum. -/
def radiance (a : Spectrum K) : K := (List.zipWith (· * ·) a.channels radianceCoefficients).sum

/-- /repo/src/colour.rs:28 `WHITE_EFFICACY`. -/
def whiteEfficacy : K := 179

/-- /repo/src/colour.rs:101-103 `luminance`. -/
def luminance (a : Spectrum K) : K := a.radiance * whiteEfficacy

/-- /repo/src/colour.rs:95-97 `normalize`. -/
def normalize (a : Spectrum K) : Spectrum K := a.divBy a.radiance

@[simp] theorem add_c0 (a b : Spectrum K) : (a + b).c0 = a.c0 + b.c0 := rfl
@[simp] theorem add_c1 (a b : Spectrum K) : (a + b).c1 = a.c1 + b.c1 := rfl
@[simp] theorem add_c2 (a b : Spectrum K) : (a + b).c2 = a.c2 + b.c2 := rfl
@[simp] theorem sub_c0 (a b : Spectrum K) : (a - b).c0 = a.c0 - b.c0 := rfl
@[simp] theorem sub_c1 (a b : Spectrum K) : (a - b).c1 = a.c1 - b.c1 := rfl
@[simp] theorem sub_c2 (a b : Spectrum K) : (a - b).c2 = a.c2 - b.c2 := rfl
@[simp] theorem mul_c0 (a b : Spectrum K) : (a * b).c0 = a.c0 * b.c0 := rfl
@[simp] theorem mul_c1 (a b : Spectrum K) : (a * b).c1 = a.c1 * b.c1 := rfl
@[simp] theorem mul_c2 (a b : Spectrum K) : (a * b).c2 = a.c2 * b.c2 := rfl
@[simp] theorem div_c0 (a b : Spectrum K) : (a / b).c0 = a.c0 / b.c0 := rfl
@[simp] theorem div_c1 (a b : Spectrum K) : (a / b).c1 = a.c1 / b.c1 := rfl
@[simp] theorem div_c2 (a b : Spectrum K) : (a / b).c2 = a.c2 / b.c2 := rfl

variable [LinearOrder K]

/-- /repo/src/colour.rs:73-80 `is_black`. -/
def isBlack (a : Spectrum K) : Bool := !(a.channels.any (fun v => decide (v ≥ 1 / 10 ^ 24)))

/-- /repo/src/colour.rs:106-115 `max`. -/
def maxChannel (a : Spectrum K) : K :=
  (a.channels.drop 1).foldl (fun m v => if v > m then v else m) a.c0

end Spectrum
end Rendering
