import Verif.Model.Ray
import Mathlib.MeasureTheory.Measure.Lebesgue.Basic
import Mathlib.Analysis.SpecialFunctions.Trigonometric.Basic

/-!
# Specification vocabulary: probabilities over draws, solid angles, areas

Nothing here refers to the sampling code. Two independent uniform draws are a point of the unit square with Lebesgue measure.
-/

namespace Rendering

open MeasureTheory Set

/-- The generator whose next two draws are `d.1` and `d.2`. -/
def Rng.cons2 (d : ℝ × ℝ) (rest : Rng) : Rng := fun n => match n with | 0 => d.1 | 1 => d.2 | n + 2 => rest n

/-- All pairs of draws. -/
def unitSquare : Set (ℝ × ℝ) := Ico 0 1 ×ˢ Ico 0 1

/-- The probability of an event that depends on two independent uniform draws. -/
noncomputable def Probability (event : ℝ × ℝ → Prop) : ENNReal := volume {d : ℝ × ℝ | d ∈ unitSquare ∧ event d}

/-- A set of points (or directions) that can be measured: Borel in its coordinates. -/
def Measurable3 (S : Set (Vec3 ℝ)) : Prop := MeasurableSet {p : ℝ × ℝ × ℝ | (⟨p.1, p.2.1, p.2.2⟩ : Vec3 ℝ) ∈ S}

/-- The unit vector with height `z` above the horizontal plane and azimuth `φ`. -/
noncomputable def directionAt (z φ : ℝ) : Vec3 ℝ := ⟨Real.sqrt (1 - z ^ 2) * Real.cos φ, Real.sqrt (1 - z ^ 2) * Real.sin φ, z⟩

/-- The solid angle of a set of directions: by Archimedes' theorem the area of its projection from the axis onto the cylinder around the unit sphere, that is the measure `dz dφ`. -/
noncomputable def solidAngle (S : Set (Vec3 ℝ)) : ENNReal :=
  volume {p : ℝ × ℝ | p ∈ Ioo (-1 : ℝ) 1 ×ˢ Ioo 0 (2 * Real.pi) ∧ directionAt p.1 p.2 ∈ S}

/-- The integral of the cosine with the vertical over the directions of `S` above the horizon (the irradiance those directions give a horizontal surface when their radiance is one). -/
noncomputable def projectedSolidAngle (S : Set (Vec3 ℝ)) : ENNReal :=
  ∫⁻ p in {p : ℝ × ℝ | p ∈ Ioo (0 : ℝ) 1 ×ˢ Ioo 0 (2 * Real.pi) ∧ directionAt p.1 p.2 ∈ S}, ENNReal.ofReal p.1

/-- A function of points (or directions) that can be integrated: Borel in its coordinates. -/
def MeasurableFn3 (L : Vec3 ℝ → ENNReal) : Prop := Measurable fun p : ℝ × ℝ × ℝ => L ⟨p.1, p.2.1, p.2.2⟩

/-- The mean of a quantity that depends on two independent uniform draws. -/
noncomputable def Mean (f : ℝ × ℝ → ENNReal) : ENNReal := ∫⁻ d in unitSquare, f d

/-- The mean of a quantity that depends on three independent uniform draws. -/
noncomputable def Mean3 (f : ℝ → ℝ × ℝ → ENNReal) : ENNReal := ∫⁻ q in Ico (0 : ℝ) 1, Mean (f q)

/-- The generator that draws the pairs `ω 0`, `ω 1`, … in order, and then `rest`. -/
def Rng.ofPairs {n : Nat} (ω : Fin n → ℝ × ℝ) (rest : Rng) : Rng := fun k =>
  if h : k / 2 < n then (if k % 2 = 0 then (ω ⟨k / 2, h⟩).1 else (ω ⟨k / 2, h⟩).2) else rest (k - 2 * n)

/-- The mean of a quantity that depends on `n` pairs of independent uniform draws. -/
noncomputable def MeanN (n : Nat) (f : (Fin n → ℝ × ℝ) → ENNReal) : ENNReal := ∫⁻ ω in Set.univ.pi fun _ : Fin n => unitSquare, f ω

/-- The probability of an event that depends on `n` pairs of independent uniform draws. -/
noncomputable def ProbabilityN (n : Nat) (event : (Fin n → ℝ × ℝ) → Prop) : ENNReal := volume {ω : Fin n → ℝ × ℝ | (∀ k, ω k ∈ unitSquare) ∧ event ω}

/-- The irradiance of a horizontal surface under incoming radiance `L`: the integral over the directions above the horizon of `L` times the cosine with the vertical. -/
noncomputable def irradiance (L : Vec3 ℝ → ENNReal) : ENNReal :=
  ∫⁻ p in Ioo (0 : ℝ) 1 ×ˢ Ioo 0 (2 * Real.pi), L (directionAt p.1 p.2) * ENNReal.ofReal p.1

/-- The open disc of radius `R` around the origin. -/
def discOf (R : ℝ) : Set (ℝ × ℝ) := {q | q.1 ^ 2 + q.2 ^ 2 < R ^ 2}

/-- The share of the area of the triangle `a b c` that lies in `S`, in the coordinates `a + u (b - a) + v (c - a)` (the coordinate triangle has area one half). -/
noncomputable def areaShare (a b c : Vec3 ℝ) (S : Set (Vec3 ℝ)) : ENNReal :=
  2 * volume {q : ℝ × ℝ | (0 < q.1 ∧ 0 < q.2 ∧ q.1 + q.2 < 1) ∧ a + (b - a).scale q.1 + (c - a).scale q.2 ∈ S}

/-- Two probabilities differ by at most `ε`. -/
def Within (ε : ℝ) (p q : ENNReal) : Prop := p ≤ q + ENNReal.ofReal ε ∧ q ≤ p + ENNReal.ofReal ε

end Rendering
