import Verif.Props.ColourMatrix

/-!
# C70: the algebra of colours
-/

set_option linter.unusedSectionVars false
namespace Rendering
variable {K : Type} [Field K]
open Spectrum

/-- **C70.** Sums and products form a commutative semiring-like algebra with `BLACK` and `ONE`. -/
theorem C70_algebra (a b c : Spectrum K) :
    a + b = b + a ∧ (a + b) + c = a + (b + c) ∧ a + black = a ∧
    a * b = b * a ∧ (a * b) * c = a * (b * c) ∧ a * one = a ∧ a * black = black ∧
    a * (b + c) = a * b + a * c ∧ (a - b) + b = a := by
  refine ⟨?_, ?_, ?_, ?_, ?_, ?_, ?_, ?_, ?_⟩ <;> ext <;> simp [one, black, gray] <;> ring

/-- **C70.** Operations with a number are operations with the gray colour of that number, on either side. -/
theorem C70_scalars_are_gray (a : Spectrum K) (k : K) :
    a.scale k = a * gray k ∧ a.divBy k = a / gray k ∧ a.addScalar k = a + gray k ∧ a.subScalar k = a - gray k ∧
    scalarAdd k a = gray k + a ∧ scalarSub k a = gray k - a ∧ scalarMul k a = gray k * a ∧ scalarDiv k a = gray k / a := by
  refine ⟨?_, ?_, ?_, ?_, ?_, ?_, ?_, ?_⟩ <;> ext <;> rfl

/-- **C70.** Compound assignments agree with their operators, and never index out of bounds. -/
theorem C70_assignments (a b : Spectrum K) (k : K) :
    opAssign (· + ·) a b = .ok (a + b) ∧ opAssign (· - ·) a b = .ok (a - b) ∧ opAssign (· * ·) a b = .ok (a * b) ∧ opAssign (· / ·) a b = .ok (a / b) ∧
    opAssignScalar (· + ·) a k = .ok (a.addScalar k) ∧ opAssignScalar (· - ·) a k = .ok (a.subScalar k) ∧
    opAssignScalar (· * ·) a k = .ok (a.scale k) ∧ opAssignScalar (· / ·) a k = .ok (a.divBy k) := by
  refine ⟨?_, ?_, ?_, ?_, ?_, ?_, ?_, ?_⟩ <;> rfl

/-- **C70.** Dividing undoes multiplying by a non-zero number, or by a colour without zero channel. -/
theorem C70_division (a b : Spectrum K) (k : K) (hk : k ≠ 0) (hb : b.c0 ≠ 0 ∧ b.c1 ≠ 0 ∧ b.c2 ≠ 0) :
    (a.scale k).divBy k = a ∧ (a.divBy k).scale k = a ∧ (a * b) / b = a ∧ (a / b) * b = a := by
  obtain ⟨h0, h1, h2⟩ := hb
  refine ⟨?_, ?_, ?_, ?_⟩ <;> ext <;> simp [scale, divBy] <;> field_simp

/-- **C70.** Integer powers are repeated products. -/
theorem C70_powers (a : Spectrum K) (n : Nat) : a.powi 0 = one ∧ a.powi (n + 1) = a.powi n * a := by
  constructor <;> ext <;> simp [powi, one, gray, pow_succ]

/-- **C70.** Radiance is linear. -/
theorem C70_radiance_linear (a b : Spectrum K) (k : K) :
    (a + b).radiance = a.radiance + b.radiance ∧ (a.scale k).radiance = k * a.radiance ∧ (black : Spectrum K).radiance = 0 := by
  simp only [radiance_eq, scale, black, gray, add_c0, add_c1, add_c2]
  refine ⟨by ring, by ring, by ring⟩

/-- **C70.** `normalize` makes the radiance equal to one without changing the proportions between channels. -/
theorem C70_normalize (a : Spectrum K) (h : a.radiance ≠ 0) : a.normalize.radiance = 1 ∧ a.normalize.scale a.radiance = a := by
  have h1 : a.normalize.scale a.radiance = a := by
    ext <;> simp [Spectrum.normalize, divBy, scale] <;> field_simp
  refine ⟨?_, h1⟩
  have h2 := (C70_radiance_linear a.normalize a a.radiance).2.1
  rw [h1] at h2
  have : a.radiance * a.normalize.radiance = a.radiance * 1 := by rw [← h2, mul_one]
  exact mul_left_cancel₀ h this

variable [LinearOrder K] [IsStrictOrderedRing K]

/-- **C70.** `is_black` is true exactly when every channel is below 1e-24. -/
theorem C70_is_black (a : Spectrum K) : a.isBlack = true ↔ a.c0 < 1 / 10 ^ 24 ∧ a.c1 < 1 / 10 ^ 24 ∧ a.c2 < 1 / 10 ^ 24 := by
  simp only [isBlack, channels, List.any_cons, List.any_nil, Bool.or_false, Bool.not_eq_true', Bool.or_eq_false_iff, decide_eq_false_iff_not, ge_iff_le, not_le]

/-- **C70.** `max` is the largest channel. -/
theorem C70_max (a : Spectrum K) : a.c0 ≤ a.maxChannel ∧ a.c1 ≤ a.maxChannel ∧ a.c2 ≤ a.maxChannel ∧
    (a.maxChannel = a.c0 ∨ a.maxChannel = a.c1 ∨ a.maxChannel = a.c2) := by
  simp only [maxChannel, channels, List.drop_succ_cons, List.drop_zero, List.foldl_cons, List.foldl_nil, gt_iff_lt]
  split_ifs with h1 h2 h2
  · exact ⟨(h1.trans h2).le, h2.le, le_rfl, by simp⟩
  · exact ⟨h1.le, le_rfl, not_lt.1 h2, by simp⟩
  · exact ⟨h2.le, (not_lt.1 h1).trans h2.le, le_rfl, by simp⟩
  · exact ⟨le_rfl, not_lt.1 h1, not_lt.1 h2, by simp⟩

/-- The hypotheses are met. -/
example : (⟨1, 2, 3⟩ : Spectrum ℚ).normalize.radiance = 1 := (C70_normalize _ (by rw [radiance_eq]; norm_num)).1
example : (⟨1, -2, 3⟩ : Spectrum ℚ) * ⟨2, 5, 7⟩ / ⟨2, 5, 7⟩ = ⟨1, -2, 3⟩ := (C70_division _ _ 1 one_ne_zero (by norm_num)).2.2.1
example : (gray (-1) : Spectrum ℚ).isBlack = true ∧ (⟨0, 0, 1⟩ : Spectrum ℚ).isBlack = false := by decide +kernel

end Rendering
