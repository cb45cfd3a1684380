import Verif.Model.RgbeFloat
import Verif.Spec.Doubles
import Mathlib.Analysis.SpecialFunctions.Log.Deriv
import Mathlib.Analysis.SpecialFunctions.Pow.Real

/-!
# Rounding errors of the double precision model
-/

set_option linter.unusedSectionVars false
namespace Rendering

theorem roundHalfEven_error (q : ℚ) : |(roundHalfEven q : ℚ) - q| ≤ 1 / 2 := by
  unfold roundHalfEven
  simp only
  have h1 := Int.floor_le q
  have h2 := Int.lt_floor_add_one q
  split_ifs <;> rw [abs_le] <;> push_cast <;> constructor <;> linarith

theorem round64_error (q : ℚ) : |round64 q - q| ≤ |q| / 2 ^ 53 := by
  unfold round64 roundBits
  by_cases h : q = 0
  · simp [h]
  · rw [if_neg h]
    simp only
    have hq : 0 < |q| := abs_pos.mpr h
    have hu : (2 : ℚ) ^ (Int.log 2 |q|) ≤ |q| := Int.zpow_log_le_self (by norm_num) hq
    set u : ℚ := 2 ^ (Int.log 2 |q| - (((53 : ℕ) : ℤ) - 1)) with hud
    have hpos : 0 < u := by positivity
    have hu2 : u * 2 ^ 52 = 2 ^ (Int.log 2 |q|) := by
      rw [hud, ← zpow_natCast, ← zpow_add₀ (by norm_num)]
      congr 1
      push_cast
      ring
    have he := roundHalfEven_error (q / u)
    have : (roundHalfEven (q / u) : ℚ) * u - q = ((roundHalfEven (q / u) : ℚ) - q / u) * u := by field_simp
    rw [this, abs_mul, abs_of_pos hpos]
    have : |(roundHalfEven (q / u) : ℚ) - q / u| * u ≤ 1 / 2 * u := mul_le_mul_of_nonneg_right he hpos.le
    rw [le_div_iff₀ (by norm_num)]
    nlinarith

/-- Rounding multiplies by a factor that differs from one by at most 2^-53. -/
theorem round64_factor (q : ℚ) : ∃ θ : ℝ, |θ| ≤ 1 / 2 ^ 53 ∧ ((round64 q : ℚ) : ℝ) = (q : ℝ) * (1 + θ) := by
  by_cases h : q = 0
  · exact ⟨0, by norm_num, by simp [h, round64, roundBits]⟩
  · have hq : (q : ℝ) ≠ 0 := by exact_mod_cast h
    refine ⟨((round64 q : ℚ) - q) / q, ?_, by field_simp; ring⟩
    have he := round64_error q
    have he' : |((round64 q : ℚ) : ℝ) - (q : ℝ)| ≤ |(q : ℝ)| / 2 ^ 53 := by exact_mod_cast he
    rw [abs_div, div_le_iff₀ (abs_pos.mpr hq)]
    linarith [he']

theorem round64_one : round64 1 = 1 := by decide +kernel
theorem round64_256 : round64 256 = 256 := by decide +kernel

/-- A double between a half and one is a multiple of 2^-53. -/
theorem IsDouble.multiple {q : ℚ} (h : IsDouble q) (j : ℤ) (hj : (2 : ℚ) ^ j ≤ |q|) : ∃ n : ℤ, q = n * 2 ^ (j - 52) := by
  obtain ⟨m, k, hm, rfl⟩ := h
  by_cases hk : j - 52 ≤ k
  · obtain ⟨d, hd⟩ := Int.eq_ofNat_of_zero_le (sub_nonneg.mpr hk)
    refine ⟨m * 2 ^ d, ?_⟩
    have : k = (j - 52) + (d : ℤ) := by omega
    rw [this, zpow_add₀ (by norm_num), zpow_natCast]
    push_cast
    ring
  · exfalso
    rw [abs_mul, abs_of_pos (by positivity : (0 : ℚ) < 2 ^ k)] at hj
    have h1 : |(m : ℚ)| < 2 ^ 53 := by exact_mod_cast hm
    have h2 : (2 : ℚ) ^ k ≤ 2 ^ (j - 53) := zpow_le_zpow_right₀ (by norm_num) (by omega)
    have h3 : (2 : ℚ) ^ j = 2 ^ 53 * 2 ^ (j - 53) := by
      rw [← zpow_natCast, ← zpow_add₀ (by norm_num)]
      congr 1
      push_cast
      ring
    have h4 : |(m : ℚ)| * 2 ^ k ≤ |(m : ℚ)| * 2 ^ (j - 53) := mul_le_mul_of_nonneg_left h2 (abs_nonneg _)
    have h5 : |(m : ℚ)| * 2 ^ (j - 53) < 2 ^ 53 * 2 ^ (j - 53) := mul_lt_mul_of_pos_right h1 (by positivity)
    linarith

theorem ulp_pos (y : ℝ) : 0 < ulp y := by unfold ulp; positivity

theorem ulp_le (y : ℝ) (h : y ≠ 0) : ulp y ≤ |y| / 2 ^ 52 := by
  have hu : (2 : ℝ) ^ (Int.log 2 |y|) ≤ |y| := Int.zpow_log_le_self (by norm_num) (abs_pos.mpr h)
  have : ulp y * 2 ^ 52 = 2 ^ (Int.log 2 |y|) := by
    unfold ulp
    rw [← zpow_natCast, ← zpow_add₀ (by norm_num)]
    congr 1
    push_cast
    ring
  rw [le_div_iff₀ (by norm_num), this]
  exact hu

theorem ulp_zero : ulp 0 = 1 / 2 ^ 52 := by
  unfold ulp
  rw [abs_zero, Int.log_of_right_le_zero 2 (le_refl (0 : ℝ))]
  norm_num

/-- Every real number has a nearest double. -/
theorem nearlyRounded_exists (y : ℝ) : ∃ r : ℚ, NearlyRounded r y := by
  by_cases h : y = 0
  · exact ⟨0, ⟨0, 0, by norm_num, by simp⟩, by simp [h, (ulp_pos 0).le]⟩
  · set j := Int.log 2 |y| with hj
    have hu : ulp y = 2 ^ (j - 52) := rfl
    have hup : 0 < ulp y := ulp_pos y
    have hlt : |y| < (2 : ℝ) ^ (j + 1) := Int.lt_zpow_succ_log_self (by norm_num) |y|
    have h53 : (2 : ℝ) ^ (j + 1) = 2 ^ 53 * ulp y := by
      rw [hu, ← zpow_natCast, ← zpow_add₀ (by norm_num)]
      congr 1
      push_cast
      ring
    set n := round (y / ulp y) with hn
    have he : |y / ulp y - n| ≤ 1 / 2 := abs_sub_round _
    have hle : |(n : ℝ)| ≤ 2 ^ 53 := by
      have h1 : |y / ulp y| < 2 ^ 53 := by
        rw [abs_div, abs_of_pos hup, div_lt_iff₀ hup, ← h53]
        exact hlt
      by_contra hc
      push Not at hc
      have hc' : ((2 ^ 53 + 1 : ℤ) : ℝ) ≤ ((|n| : ℤ) : ℝ) := by
        have : (2 ^ 53 : ℤ) < |n| := by
          have : ((2 ^ 53 : ℤ) : ℝ) < ((|n| : ℤ) : ℝ) := by push_cast; norm_num at hc ⊢; exact hc
          exact_mod_cast this
        exact_mod_cast this
      push_cast at hc'
      have h2 : |(n : ℝ)| ≤ |y / ulp y| + 1 / 2 := by
        have := abs_sub_abs_le_abs_sub (n : ℝ) (y / ulp y)
        rw [abs_sub_comm] at this
        linarith
      linarith
    refine ⟨n * 2 ^ (j - 52), ?_, ?_⟩
    · rcases eq_or_lt_of_le hle with heq | hlt'
      · have hn' : |n| = 2 ^ 53 := by
          have : ((|n| : ℤ) : ℝ) = ((2 ^ 53 : ℤ) : ℝ) := by push_cast; norm_num at heq ⊢; exact heq
          exact_mod_cast this
        rcases abs_choice n with hc | hc
        · refine ⟨2 ^ 52, j - 51, by norm_num, ?_⟩
          rw [← hc, hn', show j - 51 = (j - 52) + 1 by ring, zpow_add₀ (by norm_num)]
          push_cast
          norm_num
          ring
        · refine ⟨-2 ^ 52, j - 51, by norm_num, ?_⟩
          rw [show n = -2 ^ 53 by omega, show j - 51 = (j - 52) + 1 by ring, zpow_add₀ (by norm_num)]
          push_cast
          norm_num
          ring
      · refine ⟨n, j - 52, ?_, rfl⟩
        have : ((|n| : ℤ) : ℝ) < ((2 ^ 53 : ℤ) : ℝ) := by push_cast; norm_num at hlt' ⊢; exact hlt'
        exact_mod_cast this
    · push_cast
      rw [← hu]
      have : (n : ℝ) * ulp y - y = -((y / ulp y - n) * ulp y) := by field_simp; ring
      rw [this, abs_neg, abs_mul, abs_of_pos hup]
      nlinarith

/-- Such libraries exist. -/
theorem accurate_exists : ∃ lib : Libm, lib.Accurate :=
  ⟨⟨fun x => ⟨(nearlyRounded_exists (Real.logb 2 x.val)).choose⟩, fun x => ⟨(nearlyRounded_exists ((2 : ℝ) ^ (x.val : ℝ))).choose⟩⟩,
    ⟨fun x _ => (nearlyRounded_exists (Real.logb 2 x.val)).choose_spec, fun x => (nearlyRounded_exists ((2 : ℝ) ^ (x.val : ℝ))).choose_spec⟩⟩

end Rendering
