import Verif.Lemmas.RgbeFloat
import Mathlib.Analysis.SpecialFunctions.Log.Deriv

/-!
# The logarithm of five to twenty places, and what an accurate library makes of it
-/

set_option linter.unusedSectionVars false

namespace Rendering

variable {lib : Libm}

/-- The partial sums of the series of `-log (1 - x)`, over the rationals. -/
def logSum (x : ℚ) (n : ℕ) : ℚ := ∑ i ∈ Finset.range n, x ^ (i + 1) / (i + 1)

theorem logSum_cast (x : ℚ) (n : ℕ) : ((logSum x n : ℚ) : ℝ) = ∑ i ∈ Finset.range n, (x : ℝ) ^ (i + 1) / (i + 1) := by
  unfold logSum
  push_cast
  rfl

theorem log_near (x : ℚ) (h0 : 0 ≤ x) (h1 : x < 1) (n : ℕ) : |(logSum x n : ℝ) + Real.log (1 - x)| ≤ ((x ^ (n + 1) / (1 - x) : ℚ) : ℝ) := by
  have h0' : (0 : ℝ) ≤ x := by exact_mod_cast h0
  have h1' : (x : ℝ) < 1 := by exact_mod_cast h1
  have h := Real.abs_log_sub_add_sum_range_le (x := (x : ℝ)) (by rw [abs_of_nonneg h0']; exact h1') n
  rw [abs_of_nonneg h0', ← logSum_cast] at h
  push_cast
  exact h

/-- `N / 2^51` is the double just below the logarithm of five. -/
def five : ℤ := 5228517251457905

theorem numbers_low : ((five : ℚ) + 37 / 100) / 2 ^ 51 - 2 ≤ (logSum (1 / 5) 30 - (1 / 5) ^ 31 / (1 - 1 / 5)) / (logSum (1 / 2) 70 + (1 / 2) ^ 71 / (1 - 1 / 2)) := by decide +kernel
theorem numbers_high : (logSum (1 / 5) 30 + (1 / 5) ^ 31 / (1 - 1 / 5)) / (logSum (1 / 2) 70 - (1 / 2) ^ 71 / (1 - 1 / 2)) ≤ ((five : ℚ) + 38 / 100) / 2 ^ 51 - 2 := by decide +kernel
theorem numbers_pos : 0 < logSum (1 / 2) 70 - (1 / 2) ^ 71 / (1 - 1 / 2) ∧ 0 < logSum (1 / 5) 30 - (1 / 5) ^ 31 / (1 - 1 / 5) := by decide +kernel
theorem numbers_two : 693 / 1000 ≤ logSum (1 / 2) 70 - (1 / 2) ^ 71 / (1 - 1 / 2) ∧ logSum (1 / 2) 70 + (1 / 2) ^ 71 / (1 - 1 / 2) ≤ 694 / 1000 := by decide +kernel

theorem log_two_in : ((logSum (1 / 2) 70 - (1 / 2) ^ 71 / (1 - 1 / 2) : ℚ) : ℝ) ≤ Real.log 2 ∧ Real.log 2 ≤ ((logSum (1 / 2) 70 + (1 / 2) ^ 71 / (1 - 1 / 2) : ℚ) : ℝ) := by
  have h := log_near (1 / 2) (by norm_num) (by norm_num) 70
  have e : Real.log (1 - ((1 / 2 : ℚ) : ℝ)) = -Real.log 2 := by
    rw [← Real.log_inv]; congr 1; push_cast; norm_num
  rw [e, abs_le] at h
  generalize logSum (1 / 2) 70 = s at h ⊢
  generalize ((1 / 2 : ℚ) ^ (70 + 1) / (1 - 1 / 2)) = t at h ⊢
  push_cast at h ⊢
  constructor <;> linarith [h.1, h.2]

theorem log_quarter_in : ((logSum (1 / 5) 30 - (1 / 5) ^ 31 / (1 - 1 / 5) : ℚ) : ℝ) ≤ Real.log (5 / 4) ∧ Real.log (5 / 4) ≤ ((logSum (1 / 5) 30 + (1 / 5) ^ 31 / (1 - 1 / 5) : ℚ) : ℝ) := by
  have h := log_near (1 / 5) (by norm_num) (by norm_num) 30
  have e : Real.log (1 - ((1 / 5 : ℚ) : ℝ)) = -Real.log (5 / 4) := by
    rw [← Real.log_inv]; congr 1; push_cast; norm_num
  rw [e, abs_le] at h
  generalize logSum (1 / 5) 30 = s at h ⊢
  generalize ((1 / 5 : ℚ) ^ (30 + 1) / (1 - 1 / 5)) = t at h ⊢
  push_cast at h ⊢
  constructor <;> linarith [h.1, h.2]

theorem logb_five : Real.logb 2 5 = 2 + Real.log (5 / 4) / Real.log 2 := by
  unfold Real.logb
  have h2 : Real.log 2 ≠ 0 := (Real.log_pos (by norm_num)).ne'
  have : Real.log 5 = Real.log 4 + Real.log (5 / 4) := by
    rw [← Real.log_mul (by norm_num) (by norm_num)]; norm_num
  have h4 : Real.log 4 = 2 * Real.log 2 := by
    rw [show (4 : ℝ) = 2 ^ 2 by norm_num, Real.log_pow]; norm_num
  rw [this, h4]
  field_simp

theorem logb_five_in : ((five : ℝ) + 37 / 100) / 2 ^ 51 ≤ Real.logb 2 5 ∧ Real.logb 2 5 ≤ ((five : ℝ) + 38 / 100) / 2 ^ 51 := by
  obtain ⟨a0, a1⟩ := log_quarter_in
  obtain ⟨b0, b1⟩ := log_two_in
  obtain ⟨pb, pa⟩ := numbers_pos
  have hl := numbers_low
  have hh := numbers_high
  generalize (logSum (1 / 5) 30 - (1 / 5) ^ 31 / (1 - 1 / 5)) = A0 at *
  generalize (logSum (1 / 5) 30 + (1 / 5) ^ 31 / (1 - 1 / 5)) = A1 at *
  generalize (logSum (1 / 2) 70 - (1 / 2) ^ 71 / (1 - 1 / 2)) = B0 at *
  generalize (logSum (1 / 2) 70 + (1 / 2) ^ 71 / (1 - 1 / 2)) = B1 at *
  have pb' : (0 : ℝ) < B0 := by exact_mod_cast pb
  have pa' : (0 : ℝ) < A0 := by exact_mod_cast pa
  have q2 : 0 < Real.log 2 := lt_of_lt_of_le pb' b0
  have q5 : 0 < Real.log (5 / 4) := lt_of_lt_of_le pa' a0
  have hl' : ((((five : ℚ) + 37 / 100) / 2 ^ 51 - 2 : ℚ) : ℝ) ≤ ((A0 / B1 : ℚ) : ℝ) := by exact_mod_cast hl
  have hh' : ((A1 / B0 : ℚ) : ℝ) ≤ ((((five : ℚ) + 38 / 100) / 2 ^ 51 - 2 : ℚ) : ℝ) := by exact_mod_cast hh
  have g0 : ((A0 / B1 : ℚ) : ℝ) ≤ Real.log (5 / 4) / Real.log 2 := by
    push_cast
    exact div_le_div₀ q5.le a0 q2 b1
  have g1 : Real.log (5 / 4) / Real.log 2 ≤ ((A1 / B0 : ℚ) : ℝ) := by
    push_cast
    exact div_le_div₀ (le_trans q5.le a1) a1 pb' b0
  rw [logb_five]
  push_cast at hl' hh' g0 g1
  constructor
  · have := le_trans hl' g0; linarith
  · have := le_trans g1 hh'; linarith

/-- The double an accurate library returns when its neighbours are out of reach. -/
theorem nearly_unique {r : ℚ} {y : ℝ} (h : NearlyRounded r y) (j N : ℤ) (hj : (2 : ℝ) ^ j ≤ y) (hj' : y < 2 ^ (j + 1)) (hN : 2 ^ 52 + 1 ≤ N)
    (hlo : ((N : ℝ) - 45 / 100) * 2 ^ (j - 52) < y) (hhi : y < ((N : ℝ) + 45 / 100) * 2 ^ (j - 52)) : r = N * 2 ^ (j - 52) := by
  obtain ⟨hd, hn⟩ := h
  have hy : 0 < y := lt_of_lt_of_le (by positivity) hj
  have hlog : Int.log 2 |y| = j := by
    rw [abs_of_pos hy]
    have a : j ≤ Int.log 2 y := (Int.zpow_le_iff_le_log (by norm_num) hy).mp (by exact_mod_cast hj)
    have b : Int.log 2 y < j + 1 := (Int.lt_zpow_iff_log_lt (by norm_num) hy).mp (by exact_mod_cast hj')
    omega
  unfold ulp at hn
  rw [hlog] at hn
  have hu : (0 : ℝ) < 2 ^ (j - 52) := by positivity
  have hr : (2 : ℚ) ^ j ≤ |r| := by
    have h52 : (2 : ℝ) ^ j = 2 ^ 52 * 2 ^ (j - 52) := by
      rw [← zpow_natCast, ← zpow_add₀ (by norm_num)]
      congr 1
      push_cast
      ring
    have hN' : ((2 : ℝ) ^ 52 + 1) ≤ N := by exact_mod_cast hN
    have hN2 := mul_le_mul_of_nonneg_right hN' hu.le
    have : (2 : ℝ) ^ j ≤ r := by
      have := (abs_le.mp hn).1
      linarith
    refine le_trans ?_ (le_abs_self r)
    have e : (((2 : ℚ) ^ j : ℚ) : ℝ) = 2 ^ j := by push_cast; rfl
    rw [← e] at this
    exact_mod_cast this
  obtain ⟨n, hn'⟩ := hd.multiple j hr
  rw [hn'] at hn ⊢
  push_cast at hn
  rw [abs_le] at hn
  have h1 : ((n : ℝ)) * 2 ^ (j - 52) < (N + 1) * 2 ^ (j - 52) := by linarith [hn.2]
  have h2 : ((N : ℝ) - 1) * 2 ^ (j - 52) < n * 2 ^ (j - 52) := by linarith [hn.1]
  have h1' := lt_of_mul_lt_mul_right h1 hu.le
  have h2' := lt_of_mul_lt_mul_right h2 hu.le
  have h1'' : n < N + 1 := by exact_mod_cast h1'
  have h2'' : N - 1 < n := by exact_mod_cast h2'
  have : n = N := by omega
  rw [this]

theorem log2_five (hlib : lib.Accurate) : (lib.log2 ⟨5⟩).val = (five : ℚ) * 2 ^ (-51 : ℤ) := by
  have h := hlib.log2 ⟨5⟩ (by norm_num)
  obtain ⟨h1, h2⟩ := logb_five_in
  have e : ((5 : ℚ) : ℝ) = 5 := by norm_num
  rw [e] at h
  have := nearly_unique h 1 five (le_trans (by norm_num [five]) h1) (lt_of_le_of_lt h2 (by norm_num [five])) (by norm_num [five])
    (lt_of_lt_of_le (by norm_num [five]) h1) (lt_of_le_of_lt h2 (by norm_num [five]))
  simpa using this

/-- Five eighths, up to the error made by the logarithm. -/
theorem exp2_five (hlib : lib.Accurate) : (lib.exp2 ⟨(five : ℚ) / 2 ^ 51 - 3⟩).val = 5 / 8 - 1 / 2 ^ 53 := by
  have h := hlib.exp2 ⟨(five : ℚ) / 2 ^ 51 - 3⟩
  obtain ⟨h1, h2⟩ := logb_five_in
  obtain ⟨c0, c1⟩ := numbers_two
  obtain ⟨b0, b1⟩ := log_two_in
  have d0 : (693 / 1000 : ℝ) ≤ Real.log 2 := by
    refine le_trans ?_ b0
    have : ((693 / 1000 : ℚ) : ℝ) ≤ ((logSum (1 / 2) 70 - (1 / 2) ^ 71 / (1 - 1 / 2) : ℚ) : ℝ) := by exact_mod_cast c0
    refine le_trans (by norm_num) this
  have d1 : Real.log 2 ≤ 694 / 1000 := by
    refine le_trans b1 ?_
    have : ((logSum (1 / 2) 70 + (1 / 2) ^ 71 / (1 - 1 / 2) : ℚ) : ℝ) ≤ ((694 / 1000 : ℚ) : ℝ) := by exact_mod_cast c1
    refine le_trans this (by norm_num)
  set δ : ℝ := (five : ℝ) / 2 ^ 51 - Real.logb 2 5 with hδ
  have e0 : -(38 / 100 / 2 ^ 51) ≤ δ := by rw [hδ, add_div] at *; linarith
  have e1 : δ ≤ -(37 / 100 / 2 ^ 51) := by rw [hδ, add_div] at *; linarith
  have hy : (2 : ℝ) ^ ((((five : ℚ) / 2 ^ 51 - 3 : ℚ)) : ℝ) = 5 / 8 * Real.exp (Real.log 2 * δ) := by
    have : ((((five : ℚ) / 2 ^ 51 - 3 : ℚ)) : ℝ) = Real.logb 2 5 + δ + (-3 : ℝ) := by
      rw [hδ]; push_cast; ring
    rw [this, Real.rpow_add (by norm_num), Real.rpow_add (by norm_num), Real.rpow_logb (by norm_num) (by norm_num) (by norm_num), Real.rpow_def_of_pos (by norm_num) δ]
    have h8 : (2 : ℝ) ^ (-3 : ℝ) = 1 / 8 := by
      rw [show (-3 : ℝ) = ((-3 : ℤ) : ℝ) by norm_num, Real.rpow_intCast]; norm_num
    rw [h8]
    ring
  rw [hy] at h
  set t : ℝ := Real.log 2 * δ with ht
  have t0 : -(694 / 1000 * (38 / 100 / 2 ^ 51)) ≤ t := by
    have : Real.log 2 * (-δ) ≤ 694 / 1000 * (38 / 100 / 2 ^ 51) := mul_le_mul d1 (by linarith) (by linarith [show (0 : ℝ) < 37 / 100 / 2 ^ 51 by positivity]) (by norm_num)
    rw [ht]; linarith
  have t1 : t ≤ -(693 / 1000 * (37 / 100 / 2 ^ 51)) := by
    have : (693 / 1000 : ℝ) * (37 / 100 / 2 ^ 51) ≤ Real.log 2 * (-δ) := mul_le_mul d0 (by linarith) (by positivity) (by linarith)
    rw [ht]; linarith
  have x0 : 1 + t ≤ Real.exp t := by linarith [Real.add_one_le_exp t]
  have x1 : Real.exp t ≤ 1 - 9999 / 10000 * (693 / 1000 * (37 / 100 / 2 ^ 51)) := by
    refine le_trans (Real.exp_le_exp.mpr t1) ?_
    have := Real.add_one_le_exp (693 / 1000 * (37 / 100 / 2 ^ 51) : ℝ)
    rw [Real.exp_neg]
    refine inv_le_of_inv_le₀ (by norm_num) (le_trans ?_ this)
    norm_num
  have := nearly_unique h (-1) (5629499534213120 - 1) (by norm_num at t0 x0 ⊢; linarith) (by norm_num at x1 ⊢; linarith) (by norm_num) (by norm_num at t0 x0 ⊢; linarith) (by norm_num at x1 ⊢; linarith)
  rw [this]
  norm_num

end Rendering
