import Verif.Lemmas.RgbeFloat
import Verif.Lemmas.FalseColourFloat

/-!
# The top end of a scale that starts at zero, in double precision
-/

set_option linter.unusedSectionVars false
namespace Rendering

theorem roundHalfEven_ge {n : ℤ} {q : ℚ} (h : (n : ℚ) - 1 / 2 < q) : n ≤ roundHalfEven q := by
  have := (abs_le.1 (roundHalfEven_error q)).1
  have h2 : ((n - 1 : ℤ) : ℚ) < (roundHalfEven q : ℚ) := by push_cast; linarith
  have := Int.cast_lt.1 h2
  omega

theorem round64_eq {q : ℚ} (h : 0 < q) {j : ℤ} (h1 : (2 : ℚ) ^ j ≤ q) (h2 : q < (2 : ℚ) ^ (j + 1)) : round64 q = (roundHalfEven (q / 2 ^ (j - 52)) : ℚ) * 2 ^ (j - 52) := by
  have hl : Int.log 2 |q| = j := by
    rw [abs_of_pos h]
    refine le_antisymm ?_ ?_
    · have := (Int.lt_zpow_iff_log_lt (b := 2) (by norm_num) h).1 (by exact_mod_cast h2)
      omega
    · exact (Int.zpow_le_iff_le_log (b := 2) (by norm_num) h).1 (by exact_mod_cast h1)
  unfold round64 roundBits
  rw [if_neg h.ne']
  simp only [hl]
  norm_num

/-- The power of two below a positive number. -/
theorem exists_exponent {q : ℚ} (h : 0 < q) : ∃ j : ℤ, (2 : ℚ) ^ j ≤ q ∧ q < (2 : ℚ) ^ (j + 1) :=
  ⟨Int.log 2 q, by exact_mod_cast Int.zpow_log_le_self (b := 2) (by norm_num) h, by exact_mod_cast Int.lt_zpow_succ_log_self (b := 2) (by norm_num) q⟩

theorem pow_split (j : ℤ) : (2 : ℚ) ^ j = 2 ^ 52 * 2 ^ (j - 52) := by
  rw [← zpow_natCast (2 : ℚ) 52, ← zpow_add₀ (by norm_num)]
  congr 1
  push_cast
  ring

/-- Rounding does not go below a double. -/
theorem round64_ge {d q : ℚ} (hd : IsDouble d) (h0 : 0 < d) (h : d ≤ q) : d ≤ round64 q := by
  have hq := h0.trans_le h
  obtain ⟨j, h1, h2⟩ := exists_exponent hq
  rw [round64_eq hq h1 h2]
  have hu : (0 : ℚ) < 2 ^ (j - 52) := by positivity
  rcases lt_or_ge d (2 ^ j) with hc | hc
  · refine hc.le.trans ?_
    rw [pow_split j]
    gcongr
    have : ((2 ^ 52 : ℤ)) ≤ roundHalfEven (q / 2 ^ (j - 52)) := by
      refine roundHalfEven_ge ?_
      have : (2 : ℚ) ^ 52 ≤ q / 2 ^ (j - 52) := by rw [le_div_iff₀ hu, ← pow_split]; exact h1
      push_cast
      linarith
    exact_mod_cast this
  · obtain ⟨n, hn⟩ := hd.multiple j (by rwa [abs_of_pos h0])
    rw [hn]
    gcongr
    refine roundHalfEven_ge ?_
    have : (n : ℚ) ≤ q / 2 ^ (j - 52) := by rw [le_div_iff₀ hu, ← hn]; exact h
    linarith

theorem isDouble_pos {n : ℤ} (h0 : 0 < n) (h : n ≤ 2 ^ 53) (z : ℤ) : IsDouble ((n : ℚ) * 2 ^ z) := by
  rcases lt_or_eq_of_le h with h | h
  · exact ⟨n, z, by rwa [abs_of_pos h0], rfl⟩
  · refine ⟨2 ^ 52, z + 1, by norm_num, ?_⟩
    rw [h, zpow_add_one₀ (by norm_num)]
    push_cast
    ring

/-- Rounding gives doubles. -/
theorem isDouble_round_pos {q : ℚ} (hq : 0 < q) : IsDouble (round64 q) := by
  obtain ⟨j, h1, h2⟩ := exists_exponent hq
  rw [round64_eq hq h1 h2]
  have hu : (0 : ℚ) < 2 ^ (j - 52) := by positivity
  have e := abs_le.1 (roundHalfEven_error (q / 2 ^ (j - 52)))
  have a : (2 : ℚ) ^ 52 ≤ q / 2 ^ (j - 52) := by rw [le_div_iff₀ hu, ← pow_split]; exact h1
  have b : q / 2 ^ (j - 52) < 2 ^ 53 := by
    rw [div_lt_iff₀ hu]
    refine h2.trans_eq ?_
    rw [zpow_add_one₀ (by norm_num), pow_split j]
    ring
  refine isDouble_pos ?_ ?_ _
  · have : (0 : ℚ) < roundHalfEven (q / 2 ^ (j - 52)) := by linarith
    exact_mod_cast this
  · have : (roundHalfEven (q / 2 ^ (j - 52)) : ℚ) < ((2 ^ 53 + 1 : ℤ) : ℚ) := by push_cast; linarith
    have := Int.cast_lt.1 this
    omega

/-- The error of rounding, from a bound of the number. -/
theorem round64_near {q : ℚ} (hq : 0 < q) {z : ℤ} (h : q ≤ 2 ^ 53 * 2 ^ z) : |round64 q - q| ≤ 2 ^ z / 2 := by
  rcases lt_or_eq_of_le h with h | h
  · obtain ⟨j, h1, h2⟩ := exists_exponent hq
    rw [round64_eq hq h1 h2]
    have hu : (0 : ℚ) < 2 ^ (j - 52) := by positivity
    have hjz : j - 52 ≤ z := by
      have : (2 : ℚ) ^ j < 2 ^ (53 + z) := by
        rw [zpow_add₀ (by norm_num)]
        exact_mod_cast h1.trans_lt h
      have := (zpow_lt_zpow_iff_right₀ (by norm_num)).1 this
      omega
    have he := roundHalfEven_error (q / 2 ^ (j - 52))
    have : (roundHalfEven (q / 2 ^ (j - 52)) : ℚ) * 2 ^ (j - 52) - q = ((roundHalfEven (q / 2 ^ (j - 52)) : ℚ) - q / 2 ^ (j - 52)) * 2 ^ (j - 52) := by field_simp
    rw [this, abs_mul, abs_of_pos hu]
    calc _ ≤ 1 / 2 * (2 : ℚ) ^ (j - 52) := by gcongr
      _ ≤ 1 / 2 * 2 ^ z := by gcongr; norm_num
      _ = _ := by ring
  · rw [round64_of_isDouble]
    · simp; positivity
    · rw [h]
      have := isDouble_pos (n := 2 ^ 53) (by norm_num) le_rfl z
      exact_mod_cast this

/-- Rounding goes to the nearest double. -/
theorem round64_nearest {q : ℚ} {n z : ℤ} (h0 : 2 ^ 52 < n) (h1 : n ≤ 2 ^ 53) (h : ((n : ℚ) - 1 / 2) * 2 ^ z < q) : (n : ℚ) * 2 ^ z ≤ round64 q := by
  have hz : (0 : ℚ) < 2 ^ z := by positivity
  have hn : ((2 : ℚ) ^ 52 + 1) ≤ n := by exact_mod_cast h0
  have hn2 : (n : ℚ) ≤ 2 ^ 53 := by exact_mod_cast h1
  rcases le_or_gt ((n : ℚ) * 2 ^ z) q with hc | hc
  · exact round64_ge (isDouble_pos (by linarith [show (0 : ℤ) < 2 ^ 52 by norm_num]) h1 z) (by positivity) hc
  · have ha : (2 : ℚ) ^ (z + 52) ≤ q := by
      rw [pow_split, show z + 52 - 52 = z by ring]
      nlinarith
    have hb : q < (2 : ℚ) ^ (z + 52 + 1) := by
      rw [zpow_add_one₀ (by norm_num), pow_split, show z + 52 - 52 = z by ring]
      nlinarith
    have hq : 0 < q := lt_of_lt_of_le (by positivity) ha
    rw [round64_eq hq ha hb, show z + 52 - 52 = z by ring]
    gcongr
    refine roundHalfEven_ge ?_
    rwa [lt_div_iff₀ hz]

/-- A positive double as a whole number of units in the last place below it. -/
theorem double_units {d : ℚ} (hd : IsDouble d) (h0 : 0 < d) : ∃ n z : ℤ, 2 ^ 52 < n ∧ n ≤ 2 ^ 53 ∧ d = n * 2 ^ z := by
  obtain ⟨j, h1, h2⟩ := exists_exponent h0
  obtain ⟨n, hn⟩ := hd.multiple j (by rwa [abs_of_pos h0])
  have hu : (0 : ℚ) < 2 ^ (j - 52) := by positivity
  have a : (2 : ℚ) ^ 52 ≤ n := by
    rw [pow_split, hn] at h1
    exact le_of_mul_le_mul_right h1 hu
  have b : (n : ℚ) < 2 ^ 53 := by
    rw [zpow_add_one₀ (by norm_num), pow_split j, hn] at h2
    have : (n : ℚ) * 2 ^ (j - 52) < 2 ^ 53 * 2 ^ (j - 52) := by linarith
    exact lt_of_mul_lt_mul_right this hu.le
  have a' : (2 : ℤ) ^ 52 ≤ n := by exact_mod_cast a
  have b' : n < (2 : ℤ) ^ 53 := by exact_mod_cast b
  rcases lt_or_eq_of_le a' with h | h
  · exact ⟨n, j - 52, h, b'.le, hn⟩
  · refine ⟨2 ^ 53, j - 53, by norm_num, le_rfl, ?_⟩
    rw [hn, ← h, show j - 52 = j - 53 + 1 by ring, zpow_add_one₀ (by norm_num)]
    push_cast
    ring

/-- The double before a double. -/
theorem double_pred {x : ℚ} (hx : IsDouble x) (h0 : 0 < x) {n z : ℤ} (h1 : 2 ^ 52 < n) (h : x < n * 2 ^ z) : x ≤ (n - 1) * 2 ^ z := by
  have hz : (0 : ℚ) < 2 ^ z := by positivity
  have hn : ((2 : ℚ) ^ 52 + 1) ≤ n := by exact_mod_cast h1
  rcases lt_or_ge x (2 ^ (z + 52)) with hc | hc
  · refine hc.le.trans ?_
    rw [pow_split, show z + 52 - 52 = z by ring]
    gcongr
    linarith
  · obtain ⟨k, hk⟩ := hx.multiple (z + 52) (by rwa [abs_of_pos h0])
    rw [show z + 52 - 52 = z by ring] at hk
    rw [hk] at h ⊢
    have := lt_of_mul_lt_mul_right h hz.le
    have h2 : k < n := by exact_mod_cast this
    have h3 : k ≤ n - 1 := by omega
    have : (k : ℚ) ≤ ((n - 1 : ℤ) : ℚ) := by exact_mod_cast h3
    push_cast at this
    gcongr

/-- The last of 255 equal parts, computed in double precision, ends at the top or at the double below it. -/
theorem last_end {hi x : ℚ} (hh : IsDouble hi) (hx : IsDouble x) (h0 : 0 < x) (h : x < hi) : x ≤ round64 (round64 (254 * round64 (hi / 255)) + round64 (hi / 255)) := by
  obtain ⟨n, z, h1, h2, rfl⟩ := double_units hh (h0.trans h)
  refine (double_pred hx h0 h1 h).trans ?_
  have hz : (0 : ℚ) < 2 ^ z := by positivity
  have hn : ((2 : ℚ) ^ 52 + 1) ≤ n := by exact_mod_cast h1
  have hn2 : (n : ℚ) ≤ 2 ^ 53 := by exact_mod_cast h2
  have hq : (0 : ℚ) < (n : ℚ) * 2 ^ z / 255 := by positivity
  have e7 : (2 : ℚ) ^ (z - 7) = 2 ^ z / 128 := by rw [zpow_sub₀ (by norm_num)]; norm_num
  have w := abs_le.1 (round64_near hq (z := z - 7) (by rw [e7]; nlinarith))
  rw [e7] at w
  set w0 := round64 ((n : ℚ) * 2 ^ z / 255) with hw0
  obtain ⟨w1, w2⟩ := w
  have hnz : (2 ^ 52 + 1) * (2 : ℚ) ^ z ≤ n * 2 ^ z := by gcongr
  have hnz2 : n * (2 : ℚ) ^ z ≤ 2 ^ 53 * 2 ^ z := by gcongr
  have hwp : 0 < w0 := by linarith
  have t := abs_le.1 (round64_near (q := 254 * w0) (by positivity) (z := z) (by linarith))
  obtain ⟨t1, t2⟩ := t
  set t0 := round64 (254 * w0) with ht0
  rcases le_or_gt ((n : ℚ)) (2 ^ 53 * 255 / 256) with hc | hc
  · have e8 : (2 : ℚ) ^ (z - 8) = 2 ^ z / 256 := by rw [zpow_sub₀ (by norm_num)]; norm_num
    have w' := abs_le.1 (round64_near hq (z := z - 8) (by rw [e8]; nlinarith))
    rw [e8, ← hw0] at w'
    obtain ⟨w3, w4⟩ := w'
    have hd : IsDouble (((n - 1 : ℤ) : ℚ) * 2 ^ z) := isDouble_pos (by linarith [show (0 : ℤ) < 2 ^ 52 by norm_num]) (by omega) z
    push_cast at hd
    refine round64_ge hd ?_ ?_
    · nlinarith
    · linarith
  · have := round64_nearest (q := t0 + w0) (n := n - 1) (z := z) ?_ (by omega) ?_
    · push_cast at this
      exact this
    · have : ((2 ^ 52 + 1 : ℤ) : ℚ) < n := by push_cast; linarith
      have := Int.cast_lt.1 this
      omega
    · push_cast
      linarith

end Rendering
