import Verif.Model.Render
import Mathlib.Tactic.Linarith
import Mathlib.Tactic.Ring
import Mathlib.Tactic.FieldSimp
import Mathlib.Tactic.Positivity

/-!
# C40: the pixel coordinates computed in floating point are exact
-/

namespace Rendering

theorem roundHalfEven_int (n : ℤ) : roundHalfEven (n : ℚ) = n := by
  simp [roundHalfEven]

theorem roundHalfEven_ge_floor (q : ℚ) : ⌊q⌋ ≤ roundHalfEven q := by
  unfold roundHalfEven
  simp only
  split_ifs <;> omega

theorem roundHalfEven_close (q : ℚ) : (roundHalfEven q : ℚ) - q ≤ 1 / 2 := by
  have h1 := Int.floor_le q
  have h2 := Int.lt_floor_add_one q
  unfold roundHalfEven
  simp only
  split_ifs with h3 h4 h5
  · linarith
  · push_cast; linarith
  · linarith
  · push_cast; linarith

/-- In the binade of a positive number below `2^p`, integers up to that number are multiples of the last place. -/
theorem log_lt {p : Nat} {x : ℚ} (hx : 0 < x) (hp : x < 2 ^ p) : Int.log 2 x + 1 ≤ p := by
  have h : (2 : ℚ) ^ Int.log 2 x ≤ x := Int.zpow_log_le_self (by norm_num) hx
  have h2 : (2 : ℚ) ^ Int.log 2 x < (2 : ℚ) ^ ((p : ℕ) : ℤ) := by
    rw [zpow_natCast]; exact lt_of_le_of_lt h hp
  have := (zpow_lt_zpow_iff_right₀ (by norm_num : (1 : ℚ) < 2)).1 h2
  omega

/-- Non-negative integers below `2^p` are represented exactly. -/
theorem roundBits_nat (p n : Nat) (h : n < 2 ^ p) : roundBits p (n : ℚ) = n := by
  unfold roundBits
  split
  · rename_i h0; rw [h0]
  rename_i h0
  have hpos : (0 : ℚ) < n := lt_of_le_of_ne (Nat.cast_nonneg n) (Ne.symm h0)
  rw [abs_of_pos hpos]
  have hlog := log_lt hpos (by exact_mod_cast h : (n : ℚ) < 2 ^ p)
  set e := Int.log 2 (n : ℚ)
  simp only
  obtain ⟨k, hk⟩ := Int.eq_ofNat_of_zero_le (show 0 ≤ (p : ℤ) - 1 - e by omega)
  have hu : (2 : ℚ) ^ (e - ((p : ℤ) - 1)) = ((2 : ℚ) ^ k)⁻¹ := by
    rw [show e - ((p : ℤ) - 1) = -(k : ℤ) by omega, zpow_neg, zpow_natCast]
  rw [hu, div_inv_eq_mul]
  have : (n : ℚ) * 2 ^ k = ((n * 2 ^ k : ℤ) : ℚ) := by push_cast; ring
  rw [this, roundHalfEven_int]
  push_cast
  field_simp

/-- **C40.** For a `p`-bit floating point format (`p = 53` for f64, 24 for f32), the row computed in floating point is the integer quotient, for every index below `2^p`. -/
theorem C40_row_exact (p index width : Nat) (hi : index < 2 ^ p) (hw0 : 0 < width) (hw : width < 2 ^ p) : rowOf p index width = index / width := by
  unfold rowOf
  rw [roundBits_nat p index hi, roundBits_nat p width hw]
  have hwq : (0 : ℚ) < width := by exact_mod_cast hw0
  rcases Nat.eq_zero_or_pos index with rfl | hipos
  · simp [roundBits]
  have hiq : (0 : ℚ) < index := by exact_mod_cast hipos
  set x : ℚ := (index : ℚ) / width with hx
  have hxpos : 0 < x := by positivity
  have hw1 : (1 : ℚ) ≤ width := by exact_mod_cast hw0
  have hxp : x < 2 ^ p := by
    have : (index : ℚ) < 2 ^ p := by exact_mod_cast hi
    rw [hx, div_lt_iff₀ hwq]
    nlinarith
  set q := index / width with hq
  have hdm : (width : ℚ) * q + (index % width : ℕ) = index := by exact_mod_cast Nat.div_add_mod index width
  have hmod : ((index % width : ℕ) : ℚ) + 1 ≤ width := by exact_mod_cast Nat.mod_lt index hw0
  have hqx : (q : ℚ) ≤ x := by
    rw [hx, le_div_iff₀ hwq]
    have : (0 : ℚ) ≤ (index % width : ℕ) := Nat.cast_nonneg _
    nlinarith
  have hxq : x + 1 / width ≤ q + 1 := by
    rw [hx, ← add_div, div_le_iff₀ hwq]
    nlinarith
  have hlog := log_lt hxpos hxp
  have hle : (2 : ℚ) ^ Int.log 2 x ≤ x := Int.zpow_log_le_self (by norm_num) hxpos
  have hround : roundBits p x = (roundHalfEven (x / 2 ^ (Int.log 2 x - ((p : ℤ) - 1))) : ℚ) * 2 ^ (Int.log 2 x - ((p : ℤ) - 1)) := by
    unfold roundBits
    rw [if_neg hxpos.ne', abs_of_pos hxpos]
  rw [hround]
  set e := Int.log 2 x
  obtain ⟨k, hk⟩ := Int.eq_ofNat_of_zero_le (show 0 ≤ (p : ℤ) - 1 - e by omega)
  have hu : (2 : ℚ) ^ (e - ((p : ℤ) - 1)) = ((2 : ℚ) ^ k)⁻¹ := by
    rw [show e - ((p : ℤ) - 1) = -(k : ℤ) by omega, zpow_neg, zpow_natCast]
  -- half a unit in the last place is below 1 / width
  have hhalf : 1 / 2 * (2 : ℚ) ^ (e - ((p : ℤ) - 1)) < 1 / width := by
    have h1 : (2 : ℚ) ^ (e - ((p : ℤ) - 1)) = 2 ^ e * 2 / 2 ^ p := by
      rw [show e - ((p : ℤ) - 1) = e + 1 - (p : ℤ) by ring, zpow_sub₀ (by norm_num), zpow_add₀ (by norm_num), zpow_natCast, zpow_one]
    rw [h1]
    have h2 : (0 : ℚ) < 2 ^ p := by positivity
    have h3 : x * width = index := by rw [hx]; field_simp
    have h4 : (index : ℚ) < 2 ^ p := by exact_mod_cast hi
    have : 1 / 2 * (2 ^ e * 2 / 2 ^ p) = (2 : ℚ) ^ e / 2 ^ p := by ring
    rw [this, div_lt_div_iff₀ h2 hwq, one_mul]
    calc (2 : ℚ) ^ e * width ≤ x * width := mul_le_mul_of_nonneg_right hle hwq.le
      _ < 2 ^ p := by rw [h3]; exact h4
  have hupos : (0 : ℚ) < 2 ^ (e - ((p : ℤ) - 1)) := by positivity
  set u : ℚ := 2 ^ (e - ((p : ℤ) - 1)) with hudef
  have hlow : (q : ℚ) ≤ (roundHalfEven (x / u) : ℚ) * u := by
    have hqi : ((q * 2 ^ k : ℕ) : ℤ) ≤ ⌊x / u⌋ := by
      rw [Int.le_floor]
      rw [hu, div_inv_eq_mul]
      push_cast
      exact mul_le_mul_of_nonneg_right hqx (by positivity)
    have := hqi.trans (roundHalfEven_ge_floor (x / u))
    have h' : ((q * 2 ^ k : ℕ) : ℚ) ≤ (roundHalfEven (x / u) : ℚ) := by exact_mod_cast this
    have h2k : ((2 : ℚ) ^ k) * u = 1 := by rw [hu]; field_simp
    calc (q : ℚ) = ((q * 2 ^ k : ℕ) : ℚ) * u := by push_cast; rw [mul_assoc, h2k, mul_one]
      _ ≤ _ := mul_le_mul_of_nonneg_right h' hupos.le
  have hhigh : (roundHalfEven (x / u) : ℚ) * u < q + 1 := by
    have h1 := roundHalfEven_close (x / u)
    have h2 : (roundHalfEven (x / u) : ℚ) * u ≤ (x / u + 1 / 2) * u := mul_le_mul_of_nonneg_right (by linarith) hupos.le
    have h3 : (x / u + 1 / 2) * u = x + 1 / 2 * u := by field_simp
    linarith
  rw [Nat.floor_eq_iff (le_trans (Nat.cast_nonneg q) hlow)]
  exact ⟨hlow, hhigh⟩

/-- **C40.** The coordinates computed for a pixel index are the quotient and the remainder, within the image. -/
theorem C40_coords_exact (p index width height : Nat) (hi : index < width * height) (ht : width * height ≤ 2 ^ p) (hw : width < 2 ^ p) :
    coordsOf p index width = (index % width, index / width) ∧ index % width < width ∧ index / width < height := by
  have hw0 : 0 < width := by
    rcases Nat.eq_zero_or_pos width with rfl | h
    · simp at hi
    · exact h
  refine ⟨?_, Nat.mod_lt _ hw0, Nat.div_lt_of_lt_mul hi⟩
  unfold coordsOf
  rw [C40_row_exact p index width (by omega) hw0 hw]
  have := Nat.div_add_mod index width
  rw [Nat.mul_comm] at this
  simp only [Prod.mk.injEq, and_true]
  omega

/-- The bound is sharp in kind: beyond it the row can be wrong (a 3-bit format, index 15 of a 2-wide image). -/
theorem C40_bound_needed : rowOf 3 15 2 ≠ 15 / 2 := by decide +kernel

/-- The hypotheses are met: the last pixel of a 4096 by 4096 image. -/
example : coordsOf 53 (4096 * 4096 - 1) 4096 = (4095, 4095) := by
  have := (C40_coords_exact 53 (4096 * 4096 - 1) 4096 4096 (by norm_num) (by norm_num) (by norm_num)).1
  simpa using this

/-- C40 for double and single precision. -/
example := C40_row_exact 53 (4096 * 4096 - 1) 4096 (by norm_num) (by norm_num) (by norm_num)

example := C40_row_exact 24 (1920 * 1080 - 1) 1920 (by norm_num) (by norm_num) (by norm_num)

end Rendering
