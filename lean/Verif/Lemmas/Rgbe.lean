import Verif.Model.Image
import Mathlib.Tactic.Linarith
import Mathlib.Tactic.FieldSimp
import Mathlib.Tactic.Positivity

namespace Rendering

theorem rustyFrexp_pos {v : ℝ} (hv : 0 < v) :
    ∃ e : ℤ, rustyFrexp v = (v / 2 ^ e, e) ∧ (2 : ℝ) ^ (e - 1) ≤ v ∧ v < 2 ^ e := by
  refine ⟨⌊Real.logb 2 v⌋ + 1, ?_, ?_, ?_⟩
  · unfold rustyFrexp
    rw [if_neg hv.ne]
    simp only [abs_of_pos hv, sign_pos hv]
    congr 1
    have : Real.logb 2 v - (⌊Real.logb 2 v⌋ : ℝ) - 1 = Real.logb 2 v - ((⌊Real.logb 2 v⌋ + 1 : ℤ) : ℝ) := by push_cast; ring
    rw [this, Real.rpow_sub (by norm_num), Real.rpow_logb (by norm_num) (by norm_num) hv, Real.rpow_intCast]
    simp
  · rw [add_sub_cancel_right, ← Real.rpow_intCast]
    calc (2 : ℝ) ^ ((⌊Real.logb 2 v⌋ : ℤ) : ℝ) ≤ 2 ^ (Real.logb 2 v) :=
          Real.rpow_le_rpow_of_exponent_le (by norm_num) (Int.floor_le _)
      _ = v := Real.rpow_logb (by norm_num) (by norm_num) hv
  · rw [← Real.rpow_intCast]
    calc v = 2 ^ (Real.logb 2 v) := (Real.rpow_logb (by norm_num) (by norm_num) hv).symm
      _ < 2 ^ (((⌊Real.logb 2 v⌋ + 1 : ℤ)) : ℝ) := by
        apply Real.rpow_lt_rpow_of_exponent_lt (by norm_num)
        push_cast
        exact Int.lt_floor_add_one _

/-- The exponent is determined by the binary order of magnitude. -/
theorem exponent_unique {v : ℝ} {e e' : ℤ} (h1 : (2 : ℝ) ^ (e - 1) ≤ v) (h2 : v < 2 ^ e) (h1' : (2 : ℝ) ^ (e' - 1) ≤ v) (h2' : v < 2 ^ e') :
    e = e' := by
  have a : e - 1 < e' := (zpow_lt_zpow_iff_right₀ (by norm_num : (1 : ℝ) < 2)).1 (h1.trans_lt h2')
  have b : e' - 1 < e := (zpow_lt_zpow_iff_right₀ (by norm_num : (1 : ℝ) < 2)).1 (h1'.trans_lt h2)
  omega

/-- The largest channel, as computed. -/
noncomputable def maxOf (r g b : ℝ) : ℝ := max (max r g) b

theorem colourToRgbe_max (red green blue : ℝ) :
    (let v := red
     let v := if green > v then green else v
     if blue > v then blue else v) = maxOf red green blue := by
  simp only [maxOf]
  by_cases h : green > red
  · simp only [h, if_true, max_eq_right h.le]
    by_cases h' : blue > green
    · simp [h', max_eq_right h'.le]
    · simp [h', max_eq_left (not_lt.1 h')]
  · simp only [h, if_false, max_eq_left (not_lt.1 h)]
    by_cases h' : blue > red
    · simp [h', max_eq_right h'.le]
    · simp [h', max_eq_left (not_lt.1 h')]

theorem colourToRgbe_small {r g b : ℝ} (h : maxOf r g b < 1 / 10 ^ 19) : colourToRgbe r g b = (0, 0, 0, 0) := by
  unfold colourToRgbe
  have := colourToRgbe_max r g b
  simp only at this
  simp only [this]
  rw [if_pos h]

theorem colourToRgbe_big {r g b : ℝ} (h : 1 / 10 ^ 19 ≤ maxOf r g b) :
    ∃ e : ℤ, (2 : ℝ) ^ (e - 1) ≤ maxOf r g b ∧ maxOf r g b < 2 ^ e ∧
      colourToRgbe r g b = (realAsU8 ⌊r * 2 ^ (8 - e)⌋, realAsU8 ⌊g * 2 ^ (8 - e)⌋, realAsU8 ⌊b * 2 ^ (8 - e)⌋, i32AsU8 (e + 128)) := by
  have hv : 0 < maxOf r g b := lt_of_lt_of_le (by positivity) h
  obtain ⟨e, h1, h2, h3⟩ := rustyFrexp_pos hv
  refine ⟨e, h2, h3, ?_⟩
  unfold colourToRgbe
  have := colourToRgbe_max r g b
  simp only at this
  simp only [this]
  rw [if_neg (not_lt.2 h), h1]
  have hm : maxOf r g b / 2 ^ e * (256 / maxOf r g b) = (2 : ℝ) ^ (8 - e) := by
    rw [zpow_sub₀ (by norm_num)]
    field_simp
    norm_num
  simp only [hm]

theorem realAsU8_floor {x : ℝ} (h0 : 0 ≤ x) (h1 : x < 256) : ((realAsU8 (⌊x⌋ : ℤ)).toNat : ℤ) = ⌊x⌋ := by
  unfold realAsU8
  rw [Int.floor_intCast]
  have h2 : ⌊x⌋ < 256 := Int.floor_lt.2 (by exact_mod_cast h1)
  have h3 : 0 ≤ ⌊x⌋ := Int.floor_nonneg.2 h0
  have h4 : min 255 ⌊x⌋.toNat < 256 := by omega
  rw [UInt8.toNat_ofNat_of_lt' h4]
  omega

theorem i32AsU8_toNat {n : ℤ} (h0 : 0 ≤ n) (h1 : n < 256) : ((i32AsU8 n).toNat : ℤ) = n := by
  unfold i32AsU8
  have : (n % 256).toNat < 256 := by omega
  rw [UInt8.toNat_ofNat_of_lt' this]
  omega

theorem le_maxOf (r g b : ℝ) : r ≤ maxOf r g b ∧ g ≤ maxOf r g b ∧ b ≤ maxOf r g b :=
  ⟨(le_max_left _ _).trans (le_max_left _ _), (le_max_right _ _).trans (le_max_left _ _), le_max_right _ _⟩

/-- Bounds on the binary exponent of encodable values. -/
theorem exponent_range {v : ℝ} {e : ℤ} (hlo : 1 / 10 ^ 19 ≤ v) (hhi : v < 2 ^ 127) (h1 : (2 : ℝ) ^ (e - 1) ≤ v) (h2 : v < 2 ^ e) :
    -63 ≤ e ∧ e ≤ 127 := by
  constructor
  · have : (2 : ℝ) ^ (-64 : ℤ) < 2 ^ e := by
      refine lt_of_le_of_lt ?_ h2
      refine le_trans ?_ hlo
      norm_num
    have := (zpow_lt_zpow_iff_right₀ (by norm_num : (1 : ℝ) < 2)).1 this
    omega
  · have : (2 : ℝ) ^ (e - 1) < 2 ^ (127 : ℤ) := lt_of_le_of_lt h1 (by exact_mod_cast hhi)
    have := (zpow_lt_zpow_iff_right₀ (by norm_num : (1 : ℝ) < 2)).1 this
    omega

theorem rgbeToColour_eq {r g b e : UInt8} (he : e ≠ 0) :
    rgbeToColour r g b e = ⟨r.toNat * 2 ^ ((e.toNat : ℤ) - 136), g.toNat * 2 ^ ((e.toNat : ℤ) - 136), b.toNat * 2 ^ ((e.toNat : ℤ) - 136)⟩ := by
  unfold rgbeToColour
  rw [if_neg he]
  simp only [rustyLdexp, one_mul]
  norm_num

/-- The decoded pixel of an encodable colour, explicitly. -/
theorem decode_encode {r g b : ℝ} (hr : 0 ≤ r) (hg : 0 ≤ g) (hb : 0 ≤ b) (hlo : 1 / 10 ^ 19 ≤ maxOf r g b) (hhi : maxOf r g b < 2 ^ 127) :
    ∃ e : ℤ, (2 : ℝ) ^ (e - 1) ≤ maxOf r g b ∧ maxOf r g b < 2 ^ e ∧
      (let q := colourToRgbe r g b
       rgbeToColour q.1 q.2.1 q.2.2.1 q.2.2.2) =
      ⟨⌊r * 2 ^ (8 - e)⌋ * 2 ^ (e - 8), ⌊g * 2 ^ (8 - e)⌋ * 2 ^ (e - 8), ⌊b * 2 ^ (8 - e)⌋ * 2 ^ (e - 8)⟩ := by
  obtain ⟨e, h1, h2, h3⟩ := colourToRgbe_big hlo
  refine ⟨e, h1, h2, ?_⟩
  obtain ⟨he1, he2⟩ := exponent_range hlo hhi h1 h2
  have hte : ((i32AsU8 (e + 128)).toNat : ℤ) = e + 128 := i32AsU8_toNat (by omega) (by omega)
  have hne : i32AsU8 (e + 128) ≠ 0 := by
    intro h
    rw [h] at hte
    simp at hte
    omega
  simp only [h3]
  rw [rgbeToColour_eq hne, hte]
  have he : e + 128 - 136 = e - 8 := by ring
  rw [he]
  have key : ∀ c, 0 ≤ c → c ≤ maxOf r g b → ((realAsU8 (⌊c * 2 ^ (8 - e)⌋ : ℤ)).toNat : ℝ) = ⌊c * (2 : ℝ) ^ (8 - e)⌋ := by
    intro c hc hcm
    have hp : (0 : ℝ) < 2 ^ (8 - e) := by positivity
    have : c * (2 : ℝ) ^ (8 - e) < 256 := by
      calc c * (2 : ℝ) ^ (8 - e) < 2 ^ e * 2 ^ (8 - e) := by
            apply mul_lt_mul_of_pos_right (lt_of_le_of_lt hcm h2) hp
        _ = 256 := by rw [← zpow_add₀ (by norm_num)]; norm_num
    have := realAsU8_floor (by positivity) this
    exact_mod_cast congrArg (Int.cast (R := ℝ)) this
  rw [key r hr (le_maxOf r g b).1, key g hg (le_maxOf r g b).2.1, key b hb (le_maxOf r g b).2.2]

end Rendering
