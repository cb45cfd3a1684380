import Verif.Lemmas.Doubles

/-!
# Lemmas for C110: encoding colours in double precision
-/

set_option linter.unusedSectionVars false
namespace Rendering

theorem roundHalfEven_int (n : ℤ) : roundHalfEven (n : ℚ) = n := by
  unfold roundHalfEven
  simp

/-- Doubles are not changed by rounding. -/
theorem round64_of_isDouble {q : ℚ} (h : IsDouble q) : round64 q = q := by
  by_cases h0 : q = 0
  · simp [h0, round64, roundBits]
  · unfold round64 roundBits
    rw [if_neg h0]
    simp only
    have hu : (2 : ℚ) ^ (Int.log 2 |q|) ≤ |q| := Int.zpow_log_le_self (by norm_num) (abs_pos.mpr h0)
    obtain ⟨n, hn⟩ := h.multiple _ hu
    have he : Int.log 2 |q| - (((53 : ℕ) : ℤ) - 1) = Int.log 2 |q| - 52 := by norm_num
    rw [he]
    generalize Int.log 2 |q| - 52 = j at hn
    have : q / 2 ^ j = (n : ℚ) := by rw [hn]; field_simp
    rw [this, roundHalfEven_int, ← hn]

theorem isDouble_int {n : ℤ} (h : |n| < 2 ^ 53) : IsDouble (n : ℚ) := ⟨n, 0, h, by simp⟩

theorem isDouble_byte (b : UInt8) (k : ℤ) : IsDouble ((b.toNat : ℚ) * 2 ^ k) := by
  refine ⟨b.toNat, k, ?_, by push_cast; rfl⟩
  have := b.toNat_lt
  rw [abs_of_nonneg (by positivity)]
  norm_num
  omega

theorem close_mul {a b x y : ℝ} (ha : |a - 1| ≤ x) (hb : |b - 1| ≤ y) (hx : x ≤ 1) : |a * b - 1| ≤ x + 2 * y := by
  have h : a * b - 1 = (a - 1) + a * (b - 1) := by ring
  have ha' : |a| ≤ 2 := by
    have := abs_sub_abs_le_abs_sub a 1
    rw [abs_one] at this
    linarith
  rw [h]
  calc |(a - 1) + a * (b - 1)| ≤ |a - 1| + |a| * |b - 1| := by rw [← abs_mul]; exact abs_add_le _ _
    _ ≤ x + 2 * y := by
      have := mul_le_mul ha' hb (abs_nonneg _) (by norm_num)
      linarith

theorem two_pow_close {δ : ℝ} (h : |δ| ≤ 1) : |(2 : ℝ) ^ δ - 1| ≤ 2 * |δ| := by
  rw [Real.rpow_def_of_pos (by norm_num)]
  have hl : 0 < Real.log 2 := Real.log_pos (by norm_num)
  have hl1 : Real.log 2 ≤ 1 := by have := Real.log_le_sub_one_of_pos (show (0 : ℝ) < 2 by norm_num); linarith
  have h1 : |Real.log 2 * δ| ≤ |δ| := by
    rw [abs_mul, abs_of_pos hl]
    nlinarith [abs_nonneg δ]
  calc |Real.exp (Real.log 2 * δ) - 1| ≤ 2 * |Real.log 2 * δ| := Real.abs_exp_sub_one_le (by linarith)
    _ ≤ 2 * |δ| := by linarith

variable {lib : Libm}

/-- What `rusty_frexp` computes, up to rounding: the exponent may differ from the true one only within 2^-45 of a power of two. -/
theorem frexp64_spec (hlib : lib.Accurate) (v : F64) (hlo : (1 : ℝ) / 10 ^ 18 ≤ v.val) (hhi : (v.val : ℝ) ≤ 2 ^ 126) :
    ∃ (e : ℤ) (T : ℝ), (rustyFrexp64 lib v).2 = e ∧ -100 ≤ e ∧ e ≤ 127 ∧ |T - 1| ≤ 1 / 2 ^ 42 ∧ ((rustyFrexp64 lib v).1.val : ℝ) = (v.val : ℝ) * 2 ^ (-e) * T ∧
      (v.val : ℝ) ≤ 2 ^ e * (1 + 1 / 2 ^ 44) ∧ (2 : ℝ) ^ e ≤ 2 * v.val * (1 + 1 / 2 ^ 44) := by
  set V : ℝ := (v.val : ℝ) with hV
  have hVpos : 0 < V := lt_of_lt_of_le (by norm_num) hlo
  set l := Real.logb 2 V with hl
  have hVl : (2 : ℝ) ^ l = V := Real.rpow_logb (by norm_num) (by norm_num) hVpos
  have hl1 : l ≤ 126 := by
    rw [hl, Real.logb_le_iff_le_rpow (by norm_num) hVpos]
    have : (2 : ℝ) ^ (126 : ℝ) = 2 ^ 126 := by rw [← Real.rpow_natCast]; norm_num
    rw [this]; exact hhi
  have hl0 : -60 ≤ l := by
    rw [hl, Real.le_logb_iff_rpow_le (by norm_num) hVpos]
    refine le_trans ?_ hlo
    have : (2 : ℝ) ^ (-60 : ℝ) = 1 / 2 ^ 60 := by rw [Real.rpow_neg (by norm_num), ← Real.rpow_natCast]; norm_num
    rw [this]
    norm_num
  -- the logarithm
  obtain ⟨-, herr⟩ := hlib.log2 v (by rw [hV] at hVpos; exact_mod_cast hVpos)
  rw [← hV, ← hl] at herr
  have hul : ulp l ≤ 1 / 2 ^ 45 := by
    by_cases h0 : l = 0
    · rw [h0, ulp_zero]; norm_num
    · refine le_trans (ulp_le l h0) ?_
      have : |l| ≤ 128 := by rw [abs_le]; constructor <;> linarith
      have h128 : |l| / 2 ^ 52 ≤ 128 / 2 ^ 52 := by gcongr
      refine le_trans h128 (by norm_num)
  set lg : ℚ := (lib.log2 v).val with hlg
  have hlgerr : |(lg : ℝ) - l| ≤ 1 / 2 ^ 45 := by
    refine le_trans herr ?_
    have := (ulp_pos l).le
    linarith
  rw [abs_le] at hlgerr
  -- integer part and fraction
  set f : ℤ := ⌊lg⌋ with hf
  have hf1 : (f : ℚ) ≤ lg := Int.floor_le lg
  have hf2 : lg < f + 1 := Int.lt_floor_add_one lg
  have hf1' : (f : ℝ) ≤ lg := by exact_mod_cast hf1
  have hf2' : (lg : ℝ) < f + 1 := by exact_mod_cast hf2
  have hfhi : f ≤ 126 := by
    have : (f : ℝ) < 127 := by norm_num at hlgerr; linarith
    have : f < 127 := by exact_mod_cast this
    omega
  have hflo : -62 ≤ f := by
    have : (-62 : ℝ) < f := by norm_num at hlgerr; linarith
    have : -62 < f := by exact_mod_cast this
    omega
  obtain ⟨θ1, ht1, ha⟩ := round64_factor (lg - f)
  obtain ⟨θ2, ht2, hb⟩ := round64_factor (round64 (lg - f) - 1)
  set a : ℚ := round64 (lg - f) with hadef
  set b : ℚ := round64 (a - 1) with hbdef
  push_cast at ha hb
  have hfr0 : 0 ≤ (lg : ℝ) - f := by linarith
  have hfr1 : (lg : ℝ) - f < 1 := by linarith
  rw [abs_le] at ht1 ht2
  norm_num at ht1 ht2
  have haerr : |(a : ℝ) - (lg - f)| ≤ 1 / 2 ^ 53 := by
    rw [ha, abs_le]
    norm_num
    constructor <;> nlinarith
  rw [abs_le] at haerr
  norm_num at haerr
  have hberr : |(b : ℝ) - (a - 1)| ≤ 2 / 2 ^ 53 := by
    rw [hb, abs_le]
    norm_num
    constructor <;> nlinarith
  rw [abs_le] at hberr
  norm_num at hberr
  set e : ℤ := f + 1 with he
  have hδ : |(b : ℝ) - (l - e)| ≤ 1 / 2 ^ 44 := by
    rw [abs_le, he]
    push_cast
    norm_num at hlgerr ⊢
    constructor <;> linarith
  -- the exponential
  have hx := (hlib.exp2 ⟨b⟩).2
  simp only at hx
  have hpb : 0 < (2 : ℝ) ^ (b : ℝ) := by positivity
  have hub : ulp ((2 : ℝ) ^ (b : ℝ)) ≤ (2 : ℝ) ^ (b : ℝ) / 2 ^ 52 := by
    have := ulp_le _ hpb.ne'
    rwa [abs_of_pos hpb] at this
  set x : ℝ := ((lib.exp2 ⟨b⟩).val : ℝ) with hxdef
  have hη : |x / 2 ^ (b : ℝ) - 1| ≤ 1 / 2 ^ 52 := by
    have : x / 2 ^ (b : ℝ) - 1 = (x - 2 ^ (b : ℝ)) / 2 ^ (b : ℝ) := by field_simp
    rw [this, abs_div, abs_of_pos hpb, div_le_iff₀ hpb]
    have := (ulp_pos ((2 : ℝ) ^ (b : ℝ))).le
    linarith
  have hbe : (2 : ℝ) ^ (b : ℝ) = V * 2 ^ (-e) * 2 ^ ((b : ℝ) - (l - e)) := by
    rw [← hVl, ← Real.rpow_intCast, ← Real.rpow_add (by norm_num), ← Real.rpow_add (by norm_num)]
    congr 1
    push_cast
    ring
  have hfl : (lib.log2 v).floor.val = (f : ℚ) := rfl
  have hone : (F64.lit 1).val = 1 := round64_one
  have hsub : (lib.log2 v - (lib.log2 v).floor - F64.lit 1) = (⟨b⟩ : F64) := by
    show (⟨round64 (round64 (lg - f) - (F64.lit 1).val)⟩ : F64) = ⟨b⟩
    rw [hone]
  have hexp : ((lib.log2 v).floor + F64.lit 1).val = (e : ℚ) := by
    show round64 ((f : ℚ) + (F64.lit 1).val) = (e : ℚ)
    have : (f : ℚ) + (F64.lit 1).val = ((e : ℤ) : ℚ) := by rw [hone, he]; push_cast; ring
    rw [this]
    exact round64_of_isDouble (isDouble_int (by rw [abs_lt]; constructor <;> norm_num <;> omega))
  have hpow : ∀ t : ℝ, |t| ≤ 1 / 2 ^ 45 → (2 : ℝ) ^ t ≤ 1 + 1 / 2 ^ 44 := by
    intro t ht
    have := two_pow_close (δ := t) (le_trans ht (by norm_num))
    rw [abs_le] at this
    have h2 := this.2
    norm_num at ht h2 ⊢
    linarith
  refine ⟨e, 2 ^ ((b : ℝ) - (l - e)) * (x / 2 ^ (b : ℝ)), ?_, by omega, by omega, ?_, ?_, ?_, ?_⟩
  · show ⌊((lib.log2 v).floor + F64.lit 1).val⌋ = e
    rw [hexp, Int.floor_intCast]
  · refine le_trans (close_mul (x := 2 / 2 ^ 44) (y := 1 / 2 ^ 52) ?_ hη (by norm_num)) (by norm_num)
    refine le_trans (two_pow_close (le_trans hδ (by norm_num))) ?_
    norm_num at hδ ⊢
    linarith
  · show ((lib.exp2 (lib.log2 v - (lib.log2 v).floor - F64.lit 1)).val : ℝ) = _
    rw [hsub, ← hxdef]
    rw [show V * 2 ^ (-e) * (2 ^ ((b : ℝ) - (l - e)) * (x / 2 ^ (b : ℝ))) = (V * 2 ^ (-e) * 2 ^ ((b : ℝ) - (l - e))) * (x / 2 ^ (b : ℝ)) by ring, ← hbe]
    field_simp
  · -- V ≤ 2^e (1+..)
    rw [← hVl]
    have h1 : l ≤ e + 1 / 2 ^ 45 := by rw [he]; push_cast; norm_num at hlgerr ⊢; linarith
    calc (2 : ℝ) ^ l ≤ 2 ^ ((e : ℝ) + 1 / 2 ^ 45) := Real.rpow_le_rpow_of_exponent_le (by norm_num) h1
      _ = 2 ^ e * 2 ^ ((1 : ℝ) / 2 ^ 45) := by rw [Real.rpow_add (by norm_num), Real.rpow_intCast]
      _ ≤ 2 ^ e * (1 + 1 / 2 ^ 44) := by
        have := hpow (1 / 2 ^ 45) (by rw [abs_of_pos (by norm_num)])
        gcongr
  · have h1 : (e : ℝ) ≤ 1 + l + 1 / 2 ^ 45 := by rw [he]; push_cast; norm_num at hlgerr ⊢; linarith
    calc (2 : ℝ) ^ e = 2 ^ (e : ℝ) := (Real.rpow_intCast _ _).symm
      _ ≤ 2 ^ (1 + l + 1 / 2 ^ 45) := Real.rpow_le_rpow_of_exponent_le (by norm_num) h1
      _ = 2 * V * 2 ^ ((1 : ℝ) / 2 ^ 45) := by rw [Real.rpow_add (by norm_num), Real.rpow_add (by norm_num), hVl, Real.rpow_one]
      _ ≤ 2 * V * (1 + 1 / 2 ^ 44) := by
        have := hpow (1 / 2 ^ 45) (by rw [abs_of_pos (by norm_num)])
        gcongr

/-- The last step of `channel64`: a channel with product `P`. -/
theorem step_up {c K n P : ℝ} (hc : 0 ≤ c) (h : n * K ≤ P) (hP : P ≤ c + c * (1 / 2 ^ 40)) : n * K ≤ c * (1 + 1 / 10 ^ 9) := by
  norm_num at *
  linarith

theorem step_down {c K V N P : ℝ} (hc : 0 ≤ c) (hcV : c ≤ V) (h : P - K ≤ N) (hP : c - c * (1 / 2 ^ 40) ≤ P) (hK : K ≤ V / 128 * (1 + 1 / 2 ^ 44)) : c - N ≤ V / 128 * (1 + 1 / 10 ^ 9) := by
  norm_num at *
  linarith

theorem step_clamp {c K V : ℝ} (hK0 : 0 < K) (hcV : c ≤ V) (hV : V ≤ 256 * K * (1 + 1 / 2 ^ 44)) (hK : K ≤ V / 128 * (1 + 1 / 2 ^ 44)) : c - 255 * K ≤ V / 128 * (1 + 1 / 10 ^ 9) := by
  norm_num at *
  linarith

theorem asU8_toNat (x : F64) : x.asU8.toNat = min 255 (⌊x.val⌋).toNat := by
  unfold F64.asU8
  simp only [UInt8.toNat_ofNat']
  omega

set_option maxHeartbeats 800000 in
/-- One channel through the format: at most the original, and less than a step below it, up to rounding. -/
theorem channel64 (hlib : lib.Accurate) (v c : F64) (hlo : (1 : ℝ) / 10 ^ 18 ≤ v.val) (hhi : (v.val : ℝ) ≤ 2 ^ 126) (hc0 : 0 ≤ c.val) (hcv : c.val ≤ v.val) :
    ((rgbeChannel64 (c * ((rustyFrexp64 lib v).1 * (F64.lit 256 / v))).floor.asU8 (i32AsU8 ((rustyFrexp64 lib v).2 + 128))).val : ℝ) ≤ c.val * (1 + 1 / 10 ^ 9) ∧
    (c.val : ℝ) - ((rgbeChannel64 (c * ((rustyFrexp64 lib v).1 * (F64.lit 256 / v))).floor.asU8 (i32AsU8 ((rustyFrexp64 lib v).2 + 128))).val : ℝ) ≤ v.val / 128 * (1 + 1 / 10 ^ 9) := by
  obtain ⟨e, T, he, he1, he2, hT, hx, hVe, heV⟩ := frexp64_spec hlib v hlo hhi
  set V : ℝ := (v.val : ℝ) with hV
  have hVpos : 0 < V := lt_of_lt_of_le (by norm_num) hlo
  have hVq : v.val ≠ 0 := by intro h; rw [hV, h] at hVpos; simp at hVpos
  rw [he]
  set x := (rustyFrexp64 lib v).1 with hxd
  -- the product
  have h256 : (F64.lit 256).val = 256 := round64_256
  obtain ⟨θ1, h1, hq⟩ := round64_factor (256 / v.val)
  obtain ⟨θ2, h2, hm⟩ := round64_factor (x.val * round64 (256 / v.val))
  obtain ⟨θ3, h3, hp⟩ := round64_factor (c.val * round64 (x.val * round64 (256 / v.val)))
  set p : ℚ := round64 (c.val * round64 (x.val * round64 (256 / v.val))) with hpd
  have hpval : (c * (x * (F64.lit 256 / v))).val = p := by
    show round64 (c.val * round64 (x.val * round64 ((F64.lit 256).val / v.val))) = p
    rw [h256]
  set S := T * (1 + θ1) * (1 + θ2) * (1 + θ3) with hS
  have hSc : |S - 1| ≤ 1 / 2 ^ 40 := by
    have e1 : |(1 + θ1) - 1| ≤ 1 / 2 ^ 53 := by simpa using h1
    have e2 : |(1 + θ2) - 1| ≤ 1 / 2 ^ 53 := by simpa using h2
    have e3 : |(1 + θ3) - 1| ≤ 1 / 2 ^ 53 := by simpa using h3
    have a1 := close_mul hT e1 (by norm_num)
    have a2 := close_mul a1 e2 (by norm_num)
    have a3 := close_mul a2 e3 (by norm_num)
    refine le_trans a3 (by norm_num)
  have hpe : (p : ℝ) = c.val / 2 ^ (e - 8) * S := by
    push_cast at hp hm hq
    rw [hp, hm, hq, hx, ← hV, hS]
    have h8 : (2 : ℝ) ^ (e - 8) = 2 ^ e / 256 := by
      rw [zpow_sub₀ (by norm_num)]; norm_num
    rw [h8, zpow_neg]
    have : (2 : ℝ) ^ e ≠ 0 := by positivity
    field_simp
  set K : ℝ := 2 ^ (e - 8) with hK
  have hKpos : 0 < K := by positivity
  have hc0' : (0 : ℝ) ≤ c.val := by exact_mod_cast hc0
  have hcv' : (c.val : ℝ) ≤ V := by rw [hV]; exact_mod_cast hcv
  rw [abs_le] at hSc
  norm_num at hSc
  have hp0 : (0 : ℝ) ≤ p := by
    rw [hpe]
    have : 0 ≤ S := by linarith [hSc.1]
    positivity
  -- the byte
  set n : ℕ := min 255 (⌊p⌋).toNat with hn
  have hbyte : (c * (x * (F64.lit 256 / v))).floor.asU8.toNat = n := by
    rw [asU8_toNat]
    show min 255 (⌊((⌊(c * (x * (F64.lit 256 / v))).val⌋ : ℤ) : ℚ)⌋).toNat = n
    rw [hpval, Int.floor_intCast]
  have hexp : (i32AsU8 (e + 128)).toNat = (e + 128).toNat := by
    unfold i32AsU8
    simp only [UInt8.toNat_ofNat']
    omega
  have hd : ((rgbeChannel64 (c * (x * (F64.lit 256 / v))).floor.asU8 (i32AsU8 (e + 128))).val : ℝ) = n * K := by
    unfold rgbeChannel64
    have hne : i32AsU8 (e + 128) ≠ 0 := by
      intro h
      rw [h] at hexp
      have : (0 : UInt8).toNat = 0 := rfl
      rw [this] at hexp
      omega
    rw [if_neg hne]
    set B := (c * (x * (F64.lit 256 / v))).floor.asU8 with hB
    have hBd : (F64.lit (B.toNat : ℚ)).val = (B.toNat : ℚ) := by
      have := isDouble_byte B 0
      simp only [zpow_zero, mul_one] at this
      exact round64_of_isDouble this
    have hexp' : ((i32AsU8 (e + 128)).toNat : ℤ) - 136 = e - 8 := by rw [hexp]; omega
    show ((round64 ((F64.lit (B.toNat : ℚ)).val * 2 ^ (((i32AsU8 (e + 128)).toNat : ℤ) - 136)) : ℚ) : ℝ) = n * K
    rw [hBd, hexp', round64_of_isDouble (isDouble_byte B _), hbyte]
    push_cast
    rfl
  rw [hd]
  have hpf0 : 0 ≤ ⌊p⌋ := Int.floor_nonneg.mpr (by exact_mod_cast hp0)
  have hpf1 : ((⌊p⌋ : ℤ) : ℝ) ≤ p := by exact_mod_cast Int.floor_le p
  have hpf2 : (p : ℝ) < ⌊p⌋ + 1 := by exact_mod_cast Int.lt_floor_add_one p
  have hnat : (((⌊p⌋).toNat : ℕ) : ℝ) = ((⌊p⌋ : ℤ) : ℝ) := by
    have : (((⌊p⌋).toNat : ℕ) : ℤ) = ⌊p⌋ := Int.toNat_of_nonneg hpf0
    exact_mod_cast this
  have hpK : (p : ℝ) * K = c.val * S := by rw [hpe]; field_simp
  have hKe : K * 256 = 2 ^ e := by
    rw [hK, zpow_sub₀ (by norm_num)]
    norm_num
  have hKV : K ≤ V / 128 * (1 + 1 / 2 ^ 44) := by linarith
  have hVK : V ≤ 256 * K * (1 + 1 / 2 ^ 44) := by linarith
  have hcS1 : (c.val : ℝ) * S ≤ c.val + c.val * (1 / 2 ^ 40) := by
    have : S ≤ 1 + 1 / 2 ^ 40 := by norm_num; linarith [hSc.2]
    calc (c.val : ℝ) * S ≤ c.val * (1 + 1 / 2 ^ 40) := mul_le_mul_of_nonneg_left this hc0'
      _ = _ := by ring
  have hcS2 : (c.val : ℝ) - c.val * (1 / 2 ^ 40) ≤ c.val * S := by
    have : 1 - 1 / 2 ^ 40 ≤ S := by norm_num; linarith [hSc.1]
    calc (c.val : ℝ) - c.val * (1 / 2 ^ 40) = c.val * (1 - 1 / 2 ^ 40) := by ring
      _ ≤ _ := mul_le_mul_of_nonneg_left this hc0'
  constructor
  · have hle : (n : ℝ) ≤ p := by
      refine le_trans ?_ hpf1
      rw [← hnat]
      exact_mod_cast min_le_right _ _
    have : (n : ℝ) * K ≤ p * K := mul_le_mul_of_nonneg_right hle hKpos.le
    rw [hpK] at this
    exact step_up hc0' this hcS1
  · by_cases h255 : (⌊p⌋).toNat ≤ 255
    · have hne : (n : ℝ) = ((⌊p⌋ : ℤ) : ℝ) := by rw [hn, min_eq_right h255, hnat]
      have : (p - 1) * K ≤ (n : ℝ) * K := mul_le_mul_of_nonneg_right (by rw [hne]; linarith) hKpos.le
      rw [sub_mul, hpK, one_mul] at this
      exact step_down hc0' hcv' this hcS2 hKV
    · have hne : (n : ℝ) = 255 := by rw [hn, min_eq_left (by omega)]; norm_num
      rw [hne]
      exact step_clamp hKpos hcv' hVK hKV

end Rendering
