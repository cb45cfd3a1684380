import Verif.Lemmas.World
import Mathlib.MeasureTheory.Integral.IntervalIntegral.Basic
import Mathlib.MeasureTheory.Measure.Lebesgue.Basic
import Mathlib.Analysis.SpecialFunctions.Integrals.Basic

/-!
# C63, C64, C78: light samples, Russian roulette, distributions
-/

set_option linter.unusedSectionVars false
namespace Rendering

open Classical MeasureTheory

/-! ### C64 -/

/-- The generator whose next draw is `x`. -/
def Rng.cons (x : ℝ) (r : Rng) : Rng := fun n => match n with | 0 => x | n + 1 => r n

/-- **C64, counts.** No ambient samples when they are disabled (no bounces or no samples asked for); the number asked for at depth 0; at most one deeper. Depth, colour, geometry and medium of the ray are kept. -/
theorem C64_counts (ray : TRay) (maxSamples maxDepth : Nat) (limit : ℝ) (rng : Rng) :
    (maxDepth = 0 ∨ maxSamples = 0 → (ray.getNAmbientSamples maxSamples maxDepth limit rng) = (0, ray, rng)) ∧
    (0 < maxDepth → ray.depth = 0 → (ray.getNAmbientSamples maxSamples maxDepth limit rng) = (maxSamples, ray, rng)) ∧
    (0 < ray.depth → (ray.getNAmbientSamples maxSamples maxDepth limit rng).1 ≤ 1) ∧
    ∃ v, (ray.getNAmbientSamples maxSamples maxDepth limit rng).2.1 = { ray with value := v } := by
  unfold TRay.getNAmbientSamples
  refine ⟨fun h => by rw [if_pos h], fun h1 h2 => ?_, fun h => ?_, ?_⟩
  · by_cases h3 : maxSamples = 0
    · rw [if_pos (Or.inr h3), h3]
    · rw [if_neg (by omega), if_pos h2]
  · split_ifs with h1 h2
    · simp
    · omega
    · simp only
      split_ifs <;> simp
  · split_ifs with h1 h2
    · exact ⟨_, rfl⟩
    · exact ⟨_, rfl⟩
    · simp only
      split_ifs
      · exact ⟨limit, rfl⟩
      · exact ⟨ray.value, rfl⟩

/-- **C64, survival.** Deeper than depth 0, with bounces enabled, a sample is taken exactly when the draw is at most `value / limit` (for a limit other than zero); surely when the value is at least the limit, be it positive or zero. -/
theorem C64_survives_iff (ray : TRay) (maxSamples maxDepth : Nat) (limit x : ℝ) (rng : Rng) (hD : 0 < maxDepth) (hn : 0 < maxSamples) (hd : 0 < ray.depth) :
    (limit ≠ 0 → ((ray.getNAmbientSamples maxSamples maxDepth limit (rng.cons x)).1 = 1 ↔ x ≤ ray.value / limit)) ∧
    (0 ≤ limit → limit ≤ ray.value → x < 1 → (ray.getNAmbientSamples maxSamples maxDepth limit (rng.cons x)).1 = 1) := by
  have key : (ray.getNAmbientSamples maxSamples maxDepth limit (rng.cons x)).1 = if ExceedsQuotient x ray.value limit then 0 else 1 := by
    unfold TRay.getNAmbientSamples
    rw [if_neg (by omega), if_neg (by omega)]
    simp only [Rng.gen, Rng.cons]
    by_cases h : ExceedsQuotient x ray.value limit
    · simp only [h, if_true]
    · simp only [h, if_false]
  rw [key]
  constructor
  · intro h0
    have e : ExceedsQuotient x ray.value limit ↔ x > ray.value / limit := by simp [ExceedsQuotient, h0]
    split_ifs with h
    · simp; exact e.1 h
    · simp; exact not_lt.1 fun h' => h (e.2 h')
  · intro h1 h2 h3
    rw [if_neg]
    rintro (⟨h0, h4⟩ | ⟨h0, h4⟩)
    · have hp : 0 < limit := lt_of_le_of_ne h1 (Ne.symm h0)
      have : 1 ≤ ray.value / limit := by rw [le_div_iff₀ hp]; linarith
      linarith
    · linarith

/-- **C64, probability.** With a uniform draw the ray survives with probability `min 1 (value / limit)`. -/
theorem C64_survival_probability (ray : TRay) (maxSamples maxDepth : Nat) (limit : ℝ) (rng : Rng) (hD : 0 < maxDepth) (hn : 0 < maxSamples) (hd : 0 < ray.depth) (hl : 0 < limit) (hv : 0 ≤ ray.value) :
    volume {x : ℝ | x ∈ Set.Ico 0 1 ∧ (ray.getNAmbientSamples maxSamples maxDepth limit (rng.cons x)).1 = 1} = ENNReal.ofReal (min 1 (ray.value / limit)) := by
  have hs : {x : ℝ | x ∈ Set.Ico 0 1 ∧ (ray.getNAmbientSamples maxSamples maxDepth limit (rng.cons x)).1 = 1} = {x : ℝ | x ∈ Set.Ico 0 1 ∧ x ≤ ray.value / limit} := by
    ext x
    simp only [Set.mem_setOf_eq, (C64_survives_iff ray maxSamples maxDepth limit x rng hD hn hd).1 hl.ne']
  rw [hs]
  have h0 : 0 ≤ ray.value / limit := div_nonneg hv hl.le
  rcases le_or_gt 1 (ray.value / limit) with h1 | h1
  · rw [min_eq_left h1]
    have : {x : ℝ | x ∈ Set.Ico 0 1 ∧ x ≤ ray.value / limit} = Set.Ico 0 1 := by
      ext x
      simp only [Set.mem_setOf_eq, Set.mem_Ico]
      constructor
      · exact fun h => h.1
      · intro h; exact ⟨h, by linarith [h.2]⟩
    rw [this, Real.volume_Ico]; norm_num
  · rw [min_eq_right h1.le]
    have : {x : ℝ | x ∈ Set.Ico 0 1 ∧ x ≤ ray.value / limit} = Set.Icc 0 (ray.value / limit) := by
      ext x
      simp only [Set.mem_setOf_eq, Set.mem_Ico, Set.mem_Icc]
      constructor
      · exact fun h => ⟨h.1.1, h.2⟩
      · intro h; exact ⟨⟨h.1, by linarith [h.2]⟩, h.2⟩
    rw [this, Real.volume_Icc, sub_zero]

/-- **C64, violation.** Russian roulette should raise the weight of the survivors so that the expected weight stays the ray's weight. The survivors keep their weight: for a weight below the limit the expected weight (over the
uniform draw) is `value² / limit`, less than `value`. -/
theorem C64_violation_biased (ray : TRay) (maxSamples maxDepth : Nat) (limit : ℝ) (rng : Rng) (hD : 0 < maxDepth) (hn : 0 < maxSamples) (hd : 0 < ray.depth) (hl : ray.value < limit) (hv : 0 < ray.value) :
    (∫ x in (0 : ℝ)..1, ((ray.getNAmbientSamples maxSamples maxDepth limit (rng.cons x)).1 : ℝ) * (ray.getNAmbientSamples maxSamples maxDepth limit (rng.cons x)).2.1.value) = ray.value ^ 2 / limit ∧
    ray.value ^ 2 / limit < ray.value := by
  have hlp : 0 < limit := hv.trans hl
  have key : ∀ x, ((ray.getNAmbientSamples maxSamples maxDepth limit (rng.cons x)).1 : ℝ) * (ray.getNAmbientSamples maxSamples maxDepth limit (rng.cons x)).2.1.value = if x ≤ ray.value / limit then ray.value else 0 := by
    intro x
    unfold TRay.getNAmbientSamples
    rw [if_neg (by omega), if_neg (by omega)]
    simp only [Rng.gen, Rng.cons]
    have e : ExceedsQuotient x ray.value limit ↔ x > ray.value / limit := by simp [ExceedsQuotient, hlp.ne']
    by_cases h : x ≤ ray.value / limit
    · have h' : ¬ ExceedsQuotient x ray.value limit := fun h' => absurd (e.1 h') (not_lt.2 h)
      simp only [h, h', if_true, if_false]; simp
    · have h' : ExceedsQuotient x ray.value limit := e.2 (not_le.1 h)
      simp only [h, h', if_true, if_false]; simp
  simp only [key]
  set a := ray.value / limit with ha
  have ha0 : 0 < a := div_pos hv hlp
  have ha1 : a < 1 := (div_lt_one hlp).2 hl
  constructor
  · have h1 : (∫ x in (0 : ℝ)..1, (if x ≤ a then ray.value else 0)) = ∫ x in Set.Ioc (0 : ℝ) 1, (Set.Iic a).indicator (fun _ => ray.value) x := by
      rw [intervalIntegral.integral_of_le zero_le_one]
      refine setIntegral_congr_fun measurableSet_Ioc fun x _ => ?_
      simp only [Set.indicator, Set.mem_Iic]
    rw [h1, setIntegral_indicator measurableSet_Iic, setIntegral_const]
    have h2 : Set.Ioc (0 : ℝ) 1 ∩ Set.Iic a = Set.Ioc 0 a := by
      ext x; simp only [Set.mem_inter_iff, Set.mem_Ioc, Set.mem_Iic]; constructor
      · exact fun h => ⟨h.1.1, h.2⟩
      · intro h; exact ⟨⟨h.1, by linarith [h.2]⟩, h.2⟩
    rw [h2, measureReal_def, Real.volume_Ioc, sub_zero, ENNReal.toReal_ofReal ha0.le, smul_eq_mul, ha]
    field_simp
  · rw [div_lt_iff₀ hlp, sq]
    exact mul_lt_mul_of_pos_left hl hv

/-- A ray at depth 1 with weight 1/4, limit 1/2. -/
example : (∫ x in (0 : ℝ)..1, ((TRay.getNAmbientSamples { TRay.default with depth := 1, value := 1 / 4 } 10 2 (1 / 2) (Rng.cons x fun _ => 0)).1 : ℝ) *
    (TRay.getNAmbientSamples { TRay.default with depth := 1, value := 1 / 4 } 10 2 (1 / 2) (Rng.cons x fun _ => 0)).2.1.value) = 1 / 8 := by
  rw [(C64_violation_biased { TRay.default with depth := 1, value := 1 / 4 } 10 2 (1 / 2) (fun _ => 0) (by norm_num) (by norm_num) (by norm_num) (by norm_num) (by norm_num)).1]
  norm_num

/-! ### C78 -/

/-- **C78, cosine-weighted hemisphere.** With a uniform first draw the height of the sample is at most `c` with probability `c²`, whatever the second draw. -/
theorem C78_cosine_hemisphere (c : ℝ) (hc0 : 0 ≤ c) (hc1 : c ≤ 1) (rest : Rng) (hr : ∀ n, 0 ≤ rest n ∧ rest n < 1) :
    volume {x : ℝ | x ∈ Set.Ico 0 1 ∧ (sampleCosineHemisphere (rest.cons x)).1.z ≤ c} = ENNReal.ofReal (c ^ 2) := by
  have hs : {x : ℝ | x ∈ Set.Ico 0 1 ∧ (sampleCosineHemisphere (rest.cons x)).1.z ≤ c} = Set.Ico (1 - c ^ 2) 1 := by
    ext x
    simp only [Set.mem_setOf_eq, Set.mem_Ico]
    have hval : ∀ x, 0 ≤ x ∧ x < 1 → Rng.Valid (rest.cons x) := by
      intro x hx n
      cases n with
      | zero => exact hx
      | succ n => exact hr n
    constructor
    · rintro ⟨hx, hz⟩
      obtain ⟨_, h2, h3⟩ := C55_cosine_hemisphere (rest.cons x) (hval x hx)
      have h3' : (sampleCosineHemisphere (rest.cons x)).1.z ^ 2 = 1 - x := h3
      have : (sampleCosineHemisphere (rest.cons x)).1.z ^ 2 ≤ c ^ 2 := pow_le_pow_left₀ h2.le hz 2
      exact ⟨by linarith, hx.2⟩
    · rintro ⟨h1, h2⟩
      have hx : 0 ≤ x ∧ x < 1 := ⟨by nlinarith, h2⟩
      obtain ⟨_, h2', h3⟩ := C55_cosine_hemisphere (rest.cons x) (hval x hx)
      have h3' : (sampleCosineHemisphere (rest.cons x)).1.z ^ 2 = 1 - x := h3
      refine ⟨hx, ?_⟩
      by_contra hh
      push Not at hh
      nlinarith
  rw [hs, Real.volume_Ico]
  congr 1; ring

/-- **C78, uniform hemisphere.** The height of the sample is at most `c` with probability `c`. -/
theorem C78_uniform_hemisphere (c : ℝ) (hc0 : 0 ≤ c) (hc1 : c < 1) (e1 e2 n : Vec3 ℝ) (hf : Frame e1 e2 n) (rest : Rng) (hr : ∀ n, 0 ≤ rest n ∧ rest n < 1) :
    volume {x : ℝ | x ∈ Set.Ico 0 1 ∧ Dot (uniformSampleHemisphere (rest.cons x) e1 e2 n).1 n ≤ c} = ENNReal.ofReal c := by
  have hd : ∀ x, Dot (uniformSampleHemisphere (rest.cons x) e1 e2 n).1 n = x := by
    intro x
    have := (C54_isometry e1 e2 n 0 hf (Real.cos (2 * Real.pi * rest 0) * Real.sqrt (1 - x * x)) (Real.sin (2 * Real.pi * rest 0) * Real.sqrt (1 - x * x)) x 0 0 0).2.2.1
    rw [sub_zero'] at this
    exact this
  have hs : {x : ℝ | x ∈ Set.Ico 0 1 ∧ Dot (uniformSampleHemisphere (rest.cons x) e1 e2 n).1 n ≤ c} = Set.Icc 0 c := by
    ext x
    simp only [Set.mem_setOf_eq, hd, Set.mem_Ico, Set.mem_Icc]
    constructor
    · exact fun h => ⟨h.1.1, h.2⟩
    · intro h; exact ⟨⟨h.1, by linarith [h.2]⟩, h.2⟩
  rw [hs, Real.volume_Icc, sub_zero]

/-- **C78, disc.** The distance of a disc sample from the centre is at most `r` with probability `(r / R)²`. -/
theorem C78_disc (R r : ℝ) (hR : 0 < R) (h0 : 0 ≤ r) (h1 : r < R) (rest : Rng) :
    volume {x : ℝ | x ∈ Set.Ico 0 1 ∧ Real.sqrt ((uniformSampleHorizontalDisc (rest.cons x) R).1.1 ^ 2 + (uniformSampleHorizontalDisc (rest.cons x) R).1.2 ^ 2) ≤ r} = ENNReal.ofReal ((r / R) ^ 2) := by
  have hd : ∀ x, 0 ≤ x → Real.sqrt ((uniformSampleHorizontalDisc (rest.cons x) R).1.1 ^ 2 + (uniformSampleHorizontalDisc (rest.cons x) R).1.2 ^ 2) = R * Real.sqrt x := by
    intro x hx
    have e : (uniformSampleHorizontalDisc (rest.cons x) R).1.1 ^ 2 + (uniformSampleHorizontalDisc (rest.cons x) R).1.2 ^ 2 = (R * Real.sqrt x) ^ 2 := by
      change (R * Real.sqrt x * Real.sin (2 * Real.pi * rest 0)) ^ 2 + (R * Real.sqrt x * Real.cos (2 * Real.pi * rest 0)) ^ 2 = _
      have := Real.sin_sq_add_cos_sq (2 * Real.pi * rest 0)
      calc _ = (R * Real.sqrt x) ^ 2 * (Real.sin (2 * Real.pi * rest 0) ^ 2 + Real.cos (2 * Real.pi * rest 0) ^ 2) := by ring
        _ = _ := by rw [this, mul_one]
    rw [e, Real.sqrt_sq (mul_nonneg hR.le (Real.sqrt_nonneg x))]
  have hq : (r / R) ^ 2 < 1 := by
    have : r / R < 1 := (div_lt_one hR).2 h1
    have h2 : 0 ≤ r / R := div_nonneg h0 hR.le
    nlinarith
  have hs : {x : ℝ | x ∈ Set.Ico 0 1 ∧ Real.sqrt ((uniformSampleHorizontalDisc (rest.cons x) R).1.1 ^ 2 + (uniformSampleHorizontalDisc (rest.cons x) R).1.2 ^ 2) ≤ r} = Set.Icc 0 ((r / R) ^ 2) := by
    ext x
    simp only [Set.mem_setOf_eq, Set.mem_Ico, Set.mem_Icc]
    constructor
    · rintro ⟨⟨hx0, hx1⟩, hx⟩
      rw [hd x hx0] at hx
      refine ⟨hx0, ?_⟩
      have h3 : Real.sqrt x ≤ r / R := by rw [le_div_iff₀ hR]; linarith
      rw [← Real.sq_sqrt hx0]
      exact pow_le_pow_left₀ (Real.sqrt_nonneg x) h3 2
    · rintro ⟨hx0, hx⟩
      refine ⟨⟨hx0, by linarith⟩, ?_⟩
      rw [hd x hx0]
      have h3 : Real.sqrt x ≤ r / R := by
        rw [← Real.sqrt_sq (div_nonneg h0 hR.le)]
        exact Real.sqrt_le_sqrt hx
      rw [le_div_iff₀ hR] at h3
      linarith
  rw [hs, Real.volume_Icc, sub_zero]

/-! ### Concrete cases of the theorems above -/

/-- C64: a ray at its second bounce, of weight 1/4, with a limit of 1/2. -/
example := C64_survives_iff { TRay.default with depth := 1, value := 1 / 4 } 10 2 (1 / 2) (1 / 3) (fun _ => 0) (by norm_num) (by norm_num) (by norm_num)

example := C64_survival_probability { TRay.default with depth := 1, value := 1 / 4 } 10 2 (1 / 2) (fun _ => 0) (by norm_num) (by norm_num) (by norm_num) (by norm_num) (by norm_num)

/-- C78: caps and discs of half the size. -/
example := C78_cosine_hemisphere (1 / 2) (by norm_num) (by norm_num) (fun _ => 1 / 3) (fun _ => by norm_num)

example := C78_uniform_hemisphere (1 / 2) (by norm_num) (by norm_num) ⟨3 / 5, 4 / 5, 0⟩ ⟨-4 / 5, 3 / 5, 0⟩ ⟨0, 0, 1⟩ (by constructor <;> first | (apply Norm_eq_one; norm_num [Dot]) | norm_num [Dot]) (fun _ => 1 / 3) (fun _ => by norm_num)

example := C78_disc 2 1 (by norm_num) (by norm_num) (by norm_num) (fun _ => 1 / 3)

end Rendering
