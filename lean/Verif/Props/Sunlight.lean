import Verif.Props.SkyView
import Verif.Props.LightSampling
import Verif.Props.Direct
import Mathlib.LinearAlgebra.Matrix.NonsingularInverse

/-!
# C100: the light of the sun on matt surfaces

The mean, over the random draws, of the light a ray brings back from a matt surface lit by one distant source, compared with the integral over the directions of the source.
-/

set_option linter.unusedSectionVars false
namespace Rendering

open MeasureTheory Set

/-! ### The directions drawn -/

/-- The direction drawn towards a distant source with axis `a`, from two uniform draws. -/
noncomputable def towards (f1 f2 a : Vec3 ℝ) (R : ℝ) (d : ℝ × ℝ) : Vec3 ℝ := (a + f1.scale (discMap R d).1 + f2.scale (discMap R d).2).normalized

theorem source_sample (ext : GeoExt) (hext : ext.PerpSpec) (direction : Vec3 ℝ) (angle : ℝ) (hd : 0 < Dot direction direction) :
    ∃ f1 f2, Frame f1 f2 direction.normalized ∧ ∀ (rng : Rng) (point : Vec3 ℝ),
      (Primitive.source direction angle).sampleDirection ext rng point = .ok (towards f1 f2 direction.normalized (Real.tan (angle / 2)) (rng 0, rng 1), fun k => rng (k + 2)) := by
  have hnn : Norm direction.normalized = 1 := Norm_eq_one (normalized_dot_self hd)
  obtain ⟨e, he, g1, g2⟩ := hext direction.normalized hnn
  refine ⟨e.cross direction.normalized, e, frame_of_perp hnn g1 g2, fun rng point => ?_⟩
  unfold Primitive.sampleDirection Primitive.sampleSurface uniformSampleDisc
  simp only [he, Res.ofOption_some, Res.bind_ok, uniformSampleHorizontalDisc, Rng.gen2, towards, discMap]
  congr 3
  ext <;> simp [localToWorld] <;> ring

theorem discMap_sq (R : ℝ) (d : ℝ × ℝ) (h : 0 ≤ d.1) : (discMap R d).1 ^ 2 + (discMap R d).2 ^ 2 = R ^ 2 * d.1 := by
  have e := Real.sin_sq_add_cos_sq (2 * Real.pi * d.2)
  have q := Real.sq_sqrt h
  simp only [discMap]
  calc _ = R ^ 2 * Real.sqrt d.1 ^ 2 * (Real.sin (2 * Real.pi * d.2) ^ 2 + Real.cos (2 * Real.pi * d.2) ^ 2) := by ring
    _ = _ := by rw [e, q, mul_one]

theorem offset_sq {f1 f2 a : Vec3 ℝ} (hf : Frame f1 f2 a) (x y : ℝ) : Dot (a + f1.scale x + f2.scale y) (a + f1.scale x + f2.scale y) = 1 + (x ^ 2 + y ^ 2) := by
  have h1 := Dot_self_of_norm hf.n1
  have h2 := Dot_self_of_norm hf.n2
  have h3 := Dot_self_of_norm hf.n3
  have d1 := hf.d12
  have d2 := hf.d13
  have d3 := hf.d23
  simp only [Dot, Vec3.add_x, Vec3.add_y, Vec3.add_z, Vec3.scale_x, Vec3.scale_y, Vec3.scale_z] at *
  linear_combination h3 + x ^ 2 * h1 + y ^ 2 * h2 + 2 * x * y * d1 + 2 * x * d2 + 2 * y * d3

/-- The cosine of the drawn direction with any vector. -/
theorem towards_dot {f1 f2 a : Vec3 ℝ} (hf : Frame f1 f2 a) (R : ℝ) (d : ℝ × ℝ) (h : 0 ≤ d.1) (n : Vec3 ℝ) :
    Dot n (towards f1 f2 a R d) = (Dot n a + (discMap R d).1 * Dot n f1 + (discMap R d).2 * Dot n f2) / Real.sqrt (1 + R ^ 2 * d.1) := by
  unfold towards
  rw [normalized_eq]
  have : Norm (a + f1.scale (discMap R d).1 + f2.scale (discMap R d).2) = Real.sqrt (1 + R ^ 2 * d.1) := by
    rw [← discMap_sq R d h, ← offset_sq hf, ← Norm_sq, Real.sqrt_sq (Norm_nonneg _)]
  rw [this]
  simp only [Dot, Vec3.add_x, Vec3.add_y, Vec3.add_z, Vec3.scale_x, Vec3.scale_y, Vec3.scale_z]
  ring

theorem towards_unit {f1 f2 a : Vec3 ℝ} (hf : Frame f1 f2 a) (R : ℝ) (d : ℝ × ℝ) : Norm (towards f1 f2 a R d) = 1 := by
  refine Norm_eq_one (normalized_dot_self ?_)
  rw [offset_sq hf]
  positivity

theorem towards_axis {f1 f2 a : Vec3 ℝ} (hf : Frame f1 f2 a) (R : ℝ) (d : ℝ × ℝ) (h : 0 ≤ d.1) : Dot (towards f1 f2 a R d) a = 1 / Real.sqrt (1 + R ^ 2 * d.1) := by
  have := towards_dot hf R d h a
  have c1 : Dot a f1 = 0 := by have := hf.d13; simp only [Dot] at this ⊢; linarith
  have c2 : Dot a f2 = 0 := by have := hf.d23; simp only [Dot] at this ⊢; linarith
  rw [c1, c2, Dot_self_of_norm hf.n3] at this
  rw [show Dot (towards f1 f2 a R d) a = Dot a (towards f1 f2 a R d) by simp only [Dot]; ring, this]
  ring

/-- An orthonormal frame is complete: every vector is the sum of its components. -/
theorem frame_complete {f1 f2 a : Vec3 ℝ} (hf : Frame f1 f2 a) (v : Vec3 ℝ) : a.scale (Dot v a) + f1.scale (Dot v f1) + f2.scale (Dot v f2) = v := by
  have h1 := Dot_self_of_norm hf.n1
  have h2 := Dot_self_of_norm hf.n2
  have h3 := Dot_self_of_norm hf.n3
  have d1 := hf.d12
  have d2 := hf.d13
  have d3 := hf.d23
  simp only [Dot] at h1 h2 h3 d1 d2 d3
  have hM : (!![f1.x, f1.y, f1.z; f2.x, f2.y, f2.z; a.x, a.y, a.z] : Matrix (Fin 3) (Fin 3) ℝ) * !![f1.x, f2.x, a.x; f1.y, f2.y, a.y; f1.z, f2.z, a.z] = 1 := by
    ext i j
    fin_cases i <;> fin_cases j <;> simp [Matrix.mul_apply, Fin.sum_univ_three] <;> linarith
  have hN := mul_eq_one_comm.1 hM
  have e : ∀ i j, (!![f1.x, f2.x, a.x; f1.y, f2.y, a.y; f1.z, f2.z, a.z] * !![f1.x, f1.y, f1.z; f2.x, f2.y, f2.z; a.x, a.y, a.z] : Matrix (Fin 3) (Fin 3) ℝ) i j = (1 : Matrix (Fin 3) (Fin 3) ℝ) i j := fun i j => by rw [hN]
  have e00 := e 0 0
  have e01 := e 0 1
  have e02 := e 0 2
  have e11 := e 1 1
  have e12 := e 1 2
  have e22 := e 2 2
  simp [Matrix.mul_apply, Fin.sum_univ_three] at e00 e01 e02 e11 e12 e22
  ext
  · simp only [Dot, Vec3.add_x, Vec3.scale_x]
    linear_combination v.x * e00 + v.y * e01 + v.z * e02
  · simp only [Dot, Vec3.add_y, Vec3.scale_y]
    linear_combination v.x * e01 + v.y * e11 + v.z * e12
  · simp only [Dot, Vec3.add_z, Vec3.scale_z]
    linear_combination v.x * e02 + v.y * e12 + v.z * e22

theorem frame_sq {f1 f2 a : Vec3 ℝ} (hf : Frame f1 f2 a) (v : Vec3 ℝ) : Dot v v = Dot v a ^ 2 + Dot v f1 ^ 2 + Dot v f2 ^ 2 := by
  have h := frame_complete hf v
  have lin : ∀ p q r, Dot v (a.scale p + f1.scale q + f2.scale r) = p * Dot v a + q * Dot v f1 + r * Dot v f2 := by
    intro p q r
    simp only [Dot, Vec3.add_x, Vec3.add_y, Vec3.add_z, Vec3.scale_x, Vec3.scale_y, Vec3.scale_z]
    ring
  calc Dot v v = Dot v (a.scale (Dot v a) + f1.scale (Dot v f1) + f2.scale (Dot v f2)) := by rw [h]
    _ = _ := by rw [lin]; ring

/-! ### The mean cosine of the drawn directions -/

/-- A source of half angle `h` all above the horizon: every drawn direction is on the side of `n`. -/
theorem towards_pos {f1 f2 a n : Vec3 ℝ} (hf : Frame f1 f2 a) (hn : Norm n = 1) (h : ℝ) (h0 : 0 < h) (h1 : h < Real.pi / 2) (hup : Real.sin h < Dot n a) (d : ℝ × ℝ) (hd : d ∈ unitSquare) :
    0 < Dot n a + (discMap (Real.tan h) d).1 * Dot n f1 + (discMap (Real.tan h) d).2 * Dot n f2 := by
  have hc : 0 < Real.cos h := Real.cos_pos_of_mem_Ioo ⟨by linarith, h1⟩
  have hs : 0 < Real.sin h := Real.sin_pos_of_pos_of_lt_pi h0 (by linarith)
  have hsc := Real.sin_sq_add_cos_sq h
  have hF := frame_sq hf n
  rw [Dot_self_of_norm hn] at hF
  have hq := discMap_sq (Real.tan h) d hd.1.1
  set x := (discMap (Real.tan h) d).1
  set y := (discMap (Real.tan h) d).2
  set A := Dot n a
  set B := Dot n f1
  set C := Dot n f2
  have hA : 0 < A := hs.trans hup
  have ht : Real.tan h * Real.cos h = Real.sin h := Real.tan_mul_cos hc.ne'
  have hlt : x ^ 2 + y ^ 2 ≤ Real.tan h ^ 2 := by rw [hq]; nlinarith [hd.1.2, sq_nonneg (Real.tan h)]
  have hA2 : Real.sin h ^ 2 < A ^ 2 := by nlinarith
  have hcs : (x * B + y * C) ^ 2 ≤ (x ^ 2 + y ^ 2) * (B ^ 2 + C ^ 2) := by nlinarith [sq_nonneg (x * C - y * B)]
  have hlt2 : (x * B + y * C) ^ 2 < A ^ 2 := by
    have hBC : B ^ 2 + C ^ 2 = 1 - A ^ 2 := by linarith
    have hBC0 : 0 ≤ 1 - A ^ 2 := by rw [← hBC]; positivity
    have h3 : (x ^ 2 + y ^ 2) * (B ^ 2 + C ^ 2) ≤ Real.tan h ^ 2 * (1 - A ^ 2) := by rw [hBC]; exact mul_le_mul_of_nonneg_right hlt hBC0
    have h4 : Real.tan h ^ 2 * (1 - A ^ 2) * Real.cos h ^ 2 < A ^ 2 * Real.cos h ^ 2 := by
      have : Real.tan h ^ 2 * (1 - A ^ 2) * Real.cos h ^ 2 = Real.sin h ^ 2 * (1 - A ^ 2) := by rw [← ht]; ring
      rw [this]
      nlinarith
    have h5 := lt_of_mul_lt_mul_right h4 (by positivity)
    linarith
  have := abs_lt_of_sq_lt_sq hlt2 hA.le
  have := (abs_lt.1 this).1
  linarith

theorem mean_turn (A B C : ℝ) : ∫ t in (0 : ℝ)..1, (A + B * Real.sin (2 * Real.pi * t) + C * Real.cos (2 * Real.pi * t)) = A := by
  have hpi : 2 * Real.pi ≠ 0 := by positivity
  rw [intervalIntegral.integral_add, intervalIntegral.integral_add, intervalIntegral.integral_const_mul, intervalIntegral.integral_const_mul, intervalIntegral.integral_const]
  · rw [intervalIntegral.integral_comp_mul_left _ hpi, intervalIntegral.integral_comp_mul_left _ hpi]
    simp
  all_goals apply Continuous.intervalIntegrable; fun_prop

theorem lintegral_turn (A B C : ℝ) (h : ∀ t ∈ Ico (0 : ℝ) 1, 0 ≤ A + B * Real.sin (2 * Real.pi * t) + C * Real.cos (2 * Real.pi * t)) :
    ∫⁻ t in Ico (0 : ℝ) 1, ENNReal.ofReal (A + B * Real.sin (2 * Real.pi * t) + C * Real.cos (2 * Real.pi * t)) = ENNReal.ofReal A := by
  have hc : Continuous fun t : ℝ => A + B * Real.sin (2 * Real.pi * t) + C * Real.cos (2 * Real.pi * t) := by fun_prop
  rw [← ofReal_integral_eq_lintegral_ofReal]
  · rw [integral_Ico_eq_integral_Ioc, ← intervalIntegral.integral_of_le zero_le_one, mean_turn]
  · exact (hc.integrableOn_Icc (a := 0) (b := 1)).mono_set Ico_subset_Icc_self
  · exact (ae_restrict_iff' measurableSet_Ico).2 (Filter.Eventually.of_forall h)

theorem integral_root (R : ℝ) (hR : R ≠ 0) : ∫ u in (0 : ℝ)..1, 1 / Real.sqrt (1 + R ^ 2 * u) = 2 * (Real.sqrt (1 + R ^ 2) - 1) / R ^ 2 := by
  have hpos : ∀ u ∈ Icc (0 : ℝ) 1, 0 < 1 + R ^ 2 * u := fun u hu => by have := mul_nonneg (sq_nonneg R) hu.1; linarith
  have hd : ∀ u ∈ uIcc (0 : ℝ) 1, HasDerivAt (fun u => 2 * Real.sqrt (1 + R ^ 2 * u) / R ^ 2) (1 / Real.sqrt (1 + R ^ 2 * u)) u := by
    intro u hu
    rw [uIcc_of_le zero_le_one] at hu
    have h1 : HasDerivAt (fun u : ℝ => 1 + R ^ 2 * u) (R ^ 2) u := by
      simpa using ((hasDerivAt_id u).const_mul (R ^ 2)).const_add 1
    have h2 := ((h1.sqrt (hpos u hu).ne').const_mul 2).div_const (R ^ 2)
    refine h2.congr_deriv ?_
    have := Real.sqrt_pos.2 (hpos u hu)
    field_simp
  have hi : IntervalIntegrable (fun u => 1 / Real.sqrt (1 + R ^ 2 * u)) volume 0 1 := by
    apply ContinuousOn.intervalIntegrable
    rw [uIcc_of_le zero_le_one]
    refine ContinuousOn.div continuousOn_const (by fun_prop) fun u hu => (Real.sqrt_pos.2 (hpos u hu)).ne'
  rw [intervalIntegral.integral_eq_sub_of_hasDerivAt hd hi]
  simp
  ring

theorem lintegral_root (A R : ℝ) (hA : 0 ≤ A) (hR : R ≠ 0) :
    ∫⁻ u in Ico (0 : ℝ) 1, ENNReal.ofReal (A / Real.sqrt (1 + R ^ 2 * u)) = ENNReal.ofReal (A * (2 * (Real.sqrt (1 + R ^ 2) - 1) / R ^ 2)) := by
  have hpos : ∀ u ∈ Icc (0 : ℝ) 1, 0 < 1 + R ^ 2 * u := fun u hu => by have := mul_nonneg (sq_nonneg R) hu.1; linarith
  rw [← ofReal_integral_eq_lintegral_ofReal]
  · rw [integral_Ico_eq_integral_Ioc, ← intervalIntegral.integral_of_le zero_le_one, ← integral_root R hR, ← intervalIntegral.integral_const_mul]
    congr 1
    refine intervalIntegral.integral_congr fun u _ => ?_
    ring
  · refine IntegrableOn.mono_set (t := Icc 0 1) (ContinuousOn.integrableOn_Icc ?_) Ico_subset_Icc_self
    exact ContinuousOn.div continuousOn_const (by fun_prop) fun u hu => (Real.sqrt_pos.2 (hpos u hu)).ne'
  · refine Filter.Eventually.of_forall fun u => ?_
    positivity

/-- The mean cosine with `n` of the directions drawn towards a source all above the horizon of `n`: `2 c / (1 + c)` times the cosine of the axis, `c` the cosine of the half angle. -/
theorem mean_cosine {f1 f2 a n : Vec3 ℝ} (hf : Frame f1 f2 a) (hn : Norm n = 1) (h : ℝ) (h0 : 0 < h) (h1 : h < Real.pi / 2) (hup : Real.sin h < Dot n a) :
    Mean (fun d => ENNReal.ofReal (Dot n (towards f1 f2 a (Real.tan h) d))) = ENNReal.ofReal (2 * Real.cos h / (1 + Real.cos h) * Dot n a) := by
  have hc : 0 < Real.cos h := Real.cos_pos_of_mem_Ioo ⟨by linarith, h1⟩
  have hs : 0 < Real.sin h := Real.sin_pos_of_pos_of_lt_pi h0 (by linarith)
  have ht : 0 < Real.tan h := Real.tan_pos_of_pos_of_lt_pi_div_two h0 h1
  have hA : 0 < Dot n a := hs.trans hup
  set R := Real.tan h with hR
  have hm : Measurable fun d : ℝ × ℝ => ENNReal.ofReal ((Dot n a + (discMap R d).1 * Dot n f1 + (discMap R d).2 * Dot n f2) / Real.sqrt (1 + R ^ 2 * d.1)) := by
    have := discMap_measurable R
    fun_prop
  have hms : MeasurableSet unitSquare := measurableSet_Ico.prod measurableSet_Ico
  have e1 : Mean (fun d => ENNReal.ofReal (Dot n (towards f1 f2 a R d))) =
      ∫⁻ d in unitSquare, ENNReal.ofReal ((Dot n a + (discMap R d).1 * Dot n f1 + (discMap R d).2 * Dot n f2) / Real.sqrt (1 + R ^ 2 * d.1)) := by
    unfold Mean
    refine setLIntegral_congr_fun hms fun d hd => ?_
    rw [towards_dot hf R d hd.1.1 n]
  rw [e1]
  unfold unitSquare
  rw [Measure.volume_eq_prod, setLIntegral_prod _ hm.aemeasurable]
  have e2 : ∀ u ∈ Ico (0 : ℝ) 1, ∫⁻ t in Ico (0 : ℝ) 1, ENNReal.ofReal ((Dot n a + (discMap R (u, t)).1 * Dot n f1 + (discMap R (u, t)).2 * Dot n f2) / Real.sqrt (1 + R ^ 2 * u)) = ENNReal.ofReal (Dot n a / Real.sqrt (1 + R ^ 2 * u)) := by
    intro u hu
    rw [← lintegral_turn (Dot n a / Real.sqrt (1 + R ^ 2 * u)) (R * Real.sqrt u * Dot n f1 / Real.sqrt (1 + R ^ 2 * u)) (R * Real.sqrt u * Dot n f2 / Real.sqrt (1 + R ^ 2 * u))]
    · refine lintegral_congr fun t => ?_
      congr 1
      simp only [discMap]
      ring
    · intro t ht'
      have := towards_pos hf hn h h0 h1 hup (u, t) ⟨hu, ht'⟩
      have : 0 ≤ (Dot n a + (discMap R (u, t)).1 * Dot n f1 + (discMap R (u, t)).2 * Dot n f2) / Real.sqrt (1 + R ^ 2 * u) := div_nonneg this.le (Real.sqrt_nonneg _)
      refine this.trans (le_of_eq ?_)
      simp only [discMap]
      ring
  rw [setLIntegral_congr_fun measurableSet_Ico e2, lintegral_root _ _ hA.le ht.ne']
  congr 1
  have hsq : Real.sqrt (1 + R ^ 2) = 1 / Real.cos h := by
    rw [hR, tan_sq_eq hc, add_sub_cancel, show 1 / Real.cos h ^ 2 = (1 / Real.cos h) ^ 2 by ring, Real.sqrt_sq (by positivity)]
  have hc1 : Real.cos h < 1 := by nlinarith [Real.sin_sq_add_cos_sq h, Real.cos_le_one h]
  rw [hsq, hR, tan_sq_eq hc]
  have : 1 - Real.cos h ^ 2 ≠ 0 := by nlinarith
  have h2 : 1 / Real.cos h ^ 2 - 1 = (1 - Real.cos h ^ 2) / Real.cos h ^ 2 := by field_simp
  rw [h2]
  field_simp
  ring

/-! ### The irradiance from a cap of directions -/

/-- The irradiance of a horizontal surface from a cap of directions of radiance one, all above the horizon: the area of the cap's projection, an ellipse. -/
theorem cap_irradiance (A : Vec3 ℝ) (hA : Norm A = 1) (c : ℝ) (hc0 : 0 < c) (hc1 : c < 1) (hup : Real.sqrt (1 - c ^ 2) < A.z) :
    projectedSolidAngle {l | c < Dot l A} = ENNReal.ofReal (Real.pi * (1 - c ^ 2) * A.z) := by
  obtain ⟨ext, hext⟩ := perpSpec_exists
  obtain ⟨F2, -, g1, g2⟩ := hext A hA
  have hf := frame_of_perp hA g1 g2
  set F1 := F2.cross A with hF1
  have hr0 : 0 ≤ 1 - c ^ 2 := by nlinarith
  set r := Real.sqrt (1 - c ^ 2) with hr
  have hr2 : r ^ 2 = 1 - c ^ 2 := Real.sq_sqrt hr0
  have hrpos : 0 < r := Real.sqrt_pos.2 (by nlinarith)
  have hAz : 0 < A.z := hrpos.trans hup
  have hdet : F1.x * F2.y - F1.y * F2.x = A.z := by
    have k1 := Dot_self_of_norm g1
    simp only [Dot] at k1 g2
    simp only [hF1, Vec3.cross]
    linear_combination A.z * k1 - F2.z * g2
  -- the flat disc inside the cap's rim, projected
  let G : ℝ × ℝ → ℝ × ℝ := fun p => (c * A.x + p.1 * F1.x + p.2 * F2.x, c * A.y + p.1 * F1.y + p.2 * F2.y)
  have hlin : ∀ (k u v : ℝ) (p : ℝ × ℝ), HasFDerivAt (fun p : ℝ × ℝ => k + p.1 * u + p.2 * v) (u • ContinuousLinearMap.fst ℝ ℝ ℝ + v • ContinuousLinearMap.snd ℝ ℝ ℝ) p := by
    intro k u v p
    have h1 := (hasFDerivAt_fst (𝕜 := ℝ) (E := ℝ) (F := ℝ) (p := p)).mul_const u
    have h2 := (hasFDerivAt_snd (𝕜 := ℝ) (E := ℝ) (F := ℝ) (p := p)).mul_const v
    exact (h1.const_add k).add h2
  have hG : ∀ p ∈ discOf r, HasFDerivAt G (planeDeriv F1.x F2.x F1.y F2.y) p := fun p _ => hasFDeriv_plane (hlin _ _ _ p) (hlin _ _ _ p)
  have hGm : Measurable G := by fun_prop
  have hGi : InjOn G (discOf r) := by
    rintro ⟨x, y⟩ _ ⟨x', y'⟩ _ h
    simp only [G, Prod.mk.injEq] at h
    obtain ⟨h1, h2⟩ := h
    have k1 : (x - x') * A.z = 0 := by rw [← hdet]; linear_combination F2.y * h1 - F2.x * h2
    have k2 : (y - y') * A.z = 0 := by rw [← hdet]; linear_combination F1.x * h2 - F1.y * h1
    rcases mul_eq_zero.1 k1 with k1 | k1
    · rcases mul_eq_zero.1 k2 with k2 | k2
      · rw [sub_eq_zero.1 k1, sub_eq_zero.1 k2]
      · exact absurd k2 hAz.ne'
    · exact absurd k1 hAz.ne'
  let E : Set (ℝ × ℝ) := {q | q.1 ^ 2 + q.2 ^ 2 < 1 ∧ c < q.1 * A.x + q.2 * A.y + Real.sqrt (1 - (q.1 ^ 2 + q.2 ^ 2)) * A.z}
  have hE : MeasurableSet E := by
    have m1 : MeasurableSet {q : ℝ × ℝ | q.1 ^ 2 + q.2 ^ 2 < 1} := measurableSet_lt (by fun_prop) measurable_const
    have m2 : MeasurableSet {q : ℝ × ℝ | c < q.1 * A.x + q.2 * A.y + Real.sqrt (1 - (q.1 ^ 2 + q.2 ^ 2)) * A.z} := measurableSet_lt measurable_const (by fun_prop)
    exact m1.inter m2
  have hAA := Dot_self_of_norm hA
  have himg : G '' discOf r = discOf 1 ∩ E := by
    ext q
    constructor
    · rintro ⟨⟨x, y⟩, hxy, rfl⟩
      simp only [discOf, mem_setOf_eq] at hxy
      have k1 := Dot_self_of_norm hf.n1
      have k2 := Dot_self_of_norm hf.n2
      have d1 := hf.d12
      have d2 := hf.d13
      have d3 := hf.d23
      simp only [Dot] at k1 k2 d1 d2 d3 hAA
      have hPP : (c * A.x + x * F1.x + y * F2.x) ^ 2 + (c * A.y + x * F1.y + y * F2.y) ^ 2 + (c * A.z + x * F1.z + y * F2.z) ^ 2 = c ^ 2 + (x ^ 2 + y ^ 2) := by
        linear_combination c ^ 2 * hAA + x ^ 2 * k1 + y ^ 2 * k2 + 2 * x * y * d1 + 2 * c * x * d2 + 2 * c * y * d3
      have hPA : (c * A.x + x * F1.x + y * F2.x) * A.x + (c * A.y + x * F1.y + y * F2.y) * A.y + (c * A.z + x * F1.z + y * F2.z) * A.z = c := by
        linear_combination c * hAA + x * d2 + y * d3
      have hlt : (c * A.z + x * F1.z + y * F2.z) ^ 2 < 1 - ((c * A.x + x * F1.x + y * F2.x) ^ 2 + (c * A.y + x * F1.y + y * F2.y) ^ 2) := by linarith
      have hz := Real.lt_sqrt_of_sq_lt hlt
      have hz2 := mul_lt_mul_of_pos_right hz hAz
      have hin : (c * A.x + x * F1.x + y * F2.x) ^ 2 + (c * A.y + x * F1.y + y * F2.y) ^ 2 < 1 := by
        have := sq_nonneg (c * A.z + x * F1.z + y * F2.z)
        linarith
      refine ⟨?_, hin, ?_⟩
      · simpa only [discOf, mem_setOf_eq, one_pow] using hin
      · simp only [G]
        linarith
    · rintro ⟨-, hq1, hq2⟩
      obtain ⟨X, Y⟩ := q
      simp only at hq1 hq2
      simp only [Dot] at hAA
      have hz0 : 0 < Real.sqrt (1 - (X ^ 2 + Y ^ 2)) := Real.sqrt_pos.2 (by linarith)
      have hzz : Real.sqrt (1 - (X ^ 2 + Y ^ 2)) ^ 2 = 1 - (X ^ 2 + Y ^ 2) := Real.sq_sqrt (by linarith)
      set z := Real.sqrt (1 - (X ^ 2 + Y ^ 2))
      obtain ⟨Z, hZ⟩ : ∃ Z, Z * A.z = c - X * A.x - Y * A.y := ⟨(c - X * A.x - Y * A.y) / A.z, div_mul_cancel₀ _ hAz.ne'⟩
      have hlow : X * A.x + Y * A.y < c := by
        have cs : (X * A.x + Y * A.y) ^ 2 ≤ (X ^ 2 + Y ^ 2) * (A.x ^ 2 + A.y ^ 2) := by nlinarith [sq_nonneg (X * A.y - Y * A.x)]
        have h1 : (X ^ 2 + Y ^ 2) * (A.x ^ 2 + A.y ^ 2) ≤ A.x ^ 2 + A.y ^ 2 := by nlinarith [sq_nonneg A.x, sq_nonneg A.y]
        have h2 : A.x ^ 2 + A.y ^ 2 < c ^ 2 := by nlinarith
        exact lt_of_pow_lt_pow_left₀ 2 hc0.le (by linarith)
      have hu : Z < z := by
        by_contra hcon
        have := mul_le_mul_of_nonneg_right (not_lt.1 hcon) hAz.le
        linarith
      have hl : -z < Z := by
        by_contra hcon
        have := mul_le_mul_of_nonneg_right (not_lt.1 hcon) hAz.le
        have := mul_pos hz0 hAz
        linarith
      have hZZ : Z ^ 2 < z ^ 2 := sq_lt_sq' hl hu
      have hPA : Dot ⟨X, Y, Z⟩ A = c := by simp only [Dot]; linarith
      have hP := frame_complete hf ⟨X, Y, Z⟩
      have hN := frame_sq hf ⟨X, Y, Z⟩
      rw [hPA] at hP hN
      refine ⟨(Dot ⟨X, Y, Z⟩ F1, Dot ⟨X, Y, Z⟩ F2), ?_, ?_⟩
      · simp only [discOf, mem_setOf_eq]
        have : Dot (⟨X, Y, Z⟩ : Vec3 ℝ) ⟨X, Y, Z⟩ = X ^ 2 + Y ^ 2 + Z ^ 2 := by simp only [Dot]; ring
        linarith
      · have ex := congrArg Vec3.x hP
        have ey := congrArg Vec3.y hP
        simp only [Vec3.add_x, Vec3.add_y, Vec3.scale_x, Vec3.scale_y] at ex ey
        simp only [G, Prod.mk.injEq]
        exact ⟨by linarith, by linarith⟩
  have hvol : volume (G '' discOf r) = ENNReal.ofReal (Real.pi * (1 - c ^ 2) * A.z) := by
    have := change_of_variables (discOf_measurable r) hG hGm hGi MeasurableSet.univ
    rw [preimage_univ, inter_univ, inter_univ] at this
    rw [← this]
    simp only [planeDeriv_det]
    rw [setLIntegral_const, volume_discOf hrpos, ← ENNReal.ofReal_mul (abs_nonneg _), show F1.x * F2.y - F2.x * F1.y = A.z by linarith, abs_of_pos hAz, hr2]
    congr 1
    ring
  rw [← hvol, himg, ← horiz_measure hE]
  unfold projectedSolidAngle
  congr 2
  ext p
  simp only [mem_setOf_eq, mem_inter_iff, mem_preimage]
  change p ∈ upperBox ∧ _ ↔ p ∈ upperBox ∧ _
  refine and_congr_right fun hp => ?_
  have hn := horizMap_norm p hp
  have hp0 : 0 < p.1 := hp.1.1
  have hz : Real.sqrt (1 - ((horizMap p).1 ^ 2 + (horizMap p).2 ^ 2)) = p.1 := by rw [hn, sub_sub_cancel, Real.sqrt_sq hp0.le]
  have hin : (horizMap p).1 ^ 2 + (horizMap p).2 ^ 2 < 1 := by rw [hn]; nlinarith
  change c < (horizMap p).1 * A.x + (horizMap p).2 * A.y + p.1 * A.z ↔ _ ∧ c < (horizMap p).1 * A.x + (horizMap p).2 * A.y + Real.sqrt (1 - ((horizMap p).1 ^ 2 + (horizMap p).2 ^ 2)) * A.z
  rw [hz]
  exact ⟨fun h => ⟨hin, h⟩, fun h => h.2⟩

end Rendering
