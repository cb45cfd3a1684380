import Verif.Lemmas.Jacobian
import Verif.Props.Ambient

/-!
# C78: the samplers have the advertised distributions

Full statements: for every measurable set of outcomes, with two independent uniform draws.
-/

set_option linter.unusedSectionVars false
namespace Rendering

open MeasureTheory Set

theorem Measurable3.preimage {S : Set (Vec3 ℝ)} (hS : Measurable3 S) {f g h : ℝ × ℝ → ℝ} (hf : Measurable f) (hg : Measurable g) (hh : Measurable h) :
    MeasurableSet {q : ℝ × ℝ | (⟨f q, g q, h q⟩ : Vec3 ℝ) ∈ S} :=
  (hf.prodMk (hg.prodMk hh)) hS

/-- **C78, disc.** The sample of the disc of radius `R` lies in `E` with a probability equal to the share of the disc's area that lies in `E`. -/
theorem C78_disc_uniform (R : ℝ) (hR : 0 < R) (rest : Rng) (E : Set (ℝ × ℝ)) (hE : MeasurableSet E) :
    Probability (fun d => (uniformSampleHorizontalDisc (rest.cons2 d) R).1 ∈ E) = volume (discOf R ∩ E) / volume (discOf R) := by
  have h := disc_measure hR hE
  rw [probability_eq, ← h, volume_discOf hR, mul_comm, ENNReal.mul_div_cancel_right]
  · rfl
  · exact (ENNReal.ofReal_pos.2 (by have := Real.pi_pos; positivity)).ne'
  · exact ENNReal.ofReal_ne_top

/-- **C78, disc in space.** The sample of a disc around `centre`, perpendicular to `normal`: uniform over the disc, in the coordinates of an orthonormal basis of its plane. -/
theorem C78_disc_in_space (ext : GeoExt) (hext : ext.PerpSpec) (R : ℝ) (hR : 0 < R) (centre normal : Vec3 ℝ) (hn : Norm normal = 1) (rest : Rng) (S : Set (Vec3 ℝ)) (hS : Measurable3 S) :
    ∃ e1 e2, Frame e1 e2 normal ∧
      Probability (fun d => ∃ p rng, uniformSampleDisc ext (rest.cons2 d) R centre normal = .ok (p, rng) ∧ p ∈ S) =
        volume {q | q ∈ discOf R ∧ centre + e1.scale q.1 + e2.scale q.2 ∈ S} / volume (discOf R) := by
  obtain ⟨e, he, h1, h2⟩ := hext normal hn
  refine ⟨e.cross normal, e, frame_of_perp hn h1 h2, ?_⟩
  have hE : MeasurableSet {q : ℝ × ℝ | centre + (e.cross normal).scale q.1 + e.scale q.2 ∈ S} :=
    hS.preimage (f := fun q => centre.x + (e.cross normal).x * q.1 + e.x * q.2) (g := fun q => centre.y + (e.cross normal).y * q.1 + e.y * q.2)
      (h := fun q => centre.z + (e.cross normal).z * q.1 + e.z * q.2) (by fun_prop) (by fun_prop) (by fun_prop)
  have h := C78_disc_uniform R hR rest _ hE
  refine Eq.trans (probability_congr fun d _ => ?_) h
  have e1 : ∀ x y, localToWorld (e.cross normal) e normal centre x y 0 = centre + (e.cross normal).scale x + e.scale y := by
    intro x y
    ext <;> simp [localToWorld, Vec3.scale] <;> ring
  unfold uniformSampleDisc
  simp only [he, Res.ofOption, Res.bind, e1]
  constructor
  · rintro ⟨p, rng, hp, hS⟩
    cases hp
    exact hS
  · exact fun hS => ⟨_, _, rfl, hS⟩

/-- **C78, triangle.** The sample of the triangle `a b c` lies in `S` with a probability that differs by at most `4 · 10⁻⁸` from the share of the triangle's area that lies in `S` (draws closer than `10⁻⁸` to 0 or 1 are clamped). -/
theorem C78_triangle_uniform (a b c : Vec3 ℝ) (rest : Rng) (S : Set (Vec3 ℝ)) (hS : Measurable3 S) :
    Within (4 / 10 ^ 8) (Probability fun d => (uniformSampleTriangle (rest.cons2 d) a b c).1 ∈ S) (areaShare a b c S) := by
  have hE : MeasurableSet {q : ℝ × ℝ | a + (b - a).scale q.1 + (c - a).scale q.2 ∈ S} :=
    hS.preimage (f := fun q => a.x + (b.x - a.x) * q.1 + (c.x - a.x) * q.2) (g := fun q => a.y + (b.y - a.y) * q.1 + (c.y - a.y) * q.2)
      (h := fun q => a.z + (b.z - a.z) * q.1 + (c.z - a.z) * q.2) (by fun_prop) (by fun_prop) (by fun_prop)
  have h : Probability (fun d => a + (b - a).scale (triMap d).1 + (c - a).scale (triMap d).2 ∈ S) = areaShare a b c S := by
    rw [probability_eq]
    exact triangle_measure hE
  rw [← h, show (4 : ℝ) / 10 ^ 8 = 4 * (1 / 10 ^ 8) by ring]
  refine probability_within (by norm_num) (by norm_num) fun d hd => ?_
  have h1 : clampR d.1 (1 / 10 ^ 8) (1 - 1 / 10 ^ 8) = d.1 := clampR_of_mem hd.1.1.le hd.1.2.le
  have h2 : clampR d.2 (1 / 10 ^ 8) (1 - 1 / 10 ^ 8) = d.2 := clampR_of_mem hd.2.1.le hd.2.2.le
  have e : (uniformSampleTriangle (rest.cons2 d) a b c).1 = a + (b - a).scale (triMap d).1 + (c - a).scale (triMap d).2 := by
    change a + (b - a).scale (1 - Real.sqrt (clampR d.1 (1 / 10 ^ 8) (1 - 1 / 10 ^ 8))) + (c - a).scale (clampR d.2 (1 / 10 ^ 8) (1 - 1 / 10 ^ 8) * Real.sqrt (clampR d.1 (1 / 10 ^ 8) (1 - 1 / 10 ^ 8))) = _
    rw [h1, h2]
    simp only [triMap, mul_comm d.2]
  rw [e]

/-- **C78, cosine-weighted hemisphere.** The sample lies in `S` with probability `1 / π` times the integral over `S` of the cosine with the vertical: its density per solid angle is `cos / π`. -/
theorem C78_cosine_density (rest : Rng) (S : Set (Vec3 ℝ)) (hS : Measurable3 S) :
    Probability (fun d => (sampleCosineHemisphere (rest.cons2 d)).1 ∈ S) = projectedSolidAngle S / ENNReal.ofReal Real.pi := by
  have hE : MeasurableSet {q : ℝ × ℝ | (⟨q.1, q.2, Real.sqrt (1 - (q.1 ^ 2 + q.2 ^ 2))⟩ : Vec3 ℝ) ∈ S} :=
    hS.preimage (f := fun q => q.1) (g := fun q => q.2) (h := fun q => Real.sqrt (1 - (q.1 ^ 2 + q.2 ^ 2))) (by fun_prop) (by fun_prop) (by fun_prop)
  have h1 := C78_disc_uniform 1 one_pos rest _ hE
  have h2 : projectedSolidAngle S = volume (discOf 1 ∩ {q : ℝ × ℝ | (⟨q.1, q.2, Real.sqrt (1 - (q.1 ^ 2 + q.2 ^ 2))⟩ : Vec3 ℝ) ∈ S}) := by
    rw [← horiz_measure hE]
    unfold projectedSolidAngle
    congr 2
    ext p
    refine and_congr_right fun hp => ?_
    change _ ↔ (⟨(horizMap p).1, (horizMap p).2, Real.sqrt (1 - ((horizMap p).1 ^ 2 + (horizMap p).2 ^ 2))⟩ : Vec3 ℝ) ∈ S
    rw [horizMap_norm p hp, sub_sub_cancel, Real.sqrt_sq hp.1.1.le]
    rfl
  have hv : ENNReal.ofReal Real.pi = volume (discOf 1) := by rw [volume_discOf one_pos]; norm_num
  rw [h2, hv, ← h1]
  refine probability_congr fun d hd => ?_
  have hx := hd.1
  have e := Real.sin_sq_add_cos_sq (2 * Real.pi * d.2)
  have q := Real.sq_sqrt hx.1.le
  change (⟨1 * Real.sqrt d.1 * Real.sin (2 * Real.pi * d.2), 1 * Real.sqrt d.1 * Real.cos (2 * Real.pi * d.2), Real.sqrt (1 - clampR
      (1 * Real.sqrt d.1 * Real.sin (2 * Real.pi * d.2) * (1 * Real.sqrt d.1 * Real.sin (2 * Real.pi * d.2)) + 1 * Real.sqrt d.1 * Real.cos (2 * Real.pi * d.2) * (1 * Real.sqrt d.1 * Real.cos (2 * Real.pi * d.2))) 0 1)⟩ : Vec3 ℝ) ∈ S ↔
    (⟨1 * Real.sqrt d.1 * Real.sin (2 * Real.pi * d.2), 1 * Real.sqrt d.1 * Real.cos (2 * Real.pi * d.2), Real.sqrt (1 - ((1 * Real.sqrt d.1 * Real.sin (2 * Real.pi * d.2)) ^ 2 + (1 * Real.sqrt d.1 * Real.cos (2 * Real.pi * d.2)) ^ 2))⟩ : Vec3 ℝ) ∈ S
  rw [← pow_two, ← pow_two, clampR_of_mem]
  · positivity
  · calc _ = Real.sqrt d.1 ^ 2 * (Real.sin (2 * Real.pi * d.2) ^ 2 + Real.cos (2 * Real.pi * d.2) ^ 2) := by ring
      _ ≤ 1 := by rw [e, q, mul_one]; exact hx.2.le

theorem MeasurableFn3.comp {L : Vec3 ℝ → ENNReal} (hL : MeasurableFn3 L) {f g h : ℝ × ℝ → ℝ} (hf : Measurable f) (hg : Measurable g) (hh : Measurable h) :
    Measurable fun q => L ⟨f q, g q, h q⟩ :=
  Measurable.comp (g := fun p : ℝ × ℝ × ℝ => L ⟨p.1, p.2.1, p.2.2⟩) hL (hf.prodMk (hg.prodMk hh))

theorem disc_pushforward : Measure.map (discMap 1) (volume.restrict unitSquare) =
    (ENNReal.ofReal Real.pi)⁻¹ • Measure.map horizMap ((volume.restrict upperBox).withDensity fun p => ENNReal.ofReal p.1) := by
  have hm : Measurable fun p : ℝ × ℝ => ENNReal.ofReal p.1 := by fun_prop
  refine Measure.ext fun E hE => ?_
  have hpi : ENNReal.ofReal Real.pi ≠ 0 := (ENNReal.ofReal_pos.2 Real.pi_pos).ne'
  rw [Measure.map_apply (discMap_measurable 1) hE, Measure.smul_apply, Measure.map_apply horizMap_measurable hE, withDensity_apply _ (horizMap_measurable hE),
    Measure.restrict_restrict (horizMap_measurable hE), inter_comm, horiz_measure hE, ← disc_measure one_pos hE, Measure.restrict_apply (discMap_measurable 1 hE), inter_comm, smul_eq_mul, one_pow, mul_one,
    ← mul_assoc, ENNReal.inv_mul_cancel hpi ENNReal.ofReal_ne_top, one_mul]
  exact measure_congr (unitSquare_ae.inter (Filter.EventuallyEq.refl _ _))

theorem disc_lintegral {g : ℝ × ℝ → ENNReal} (hg : Measurable g) :
    ∫⁻ d in unitSquare, g (discMap 1 d) = (∫⁻ p in upperBox, g (horizMap p) * ENNReal.ofReal p.1) / ENNReal.ofReal Real.pi := by
  have hd : Measurable fun p : ℝ × ℝ => ENNReal.ofReal p.1 := by fun_prop
  have h := lintegral_withDensity_eq_lintegral_mul (volume.restrict upperBox) hd (hg.comp horizMap_measurable)
  rw [← lintegral_map hg (discMap_measurable 1), disc_pushforward, lintegral_smul_measure, lintegral_map hg horizMap_measurable, ENNReal.div_eq_inv_mul, smul_eq_mul]
  congr 1
  refine h.trans (lintegral_congr fun p => ?_)
  change ENNReal.ofReal p.1 * g (horizMap p) = _
  rw [mul_comm]

theorem mean_congr {f g : ℝ × ℝ → ENNReal} (h : ∀ d ∈ openSquare, f d = g d) : Mean f = Mean g := by
  unfold Mean
  rw [setLIntegral_congr unitSquare_ae, setLIntegral_congr unitSquare_ae]
  exact setLIntegral_congr_fun openSquare_measurable h

theorem cosine_sample_eq (rng : Rng) (h0 : 0 ≤ rng 0 ∧ rng 0 < 1) :
    (sampleCosineHemisphere rng).1 = ⟨(discMap 1 (rng 0, rng 1)).1, (discMap 1 (rng 0, rng 1)).2, Real.sqrt (1 - ((discMap 1 (rng 0, rng 1)).1 ^ 2 + (discMap 1 (rng 0, rng 1)).2 ^ 2))⟩ := by
  have e := Real.sin_sq_add_cos_sq (2 * Real.pi * rng 1)
  have q := Real.sq_sqrt h0.1
  change (⟨(discMap 1 (rng 0, rng 1)).1, (discMap 1 (rng 0, rng 1)).2, Real.sqrt (1 - clampR ((discMap 1 (rng 0, rng 1)).1 * (discMap 1 (rng 0, rng 1)).1 + (discMap 1 (rng 0, rng 1)).2 * (discMap 1 (rng 0, rng 1)).2) 0 1)⟩ : Vec3 ℝ) = _
  rw [← pow_two, ← pow_two, clampR_of_mem]
  · positivity
  · simp only [discMap, one_mul]
    calc _ = Real.sqrt (rng 0) ^ 2 * (Real.sin (2 * Real.pi * rng 1) ^ 2 + Real.cos (2 * Real.pi * rng 1) ^ 2) := by ring
      _ ≤ 1 := by rw [e, q, mul_one]; exact h0.2.le

/-- **C78, cosine-weighted hemisphere, integrals.** The mean of a radiance `L` seen along the sample is the irradiance it causes divided by `π`. -/
theorem C78_cosine_mean (rest : Rng) (L : Vec3 ℝ → ENNReal) (hL : MeasurableFn3 L) :
    Mean (fun d => L (sampleCosineHemisphere (rest.cons2 d)).1) = irradiance L / ENNReal.ofReal Real.pi := by
  have hm : Measurable fun q : ℝ × ℝ => L ⟨q.1, q.2, Real.sqrt (1 - (q.1 ^ 2 + q.2 ^ 2))⟩ :=
    hL.comp (f := fun q => q.1) (g := fun q => q.2) (h := fun q => Real.sqrt (1 - (q.1 ^ 2 + q.2 ^ 2))) (by fun_prop) (by fun_prop) (by fun_prop)
  have h1 : Mean (fun d => L (sampleCosineHemisphere (rest.cons2 d)).1) = ∫⁻ d in unitSquare, (fun q : ℝ × ℝ => L ⟨q.1, q.2, Real.sqrt (1 - (q.1 ^ 2 + q.2 ^ 2))⟩) (discMap 1 d) :=
    mean_congr fun d hd => by rw [cosine_sample_eq (rest.cons2 d) ⟨hd.1.1.le, hd.1.2⟩]; rfl
  rw [h1, disc_lintegral hm]
  congr 1
  unfold irradiance
  refine setLIntegral_congr_fun upperBox_measurable fun p hp => ?_
  change L ⟨(horizMap p).1, (horizMap p).2, Real.sqrt (1 - ((horizMap p).1 ^ 2 + (horizMap p).2 ^ 2))⟩ * _ = _
  rw [horizMap_norm p hp, sub_sub_cancel, Real.sqrt_sq hp.1.1.le]
  rfl

theorem directionAt_measurable {S : Set (Vec3 ℝ)} (hS : Measurable3 S) : MeasurableSet {p : ℝ × ℝ | directionAt p.1 p.2 ∈ S} :=
  hS.preimage (f := fun p => Real.sqrt (1 - p.1 ^ 2) * Real.cos p.2) (g := fun p => Real.sqrt (1 - p.1 ^ 2) * Real.sin p.2) (h := fun p => p.1) (by fun_prop) (by fun_prop) (by fun_prop)

/-- **C78, uniform hemisphere.** The sample of the hemisphere around `n` lies in `S` with probability `1 / 2π` times the solid angle of `S` above the plane of `n` (measured in the coordinates of the given orthonormal basis). -/
theorem C78_hemisphere_uniform (e1 e2 n : Vec3 ℝ) (rest : Rng) (S : Set (Vec3 ℝ)) (hS : Measurable3 S) :
    Probability (fun d => (uniformSampleHemisphere (rest.cons2 d) e1 e2 n).1 ∈ S) =
      solidAngle {l | 0 < l.z ∧ e1.scale l.x + e2.scale l.y + n.scale l.z ∈ S} / ENNReal.ofReal (2 * Real.pi) := by
  have hpi := Real.pi_pos
  have hS' : Measurable3 {l | 0 < l.z ∧ e1.scale l.x + e2.scale l.y + n.scale l.z ∈ S} := by
    refine MeasurableSet.inter (measurableSet_lt measurable_const (measurable_snd.comp measurable_snd)) ?_
    have hm : Measurable fun p : ℝ × ℝ × ℝ => (e1.x * p.1 + e2.x * p.2.1 + n.x * p.2.2, e1.y * p.1 + e2.y * p.2.1 + n.y * p.2.2, e1.z * p.1 + e2.z * p.2.1 + n.z * p.2.2) := by fun_prop
    exact hm hS
  have h := affine_measure (a := 0) (b := 1) (k := 2 * Real.pi) one_ne_zero (by positivity) openSquare_measurable (directionAt_measurable hS')
  have himg : (fun d : ℝ × ℝ => (0 + 1 * d.1, 2 * Real.pi * d.2)) '' openSquare ∩ {p : ℝ × ℝ | directionAt p.1 p.2 ∈ {l | 0 < l.z ∧ e1.scale l.x + e2.scale l.y + n.scale l.z ∈ S}} =
      {p : ℝ × ℝ | p ∈ Ioo (-1 : ℝ) 1 ×ˢ Ioo 0 (2 * Real.pi) ∧ directionAt p.1 p.2 ∈ {l | 0 < l.z ∧ e1.scale l.x + e2.scale l.y + n.scale l.z ∈ S}} := by
    ext ⟨z, φ⟩
    constructor
    · rintro ⟨⟨⟨x, y⟩, ⟨hx, hy⟩, hxy⟩, hd⟩
      simp only [Prod.mk.injEq] at hxy hx hy
      refine ⟨⟨⟨?_, ?_⟩, ⟨?_, ?_⟩⟩, hd⟩ <;> simp only [← hxy.1, ← hxy.2]
      · linarith [hx.1]
      · linarith [hx.2]
      · have := hy.1; positivity
      · nlinarith [hy.2]
    · rintro ⟨⟨hz, hφ⟩, hd⟩
      have hz0 : 0 < z := hd.1
      refine ⟨⟨(z, φ / (2 * Real.pi)), ⟨⟨hz0, hz.2⟩, ⟨div_pos hφ.1 (by positivity), (div_lt_one (by positivity)).2 hφ.2⟩⟩, ?_⟩, hd⟩
      simp only [Prod.mk.injEq]
      exact ⟨by ring, by field_simp⟩
  rw [himg] at h
  rw [solidAngle, ← h, one_mul, abs_of_pos (by positivity), mul_comm, ENNReal.mul_div_cancel_right (ENNReal.ofReal_pos.2 (by positivity)).ne' ENNReal.ofReal_ne_top, probability_eq]
  congr 1
  ext d
  refine and_congr_right fun hd => ?_
  change localToWorld e1 e2 n 0 (Real.cos (2 * Real.pi * d.2) * Real.sqrt (1 - d.1 * d.1)) (Real.sin (2 * Real.pi * d.2) * Real.sqrt (1 - d.1 * d.1)) d.1 ∈ S ↔
    0 < 0 + 1 * d.1 ∧ e1.scale (Real.sqrt (1 - (0 + 1 * d.1) ^ 2) * Real.cos (2 * Real.pi * d.2)) + e2.scale (Real.sqrt (1 - (0 + 1 * d.1) ^ 2) * Real.sin (2 * Real.pi * d.2)) + n.scale (0 + 1 * d.1) ∈ S
  rw [zero_add, one_mul, ← pow_two]
  have e : localToWorld e1 e2 n 0 (Real.cos (2 * Real.pi * d.2) * Real.sqrt (1 - d.1 ^ 2)) (Real.sin (2 * Real.pi * d.2) * Real.sqrt (1 - d.1 ^ 2)) d.1 =
      e1.scale (Real.sqrt (1 - d.1 ^ 2) * Real.cos (2 * Real.pi * d.2)) + e2.scale (Real.sqrt (1 - d.1 ^ 2) * Real.sin (2 * Real.pi * d.2)) + n.scale d.1 := by
    ext <;> simp [localToWorld, Vec3.scale] <;> ring
  rw [e]
  exact ⟨fun h => ⟨hd.1.1, h⟩, fun h => h.2⟩

/-- **C78, uniform sphere.** The sample lies in `S` with a probability that differs by at most `4 · 10⁻⁷` from `1 / 4π` times the solid angle of `S` (draws closer than `10⁻⁷` to 0 or 1 are clamped). -/
theorem C78_sphere_uniform (rest : Rng) (S : Set (Vec3 ℝ)) (hS : Measurable3 S) :
    Within (4 / 10 ^ 7) (Probability fun d => (uniformSampleSphere (rest.cons2 d)).1 ∈ S) (solidAngle S / ENNReal.ofReal (4 * Real.pi)) := by
  have hpi := Real.pi_pos
  have h := affine_measure (a := 1) (b := -2) (k := 2 * Real.pi) (by norm_num) (by positivity) openSquare_measurable (directionAt_measurable hS)
  have himg : (fun d : ℝ × ℝ => (1 + -2 * d.1, 2 * Real.pi * d.2)) '' openSquare ∩ {p : ℝ × ℝ | directionAt p.1 p.2 ∈ S} =
      {p : ℝ × ℝ | p ∈ Ioo (-1 : ℝ) 1 ×ˢ Ioo 0 (2 * Real.pi) ∧ directionAt p.1 p.2 ∈ S} := by
    ext ⟨z, φ⟩
    constructor
    · rintro ⟨⟨⟨x, y⟩, ⟨hx, hy⟩, hxy⟩, hd⟩
      simp only [Prod.mk.injEq] at hxy hx hy
      refine ⟨⟨⟨?_, ?_⟩, ⟨?_, ?_⟩⟩, hd⟩ <;> simp only [← hxy.1, ← hxy.2]
      · linarith [hx.2]
      · linarith [hx.1]
      · have := hy.1; positivity
      · nlinarith [hy.2]
    · rintro ⟨⟨hz, hφ⟩, hd⟩
      simp only at hz hφ
      refine ⟨⟨((1 - z) / 2, φ / (2 * Real.pi)), ⟨⟨?_, ?_⟩, ⟨div_pos hφ.1 (by positivity), (div_lt_one (by positivity)).2 hφ.2⟩⟩, ?_⟩, hd⟩
      · change 0 < (1 - z) / 2; linarith [hz.2]
      · change (1 - z) / 2 < 1; linarith [hz.1]
      · simp only [Prod.mk.injEq]
        exact ⟨by ring, by field_simp⟩
  rw [himg] at h
  have hp : Probability (fun d => directionAt (1 + -2 * d.1) (2 * Real.pi * d.2) ∈ S) = solidAngle S / ENNReal.ofReal (4 * Real.pi) := by
    rw [solidAngle, ← h, show |-2 * (2 * Real.pi)| = 4 * Real.pi by rw [abs_of_neg (by linarith)]; ring, mul_comm (ENNReal.ofReal _),
      ENNReal.mul_div_cancel_right (ENNReal.ofReal_pos.2 (by positivity)).ne' ENNReal.ofReal_ne_top, probability_eq]
    rfl
  rw [← hp, show (4 : ℝ) / 10 ^ 7 = 4 * (1 / 10 ^ 7) by ring]
  refine probability_within (by norm_num) (by norm_num) fun d hd => ?_
  have h1 : clampR d.1 (1 / 10 ^ 7) (1 - 1 / 10 ^ 7) = d.1 := clampR_of_mem hd.1.1.le hd.1.2.le
  have h2 : clampR d.2 (1 / 10 ^ 7) (1 - 1 / 10 ^ 7) = d.2 := clampR_of_mem hd.2.1.le hd.2.2.le
  have e : (uniformSampleSphere (rest.cons2 d)).1 = directionAt (1 + -2 * d.1) (2 * Real.pi * d.2) := by
    change (⟨Real.cos (2 * Real.pi * clampR d.2 (1 / 10 ^ 7) (1 - 1 / 10 ^ 7)) * Real.sqrt (1 - (1 - 2 * clampR d.1 (1 / 10 ^ 7) (1 - 1 / 10 ^ 7)) * (1 - 2 * clampR d.1 (1 / 10 ^ 7) (1 - 1 / 10 ^ 7))),
      Real.sin (2 * Real.pi * clampR d.2 (1 / 10 ^ 7) (1 - 1 / 10 ^ 7)) * Real.sqrt (1 - (1 - 2 * clampR d.1 (1 / 10 ^ 7) (1 - 1 / 10 ^ 7)) * (1 - 2 * clampR d.1 (1 / 10 ^ 7) (1 - 1 / 10 ^ 7))), 1 - 2 * clampR d.1 (1 / 10 ^ 7) (1 - 1 / 10 ^ 7)⟩ : Vec3 ℝ) = _
    rw [h1, h2]
    have e1 : 1 - 2 * d.1 = 1 + -2 * d.1 := by ring
    unfold directionAt
    rw [e1, ← pow_two, mul_comm (Real.cos _), mul_comm (Real.sin _)]
  rw [e]

/-- C78: the measures are the usual ones: the whole sphere has solid angle `4π`, a sky of radiance one gives the irradiance `π`, a triangle's share of itself is one. -/
example : solidAngle univ = ENNReal.ofReal (4 * Real.pi) ∧ irradiance (fun _ => 1) = ENNReal.ofReal Real.pi ∧ areaShare ⟨0, 0, 0⟩ ⟨1, 0, 0⟩ ⟨0, 2, 0⟩ univ = 1 := by
  refine ⟨?_, ?_, ?_⟩
  · have : {p : ℝ × ℝ | p ∈ Ioo (-1 : ℝ) 1 ×ˢ Ioo 0 (2 * Real.pi) ∧ directionAt p.1 p.2 ∈ (univ : Set (Vec3 ℝ))} = Ioo (-1 : ℝ) 1 ×ˢ Ioo 0 (2 * Real.pi) := by
      ext p; exact and_iff_left trivial
    rw [solidAngle, this, volume_box, ← ENNReal.ofReal_mul (by norm_num)]
    congr 1; ring
  · unfold irradiance
    simp only [one_mul]
    exact upperBox_cos
  · have h := triangle_measure (E := univ) MeasurableSet.univ
    rw [preimage_univ, inter_univ, inter_univ, volume_openSquare] at h
    rw [h, areaShare]
    congr 2
    ext p; exact and_iff_left trivial

/-- C78: the directions at most 30 degrees above the horizon are a measurable set, as every closed or open condition on the coordinates. -/
example : Measurable3 {l : Vec3 ℝ | l.z ≤ 1 / 2} := measurableSet_le (measurable_snd.comp measurable_snd) measurable_const

/-- C78: how often a random direction of each kind is at most 30 degrees above the horizon. -/
theorem low_measurable : Measurable3 {l : Vec3 ℝ | l.z ≤ 1 / 2} := measurableSet_le (measurable_snd.comp measurable_snd) measurable_const

example := fun rest => C78_disc_uniform 2 (by norm_num) rest {q : ℝ × ℝ | q.1 ≤ 0} (measurableSet_le measurable_fst measurable_const)

example := fun ext (hext : ext.PerpSpec) rest => C78_disc_in_space ext hext 2 (by norm_num) ⟨1, 2, 3⟩ ⟨0, 0, 1⟩ (Norm_eq_one (by norm_num [Dot])) rest _ low_measurable

example := fun rest => C78_triangle_uniform ⟨0, 0, 0⟩ ⟨1, 0, 0⟩ ⟨0, 2, 1⟩ rest _ low_measurable

example := fun rest => C78_cosine_density rest _ low_measurable

example := fun rest => C78_cosine_mean rest (fun v => ENNReal.ofReal v.z) (ENNReal.measurable_ofReal.comp (measurable_snd.comp measurable_snd))

example := fun rest => C78_hemisphere_uniform ⟨1, 0, 0⟩ ⟨0, 1, 0⟩ ⟨0, 0, 1⟩ rest _ low_measurable

example := fun rest => C78_sphere_uniform rest _ low_measurable

end Rendering
