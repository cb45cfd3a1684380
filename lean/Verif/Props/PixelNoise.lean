import Verif.Props.PictureNoise
import Verif.Props.NoiseLimit

/-!
# C125 and C126 for whole pictures
-/

set_option linter.unusedSectionVars false
namespace Rendering

open MeasureTheory Set Classical

variable {w : World} {s : Scene ℝ}

/-- The second moment is the squared mean plus the noise. -/
theorem noise_split {Ω : Type} [MeasurableSpace Ω] {μ : Measure Ω} [IsProbabilityMeasure μ] {f : Ω → ENNReal} (hf : AEMeasurable f μ) (hx : ∀ ω, f ω ≠ ⊤) (hM : ∫⁻ ω, f ω ∂μ ≠ ⊤) : ∫⁻ ω, f ω ^ 2 ∂μ = (∫⁻ ω, f ω ∂μ) ^ 2 + noiseOf μ f := by
  set M := ∫⁻ ω, f ω ∂μ with hMdef
  have h1 : noiseOf μ f + 2 * (M * M) = ∫⁻ ω, f ω ^ 2 ∂μ + M ^ 2 := by
    have e : 2 * (M * M) = ∫⁻ ω, 2 * (f ω * M) ∂μ := by
      rw [lintegral_const_mul'' _ (hf.mul_const M), lintegral_mul_const'' _ hf]
    rw [e]
    unfold noiseOf
    rw [← lintegral_add_right' _ ((hf.mul_const M).const_mul 2)]
    have : ∀ ω, ENNReal.ofReal (((f ω).toReal - M.toReal) ^ 2) + 2 * (f ω * M) = f ω ^ 2 + M ^ 2 := fun ω => square_split (hx ω) hM
    simp only [← hMdef, this]
    rw [lintegral_add_right _ measurable_const, lintegral_const, measure_univ, mul_one]
  have hfin : M ^ 2 ≠ ⊤ := ENNReal.pow_ne_top hM
  refine (ENNReal.add_left_inj hfin).1 ?_
  rw [← h1]
  ring

/-- The noise of a sum of uncorrelated quantities. -/
theorem noise_sum {Ω ι : Type} [MeasurableSpace Ω] {μ : Measure Ω} [IsProbabilityMeasure μ] (P : Finset ι) (f : ι → Ω → ENNReal) (hf : ∀ p ∈ P, AEMeasurable (f p) μ) (hx : ∀ p ∈ P, ∀ ω, f p ω ≠ ⊤) (hM : ∀ p ∈ P, ∫⁻ ω, f p ω ∂μ ≠ ⊤)
    (hu : ∀ p ∈ P, ∀ q ∈ P, p ≠ q → ∫⁻ ω, f p ω * f q ω ∂μ = (∫⁻ ω, f p ω ∂μ) * ∫⁻ ω, f q ω ∂μ) :
    AEMeasurable (fun ω => ∑ p ∈ P, f p ω) μ ∧ (∀ ω, ∑ p ∈ P, f p ω ≠ ⊤) ∧ ∫⁻ ω, ∑ p ∈ P, f p ω ∂μ = ∑ p ∈ P, ∫⁻ ω, f p ω ∂μ ∧ ∫⁻ ω, ∑ p ∈ P, f p ω ∂μ ≠ ⊤ ∧ noiseOf μ (fun ω => ∑ p ∈ P, f p ω) = ∑ p ∈ P, noiseOf μ (f p) := by
  have hm : AEMeasurable (fun ω => ∑ p ∈ P, f p ω) μ := Finset.aemeasurable_fun_sum P hf
  have hx' : ∀ ω, ∑ p ∈ P, f p ω ≠ ⊤ := fun ω => ENNReal.sum_ne_top.2 fun p hp => hx p hp ω
  have hsum : ∫⁻ ω, ∑ p ∈ P, f p ω ∂μ = ∑ p ∈ P, ∫⁻ ω, f p ω ∂μ := lintegral_finsetSum' P hf
  have hM' : ∫⁻ ω, ∑ p ∈ P, f p ω ∂μ ≠ ⊤ := by rw [hsum]; exact ENNReal.sum_ne_top.2 hM
  refine ⟨hm, hx', hsum, hM', noise_eq hm hx' hM' ?_⟩
  rw [hsum]
  have e1 : ∀ ω, (∑ p ∈ P, f p ω) ^ 2 = ∑ p ∈ P, ∑ q ∈ P, f p ω * f q ω := fun ω => by rw [sq, Finset.sum_mul_sum]
  have hpq : ∀ p ∈ P, ∀ q ∈ P, AEMeasurable (fun ω => f p ω * f q ω) μ := fun p hp q hq => (hf p hp).mul (hf q hq)
  simp only [e1]
  rw [lintegral_finsetSum' P fun p hp => Finset.aemeasurable_fun_sum P (hpq p hp)]
  rw [sq, Finset.sum_mul_sum, ← Finset.sum_add_distrib]
  refine Finset.sum_congr rfl fun p hp => ?_
  rw [lintegral_finsetSum' P (hpq p hp)]
  rw [← Finset.add_sum_erase P _ hp, ← Finset.add_sum_erase P (fun q => (∫⁻ ω, f p ω ∂μ) * ∫⁻ ω, f q ω ∂μ) hp]
  have e2 : ∫⁻ ω, f p ω * f p ω ∂μ = (∫⁻ ω, f p ω ∂μ) * (∫⁻ ω, f p ω ∂μ) + noiseOf μ (f p) := by
    have := noise_split (hf p hp) (hx p hp) (hM p hp)
    simpa only [sq] using this
  rw [e2, Finset.sum_congr rfl fun q hq => hu p hp q (Finset.mem_of_mem_erase hq) (Finset.ne_of_mem_erase hq).symm]
  ring

/-- The noise of a multiple. -/
theorem noise_scaled {Ω : Type} [MeasurableSpace Ω] {μ : Measure Ω} [IsProbabilityMeasure μ] {f : Ω → ENNReal} (hf : AEMeasurable f μ) (hx : ∀ ω, f ω ≠ ⊤) (hM : ∫⁻ ω, f ω ∂μ ≠ ⊤) {a : ENNReal} (ha : a ≠ ⊤) : noiseOf μ (fun ω => f ω * a) = noiseOf μ f * a ^ 2 := by
  refine noise_eq (hf.mul_const a) (fun ω => ENNReal.mul_ne_top (hx ω) ha) (by rw [lintegral_mul_const'' _ hf]; exact ENNReal.mul_ne_top hM ha) ?_
  simp only [mul_pow]
  rw [lintegral_mul_const'' _ (hf.pow_const 2), lintegral_mul_const'' _ hf, noise_split hf hx hM]
  ring

section
variable {Ω : Type} [MeasurableSpace Ω] {μ : Measure Ω} {gen : Ω → Nat → Rng}

/-- **C125, one pixel.** Let every chunk get a generator of independent uniform numbers. Whatever the schedule, the colour of a pixel has exactly the distribution of the light that tracing its ray alone, with a generator of its own, brings back: the pixels before it leave no trace. -/
theorem C125_pixel_law (hW : w.SunlitMatt s) (o : SpictOptions) (ho : o.Sized) (hv : o.camera.view.Proper) (hsh : 0 < o.rt.nShadowSamples) (hD : o.rt.maxDepth < 15) (fuel : Nat) (hfuel : o.rt.maxDepth + o.rt.nShadowSamples + o.rt.nAmbientSamples + 3 ≤ fuel)
    (hgen : ∀ k, MeasurePreserving (fun ω => gen ω k) μ randomNumbers) (state : Ω → RState TState (Spectrum ℝ)) (hs : ∀ ω, o.Rendered w fuel (gen ω) (state ω))
    (ch : Spectrum ℝ → ℝ) (hch : ch ∈ [Spectrum.c0, Spectrum.c1, Spectrum.c2]) (x y : Nat) (hx : x < o.width) (hy : y < o.height) (rays : List TRay) (hlen : o.rt.maxDepth < rays.length) :
    AEMeasurable (fun ω => ENNReal.ofReal (ch (pixelOf o.width o.height (state ω) x y))) μ ∧ ∀ Φ : ENNReal → ENNReal, Measurable Φ →
      ∫⁻ ω, Φ (ENNReal.ofReal (ch (pixelOf o.width o.height (state ω) x y))) ∂μ = ∫⁻ r, Φ (seenLight (traceRay w o.rt fuel ⟨r, rays⟩ (o.camera.traceableRay (x, y))) ch) ∂randomNumbers := by
  have hu := traceable_unit o hv
  obtain ⟨val0, rest, hF, h⟩ := light_fresh hW o.rt hsh ch hch (o.rt.maxDepth + 1) 1 zero_le_one
  obtain ⟨-, h2⟩ := h (o.camera.traceableRay (x, y)) (by simp [Pinhole.traceableRay, TRay.default]) rfl (hu _)
  have hG := h2 fuel (by omega)
  have m2 := hF.mval_at (o.camera.traceableRay (x, y)).geometry
  have v2 := pixel_gives o.rt ch fuel o.camera (x, y) hG
  obtain ⟨r0, m1, k1, v1⟩ := pixelState_fresh hW o.rt hsh hD fuel hfuel o.camera hu o.width (y * o.width + x)
  have hval : ∀ᵐ r ∂randomNumbers, Rng.Valid r := valid_almost_surely
  have hP := hgen ((y * o.width + x) / 128)
  have a1 : (fun ω => ENNReal.ofReal (ch (pixelOf o.width o.height (state ω) x y))) =ᵐ[μ] fun ω => val0 (o.camera.traceableRay (x, y)).geometry (r0 (gen ω ((y * o.width + x) / 128))) := by
    filter_upwards [hP.quasiMeasurePreserving.ae hval] with ω hω
    obtain ⟨g1, g2⟩ := v1 (gen ω) hω
    rw [← g2] at g1 ⊢
    exact (pixel_value o ho hD fuel (gen ω) (state ω) (hs ω) ch x y hx hy v2 g1).1
  refine ⟨⟨_, m2.comp (m1.comp hP.measurable), a1⟩, fun Φ hΦ => ?_⟩
  have hm : Measurable fun r => Φ (val0 (o.camera.traceableRay (x, y)).geometry (r0 r)) := hΦ.comp (m2.comp m1)
  have e1 : ∫⁻ ω, Φ (ENNReal.ofReal (ch (pixelOf o.width o.height (state ω) x y))) ∂μ = avg fun r => Φ (val0 (o.camera.traceableRay (x, y)).geometry (r0 r)) := by
    refine Eq.trans (lintegral_congr_ae ?_) (hP.lintegral_comp hm)
    filter_upwards [a1] with ω h1
    rw [h1]
  rw [e1, k1 (fun r => Φ (val0 (o.camera.traceableRay (x, y)).geometry r)) (hΦ.comp m2)]
  refine lintegral_congr_ae ?_
  filter_upwards [hval] with r hr
  obtain ⟨light, g1, -, g3, -⟩ := hG r hr
  rw [seen_of_ref o.rt fuel r rays hlen (o.camera.traceableRay (x, y)) ch g1, g3]

/-- The mean of a pixel is finite. -/
theorem pixel_mean_finite (hW : w.SunlitMatt s) (o : SpictOptions) (ho : o.Sized) (hv : o.camera.view.Proper) (hsh : 0 < o.rt.nShadowSamples) (hD : o.rt.maxDepth < 15) (fuel : Nat) (hfuel : o.rt.maxDepth + o.rt.nShadowSamples + o.rt.nAmbientSamples + 3 ≤ fuel)
    (hgen : ∀ k, MeasurePreserving (fun ω => gen ω k) μ randomNumbers) (state : Ω → RState TState (Spectrum ℝ)) (hs : ∀ ω, o.Rendered w fuel (gen ω) (state ω))
    (ch : Spectrum ℝ → ℝ) (hch : ch ∈ [Spectrum.c0, Spectrum.c1, Spectrum.c2]) (x y : Nat) (hx : x < o.width) (hy : y < o.height) : ∫⁻ ω, ENNReal.ofReal (ch (pixelOf o.width o.height (state ω) x y)) ∂μ ≠ ⊤ := by
  have hu := traceable_unit o hv
  rw [C119_mean_picture hW o ho hv hsh hD fuel hfuel μ gen hgen state hs ch hch x y hx hy]
  obtain ⟨C, hC0, hC⟩ := sunlit_bound hW o.rt ch hch
  obtain ⟨val0, rest, hF, h⟩ := light_fresh hW o.rt hsh ch hch (o.rt.maxDepth + 1) 1 zero_le_one
  obtain ⟨h1, h2⟩ := h (o.camera.traceableRay (x, y)) (by simp [Pinhole.traceableRay, TRay.default]) rfl (hu _)
  rw [← h1]
  have hval : ∀ᵐ r ∂randomNumbers, Rng.Valid r := valid_almost_surely
  refine ne_top_of_le_ne_top (b := ENNReal.ofReal C) ENNReal.ofReal_ne_top ((lintegral_mono_ae (g := fun _ => ENNReal.ofReal C) ?_).trans (avg_const _).le)
  filter_upwards [hval] with r hr
  obtain ⟨light, g1, -, g3, -⟩ := h2 fuel (by omega) r hr
  rw [← g3]
  exact ENNReal.ofReal_le_ofReal (hC _ r _ light _ hr (hu _) rfl g1)

/-- **C125, averages.** The noise of the average of any set of `n` pixels is the sum of their noises, divided by `n²`. -/
theorem C125_average (hW : w.SunlitMatt s) (o : SpictOptions) (ho : o.Sized) (hv : o.camera.view.Proper) (hsh : 0 < o.rt.nShadowSamples) (hD : o.rt.maxDepth < 15) (fuel : Nat) (hfuel : o.rt.maxDepth + o.rt.nShadowSamples + o.rt.nAmbientSamples + 3 ≤ fuel)
    [IsProbabilityMeasure μ] (hgen : ∀ k, MeasurePreserving (fun ω => gen ω k) μ randomNumbers) (hind : ∀ k k', k ≠ k' → ProbabilityTheory.IndepFun (fun ω => gen ω k) (fun ω => gen ω k') μ) (state : Ω → RState TState (Spectrum ℝ)) (hs : ∀ ω, o.Rendered w fuel (gen ω) (state ω))
    (ch : Spectrum ℝ → ℝ) (hch : ch ∈ [Spectrum.c0, Spectrum.c1, Spectrum.c2]) (P : Finset (Nat × Nat)) (hne : P.Nonempty) (hP : ∀ p ∈ P, p.1 < o.width ∧ p.2 < o.height) :
    noiseOf μ (fun ω => (∑ p ∈ P, ENNReal.ofReal (ch (pixelOf o.width o.height (state ω) p.1 p.2))) / P.card) =
      (∑ p ∈ P, noiseOf μ fun ω => ENNReal.ofReal (ch (pixelOf o.width o.height (state ω) p.1 p.2))) / (P.card : ENNReal) ^ 2 := by
  have hlen : o.rt.maxDepth < defaultRays.length := by simpa [defaultRays] using hD
  obtain ⟨h1, h2, -, h4, h5⟩ := noise_sum (μ := μ) P (fun p ω => ENNReal.ofReal (ch (pixelOf o.width o.height (state ω) p.1 p.2)))
    (fun p hp => (C125_pixel_law hW o ho hv hsh hD fuel hfuel hgen state hs ch hch p.1 p.2 (hP p hp).1 (hP p hp).2 defaultRays hlen).1) (fun p hp ω => ENNReal.ofReal_ne_top)
    (fun p hp => pixel_mean_finite hW o ho hv hsh hD fuel hfuel hgen state hs ch hch p.1 p.2 (hP p hp).1 (hP p hp).2)
    (fun p hp q hq hpq => C125_pixels_uncorrelated hW o ho hv hsh hD fuel hfuel hgen hind state hs ch ch hch hch p.1 p.2 q.1 q.2 (hP p hp).1 (hP p hp).2 (hP q hq).1 (hP q hq).2 hpq)
  have hc : (P.card : ENNReal) ≠ 0 := by exact_mod_cast hne.card_pos.ne'
  simp only [div_eq_mul_inv]
  rw [noise_scaled h1 h2 h4 (ENNReal.inv_ne_top.2 hc), h5, ENNReal.inv_pow]

/-- **C126, pictures.** The noise of a pixel is `A / n_shadow_samples + B / n_ambient_samples`, with finite `A` and `B` that depend neither on the numbers of samples nor on the schedule and the random numbers of the chunks. -/
theorem C126_picture_noise (hW : w.SunlitMatt s) (o : SpictOptions) (ho : o.Sized) (hv : o.camera.view.Proper) (hD : o.rt.maxDepth < 15) (ch : Spectrum ℝ → ℝ) (hch : ch ∈ [Spectrum.c0, Spectrum.c1, Spectrum.c2]) (x y : Nat) (hx : x < o.width) (hy : y < o.height) :
    ∃ A B : ENNReal, A ≠ ⊤ ∧ B ≠ ⊤ ∧ ∀ (nShadow nAmbient fuel : Nat), 0 < nShadow → 0 < nAmbient → o.rt.maxDepth + nShadow + nAmbient + 3 ≤ fuel →
      ∀ (Ω : Type) (_ : MeasurableSpace Ω) (μ : Measure Ω) (gen : Ω → Nat → Rng), (∀ k, MeasurePreserving (fun ω => gen ω k) μ randomNumbers) →
        ∀ state : Ω → RState TState (Spectrum ℝ), (∀ ω, { o with rt := o.rt.withCounts nShadow nAmbient }.Rendered w fuel (gen ω) (state ω)) → noiseOf μ (fun ω => ENNReal.ofReal (ch (pixelOf o.width o.height (state ω) x y))) = A / nShadow + B / nAmbient := by
  have hu := traceable_unit o hv
  have hlen : o.rt.maxDepth < defaultRays.length := by simpa [defaultRays] using hD
  obtain ⟨A, B, hA, hB, h⟩ := C126_noise_law hW o.rt ch hch (o.camera.traceableRay (x, y)) (hu _) (by simp [Pinhole.traceableRay, Pinhole.genRay]) rfl
  refine ⟨A, B, hA, hB, fun nS nA fuel h1 h2 h3 Ω _ μ gen hgen state hs => ?_⟩
  rw [← h nS nA fuel defaultRays h1 h2 hlen h3]
  have hlaw := (C125_pixel_law hW { o with rt := o.rt.withCounts nS nA } ⟨ho.pixels, ho.width, ho.height⟩ hv h1 hD fuel h3 hgen state hs ch hch x y hx hy defaultRays hlen).2
  have hmean := hlaw id measurable_id
  simp only [id_eq] at hmean
  unfold noiseOf
  rw [hmean]
  have hm : Measurable fun v : ENNReal => ENNReal.ofReal ((v.toReal - (∫⁻ r, seenLight (traceRay w (o.rt.withCounts nS nA) fuel ⟨r, defaultRays⟩ (o.camera.traceableRay (x, y))) ch ∂randomNumbers).toReal) ^ 2) :=
    ((ENNReal.measurable_toReal.sub_const _).pow_const 2).ennreal_ofReal
  exact hlaw _ hm

end

end Rendering
