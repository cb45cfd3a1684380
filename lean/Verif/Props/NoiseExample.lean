import Verif.Props.PixelNoise

/-!
# C125 and C126: the court
-/

set_option linter.unusedSectionVars false
namespace Rendering

open MeasureTheory Set Classical

theorem court_half : ∀ (k : Nat) m, court.materials[k]? = some m → k ∈ court.front ++ court.back → ENNReal.ofReal m.colour.c0 ≤ 1 / 2 := by
  intro k m hk hmem
  simp only [court, courtOf, List.cons_append, List.nil_append, List.mem_cons, List.not_mem_nil, or_false, or_self] at hmem
  subst hmem
  simp only [court, courtOf, List.getElem?_cons_zero, Option.some.injEq] at hk
  rw [← hk]
  simp only [Material.colour, Spectrum.gray]
  rw [ENNReal.ofReal_div_of_pos (by norm_num)]
  simp

/-- C126: looking down into the court with the default settings, but other numbers of samples: the noise with 40 shadow rays and 280 ambient samples is a quarter of that with 10 and 70, and with enough samples the light seen is with probability 99/100 within a thousandth of the
light of the rendering equation, which is not zero. -/
example : ∃ w : World, w.SunlitMatt court ∧ 0 < reflectedLight w ⟨3, 1, 1, 1 / 1000, 3 / 10⟩ Spectrum.c0 4 downRay ∧
    let noise := fun nS nA => noiseOf randomNumbers fun r => seenLight (traceRay w ⟨3, nS, nA, 1 / 1000, 3 / 10⟩ 1000 ⟨r, defaultRays⟩ downRay) Spectrum.c0
    noise 10 70 ≠ ⊤ ∧ noise 40 280 = noise 10 70 / 4 ∧
    ∃ N : Nat, randomNumbers {r | 1 / 1000 ≤ |(seenLight (traceRay w ⟨3, N, N, 1 / 1000, 3 / 10⟩ (2 * N + 6) ⟨r, defaultRays⟩ downRay) Spectrum.c0).toReal - (reflectedLight w ⟨3, 1, 1, 1 / 1000, 3 / 10⟩ Spectrum.c0 4 downRay).toReal|} ≤ ENNReal.ofReal (1 / 100) := by
  obtain ⟨w, hW, i, hit, hc, hdep, hmat, hpos⟩ := court_world
  have hu : Norm downRay.geometry.direction = 1 := Norm_eq_one (by norm_num [Dot, downRay])
  have hv : 0 ≤ downRay.value := by simp [downRay, TRay.default]
  have hlen : 3 < defaultRays.length := by simp [defaultRays]
  refine ⟨w, hW, ?_, ?_, ?_, ?_⟩
  · change 0 < reflectedLight w _ Spectrum.c0 (3 + 1) downRay
    unfold reflectedLight
    simp only [hc, hmat]
    exact lt_of_lt_of_le hpos le_self_add
  · obtain ⟨A, B, hA, hB, h⟩ := C126_noise_law hW ⟨3, 1, 1, 1 / 1000, 3 / 10⟩ Spectrum.c0 (by simp) downRay hu hv rfl
    have h1 := h 10 70 1000 defaultRays (by norm_num) (by norm_num) hlen (by norm_num)
    exact h1.trans_ne (ENNReal.add_ne_top.2 ⟨ENNReal.div_ne_top hA (by norm_num), ENNReal.div_ne_top hB (by norm_num)⟩)
  · obtain ⟨A, B, hA, hB, h⟩ := C126_noise_law hW ⟨3, 1, 1, 1 / 1000, 3 / 10⟩ Spectrum.c0 (by simp) downRay hu hv rfl
    have h1 := h 10 70 1000 defaultRays (by norm_num) (by norm_num) hlen (by norm_num)
    have h2 := h 40 280 1000 defaultRays (by norm_num) (by norm_num) hlen (by norm_num)
    refine h2.trans (Eq.trans ?_ (congrArg (· / 4) h1).symm)
    have e : ∀ (X : ENNReal) (n : Nat), 0 < n → X / ((4 * n : Nat) : ENNReal) = X / n / 4 := fun X n hn => by
      rw [div_eq_mul_inv, div_eq_mul_inv, div_eq_mul_inv, Nat.cast_mul, ENNReal.mul_inv (Or.inl (by norm_num)) (Or.inl (by norm_num))]
      push_cast
      ring
    have e1 := e A 10 (by norm_num)
    have e2 := e B 70 (by norm_num)
    rw [show 4 * 10 = 40 from rfl] at e1
    rw [show 4 * 70 = 280 from rfl] at e2
    simp only [ENNReal.add_div]
    rw [e1, e2]
  · obtain ⟨N, hN⟩ := C126_converges hW ⟨3, 1, 1, 1 / 1000, 3 / 10⟩ Spectrum.c0 (by simp) downRay hu hv rfl (1 / 1000) (1 / 100) (by norm_num) (by norm_num)
    exact ⟨N, hN N N (2 * N + 6) defaultRays le_rfl le_rfl hlen (by change 3 + N + N + 3 ≤ 2 * N + 6; omega)⟩

/-- C126: the exact light of the court is found, as closely and as surely as desired. -/
example : ∃ w : World, w.SunlitMatt court ∧ ∃ L : Ray3 ℝ → ENNReal, w.SolvesRenderingEquation Spectrum.c0 L ∧ ∃ D N : Nat,
    randomNumbers {r | 1 / 1000 ≤ |(seenLight (traceRay w ⟨D, N, N, 0, 3 / 10⟩ (D + 2 * N + 3) ⟨r, List.replicate (D + 1) TRay.default⟩ downRay) Spectrum.c0).toReal - (L downRay.geometry).toReal|} ≤ ENNReal.ofReal (1 / 100) := by
  obtain ⟨w, hW, i, hit, hc, hdep, hmat, hpos⟩ := court_world
  have hu : Norm downRay.geometry.direction = 1 := Norm_eq_one (by norm_num [Dot, downRay])
  have hv : 0 ≤ downRay.value := by simp [downRay, TRay.default]
  obtain ⟨L, B, hB, hsol, hLB, -, h⟩ := C126_converges_to_exact_light hW Spectrum.c0 (by simp) (1 / 2) (by norm_num) court_half
  obtain ⟨D, hD⟩ := h (1 / 1000) (1 / 100) (by norm_num) (by norm_num)
  obtain ⟨N, hN⟩ := hD ⟨D, 1, 1, 0, 3 / 10⟩ downRay le_rfl rfl hu hv rfl
  exact ⟨w, hW, L, hsol, D, N, hN N N (D + 2 * N + 3) (List.replicate (D + 1) TRay.default) le_rfl le_rfl (by simp) (by change D + N + N + 3 ≤ D + 2 * N + 3; omega)⟩

/-- C125: three by three pixels of the court, all of one chunk: two neighbours are uncorrelated, the average of the nine is less noisy than one of them would be, the middle pixel is distributed as its ray traced alone, and its noise follows the law of C126. -/
example : ∃ w : World, w.SunlitMatt court ∧ ∃ state : (Nat → Rng) → RState TState (Spectrum ℝ), (∀ gen, lookDown.Rendered w 100 gen (state gen)) ∧
    let μ := Measure.infinitePi fun _ : Nat => randomNumbers
    let pixel := fun (p : Nat × Nat) gen => ENNReal.ofReal (pixelOf 3 3 (state gen) p.1 p.2).c0
    ∫⁻ gen, pixel (1, 1) gen * pixel (2, 1) gen ∂μ = (∫⁻ gen, pixel (1, 1) gen ∂μ) * (∫⁻ gen, pixel (2, 1) gen ∂μ) ∧
    noiseOf μ (fun gen => (∑ p ∈ Finset.range 3 ×ˢ Finset.range 3, pixel p gen) / 9) = (∑ p ∈ Finset.range 3 ×ˢ Finset.range 3, noiseOf μ (pixel p)) / 81 ∧
    (∫⁻ gen, pixel (1, 1) gen ^ 2 ∂μ = ∫⁻ r, seenLight (traceRay w lookDown.rt 100 ⟨r, defaultRays⟩ downRay) Spectrum.c0 ^ 2 ∂randomNumbers) := by
  obtain ⟨w, hW, i, hit, hc, hdep, hmat, hpos⟩ := court_world
  choose state hs using fun gen => rendered_exists lookDown lookDown_sized w 100 gen
  have hgen : ∀ k : Nat, MeasurePreserving (fun ω : Nat → Rng => ω k) (Measure.infinitePi fun _ : Nat => randomNumbers) randomNumbers := fun k => measurePreserving_eval_infinitePi _ k
  have hind : ∀ k k' : Nat, k ≠ k' → ProbabilityTheory.IndepFun (fun ω : Nat → Rng => ω k) (fun ω => ω k') (Measure.infinitePi fun _ : Nat => randomNumbers) := fun k k' hne =>
    (ProbabilityTheory.iIndepFun_infinitePi (P := fun _ : Nat => randomNumbers) (X := fun _ => id) fun _ => measurable_id).indepFun hne
  have hlen : lookDown.rt.maxDepth < defaultRays.length := by simp [defaultRays, lookDown]
  have e : lookDown.camera.traceableRay (1, 1) = downRay := by
    unfold Pinhole.traceableRay
    rw [lookDown_middle]
    rfl
  have hS : 0 < lookDown.rt.nShadowSamples := by norm_num [lookDown]
  have hD : lookDown.rt.maxDepth < 15 := by norm_num [lookDown]
  have hF : lookDown.rt.maxDepth + lookDown.rt.nShadowSamples + lookDown.rt.nAmbientSamples + 3 ≤ 100 := by norm_num [lookDown]
  refine ⟨w, hW, state, hs, ?_, ?_, ?_⟩
  · exact C125_pixels_uncorrelated hW lookDown lookDown_sized lookDown_proper hS hD 100 hF hgen hind state hs Spectrum.c0 Spectrum.c0 (by simp) (by simp) 1 1 2 1 (by norm_num [lookDown]) (by norm_num [lookDown]) (by norm_num [lookDown]) (by norm_num [lookDown]) (by simp)
  · have h := C125_average hW lookDown lookDown_sized lookDown_proper hS hD 100 hF hgen hind state hs Spectrum.c0 (by simp) (Finset.range 3 ×ˢ Finset.range 3) ⟨(0, 0), by simp⟩ (fun p hp => by simpa [lookDown] using hp)
    have hcard : (Finset.range 3 ×ˢ Finset.range 3).card = 9 := by simp
    rw [hcard] at h
    have e9 : ((9 : Nat) : ENNReal) ^ 2 = 81 := by norm_num
    rw [e9] at h
    exact h
  · have h := (C125_pixel_law hW lookDown lookDown_sized lookDown_proper hS hD 100 hF hgen state hs Spectrum.c0 (by simp) 1 1 (by norm_num [lookDown]) (by norm_num [lookDown]) defaultRays hlen).2 (fun v => v ^ 2) (measurable_id.pow_const 2)
    rw [e] at h
    exact h

/-- C126: the noise of the middle pixel of that picture. -/
example : ∃ w : World, w.SunlitMatt court ∧ ∃ A B : ENNReal, A ≠ ⊤ ∧ B ≠ ⊤ ∧ ∀ n : Nat, 0 < n → ∃ state : (Nat → Rng) → RState TState (Spectrum ℝ), (∀ gen, { lookDown with rt := lookDown.rt.withCounts n n }.Rendered w (2 * n + 5) gen (state gen)) ∧
    noiseOf (Measure.infinitePi fun _ : Nat => randomNumbers) (fun gen => ENNReal.ofReal (pixelOf 3 3 (state gen) 1 1).c0) = A / n + B / n := by
  obtain ⟨w, hW, i, hit, hc, hdep, hmat, hpos⟩ := court_world
  obtain ⟨A, B, hA, hB, h⟩ := C126_picture_noise hW lookDown lookDown_sized lookDown_proper (by norm_num [lookDown]) Spectrum.c0 (by simp) 1 1 (by norm_num [lookDown]) (by norm_num [lookDown])
  refine ⟨w, hW, A, B, hA, hB, fun n hn => ?_⟩
  choose state hs using fun gen => rendered_exists { lookDown with rt := lookDown.rt.withCounts n n } ⟨lookDown_sized.pixels, lookDown_sized.width, lookDown_sized.height⟩ w (2 * n + 5) gen
  exact ⟨state, hs, h n n (2 * n + 5) hn hn (by simp only [lookDown]; omega) _ _ _ (fun gen => gen) (fun k => measurePreserving_eval_infinitePi _ k) state hs⟩

end Rendering
