import Verif.Lemmas.SampleCounts
import Verif.Props.RenderingEquation
import Verif.Spec.Noise
import Verif.Lemmas.Brightness

/-!
# C126: the noise of the picture
-/

set_option linter.unusedSectionVars false
namespace Rendering

open MeasureTheory Set

variable {w : World} {s : Scene ℝ}

/-- Tracing a primary ray as a random experiment, with its noise. -/
theorem primary_noisy (hW : w.SunlitMatt s) (rt : RayTracer) (ch : Spectrum ℝ → ℝ) (hch : ch ∈ [Spectrum.c0, Spectrum.c1, Spectrum.c2]) (ray : TRay) (hu : Norm ray.geometry.direction = 1) (hv : 0 ≤ ray.value) (hd : ray.depth = 0) :
    ∃ A B : ENNReal, ∀ nS nA : Nat, 0 < nS → 0 < nA → ∃ val rest, Fresh val rest ∧ Noisy (val ray.geometry) (A / nS + B / nA) ∧ ∀ fuel, rt.maxDepth + nS + nA + 3 ≤ fuel → Gives (refTrace w (rt.withCounts nS nA) fuel) ch val rest ray := by
  obtain ⟨code, hcode, hall⟩ := disc_side hW
  have hb0 : 0 ≤ ch Spectrum.black := (chan_black hch).ge
  have hb1 : ENNReal.ofReal (ch Spectrum.black) = 0 := by rw [chan_black hch]; simp
  rcases hall ray hu with ⟨-, hcast⟩ | ⟨i, bk, tri, m, col, r, it, -, hS, hcast, ha⟩
  · refine ⟨0, 0, fun nS nA hS hA => ⟨fun _ _ => 0, fun _ r => r, Fresh.const measurable_const, by simpa using Noisy.const 0, fun fuel hfu rng hr => ?_⟩⟩
    obtain ⟨fuel, rfl⟩ : ∃ f, fuel = f + 1 := ⟨fuel - 1, by omega⟩
    refine ⟨Spectrum.black, ?_, hb0, hb1, hr⟩
    conv_lhs => unfold refTrace
    simp only [hcast, Res.bind_ok, hW.sky]
  · obtain ⟨-, -, hmc⟩ := matt_only_flags hS.matt
    have hcolch : 0 ≤ ch col := by
      simp only [List.mem_cons, List.not_mem_nil, or_false] at hch
      rcases hch with rfl | rfl | rfl
      · exact hS.nonneg.1
      · exact hS.nonneg.2.1
      · exact hS.nonneg.2.2
    obtain ⟨V, hsun⟩ := sunlight_noisy hW.toSunlit m col r hS.matt hS.nonneg ch hch (facing tri bk)
    have hP : Measurable fun g : Ray3 ℝ => planePoint tri g := measurable_planePoint tri measurable_id
    set N := facing tri bk with hN
    set e1 := along tri with he1
    set e2 := across tri bk with he2
    set p := planePoint tri ray.geometry with hp
    obtain ⟨valc, restc, hFc, hc⟩ := light_fresh hW (rt.withCounts 1 1) one_pos ch hch rt.maxDepth (ray.value * col.radiance) (mul_nonneg hv (radiance_nonneg' hS.nonneg))
    have hFb : Fresh (bounceVal valc (ENNReal.ofReal (ch col)) N e1 e2) (bounceRest restc N e1 e2) := bounce_fresh hFc _ N e1 e2
    obtain ⟨B, hB⟩ := noisy_exists (hFb.mval_at p)
    by_cases h0 : rt.maxDepth = 0
    · refine ⟨V p, 0, fun nS nA hSp hAp => ?_⟩
      obtain ⟨vald, restd, hFd, hVd, -, hrd⟩ := hsun nS hSp
      refine ⟨_, _, hFd.comp hP, by simpa using hVd p, fun fuel hfu rng hr => ?_⟩
      obtain ⟨fuel, rfl⟩ : ∃ f, fuel = f + 1 := ⟨fuel - 1, by omega⟩
      obtain ⟨dl, h1, h2, h3, h4⟩ := hrd { ray with interaction := it } fuel rng ha.normal (by omega) hr
      simp only [ha.point] at h1 h2 h3 h4
      refine ⟨dl, ?_, h2, h3, h4⟩
      rw [trace_matt _ fuel rng ray hS hcast ha, if_neg (by rw [hd]; omega)]
      simp only [RayTracer.withCounts, TRay.getNAmbientSamples, h0, true_or, if_true, hd]
      simp only [hd] at h1
      rw [h1]
      simp only [Res.bind_ok, spectrum_add_black]
    · refine ⟨V p, B, fun nS nA hSp hAp => ?_⟩
      obtain ⟨vald, restd, hFd, hVd, -, hrd⟩ := hsun nS hSp
      have hFd' := hFd.comp hP
      have hFs := (((hFb.iterate nA).mul (k := fun _ => (nA : ENNReal)⁻¹) measurable_const)).comp hP
      refine ⟨_, _, hFd'.add hFs, ?_, fun fuel hfu rng hr => ?_⟩
      · have hne : (nA : ENNReal) ≠ 0 := by exact_mod_cast hAp.ne'
        have h1 := (Noisy.iterate hFb hB nA).mul ((hFb.iterate nA).mval_at p) (nA : ENNReal)⁻¹
        have e : (nA : ENNReal)⁻¹ ^ 2 * (nA * B) = B / nA := by
          rw [sq, mul_assoc, ← mul_assoc (nA : ENNReal)⁻¹ (nA : ENNReal) B, ENNReal.inv_mul_cancel hne (ENNReal.natCast_ne_top _), one_mul, ENNReal.div_eq_inv_mul]
        rw [e] at h1
        exact Noisy.add hFd' hFs (x := ray.geometry) (hVd p) h1
      · obtain ⟨fuel, rfl⟩ : ∃ f, fuel = f + 1 := ⟨fuel - 1, by omega⟩
        obtain ⟨dl, h1, h2, h3, h4⟩ := hrd { ray with interaction := it } fuel rng ha.normal (by omega) hr
        simp only [ha.point] at h1 h2 h3 h4
        have hsame : (rt.withCounts 1 1).SameButCounts (rt.withCounts nS nA) := ⟨rfl, rfl, rfl, by simp [RayTracer.withCounts, hAp.ne']⟩
        have hself : ∀ l, Norm l = 1 → Norm (TRay.onward { ray with interaction := it } m l).geometry.direction = 1 → Gives (refTrace w (rt.withCounts nS nA) fuel) ch valc restc (TRay.onward { ray with interaction := it } m l) := by
          intro l hl' hl rng hr
          have h5 := (hc (TRay.onward { ray with interaction := it } m l) (by simp only [TRay.onward, hd]; change 0 + 1 + rt.maxDepth = rt.maxDepth + 1; omega) (by simp only [TRay.onward, hmc]) hl).2 fuel (by simp only [RayTracer.withCounts]; omega) rng hr
          rwa [refTrace_counts w hsame fuel rng _ (by simp only [TRay.onward]; omega)] at h5
        have hamb := ambient_gives (refTrace w (rt.withCounts nS nA) fuel) m col r hS.matt ch hch hcolch valc restc { ray with interaction := it } (by simp only [ha.normal, ha.dpdu, ha.dpdv]; exact hS.frame) hself nA fuel _ (by omega) h4
        simp only [ha.normal, ha.dpdu, ha.dpdv, ha.point, ← hN, ← he1, ← he2, ← hp] at hamb
        obtain ⟨sum, k1, k2, k3, k4⟩ := hamb
        have hn' : (0 : ℝ) < nA := by exact_mod_cast hAp
        have hoff : ¬ (rt.maxDepth = 0 ∨ nA = 0) := by omega
        refine ⟨dl + sum.divBy nA, ?_, ?_, ?_, k4⟩
        · rw [trace_matt _ fuel rng ray hS hcast ha, if_neg (by rw [hd]; omega)]
          simp only [RayTracer.withCounts, TRay.getNAmbientSamples, hoff, if_false, hd, if_true]
          simp only [hd] at h1 k1
          rw [h1]
          simp only [RayTracer.withCounts] at k1
          simp only [Res.bind_ok, hAp.ne', if_false, ← hp, k1]
        · rw [chan_add hch, chan_divBy hch]; positivity
        · rw [chan_add hch, chan_divBy hch, ENNReal.ofReal_add h2 (by positivity), h3, ENNReal.ofReal_div_of_pos hn', ENNReal.ofReal_natCast, k3, ENNReal.div_eq_inv_mul]

theorem Sunlit.solid (hW : w.Sunlit s) : w.Solid s where
  renders := hW.renders
  indices := hW.indices
  perp := hW.perp
  lights := fun o ho => by
    rw [hW.lamps, List.nil_append] at ho
    obtain ⟨d, a, L, D, h, -⟩ := hW.suns o ho
    rw [h.primitive]
    exact h.direction_ne

/-- Light of a sunlit matt scene is bounded, whatever the random numbers. -/
theorem sunlit_bound (hW : w.SunlitMatt s) (rt : RayTracer) (ch : Spectrum ℝ → ℝ) (hch : ch ∈ [Spectrum.c0, Spectrum.c1, Spectrum.c2]) : ∃ C : ℝ, 0 ≤ C ∧ ∀ (fuel : Nat) (rng : Rng) (ray : TRay) (light : Spectrum ℝ) (rng' : Rng),
    rng.Valid → Norm ray.geometry.direction = 1 → ray.depth = 0 → refTrace w rt fuel rng ray = .ok ((light, 0), rng') → ch light ≤ C := by
  have hnn : ∀ c : Spectrum ℝ, c.Nonneg → 0 ≤ ch c := by
    intro c hc
    simp only [List.mem_cons, List.not_mem_nil, or_false] at hch
    rcases hch with rfl | rfl | rfl
    · exact hc.1
    · exact hc.2.1
    · exact hc.2.2
  set ρ := (s.materials.map fun m => |ch m.colour|).sum with hρdef
  have hρ : 0 ≤ ρ := List.sum_nonneg fun x hx => by
    obtain ⟨m, _, rfl⟩ := List.mem_map.1 hx
    exact abs_nonneg _
  have hle : ∀ m ∈ s.materials, ch m.colour ≤ ρ := fun m hm => (le_abs_self _).trans (List.single_le_sum (fun x hx => by
    obtain ⟨m, _, rfl⟩ := List.mem_map.1 hx
    exact abs_nonneg _) _ (List.mem_map.2 ⟨m, hm, rfl⟩))
  have hL : s.SunsAtMost ch fun _ => ρ := fun o ho => by
    obtain ⟨d, a, L, D, h, -⟩ := hW.suns o ho
    exact ⟨⟨d, a, h.primitive⟩, hρ, fun k m _ hm => hle m (List.mem_of_getElem? hm)⟩
  have hm : ∀ m, s.UsedOnSurface m → m.MattUpTo ch ρ := by
    rintro m ⟨j, k, hj, hk⟩
    have hmem : k ∈ s.front ++ s.back := by
      rcases hj with h | h
      · exact List.mem_append_left _ (List.mem_of_getElem? h)
      · exact List.mem_append_right _ (List.mem_of_getElem? h)
    obtain ⟨col, r, h1, h2⟩ := hW.matt k m hk hmem
    have h3 := hle m (List.mem_of_getElem? hk)
    simp only [List.mem_cons, List.not_mem_nil, or_false] at h1
    rcases h1 with rfl | rfl
    · exact ⟨rfl, hnn _ h2, h3⟩
    · exact ⟨rfl, hnn _ h2, h3⟩
  have hE : 0 ≤ s.sunlight fun _ => ρ := List.sum_nonneg fun x hx => by
    obtain ⟨o, ho, rfl⟩ := List.mem_map.1 hx
    exact mul_nonneg hρ (solidAngle_nonneg _)
  have hB : 0 ≤ ρ * (s.sunlight fun _ => ρ) / Real.pi := by have := Real.pi_pos; positivity
  have hsum : ∀ k, 0 ≤ ∑ i ∈ Finset.range k, ρ ^ i := fun k => Finset.sum_nonneg fun i _ => pow_nonneg hρ i
  refine ⟨ρ * (s.sunlight fun _ => ρ) / Real.pi * ∑ i ∈ Finset.range (rt.maxDepth + 1), ρ ^ i, mul_nonneg hB (hsum _), fun fuel rng ray light rng' hr hu hd ht => ?_⟩
  have key := refTrace_dim (w := w) (by exact hch) (Sunlit.solid hW.toSunlit) hW.flat hW.lamps hL hρ False (fun m hmu => .inl (hm m hmu)) rt (U := fun d => ρ * (s.sunlight fun _ => ρ) / Real.pi * ∑ i ∈ Finset.range (rt.maxDepth + 1 - d), ρ ^ i)
    (fun d => mul_nonneg hB (hsum _))
    (fun d => mul_le_mul_of_nonneg_left (Finset.sum_le_sum_of_subset_of_nonneg (Finset.range_mono (by omega)) fun i _ _ => pow_nonneg hρ i) hB)
    (fun d hd => by
      rw [show rt.maxDepth + 1 - d = (rt.maxDepth + 1 - (d + 1)) + 1 by omega, Finset.sum_range_succ']
      simp only [pow_succ, ← Finset.sum_mul, pow_zero]
      refine le_of_eq ?_
      ring)
    False.elim fuel rng ray hr hu
  rw [ht] at key
  have := key.2 (.inr (.inl le_rfl))
  rw [hd] at this
  exact this

theorem square_split {x M : ENNReal} (hx : x ≠ ⊤) (hM : M ≠ ⊤) : ENNReal.ofReal ((x.toReal - M.toReal) ^ 2) + 2 * (x * M) = x ^ 2 + M ^ 2 := by
  have e1 : 2 * (x * M) = ENNReal.ofReal (2 * (x.toReal * M.toReal)) := by
    rw [ENNReal.ofReal_mul (by norm_num), ENNReal.ofReal_mul ENNReal.toReal_nonneg, ENNReal.ofReal_toReal hx, ENNReal.ofReal_toReal hM]
    norm_num
  have e2 : x ^ 2 = ENNReal.ofReal (x.toReal ^ 2) := by rw [ENNReal.ofReal_pow ENNReal.toReal_nonneg, ENNReal.ofReal_toReal hx]
  have e3 : M ^ 2 = ENNReal.ofReal (M.toReal ^ 2) := by rw [ENNReal.ofReal_pow ENNReal.toReal_nonneg, ENNReal.ofReal_toReal hM]
  have h1 : 0 ≤ x.toReal * M.toReal := mul_nonneg ENNReal.toReal_nonneg ENNReal.toReal_nonneg
  rw [e1, e2, e3, ← ENNReal.ofReal_add (sq_nonneg _) (by linarith), ← ENNReal.ofReal_add (sq_nonneg _) (sq_nonneg _)]
  congr 1
  ring

theorem noise_eq {Ω : Type} [MeasurableSpace Ω] {μ : Measure Ω} [IsProbabilityMeasure μ] {f : Ω → ENNReal} (hf : AEMeasurable f μ) (hx : ∀ ω, f ω ≠ ⊤) (hM : ∫⁻ ω, f ω ∂μ ≠ ⊤) {A : ENNReal} (h : ∫⁻ ω, f ω ^ 2 ∂μ = (∫⁻ ω, f ω ∂μ) ^ 2 + A) : noiseOf μ f = A := by
  set M := ∫⁻ ω, f ω ∂μ with hMdef
  have h1 : noiseOf μ f + 2 * (M * M) = 2 * (M * M) + A := by
    have e : 2 * (M * M) = ∫⁻ ω, 2 * (f ω * M) ∂μ := by
      rw [lintegral_const_mul'' _ (hf.mul_const M), lintegral_mul_const'' _ hf]
    conv_lhs => rw [e]
    unfold noiseOf
    rw [← lintegral_add_right' _ ((hf.mul_const M).const_mul 2)]
    have : ∀ ω, ENNReal.ofReal (((f ω).toReal - M.toReal) ^ 2) + 2 * (f ω * M) = f ω ^ 2 + M ^ 2 := fun ω => square_split (hx ω) hM
    simp only [← hMdef, this]
    rw [lintegral_add_right _ measurable_const, h, lintegral_const, measure_univ]
    ring
  have hfin : 2 * (M * M) ≠ ⊤ := ENNReal.mul_ne_top (by norm_num) (ENNReal.mul_ne_top hM hM)
  rw [add_comm] at h1
  exact (ENNReal.add_right_inj hfin).1 h1

/-- Chebyshev's inequality. -/
theorem noise_chance {Ω : Type} [MeasurableSpace Ω] {μ : Measure Ω} {f : Ω → ENNReal} (hf : AEMeasurable f μ) {ε : ℝ} (hε : 0 < ε) :
    μ {ω | ε ≤ |(f ω).toReal - (∫⁻ ω', f ω' ∂μ).toReal|} ≤ noiseOf μ f / ENNReal.ofReal (ε ^ 2) := by
  have hm : AEMeasurable (fun ω => ENNReal.ofReal (((f ω).toReal - (∫⁻ ω', f ω' ∂μ).toReal) ^ 2)) μ := ((hf.ennreal_toReal.sub_const _).pow_const 2).ennreal_ofReal
  have h := meas_ge_le_lintegral_div hm (ε := ENNReal.ofReal (ε ^ 2)) (by simpa using hε.ne') ENNReal.ofReal_ne_top
  refine (measure_mono fun ω hω => ?_).trans h
  simp only [mem_setOf_eq] at hω ⊢
  refine ENNReal.ofReal_le_ofReal ?_
  rw [← sq_abs ((f ω).toReal - _)]
  exact pow_le_pow_left₀ hε.le hω 2

theorem seen_finite (x : Res ((Spectrum ℝ × ℝ) × TRay × TState)) (ch : Spectrum ℝ → ℝ) : seenLight x ch ≠ ⊤ := by
  unfold seenLight
  split
  · exact ENNReal.ofReal_ne_top
  · exact ENNReal.zero_ne_top

/-- The same for what `trace_ray` returns. -/
theorem primary_seen (hW : w.SunlitMatt s) (rt : RayTracer) (ch : Spectrum ℝ → ℝ) (hch : ch ∈ [Spectrum.c0, Spectrum.c1, Spectrum.c2]) (ray : TRay) (hu : Norm ray.geometry.direction = 1) (hv : 0 ≤ ray.value) (hd : ray.depth = 0) :
    ∃ A B : ENNReal, A ≠ ⊤ ∧ B ≠ ⊤ ∧ ∀ (nS nA fuel : Nat) (rays : List TRay), 0 < nS → 0 < nA → rt.maxDepth < rays.length → rt.maxDepth + nS + nA + 3 ≤ fuel →
      AEMeasurable (fun r => seenLight (traceRay w (rt.withCounts nS nA) fuel ⟨r, rays⟩ ray) ch) randomNumbers ∧ ∫⁻ r, seenLight (traceRay w (rt.withCounts nS nA) fuel ⟨r, rays⟩ ray) ch ∂randomNumbers ≠ ⊤ ∧
      noiseOf randomNumbers (fun r => seenLight (traceRay w (rt.withCounts nS nA) fuel ⟨r, rays⟩ ray) ch) = A / nS + B / nA := by
  obtain ⟨A, B, h⟩ := primary_noisy hW rt ch hch ray hu hv hd
  obtain ⟨C, hC0, hC⟩ := sunlit_bound hW (rt.withCounts 1 1) ch hch
  have hprob : IsProbabilityMeasure randomNumbers := inferInstance
  have hval : ∀ᵐ r ∂randomNumbers, Rng.Valid r := valid_almost_surely
  have hAB : A ≠ ⊤ ∧ B ≠ ⊤ := by
    obtain ⟨val, rest, hF, hN, hG⟩ := h 1 1 one_pos one_pos
    have hle : ∀ r : Rng, r.Valid → val ray.geometry r ≤ ENNReal.ofReal C := fun r hr => by
      obtain ⟨light, h1, h2, h3, -⟩ := hG (rt.maxDepth + 1 + 1 + 3) le_rfl r hr
      rw [← h3]
      exact ENNReal.ofReal_le_ofReal (hC _ r ray light _ hr hu hd h1)
    have hsq : avg (fun r => val ray.geometry r ^ 2) ≤ ENNReal.ofReal C ^ 2 := by
      refine (lintegral_mono_ae (g := fun _ => ENNReal.ofReal C ^ 2) ?_).trans (avg_const _).le
      filter_upwards [hval] with r hr
      exact pow_le_pow_left₀ (zero_le) (hle r hr) 2
    unfold Noisy at hN
    rw [hN] at hsq
    have hfin : avg (val ray.geometry) ^ 2 + (A / ((1 : Nat) : ENNReal) + B / ((1 : Nat) : ENNReal)) ≠ ⊤ := ne_top_of_le_ne_top (by simp) hsq
    simp only [Nat.cast_one, div_one] at hfin
    exact ⟨fun e => hfin (by rw [e]; simp), fun e => hfin (by rw [e]; simp)⟩
  refine ⟨A, B, hAB.1, hAB.2, fun nS nA fuel rays hS hA hlen hfuel => ?_⟩
  obtain ⟨val, rest, hF, hN, hG⟩ := h nS nA hS hA
  have hae : (fun r => seenLight (traceRay w (rt.withCounts nS nA) fuel ⟨r, rays⟩ ray) ch) =ᵐ[randomNumbers] val ray.geometry := by
    filter_upwards [hval] with r hr
    obtain ⟨light, h1, h2, h3, -⟩ := hG fuel hfuel r hr
    rw [seen_of_ref (rt.withCounts nS nA) fuel r rays hlen ray ch h1, h3]
  have hmeas : AEMeasurable (fun r => seenLight (traceRay w (rt.withCounts nS nA) fuel ⟨r, rays⟩ ray) ch) randomNumbers := ⟨_, hF.mval_at ray.geometry, hae⟩
  have hfin : ∫⁻ r, seenLight (traceRay w (rt.withCounts nS nA) fuel ⟨r, rays⟩ ray) ch ∂randomNumbers ≠ ⊤ := by
    obtain ⟨C', hC0', hC'⟩ := sunlit_bound hW (rt.withCounts nS nA) ch hch
    refine ne_top_of_le_ne_top (b := ENNReal.ofReal C') ENNReal.ofReal_ne_top ((lintegral_mono_ae (g := fun _ => ENNReal.ofReal C') ?_).trans (avg_const _).le)
    filter_upwards [hval] with r hr
    obtain ⟨light, h1, h2, h3, -⟩ := hG fuel hfuel r hr
    rw [seen_of_ref (rt.withCounts nS nA) fuel r rays hlen ray ch h1]
    exact ENNReal.ofReal_le_ofReal (hC' _ r ray light _ hr hu hd h1)
  refine ⟨hmeas, hfin, noise_eq hmeas (fun r => seen_finite _ ch) hfin ?_⟩
  rw [lintegral_congr_ae hae, lintegral_congr_ae (g := fun r => val ray.geometry r ^ 2) (hae.mono fun r hr => by simp only [hr])]
  exact hN

/-- **C126.** In a scene of flat matt surfaces lit by suns, the noise (mean squared error) of the light returned along a primary ray is `A / n_shadow_samples + B / n_ambient_samples`, with two finite numbers `A` and `B` that do not depend on the numbers of samples: four times as
many samples halve the error, and the shadow rays cannot make up for ambient samples or the other way round. -/
theorem C126_noise_law (hW : w.SunlitMatt s) (rt : RayTracer) (ch : Spectrum ℝ → ℝ) (hch : ch ∈ [Spectrum.c0, Spectrum.c1, Spectrum.c2]) (ray : TRay) (hu : Norm ray.geometry.direction = 1) (hv : 0 ≤ ray.value) (hd : ray.depth = 0) :
    ∃ A B : ENNReal, A ≠ ⊤ ∧ B ≠ ⊤ ∧ ∀ (nShadow nAmbient fuel : Nat) (rays : List TRay), 0 < nShadow → 0 < nAmbient → rt.maxDepth < rays.length → rt.maxDepth + nShadow + nAmbient + 3 ≤ fuel →
      noiseOf randomNumbers (fun r => seenLight (traceRay w (rt.withCounts nShadow nAmbient) fuel ⟨r, rays⟩ ray) ch) = A / nShadow + B / nAmbient := by
  obtain ⟨A, B, hA, hB, h⟩ := primary_seen hW rt ch hch ray hu hv hd
  exact ⟨A, B, hA, hB, fun nS nA fuel rays h1 h2 h3 h4 => (h nS nA fuel rays h1 h2 h3 h4).2.2⟩

/-- **C126, convergence.** With enough samples, the light that is returned is as close as desired, and as surely as desired, to the light of the rendering equation (with at most `max_depth` reflections after the first). -/
theorem C126_converges (hW : w.SunlitMatt s) (rt : RayTracer) (ch : Spectrum ℝ → ℝ) (hch : ch ∈ [Spectrum.c0, Spectrum.c1, Spectrum.c2]) (ray : TRay) (hu : Norm ray.geometry.direction = 1) (hv : 0 ≤ ray.value) (hd : ray.depth = 0) (ε δ : ℝ) (hε : 0 < ε) (hδ : 0 < δ) :
    ∃ N : Nat, ∀ (nShadow nAmbient fuel : Nat) (rays : List TRay), N ≤ nShadow → N ≤ nAmbient → rt.maxDepth < rays.length → rt.maxDepth + nShadow + nAmbient + 3 ≤ fuel →
      randomNumbers {r | ε ≤ |(seenLight (traceRay w (rt.withCounts nShadow nAmbient) fuel ⟨r, rays⟩ ray) ch).toReal - (reflectedLight w (rt.withCounts 1 1) ch (rt.maxDepth + 1) ray).toReal|} ≤ ENNReal.ofReal δ := by
  obtain ⟨A, B, hA, hB, h⟩ := primary_seen hW rt ch hch ray hu hv hd
  obtain ⟨N, hN⟩ := exists_nat_gt ((A.toReal + B.toReal) / (δ * ε ^ 2))
  refine ⟨N + 1, fun nS nA fuel rays hS hA' hlen hfuel => ?_⟩
  obtain ⟨h1, h2, h3⟩ := h nS nA fuel rays (by omega) (by omega) hlen hfuel
  have hmean := C119_mean_light hW (rt.withCounts nS nA) (by simp only [RayTracer.withCounts]; omega) ch hch rays hlen ray hu hv (by omega) fuel hfuel
  rw [hd, Nat.sub_zero, reflected_settings (rt.withCounts nS nA) (rt.withCounts 1 1) (by simp only [RayTracer.withCounts]; omega) rfl] at hmean
  have hc := noise_chance h1 hε
  rw [hmean, h3] at hc
  refine hc.trans ?_
  have hε2 : 0 < ε ^ 2 := by positivity
  have hnS : ((N + 1 : Nat) : ENNReal) ≤ nS := by exact_mod_cast hS
  have hnA : ((N + 1 : Nat) : ENNReal) ≤ nA := by exact_mod_cast hA'
  have hAB : A / nS + B / nA ≤ ENNReal.ofReal ((A.toReal + B.toReal) / (N + 1 : Nat)) := by
    have hNpos : (0 : ℝ) < ((N + 1 : Nat) : ℝ) := by positivity
    rw [ENNReal.ofReal_div_of_pos hNpos, ENNReal.ofReal_natCast, ENNReal.ofReal_add ENNReal.toReal_nonneg ENNReal.toReal_nonneg, ENNReal.ofReal_toReal hA, ENNReal.ofReal_toReal hB, ENNReal.add_div]
    exact add_le_add (ENNReal.div_le_div_left hnS _) (ENNReal.div_le_div_left hnA _)
  refine (ENNReal.div_le_div_right hAB _).trans ?_
  rw [← ENNReal.ofReal_div_of_pos hε2]
  refine ENNReal.ofReal_le_ofReal ?_
  rw [div_div, div_le_iff₀ (by positivity)]
  rw [div_lt_iff₀ (by positivity)] at hN
  have : (N : ℝ) * (δ * ε ^ 2) ≤ (N + 1 : Nat) * (δ * ε ^ 2) := by
    refine mul_le_mul_of_nonneg_right ?_ (by positivity)
    push_cast; linarith
  linarith [mul_comm δ (((N + 1 : Nat) : ℝ) * ε ^ 2), mul_comm δ (ε ^ 2), mul_assoc ((N + 1 : Nat) : ℝ) (ε ^ 2) δ]

end Rendering
