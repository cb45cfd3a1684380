import Verif.Props.DaylightGrowth

/-!
# C127: daylight coefficients times the radiances of the patches
-/

set_option linter.unusedSectionVars false
namespace Rendering

open MeasureTheory Set Classical

variable {w : World} {s : Scene ℝ}

/-- What is seen of a patch depends measurably on the ray. -/
theorem skySeen_measurable (hW : w.SunlitMatt s) (bin : Vec3 ℝ → Nat) (n : Nat) (hbin : ∀ d, Norm d = 1 → bin d < n) (hmeas : ∀ j, Measurable3 {d | bin d = j}) (ch : Spectrum ℝ → ℝ) (hch : ch ∈ [Spectrum.c0, Spectrum.c1, Spectrum.c2]) (j : Nat) (hj : j < n) (k : Nat) :
    ∃ f : Ray3 ℝ → ENNReal, Measurable f ∧ ∀ view : Ray3 ℝ, Norm view.direction = 1 → skySeen w bin ch j k view = f view := by
  obtain ⟨val, rest, hF, h⟩ := dc_fresh hW ⟨n, bin, k + 1, 1, 0, 0⟩ rfl (by simp) le_rfl zero_le_one hbin hmeas ch hch j hj k
  exact ⟨_, hF.measurable_mean, fun view hu => ((h { TRay.default with geometry := view, depth := 2 } (by simp; omega) rfl hu).1).symm⟩

theorem irradiance_sum {n : Nat} {L : Nat → Vec3 ℝ → ENNReal} (hL : ∀ j < n, Measurable (L j)) : irradiance (fun l => ∑ j ∈ Finset.range n, L j l) = ∑ j ∈ Finset.range n, irradiance (L j) := by
  unfold irradiance
  rw [← lintegral_finsetSum]
  · refine lintegral_congr fun p => ?_
    rw [Finset.sum_mul]
  · intro j hj
    exact ((hL j (Finset.mem_range.1 hj)).comp directionAt_measurable').mul (ENNReal.measurable_ofReal.comp measurable_fst)

theorem irradiance_scaled (a : ENNReal) {L : Vec3 ℝ → ENNReal} (hL : Measurable L) : irradiance (fun l => a * L l) = a * irradiance L := by
  have hm : Measurable fun p : ℝ × ℝ => L (directionAt p.1 p.2) * ENNReal.ofReal p.1 := (hL.comp directionAt_measurable').mul (ENNReal.measurable_ofReal.comp measurable_fst)
  unfold irradiance
  rw [← lintegral_const_mul _ hm]
  exact lintegral_congr fun p => by ring

/-- **C127, any sky.** The light of a sky that is constant on each patch is the sum of what is seen of the patches, each times its radiance. -/
theorem C127_sky_is_sum_of_patches (hW : w.SunlitMatt s) (bin : Vec3 ℝ → Nat) (n : Nat) (hbin : ∀ d, Norm d = 1 → bin d < n) (hmeas : ∀ j, Measurable3 {d | bin d = j}) (ch : Spectrum ℝ → ℝ) (hch : ch ∈ [Spectrum.c0, Spectrum.c1, Spectrum.c2])
    (radiance : Nat → ENNReal) (k : Nat) : ∀ view : Ray3 ℝ, Norm view.direction = 1 → skyLight w (fun d => radiance (bin d)) ch k view = ∑ j ∈ Finset.range n, radiance j * skySeen w bin ch j k view := by
  have hind : ∀ d : Vec3 ℝ, Norm d = 1 → ∑ j ∈ Finset.range n, radiance j * (if bin d = j then (1 : ENNReal) else 0) = radiance (bin d) := by
    intro d hd
    simp only [mul_ite, mul_one, mul_zero]
    rw [Finset.sum_ite_eq, if_pos (Finset.mem_range.2 (hbin d hd))]
  induction k with
  | zero =>
    intro view hu
    simp only [skyLight, skySeen]
    split
    · exact (hind _ hu).symm
    · simp
  | succ k ih =>
    intro view hu
    simp only [skyLight, skySeen]
    split
    · exact (hind _ hu).symm
    · rename_i i arrived hc
      split
      · rename_i m hm
        have hunit : ∀ l, Norm l = 1 → Norm (arrived.onward m l).geometry.direction = 1 := fun l hl => onward_unit hW (ray := { TRay.default with geometry := view }) hu hc m hl
        have hf : ∀ j, ∃ f : Ray3 ℝ → ENNReal, j < n → Measurable f ∧ ∀ view : Ray3 ℝ, Norm view.direction = 1 → skySeen w bin ch j k view = f view := by
          intro j
          by_cases hj : j < n
          · obtain ⟨f, hf⟩ := skySeen_measurable hW bin n hbin hmeas ch hch j hj k
            exact ⟨f, fun _ => hf⟩
          · exact ⟨fun _ => 0, fun h => absurd h hj⟩
        choose f hf using hf
        have hmo : Measurable fun l : Vec3 ℝ => (arrived.onward m l).geometry := by
          have ht : Measurable fun l : Vec3 ℝ => worldOf arrived.interaction.shading.dpdu arrived.interaction.shading.dpdv arrived.interaction.shading.normal l := measurable_worldOf _ _ _ measurable_id
          simp only [TRay.onward]
          fun_prop
        have e1 : (irradiance fun l => skyLight w (fun d => radiance (bin d)) ch k (arrived.onward m l).geometry) = ∑ j ∈ Finset.range n, radiance j * irradiance fun l => skySeen w bin ch j k (arrived.onward m l).geometry := by
          have a1 : (irradiance fun l => skyLight w (fun d => radiance (bin d)) ch k (arrived.onward m l).geometry) = irradiance fun l => ∑ j ∈ Finset.range n, radiance j * f j (arrived.onward m l).geometry := by
            refine irradiance_congr fun l hl => ?_
            rw [ih _ (hunit l hl)]
            exact Finset.sum_congr rfl fun j hj => by rw [(hf j (Finset.mem_range.1 hj)).2 _ (hunit l hl)]
          rw [a1, irradiance_sum (L := fun j l => radiance j * f j (arrived.onward m l).geometry) fun j hj => ((hf j hj).1.comp hmo).const_mul _]
          refine Finset.sum_congr rfl fun j hj => ?_
          rw [irradiance_congr (L := fun l => skySeen w bin ch j k (arrived.onward m l).geometry) fun l hl => (hf j (Finset.mem_range.1 hj)).2 _ (hunit l hl)]
          have hm' : Measurable fun l => f j (arrived.onward m l).geometry := (hf j (Finset.mem_range.1 hj)).1.comp hmo
          exact irradiance_scaled _ hm'
        rw [e1, Finset.mul_sum]
        refine Finset.sum_congr rfl fun j _ => ?_
        ring
      · simp
    · simp

/-- **C127, the purpose of daylight coefficients.** With one sample per point, the coefficients of a sensor times the radiances of the patches of a sky are on average the irradiance of the sensor under that sky, with at most `max_depth + 1` reflections. -/
theorem C127_any_sky_partial (hW : w.SunlitMatt s) (dc : DcFactory) (hn : dc.nAmbientSamples = 1) (hD : 0 < dc.maxDepth) (hD15 : dc.maxDepth < 15) (h0 : 0 ≤ dc.limitWeight) (h1 : dc.limitWeight ≤ 1) (hbin : ∀ d, Norm d = 1 → dc.dirToBin d < dc.nBins) (hmeas : ∀ j, Measurable3 {d | dc.dirToBin d = j})
    {Ω : Type} [MeasurableSpace Ω] (μ : Measure Ω) (primary : Ω → Nat → Rng) (secondary : Ω → Nat → Nat → Rng) (hgen : ∀ i, MeasurePreserving (fun ω => (primary ω i, secondary ω i 0)) μ (randomNumbers.prod randomNumbers))
    (rays : List (Ray3 ℝ)) (hrays : ∀ r ∈ rays, Norm r.direction = 1) (i : Nat) (sensor : Ray3 ℝ) (hs : rays[i]? = some sensor) (fuel : Nat) (hfuel : dc.maxDepth + 2 ≤ fuel) (radiance : Nat → ENNReal) :
    ∃ e1 e2, Frame e1 e2 sensor.direction ∧ ∀ ch ∈ [Spectrum.c0, Spectrum.c1, Spectrum.c2],
      ∑ j ∈ Finset.range dc.nBins, radiance j * ∫⁻ ω, coefficient (calcDc w dc fuel rays (primary ω) (secondary ω)) i j ch ∂μ =
        irradiance fun l => skyLight w (fun d => radiance (dc.dirToBin d)) ch (dc.maxDepth + 1) ⟨sensor.origin, worldOf e1 e2 sensor.direction l⟩ := by
  obtain ⟨e1, e2, hf, h⟩ := C127_one_sample_partial hW dc hn hD hD15 h0 h1 hbin hmeas μ primary secondary hgen rays hrays i sensor hs fuel hfuel
  refine ⟨e1, e2, hf, fun ch hch => ?_⟩
  have hunit : ∀ l, Norm l = 1 → Norm (worldOf e1 e2 sensor.direction l) = 1 := by
    intro l hl
    have hd2 : l.x ^ 2 + l.y ^ 2 + l.z ^ 2 = 1 := by
      have := Dot_self_of_norm hl; simp only [Dot] at this; nlinarith
    have := (world_unit hf hd2).1
    rwa [world_eq] at this
  have hg : ∀ j, ∃ f : Ray3 ℝ → ENNReal, j < dc.nBins → Measurable f ∧ ∀ view : Ray3 ℝ, Norm view.direction = 1 → skySeen w dc.dirToBin ch j (dc.maxDepth + 1) view = f view := by
    intro j
    by_cases hj : j < dc.nBins
    · obtain ⟨f, hf⟩ := skySeen_measurable hW dc.dirToBin dc.nBins hbin hmeas ch hch j hj (dc.maxDepth + 1)
      exact ⟨f, fun _ => hf⟩
    · exact ⟨fun _ => 0, fun h => absurd h hj⟩
  choose f hff using hg
  have hmo : Measurable fun l : Vec3 ℝ => (⟨sensor.origin, worldOf e1 e2 sensor.direction l⟩ : Ray3 ℝ) := by
    have ht : Measurable fun l : Vec3 ℝ => worldOf e1 e2 sensor.direction l := measurable_worldOf _ _ _ measurable_id
    fun_prop
  have a1 : (irradiance fun l => skyLight w (fun d => radiance (dc.dirToBin d)) ch (dc.maxDepth + 1) ⟨sensor.origin, worldOf e1 e2 sensor.direction l⟩) = irradiance fun l => ∑ j ∈ Finset.range dc.nBins, radiance j * f j ⟨sensor.origin, worldOf e1 e2 sensor.direction l⟩ := by
    refine irradiance_congr fun l hl => ?_
    rw [C127_sky_is_sum_of_patches hW dc.dirToBin dc.nBins hbin hmeas ch hch radiance _ ⟨sensor.origin, worldOf e1 e2 sensor.direction l⟩ (hunit l hl)]
    exact Finset.sum_congr rfl fun j hj => by rw [(hff j (Finset.mem_range.1 hj)).2 ⟨sensor.origin, worldOf e1 e2 sensor.direction l⟩ (hunit l hl)]
  rw [a1, irradiance_sum (L := fun j l => radiance j * f j ⟨sensor.origin, worldOf e1 e2 sensor.direction l⟩) fun j hj => ((hff j hj).1.comp hmo).const_mul _]
  refine Finset.sum_congr rfl fun j hj => ?_
  rw [h j (Finset.mem_range.1 hj) ch hch, irradiance_congr (L := fun l => skySeen w dc.dirToBin ch j (dc.maxDepth + 1) ⟨sensor.origin, worldOf e1 e2 sensor.direction l⟩) fun l hl => (hff j (Finset.mem_range.1 hj)).2 ⟨sensor.origin, worldOf e1 e2 sensor.direction l⟩ (hunit l hl)]
  have hm' : Measurable fun l => f j ⟨sensor.origin, worldOf e1 e2 sensor.direction l⟩ := (hff j (Finset.mem_range.1 hj)).1.comp hmo
  exact (irradiance_scaled _ hm').symm

/-- C127: a sensor that looks down onto the white floor, under a sky of two halves of radiances 2 and 5. -/
example : ∃ w : World, w.SunlitMatt whiteFloor ∧ ∃ e1 e2, Frame e1 e2 ⟨0, 0, -1⟩ ∧
    2 * (∫⁻ ω : Rng × Rng, coefficient (calcDc w { maxDepth := 3, nAmbientSamples := 1, limitWeight := 1 / 1000, countSpecularBounce := 3 / 10, nBins := 2, dirToBin := fun d => if 0 < d.y then 0 else 1 } 10 [⟨⟨0, 0, 1 / 2⟩, ⟨0, 0, -1⟩⟩]
      (fun _ => ω.1) (fun _ _ => ω.2)) 0 0 Spectrum.c1 ∂(randomNumbers.prod randomNumbers)) +
    5 * (∫⁻ ω : Rng × Rng, coefficient (calcDc w { maxDepth := 3, nAmbientSamples := 1, limitWeight := 1 / 1000, countSpecularBounce := 3 / 10, nBins := 2, dirToBin := fun d => if 0 < d.y then 0 else 1 } 10 [⟨⟨0, 0, 1 / 2⟩, ⟨0, 0, -1⟩⟩]
      (fun _ => ω.1) (fun _ _ => ω.2)) 0 1 Spectrum.c1 ∂(randomNumbers.prod randomNumbers)) =
      irradiance fun l => skyLight w (fun d => if 0 < d.y then 2 else 5) Spectrum.c1 4 ⟨⟨0, 0, 1 / 2⟩, worldOf e1 e2 ⟨0, 0, -1⟩ l⟩ := by
  obtain ⟨w, hw, hW⟩ := white_world
  have hu : Norm (⟨0, 0, -1⟩ : Vec3 ℝ) = 1 := Norm_eq_one (by norm_num [Dot])
  have hb : ∀ d : Vec3 ℝ, Norm d = 1 → (if 0 < d.y then 0 else 1) < 2 := by intro d _; split_ifs <;> norm_num
  have hm : ∀ j : Nat, Measurable3 {d : Vec3 ℝ | (if 0 < d.y then 0 else 1) = j} := by
    intro j
    rw [measurable3_iff]
    have h0 : MeasurableSet {d : Vec3 ℝ | 0 < d.y} := measurableSet_lt measurable_const (by fun_prop)
    exact (Measurable.ite h0 measurable_const measurable_const : Measurable fun d : Vec3 ℝ => if 0 < d.y then 0 else 1) (measurableSet_singleton j)
  obtain ⟨e1, e2, hf, h⟩ := C127_any_sky_partial hW { maxDepth := 3, nAmbientSamples := 1, limitWeight := 1 / 1000, countSpecularBounce := 3 / 10, nBins := 2, dirToBin := fun d => if 0 < d.y then 0 else 1 } rfl (by norm_num) (by norm_num) (by norm_num) (by norm_num) hb hm
    (randomNumbers.prod randomNumbers) (fun ω _ => ω.1) (fun ω _ _ => ω.2) (fun _ => MeasurePreserving.id _) [⟨⟨0, 0, 1 / 2⟩, ⟨0, 0, -1⟩⟩] (by simpa using hu) 0 _ rfl 10 (by norm_num) (fun j => if j = 0 then 2 else 5)
  refine ⟨w, hW, e1, e2, hf, ?_⟩
  have := h Spectrum.c1 (by simp)
  simp only [Finset.sum_range_succ, Finset.sum_range_zero, zero_add, if_true, one_ne_zero, if_false] at this
  rw [this]
  have hsky : (fun d : Vec3 ℝ => if (if 0 < d.y then 0 else 1) = 0 then (2 : ENNReal) else 5) = fun d => if 0 < d.y then 2 else 5 := by
    funext d
    split_ifs <;> simp_all
  rw [hsky]

end Rendering
