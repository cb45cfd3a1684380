import Verif.Spec.GeometricDaylight
import Verif.Props.GeometricLight
import Verif.Props.SkyVector

/-!
# C131: on average, daylight coefficients are those of the scene's geometry
-/

set_option linter.unusedSectionVars false
namespace Rendering

open MeasureTheory Set

variable {w : World} {s : Scene ℝ}

theorem world_unit' {e1 e2 n : Vec3 ℝ} (hf : Frame e1 e2 n) {l : Vec3 ℝ} (hl : Norm l = 1) : Norm (worldOf e1 e2 n l) = 1 := by
  have hl2 : l.x ^ 2 + l.y ^ 2 + l.z ^ 2 = 1 := by
    have := Dot_self_of_norm hl; simp only [Dot] at this; nlinarith
  have := (world_unit hf hl2).1
  rw [world_eq] at this
  exact this

/-- The light of a sky is that of the geometry. -/
theorem skyLight_geometric (hW : w.SunlitMatt s) : ∃ S : Sight, S.Faithful s ∧ ∀ (axes : Axes) (ch : Spectrum ℝ → ℝ) (sky : Vec3 ℝ → ENNReal) (k : Nat) (view : Ray3 ℝ), Norm view.direction = 1 →
    skyLight w sky ch k view = s.daylight S axes ch sky k view := by
  obtain ⟨S, hS, -, hmeets⟩ := sight_exists hW.renders
  refine ⟨S, hS, fun axes ch sky k => ?_⟩
  induction k with
  | zero =>
    intro view hv
    rcases hmeets view with ⟨h1, h2⟩ | ⟨j, p, i, tri, b, h1, h2⟩
    · simp only [skyLight, Scene.daylight, h1, h2]
    · unfold skyLight Scene.daylight
      rw [h2.cast, h1]
  | succ k ih =>
    intro view hv
    rcases hmeets view with ⟨h1, h2⟩ | ⟨j, p, i, tri, b, h1, h2⟩
    · unfold skyLight Scene.daylight
      rw [h1, h2]
    · obtain ⟨m, col, r, hm, hnn, hmat, hseen⟩ := side_seen hW hv h2
      obtain ⟨-, -, hcc⟩ := matt_only_flags hm
      obtain ⟨hp, hframe, -, -, -, -, -⟩ := recorded_spec tri view b hv h2.hit
      have hpp : (recordedInteraction tri view b).point = p := by rw [hp, h2.point]
      unfold skyLight Scene.daylight
      rw [h2.cast, h1]
      simp only [hmat, hseen, hcc]
      congr 1
      rw [irradiance_congr fun l hl => ih _ (onward_unit hW hv h2.cast m hl)]
      have hN := hframe.n3
      have e := frame_free (axes.frame _ hN) hframe (Ioo 0 1) measurableSet_Ioo (fun z v => s.daylight S axes ch sky k ⟨p + (recordedInteraction tri view b).shading.normal.scale (1 / 10 ^ 5), v⟩ * ENNReal.ofReal z)
      unfold irradiance
      simp only [TRay.onward, hpp, Axes.around]
      exact e

/-- What is seen of a patch is the light of a sky of which only that patch is bright. -/
theorem skySeen_eq (bin : Vec3 ℝ → Nat) (ch : Spectrum ℝ → ℝ) (j k : Nat) (view : Ray3 ℝ) : skySeen w bin ch j k view = skyLight w (fun d => if bin d = j then 1 else 0) ch k view := by
  induction k generalizing view with
  | zero => rfl
  | succ k ih =>
    unfold skySeen skyLight
    rcases w.cast { TRay.default with geometry := view } with (_ | ⟨i, arrived⟩) | _ | _
    · rfl
    · simp only
      rcases w.materialAt arrived.interaction.shading.side i with m | _ | _
      · simp only [ih]
      · rfl
      · rfl
    · rfl
    · rfl

theorem sensor_geometric {S : Sight} (h : ∀ (axes : Axes) (ch : Spectrum ℝ → ℝ) (sky : Vec3 ℝ → ENNReal) (k : Nat) (view : Ray3 ℝ), Norm view.direction = 1 → skyLight w sky ch k view = s.daylight S axes ch sky k view)
    {e1 e2 : Vec3 ℝ} {sensor : Ray3 ℝ} (hf : Frame e1 e2 sensor.direction) (axes : Axes) (ch : Spectrum ℝ → ℝ) (sky : Vec3 ℝ → ENNReal) (k : Nat) :
    (irradiance fun l => skyLight w sky ch k ⟨sensor.origin, worldOf e1 e2 sensor.direction l⟩) = s.daylightAt S axes ch sky k sensor := by
  rw [irradiance_congr fun l hl => h axes ch sky k ⟨sensor.origin, worldOf e1 e2 sensor.direction l⟩ (world_unit' hf hl)]
  have e := frame_free (axes.frame _ hf.n3) hf (Ioo 0 1) measurableSet_Ioo (fun z v => s.daylight S axes ch sky k ⟨sensor.origin, v⟩ * ENNReal.ofReal z)
  unfold irradiance Scene.daylightAt Axes.around
  exact e

/-- **C131, coefficients.** There is a way of seeing that agrees with the triangles of the scene, such that for every list of sensors and division of the sky, with one sample per reflection, the mean of the coefficient of patch `j` at a sensor
is what the sensor receives, directly and by at most `max_depth + 1` reflections, from a sky that is dark but for patch `j`, of radiance 1. -/
theorem C131_coefficients (hW : w.SunlitMatt s) : ∃ S : Sight, S.Faithful s ∧ ∀ (axes : Axes) (dc : DcFactory), dc.nAmbientSamples = 1 → 0 < dc.maxDepth → dc.maxDepth < 15 → 0 ≤ dc.limitWeight → dc.limitWeight ≤ 1 →
    (∀ d, Norm d = 1 → dc.dirToBin d < dc.nBins) → (∀ j, Measurable3 {d | dc.dirToBin d = j}) →
    ∀ {Ω : Type} [MeasurableSpace Ω] (μ : Measure Ω) (primary : Ω → Nat → Rng) (secondary : Ω → Nat → Nat → Rng), (∀ i, MeasurePreserving (fun ω => (primary ω i, secondary ω i 0)) μ (randomNumbers.prod randomNumbers)) →
    ∀ (rays : List (Ray3 ℝ)), (∀ r ∈ rays, Norm r.direction = 1) → ∀ (i : Nat) (sensor : Ray3 ℝ), rays[i]? = some sensor → ∀ fuel, dc.maxDepth + 2 ≤ fuel → ∀ j < dc.nBins, ∀ ch ∈ [Spectrum.c0, Spectrum.c1, Spectrum.c2],
      ∫⁻ ω, coefficient (calcDc w dc fuel rays (primary ω) (secondary ω)) i j ch ∂μ = s.daylightAt S axes ch (fun d => if dc.dirToBin d = j then 1 else 0) (dc.maxDepth + 1) sensor := by
  obtain ⟨S, hS, h⟩ := skyLight_geometric hW
  refine ⟨S, hS, fun axes dc hn hD hD15 h0 h1 hbin hmeas Ω _ μ primary secondary hgen rays hrays i sensor hs fuel hfuel j hj ch hch => ?_⟩
  obtain ⟨e1, e2, hf, hc⟩ := C127_one_sample_partial hW dc hn hD hD15 h0 h1 hbin hmeas μ primary secondary hgen rays hrays i sensor hs fuel hfuel
  rw [hc j hj ch hch, ← sensor_geometric h hf axes ch]
  simp only [skySeen_eq]

/-- **C131, any sky.** As before: the mean coefficients of a sensor times the radiances of the patches add up to what the sensor receives, directly and by at most `max_depth + 1` reflections, from a sky of patches of these radiances. -/
theorem C131_any_sky (hW : w.SunlitMatt s) : ∃ S : Sight, S.Faithful s ∧ ∀ (axes : Axes) (dc : DcFactory), dc.nAmbientSamples = 1 → 0 < dc.maxDepth → dc.maxDepth < 15 → 0 ≤ dc.limitWeight → dc.limitWeight ≤ 1 →
    (∀ d, Norm d = 1 → dc.dirToBin d < dc.nBins) → (∀ j, Measurable3 {d | dc.dirToBin d = j}) →
    ∀ {Ω : Type} [MeasurableSpace Ω] (μ : Measure Ω) (primary : Ω → Nat → Rng) (secondary : Ω → Nat → Nat → Rng), (∀ i, MeasurePreserving (fun ω => (primary ω i, secondary ω i 0)) μ (randomNumbers.prod randomNumbers)) →
    ∀ (rays : List (Ray3 ℝ)), (∀ r ∈ rays, Norm r.direction = 1) → ∀ (i : Nat) (sensor : Ray3 ℝ), rays[i]? = some sensor → ∀ fuel, dc.maxDepth + 2 ≤ fuel → ∀ radiance : Nat → ENNReal, ∀ ch ∈ [Spectrum.c0, Spectrum.c1, Spectrum.c2],
      ∑ j ∈ Finset.range dc.nBins, radiance j * ∫⁻ ω, coefficient (calcDc w dc fuel rays (primary ω) (secondary ω)) i j ch ∂μ = s.daylightAt S axes ch (fun d => radiance (dc.dirToBin d)) (dc.maxDepth + 1) sensor := by
  obtain ⟨S, hS, h⟩ := skyLight_geometric hW
  refine ⟨S, hS, fun axes dc hn hD hD15 h0 h1 hbin hmeas Ω _ μ primary secondary hgen rays hrays i sensor hs fuel hfuel radiance ch hch => ?_⟩
  obtain ⟨e1, e2, hf, hc⟩ := C127_any_sky_partial hW dc hn hD hD15 h0 h1 hbin hmeas μ primary secondary hgen rays hrays i sensor hs fuel hfuel radiance
  rw [hc ch hch, ← sensor_geometric h hf axes ch]

/-- C131: a sensor that looks down onto a white floor, under a sky of two halves of radiances 2 and 5: what the mean coefficients give is what the sensor receives by the geometry of the floor. -/
example : ∃ w : World, w.SunlitMatt whiteFloor ∧ ∃ S : Sight, S.Faithful whiteFloor ∧ ∀ axes : Axes,
    2 * (∫⁻ ω : Rng × Rng, coefficient (calcDc w { maxDepth := 3, nAmbientSamples := 1, limitWeight := 1 / 1000, countSpecularBounce := 3 / 10, nBins := 2, dirToBin := fun d => if 0 < d.y then 0 else 1 } 10 [⟨⟨0, 0, 1 / 2⟩, ⟨0, 0, -1⟩⟩]
      (fun _ => ω.1) (fun _ _ => ω.2)) 0 0 Spectrum.c1 ∂(randomNumbers.prod randomNumbers)) +
    5 * (∫⁻ ω : Rng × Rng, coefficient (calcDc w { maxDepth := 3, nAmbientSamples := 1, limitWeight := 1 / 1000, countSpecularBounce := 3 / 10, nBins := 2, dirToBin := fun d => if 0 < d.y then 0 else 1 } 10 [⟨⟨0, 0, 1 / 2⟩, ⟨0, 0, -1⟩⟩]
      (fun _ => ω.1) (fun _ _ => ω.2)) 0 1 Spectrum.c1 ∂(randomNumbers.prod randomNumbers)) =
      whiteFloor.daylightAt S axes Spectrum.c1 (fun d => if 0 < d.y then 2 else 5) 4 ⟨⟨0, 0, 1 / 2⟩, ⟨0, 0, -1⟩⟩ := by
  obtain ⟨w, hw, hW⟩ := white_world
  have hu : Norm (⟨0, 0, -1⟩ : Vec3 ℝ) = 1 := Norm_eq_one (by norm_num [Dot])
  have hb : ∀ d : Vec3 ℝ, Norm d = 1 → (if 0 < d.y then 0 else 1) < 2 := by intro d _; split_ifs <;> norm_num
  have hm : ∀ j : Nat, Measurable3 {d : Vec3 ℝ | (if 0 < d.y then 0 else 1) = j} := by
    intro j
    rw [measurable3_iff]
    have h0 : MeasurableSet {d : Vec3 ℝ | 0 < d.y} := measurableSet_lt measurable_const (by fun_prop)
    exact (Measurable.ite h0 measurable_const measurable_const : Measurable fun d : Vec3 ℝ => if 0 < d.y then 0 else 1) (measurableSet_singleton j)
  obtain ⟨S, hS, h⟩ := C131_any_sky hW
  refine ⟨w, hW, S, hS, fun axes => ?_⟩
  have := h axes { maxDepth := 3, nAmbientSamples := 1, limitWeight := 1 / 1000, countSpecularBounce := 3 / 10, nBins := 2, dirToBin := fun d => if 0 < d.y then 0 else 1 } rfl (by norm_num) (by norm_num) (by norm_num) (by norm_num) hb hm
    (randomNumbers.prod randomNumbers) (fun ω _ => ω.1) (fun ω _ _ => ω.2) (fun _ => MeasurePreserving.id _) [⟨⟨0, 0, 1 / 2⟩, ⟨0, 0, -1⟩⟩] (by simpa using hu) 0 _ rfl 10 (by norm_num) (fun j => if j = 0 then 2 else 5) Spectrum.c1 (by simp)
  simp only [Finset.sum_range_succ, Finset.sum_range_zero, zero_add, if_true, one_ne_zero, if_false] at this
  rw [this]
  have hsky : (fun d : Vec3 ℝ => if (if 0 < d.y then 0 else 1) = 0 then (2 : ENNReal) else 5) = fun d => if 0 < d.y then 2 else 5 := by
    funext d
    by_cases hd : 0 < d.y <;> simp [hd]
  simp only [hsky]

end Rendering
