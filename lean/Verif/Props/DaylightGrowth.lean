import Verif.Props.DaylightMean
import Verif.Props.WindowsExample
import Verif.Props.ExactLight

/-!
# C127: with more than one sample per point, reflected daylight is counted too often
-/

set_option linter.unusedSectionVars false
namespace Rendering

open MeasureTheory Set Classical

variable {w : World}

/-- The sum of the coefficients of sensor `i` over all patches, in one channel; nothing if the calculation failed. -/
noncomputable def rowSum (r : Res (Mat (Spectrum ℝ))) (i : Nat) (ch : Spectrum ℝ → ℝ) : ENNReal :=
  match r with
  | .ok M => ENNReal.ofReal (ch (M.rowTotal i))
  | _ => 0

theorem drop_preserves (n : Nat) : MeasurePreserving (Rng.drop n) randomNumbers randomNumbers :=
  ⟨measurable_drop n, Measure.ext fun S hS => by rw [Measure.map_apply (measurable_drop n) hS]; exact randomNumbers_drop n S hS⟩

/-- The mean over one cosine-weighted direction, wherever its two numbers are drawn. -/
theorem mean_direction {F : Vec3 ℝ → ENNReal} (hF : Measurable F) (k : Nat) : ∫⁻ r : Rng, F (cosDir (r (2 * k), r (2 * k + 1))) ∂randomNumbers = irradiance F / ENNReal.ofReal Real.pi := by
  have hm : Measurable fun r : Rng => F (cosDir (r 0, r 1)) := hF.comp (measurable_cosDir.comp ((measurable_pi_apply 0).prodMk (measurable_pi_apply 1)))
  have h1 : ∫⁻ r : Rng, F (cosDir (r (2 * k), r (2 * k + 1))) ∂randomNumbers = ∫⁻ r : Rng, F (cosDir (r 0, r 1)) ∂randomNumbers := by
    refine Eq.trans ?_ ((drop_preserves (2 * k)).lintegral_comp hm)
    refine lintegral_congr fun r => ?_
    simp only [Rng.drop, Nat.zero_add, Nat.add_comm 1]
  have hconst : Fresh (fun (q : Unit × (ℝ × ℝ)) (_ : Rng) => F (cosDir q.2)) (fun _ r => r) := Fresh.const (hF.comp (measurable_cosDir.comp measurable_snd))
  have e4 := hconst.mean_draw2 ()
  simp only [avg_const] at e4
  rw [h1, ← mean_cosDir hF]
  exact e4

theorem chan_sum {ch : Spectrum ℝ → ℝ} (hch : ch ∈ [Spectrum.c0, Spectrum.c1, Spectrum.c2]) (l : List (Spectrum ℝ)) : ch (spectrumSum l) = (l.map ch).sum := by
  induction l with
  | nil => simp [spectrumSum, chan_black hch]
  | cons a l ih => simp only [spectrumSum, chan_add hch, ih, List.map_cons, List.sum_cons]

theorem chan_power {ch : Spectrum ℝ → ℝ} (hch : ch ∈ [Spectrum.c0, Spectrum.c1, Spectrum.c2]) (c : Spectrum ℝ) (k : Nat) : ch (c.power k) = ch c ^ k := by
  simp only [List.mem_cons, List.not_mem_nil, or_false] at hch
  rcases hch with rfl | rfl | rfl <;> rfl

theorem chan_gray {ch : Spectrum ℝ → ℝ} (hch : ch ∈ [Spectrum.c0, Spectrum.c1, Spectrum.c2]) (x : ℝ) : ch (Spectrum.gray x) = x := by
  simp only [List.mem_cons, List.not_mem_nil, or_false] at hch
  rcases hch with rfl | rfl | rfl <;> rfl

/-- What one sample of a sensor contributes in the scene of one matt triangle. -/
theorem triangle_task (m : Material ℝ) (c : Spectrum ℝ) (hm : m.Matt c) (tri : Tri ℝ) (hw : w.Shows m [tri]) (dc : DcFactory) (hD : 0 < dc.maxDepth) (hbin : ∀ d, Norm d = 1 → dc.dirToBin d < dc.nBins)
    (ch : Spectrum ℝ → ℝ) (hch : ch ∈ [Spectrum.c0, Spectrum.c1, Spectrum.c2]) (sensor : Ray3 ℝ) (e2 : Vec3 ℝ) (he : w.ext.perp sensor.direction = some e2) (hf : Frame (e2.cross sensor.direction) e2 sensor.direction)
    (k : Nat) (hk : k < dc.nAmbientSamples) (r q : Rng) (hr : r.Valid) (hq : q.Valid) (fuel : Nat) :
    ∃ cc, dcTask w dc (fuel + 2) sensor r k q = .ok cc ∧
      ch cc.total = (if w.cast { TRay.default with geometry := ⟨sensor.origin, worldOf (e2.cross sensor.direction) e2 sensor.direction (cosDir (r (2 * k), r (2 * k + 1)))⟩ } = .ok none then 1 else ∑ l ∈ Finset.range dc.nAmbientSamples, ch c ^ (l + 1)) * (Real.pi / dc.nAmbientSamples) := by
  have hcd : (sampleCosineHemisphere fun i => r (i + 2 * k)).1 = cosDir (r (2 * k), r (2 * k + 1)) := by
    have := cosine_sample_eq (fun i => r (i + 2 * k)) (hr _)
    rw [this]
    simp only [Nat.zero_add, Nat.add_comm 1]
    rfl
  have hu : Norm (worldOf (e2.cross sensor.direction) e2 sensor.direction (cosDir (r (2 * k), r (2 * k + 1)))) = 1 := by
    have hl := cosDir_unit (hr (2 * k)) (hr (2 * k + 1))
    have hd2 : (cosDir (r (2 * k), r (2 * k + 1))).x ^ 2 + (cosDir (r (2 * k), r (2 * k + 1))).y ^ 2 + (cosDir (r (2 * k), r (2 * k + 1))).z ^ 2 = 1 := by
      have := Dot_self_of_norm hl; simp only [Dot] at this; nlinarith
    have := (world_unit hf hd2).1
    rwa [world_eq] at this
  set d := worldOf (e2.cross sensor.direction) e2 sensor.direction (cosDir (r (2 * k), r (2 * k + 1))) with hd
  have hsame : w.cast { TRay.default with geometry := ⟨sensor.origin, d⟩, colour := Spectrum.gray Real.pi } = .ok none ↔ w.cast { TRay.default with geometry := ⟨sensor.origin, d⟩ } = .ok none := by
    rcases cast_geometry (w := w) { TRay.default with geometry := ⟨sensor.origin, d⟩, colour := Spectrum.gray Real.pi } ⟨sensor.origin, d⟩ rfl with ⟨a, b⟩ | ⟨i, it, a, b⟩ | ⟨a, b⟩
    · exact ⟨fun _ => b, fun _ => a⟩
    · exact ⟨fun h => (by rw [a] at h; cases h), fun h => (by rw [b] at h; cases h)⟩
    · exact ⟨fun h => absurd h (a _), fun h => absurd h (b _)⟩
  have htask : ∀ ray' st', dcTraceRay w dc (fuel + 2) ⟨q, defaultRays, dc.blank⟩ { TRay.default with geometry := ⟨sensor.origin, d⟩, colour := Spectrum.gray Real.pi } = .ok (ray', st') →
      dcTask w dc (fuel + 2) sensor r k q = .ok st'.contribution := by
    intro ray' st' h
    unfold dcTask
    rw [he, Res.ofOption_some, Res.bind_ok, dcDirections_getElem? _ _ _ hk, Res.ofOption_some, Res.bind_ok, hcd]
    unfold dcSample
    simp only [worldOf_eq]
    rw [h, Res.bind_ok]
  by_cases hno : w.cast { TRay.default with geometry := ⟨sensor.origin, d⟩ } = .ok none
  · have hno' := hsame.2 hno
    obtain ⟨cc, hc1, _, hc3⟩ := dcMiss_total dc { TRay.default with geometry := ⟨sensor.origin, d⟩, colour := Spectrum.gray Real.pi } ⟨q, defaultRays, dc.blank⟩ dc.blank_isRow (hbin _ hu)
    refine ⟨cc, htask _ _ (by rw [dcTraceRay]; simp only [hno', Res.bind_ok]; exact hc1), ?_⟩
    rw [hc3, dc.blank_total, spectrum_black_add, chan_divBy hch, chan_gray hch]
    simp only [hno, if_true, one_mul]
  · obtain ⟨ray', st', h1, -, h2⟩ := samples_fade w m c hm tri hw dc hD hbin { TRay.default with geometry := ⟨sensor.origin, d⟩, colour := Spectrum.gray Real.pi } hu rfl (fun h => hno (hsame.1 h)) ⟨q, defaultRays, dc.blank⟩ hq (by simp [defaultRays]) dc.blank_isRow fuel
    refine ⟨_, htask _ _ h1, ?_⟩
    rw [h2, dc.blank_total, spectrum_black_add, chan_sum hch, List.map_map]
    simp only [hno, if_false]
    rw [Finset.sum_mul, Finset.sum_range]
    have : ∀ n : Nat, ∀ f : Nat → ℝ, ((List.range n).map f).sum = ∑ i : Fin n, f i := by
      intro n f
      rw [← Finset.sum_range]
      exact (Finset.sum_range_induction _ (fun n => ((List.range n).map f).sum) (by simp) n (fun k _ => by simp [List.range_succ])).symm
    rw [this]
    refine Finset.sum_congr rfl fun l _ => ?_
    simp only [Function.comp_apply]
    rw [chan_divBy hch, chan_mul hch, chan_gray hch, chan_power hch]
    ring

/-- **C127, violation: the law for one matt triangle.** A scene of one matt triangle of colour `c`, `max_depth` at least 1. The mean of the sum of all coefficients of a sensor is the irradiance of a hemisphere of light that is 1 where the
triangle is not seen and `c + c² + … + cⁿ` where it is, with `n` the number of samples. (What the triangle really reflects of a sky of radiance 1 is `c`, `C127_triangle_reflects`.) -/
theorem C127_violation_samples_add (m : Material ℝ) (c : Spectrum ℝ) (hm : m.Matt c) (hc : c.Nonneg) (tri : Tri ℝ) (hw : w.Shows m [tri]) (hext : w.ext.PerpSpec) (hbox : w.env.bvh.MeasurableBoxTest) (dc : DcFactory) (hD : 0 < dc.maxDepth) (hn : 0 < dc.nAmbientSamples)
    (hbin : ∀ d, Norm d = 1 → dc.dirToBin d < dc.nBins) {Ω : Type} [MeasurableSpace Ω] (μ : Measure Ω) (primary : Ω → Nat → Rng) (secondary : Ω → Nat → Nat → Rng)
    (hgen : ∀ i, MeasurePreserving (fun ω => primary ω i) μ randomNumbers) (hgen' : ∀ i k, MeasurePreserving (fun ω => secondary ω i k) μ randomNumbers)
    (rays : List (Ray3 ℝ)) (hrays : ∀ r ∈ rays, Norm r.direction = 1) (i : Nat) (sensor : Ray3 ℝ) (hs : rays[i]? = some sensor) (fuel : Nat) :
    ∃ e1 e2, Frame e1 e2 sensor.direction ∧ ∀ ch ∈ [Spectrum.c0, Spectrum.c1, Spectrum.c2],
      ∫⁻ ω, rowSum (calcDc w dc (fuel + 2) rays (primary ω) (secondary ω)) i ch ∂μ =
        irradiance fun l => if w.cast { TRay.default with geometry := ⟨sensor.origin, worldOf e1 e2 sensor.direction l⟩ } = .ok none then 1 else ENNReal.ofReal (∑ k ∈ Finset.range dc.nAmbientSamples, ch c ^ (k + 1)) := by
  obtain ⟨e2, he, g1, g2⟩ := hext sensor.direction (hrays _ (List.mem_of_getElem? hs))
  have hf := frame_of_perp (hrays _ (List.mem_of_getElem? hs)) g1 g2
  refine ⟨e2.cross sensor.direction, e2, hf, fun ch hch => ?_⟩
  have hcc : 0 ≤ ch c := by
    simp only [List.mem_cons, List.not_mem_nil, or_false] at hch
    rcases hch with rfl | rfl | rfl
    exacts [hc.1, hc.2.1, hc.2.2]
  have hR := hw.renders hm.notLight.1 (by norm_num)
  obtain ⟨idx, hidx, hall⟩ := disc_cast hR hbox
  have hiff : ∀ ray : TRay, w.cast ray = .ok none ↔ idx ray.geometry = none := by
    intro ray
    rcases hall ray with ⟨a, b⟩ | ⟨i, tri, b, j, a, hc, _⟩
    · simp [a, b]
    · simp [a, hc]
  have hmeas : MeasurableSet {l : Vec3 ℝ | w.cast { TRay.default with geometry := ⟨sensor.origin, worldOf (e2.cross sensor.direction) e2 sensor.direction l⟩ } = .ok none} := by
    have ht : Measurable fun l : Vec3 ℝ => worldOf (e2.cross sensor.direction) e2 sensor.direction l := measurable_worldOf _ _ _ measurable_id
    have hmm : Measurable fun l : Vec3 ℝ => (⟨sensor.origin, worldOf (e2.cross sensor.direction) e2 sensor.direction l⟩ : Ray3 ℝ) := by fun_prop
    have := hmm (hidx none)
    convert this using 1
    ext l
    exact hiff _
  set S := ∑ k ∈ Finset.range dc.nAmbientSamples, ch c ^ (k + 1) with hS
  have hS0 : 0 ≤ S := Finset.sum_nonneg fun k _ => pow_nonneg hcc _
  have hval : ∀ᵐ r ∂randomNumbers, Rng.Valid r := valid_almost_surely
  have hall1 : ∀ᵐ ω ∂μ, ∀ i, (primary ω i).Valid := ae_all_iff.2 fun i => (hgen i).quasiMeasurePreserving.ae hval
  have hall2 : ∀ᵐ ω ∂μ, ∀ i k, (secondary ω i k).Valid := ae_all_iff.2 fun i => ae_all_iff.2 fun k => (hgen' i k).quasiMeasurePreserving.ae hval
  let F : Vec3 ℝ → ENNReal := fun l => if w.cast { TRay.default with geometry := ⟨sensor.origin, worldOf (e2.cross sensor.direction) e2 sensor.direction l⟩ } = .ok none then 1 else ENNReal.ofReal S
  have hF : Measurable F := Measurable.ite hmeas measurable_const measurable_const
  have hn' : (0 : ℝ) < dc.nAmbientSamples := by exact_mod_cast hn
  have e1 : ∫⁻ ω, rowSum (calcDc w dc (fuel + 2) rays (primary ω) (secondary ω)) i ch ∂μ = ∫⁻ r : Rng, ∑ k ∈ Finset.range dc.nAmbientSamples, F (cosDir (r (2 * k), r (2 * k + 1))) * ENNReal.ofReal (Real.pi / dc.nAmbientSamples) ∂randomNumbers := by
    have hmm : Measurable fun r : Rng => ∑ k ∈ Finset.range dc.nAmbientSamples, F (cosDir (r (2 * k), r (2 * k + 1))) * ENNReal.ofReal (Real.pi / dc.nAmbientSamples) := by
      refine Finset.measurable_fun_sum _ fun k _ => Measurable.mul_const ?_ _
      exact hF.comp (measurable_cosDir.comp ((measurable_pi_apply _).prodMk (measurable_pi_apply _)))
    refine Eq.trans (lintegral_congr_ae ?_) ((hgen i).lintegral_comp hmm)
    filter_upwards [hall1, hall2] with ω hω1 hω2
    obtain ⟨M, hM⟩ := calcDc_ok w dc (fuel + 2) rays (primary ω) (secondary ω) (fun i' sensor' hs' => by
      obtain ⟨e2', he', g1', g2'⟩ := hext sensor'.direction (hrays _ (List.mem_of_getElem? hs'))
      have hf' := frame_of_perp (hrays _ (List.mem_of_getElem? hs')) g1' g2'
      refine ⟨⟨e2', he'⟩, fun k hk => ?_⟩
      obtain ⟨cc, h1, _⟩ := triangle_task m c hm tri hw dc hD hbin ch hch sensor' e2' he' hf' k hk _ _ (hω1 i') (hω2 i' k) fuel
      exact ⟨cc, h1⟩)
    have htask : ∀ k < dc.nAmbientSamples, ∃ cc, dcTask w dc (fuel + 2) sensor (primary ω i) k (secondary ω i k) = .ok cc ∧ _ := fun k hk => triangle_task m c hm tri hw dc hD hbin ch hch sensor e2 he hf k hk _ _ (hω1 i) (hω2 i k) fuel
    haveI : Nonempty (Mat (Spectrum ℝ)) := ⟨dc.blank⟩
    choose! cs h1 h2 using htask
    have key := rowTotal_eq w dc (fuel + 2) rays (primary ω) (secondary ω) M hM i sensor hs (fun k => (cs k).total) (fun k hk cc hcc => by
      rw [h1 k hk] at hcc
      rw [← Res.ok.inj hcc])
    rw [hM]
    unfold rowSum
    simp only
    rw [key, chan_sum hch, List.map_map]
    have : ∀ n : Nat, ∀ f : Nat → ℝ, ((List.range n).map f).sum = ∑ i ∈ Finset.range n, f i := by
      intro n f
      exact (Finset.sum_range_induction _ (fun n => ((List.range n).map f).sum) (by simp) n (fun k _ => by simp [List.range_succ])).symm
    rw [this]
    have h3 : ∀ k ∈ Finset.range dc.nAmbientSamples, (ch ∘ fun k => (cs k).total) k = (if w.cast { TRay.default with geometry := ⟨sensor.origin, worldOf (e2.cross sensor.direction) e2 sensor.direction (cosDir (primary ω i (2 * k), primary ω i (2 * k + 1)))⟩ } = .ok none then 1 else S) * (Real.pi / dc.nAmbientSamples) := fun k hk => h2 k (Finset.mem_range.1 hk)
    rw [Finset.sum_congr rfl h3, ENNReal.ofReal_sum_of_nonneg]
    · refine Finset.sum_congr rfl fun k _ => ?_
      rw [ENNReal.ofReal_mul]
      · congr 1
        simp only [F]
        split_ifs
        · exact ENNReal.ofReal_one
        · rfl
      · split_ifs
        · norm_num
        · exact hS0
    · intro k _
      refine mul_nonneg ?_ (div_nonneg Real.pi_pos.le hn'.le)
      split_ifs
      · norm_num
      · exact hS0
  rw [e1, lintegral_finsetSum]
  · have : ∀ k ∈ Finset.range dc.nAmbientSamples, ∫⁻ r : Rng, F (cosDir (r (2 * k), r (2 * k + 1))) * ENNReal.ofReal (Real.pi / dc.nAmbientSamples) ∂randomNumbers = irradiance F / ENNReal.ofReal Real.pi * ENNReal.ofReal (Real.pi / dc.nAmbientSamples) := by
      intro k _
      have hmk : Measurable fun r : Rng => F (cosDir (r (2 * k), r (2 * k + 1))) := hF.comp (measurable_cosDir.comp ((measurable_pi_apply _).prodMk (measurable_pi_apply _)))
      rw [lintegral_mul_const _ hmk, mean_direction hF]
    rw [Finset.sum_congr rfl this, Finset.sum_const, Finset.card_range, nsmul_eq_mul, ENNReal.ofReal_div_of_pos hn', ENNReal.ofReal_natCast]
    have hp0 : ENNReal.ofReal Real.pi ≠ 0 := by simp [Real.pi_pos]
    have hn0 : (dc.nAmbientSamples : ENNReal) ≠ 0 := by exact_mod_cast hn.ne'
    rw [mul_comm (irradiance F / _), ← mul_assoc, ENNReal.mul_div_cancel hn0 (ENNReal.natCast_ne_top _), ENNReal.mul_div_cancel hp0 ENNReal.ofReal_ne_top]
  · intro k _
    exact (hF.comp (measurable_cosDir.comp ((measurable_pi_apply _).prodMk (measurable_pi_apply _)))).mul_const _

/-! ### What should come out -/

theorem irradiance_sum_le (n : Nat) (L : Nat → Vec3 ℝ → ENNReal) : ∑ j ∈ Finset.range n, irradiance (L j) ≤ irradiance fun l => ∑ j ∈ Finset.range n, L j l := by
  induction n with
  | zero => simp
  | succ n ih =>
    rw [Finset.sum_range_succ]
    refine (add_le_add_left ih _).trans ?_
    unfold irradiance
    refine (le_lintegral_add _ _).trans (lintegral_mono fun p => ?_)
    beta_reduce
    rw [Finset.sum_range_succ, add_mul]

/-- **C127, the bound.** If no surface reflects more than it receives, then along no ray more is seen of all patches together than 1, the radiance they are given, after any number of reflections. -/
theorem C127_patches_bounded {s : Scene ℝ} (hR : w.Renders s) (ch : Spectrum ℝ → ℝ) (hρ : ∀ (k : Nat) m, s.materials[k]? = some m → k ∈ s.front ++ s.back → ch m.colour ≤ 1) (bin : Vec3 ℝ → Nat) (n : Nat) (k : Nat) (view : Ray3 ℝ) :
    ∑ j ∈ Finset.range n, skySeen w bin ch j k view ≤ 1 := by
  have hind : ∀ b, ∑ j ∈ Finset.range n, (if b = j then (1 : ENNReal) else 0) ≤ 1 := by
    intro b
    rw [Finset.sum_ite_eq]
    split_ifs
    · exact le_rfl
    · exact zero_le_one
  induction k generalizing view with
  | zero =>
    simp only [skySeen]
    split
    · exact hind _
    · simp
  | succ k ih =>
    simp only [skySeen]
    split
    · exact hind _
    · split
      · rename_i m hm
        obtain ⟨q, hq1, hq2⟩ := material_from hR hm
        rw [← Finset.mul_sum]
        refine (mul_le_mul_right (irradiance_sum_le _ _) _).trans ?_
        refine (mul_le_mul_right (irradiance_mono fun l => ih _) _).trans ?_
        rw [colour_irradiance_const, mul_one]
        exact (ENNReal.ofReal_le_ofReal (hρ q m hq1 hq2)).trans ENNReal.ofReal_one.le
      · simp
    · simp

/-- A sensor is given at most `π` by all patches together. -/
theorem C127_sensor_bounded {s : Scene ℝ} (hR : w.Renders s) (ch : Spectrum ℝ → ℝ) (hρ : ∀ (k : Nat) m, s.materials[k]? = some m → k ∈ s.front ++ s.back → ch m.colour ≤ 1) (bin : Vec3 ℝ → Nat) (n : Nat) (k : Nat) (view : Vec3 ℝ → Ray3 ℝ) :
    ∑ j ∈ Finset.range n, irradiance (fun l => skySeen w bin ch j k (view l)) ≤ ENNReal.ofReal Real.pi := by
  refine (irradiance_sum_le _ _).trans ((irradiance_mono fun l => C127_patches_bounded hR ch hρ bin n k (view l)).trans ?_)
  rw [irradiance_const, one_mul]

/-- **C127, one matt triangle.** What is seen of all patches together along a ray, in a scene of one matt triangle of colour `c`: 1 where the triangle is not in the way, and `c` where it is. -/
theorem C127_triangle_reflects (m : Material ℝ) (c : Spectrum ℝ) (hm : m.Matt c) (tri : Tri ℝ) (hw : w.Shows m [tri]) (bin : Vec3 ℝ → Nat) (n : Nat) (hbin : ∀ d, Norm d = 1 → bin d < n) (hmeas : ∀ j, Measurable3 {d | bin d = j})
    (ch : Spectrum ℝ → ℝ) (k : Nat) (view : Ray3 ℝ) (hu : Norm view.direction = 1) :
    ∑ j ∈ Finset.range n, skySeen w bin ch j (k + 1) view = if w.cast { TRay.default with geometry := view } = .ok none then 1 else ENNReal.ofReal (ch c) := by
  have hind : ∀ b, b < n → ∑ j ∈ Finset.range n, (if b = j then (1 : ENNReal) else 0) = 1 := by
    intro b hb
    rw [Finset.sum_ite_eq, if_pos (Finset.mem_range.2 hb)]
  have hR := hw.renders hm.notLight.1 (by norm_num)
  have hcol : m.colour = c := by obtain ⟨r, rfl | rfl⟩ := hm <;> rfl
  by_cases hno : w.cast { TRay.default with geometry := view } = .ok none
  · simp only [skySeen, hno, if_true]
    exact hind _ (hbin _ hu)
  · simp only [hno, if_false]
    obtain ⟨tri', htri, b, hb, _, _, ⟨i, hcast, hmat, hnor⟩, _⟩ := hw.step_hit hm.notLight.1 (by norm_num) { TRay.default with geometry := view } hu hno
    rw [List.mem_singleton] at htri
    subst htri
    generalize harr : TRay.arrived { TRay.default with geometry := view } tri' b = arrived at hcast hmat
    have hit : arrived.interaction = recordedInteraction tri' view b := by rw [← harr]; rfl
    obtain ⟨_, hframe, hside, _⟩ := recorded_spec tri' view b hu hb
    have hunit : ∀ l, Norm l = 1 → Norm (arrived.onward m l).geometry.direction = 1 ∧ Dot (arrived.onward m l).geometry.direction (recordedInteraction tri' view b).shading.normal = l.z := by
      intro l hl
      have hl2 : l.x ^ 2 + l.y ^ 2 + l.z ^ 2 = 1 := by
        have := Dot_self_of_norm hl; simp only [Dot] at this; nlinarith
      obtain ⟨g1, g2⟩ := world_unit hframe hl2
      rw [world_eq] at g1 g2
      simp only [TRay.onward, hit]
      exact ⟨g1, g2⟩
    have hmiss : ∀ l, Norm l = 1 → 0 < l.z → ∀ j, skySeen w bin ch j k (arrived.onward m l).geometry = if bin (arrived.onward m l).geometry.direction = j then 1 else 0 := by
      intro l hl hz j
      obtain ⟨g1, g2⟩ := hunit l hl
      have : w.cast { TRay.default with geometry := (arrived.onward m l).geometry } = .ok none := by
        refine hR.cast_none _ ?_
        intro t ht tt p u v hth
        simp only [List.mem_singleton] at ht
        subst ht
        have hg : (arrived.onward m l).geometry = ⟨(recordedInteraction t view b).point + (recordedInteraction t view b).shading.normal.scale (1 / 10 ^ 5), (arrived.onward m l).geometry.direction⟩ := by
          simp only [TRay.onward, hit]
        rw [hg] at hth
        exact absurd hth (leaves t view b hu hb _ (by rw [g2]; exact hz.le) tt p u v)
      cases k with
      | zero => simp only [skySeen, this]
      | succ k => simp only [skySeen, this]
    have hseen : ∀ j, skySeen w bin ch j (k + 1) view = ENNReal.ofReal (ch c / Real.pi) * irradiance fun l => if bin (arrived.onward m l).geometry.direction = j then 1 else 0 := by
      intro j
      simp only [skySeen, hcast, hmat, hcol]
      rw [irradiance_congr' fun l hl hz => hmiss l hl hz j]
    simp only [hseen]
    rw [← Finset.mul_sum]
    have hsum : ∑ j ∈ Finset.range n, (irradiance fun l => if bin (arrived.onward m l).geometry.direction = j then (1 : ENNReal) else 0) = irradiance fun _ => 1 := by
      have e : (irradiance fun _ => (1 : ENNReal)) = irradiance fun l => ∑ j ∈ Finset.range n, if bin (arrived.onward m l).geometry.direction = j then (1 : ENNReal) else 0 :=
        irradiance_congr' fun l hl hz => (hind _ (hbin _ (hunit l hl).1)).symm
      rw [e]
      unfold irradiance
      rw [← lintegral_finsetSum]
      · refine lintegral_congr fun p => ?_
        rw [Finset.sum_mul]
      · intro j _
        refine Measurable.mul ?_ (ENNReal.measurable_ofReal.comp measurable_fst)
        have hd : Measurable fun p : ℝ × ℝ => directionAt p.1 p.2 := directionAt_measurable'
        have ht : Measurable fun p : ℝ × ℝ => (arrived.onward m (directionAt p.1 p.2)).geometry.direction := measurable_worldOf _ _ _ hd
        exact Measurable.ite (ht (measurable3_iff.1 (hmeas j))) measurable_const measurable_const
    rw [hsum, colour_irradiance_const, mul_one]

/-! ### A white floor -/

theorem floor_seen (d : Vec3 ℝ) (hd : Norm d = 1) (hz : d.z < -(9 / 10)) : ∃ d2, VisibleHit ⟨⟨0, 0, 1 / 2⟩, d⟩ (plane 0) d2 ∧ InRange d2 := by
  have h1 := Dot_self_of_norm hd
  simp only [Dot] at h1
  have hz1 : -1 ≤ d.z := by nlinarith [sq_nonneg d.x, sq_nonneg d.y]
  set t := 1 / 2 / -d.z with ht
  have hzp : 0 < -d.z := by linarith
  have ht1 : 1 / 2 ≤ t := by rw [ht, le_div_iff₀ hzp]; linarith
  have ht2 : t ≤ 5 / 9 := by rw [ht, div_le_iff₀ hzp]; linarith
  have htz : t * d.z = -(1 / 2) := by rw [ht, div_mul_eq_mul_div, div_eq_iff hzp.ne']; ring
  have hx : d.x ^ 2 ≤ 1 / 4 := by nlinarith [sq_nonneg d.y]
  have hy : d.y ^ 2 ≤ 1 / 4 := by nlinarith [sq_nonneg d.x]
  obtain ⟨x1, x2⟩ := abs_le.1 (abs_le_of_sq_le_sq (by norm_num at hx ⊢; linarith : d.x ^ 2 ≤ (1 / 2) ^ 2) (by norm_num))
  obtain ⟨y1, y2⟩ := abs_le.1 (abs_le_of_sq_le_sq (by norm_num at hy ⊢; linarith : d.y ^ 2 ≤ (1 / 2) ^ 2) (by norm_num))
  refine ⟨t ^ 2, ⟨t, ⟨t * d.x, t * d.y, 0⟩, ⟨?_, (t * d.x + 1) / 3, (t * d.y + 1) / 3, ?_, ?_, ?_, ?_⟩, ?_, ?_, ?_⟩, ?_, ?_⟩
  · ext <;> simp <;> linarith
  · nlinarith
  · nlinarith
  · nlinarith
  · ext <;> simp [plane] <;> ring
  · linarith
  · have : tripleProduct ⟨⟨0, 0, 1 / 2⟩, d⟩ (plane 0) = -9 * d.z := by
      simp only [tripleProduct, plane, Vec3.sub_x, Vec3.sub_y, Vec3.sub_z]; ring
    rw [this, abs_of_nonneg (by linarith)]; linarith
  · simp only [distSq, Vec3.sub_x, Vec3.sub_y, Vec3.sub_z]
    nlinarith
  · nlinarith
  · exact lt_trans (by nlinarith) floatMax_gt_one

/-- A scene of one white triangle, in which everything that the theorems about means ask for holds. -/
noncomputable def whiteFloor : Scene ℝ := { triangles := [plane 0], normals := [(unitNormal (plane 0), unitNormal (plane 0), unitNormal (plane 0))], front := [0], back := [0], materials := [.plastic Spectrum.one 0 0] }

theorem white_world : ∃ w : World, w.Shows (.plastic Spectrum.one 0 0) [plane 0] ∧ w.SunlitMatt whiteFloor := by
  obtain ⟨ext, hext⟩ := perpSpec_exists
  obtain ⟨r, hr⟩ := C04_build_succeeds realEnv.bvh refEnv_lawful [plane 0] (List.replicate [plane 0].length 0) (List.replicate [plane 0].length 0) ([plane 0].map (fun t => (unitNormal t, unitNormal t, unitNormal t))) (by simp) (by simp) (by simp)
  obtain ⟨bvh, t', f', b', n'⟩ := r
  have hw : World.Shows ⟨{ triangles := t', normals := n', front := f', back := b', materials := [.plastic Spectrum.one 0 0], accelerator := some bvh }, realEnv, ext, ⟨fun _ _ => false, fun _ _ => false⟩, none, none⟩ (.plastic Spectrum.one 0 0) [plane 0] := by
    refine ⟨refEnv_lawful, refEnv_conservative, rfl, ?_⟩
    change Scene.run realEnv {} (showing _ _) = _
    unfold showing
    rw [List.cons_append, Scene.run, Scene.step, Res.bind_ok, run_pushes realEnv rfl (.plastic Spectrum.one 0 0) rfl [plane 0] _ _ (by simp [Scene.pushMaterial])]
    simp only [Scene.pushMaterial, List.nil_append, Scene.run, Scene.step, Scene.buildAccelerator, Option.isSome_none, Bool.false_eq_true, if_false, Scene.rebuildAccelerator, hr, Res.bind_ok]
  have hR := hw.renders rfl (by norm_num)
  refine ⟨_, hw, ⟨⟨hR, ⟨?_, ?_, ?_, ?_⟩, hext, realEnv_measurable, ?_, rfl, rfl, ?_⟩, ?_⟩⟩
  · simp [whiteFloor]
  · simp [whiteFloor]
  · simp [whiteFloor]
  · simp [whiteFloor]
  · intro j tri hj
    cases j with
    | zero => simp only [whiteFloor, List.getElem?_cons_zero, Option.some.injEq] at hj ⊢; rw [← hj]; rfl
    | succ j => simp [whiteFloor] at hj
  · intro sun hs
    simp [whiteFloor] at hs
  · intro k m hk _
    cases k with
    | zero => simp only [whiteFloor, List.getElem?_cons_zero, Option.some.injEq] at hk; exact ⟨Spectrum.one, 0, by simp [← hk], by norm_num [Spectrum.Nonneg, Spectrum.one, Spectrum.gray]⟩
    | succ k => simp [whiteFloor] at hk

/-- **C127, violation: more samples.** There is a scene of one matt surface that reflects exactly what it receives, and a sensor, such that with two or more samples per point and `max_depth` at least 1 the mean of the sum of the coefficients of the
sensor is more than `π`, although all patches together can give it no more than `π`. -/
theorem C127_violation_more_samples : ∃ (w : World) (s : Scene ℝ) (sensor : Ray3 ℝ), w.SunlitMatt s ∧ Norm sensor.direction = 1 ∧ ∀ dc : DcFactory, 0 < dc.maxDepth → 2 ≤ dc.nAmbientSamples → (∀ d, Norm d = 1 → dc.dirToBin d < dc.nBins) →
    ∀ (Ω : Type) (_ : MeasurableSpace Ω) (μ : Measure Ω) (primary : Ω → Nat → Rng) (secondary : Ω → Nat → Nat → Rng), (∀ i, MeasurePreserving (fun ω => primary ω i) μ randomNumbers) → (∀ i k, MeasurePreserving (fun ω => secondary ω i k) μ randomNumbers) →
    ∀ ch ∈ [Spectrum.c0, Spectrum.c1, Spectrum.c2], ∀ fuel, ENNReal.ofReal Real.pi < ∫⁻ ω, rowSum (calcDc w dc (fuel + 2) [sensor] (primary ω) (secondary ω)) 0 ch ∂μ ∧
      ∀ e1 e2, Frame e1 e2 sensor.direction → ∑ j ∈ Finset.range dc.nBins, irradiance (fun l => skySeen w dc.dirToBin ch j (dc.maxDepth + 1) ⟨sensor.origin, worldOf e1 e2 sensor.direction l⟩) ≤ ENNReal.ofReal Real.pi := by
  obtain ⟨w, hw, hW⟩ := white_world
  have hu : Norm (⟨0, 0, -1⟩ : Vec3 ℝ) = 1 := Norm_eq_one (by norm_num [Dot])
  refine ⟨w, whiteFloor, ⟨⟨0, 0, 1 / 2⟩, ⟨0, 0, -1⟩⟩, hW, hu, fun dc hD hn hbin Ω _ μ primary secondary h1 h2 ch hch fuel => ⟨?_, fun e1 e2 _ => ?_⟩⟩
  · obtain ⟨e1, e2, hf, h⟩ := C127_violation_samples_add (.plastic Spectrum.one 0 0) Spectrum.one ⟨0, Or.inl rfl⟩ (by norm_num [Spectrum.Nonneg, Spectrum.one, Spectrum.gray]) (plane 0) hw hW.perp hW.box dc hD (by omega) hbin μ primary secondary h1 h2
      [⟨⟨0, 0, 1 / 2⟩, ⟨0, 0, -1⟩⟩] (by simpa using hu) 0 _ rfl fuel
    rw [h ch hch]
    have hone : ch Spectrum.one = 1 := chan_gray hch 1
    simp only [hone, one_pow, Finset.sum_const, Finset.card_range, nsmul_eq_mul, mul_one, ENNReal.ofReal_natCast]
    have hpos : 0 < irradiance fun l => if w.cast { TRay.default with geometry := ⟨⟨0, 0, 1 / 2⟩, worldOf e1 e2 ⟨0, 0, -1⟩ l⟩ } = .ok none then (0 : ENNReal) else 1 := by
      refine irradiance_pos (U := {p | 9 / 10 < p.1}) (isOpen_lt continuous_const continuous_fst) (z := 1) (φ := 0) ⟨by norm_num, le_rfl⟩ ⟨le_rfl, by positivity⟩ (by norm_num) (a := 1) one_pos fun p hp hb => ?_
      have hun : Norm (directionAt p.1 p.2) = 1 := by
        have h1 : 0 ≤ 1 - p.1 ^ 2 := by nlinarith [hb.1.1, hb.1.2]
        have h2 := Real.sq_sqrt h1
        have h3 := Real.sin_sq_add_cos_sq p.2
        refine Norm_eq_one ?_
        simp only [Dot, directionAt]
        calc _ = Real.sqrt (1 - p.1 ^ 2) ^ 2 * (Real.sin p.2 ^ 2 + Real.cos p.2 ^ 2) + p.1 ^ 2 := by ring
          _ = 1 := by rw [h2, h3]; ring
      have hd2 : (directionAt p.1 p.2).x ^ 2 + (directionAt p.1 p.2).y ^ 2 + (directionAt p.1 p.2).z ^ 2 = 1 := by
        have := Dot_self_of_norm hun; simp only [Dot] at this; nlinarith
      obtain ⟨g1, g2⟩ := world_unit hf hd2
      rw [world_eq] at g1 g2
      have hz : (worldOf e1 e2 ⟨0, 0, -1⟩ (directionAt p.1 p.2)).z < -(9 / 10) := by
        have h3 : Dot (worldOf e1 e2 ⟨0, 0, -1⟩ (directionAt p.1 p.2)) ⟨0, 0, -1⟩ = p.1 := g2
        simp only [Dot] at h3
        have : (9 : ℝ) / 10 < p.1 := hp
        linarith
      obtain ⟨dd, hv, hin⟩ := floor_seen _ g1 hz
      have hno : ¬ w.cast { TRay.default with geometry := ⟨⟨0, 0, 1 / 2⟩, worldOf e1 e2 ⟨0, 0, -1⟩ (directionAt p.1 p.2)⟩ } = .ok none := by
        intro hno
        rcases hW.renders.cast_cases { TRay.default with geometry := ⟨⟨0, 0, 1 / 2⟩, worldOf e1 e2 ⟨0, 0, -1⟩ (directionAt p.1 p.2)⟩ } with ⟨_, hn⟩ | ⟨i, tri, b, j, hc, _⟩
        · exact hn (plane 0) (by simp [whiteFloor]) dd hv hin
        · rw [hno] at hc
          cases hc
      simp only [hno, if_false]
      exact le_rfl
    have e := irradiance_add_const (fun l => if w.cast { TRay.default with geometry := ⟨⟨0, 0, 1 / 2⟩, worldOf e1 e2 ⟨0, 0, -1⟩ l⟩ } = .ok none then (0 : ENNReal) else 1) 1
    rw [irradiance_const, one_mul] at e
    refine lt_of_lt_of_le ?_ (irradiance_mono (L := fun l => (if w.cast { TRay.default with geometry := ⟨⟨0, 0, 1 / 2⟩, worldOf e1 e2 ⟨0, 0, -1⟩ l⟩ } = .ok none then (0 : ENNReal) else 1) + 1) fun l => ?_)
    · rw [e, add_comm]
      exact ENNReal.lt_add_right ENNReal.ofReal_ne_top hpos.ne'
    · split_ifs
      · simp
      · have : (2 : ENNReal) ≤ dc.nAmbientSamples := by exact_mod_cast hn
        exact le_trans (by norm_num) this
  · refine C127_sensor_bounded hW.renders ch (fun k m hk _ => ?_) _ _ _ fun l => ⟨⟨0, 0, 1 / 2⟩, worldOf e1 e2 ⟨0, 0, -1⟩ l⟩
    cases k with
    | zero => simp only [whiteFloor, List.getElem?_cons_zero, Option.some.injEq] at hk; rw [← hk]; exact (chan_gray hch 1).le
    | succ k => simp [whiteFloor] at hk

/-- **C127, the bound of a row.** With one sample per point, the coefficients of a sensor are on average together at most `π`, if no surface reflects more than it receives. -/
theorem C127_row_bounded_partial {s : Scene ℝ} (hW : w.SunlitMatt s) (dc : DcFactory) (hn : dc.nAmbientSamples = 1) (hD : 0 < dc.maxDepth) (hD15 : dc.maxDepth < 15) (h0 : 0 ≤ dc.limitWeight) (h1 : dc.limitWeight ≤ 1) (hbin : ∀ d, Norm d = 1 → dc.dirToBin d < dc.nBins) (hmeas : ∀ j, Measurable3 {d | dc.dirToBin d = j})
    {Ω : Type} [MeasurableSpace Ω] (μ : Measure Ω) (primary : Ω → Nat → Rng) (secondary : Ω → Nat → Nat → Rng) (hgen : ∀ i, MeasurePreserving (fun ω => (primary ω i, secondary ω i 0)) μ (randomNumbers.prod randomNumbers))
    (rays : List (Ray3 ℝ)) (hrays : ∀ r ∈ rays, Norm r.direction = 1) (i : Nat) (hi : i < rays.length) (fuel : Nat) (hfuel : dc.maxDepth + 2 ≤ fuel)
    (ch : Spectrum ℝ → ℝ) (hch : ch ∈ [Spectrum.c0, Spectrum.c1, Spectrum.c2]) (hρ : ∀ (k : Nat) m, s.materials[k]? = some m → k ∈ s.front ++ s.back → ch m.colour ≤ 1) :
    ∑ j ∈ Finset.range dc.nBins, ∫⁻ ω, coefficient (calcDc w dc fuel rays (primary ω) (secondary ω)) i j ch ∂μ ≤ ENNReal.ofReal Real.pi := by
  obtain ⟨e1, e2, hf, h⟩ := C127_one_sample_partial hW dc hn hD hD15 h0 h1 hbin hmeas μ primary secondary hgen rays hrays i rays[i] (List.getElem?_eq_getElem hi) fuel hfuel
  rw [Finset.sum_congr rfl fun j hj => h j (Finset.mem_range.1 hj) ch hch]
  exact C127_sensor_bounded hW.renders ch hρ _ _ _ fun l => ⟨rays[i].origin, worldOf e1 e2 rays[i].direction l⟩

/-- C127: with one sample per point, the white floor is on average as bright as the sky: a sensor above it that looks down gets `π`, and with two patches no more than `π`. -/
example : ∃ w : World, w.SunlitMatt whiteFloor ∧
    ∫⁻ ω : Rng × Rng, coefficient (calcDc w { maxDepth := 3, nAmbientSamples := 1, limitWeight := 1 / 1000, countSpecularBounce := 3 / 10, nBins := 1, dirToBin := fun _ => 0 } 10 [⟨⟨0, 0, 1 / 2⟩, ⟨0, 0, -1⟩⟩]
      (fun _ => ω.1) (fun _ _ => ω.2)) 0 0 Spectrum.c1 ∂(randomNumbers.prod randomNumbers) = ENNReal.ofReal Real.pi ∧
    ∑ j ∈ Finset.range 2, ∫⁻ ω : Rng × Rng, coefficient (calcDc w { maxDepth := 3, nAmbientSamples := 1, limitWeight := 1 / 1000, countSpecularBounce := 3 / 10, nBins := 2, dirToBin := fun d => if 0 < d.y then 0 else 1 } 10 [⟨⟨0, 0, 1 / 2⟩, ⟨0, 0, -1⟩⟩]
      (fun _ => ω.1) (fun _ _ => ω.2)) 0 j Spectrum.c1 ∂(randomNumbers.prod randomNumbers) ≤ ENNReal.ofReal Real.pi := by
  obtain ⟨w, hw, hW⟩ := white_world
  have hu : Norm (⟨0, 0, -1⟩ : Vec3 ℝ) = 1 := Norm_eq_one (by norm_num [Dot])
  have hb : ∀ d : Vec3 ℝ, Norm d = 1 → (if 0 < d.y then 0 else 1) < 2 := by intro d _; split_ifs <;> norm_num
  have hm : ∀ j : Nat, Measurable3 {d : Vec3 ℝ | (if 0 < d.y then 0 else 1) = j} := by
    intro j
    rw [measurable3_iff]
    have h0 : MeasurableSet {d : Vec3 ℝ | 0 < d.y} := measurableSet_lt measurable_const (by fun_prop)
    exact (Measurable.ite h0 measurable_const measurable_const : Measurable fun d : Vec3 ℝ => if 0 < d.y then 0 else 1) (measurableSet_singleton j)
  have hm1 : ∀ j : Nat, Measurable3 {_d : Vec3 ℝ | 0 = j} := by
    intro j
    rw [measurable3_iff]
    exact MeasurableSet.const _
  refine ⟨w, hW, ?_, ?_⟩
  · obtain ⟨e1, e2, hf, h⟩ := C127_one_sample_partial hW { maxDepth := 3, nAmbientSamples := 1, limitWeight := 1 / 1000, countSpecularBounce := 3 / 10, nBins := 1, dirToBin := fun _ => 0 } rfl (by norm_num) (by norm_num) (by norm_num) (by norm_num) (fun _ _ => by norm_num) hm1
      (randomNumbers.prod randomNumbers) (fun ω _ => ω.1) (fun ω _ _ => ω.2) (fun _ => MeasurePreserving.id _) [⟨⟨0, 0, 1 / 2⟩, ⟨0, 0, -1⟩⟩] (by simpa using hu) 0 _ rfl 10 (by norm_num)
    rw [h 0 (by norm_num) Spectrum.c1 (by simp)]
    rw [irradiance_congr (L' := fun _ => 1), irradiance_const, one_mul]
    intro l hl
    have hl2 : l.x ^ 2 + l.y ^ 2 + l.z ^ 2 = 1 := by
      have := Dot_self_of_norm hl; simp only [Dot] at this; nlinarith
    have g1 := (world_unit hf hl2).1
    rw [world_eq] at g1
    have := C127_triangle_reflects (.plastic Spectrum.one 0 0) Spectrum.one ⟨0, Or.inl rfl⟩ (plane 0) hw (fun _ => 0) 1 (fun _ _ => by norm_num) hm1 Spectrum.c1 3 ⟨⟨0, 0, 1 / 2⟩, worldOf e1 e2 ⟨0, 0, -1⟩ l⟩ g1
    rw [Finset.sum_range_one, show ENNReal.ofReal (Spectrum.one : Spectrum ℝ).c1 = 1 by simp [Spectrum.one, Spectrum.gray], ite_self] at this
    exact this
  · refine C127_row_bounded_partial hW { maxDepth := 3, nAmbientSamples := 1, limitWeight := 1 / 1000, countSpecularBounce := 3 / 10, nBins := 2, dirToBin := fun d => if 0 < d.y then 0 else 1 } rfl (by norm_num) (by norm_num) (by norm_num) (by norm_num) hb hm
      (randomNumbers.prod randomNumbers) (fun ω _ => ω.1) (fun ω _ _ => ω.2) (fun _ => MeasurePreserving.id _) [⟨⟨0, 0, 1 / 2⟩, ⟨0, 0, -1⟩⟩] (by simpa using hu) 0 (by norm_num) 10 (by norm_num) Spectrum.c1 (by simp) fun k m hk _ => ?_
    cases k with
    | zero => simp only [whiteFloor, List.getElem?_cons_zero, Option.some.injEq] at hk; rw [← hk]; simp [Material.colour, Spectrum.one, Spectrum.gray]
    | succ k => simp [whiteFloor] at hk

end Rendering
