import Verif.Props.GlazedEnergy
import Verif.Props.PixelNoise
import Verif.Props.GlazedExample

/-!
# C138 for whole pictures: scenes with mirrors, panes of glass and dielectrics
-/

set_option linter.unusedSectionVars false
namespace Rendering

open MeasureTheory Set Classical

variable {w : World} {s : Scene ℝ}

/-- Each pixel of the picture is a random experiment that uses up some random numbers, with mean `L`. -/
def TracedPixels (w : World) (rt : RayTracer) (fuel : Nat) (c : Pinhole) (width height : Nat) (L : (Spectrum ℝ → ℝ) → Nat × Nat → ENNReal) : Prop :=
  ∀ ch ∈ [Spectrum.c0, Spectrum.c1, Spectrum.c2], ∀ p : Nat × Nat, p.1 < width → p.2 < height →
    ∃ (val : Rng → ENNReal) (rest : Rng → Rng), Measurable val ∧ Measurable rest ∧ (∀ Φ : Rng → ENNReal, Measurable Φ → avg (fun r => Φ (rest r)) = avg Φ) ∧ avg val = L ch p ∧
      (∀ Φ : Rng → ENNReal, Measurable Φ → avg (fun r => val r * Φ (rest r)) = avg val * avg Φ) ∧
      (∀ r : Rng, r.Valid → (rest r).Valid ∧ ∀ rays : List TRay, rt.maxDepth < rays.length → (pixelTracer w rt fuel c p ⟨r, rays⟩).2.rng = rest r ∧ ENNReal.ofReal (ch (pixelTracer w rt fuel c p ⟨r, rays⟩).1) = val r) ∧
      ∀ r : Rng, r.Valid → ∀ rays : List TRay, rt.maxDepth < rays.length → seenLight (traceRay w rt fuel ⟨r, rays⟩ (c.traceableRay p)) ch = val r

/-- They are in a scene with mirrors, panes and dielectrics. -/
theorem glazed_pixels (hW : w.SunlitGlazed s) (rt : RayTracer) (hsh : 0 < rt.nShadowSamples) (n fuel : Nat) (hfuel : n + rt.nShadowSamples + rt.nAmbientSamples + 2 ≤ fuel) (c : Pinhole) (width height : Nat) (hu : ∀ p, Norm (c.traceableRay p).geometry.direction = 1)
    (hE : ∀ p : Nat × Nat, p.1 < width → p.2 < height → w.EndsWithin rt n (c.traceableRay p)) : TracedPixels w rt fuel c width height (fun ch p => glazedLight w rt ch n (c.traceableRay p)) := by
  intro ch hch p hx hy
  obtain ⟨val, rest, hF, h⟩ := glazed_fresh hW rt hsh ch hch n 0 1 1 zero_le_one one_pos
  obtain ⟨h1, h2⟩ := h (c.traceableRay p) (hE p hx hy) rfl (by simp [Pinhole.traceableRay, Pinhole.genRay]) (by simp [Pinhole.traceableRay, TRay.default]) (hu _)
  refine ⟨val (c.traceableRay p).geometry, rest (c.traceableRay p).geometry, hF.mval_at _, hF.mrest_at _, hF.keep _, h1, hF.indep _, pixel_gives rt ch fuel c p (h2 fuel hfuel), fun r hr rays hlen => ?_⟩
  obtain ⟨light, g1, -, g3, -⟩ := h2 fuel hfuel r hr
  rw [seen_of_ref rt fuel r rays hlen (c.traceableRay p) ch g1, g3]

theorem in_range {width height i : Nat} (h : i < width * height) : i % width < width ∧ i / width < height := by
  have hw : 0 < width := Nat.pos_of_ne_zero fun e => by rw [e, Nat.zero_mul] at h; omega
  exact ⟨Nat.mod_lt _ hw, Nat.div_lt_of_lt_mul h⟩

theorem pixel_index {width height x y : Nat} (hx : x < width) (hy : y < height) : y * width + x < width * height := by
  calc y * width + x < y * width + width := by omega
    _ = width * (y + 1) := by ring
    _ ≤ _ := Nat.mul_le_mul_left _ hy

/-- The random numbers a pixel starts with are those its chunk started with, after some have been used: they are again endless and uniform. -/
theorem traced_state (rt : RayTracer) (hD : rt.maxDepth < 15) (fuel : Nat) (c : Pinhole) {L : (Spectrum ℝ → ℝ) → Nat × Nat → ENNReal} (width height : Nat) (hT : TracedPixels w rt fuel c width height L) (i : Nat) (hi : i < width * height) :
    ∃ rest : Rng → Rng, Measurable rest ∧ (∀ Φ : Rng → ENNReal, Measurable Φ → avg (fun r => Φ (rest r)) = avg Φ) ∧
      ∀ gen : Nat → Rng, (gen (i / 128)).Valid → (rest (gen (i / 128))).Valid ∧ (pixelState (pixelTracer w rt fuel c) (chunkState gen) width i).rng = rest (gen (i / 128)) := by
  induction i with
  | zero => exact ⟨id, measurable_id, fun _ _ => rfl, fun gen hv => ⟨hv, rfl⟩⟩
  | succ i ih =>
    by_cases h : (i + 1) % 128 = 0
    · refine ⟨id, measurable_id, fun _ _ => rfl, fun gen hv => ⟨hv, ?_⟩⟩
      simp only [pixelState, h, if_true]
      rfl
    · obtain ⟨rest, m1, k1, v1⟩ := ih (by omega)
      obtain ⟨hx, hy⟩ := in_range (Nat.lt_of_succ_lt hi)
      obtain ⟨val', rest', -, m2, k2, -, -, v2, -⟩ := hT Spectrum.c0 (by simp) (i % width, i / width) hx hy
      have hd : (i + 1) / 128 = i / 128 := by omega
      refine ⟨rest' ∘ rest, m2.comp m1, fun Φ hΦ => ?_, fun gen hv => ?_⟩
      · exact (k1 (fun r => Φ (rest' r)) (hΦ.comp m2)).trans (k2 Φ hΦ)
      · rw [hd] at hv ⊢
        obtain ⟨g1, g2⟩ := v1 gen hv
        obtain ⟨g3, g4⟩ := v2 _ g1
        refine ⟨g3, ?_⟩
        have hk := pixelState_keeps w rt fuel c gen width hD i
        simp only [pixelState, h, if_false]
        generalize pixelState (pixelTracer w rt fuel c) (chunkState gen) width i = st at hk g2
        obtain ⟨rg, rays⟩ := st
        simp only at g2 hk
        subst g2
        exact (g4 rays hk).1

/-- Means. Let every chunk of pixels get a generator of independent uniform numbers; the generators may depend on one another. Then, whatever the schedule of the workers (it may even depend on the random numbers), the mean of each channel
of each pixel is the light of the rendering equation along the camera's ray through that pixel, although all pixels of a chunk share a generator. -/
theorem traced_mean (o : SpictOptions) (ho : o.Sized) (hD : o.rt.maxDepth < 15) (fuel : Nat) {L : (Spectrum ℝ → ℝ) → Nat × Nat → ENNReal} (hT : TracedPixels w o.rt fuel o.camera o.width o.height L)
    {Ω : Type} [MeasurableSpace Ω] (μ : Measure Ω) (gen : Ω → Nat → Rng) (hgen : ∀ k, MeasurePreserving (fun ω => gen ω k) μ randomNumbers) (state : Ω → RState TState (Spectrum ℝ)) (hs : ∀ ω, o.Rendered w fuel (gen ω) (state ω))
    (ch : Spectrum ℝ → ℝ) (hch : ch ∈ [Spectrum.c0, Spectrum.c1, Spectrum.c2]) (x y : Nat) (hx : x < o.width) (hy : y < o.height) :
    ∫⁻ ω, ENNReal.ofReal (ch (pixelOf o.width o.height (state ω) x y)) ∂μ = L ch (x, y) := by
  obtain ⟨rest, m1, k1, v1⟩ := traced_state o.rt hD fuel o.camera o.width o.height hT (y * o.width + x) (pixel_index hx hy)
  obtain ⟨val, rest', m2, -, -, k2, -, v2, -⟩ := hT ch hch (x, y) hx hy
  rw [← k2, ← k1 val m2]
  have hP := hgen ((y * o.width + x) / 128)
  have hm : Measurable fun r => val (rest r) := m2.comp m1
  refine Eq.trans ?_ (hP.lintegral_comp hm)
  have hval : ∀ᵐ r ∂randomNumbers, Rng.Valid r := valid_almost_surely
  refine lintegral_congr_ae ?_
  filter_upwards [hP.quasiMeasurePreserving.ae hval] with ω hω
  obtain ⟨⟨m, hr⟩, hf⟩ := hs ω
  rw [pixelOf, C39_pixel_value _ _ _ _ ho.pixels hr hf x y hx hy, Option.getD_some]
  obtain ⟨g1, g2⟩ := v1 (gen ω) hω
  have hk := pixelState_keeps w o.rt fuel o.camera (gen ω) o.width hD (y * o.width + x)
  generalize pixelState (pixelTracer w o.rt fuel o.camera) (chunkState (gen ω)) o.width (y * o.width + x) = st at hk g2
  obtain ⟨rg, rays⟩ := st
  simp only at g2 hk
  subst g2
  exact ((v2 _ g1).2 rays hk).2

/-- From one pixel of a chunk to a later one: the random numbers in between are used up. -/
theorem traced_later (rt : RayTracer) (hD : rt.maxDepth < 15) (fuel : Nat) (c : Pinhole) {L : (Spectrum ℝ → ℝ) → Nat × Nat → ENNReal} (width height : Nat) (hT : TracedPixels w rt fuel c width height L) (i d : Nat) (hi : i + d < width * height) (hchunk : i / 128 = (i + d) / 128) :
    ∃ rest : Rng → Rng, Measurable rest ∧ (∀ Φ : Rng → ENNReal, Measurable Φ → avg (fun r => Φ (rest r)) = avg Φ) ∧
      ∀ gen : Nat → Rng, (pixelState (pixelTracer w rt fuel c) (chunkState gen) width i).rng.Valid → (rest (pixelState (pixelTracer w rt fuel c) (chunkState gen) width i).rng).Valid ∧
        (pixelState (pixelTracer w rt fuel c) (chunkState gen) width (i + d)).rng = rest (pixelState (pixelTracer w rt fuel c) (chunkState gen) width i).rng := by
  induction d with
  | zero => exact ⟨id, measurable_id, fun _ _ => rfl, fun gen hv => ⟨hv, rfl⟩⟩
  | succ d ih =>
    obtain ⟨rest, m1, k1, v1⟩ := ih (by omega) (by omega)
    obtain ⟨hx, hy⟩ := in_range (width := width) (height := height) (i := i + d) (by omega)
    obtain ⟨val', rest', -, m2, k2, -, -, v2, -⟩ := hT Spectrum.c0 (by simp) ((i + d) % width, (i + d) / width) hx hy
    refine ⟨rest' ∘ rest, m2.comp m1, fun Φ hΦ => (k1 (fun r => Φ (rest' r)) (hΦ.comp m2)).trans (k2 Φ hΦ), fun gen hv => ?_⟩
    obtain ⟨g1, g2⟩ := v1 gen hv
    obtain ⟨g3, g4⟩ := v2 _ g1
    refine ⟨g3, ?_⟩
    have hk := pixelState_keeps w rt fuel c gen width hD (i + d)
    have hne : ¬ (i + d + 1) % 128 = 0 := by omega
    have e : pixelState (pixelTracer w rt fuel c) (chunkState gen) width (i + (d + 1)) = (pixelTracer w rt fuel c ((i + d) % width, (i + d) / width) (pixelState (pixelTracer w rt fuel c) (chunkState gen) width (i + d))).2 := by
      rw [← Nat.add_assoc]
      conv_lhs => unfold pixelState
      rw [if_neg hne]
    rw [e]
    generalize pixelState (pixelTracer w rt fuel c) (chunkState gen) width (i + d) = st at hk g2
    obtain ⟨rg, rays⟩ := st
    simp only at g2 hk
    subst g2
    exact (g4 rays hk).1

section
variable {Ω : Type} [MeasurableSpace Ω] {μ : Measure Ω} {gen : Ω → Nat → Rng}

/-- What two pixels of one chunk have to do with each other. -/
theorem traced_chunk (o : SpictOptions) (ho : o.Sized) (hD : o.rt.maxDepth < 15) (fuel : Nat) {L : (Spectrum ℝ → ℝ) → Nat × Nat → ENNReal} (hT : TracedPixels w o.rt fuel o.camera o.width o.height L)
    (hgen : ∀ k, MeasurePreserving (fun ω => gen ω k) μ randomNumbers) (state : Ω → RState TState (Spectrum ℝ)) (hs : ∀ ω, o.Rendered w fuel (gen ω) (state ω))
    (ch ch' : Spectrum ℝ → ℝ) (hch : ch ∈ [Spectrum.c0, Spectrum.c1, Spectrum.c2]) (hch' : ch' ∈ [Spectrum.c0, Spectrum.c1, Spectrum.c2]) (x y x' y' : Nat) (hx : x < o.width) (hy : y < o.height) (hx' : x' < o.width) (hy' : y' < o.height)
    (hlt : y * o.width + x < y' * o.width + x') (hchunk : (y * o.width + x) / 128 = (y' * o.width + x') / 128) :
    ∫⁻ ω, ENNReal.ofReal (ch (pixelOf o.width o.height (state ω) x y)) * ENNReal.ofReal (ch' (pixelOf o.width o.height (state ω) x' y')) ∂μ =
      L ch (x, y) * L ch' (x', y') := by
  obtain ⟨val, rest, m2, m3, k3, k2, i2, v2, -⟩ := hT ch hch (x, y) hx hy
  obtain ⟨val', rest', m2', -, -, k2', -, v2', -⟩ := hT ch' hch' (x', y') hx' hy'
  obtain ⟨rest0, m1, k1, v1⟩ := traced_state o.rt hD fuel o.camera o.width o.height hT (y * o.width + x) (pixel_index hx hy)
  obtain ⟨d, hd⟩ : ∃ d, y' * o.width + x' = y * o.width + x + 1 + d := ⟨y' * o.width + x' - (y * o.width + x + 1), by omega⟩
  obtain ⟨rest1, m4, k4, v4⟩ := traced_later o.rt hD fuel o.camera o.width o.height hT (y * o.width + x + 1) d (by rw [← hd]; exact pixel_index hx' hy') (by omega)
  have hfun : Measurable fun r => val r * val' (rest1 (rest r)) := m2.mul (m2'.comp (m4.comp m3))
  have hm : Measurable fun r => val (rest0 r) * val' (rest1 (rest (rest0 r))) := hfun.comp m1
  have hmean : avg (fun r => val (rest0 r) * val' (rest1 (rest (rest0 r)))) = avg val * avg val' := by
    rw [k1 (fun r => val r * val' (rest1 (rest r))) hfun, i2 (fun r => val' (rest1 r)) (m2'.comp m4), k4 val' m2']
  rw [← k2, ← k2', ← hmean]
  have hP := hgen ((y * o.width + x) / 128)
  refine Eq.trans ?_ (hP.lintegral_comp hm)
  have hval : ∀ᵐ r ∂randomNumbers, Rng.Valid r := valid_almost_surely
  refine lintegral_congr_ae ?_
  filter_upwards [hP.quasiMeasurePreserving.ae hval] with ω hω
  obtain ⟨g1, g2⟩ := v1 (gen ω) hω
  rw [← g2] at g1
  obtain ⟨p1, p2⟩ := pixel_value o ho hD fuel (gen ω) (state ω) (hs ω) ch x y hx hy v2 g1
  have p2 := p2 (by omega)
  have g3 := (v2 _ g1).1
  rw [← p2] at g3
  obtain ⟨g4, g5⟩ := v4 (gen ω) g3
  rw [← g5, ← hd] at g4
  obtain ⟨q1, -⟩ := pixel_value o ho hD fuel (gen ω) (state ω) (hs ω) ch' x' y' hx' hy' v2' g4
  rw [p1, q1, hd, g5, p2, g2]

/-- Products of two pixels. Let the generators of the chunks be independent (pairwise). Then the noise of different pixels is uncorrelated, whatever the schedule of the workers, and although all pixels of a chunk share a generator: the mean of the product of two pixels is the product of their means. -/
theorem traced_uncorrelated (o : SpictOptions) (ho : o.Sized) (hD : o.rt.maxDepth < 15) (fuel : Nat) {L : (Spectrum ℝ → ℝ) → Nat × Nat → ENNReal} (hT : TracedPixels w o.rt fuel o.camera o.width o.height L)
    (hgen : ∀ k, MeasurePreserving (fun ω => gen ω k) μ randomNumbers) (hind : ∀ k k', k ≠ k' → ProbabilityTheory.IndepFun (fun ω => gen ω k) (fun ω => gen ω k') μ) (state : Ω → RState TState (Spectrum ℝ)) (hs : ∀ ω, o.Rendered w fuel (gen ω) (state ω))
    (ch ch' : Spectrum ℝ → ℝ) (hch : ch ∈ [Spectrum.c0, Spectrum.c1, Spectrum.c2]) (hch' : ch' ∈ [Spectrum.c0, Spectrum.c1, Spectrum.c2]) (x y x' y' : Nat) (hx : x < o.width) (hy : y < o.height) (hx' : x' < o.width) (hy' : y' < o.height) (hne : (x, y) ≠ (x', y')) :
    ∫⁻ ω, ENNReal.ofReal (ch (pixelOf o.width o.height (state ω) x y)) * ENNReal.ofReal (ch' (pixelOf o.width o.height (state ω) x' y')) ∂μ =
      (∫⁻ ω, ENNReal.ofReal (ch (pixelOf o.width o.height (state ω) x y)) ∂μ) * ∫⁻ ω, ENNReal.ofReal (ch' (pixelOf o.width o.height (state ω) x' y')) ∂μ := by
  have e1 := traced_mean o ho hD fuel hT μ gen hgen state hs ch hch x y hx hy
  have e2 := traced_mean o ho hD fuel hT μ gen hgen state hs ch' hch' x' y' hx' hy'
  have hidx : y * o.width + x ≠ y' * o.width + x' := by
    intro h
    have hw : 0 < o.width := by omega
    have h1 : (y * o.width + x) % o.width = x := by rw [Nat.mul_comm, Nat.mul_add_mod, Nat.mod_eq_of_lt hx]
    have h2 : (y' * o.width + x') % o.width = x' := by rw [Nat.mul_comm, Nat.mul_add_mod, Nat.mod_eq_of_lt hx']
    have h3 : (y * o.width + x) / o.width = y := by rw [Nat.mul_comm, Nat.mul_add_div hw, Nat.div_eq_of_lt hx, Nat.add_zero]
    have h4 : (y' * o.width + x') / o.width = y' := by rw [Nat.mul_comm, Nat.mul_add_div hw, Nat.div_eq_of_lt hx', Nat.add_zero]
    rw [h] at h1 h3
    exact hne (by rw [← h1, ← h3, h2, h4])
  by_cases hchunk : (y * o.width + x) / 128 = (y' * o.width + x') / 128
  · rw [e1, e2]
    rcases lt_or_gt_of_ne hidx with h | h
    · exact traced_chunk o ho hD fuel hT hgen state hs ch ch' hch hch' x y x' y' hx hy hx' hy' h hchunk
    · have := traced_chunk o ho hD fuel hT hgen state hs ch' ch hch' hch x' y' x y hx' hy' hx hy h hchunk.symm
      rw [mul_comm (L ch _)]
      rw [← this]
      exact lintegral_congr fun ω => mul_comm _ _
  · obtain ⟨val, rest, m2, -, -, -, -, v2, -⟩ := hT ch hch (x, y) hx hy
    obtain ⟨val', rest', m2', -, -, -, -, v2', -⟩ := hT ch' hch' (x', y') hx' hy'
    obtain ⟨r0, m1, -, v1⟩ := traced_state o.rt hD fuel o.camera o.width o.height hT (y * o.width + x) (pixel_index hx hy)
    obtain ⟨r0', m1', -, v1'⟩ := traced_state o.rt hD fuel o.camera o.width o.height hT (y' * o.width + x') (pixel_index hx' hy')
    have hval : ∀ᵐ r ∂randomNumbers, Rng.Valid r := valid_almost_surely
    have hP := hgen ((y * o.width + x) / 128)
    have hP' := hgen ((y' * o.width + x') / 128)
    have a1 : (fun ω => ENNReal.ofReal (ch (pixelOf o.width o.height (state ω) x y))) =ᵐ[μ] fun ω => val (r0 (gen ω ((y * o.width + x) / 128))) := by
      filter_upwards [hP.quasiMeasurePreserving.ae hval] with ω hω
      obtain ⟨g1, g2⟩ := v1 (gen ω) hω
      rw [← g2] at g1 ⊢
      exact (pixel_value o ho hD fuel (gen ω) (state ω) (hs ω) ch x y hx hy v2 g1).1
    have a2 : (fun ω => ENNReal.ofReal (ch' (pixelOf o.width o.height (state ω) x' y'))) =ᵐ[μ] fun ω => val' (r0' (gen ω ((y' * o.width + x') / 128))) := by
      filter_upwards [hP'.quasiMeasurePreserving.ae hval] with ω hω
      obtain ⟨g1, g2⟩ := v1' (gen ω) hω
      rw [← g2] at g1 ⊢
      exact (pixel_value o ho hD fuel (gen ω) (state ω) (hs ω) ch' x' y' hx' hy' v2' g1).1
    have hi := (hind _ _ hchunk).comp (m2.comp m1) (m2'.comp m1')
    have := ProbabilityTheory.lintegral_mul_eq_lintegral_mul_lintegral_of_indepFun'' (((m2.comp m1).comp hP.measurable).aemeasurable) (((m2'.comp m1').comp hP'.measurable).aemeasurable) hi
    rw [lintegral_congr_ae a1, lintegral_congr_ae a2]
    refine Eq.trans (lintegral_congr_ae ?_) this
    filter_upwards [a1, a2] with ω h1 h2
    rw [h1, h2]
    rfl
/-- One pixel. Let every chunk get a generator of independent uniform numbers. Whatever the schedule, the colour of a pixel has exactly the distribution of the light that tracing its ray alone, with a generator of its own, brings back: the pixels before it leave no trace. -/
theorem traced_law (o : SpictOptions) (ho : o.Sized) (hD : o.rt.maxDepth < 15) (fuel : Nat) {L : (Spectrum ℝ → ℝ) → Nat × Nat → ENNReal} (hT : TracedPixels w o.rt fuel o.camera o.width o.height L)
    (hgen : ∀ k, MeasurePreserving (fun ω => gen ω k) μ randomNumbers) (state : Ω → RState TState (Spectrum ℝ)) (hs : ∀ ω, o.Rendered w fuel (gen ω) (state ω))
    (ch : Spectrum ℝ → ℝ) (hch : ch ∈ [Spectrum.c0, Spectrum.c1, Spectrum.c2]) (x y : Nat) (hx : x < o.width) (hy : y < o.height) (rays : List TRay) (hlen : o.rt.maxDepth < rays.length) :
    AEMeasurable (fun ω => ENNReal.ofReal (ch (pixelOf o.width o.height (state ω) x y))) μ ∧ ∀ Φ : ENNReal → ENNReal, Measurable Φ →
      ∫⁻ ω, Φ (ENNReal.ofReal (ch (pixelOf o.width o.height (state ω) x y))) ∂μ = ∫⁻ r, Φ (seenLight (traceRay w o.rt fuel ⟨r, rays⟩ (o.camera.traceableRay (x, y))) ch) ∂randomNumbers := by
  obtain ⟨val, rest, m2, -, -, -, -, v2, v3⟩ := hT ch hch (x, y) hx hy
  obtain ⟨r0, m1, k1, v1⟩ := traced_state o.rt hD fuel o.camera o.width o.height hT (y * o.width + x) (pixel_index hx hy)
  have hval : ∀ᵐ r ∂randomNumbers, Rng.Valid r := valid_almost_surely
  have hP := hgen ((y * o.width + x) / 128)
  have a1 : (fun ω => ENNReal.ofReal (ch (pixelOf o.width o.height (state ω) x y))) =ᵐ[μ] fun ω => val (r0 (gen ω ((y * o.width + x) / 128))) := by
    filter_upwards [hP.quasiMeasurePreserving.ae hval] with ω hω
    obtain ⟨g1, g2⟩ := v1 (gen ω) hω
    rw [← g2] at g1 ⊢
    exact (pixel_value o ho hD fuel (gen ω) (state ω) (hs ω) ch x y hx hy v2 g1).1
  refine ⟨⟨_, m2.comp (m1.comp hP.measurable), a1⟩, fun Φ hΦ => ?_⟩
  have hm : Measurable fun r => Φ (val (r0 r)) := hΦ.comp (m2.comp m1)
  have e1 : ∫⁻ ω, Φ (ENNReal.ofReal (ch (pixelOf o.width o.height (state ω) x y))) ∂μ = avg fun r => Φ (val (r0 r)) := by
    refine Eq.trans (lintegral_congr_ae ?_) (hP.lintegral_comp hm)
    filter_upwards [a1] with ω h1
    rw [h1]
  rw [e1, k1 (fun r => Φ (val r)) (hΦ.comp m2)]
  refine lintegral_congr_ae ?_
  filter_upwards [hval] with r hr
  rw [v3 r hr rays hlen]

/-- Averages. The noise of the average of any set of `n` pixels is the sum of their noises, divided by `n²`. -/
theorem traced_average (o : SpictOptions) (ho : o.Sized) (hD : o.rt.maxDepth < 15) (fuel : Nat) {L : (Spectrum ℝ → ℝ) → Nat × Nat → ENNReal} (hT : TracedPixels w o.rt fuel o.camera o.width o.height L)
    [IsProbabilityMeasure μ] (hgen : ∀ k, MeasurePreserving (fun ω => gen ω k) μ randomNumbers) (hind : ∀ k k', k ≠ k' → ProbabilityTheory.IndepFun (fun ω => gen ω k) (fun ω => gen ω k') μ) (state : Ω → RState TState (Spectrum ℝ)) (hs : ∀ ω, o.Rendered w fuel (gen ω) (state ω))
    (ch : Spectrum ℝ → ℝ) (hch : ch ∈ [Spectrum.c0, Spectrum.c1, Spectrum.c2]) (P : Finset (Nat × Nat)) (hne : P.Nonempty) (hP : ∀ p ∈ P, p.1 < o.width ∧ p.2 < o.height) (hL : ∀ p ∈ P, L ch p ≠ ⊤) :
    noiseOf μ (fun ω => (∑ p ∈ P, ENNReal.ofReal (ch (pixelOf o.width o.height (state ω) p.1 p.2))) / P.card) =
      (∑ p ∈ P, noiseOf μ fun ω => ENNReal.ofReal (ch (pixelOf o.width o.height (state ω) p.1 p.2))) / (P.card : ENNReal) ^ 2 := by
  have hlen : o.rt.maxDepth < defaultRays.length := by simpa [defaultRays] using hD
  obtain ⟨h1, h2, -, h4, h5⟩ := noise_sum (μ := μ) P (fun p ω => ENNReal.ofReal (ch (pixelOf o.width o.height (state ω) p.1 p.2)))
    (fun p hp => (traced_law o ho hD fuel hT hgen state hs ch hch p.1 p.2 (hP p hp).1 (hP p hp).2 defaultRays hlen).1) (fun p hp ω => ENNReal.ofReal_ne_top)
    (fun p hp => by rw [traced_mean o ho hD fuel hT μ gen hgen state hs ch hch p.1 p.2 (hP p hp).1 (hP p hp).2]; exact hL p hp)
    (fun p hp q hq hpq => traced_uncorrelated o ho hD fuel hT hgen hind state hs ch ch hch hch p.1 p.2 q.1 q.2 (hP p hp).1 (hP p hp).2 (hP q hq).1 (hP q hq).2 hpq)
  have hc : (P.card : ENNReal) ≠ 0 := by exact_mod_cast hne.card_pos.ne'
  simp only [div_eq_mul_inv]
  rw [noise_scaled h1 h2 h4 (ENNReal.inv_ne_top.2 hc), h5, ENNReal.inv_pow]

/-- **C138, pictures.** The mean of each channel of each pixel of a picture of a scene with mirrors, panes of glass and dielectrics is the light of the equation with all splits followed, whatever the schedule of the workers, although all pixels of a chunk share a generator. -/
theorem C138_mean_picture (hW : w.SunlitGlazed s) (o : SpictOptions) (ho : o.Sized) (hv : o.camera.view.Proper) (hsh : 0 < o.rt.nShadowSamples) (hD : o.rt.maxDepth < 15) (n fuel : Nat) (hfuel : n + o.rt.nShadowSamples + o.rt.nAmbientSamples + 2 ≤ fuel)
    (hE : ∀ p : Nat × Nat, p.1 < o.width → p.2 < o.height → w.EndsWithin o.rt n (o.camera.traceableRay p))
    (hgen : ∀ k, MeasurePreserving (fun ω => gen ω k) μ randomNumbers) (state : Ω → RState TState (Spectrum ℝ)) (hs : ∀ ω, o.Rendered w fuel (gen ω) (state ω))
    (ch : Spectrum ℝ → ℝ) (hch : ch ∈ [Spectrum.c0, Spectrum.c1, Spectrum.c2]) (x y : Nat) (hx : x < o.width) (hy : y < o.height) :
    ∫⁻ ω, ENNReal.ofReal (ch (pixelOf o.width o.height (state ω) x y)) ∂μ = glazedLight w o.rt ch n (o.camera.traceableRay (x, y)) :=
  traced_mean o ho hD fuel (glazed_pixels hW o.rt hsh n fuel hfuel o.camera o.width o.height (traceable_unit o hv) hE) μ gen hgen state hs ch hch x y hx hy

/-- **C138, distribution.** The colour of a pixel has exactly the distribution of the light that tracing its ray alone, with a generator of its own, brings back. -/
theorem C138_pixel_law (hW : w.SunlitGlazed s) (o : SpictOptions) (ho : o.Sized) (hv : o.camera.view.Proper) (hsh : 0 < o.rt.nShadowSamples) (hD : o.rt.maxDepth < 15) (n fuel : Nat) (hfuel : n + o.rt.nShadowSamples + o.rt.nAmbientSamples + 2 ≤ fuel)
    (hE : ∀ p : Nat × Nat, p.1 < o.width → p.2 < o.height → w.EndsWithin o.rt n (o.camera.traceableRay p))
    (hgen : ∀ k, MeasurePreserving (fun ω => gen ω k) μ randomNumbers) (state : Ω → RState TState (Spectrum ℝ)) (hs : ∀ ω, o.Rendered w fuel (gen ω) (state ω))
    (ch : Spectrum ℝ → ℝ) (hch : ch ∈ [Spectrum.c0, Spectrum.c1, Spectrum.c2]) (x y : Nat) (hx : x < o.width) (hy : y < o.height) (rays : List TRay) (hlen : o.rt.maxDepth < rays.length) (Φ : ENNReal → ENNReal) (hΦ : Measurable Φ) :
    ∫⁻ ω, Φ (ENNReal.ofReal (ch (pixelOf o.width o.height (state ω) x y))) ∂μ = ∫⁻ r, Φ (seenLight (traceRay w o.rt fuel ⟨r, rays⟩ (o.camera.traceableRay (x, y))) ch) ∂randomNumbers :=
  (traced_law o ho hD fuel (glazed_pixels hW o.rt hsh n fuel hfuel o.camera o.width o.height (traceable_unit o hv) hE) hgen state hs ch hch x y hx hy rays hlen).2 Φ hΦ

/-- **C138, noise.** If the generators of the chunks are (pairwise) independent, the noise of different pixels is uncorrelated, also of pixels of one chunk. -/
theorem C138_pixels_uncorrelated (hW : w.SunlitGlazed s) (o : SpictOptions) (ho : o.Sized) (hv : o.camera.view.Proper) (hsh : 0 < o.rt.nShadowSamples) (hD : o.rt.maxDepth < 15) (n fuel : Nat) (hfuel : n + o.rt.nShadowSamples + o.rt.nAmbientSamples + 2 ≤ fuel)
    (hE : ∀ p : Nat × Nat, p.1 < o.width → p.2 < o.height → w.EndsWithin o.rt n (o.camera.traceableRay p))
    (hgen : ∀ k, MeasurePreserving (fun ω => gen ω k) μ randomNumbers) (hind : ∀ k k', k ≠ k' → ProbabilityTheory.IndepFun (fun ω => gen ω k) (fun ω => gen ω k') μ) (state : Ω → RState TState (Spectrum ℝ)) (hs : ∀ ω, o.Rendered w fuel (gen ω) (state ω))
    (ch ch' : Spectrum ℝ → ℝ) (hch : ch ∈ [Spectrum.c0, Spectrum.c1, Spectrum.c2]) (hch' : ch' ∈ [Spectrum.c0, Spectrum.c1, Spectrum.c2]) (x y x' y' : Nat) (hx : x < o.width) (hy : y < o.height) (hx' : x' < o.width) (hy' : y' < o.height) (hne : (x, y) ≠ (x', y')) :
    ∫⁻ ω, ENNReal.ofReal (ch (pixelOf o.width o.height (state ω) x y)) * ENNReal.ofReal (ch' (pixelOf o.width o.height (state ω) x' y')) ∂μ =
      (∫⁻ ω, ENNReal.ofReal (ch (pixelOf o.width o.height (state ω) x y)) ∂μ) * ∫⁻ ω, ENNReal.ofReal (ch' (pixelOf o.width o.height (state ω) x' y')) ∂μ :=
  traced_uncorrelated o ho hD fuel (glazed_pixels hW o.rt hsh n fuel hfuel o.camera o.width o.height (traceable_unit o hv) hE) hgen hind state hs ch ch' hch hch' x y x' y' hx hy hx' hy' hne

/-- **C138, energy of a picture.** No pixel is on average brighter than `top² D (1 + ρ + … + ρ^max_depth)` (the camera being in air), with `D`, `ρ` and `top` as for a single ray. -/
theorem C138_picture_energy (hW : w.SunlitGlazed s) (o : SpictOptions) (ho : o.Sized) (hv : o.camera.view.Proper) (hsh : 0 < o.rt.nShadowSamples) (hD : o.rt.maxDepth < 15) (n fuel : Nat) (hfuel : n + o.rt.nShadowSamples + o.rt.nAmbientSamples + 2 ≤ fuel)
    (hE : ∀ p : Nat × Nat, p.1 < o.width → p.2 < o.height → w.EndsWithin o.rt n (o.camera.traceableRay p))
    (hgen : ∀ k, MeasurePreserving (fun ω => gen ω k) μ randomNumbers) (state : Ω → RState TState (Spectrum ℝ)) (hs : ∀ ω, o.Rendered w fuel (gen ω) (state ω))
    (ch : Spectrum ℝ → ℝ) (hch : ch ∈ [Spectrum.c0, Spectrum.c1, Spectrum.c2]) (D ρ : ENNReal) (top : ℝ) (htop : 1 ≤ top)
    (hA : ∀ (k : Nat) m, s.materials[k]? = some m → k ∈ s.front ++ s.back → m.specularOnly = true → m.AddsNoLight ch top)
    (hρ : ∀ (k : Nat) m, s.materials[k]? = some m → k ∈ s.front ++ s.back → m.specularOnly = false → ENNReal.ofReal (ch m.colour) ≤ ρ)
    (hsun : ∀ (ray : TRay) i arrived m, Norm ray.geometry.direction = 1 → w.cast ray = .ok (some (i, arrived)) → w.materialAt arrived.interaction.shading.side i = .ok m → m.specularOnly = false → sunlightAt w m arrived ch ≤ D)
    (x y : Nat) (hx : x < o.width) (hy : y < o.height) :
    ∫⁻ ω, ENNReal.ofReal (ch (pixelOf o.width o.height (state ω) x y)) ∂μ ≤ ENNReal.ofReal (top ^ 2) * ∑ j ∈ Finset.range (o.rt.maxDepth + 1), D * ρ ^ j := by
  rw [C138_mean_picture hW o ho hv hsh hD n fuel hfuel hE hgen state hs ch hch x y hx hy]
  have h1 : (o.camera.traceableRay (x, y)).refractionIndex = 1 := by simp [Pinhole.traceableRay, TRay.default]
  have := glazed_le hW o.rt ch hch D ρ htop hA hρ hsun n (o.camera.traceableRay (x, y)) (traceable_unit o hv _) (by rw [h1]; exact one_pos) (by rw [h1]; exact htop)
  unfold glazedBound at this
  rw [h1, div_one] at this
  exact this

/-- **C138, averages.** If the dielectrics are not denser than some `top` and absorb light rather than add it, the noise of the average of any set of `n` pixels is the sum of their noises, divided by `n²`. -/
theorem C138_average (hW : w.SunlitGlazed s) (o : SpictOptions) (ho : o.Sized) (hv : o.camera.view.Proper) (hsh : 0 < o.rt.nShadowSamples) (hD : o.rt.maxDepth < 15) (n fuel : Nat) (hfuel : n + o.rt.nShadowSamples + o.rt.nAmbientSamples + 2 ≤ fuel)
    (hE : ∀ p : Nat × Nat, p.1 < o.width → p.2 < o.height → w.EndsWithin o.rt n (o.camera.traceableRay p)) [IsProbabilityMeasure μ]
    (hgen : ∀ k, MeasurePreserving (fun ω => gen ω k) μ randomNumbers) (hind : ∀ k k', k ≠ k' → ProbabilityTheory.IndepFun (fun ω => gen ω k) (fun ω => gen ω k') μ) (state : Ω → RState TState (Spectrum ℝ)) (hs : ∀ ω, o.Rendered w fuel (gen ω) (state ω))
    (ch : Spectrum ℝ → ℝ) (hch : ch ∈ [Spectrum.c0, Spectrum.c1, Spectrum.c2]) (top : ℝ) (htop : 1 ≤ top)
    (hA : ∀ (k : Nat) m, s.materials[k]? = some m → k ∈ s.front ++ s.back → m.specularOnly = true → m.AddsNoLight ch top)
    (P : Finset (Nat × Nat)) (hne : P.Nonempty) (hP : ∀ p ∈ P, p.1 < o.width ∧ p.2 < o.height) :
    noiseOf μ (fun ω => (∑ p ∈ P, ENNReal.ofReal (ch (pixelOf o.width o.height (state ω) p.1 p.2))) / P.card) =
      (∑ p ∈ P, noiseOf μ fun ω => ENNReal.ofReal (ch (pixelOf o.width o.height (state ω) p.1 p.2))) / (P.card : ENNReal) ^ 2 := by
  refine traced_average o ho hD fuel (glazed_pixels hW o.rt hsh n fuel hfuel o.camera o.width o.height (traceable_unit o hv) hE) hgen hind state hs ch hch P hne hP fun p hp => ?_
  obtain ⟨D, hD1, hD2⟩ := glazed_sunlight_bounded hW ch hch
  have h1 : (o.camera.traceableRay p).refractionIndex = 1 := by simp [Pinhole.traceableRay, TRay.default]
  have := glazed_le hW o.rt ch hch D (∑ x ∈ (s.materials.map fun m : Material ℝ => ENNReal.ofReal (ch m.colour)).toFinset, x) htop hA (fun k m hk _ _ => ?_) hD2 n (o.camera.traceableRay p) (traceable_unit o hv _) (by rw [h1]; exact one_pos) (by rw [h1]; exact htop)
  · refine ne_top_of_le_ne_top ?_ this
    refine ENNReal.mul_ne_top ENNReal.ofReal_ne_top (ENNReal.sum_ne_top.2 fun j _ => ENNReal.mul_ne_top hD1 (ENNReal.pow_ne_top (ENNReal.sum_ne_top.2 fun x hx => ?_)))
    rw [List.mem_toFinset] at hx
    obtain ⟨m, -, rfl⟩ := List.mem_map.1 hx
    exact ENNReal.ofReal_ne_top
  · refine Finset.single_le_sum (f := fun x : ENNReal => x) (fun _ _ => zero_le) ?_
    rw [List.mem_toFinset]
    exact List.mem_map_of_mem (f := fun m : Material ℝ => ENNReal.ofReal (ch m.colour)) (List.mem_of_getElem? hk)

end

theorem glassCourt_kinds {k : Nat} {m : Material ℝ} (hk : glassCourt.materials[k]? = some m) (hmem : k ∈ glassCourt.front ++ glassCourt.back) : m = .plastic (Spectrum.gray (1 / 2)) 0 0 ∨ m = .glass (Spectrum.gray (9 / 10)) (38 / 25) := by
  simp only [glassCourt, courtOf, List.cons_append, List.nil_append, List.mem_cons, List.not_mem_nil, or_false] at hmem
  have : k = 0 ∨ k = 2 := by omega
  rcases this with rfl | rfl
  · simp only [glassCourt, courtOf, List.getElem?_cons_zero, Option.some.injEq] at hk
    exact Or.inl hk.symm
  · simp only [glassCourt, courtOf, List.getElem?_cons_succ, List.getElem?_cons_zero, Option.some.injEq] at hk
    exact Or.inr hk.symm

/-- C138: a picture of the court with a wall of glass, three by three pixels, with an independent generator for each chunk: the middle pixel has a positive mean; with the brightest sunlight `D` on any surface no pixel has a mean above `7/4 D`; the noise of the average of two pixels is the average of their noises, halved. -/
example : ∃ (w : World) (state : (Nat → Rng) → RState TState (Spectrum ℝ)), w.SunlitGlazed glassCourt ∧ (∀ gen, lookDown.Rendered w 100 gen (state gen)) ∧
    let μ := Measure.infinitePi fun _ : Nat => randomNumbers
    let pixel := fun x y gen => ENNReal.ofReal (pixelOf 3 3 (state gen) x y).c0
    0 < ∫⁻ gen, pixel 1 1 gen ∂μ ∧ (∃ D : ENNReal, D ≠ ⊤ ∧ ∀ x < 3, ∀ y < 3, ∫⁻ gen, pixel x y gen ∂μ ≤ D * (1 + 1 / 2 + 1 / 4)) ∧
    ∫⁻ gen, pixel 0 1 gen * pixel 2 2 gen ∂μ = (∫⁻ gen, pixel 0 1 gen ∂μ) * ∫⁻ gen, pixel 2 2 gen ∂μ ∧
    noiseOf μ (fun gen => (∑ p ∈ {(0, 1), (2, 2)}, pixel p.1 p.2 gen) / ((({(0, 1), (2, 2)} : Finset (Nat × Nat)).card : Nat) : ENNReal)) = (∑ p ∈ ({(0, 1), (2, 2)} : Finset (Nat × Nat)), noiseOf μ (pixel p.1 p.2)) / ((({(0, 1), (2, 2)} : Finset (Nat × Nat)).card : Nat) : ENNReal) ^ 2 := by
  obtain ⟨w, hS, i, hit, hc, hdep, hmat, hpos⟩ := courtOf_world 2 (by norm_num) (.glass (Spectrum.gray (9 / 10)) (38 / 25))
  have hW : w.SunlitGlazed glassCourt := glassCourt_glazed hS
  choose state hs using fun gen => rendered_exists lookDown lookDown_sized w 100 gen
  have hv := lookDown_proper
  have hrow : ∀ ray : TRay, Norm ray.geometry.direction = 1 → w.SpecularRow 1 ray := glassCourt_rows hW.renders
  have hE : ∀ p : Nat × Nat, p.1 < lookDown.width → p.2 < lookDown.height → w.EndsWithin lookDown.rt 8 (lookDown.camera.traceableRay p) := fun p _ _ =>
    rows_end hW lookDown.rt 1 (fun ray h _ => hrow ray h) 3 1 _ (traceable_unit lookDown hv p) (by simp [Pinhole.traceableRay, TRay.default]) rfl (hrow _ (traceable_unit lookDown hv p))
  have hsh : 0 < lookDown.rt.nShadowSamples := by norm_num [lookDown]
  have hD : lookDown.rt.maxDepth < 15 := by norm_num [lookDown]
  have hfuel : 8 + lookDown.rt.nShadowSamples + lookDown.rt.nAmbientSamples + 2 ≤ 100 := by norm_num [lookDown]
  have hgen : ∀ k, MeasurePreserving (fun gen : Nat → Rng => gen k) (Measure.infinitePi fun _ : Nat => randomNumbers) randomNumbers := fun k => measurePreserving_eval_infinitePi _ k
  have hind : ∀ k k', k ≠ k' → ProbabilityTheory.IndepFun (fun gen : Nat → Rng => gen k) (fun gen : Nat → Rng => gen k') (Measure.infinitePi fun _ : Nat => randomNumbers) := fun k k' hk =>
    (ProbabilityTheory.iIndepFun_infinitePi (P := fun _ : Nat => randomNumbers) (X := fun _ r => r) fun _ => measurable_id).indepFun hk
  have hA : ∀ (k : Nat) m, glassCourt.materials[k]? = some m → k ∈ glassCourt.front ++ glassCourt.back → m.specularOnly = true → m.AddsNoLight Spectrum.c0 1 := fun k m hk hm hs => by
    rcases glassCourt_kinds hk hm with rfl | rfl
    · cases hs
    · simp only [Material.AddsNoLight]; norm_num
  have hρ : ∀ (k : Nat) m, glassCourt.materials[k]? = some m → k ∈ glassCourt.front ++ glassCourt.back → m.specularOnly = false → ENNReal.ofReal (Spectrum.c0 m.colour) ≤ ENNReal.ofReal (1 / 2) := fun k m hk hm hs => by
    rcases glassCourt_kinds hk hm with rfl | rfl
    · exact le_rfl
    · cases hs
  refine ⟨w, state, hW, hs, ?_, ?_, ?_, ?_⟩
  · have := C138_mean_picture hW lookDown lookDown_sized hv hsh hD 8 100 hfuel hE (gen := fun gen => gen) hgen state hs Spectrum.c0 (by simp) 1 1 (by norm_num [lookDown]) (by norm_num [lookDown])
    refine lt_of_lt_of_eq ?_ this.symm
    have e : lookDown.camera.traceableRay (1, 1) = downRay := by
      unfold Pinhole.traceableRay
      rw [lookDown_middle]
      rfl
    rw [e]
    change 0 < glazedLight w _ Spectrum.c0 (7 + 1) downRay
    unfold glazedLight
    simp only [hc, hmat, Material.specularOnly, Bool.false_eq_true, if_false]
    rw [if_neg (by simp [downRay, TRay.default])]
    exact lt_of_lt_of_le hpos le_self_add
  · obtain ⟨D, h1, h2⟩ := glazed_sunlight_bounded hW Spectrum.c0 (by simp)
    refine ⟨D, h1, fun x hx y hy => ?_⟩
    refine (C138_picture_energy hW lookDown lookDown_sized hv hsh hD 8 100 hfuel hE (gen := fun gen => gen) hgen state hs Spectrum.c0 (by simp) D (ENNReal.ofReal (1 / 2)) 1 le_rfl hA hρ h2 x y (by simpa [lookDown] using hx) (by simpa [lookDown] using hy)).trans (le_of_eq ?_)
    have e : ENNReal.ofReal (1 / 2) = 1 / 2 := by rw [ENNReal.ofReal_div_of_pos (by norm_num)]; simp
    rw [show lookDown.rt.maxDepth + 1 = 3 from rfl, e, Finset.sum_range_succ, Finset.sum_range_succ, Finset.sum_range_one, one_pow, ENNReal.ofReal_one, one_mul, pow_zero, mul_one, pow_one, mul_add, mul_add, mul_one]
    congr 2
    rw [sq, one_div, one_div, ← ENNReal.mul_inv (by norm_num) (by norm_num)]
    norm_num
  · exact C138_pixels_uncorrelated hW lookDown lookDown_sized hv hsh hD 8 100 hfuel hE (gen := fun gen => gen) hgen hind state hs Spectrum.c0 Spectrum.c0 (by simp) (by simp) 0 1 2 2 (by norm_num [lookDown]) (by norm_num [lookDown]) (by norm_num [lookDown]) (by norm_num [lookDown]) (by decide)
  · exact C138_average hW lookDown lookDown_sized hv hsh hD 8 100 hfuel hE (gen := fun gen => gen) hgen hind state hs Spectrum.c0 (by simp) 1 le_rfl hA {(0, 1), (2, 2)} (by simp) (by simp [lookDown])

end Rendering
