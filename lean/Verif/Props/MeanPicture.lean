import Verif.Props.RenderingEquationExample
import Verif.Props.Spict

/-!
# C119 for whole pictures
-/

set_option linter.unusedSectionVars false
namespace Rendering

open MeasureTheory Set Classical

variable {w : World} {s : Scene ℝ}

/-- The colour of a pixel after `render`. -/
noncomputable def pixelOf (width height : Nat) (st : RState TState (Spectrum ℝ)) (x y : Nat) : Spectrum ℝ := ((renderPixels width height st)[y * width + x]?).getD Spectrum.black

/-- One pixel as a random experiment, given the experiment of tracing its ray. -/
theorem pixel_gives (rt : RayTracer) (ch : Spectrum ℝ → ℝ) (fuel : Nat) (c : Pinhole) (p : Nat × Nat) {val : Ray3 ℝ → Rng → ENNReal} {rest : Ray3 ℝ → Rng → Rng} (hG : Gives (refTrace w rt fuel) ch val rest (c.traceableRay p)) (r : Rng) (hr : r.Valid) :
    (rest (c.traceableRay p).geometry r).Valid ∧ ∀ rays : List TRay, rt.maxDepth < rays.length →
      (pixelTracer w rt fuel c p ⟨r, rays⟩).2.rng = rest (c.traceableRay p).geometry r ∧ ENNReal.ofReal (ch (pixelTracer w rt fuel c p ⟨r, rays⟩).1) = val (c.traceableRay p).geometry r := by
  obtain ⟨light, k1, _, k3, k4⟩ := hG r hr
  refine ⟨k4, fun rays hlen => ?_⟩
  have := C75_is_reference_tracer w rt fuel r rays (c.traceableRay p) hlen
  rw [k1] at this
  unfold pixelTracer
  cases ht : traceRay w rt fuel ⟨r, rays⟩ (c.traceableRay p) with
  | ok x =>
    rw [ht] at this
    obtain ⟨⟨v, q⟩, ray', st⟩ := x
    simp only [outcome, Res.bind_ok, Res.ok.injEq, Prod.mk.injEq] at this
    exact ⟨this.2, by rw [← k3, ← this.1.1]⟩
  | panic => rw [ht] at this; cases this
  | diverge => rw [ht] at this; cases this

/-- One pixel: the mean colour, and the random numbers it leaves. -/
theorem pixel_fresh (hW : w.SunlitMatt s) (rt : RayTracer) (hsh : 0 < rt.nShadowSamples) (ch : Spectrum ℝ → ℝ) (hch : ch ∈ [Spectrum.c0, Spectrum.c1, Spectrum.c2]) (fuel : Nat) (hfuel : rt.maxDepth + rt.nShadowSamples + rt.nAmbientSamples + 3 ≤ fuel)
    (c : Pinhole) (p : Nat × Nat) (hu : Norm (c.traceableRay p).geometry.direction = 1) :
    ∃ (val : Rng → ENNReal) (rest : Rng → Rng), Measurable val ∧ Measurable rest ∧ (∀ Φ : Rng → ENNReal, Measurable Φ → avg (fun r => Φ (rest r)) = avg Φ) ∧ avg val = reflectedLight w rt ch (rt.maxDepth + 1) (c.traceableRay p) ∧
      (∀ Φ : Rng → ENNReal, Measurable Φ → avg (fun r => val r * Φ (rest r)) = avg val * avg Φ) ∧
      ∀ r : Rng, r.Valid → (rest r).Valid ∧ ∀ rays : List TRay, rt.maxDepth < rays.length → (pixelTracer w rt fuel c p ⟨r, rays⟩).2.rng = rest r ∧ ENNReal.ofReal (ch (pixelTracer w rt fuel c p ⟨r, rays⟩).1) = val r := by
  obtain ⟨val, rest, hF, h⟩ := light_fresh hW rt hsh ch hch (rt.maxDepth + 1) 1 zero_le_one
  obtain ⟨h1, h2⟩ := h (c.traceableRay p) (by simp [Pinhole.traceableRay, TRay.default]) rfl hu
  exact ⟨val (c.traceableRay p).geometry, rest (c.traceableRay p).geometry, hF.mval_at _, hF.mrest_at _, hF.keep _, h1, hF.indep _, pixel_gives rt ch fuel c p (h2 fuel (by omega))⟩

/-- The random numbers a pixel starts with are those its chunk started with, after some have been used: they are again endless and uniform. -/
theorem pixelState_fresh (hW : w.SunlitMatt s) (rt : RayTracer) (hsh : 0 < rt.nShadowSamples) (hD : rt.maxDepth < 15) (fuel : Nat) (hfuel : rt.maxDepth + rt.nShadowSamples + rt.nAmbientSamples + 3 ≤ fuel)
    (c : Pinhole) (hu : ∀ p, Norm (c.traceableRay p).geometry.direction = 1) (width i : Nat) :
    ∃ rest : Rng → Rng, Measurable rest ∧ (∀ Φ : Rng → ENNReal, Measurable Φ → avg (fun r => Φ (rest r)) = avg Φ) ∧
      ∀ gen : Nat → Rng, (gen (i / 128)).Valid → (rest (gen (i / 128))).Valid ∧ (pixelState (pixelTracer w rt fuel c) (chunkState gen) width i).rng = rest (gen (i / 128)) := by
  induction i with
  | zero => exact ⟨id, measurable_id, fun _ _ => rfl, fun gen hv => ⟨hv, rfl⟩⟩
  | succ i ih =>
    by_cases h : (i + 1) % 128 = 0
    · refine ⟨id, measurable_id, fun _ _ => rfl, fun gen hv => ⟨hv, ?_⟩⟩
      simp only [pixelState, h, if_true]
      rfl
    · obtain ⟨rest, m1, k1, v1⟩ := ih
      obtain ⟨val', rest', -, m2, k2, -, -, v2⟩ := pixel_fresh hW rt hsh Spectrum.c0 (by simp) fuel hfuel c (i % width, i / width) (hu _)
      have hd : (i + 1) / 128 = i / 128 := by omega
      refine ⟨rest' ∘ rest, m2.comp m1, fun Φ hΦ => ?_, fun gen hv => ?_⟩
      · exact (k1 (fun r => Φ (rest' r)) (hΦ.comp m2)).trans (k2 Φ hΦ)
      · rw [hd] at hv ⊢
        obtain ⟨g1, g2⟩ := v1 gen hv
        obtain ⟨g3, g4⟩ := v2 _ g1
        refine ⟨g3, ?_⟩
        have hk := pixelState_keeps w rt fuel c gen width hD i
        simp only [pixelState, h, if_false]
        generalize pixelState (pixelTracer w rt fuel c) (chunkState gen) width i = st at hk g2
        obtain ⟨rg, rays⟩ := st
        simp only at g2 hk
        subst g2
        exact (g4 rays hk).1

/-- **C119, pictures.** Let every chunk of pixels get a generator of independent uniform numbers; the generators may depend on one another. Then, whatever the schedule of the workers (it may even depend on the random numbers), the mean of each channel
of each pixel is the light of the rendering equation along the camera's ray through that pixel, although all pixels of a chunk share a generator. -/
theorem C119_mean_picture (hW : w.SunlitMatt s) (o : SpictOptions) (ho : o.Sized) (hv : o.camera.view.Proper) (hsh : 0 < o.rt.nShadowSamples) (hD : o.rt.maxDepth < 15) (fuel : Nat) (hfuel : o.rt.maxDepth + o.rt.nShadowSamples + o.rt.nAmbientSamples + 3 ≤ fuel)
    {Ω : Type} [MeasurableSpace Ω] (μ : Measure Ω) (gen : Ω → Nat → Rng) (hgen : ∀ k, MeasurePreserving (fun ω => gen ω k) μ randomNumbers) (state : Ω → RState TState (Spectrum ℝ)) (hs : ∀ ω, o.Rendered w fuel (gen ω) (state ω))
    (ch : Spectrum ℝ → ℝ) (hch : ch ∈ [Spectrum.c0, Spectrum.c1, Spectrum.c2]) (x y : Nat) (hx : x < o.width) (hy : y < o.height) :
    ∫⁻ ω, ENNReal.ofReal (ch (pixelOf o.width o.height (state ω) x y)) ∂μ = reflectedLight w o.rt ch (o.rt.maxDepth + 1) (o.camera.traceableRay (x, y)) := by
  obtain ⟨rest, m1, k1, v1⟩ := pixelState_fresh hW o.rt hsh hD fuel hfuel o.camera (traceable_unit o hv) o.width (y * o.width + x)
  obtain ⟨val, rest', m2, -, -, k2, -, v2⟩ := pixel_fresh hW o.rt hsh ch hch fuel hfuel o.camera (x, y) (traceable_unit o hv _)
  rw [← k2, ← k1 val m2]
  have hP := hgen ((y * o.width + x) / 128)
  have hm : Measurable fun r => val (rest r) := m2.comp m1
  refine Eq.trans ?_ (hP.lintegral_comp hm)
  have hval : ∀ᵐ r ∂randomNumbers, Rng.Valid r := valid_almost_surely
  refine lintegral_congr_ae ?_
  filter_upwards [hP.quasiMeasurePreserving.ae hval] with ω hω
  obtain ⟨⟨m, hr⟩, hf⟩ := hs ω
  rw [pixelOf, C39_pixel_value _ _ _ _ ho.pixels hr hf x y hx hy, Option.getD_some]
  obtain ⟨g1, g2⟩ := v1 (gen ω) hω
  have hk := pixelState_keeps w o.rt fuel o.camera (gen ω) o.width hD (y * o.width + x)
  generalize pixelState (pixelTracer w o.rt fuel o.camera) (chunkState (gen ω)) o.width (y * o.width + x) = st at hk g2
  obtain ⟨rg, rays⟩ := st
  simp only at g2 hk
  subst g2
  exact ((v2 _ g1).2 rays hk).2

/-- C119: a picture of the court, three by three pixels, with an independent generator for each chunk: such runs exist, and the middle pixel is on average the light of the equation, which is not zero. -/
example : ∃ w : World, w.SunlitMatt court ∧ ∃ state : (Nat → Rng) → RState TState (Spectrum ℝ), (∀ gen, lookDown.Rendered w 100 gen (state gen)) ∧
    ∫⁻ gen, ENNReal.ofReal (pixelOf 3 3 (state gen) 1 1).c0 ∂(Measure.infinitePi fun _ : Nat => randomNumbers) = reflectedLight w lookDown.rt Spectrum.c0 3 (lookDown.camera.traceableRay (1, 1)) ∧
    0 < reflectedLight w lookDown.rt Spectrum.c0 3 (lookDown.camera.traceableRay (1, 1)) := by
  obtain ⟨w, hW, i, hit, hc, hdep, hmat, hpos⟩ := court_world
  choose state hs using fun gen => rendered_exists lookDown lookDown_sized w 100 gen
  refine ⟨w, hW, state, hs, ?_, ?_⟩
  · exact C119_mean_picture hW lookDown lookDown_sized lookDown_proper (by norm_num [lookDown]) (by norm_num [lookDown]) 100 (by norm_num [lookDown]) _ (fun gen => gen) (fun k => measurePreserving_eval_infinitePi _ k) state hs Spectrum.c0 (by simp) 1 1
      (by norm_num [lookDown]) (by norm_num [lookDown])
  · have e : lookDown.camera.traceableRay (1, 1) = downRay := by
      unfold Pinhole.traceableRay
      rw [lookDown_middle]
      rfl
    rw [e]
    change 0 < reflectedLight w _ Spectrum.c0 (2 + 1) downRay
    unfold reflectedLight
    simp only [hc, hmat]
    exact lt_of_lt_of_le hpos le_self_add

end Rendering
