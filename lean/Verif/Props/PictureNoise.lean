import Verif.Props.MeanPicture
import Verif.Props.SampleNoise
import Mathlib.Probability.Independence.Integration
import Mathlib.Probability.Independence.InfinitePi

/-!
# C125: the noise of a picture
-/

set_option linter.unusedSectionVars false
namespace Rendering

open MeasureTheory Set Classical

variable {w : World} {s : Scene ℝ}

/-- From one pixel of a chunk to a later one: the random numbers in between are used up. -/
theorem later_state (hW : w.SunlitMatt s) (rt : RayTracer) (hsh : 0 < rt.nShadowSamples) (hD : rt.maxDepth < 15) (fuel : Nat) (hfuel : rt.maxDepth + rt.nShadowSamples + rt.nAmbientSamples + 3 ≤ fuel)
    (c : Pinhole) (hu : ∀ p, Norm (c.traceableRay p).geometry.direction = 1) (width i d : Nat) (hchunk : i / 128 = (i + d) / 128) :
    ∃ rest : Rng → Rng, Measurable rest ∧ (∀ Φ : Rng → ENNReal, Measurable Φ → avg (fun r => Φ (rest r)) = avg Φ) ∧
      ∀ gen : Nat → Rng, (pixelState (pixelTracer w rt fuel c) (chunkState gen) width i).rng.Valid → (rest (pixelState (pixelTracer w rt fuel c) (chunkState gen) width i).rng).Valid ∧
        (pixelState (pixelTracer w rt fuel c) (chunkState gen) width (i + d)).rng = rest (pixelState (pixelTracer w rt fuel c) (chunkState gen) width i).rng := by
  induction d with
  | zero => exact ⟨id, measurable_id, fun _ _ => rfl, fun gen hv => ⟨hv, rfl⟩⟩
  | succ d ih =>
    obtain ⟨rest, m1, k1, v1⟩ := ih (by omega)
    obtain ⟨val', rest', -, m2, k2, -, -, v2⟩ := pixel_fresh hW rt hsh Spectrum.c0 (by simp) fuel hfuel c ((i + d) % width, (i + d) / width) (hu _)
    refine ⟨rest' ∘ rest, m2.comp m1, fun Φ hΦ => (k1 (fun r => Φ (rest' r)) (hΦ.comp m2)).trans (k2 Φ hΦ), fun gen hv => ?_⟩
    obtain ⟨g1, g2⟩ := v1 gen hv
    obtain ⟨g3, g4⟩ := v2 _ g1
    refine ⟨g3, ?_⟩
    have hk := pixelState_keeps w rt fuel c gen width hD (i + d)
    have hne : ¬ (i + d + 1) % 128 = 0 := by omega
    have e : pixelState (pixelTracer w rt fuel c) (chunkState gen) width (i + (d + 1)) = (pixelTracer w rt fuel c ((i + d) % width, (i + d) / width) (pixelState (pixelTracer w rt fuel c) (chunkState gen) width (i + d))).2 := by
      rw [← Nat.add_assoc]
      conv_lhs => unfold pixelState
      rw [if_neg hne]
    rw [e]
    generalize pixelState (pixelTracer w rt fuel c) (chunkState gen) width (i + d) = st at hk g2
    obtain ⟨rg, rays⟩ := st
    simp only at g2 hk
    subst g2
    exact (g4 rays hk).1

/-- The colour of a pixel, in terms of the random numbers its chunk had reached. -/
theorem pixel_value (o : SpictOptions) (ho : o.Sized) (hD : o.rt.maxDepth < 15) (fuel : Nat) (gen : Nat → Rng) (st : RState TState (Spectrum ℝ)) (hs : o.Rendered w fuel gen st) (ch : Spectrum ℝ → ℝ) (x y : Nat) (hx : x < o.width) (hy : y < o.height) {val : Rng → ENNReal} {rest : Rng → Rng}
    (hval : ∀ r : Rng, r.Valid → (rest r).Valid ∧ ∀ rays : List TRay, o.rt.maxDepth < rays.length → (pixelTracer w o.rt fuel o.camera (x, y) ⟨r, rays⟩).2.rng = rest r ∧ ENNReal.ofReal (ch (pixelTracer w o.rt fuel o.camera (x, y) ⟨r, rays⟩).1) = val r)
    (hr : (pixelState (pixelTracer w o.rt fuel o.camera) (chunkState gen) o.width (y * o.width + x)).rng.Valid) :
    ENNReal.ofReal (ch (pixelOf o.width o.height st x y)) = val (pixelState (pixelTracer w o.rt fuel o.camera) (chunkState gen) o.width (y * o.width + x)).rng ∧
    ((y * o.width + x + 1) % 128 ≠ 0 → (pixelState (pixelTracer w o.rt fuel o.camera) (chunkState gen) o.width (y * o.width + x + 1)).rng = rest (pixelState (pixelTracer w o.rt fuel o.camera) (chunkState gen) o.width (y * o.width + x)).rng) := by
  obtain ⟨⟨m, hre⟩, hf⟩ := hs
  rw [pixelOf, C39_pixel_value _ _ _ _ ho.pixels hre hf x y hx hy, Option.getD_some]
  have e : (y * o.width + x + 1) % 128 ≠ 0 → pixelState (pixelTracer w o.rt fuel o.camera) (chunkState gen) o.width (y * o.width + x + 1) = (pixelTracer w o.rt fuel o.camera (x, y) (pixelState (pixelTracer w o.rt fuel o.camera) (chunkState gen) o.width (y * o.width + x))).2 := by
    intro hne
    conv_lhs => unfold pixelState
    rw [if_neg hne]
    have h1 : (y * o.width + x) % o.width = x := by rw [Nat.mul_comm, Nat.mul_add_mod, Nat.mod_eq_of_lt hx]
    have h2 : (y * o.width + x) / o.width = y := by rw [Nat.mul_comm, Nat.mul_add_div (by omega), Nat.div_eq_of_lt hx, Nat.add_zero]
    rw [h1, h2]
  have hk := pixelState_keeps w o.rt fuel o.camera gen o.width hD (y * o.width + x)
  have e2 : (y * o.width + x + 1) % 128 ≠ 0 → (pixelState (pixelTracer w o.rt fuel o.camera) (chunkState gen) o.width (y * o.width + x + 1)).rng = (pixelTracer w o.rt fuel o.camera (x, y) (pixelState (pixelTracer w o.rt fuel o.camera) (chunkState gen) o.width (y * o.width + x))).2.rng := fun h => by rw [e h]
  clear e
  generalize (pixelState (pixelTracer w o.rt fuel o.camera) (chunkState gen) o.width (y * o.width + x + 1)).rng = next at e2
  generalize pixelState (pixelTracer w o.rt fuel o.camera) (chunkState gen) o.width (y * o.width + x) = st at hk hr e2
  obtain ⟨rg, rays⟩ := st
  obtain ⟨k1, k2⟩ := (hval rg hr).2 rays hk
  exact ⟨k2, fun h => (e2 h).trans k1⟩

section
variable {Ω : Type} [MeasurableSpace Ω] {μ : Measure Ω} {gen : Ω → Nat → Rng}

/-- What two pixels of one chunk have to do with each other. -/
theorem same_chunk (hW : w.SunlitMatt s) (o : SpictOptions) (ho : o.Sized) (hv : o.camera.view.Proper) (hsh : 0 < o.rt.nShadowSamples) (hD : o.rt.maxDepth < 15) (fuel : Nat) (hfuel : o.rt.maxDepth + o.rt.nShadowSamples + o.rt.nAmbientSamples + 3 ≤ fuel)
    (hgen : ∀ k, MeasurePreserving (fun ω => gen ω k) μ randomNumbers) (state : Ω → RState TState (Spectrum ℝ)) (hs : ∀ ω, o.Rendered w fuel (gen ω) (state ω))
    (ch ch' : Spectrum ℝ → ℝ) (hch : ch ∈ [Spectrum.c0, Spectrum.c1, Spectrum.c2]) (hch' : ch' ∈ [Spectrum.c0, Spectrum.c1, Spectrum.c2]) (x y x' y' : Nat) (hx : x < o.width) (hy : y < o.height) (hx' : x' < o.width) (hy' : y' < o.height)
    (hlt : y * o.width + x < y' * o.width + x') (hchunk : (y * o.width + x) / 128 = (y' * o.width + x') / 128) :
    ∫⁻ ω, ENNReal.ofReal (ch (pixelOf o.width o.height (state ω) x y)) * ENNReal.ofReal (ch' (pixelOf o.width o.height (state ω) x' y')) ∂μ =
      reflectedLight w o.rt ch (o.rt.maxDepth + 1) (o.camera.traceableRay (x, y)) * reflectedLight w o.rt ch' (o.rt.maxDepth + 1) (o.camera.traceableRay (x', y')) := by
  have hu := traceable_unit o hv
  obtain ⟨val, rest, m2, m3, k3, k2, i2, v2⟩ := pixel_fresh hW o.rt hsh ch hch fuel hfuel o.camera (x, y) (hu _)
  obtain ⟨val', rest', m2', -, -, k2', -, v2'⟩ := pixel_fresh hW o.rt hsh ch' hch' fuel hfuel o.camera (x', y') (hu _)
  obtain ⟨rest0, m1, k1, v1⟩ := pixelState_fresh hW o.rt hsh hD fuel hfuel o.camera hu o.width (y * o.width + x)
  obtain ⟨d, hd⟩ : ∃ d, y' * o.width + x' = y * o.width + x + 1 + d := ⟨y' * o.width + x' - (y * o.width + x + 1), by omega⟩
  obtain ⟨rest1, m4, k4, v4⟩ := later_state hW o.rt hsh hD fuel hfuel o.camera hu o.width (y * o.width + x + 1) d (by omega)
  have hfun : Measurable fun r => val r * val' (rest1 (rest r)) := m2.mul (m2'.comp (m4.comp m3))
  have hm : Measurable fun r => val (rest0 r) * val' (rest1 (rest (rest0 r))) := hfun.comp m1
  have hmean : avg (fun r => val (rest0 r) * val' (rest1 (rest (rest0 r)))) = avg val * avg val' := by
    rw [k1 (fun r => val r * val' (rest1 (rest r))) hfun, i2 (fun r => val' (rest1 r)) (m2'.comp m4), k4 val' m2']
  rw [← k2, ← k2', ← hmean]
  have hP := hgen ((y * o.width + x) / 128)
  refine Eq.trans ?_ (hP.lintegral_comp hm)
  have hval : ∀ᵐ r ∂randomNumbers, Rng.Valid r := valid_almost_surely
  refine lintegral_congr_ae ?_
  filter_upwards [hP.quasiMeasurePreserving.ae hval] with ω hω
  obtain ⟨g1, g2⟩ := v1 (gen ω) hω
  rw [← g2] at g1
  obtain ⟨p1, p2⟩ := pixel_value o ho hD fuel (gen ω) (state ω) (hs ω) ch x y hx hy v2 g1
  have p2 := p2 (by omega)
  have g3 := (v2 _ g1).1
  rw [← p2] at g3
  obtain ⟨g4, g5⟩ := v4 (gen ω) g3
  rw [← g5, ← hd] at g4
  obtain ⟨q1, -⟩ := pixel_value o ho hD fuel (gen ω) (state ω) (hs ω) ch' x' y' hx' hy' v2' g4
  rw [p1, q1, hd, g5, p2, g2]

/-- **C125.** Let the generators of the chunks be independent (pairwise). Then the noise of different pixels is uncorrelated, whatever the schedule of the workers, and although all pixels of a chunk share a generator: the mean of the product of two pixels is the product of their means. -/
theorem C125_pixels_uncorrelated (hW : w.SunlitMatt s) (o : SpictOptions) (ho : o.Sized) (hv : o.camera.view.Proper) (hsh : 0 < o.rt.nShadowSamples) (hD : o.rt.maxDepth < 15) (fuel : Nat) (hfuel : o.rt.maxDepth + o.rt.nShadowSamples + o.rt.nAmbientSamples + 3 ≤ fuel)
    (hgen : ∀ k, MeasurePreserving (fun ω => gen ω k) μ randomNumbers) (hind : ∀ k k', k ≠ k' → ProbabilityTheory.IndepFun (fun ω => gen ω k) (fun ω => gen ω k') μ) (state : Ω → RState TState (Spectrum ℝ)) (hs : ∀ ω, o.Rendered w fuel (gen ω) (state ω))
    (ch ch' : Spectrum ℝ → ℝ) (hch : ch ∈ [Spectrum.c0, Spectrum.c1, Spectrum.c2]) (hch' : ch' ∈ [Spectrum.c0, Spectrum.c1, Spectrum.c2]) (x y x' y' : Nat) (hx : x < o.width) (hy : y < o.height) (hx' : x' < o.width) (hy' : y' < o.height) (hne : (x, y) ≠ (x', y')) :
    ∫⁻ ω, ENNReal.ofReal (ch (pixelOf o.width o.height (state ω) x y)) * ENNReal.ofReal (ch' (pixelOf o.width o.height (state ω) x' y')) ∂μ =
      (∫⁻ ω, ENNReal.ofReal (ch (pixelOf o.width o.height (state ω) x y)) ∂μ) * ∫⁻ ω, ENNReal.ofReal (ch' (pixelOf o.width o.height (state ω) x' y')) ∂μ := by
  have e1 := C119_mean_picture hW o ho hv hsh hD fuel hfuel μ gen hgen state hs ch hch x y hx hy
  have e2 := C119_mean_picture hW o ho hv hsh hD fuel hfuel μ gen hgen state hs ch' hch' x' y' hx' hy'
  have hidx : y * o.width + x ≠ y' * o.width + x' := by
    intro h
    have hw : 0 < o.width := by omega
    have h1 : (y * o.width + x) % o.width = x := by rw [Nat.mul_comm, Nat.mul_add_mod, Nat.mod_eq_of_lt hx]
    have h2 : (y' * o.width + x') % o.width = x' := by rw [Nat.mul_comm, Nat.mul_add_mod, Nat.mod_eq_of_lt hx']
    have h3 : (y * o.width + x) / o.width = y := by rw [Nat.mul_comm, Nat.mul_add_div hw, Nat.div_eq_of_lt hx, Nat.add_zero]
    have h4 : (y' * o.width + x') / o.width = y' := by rw [Nat.mul_comm, Nat.mul_add_div hw, Nat.div_eq_of_lt hx', Nat.add_zero]
    rw [h] at h1 h3
    exact hne (by rw [← h1, ← h3, h2, h4])
  by_cases hchunk : (y * o.width + x) / 128 = (y' * o.width + x') / 128
  · rw [e1, e2]
    rcases lt_or_gt_of_ne hidx with h | h
    · exact same_chunk hW o ho hv hsh hD fuel hfuel hgen state hs ch ch' hch hch' x y x' y' hx hy hx' hy' h hchunk
    · have := same_chunk hW o ho hv hsh hD fuel hfuel hgen state hs ch' ch hch' hch x' y' x y hx' hy' hx hy h hchunk.symm
      rw [mul_comm (reflectedLight w o.rt ch _ _)]
      rw [← this]
      exact lintegral_congr fun ω => mul_comm _ _
  · have hu := traceable_unit o hv
    obtain ⟨val, rest, m2, -, -, -, -, v2⟩ := pixel_fresh hW o.rt hsh ch hch fuel hfuel o.camera (x, y) (hu _)
    obtain ⟨val', rest', m2', -, -, -, -, v2'⟩ := pixel_fresh hW o.rt hsh ch' hch' fuel hfuel o.camera (x', y') (hu _)
    obtain ⟨r0, m1, -, v1⟩ := pixelState_fresh hW o.rt hsh hD fuel hfuel o.camera hu o.width (y * o.width + x)
    obtain ⟨r0', m1', -, v1'⟩ := pixelState_fresh hW o.rt hsh hD fuel hfuel o.camera hu o.width (y' * o.width + x')
    have hval : ∀ᵐ r ∂randomNumbers, Rng.Valid r := valid_almost_surely
    have hP := hgen ((y * o.width + x) / 128)
    have hP' := hgen ((y' * o.width + x') / 128)
    have a1 : (fun ω => ENNReal.ofReal (ch (pixelOf o.width o.height (state ω) x y))) =ᵐ[μ] fun ω => val (r0 (gen ω ((y * o.width + x) / 128))) := by
      filter_upwards [hP.quasiMeasurePreserving.ae hval] with ω hω
      obtain ⟨g1, g2⟩ := v1 (gen ω) hω
      rw [← g2] at g1 ⊢
      exact (pixel_value o ho hD fuel (gen ω) (state ω) (hs ω) ch x y hx hy v2 g1).1
    have a2 : (fun ω => ENNReal.ofReal (ch' (pixelOf o.width o.height (state ω) x' y'))) =ᵐ[μ] fun ω => val' (r0' (gen ω ((y' * o.width + x') / 128))) := by
      filter_upwards [hP'.quasiMeasurePreserving.ae hval] with ω hω
      obtain ⟨g1, g2⟩ := v1' (gen ω) hω
      rw [← g2] at g1 ⊢
      exact (pixel_value o ho hD fuel (gen ω) (state ω) (hs ω) ch' x' y' hx' hy' v2' g1).1
    have hi := (hind _ _ hchunk).comp (m2.comp m1) (m2'.comp m1')
    have := ProbabilityTheory.lintegral_mul_eq_lintegral_mul_lintegral_of_indepFun'' (((m2.comp m1).comp hP.measurable).aemeasurable) (((m2'.comp m1').comp hP'.measurable).aemeasurable) hi
    rw [lintegral_congr_ae a1, lintegral_congr_ae a2]
    refine Eq.trans (lintegral_congr_ae ?_) this
    filter_upwards [a1, a2] with ω h1 h2
    rw [h1, h2]
    rfl

end

end Rendering
