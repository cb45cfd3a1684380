import Verif.Props.ExactGlazed
import Verif.Props.GlazedPicture

/-!
# C139 for whole pictures
-/

set_option linter.unusedSectionVars false
namespace Rendering

open MeasureTheory Set

variable {w : World} {s : Scene ℝ} {Ω : Type} [MeasurableSpace Ω] {μ : Measure Ω} {gen : Ω → Nat → Rng}

/-- **C139, pictures.** The solution `L` does not depend on camera, size of picture or settings. No pixel of any picture is on average brighter than it, along the ray of the pixel in air, whatever the schedule of the workers; and with `limit_weight` 0 and room for `k` matt surfaces,
each after `b` mirrors or panes, in `max_depth`, every pixel is on average at most `top² ρ^k B` darker. -/
theorem C139_picture (hW : w.SunlitGlazed s) (ch : Spectrum ℝ → ℝ) (hch : ch ∈ [Spectrum.c0, Spectrum.c1, Spectrum.c2]) (ρ : ENNReal) (hρ1 : ρ < 1) {top : ℝ} (htop : 1 ≤ top)
    (hA : ∀ (k : Nat) m, s.materials[k]? = some m → k ∈ s.front ++ s.back → m.specularOnly = true → m.AddsNoLight ch top)
    (hρ : ∀ (k : Nat) m, s.materials[k]? = some m → k ∈ s.front ++ s.back → m.specularOnly = false → ENNReal.ofReal (ch m.colour) ≤ ρ)
    (b : Nat) (hrows : ∀ ray : TRay, Norm ray.geometry.direction = 1 → 0 < ray.refractionIndex → w.SpecularRow b ray) :
    ∃ (L : Ray3 ℝ → ℝ → ENNReal) (B : ENNReal), B ≠ ⊤ ∧ w.SolvesGlazedEquation ch L ∧ (∀ (g : Ray3 ℝ) (η : ℝ), Norm g.direction = 1 → 0 < η → η ≤ top → L g η ≤ ENNReal.ofReal ((top / η) ^ 2) * B) ∧
      ∀ (o : SpictOptions) (fuel : Nat), o.Sized → o.camera.view.Proper → 0 < o.rt.nShadowSamples → o.rt.maxDepth < 15 → (o.rt.maxDepth + 1) * (b + 1) + b + 1 + o.rt.nShadowSamples + o.rt.nAmbientSamples + 2 ≤ fuel →
        (∀ k, MeasurePreserving (fun ω => gen ω k) μ randomNumbers) → ∀ state : Ω → RState TState (Spectrum ℝ), (∀ ω, o.Rendered w fuel (gen ω) (state ω)) →
        ∀ x y, x < o.width → y < o.height →
          ∫⁻ ω, ENNReal.ofReal (ch (pixelOf o.width o.height (state ω) x y)) ∂μ ≤ L (o.camera.traceableRay (x, y)).geometry 1 ∧
          (0 < o.rt.nAmbientSamples → o.rt.limitWeight = 0 → ∀ k, k * (b + 1) + b ≤ o.rt.maxDepth + 1 →
            L (o.camera.traceableRay (x, y)).geometry 1 ≤ ∫⁻ ω, ENNReal.ofReal (ch (pixelOf o.width o.height (state ω) x y)) ∂μ + ENNReal.ofReal (top ^ 2) * (ρ ^ k * B)) := by
  obtain ⟨L, B, hB, hsol, hbd, -, herr⟩ := C139_error hW ch hch ρ hρ1 htop hA hρ b hrows
  refine ⟨L, B, hB, hsol, hbd, fun o fuel ho hv hsh hD hfuel hgen state hs x y hx hy => ?_⟩
  have h1 : ∀ p, (o.camera.traceableRay p).refractionIndex = 1 := fun p => by simp [Pinhole.traceableRay, TRay.default]
  have h0 : ∀ p, (o.camera.traceableRay p).depth = 0 := fun p => by simp [Pinhole.traceableRay, TRay.default]
  have hval : ∀ p, 0 ≤ (o.camera.traceableRay p).value := fun p => by simp [Pinhole.traceableRay, Pinhole.genRay]
  have hu := traceable_unit o hv
  have hE : ∀ p : Nat × Nat, w.EndsWithin o.rt ((o.rt.maxDepth + 1) * (b + 1) + b + 1) (o.camera.traceableRay p) := fun p =>
    rows_end hW o.rt b (fun ray h h' => hrows ray h h') (o.rt.maxDepth + 1) b _ (hu p) (by rw [h1]; exact one_pos) (by rw [h0]; omega) (hrows _ (hu p) (by rw [h1]; exact one_pos))
  have hlen : o.rt.maxDepth < defaultRays.length := by simpa [defaultRays] using hD
  have hlaw := C138_pixel_law hW o ho hv hsh hD _ fuel hfuel (fun p _ _ => hE p) hgen state hs ch hch x y hx hy defaultRays hlen (fun v => v) measurable_id
  rw [hlaw]
  have key := herr o.rt defaultRays (o.camera.traceableRay (x, y)) _ fuel hsh hlen (hu _) (hval _) (by rw [h1]; exact one_pos) (by rw [h1]; exact htop) (hE _) hfuel
  rw [h1, h0] at key
  simp only [div_one, zero_add] at key
  exact key

/-- `lookDown` with `limit_weight` 0. -/
noncomputable def exactPicture : SpictOptions := { lookDown with rt := ⟨2, 10, 30, 0, 3 / 10⟩ }

/-- C139: pictures of the court with a wall of glass, three by three pixels, `max_depth` 2, with an independent generator for each chunk: every pixel is on average at most the exact light, and misses less than half of a finite bound of it. -/
example : ∃ (w : World) (state : (Nat → Rng) → RState TState (Spectrum ℝ)), w.SunlitGlazed glassCourt ∧ (∀ gen, exactPicture.Rendered w 100 gen (state gen)) ∧
    let mean := fun x y => ∫⁻ gen, ENNReal.ofReal (pixelOf 3 3 (state gen) x y).c0 ∂Measure.infinitePi fun _ : Nat => randomNumbers
    ∃ (L : Ray3 ℝ → ℝ → ENNReal) (B : ENNReal), B ≠ ⊤ ∧ w.SolvesGlazedEquation Spectrum.c0 L ∧ (∀ (g : Ray3 ℝ) (η : ℝ), Norm g.direction = 1 → 0 < η → η ≤ 1 → L g η ≤ ENNReal.ofReal ((1 / η) ^ 2) * B) ∧
      ∀ x < 3, ∀ y < 3, mean x y ≤ L (exactPicture.camera.traceableRay (x, y)).geometry 1 ∧ L (exactPicture.camera.traceableRay (x, y)).geometry 1 ≤ mean x y + ENNReal.ofReal (1 / 2) * B := by
  obtain ⟨w, hS, i, hit, hc, hdep, hmat, hpos⟩ := courtOf_world 2 (by norm_num) (.glass (Spectrum.gray (9 / 10)) (38 / 25))
  have hW : w.SunlitGlazed glassCourt := glassCourt_glazed hS
  have hsized : exactPicture.Sized := ⟨by norm_num [exactPicture, lookDown], by norm_num [exactPicture, lookDown], by norm_num [exactPicture, lookDown]⟩
  have hview : exactPicture.camera.view.Proper := lookDown_proper
  choose state hs using fun gen => rendered_exists exactPicture hsized w 100 gen
  have hrow : ∀ ray : TRay, Norm ray.geometry.direction = 1 → w.SpecularRow 1 ray := glassCourt_rows hW.renders
  have hgen : ∀ k, MeasurePreserving (fun gen : Nat → Rng => gen k) (Measure.infinitePi fun _ : Nat => randomNumbers) randomNumbers := fun k => measurePreserving_eval_infinitePi _ k
  have hA : ∀ (k : Nat) m, glassCourt.materials[k]? = some m → k ∈ glassCourt.front ++ glassCourt.back → m.specularOnly = true → m.AddsNoLight Spectrum.c0 1 := fun k m hk hm hs => by
    rcases glassCourt_kinds hk hm with rfl | rfl
    · cases hs
    · simp only [Material.AddsNoLight]; norm_num
  have hρ : ∀ (k : Nat) m, glassCourt.materials[k]? = some m → k ∈ glassCourt.front ++ glassCourt.back → m.specularOnly = false → ENNReal.ofReal (Spectrum.c0 m.colour) ≤ ENNReal.ofReal (1 / 2) := fun k m hk hm hs => by
    rcases glassCourt_kinds hk hm with rfl | rfl
    · exact le_rfl
    · cases hs
  obtain ⟨L, B, hB, hsol, hbd, h⟩ := C139_picture (μ := Measure.infinitePi fun _ : Nat => randomNumbers) (gen := fun gen => gen) hW Spectrum.c0 (by simp) (ENNReal.ofReal (1 / 2)) (by rw [← ENNReal.ofReal_one]; exact (ENNReal.ofReal_lt_ofReal_iff one_pos).2 (by norm_num)) le_rfl hA hρ 1 (fun ray h _ => hrow ray h)
  refine ⟨w, state, hW, hs, L, B, hB, hsol, hbd, fun x hx y hy => ?_⟩
  obtain ⟨h1, h2⟩ := h exactPicture 100 hsized hview (by norm_num [exactPicture]) (by norm_num [exactPicture]) (by norm_num [exactPicture]) hgen state hs x y (by simpa [exactPicture, lookDown] using hx) (by simpa [exactPicture, lookDown] using hy)
  refine ⟨h1, (h2 (by norm_num [exactPicture]) (by norm_num [exactPicture]) 1 (by norm_num [exactPicture])).trans (add_le_add le_rfl (le_of_eq ?_))⟩
  rw [one_pow, ENNReal.ofReal_one, one_mul, pow_one]

end Rendering
