import Verif.Props.SampleNoise
import Verif.Props.ExactLight

/-!
# C126: convergence to the exact solution
-/

set_option linter.unusedSectionVars false
namespace Rendering

open MeasureTheory Set

variable {w : World} {s : Scene ℝ}

/-- **C126, the exact light.** If every surface reflects at most the share `ρ < 1`, the rendering equation (with any number of reflections) has exactly one bounded solution `L`, and the light that is returned along a primary ray (with `limit_weight` 0) is as close as desired,
and as surely as desired, to `L`, if first `max_depth` and then the numbers of samples are large enough. -/
theorem C126_converges_to_exact_light (hW : w.SunlitMatt s) (ch : Spectrum ℝ → ℝ) (hch : ch ∈ [Spectrum.c0, Spectrum.c1, Spectrum.c2]) (ρ : ENNReal) (hρ1 : ρ < 1) (hρ : ∀ (k : Nat) m, s.materials[k]? = some m → k ∈ s.front ++ s.back → ENNReal.ofReal (ch m.colour) ≤ ρ) :
    ∃ (L : Ray3 ℝ → ENNReal) (B : ENNReal), B ≠ ⊤ ∧ w.SolvesRenderingEquation ch L ∧ (∀ g : Ray3 ℝ, Norm g.direction = 1 → L g ≤ B) ∧
      (∀ L' C, C ≠ ⊤ → w.SolvesRenderingEquation ch L' → (∀ g : Ray3 ℝ, Norm g.direction = 1 → L' g ≤ C) → ∀ g : Ray3 ℝ, Norm g.direction = 1 → L' g = L g) ∧
      ∀ ε δ : ℝ, 0 < ε → 0 < δ → ∃ D : Nat, ∀ (rt : RayTracer) (ray : TRay), D ≤ rt.maxDepth → rt.limitWeight = 0 → Norm ray.geometry.direction = 1 → 0 ≤ ray.value → ray.depth = 0 →
        ∃ N : Nat, ∀ (nShadow nAmbient fuel : Nat) (rays : List TRay), N ≤ nShadow → N ≤ nAmbient → rt.maxDepth < rays.length → rt.maxDepth + nShadow + nAmbient + 3 ≤ fuel →
          randomNumbers {r | ε ≤ |(seenLight (traceRay w (rt.withCounts nShadow nAmbient) fuel ⟨r, rays⟩ ray) ch).toReal - (L ray.geometry).toReal|} ≤ ENNReal.ofReal δ := by
  obtain ⟨L, B, hB, hsol, hLB, huniq, herr⟩ := C122_error hW ch hch ρ hρ1 hρ
  refine ⟨L, B, hB, hsol, hLB, huniq, fun ε δ hε hδ => ?_⟩
  have hlim : Filter.Tendsto (fun k : Nat => ρ ^ k * B) Filter.atTop (nhds 0) := by
    have := ENNReal.Tendsto.mul_const (b := B) (ENNReal.tendsto_pow_atTop_nhds_zero_of_lt_one hρ1) (Or.inr hB)
    rwa [zero_mul] at this
  have hhalf : (0 : ENNReal) < ENNReal.ofReal (ε / 2) := ENNReal.ofReal_pos.2 (by linarith)
  obtain ⟨D, hD⟩ := Filter.eventually_atTop.1 (hlim.eventually (gt_mem_nhds hhalf))
  refine ⟨D, fun rt ray hDr hlw hu hv hd => ?_⟩
  obtain ⟨N, hN⟩ := C126_converges hW rt ch hch ray hu hv hd (ε / 2) δ (by linarith) hδ
  refine ⟨N, fun nS nA fuel rays h1 h2 h3 h4 => le_trans (measure_mono fun r hr => ?_) (hN nS nA fuel rays h1 h2 h3 h4)⟩
  simp only [mem_setOf_eq] at hr ⊢
  have hmean := C119_mean_light hW (rt.withCounts 1 1) one_pos ch hch rays h3 ray hu hv (by omega) (rt.maxDepth + 1 + 1 + 3) le_rfl
  rw [hd, Nat.sub_zero] at hmean
  obtain ⟨e1, e2⟩ := herr (rt.withCounts 1 1) rays ray (rt.maxDepth + 1 + 1 + 3) one_pos h3 hu hv hd le_rfl
  have e2 := e2 one_pos hlw
  rw [hmean] at e1 e2
  have hLt : L ray.geometry ≠ ⊤ := ne_top_of_le_ne_top hB (hLB _ hu)
  set M := reflectedLight w (rt.withCounts 1 1) ch (rt.maxDepth + 1) ray with hM
  have hMt : M ≠ ⊤ := ne_top_of_le_ne_top hLt e1
  have e3 : L ray.geometry ≤ M + ENNReal.ofReal (ε / 2) := e2.trans (add_le_add le_rfl (hD _ (by change D ≤ rt.maxDepth + 1; omega)).le)
  have r1 : M.toReal ≤ (L ray.geometry).toReal := ENNReal.toReal_mono hLt e1
  have r2 : (L ray.geometry).toReal ≤ M.toReal + ε / 2 := by
    have := ENNReal.toReal_mono (ENNReal.add_ne_top.2 ⟨hMt, ENNReal.ofReal_ne_top⟩) e3
    rwa [ENNReal.toReal_add hMt ENNReal.ofReal_ne_top, ENNReal.toReal_ofReal (by linarith)] at this
  rcases le_abs.1 hr with h | h
  · exact le_abs.2 (Or.inl (by linarith))
  · exact le_abs.2 (Or.inr (by linarith))

end Rendering
