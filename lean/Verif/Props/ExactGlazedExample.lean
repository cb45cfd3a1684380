import Verif.Props.ExactGlazed
import Verif.Props.GlazedPicture

/-!
# A concrete case of C139
-/

set_option linter.unusedSectionVars false
namespace Rendering

open MeasureTheory Set

/-- C139: the court with a wall of glass, bounces at which counts with probability 0.3. The exact light from the floor is positive; the means for `max_depth` 0, 1, 2, … tend to it, and for `max_depth` `2 k` less than `2^(-k)` times a constant is missing. -/
example : ∃ w : World, w.SunlitGlazed glassCourt ∧ ∃ (L : Ray3 ℝ → ℝ → ENNReal) (B : ENNReal), B ≠ ⊤ ∧ w.SolvesGlazedEquation Spectrum.c0 L ∧ 0 < L downRay.geometry 1 ∧
    (let mean := fun depth : Nat => ∫⁻ r, seenLight (traceRay w ⟨depth, 10, 70, 0, 3 / 10⟩ (2 * depth + 86) ⟨r, List.replicate (depth + 1) TRay.default⟩ downRay) Spectrum.c0 ∂randomNumbers
    (∀ depth, mean depth ≤ L downRay.geometry 1) ∧ (∀ k, L downRay.geometry 1 ≤ mean (2 * k) + ENNReal.ofReal (1 / 2) ^ k * B) ∧ Filter.Tendsto mean Filter.atTop (nhds (L downRay.geometry 1))) := by
  obtain ⟨w, hS, i, hit, hc, hdep, hmat, hpos⟩ := courtOf_world 2 (by norm_num) (.glass (Spectrum.gray (9 / 10)) (38 / 25))
  have hW : w.SunlitGlazed glassCourt := glassCourt_glazed hS
  have hrow : ∀ ray : TRay, Norm ray.geometry.direction = 1 → w.SpecularRow 1 ray := glassCourt_rows hW.renders
  have hu : Norm downRay.geometry.direction = 1 := Norm_eq_one (by norm_num [Dot, downRay])
  have hv : 0 ≤ downRay.value := by simp [downRay, TRay.default]
  have hi1 : downRay.refractionIndex = 1 := by simp [downRay, TRay.default]
  have hi : 0 < downRay.refractionIndex := by rw [hi1]; exact one_pos
  have hE : ∀ depth, w.EndsWithin ⟨depth, 10, 70, 0, 3 / 10⟩ (2 * depth + 4) downRay := fun depth => by
    have := rows_end hW ⟨depth, 10, 70, 0, 3 / 10⟩ 1 (fun ray h _ => hrow ray h) (depth + 1) 1 downRay hu hi (by simp [downRay, TRay.default]) (hrow downRay hu)
    rw [show (depth + 1) * (1 + 1) + 1 + 1 = 2 * depth + 4 by ring] at this
    exact this
  have hA : ∀ (k : Nat) m, glassCourt.materials[k]? = some m → k ∈ glassCourt.front ++ glassCourt.back → m.specularOnly = true → m.AddsNoLight Spectrum.c0 1 := fun k m hk hm hs => by
    rcases glassCourt_kinds hk hm with rfl | rfl
    · cases hs
    · simp only [Material.AddsNoLight]; norm_num
  have hρ : ∀ (k : Nat) m, glassCourt.materials[k]? = some m → k ∈ glassCourt.front ++ glassCourt.back → m.specularOnly = false → ENNReal.ofReal (Spectrum.c0 m.colour) ≤ ENNReal.ofReal (1 / 2) := fun k m hk hm hs => by
    rcases glassCourt_kinds hk hm with rfl | rfl
    · exact le_rfl
    · cases hs
  obtain ⟨L, B, hB, hsol, hbd, huniq, herr⟩ := C139_error hW Spectrum.c0 (by simp) (ENNReal.ofReal (1 / 2)) (by rw [← ENNReal.ofReal_one]; exact (ENNReal.ofReal_lt_ofReal_iff one_pos).2 (by norm_num)) le_rfl hA hρ 1 (fun ray h _ => hrow ray h)
  obtain ⟨L', hsol', hleast, hlim⟩ := C139_limit hW Spectrum.c0 (by simp)
  have hLL : L' downRay.geometry 1 = L downRay.geometry 1 := by
    refine huniq L' B hB hsol' (fun g η h1 h2 h3 => (hleast L hsol g η h1 h2).trans (hbd g η h1 h2 h3)) _ _ hu one_pos le_rfl
  have key := fun depth : Nat => herr ⟨depth, 10, 70, 0, 3 / 10⟩ (List.replicate (depth + 1) TRay.default) downRay (2 * depth + 4) (2 * depth + 86) (by norm_num) (by simp) hu hv hi (by rw [hi1]) (hE depth) (by simp only; omega)
  simp only [hi1] at key
  refine ⟨w, hW, L, B, hB, hsol, ?_, fun depth => (key depth).1, fun k => ?_, ?_⟩
  · refine lt_of_lt_of_le ?_ (key 0).1
    have hm := C123_mean_light hW ⟨0, 10, 70, 0, 3 / 10⟩ (by norm_num) Spectrum.c0 (by simp) (List.replicate (0 + 1) TRay.default) (by simp) downRay hu hv hi _ (hE 0) (2 * 0 + 86) (by norm_num)
    rw [hm]
    change 0 < glazedLight w _ Spectrum.c0 (3 + 1) downRay
    unfold glazedLight
    simp only [hc, hmat, Material.specularOnly, Bool.false_eq_true, if_false]
    rw [if_neg (by simp [downRay, TRay.default])]
    exact lt_of_lt_of_le hpos le_self_add
  · refine ((key (2 * k)).2 (by norm_num) trivial k ?_).trans (add_le_add le_rfl (le_of_eq ?_))
    · simp only [downRay, TRay.default]; omega
    · rw [div_one, one_pow, ENNReal.ofReal_one, one_mul]
  · have := hlim ⟨0, 10, 70, 0, 3 / 10⟩ downRay (fun depth => 2 * depth + 4) (by norm_num) (by norm_num) rfl hu hv hi hE
    rw [hi1, hLL] at this
    exact this

end Rendering
