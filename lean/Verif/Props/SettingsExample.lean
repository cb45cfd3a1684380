import Verif.Props.Settings
import Verif.Props.GlazedPicture

/-!
# A concrete case of C143
-/

set_option linter.unusedSectionVars false
namespace Rendering

open MeasureTheory Set

/-- C143: the court with a wall of glass; 5 instead of 3 reflections, a smaller `limit_weight`, bounces that count with probability 0.1 instead of 0.3, fewer samples: the mean light from the floor was positive and is no smaller. -/
example : ∃ w : World, w.SunlitGlazed glassCourt ∧ RayTracer.Finer ⟨3, 10, 70, 1 / 1000, 3 / 10⟩ ⟨5, 1, 1, 1 / 100000, 1 / 10⟩ ∧
    let mean := fun rt => ∫⁻ r, seenLight (traceRay w rt 100 ⟨r, defaultRays⟩ downRay) Spectrum.c0 ∂randomNumbers
    0 < mean ⟨3, 10, 70, 1 / 1000, 3 / 10⟩ ∧ mean ⟨3, 10, 70, 1 / 1000, 3 / 10⟩ ≤ mean ⟨5, 1, 1, 1 / 100000, 1 / 10⟩ := by
  obtain ⟨w, hS, i, hit, hc, hdep, hmat, hpos⟩ := courtOf_world 2 (by norm_num) (.glass (Spectrum.gray (9 / 10)) (38 / 25))
  have hW : w.SunlitGlazed glassCourt := glassCourt_glazed hS
  have hrow : ∀ ray : TRay, Norm ray.geometry.direction = 1 → w.SpecularRow 1 ray := glassCourt_rows hW.renders
  have hu : Norm downRay.geometry.direction = 1 := Norm_eq_one (by norm_num [Dot, downRay])
  have hv : 0 ≤ downRay.value := by simp [downRay, TRay.default]
  have hi : 0 < downRay.refractionIndex := by simp [downRay, TRay.default]
  have hlen : defaultRays.length = 15 := by simp [defaultRays]
  have hf : RayTracer.Finer ⟨3, 10, 70, 1 / 1000, 3 / 10⟩ ⟨5, 1, 1, 1 / 100000, 1 / 10⟩ := by constructor <;> norm_num
  have hE := rows_end hW ⟨5, 1, 1, 1 / 100000, 1 / 10⟩ 1 (fun ray h _ => hrow ray h) 6 1 downRay hu hi rfl (hrow downRay hu)
  obtain ⟨hE', key⟩ := C143_finer hW _ _ hf (by norm_num) (by norm_num) Spectrum.c0 (by simp) defaultRays (by rw [hlen]; decide) downRay hu hv hi _ hE
  refine ⟨w, hW, hf, ?_, key 100 (by norm_num) (by norm_num)⟩
  beta_reduce
  rw [C123_mean_light hW ⟨3, 10, 70, 1 / 1000, 3 / 10⟩ (by norm_num) Spectrum.c0 (by simp) defaultRays (by rw [hlen]; decide) downRay hu hv hi _ hE' 100 (by norm_num)]
  change 0 < glazedLight w _ Spectrum.c0 (13 + 1) downRay
  unfold glazedLight
  simp only [hc, hmat, Material.specularOnly, Bool.false_eq_true, if_false]
  rw [if_neg (by simp [downRay, TRay.default])]
  exact lt_of_lt_of_le hpos le_self_add

end Rendering
