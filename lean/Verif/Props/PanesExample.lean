import Verif.Props.Panes
import Verif.Props.ExactGlazedExample

/-!
# Concrete cases of C145
-/

set_option linter.unusedSectionVars false
namespace Rendering

open MeasureTheory Set

theorem glassCourt_panes {w : World} (h : w.Sunlit glassCourt) : w.SunlitPanes glassCourt := by
  refine ⟨h, fun k m hk hmem => ?_⟩
  rcases glassCourt_kinds hk hmem with rfl | rfl
  · exact ⟨Spectrum.gray (1 / 2), by norm_num [Spectrum.Nonneg, Spectrum.gray], Or.inr (Or.inl ⟨0, by simp⟩)⟩
  · exact ⟨Spectrum.gray (9 / 10), by norm_num [Spectrum.Nonneg, Spectrum.gray], Or.inr (Or.inr ⟨38 / 25, rfl, by norm_num, by norm_num [Spectrum.Fraction, Spectrum.Nonneg, Spectrum.gray], Or.inl (by norm_num [Spectrum.gray])⟩)⟩

/-- C145: a pane of clear glass of index 3/2 reflects and lets through, at right angles, `2/26` and `24/26` of the light. -/
theorem clear_pane : letThrough 1 (3 / 2) 1 = 24 / 26 ∧ thrownBack 1 (3 / 2) 1 = 2 / 26 := by
  have hb : cosineInside (3 / 2) 1 = 1 := by norm_num [cosineInside]
  have hE : acrossFace (3 / 2) 1 1 = 4 / 100 := by norm_num [acrossFace]
  have hM : alongFace (3 / 2) 1 1 = 4 / 100 := by norm_num [alongFace]
  have g := tsum_geometric_of_lt_one (r := (1 / 625 : ℝ)) (by norm_num) (by norm_num)
  unfold letThrough thrownBack
  rw [hb, hE, hM]
  have e1 : ∀ k : Nat, (passedOn (4 / 100) ((1 : ℝ) ^ ((1 : ℝ) / 1)) k + passedOn (4 / 100) ((1 : ℝ) ^ ((1 : ℝ) / 1)) k) / 2 = (96 / 100) ^ 2 * (1 / 625) ^ k := fun k => by
    simp only [passedOn, Real.one_rpow]
    norm_num
    ring
  have e2 : ∀ k : Nat, (sentBack (4 / 100) ((1 : ℝ) ^ ((1 : ℝ) / 1)) k + sentBack (4 / 100) ((1 : ℝ) ^ ((1 : ℝ) / 1)) k) / 2 = (96 / 100) ^ 2 * (4 / 100) * (1 / 625) ^ k := fun k => by
    simp only [sentBack, Real.one_rpow]
    norm_num
    ring
  simp only [e1, e2, tsum_mul_left, g]
  norm_num

/-- C145: the court with a wall of glass; panes count as bounces: the mean along a ray that looks down is the light of the geometry that has met at most three surfaces, and is not zero. -/
example : ∃ w : World, w.SunlitPanes glassCourt ∧ ∃ suns, w.HasSuns glassCourt suns ∧ suns.length = 1 ∧ ∃ S : Sight, S.Faithful glassCourt ∧ ∀ axes : Axes,
    (∫⁻ r, seenLight (traceRay w ⟨2, 10, 70, 0, 1⟩ 100 ⟨r, defaultRays⟩ downRay) Spectrum.c0 ∂randomNumbers = glassCourt.paneAfter suns S axes Spectrum.c0 3 downRay.geometry) ∧
    0 < glassCourt.paneAfter suns S axes Spectrum.c0 3 downRay.geometry := by
  obtain ⟨w, hS, i, hit, hc, hdep, hmat, hpos⟩ := courtOf_world 2 (by norm_num) (.glass (Spectrum.gray (9 / 10)) (38 / 25))
  have hW : w.SunlitPanes glassCourt := glassCourt_panes hS
  have hu : Norm downRay.geometry.direction = 1 := Norm_eq_one (by norm_num [Dot, downRay])
  have hv : 0 ≤ downRay.value := by simp [downRay, TRay.default]
  have hi : 0 < downRay.refractionIndex := by simp [downRay, TRay.default]
  have hlen : defaultRays.length = 15 := by simp [defaultRays]
  obtain ⟨suns, hsuns⟩ := suns_exist hW.toSunlit
  obtain ⟨S, hF, h⟩ := C145_mean_light hW suns hsuns
  refine ⟨w, hW, suns, hsuns, hsuns.length_eq.symm, S, hF, fun axes => ?_⟩
  have e := h axes Spectrum.c0 (by simp) ⟨2, 10, 70, 0, 1⟩ defaultRays downRay 100 (by norm_num) (by norm_num) rfl le_rfl (by rw [hlen]; norm_num) hu hv hi rfl (by norm_num)
  refine ⟨e, ?_⟩
  rw [← e, C123_every_bounce_counts hW.glazed ⟨2, 10, 70, 0, 1⟩ (by norm_num) le_rfl Spectrum.c0 (by simp) defaultRays (by rw [hlen]; decide) downRay hu hv hi (Nat.zero_le _) 100 (by norm_num)]
  change 0 < glazedLight w _ Spectrum.c0 (3 + 1) downRay
  unfold glazedLight
  simp only [hc, hmat, Material.specularOnly, Bool.false_eq_true, if_false]
  rw [if_neg (by simp [downRay, TRay.default])]
  exact lt_of_lt_of_le hpos le_self_add

/-- C145: the error in that court, where floors reflect half of the light and no path meets two panes in a row, with the default chance that panes count: with `max_depth` 10 at most `2^-5` of a bound is missing. -/
example : ∃ w : World, w.SunlitPanes glassCourt ∧ ∃ suns, w.HasSuns glassCourt suns ∧ ∃ S : Sight, S.Faithful glassCourt ∧ ∀ axes : Axes, ∃ (L : Ray3 ℝ → ENNReal) (B : ENNReal), B ≠ ⊤ ∧ glassCourt.PaneBalance suns S axes Spectrum.c0 L ∧ (∀ g : Ray3 ℝ, Norm g.direction = 1 → L g ≤ B) ∧
    ∃ fuel, L downRay.geometry ≤ ∫⁻ r, seenLight (traceRay w ⟨10, 10, 70, 0, 3 / 10⟩ fuel ⟨r, defaultRays⟩ downRay) Spectrum.c0 ∂randomNumbers + (1 / 2) ^ 5 * B := by
  obtain ⟨w, hS, -⟩ := courtOf_world 2 (by norm_num) (.glass (Spectrum.gray (9 / 10)) (38 / 25))
  have hW : w.SunlitPanes glassCourt := glassCourt_panes hS
  have hrow : ∀ ray : TRay, Norm ray.geometry.direction = 1 → w.SpecularRow 1 ray := glassCourt_rows hW.renders
  have hu : Norm downRay.geometry.direction = 1 := Norm_eq_one (by norm_num [Dot, downRay])
  have hv : 0 ≤ downRay.value := by simp [downRay, TRay.default]
  have hi : downRay.refractionIndex = 1 := by simp [downRay, TRay.default]
  have hlen : defaultRays.length = 15 := by simp [defaultRays]
  have hhalf : ∀ (k : Nat) m, glassCourt.materials[k]? = some m → k ∈ glassCourt.front ++ glassCourt.back → m.specularOnly = false → ENNReal.ofReal m.colour.c0 ≤ 1 / 2 := by
    intro k m hk hmem hs
    rcases glassCourt_kinds hk hmem with rfl | rfl
    · simp only [Material.colour, Spectrum.gray]
      rw [ENNReal.ofReal_div_of_pos (by norm_num)]
      simp
    · cases hs
  obtain ⟨suns, hsuns⟩ := suns_exist hW.toSunlit
  obtain ⟨S, hF, h⟩ := C145_error hW suns hsuns
  refine ⟨w, hW, suns, hsuns, S, hF, fun axes => ?_⟩
  obtain ⟨L, B, hB, h1, h2, -, h4⟩ := h axes Spectrum.c0 (by simp) (1 / 2) (by norm_num) hhalf 1 (fun ray hr _ => hrow ray hr)
  have hE := rows_end hW.glazed ⟨10, 10, 70, 0, 3 / 10⟩ 1 (fun ray h _ => hrow ray h) 11 1 downRay hu (by rw [hi]; exact one_pos) rfl (hrow downRay hu)
  exact ⟨L, B, hB, h1, h2, _, (h4 ⟨10, 10, 70, 0, 3 / 10⟩ defaultRays downRay _ _ (by norm_num) (by rw [hlen]; norm_num) hu hv hi hE le_rfl).2 (by norm_num) rfl 5 (by simp [downRay, TRay.default])⟩

end Rendering
