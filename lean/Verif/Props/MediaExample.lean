import Verif.Props.Media
import Verif.Props.ExactGlazedExample

/-!
# Concrete cases of C146
-/

set_option linter.unusedSectionVars false
namespace Rendering

open MeasureTheory Set

/-- A floor lit by a sun, with a wall that bounds water. -/
noncomputable def waterCourt : Scene ℝ := courtOf 2 (.dielectric (Spectrum.gray 1) (4 / 3))

theorem waterCourt_media {w : World} (h : w.Sunlit waterCourt) : w.SunlitMedia waterCourt := by
  refine ⟨h, fun k m hk hmem => ?_⟩
  simp only [waterCourt, courtOf, List.cons_append, List.nil_append, List.mem_cons, List.not_mem_nil, or_false] at hmem
  have : k = 0 ∨ k = 2 := by omega
  rcases this with rfl | rfl
  · simp only [waterCourt, courtOf, List.getElem?_cons_zero, Option.some.injEq] at hk
    exact ⟨Spectrum.gray (1 / 2), by norm_num [Spectrum.Nonneg, Spectrum.gray], Or.inr (Or.inl ⟨0, by simp [← hk]⟩)⟩
  · simp only [waterCourt, courtOf, List.getElem?_cons_succ, List.getElem?_cons_zero, Option.some.injEq] at hk
    exact ⟨Spectrum.gray 1, by norm_num [Spectrum.Nonneg, Spectrum.gray], Or.inr (Or.inr (Or.inr ⟨4 / 3, hk.symm, by norm_num⟩))⟩

/-- C146: light that enters water at right angles goes straight on, and one part in 49 is reflected; light that grazes its surface from inside is reflected totally. -/
example : fresnelShare 1 (4 / 3) 1 (Real.sqrt (1 - sineBeyond 1 (4 / 3) 1 ^ 2)) = 1 / 49 ∧ bent 1 (4 / 3) ⟨0, 0, -1⟩ ⟨0, 0, 1⟩ = ⟨0, 0, -1⟩ ∧ beyondSurface 1 (4 / 3) = 4 / 3 ∧ beyondSurface (4 / 3) (4 / 3) = 1 ∧ 1 ≤ sineBeyond (4 / 3) 1 0 := by
  refine ⟨by norm_num [fresnelShare, sineBeyond], ?_, ?_, ?_, by norm_num [sineBeyond]⟩
  · ext <;> norm_num [bent, sineBeyond, Dot]
  · unfold beyondSurface
    rw [if_neg (by norm_num [abs_of_neg])]
  · norm_num [beyondSurface]

/-- C146: the court with water behind the wall; passages count as bounces: the mean along a ray that looks down is the light of the geometry that has met at most three surfaces, and is not zero. -/
example : ∃ w : World, w.SunlitMedia waterCourt ∧ ∃ suns, w.HasSuns waterCourt suns ∧ suns.length = 1 ∧ ∃ S : Sight, S.Faithful waterCourt ∧ ∀ axes : Axes,
    (∫⁻ r, seenLight (traceRay w ⟨2, 10, 70, 0, 1⟩ 100 ⟨r, defaultRays⟩ downRay) Spectrum.c0 ∂randomNumbers = waterCourt.mediaAfter suns S axes Spectrum.c0 3 downRay.geometry 1) ∧
    0 < waterCourt.mediaAfter suns S axes Spectrum.c0 3 downRay.geometry 1 := by
  obtain ⟨w, hS, i, hit, hc, hdep, hmat, hpos⟩ := courtOf_world 2 (by norm_num) (.dielectric (Spectrum.gray 1) (4 / 3))
  have hW : w.SunlitMedia waterCourt := waterCourt_media hS
  have hu : Norm downRay.geometry.direction = 1 := Norm_eq_one (by norm_num [Dot, downRay])
  have hv : 0 ≤ downRay.value := by simp [downRay, TRay.default]
  have h1 : downRay.refractionIndex = 1 := by simp [downRay, TRay.default]
  have hi : 0 < downRay.refractionIndex := by rw [h1]; exact one_pos
  have hlen : defaultRays.length = 15 := by simp [defaultRays]
  obtain ⟨suns, hsuns⟩ := suns_exist hW.toSunlit
  obtain ⟨S, hF, h⟩ := C146_mean_light hW suns hsuns
  refine ⟨w, hW, suns, hsuns, hsuns.length_eq.symm, S, hF, fun axes => ?_⟩
  have e := h axes Spectrum.c0 (by simp) ⟨2, 10, 70, 0, 1⟩ defaultRays downRay 100 (by norm_num) (by norm_num) rfl le_rfl (by rw [hlen]; norm_num) hu hv hi rfl (by norm_num)
  rw [h1] at e
  refine ⟨e, ?_⟩
  rw [← e, C123_every_bounce_counts hW.glazed ⟨2, 10, 70, 0, 1⟩ (by norm_num) le_rfl Spectrum.c0 (by simp) defaultRays (by rw [hlen]; decide) downRay hu hv hi (Nat.zero_le _) 100 (by norm_num)]
  change 0 < glazedLight w _ Spectrum.c0 (3 + 1) downRay
  unfold glazedLight
  simp only [hc, hmat, Material.specularOnly, Bool.false_eq_true, if_false]
  rw [if_neg (by simp [downRay, TRay.default])]
  exact lt_of_lt_of_le hpos le_self_add

/-- C146: the error in a court with a wall of glass, where floors reflect half of the light and no path meets two panes in a row, with the default chance that passages count: with `max_depth` 10 at most `2^-5` of a bound is missing. -/
example : ∃ w : World, w.SunlitMedia glassCourt ∧ ∃ suns, w.HasSuns glassCourt suns ∧ ∃ S : Sight, S.Faithful glassCourt ∧ ∀ axes : Axes, ∃ (L : Ray3 ℝ → ℝ → ENNReal) (B : ENNReal), B ≠ ⊤ ∧ glassCourt.MediaBalance suns S axes Spectrum.c0 L ∧
    ∃ fuel, L downRay.geometry 1 ≤ ∫⁻ r, seenLight (traceRay w ⟨10, 10, 70, 0, 3 / 10⟩ fuel ⟨r, defaultRays⟩ downRay) Spectrum.c0 ∂randomNumbers + ENNReal.ofReal ((2 / 1) ^ 2) * ((1 / 2) ^ 5 * B) := by
  obtain ⟨w, hS, -⟩ := courtOf_world 2 (by norm_num) (.glass (Spectrum.gray (9 / 10)) (38 / 25))
  have hW : w.SunlitMedia glassCourt := by
    refine ⟨hS, fun k m hk hmem => ?_⟩
    rcases glassCourt_kinds hk hmem with rfl | rfl
    · exact ⟨Spectrum.gray (1 / 2), by norm_num [Spectrum.Nonneg, Spectrum.gray], Or.inr (Or.inl ⟨0, by simp⟩)⟩
    · exact ⟨Spectrum.gray (9 / 10), by norm_num [Spectrum.Nonneg, Spectrum.gray], Or.inr (Or.inr (Or.inl ⟨38 / 25, rfl, by norm_num, by norm_num [Spectrum.Fraction, Spectrum.Nonneg, Spectrum.gray], Or.inl (by norm_num [Spectrum.gray])⟩))⟩
  have hrow : ∀ ray : TRay, Norm ray.geometry.direction = 1 → w.SpecularRow 1 ray := glassCourt_rows hW.renders
  have hu : Norm downRay.geometry.direction = 1 := Norm_eq_one (by norm_num [Dot, downRay])
  have hv : 0 ≤ downRay.value := by simp [downRay, TRay.default]
  have hi : downRay.refractionIndex = 1 := by simp [downRay, TRay.default]
  have hlen : defaultRays.length = 15 := by simp [defaultRays]
  have hhalf : ∀ (k : Nat) m, glassCourt.materials[k]? = some m → k ∈ glassCourt.front ++ glassCourt.back → m.specularOnly = false → ENNReal.ofReal m.colour.c0 ≤ 1 / 2 := by
    intro k m hk hmem hs
    rcases glassCourt_kinds hk hmem with rfl | rfl
    · simp only [Material.colour, Spectrum.gray]
      rw [ENNReal.ofReal_div_of_pos (by norm_num)]
      simp
    · cases hs
  have hno : ∀ (k : Nat) col n, glassCourt.materials[k]? = some (.dielectric col n) → k ∈ glassCourt.front ++ glassCourt.back → col.c0 ≤ 1 ∧ n ≤ (2 : ℝ) := by
    intro k col n hk hmem
    rcases glassCourt_kinds hk hmem with h | h <;> cases h
  obtain ⟨suns, hsuns⟩ := suns_exist hW.toSunlit
  obtain ⟨S, hF, h⟩ := C146_error hW suns hsuns
  refine ⟨w, hW, suns, hsuns, S, hF, fun axes => ?_⟩
  obtain ⟨L, B, hB, h1, -, -, h4⟩ := h axes Spectrum.c0 (by simp) (1 / 2) (by norm_num) hhalf 2 (by norm_num) hno 1 (fun ray hr _ => hrow ray hr)
  have hE := rows_end hW.glazed ⟨10, 10, 70, 0, 3 / 10⟩ 1 (fun ray h _ => hrow ray h) 11 1 downRay hu (by rw [hi]; exact one_pos) rfl (hrow downRay hu)
  have := (h4 ⟨10, 10, 70, 0, 3 / 10⟩ defaultRays downRay _ _ (by norm_num) (by rw [hlen]; norm_num) hu hv (by rw [hi]; exact one_pos) (by rw [hi]; norm_num) hE le_rfl).2 (by norm_num) rfl 5 (by simp [downRay, TRay.default])
  rw [hi] at this
  exact ⟨L, B, hB, h1, _, this⟩

end Rendering
