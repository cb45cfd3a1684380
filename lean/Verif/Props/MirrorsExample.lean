import Verif.Props.Mirrors
import Verif.Props.ExactGlazedExample

/-!
# Concrete cases of C144
-/

set_option linter.unusedSectionVars false
namespace Rendering

open MeasureTheory Set

/-- The court with a wall that is a mirror. -/
noncomputable def mirrorCourt : Scene ℝ := courtOf 2 (.mirror (Spectrum.gray (9 / 10)))

theorem mirrorCourt_kinds {k : Nat} {m : Material ℝ} (hk : mirrorCourt.materials[k]? = some m) (hmem : k ∈ mirrorCourt.front ++ mirrorCourt.back) : m = .plastic (Spectrum.gray (1 / 2)) 0 0 ∨ m = .mirror (Spectrum.gray (9 / 10)) := by
  simp only [mirrorCourt, courtOf, List.cons_append, List.nil_append, List.mem_cons, List.not_mem_nil, or_false] at hmem
  have : k = 0 ∨ k = 2 := by omega
  rcases this with rfl | rfl
  · simp only [mirrorCourt, courtOf, List.getElem?_cons_zero, Option.some.injEq] at hk
    exact Or.inl hk.symm
  · simp only [mirrorCourt, courtOf, List.getElem?_cons_succ, List.getElem?_cons_zero, Option.some.injEq] at hk
    exact Or.inr hk.symm

theorem mirrorCourt_mirrors {w : World} (h : w.Sunlit mirrorCourt) : w.SunlitMirrors mirrorCourt := by
  refine ⟨h, fun k m hk hmem => ?_⟩
  rcases mirrorCourt_kinds hk hmem with rfl | rfl
  · exact ⟨Spectrum.gray (1 / 2), by norm_num [Spectrum.Nonneg, Spectrum.gray], Or.inr ⟨0, by simp⟩⟩
  · exact ⟨Spectrum.gray (9 / 10), by norm_num [Spectrum.Nonneg, Spectrum.gray], Or.inl rfl⟩

/-- Which material is met. -/
theorem mirrorCourt_material {w : World} (hR : w.Renders mirrorCourt) {side : SurfaceSide} {i j : Nat} {tri : Tri ℝ} {m : Material ℝ} (hj : mirrorCourt.triangles[j]? = some tri) (hf : w.scene.front[i]? = mirrorCourt.front[j]?) (hb : w.scene.back[i]? = mirrorCourt.back[j]?)
    (hm : w.materialAt side i = .ok m) : j = 0 ∧ tri = plane 0 ∧ m = .plastic (Spectrum.gray (1 / 2)) 0 0 ∨ j = 1 ∧ tri = courtWall ∧ m = .mirror (Spectrum.gray (9 / 10)) := by
  match j with
  | 0 =>
    simp only [mirrorCourt, courtOf, List.getElem?_cons_zero, Option.some.injEq] at hj
    refine Or.inl ⟨rfl, hj.symm, ?_⟩
    unfold World.materialAt at hm
    cases side with
    | NonApplicable => cases hm
    | Front =>
      simp only [hf, hR.same.1] at hm
      exact (Res.ok.inj hm).symm
    | Back =>
      simp only [hb, hR.same.1] at hm
      exact (Res.ok.inj hm).symm
  | 1 =>
    simp only [mirrorCourt, courtOf, List.getElem?_cons_succ, List.getElem?_cons_zero, Option.some.injEq] at hj
    refine Or.inr ⟨rfl, hj.symm, ?_⟩
    unfold World.materialAt at hm
    cases side with
    | NonApplicable => cases hm
    | Front =>
      simp only [hf, hR.same.1] at hm
      exact (Res.ok.inj hm).symm
    | Back =>
      simp only [hb, hR.same.1] at hm
      exact (Res.ok.inj hm).symm
  | j + 2 => simp [mirrorCourt, courtOf] at hj

/-- What leaves the mirror doesn't meet it again. -/
theorem mirrorCourt_rows {w : World} (hR : w.Renders mirrorCourt) (ray : TRay) (hu : Norm ray.geometry.direction = 1) : w.SpecularRow 1 ray := by
  unfold World.SpecularRow
  rcases hR.cast_cases ray with ⟨hc, _⟩ | ⟨i, tri, b, j, hc, hj, hb, _, _, hfr, hbk, _, _⟩
  · simp only [hc]
  simp only [hc]
  split
  swap
  · trivial
  rename_i m hm
  rcases mirrorCourt_material hR hj hfr hbk hm with ⟨rfl, rfl, rfl⟩ | ⟨rfl, rfl, rfl⟩
  · exact fun h => by cases h
  intro _ x hx
  obtain ⟨hpt, hframe, hside, hdn, _⟩ := recorded_spec courtWall ray.geometry b hu hb
  obtain ⟨σ, hσ, hN⟩ : ∃ σ : ℝ, σ * σ = 1 ∧ (recordedInteraction courtWall ray.geometry b).shading.normal = ⟨σ, 0, 0⟩ := by
    rcases hside with ⟨_, h⟩ | ⟨_, h⟩
    · exact ⟨1, by norm_num, by rw [h, courtWall_normal]⟩
    · refine ⟨-1, by norm_num, ?_⟩
      rw [h, courtWall_normal]
      ext <;> simp
  have hbx : b.p.x = 10 := by
    obtain ⟨hp, ht, hp2, _⟩ := (baricentric_sound _ _ _ hb).1
    have e2 := congrArg Vec3.x hp2
    simp [courtWall, Vec3.scale] at e2
    rw [e2]; ring
  have hσN : Norm (⟨σ, 0, 0⟩ : Vec3 ℝ) = 1 := Norm_eq_one (by simp only [Dot]; linarith)
  rw [hN] at hdn
  simp only [Dot, zero_mul, add_zero] at hdn
  have haway : ∀ t p u v, ¬ TolerantHit x.1.geometry courtWall t p u v := by
    intro t p u v h
    obtain ⟨hx1, ht⟩ := wall_x h
    simp only [offered, Material.getPossiblePaths, hN, hpt, mirrorPaths, mirrorBsdf, Paths.toList, Option.toList_some, Option.toList_none, List.append_nil, List.mem_singleton] at hx
    subst hx
    · obtain ⟨_, m2, _⟩ := C43_mirror_direction ray.geometry.direction ⟨σ, 0, 0⟩ hσN hu
      simp only [Dot, mul_zero, add_zero] at m2
      simp only [Vec3.add_x, Vec3.scale_x, hbx] at hx1
      have h1 : σ * (t * (mirrorDirection ray.geometry.direction ⟨σ, 0, 0⟩).x) = -(1 / 10 ^ 5) := by
        have : t * (mirrorDirection ray.geometry.direction ⟨σ, 0, 0⟩).x = -(σ * (1 / 10 ^ 5)) := by linarith
        rw [this]; linear_combination -(1 / 10 ^ 5) * hσ
      have h2 : 0 < t * ((mirrorDirection ray.geometry.direction ⟨σ, 0, 0⟩).x * σ) := mul_pos ht (by rw [m2]; linarith)
      nlinarith
  unfold World.SpecularRow
  rcases hR.cast_cases x.1 with ⟨hc', _⟩ | ⟨i', tri', b', j', hc', hj', hb', _, _, hfr', hbk', _, _⟩
  · simp only [hc']
  simp only [hc']
  split
  swap
  · trivial
  rename_i m' hm'
  rcases mirrorCourt_material hR hj' hfr' hbk' hm' with ⟨rfl, rfl, rfl⟩ | ⟨rfl, rfl, rfl⟩
  · rfl
  · exact absurd (baricentric_sound _ _ _ hb').1 (haway _ _ _ _)

/-- C144: the court with a wall that is a mirror; mirrors count as bounces: the mean along a ray that looks down is the light of the geometry that has met at most three surfaces, and is not zero. -/
example : ∃ w : World, w.SunlitMirrors mirrorCourt ∧ ∃ suns, w.HasSuns mirrorCourt suns ∧ suns.length = 1 ∧ ∃ S : Sight, S.Faithful mirrorCourt ∧ ∀ axes : Axes,
    (∫⁻ r, seenLight (traceRay w ⟨2, 10, 70, 0, 1⟩ 100 ⟨r, defaultRays⟩ downRay) Spectrum.c0 ∂randomNumbers = mirrorCourt.mirrorAfter suns S axes Spectrum.c0 3 downRay.geometry) ∧
    0 < mirrorCourt.mirrorAfter suns S axes Spectrum.c0 3 downRay.geometry := by
  obtain ⟨w, hS, i, hit, hc, hdep, hmat, hpos⟩ := courtOf_world 2 (by norm_num) (.mirror (Spectrum.gray (9 / 10)))
  have hW : w.SunlitMirrors mirrorCourt := mirrorCourt_mirrors hS
  have hu : Norm downRay.geometry.direction = 1 := Norm_eq_one (by norm_num [Dot, downRay])
  have hv : 0 ≤ downRay.value := by simp [downRay, TRay.default]
  have hi : 0 < downRay.refractionIndex := by simp [downRay, TRay.default]
  have hlen : defaultRays.length = 15 := by simp [defaultRays]
  obtain ⟨suns, hsuns⟩ := suns_exist hW.toSunlit
  obtain ⟨S, hF, h⟩ := C144_mean_light hW suns hsuns
  refine ⟨w, hW, suns, hsuns, hsuns.length_eq.symm, S, hF, fun axes => ?_⟩
  have e := h axes Spectrum.c0 (by simp) ⟨2, 10, 70, 0, 1⟩ defaultRays downRay 100 (by norm_num) (by norm_num) rfl le_rfl (by rw [hlen]; norm_num) hu hv hi rfl (by norm_num)
  refine ⟨e, ?_⟩
  rw [← e, C123_every_bounce_counts hW.glazed ⟨2, 10, 70, 0, 1⟩ (by norm_num) le_rfl Spectrum.c0 (by simp) defaultRays (by rw [hlen]; decide) downRay hu hv hi (Nat.zero_le _) 100 (by norm_num)]
  change 0 < glazedLight w _ Spectrum.c0 (3 + 1) downRay
  unfold glazedLight
  simp only [hc, hmat, Material.specularOnly, Bool.false_eq_true, if_false]
  rw [if_neg (by simp [downRay, TRay.default])]
  exact lt_of_lt_of_le hpos le_self_add

/-- C144: the error in that court, where floors reflect half of the light and no path meets two mirrors in a row, with the default chance that mirrors count: with `max_depth` 10 at most `2^-5` of a bound is missing. -/
example : ∃ w : World, w.SunlitMirrors mirrorCourt ∧ ∃ suns, w.HasSuns mirrorCourt suns ∧ ∃ S : Sight, S.Faithful mirrorCourt ∧ ∀ axes : Axes, ∃ (L : Ray3 ℝ → ENNReal) (B : ENNReal), B ≠ ⊤ ∧ mirrorCourt.MirrorBalance suns S axes Spectrum.c0 L ∧ (∀ g : Ray3 ℝ, Norm g.direction = 1 → L g ≤ B) ∧
    ∃ fuel, L downRay.geometry ≤ ∫⁻ r, seenLight (traceRay w ⟨10, 10, 70, 0, 3 / 10⟩ fuel ⟨r, defaultRays⟩ downRay) Spectrum.c0 ∂randomNumbers + (1 / 2) ^ 5 * B := by
  obtain ⟨w, hS, -⟩ := courtOf_world 2 (by norm_num) (.mirror (Spectrum.gray (9 / 10)))
  have hW : w.SunlitMirrors mirrorCourt := mirrorCourt_mirrors hS
  have hrow : ∀ ray : TRay, Norm ray.geometry.direction = 1 → w.SpecularRow 1 ray := mirrorCourt_rows hW.renders
  have hu : Norm downRay.geometry.direction = 1 := Norm_eq_one (by norm_num [Dot, downRay])
  have hv : 0 ≤ downRay.value := by simp [downRay, TRay.default]
  have hi : downRay.refractionIndex = 1 := by simp [downRay, TRay.default]
  have hlen : defaultRays.length = 15 := by simp [defaultRays]
  have hhalf : ∀ (k : Nat) m, mirrorCourt.materials[k]? = some m → k ∈ mirrorCourt.front ++ mirrorCourt.back → m.specularOnly = false → ENNReal.ofReal m.colour.c0 ≤ 1 / 2 := by
    intro k m hk hmem hs
    rcases mirrorCourt_kinds hk hmem with rfl | rfl
    · simp only [Material.colour, Spectrum.gray]
      rw [ENNReal.ofReal_div_of_pos (by norm_num)]
      simp
    · cases hs
  obtain ⟨suns, hsuns⟩ := suns_exist hW.toSunlit
  obtain ⟨S, hF, h⟩ := C144_error hW suns hsuns
  refine ⟨w, hW, suns, hsuns, S, hF, fun axes => ?_⟩
  obtain ⟨L, B, hB, h1, h2, -, h4⟩ := h axes Spectrum.c0 (by simp) (1 / 2) (by norm_num) hhalf 1 (fun ray hr _ => hrow ray hr)
  have hE := rows_end hW.glazed ⟨10, 10, 70, 0, 3 / 10⟩ 1 (fun ray h _ => hrow ray h) 11 1 downRay hu (by rw [hi]; exact one_pos) rfl (hrow downRay hu)
  exact ⟨L, B, hB, h1, h2, _, (h4 ⟨10, 10, 70, 0, 3 / 10⟩ defaultRays downRay _ _ (by norm_num) (by rw [hlen]; norm_num) hu hv hi hE le_rfl).2 (by norm_num) rfl 5 (by simp [downRay, TRay.default])⟩

end Rendering
