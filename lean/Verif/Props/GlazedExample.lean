import Verif.Props.Glazed
import Verif.Props.RenderingEquationExample

/-!
# A court with a wall of glass: the hypotheses of C123 are met
-/

set_option linter.unusedSectionVars false
namespace Rendering

open MeasureTheory Set

/-- The court with a wall of glass. -/
noncomputable def glassCourt : Scene ℝ := courtOf 2 (.glass (Spectrum.gray (9 / 10)) (38 / 25))

theorem glassCourt_glazed {w : World} (h : w.Sunlit glassCourt) : w.SunlitGlazed glassCourt := by
  refine ⟨h, fun k m hk hmem => ?_⟩
  simp only [glassCourt, courtOf, List.cons_append, List.nil_append, List.mem_cons, List.not_mem_nil, or_false] at hmem
  have : k = 0 ∨ k = 2 := by omega
  rcases this with rfl | rfl
  · simp only [glassCourt, courtOf, List.getElem?_cons_zero, Option.some.injEq] at hk
    exact Or.inl ⟨Spectrum.gray (1 / 2), 0, by simp [← hk], by norm_num [Spectrum.Nonneg, Spectrum.gray]⟩
  · simp only [glassCourt, courtOf, List.getElem?_cons_succ, List.getElem?_cons_zero, Option.some.injEq] at hk
    subst hk
    refine Or.inr ⟨rfl, ⟨⟨?_, ?_, ?_⟩, ?_, ?_, ?_⟩, by norm_num⟩ <;> norm_num [Spectrum.gray]

/-- Which material is met. -/
theorem glassCourt_material {w : World} (hR : w.Renders glassCourt) {side : SurfaceSide} {i j : Nat} {tri : Tri ℝ} {m : Material ℝ} (hj : glassCourt.triangles[j]? = some tri) (hf : w.scene.front[i]? = glassCourt.front[j]?) (hb : w.scene.back[i]? = glassCourt.back[j]?)
    (hm : w.materialAt side i = .ok m) : j = 0 ∧ tri = plane 0 ∧ m = .plastic (Spectrum.gray (1 / 2)) 0 0 ∨ j = 1 ∧ tri = courtWall ∧ m = .glass (Spectrum.gray (9 / 10)) (38 / 25) := by
  match j with
  | 0 =>
    simp only [glassCourt, courtOf, List.getElem?_cons_zero, Option.some.injEq] at hj
    refine Or.inl ⟨rfl, hj.symm, ?_⟩
    unfold World.materialAt at hm
    cases side with
    | NonApplicable => cases hm
    | Front =>
      simp only [hf, hR.same.1] at hm
      exact (Res.ok.inj hm).symm
    | Back =>
      simp only [hb, hR.same.1] at hm
      exact (Res.ok.inj hm).symm
  | 1 =>
    simp only [glassCourt, courtOf, List.getElem?_cons_succ, List.getElem?_cons_zero, Option.some.injEq] at hj
    refine Or.inr ⟨rfl, hj.symm, ?_⟩
    unfold World.materialAt at hm
    cases side with
    | NonApplicable => cases hm
    | Front =>
      simp only [hf, hR.same.1] at hm
      exact (Res.ok.inj hm).symm
    | Back =>
      simp only [hb, hR.same.1] at hm
      exact (Res.ok.inj hm).symm
  | j + 2 => simp [glassCourt, courtOf] at hj

theorem wall_x {t p u v} {g : Ray3 ℝ} (h : TolerantHit g courtWall t p u v) : g.origin.x + t * g.direction.x = 10 ∧ 0 < t := by
  obtain ⟨hp, ht, hp2, _⟩ := h
  have e1 := congrArg Vec3.x hp
  have e2 := congrArg Vec3.x hp2
  simp [Vec3.scale] at e1
  simp [courtWall, Vec3.scale] at e2
  exact ⟨by linarith, lt_trans (by norm_num) ht⟩

/-- What leaves the pane doesn't meet it again. -/
theorem glassCourt_rows {w : World} (hR : w.Renders glassCourt) (ray : TRay) (hu : Norm ray.geometry.direction = 1) : w.SpecularRow 1 ray := by
  unfold World.SpecularRow
  rcases hR.cast_cases ray with ⟨hc, _⟩ | ⟨i, tri, b, j, hc, hj, hb, _, _, hfr, hbk, _, _⟩
  · simp only [hc]
  simp only [hc]
  split
  swap
  · trivial
  rename_i m hm
  rcases glassCourt_material hR hj hfr hbk hm with ⟨rfl, rfl, rfl⟩ | ⟨rfl, rfl, rfl⟩
  · exact fun h => by cases h
  intro _ x hx
  obtain ⟨hpt, hframe, hside, hdn, _⟩ := recorded_spec courtWall ray.geometry b hu hb
  obtain ⟨σ, hσ, hN⟩ : ∃ σ : ℝ, σ * σ = 1 ∧ (recordedInteraction courtWall ray.geometry b).shading.normal = ⟨σ, 0, 0⟩ := by
    rcases hside with ⟨_, h⟩ | ⟨_, h⟩
    · exact ⟨1, by norm_num, by rw [h, courtWall_normal]⟩
    · refine ⟨-1, by norm_num, ?_⟩
      rw [h, courtWall_normal]
      ext <;> simp
  have hbx : b.p.x = 10 := by
    obtain ⟨hp, ht, hp2, _⟩ := (baricentric_sound _ _ _ hb).1
    have e2 := congrArg Vec3.x hp2
    simp [courtWall, Vec3.scale] at e2
    rw [e2]; ring
  have hσN : Norm (⟨σ, 0, 0⟩ : Vec3 ℝ) = 1 := Norm_eq_one (by simp only [Dot]; linarith)
  rw [hN] at hdn
  simp only [Dot, zero_mul, add_zero] at hdn
  have haway : ∀ t p u v, ¬ TolerantHit x.1.geometry courtWall t p u v := by
    intro t p u v h
    obtain ⟨hx1, ht⟩ := wall_x h
    simp only [offered, Material.getPossiblePaths, hN, hpt, glassPaths, Paths.toList, Option.toList_some, List.mem_append, List.mem_singleton, Option.mem_toList] at hx
    rcases hx with rfl | hx
    · obtain ⟨_, m2, _⟩ := C43_mirror_direction ray.geometry.direction ⟨σ, 0, 0⟩ hσN hu
      simp only [Dot, mul_zero, add_zero] at m2
      simp only [Vec3.add_x, Vec3.scale_x, hbx] at hx1
      have h1 : σ * (t * (mirrorDirection ray.geometry.direction ⟨σ, 0, 0⟩).x) = -(1 / 10 ^ 5) := by
        have : t * (mirrorDirection ray.geometry.direction ⟨σ, 0, 0⟩).x = -(σ * (1 / 10 ^ 5)) := by linarith
        rw [this]; linear_combination -(1 / 10 ^ 5) * hσ
      have h2 : 0 < t * ((mirrorDirection ray.geometry.direction ⟨σ, 0, 0⟩).x * σ) := mul_pos ht (by rw [m2]; linarith)
      nlinarith
    · split_ifs at hx
      · simp only [Option.some.injEq] at hx
        subst hx
        simp only [Vec3.sub_x, Vec3.scale_x, hbx] at hx1
        have h1 : σ * (t * ray.geometry.direction.x) = 1 / 10 ^ 5 := by
          have : t * ray.geometry.direction.x = σ * (1 / 10 ^ 5) := by linarith
          rw [this]; linear_combination (1 / 10 ^ 5) * hσ
        have h2 : t * (σ * ray.geometry.direction.x) < 0 := mul_neg_of_pos_of_neg ht hdn
        nlinarith
  unfold World.SpecularRow
  rcases hR.cast_cases x.1 with ⟨hc', _⟩ | ⟨i', tri', b', j', hc', hj', hb', _, _, hfr', hbk', _, _⟩
  · simp only [hc']
  simp only [hc']
  split
  swap
  · trivial
  rename_i m' hm'
  rcases glassCourt_material hR hj' hfr' hbk' hm' with ⟨rfl, rfl, rfl⟩ | ⟨rfl, rfl, rfl⟩
  · rfl
  · exact absurd (baricentric_sound _ _ _ hb').1 (haway _ _ _ _)

/-- C123: a court with a wall of glass, default settings (bounces count with probability 0.3) and settings with which every bounce counts: the mean is the light of the equation; it is positive on the floor, and the same with other numbers
of samples. -/
example : ∃ w : World, w.SunlitGlazed glassCourt ∧ (∀ ray : TRay, Norm ray.geometry.direction = 1 → w.SpecularRow 1 ray) ∧
    let mean := fun rt ray => ∫⁻ r, seenLight (traceRay w rt 100 ⟨r, defaultRays⟩ ray) Spectrum.c0 ∂randomNumbers
    (∀ ray : TRay, Norm ray.geometry.direction = 1 → 0 ≤ ray.value → 0 < ray.refractionIndex → ray.depth ≤ 4 → mean ⟨3, 10, 70, 1 / 1000, 3 / 10⟩ ray = glazedLight w ⟨3, 10, 70, 1 / 1000, 3 / 10⟩ Spectrum.c0 10 ray ∧
      mean ⟨3, 10, 70, 1 / 1000, 1⟩ ray = glazedLight w ⟨3, 10, 70, 1 / 1000, 1⟩ Spectrum.c0 (5 - ray.depth) ray) ∧
    0 < mean ⟨3, 10, 70, 1 / 1000, 3 / 10⟩ downRay ∧ mean ⟨3, 10, 70, 1 / 1000, 3 / 10⟩ downRay = mean ⟨3, 1, 1, 1 / 1000, 3 / 10⟩ downRay := by
  obtain ⟨w, hS, i, hit, hc, hdep, hmat, hpos⟩ := courtOf_world 2 (by norm_num) (.glass (Spectrum.gray (9 / 10)) (38 / 25))
  have hW := glassCourt_glazed hS
  have hu : Norm downRay.geometry.direction = 1 := Norm_eq_one (by norm_num [Dot, downRay])
  have hv : 0 ≤ downRay.value := by simp [downRay, TRay.default]
  have hi : 0 < downRay.refractionIndex := by simp [downRay, TRay.default]
  have hlen : defaultRays.length = 15 := by simp [defaultRays]
  have hrow : ∀ ray : TRay, Norm ray.geometry.direction = 1 → w.SpecularRow 1 ray := glassCourt_rows hW.renders
  have e : ∀ ray : TRay, Norm ray.geometry.direction = 1 → 0 ≤ ray.value → 0 < ray.refractionIndex → ray.depth ≤ 4 → ∫⁻ r, seenLight (traceRay w ⟨3, 10, 70, 1 / 1000, 3 / 10⟩ 100 ⟨r, defaultRays⟩ ray) Spectrum.c0 ∂randomNumbers = glazedLight w ⟨3, 10, 70, 1 / 1000, 3 / 10⟩ Spectrum.c0 10 ray :=
    fun ray h1 h2 h3 h4 => C123_few_in_a_row hW ⟨3, 10, 70, 1 / 1000, 3 / 10⟩ (by norm_num) 1 (fun ray h _ => hrow ray h) Spectrum.c0 (by simp) defaultRays (by rw [hlen]; decide) ray h1 h2 h3 h4 100 (by norm_num)
  refine ⟨w, hW, hrow, fun ray h1 h2 h3 h4 => ⟨e ray h1 h2 h3 h4, ?_⟩, ?_, ?_⟩
  · exact C123_every_bounce_counts hW ⟨3, 10, 70, 1 / 1000, 1⟩ (by norm_num) le_rfl Spectrum.c0 (by simp) defaultRays (by rw [hlen]; decide) ray h1 h2 h3 h4 100 (by norm_num)
  · beta_reduce
    rw [e downRay hu hv hi (Nat.zero_le _)]
    change 0 < glazedLight w _ Spectrum.c0 (9 + 1) downRay
    unfold glazedLight
    simp only [hc, hmat, Material.specularOnly, Bool.false_eq_true, if_false]
    rw [if_neg (by simp [downRay, TRay.default])]
    exact lt_of_lt_of_le hpos le_self_add
  · have hE := rows_end hW ⟨3, 10, 70, 1 / 1000, 3 / 10⟩ 1 (fun ray h _ => hrow ray h) 4 1 downRay hu hi rfl (hrow downRay hu)
    exact C123_sample_counts hW ⟨3, 10, 70, 1 / 1000, 3 / 10⟩ ⟨3, 1, 1, 1 / 1000, 3 / 10⟩ (by norm_num) (by norm_num) (by norm_num) (by norm_num) rfl rfl rfl Spectrum.c0 (by simp) defaultRays (by rw [hlen]; decide) downRay hu hv hi _ hE 100 (by norm_num) (by norm_num)

end Rendering
