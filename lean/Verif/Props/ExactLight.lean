import Verif.Lemmas.ExactLight
import Mathlib.Analysis.SpecificLimits.Basic

/-!
# C122: deeper tracing approaches the solution of the rendering equation
-/

set_option linter.unusedSectionVars false
namespace Rendering

open MeasureTheory Set

variable {w : World} {s : Scene ℝ}

/-- What a cast finds depends on the geometry of the ray only. -/
theorem cast_geometry (ray : TRay) (view : Ray3 ℝ) (hg : ray.geometry = view) :
    (w.cast ray = .ok none ∧ w.cast { TRay.default with geometry := view } = .ok none) ∨
    (∃ i it, w.cast ray = .ok (some (i, { ray with interaction := it })) ∧ w.cast { TRay.default with geometry := view } = .ok (some (i, { TRay.default with geometry := view, interaction := it }))) ∨
    ((∀ x, w.cast ray ≠ .ok x) ∧ ∀ x, w.cast { TRay.default with geometry := view } ≠ .ok x) := by
  unfold World.cast
  rw [hg]
  rcases w.scene.castRay w.env view [] with (_ | ⟨i, b⟩) | _ | _
  · left; exact ⟨rfl, rfl⟩
  · cases ht : w.scene.triangles[i]? with
    | none => right; right; simp only [Res.bind_ok, ht]; exact ⟨fun x h => (by cases h), fun x h => (by cases h)⟩
    | some tri => right; left; exact ⟨i, recordedInteraction tri view b, by simp only [Res.bind_ok, ht, Res.ofOption_some], by simp only [Res.bind_ok, ht, Res.ofOption_some]⟩
  · right; right; exact ⟨fun x h => (by cases h), fun x h => (by cases h)⟩
  · right; right; exact ⟨fun x h => (by cases h), fun x h => (by cases h)⟩

/-- The sunlight at a surface depends only on where the ray arrived. -/
theorem sunlight_same (hW : w.SunlitMatt s) (ch : Spectrum ℝ → ℝ) (hch : ch ∈ [Spectrum.c0, Spectrum.c1, Spectrum.c2]) {ray : TRay} (hu : Norm ray.geometry.direction = 1) {i : Nat} {it : Interaction} {m : Material ℝ}
    (hc : w.cast ray = .ok (some (i, { ray with interaction := it }))) (hm : w.materialAt it.shading.side i = .ok m) (other : TRay) (ho : other.interaction = it) : sunlightAt w m { ray with interaction := it } ch = sunlightAt w m other ch := by
  obtain ⟨code, -, hall⟩ := disc_side hW
  rcases hall ray hu with ⟨_, h'⟩ | ⟨i', bk, tri, m', col, r, it', _, hS, h', ha⟩
  · rw [hc] at h'; cases h'
  rw [hc] at h'
  simp only [Res.ok.injEq, Option.some.injEq, Prod.mk.injEq, TRay.mk.injEq, true_and] at h'
  obtain ⟨rfl, rfl, -⟩ := h'
  have hmm := hS.material
  rw [← ha.side, hm] at hmm
  cases hmm
  obtain ⟨val, rest, _, h1, _⟩ := sunlight_fresh hW.toSunlit m col r hS.matt hS.nonneg ch hch it.shading.normal 1 one_pos
  rw [← h1 { ray with interaction := it } rfl, ← h1 other (by rw [ho]), ho]

/-- Light after at most `k` reflections, without Russian roulette, for points and directions of view. -/
noncomputable def stepsLight (w : World) (ch : Spectrum ℝ → ℝ) : Nat → Ray3 ℝ → ENNReal
  | 0 => fun _ => 0
  | k + 1 => w.lightBack ch (stepsLight w ch k)

theorem lightBack_mono {ch : Spectrum ℝ → ℝ} {L L' : Ray3 ℝ → ENNReal} (h : ∀ g, L g ≤ L' g) (g : Ray3 ℝ) : w.lightBack ch L g ≤ w.lightBack ch L' g := by
  unfold World.lightBack
  rcases w.cast { TRay.default with geometry := g } with (_ | ⟨i, arrived⟩) | _ | _
  · exact le_rfl
  · simp only
    rcases w.materialAt arrived.interaction.shading.side i with m | _ | _
    · exact add_le_add le_rfl (mul_le_mul' le_rfl (irradiance_mono fun l => h _))
    · exact le_rfl
    · exact le_rfl
  · exact le_rfl
  · exact le_rfl

theorem steps_mono (ch : Spectrum ℝ → ℝ) (g : Ray3 ℝ) : Monotone fun k => stepsLight w ch k g := by
  refine monotone_nat_of_le_succ fun k => ?_
  induction k generalizing g with
  | zero => exact zero_le
  | succ k ih => exact lightBack_mono (fun g => ih g) g

/-- The light of the equation with at most `k` reflections, when no path is given up. -/
theorem reflected_eq_steps (hW : w.SunlitMatt s) (rt : RayTracer) (hA : 0 < rt.nAmbientSamples) (hlim : rt.limitWeight = 0) (ch : Spectrum ℝ → ℝ) (hch : ch ∈ [Spectrum.c0, Spectrum.c1, Spectrum.c2]) (k : Nat) (hk : k ≤ rt.maxDepth + 1)
    (ray : TRay) (hu : Norm ray.geometry.direction = 1) : reflectedLight w rt ch k ray = stepsLight w ch k ray.geometry := by
  induction k generalizing ray with
  | zero => rfl
  | succ k ih =>
    unfold reflectedLight stepsLight World.lightBack
    rcases cast_geometry (w := w) ray ray.geometry rfl with ⟨h1, h2⟩ | ⟨i, it, h1, h2⟩ | ⟨h1, h2⟩
    · rw [h1, h2]
    · rw [h1, h2]
      simp only
      cases hm : w.materialAt it.shading.side i with
      | panic => rfl
      | diverge => rfl
      | ok m =>
        simp only
        have hs := sunlight_same hW ch hch hu h1 hm { TRay.default with geometry := ray.geometry, interaction := it } rfl
        rw [hs]
        congr 1
        by_cases h0 : rt.maxDepth = 0
        · have hk0 : k = 0 := by omega
          subst hk0
          simp only [reflectedLight, stepsLight, irradiance_const, zero_mul, mul_zero]
        · have hf : followChance rt ray.depth ray.value = 1 := by
            unfold followChance
            rw [if_neg (by omega)]
            split_ifs <;> rfl
          rw [hf, one_mul]
          congr 1
          refine irradiance_congr fun l hl => ?_
          rw [ih (by omega) _ (onward_unit hW hu h1 m hl)]
          rfl
    · rcases hx : w.cast ray with x | _ | _
      · exact absurd hx (h1 x)
      all_goals
        rcases hy : w.cast { TRay.default with geometry := ray.geometry } with y | _ | _
        · exact absurd hy (h2 y)
        all_goals rfl

/-- The mean light of a primary ray. -/
theorem mean_eq_steps (hW : w.SunlitMatt s) (rt : RayTracer) (hsh : 0 < rt.nShadowSamples) (hA : 0 < rt.nAmbientSamples) (hlim : rt.limitWeight = 0) (ch : Spectrum ℝ → ℝ) (hch : ch ∈ [Spectrum.c0, Spectrum.c1, Spectrum.c2]) (rays : List TRay)
    (hlen : rt.maxDepth < rays.length) (ray : TRay) (hu : Norm ray.geometry.direction = 1) (hval : 0 ≤ ray.value) (hdep : ray.depth = 0) (fuel : Nat) (hfuel : rt.maxDepth + rt.nShadowSamples + rt.nAmbientSamples + 3 ≤ fuel) :
    ∫⁻ r, seenLight (traceRay w rt fuel ⟨r, rays⟩ ray) ch ∂randomNumbers = stepsLight w ch (rt.maxDepth + 1) ray.geometry := by
  rw [C119_mean_light hW rt hsh ch hch rays hlen ray hu hval (by omega) fuel hfuel, hdep, Nat.sub_zero, reflected_eq_steps hW rt hA hlim ch hch _ le_rfl ray hu]

/-- On rays of unit direction, the light after at most `k` reflections can be integrated. -/
theorem steps_measurable (hW : w.SunlitMatt s) (ch : Spectrum ℝ → ℝ) (hch : ch ∈ [Spectrum.c0, Spectrum.c1, Spectrum.c2]) (k : Nat) : ∃ M : Ray3 ℝ → ENNReal, Measurable M ∧ ∀ g, Norm g.direction = 1 → stepsLight w ch k g = M g := by
  cases k with
  | zero => exact ⟨fun _ => 0, measurable_const, fun _ _ => rfl⟩
  | succ k =>
    obtain ⟨val, rest, hF, h⟩ := light_fresh hW ⟨k, 1, 1, 0, 0⟩ one_pos ch hch (k + 1) 1 zero_le_one
    refine ⟨fun g => avg (val g), hF.measurable_mean, fun g hg => ?_⟩
    obtain ⟨ray, h1, h2, h3⟩ : ∃ ray : TRay, ray.geometry = g ∧ ray.depth = 0 ∧ ray.value = 1 := ⟨⟨g, 1, TRay.default.interaction, 0, 1, Spectrum.black⟩, rfl, rfl, rfl⟩
    have := (h ray (by rw [h2]; simp) h3 (by rw [h1]; exact hg)).1
    show _ = avg (val g)
    rw [← h1, this, reflected_eq_steps hW ⟨k, 1, 1, 0, 0⟩ one_pos rfl ch hch (k + 1) le_rfl ray (by rw [h1]; exact hg)]

theorem directionAt_unit' {p : ℝ × ℝ} (hp : p ∈ Ioo (0 : ℝ) 1 ×ˢ Ioo 0 (2 * Real.pi)) : Norm (directionAt p.1 p.2) = 1 := by
  have h1 : 0 ≤ 1 - p.1 ^ 2 := by nlinarith [hp.1.1, hp.1.2]
  have h2 := Real.sq_sqrt h1
  have h3 := Real.sin_sq_add_cos_sq p.2
  refine Norm_eq_one ?_
  simp only [Dot, directionAt]
  calc _ = Real.sqrt (1 - p.1 ^ 2) ^ 2 * (Real.sin p.2 ^ 2 + Real.cos p.2 ^ 2) + p.1 ^ 2 := by ring
    _ = 1 := by rw [h2, h3]; ring

theorem directionAt_measurable' : Measurable fun p : ℝ × ℝ => directionAt p.1 p.2 := by
  unfold directionAt
  fun_prop

theorem irradiance_iSup {L : Nat → Vec3 ℝ → ENNReal} (hmono : ∀ l, Monotone fun k => L k l) (hm : ∀ k, ∃ M : Vec3 ℝ → ENNReal, Measurable M ∧ ∀ l, Norm l = 1 → L k l = M l) : (irradiance fun l => ⨆ k, L k l) = ⨆ k, irradiance (L k) := by
  have hB : MeasurableSet (Ioo (0 : ℝ) 1 ×ˢ Ioo 0 (2 * Real.pi)) := measurableSet_Ioo.prod measurableSet_Ioo
  unfold irradiance
  simp only [ENNReal.iSup_mul]
  refine lintegral_iSup' (fun k => ?_) (Filter.Eventually.of_forall fun p a b hab => mul_le_mul' (hmono _ hab) le_rfl)
  obtain ⟨M, h1, h2⟩ := hm k
  refine AEMeasurable.congr (f := fun p : ℝ × ℝ => M (directionAt p.1 p.2) * ENNReal.ofReal p.1) ?_ ?_
  · exact ((h1.comp directionAt_measurable').mul (ENNReal.measurable_ofReal.comp measurable_fst)).aemeasurable
  · filter_upwards [ae_restrict_mem hB] with p hp
    rw [h2 _ (directionAt_unit' hp)]

/-- The light after any number of reflections. -/
noncomputable def fullLight (w : World) (ch : Spectrum ℝ → ℝ) (g : Ray3 ℝ) : ENNReal := ⨆ k, stepsLight w ch k g

theorem full_solves (hW : w.SunlitMatt s) (ch : Spectrum ℝ → ℝ) (hch : ch ∈ [Spectrum.c0, Spectrum.c1, Spectrum.c2]) : w.SolvesRenderingEquation ch (fullLight w ch) := by
  intro g hg
  have hshift : fullLight w ch g = ⨆ k, stepsLight w ch (k + 1) g := ((steps_mono ch g).iSup_nat_add 1).symm
  rw [hshift]
  have hunf : ∀ k, stepsLight w ch (k + 1) g = w.lightBack ch (stepsLight w ch k) g := fun _ => rfl
  simp only [hunf]
  unfold World.lightBack
  rcases hc : w.cast { TRay.default with geometry := g } with (_ | ⟨i, arrived⟩) | _ | _
  · simp
  · simp only
    cases hm : w.materialAt arrived.interaction.shading.side i with
    | panic => simp
    | diverge => simp
    | ok m =>
      simp only
      rw [← ENNReal.add_iSup, ← ENNReal.mul_iSup]
      congr 2
      refine (irradiance_iSup (L := fun k l => stepsLight w ch k (arrived.onward m l).geometry) (fun l => steps_mono ch _) fun k => ?_).symm
      obtain ⟨M, h1, h2⟩ := steps_measurable hW ch hch k
      refine ⟨fun l => M (arrived.onward m l).geometry, h1.comp ?_, fun l hl => h2 _ (onward_unit hW hg hc m hl)⟩
      simp only [TRay.onward]
      exact Ray3.measurable_mk measurable_const (measurable_worldOf _ _ _ measurable_id)
  · simp
  · simp

/-- The light after at most `k` reflections is no more than any solution. -/
theorem steps_le (hW : w.SunlitMatt s) (ch : Spectrum ℝ → ℝ) {L : Ray3 ℝ → ENNReal} (hL : w.SolvesRenderingEquation ch L) (k : Nat) (g : Ray3 ℝ) (hg : Norm g.direction = 1) : stepsLight w ch k g ≤ L g := by
  induction k generalizing g with
  | zero => exact zero_le
  | succ k ih =>
    rw [hL g hg]
    unfold stepsLight World.lightBack
    rcases hc : w.cast { TRay.default with geometry := g } with (_ | ⟨i, arrived⟩) | _ | _
    · exact le_rfl
    · simp only
      rcases w.materialAt arrived.interaction.shading.side i with m | _ | _
      · exact add_le_add le_rfl (mul_le_mul' le_rfl (irradiance_mono_unit fun l hl => ih _ (onward_unit hW hg hc m hl)))
      · exact le_rfl
      · exact le_rfl
    · exact le_rfl
    · exact le_rfl

theorem colour_irradiance_const (a : ℝ) (c : ENNReal) : ENNReal.ofReal (a / Real.pi) * (irradiance fun _ => c) = ENNReal.ofReal a * c := by
  have hpi : ENNReal.ofReal Real.pi ≠ 0 := by simpa using Real.pi_pos
  rw [irradiance_const, ENNReal.ofReal_div_of_pos Real.pi_pos, ENNReal.div_eq_inv_mul]
  calc _ = (ENNReal.ofReal Real.pi)⁻¹ * ENNReal.ofReal Real.pi * (ENNReal.ofReal a * c) := by ring
    _ = _ := by rw [ENNReal.inv_mul_cancel hpi ENNReal.ofReal_ne_top, one_mul]

theorem irradiance_add_const (L : Vec3 ℝ → ENNReal) (c : ENNReal) : irradiance (fun l => L l + c) = irradiance L + irradiance fun _ => c := by
  unfold irradiance
  simp only [add_mul]
  have hm : Measurable fun p : ℝ × ℝ => c * ENNReal.ofReal p.1 := measurable_const.mul (ENNReal.measurable_ofReal.comp measurable_fst)
  exact lintegral_add_right _ hm

/-- A bounded solution exceeds the light after at most `k` reflections by at most `ρ^k` times its bound. -/
theorem le_steps (hW : w.SunlitMatt s) (ch : Spectrum ℝ → ℝ) (ρ B : ENNReal) (hρ : ∀ (k : Nat) m, s.materials[k]? = some m → k ∈ s.front ++ s.back → ENNReal.ofReal (ch m.colour) ≤ ρ) {L : Ray3 ℝ → ENNReal} (hL : w.SolvesRenderingEquation ch L)
    (hB : ∀ g : Ray3 ℝ, Norm g.direction = 1 → L g ≤ B) (k : Nat) (g : Ray3 ℝ) (hg : Norm g.direction = 1) : L g ≤ stepsLight w ch k g + ρ ^ k * B := by
  induction k generalizing g with
  | zero => simpa [stepsLight] using hB g hg
  | succ k ih =>
    rw [hL g hg]
    unfold stepsLight World.lightBack
    rcases hc : w.cast { TRay.default with geometry := g } with (_ | ⟨i, arrived⟩) | _ | _
    · exact zero_le
    · simp only
      cases hm : w.materialAt arrived.interaction.shading.side i with
      | panic => exact zero_le
      | diverge => exact zero_le
      | ok m =>
        simp only
        obtain ⟨mk, hmk, hmem⟩ := material_from hW.renders hm
        have h1 : (irradiance fun l => L (arrived.onward m l).geometry) ≤ (irradiance fun l => stepsLight w ch k (arrived.onward m l).geometry) + irradiance fun _ => ρ ^ k * B := by
          rw [← irradiance_add_const]
          exact irradiance_mono_unit fun l hl => ih _ (onward_unit hW hg hc m hl)
        rw [add_assoc]
        refine add_le_add le_rfl ((mul_le_mul' le_rfl h1).trans ?_)
        rw [mul_add, colour_irradiance_const]
        refine add_le_add le_rfl ?_
        calc _ ≤ ρ * (ρ ^ k * B) := mul_le_mul' (hρ mk m hmk hmem) le_rfl
          _ = _ := by ring
    · exact zero_le
    · exact zero_le

/-- The light after any number of reflections is bounded if all surfaces absorb some light. -/
theorem full_bounded (hW : w.SunlitMatt s) (ch : Spectrum ℝ → ℝ) (hch : ch ∈ [Spectrum.c0, Spectrum.c1, Spectrum.c2]) (ρ : ENNReal) (hρ : ∀ (k : Nat) m, s.materials[k]? = some m → k ∈ s.front ++ s.back → ENNReal.ofReal (ch m.colour) ≤ ρ) (D : ENNReal)
    (hD : ∀ (ray : TRay) i arrived m, Norm ray.geometry.direction = 1 → w.cast ray = .ok (some (i, arrived)) → w.materialAt arrived.interaction.shading.side i = .ok m → sunlightAt w m arrived ch ≤ D)
    (g : Ray3 ℝ) (hg : Norm g.direction = 1) : fullLight w ch g ≤ D * (1 - ρ)⁻¹ := by
  refine iSup_le fun k => ?_
  cases k with
  | zero => exact zero_le
  | succ k =>
    have h := C119_energy hW ⟨k, 1, 1, 0, 0⟩ one_pos ch hch ρ D hρ hD (List.replicate (k + 1) TRay.default) (by simp) { TRay.default with geometry := g, depth := 0, value := 1 } hg zero_le_one (Nat.zero_le _) (k + 5) (by simp)
    rw [mean_eq_steps hW ⟨k, 1, 1, 0, 0⟩ one_pos one_pos rfl ch hch (List.replicate (k + 1) TRay.default) (by simp) { TRay.default with geometry := g, depth := 0, value := 1 } hg zero_le_one rfl (k + 5) (by simp)] at h
    refine h.trans ?_
    rw [← Finset.mul_sum, ← ENNReal.tsum_geometric]
    exact mul_le_mul' le_rfl (ENNReal.sum_le_tsum _)

/-- **C122, the limit.** The means that `trace_ray` returns along a ray for `max_depth` 0, 1, 2, … (with `limit_weight` 0) grow towards a solution of the rendering equation, the least one. -/
theorem C122_limit (hW : w.SunlitMatt s) (ch : Spectrum ℝ → ℝ) (hch : ch ∈ [Spectrum.c0, Spectrum.c1, Spectrum.c2]) : ∃ L : Ray3 ℝ → ENNReal, w.SolvesRenderingEquation ch L ∧
    (∀ L', w.SolvesRenderingEquation ch L' → ∀ g : Ray3 ℝ, Norm g.direction = 1 → L g ≤ L' g) ∧
    ∀ (rt : RayTracer) (ray : TRay), 0 < rt.nShadowSamples → 0 < rt.nAmbientSamples → rt.limitWeight = 0 → Norm ray.geometry.direction = 1 → 0 ≤ ray.value → ray.depth = 0 →
      Filter.Tendsto (fun depth => ∫⁻ r, seenLight (traceRay w { rt with maxDepth := depth } (depth + rt.nShadowSamples + rt.nAmbientSamples + 3) ⟨r, List.replicate (depth + 1) TRay.default⟩ ray) ch ∂randomNumbers) Filter.atTop (nhds (L ray.geometry)) := by
  refine ⟨fullLight w ch, full_solves hW ch hch, fun L' hL' g hg => iSup_le fun k => steps_le hW ch hL' k g hg, fun rt ray hsh hA hlim hu hv hd => ?_⟩
  have e : ∀ depth, ∫⁻ r, seenLight (traceRay w { rt with maxDepth := depth } (depth + rt.nShadowSamples + rt.nAmbientSamples + 3) ⟨r, List.replicate (depth + 1) TRay.default⟩ ray) ch ∂randomNumbers = stepsLight w ch (depth + 1) ray.geometry :=
    fun depth => mean_eq_steps hW { rt with maxDepth := depth } hsh hA hlim ch hch _ (by simp) ray hu hv hd _ le_rfl
  simp only [e]
  exact (Filter.tendsto_add_atTop_iff_nat 1).2 (tendsto_atTop_iSup (steps_mono ch ray.geometry))

/-- **C122, the error.** If every surface reflects at most the share `ρ < 1`, the rendering equation has exactly one bounded solution `L`, and for every setting with `limit_weight` 0 the mean that `trace_ray` returns along a primary ray
is at most `L` and misses at most `ρ^(max_depth + 1)` times a constant of the scene; other values of `limit_weight` only give less. -/
theorem C122_error (hW : w.SunlitMatt s) (ch : Spectrum ℝ → ℝ) (hch : ch ∈ [Spectrum.c0, Spectrum.c1, Spectrum.c2]) (ρ : ENNReal) (hρ1 : ρ < 1) (hρ : ∀ (k : Nat) m, s.materials[k]? = some m → k ∈ s.front ++ s.back → ENNReal.ofReal (ch m.colour) ≤ ρ) :
    ∃ (L : Ray3 ℝ → ENNReal) (B : ENNReal), B ≠ ⊤ ∧ w.SolvesRenderingEquation ch L ∧ (∀ g : Ray3 ℝ, Norm g.direction = 1 → L g ≤ B) ∧
      (∀ L' C, C ≠ ⊤ → w.SolvesRenderingEquation ch L' → (∀ g : Ray3 ℝ, Norm g.direction = 1 → L' g ≤ C) → ∀ g : Ray3 ℝ, Norm g.direction = 1 → L' g = L g) ∧
      ∀ (rt : RayTracer) (rays : List TRay) (ray : TRay) (fuel : Nat), 0 < rt.nShadowSamples → rt.maxDepth < rays.length → Norm ray.geometry.direction = 1 → 0 ≤ ray.value → ray.depth = 0 → rt.maxDepth + rt.nShadowSamples + rt.nAmbientSamples + 3 ≤ fuel →
        ∫⁻ r, seenLight (traceRay w rt fuel ⟨r, rays⟩ ray) ch ∂randomNumbers ≤ L ray.geometry ∧
        (0 < rt.nAmbientSamples → rt.limitWeight = 0 → L ray.geometry ≤ ∫⁻ r, seenLight (traceRay w rt fuel ⟨r, rays⟩ ray) ch ∂randomNumbers + ρ ^ (rt.maxDepth + 1) * B) := by
  obtain ⟨E, hE, hD⟩ := sunlight_bounded hW ch hch
  have hD' : ∀ (ray : TRay) i arrived m, Norm ray.geometry.direction = 1 → w.cast ray = .ok (some (i, arrived)) → w.materialAt arrived.interaction.shading.side i = .ok m → sunlightAt w m arrived ch ≤ ENNReal.ofReal E := by
    intro ray i arrived m hu hc hm
    obtain ⟨mk, hmk, hmem⟩ := material_from hW.renders hm
    refine (hD ray i arrived m hu hc hm).trans ?_
    calc _ ≤ 1 * ENNReal.ofReal E := mul_le_mul' ((hρ mk m hmk hmem).trans hρ1.le) le_rfl
      _ = _ := one_mul _
  have hB := full_bounded hW ch hch ρ hρ _ hD'
  have hfin : (1 - ρ)⁻¹ ≠ ⊤ := ENNReal.inv_ne_top.2 (tsub_pos_of_lt hρ1).ne'
  refine ⟨fullLight w ch, ENNReal.ofReal E * (1 - ρ)⁻¹, ENNReal.mul_ne_top ENNReal.ofReal_ne_top hfin, full_solves hW ch hch, hB, fun L' C hC hL' hb g hg => ?_, fun rt rays ray fuel hsh hlen hu hv hd hfuel => ⟨?_, fun hA hlim => ?_⟩⟩
  · refine le_antisymm ?_ (iSup_le fun k => steps_le hW ch hL' k g hg)
    have hlim : Filter.Tendsto (fun k => fullLight w ch g + ρ ^ k * C) Filter.atTop (nhds (fullLight w ch g + 0 * C)) :=
      tendsto_const_nhds.add (ENNReal.Tendsto.mul_const (ENNReal.tendsto_pow_atTop_nhds_zero_of_lt_one hρ1) (Or.inr hC))
    rw [zero_mul, add_zero] at hlim
    refine ge_of_tendsto' hlim fun k => (le_steps hW ch ρ C hρ hL' hb k g hg).trans (add_le_add ?_ le_rfl)
    exact le_iSup (fun k => stepsLight w ch k g) k
  · have h0 : reflectedLight w rt ch (rt.maxDepth + 1) ray ≤ reflectedLight w { rt with limitWeight := 0, nAmbientSamples := 1 } ch (rt.maxDepth + 1) ray := by
      refine reflected_mono _ _ (fun d v => ?_) ch _ _ le_rfl ray
      by_cases h : rt.maxDepth = 0 ∨ rt.nAmbientSamples = 0
      · simp only [followChance, h, if_true]; exact zero_le
      · refine (follow_le rt d v).trans ?_
        have h' : ¬ rt.maxDepth = 0 := fun e => h (Or.inl e)
        simp only [followChance, h', one_ne_zero, or_self, if_false, if_true, ite_self, le_refl]
    rw [C119_mean_light hW rt hsh ch hch rays hlen ray hu hv (by omega) fuel hfuel, hd, Nat.sub_zero]
    refine h0.trans ?_
    rw [reflected_eq_steps hW { rt with limitWeight := 0, nAmbientSamples := 1 } one_pos rfl ch hch (rt.maxDepth + 1) le_rfl ray hu]
    exact le_iSup (fun k => stepsLight w ch k ray.geometry) _
  · rw [mean_eq_steps hW rt hsh hA hlim ch hch rays hlen ray hu hv hd fuel hfuel]
    exact le_steps hW ch ρ _ hρ (full_solves hW ch hch) hB _ _ hu

end Rendering
