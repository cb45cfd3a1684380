import Verif.Props.SkyView
import Mathlib.Probability.Moments.SubGaussian
import Mathlib.Analysis.Real.Pi.Bounds

/-!
# C105: the noise of daylight coefficients falls with the number of samples
-/

set_option linter.unusedSectionVars false
namespace Rendering

open MeasureTheory Set ProbabilityTheory

/-- The law of `n` pairs of draws. -/
noncomputable def pairDraws (n : Nat) : Measure (Fin n → ℝ × ℝ) := Measure.pi fun _ : Fin n => (volume : Measure (ℝ × ℝ)).restrict unitSquare

theorem probabilityN_le (n : Nat) (event : (Fin n → ℝ × ℝ) → Prop) (S : Set (Fin n → ℝ × ℝ)) (h : ∀ ω, (∀ k, ω k ∈ unitSquare) → event ω → ω ∈ S) : ProbabilityN n event ≤ pairDraws n S := by
  unfold ProbabilityN pairDraws
  rw [← Measure.restrict_pi_pi, ← volume_pi]
  have hms : MeasurableSet (Set.univ.pi fun _ : Fin n => unitSquare) := MeasurableSet.univ_pi fun _ => measurableSet_Ico.prod measurableSet_Ico
  rw [Measure.restrict_apply' hms]
  exact measure_mono fun ω hω => ⟨h ω hω.1 hω.2, fun k _ => hω.1 k⟩

theorem pairDraws_prob (n : Nat) : IsProbabilityMeasure (pairDraws n) := by
  have := unitSquare_prob
  unfold pairDraws; infer_instance

/-- Hoeffding's inequality for the sum of a quantity between 0 and 1 over the samples, above and below the mean. -/
theorem sum_deviates (n : Nat) (hn : 0 < n) (X : ℝ × ℝ → ℝ) (hXm : Measurable X) (hX : ∀ d ∈ unitSquare, X d ∈ Icc (0 : ℝ) 1) (p : ℝ) (hmean : ∫ d in unitSquare, X d = p) (t : ℝ) (ht : 0 ≤ t) (σ : ℝ) (hσ : σ = 1 ∨ σ = -1) :
    pairDraws n {ω | n * t ≤ ∑ k, σ * (X (ω k) - p)} ≤ ENNReal.ofReal (Real.exp (-2 * n * t ^ 2)) := by
  have := unitSquare_prob
  have := pairDraws_prob n
  set μ := (volume : Measure (ℝ × ℝ)).restrict unitSquare
  have hX01 : ∀ᵐ d ∂μ, X d ∈ Icc (0 : ℝ) 1 := (ae_restrict_iff' (measurableSet_Ico.prod measurableSet_Ico)).2 (Filter.Eventually.of_forall hX)
  have hsub : HasSubgaussianMGF (fun d => σ * (X d - p)) ((‖(1 : ℝ)‖₊ / 2) ^ 2) μ := by
    have h1 := hasSubgaussianMGF_of_mem_Icc (μ := μ) (a := 0) (b := 1) hXm.aemeasurable hX01
    rw [hmean, sub_zero] at h1
    rcases hσ with rfl | rfl
    · simpa using h1
    · have := h1.neg
      refine this.congr (Filter.Eventually.of_forall fun d => ?_)
      simp
  have hYm : Measurable fun d => σ * (X d - p) := (hXm.sub_const p).const_mul σ
  have hindep : iIndepFun (fun (k : Fin n) (ω : Fin n → ℝ × ℝ) => σ * (X (ω k) - p)) (pairDraws n) := iIndepFun_pi (X := fun (_ : Fin n) d => σ * (X d - p)) fun _ => hYm.aemeasurable
  have hsubk : ∀ k ∈ (Finset.univ : Finset (Fin n)), HasSubgaussianMGF (fun ω : Fin n → ℝ × ℝ => σ * (X (ω k) - p)) ((‖(1 : ℝ)‖₊ / 2) ^ 2) (pairDraws n) := by
    intro k _
    have hmp := measurePreserving_eval (fun _ : Fin n => μ) k
    have h1 : HasSubgaussianMGF (fun d => σ * (X d - p)) ((‖(1 : ℝ)‖₊ / 2) ^ 2) ((pairDraws n).map (Function.eval k)) := by
      unfold pairDraws; rw [hmp.map_eq]; exact hsub
    exact HasSubgaussianMGF.of_map (X := fun d : ℝ × ℝ => σ * (X d - p)) (Y := fun ω : Fin n → ℝ × ℝ => ω k) (measurable_pi_apply k).aemeasurable h1
  have key := HasSubgaussianMGF.measure_sum_ge_le_of_iIndepFun hindep hsubk (ε := n * t) (by positivity)
  rw [Measure.real] at key
  have e : -((n : ℝ) * t) ^ 2 / (2 * ∑ _ ∈ (Finset.univ : Finset (Fin n)), (((‖(1 : ℝ)‖₊ / 2) ^ 2 : NNReal) : ℝ)) = -2 * n * t ^ 2 := by
    simp
    field_simp
  have key' : ((pairDraws n) {ω | n * t ≤ ∑ k, σ * (X (ω k) - p)}).toReal ≤ Real.exp (-2 * n * t ^ 2) := by
    rw [← e]
    refine le_trans key (le_of_eq ?_)
    push_cast
    rfl
  rw [← ENNReal.ofReal_toReal (measure_ne_top (pairDraws n) _)]
  exact ENNReal.ofReal_le_ofReal key'

/-- Hoeffding's inequality for the number of samples that fall in a set, above and below the mean. -/
theorem count_deviates (n : Nat) (hn : 0 < n) (A : Set (ℝ × ℝ)) (hA : MeasurableSet A) (t : ℝ) (ht : 0 ≤ t) (σ : ℝ) (hσ : σ = 1 ∨ σ = -1) :
    pairDraws n {ω | n * t ≤ ∑ k, σ * (A.indicator (fun _ => (1 : ℝ)) (ω k) - (volume (unitSquare ∩ A)).toReal)} ≤ ENNReal.ofReal (Real.exp (-2 * n * t ^ 2)) := by
  refine sum_deviates n hn (A.indicator fun _ => (1 : ℝ)) (measurable_const.indicator hA) (fun d _ => ?_) _ ?_ t ht σ hσ
  · simp only [indicator]; split_ifs <;> simp
  · rw [integral_indicator hA, integral_const, smul_eq_mul, mul_one, Measure.real, Measure.restrict_apply_univ, Measure.restrict_apply hA, inter_comm]

/-- The sum of a quantity between 0 and 1 over the samples is seldom far below or above the mean. -/
theorem mean_deviates (n : Nat) (hn : 0 < n) (X : ℝ × ℝ → ENNReal) (hXm : Measurable X) (hX : ∀ d ∈ unitSquare, X d ≤ 1) (t : ℝ) (ht : 0 ≤ t) :
    ProbabilityN n (fun ω => ∑ k, X (ω k) + ENNReal.ofReal (n * t) ≤ n * Mean X) ≤ ENNReal.ofReal (Real.exp (-2 * n * t ^ 2)) ∧
    ProbabilityN n (fun ω => n * Mean X + ENNReal.ofReal (n * t) ≤ ∑ k, X (ω k)) ≤ ENNReal.ofReal (Real.exp (-2 * n * t ^ 2)) := by
  have := unitSquare_prob
  have hms : MeasurableSet unitSquare := measurableSet_Ico.prod measurableSet_Ico
  have hmean : ∫ d in unitSquare, (X d).toReal = (Mean X).toReal := integral_toReal hXm.aemeasurable ((ae_restrict_iff' hms).2 (Filter.Eventually.of_forall fun d hd => lt_of_le_of_lt (hX d hd) ENNReal.one_lt_top))
  have hfin : Mean X ≠ ⊤ := by
    have : Mean X ≤ ∫⁻ _ in unitSquare, 1 := setLIntegral_mono' hms fun d hd => hX d hd
    rw [lintegral_one, measure_univ] at this
    exact ne_top_of_le_ne_top ENNReal.one_ne_top this
  have h01 : ∀ d ∈ unitSquare, (X d).toReal ∈ Icc (0 : ℝ) 1 := fun d hd => ⟨ENNReal.toReal_nonneg, by simpa using ENNReal.toReal_mono ENNReal.one_ne_top (hX d hd)⟩
  have hsum : ∀ ω : Fin n → ℝ × ℝ, (∀ k, ω k ∈ unitSquare) → ∑ k, X (ω k) = ENNReal.ofReal (∑ k, (X (ω k)).toReal) := by
    intro ω hω
    rw [ENNReal.ofReal_sum_of_nonneg fun k _ => ENNReal.toReal_nonneg]
    refine Finset.sum_congr rfl fun k _ => (ENNReal.ofReal_toReal (ne_top_of_le_ne_top ENNReal.one_ne_top (hX _ (hω k)))).symm
  have hM : (n : ENNReal) * Mean X = ENNReal.ofReal (n * (Mean X).toReal) := by
    rw [ENNReal.ofReal_mul (by positivity), ENNReal.ofReal_natCast, ENNReal.ofReal_toReal hfin]
  have hr : ∀ (ω : Fin n → ℝ × ℝ) (σ : ℝ), ∑ k, σ * ((X (ω k)).toReal - (Mean X).toReal) = σ * (∑ k, (X (ω k)).toReal - n * (Mean X).toReal) := by
    intro ω σ
    rw [← Finset.mul_sum, Finset.sum_sub_distrib]; simp
  have hp : (0 : ℝ) ≤ n * (Mean X).toReal := by positivity
  have hnt : 0 ≤ (n : ℝ) * t := by positivity
  constructor
  · refine le_trans (probabilityN_le n _ _ ?_) (sum_deviates n hn (fun d => (X d).toReal) hXm.ennreal_toReal h01 _ hmean t ht (-1) (Or.inr rfl))
    intro ω hω hev
    rw [hsum ω hω, hM, ← ENNReal.ofReal_add (Finset.sum_nonneg fun k _ => ENNReal.toReal_nonneg) hnt, ENNReal.ofReal_le_ofReal_iff hp] at hev
    rw [mem_setOf_eq, hr]
    linarith
  · refine le_trans (probabilityN_le n _ _ ?_) (sum_deviates n hn (fun d => (X d).toReal) hXm.ennreal_toReal h01 _ hmean t ht 1 (Or.inl rfl))
    intro ω hω hev
    rw [hsum ω hω, hM, ← ENNReal.ofReal_add hp hnt, ENNReal.ofReal_le_ofReal_iff (Finset.sum_nonneg fun k _ => ENNReal.toReal_nonneg)] at hev
    rw [mem_setOf_eq, hr]
    linarith

variable {w : World} {s : Scene ℝ}

/-- **C105.** Without bounces and without mirrors, glass or dielectrics: with `n` samples, the probability that the coefficient of sky patch `j` at sensor `i` misses the integral of the cosine over the directions of the patch in which the sensor sees the sky by `ε` or more is at most
`exp(-2 n ε² / π²)` from below (against the directions whose rays certainly meet nothing) and from above (against those whose rays go through no triangle): it falls exponentially with the number of samples, whatever the scene. -/
theorem C105_noise (hR : w.Renders s) (hI : s.IndicesValid) (hext : w.ext.PerpSpec) (hmat : ∀ m ∈ s.materials, m.specularOnly = false) (dc : DcFactory) (hD : dc.maxDepth = 0) (hn : 0 < dc.nAmbientSamples)
    (hbin : ∀ d, Norm d = 1 → dc.dirToBin d < dc.nBins) (hmeas : ∀ j, Measurable3 {d | dc.dirToBin d = j})
    (rays : List (Ray3 ℝ)) (hrays : ∀ r ∈ rays, Norm r.direction = 1) (i : Nat) (sensor : Ray3 ℝ) (hs : rays[i]? = some sensor) (primary : Nat → Rng) (hp : ∀ i, (primary i).Valid) (secondary : Nat → Nat → Rng) (fuel : Nat) :
    ∃ e1 e2, Frame e1 e2 sensor.direction ∧ ∀ j < dc.nBins, ∀ ch ∈ [Spectrum.c0, Spectrum.c1, Spectrum.c2], ∀ ε : ℝ, 0 ≤ ε →
      ProbabilityN dc.nAmbientSamples (fun ω => coefficient (calcDc w dc (fuel + 1) rays (Function.update primary i (Rng.ofPairs ω (primary i))) secondary) i j ch + ENNReal.ofReal ε ≤
        projectedSolidAngle {l | dc.dirToBin (worldOf e1 e2 sensor.direction l) = j ∧ SurelySeesSky s sensor.origin (worldOf e1 e2 sensor.direction l)}) ≤ ENNReal.ofReal (Real.exp (-2 * dc.nAmbientSamples * ε ^ 2 / Real.pi ^ 2)) ∧
      ProbabilityN dc.nAmbientSamples (fun ω => projectedSolidAngle {l | dc.dirToBin (worldOf e1 e2 sensor.direction l) = j ∧ MaySeeSky s sensor.origin (worldOf e1 e2 sensor.direction l)} + ENNReal.ofReal ε ≤
        coefficient (calcDc w dc (fuel + 1) rays (Function.update primary i (Rng.ofPairs ω (primary i))) secondary) i j ch) ≤ ENNReal.ofReal (Real.exp (-2 * dc.nAmbientSamples * ε ^ 2 / Real.pi ^ 2)) := by
  obtain ⟨e2, he, g1, g2⟩ := hext sensor.direction (hrays _ (List.mem_of_getElem? hs))
  have hf := frame_of_perp (hrays _ (List.mem_of_getElem? hs)) g1 g2
  refine ⟨e2.cross sensor.direction, e2, hf, fun j hj ch hch ε hε => ?_⟩
  set e1 := e2.cross sensor.direction with he1
  set n := dc.nAmbientSamples with hnn
  have hworld : ∀ S : Set (Vec3 ℝ), Measurable3 S → Measurable3 {l | worldOf e1 e2 sensor.direction l ∈ S} := by
    intro S hS
    have hm : Measurable fun p : ℝ × ℝ × ℝ => (e1.x * p.1 + e2.x * p.2.1 + sensor.direction.x * p.2.2, e1.y * p.1 + e2.y * p.2.1 + sensor.direction.y * p.2.2, e1.z * p.1 + e2.z * p.2.1 + sensor.direction.z * p.2.2) := by fun_prop
    exact hm hS
  have hn' : (0 : ℝ) < n := by exact_mod_cast hn
  have hq : (0 : ℝ) ≤ Real.pi / n := by positivity
  have share : ∀ S : Set (Vec3 ℝ), Measurable3 S → MeasurableSet {d : ℝ × ℝ | drawn d ∈ S} ∧ projectedSolidAngle S = ENNReal.ofReal (Real.pi * (volume (unitSquare ∩ {d : ℝ × ℝ | drawn d ∈ S})).toReal) := by
    intro S hS
    have := unitSquare_prob
    obtain ⟨a1, a2⟩ := drawn_share S hS n hn
    refine ⟨a1, ?_⟩
    have hfin : volume (unitSquare ∩ {d : ℝ × ℝ | drawn d ∈ S}) ≠ ⊤ := by
      rw [inter_comm, ← Measure.restrict_apply a1]; exact measure_ne_top _ _
    rw [← a2, ENNReal.ofReal_mul Real.pi_pos.le, ENNReal.ofReal_toReal hfin, ← mul_assoc, ← ENNReal.ofReal_natCast, ← ENNReal.ofReal_mul (by positivity), mul_div_cancel₀ _ hn'.ne']
  have hexp : -2 * (n : ℝ) * (ε / Real.pi) ^ 2 = -2 * n * ε ^ 2 / Real.pi ^ 2 := by rw [div_pow]; ring
  have sumC : ∀ (A : Set (ℝ × ℝ)) (ω : Fin n → ℝ × ℝ) (p σ : ℝ), ∑ k, σ * (A.indicator (fun _ => (1 : ℝ)) (ω k) - p) = σ * (∑ k, A.indicator (fun _ => (1 : ℝ)) (ω k) - n * p) := by
    intro A ω p σ
    rw [← Finset.mul_sum, Finset.sum_sub_distrib]; simp
  constructor
  · obtain ⟨a1, a2⟩ := share {l | dc.dirToBin (worldOf e1 e2 sensor.direction l) = j ∧ SurelySeesSky s sensor.origin (worldOf e1 e2 sensor.direction l)} (by
      unfold Measurable3
      exact MeasurableSet.inter (hworld _ (hmeas j)) (hworld _ (measurable_surelySees s sensor.origin)))
    rw [a2, ← hexp]
    refine le_trans (probabilityN_le n _ _ ?_) (count_deviates n hn _ a1 (ε / Real.pi) (by positivity) (-1) (Or.inr rfl))
    intro ω hω hev
    obtain ⟨v, hv, hc⟩ := coefficient_direct hR hI hext hmat dc hD hbin rays hrays i sensor hs e2 he hf primary hp secondary ω hω fuel j hj ch hch
    have hv0 : ∀ k, 0 ≤ v k := fun k => by rcases hv k with h | h <;> rw [h.1]; exact hq
    rw [hc, ← ENNReal.ofReal_add (Finset.sum_nonneg fun k _ => by split_ifs <;> [exact hv0 k; exact le_rfl]) hε, ENNReal.ofReal_le_ofReal_iff (by positivity)] at hev
    rw [mem_setOf_eq, sumC]
    set A := {d : ℝ × ℝ | drawn d ∈ {l | dc.dirToBin (worldOf e1 e2 sensor.direction l) = j ∧ SurelySeesSky s sensor.origin (worldOf e1 e2 sensor.direction l)}} with hA
    set p := (volume (unitSquare ∩ A)).toReal
    have hle : Real.pi / n * ∑ k, A.indicator (fun _ => (1 : ℝ)) (ω k) ≤ ∑ k, if dc.dirToBin (worldOf e1 e2 sensor.direction (drawn (ω k))) = j then v k else 0 := by
      rw [Finset.mul_sum]
      refine Finset.sum_le_sum fun k _ => ?_
      by_cases h : ω k ∈ A
      · rw [indicator_of_mem h, if_pos h.1, mul_one]
        rcases hv k with h' | h'
        · exact absurd h.2 h'.2
        · rw [h'.1]
      · rw [indicator_of_notMem h, mul_zero]
        split_ifs <;> [exact hv0 k; exact le_rfl]
    set C := ∑ k, A.indicator (fun _ => (1 : ℝ)) (ω k)
    have h1 : Real.pi / n * C + ε ≤ Real.pi * p := by linarith
    have h2 : (Real.pi / n * C + ε) * (n / Real.pi) ≤ Real.pi * p * (n / Real.pi) := mul_le_mul_of_nonneg_right h1 (by positivity)
    have e3 : (Real.pi / n * C + ε) * (n / Real.pi) = C + n * (ε / Real.pi) := by field_simp
    have e4 : Real.pi * p * (n / Real.pi) = n * p := by field_simp
    rw [e3, e4] at h2
    linarith
  · obtain ⟨a1, a2⟩ := share {l | dc.dirToBin (worldOf e1 e2 sensor.direction l) = j ∧ MaySeeSky s sensor.origin (worldOf e1 e2 sensor.direction l)} (by
      unfold Measurable3
      exact MeasurableSet.inter (hworld _ (hmeas j)) (hworld _ (measurable_maySee s sensor.origin)))
    rw [a2, ← hexp]
    refine le_trans (probabilityN_le n _ _ ?_) (count_deviates n hn _ a1 (ε / Real.pi) (by positivity) 1 (Or.inl rfl))
    intro ω hω hev
    obtain ⟨v, hv, hc⟩ := coefficient_direct hR hI hext hmat dc hD hbin rays hrays i sensor hs e2 he hf primary hp secondary ω hω fuel j hj ch hch
    have hv0 : ∀ k, 0 ≤ v k := fun k => by rcases hv k with h | h <;> rw [h.1]; exact hq
    rw [hc, ← ENNReal.ofReal_add (by positivity) hε, ENNReal.ofReal_le_ofReal_iff (Finset.sum_nonneg fun k _ => by split_ifs <;> [exact hv0 k; exact le_rfl])] at hev
    rw [mem_setOf_eq, sumC]
    set A := {d : ℝ × ℝ | drawn d ∈ {l | dc.dirToBin (worldOf e1 e2 sensor.direction l) = j ∧ MaySeeSky s sensor.origin (worldOf e1 e2 sensor.direction l)}} with hA
    set p := (volume (unitSquare ∩ A)).toReal
    have hle : (∑ k, if dc.dirToBin (worldOf e1 e2 sensor.direction (drawn (ω k))) = j then v k else 0) ≤ Real.pi / n * ∑ k, A.indicator (fun _ => (1 : ℝ)) (ω k) := by
      rw [Finset.mul_sum]
      refine Finset.sum_le_sum fun k _ => ?_
      by_cases h : ω k ∈ A
      · rw [indicator_of_mem h, if_pos h.1, mul_one]
        rcases hv k with h' | h'
        · rw [h'.1]; exact hq
        · rw [h'.1]
      · rw [indicator_of_notMem h, mul_zero]
        split_ifs with h5
        · rcases hv k with h' | h'
          · rw [h'.1]
          · exact absurd ⟨h5, h'.2⟩ h
        · exact le_rfl
    set C := ∑ k, A.indicator (fun _ => (1 : ℝ)) (ω k)
    have h1 : Real.pi * p + ε ≤ Real.pi / n * C := by linarith
    have h2 : (Real.pi * p + ε) * (n / Real.pi) ≤ Real.pi / n * C * (n / Real.pi) := mul_le_mul_of_nonneg_right h1 (by positivity)
    have e3 : (Real.pi * p + ε) * (n / Real.pi) = n * p + n * (ε / Real.pi) := by field_simp
    have e4 : Real.pi / n * C * (n / Real.pi) = C := by field_simp
    rw [e3, e4] at h2
    linarith

/-- **C105, unobstructed sensors.** If nothing is in front of the sensor, a coefficient is off by `ε` or more with a probability of at most `2 exp(-2 n ε² / π²)`. -/
theorem C105_open_sky (hR : w.Renders s) (hI : s.IndicesValid) (hext : w.ext.PerpSpec) (hmat : ∀ m ∈ s.materials, m.specularOnly = false) (dc : DcFactory) (hD : dc.maxDepth = 0) (hn : 0 < dc.nAmbientSamples)
    (hbin : ∀ d, Norm d = 1 → dc.dirToBin d < dc.nBins) (hmeas : ∀ j, Measurable3 {d | dc.dirToBin d = j})
    (rays : List (Ray3 ℝ)) (hrays : ∀ r ∈ rays, Norm r.direction = 1) (i : Nat) (sensor : Ray3 ℝ) (hs : rays[i]? = some sensor) (hopen : OpenSky s sensor) (primary : Nat → Rng) (hp : ∀ i, (primary i).Valid) (secondary : Nat → Nat → Rng)
    (fuel : Nat) :
    ∃ e1 e2, Frame e1 e2 sensor.direction ∧ ∀ j < dc.nBins, ∀ ch ∈ [Spectrum.c0, Spectrum.c1, Spectrum.c2], ∀ ε : ℝ, 0 ≤ ε →
      ProbabilityN dc.nAmbientSamples (fun ω =>
        let got := coefficient (calcDc w dc (fuel + 1) rays (Function.update primary i (Rng.ofPairs ω (primary i))) secondary) i j ch
        let true_ := projectedSolidAngle {l | dc.dirToBin (worldOf e1 e2 sensor.direction l) = j}
        got + ENNReal.ofReal ε ≤ true_ ∨ true_ + ENNReal.ofReal ε ≤ got) ≤ 2 * ENNReal.ofReal (Real.exp (-2 * dc.nAmbientSamples * ε ^ 2 / Real.pi ^ 2)) := by
  obtain ⟨e1, e2, hf, h⟩ := C105_noise hR hI hext hmat dc hD hn hbin hmeas rays hrays i sensor hs primary hp secondary fuel
  refine ⟨e1, e2, hf, fun j hj ch hch ε hε => ?_⟩
  obtain ⟨h1, h2⟩ := h j hj ch hch ε hε
  rw [two_mul]
  have hlow : projectedSolidAngle {l | dc.dirToBin (worldOf e1 e2 sensor.direction l) = j} ≤ projectedSolidAngle {l | dc.dirToBin (worldOf e1 e2 sensor.direction l) = j ∧ SurelySeesSky s sensor.origin (worldOf e1 e2 sensor.direction l)} := by
    refine projectedSolidAngle_mono ?_
    intro l hl1 hl2 hl
    refine ⟨hl, ?_⟩
    have hiso := C54_isometry e1 e2 sensor.direction 0 hf l.x l.y l.z 0 0 0
    rw [sub_zero', worldOf_eq] at hiso
    refine hopen _ ?_ (by rw [hiso.2.2.1]; exact hl2)
    rw [hiso.2.2.2.1]
    have := Dot_self_of_norm hl1
    rw [Dot] at this
    rw [show l.x ^ 2 + l.y ^ 2 + l.z ^ 2 = 1 by linarith]
    exact Real.sqrt_one
  have hup : projectedSolidAngle {l | dc.dirToBin (worldOf e1 e2 sensor.direction l) = j ∧ MaySeeSky s sensor.origin (worldOf e1 e2 sensor.direction l)} ≤ projectedSolidAngle {l | dc.dirToBin (worldOf e1 e2 sensor.direction l) = j} := projectedSolidAngle_mono fun l _ _ hl => hl.1
  refine le_trans ?_ (add_le_add h1 h2)
  unfold ProbabilityN
  refine le_trans (measure_mono ?_) (measure_union_le _ _)
  rintro ω ⟨hω, h3 | h3⟩
  · exact Or.inl ⟨hω, h3.trans hlow⟩
  · exact Or.inr ⟨hω, le_trans (add_le_add hup le_rfl) h3⟩

/-- C105: the hypotheses are met by a sensor half a metre above a grey floor, with one bin for the northern and one for the southern half of the sky: with ten thousand samples the coefficients are off by a twentieth or more once in fifty times at most. -/
example (lim : ℝ) (primary : Nat → Rng) (hp : ∀ i, (primary i).Valid) (secondary : Nat → Nat → Rng) :
    ∃ (w : World) (e1 e2 : Vec3 ℝ), Frame e1 e2 ⟨0, 0, 1⟩ ∧ ∀ j < 2, ∀ ch ∈ [Spectrum.c0, Spectrum.c1, Spectrum.c2],
      ProbabilityN 10000 (fun ω =>
        let got := coefficient (calcDc w { maxDepth := 0, nAmbientSamples := 10000, limitWeight := lim, countSpecularBounce := 3 / 10, nBins := 2, dirToBin := fun d => if 0 < d.y then 0 else 1 } 1 [⟨⟨0, 0, 1 / 2⟩, ⟨0, 0, 1⟩⟩]
          (Function.update primary 0 (Rng.ofPairs ω (primary 0))) secondary) 0 j ch
        let true_ := projectedSolidAngle {l | (if 0 < (worldOf e1 e2 ⟨0, 0, 1⟩ l).y then 0 else 1) = j}
        got + ENNReal.ofReal (1 / 20) ≤ true_ ∨ true_ + ENNReal.ofReal (1 / 20) ≤ got) ≤ ENNReal.ofReal (1 / 50) := by
  obtain ⟨ext, hext⟩ := perpSpec_exists
  obtain ⟨w, hR, he, _⟩ := renders_exists (floorOf (.plastic (Spectrum.gray (1 / 2)) 0 0)) ⟨rfl, rfl, rfl⟩ (fits_of_small _ (by simp [floorOf])) ext ⟨fun _ _ => false, fun _ _ => false⟩ none none
  obtain ⟨e1, e2, hf, h⟩ := C105_open_sky hR (by simp [Scene.IndicesValid, floorOf]) (he ▸ hext) (by simp [floorOf, Material.specularOnly])
    { maxDepth := 0, nAmbientSamples := 10000, limitWeight := lim, countSpecularBounce := 3 / 10, nBins := 2, dirToBin := fun d => if 0 < d.y then 0 else 1 } rfl (by norm_num) (fun d _ => by simp only; split_ifs <;> norm_num) (fun j => by
      have h0 : MeasurableSet {p : ℝ × ℝ × ℝ | 0 < p.2.1} := measurableSet_lt (by fun_prop) (by fun_prop)
      unfold Measurable3
      simp only [mem_setOf_eq]
      exact (Measurable.ite h0 measurable_const measurable_const : Measurable fun p : ℝ × ℝ × ℝ => if 0 < p.2.1 then 0 else 1) (measurableSet_singleton j))
    [⟨⟨0, 0, 1 / 2⟩, ⟨0, 0, 1⟩⟩] (by
      intro r hr
      rw [List.mem_singleton.1 hr]
      exact Norm_eq_one (by norm_num [Dot])) 0 ⟨⟨0, 0, 1 / 2⟩, ⟨0, 0, 1⟩⟩ rfl (by
      rintro d _ hd tri ht t p u v ⟨rfl, h1, h2, _⟩ _
      rw [List.mem_singleton.1 ht] at h2
      have hz := congrArg Vec3.z h2
      simp [plane, Vec3.scale] at hz
      have hd' : 0 < d.z := by simpa [Dot] using hd
      have : 0 < d.z * t := mul_pos hd' (lt_trans (by norm_num) h1)
      linarith) primary hp secondary 0
  refine ⟨w, e1, e2, hf, fun j hj ch hch => le_trans (h j hj ch hch (1 / 20) (by norm_num)) ?_⟩
  have hpi : Real.pi ^ 2 ≤ 10 := by
    have h1 := Real.pi_lt_d2
    have h2 := Real.pi_pos
    nlinarith
  have hx : -2 * ((10000 : ℕ) : ℝ) * (1 / 20) ^ 2 / Real.pi ^ 2 ≤ -5 := by
    rw [div_le_iff₀ (by positivity)]
    push_cast
    linarith
  have hexp : Real.exp (-5) ≤ 1 / 100 := by
    rw [Real.exp_neg, inv_le_comm₀ (Real.exp_pos 5) (by norm_num)]
    have := Real.exp_one_gt_d9
    have h5 : Real.exp 5 = Real.exp 1 ^ 5 := by rw [← Real.exp_nat_mul]; norm_num
    rw [h5]
    calc (1 / 100 : ℝ)⁻¹ ≤ (2.7) ^ 5 := by norm_num
      _ ≤ _ := pow_le_pow_left₀ (by norm_num) (by linarith) 5
  rw [show (2 : ENNReal) = ENNReal.ofReal 2 by simp, ← ENNReal.ofReal_mul (by norm_num)]
  refine ENNReal.ofReal_le_ofReal ?_
  have := Real.exp_le_exp.2 hx
  linarith

end Rendering
