import Verif.Spec.Measures
import Verif.Model.Samplers
import Mathlib.Analysis.SpecialFunctions.PolarCoord
import Mathlib.MeasureTheory.Measure.Lebesgue.VolumeOfBalls
import Mathlib.MeasureTheory.Function.Jacobian

/-! # Changes of variables in the plane -/

set_option linter.unusedSectionVars false
namespace Rendering

open MeasureTheory Set

/-- A map of the plane with the matrix of its partial derivatives. -/
noncomputable def planeDeriv (a b c d : ℝ) : ℝ × ℝ →L[ℝ] ℝ × ℝ :=
  (Matrix.toLin (.finTwoProd ℝ) (.finTwoProd ℝ) !![a, b; c, d]).toContinuousLinearMap

theorem planeDeriv_det (a b c d : ℝ) : (planeDeriv a b c d).det = a * d - b * c := by
  unfold planeDeriv
  simp only [LinearMap.det_toContinuousLinearMap, LinearMap.det_toLin, Matrix.det_fin_two_of]

theorem hasFDeriv_plane {f g : ℝ × ℝ → ℝ} {a b c d : ℝ} {p : ℝ × ℝ}
    (hf : HasFDerivAt f (a • ContinuousLinearMap.fst ℝ ℝ ℝ + b • ContinuousLinearMap.snd ℝ ℝ ℝ) p)
    (hg : HasFDerivAt g (c • ContinuousLinearMap.fst ℝ ℝ ℝ + d • ContinuousLinearMap.snd ℝ ℝ ℝ) p) :
    HasFDerivAt (fun p => (f p, g p)) (planeDeriv a b c d) p := by
  unfold planeDeriv
  rw [Matrix.toLin_finTwoProd_toContinuousLinearMap]
  exact HasFDerivAt.prodMk hf hg

/-- A product of a function of the first and one of the second coordinate. -/
theorem hasFDeriv_mul {u v : ℝ → ℝ} {u' v' : ℝ} {p : ℝ × ℝ} (hu : HasDerivAt u u' p.1) (hv : HasDerivAt v v' p.2) :
    HasFDerivAt (fun p : ℝ × ℝ => u p.1 * v p.2) ((u' * v p.2) • ContinuousLinearMap.fst ℝ ℝ ℝ + (u p.1 * v') • ContinuousLinearMap.snd ℝ ℝ ℝ) p := by
  have h1 := hu.comp_hasFDerivAt p (hasFDerivAt_fst (𝕜 := ℝ) (E := ℝ) (F := ℝ) (p := p))
  have h2 := hv.comp_hasFDerivAt p (hasFDerivAt_snd (𝕜 := ℝ) (E := ℝ) (F := ℝ) (p := p))
  refine (h1.mul h2).congr_fderiv ?_
  ext <;> simp [mul_comm]

/-- Change of variables, for the part of `s` that is mapped into `E`. -/
theorem change_of_variables {s : Set (ℝ × ℝ)} (hs : MeasurableSet s) {F : ℝ × ℝ → ℝ × ℝ} {F' : ℝ × ℝ → ℝ × ℝ →L[ℝ] ℝ × ℝ}
    (hF : ∀ x ∈ s, HasFDerivAt F (F' x) x) (hm : Measurable F) (hi : InjOn F s) {E : Set (ℝ × ℝ)} (hE : MeasurableSet E) :
    ∫⁻ x in s ∩ F ⁻¹' E, ENNReal.ofReal |(F' x).det| = volume (F '' s ∩ E) := by
  rw [lintegral_abs_det_fderiv_eq_addHaar_image volume (hs.inter (hm hE)) (fun x hx => (hF x hx.1).hasFDerivWithinAt) (hi.mono inter_subset_left), image_inter_preimage]

/-- When the Jacobian is constant and the image of `s` fills `T`, measures are scaled. -/
theorem scaled_measure {s T : Set (ℝ × ℝ)} (hs : MeasurableSet s) {F : ℝ × ℝ → ℝ × ℝ} {F' : ℝ × ℝ → ℝ × ℝ →L[ℝ] ℝ × ℝ}
    (hF : ∀ x ∈ s, HasFDerivAt F (F' x) x) (hm : Measurable F) (hi : InjOn F s) {k : ℝ} (hk : ∀ x ∈ s, |(F' x).det| = k)
    (hsub : F '' s ⊆ T) (hT : volume T = ENNReal.ofReal k * volume s) (hfin : volume T ≠ ⊤) {E : Set (ℝ × ℝ)} (hE : MeasurableSet E) :
    ENNReal.ofReal k * volume (s ∩ F ⁻¹' E) = volume (T ∩ E) := by
  have key : ∀ E : Set (ℝ × ℝ), MeasurableSet E → ENNReal.ofReal k * volume (s ∩ F ⁻¹' E) = volume (F '' s ∩ E) := by
    intro E hE
    rw [← change_of_variables hs hF hm hi hE, ← setLIntegral_const]
    refine setLIntegral_congr_fun (hs.inter (hm hE)) fun x hx => ?_
    rw [hk x hx.1]
  have himg : MeasurableSet (F '' s) := measurable_image_of_fderivWithin hs (fun x hx => (hF x hx).hasFDerivWithinAt) hi
  have h1 : volume (F '' s) = volume T := by
    have := key univ MeasurableSet.univ
    rw [preimage_univ, inter_univ, inter_univ] at this
    rw [← this, hT]
  have h0 : volume (T \ F '' s) = 0 := by
    rw [measure_sdiff hsub himg.nullMeasurableSet (by rw [h1]; exact hfin), h1, tsub_self]
  rw [key E hE]
  refine le_antisymm (measure_mono (inter_subset_inter_left E hsub)) ?_
  calc volume (T ∩ E) ≤ volume ((F '' s ∩ E) ∪ (T \ F '' s)) := by
        refine measure_mono fun x hx => ?_
        by_cases h : x ∈ F '' s
        · exact Or.inl ⟨h, hx.2⟩
        · exact Or.inr ⟨hx.1, h⟩
    _ ≤ volume (F '' s ∩ E) + volume (T \ F '' s) := measure_union_le _ _
    _ = _ := by rw [h0, add_zero]

/-! ### The unit square -/

/-- The open unit square. -/
def openSquare : Set (ℝ × ℝ) := Ioo 0 1 ×ˢ Ioo 0 1

theorem openSquare_measurable : MeasurableSet openSquare := measurableSet_Ioo.prod measurableSet_Ioo

theorem unitSquare_ae : unitSquare =ᵐ[volume] openSquare :=
  Measure.set_prod_ae_eq Ioo_ae_eq_Ico.symm Ioo_ae_eq_Ico.symm

theorem volume_box (a b c d : ℝ) : volume (Ioo a b ×ˢ Ioo c d : Set (ℝ × ℝ)) = ENNReal.ofReal (b - a) * ENNReal.ofReal (d - c) := by
  rw [Measure.volume_eq_prod, Measure.prod_prod, Real.volume_Ioo, Real.volume_Ioo]

theorem volume_openSquare : volume openSquare = 1 := by
  unfold openSquare; rw [volume_box]; norm_num

theorem probability_eq (event : ℝ × ℝ → Prop) : Probability event = volume (openSquare ∩ {d | event d}) := by
  unfold Probability
  exact measure_congr (unitSquare_ae.inter (Filter.EventuallyEq.refl _ {d | event d}))

theorem probability_congr {e e' : ℝ × ℝ → Prop} (h : ∀ d ∈ openSquare, e d ↔ e' d) : Probability e = Probability e' := by
  rw [probability_eq, probability_eq]
  congr 1
  ext d
  exact and_congr_right fun hd => h d hd

/-- Events that agree except for draws closer than `t` to 0 or 1 have nearly the same probability. -/
theorem probability_within {e e' : ℝ × ℝ → Prop} {t : ℝ} (ht : 0 ≤ t) (ht1 : t ≤ 1 / 2) (h : ∀ d ∈ Ioo t (1 - t) ×ˢ Ioo t (1 - t), e d ↔ e' d) :
    Within (4 * t) (Probability e) (Probability e') := by
  have hsub : (Ioo t (1 - t) ×ˢ Ioo t (1 - t) : Set (ℝ × ℝ)) ⊆ openSquare := by
    rintro ⟨x, y⟩ ⟨hx, hy⟩
    exact ⟨⟨by linarith [hx.1], by linarith [hx.2]⟩, ⟨by linarith [hy.1], by linarith [hy.2]⟩⟩
  have hrest : volume (openSquare \ (Ioo t (1 - t) ×ˢ Ioo t (1 - t))) ≤ ENNReal.ofReal (4 * t) := by
    rw [measure_sdiff hsub (measurableSet_Ioo.prod measurableSet_Ioo).nullMeasurableSet (by rw [volume_box]; exact ENNReal.mul_ne_top ENNReal.ofReal_ne_top ENNReal.ofReal_ne_top),
      volume_openSquare, volume_box, ← ENNReal.ofReal_mul (by linarith), ← ENNReal.ofReal_one, ← ENNReal.ofReal_sub _ (by nlinarith)]
    exact ENNReal.ofReal_le_ofReal (by nlinarith)
  have half : ∀ e e' : ℝ × ℝ → Prop, (∀ d ∈ Ioo t (1 - t) ×ˢ Ioo t (1 - t), e d ↔ e' d) → Probability e ≤ Probability e' + ENNReal.ofReal (4 * t) := by
    intro e e' h
    rw [probability_eq, probability_eq]
    refine le_trans (measure_mono (t := (openSquare ∩ {d | e' d}) ∪ (openSquare \ (Ioo t (1 - t) ×ˢ Ioo t (1 - t)))) fun d hd => ?_) (le_trans (measure_union_le _ _) (by gcongr))
    by_cases hc : d ∈ Ioo t (1 - t) ×ˢ Ioo t (1 - t)
    · exact Or.inl ⟨hd.1, (h d hc).1 hd.2⟩
    · exact Or.inr ⟨hd.1, hc⟩
  exact ⟨half e e' h, half e' e fun d hd => (h d hd).symm⟩

/-! ### The disc -/

theorem volume_discOf {R : ℝ} (hR : 0 < R) : volume (discOf R) = ENNReal.ofReal (Real.pi * R ^ 2) := by
  have h : Complex.measurableEquivRealProd.symm ⁻¹' (Metric.ball (0 : ℂ) R) = discOf R := by
    ext q
    have e : Complex.measurableEquivRealProd.symm q = ⟨q.1, q.2⟩ := rfl
    change Complex.measurableEquivRealProd.symm q ∈ Metric.ball (0 : ℂ) R ↔ q.1 ^ 2 + q.2 ^ 2 < R ^ 2
    rw [Metric.mem_ball, dist_zero_right, e, Complex.norm_def, Complex.normSq_mk, Real.sqrt_lt' hR]
    ring_nf
  rw [← h, (Complex.volume_preserving_equiv_real_prod.symm).measure_preimage_equiv, Complex.volume_ball, ENNReal.ofReal_mul Real.pi_pos.le, ENNReal.ofReal_pow hR.le, mul_comm]
  congr 1
  exact (ENNReal.ofReal_eq_coe_nnreal Real.pi_pos.le).symm

theorem discOf_measurable (R : ℝ) : MeasurableSet (discOf R) :=
  measurableSet_lt (by fun_prop) measurable_const

/-- Two angles less than a turn apart with the same sine and cosine are the same. -/
theorem angle_inj {a b : ℝ} (h : |a - b| < 2 * Real.pi) (hc : Real.cos a = Real.cos b) (hs : Real.sin a = Real.sin b) : a = b := by
  have h1 : Real.cos (a - b) = 1 := by
    rw [Real.cos_sub, hc, hs, ← pow_two, ← pow_two, add_comm]; exact Real.sin_sq_add_cos_sq b
  rw [abs_lt] at h
  have := (Real.cos_eq_one_iff_of_lt_of_lt h.1 h.2).1 h1
  linarith

/-- The map from draws to the disc. -/
noncomputable def discMap (R : ℝ) (d : ℝ × ℝ) : ℝ × ℝ := (R * Real.sqrt d.1 * Real.sin (2 * Real.pi * d.2), R * Real.sqrt d.1 * Real.cos (2 * Real.pi * d.2))

theorem discMap_measurable (R : ℝ) : Measurable (discMap R) := by unfold discMap; fun_prop

theorem hasDerivAt_turn (f f' : ℝ → ℝ) (hf : ∀ x, HasDerivAt f (f' x) x) (k y : ℝ) : HasDerivAt (fun y => f (k * y)) (f' (k * y) * k) y := by
  have h2 : HasDerivAt (fun y : ℝ => k * y) k y := by simpa using (hasDerivAt_id y).const_mul k
  exact (hf (k * y)).comp y h2

theorem discMap_deriv (R : ℝ) (d : ℝ × ℝ) (hd : 0 < d.1) :
    HasFDerivAt (discMap R) (planeDeriv (R / (2 * Real.sqrt d.1) * Real.sin (2 * Real.pi * d.2)) (R * Real.sqrt d.1 * (Real.cos (2 * Real.pi * d.2) * (2 * Real.pi)))
      (R / (2 * Real.sqrt d.1) * Real.cos (2 * Real.pi * d.2)) (R * Real.sqrt d.1 * (-Real.sin (2 * Real.pi * d.2) * (2 * Real.pi)))) d := by
  have hs : HasDerivAt (fun x => R * Real.sqrt x) (R / (2 * Real.sqrt d.1)) d.1 := by
    have := (Real.hasDerivAt_sqrt hd.ne').const_mul R
    rwa [mul_one_div] at this
  exact hasFDeriv_plane (hasFDeriv_mul hs (hasDerivAt_turn Real.sin Real.cos Real.hasDerivAt_sin (2 * Real.pi) d.2))
    (hasFDeriv_mul hs (hasDerivAt_turn Real.cos (fun x => -Real.sin x) Real.hasDerivAt_cos (2 * Real.pi) d.2))

theorem discMap_inj {R : ℝ} (hR : 0 < R) : InjOn (discMap R) openSquare := by
  rintro ⟨x, y⟩ ⟨hx, hy⟩ ⟨x', y'⟩ ⟨hx', hy'⟩ h
  simp only [discMap, Prod.mk.injEq] at h hx hy hx' hy'
  obtain ⟨h1, h2⟩ := h
  have hsx : 0 < Real.sqrt x := Real.sqrt_pos.2 hx.1
  have e1 := Real.sin_sq_add_cos_sq (2 * Real.pi * y)
  have e2 := Real.sin_sq_add_cos_sq (2 * Real.pi * y')
  have q1 := Real.sq_sqrt hx.1.le
  have q2 := Real.sq_sqrt hx'.1.le
  have hxx : x = x' := by
    have a1 : (R * Real.sqrt x * Real.sin (2 * Real.pi * y)) ^ 2 + (R * Real.sqrt x * Real.cos (2 * Real.pi * y)) ^ 2 = R ^ 2 * x := by
      calc _ = R ^ 2 * Real.sqrt x ^ 2 * (Real.sin (2 * Real.pi * y) ^ 2 + Real.cos (2 * Real.pi * y) ^ 2) := by ring
        _ = _ := by rw [e1, q1, mul_one]
    have a2 : (R * Real.sqrt x' * Real.sin (2 * Real.pi * y')) ^ 2 + (R * Real.sqrt x' * Real.cos (2 * Real.pi * y')) ^ 2 = R ^ 2 * x' := by
      calc _ = R ^ 2 * Real.sqrt x' ^ 2 * (Real.sin (2 * Real.pi * y') ^ 2 + Real.cos (2 * Real.pi * y') ^ 2) := by ring
        _ = _ := by rw [e2, q2, mul_one]
    rw [h1, h2, a2] at a1
    exact (mul_left_cancel₀ (pow_pos hR 2).ne' a1).symm
  subst hxx
  have hne : R * Real.sqrt x ≠ 0 := (mul_pos hR hsx).ne'
  have := angle_inj (a := 2 * Real.pi * y) (b := 2 * Real.pi * y') (by
    rw [abs_lt]; constructor <;> nlinarith [Real.pi_pos, hy.1, hy.2, hy'.1, hy'.2]) (mul_left_cancel₀ hne h2) (mul_left_cancel₀ hne h1)
  have := mul_left_cancel₀ (by have := Real.pi_pos; positivity) this
  rw [this]

/-- Draws are mapped uniformly to the disc. -/
theorem disc_measure {R : ℝ} (hR : 0 < R) {E : Set (ℝ × ℝ)} (hE : MeasurableSet E) :
    ENNReal.ofReal (Real.pi * R ^ 2) * volume (openSquare ∩ discMap R ⁻¹' E) = volume (discOf R ∩ E) := by
  refine scaled_measure openSquare_measurable (fun d hd => discMap_deriv R d hd.1.1) (discMap_measurable R) (discMap_inj hR) ?_ ?_ ?_ ?_ hE
  · intro d hd
    have hs : 0 < Real.sqrt d.1 := Real.sqrt_pos.2 hd.1.1
    rw [planeDeriv_det]
    have e := Real.sin_sq_add_cos_sq (2 * Real.pi * d.2)
    have : R / (2 * Real.sqrt d.1) * Real.sin (2 * Real.pi * d.2) * (R * Real.sqrt d.1 * (-Real.sin (2 * Real.pi * d.2) * (2 * Real.pi))) -
        R * Real.sqrt d.1 * (Real.cos (2 * Real.pi * d.2) * (2 * Real.pi)) * (R / (2 * Real.sqrt d.1) * Real.cos (2 * Real.pi * d.2)) = -(Real.pi * R ^ 2) := by
      calc _ = -(Real.pi * R ^ 2 * (Real.sin (2 * Real.pi * d.2) ^ 2 + Real.cos (2 * Real.pi * d.2) ^ 2)) := by field_simp; ring
        _ = _ := by rw [e, mul_one]
    rw [this, abs_neg, abs_of_pos (by have := Real.pi_pos; positivity)]
  · rintro _ ⟨d, hd, rfl⟩
    have hx := hd.1
    have e := Real.sin_sq_add_cos_sq (2 * Real.pi * d.2)
    have q := Real.sq_sqrt hx.1.le
    change (R * Real.sqrt d.1 * Real.sin (2 * Real.pi * d.2)) ^ 2 + (R * Real.sqrt d.1 * Real.cos (2 * Real.pi * d.2)) ^ 2 < R ^ 2
    calc _ = R ^ 2 * Real.sqrt d.1 ^ 2 * (Real.sin (2 * Real.pi * d.2) ^ 2 + Real.cos (2 * Real.pi * d.2) ^ 2) := by ring
      _ = R ^ 2 * d.1 := by rw [e, q, mul_one]
      _ < R ^ 2 * 1 := by have := hx.2; gcongr
      _ = R ^ 2 := mul_one _
  · rw [volume_discOf hR, volume_openSquare, mul_one]
  · rw [volume_discOf hR]; exact ENNReal.ofReal_ne_top

/-! ### The triangle -/

/-- The map from draws to coordinates in the triangle. -/
noncomputable def triMap (d : ℝ × ℝ) : ℝ × ℝ := (1 - Real.sqrt d.1, Real.sqrt d.1 * d.2)

/-- The coordinate triangle. -/
def coordTriangle : Set (ℝ × ℝ) := {q | 0 < q.1 ∧ 0 < q.2 ∧ q.1 + q.2 < 1}

theorem coordTriangle_measurable : MeasurableSet coordTriangle :=
  (measurableSet_lt measurable_const measurable_fst).inter ((measurableSet_lt measurable_const measurable_snd).inter (measurableSet_lt (measurable_fst.add measurable_snd) measurable_const))

theorem triMap_measurable : Measurable triMap := by unfold triMap; fun_prop

theorem triMap_deriv (d : ℝ × ℝ) (hd : 0 < d.1) : HasFDerivAt triMap (planeDeriv (-(1 / (2 * Real.sqrt d.1))) 0 (1 / (2 * Real.sqrt d.1) * d.2) (Real.sqrt d.1 * 1)) d := by
  have h1 := (Real.hasDerivAt_sqrt hd.ne')
  have h2 := hasFDeriv_mul (p := d) (h1.const_sub 1) (hasDerivAt_const d.2 (1 : ℝ))
  refine hasFDeriv_plane ?_ (hasFDeriv_mul h1 (hasDerivAt_id d.2))
  simpa using h2

theorem triMap_image : triMap '' openSquare = coordTriangle := by
  ext ⟨u, v⟩
  constructor
  · rintro ⟨⟨x, y⟩, ⟨hx, hy⟩, h⟩
    simp only [triMap, Prod.mk.injEq] at h hx hy
    obtain ⟨rfl, rfl⟩ := h
    have hs : 0 < Real.sqrt x := Real.sqrt_pos.2 hx.1
    have hs1 : Real.sqrt x < 1 := by rw [Real.sqrt_lt' one_pos]; linarith [hx.2]
    refine ⟨by simpa using hs1, mul_pos hs hy.1, ?_⟩
    change 1 - Real.sqrt x + Real.sqrt x * y < 1
    nlinarith [hy.2]
  · rintro ⟨h1, h2, h3⟩
    simp only at h1 h2 h3
    have hu : 0 < 1 - u := by linarith
    refine ⟨((1 - u) ^ 2, v / (1 - u)), ⟨⟨by positivity, ?_⟩, ⟨by positivity, ?_⟩⟩, ?_⟩
    · change (1 - u) ^ 2 < 1; nlinarith
    · change v / (1 - u) < 1; rw [div_lt_one hu]; linarith
    · simp only [triMap]
      rw [Real.sqrt_sq hu.le]
      refine Prod.ext (by simp) ?_
      change (1 - u) * (v / (1 - u)) = v
      field_simp

theorem triMap_inj : InjOn triMap openSquare := by
  rintro ⟨x, y⟩ ⟨hx, hy⟩ ⟨x', y'⟩ ⟨hx', hy'⟩ h
  simp only [triMap, Prod.mk.injEq] at h hx hx'
  obtain ⟨h1, h2⟩ := h
  have e : Real.sqrt x = Real.sqrt x' := by linarith
  have exx : x = x' := by rw [← Real.sq_sqrt hx.1.le, e, Real.sq_sqrt hx'.1.le]
  subst exx
  rw [mul_left_cancel₀ (Real.sqrt_pos.2 hx.1).ne' h2]

/-- Draws are mapped uniformly to the triangle. -/
theorem triangle_measure {E : Set (ℝ × ℝ)} (hE : MeasurableSet E) : volume (openSquare ∩ triMap ⁻¹' E) = 2 * volume (coordTriangle ∩ E) := by
  have h := change_of_variables openSquare_measurable (fun d hd => triMap_deriv d hd.1.1) triMap_measurable triMap_inj hE
  rw [triMap_image] at h
  have e2 : (2 : ENNReal) * ENNReal.ofReal (1 / 2) = 1 := by
    rw [← ENNReal.ofReal_ofNat 2, ← ENNReal.ofReal_mul (by norm_num)]; norm_num
  suffices hh : volume (coordTriangle ∩ E) = ENNReal.ofReal (1 / 2) * volume (openSquare ∩ triMap ⁻¹' E) by
    rw [hh, ← mul_assoc, e2, one_mul]
  rw [← h, ← setLIntegral_const]
  refine setLIntegral_congr_fun (openSquare_measurable.inter (triMap_measurable hE)) fun x hx => ?_
  have hs : 0 < Real.sqrt x.1 := Real.sqrt_pos.2 hx.1.1.1
  rw [planeDeriv_det]
  congr 1
  have : -(1 / (2 * Real.sqrt x.1)) * (Real.sqrt x.1 * 1) - 0 * (1 / (2 * Real.sqrt x.1) * x.2) = -(1 / 2) := by field_simp; ring
  rw [this, abs_neg, abs_of_pos (by norm_num)]

/-! ### Heights and azimuths -/

/-- Affine maps of each coordinate. -/
theorem affine_measure {a b k : ℝ} (hb : b ≠ 0) (hk : k ≠ 0) {s : Set (ℝ × ℝ)} (hs : MeasurableSet s) {E : Set (ℝ × ℝ)} (hE : MeasurableSet E) :
    ENNReal.ofReal |b * k| * volume (s ∩ (fun d : ℝ × ℝ => (a + b * d.1, k * d.2)) ⁻¹' E) = volume ((fun d : ℝ × ℝ => (a + b * d.1, k * d.2)) '' s ∩ E) := by
  have hm : Measurable (fun d : ℝ × ℝ => (a + b * d.1, k * d.2)) := by fun_prop
  rw [← change_of_variables (F' := fun _ => planeDeriv b 0 0 k) hs ?_ hm ?_ hE, ← setLIntegral_const]
  · refine setLIntegral_congr_fun (hs.inter (hm hE)) fun x _ => ?_
    simp only [planeDeriv_det]
    rw [zero_mul, sub_zero]
  · intro x _
    have h1 : HasDerivAt (fun x => a + b * x) b x.1 := by simpa using ((hasDerivAt_id x.1).const_mul b).const_add a
    have h2 : HasDerivAt (fun x => k * x) k x.2 := by simpa using (hasDerivAt_id x.2).const_mul k
    refine hasFDeriv_plane ?_ ?_
    · simpa using hasFDeriv_mul h1 (hasDerivAt_const x.2 (1 : ℝ))
    · simpa using hasFDeriv_mul (hasDerivAt_const x.1 (1 : ℝ)) h2
  · rintro ⟨x, y⟩ _ ⟨x', y'⟩ _ h
    simp only [Prod.mk.injEq] at h
    have h1 : b * x = b * x' := by linarith [h.1]
    rw [mul_left_cancel₀ hb h1, mul_left_cancel₀ hk h.2]

/-- Heights between 0 and 1, all azimuths. -/
def upperBox : Set (ℝ × ℝ) := Ioo (0 : ℝ) 1 ×ˢ Ioo 0 (2 * Real.pi)

theorem upperBox_measurable : MeasurableSet upperBox := measurableSet_Ioo.prod measurableSet_Ioo

/-- From height and azimuth to the horizontal coordinates of the direction. -/
noncomputable def horizMap (p : ℝ × ℝ) : ℝ × ℝ := (Real.sqrt (1 - p.1 ^ 2) * Real.cos p.2, Real.sqrt (1 - p.1 ^ 2) * Real.sin p.2)

theorem horizMap_measurable : Measurable horizMap := by unfold horizMap; fun_prop

theorem horizMap_deriv (p : ℝ × ℝ) (hp : p ∈ upperBox) :
    HasFDerivAt horizMap (planeDeriv (-p.1 / Real.sqrt (1 - p.1 ^ 2) * Real.cos p.2) (Real.sqrt (1 - p.1 ^ 2) * -Real.sin p.2)
      (-p.1 / Real.sqrt (1 - p.1 ^ 2) * Real.sin p.2) (Real.sqrt (1 - p.1 ^ 2) * Real.cos p.2)) p := by
  have hpos : 0 < 1 - p.1 ^ 2 := by nlinarith [hp.1.1, hp.1.2]
  have hs : HasDerivAt (fun x => Real.sqrt (1 - x ^ 2)) (-p.1 / Real.sqrt (1 - p.1 ^ 2)) p.1 := by
    have h1 : HasDerivAt (fun x : ℝ => 1 - x ^ 2) (-(2 * p.1)) p.1 := by
      have := (hasDerivAt_pow 2 p.1).const_sub 1
      simpa using this
    have := h1.sqrt hpos.ne'
    convert this using 1
    have : Real.sqrt (1 - p.1 ^ 2) ≠ 0 := (Real.sqrt_pos.2 hpos).ne'
    field_simp
  exact hasFDeriv_plane (hasFDeriv_mul hs (Real.hasDerivAt_cos p.2)) (hasFDeriv_mul hs (Real.hasDerivAt_sin p.2))

theorem horizMap_det (p : ℝ × ℝ) (hp : p ∈ upperBox) :
    |(planeDeriv (-p.1 / Real.sqrt (1 - p.1 ^ 2) * Real.cos p.2) (Real.sqrt (1 - p.1 ^ 2) * -Real.sin p.2)
      (-p.1 / Real.sqrt (1 - p.1 ^ 2) * Real.sin p.2) (Real.sqrt (1 - p.1 ^ 2) * Real.cos p.2)).det| = p.1 := by
  have hpos : 0 < 1 - p.1 ^ 2 := by nlinarith [hp.1.1, hp.1.2]
  have hs : Real.sqrt (1 - p.1 ^ 2) ≠ 0 := (Real.sqrt_pos.2 hpos).ne'
  rw [planeDeriv_det]
  generalize Real.sqrt (1 - p.1 ^ 2) = q at *
  have e := Real.sin_sq_add_cos_sq p.2
  have : -p.1 / q * Real.cos p.2 * (q * Real.cos p.2) - q * -Real.sin p.2 * (-p.1 / q * Real.sin p.2) = -p.1 := by
    calc _ = -(p.1 * (Real.sin p.2 ^ 2 + Real.cos p.2 ^ 2)) := by field_simp; ring
      _ = _ := by rw [e, mul_one]
  rw [this, abs_neg, abs_of_pos hp.1.1]

theorem horizMap_norm (p : ℝ × ℝ) (hp : p ∈ upperBox) : (horizMap p).1 ^ 2 + (horizMap p).2 ^ 2 = 1 - p.1 ^ 2 := by
  have hpos : 0 ≤ 1 - p.1 ^ 2 := by nlinarith [hp.1.1, hp.1.2]
  have e := Real.sin_sq_add_cos_sq p.2
  change (Real.sqrt (1 - p.1 ^ 2) * Real.cos p.2) ^ 2 + (Real.sqrt (1 - p.1 ^ 2) * Real.sin p.2) ^ 2 = _
  calc _ = Real.sqrt (1 - p.1 ^ 2) ^ 2 * (Real.sin p.2 ^ 2 + Real.cos p.2 ^ 2) := by ring
    _ = _ := by rw [e, mul_one, Real.sq_sqrt hpos]

theorem horizMap_inj : InjOn horizMap upperBox := by
  intro p hp p' hp' h
  have h1 := horizMap_norm p hp
  have h2 := horizMap_norm p' hp'
  rw [h] at h1
  have hz : p.1 = p'.1 := by
    have : p.1 ^ 2 = p'.1 ^ 2 := by linarith
    exact (pow_left_inj₀ hp.1.1.le hp'.1.1.le two_ne_zero).1 this
  have hpos : 0 < 1 - p'.1 ^ 2 := by nlinarith [hp'.1.1, hp'.1.2]
  have hs : Real.sqrt (1 - p'.1 ^ 2) ≠ 0 := (Real.sqrt_pos.2 hpos).ne'
  simp only [horizMap, Prod.mk.injEq, hz] at h
  refine Prod.ext hz (angle_inj ?_ (mul_left_cancel₀ hs h.1) (mul_left_cancel₀ hs h.2))
  rw [abs_lt]
  constructor <;> nlinarith [hp.2.1, hp.2.2, hp'.2.1, hp'.2.2]

theorem upperBox_cos : ∫⁻ p in upperBox, ENNReal.ofReal p.1 = ENNReal.ofReal Real.pi := by
  unfold upperBox
  rw [Measure.volume_eq_prod, ← Measure.prod_restrict]
  have h := lintegral_prod_mul (μ := volume.restrict (Ioo (0 : ℝ) 1)) (ν := volume.restrict (Ioo 0 (2 * Real.pi))) (f := fun x => ENNReal.ofReal x) (g := fun _ => 1)
    ENNReal.measurable_ofReal.aemeasurable measurable_const.aemeasurable
  simp only [mul_one] at h
  rw [h, lintegral_one, Measure.restrict_apply_univ, Real.volume_Ioo, sub_zero, ← ofReal_integral_eq_lintegral_ofReal, ← ENNReal.ofReal_mul]
  · congr 1
    rw [← integral_Ioc_eq_integral_Ioo, ← intervalIntegral.integral_of_le zero_le_one, integral_id]
    ring
  · exact setIntegral_nonneg measurableSet_Ioo fun x hx => hx.1.le
  · exact (continuous_id.integrableOn_Icc (a := 0) (b := 1)).mono_set Ioo_subset_Icc_self
  · exact (ae_restrict_iff' measurableSet_Ioo).2 (Filter.Eventually.of_forall fun x hx => hx.1.le)

/-- Area on the unit disc is cosine-weighted solid angle (Nusselt's projection). -/
theorem horiz_measure {E : Set (ℝ × ℝ)} (hE : MeasurableSet E) : ∫⁻ p in upperBox ∩ horizMap ⁻¹' E, ENNReal.ofReal p.1 = volume (discOf 1 ∩ E) := by
  have key : ∀ E : Set (ℝ × ℝ), MeasurableSet E → ∫⁻ p in upperBox ∩ horizMap ⁻¹' E, ENNReal.ofReal p.1 = volume (horizMap '' upperBox ∩ E) := by
    intro E hE
    rw [← change_of_variables upperBox_measurable horizMap_deriv horizMap_measurable horizMap_inj hE]
    refine setLIntegral_congr_fun (upperBox_measurable.inter (horizMap_measurable hE)) fun p hp => ?_
    rw [horizMap_det p hp.1]
  have himg : MeasurableSet (horizMap '' upperBox) :=
    measurable_image_of_fderivWithin upperBox_measurable (fun x hx => (horizMap_deriv x hx).hasFDerivWithinAt) horizMap_inj
  have hsub : horizMap '' upperBox ⊆ discOf 1 := by
    rintro _ ⟨p, hp, rfl⟩
    change (horizMap p).1 ^ 2 + (horizMap p).2 ^ 2 < 1 ^ 2
    rw [horizMap_norm p hp]
    nlinarith [hp.1.1]
  have h1 : volume (horizMap '' upperBox) = volume (discOf 1) := by
    have := key univ MeasurableSet.univ
    rw [preimage_univ, inter_univ, inter_univ, upperBox_cos] at this
    rw [← this, volume_discOf one_pos]; norm_num
  have h0 : volume (discOf 1 \ horizMap '' upperBox) = 0 := by
    rw [measure_sdiff hsub himg.nullMeasurableSet (by rw [h1, volume_discOf one_pos]; exact ENNReal.ofReal_ne_top), h1, tsub_self]
  rw [key E hE]
  refine le_antisymm (measure_mono (inter_subset_inter_left E hsub)) ?_
  calc volume (discOf 1 ∩ E) ≤ volume ((horizMap '' upperBox ∩ E) ∪ (discOf 1 \ horizMap '' upperBox)) := by
        refine measure_mono fun x hx => ?_
        by_cases h : x ∈ horizMap '' upperBox
        · exact Or.inl ⟨h, hx.2⟩
        · exact Or.inr ⟨hx.1, h⟩
    _ ≤ volume (horizMap '' upperBox ∩ E) + volume (discOf 1 \ horizMap '' upperBox) := measure_union_le _ _
    _ = _ := by rw [h0, add_zero]

end Rendering
