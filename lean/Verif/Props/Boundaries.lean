import Verif.Props.Glass
import Verif.Props.Interfaces
import Verif.Props.DaylightScenes

/-!
# Where the violated properties C49, C61, C73 and C76 do hold
-/

set_option linter.unusedSectionVars false
namespace Rendering

open Classical

/-- **C49 (partial).** The path a mirror offers carries the mirror's colour exactly when the mirror is white. (Missing: all other mirrors, `C49_violation`.) -/
theorem C49_white_mirror_partial (dt : DirTests) (colour : Spectrum ℝ) (n pt : Vec3 ℝ) (ray : TRay) (hn : Norm n = 1) (hv : Norm ray.geometry.direction = 1) (hside : Dot ray.geometry.direction n ≠ 0) (hdt : ∀ v, dt.isParallel v v = true) :
    (∃ out, mirrorPaths colour n pt ray = (some (out, colour), none)) ↔ colour = ⟨1, 1, 1⟩ := by
  obtain ⟨out, h, _⟩ := C49_violation dt colour n pt ray hn hv hside hdt
  rw [h]
  constructor
  · rintro ⟨out', h'⟩
    simp only [Prod.mk.injEq, Option.some.injEq, and_true] at h'
    exact h'.2.symm
  · rintro rfl
    exact ⟨out, rfl⟩

/-- **C61 (partial).** A single ambient sample, or any number of samples at a white surface, bring what they should: `colour * c / n` each. (Missing: everything else, `C61_violation_samples_fade`.) -/
theorem C61_single_or_white_partial (w : World) (m : Material ℝ) (c : Spectrum ℝ) (hm : m.Matt c) (tri : Tri ℝ) (hw : w.Shows m [tri]) (dc : DcFactory) (hD : 0 < dc.maxDepth) (hbin : ∀ d, Norm d = 1 → dc.dirToBin d < dc.nBins) (ray : TRay)
    (hd : Norm ray.geometry.direction = 1) (hdep : ray.depth = 0) (d2 : ℝ) (hv : VisibleHit ray.geometry tri d2) (hin : InRange d2) (st : DState) (hr : st.rng.Valid) (hrays : st.rays ≠ []) (hrow : st.contribution.IsRow dc.nBins) (fuel : Nat)
    (h : dc.nAmbientSamples = 1 ∨ c = ⟨1, 1, 1⟩) :
    ∃ ray' st', dcTraceRay w dc (fuel + 2) st ray = .ok (ray', st') ∧
      st'.contribution.total = st.contribution.total + spectrumSum (List.replicate dc.nAmbientSamples ((ray.colour * c).divBy dc.nAmbientSamples)) := by
  obtain ⟨ray', st', h1, h2⟩ := C61_violation_samples_fade w m c hm tri hw dc hD hbin ray hd hdep d2 hv hin st hr hrays hrow fuel
  refine ⟨ray', st', h1, ?_⟩
  rw [h2]
  congr 2
  have hpow : ∀ k < dc.nAmbientSamples, c.power (k + 1) = c := by
    intro k hk
    rcases h with h | rfl
    · have : k = 0 := by omega
      subst this
      ext <;> simp [Spectrum.power]
    · ext <;> simp [Spectrum.power]
  apply List.ext_getElem?
  intro k
  by_cases hk : k < dc.nAmbientSamples
  · simp [hk, hpow k hk]
  · simp [hk]

/-- **C73 (partial).** The transmitted part is tinted once exactly when every channel of the tint is 0 or 1: then `tint² = tint`. (Missing: all other tints, `C73_violation_tint_squared`.) -/
theorem C73_clear_or_opaque_partial (w : World) (tint : Spectrum ℝ) (htint : (tint.c0 = 0 ∨ tint.c0 = 1) ∧ (tint.c1 = 0 ∨ tint.c1 = 1) ∧ (tint.c2 = 0 ∨ tint.c2 = 1)) (r : ℝ) (hr : 0 < r) (tri : Tri ℝ) (hw : w.Shows (.dielectric tint r) [tri])
    (dc : DcFactory) (hbin : ∀ d, Norm d = 1 → dc.dirToBin d < dc.nBins) (ray : TRay) (hd : Norm ray.geometry.direction = 1) (hdep : ray.depth ≤ dc.maxDepth) (hn1 : 0 < ray.refractionIndex) (d2 : ℝ) (hv : VisibleHit ray.geometry tri d2)
    (hin : InRange d2) (hcrit : ray.refractionIndex / farIndex ray.refractionIndex r * Real.sqrt (1 - Dot ray.geometry.direction (unitNormal tri) ^ 2) < 1) (st : DState) (hrow : st.contribution.IsRow dc.nBins) (fuel : Nat) :
    let n1 := ray.refractionIndex
    let n2 := farIndex n1 r
    let R := FresnelR n1 |Dot ray.geometry.direction (unitNormal tri)| n2 (Real.sqrt (1 - (n1 / n2 * Real.sqrt (1 - Dot ray.geometry.direction (unitNormal tri) ^ 2)) ^ 2))
    ∃ ray' st', dcTraceRay w dc (fuel + 2) st ray = .ok (ray', st') ∧
      st'.contribution.total = st.contribution.total + (ray.colour.scale R).divBy dc.nAmbientSamples + (ray.colour * tint.scale ((1 - R) * (n2 / n1) ^ 2)).divBy dc.nAmbientSamples := by
  intro n1 n2 R
  have := C73_violation_tint_squared w tint r hr tri hw dc hbin ray hd hdep hn1 d2 hv hin hcrit st hrow fuel
  have ht : tint * tint = tint := by
    obtain ⟨h0, h1, h2⟩ := htint
    have key : ∀ x : ℝ, x = 0 ∨ x = 1 → x * x = x := by
      rintro x (rfl | rfl) <;> norm_num
    ext
    · exact key _ h0
    · exact key _ h1
    · exact key _ h2
  rw [ht] at this
  exact this

/-- **C76 (partial).** The law holds where the two media have the same index. (Missing: all other interfaces, `C76_violation_inverted`.) -/
theorem C76_same_index_partial (colour : Spectrum ℝ) (r : ℝ) (n pt : Vec3 ℝ) (ray : TRay) (hn : Norm n = 1) (hv : Norm ray.geometry.direction = 1) (hside : Dot ray.geometry.direction n < 0) (hn1 : 0 < ray.refractionIndex) (hr : 0 < r)
    (hcrit : ray.refractionIndex / farIndex ray.refractionIndex r * Real.sqrt (1 - Dot ray.geometry.direction n ^ 2) < 1) (hsame : farIndex ray.refractionIndex r = ray.refractionIndex) :
    let n1 := ray.refractionIndex
    let n2 := farIndex n1 r
    let T := 1 - FresnelR n1 |Dot ray.geometry.direction n| n2 (Real.sqrt (1 - (n1 / n2 * Real.sqrt (1 - Dot ray.geometry.direction n ^ 2)) ^ 2))
    ∃ out w, (dielectricPaths colour r n pt ray).2 = some (out, w) ∧ w = colour.scale (radianceLaw n1 n2 T) := by
  intro n1 n2 T
  obtain ⟨out, w, h1, h2⟩ := C76_violation_inverted colour r n pt ray hn hv hside hn1 hr hcrit
  refine ⟨out, w, h1, ?_⟩
  rw [h2]
  have : n2 / n1 = 1 := by
    simp only [n1, n2, hsame]
    exact div_self hn1.ne'
  simp only [n1, n2] at this ⊢
  rw [this]
  ext <;> simp [Spectrum.scale, T, n1, n2]

/-- C76: a dielectric of the index of air around it. -/
example : farIndex (1 : ℝ) 1 = 1 := by
  unfold farIndex
  split_ifs <;> rfl

/-- C76, C49: the sloping ray meets a medium of the index of air, and a mirror. -/
example := C76_same_index_partial Spectrum.one 1 ⟨0, 0, 1⟩ 0 slopingRay up_unit slopingRay_unit slopingRay_down (by norm_num [slopingRay]) (by norm_num) (by
  have hfar : farIndex slopingRay.refractionIndex 1 = 1 := by norm_num [farIndex, slopingRay]
  have hdot : Dot slopingRay.geometry.direction ⟨0, 0, 1⟩ = -(4 / 5) := by norm_num [Dot, slopingRay]
  have hs : Real.sqrt (1 - (-(4 / 5 : ℝ)) ^ 2) = 3 / 5 := by
    rw [show (1 - (-(4 / 5 : ℝ)) ^ 2) = (3 / 5) ^ 2 by norm_num]; exact Real.sqrt_sq (by norm_num)
  rw [hfar, hdot, hs, slopingRay_air]
  norm_num) (by norm_num [farIndex, slopingRay])

example := fun colour => C49_white_mirror_partial exactTests colour ⟨0, 0, 1⟩ 0 slopingRay up_unit slopingRay_unit slopingRay_down.ne (fun v => by simp [exactTests])

/-- C61: two samples on a white floor. -/
example (rng : Rng) (hr : rng.Valid) : ∃ (w : World) (ray' : TRay) (st' : DState), dcTraceRay w ⟨145, fun _ => 7, 2, 2, 0, 0⟩ 2 ⟨rng, defaultRays, DcFactory.blank ⟨145, fun _ => 7, 2, 2, 0, 0⟩⟩ downRay = .ok (ray', st') := by
  obtain ⟨w, hw, _⟩ := shows_exists (.plastic ⟨1, 1, 1⟩ 0 0) rfl [plane 0] none
  obtain ⟨ray', st', h, _⟩ := C61_single_or_white_partial w (.plastic ⟨1, 1, 1⟩ 0 0) ⟨1, 1, 1⟩ ⟨0, Or.inl rfl⟩ (plane 0) hw ⟨145, fun _ => 7, 2, 2, 0, 0⟩ (by norm_num) (fun _ _ => by norm_num) downRay
    (Norm_eq_one (by norm_num [Dot, downRay])) rfl _ downRay_visible downRay_inRange ⟨rng, defaultRays, DcFactory.blank ⟨145, fun _ => 7, 2, 2, 0, 0⟩⟩ hr (by simp [defaultRays]) (DcFactory.blank_isRow _) 0 (Or.inr rfl)
  exact ⟨w, ray', st', h⟩

end Rendering
