import Verif.Props.Windows
import Verif.Props.RenderingEquationExample
import Mathlib.MeasureTheory.Measure.Lebesgue.EqHaar

/-!
# A canopy beside a sunny floor: the hypotheses of C121 are met, and a sky makes the canopy brighter
-/

set_option linter.unusedSectionVars false
namespace Rendering

open MeasureTheory Set Classical

/-! ### Directions -/

/-- Every direction of the upper hemisphere has a height and an azimuth. -/
theorem exists_angles (l : Vec3 ℝ) (hl : l.x ^ 2 + l.y ^ 2 + l.z ^ 2 = 1) (hz : 0 < l.z) : ∃ φ, φ ∈ Icc 0 (2 * Real.pi) ∧ l.z ∈ Ioc 0 1 ∧ Real.sqrt (1 - l.z ^ 2) * Real.cos φ = l.x ∧ Real.sqrt (1 - l.z ^ 2) * Real.sin φ = l.y := by
  have hn : ‖(⟨l.x, l.y⟩ : ℂ)‖ = Real.sqrt (1 - l.z ^ 2) := by
    rw [Complex.norm_def]
    congr 1
    rw [Complex.normSq_mk]
    linarith
  have h1 := Complex.norm_mul_cos_arg ⟨l.x, l.y⟩
  have h2 := Complex.norm_mul_sin_arg ⟨l.x, l.y⟩
  rw [hn] at h1 h2
  have hz1 : l.z ≤ 1 := by nlinarith [sq_nonneg l.x, sq_nonneg l.y]
  have hpi := Real.pi_pos
  have ha := Complex.neg_pi_lt_arg ⟨l.x, l.y⟩
  have hb := Complex.arg_le_pi ⟨l.x, l.y⟩
  by_cases h : 0 ≤ Complex.arg ⟨l.x, l.y⟩
  · exact ⟨_, ⟨h, by linarith⟩, ⟨hz, hz1⟩, h1, h2⟩
  · push Not at h
    exact ⟨Complex.arg ⟨l.x, l.y⟩ + 2 * Real.pi, ⟨by linarith, by linarith⟩, ⟨hz, hz1⟩, by rw [Real.cos_add_two_pi]; exact h1, by rw [Real.sin_add_two_pi]; exact h2⟩

theorem box_meets {U : Set (ℝ × ℝ)} (hU : IsOpen U) {z φ : ℝ} (hz : z ∈ Ioc 0 1) (hφ : φ ∈ Icc 0 (2 * Real.pi)) (hmem : (z, φ) ∈ U) : (U ∩ Ioo (0 : ℝ) 1 ×ˢ Ioo 0 (2 * Real.pi)).Nonempty := by
  have hpi := Real.pi_pos
  have hcl : (z, φ) ∈ closure (Ioo (0 : ℝ) 1 ×ˢ Ioo 0 (2 * Real.pi)) := by
    rw [closure_prod_eq, closure_Ioo (by norm_num), closure_Ioo (by positivity)]
    exact ⟨⟨hz.1.le, hz.2⟩, hφ⟩
  exact mem_closure_iff.1 hcl U hU hmem

/-- A set of directions that is open and not empty has irradiance. -/
theorem irradiance_pos {U : Set (ℝ × ℝ)} (hU : IsOpen U) {z φ : ℝ} (hz : z ∈ Ioc 0 1) (hφ : φ ∈ Icc 0 (2 * Real.pi)) (hmem : (z, φ) ∈ U) {L : Vec3 ℝ → ENNReal} {a : ENNReal} (ha : 0 < a)
    (hL : ∀ p ∈ U, p ∈ Ioo (0 : ℝ) 1 ×ˢ Ioo 0 (2 * Real.pi) → a ≤ L (directionAt p.1 p.2)) : 0 < irradiance L := by
  have hV : IsOpen (U ∩ Ioo (0 : ℝ) 1 ×ˢ Ioo 0 (2 * Real.pi)) := hU.inter (isOpen_Ioo.prod isOpen_Ioo)
  have hpos := hV.measure_pos volume (box_meets hU hz hφ hmem)
  have hm : Measurable fun p : ℝ × ℝ => a * ENNReal.ofReal p.1 := measurable_const.mul (ENNReal.measurable_ofReal.comp measurable_fst)
  have h1 : 0 < ∫⁻ p in U ∩ Ioo (0 : ℝ) 1 ×ˢ Ioo 0 (2 * Real.pi), a * ENNReal.ofReal p.1 := by
    rw [setLIntegral_pos_iff hm]
    refine lt_of_lt_of_le hpos (measure_mono fun p hp => ⟨?_, hp⟩)
    exact mul_ne_zero ha.ne' (ENNReal.ofReal_pos.2 hp.2.1.1).ne'
  refine lt_of_lt_of_le h1 ?_
  calc _ ≤ ∫⁻ p in U ∩ Ioo (0 : ℝ) 1 ×ˢ Ioo 0 (2 * Real.pi), L (directionAt p.1 p.2) * ENNReal.ofReal p.1 := by
        refine setLIntegral_mono' hV.measurableSet fun p hp => ?_
        exact mul_le_mul' (hL p hp.1 hp.2) le_rfl
    _ ≤ irradiance L := lintegral_mono_set inter_subset_right

/-- If an open set of directions brings nothing, the irradiance of light of at most 1 is less than `π`. -/
theorem irradiance_lt {U : Set (ℝ × ℝ)} (hU : IsOpen U) {z φ : ℝ} (hz : z ∈ Ioc 0 1) (hφ : φ ∈ Icc 0 (2 * Real.pi)) (hmem : (z, φ) ∈ U) {L : Vec3 ℝ → ENNReal} (h1 : ∀ l, L l ≤ 1)
    (hL : ∀ p ∈ U, p ∈ Ioo (0 : ℝ) 1 ×ˢ Ioo 0 (2 * Real.pi) → L (directionAt p.1 p.2) = 0) : irradiance L < ENNReal.ofReal Real.pi := by
  set B := Ioo (0 : ℝ) 1 ×ˢ Ioo 0 (2 * Real.pi) with hB
  have hBm : MeasurableSet B := measurableSet_Ioo.prod measurableSet_Ioo
  have hm : Measurable fun p : ℝ × ℝ => ENNReal.ofReal p.1 := ENNReal.measurable_ofReal.comp measurable_fst
  have htot : ∫⁻ p in B, ENNReal.ofReal p.1 = ENNReal.ofReal Real.pi := by
    have := irradiance_const 1
    simpa [irradiance] using this
  have hV : IsOpen (U ∩ B) := hU.inter (isOpen_Ioo.prod isOpen_Ioo)
  have hpos : 0 < ∫⁻ p in U ∩ B, ENNReal.ofReal p.1 := by
    rw [setLIntegral_pos_iff hm]
    refine lt_of_lt_of_le (hV.measure_pos volume (box_meets hU hz hφ hmem)) (measure_mono fun p hp => ⟨?_, hp⟩)
    exact (ENNReal.ofReal_pos.2 hp.2.1.1).ne'
  have hsplit : ∫⁻ p in B, ENNReal.ofReal p.1 = (∫⁻ p in B ∩ U, ENNReal.ofReal p.1) + ∫⁻ p in B \ U, ENNReal.ofReal p.1 := (lintegral_inter_add_diff _ B hU.measurableSet).symm
  have hsplit2 : irradiance L = (∫⁻ p in B ∩ U, L (directionAt p.1 p.2) * ENNReal.ofReal p.1) + ∫⁻ p in B \ U, L (directionAt p.1 p.2) * ENNReal.ofReal p.1 := (lintegral_inter_add_diff _ B hU.measurableSet).symm
  have hzero : ∫⁻ p in B ∩ U, L (directionAt p.1 p.2) * ENNReal.ofReal p.1 = 0 := by
    rw [setLIntegral_congr_fun (g := fun _ => 0) (hBm.inter hU.measurableSet) fun p hp => by simp only [hL p hp.2 hp.1, zero_mul]]
    exact lintegral_zero
  have hle : ∫⁻ p in B \ U, L (directionAt p.1 p.2) * ENNReal.ofReal p.1 ≤ ∫⁻ p in B \ U, ENNReal.ofReal p.1 := lintegral_mono fun p => by
    calc _ ≤ 1 * ENNReal.ofReal p.1 := mul_le_mul' (h1 _) le_rfl
      _ = _ := one_mul _
  rw [hsplit2, hzero, zero_add]
  refine lt_of_le_of_lt hle ?_
  rw [← htot, hsplit, inter_comm]
  have hfin : ∫⁻ p in B \ U, ENNReal.ofReal p.1 ≠ ⊤ := ne_top_of_le_ne_top ENNReal.ofReal_ne_top (by rw [← htot]; exact lintegral_mono_set diff_subset)
  calc _ = 0 + ∫⁻ p in B \ U, ENNReal.ofReal p.1 := (zero_add _).symm
    _ < _ := ENNReal.add_lt_add_right hfin hpos

/-! ### The scene -/

/-- A horizontal triangle at height `h`, around the point `(a, 0)`. -/
def slab (a h : ℝ) : Tri ℝ := ⟨⟨a - 1, -1, h⟩, ⟨a + 2, -1, h⟩, ⟨a - 1, 2, h⟩⟩

/-- Directions above a floor (`σ = 1`) or below a canopy (`σ = -1`). -/
noncomputable def aside (σ : ℝ) (p : ℝ × ℝ) : Vec3 ℝ := ⟨Real.sqrt (1 - p.1 ^ 2) * Real.cos p.2, σ * (Real.sqrt (1 - p.1 ^ 2) * Real.sin p.2), σ * p.1⟩

/-- From a point of one slab, an open set of directions meets the other. -/
theorem slab_seen (a h σ : ℝ) (hσ : σ = 1 ∨ σ = -1) (o : Vec3 ℝ) (hh : 1 / 2 ≤ σ * (h - o.z)) (hh1 : σ * (h - o.z) ≤ 1) (hx : |a - o.x| ≤ 20) (hy : |o.y| ≤ 5) :
    ∃ U : Set (ℝ × ℝ), IsOpen U ∧ (∃ z φ, z ∈ Ioc (0 : ℝ) 1 ∧ φ ∈ Icc 0 (2 * Real.pi) ∧ (z, φ) ∈ U) ∧ ∀ p ∈ U, p.1 < 1 → ∃ d2, VisibleHit ⟨o, aside σ p⟩ (slab a h) d2 ∧ InRange d2 := by
  have hσ2 : σ * σ = 1 := by rcases hσ with rfl | rfl <;> norm_num
  set s := σ * (h - o.z) with hs
  have hs0 : 0 < s := by linarith
  have hcx : Continuous fun p : ℝ × ℝ => (aside σ p).x := by unfold aside; fun_prop
  have hcy : Continuous fun p : ℝ × ℝ => (aside σ p).y := by unfold aside; fun_prop
  refine ⟨{p | 1 / 100 < p.1} ∩ {p | 0 < (o.x - a + 1) * p.1 + s * (aside σ p).x} ∩ {p | 0 < (o.y + 1) * p.1 + s * (aside σ p).y} ∩ {p | (o.x - a + o.y - 1) * p.1 + s * ((aside σ p).x + (aside σ p).y) < 0}, ?_, ?_, ?_⟩
  · refine ((?_ : IsOpen _).inter ?_ |>.inter ?_).inter ?_
    · exact isOpen_lt continuous_const continuous_fst
    · exact isOpen_lt continuous_const ((continuous_const.mul continuous_fst).add (continuous_const.mul hcx))
    · exact isOpen_lt continuous_const ((continuous_const.mul continuous_fst).add (continuous_const.mul hcy))
    · exact isOpen_lt ((continuous_const.mul continuous_fst).add (continuous_const.mul (hcx.add hcy))) continuous_const
  · set n := Real.sqrt ((a - o.x) ^ 2 + o.y ^ 2 + s ^ 2) with hn
    have hn2 : n ^ 2 = (a - o.x) ^ 2 + o.y ^ 2 + s ^ 2 := Real.sq_sqrt (by positivity)
    have hn0 : 0 < n := Real.sqrt_pos.2 (by positivity)
    have hn3 : n < 25 := by
      rw [abs_le] at hx hy
      have : n ^ 2 < 25 ^ 2 := by rw [hn2]; nlinarith
      nlinarith
    obtain ⟨φ, hφ, hz, e1, e2⟩ := exists_angles ⟨(a - o.x) / n, σ * (-o.y / n), s / n⟩ (by
      have : ((a - o.x) / n) ^ 2 + (σ * (-o.y / n)) ^ 2 + (s / n) ^ 2 = ((a - o.x) ^ 2 + (σ * σ) * o.y ^ 2 + s ^ 2) / n ^ 2 := by ring
      simp only [this, hσ2, one_mul, ← hn2]
      exact div_self (by positivity)) (div_pos hs0 hn0)
    simp only at hz e1 e2
    refine ⟨s / n, φ, hz, hφ, ⟨⟨?_, ?_⟩, ?_⟩, ?_⟩
    · show 1 / 100 < s / n
      rw [lt_div_iff₀ hn0]
      linarith
    all_goals
      simp only [mem_setOf_eq, aside, e1, e2]
    · have : (o.x - a + 1) * (s / n) + s * ((a - o.x) / n) = s / n := by field_simp; ring
      rw [this]; positivity
    · have : (o.y + 1) * (s / n) + s * (σ * (σ * (-o.y / n))) = (s + (1 - σ * σ) * (s * o.y)) / n := by field_simp; ring
      rw [this, hσ2]; simp; positivity
    · have : (o.x - a + o.y - 1) * (s / n) + s * ((a - o.x) / n + σ * (σ * (-o.y / n))) = -((s - (1 - σ * σ) * (s * o.y)) / n) := by field_simp; ring
      rw [this, hσ2]; simp; positivity
  · rintro p ⟨⟨⟨h1, h2⟩, h3⟩, h4⟩ hp1
    simp only [mem_setOf_eq] at h1 h2 h3 h4
    have hp0 : 0 < p.1 := by linarith
    have hdz : (aside σ p).z = σ * p.1 := rfl
    have hT : 1 / 2 < s / p.1 := by rw [lt_div_iff₀ hp0]; linarith
    have hT2 : s / p.1 < 100 := by rw [div_lt_iff₀ hp0]; linarith
    have hunit : (aside σ p).x ^ 2 + (aside σ p).y ^ 2 + (aside σ p).z ^ 2 = 1 := by
      have h1 : 0 ≤ 1 - p.1 ^ 2 := by nlinarith
      have h2 := Real.sq_sqrt h1
      have h3 := Real.sin_sq_add_cos_sq p.2
      simp only [aside]
      calc _ = Real.sqrt (1 - p.1 ^ 2) ^ 2 * ((σ * σ) * Real.sin p.2 ^ 2 + Real.cos p.2 ^ 2) + (σ * σ) * p.1 ^ 2 := by ring
        _ = 1 := by rw [hσ2, one_mul, h2, h3]; ring
    have hTz : s / p.1 * (σ * p.1) = h - o.z := by
      calc s / p.1 * (σ * p.1) = (s * σ) * (p.1 / p.1) := by ring
        _ = h - o.z := by rw [div_self hp0.ne', hs]; linear_combination (h - o.z) * hσ2
    have hTp : s / p.1 * p.1 = s := by field_simp
    set T := s / p.1 with hTd
    set d := aside σ p with hd
    refine ⟨T ^ 2, ⟨T, o + d.scale T, ⟨rfl, (o.x + T * d.x - a + 1) / 3, (o.y + T * d.y + 1) / 3, ?_, ?_, ?_, ?_⟩, by linarith, ?_, ?_⟩, ?_⟩
    · have : o.x + T * d.x - a + 1 = ((o.x - a + 1) * p.1 + s * d.x) / p.1 := by rw [hTd]; field_simp; ring
      rw [this]; positivity
    · have : o.y + T * d.y + 1 = ((o.y + 1) * p.1 + s * d.y) / p.1 := by rw [hTd]; field_simp; ring
      rw [this]; positivity
    · have : o.x + T * d.x - a + 1 + (o.y + T * d.y + 1) = ((o.x - a + o.y - 1) * p.1 + s * (d.x + d.y)) / p.1 + 3 := by rw [hTd]; field_simp; ring
      have h5 := div_neg_of_neg_of_pos h4 hp0
      linarith
    · ext
      · simp [slab, Vec3.scale]; ring
      · simp [slab, Vec3.scale]; ring
      · simp [slab, Vec3.scale]
        rw [mul_comm, hdz, hTz]; ring
    · have : tripleProduct ⟨o, d⟩ (slab a h) = -9 * d.z := by
        simp only [tripleProduct, slab, Vec3.sub_x, Vec3.sub_y, Vec3.sub_z]; ring
      rw [this, hdz]
      have : |-9 * (σ * p.1)| = 9 * p.1 := by
        rcases hσ with rfl | rfl
        · rw [one_mul, abs_of_neg (by linarith)]; ring
        · rw [abs_of_pos (by linarith)]; ring
      rw [this]; linarith
    · simp only [distSq, Vec3.add_x, Vec3.add_y, Vec3.add_z, Vec3.scale_x, Vec3.scale_y, Vec3.scale_z]
      linear_combination T ^ 2 * hunit
    · refine ⟨by nlinarith, ?_⟩
      have : T ^ 2 < 10000 := by nlinarith
      refine this.trans ?_
      have h2 : (1 : ℝ) ≤ 2 ^ 971 := one_le_pow₀ (by norm_num)
      simp only [floatMax]
      norm_num
      generalize (2 : ℝ) ^ 971 = Q at h2 ⊢
      linarith

theorem slab_normal (a h : ℝ) : (geometricNormal (slab a h)).normalized = ⟨0, 0, 1⟩ := by
  have e : geometricNormal (slab a h) = ⟨0, 0, 9⟩ := by
    unfold geometricNormal Cross slab
    ext <;> norm_num
  have hn : Norm (⟨0, 0, 9⟩ : Vec3 ℝ) = 9 := by
    unfold Norm
    rw [show ((0 : ℝ) ^ 2 + 0 ^ 2 + 9 ^ 2) = 9 ^ 2 by norm_num]
    exact Real.sqrt_sq (by norm_num)
  rw [e, normalized_eq, hn]
  ext <;> norm_num [Vec3.scale]

theorem slab_along (a h : ℝ) : along (slab a h) = ⟨1, 0, 0⟩ := by
  have e : (slab a h).b - (slab a h).a = ⟨3, 0, 0⟩ := by
    unfold slab
    ext <;> simp
    ring
  have hn : Norm (⟨3, 0, 0⟩ : Vec3 ℝ) = 3 := by
    unfold Norm
    rw [show ((3 : ℝ) ^ 2 + 0 ^ 2 + 0 ^ 2) = 3 ^ 2 by norm_num]
    exact Real.sqrt_sq (by norm_num)
  unfold along
  rw [e, normalized_eq, hn]
  ext <;> norm_num [Vec3.scale]

/-- Where a ray arrives on a slab from above (`σ = 1`) or below (`σ = -1`). -/
structure OnSlab (a h σ : ℝ) (it : Interaction) : Prop where
  normal : it.shading.normal = ⟨0, 0, σ⟩
  dpdu : it.shading.dpdu = ⟨1, 0, 0⟩
  dpdv : it.shading.dpdv = ⟨0, σ, 0⟩
  height : it.point.z = h
  x1 : a - 2 ≤ it.point.x
  x2 : it.point.x ≤ a + 3
  y1 : -2 ≤ it.point.y
  y2 : it.point.y ≤ 3

theorem slab_arrival (a h σ : ℝ) (hσ : σ = 1 ∨ σ = -1) (g : Ray3 ℝ) (b : Bary ℝ) (hd : Norm g.direction = 1) (hb : triangleIntersect (slab a h) g = some b) (hz : σ * g.direction.z < 0) : OnSlab a h σ (recordedInteraction (slab a h) g b) := by
  obtain ⟨hp, _, hside, hdot, _, _, _⟩ := recorded_spec (slab a h) g b hd hb
  have hN : (recordedInteraction (slab a h) g b).shading.normal = ⟨0, 0, σ⟩ := by
    rcases hside with h1 | h1
    · rw [h1.2, slab_normal] at hdot ⊢
      simp only [Dot, zero_mul, zero_add, one_mul] at hdot
      rcases hσ with rfl | rfl
      · rfl
      · linarith
    · rw [h1.2, slab_normal] at hdot ⊢
      simp only [Dot, Vec3.neg_x, Vec3.neg_y, Vec3.neg_z, neg_zero, zero_mul, zero_add] at hdot
      rcases hσ with rfl | rfl
      · linarith
      · ext <;> simp
  have hu : (recordedInteraction (slab a h) g b).shading.dpdu = ⟨1, 0, 0⟩ := slab_along a h
  have hv : (recordedInteraction (slab a h) g b).shading.dpdv = ((recordedInteraction (slab a h) g b).shading.normal.cross (along (slab a h))).normalized := rfl
  rw [hN, slab_along] at hv
  have hc : (⟨0, 0, σ⟩ : Vec3 ℝ).cross ⟨1, 0, 0⟩ = ⟨0, σ, 0⟩ := by
    ext <;> simp [Vec3.cross]
  have hn : Norm (⟨0, σ, 0⟩ : Vec3 ℝ) = 1 := Norm_eq_one (by rcases hσ with rfl | rfl <;> norm_num [Dot])
  rw [hc, normalized_eq, hn] at hv
  obtain ⟨_, _, hq, hu1, hu2, hv1, huv⟩ := (baricentric_sound _ _ _ hb).1
  have ex := congrArg Vec3.x hq
  have ey := congrArg Vec3.y hq
  have ez := congrArg Vec3.z hq
  simp [slab, Vec3.scale] at ex ey ez
  norm_num at hu1 hu2 hv1 huv
  refine ⟨hN, hu, ?_, ?_, ?_, ?_, ?_, ?_⟩
  · rw [hv]; ext <;> simp
  all_goals
    rw [hp]
  · rw [ez]; ring
  · rw [ex]; linarith
  · rw [ex]; linarith
  · rw [ey]; linarith
  · rw [ey]; linarith

noncomputable def canopy : Scene ℝ :=
  { triangles := [slab 0 0, slab 10 1], normals := [(⟨0, 0, 1⟩, ⟨0, 0, 1⟩, ⟨0, 0, 1⟩), (⟨0, 0, 1⟩, ⟨0, 0, 1⟩, ⟨0, 0, 1⟩)], front := [0, 0], back := [0, 0], materials := [.plastic (Spectrum.gray (1 / 2)) 0 0, .light (Spectrum.gray 5)],
    distantLights := [{ front := 1, back := 1, primitive := .source ⟨0, 0, 1⟩ (1 / 100) }] }

/-- The sun shines on the whole floor, and nowhere with more than a certain strength. -/
theorem canopy_world : ∃ w : World, w.SunlitMatt canopy ∧ ∃ K : ℝ, 0 < K ∧
    (∀ arrived : TRay, ∀ σ : ℝ, σ = 1 ∨ σ = -1 → arrived.interaction.shading.normal = ⟨0, 0, σ⟩ → sunlightAt w (.plastic (Spectrum.gray (1 / 2)) 0 0) arrived Spectrum.c0 ≤ ENNReal.ofReal K) ∧
    ∀ arrived : TRay, arrived.interaction.shading.normal = ⟨0, 0, 1⟩ → arrived.interaction.point.z = 0 → arrived.interaction.point.x ≤ 3 → ENNReal.ofReal (K * (99 / 100)) ≤ sunlightAt w (.plastic (Spectrum.gray (1 / 2)) 0 0) arrived Spectrum.c0 := by
  obtain ⟨ext, hext⟩ := perpSpec_exists
  have hal : canopy.Aligned := ⟨rfl, rfl, rfl⟩
  obtain ⟨s1, bvh, e, _⟩ := rebuild_spec realEnv refEnv_lawful canopy hal
  let dt : DirTests := ⟨fun _ _ => false, fun _ _ => false⟩
  let ext' : GeoExt := ⟨ext.perp, fun _ r => some ⟨r.origin + r.direction.scale 1000, ⟨0, 0, 1⟩, ⟨1, 0, 0⟩, ⟨0, 1, 0⟩, .Front, 0, 0⟩⟩
  let w : World := ⟨s1, realEnv, ext', dt, none, none⟩
  have hR : w.Renders canopy := ⟨refEnv_lawful, refEnv_conservative, hal, fits_of_small _ (by simp [canopy]), Or.inr e⟩
  have hup : (⟨0, 0, 1⟩ : Vec3 ℝ).normalized = ⟨0, 0, 1⟩ := by
    rw [normalized_eq, show Norm (⟨0, 0, 1⟩ : Vec3 ℝ) = 1 from Norm_eq_one (by simp [Dot])]
    ext <;> simp
  have hS : w.IsSun canopy { front := 1, back := 1, primitive := .source ⟨0, 0, 1⟩ (1 / 100) } ⟨0, 0, 1⟩ (1 / 100) (Spectrum.gray 5) 1000000 := by
    refine ⟨rfl, by simp [Dot], by norm_num, by linarith [Real.two_le_pi], fun pt v hv _ => ⟨_, rfl, ?_, rfl⟩⟩
    have := Dot_self_of_norm hv
    simp only [Dot] at this
    simp only [distSq, Vec3.add_x, Vec3.add_y, Vec3.add_z, Vec3.scale_x, Vec3.scale_y, Vec3.scale_z]
    linear_combination 1000000 * this
  have hW : w.SunlitMatt canopy := by
    refine (fun a b c => (⟨⟨hR, ⟨by simp [canopy], by simp [canopy], by simp [canopy], by simp [canopy]⟩, hext, realEnv_measurable, a, rfl, rfl, c⟩, b⟩ : w.SunlitMatt canopy)) ?_ ?_ ?_
    · intro j tri hj
      match j with
      | 0 =>
        simp only [canopy, List.getElem?_cons_zero, Option.some.injEq] at hj
        subst hj
        rw [slab_normal]
        rfl
      | 1 =>
        simp only [canopy, List.getElem?_cons_succ, List.getElem?_cons_zero, Option.some.injEq] at hj
        subst hj
        rw [slab_normal]
        rfl
      | j + 2 => simp [canopy] at hj
    · intro k m hk hmem
      simp only [canopy, List.cons_append, List.nil_append, List.mem_cons, List.not_mem_nil, or_false, or_self] at hmem
      subst hmem
      simp only [canopy, List.getElem?_cons_zero, Option.some.injEq] at hk
      exact ⟨Spectrum.gray (1 / 2), 0, by simp [← hk], by norm_num [Spectrum.Nonneg, Spectrum.gray]⟩
    · intro sun hs
      simp only [canopy, List.mem_singleton] at hs
      subst hs
      exact ⟨_, _, _, _, hS, by norm_num [Spectrum.Nonneg, Spectrum.gray]⟩
  have hcos : 99 / 100 < Real.cos (1 / 100 / 2) := by
    have := Real.one_sub_sq_div_two_le_cos (x := 1 / 100 / 2)
    norm_num at this ⊢
    linarith
  have hcos1 : Real.cos (1 / 100 / 2) < 1 := by
    have hsin0 : 0 < Real.sin (1 / 100 / 2) := Real.sin_pos_of_pos_of_lt_pi (by norm_num) (by linarith [Real.two_le_pi])
    nlinarith [Real.sin_sq_add_cos_sq (1 / 100 / 2), Real.cos_le_one (1 / 100 / 2)]
  set c := Real.cos (1 / 100 / 2) with hcdef
  have hpi := Real.pi_pos
  set K := (Spectrum.gray (1 / 2 : ℝ)).c0 / Real.pi * (Spectrum.gray (5 : ℝ)).c0 * (2 * Real.pi * (1 - c)) / ((1 : Nat) : ℝ) with hK
  have hK0 : 0 < K := by
    have : 0 < 1 - c := by linarith
    simp only [hK, Spectrum.gray]
    push_cast
    positivity
  have hill : ∀ N : Vec3 ℝ, ∃ f1 f2, Frame f1 f2 (⟨0, 0, 1⟩ : Vec3 ℝ).normalized ∧ ∀ arrived : TRay, arrived.interaction.shading.normal = N → ∀ r : Rng, r.Valid →
      brought (w.localIllumination 2 (.plastic (Spectrum.gray (1 / 2)) 0 0) arrived r 1) Spectrum.c0 = ENNReal.ofReal (sunSample w 1000000 (Real.tan (1 / 100 / 2)) K N f1 f2 (⟨0, 0, 1⟩ : Vec3 ℝ).normalized arrived.interaction.point (r 0, r 1)) := by
    intro N
    obtain ⟨f1, f2, hf, hloop⟩ := sun_loop_gives hR hext hS (.plastic (Spectrum.gray (1 / 2)) 0 0) (Spectrum.gray (1 / 2)) 0 (List.mem_cons_self ..) Spectrum.c0 (by simp) (by norm_num [Spectrum.gray]) (by norm_num [Spectrum.gray]) N
    refine ⟨f1, f2, hf, fun arrived hN r hr => ?_⟩
    obtain ⟨v, x, h1, h2, h3, h4⟩ := hloop 1 one_pos arrived.interaction.point arrived arrived.interaction.shading.dpdu arrived.interaction.shading.dpdv 1 2 Spectrum.black r le_rfl (by norm_num) hr
    have hill : w.localIllumination 2 (.plastic (Spectrum.gray (1 / 2)) 0 0) arrived r 1 = .ok (v, repeatRest (fun (_ : Vec3 ℝ) (r : Rng) => r.drop 2) 1 arrived.interaction.point r) := by
      unfold World.localIllumination
      rw [hR.same.2.1, hR.same.2.2]
      simp only [canopy, World.sampleLightArray, World.lightsLoop, TRay.getTriad, Res.bind_ok, hN]
      simp only [Nat.sub_self] at h1
      rw [h1]
      simp only [Res.bind_ok]
      have hb : Spectrum.black + v = v := by ext <;> simp [Spectrum.black, Spectrum.gray]
      rw [hb]
    rw [hill]
    change ENNReal.ofReal v.c0 = _
    have hv : v.c0 = x := by rw [h3]; simp [Spectrum.black, Spectrum.gray]
    rw [hv, h4]
    simp only [repeatVal, add_zero]
    rfl
  refine ⟨w, hW, K, hK0, fun arrived σ hσ hN => ?_, fun arrived hN hz hx => ?_⟩
  · obtain ⟨f1, f2, hf, h⟩ := hill ⟨0, 0, σ⟩
    unfold sunlightAt
    refine (avg_congr (fun r hr => h arrived hN r hr)).le.trans ?_
    rw [← avg_const (ENNReal.ofReal K)]
    refine lintegral_mono fun r => ENNReal.ofReal_le_ofReal ?_
    have hunit := towards_unit hf (Real.tan (1 / 100 / 2)) (r 0, r 1)
    have hl2 := Dot_self_of_norm hunit
    unfold sunSample
    split_ifs
    · refine mul_le_of_le_one_right hK0.le ?_
      set l := towards f1 f2 (⟨0, 0, 1⟩ : Vec3 ℝ).normalized (Real.tan (1 / 100 / 2)) (r 0, r 1)
      simp only [Dot] at hl2
      have hz1 : |l.z| ≤ 1 := abs_le_one_iff_mul_self_le_one.2 (by nlinarith [mul_self_nonneg l.x, mul_self_nonneg l.y])
      simp only [Dot, zero_mul, zero_add]
      rcases hσ with rfl | rfl
      · simpa using hz1
      · simpa using hz1
    · exact hK0.le
  · obtain ⟨f1, f2, hf, h⟩ := hill ⟨0, 0, 1⟩
    unfold sunlightAt
    rw [← avg_const (ENNReal.ofReal (K * (99 / 100)))]
    refine lintegral_mono_ae ?_
    have : ∀ᵐ r ∂randomNumbers, Rng.Valid r := valid_almost_surely
    filter_upwards [this] with r hr
    rw [h arrived hN r hr]
    refine ENNReal.ofReal_le_ofReal ?_
    have h0 : (r 0, r 1) ∈ unitSquare := ⟨⟨(hr 0).1, (hr 0).2⟩, ⟨(hr 1).1, (hr 1).2⟩⟩
    have hcap := towards_in_cap hf (1 / 100 / 2) (by norm_num) (by linarith [Real.two_le_pi]) _ h0
    have hunit := towards_unit hf (Real.tan (1 / 100 / 2)) (r 0, r 1)
    set l := towards f1 f2 (⟨0, 0, 1⟩ : Vec3 ℝ).normalized (Real.tan (1 / 100 / 2)) (r 0, r 1) with hl
    rw [hup] at hcap
    simp only [Dot, mul_zero, mul_one, zero_add] at hcap
    have hlz : 99 / 100 < l.z := lt_trans hcos hcap
    have hl2 := Dot_self_of_norm hunit
    simp only [Dot] at hl2
    have hfree : w.scene.unobstructedDistance w.env ⟨arrived.interaction.point + (⟨0, 0, 1⟩ : Vec3 ℝ).scale (1 / 1000), l⟩ 1000000 [] = .ok true := by
      obtain ⟨free, e, _, h⟩ := C03_unobstructed w.env hR.lawful hR.box canopy w.scene hR.aligned hR.fits hR.built ⟨arrived.interaction.point + (⟨0, 0, 1⟩ : Vec3 ℝ).scale (1 / 1000), l⟩ 1000000 []
      cases free with
      | true => exact e
      | false =>
        exfalso
        obtain ⟨tri, htri, t, p, u, v, ⟨hp, ht, hp2, hu1, _, hv1, huv⟩, _⟩ := h rfl
        have ht0 : 0 < t := lt_trans (by norm_num) ht
        have ez : p.z = 1 / 1000 + t * l.z := by rw [hp]; simp [Vec3.scale, hz]; ring
        have ex : p.x = arrived.interaction.point.x + t * l.x := by rw [hp]; simp [Vec3.scale]; ring
        simp only [canopy, List.mem_cons, List.not_mem_nil, or_false] at htri
        rcases htri with rfl | rfl
        · have e2 : p.z = 0 := by rw [hp2]; simp [Vec3.scale, slab]
          have := mul_pos ht0 (lt_trans (by norm_num) hlz)
          linarith
        · have e2 : p.z = 1 := by rw [hp2]; simp [Vec3.scale, slab]; ring
          have e3 : p.x = 9 + 3 * u := by rw [hp2]; simp [Vec3.scale, slab]; ring
          have hz6 : t * l.z ≤ 1 := by linarith
          have : t * l.x < 5 := by
            have hx : l.x * l.x < 2 / 100 := by nlinarith [mul_self_nonneg l.y]
            have hx1 : l.x < 1 := by nlinarith
            have ht1 : t < 2 := by nlinarith
            nlinarith
          norm_num at hu1
          linarith
    simp only [sunSample, ← hl, hfree, if_true, Dot, zero_mul, zero_add, one_mul]
    rw [abs_of_pos (by linarith)]
    exact mul_le_mul_of_nonneg_left hlz.le hK0.le

variable {w : World}

theorem canopy_material (hR : w.Renders canopy) {i : Nat} {side : SurfaceSide} {m : Material ℝ} (h : w.materialAt side i = .ok m) : m = .plastic (Spectrum.gray (1 / 2)) 0 0 := by
  obtain ⟨k, hk, hmem⟩ := material_from hR h
  simp only [canopy, List.cons_append, List.nil_append, List.mem_cons, List.not_mem_nil, or_false, or_self] at hmem
  subst hmem
  simp only [canopy, List.getElem?_cons_zero, Option.some.injEq] at hk
  exact hk.symm

theorem onSlab_geometry {a h σ : ℝ} {arrived : TRay} (hs : OnSlab a h σ arrived.interaction) (m : Material ℝ) (l : Vec3 ℝ) :
    (arrived.onward m l).geometry = ⟨⟨arrived.interaction.point.x, arrived.interaction.point.y, h + σ / 10 ^ 5⟩, ⟨l.x, σ * l.y, σ * l.z⟩⟩ := by
  simp only [TRay.onward, hs.normal, hs.dpdu, hs.dpdv, worldOf]
  congr 1
  · ext
    · simp
    · simp
    · simp [hs.height]; ring
  · ext <;> simp [Vec3.scale]

theorem onSlab_aside {a h σ : ℝ} {arrived : TRay} (hs : OnSlab a h σ arrived.interaction) (m : Material ℝ) (p : ℝ × ℝ) :
    (arrived.onward m (directionAt p.1 p.2)).geometry = ⟨⟨arrived.interaction.point.x, arrived.interaction.point.y, h + σ / 10 ^ 5⟩, aside σ p⟩ := onSlab_geometry hs m _

/-- A ray from one slab arrives, if at all, on the other. -/
theorem onward_arrival (hR : w.Renders canopy) {a h σ : ℝ} (hcase : a = 0 ∧ h = 0 ∧ σ = 1 ∨ a = 10 ∧ h = 1 ∧ σ = -1) {arrived : TRay} (hs : OnSlab a h σ arrived.interaction) (m : Material ℝ) (l : Vec3 ℝ) (hl : Norm l = 1) (hz : 0 < l.z) {i : Nat} {next : TRay}
    (hc : w.cast (arrived.onward m l) = .ok (some (i, next))) : OnSlab (10 - a) (1 - h) (-σ) next.interaction ∧ next.depth = arrived.depth + 1 := by
  have hg := onSlab_geometry hs m l
  have hσ : σ = 1 ∨ σ = -1 := by rcases hcase with h | h <;> simp [h.2.2]
  have hσ2 : σ * σ = 1 := by rcases hσ with rfl | rfl <;> norm_num
  have hu : Norm (arrived.onward m l).geometry.direction = 1 := by
    have := Dot_self_of_norm hl
    rw [hg]
    refine Norm_eq_one ?_
    simp only [Dot] at this ⊢
    linear_combination this + (l.y * l.y + l.z * l.z) * hσ2
  rcases hR.cast_cases (arrived.onward m l) with ⟨hno, _⟩ | ⟨i', tri, b, j, hc', hj, hb, _⟩
  · rw [hno] at hc; cases hc
  · rw [hc'] at hc
    simp only [Res.ok.injEq, Option.some.injEq, Prod.mk.injEq] at hc
    obtain ⟨rfl, rfl⟩ := hc
    refine ⟨?_, rfl⟩
    have hdir : -σ * (arrived.onward m l).geometry.direction.z < 0 := by
      rw [hg]
      show -σ * (σ * l.z) < 0
      have : -σ * (σ * l.z) = -((σ * σ) * l.z) := by ring
      rw [this, hσ2]; linarith
    have htri : tri = slab (10 - a) (1 - h) := by
      have hmem : tri ∈ canopy.triangles := List.mem_of_getElem? hj
      simp only [canopy, List.mem_cons, List.not_mem_nil, or_false] at hmem
      obtain ⟨hp, ht, hp2, _⟩ := (baricentric_sound _ _ _ hb).1
      have ez := congrArg Vec3.z hp
      have ez2 := congrArg Vec3.z hp2
      rw [hg] at ez
      simp [Vec3.scale] at ez
      have htl : 0 < b.t * l.z := mul_pos (lt_trans (by norm_num) ht) hz
      rcases hcase with ⟨rfl, rfl, rfl⟩ | ⟨rfl, rfl, rfl⟩
      · rcases hmem with rfl | rfl
        · exfalso
          simp [slab, Vec3.scale] at ez2
          rw [ez2] at ez
          norm_num at ez
          nlinarith
        · norm_num
      · rcases hmem with rfl | rfl
        · norm_num
        · exfalso
          simp [slab, Vec3.scale] at ez2
          norm_num at ez ez2
          nlinarith
    subst htri
    exact slab_arrival (10 - a) (1 - h) (-σ) (by rcases hσ with rfl | rfl <;> norm_num) _ b hu hb hdir

/-- From every point of one slab some of the other is seen. -/
theorem canopy_seen (hR : w.Renders canopy) {a h σ : ℝ} (hcase : a = 0 ∧ h = 0 ∧ σ = 1 ∨ a = 10 ∧ h = 1 ∧ σ = -1) {arrived : TRay} (hs : OnSlab a h σ arrived.interaction) (m : Material ℝ) :
    ∃ U : Set (ℝ × ℝ), IsOpen U ∧ (∃ z φ, z ∈ Ioc (0 : ℝ) 1 ∧ φ ∈ Icc 0 (2 * Real.pi) ∧ (z, φ) ∈ U) ∧ ∀ p ∈ U, p.1 < 1 → w.cast (arrived.onward m (directionAt p.1 p.2)) ≠ .ok none := by
  obtain ⟨h1, h2, h3, h4⟩ := And.intro hs.x1 (And.intro hs.x2 (And.intro hs.y1 hs.y2))
  obtain ⟨U, hU, hne, hall⟩ := slab_seen (10 - a) (1 - h) σ (by rcases hcase with h | h <;> simp [h.2.2]) ⟨arrived.interaction.point.x, arrived.interaction.point.y, h + σ / 10 ^ 5⟩
    (by rcases hcase with ⟨rfl, rfl, rfl⟩ | ⟨rfl, rfl, rfl⟩ <;> norm_num) (by rcases hcase with ⟨rfl, rfl, rfl⟩ | ⟨rfl, rfl, rfl⟩ <;> norm_num)
    (by rcases hcase with ⟨rfl, rfl, rfl⟩ | ⟨rfl, rfl, rfl⟩ <;> · simp only; rw [abs_le]; constructor <;> linarith) (by simp only; rw [abs_le]; constructor <;> linarith)
  refine ⟨U, hU, hne, fun p hp hp1 hnone => ?_⟩
  obtain ⟨d2, hv, hr⟩ := hall p hp hp1
  rw [← onSlab_aside hs m p] at hv
  rcases hR.cast_cases (arrived.onward m (directionAt p.1 p.2)) with ⟨_, hno⟩ | ⟨i, tri, b, j, hc, _⟩
  · refine hno (slab (10 - a) (1 - h)) ?_ d2 hv hr
    rcases hcase with ⟨rfl, rfl, rfl⟩ | ⟨rfl, rfl, rfl⟩ <;> norm_num [canopy]
  · rw [hc] at hnone; cases hnone

theorem canopy_share (hR : w.Renders canopy) {a h σ : ℝ} (hcase : a = 0 ∧ h = 0 ∧ σ = 1 ∨ a = 10 ∧ h = 1 ∧ σ = -1) {arrived : TRay} (hs : OnSlab a h σ arrived.interaction) (m : Material ℝ) : skyShare w m arrived < 1 := by
  obtain ⟨U, hU, ⟨z, φ, hz, hφ, hmem⟩, hall⟩ := canopy_seen hR hcase hs m
  have := irradiance_lt hU hz hφ hmem (L := fun l => if w.cast (arrived.onward m l) = .ok none then 1 else 0) (fun l => by split_ifs <;> simp) (fun p hp hb => by rw [if_neg (hall p hp hb.1.2)])
  unfold skyShare
  exact (ENNReal.div_lt_iff (Or.inl (by simpa using Real.pi_pos)) (Or.inl ENNReal.ofReal_ne_top)).2 (by rw [one_mul]; exact this)

/-- Some sky is seen from the canopy. -/
theorem canopy_open (hR : w.Renders canopy) {arrived : TRay} (hs : OnSlab 10 1 (-1) arrived.interaction) (m : Material ℝ) : 0 < skyShare w m arrived := by
  have hcx : Continuous fun p : ℝ × ℝ => (aside (-1) p).x := by unfold aside; fun_prop
  have := irradiance_pos (U := {p | 0 < (aside (-1) p).x}) (isOpen_lt continuous_const hcx) (z := 1 / 2) (φ := 0) ⟨by norm_num, by norm_num⟩ ⟨le_rfl, by positivity⟩
    (by simp only [aside, mem_setOf_eq, Real.cos_zero, mul_one]; exact Real.sqrt_pos.2 (by norm_num)) (L := fun l => if w.cast (arrived.onward m l) = .ok none then 1 else 0) (a := 1) one_pos (fun p hp hb => by
      have hc : w.cast (arrived.onward m (directionAt p.1 p.2)) = .ok none := by
        refine hR.cast_none _ fun tri htri t q u v ⟨hq, ht, hq2, hu1, hu2, hv1, huv⟩ => ?_
        exfalso
        rw [onSlab_aside hs] at hq
        have ex := congrArg Vec3.x hq
        have ez := congrArg Vec3.z hq
        have ex2 := congrArg Vec3.x hq2
        have ez2 := congrArg Vec3.z hq2
        have ht0 : 0 < t := lt_trans (by norm_num) ht
        have hpx : 0 < t * (aside (-1) p).x := mul_pos ht0 hp
        have hpz : 0 < t * p.1 := mul_pos ht0 hb.1.1
        have hdz : (aside (-1) p).z = -p.1 := by simp [aside]
        simp only [canopy, List.mem_cons, List.not_mem_nil, or_false] at htri
        have h1 := hs.x1
        rcases htri with rfl | rfl
        · simp [slab, Vec3.scale] at ex2 ex
          norm_num at hu1 hu2
          nlinarith
        · simp [slab, Vec3.scale] at ez2 ez
          rw [hdz] at ez
          norm_num at ez ez2
          nlinarith
      simp only [hc, if_true, le_refl])
  unfold skyShare
  exact ENNReal.div_pos this.ne' ENNReal.ofReal_ne_top

/-- A ray that looks up at the canopy. -/
noncomputable def upRay : TRay := { TRay.default with geometry := ⟨⟨10, 0, 0⟩, ⟨0, 0, 1⟩⟩ }

theorem upRay_arrives (hR : w.Renders canopy) : ∃ i arrived, w.cast upRay = .ok (some (i, arrived)) ∧ OnSlab 10 1 (-1) arrived.interaction ∧ arrived.depth = 0 ∧ w.materialAt arrived.interaction.shading.side i = .ok (.plastic (Spectrum.gray (1 / 2)) 0 0) := by
  have hd : Norm upRay.geometry.direction = 1 := Norm_eq_one (by norm_num [Dot, upRay])
  rcases hR.cast_cases upRay with ⟨_, hno⟩ | ⟨i, tri, b, j, hc, hj, hb, _, _, hfr, hbk, _, _⟩
  · exfalso
    refine hno (slab 10 1) (by simp [canopy]) 1 ⟨1, ⟨10, 0, 1⟩, ⟨?_, 1 / 3, 1 / 3, by norm_num, by norm_num, by norm_num, ?_⟩, by norm_num, ?_, ?_⟩ ⟨by norm_num, ?_⟩
    · ext <;> simp [upRay, Vec3.scale]
    · ext <;> norm_num [slab, Vec3.scale]
    · norm_num [tripleProduct, slab, upRay]
    · norm_num [distSq, upRay]
    · have h2 : (1 : ℝ) ≤ 2 ^ 971 := one_le_pow₀ (by norm_num)
      simp only [floatMax]
      norm_num
      generalize (2 : ℝ) ^ 971 = Q at h2 ⊢
      linarith
  · have hjt : tri = slab 10 1 ∧ (j = 0 ∨ j = 1) := by
      match j with
      | 0 =>
        exfalso
        simp only [canopy, List.getElem?_cons_zero, Option.some.injEq] at hj
        subst hj
        obtain ⟨hp, _, hp2, hu1, hu2, hv1, huv⟩ := (baricentric_sound _ _ _ hb).1
        have e1 := congrArg Vec3.x hp
        have e2 := congrArg Vec3.x hp2
        simp [upRay, Vec3.scale] at e1
        simp [slab, Vec3.scale] at e2
        rw [e1] at e2
        norm_num at hu1 hu2
        linarith
      | 1 =>
        simp only [canopy, List.getElem?_cons_succ, List.getElem?_cons_zero, Option.some.injEq] at hj
        exact ⟨hj.symm, Or.inr rfl⟩
      | j + 2 => simp [canopy] at hj
    obtain ⟨rfl, hj01⟩ := hjt
    refine ⟨i, _, hc, slab_arrival 10 1 (-1) (Or.inr rfl) _ b hd hb (by simp [upRay]), rfl, ?_⟩
    obtain ⟨k1, k2, k5, k3, k4⟩ := recorded_frame (slab 10 1) upRay.geometry b hb
    unfold World.materialAt
    have hf0 : canopy.front[j]? = some 0 := by rcases hj01 with rfl | rfl <;> rfl
    have hb0 : canopy.back[j]? = some 0 := by rcases hj01 with rfl | rfl <;> rfl
    cases hside : (recordedInteraction (slab 10 1) upRay.geometry b).shading.side with
    | NonApplicable => exact absurd hside k5
    | Front => simp only [hfr, hf0, hR.same.1]; rfl
    | Back => simp only [hbk, hb0, hR.same.1]; rfl

theorem canopy_sees (hR : w.Renders canopy) {a h σ : ℝ} (hcase : a = 0 ∧ h = 0 ∧ σ = 1 ∨ a = 10 ∧ h = 1 ∧ σ = -1) {arrived : TRay} (hs : OnSlab a h σ arrived.interaction) (m : Material ℝ) (k : Nat) (l : Vec3 ℝ) (hl : Norm l = 1) (hz : 0 < l.z) :
    w.SeesSurfaces k (arrived.onward m l) := by
  induction k generalizing a h σ arrived m l with
  | zero => trivial
  | succ k ih =>
    intro i next m' hc hm
    obtain ⟨hn, _⟩ := onward_arrival hR hcase hs m l hl hz hc
    have hcase' : 10 - a = 0 ∧ 1 - h = 0 ∧ -σ = 1 ∨ 10 - a = 10 ∧ 1 - h = 1 ∧ -σ = -1 := by rcases hcase with ⟨rfl, rfl, rfl⟩ | ⟨rfl, rfl, rfl⟩ <;> norm_num
    exact ⟨canopy_share hR hcase' hn m', fun l' hl' hz' => ih hcase' hn m' l' hl' hz'⟩

/-- C121: tracing a ray towards the canopy under a black sky ends almost surely, its mean is the light of the equation divided by the share where something of the scene is seen, and this is more than without the sky, by at most that factor. -/
example : ∃ w : World, w.SunlitMatt canopy ∧ canopy.triangles.length = 2 ∧
    let rt : RayTracer := ⟨1, 10, 70, 1 / 1000, 3 / 10⟩
    let black : World := w.withSky (fun _ => 0) none
    (∀ᵐ r ∂randomNumbers, ∃ fuel light out, traceRay black rt fuel ⟨r, defaultRays⟩ upRay = .ok ((light, 0), out)) ∧
    ∫⁻ r, ⨆ fuel, seenLight (traceRay black rt fuel ⟨r, defaultRays⟩ upRay) Spectrum.c0 ∂randomNumbers = windowLight w rt Spectrum.c0 2 upRay ∧
    ∫⁻ r, seenLight (traceRay w rt 100 ⟨r, defaultRays⟩ upRay) Spectrum.c0 ∂randomNumbers < ∫⁻ r, ⨆ fuel, seenLight (traceRay black rt fuel ⟨r, defaultRays⟩ upRay) Spectrum.c0 ∂randomNumbers ∧
    ∃ q < 1, ∫⁻ r, ⨆ fuel, seenLight (traceRay black rt fuel ⟨r, defaultRays⟩ upRay) Spectrum.c0 ∂randomNumbers ≤ (1 - q)⁻¹ * ∫⁻ r, seenLight (traceRay w rt 100 ⟨r, defaultRays⟩ upRay) Spectrum.c0 ∂randomNumbers := by
  obtain ⟨w, hW, K, hK, hmost, hlit⟩ := canopy_world
  have hR := hW.renders
  obtain ⟨i, arrived, hc, hs, hd, hm⟩ := upRay_arrives hR
  have hu : Norm upRay.geometry.direction = 1 := Norm_eq_one (by norm_num [Dot, upRay])
  have hv : 0 ≤ upRay.value := by simp [upRay, TRay.default]
  have hdep : upRay.depth = 0 := rfl
  have hlen : defaultRays.length = 15 := by simp [defaultRays]
  have hmeets : w.cast upRay ≠ .ok none := by rw [hc]; simp
  have hcase : (10 : ℝ) = 0 ∧ (1 : ℝ) = 0 ∧ (-1 : ℝ) = 1 ∨ (10 : ℝ) = 10 ∧ (1 : ℝ) = 1 ∧ (-1 : ℝ) = -1 := Or.inr ⟨rfl, rfl, rfl⟩
  have hsees : w.SeesSurfaces 2 upRay := by
    intro i' arrived' m' hc' hm'
    rw [hc] at hc'
    simp only [Res.ok.injEq, Option.some.injEq, Prod.mk.injEq] at hc'
    obtain ⟨rfl, rfl⟩ := hc'
    exact ⟨canopy_share hR hcase hs m', fun l hl hz => canopy_sees hR hcase hs m' 1 l hl hz⟩
  refine ⟨w, hW, rfl, C121_ends hW _ _ ⟨1, 10, 70, 1 / 1000, 3 / 10⟩ (by norm_num) defaultRays (by rw [hlen]; decide) upRay hu hv (Nat.zero_le _) hmeets hsees,
    C121_mean_under_sky hW _ _ ⟨1, 10, 70, 1 / 1000, 3 / 10⟩ (by norm_num) Spectrum.c0 (by simp) defaultRays (by rw [hlen]; decide) upRay hu hv (Nat.zero_le _) hmeets hsees, ?_, ?_⟩
  swap
  · refine ⟨_, canopy_share hR hcase hs (.plastic (Spectrum.gray (1 / 2)) 0 0), ?_⟩
    have := (C121_error_partial hW (fun _ => 0) none ⟨1, 10, 70, 1 / 1000, 3 / 10⟩ (by norm_num) Spectrum.c0 (by simp) defaultRays (by rw [hlen]; decide) upRay hu hv hdep hmeets _ (canopy_share hR hcase hs (.plastic (Spectrum.gray (1 / 2)) 0 0)) hsees (by
      intro i' arrived' m' hc' hm'
      rw [hc] at hc'
      simp only [Res.ok.injEq, Option.some.injEq, Prod.mk.injEq] at hc'
      obtain ⟨rfl, rfl⟩ := hc'
      obtain rfl := canopy_material hR hm'
      exact ⟨le_rfl, fun _ _ _ => trivial⟩) 100 (by norm_num)).2
    simpa using this
  have h1 : ∀ l, Norm l = 1 → 0 < l.z → reflectedLight w ⟨1, 10, 70, 1 / 1000, 3 / 10⟩ Spectrum.c0 1 (arrived.onward (.plastic (Spectrum.gray (1 / 2)) 0 0) l) ≤ ENNReal.ofReal K ∧
      (w.cast (arrived.onward (.plastic (Spectrum.gray (1 / 2)) 0 0) l) ≠ .ok none → ENNReal.ofReal (K * (99 / 100)) ≤ reflectedLight w ⟨1, 10, 70, 1 / 1000, 3 / 10⟩ Spectrum.c0 1 (arrived.onward (.plastic (Spectrum.gray (1 / 2)) 0 0) l)) := by
    intro l hl hz
    obtain ⟨code, -, hall⟩ := disc_side hW
    have hun : Norm (arrived.onward (.plastic (Spectrum.gray (1 / 2)) 0 0) l).geometry.direction = 1 := by
      have := Dot_self_of_norm hl
      rw [onSlab_geometry hs]
      refine Norm_eq_one ?_
      simp only [Dot] at this ⊢
      linarith
    rcases hall _ hun with ⟨-, hn⟩ | ⟨i', bk, tri, m', col, r, it, -, hS, hc', ha⟩
    · refine ⟨?_, fun h => absurd hn h⟩
      unfold reflectedLight
      rw [hn]
      exact zero_le
    · obtain ⟨hnext, -⟩ := onward_arrival hR hcase hs _ l hl hz hc'
      have hm' := hS.material
      rw [← ha.side] at hm'
      obtain rfl := canopy_material hR hm'
      norm_num at hnext
      have e : reflectedLight w ⟨1, 10, 70, 1 / 1000, 3 / 10⟩ Spectrum.c0 1 (arrived.onward (.plastic (Spectrum.gray (1 / 2)) 0 0) l) =
          sunlightAt w (.plastic (Spectrum.gray (1 / 2)) 0 0) { arrived.onward (.plastic (Spectrum.gray (1 / 2)) 0 0) l with interaction := it } Spectrum.c0 := by
        unfold reflectedLight
        simp only [hc', hm', reflectedLight, irradiance_const, zero_mul, mul_zero, add_zero]
      rw [e]
      exact ⟨hmost _ 1 (Or.inl rfl) hnext.normal, fun _ => hlit _ hnext.normal hnext.height (by have := hnext.x2; simpa using this)⟩
  have hangles : ∀ p : ℝ × ℝ, p ∈ Ioo (0 : ℝ) 1 ×ˢ Ioo 0 (2 * Real.pi) → Norm (directionAt p.1 p.2) = 1 ∧ 0 < (directionAt p.1 p.2).z := by
    intro p hp
    refine ⟨Norm_eq_one ?_, hp.1.1⟩
    have h1 : 0 ≤ 1 - p.1 ^ 2 := by nlinarith [hp.1.1, hp.1.2]
    have h2 := Real.sq_sqrt h1
    have h3 := Real.sin_sq_add_cos_sq p.2
    simp only [Dot, directionAt]
    calc _ = Real.sqrt (1 - p.1 ^ 2) ^ 2 * (Real.sin p.2 ^ 2 + Real.cos p.2 ^ 2) + p.1 ^ 2 := by ring
      _ = 1 := by rw [h2, h3]; ring
  obtain ⟨U, hU, ⟨z, φ, hz, hφ, hmem⟩, hseen⟩ := canopy_seen hR hcase hs (.plastic (Spectrum.gray (1 / 2)) 0 0)
  refine C121_violation_windows hW _ _ ⟨1, 10, 70, 1 / 1000, 3 / 10⟩ (by norm_num) (by norm_num) (by norm_num) Spectrum.c0 (by simp) defaultRays (by rw [hlen]; decide) upRay hu hv hdep hsees i arrived _ hc hd hm (canopy_open hR hs _)
    (by norm_num [Material.colour, Spectrum.gray]) ?_ ?_ 100 (by norm_num)
  · refine irradiance_pos hU hz hφ hmem (a := ENNReal.ofReal (K * (99 / 100))) (ENNReal.ofReal_pos.2 (by positivity)) fun p hp hb => ?_
    obtain ⟨q1, q2⟩ := hangles p hb
    exact (h1 _ q1 q2).2 (hseen p hp hb.1.2)
  · have h2 : (irradiance fun l => reflectedLight w ⟨1, 10, 70, 1 / 1000, 3 / 10⟩ Spectrum.c0 1 (arrived.onward (.plastic (Spectrum.gray (1 / 2)) 0 0) l)) ≤ ENNReal.ofReal K * ENNReal.ofReal Real.pi := by
      rw [← irradiance_const]
      exact irradiance_mono' fun l hl hz => (h1 l hl hz).1
    have h3 : sunlightAt w (.plastic (Spectrum.gray (1 / 2)) 0 0) arrived Spectrum.c0 ≤ ENNReal.ofReal K := hmost _ (-1) (Or.inr rfl) hs.normal
    change reflectedLight w _ Spectrum.c0 (1 + 1) upRay ≠ ⊤
    unfold reflectedLight
    simp only [hc, hm]
    refine ENNReal.add_ne_top.2 ⟨ne_top_of_le_ne_top ENNReal.ofReal_ne_top h3, ENNReal.mul_ne_top (ne_top_of_le_ne_top ENNReal.one_ne_top (follow_le _ _ _)) (ENNReal.mul_ne_top ENNReal.ofReal_ne_top (ne_top_of_le_ne_top ?_ h2))⟩
    exact ENNReal.mul_ne_top ENNReal.ofReal_ne_top ENNReal.ofReal_ne_top

end Rendering
