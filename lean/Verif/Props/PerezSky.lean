import Verif.Model.PerezSky
import Verif.Props.Scene
import Verif.Props.SceneExamples
import Verif.Spec.Triangle
import Mathlib.Analysis.Real.Pi.Bounds
import Mathlib.Tactic

/-!
# The sun of the Perez sky: C71, C85
-/

set_option linter.unusedSectionVars false
namespace Rendering

/-- The zenith angle of a sun whose direction has the given vertical component, limited to 3 to 90 degrees. -/
noncomputable def clampedZenith (z : ℝ) : ℝ := max (3 * Real.pi / 180) (min (Real.pi / 2) (Real.arccos z))

/-- C71, the part that holds: below the 3 degree cone (both as the program has its cosine, to 16 digits, and exactly) the zenith angle is the sun's own, limited to 90 degrees. -/
theorem C71_zenith_partial (z : ℝ) (h1 : z < 9986295347545738 / 10000000000000000) (h2 : z ≤ Real.cos (3 * Real.pi / 180)) : sunZenith z = clampedZenith z := by
  have hpi := Real.pi_pos
  have h3 : Real.arccos (Real.cos (3 * Real.pi / 180)) = 3 * Real.pi / 180 := Real.arccos_cos (by positivity) (by linarith)
  have hlow : 3 * Real.pi / 180 ≤ Real.arccos z := by
    rw [← h3]; exact Real.arccos_le_arccos h2
  unfold sunZenith clampedZenith
  by_cases hz : z ≤ 0
  · rw [if_pos hz, min_eq_left (by rw [← not_lt, Real.arccos_lt_pi_div_two]; exact not_lt.mpr hz), max_eq_right (by linarith)]
  · rw [if_neg hz, if_neg (not_le.mpr h1)]
    have := (Real.arccos_le_pi_div_two (x := z)).mpr (not_le.mp hz).le
    rw [min_eq_right this, max_eq_right hlow]

/-- The program's angle for a sun near the zenith is above 86 degrees. -/
theorem high_sun_angle : 86 * Real.pi / 180 < Real.arccos (3 * Real.pi / 180) := by
  have hpi := Real.pi_pos
  have hpi4 := Real.pi_le_four
  have hpi3 := Real.pi_gt_three
  have hcos : Real.cos (86 * Real.pi / 180) = Real.sin (Real.pi / 45) := by
    rw [← Real.cos_pi_div_two_sub]; congr 1; ring
  have hs := Real.sin_gt_sub_cube (x := Real.pi / 45) (by positivity)
  have hlt : 3 * Real.pi / 180 < Real.cos (86 * Real.pi / 180) := by
    rw [hcos]
    have : (Real.pi / 45) ^ 3 ≤ (Real.pi / 45) * (4 / 45) ^ 2 := by
      have : (Real.pi / 45) ^ 2 ≤ (4 / 45) ^ 2 := by
        apply pow_le_pow_left₀ (by positivity); linarith
      calc (Real.pi / 45) ^ 3 = Real.pi / 45 * (Real.pi / 45) ^ 2 := by ring
        _ ≤ _ := mul_le_mul_of_nonneg_left this (by positivity)
    nlinarith
  have h := Real.arccos_lt_arccos (x := 3 * Real.pi / 180) (y := Real.cos (86 * Real.pi / 180)) (by linarith) hlt (Real.cos_le_one _)
  rwa [Real.arccos_cos (by positivity) (by linarith)] at h

/-- C71 is false of the program: when the sun stands in the 3 degree cone around the zenith its angle is taken to be above 86 degrees (the arc cosine of 3 degrees, not 3 degrees), against the 3 degrees
that the property asks; a sun straight above is taken to be lower than one half way up. -/
theorem C71_violation (z : ℝ) (h : 9986295347545738 / 10000000000000000 ≤ z) :
    86 * Real.pi / 180 < sunZenith z ∧ clampedZenith z < 4 * Real.pi / 180 ∧ sunZenith (1 / 2) < sunZenith z := by
  have hpi := Real.pi_pos
  have hz : sunZenith z = Real.arccos (3 * Real.pi / 180) := by
    unfold sunZenith
    rw [if_neg (by linarith), if_pos h]
  have hhalf : sunZenith (1 / 2) = Real.pi / 3 := by
    unfold sunZenith
    rw [if_neg (by norm_num), if_neg (by norm_num), ← Real.cos_pi_div_three, Real.arccos_cos (by positivity) (by linarith)]
  refine ⟨by rw [hz]; exact high_sun_angle, ?_, by rw [hz, hhalf]; linarith [high_sun_angle]⟩
  unfold clampedZenith
  have hpi4 := Real.pi_le_four
  have hpi3 := Real.pi_gt_d2
  have hcos : Real.cos (4 * Real.pi / 180) < z := by
    have hx0 : 0 < 4 * Real.pi / 180 := by positivity
    have hx1 : 4 * Real.pi / 180 ≤ 1 / 10 := by linarith
    have hx2 : 68 / 1000 ≤ 4 * Real.pi / 180 := by linarith
    generalize 4 * Real.pi / 180 = x at hx0 hx1 hx2 ⊢
    have h1 := (abs_le.mp (Real.cos_bound (x := x) (by rw [abs_of_pos hx0]; linarith))).2
    rw [abs_of_pos hx0] at h1
    have h4 : x ^ 4 ≤ 1 / 100 * x ^ 2 := by
      have h2 : x ^ 2 ≤ 1 / 100 := by nlinarith
      calc x ^ 4 = x ^ 2 * x ^ 2 := by ring
        _ ≤ 1 / 100 * x ^ 2 := mul_le_mul_of_nonneg_right h2 (sq_nonneg x)
    nlinarith
  have : Real.arccos z < 4 * Real.pi / 180 := by
    by_cases h1 : z ≤ 1
    · have := Real.arccos_lt_arccos (Real.neg_one_le_cos _) hcos h1
      rwa [Real.arccos_cos (by positivity) (by linarith)] at this
    · rw [Real.arccos_eq_zero.mpr (by linarith)]; positivity
  exact max_lt (by linarith) (lt_of_le_of_lt (min_le_right _ _) this)

/-- C85. When the sun is up, adding a Perez sky adds one material, a light equal in all channels, and one distant source 0.533 degrees wide in the direction of the sun, with that material on both
sides; the light's luminance (179 times its value) times the solid angle under which the sun appears is the direct illuminance of the Perez model: the direct normal irradiance times its luminous
efficacy. Nothing else changes but the sky. At night only the sky does. -/
theorem C85_sun (env : SceneEnv ℝ) (s : Scene ℝ) (ext : SolarExt) (diffuse direct : ℝ) :
    (ext.sunPosition = none → s.addPerezSkyFrom env ext diffuse direct = .ok { s with hasSky := true }) ∧
    (∀ sun, ext.sunPosition = some sun → ∃ s' b, s.addPerezSkyFrom env ext diffuse direct = .ok s' ∧
      s'.materials = s.materials ++ [.light ⟨b, b, b⟩] ∧
      s'.distantLights = s.distantLights ++ [⟨.source sun (533 / 1000 * Real.pi / 180), s.materials.length, s.materials.length⟩] ∧
      s'.hasSky = true ∧ s'.lights = s.lights ∧ s'.triangles = s.triangles ∧ s'.normals = s.normals ∧ s'.front = s.front ∧ s'.back = s.back ∧ s'.accelerator = s.accelerator ∧
      179 * b * (Real.pi * Real.tan (533 / 1000 * Real.pi / 180 / 2) ^ 2) = direct * ext.directIlluminanceRatio ext.apwc (sunZenith sun.z)
        (max (1 / 100) (min (9 * 10 ^ 9) (ext.skyBrightness diffuse (ext.airMass (sunZenith sun.z)) ext.extraterrestrial)))
        (ext.clearnessCategory (max (-(9 * 10 ^ 9)) (min (119 / 10) (ext.skyClearness diffuse direct (sunZenith sun.z)))))) := by
  constructor
  · intro h
    unfold Scene.addPerezSkyFrom perezSun Scene.addPerezSky
    rw [h]
  · intro sun h
    have hpi := Real.pi_pos
    have htan : 0 < Real.tan (sunAngle / 2) := by
      apply Real.tan_pos_of_pos_of_lt_pi_div_two <;> unfold sunAngle
      · positivity
      · linarith
    have hclamp : ∀ x lo hi : ℝ, lo ≤ hi → clampReal x lo hi = max lo (min hi x) := by
      intro x lo hi hl
      unfold clampReal
      split_ifs with h1 h2
      · rw [max_eq_left]; exact le_trans (min_le_right _ _) h1.le
      · rw [min_eq_left h2.le, max_eq_right hl]
      · rw [min_eq_right (not_lt.mp h2), max_eq_right (not_lt.mp h1)]
    let mat : Material ℝ := .light (Spectrum.gray (direct * ext.directIlluminanceRatio ext.apwc (sunZenith sun.z) (clampReal (ext.skyBrightness diffuse (ext.airMass (sunZenith sun.z)) ext.extraterrestrial) (1 / 100) (9 * 10 ^ 9))
      (ext.clearnessCategory (clampReal (ext.skyClearness diffuse direct (sunZenith sun.z)) (-(9 * 10 ^ 9)) (119 / 10))) / (Real.tan (sunAngle / 2) * Real.tan (sunAngle / 2) * Real.pi) / 179))
    have hadd : s.addPerezSkyFrom env ext diffuse direct = ({ s with hasSky := true, materials := s.materials ++ [mat] } : Scene ℝ).pushObject env s.materials.length s.materials.length (.source sun sunAngle) := by
      unfold Scene.addPerezSkyFrom perezSun Scene.addPerezSky
      rw [h]
      simp [Scene.pushMaterial, mat]
    have hm : (s.materials ++ [mat])[s.materials.length]? = some mat := by simp
    have hex : ∃ s', ({ s with hasSky := true, materials := s.materials ++ [mat] } : Scene ℝ).pushObject env s.materials.length s.materials.length (.source sun sunAngle) = .ok s' := by
      unfold Scene.pushObject
      simp only [hm]
      simp [mat, Material.emitsDirectLight]
    obtain ⟨s', hs'⟩ := hex
    obtain ⟨-, h2, h3, h4, h5, h6, h7, h8, h9, -⟩ := pushObject_ok env _ s' _ _ _ hs'
    obtain ⟨l1, l2⟩ := (h9 (Or.inl ⟨_, hm⟩)).1 rfl
    refine ⟨s', _, hadd.trans hs', h2, l2, h4, l1, ?_, ?_, ?_, ?_, h3, ?_⟩
    · rw [h5]; simp [SceneEnv.meshPair]
    · rw [h6]; simp [SceneEnv.meshPair]
    · rw [h7]; simp [SceneEnv.meshPair]
    · rw [h8]; simp [SceneEnv.meshPair]
    · have e : (533 / 1000 * Real.pi / 180 / 2 : ℝ) = sunAngle / 2 := rfl
      rw [e, hclamp _ _ _ (by norm_num), hclamp _ _ _ (by norm_num)]
      field_simp

/-! ### Examples -/

/-- A sun straight above, in the cone of C71, and one at 60 degrees, outside. -/
example : (9986295347545738 / 10000000000000000 : ℝ) ≤ 1 := by norm_num
example : (1 / 2 : ℝ) < 9986295347545738 / 10000000000000000 ∧ (1 / 2 : ℝ) ≤ Real.cos (3 * Real.pi / 180) := by
  refine ⟨by norm_num, ?_⟩
  rw [← Real.cos_pi_div_three]
  have hpi := Real.pi_pos
  exact Real.cos_le_cos_of_nonneg_of_le_pi (by positivity) (by linarith) (by linarith)

/-- C85: a day and a night. -/
noncomputable example : SolarExt := ⟨some ⟨0, 0, 1⟩, 1, fun _ => 1, 1367, fun _ _ _ => 1, fun _ _ _ => 1, fun _ => 1, fun _ _ _ _ => 100⟩
noncomputable example : SolarExt := ⟨none, 1, fun _ => 1, 1367, fun _ _ _ => 1, fun _ _ _ => 1, fun _ => 1, fun _ _ _ _ => 100⟩

example := C71_violation 1 (by norm_num)

example := C71_zenith_partial (1 / 2) (by norm_num) (by
  rw [← Real.cos_pi_div_three]
  have hpi := Real.pi_pos
  exact Real.cos_le_cos_of_nonneg_of_le_pi (by positivity) (by linarith) (by linarith))

end Rendering
