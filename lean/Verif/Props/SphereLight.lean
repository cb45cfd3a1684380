import Verif.Props.Uniformity
import Verif.Props.LightSampling

/-!
# C79: the directions drawn towards a spherical light, and the density reported for them
-/

set_option linter.unusedSectionVars false
namespace Rendering

open MeasureTheory Set

/-- The direction drawn towards the sphere light is within the cap of directions whose cosine with the vertical is at least `x`. -/
def DrawnInCap (ext : GeoExt) (c : Vec3 ℝ) (r : ℝ) (point : Vec3 ℝ) (rng : Rng) (x : ℝ) : Prop :=
  ∃ v rng', (Primitive.sphere c r).sampleDirection ext rng point = .ok (v, rng') ∧ x ≤ v.z

theorem sphere_cap_set (D R x : ℝ) (hR : 0 < R) (hD : R ≤ D) (hx0 : 0 ≤ x) (hx1 : x ≤ 1) (hcone : (D / R) ^ 2 * (1 - x ^ 2) ≤ 1) :
    ∃ z1 z2 : ℝ, -1 ≤ z2 ∧ z2 ≤ z1 ∧ z1 ≤ 1 ∧ z1 - z2 = 2 * (x * Real.sqrt (1 - (D / R) ^ 2 * (1 - x ^ 2))) ∧
      ∀ z : ℝ, -1 < z → z < 1 → (x ≤ (z * R + D) / Real.sqrt (R ^ 2 * (1 - z ^ 2) + (z * R + D) ^ 2) ↔ z ≤ z2 ∨ z1 ≤ z) := by
  set q := Real.sqrt (1 - (D / R) ^ 2 * (1 - x ^ 2)) with hq
  have hq0 : 0 ≤ q := Real.sqrt_nonneg _
  have hq2 : q ^ 2 = 1 - (D / R) ^ 2 * (1 - x ^ 2) := Real.sq_sqrt (by linarith)
  set k := D / R with hk
  have hk1 : 1 ≤ k := (one_le_div hR).2 hD
  have hDk : D = k * R := by rw [hk]; field_simp
  have hs : 0 ≤ 1 - x ^ 2 := by nlinarith
  have hq1 : q ≤ 1 := by nlinarith [mul_nonneg (sq_nonneg k) hs]
  have hxq : x * q ≤ 1 := by nlinarith [mul_nonneg hx0 (sub_nonneg.2 hq1)]
  have hcs : k * (1 - x ^ 2) + x * q ≤ 1 := by
    -- Cauchy-Schwarz
    have h : (k * (1 - x ^ 2) + x * q) ^ 2 ≤ 1 := by
      have : (k * (1 - x ^ 2) + x * q) ^ 2 = 1 - (1 - x ^ 2) * (k * x - q) ^ 2 - (1 - q ^ 2 - k ^ 2 * (1 - x ^ 2)) * x ^ 2 - (1 - x ^ 2) * (1 - q ^ 2 - k ^ 2 * (1 - x ^ 2)) := by ring
      rw [this, hq2]
      nlinarith [mul_nonneg hs (sq_nonneg (k * x - q))]
    nlinarith [mul_nonneg (le_trans zero_le_one hk1) hs, mul_nonneg hx0 hq0]
  refine ⟨-k * (1 - x ^ 2) + x * q, -k * (1 - x ^ 2) - x * q, by linarith, by linarith [mul_nonneg hx0 hq0], by nlinarith [mul_nonneg (le_trans zero_le_one hk1) hs], by ring, ?_⟩
  intro z hz1 hz2
  have hpos : 0 < z * R + D := by nlinarith
  have hroot : 0 < Real.sqrt (R ^ 2 * (1 - z ^ 2) + (z * R + D) ^ 2) := Real.sqrt_pos.2 (by
    have : 0 < 1 - z ^ 2 := by nlinarith
    positivity)
  have hsq : Real.sqrt (R ^ 2 * (1 - z ^ 2) + (z * R + D) ^ 2) ^ 2 = R ^ 2 * (1 - z ^ 2) + (z * R + D) ^ 2 := Real.sq_sqrt (by
    have : 0 < 1 - z ^ 2 := by nlinarith
    positivity)
  rw [le_div_iff₀ hroot]
  have hfac : (z * R + D) ^ 2 - x ^ 2 * (R ^ 2 * (1 - z ^ 2) + (z * R + D) ^ 2) = R ^ 2 * ((z - (-k * (1 - x ^ 2) + x * q)) * (z - (-k * (1 - x ^ 2) - x * q))) := by
    have : (z - (-k * (1 - x ^ 2) + x * q)) * (z - (-k * (1 - x ^ 2) - x * q)) = (z + k * (1 - x ^ 2)) ^ 2 - x ^ 2 * q ^ 2 := by ring
    rw [this, hq2, hDk]; ring
  have hiff : x * Real.sqrt (R ^ 2 * (1 - z ^ 2) + (z * R + D) ^ 2) ≤ z * R + D ↔ 0 ≤ (z - (-k * (1 - x ^ 2) + x * q)) * (z - (-k * (1 - x ^ 2) - x * q)) := by
    rw [← sq_le_sq₀ (mul_nonneg hx0 hroot.le) hpos.le, mul_pow, hsq, ← sub_nonneg, hfac]
    exact ⟨fun h => nonneg_of_mul_nonneg_right h (by positivity), fun h => mul_nonneg (by positivity) h⟩
  rw [hiff, mul_nonneg_iff]
  have := mul_nonneg hx0 hq0
  constructor
  · rintro (⟨h1, h2⟩ | ⟨h1, h2⟩)
    · right; linarith
    · left; linarith
  · rintro (h | h)
    · right; constructor <;> linarith
    · left; constructor <;> linarith

theorem cap_length {z1 z2 : ℝ} (h1 : -1 ≤ z2) (h2 : z2 ≤ z1) (h3 : z1 ≤ 1) : volume {z : ℝ | z ∈ Ioo (-1 : ℝ) 1 ∧ (z ≤ z2 ∨ z1 ≤ z)} = ENNReal.ofReal (2 - (z1 - z2)) := by
  have : {z : ℝ | z ∈ Ioo (-1 : ℝ) 1 ∧ (z ≤ z2 ∨ z1 ≤ z)} = Ioo (-1) 1 \ Ioo z2 z1 := by
    ext z
    simp only [mem_setOf_eq, Set.mem_sdiff, mem_Ioo, not_and_or, not_lt]
  rw [this, measure_sdiff (Ioo_subset_Ioo h1 h3) measurableSet_Ioo.nullMeasurableSet (by simp), Real.volume_Ioo, Real.volume_Ioo, ← ENNReal.ofReal_sub _ (by linarith)]
  norm_num

/-- **C79, spherical lights, partial: what the sampler does.** Seen from a point vertically below the centre of the sphere, at distance `D`, directions whose cosine with the axis is at least `x` are drawn with probability
`1 - x √(1 - (D/R)² (1 - x²))` (up to `4 · 10⁻⁷`, because draws next to 0 and 1 are clamped), `R` the radius reduced by the factor `1 - 10⁻⁵`. Missing: points in other positions, other sets of directions. -/
theorem C79_sphere_cap_partial (ext : GeoExt) (rest : Rng) (c : Vec3 ℝ) (r D x : ℝ) (hr : 0 < r) (hD : r ≤ D) (hx0 : 0 ≤ x) (hx1 : x ≤ 1) (hcone : (D / (r * (1 - 1 / 10 ^ 5))) ^ 2 * (1 - x ^ 2) ≤ 1) :
    Within (4 / 10 ^ 7) (Probability fun d => DrawnInCap ext c r ⟨c.x, c.y, c.z - D⟩ (rest.cons2 d) x) (ENNReal.ofReal (1 - x * Real.sqrt (1 - (D / (r * (1 - 1 / 10 ^ 5))) ^ 2 * (1 - x ^ 2)))) := by
  set R := r * (1 - 1 / 10 ^ 5) with hRdef
  have hR : 0 < R := by rw [hRdef]; positivity
  have hRD : R ≤ D := by rw [hRdef]; nlinarith
  set S : Set (Vec3 ℝ) := {u | x ≤ (⟨u.x * R, u.y * R, u.z * R + D⟩ : Vec3 ℝ).normalized.z} with hS
  have hmeas : Measurable3 S := by
    unfold Measurable3
    rw [hS]
    simp only [normalized_eq, Vec3.scale_z, Norm, Dot, mem_setOf_eq]
    exact measurableSet_le (by fun_prop) (by fun_prop)
  have h := C78_sphere_uniform rest S hmeas
  have e1 : (fun d => (uniformSampleSphere (rest.cons2 d)).1 ∈ S) = fun d => DrawnInCap ext c r ⟨c.x, c.y, c.z - D⟩ (rest.cons2 d) x := by
    funext d
    have e : (⟨(uniformSampleSphere (rest.cons2 d)).1.x * R + c.x, (uniformSampleSphere (rest.cons2 d)).1.y * R + c.y, (uniformSampleSphere (rest.cons2 d)).1.z * R + c.z⟩ : Vec3 ℝ) - ⟨c.x, c.y, c.z - D⟩ =
        ⟨(uniformSampleSphere (rest.cons2 d)).1.x * R, (uniformSampleSphere (rest.cons2 d)).1.y * R, (uniformSampleSphere (rest.cons2 d)).1.z * R + D⟩ := by
      ext <;> simp <;> ring
    have hd : (Primitive.sphere c r).sampleDirection ext (rest.cons2 d) ⟨c.x, c.y, c.z - D⟩ =
        .ok ((⟨(uniformSampleSphere (rest.cons2 d)).1.x * R, (uniformSampleSphere (rest.cons2 d)).1.y * R, (uniformSampleSphere (rest.cons2 d)).1.z * R + D⟩ : Vec3 ℝ).normalized, (uniformSampleSphere (rest.cons2 d)).2) := by
      rw [← e]; rfl
    unfold DrawnInCap
    rw [hd]
    apply propext
    constructor
    · intro h; exact ⟨_, _, rfl, h⟩
    · rintro ⟨v, rng', hv, hx⟩
      have := congrArg (fun y => y.1) (Res.ok.inj hv)
      simp only at this
      rw [← this] at hx
      exact hx
  rw [e1] at h
  obtain ⟨z1, z2, k1, k2, k3, k4, k5⟩ := sphere_cap_set D R x hR hRD hx0 hx1 hcone
  have e2 : solidAngle S / ENNReal.ofReal (4 * Real.pi) = ENNReal.ofReal (1 - x * Real.sqrt (1 - (D / R) ^ 2 * (1 - x ^ 2))) := by
    have hset : {p : ℝ × ℝ | p ∈ Ioo (-1 : ℝ) 1 ×ˢ Ioo 0 (2 * Real.pi) ∧ directionAt p.1 p.2 ∈ S} = {z : ℝ | z ∈ Ioo (-1 : ℝ) 1 ∧ (z ≤ z2 ∨ z1 ≤ z)} ×ˢ Ioo 0 (2 * Real.pi) := by
      ext ⟨z, φ⟩
      simp only [mem_setOf_eq, mem_prod]
      have key : z ∈ Ioo (-1 : ℝ) 1 → (directionAt z φ ∈ S ↔ z ≤ z2 ∨ z1 ≤ z) := by
        intro hz
        rw [← k5 z hz.1 hz.2, hS]
        simp only [mem_setOf_eq, normalized_eq, Vec3.scale_z, Norm, Dot, directionAt]
        have hz2 : 0 ≤ 1 - z ^ 2 := by nlinarith [hz.1, hz.2]
        have e := Real.sin_sq_add_cos_sq φ
        have : (Real.sqrt (1 - z ^ 2) * Real.cos φ * R) ^ 2 + (Real.sqrt (1 - z ^ 2) * Real.sin φ * R) ^ 2 + (z * R + D) ^ 2 =
            R ^ 2 * (1 - z ^ 2) + (z * R + D) ^ 2 := by
          linear_combination R ^ 2 * (Real.cos φ ^ 2 + Real.sin φ ^ 2) * Real.sq_sqrt hz2 + R ^ 2 * (1 - z ^ 2) * e
        rw [this, mul_one_div]
      tauto
    unfold solidAngle
    rw [hset, Measure.volume_eq_prod, Measure.prod_prod, cap_length k1 k2 k3, Real.volume_Ioo, ← ENNReal.ofReal_mul (by linarith), ← ENNReal.ofReal_div_of_pos (by positivity), k4]
    congr 1
    have := Real.pi_pos
    field_simp
    ring
  rw [e2] at h
  exact h

/-- **C79, violation, spherical lights.** Seen from below at a distance of two radii, any spherical light: the directions within `asin √(1/8)` of its centre are drawn with a probability under 0.35, but the density reported for
them, which is constant, integrates over them to more than 0.48. (The sampler is uniform over the surface of the sphere, hidden half included; the density is that of a uniform choice in the cone of directions.) -/
theorem C79_violation_sphere (ext : GeoExt) (rest : Rng) (c : Vec3 ℝ) (r : ℝ) (hr : 0 < r) :
    Probability (fun d => DrawnInCap ext c r ⟨c.x, c.y, c.z - 2 * r⟩ (rest.cons2 d) (Real.sqrt (7 / 8))) < ENNReal.ofReal (35 / 100) ∧
    ∀ v, (48 / 100 : ℝ) < sphereSolidAnglePdf c r ⟨⟨c.x, c.y, c.z - 2 * r⟩, v⟩ * (2 * Real.pi * (1 - Real.sqrt (7 / 8))) := by
  have hx := Real.sq_sqrt (show (0 : ℝ) ≤ 7 / 8 by norm_num)
  have hx0 := Real.sqrt_nonneg (7 / 8 : ℝ)
  set x := Real.sqrt (7 / 8) with hxdef
  have hx1 : x ≤ 1 := by nlinarith
  have hxl : 93541 / 100000 < x := by by_contra h; push Not at h; nlinarith
  have hxu : x < 93542 / 100000 := by by_contra h; push Not at h; nlinarith
  have hk : 2 * r / (r * (1 - 1 / 10 ^ 5)) = 2 / (1 - 1 / 10 ^ 5) := by field_simp
  constructor
  · have h := (C79_sphere_cap_partial ext rest c r (2 * r) x hr (by linarith) hx0 hx1 (by rw [hk, hx]; norm_num)).1
    refine lt_of_le_of_lt h ?_
    rw [hk, hx]
    set q := Real.sqrt (1 - (2 / (1 - 1 / 10 ^ 5)) ^ 2 * (1 - 7 / 8)) with hq
    have hq0 : (70 / 100 : ℝ) ≤ q := by
      rw [hq]
      apply Real.le_sqrt_of_sq_le
      norm_num
    rw [← ENNReal.ofReal_add (by
      have : q ≤ 1 := by rw [hq]; exact Real.sqrt_le_one.2 (by norm_num)
      nlinarith) (by norm_num)]
    apply (ENNReal.ofReal_lt_ofReal_iff (by norm_num)).2
    nlinarith
  · intro v
    have hd : (c - (⟨c.x, c.y, c.z - 2 * r⟩ : Vec3 ℝ)).lengthSq = 4 * r ^ 2 := by
      simp [Vec3.lengthSq, Vec3.dot]; ring
    have hcos : Real.sqrt (clampR (1 - r * r / (4 * r ^ 2)) 0 1) = Real.sqrt (3 / 4) := by
      have e : r * r / (4 * r ^ 2) = 1 / 4 := by field_simp
      rw [e, clampR_of_mem (by norm_num) (by norm_num)]
      norm_num
    have hs := Real.sq_sqrt (show (0 : ℝ) ≤ 3 / 4 by norm_num)
    have hs0 := Real.sqrt_nonneg (3 / 4 : ℝ)
    unfold sphereSolidAnglePdf uniformConePdf
    simp only [hd, hcos]
    set y := Real.sqrt (3 / 4) with hy
    have hyl : 866 / 1000 < y := by by_contra h; push Not at h; nlinarith
    have hyu : y < 867 / 1000 := by by_contra h; push Not at h; nlinarith
    have hpi := Real.pi_pos
    rw [div_mul_eq_mul_div, one_mul, mul_div_mul_left _ _ (by positivity), lt_div_iff₀ (by linarith)]
    linarith

/-- **C79, violation, triangular lights.** Seen from the origin of coordinates (or from any point that is not in front of the parallel plane through the origin), any triangular light: a direction towards it is always drawn, yet the density
reported for it is zero, whatever the direction and wherever it meets the light. (The cosine is taken with the position of the point instead of the direction of the ray.) -/
theorem C79_violation_triangle (ext : GeoExt) (t : Tri ℝ) (rng : Rng) (point : Vec3 ℝ) :
    (∃ v rng', (Primitive.triangle t).sampleDirection ext rng point = .ok (v, rng')) ∧
    ∀ (info : IntersectionInfo) (v : Vec3 ℝ), Dot point info.normal ≤ 0 → (Primitive.triangle t).solidAnglePdf info ⟨point, v⟩ = .ok 0 := by
  refine ⟨⟨_, _, rfl⟩, fun info v h => ?_⟩
  have h' : point.dot info.normal < 1 / 10 ^ 7 := lt_of_le_of_lt (by simpa [Dot, Vec3.dot] using h) (by norm_num)
  simp only [Primitive.solidAnglePdf, primTriangleSolidAnglePdf, h', if_true]

example := fun ext rest => C79_sphere_cap_partial ext rest ⟨1, 2, 3⟩ 1 2 (9 / 10) (by norm_num) (by norm_num) (by norm_num) (by norm_num) (by norm_num)

example := fun ext rest => C79_violation_sphere ext rest ⟨1, 2, 3⟩ (1 / 2) (by norm_num)

end Rendering
