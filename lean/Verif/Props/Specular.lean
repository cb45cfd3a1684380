import Verif.Model.Optics
import Verif.Lemmas.VecReal
import Mathlib.Topology.Algebra.Order.LiminfLimsup
import Mathlib.Analysis.SpecialFunctions.Sqrt

/-!
# C43–C47, C52: mirror reflection, refraction, Fresnel coefficients, dielectrics

Vocabulary (`Dot`, `Norm`, `Cross`) from `Spec/Triangle.lean`.
-/

set_option linter.unusedSectionVars false
namespace Rendering

/-! ### C43 Mirror reflection -/

theorem mirror_raw {v n : Vec3 ℝ} (hn : Norm n = 1) (hv : Norm v = 1) : mirrorDirection v n = v - n.scale (2 * Dot v n) := by
  have h1 := Dot_self_of_norm hn
  have h2 := Dot_self_of_norm hv
  have h3 : Norm (v - n.scale (2 * Dot v n)) = 1 := by
    apply Norm_eq_one
    have : Dot (v - n.scale (2 * Dot v n)) (v - n.scale (2 * Dot v n)) = Dot v v - 4 * Dot v n * Dot v n + 4 * Dot v n * Dot v n * Dot n n := by
      simp only [Dot, Vec3.sub_x, Vec3.sub_y, Vec3.sub_z, Vec3.scale_x, Vec3.scale_y, Vec3.scale_z]; ring
    rw [this, h1, h2]; ring
  unfold mirrorDirection
  simp only [Vec3.dot_eq]
  rw [normalized_eq, h3]
  ext <;> simp

/-- **C43.** For a unit direction and a unit normal, the mirrored direction is a unit vector whose normal component is the opposite one, whose component along
any tangent is the same one, and mirroring again gives the direction back. -/
theorem C43_mirror_direction (v n : Vec3 ℝ) (hn : Norm n = 1) (hv : Norm v = 1) :
    Norm (mirrorDirection v n) = 1 ∧ Dot (mirrorDirection v n) n = -Dot v n ∧
    (∀ t, Dot t n = 0 → Dot (mirrorDirection v n) t = Dot v t) ∧ mirrorDirection (mirrorDirection v n) n = v := by
  have h1 := Dot_self_of_norm hn
  have h2 := Dot_self_of_norm hv
  have hraw := mirror_raw hn hv
  have hdot : Dot (mirrorDirection v n) n = -Dot v n := by
    rw [hraw]
    have : Dot (v - n.scale (2 * Dot v n)) n = Dot v n - 2 * Dot v n * Dot n n := by
      simp only [Dot, Vec3.sub_x, Vec3.sub_y, Vec3.sub_z, Vec3.scale_x, Vec3.scale_y, Vec3.scale_z]; ring
    rw [this, h1]; ring
  have hnorm : Norm (mirrorDirection v n) = 1 := by
    apply Norm_eq_one
    rw [hraw]
    have : Dot (v - n.scale (2 * Dot v n)) (v - n.scale (2 * Dot v n)) = Dot v v - 4 * Dot v n * Dot v n + 4 * Dot v n * Dot v n * Dot n n := by
      simp only [Dot, Vec3.sub_x, Vec3.sub_y, Vec3.sub_z, Vec3.scale_x, Vec3.scale_y, Vec3.scale_z]; ring
    rw [this, h1, h2]; ring
  refine ⟨hnorm, hdot, ?_, ?_⟩
  · intro t ht
    rw [hraw]
    have : Dot (v - n.scale (2 * Dot v n)) t = Dot v t - 2 * Dot v n * Dot t n := by
      simp only [Dot, Vec3.sub_x, Vec3.sub_y, Vec3.sub_z, Vec3.scale_x, Vec3.scale_y, Vec3.scale_z]; ring
    rw [this, ht]; ring
  · rw [mirror_raw hn hnorm, hdot, hraw]
    ext <;> simp

/-- **C43, same side.** A ray arriving against the normal leaves along it: from a point moved `1e-5` along the normal off the surface, in a direction with positive normal component. -/
theorem C43_same_side (pt : Vec3 ℝ) (ray : TRay) (n : Vec3 ℝ) (hn : Norm n = 1) (hv : Norm ray.geometry.direction = 1) (hside : Dot ray.geometry.direction n < 0) :
    0 < Dot (mirrorBsdf pt ray n).1.geometry.direction n ∧ Dot ((mirrorBsdf pt ray n).1.geometry.origin - pt) n = 1 / 10 ^ 5 ∧
    (mirrorBsdf pt ray n).2 * |Dot ray.geometry.direction n| = 1 := by
  have hm := (C43_mirror_direction ray.geometry.direction n hn hv).2.1
  have h1 := Dot_self_of_norm hn
  refine ⟨?_, ?_, ?_⟩
  · change 0 < Dot (mirrorDirection ray.geometry.direction n) n
    rw [hm]; linarith
  · change Dot (pt + n.scale (1 / 10 ^ 5) - pt) n = _
    have : Dot (pt + n.scale (1 / 10 ^ 5) - pt) n = 1 / 10 ^ 5 * Dot n n := by
      simp only [Dot, Vec3.add_x, Vec3.add_y, Vec3.add_z, Vec3.sub_x, Vec3.sub_y, Vec3.sub_z, Vec3.scale_x, Vec3.scale_y, Vec3.scale_z]; ring
    rw [this, h1]; ring
  · change 1 / |Dot ray.geometry.direction n| * |Dot ray.geometry.direction n| = 1
    have : |Dot ray.geometry.direction n| ≠ 0 := abs_ne_zero.2 (by linarith)
    field_simp

/-- The hypotheses are met: 45 degrees onto the floor. -/
example : Norm (⟨0, 0, 1⟩ : Vec3 ℝ) = 1 ∧ Norm (⟨3 / 5, 0, -(4 / 5)⟩ : Vec3 ℝ) = 1 ∧ Dot (⟨3 / 5, 0, -(4 / 5)⟩ : Vec3 ℝ) ⟨0, 0, 1⟩ < 0 := by
  refine ⟨Norm_eq_one ?_, Norm_eq_one ?_, ?_⟩ <;> norm_num [Dot]

/-! ### C44 Snell's law -/

/-- The refraction index on the far side: that of the material, unless the ray is already inside it, in which case it leaves into air. -/
noncomputable def farIndex (n1 refractionIndex : ℝ) : ℝ := if |n1 - refractionIndex| < 1 / 10 ^ 7 then 1 else refractionIndex

theorem farIndex_pos {n1 r : ℝ} (h : 0 < r) : 0 < farIndex n1 r := by
  unfold farIndex; split <;> linarith

theorem dot_abs_le_one {v n : Vec3 ℝ} (hv : Norm v = 1) (hn : Norm n = 1) : Dot v n ^ 2 ≤ 1 := by
  have h1 := Dot_self_of_norm hn
  have h2 := Dot_self_of_norm hv
  have : Dot v n ^ 2 + Dot (Cross v n) (Cross v n) = Dot v v * Dot n n := by
    simp only [Dot, Cross]; ring
  have h0 : 0 ≤ Dot (Cross v n) (Cross v n) := by
    have : Dot (Cross v n) (Cross v n) = (Cross v n).x ^ 2 + (Cross v n).y ^ 2 + (Cross v n).z ^ 2 := by simp only [Dot]; ring
    rw [this]; positivity
  rw [h1, h2] at this
  linarith

theorem floatMax_ge_one : (1 : ℝ) ≤ floatMax ℝ := by
  unfold floatMax
  have h : (1 : ℝ) ≤ 2 ^ 971 := one_le_pow₀ (by norm_num)
  exact one_le_mul_of_one_le_of_one_le (by norm_num) h

theorem cosAndN_eq (ray : TRay) (n : Vec3 ℝ) (r : ℝ) (hn : Norm n = 1) (hv : Norm ray.geometry.direction = 1) :
    cosAndN ray n r =
      let cos1 := |Dot ray.geometry.direction n|
      let n2 := farIndex ray.refractionIndex r
      let s2 := ray.refractionIndex ^ 2 * (1 - cos1 ^ 2) / n2 ^ 2
      (ray.refractionIndex, cos1, n2, if s2 > 1 then none else some (Real.sqrt (1 - s2))) := by
  have hle := dot_abs_le_one hv hn
  unfold cosAndN farIndex
  simp only [Vec3.dot_eq]
  have hclamp : max 0 (min (floatMax ℝ) (1 - |Dot ray.geometry.direction n| * |Dot ray.geometry.direction n|)) = 1 - |Dot ray.geometry.direction n| ^ 2 := by
    have h1 : |Dot ray.geometry.direction n| * |Dot ray.geometry.direction n| = Dot ray.geometry.direction n ^ 2 := by rw [abs_mul_abs_self]; ring
    rw [h1, sq_abs]
    have := floatMax_ge_one
    rw [min_eq_right (by nlinarith [sq_nonneg (Dot ray.geometry.direction n)]), max_eq_right (by linarith)]
  simp only [hclamp]
  simp only [← pow_two]
  split_ifs <;> rfl

/-- **C44.** For unit direction and normal and positive indices: the returned cosine of incidence and indices are the right ones; there is no transmission exactly when
`n1/n2 · sin1 > 1`; otherwise the returned cosine lies in `[0, 1]` and satisfies Snell's law `n1 · sin1 = n2 · sin2`. -/
theorem C44_snell (ray : TRay) (n : Vec3 ℝ) (r : ℝ) (hn : Norm n = 1) (hv : Norm ray.geometry.direction = 1) (hn1 : 0 < ray.refractionIndex) (hr : 0 < r) :
    let out := cosAndN ray n r
    let sin1 := Real.sqrt (1 - Dot ray.geometry.direction n ^ 2)
    out.1 = ray.refractionIndex ∧ out.2.1 = |Dot ray.geometry.direction n| ∧ out.2.2.1 = farIndex ray.refractionIndex r ∧
    (out.2.2.2 = none ↔ ray.refractionIndex / farIndex ray.refractionIndex r * sin1 > 1) ∧
    ∀ cos2, out.2.2.2 = some cos2 → 0 ≤ cos2 ∧ cos2 ≤ 1 ∧ ray.refractionIndex * sin1 = farIndex ray.refractionIndex r * Real.sqrt (1 - cos2 ^ 2) := by
  have hle := dot_abs_le_one hv hn
  have hn2 := farIndex_pos (n1 := ray.refractionIndex) hr
  rw [cosAndN_eq ray n r hn hv]
  simp only
  set n1 := ray.refractionIndex
  set n2 := farIndex n1 r
  set c := Dot ray.geometry.direction n
  rw [sq_abs]
  have hs : 0 ≤ 1 - c ^ 2 := by linarith
  have hsin2 : (n1 / n2 * Real.sqrt (1 - c ^ 2)) ^ 2 = n1 ^ 2 * (1 - c ^ 2) / n2 ^ 2 := by
    rw [mul_pow, Real.sq_sqrt hs, div_pow]; ring
  have hx : 0 ≤ n1 / n2 * Real.sqrt (1 - c ^ 2) := by positivity
  refine ⟨trivial, trivial, trivial, ?_, ?_⟩
  · rw [← hsin2]
    constructor
    · intro h
      by_contra hcon
      rw [if_neg (by nlinarith)] at h
      simp at h
    · intro h
      rw [if_pos (by nlinarith)]
  · intro cos2 h
    split at h
    · simp at h
    rename_i hle1
    push Not at hle1
    have h := Option.some.inj h
    have h0 : 0 ≤ n1 ^ 2 * (1 - c ^ 2) / n2 ^ 2 := by positivity
    subst h
    refine ⟨Real.sqrt_nonneg _, Real.sqrt_le_one.2 (by linarith), ?_⟩
    rw [Real.sq_sqrt (by linarith)]
    have : 1 - (1 - n1 ^ 2 * (1 - c ^ 2) / n2 ^ 2) = (n1 / n2 * Real.sqrt (1 - c ^ 2)) ^ 2 := by rw [hsin2]; ring
    rw [this, Real.sqrt_sq hx]
    field_simp

/-! ### C45 Refraction -/

/-- **C45.** For a unit direction arriving against the unit normal and a cosine `cos2` of refraction that satisfies Snell's law, the refracted direction is a unit vector in the plane of the incident
direction and the normal, crosses to the far side with exactly that cosine, and obeys Snell's law as a vector: tangential components scale by `n1/n2`. -/
theorem C45_refraction (v n : Vec3 ℝ) (n1 n2 cos2 : ℝ) (hn : Norm n = 1) (hv : Norm v = 1) (hside : Dot v n < 0) (hn1 : 0 < n1) (hn2 : 0 < n2)
    (hsnell : n1 ^ 2 * (1 - Dot v n ^ 2) = n2 ^ 2 * (1 - cos2 ^ 2)) :
    let t := fresnelTransmissionDir v n n1 |Dot v n| n2 cos2
    Norm t = 1 ∧ Dot t n = -cos2 ∧ (∃ a b, t = v.scale a + n.scale b) ∧ n2 * Norm (Cross t n) = n1 * Norm (Cross v n) ∧
    ∀ e, Dot e n = 0 → n2 * Dot t e = n1 * Dot v e := by
  have h1 := Dot_self_of_norm hn
  have h2 := Dot_self_of_norm hv
  simp only
  set c := Dot v n with hc
  have habs : |c| = -c := abs_of_neg hside
  set t := fresnelTransmissionDir v n n1 |c| n2 cos2 with ht
  have htx : t = v.scale (n1 / n2) + n.scale (n1 / n2 * -c - cos2) := by rw [ht, habs]; rfl
  have htn : Dot t n = -cos2 := by
    have : Dot t n = n1 / n2 * Dot v n + (n1 / n2 * -c - cos2) * Dot n n := by
      rw [htx]; simp only [Dot, Vec3.add_x, Vec3.add_y, Vec3.add_z, Vec3.scale_x, Vec3.scale_y, Vec3.scale_z]; ring
    rw [this, h1, ← hc]; ring
  have hk : (n1 / n2) ^ 2 * (1 - c ^ 2) = 1 - cos2 ^ 2 := by
    rw [div_pow]; field_simp; linarith
  refine ⟨?_, htn, ⟨_, _, htx⟩, ?_, ?_⟩
  · apply Norm_eq_one
    have : Dot t t = (n1 / n2) ^ 2 * Dot v v + 2 * (n1 / n2) * (n1 / n2 * -c - cos2) * Dot v n + (n1 / n2 * -c - cos2) ^ 2 * Dot n n := by
      rw [htx]; simp only [Dot, Vec3.add_x, Vec3.add_y, Vec3.add_z, Vec3.scale_x, Vec3.scale_y, Vec3.scale_z]; ring
    rw [this, h1, h2, ← hc]
    linarith [hk]
  · have hcr : Cross t n = (Cross v n).scale (n1 / n2) := by
      rw [htx]; ext <;> simp [Cross] <;> ring
    have hno : Norm ((Cross v n).scale (n1 / n2)) = n1 / n2 * Norm (Cross v n) := by
      unfold Norm
      simp only [Vec3.scale_x, Vec3.scale_y, Vec3.scale_z]
      rw [show ((Cross v n).x * (n1 / n2)) ^ 2 + ((Cross v n).y * (n1 / n2)) ^ 2 + ((Cross v n).z * (n1 / n2)) ^ 2 =
        (n1 / n2) ^ 2 * ((Cross v n).x ^ 2 + (Cross v n).y ^ 2 + (Cross v n).z ^ 2) by ring, Real.sqrt_mul (by positivity), Real.sqrt_sq (by positivity)]
    rw [hcr, hno]; field_simp
  · intro e he
    have : Dot t e = n1 / n2 * Dot v e + (n1 / n2 * -c - cos2) * Dot e n := by
      rw [htx]; simp only [Dot, Vec3.add_x, Vec3.add_y, Vec3.add_z, Vec3.scale_x, Vec3.scale_y, Vec3.scale_z]; ring
    rw [this, he]; field_simp; ring

/-- **C45 as used.** The transmitted path a dielectric offers goes in a unit direction, on the far side of the surface (strictly, unless at the critical angle), obeying Snell's law, with
the index of the far side. -/
theorem C45_transmitted_path (colour : Spectrum ℝ) (r : ℝ) (n pt : Vec3 ℝ) (ray : TRay) (hn : Norm n = 1) (hv : Norm ray.geometry.direction = 1)
    (hside : Dot ray.geometry.direction n < 0) (hn1 : 0 < ray.refractionIndex) (hr : 0 < r) (ray2 : TRay) (w : Spectrum ℝ)
    (h : (dielectricPaths colour r n pt ray).2 = some (ray2, w)) :
    let n2 := farIndex ray.refractionIndex r
    Norm ray2.geometry.direction = 1 ∧ Dot ray2.geometry.direction n ≤ 0 ∧ ray2.refractionIndex = n2 ∧
    n2 * Norm (Cross ray2.geometry.direction n) = ray.refractionIndex * Norm (Cross ray.geometry.direction n) ∧
    Dot (ray2.geometry.origin - pt) n = -(1 / 10 ^ 5) := by
  have hn2 := farIndex_pos (n1 := ray.refractionIndex) hr
  have hsn := C44_snell ray n r hn hv hn1 hr
  simp only at hsn ⊢
  obtain ⟨e1, e2, e3, -, hcos⟩ := hsn
  unfold dielectricPaths at h
  simp only at h
  cases hc : (cosAndN ray n r).2.2.2 with
  | none => rw [hc] at h; simp at h
  | some cos2 =>
    rw [hc] at h
    simp only [Option.some.injEq, Prod.mk.injEq] at h
    obtain ⟨h1, -⟩ := h
    rw [e1, e2, e3] at h1
    obtain ⟨hc0, hc1, hs⟩ := hcos cos2 hc
    have hle := dot_abs_le_one hv hn
    have hsq := congrArg (· ^ 2) hs
    simp only [mul_pow] at hsq
    rw [Real.sq_sqrt (by linarith), Real.sq_sqrt (by nlinarith)] at hsq
    have := C45_refraction ray.geometry.direction n ray.refractionIndex _ cos2 hn hv hside hn1 hn2 hsq
    simp only at this
    obtain ⟨t1, t2, -, t4, -⟩ := this
    subst h1
    refine ⟨t1, by simp only; rw [t2]; linarith, rfl, t4, ?_⟩
    have hd := Dot_self_of_norm hn
    change Dot (pt - n.scale (1 / 10 ^ 5) - pt) n = _
    have : Dot (pt - n.scale (1 / 10 ^ 5) - pt) n = -(1 / 10 ^ 5) * Dot n n := by
      simp only [Dot, Vec3.sub_x, Vec3.sub_y, Vec3.sub_z, Vec3.scale_x, Vec3.scale_y, Vec3.scale_z]; ring
    rw [this, hd]; ring

/-! ### C46 Fresnel -/

theorem tm_eq {n1 c1 n2 c2 : ℝ} (h1 : 0 < c1) (h2 : 0 < c2) : fresnelTm n1 c1 n2 c2 = (n1 * c2 - n2 * c1) / (n1 * c2 + n2 * c1) := by
  unfold fresnelTm
  rw [div_sub_div _ _ h1.ne' h2.ne', div_add_div _ _ h1.ne' h2.ne', div_div_div_cancel_right₀ (mul_pos h1 h2).ne']
  ring_nf

theorem ratio_bound {a b : ℝ} (ha : 0 < a) (hb : 0 < b) : -1 ≤ (a - b) / (a + b) ∧ (a - b) / (a + b) ≤ 1 := by
  constructor
  · rw [le_div_iff₀ (by linarith)]; linarith
  · rw [div_le_one (by linarith)]; linarith

/-- **C46, amplitudes and reflectance.** For positive indices and cosines the TE and TM amplitudes lie in `[-1, 1]` and the reflectance in `[0, 1]`. -/
theorem C46_bounds (n1 c1 n2 c2 : ℝ) (hn1 : 0 < n1) (hn2 : 0 < n2) (h1 : 0 < c1) (h2 : 0 < c2) :
    (-1 ≤ fresnelTe n1 c1 n2 c2 ∧ fresnelTe n1 c1 n2 c2 ≤ 1) ∧ (-1 ≤ fresnelTm n1 c1 n2 c2 ∧ fresnelTm n1 c1 n2 c2 ≤ 1) ∧
    (0 ≤ fresnelReflectance n1 c1 n2 c2 ∧ fresnelReflectance n1 c1 n2 c2 ≤ 1) := by
  have hte := ratio_bound (mul_pos hn1 h1) (mul_pos hn2 h2)
  have htm := ratio_bound (div_pos hn1 h1) (div_pos hn2 h2)
  refine ⟨hte, htm, ?_⟩
  have e1 : -1 ≤ fresnelTe n1 c1 n2 c2 ∧ fresnelTe n1 c1 n2 c2 ≤ 1 := hte
  have e2 : -1 ≤ fresnelTm n1 c1 n2 c2 ∧ fresnelTm n1 c1 n2 c2 ≤ 1 := htm
  unfold fresnelReflectance
  simp only
  constructor
  · nlinarith [mul_self_nonneg (fresnelTe n1 c1 n2 c2), mul_self_nonneg (fresnelTm n1 c1 n2 c2)]
  · nlinarith [e1.1, e1.2, e2.1, e2.2]

/-- **C46, reversal.** The reflectance is the same when the light travels the path backwards. -/
theorem C46_reversible (n1 c1 n2 c2 : ℝ) : fresnelReflectance n2 c2 n1 c1 = fresnelReflectance n1 c1 n2 c2 := by
  unfold fresnelReflectance fresnelTe fresnelTm
  simp only
  rw [add_comm (n2 * c2), add_comm (n2 / c2), ← neg_sub (n1 * c1), ← neg_sub (n1 / c1), neg_div, neg_div]
  ring

/-- **C46, the classical values**: at normal incidence the reflectance is `((n1-n2)/(n1+n2))²`; without a change of index it is zero; at Brewster's angle (`n1 cos2 = n2 cos1`) the TM amplitude vanishes. -/
theorem C46_classical_values (n1 n2 : ℝ) (hn1 : 0 < n1) (hn2 : 0 < n2) :
    fresnelReflectance n1 1 n2 1 = ((n1 - n2) / (n1 + n2)) ^ 2 ∧ (∀ c, fresnelReflectance n1 c n1 c = 0) ∧
    ∀ c1 c2, 0 < c1 → 0 < c2 → (fresnelTm n1 c1 n2 c2 = 0 ↔ n1 * c2 = n2 * c1) := by
  refine ⟨?_, ?_, ?_⟩
  · unfold fresnelReflectance fresnelTe fresnelTm
    simp only [mul_one, div_one]; ring
  · intro c; unfold fresnelReflectance fresnelTe fresnelTm; simp
  · intro c1 c2 h1 h2
    rw [tm_eq h1 h2, div_eq_zero_iff]
    have : 0 < n1 * c2 + n2 * c1 := by positivity
    constructor
    · rintro (h | h) <;> linarith
    · intro h; left; linarith

/-- **C46, grazing incidence.** From the thinner side, with the cosine of refraction given by Snell's law, the reflectance tends to one as the ray becomes tangent to the surface.
(At exactly zero the code divides by zero.) -/
theorem C46_grazing (n1 n2 : ℝ) (hn1 : 0 < n1) (h12 : n1 < n2) :
    Filter.Tendsto (fun c1 => fresnelReflectance n1 c1 n2 (Real.sqrt (1 - n1 ^ 2 * (1 - c1 ^ 2) / n2 ^ 2))) (nhdsWithin 0 (Set.Ioi 0)) (nhds 1) := by
  have hn2 : 0 < n2 := by linarith
  set g : ℝ → ℝ := fun c1 => Real.sqrt (1 - n1 ^ 2 * (1 - c1 ^ 2) / n2 ^ 2) with hg
  set F : ℝ → ℝ := fun c1 => 1 / 2 * ((n1 * g c1 - n2 * c1) / (n1 * g c1 + n2 * c1) * ((n1 * g c1 - n2 * c1) / (n1 * g c1 + n2 * c1)) +
    (n1 * c1 - n2 * g c1) / (n1 * c1 + n2 * g c1) * ((n1 * c1 - n2 * g c1) / (n1 * c1 + n2 * g c1))) with hF
  have hg0 : 0 < g 0 := by
    rw [hg]
    apply Real.sqrt_pos.2
    have : n1 ^ 2 * (1 - 0 ^ 2) / n2 ^ 2 < 1 := by
      rw [div_lt_one (by positivity)]; nlinarith
    linarith
  have hgc : Continuous g := by rw [hg]; fun_prop
  have hgpos : ∀ c, 0 ≤ c ^ 2 → 0 < g c := by
    intro c _
    rw [hg]
    apply Real.sqrt_pos.2
    have : n1 ^ 2 * (1 - c ^ 2) / n2 ^ 2 < 1 := by
      rw [div_lt_one (by positivity)]; nlinarith [mul_nonneg (sq_nonneg n1) (sq_nonneg c)]
    linarith
  have hcont : ContinuousAt F 0 := by
    rw [hF]
    have d1 : n1 * g 0 + n2 * 0 ≠ 0 := by rw [mul_zero, add_zero]; positivity
    have d2 : n1 * 0 + n2 * g 0 ≠ 0 := by rw [mul_zero, zero_add]; positivity
    have cg := hgc.continuousAt (x := 0)
    fun_prop (disch := assumption)
  have hF0 : F 0 = 1 := by
    rw [hF]
    simp only [mul_zero, add_zero, zero_add, sub_zero, zero_sub]
    have : n1 * g 0 ≠ 0 := by positivity
    have : n2 * g 0 ≠ 0 := by positivity
    rw [div_self ‹n1 * g 0 ≠ 0›, neg_div, div_self this]; norm_num
  have ht : Filter.Tendsto F (nhdsWithin 0 (Set.Ioi 0)) (nhds 1) := by
    rw [← hF0]; exact hcont.tendsto.mono_left nhdsWithin_le_nhds
  refine ht.congr' ?_
  filter_upwards [self_mem_nhdsWithin] with c hc
  have hc : 0 < c := hc
  rw [hF]
  unfold fresnelReflectance
  simp only
  rw [tm_eq hc (hgpos c (sq_nonneg c))]
  rfl

/-- The hypotheses are met: glass of index 1.5 at normal incidence reflects four percent. -/
example : fresnelReflectance 1 1 (3 / 2) 1 = 4 / 100 := by
  rw [(C46_classical_values 1 (3 / 2) (by norm_num) (by norm_num)).1]; norm_num

/-! ### C47 Dielectrics -/

/-- The Fresnel reflectance of unpolarised light at an interface: the mean of the squares of the two amplitudes. -/
noncomputable def FresnelR (n1 c1 n2 c2 : ℝ) : ℝ := 1 / 2 * (((n1 * c1 - n2 * c2) / (n1 * c1 + n2 * c2)) ^ 2 + ((n1 * c2 - n2 * c1) / (n1 * c2 + n2 * c1)) ^ 2)

theorem fresnelReflectance_eq {n1 c1 n2 c2 : ℝ} (h1 : 0 < c1) (h2 : 0 < c2) : fresnelReflectance n1 c1 n2 c2 = FresnelR n1 c1 n2 c2 := by
  have := tm_eq (n1 := n1) (n2 := n2) h1 h2
  unfold fresnelReflectance FresnelR
  simp only [this, fresnelTe]
  ring

/-- **C47.** For a ray arriving against the normal: the reflected path carries the Fresnel reflectance `R ∈ [0, 1]` (for the angle of the ray and that of Snell's law) in every channel and the transmitted one the rest, `1 − R`, times the
material's colour and the factor `(n2/n1)²`; together they are one for a white material up to that factor.  Under total internal reflection there is no transmitted path and everything is
reflected.  (Away from the exact critical angle, at which the code divides by zero.) -/
theorem C47_dielectric_energy (colour : Spectrum ℝ) (r : ℝ) (n pt : Vec3 ℝ) (ray : TRay) (hn : Norm n = 1) (hv : Norm ray.geometry.direction = 1)
    (hside : Dot ray.geometry.direction n < 0) (hn1 : 0 < ray.refractionIndex) (hr : 0 < r) :
    let n1 := ray.refractionIndex
    let n2 := farIndex n1 r
    let sin1 := Real.sqrt (1 - Dot ray.geometry.direction n ^ 2)
    let paths := dielectricPaths colour r n pt ray
    (n1 / n2 * sin1 > 1 → paths.1.map Prod.snd = some Spectrum.one ∧ paths.2 = none) ∧
    (n1 / n2 * sin1 < 1 → ∃ R, R = FresnelR n1 |Dot ray.geometry.direction n| n2 (Real.sqrt (1 - (n1 / n2 * sin1) ^ 2)) ∧ 0 ≤ R ∧ R ≤ 1 ∧ paths.1.map Prod.snd = some (Spectrum.gray R) ∧
      paths.2.map Prod.snd = some (colour.scale ((1 - R) * (n2 / n1) ^ 2))) := by
  have hn2 := farIndex_pos (n1 := ray.refractionIndex) hr
  have hsn := C44_snell ray n r hn hv hn1 hr
  simp only at hsn ⊢
  obtain ⟨e1, e2, e3, hnone, hcos⟩ := hsn
  have hc1 : 0 < |Dot ray.geometry.direction n| := abs_pos.2 (by linarith)
  constructor
  · intro h
    have hc := hnone.2 h
    unfold dielectricPaths
    simp only [hc, dielectricReflTrans, Option.map_some, e2]
    refine ⟨?_, trivial⟩
    congr 1
    simp only [Spectrum.divBy, Spectrum.scale, Spectrum.one, Spectrum.gray]
    ext <;> field_simp
  · intro h
    have hc : (cosAndN ray n r).2.2.2 ≠ none := fun hcon => by have := hnone.1 hcon; linarith
    obtain ⟨cos2, hc⟩ := Option.ne_none_iff_exists'.1 hc
    obtain ⟨h0, h1, hs⟩ := hcos cos2 hc
    have hpos : 0 < cos2 := by
      rcases h0.lt_or_eq with h0 | h0
      · exact h0
      · rw [← h0] at hs
        norm_num at hs
        rw [div_mul_eq_mul_div, hs, div_self hn2.ne'] at h
        linarith
    refine ⟨fresnelReflectance ray.refractionIndex |Dot ray.geometry.direction n| (farIndex ray.refractionIndex r) cos2, ?_, ?_, ?_, ?_, ?_⟩
    · rw [fresnelReflectance_eq hc1 hpos]
      congr 1
      rw [div_mul_eq_mul_div, hs, mul_div_cancel_left₀ _ hn2.ne', Real.sq_sqrt (by nlinarith), sub_sub_cancel, Real.sqrt_sq h0]
    · exact (C46_bounds _ _ _ _ hn1 hn2 hc1 hpos).2.2.1
    · exact (C46_bounds _ _ _ _ hn1 hn2 hc1 hpos).2.2.2
    · unfold dielectricPaths
      simp only [hc, dielectricReflTrans, Option.map_some, e1, e2, e3]
      congr 1
      simp only [Spectrum.divBy, Spectrum.scale, Spectrum.one, Spectrum.gray]
      ext <;> field_simp
    · unfold dielectricPaths
      simp only [hc, dielectricReflTrans, Option.map_some, e1, e2, e3]
      congr 1
      simp only [Spectrum.divBy, Spectrum.scale]
      ext <;> field_simp

/-- The hypotheses are met, both ways: a ray at 30 degrees from the surface normal enters glass, and a ray inside glass at 53 degrees from the normal is totally reflected. -/
example : (1 : ℝ) / (3 / 2) * Real.sqrt (1 - (-(4 / 5)) ^ 2) < 1 ∧ (1 : ℝ) < (3 / 2) / 1 * Real.sqrt (1 - (-(3 / 5)) ^ 2) := by
  rw [show (1 : ℝ) - (-(4 / 5)) ^ 2 = (3 / 5) ^ 2 by norm_num, show (1 : ℝ) - (-(3 / 5)) ^ 2 = (4 / 5) ^ 2 by norm_num, Real.sqrt_sq (by norm_num), Real.sqrt_sq (by norm_num)]
  norm_num

/-! ### C52 Through a slab -/

/-- **C52.** A ray that enters a dielectric from air and hits a parallel face leaves it (there is no total reflection) in its original direction, in air again, and the `(n2/n1)²` factors
of the two crossings cancel. -/
theorem C52_slab (colour : Spectrum ℝ) (r : ℝ) (n pt pt' : Vec3 ℝ) (ray inside : TRay) (w : Spectrum ℝ) (hn : Norm n = 1) (hv : Norm ray.geometry.direction = 1)
    (hside : Dot ray.geometry.direction n < 0) (hair : ray.refractionIndex = 1) (hr : 0 < r) (hr1 : 1 / 10 ^ 7 ≤ |1 - r|)
    (hin : (dielectricPaths colour r n pt ray).2 = some (inside, w)) (hcos : Dot inside.geometry.direction n < 0) :
    inside.refractionIndex = r ∧
    ∃ out w', (dielectricPaths colour r n pt' inside).2 = some (out, w') ∧ out.geometry.direction = ray.geometry.direction ∧ out.refractionIndex = 1 ∧
      ((r / 1) ^ 2) * ((1 / r) ^ 2) = 1 ∧
      ∃ R R', w = colour.scale ((1 - R) * (r / 1) ^ 2) ∧ w' = colour.scale ((1 - R') * (1 / r) ^ 2) ∧ R = R' := by
  have hn1 : 0 < ray.refractionIndex := by rw [hair]; norm_num
  have hn2 := farIndex_pos (n1 := ray.refractionIndex) hr
  have hfar : farIndex ray.refractionIndex r = r := by unfold farIndex; rw [hair, if_neg (by linarith)]
  obtain ⟨p1, p2, p3, p4, -⟩ := C45_transmitted_path colour r n pt ray hn hv hside hn1 hr inside w hin
  rw [hfar] at p3 p4
  refine ⟨p3, ?_⟩
  have hsn := C44_snell ray n r hn hv hn1 hr
  simp only at hsn
  obtain ⟨e1, e2, e3, hnone, hcosv⟩ := hsn
  -- first crossing
  unfold dielectricPaths at hin
  simp only at hin
  cases hc : (cosAndN ray n r).2.2.2 with
  | none => rw [hc] at hin; simp at hin
  | some cos2 =>
    rw [hc] at hin
    simp only [Option.some.injEq, Prod.mk.injEq] at hin
    obtain ⟨hi, hw⟩ := hin
    obtain ⟨hc0, hc1, hs⟩ := hcosv cos2 hc
    have hle := dot_abs_le_one hv hn
    have hsq := congrArg (· ^ 2) hs
    simp only [mul_pow] at hsq
    rw [Real.sq_sqrt (by linarith), Real.sq_sqrt (by nlinarith), hfar, hair] at hsq
    have hdir : inside.geometry.direction = fresnelTransmissionDir ray.geometry.direction n 1 |Dot ray.geometry.direction n| r cos2 := by
      rw [← hi]; simp only [e1, e2, e3]; rw [hfar, hair]
    have href := C45_refraction ray.geometry.direction n 1 r cos2 hn hv hside (by norm_num) hr (by linarith)
    simp only at href
    have hdn : Dot inside.geometry.direction n = -cos2 := by rw [hdir]; exact href.2.1
    have hcos2 : 0 < cos2 := by linarith
    -- second crossing
    have hfar' : farIndex inside.refractionIndex r = 1 := by unfold farIndex; rw [p3, if_pos (by simp)]
    have heq := cosAndN_eq inside n r hn p1
    simp only at heq
    rw [hfar', p3, hdn, abs_neg, abs_of_pos hcos2] at heq
    have hs2 : r ^ 2 * (1 - cos2 ^ 2) / 1 ^ 2 = 1 - Dot ray.geometry.direction n ^ 2 := by
      rw [one_pow, div_one]; linarith
    rw [hs2] at heq
    rw [if_neg (by nlinarith [sq_nonneg (Dot ray.geometry.direction n)])] at heq
    have hsqrt : Real.sqrt (1 - (1 - Dot ray.geometry.direction n ^ 2)) = |Dot ray.geometry.direction n| := by
      rw [show 1 - (1 - Dot ray.geometry.direction n ^ 2) = Dot ray.geometry.direction n ^ 2 by ring, Real.sqrt_sq_eq_abs]
    rw [hsqrt] at heq
    have hcv : 0 < |Dot ray.geometry.direction n| := abs_pos.2 (by linarith)
    refine ⟨{ inside with geometry := ⟨pt' - n.scale (1 / 10 ^ 5), fresnelTransmissionDir inside.geometry.direction n r cos2 1 |Dot ray.geometry.direction n|⟩
                          refractionIndex := 1, colour := inside.colour * colour },
      (dielectricReflTrans colour r cos2 1 (some |Dot ray.geometry.direction n|)).2.scale |Dot ray.geometry.direction n|,
      by unfold dielectricPaths; simp only [heq], ?_, rfl, by field_simp, ?_⟩
    · simp only
      rw [hdir]
      unfold fresnelTransmissionDir
      simp only
      rw [abs_of_neg hside]
      ext <;> simp <;> field_simp <;> ring
    · refine ⟨fresnelReflectance 1 |Dot ray.geometry.direction n| r cos2, fresnelReflectance r cos2 1 |Dot ray.geometry.direction n|, ?_, ?_, ?_⟩
      · rw [← hw]
        rw [e1, e2, e3, hfar, hair]
        simp only [dielectricReflTrans, Spectrum.divBy, Spectrum.scale]
        ext <;> field_simp
      · simp only [dielectricReflTrans, Spectrum.divBy, Spectrum.scale]
        ext <;> field_simp
      · exact (C46_reversible _ _ _ _).symm

/-- The hypotheses are met: straight down into glass. -/
example : ∃ (ray inside : TRay) (w : Spectrum ℝ), Norm ray.geometry.direction = 1 ∧ Dot ray.geometry.direction ⟨0, 0, 1⟩ < 0 ∧ ray.refractionIndex = 1 ∧
    (dielectricPaths Spectrum.one (3 / 2) ⟨0, 0, 1⟩ 0 ray).2 = some (inside, w) ∧ Dot inside.geometry.direction ⟨0, 0, 1⟩ < 0 := by
  have hn : Norm (⟨0, 0, 1⟩ : Vec3 ℝ) = 1 := Norm_eq_one (by norm_num [Dot])
  have hv : Norm (⟨0, 0, -1⟩ : Vec3 ℝ) = 1 := Norm_eq_one (by norm_num [Dot])
  have h := cosAndN_eq { TRay.default with geometry := ⟨0, ⟨0, 0, -1⟩⟩ } ⟨0, 0, 1⟩ (3 / 2) hn hv
  simp only [Dot] at h
  norm_num [TRay.default, farIndex] at h
  refine ⟨{ TRay.default with geometry := ⟨0, ⟨0, 0, -1⟩⟩ },
    { TRay.default with
      geometry := ⟨(0 : Vec3 ℝ) - (⟨0, 0, 1⟩ : Vec3 ℝ).scale (1 / 10 ^ 5), fresnelTransmissionDir ⟨0, 0, -1⟩ ⟨0, 0, 1⟩ 1 1 (3 / 2) 1⟩
      refractionIndex := 3 / 2
      colour := TRay.default.colour * Spectrum.one },
    (dielectricReflTrans Spectrum.one 1 1 (3 / 2) (some 1)).2.scale 1, hv, by norm_num [Dot], rfl, by unfold dielectricPaths; simp only [TRay.default, h], ?_⟩
  norm_num [fresnelTransmissionDir, Dot]

/-! ### Concrete cases of the theorems above -/

/-- A ray in air that goes down at a slope of 4:3. -/
noncomputable def slopingRay : TRay := { TRay.default with geometry := ⟨⟨0, 0, 1⟩, ⟨3 / 5, 0, -(4 / 5)⟩⟩, refractionIndex := 1 }

theorem up_unit : Norm (⟨0, 0, 1⟩ : Vec3 ℝ) = 1 := Norm_eq_one (by norm_num [Dot])

theorem slopingRay_unit : Norm slopingRay.geometry.direction = 1 := Norm_eq_one (by norm_num [Dot, slopingRay])

theorem slopingRay_down : Dot slopingRay.geometry.direction ⟨0, 0, 1⟩ < 0 := by norm_num [Dot, slopingRay]

theorem slopingRay_air : slopingRay.refractionIndex = 1 := rfl

example := C43_mirror_direction slopingRay.geometry.direction ⟨0, 0, 1⟩ up_unit slopingRay_unit

example := C43_same_side 0 slopingRay ⟨0, 0, 1⟩ up_unit slopingRay_unit slopingRay_down

example := C44_snell slopingRay ⟨0, 0, 1⟩ (3 / 2) up_unit slopingRay_unit (by norm_num [slopingRay]) (by norm_num)

/-- C45: sine 3/5 in air, 3/8 in a medium of index 8/5. -/
example := C45_refraction slopingRay.geometry.direction ⟨0, 0, 1⟩ 1 (8 / 5) (Real.sqrt (55 / 64)) up_unit slopingRay_unit slopingRay_down (by norm_num) (by norm_num) (by
  rw [Real.sq_sqrt (by norm_num)]; norm_num [Dot, slopingRay])

example := fun ray2 w => C45_transmitted_path Spectrum.one (3 / 2) ⟨0, 0, 1⟩ 0 slopingRay up_unit slopingRay_unit slopingRay_down (by norm_num [slopingRay]) (by norm_num) ray2 w

example := C46_bounds 1 (4 / 5) (3 / 2) (9 / 10) (by norm_num) (by norm_num) (by norm_num) (by norm_num)

example := C46_grazing 1 (3 / 2) (by norm_num) (by norm_num)

example := C47_dielectric_energy ⟨1, 1 / 2, 1 / 3⟩ (3 / 2) ⟨0, 0, 1⟩ 0 slopingRay up_unit slopingRay_unit slopingRay_down (by norm_num [slopingRay]) (by norm_num)

/-- C47, C52: this ray is transmitted. -/
example : ∃ inside w, (dielectricPaths Spectrum.one (3 / 2) ⟨0, 0, 1⟩ 0 slopingRay).2 = some (inside, w) := by
  have key := (C47_dielectric_energy Spectrum.one (3 / 2) ⟨0, 0, 1⟩ 0 slopingRay up_unit slopingRay_unit slopingRay_down (by norm_num [slopingRay]) (by norm_num)).2
  have hfar : farIndex slopingRay.refractionIndex (3 / 2) = 3 / 2 := by norm_num [farIndex, slopingRay]
  have hdot : Dot slopingRay.geometry.direction ⟨0, 0, 1⟩ = -(4 / 5) := by norm_num [Dot, slopingRay]
  have hs : Real.sqrt (1 - (-(4 / 5 : ℝ)) ^ 2) = 3 / 5 := by
    rw [show (1 - (-(4 / 5 : ℝ)) ^ 2) = (3 / 5) ^ 2 by norm_num]; exact Real.sqrt_sq (by norm_num)
  simp only [hfar, hdot, hs] at key
  obtain ⟨R, _, _, _, _, h⟩ := key (by norm_num [slopingRay])
  obtain ⟨⟨inside, w⟩, h1, _⟩ := Option.map_eq_some_iff.1 h
  exact ⟨inside, w, h1⟩

end Rendering
