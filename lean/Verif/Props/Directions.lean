import Verif.Model.Directions
import Verif.Props.Samplers

/-!
# C107: the way to a light
-/

set_option linter.unusedSectionVars false
namespace Rendering

theorem length_norm (v : Vec3 ℝ) : v.length = Norm v := by
  unfold Vec3.length Vec3.lengthSq Vec3.dot Norm
  ring_nf

theorem norm_pos_of_ne {v : Vec3 ℝ} (h : v ≠ 0) : 0 < Norm v := by
  rcases (Norm_nonneg v).eq_or_lt with h0 | h0
  · exfalso
    have h1 := Norm_sq v
    rw [← h0] at h1
    unfold Dot at h1
    refine h (Vec3.ext ?_ ?_ ?_) <;> simp only [Vec3.zero_x, Vec3.zero_y, Vec3.zero_z] <;> nlinarith [sq_nonneg v.x, sq_nonneg v.y, sq_nonneg v.z]
  · exact h0

theorem unit_of (v : Vec3 ℝ) (h : v ≠ 0) : Norm (v.scale (1 / Norm v)) = 1 := by
  have hp := norm_pos_of_ne h
  have h2 := Norm_sq v
  refine Norm_eq_one ?_
  have : Dot (v.scale (1 / Norm v)) (v.scale (1 / Norm v)) = Dot v v / Norm v ^ 2 := by
    simp only [Dot, Vec3.scale_x, Vec3.scale_y, Vec3.scale_z]; field_simp
  rw [this, ← h2]
  field_simp

/-- **C107, triangles.** The distance and unit direction lead to the centroid, which is a point of the triangle. -/
theorem C107_triangle (t : Tri ℝ) (point : Vec3 ℝ) (h : point ≠ (t.a + t.b + t.c).scale (1 / 3)) :
    ∃ d u, (Primitive.triangle t).direction point = .ok (d, u) ∧ 0 < d ∧ Norm u = 1 ∧ point + u.scale d = (t.a + t.b + t.c).scale (1 / 3) ∧ InTriangle (point + u.scale d) t.a t.b t.c := by
  set c := (t.a + t.b + t.c).scale (1 / 3) with hc
  have hne : c - point ≠ 0 := by
    intro h0
    apply h
    have hx := congrArg Vec3.x h0
    have hy := congrArg Vec3.y h0
    have hz := congrArg Vec3.z h0
    simp only [Vec3.sub_x, Vec3.sub_y, Vec3.sub_z, Vec3.zero_x, Vec3.zero_y, Vec3.zero_z] at hx hy hz
    ext <;> linarith
  have hp := norm_pos_of_ne hne
  refine ⟨Norm (c - point), (c - point).scale (1 / Norm (c - point)), ?_, hp, unit_of _ hne, ?_⟩
  · simp only [Primitive.direction, triangleDirection, length_norm, ← hc]
  · have e : point + ((c - point).scale (1 / Norm (c - point))).scale (Norm (c - point)) = c := by
      ext <;> simp only [Vec3.add_x, Vec3.add_y, Vec3.add_z, Vec3.scale_x, Vec3.scale_y, Vec3.scale_z, Vec3.sub_x, Vec3.sub_y, Vec3.sub_z] <;> field_simp <;> ring
    refine ⟨e, ?_⟩
    rw [e]
    refine ⟨1 / 3, 1 / 3, 1 / 3, by norm_num, by norm_num, by norm_num, by norm_num, ?_⟩
    rw [hc]
    ext <;> simp <;> ring

theorem sub_ne {a b : Vec3 ℝ} (h : b ≠ a) : a - b ≠ 0 := by
  intro h0
  apply h
  have hx := congrArg Vec3.x h0
  have hy := congrArg Vec3.y h0
  have hz := congrArg Vec3.z h0
  simp only [Vec3.sub_x, Vec3.sub_y, Vec3.sub_z, Vec3.zero_x, Vec3.zero_y, Vec3.zero_z] at hx hy hz
  ext <;> linarith

theorem norm_le_of_dot {u v : Vec3 ℝ} (hu : Norm u = 1) : Dot v u ≤ Norm v := by
  have h1 := Dot_self_of_norm hu
  have h2 := Norm_sq v
  by_contra h
  have h3 : Norm v < Dot v u := not_le.1 h
  have h4 : Norm v ^ 2 < Dot v u ^ 2 := by nlinarith [Norm_nonneg v]
  have h5 : Dot v u ^ 2 ≤ Dot v v * Dot u u := by
    unfold Dot
    nlinarith [sq_nonneg (v.x * u.y - v.y * u.x), sq_nonneg (v.x * u.z - v.z * u.x), sq_nonneg (v.y * u.z - v.z * u.y)]
  rw [h1, ← h2] at h5
  linarith

/-- **C107, spheres.** The direction is a unit vector towards the centre. Going the reported distance in it (backwards, if it is negative, which it is exactly for points inside) leads to a point of the sphere, and no point of the sphere is nearer. -/
theorem C107_sphere (c : Vec3 ℝ) (r : ℝ) (hr : 0 ≤ r) (point : Vec3 ℝ) (h : point ≠ c) :
    ∃ d u, (Primitive.sphere c r).direction point = .ok (d, u) ∧ Norm u = 1 ∧ c - point = u.scale (Norm (c - point)) ∧ (d < 0 ↔ Norm (c - point) < r) ∧
      Norm (point + u.scale d - c) = r ∧ Norm (u.scale d) = |d| ∧ ∀ q, Norm (q - c) = r → |d| ≤ Norm (q - point) := by
  have hne := sub_ne h
  have hp := norm_pos_of_ne hne
  set L := Norm (c - point) with hL
  set u := (c - point).scale (1 / L) with hu
  have hu1 : Norm u = 1 := unit_of _ hne
  have huu := Dot_self_of_norm hu1
  have hcp : c - point = u.scale L := by
    rw [hu]
    ext <;> simp only [Vec3.scale_x, Vec3.scale_y, Vec3.scale_z] <;> field_simp
  have hx : c.x - point.x = u.x * L := congrArg Vec3.x hcp
  have hy : c.y - point.y = u.y * L := congrArg Vec3.y hcp
  have hz : c.z - point.z = u.z * L := congrArg Vec3.z hcp
  have norm_scale : ∀ k : ℝ, Norm (u.scale k) = |k| := by
    intro k
    have e : Dot (u.scale k) (u.scale k) = k ^ 2 * Dot u u := by simp only [Dot, Vec3.scale_x, Vec3.scale_y, Vec3.scale_z]; ring
    rw [← Real.sqrt_sq (Norm_nonneg _), Norm_sq, e, huu, mul_one, Real.sqrt_sq_eq_abs]
  refine ⟨L - r, u, ?_, hu1, hcp, by constructor <;> intro h <;> linarith, ?_, norm_scale _, ?_⟩
  · simp only [Primitive.direction, sphereDirection, length_norm, ← hL, ← hu]
  · have e : point + u.scale (L - r) - c = u.scale (-r) := by
      ext <;> simp only [Vec3.add_x, Vec3.add_y, Vec3.add_z, Vec3.sub_x, Vec3.sub_y, Vec3.sub_z, Vec3.scale_x, Vec3.scale_y, Vec3.scale_z] <;> linarith
    rw [e, norm_scale, abs_neg, abs_of_nonneg hr]
  · intro q hq
    have hq2 : Dot (q - c) (q - c) = r ^ 2 := by rw [← Norm_sq, hq]
    have ed : Dot (q - point) (q - point) = Dot (q - c) (q - c) + 2 * L * Dot (q - c) u + L ^ 2 * Dot u u := by
      have : q - point = q - c + u.scale L := by rw [← hcp]; ext <;> simp
      rw [this]
      simp only [Dot, Vec3.add_x, Vec3.add_y, Vec3.add_z, Vec3.scale_x, Vec3.scale_y, Vec3.scale_z]; ring
    rw [hq2, huu] at ed
    have hlow : -r ≤ Dot (q - c) u := by
      have h1 : Dot ((q - c).scale (-1)) u ≤ Norm ((q - c).scale (-1)) := norm_le_of_dot hu1
      have h2 : Dot ((q - c).scale (-1)) u = -Dot (q - c) u := by simp only [Dot, Vec3.scale_x, Vec3.scale_y, Vec3.scale_z]; ring
      have h3 : Norm ((q - c).scale (-1)) = r := by
        have : Dot ((q - c).scale (-1)) ((q - c).scale (-1)) = Dot (q - c) (q - c) := by simp only [Dot, Vec3.scale_x, Vec3.scale_y, Vec3.scale_z]; ring
        rw [← Real.sqrt_sq (Norm_nonneg _), Norm_sq, this, hq2, Real.sqrt_sq hr]
      linarith
    refine abs_le_of_sq_le_sq ?_ (Norm_nonneg _)
    rw [Norm_sq, ed]
    nlinarith

/-- **C107, distant sources.** They are in the same direction from everywhere. -/
theorem C107_source (direction point : Vec3 ℝ) (angle : ℝ) : ∃ d, (Primitive.source direction angle).direction point = .ok (d, direction) ∧ 10 ^ 300 < d := by
  refine ⟨farAway, rfl, ?_⟩
  unfold farAway floatMax
  have h1 : (10 : ℝ) ^ 300 ≤ (2 ^ 10) ^ 100 := by
    rw [show (10 : ℝ) ^ 300 = (10 ^ 3) ^ 100 by rw [← pow_mul]]
    exact pow_le_pow_left₀ (by norm_num) (by norm_num) _
  rw [← pow_mul] at h1
  have h2 : (2 : ℝ) ^ (10 * 100) = 2 ^ 29 * 2 ^ 971 := by rw [← pow_add]
  rw [h2] at h1
  refine lt_of_le_of_lt h1 (mul_lt_mul_of_pos_right (by norm_num) (by positivity))

theorem cone_poly (a b2 L r : ℝ) (ha : (a - L) ^ 2 + b2 ≤ r ^ 2) (h : r < L) (hr : 0 ≤ r) : (a ^ 2 + b2) * (L ^ 2 - r ^ 2) ≤ a ^ 2 * L ^ 2 := by
  have hD : 0 < L ^ 2 - r ^ 2 := by nlinarith
  have h1 : b2 * (L ^ 2 - r ^ 2) ≤ (r ^ 2 - (a - L) ^ 2) * (L ^ 2 - r ^ 2) := mul_le_mul_of_nonneg_right (by linarith) hD.le
  have h2 : 0 ≤ (a * L - (L ^ 2 - r ^ 2)) ^ 2 := sq_nonneg _
  nlinarith

/-- **C107, sampled directions surround it.** Seen from outside a sphere, every direction sampled towards it is a unit vector in the cone around the direction that just contains the sphere, whose half angle has sine `r/distance`. -/
theorem C107_sphere_samples (ext : GeoExt) (rng : Rng) (c : Vec3 ℝ) (r : ℝ) (hr : 0 ≤ r) (point : Vec3 ℝ) (h : r < Norm (c - point)) :
    ∃ d u v rng', (Primitive.sphere c r).direction point = .ok (d, u) ∧ (Primitive.sphere c r).sampleDirection ext rng point = .ok (v, rng') ∧ Norm v = 1 ∧ Real.sqrt (1 - (r / Norm (c - point)) ^ 2) ≤ Dot v u := by
  have hpc : point ≠ c := by
    rintro rfl
    have : Norm (point - point) = 0 := by
      have e : Dot (point - point) (point - point) = 0 := by simp [Dot]
      rw [← Real.sqrt_sq (Norm_nonneg _), Norm_sq, e, Real.sqrt_zero]
    linarith
  obtain ⟨d, u, e1, hu1, hcp, -⟩ := C107_sphere c r hr point hpc
  set L := Norm (c - point) with hL
  have hLp : 0 < L := lt_of_le_of_lt hr h
  have huu := Dot_self_of_norm hu1
  set q := (sampleSphereSurface c r rng).1 with hq
  have hqn := C56_sphere_surface c r hr rng
  rw [← hq] at hqn
  have hqr : Dot (q - c) (q - c) ≤ r ^ 2 := by
    rw [← Norm_sq, hqn]
    nlinarith
  set w := q - point with hw
  set a := Dot w u with ha
  have hww : Dot (q - c) (q - c) = Dot w w - 2 * L * a + L ^ 2 := by
    have : q - c = w - u.scale L := by rw [← hcp, hw]; ext <;> simp
    rw [this, ha]
    have e : Dot (w - u.scale L) (w - u.scale L) = Dot w w - 2 * L * Dot w u + L ^ 2 * Dot u u := by
      simp only [Dot, Vec3.sub_x, Vec3.sub_y, Vec3.sub_z, Vec3.scale_x, Vec3.scale_y, Vec3.scale_z]; ring
    rw [e, huu, mul_one]
  have hcs : a ^ 2 ≤ Dot w w := by
    have h5 : Dot w u ^ 2 ≤ Dot w w * Dot u u := by
      unfold Dot
      nlinarith [sq_nonneg (w.x * u.y - w.y * u.x), sq_nonneg (w.x * u.z - w.z * u.x), sq_nonneg (w.y * u.z - w.z * u.y)]
    rw [huu, mul_one] at h5
    exact h5
  have hap : 0 < a := by
    by_contra hn
    have : a ≤ 0 := not_lt.1 hn
    nlinarith
  have hwp : 0 < Dot w w := by nlinarith
  have hN : 0 < Norm w := by
    rcases (Norm_nonneg w).eq_or_lt with h0 | h0
    · have := Norm_sq w
      rw [← h0] at this
      linarith
    · exact h0
  refine ⟨d, u, w.normalized, (sampleSphereSurface c r rng).2, e1, ?_, Norm_eq_one (normalized_dot_self hwp), ?_⟩
  · simp only [Primitive.sampleDirection, Primitive.sampleSurface, Res.bind_ok, ← hq, ← hw]
  · have e2 : Dot w.normalized u = a / Norm w := by
      rw [normalized_eq, ha]; simp only [Dot, Vec3.scale_x, Vec3.scale_y, Vec3.scale_z]; field_simp
    rw [e2]
    refine Real.sqrt_le_iff.2 ⟨by positivity, ?_⟩
    have key := cone_poly a (Dot w w - a ^ 2) L r (by nlinarith) h hr
    rw [div_pow, div_pow, Norm_sq w, one_sub_div (by positivity), div_le_div_iff₀ (by positivity) hwp]
    nlinarith

/-- **C107, cylinders.** The direction to a cylinder is not implemented: asking for it panics. -/
theorem C107_cylinder (a b : Vec3 ℝ) (r : ℝ) (point : Vec3 ℝ) : (Primitive.cylinder a b r).direction point = .panic := rfl

/-- C107: from 5 m away to a sphere of radius 2: 3 m, along the line to its centre. -/
example : (Primitive.sphere (⟨0, 3, 4⟩ : Vec3 ℝ) 2).direction 0 = .ok (3, ⟨0, 3 / 5, 4 / 5⟩) := by
  have h : Vec3.length ((⟨0, 3, 4⟩ : Vec3 ℝ) - 0) = 5 := by
    rw [length_norm, Norm]
    rw [show ((⟨0, 3, 4⟩ : Vec3 ℝ) - 0).x ^ 2 + ((⟨0, 3, 4⟩ : Vec3 ℝ) - 0).y ^ 2 + ((⟨0, 3, 4⟩ : Vec3 ℝ) - 0).z ^ 2 = 5 ^ 2 by simp; norm_num, Real.sqrt_sq (by norm_num)]
  simp only [Primitive.direction, sphereDirection, h]
  norm_num
  ext <;> simp <;> norm_num

example := C107_triangle ⟨⟨0, 0, 0⟩, ⟨1, 0, 0⟩, ⟨0, 1, 0⟩⟩ ⟨0, 0, 3⟩ (fun h => by
  have := congrArg Vec3.z h
  simp at this)

theorem above_centre : (0 : Vec3 ℝ) ≠ ⟨0, 3, 4⟩ := fun h => by
  have := congrArg Vec3.y h
  norm_num at this

example := C107_sphere ⟨0, 3, 4⟩ 2 (by norm_num) 0 above_centre

example := fun ext rng => C107_sphere_samples ext rng ⟨0, 3, 4⟩ 2 (by norm_num) 0 (by
  have : Norm ((⟨0, 3, 4⟩ : Vec3 ℝ) - 0) = 5 := by
    unfold Norm
    rw [show ((⟨0, 3, 4⟩ : Vec3 ℝ) - 0).x ^ 2 + ((⟨0, 3, 4⟩ : Vec3 ℝ) - 0).y ^ 2 + ((⟨0, 3, 4⟩ : Vec3 ℝ) - 0).z ^ 2 = 5 ^ 2 by norm_num]
    exact Real.sqrt_sq (by norm_num)
  rw [this]; norm_num)

end Rendering
