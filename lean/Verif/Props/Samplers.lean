import Verif.Model.Samplers
import Verif.Lemmas.VecReal
import Mathlib.Tactic

/-!
# C53–C56: where samples can be

The theorems hold for every sequence of random numbers; those marked `Rng.Valid` use that draws lie in `[0, 1)`.
-/

set_option linter.unusedSectionVars false
namespace Rendering

/-! ### Specification -/

/-- `p` is a convex combination of the vertices. -/
def InTriangle (p a b c : Vec3 ℝ) : Prop := ∃ wa wb wc : ℝ, 0 ≤ wa ∧ 0 ≤ wb ∧ 0 ≤ wc ∧ wa + wb + wc = 1 ∧ p = a.scale wa + b.scale wb + c.scale wc

/-- Three mutually perpendicular unit vectors. -/
structure Frame (e1 e2 n : Vec3 ℝ) : Prop where
  n1 : Norm e1 = 1
  n2 : Norm e2 = 1
  n3 : Norm n = 1
  d12 : Dot e1 e2 = 0
  d13 : Dot e1 n = 0
  d23 : Dot e2 n = 0

/-- What `get_perpendicular` does for a unit vector: a unit vector perpendicular to it. -/
def GeoExt.PerpSpec (ext : GeoExt) : Prop := ∀ n, Norm n = 1 → ∃ e, ext.perp n = some e ∧ Norm e = 1 ∧ Dot e n = 0

/-! ### C53 -/

theorem clampR_mem {x lo hi : ℝ} (h : lo ≤ hi) : lo ≤ clampR x lo hi ∧ clampR x lo hi ≤ hi := by
  unfold clampR
  exact ⟨le_max_left _ _, max_le h (min_le_left _ _)⟩

theorem clampR_of_mem {x lo hi : ℝ} (h1 : lo ≤ x) (h2 : x ≤ hi) : clampR x lo hi = x := by
  unfold clampR; rw [min_eq_right h2, max_eq_right h1]

/-- **C53.** Whatever the random numbers, the sample is in the triangle. -/
theorem C53_in_triangle (rng : Rng) (a b c : Vec3 ℝ) : InTriangle (uniformSampleTriangle rng a b c).1 a b c := by
  have h1 := clampR_mem (x := rng 0) (lo := 1 / 10 ^ 8) (hi := 1 - 1 / 10 ^ 8) (by norm_num)
  have h2 := clampR_mem (x := rng 1) (lo := 1 / 10 ^ 8) (hi := 1 - 1 / 10 ^ 8) (by norm_num)
  set r1 := clampR (rng 0) (1 / 10 ^ 8) (1 - 1 / 10 ^ 8) with e1
  set r2 := clampR (rng 1) (1 / 10 ^ 8) (1 - 1 / 10 ^ 8) with e2
  have h10 : 0 ≤ r1 := le_trans (by norm_num) h1.1
  have h20 : 0 ≤ r2 := le_trans (by norm_num) h2.1
  have h11 : r1 ≤ 1 := h1.2.trans (by norm_num)
  have h21 : r2 ≤ 1 := h2.2.trans (by norm_num)
  have hs0 := Real.sqrt_nonneg r1
  have hs1 : Real.sqrt r1 ≤ 1 := Real.sqrt_le_one.2 h11 
  refine ⟨Real.sqrt r1 * (1 - r2), 1 - Real.sqrt r1, r2 * Real.sqrt r1, mul_nonneg hs0 (by linarith), by linarith, by positivity, by ring, ?_⟩
  unfold uniformSampleTriangle Rng.gen2
  simp only [← e1, ← e2]
  ext <;> simp <;> ring

/-- **C53, strictly inside.** Because draws are kept away from 0 and 1, the sample is never on the boundary: all three weights are positive. -/
theorem C53_interior (rng : Rng) (a b c : Vec3 ℝ) :
    ∃ wa wb wc : ℝ, 0 < wa ∧ 0 < wb ∧ 0 < wc ∧ wa + wb + wc = 1 ∧ (uniformSampleTriangle rng a b c).1 = a.scale wa + b.scale wb + c.scale wc := by
  have h1 := clampR_mem (x := rng 0) (lo := 1 / 10 ^ 8) (hi := 1 - 1 / 10 ^ 8) (by norm_num)
  have h2 := clampR_mem (x := rng 1) (lo := 1 / 10 ^ 8) (hi := 1 - 1 / 10 ^ 8) (by norm_num)
  set r1 := clampR (rng 0) (1 / 10 ^ 8) (1 - 1 / 10 ^ 8) with e1
  set r2 := clampR (rng 1) (1 / 10 ^ 8) (1 - 1 / 10 ^ 8) with e2
  have h10 : 0 < r1 := lt_of_lt_of_le (by norm_num) h1.1
  have h20 : 0 < r2 := lt_of_lt_of_le (by norm_num) h2.1
  have h11 : r1 < 1 := lt_of_le_of_lt h1.2 (by norm_num)
  have h21 : r2 < 1 := lt_of_le_of_lt h2.2 (by norm_num)
  have hs0 := Real.sqrt_pos.2 h10
  have hs1 : Real.sqrt r1 < 1 := by rw [Real.sqrt_lt' one_pos]; linarith
  refine ⟨Real.sqrt r1 * (1 - r2), 1 - Real.sqrt r1, r2 * Real.sqrt r1, mul_pos hs0 (by linarith), by linarith, by positivity, by ring, ?_⟩
  unfold uniformSampleTriangle Rng.gen2
  simp only [← e1, ← e2]
  ext <;> simp <;> ring

/-- **C53, for primitives.** The direction chosen towards a triangular light leads to a point of that triangle. -/
theorem C53_direction (ext : GeoExt) (t : Tri ℝ) (rng : Rng) (point : Vec3 ℝ) :
    ∃ q rng', InTriangle q t.a t.b t.c ∧ (Primitive.triangle t).sampleDirection ext rng point = .ok ((q - point).normalized, rng') :=
  ⟨(uniformSampleTriangle rng t.a t.b t.c).1, (uniformSampleTriangle rng t.a t.b t.c).2, C53_in_triangle rng t.a t.b t.c, rfl⟩

/-- The draws `(1/4, 1/2)` give the point with weights `1/4, 1/2, 1/4`. -/
example : (uniformSampleTriangle (fun n => if n = 0 then 1 / 4 else 1 / 2) ⟨0, 0, 0⟩ ⟨1, 0, 0⟩ ⟨0, 1, 0⟩).1 = ⟨1 / 2, 1 / 4, 0⟩ := by
  have h1 : clampR (1 / 4) (1 / 10 ^ 8) (1 - 1 / 10 ^ 8) = 1 / 4 := clampR_of_mem (by norm_num) (by norm_num)
  have h2 : clampR (1 / 2) (1 / 10 ^ 8) (1 - 1 / 10 ^ 8) = 1 / 2 := clampR_of_mem (by norm_num) (by norm_num)
  have h3 : Real.sqrt (1 / 4) = 1 / 2 := by rw [show (1 / 4 : ℝ) = (1 / 2) ^ 2 by norm_num]; exact Real.sqrt_sq (by norm_num)
  unfold uniformSampleTriangle Rng.gen2
  simp only [if_true, one_ne_zero, if_false, h1, h2, h3]
  ext <;> norm_num

/-! ### C54 -/

theorem Dot_comm (a b : Vec3 ℝ) : Dot a b = Dot b a := by simp only [Dot]; ring

theorem localToWorld_dot (e1 e2 n c w : Vec3 ℝ) (x y z : ℝ) :
    Dot (localToWorld e1 e2 n c x y z - c) w = x * Dot e1 w + y * Dot e2 w + z * Dot n w := by
  simp only [localToWorld, Dot, Vec3.sub_x, Vec3.sub_y, Vec3.sub_z]; ring

/-- **C54.** In an orthonormal frame, `local_to_world` gives the point whose offset from the centre has the given coordinates, hence the given length; in particular
(centre at the origin) it maps vectors to vectors of the same length, and preserves dot products. -/
theorem C54_isometry (e1 e2 n c : Vec3 ℝ) (hf : Frame e1 e2 n) (x y z x' y' z' : ℝ) :
    Dot (localToWorld e1 e2 n c x y z - c) e1 = x ∧ Dot (localToWorld e1 e2 n c x y z - c) e2 = y ∧ Dot (localToWorld e1 e2 n c x y z - c) n = z ∧
    Norm (localToWorld e1 e2 n c x y z - c) = Real.sqrt (x ^ 2 + y ^ 2 + z ^ 2) ∧
    Dot (localToWorld e1 e2 n c x y z - c) (localToWorld e1 e2 n c x' y' z' - c) = x * x' + y * y' + z * z' := by
  have h1 := Dot_self_of_norm hf.n1
  have h2 := Dot_self_of_norm hf.n2
  have h3 := Dot_self_of_norm hf.n3
  have hx : Dot (localToWorld e1 e2 n c x y z - c) e1 = x := by
    rw [localToWorld_dot, h1, Dot_comm e2 e1, hf.d12, Dot_comm n e1, hf.d13]; ring
  have hy : Dot (localToWorld e1 e2 n c x y z - c) e2 = y := by
    rw [localToWorld_dot, h2, hf.d12, Dot_comm n e2, hf.d23]; ring
  have hz : Dot (localToWorld e1 e2 n c x y z - c) n = z := by
    rw [localToWorld_dot, h3, hf.d13, hf.d23]; ring
  have hd : ∀ x' y' z', Dot (localToWorld e1 e2 n c x y z - c) (localToWorld e1 e2 n c x' y' z' - c) = x * x' + y * y' + z * z' := by
    intro x' y' z'
    rw [Dot_comm, localToWorld_dot, Dot_comm e1, Dot_comm e2, Dot_comm n, hx, hy, hz]; ring
  refine ⟨hx, hy, hz, ?_, hd x' y' z'⟩
  have := hd x y z
  rw [← Real.sqrt_sq (Norm_nonneg _), Norm_sq, this]
  congr 1; ring

/-- A frame that is not the coordinate axes. -/
example : Frame (⟨3 / 5, 4 / 5, 0⟩ : Vec3 ℝ) ⟨-4 / 5, 3 / 5, 0⟩ ⟨0, 0, 1⟩ := by
  constructor <;> first | (apply Norm_eq_one; norm_num [Dot]) | norm_num [Dot]

/-! ### C55 -/

theorem sub_zero' (v : Vec3 ℝ) : v - 0 = v := by ext <;> simp

theorem world_unit {e1 e2 n : Vec3 ℝ} (hf : Frame e1 e2 n) {x y z : ℝ} (h : x ^ 2 + y ^ 2 + z ^ 2 = 1) :
    Norm (localToWorld e1 e2 n 0 x y z) = 1 ∧ Dot (localToWorld e1 e2 n 0 x y z) n = z := by
  have := C54_isometry e1 e2 n 0 hf x y z x y z
  rw [sub_zero'] at this
  exact ⟨by rw [this.2.2.2.1, h, Real.sqrt_one], this.2.2.1⟩

/-- **C55, cosine weighted.** The sample is a unit vector strictly above the horizon; its height squared is one minus the first draw. -/
theorem C55_cosine_hemisphere (rng : Rng) (h : rng.Valid) :
    Norm (sampleCosineHemisphere rng).1 = 1 ∧ 0 < (sampleCosineHemisphere rng).1.z ∧ (sampleCosineHemisphere rng).1.z ^ 2 = 1 - rng 0 := by
  obtain ⟨h0, h1⟩ := h 0
  have hs := Real.sq_sqrt h0
  set θ := 2 * Real.pi * rng 1 with hθ
  have htrig := Real.sin_sq_add_cos_sq θ
  have hxy : (1 * Real.sqrt (rng 0) * Real.sin θ) * (1 * Real.sqrt (rng 0) * Real.sin θ) + (1 * Real.sqrt (rng 0) * Real.cos θ) * (1 * Real.sqrt (rng 0) * Real.cos θ) = rng 0 := by
    calc _ = Real.sqrt (rng 0) ^ 2 * (Real.sin θ ^ 2 + Real.cos θ ^ 2) := by ring
      _ = rng 0 := by rw [htrig, hs, mul_one]
  have hz : (sampleCosineHemisphere rng).1 = ⟨1 * Real.sqrt (rng 0) * Real.sin θ, 1 * Real.sqrt (rng 0) * Real.cos θ, Real.sqrt (1 - rng 0)⟩ := by
    unfold sampleCosineHemisphere uniformSampleHorizontalDisc Rng.gen2
    simp only [← hθ]
    rw [hxy, clampR_of_mem h0 h1.le]
  rw [hz]
  have hsz := Real.sq_sqrt (show (0 : ℝ) ≤ 1 - rng 0 by linarith)
  refine ⟨Norm_eq_one ?_, Real.sqrt_pos.2 (by linarith), hsz⟩
  simp only [Dot]
  nlinarith

/-- **C55, uniform hemisphere.** In any orthonormal frame the sample is a unit vector on the normal's side; its height over the surface is the first draw. -/
theorem C55_uniform_hemisphere (rng : Rng) (h : rng.Valid) (e1 e2 n : Vec3 ℝ) (hf : Frame e1 e2 n) :
    Norm (uniformSampleHemisphere rng e1 e2 n).1 = 1 ∧ Dot (uniformSampleHemisphere rng e1 e2 n).1 n = rng 0 ∧ 0 ≤ Dot (uniformSampleHemisphere rng e1 e2 n).1 n := by
  obtain ⟨h0, h1⟩ := h 0
  have hs := Real.sq_sqrt (show (0 : ℝ) ≤ 1 - rng 0 * rng 0 by nlinarith)
  have htrig := Real.sin_sq_add_cos_sq (2 * Real.pi * rng 1)
  obtain ⟨g1, g2⟩ := world_unit hf (x := Real.cos (2 * Real.pi * rng 1) * Real.sqrt (1 - rng 0 * rng 0)) (y := Real.sin (2 * Real.pi * rng 1) * Real.sqrt (1 - rng 0 * rng 0)) (z := rng 0) (by
    calc _ = Real.sqrt (1 - rng 0 * rng 0) ^ 2 * (Real.sin (2 * Real.pi * rng 1) ^ 2 + Real.cos (2 * Real.pi * rng 1) ^ 2) + rng 0 ^ 2 := by ring
      _ = 1 := by rw [htrig, hs]; ring)
  exact ⟨g1, g2, by rw [show Dot (uniformSampleHemisphere rng e1 e2 n).1 n = rng 0 from g2]; exact h0⟩

/-- **C55, sphere.** Whatever the draws, the sample is on the unit sphere. -/
theorem C55_uniform_sphere (rng : Rng) : Norm (uniformSampleSphere rng).1 = 1 := by
  have h1 := clampR_mem (x := rng 0) (lo := 1 / 10 ^ 7) (hi := 1 - 1 / 10 ^ 7) (by norm_num)
  set r1 := clampR (rng 0) (1 / 10 ^ 7) (1 - 1 / 10 ^ 7) with e1
  have hs := Real.sq_sqrt (show (0 : ℝ) ≤ 1 - (1 - 2 * r1) * (1 - 2 * r1) by nlinarith [h1.1, h1.2])
  apply Norm_eq_one
  unfold uniformSampleSphere Rng.gen2
  simp only [← e1, Dot]
  have htrig := Real.sin_sq_add_cos_sq (2 * Real.pi * clampR (rng 1) (1 / 10 ^ 7) (1 - 1 / 10 ^ 7))
  set θ := 2 * Real.pi * clampR (rng 1) (1 / 10 ^ 7) (1 - 1 / 10 ^ 7)
  calc _ = Real.sqrt (1 - (1 - 2 * r1) * (1 - 2 * r1)) ^ 2 * (Real.sin θ ^ 2 + Real.cos θ ^ 2) + (1 - 2 * r1) * (1 - 2 * r1) := by ring
    _ = 1 := by rw [htrig, hs]; ring

/-- There are valid sequences of draws, e.g. a constant one. -/
example : Rng.Valid (fun _ => 1 / 2) := fun _ => by norm_num

/-! ### C56 -/

theorem frame_of_perp {e n : Vec3 ℝ} (hn : Norm n = 1) (he : Norm e = 1) (hd : Dot e n = 0) : Frame (e.cross n) e n := by
  have h1 := Dot_self_of_norm he
  have h2 := Dot_self_of_norm hn
  refine ⟨Norm_eq_one ?_, he, hn, ?_, ?_, hd⟩
  · have : Dot (e.cross n) (e.cross n) = Dot e e * Dot n n - Dot e n ^ 2 := by simp only [Dot, Vec3.cross]; ring
    rw [this, h1, h2, hd]; norm_num
  · simp only [Dot, Vec3.cross]; ring
  · simp only [Dot, Vec3.cross]; ring

/-- **C56, discs.** The sample lies in the plane of the disc, at a distance from the centre at most the radius (less than it, if positive); the squared distance is the first draw times the squared radius. -/
theorem C56_disc (ext : GeoExt) (hext : ext.PerpSpec) (rng : Rng) (h : rng.Valid) (radius : ℝ) (hr : 0 ≤ radius) (centre normal : Vec3 ℝ) (hn : Norm normal = 1) :
    ∃ p rng', uniformSampleDisc ext rng radius centre normal = .ok (p, rng') ∧ Dot (p - centre) normal = 0 ∧ Norm (p - centre) ≤ radius ∧
      Norm (p - centre) ^ 2 = rng 0 * radius ^ 2 := by
  obtain ⟨e, he, he1, hd⟩ := hext normal hn
  obtain ⟨h0, h1⟩ := h 0
  have hf := frame_of_perp hn he1 hd
  have hs := Real.sq_sqrt h0
  have htrig := Real.sin_sq_add_cos_sq (2 * Real.pi * rng 1)
  set x := radius * Real.sqrt (rng 0) * Real.sin (2 * Real.pi * rng 1) with hx
  set y := radius * Real.sqrt (rng 0) * Real.cos (2 * Real.pi * rng 1) with hy
  obtain ⟨-, -, g3, g4, -⟩ := C54_isometry (e.cross normal) e normal centre hf x y 0 0 0 0
  have hxy : x ^ 2 + y ^ 2 + 0 ^ 2 = rng 0 * radius ^ 2 := by
    calc _ = radius ^ 2 * Real.sqrt (rng 0) ^ 2 * (Real.sin (2 * Real.pi * rng 1) ^ 2 + Real.cos (2 * Real.pi * rng 1) ^ 2) := by rw [hx, hy]; ring
      _ = rng 0 * radius ^ 2 := by rw [htrig, hs]; ring
  have hsq : Norm (localToWorld (e.cross normal) e normal centre x y 0 - centre) ^ 2 = rng 0 * radius ^ 2 := by
    rw [g4, hxy, Real.sq_sqrt (by positivity)]
  refine ⟨localToWorld (e.cross normal) e normal centre x y 0, (uniformSampleHorizontalDisc rng radius).2, ?_, g3, ?_, hsq⟩
  · unfold uniformSampleDisc
    simp only [he, Res.ofOption_some, Res.bind_ok]
    rfl
  · have hnn := Norm_nonneg (localToWorld (e.cross normal) e normal centre x y 0 - centre)
    apply le_of_sq_le_sq _ hr
    rw [hsq]
    nlinarith [sq_nonneg radius]

/-- **C56, spheres.** The sample is at distance `radius * (1 - 1e-5)` from the centre: just inside the sphere. -/
theorem C56_sphere_surface (centre : Vec3 ℝ) (radius : ℝ) (hr : 0 ≤ radius) (rng : Rng) :
    Norm ((sampleSphereSurface centre radius rng).1 - centre) = radius * (1 - 1 / 10 ^ 5) := by
  have h := Dot_self_of_norm (C55_uniform_sphere rng)
  set p := (uniformSampleSphere rng).1 with hp
  have e : (sampleSphereSurface centre radius rng).1 - centre = p.scale (radius * (1 - 1 / 10 ^ 5)) := by
    unfold sampleSphereSurface
    simp only [← hp]
    ext <;> simp
  have hd : Dot (p.scale (radius * (1 - 1 / 10 ^ 5))) (p.scale (radius * (1 - 1 / 10 ^ 5))) = (radius * (1 - 1 / 10 ^ 5)) ^ 2 * Dot p p := by
    simp only [Dot, Vec3.scale_x, Vec3.scale_y, Vec3.scale_z]; ring
  rw [e, ← Real.sqrt_sq (Norm_nonneg _), Norm_sq, hd, h, mul_one, Real.sqrt_sq (mul_nonneg hr (by norm_num))]

/-- **C56, distant sources.** For a source of angle in `[0, π)`, every sampled direction is a unit vector within half the angle of the source's direction: its cosine with it is at least the cosine of half the angle. -/
theorem C56_source_direction (ext : GeoExt) (hext : ext.PerpSpec) (rng : Rng) (h : rng.Valid) (direction point : Vec3 ℝ) (angle : ℝ) (hd : 0 < Dot direction direction)
    (ha : 0 ≤ angle) (hpi : angle < Real.pi) :
    ∃ v rng', (Primitive.source direction angle).sampleDirection ext rng point = .ok (v, rng') ∧ Norm v = 1 ∧ Real.cos (angle / 2) ≤ Dot v direction.normalized := by
  have hnn : Norm direction.normalized = 1 := Norm_eq_one (normalized_dot_self hd)
  have hnd := normalized_dot_self hd
  have hcos : 0 < Real.cos (angle / 2) := Real.cos_pos_of_mem_Ioo ⟨by linarith [Real.pi_pos], by linarith⟩
  have htan : 0 ≤ Real.tan (angle / 2) := Real.tan_nonneg_of_nonneg_of_le_pi_div_two (by linarith) (by linarith)
  obtain ⟨p, rng', hp, g1, g2, g3⟩ := C56_disc ext hext rng h (Real.tan (angle / 2)) htan (point + direction.normalized) direction.normalized hnn
  set n := direction.normalized with hndef
  set o := p - (point + n) with ho
  have hpo : p - point = o + n := by rw [ho]; ext <;> simp <;> ring
  have hdd : Dot (p - point) (p - point) = Norm o ^ 2 + 1 := by
    rw [hpo, Norm_sq]
    have : Dot (o + n) (o + n) = Dot o o + 2 * Dot o n + Dot n n := by simp only [Dot, Vec3.add_x, Vec3.add_y, Vec3.add_z]; ring
    rw [this, g1, hnd]; ring
  have hpos : 0 < Dot (p - point) (p - point) := by rw [hdd]; positivity
  refine ⟨(p - point).normalized, rng', ?_, Norm_eq_one (normalized_dot_self hpos), ?_⟩
  · unfold Primitive.sampleDirection Primitive.sampleSurface
    simp only [← hndef]
    rw [hp]; rfl
  · rw [normalized_eq]
    have e : Dot ((p - point).scale (1 / Norm (p - point))) n = 1 / Norm (p - point) := by
      have : Dot ((p - point).scale (1 / Norm (p - point))) n = 1 / Norm (p - point) * Dot (p - point) n := by
        simp only [Dot, Vec3.scale_x, Vec3.scale_y, Vec3.scale_z]; ring
      rw [this, hpo]
      have : Dot (o + n) n = Dot o n + Dot n n := by simp only [Dot, Vec3.add_x, Vec3.add_y, Vec3.add_z]; ring
      rw [this, g1, hnd]; ring
    rw [e, le_div_iff₀ (Norm_pos hpos)]
    have hle : Norm (p - point) ≤ 1 / Real.cos (angle / 2) := by
      apply le_of_sq_le_sq _ (by positivity)
      rw [Norm_sq, hdd]
      have ht : Norm o ^ 2 ≤ Real.tan (angle / 2) ^ 2 := by
        have := Norm_nonneg o
        exact pow_le_pow_left₀ this g2 2
      have : Real.tan (angle / 2) ^ 2 + 1 = (1 / Real.cos (angle / 2)) ^ 2 := by
        rw [Real.tan_eq_sin_div_cos]
        field_simp
        exact Real.sin_sq_add_cos_sq _
      linarith
    calc _ ≤ Real.cos (angle / 2) * (1 / Real.cos (angle / 2)) := by gcongr
      _ = 1 := by field_simp

/-- A `get_perpendicular` as assumed exists. -/
theorem perpSpec_exists : ∃ ext : GeoExt, ext.PerpSpec := by
  have key : ∀ n : Vec3 ℝ, Norm n = 1 → ∃ e : Vec3 ℝ, Norm e = 1 ∧ Dot e n = 0 := by
    intro n hn
    have h := Dot_self_of_norm hn
    by_cases hz : n.x ^ 2 + n.y ^ 2 = 0
    · have hx : n.x = 0 := by nlinarith [sq_nonneg n.x, sq_nonneg n.y]
      exact ⟨⟨1, 0, 0⟩, Norm_eq_one (by norm_num [Dot]), by simp [Dot, hx]⟩
    · have hpos : 0 < Dot (⟨n.y, -n.x, 0⟩ : Vec3 ℝ) ⟨n.y, -n.x, 0⟩ := by
        have : Dot (⟨n.y, -n.x, 0⟩ : Vec3 ℝ) ⟨n.y, -n.x, 0⟩ = n.x ^ 2 + n.y ^ 2 := by simp only [Dot]; ring
        rw [this]; exact lt_of_le_of_ne (by positivity) (Ne.symm hz)
      refine ⟨(⟨n.y, -n.x, 0⟩ : Vec3 ℝ).normalized, Norm_eq_one (normalized_dot_self hpos), ?_⟩
      rw [normalized_eq]
      simp only [Dot, Vec3.scale_x, Vec3.scale_y, Vec3.scale_z]; ring
  classical
  refine ⟨⟨fun n => if h : Norm n = 1 then some (Classical.choose (key n h)) else none, fun _ _ => none⟩, ?_⟩
  intro n hn
  exact ⟨_, dif_pos hn, Classical.choose_spec (key n hn)⟩

/-! ### Concrete cases of the theorems above -/

/-- C54: a turned frame. -/
example := C54_isometry ⟨3 / 5, 4 / 5, 0⟩ ⟨-4 / 5, 3 / 5, 0⟩ ⟨0, 0, 1⟩ ⟨1, 2, 3⟩ (by constructor <;> first | (apply Norm_eq_one; norm_num [Dot]) | norm_num [Dot]) 1 2 3 4 5 6

/-- C55: draws of 1/2. -/
example := C55_cosine_hemisphere (fun _ => 1 / 2) fun _ => by norm_num

example := C55_uniform_hemisphere (fun _ => 1 / 2) (fun _ => by norm_num) ⟨3 / 5, 4 / 5, 0⟩ ⟨-4 / 5, 3 / 5, 0⟩ ⟨0, 0, 1⟩ (by constructor <;> first | (apply Norm_eq_one; norm_num [Dot]) | norm_num [Dot])

/-- C56: a disc of radius 2 about (1, 2, 3), a sphere, and a sun of half a degree. -/
example : ∃ ext p rng', uniformSampleDisc ext (fun _ => 1 / 2) 2 ⟨1, 2, 3⟩ ⟨0, 3 / 5, 4 / 5⟩ = .ok (p, rng') ∧ Norm (p - ⟨1, 2, 3⟩) ≤ 2 := by
  obtain ⟨ext, hext⟩ := perpSpec_exists
  obtain ⟨p, rng', h, _, h2, _⟩ := C56_disc ext hext (fun _ => 1 / 2) (fun _ => by norm_num) 2 (by norm_num) ⟨1, 2, 3⟩ ⟨0, 3 / 5, 4 / 5⟩ (Norm_eq_one (by norm_num [Dot]))
  exact ⟨ext, p, rng', h, h2⟩

example := C56_sphere_surface ⟨1, 2, 3⟩ 2 (by norm_num)

example : ∃ ext v rng', (Primitive.source ⟨0, 1, 2⟩ (93 / 10000)).sampleDirection ext (fun _ => 1 / 2) ⟨0, 0, 0⟩ = .ok (v, rng') ∧ Norm v = 1 := by
  obtain ⟨ext, hext⟩ := perpSpec_exists
  obtain ⟨v, rng', h, h1, _⟩ := C56_source_direction ext hext (fun _ => 1 / 2) (fun _ => by norm_num) ⟨0, 1, 2⟩ ⟨0, 0, 0⟩ (93 / 10000) (by norm_num [Dot]) (by norm_num) (by linarith [Real.two_le_pi])
  exact ⟨ext, v, rng', h, h1⟩

end Rendering
